import Verif.Model.Access

/-!
# C66, C67: roles and permissions

`Allows`, `Identified` and `Grants` say when a rule grants its role, `May` when a user has a permission on a
node. None of them mentions the loops of the code.
-/

namespace Opcua.Access

open Opcua.AddressSpace (Id)

/-! ## C67: roles -/

/-- A list of names that excludes, or includes, what it holds. -/
def Allows (exclude : Bool) (uris : List String) (uri : String) : Prop := exclude = true ∧ uri ∉ uris ∨ exclude = false ∧ uri ∈ uris

/-- The criterion matches the user. -/
inductive Identified : Identity → Criterion → Prop
  | anonymous (t : String) : Identified .anonymous ⟨5, t⟩
  | knownName (n t : String) : Identified (.userName n) ⟨6, t⟩
  | knownCert (th t : String) : Identified (.x509 th) ⟨6, t⟩
  | knownToken (t : String) : Identified .issued ⟨6, t⟩
  | name (n : String) : Identified (.userName n) ⟨1, n⟩
  | cert (th : String) : Identified (.x509 th) ⟨2, th⟩

/-- The rule allows the application and the endpoint. -/
def Applies (r : Rule) (app endpoint : String) : Prop :=
  Allows r.appsExclude r.apps app ∧ Allows r.endpointsExclude r.endpoints endpoint

/-- The rule grants its role to the user. -/
def Grants (r : Rule) (user : Identity) (app endpoint : String) : Prop :=
  Applies r app endpoint ∧ ∃ c ∈ r.identities, Identified user c

/-- The user is granted the role. -/
def Granted (rules : List Rule) (user : Identity) (app endpoint : String) (role : Id) : Prop :=
  ∃ roles, getRoles rules user app endpoint = some roles ∧ role ∈ roles

theorem listOk_iff (e : Bool) (us : List String) (u : String) : listOk e us u = true ↔ Allows e us u := by
  unfold listOk Allows
  cases h : us.find? (fun x => x == u) with
  | none =>
    rw [List.find?_eq_none] at h
    have : u ∉ us := fun hu => h u hu (by simp)
    cases e <;> simp [this]
  | some x =>
    have h1 := List.mem_of_find?_eq_some h
    have h2 := List.find?_some (p := fun x : String => x == u) h
    have : x = u := by simpa using h2
    subst this
    cases e <;> simp [h1]

theorem identityMatches_iff {user : Identity} (hu : user ≠ .other) (c : Criterion) :
    ∃ b, identityMatches user c = some b ∧ (b = true ↔ Identified user c) := by
  obtain ⟨k, t⟩ := c
  cases user with
  | other => exact absurd rfl hu
  | anonymous =>
    refine ⟨_, rfl, ?_⟩
    simp only [decide_eq_true_eq]
    constructor
    · rintro rfl; exact .anonymous t
    · rintro ⟨⟩; rfl
  | issued =>
    refine ⟨_, rfl, ?_⟩
    simp only [decide_eq_true_eq]
    constructor
    · rintro rfl; exact .knownToken t
    · rintro ⟨⟩; rfl
  | userName n =>
    refine ⟨_, rfl, ?_⟩
    simp only [Bool.or_eq_true, Bool.and_eq_true, decide_eq_true_eq]
    constructor
    · rintro (rfl | ⟨rfl, rfl⟩)
      · exact .knownName n t
      · exact .name _
    · intro h
      cases h with
      | knownName => exact .inl rfl
      | name => exact .inr ⟨rfl, rfl⟩
  | x509 n =>
    refine ⟨_, rfl, ?_⟩
    simp only [Bool.or_eq_true, Bool.and_eq_true, decide_eq_true_eq]
    constructor
    · rintro (rfl | ⟨rfl, rfl⟩)
      · exact .knownCert n t
      · exact .cert _
    · intro h
      cases h with
      | knownCert => exact .inl rfl
      | cert => exact .inr ⟨rfl, rfl⟩

theorem identitiesLoop_spec {user : Identity} (hu : user ≠ .other) (role : Id) : ∀ (cs : List Criterion) (roles : List Id),
    ∃ out, identitiesLoop user role cs roles = some out ∧
      ∀ r, r ∈ out ↔ r ∈ roles ∨ (r = role ∧ ∃ c ∈ cs, Identified user c) := by
  intro cs
  induction cs with
  | nil => intro roles; exact ⟨roles, rfl, by simp⟩
  | cons c cs ih =>
    intro roles
    obtain ⟨b, hb, hiff⟩ := identityMatches_iff hu c
    unfold identitiesLoop
    rw [hb]
    cases b with
    | true =>
      obtain ⟨out, h1, h2⟩ := ih (roles ++ [role])
      refine ⟨out, h1, fun r => ?_⟩
      have := hiff.1 rfl
      rw [h2]
      simp only [List.mem_append, List.mem_cons, List.not_mem_nil, or_false, exists_eq_or_imp]
      constructor
      · rintro ((h | h) | ⟨h, h'⟩)
        · exact .inl h
        · exact .inr ⟨h, .inl this⟩
        · exact .inr ⟨h, .inr h'⟩
      · rintro (h | ⟨h, h'⟩)
        · exact .inl (.inl h)
        · exact .inl (.inr h)
    | false =>
      obtain ⟨out, h1, h2⟩ := ih roles
      refine ⟨out, h1, fun r => ?_⟩
      have : ¬ Identified user c := fun h => by cases hiff.2 h
      rw [h2]
      simp [this]

/-- The role is granted by a rule before which, and at which, every rule applies. -/
def GrantedAt (rules : List Rule) (user : Identity) (app endpoint : String) (role : Id) : Prop :=
  ∃ pre r post, rules = pre ++ r :: post ∧ (∀ q ∈ pre, Applies q app endpoint) ∧ r.role = role ∧ Grants r user app endpoint

theorem rulesLoop_spec {user : Identity} (hu : user ≠ .other) (app ep : String) : ∀ (rules : List Rule) (roles : List Id),
    ∃ out, rulesLoop user app ep rules roles = some out ∧
      ∀ role, role ∈ out ↔ role ∈ roles ∨ GrantedAt rules user app ep role := by
  intro rules
  induction rules with
  | nil =>
    intro roles
    refine ⟨roles, rfl, fun role => ⟨.inl, ?_⟩⟩
    rintro (h | ⟨pre, r, post, h, _⟩)
    · exact h
    · simp at h
  | cons r rules ih =>
    intro roles
    unfold rulesLoop
    have stop : ¬ Applies r app ep → ∀ role, role ∈ roles ↔ role ∈ roles ∨ GrantedAt (r :: rules) user app ep role := by
      intro hna role
      refine ⟨.inl, ?_⟩
      rintro (h | ⟨pre, q, post, h, hpre, _, hg⟩)
      · exact h
      · cases pre with
        | nil => simp only [List.nil_append, List.cons.injEq] at h; rw [← h.1] at hg; exact absurd hg.1 hna
        | cons p pre => simp only [List.cons_append, List.cons.injEq] at h; exact absurd (h.1 ▸ hpre p (by simp)) hna
    cases h1 : listOk r.appsExclude r.apps app with
    | false =>
      refine ⟨roles, by simp, stop fun h => ?_⟩
      rw [(listOk_iff _ _ _).2 h.1] at h1
      cases h1
    | true =>
      cases h2 : listOk r.endpointsExclude r.endpoints ep with
      | false =>
        refine ⟨roles, by simp, stop fun h => ?_⟩
        rw [(listOk_iff _ _ _).2 h.2] at h2
        cases h2
      | true =>
        have happ : Applies r app ep := ⟨(listOk_iff _ _ _).1 h1, (listOk_iff _ _ _).1 h2⟩
        obtain ⟨mid, h3, h4⟩ := identitiesLoop_spec hu r.role r.identities roles
        obtain ⟨out, h5, h6⟩ := ih mid
        refine ⟨out, by simp [h3, h5], fun role => ?_⟩
        rw [h6, h4]
        constructor
        · rintro ((h | ⟨h, h'⟩) | ⟨pre, q, post, h, hpre, hr, hg⟩)
          · exact .inl h
          · exact .inr ⟨[], r, rules, rfl, by simp, h.symm, happ, h'⟩
          · refine .inr ⟨r :: pre, q, post, by simp [h], ?_, hr, hg⟩
            intro p hp
            rcases List.mem_cons.1 hp with rfl | hp
            · exact happ
            · exact hpre p hp
        · rintro (h | ⟨pre, q, post, h, hpre, hr, hg⟩)
          · exact .inl (.inl h)
          · cases pre with
            | nil =>
              simp only [List.nil_append, List.cons.injEq] at h
              obtain ⟨rfl, rfl⟩ := h
              exact .inl (.inr ⟨hr.symm, hg.2⟩)
            | cons p pre =>
              simp only [List.cons_append, List.cons.injEq] at h
              exact .inr ⟨pre, q, post, h.2, fun p' hp' => hpre p' (by simp [hp']), hr, hg⟩

theorem getRoles_spec {user : Identity} (hu : user ≠ .other) (rules : List Rule) (app ep : String) (role : Id) :
    Granted rules user app ep role ↔ GrantedAt rules user app ep role := by
  obtain ⟨out, h1, h2⟩ := rulesLoop_spec hu app ep rules []
  have h3 := h2 role
  simp only [List.not_mem_nil, false_or] at h3
  rw [← h3]
  unfold Granted getRoles
  rw [h1]
  cases out with
  | nil => simp
  | cons x xs => simp

/-- **C67 (partial).** If every rule allows the application and the endpoint, a user is granted a role exactly
when one of the rules for the role has a criterion that matches the user. Missing: rules that do not apply
(`C67_break_fails`), and the connection of the user (`C67_connection_fails`). -/
theorem C67_exact_partial (rules : List Rule) (user : Identity) (hu : user ≠ .other) (app ep : String)
    (ha : ∀ r ∈ rules, Applies r app ep) (role : Id) :
    Granted rules user app ep role ↔ ∃ r ∈ rules, r.role = role ∧ Grants r user app ep := by
  rw [getRoles_spec hu]
  constructor
  · rintro ⟨pre, r, post, rfl, _, hr, hg⟩
    exact ⟨r, by simp, hr, hg⟩
  · rintro ⟨r, hr, h1, h2⟩
    obtain ⟨pre, post, rfl⟩ := List.append_of_mem hr
    exact ⟨pre, r, post, rfl, fun q hq => ha q (by simp [hq]), h1, h2⟩

/-- **C67 (soundness).** For every user and every list of rules, a granted role is granted by a rule. -/
theorem C67_sound (rules : List Rule) (user : Identity) (app ep : String) (role : Id) (h : Granted rules user app ep role) :
    ∃ r ∈ rules, r.role = role ∧ Grants r user app ep := by
  by_cases hu : user = .other
  · subst hu
    obtain ⟨roles, h1, h2⟩ := h
    exfalso
    have key : ∀ (cs : List Criterion) (role : Id) (acc out : List Id),
        identitiesLoop .other role cs acc = some out → out = acc := by
      intro cs role acc out h
      cases cs with
      | nil => cases h; rfl
      | cons c cs => simp [identitiesLoop, identityMatches] at h
    have key2 : ∀ (rules : List Rule) (acc out : List Id), rulesLoop .other app ep rules acc = some out → out = acc := by
      intro rules
      induction rules with
      | nil => intro acc out h; cases h; rfl
      | cons r rules ih =>
        intro acc out h
        unfold rulesLoop at h
        split at h
        · cases h; rfl
        · split at h
          · cases h; rfl
          · cases hi : identitiesLoop .other r.role r.identities acc with
            | none => rw [hi] at h; cases h
            | some mid =>
              rw [hi] at h
              have e := key _ _ _ _ hi
              subst e
              exact ih _ _ h
    unfold getRoles at h1
    cases hl : rulesLoop .other app ep rules [] with
    | none => rw [hl] at h1; cases h1
    | some out =>
      rw [hl] at h1
      have e := key2 _ _ _ hl
      subst e
      simp at h1
  · obtain ⟨pre, r, post, rfl, _, hr, hg⟩ := (getRoles_spec hu ..).1 h
    exact ⟨r, by simp, hr, hg⟩

/-- **C67 (order, partial).** If every rule allows the application and the endpoint, the order of the rules, and
their number of occurrences, do not matter. Missing: `C67_order_fails`. -/
theorem C67_order_partial (rules rules' : List Rule) (user : Identity) (hu : user ≠ .other) (app ep : String)
    (ha : ∀ r ∈ rules, Applies r app ep) (hp : ∀ r, r ∈ rules ↔ r ∈ rules') (role : Id) :
    Granted rules user app ep role ↔ Granted rules' user app ep role := by
  rw [C67_exact_partial rules user hu app ep ha, C67_exact_partial rules' user hu app ep (fun r hr => ha r ((hp r).2 hr))]
  simp [hp]

/-- **C67 (denial).** A user to whom no rule grants any role is denied: there is no answer without roles. -/
theorem C67_denied (rules : List Rule) (user : Identity) (app ep : String)
    (h : ∀ r ∈ rules, ¬ Grants r user app ep) : getRoles rules user app ep = none := by
  cases hg : getRoles rules user app ep with
  | none => rfl
  | some roles =>
    exfalso
    cases roles with
    | nil =>
      unfold getRoles at hg
      split at hg
      · cases hg
      · split at hg
        · cases hg
        · rename_i hne
          cases hg
          simp at hne
    | cons x xs =>
      obtain ⟨r, hr, _, hgr⟩ := C67_sound rules user app ep x ⟨_, hg, by simp⟩
      exact h r hr hgr

abbrev roleA : Id := ⟨0, 1⟩
abbrev roleB : Id := ⟨0, 2⟩

/-- Role A for Anna, role B for any known user. -/
def twoRules : List Rule := [{ role := roleA, identities := [⟨1, "anna"⟩] }, { role := roleB, identities := [⟨6, ""⟩] }]

example : getRoles twoRules (.userName "anna") "app" "url" = some [roleA, roleB] := by decide +kernel
example : getRoles twoRules (.userName "bert") "app" "url" = some [roleB] := by decide +kernel
example : getRoles twoRules .anonymous "app" "url" = none := by decide +kernel
example : ∀ r ∈ twoRules, Applies r "app" "url" := by
  intro r hr
  simp only [twoRules, List.mem_cons, List.not_mem_nil, or_false] at hr
  rcases hr with rfl | rfl <;> exact ⟨.inl ⟨rfl, by simp⟩, .inl ⟨rfl, by simp⟩⟩

/-- Role A only for the panel application, role B for everyone known. -/
def panelRule : Rule := { role := roleA, identities := [⟨6, ""⟩], appsExclude := false, apps := ["panel"] }
def anyRule : Rule := { role := roleB, identities := [⟨6, ""⟩] }

/-- **C67 fails (rules that do not apply).** A rule that does not allow the application hides the rules after it,
though one of them grants a role. -/
theorem C67_break_fails : Grants anyRule (.userName "anna") "desk" "url" ∧
    getRoles [panelRule, anyRule] (.userName "anna") "desk" "url" = none :=
  ⟨⟨⟨.inl ⟨rfl, by simp [anyRule]⟩, .inl ⟨rfl, by simp [anyRule]⟩⟩, ⟨6, ""⟩, by decide, .knownName _ _⟩, by decide +kernel⟩

/-- **C67 fails (order).** The same rules in the other order grant the role. -/
theorem C67_order_fails : getRoles [panelRule, anyRule] (.userName "anna") "desk" "url" = none ∧
    getRoles [anyRule, panelRule] (.userName "anna") "desk" "url" = some [roleB] := by decide +kernel

/-! ## C66: permissions -/

/-- One of the user's roles has permission `i` on the node. -/
def May (s : Server) (user : Identity) (n : Node) (i : Nat) : Prop :=
  ∃ role rp, Granted s.rules user "" "" role ∧ rp.role = role ∧ rp.perms.testBit i = true ∧
    (∃ own, n.perms = some own ∧ rp ∈ own ∨ n.perms = none ∧ rp ∈ s.perms)

theorem bit_iff (m i : Nat) : (m &&& 2 ^ i ≠ 0) ↔ m.testBit i = true := by
  constructor
  · intro h
    refine Classical.byContradiction fun hb => h (Nat.eq_of_testBit_eq fun j => ?_)
    simp only [Nat.testBit_and, Nat.testBit_two_pow, Nat.zero_testBit]
    by_cases hj : i = j
    · subst hj; simp [hb]
    · simp [hj]
  · intro h h0
    have : (m &&& 2 ^ i).testBit i = true := by simp [h]
    rw [h0] at this
    simp at this

theorem permsOf_iff (s : Server) (n : Node) (rp : RolePerm) :
    rp ∈ s.permsOf n ↔ ∃ own, n.perms = some own ∧ rp ∈ own ∨ n.perms = none ∧ rp ∈ s.perms := by
  unfold Server.permsOf
  cases n.perms <;> simp

theorem permitted_iff (s : Server) (user : Identity) (n : Node) (i : Nat) :
    isUserPermitted (userRolePermissions s user n) (2 ^ i) = true ↔ May s user n i := by
  unfold isUserPermitted userRolePermissions May Granted
  cases hg : getRoles s.rules user "" "" with
  | none => simp
  | some roles =>
    simp only [List.any_eq_true, List.mem_flatMap, List.mem_filter, decide_eq_true_eq, bit_iff, Option.some.injEq,
      exists_eq_left', permsOf_iff]
    constructor
    · rintro ⟨rp, ⟨r, hr, hp, he⟩, hb⟩
      exact ⟨r, rp, hr, he, hb, hp⟩
    · rintro ⟨r, rp, hr, he, hb, hp⟩
      exact ⟨rp, ⟨r, hr, hp, he⟩, hb⟩

theorem anyRole_iff (s : Server) (user : Identity) (n : Node) (i : Nat) (roles : List Id)
    (hg : getRoles s.rules user "" "" = some roles) :
    anyRole s n roles (2 ^ i) = true ↔ May s user n i := by
  unfold anyRole May Granted
  rw [hg]
  simp only [List.any_eq_true, Bool.and_eq_true, decide_eq_true_eq, bit_iff, Option.some.injEq, exists_eq_left', permsOf_iff]
  constructor
  · rintro ⟨r, hr, rp, hp, he, hb⟩
    exact ⟨r, rp, hr, he, hb, hp⟩
  · rintro ⟨r, rp, hr, he, hb, hp⟩
    exact ⟨r, hr, rp, hp, he, hb⟩

theorem may_none {s : Server} {user : Identity} {n : Node} {i : Nat} (hg : getRoles s.rules user "" "" = none) :
    ¬ May s user n i := by
  rintro ⟨_, _, ⟨roles, h, _⟩, _⟩
  rw [hg] at h
  cases h

theorem clear_and (l b c : Nat) (h : (255 - b) &&& c = c) : clear l b &&& c = l &&& c := by
  unfold clear; rw [Nat.and_assoc, h]
theorem clear_zero (l b c : Nat) (h : (255 - b) &&& c = 0) : clear l b &&& c = 0 := by
  unfold clear; rw [Nat.and_assoc, h, Nat.and_zero]

theorem level_read (s : Server) (user : Identity) (n : Node) (l : Nat) :
    userAccessLevel s user n l &&& 1 ≠ 0 ↔ l &&& 1 ≠ 0 ∧ May s user n 5 := by
  unfold userAccessLevel
  cases hg : getRoles s.rules user "" "" with
  | none => simp [may_none hg]
  | some roles =>
    have h5 := anyRole_iff s user n 5 roles hg
    simp only [Nat.reducePow] at h5
    dsimp only
    rw [← h5]
    unfold lower
    cases anyRole s n roles 32 <;> cases anyRole s n roles permWrite <;> cases anyRole s n roles permReadHistory <;>
    simp [clear_and _ 2 1 (by decide), clear_and _ 4 1 (by decide), clear_zero _ 1 1 (by decide)]

theorem level_write (s : Server) (user : Identity) (n : Node) (l : Nat) :
    userAccessLevel s user n l &&& 2 ≠ 0 ↔ l &&& 2 ≠ 0 ∧ May s user n 6 := by
  unfold userAccessLevel
  cases hg : getRoles s.rules user "" "" with
  | none => simp [may_none hg]
  | some roles =>
    have h6 := anyRole_iff s user n 6 roles hg
    simp only [Nat.reducePow] at h6
    dsimp only
    rw [← h6]
    unfold lower
    cases anyRole s n roles 64 <;> cases anyRole s n roles permRead <;> cases anyRole s n roles permReadHistory <;>
    simp [clear_and _ 1 2 (by decide), clear_and _ 4 2 (by decide), clear_zero _ 2 2 (by decide)]

theorem executable_iff (s : Server) (user : Identity) (n : Node) (e : Bool) :
    userExecutable s user n e = true ↔ e = true ∧ May s user n 12 := by
  unfold userExecutable
  cases e with
  | false => simp
  | true =>
    cases hg : getRoles s.rules user "" "" with
    | none => simp [may_none hg]
    | some roles =>
      have h := anyRole_iff s user n 12 roles hg
      simp only [Nat.reducePow] at h
      simpa using h

/-- **C66 (UserAccessLevel).** The access level of a user has a bit exactly if the node's has it, the user has a role, and
for reading, writing and reading history one of the user's roles has the permission. -/
theorem C66_level (s : Server) (user : Identity) (n : Node) (l i : Nat) (hi : i < 8) :
    (userAccessLevel s user n l).testBit i = true ↔
      l.testBit i = true ∧ (∃ role, Granted s.rules user "" "" role) ∧
      (i = 0 → May s user n 5) ∧ (i = 1 → May s user n 6) ∧ (i = 2 → May s user n 7) := by
  unfold userAccessLevel
  cases hg : getRoles s.rules user "" "" with
  | none =>
    constructor
    · intro h; simp at h
    · rintro ⟨_, ⟨role, roles, h, _⟩, _⟩
      rw [hg] at h; cases h
  | some roles =>
    have h5 := anyRole_iff s user n 5 roles hg
    have h6 := anyRole_iff s user n 6 roles hg
    have h7 := anyRole_iff s user n 7 roles hg
    simp only [Nat.reducePow] at h5 h6 h7
    have hr : ∃ role, Granted s.rules user "" "" role := by
      cases roles with
      | nil =>
        unfold getRoles at hg
        split at hg
        · cases hg
        · split at hg
          · cases hg
          · rename_i hne
            injection hg with hg
            rw [hg] at hne
            simp at hne
      | cons r rs => exact ⟨r, r :: rs, hg, List.mem_cons_self⟩
    simp only [hr, true_and]
    rw [← h5, ← h6, ← h7]
    have h255 : ∀ b, (clear b 1).testBit i = (b.testBit i && (254).testBit i) ∧ (clear b 2).testBit i = (b.testBit i && (253).testBit i)
        ∧ (clear b 4).testBit i = (b.testBit i && (251).testBit i) := by
      intro b; simp [clear]
    unfold lower
    have h8 : i = 0 ∨ i = 1 ∨ i = 2 ∨ i = 3 ∨ i = 4 ∨ i = 5 ∨ i = 6 ∨ i = 7 := by omega
    cases anyRole s n roles 32 <;> cases anyRole s n roles 64 <;> cases anyRole s n roles 128 <;>
      simp only [Bool.not_true, Bool.not_false, Bool.false_eq_true, if_false, if_true, h255] <;>
      rcases h8 with rfl | rfl | rfl | rfl | rfl | rfl | rfl | rfl <;> simp +decide

/-- **C66 (Read).** Read gives the value of a variable exactly when the user may browse the node and read it, and
the node's access level allows it. -/
theorem C66_read (s : Server) (user : Identity) (id : Id) (v : Nat) :
    readValue s user id 13 = .value v ↔
      ∃ n level h, s.nodes id = some n ∧ n.kind = .var level v h ∧ level.testBit 0 = true ∧ May s user n 0 ∧ May s user n 5 := by
  constructor
  · intro h
    unfold readValue at h
    cases hn : s.nodes id with
    | none => rw [hn] at h; cases h
    | some n =>
      have hb := permitted_iff s user n 0
      simp only [Nat.reducePow] at hb
      simp only [hn] at h
      cases hp : isUserPermitted (userRolePermissions s user n) permBrowse with
      | false => simp [hp] at h
      | true =>
        simp only [hp, Bool.not_true, Bool.false_eq_true, if_false, if_true] at h
        cases hk : n.kind with
        | var level w hz =>
          simp only [hk] at h
          split at h
          · cases h
          · rename_i h1
            split at h
            · cases h
            · rename_i h2
              cases h
              exact ⟨n, level, hz, rfl, hk, by simpa using (bit_iff level 0).1 (by simpa using h1), hb.1 hp,
                ((level_read s user n level).1 h2).2⟩
        | object _ => rw [hk] at h; cases h
        | objectType => rw [hk] at h; cases h
        | method _ _ => rw [hk] at h; cases h
        | other => rw [hk] at h; cases h
  · rintro ⟨n, level, hz, hn, hk, hl, h0, h5⟩
    have hb := (permitted_iff s user n 0).2 h0
    simp only [Nat.reducePow] at hb
    have hl' : level &&& 1 ≠ 0 := by simpa using (bit_iff level 0).2 hl
    have hw := (level_read s user n level).2 ⟨hl', h5⟩
    unfold readValue
    simp only [hn, hb, hk, Bool.not_true, Bool.false_eq_true, if_false, if_true, if_neg hl', if_neg hw]

/-- **C66 (role permissions).** Read gives the role permissions of a node only if the user may read them. -/
theorem C66_readRoles (s : Server) (user : Identity) (id : Id) (rps : List RolePerm) (h : readValue s user id 24 = .perms rps) :
    ∃ n, s.nodes id = some n ∧ rps = n.perms.getD [] ∧ May s user n 0 ∧ May s user n 1 := by
  unfold readValue at h
  cases hn : s.nodes id with
  | none => rw [hn] at h; cases h
  | some n =>
    have h0 := permitted_iff s user n 0
    have h1 := permitted_iff s user n 1
    simp only [Nat.reducePow] at h0 h1
    simp only [hn] at h
    cases hp : isUserPermitted (userRolePermissions s user n) permBrowse with
    | false => simp [hp] at h
    | true =>
      simp only [hp, Bool.not_true, Bool.false_eq_true, if_false, attrValue, Nat.reduceEqDiff, if_true] at h
      cases hq : isUserPermitted (userRolePermissions s user n) permReadRolePermissions with
      | false => simp [hq] at h
      | true =>
        simp only [hq, Bool.not_true, Bool.false_eq_true, if_false] at h
        cases h
        exact ⟨n, rfl, rfl, h0.1 hp, h1.1 hq⟩

/-- A server without the node. -/
def Server.without (s : Server) (id : Id) : Server := { s with nodes := fun i => if i = id then none else s.nodes i }

namespace Spec

/-- The attributes of a class of nodes that everyone may read who may browse the node. -/
def openAttributes : Kind → List Nat
  | .var _ _ _ => [1, 2, 3, 4, 5, 14, 15, 16, 17, 18, 19, 20]
  | .object _ => [1, 2, 3, 4, 5, 12]
  | .objectType => [1, 2, 3, 4, 5, 8]
  | .method _ _ => [1, 2, 3, 4, 5, 21, 22]
  | .other => [1, 2, 3, 4, 5]

/-- The permissions of one role are in force for the node: its own, or those of the server if it has none. -/
def InForce (s : Server) (n : Node) (rp : RolePerm) : Prop :=
  (∃ own, n.perms = some own ∧ rp ∈ own) ∨ (n.perms = none ∧ rp ∈ s.perms)

/-- The user may monitor the attribute with the filter. -/
inductive MayMonitor (s : Server) (user : Identity) (n : Node) : Nat → Filter → Prop
  | value (level v : Nat) (hz : Bool) (f : Filter) : n.kind = .var level v hz → level.testBit 0 = true → May s user n 5 →
      f ≠ .event → MayMonitor s user n 13 f
  | events (notifier : Nat) : n.kind = .object notifier → notifier.testBit 0 = true → May s user n 11 →
      MayMonitor s user n 12 .event
  | other (a : Nat) : a ∈ openAttributes n.kind ∨ a = 24 ∨ a = 25 → a ≠ 12 → May s user n 0 → MayMonitor s user n a .none

end Spec

theorem hasAttribute_iff (k : Kind) (a : Nat) : hasAttribute k a = true ↔ a ∈ Spec.openAttributes k := by
  cases k <;> simp [hasAttribute, Spec.openAttributes] <;> omega

/-- **C66 (other attributes).** Who may browse a node reads every attribute of its class; UserRolePermissions are the
permissions in force of exactly the user's roles. -/
theorem C66_attributes (s : Server) (user : Identity) (id : Id) (n : Node) (a : Nat) (hn : s.nodes id = some n)
    (h0 : May s user n 0) :
    (a ∈ Spec.openAttributes n.kind → readValue s user id a = .attr a) ∧
    (a = 25 → ∃ rps, readValue s user id a = .perms rps ∧
      ∀ rp, rp ∈ rps ↔ Granted s.rules user "" "" rp.role ∧ Spec.InForce s n rp) ∧
    (a ∉ Spec.openAttributes n.kind → a ≠ 13 → a ≠ 24 → a ≠ 25 → readValue s user id a = .status .badAttributeIDInvalid) := by
  have hb := (permitted_iff s user n 0).2 h0
  simp only [Nat.reducePow] at hb
  unfold readValue
  simp only [hn, hb, Bool.not_true, Bool.false_eq_true, if_false]
  refine ⟨fun h => ?_, fun h => ?_, fun h h1 h2 h3 => ?_⟩
  · have h1 : a ≠ 13 ∧ a ≠ 24 ∧ a ≠ 25 := by
      revert h; cases n.kind <;> simp [Spec.openAttributes] <;> omega
    rw [if_neg h1.1, if_neg h1.2.1, if_neg h1.2.2, (hasAttribute_iff _ _).2 h, if_pos rfl]
  · subst h
    rw [if_neg (by decide), if_neg (by decide), if_pos rfl]
    refine ⟨_, rfl, fun rp => ?_⟩
    unfold userRolePermissions Granted
    cases hg : getRoles s.rules user "" "" with
    | none => simp
    | some roles =>
      simp only [List.mem_flatMap, List.mem_filter, decide_eq_true_eq, Option.some.injEq, exists_eq_left']
      have : rp ∈ s.permsOf n ↔ Spec.InForce s n rp := by
        unfold Server.permsOf Spec.InForce
        cases n.perms <;> simp
      rw [this]
      constructor
      · rintro ⟨r, hr, hp, he⟩
        exact ⟨he ▸ hr, hp⟩
      · rintro ⟨hr, hp⟩
        exact ⟨rp.role, hr, hp, rfl⟩
  · have h4 : hasAttribute n.kind a = false := by
      cases hh : hasAttribute n.kind a with
      | false => rfl
      | true => exact absurd ((hasAttribute_iff _ _).1 hh) h
    rw [if_neg h1, if_neg h2, if_neg h3, h4]
    rfl

/-- **C66 (hidden nodes, Read).** A node that the user may not browse is read like one that does not exist. -/
theorem C66_hiddenRead (s : Server) (user : Identity) (id : Id) (n : Node) (a : Nat) (hn : s.nodes id = some n)
    (h : ¬ May s user n 0) : readValue s user id a = readValue (s.without id) user id a := by
  have hb := permitted_iff s user n 0
  simp only [Nat.reducePow] at hb
  have : isUserPermitted (userRolePermissions s user n) permBrowse = false := by
    cases hp : isUserPermitted (userRolePermissions s user n) permBrowse with
    | false => rfl
    | true => exact absurd (hb.1 hp) h
  simp [readValue, Server.without, hn, this]

/-- **C66 (hidden nodes, Write).** A node that the user may not browse is written like one that does not exist,
and nothing changes. -/
theorem C66_hiddenWrite (s : Server) (user : Identity) (id : Id) (n : Node) (a : Nat) (w : Written) (hn : s.nodes id = some n)
    (h : ¬ May s user n 0) :
    writeValue s user id a w = (s, (writeValue (s.without id) user id a w).2) := by
  have hb := permitted_iff s user n 0
  simp only [Nat.reducePow] at hb
  have : isUserPermitted (userRolePermissions s user n) permBrowse = false := by
    cases hp : isUserPermitted (userRolePermissions s user n) permBrowse with
    | false => rfl
    | true => exact absurd (hb.1 hp) h
  simp [writeValue, Server.without, hn, this]

theorem writeValue_cases (s : Server) (user : Identity) (id : Id) (a : Nat) (w : Written) :
    (∃ st, st ≠ .good ∧ writeValue s user id a w = (s, st)) ∨
    (∃ n level v h v', a = 13 ∧ s.nodes id = some n ∧ n.kind = .var level v h ∧ w = .number v' ∧ May s user n 0 ∧
      level &&& 2 ≠ 0 ∧ May s user n 6 ∧ writeValue s user id a w = (s.set id { n with kind := .var level v' h }, .good)) ∨
    (∃ n level v h b, a = 20 ∧ s.nodes id = some n ∧ n.kind = .var level v h ∧ w = .bool b ∧ May s user n 0 ∧
      May s user n 4 ∧ writeValue s user id a w = (s.set id { n with kind := .var level v b }, .good)) := by
  unfold writeValue
  cases hn : s.nodes id with
  | none => exact .inl ⟨_, by decide, rfl⟩
  | some n =>
    have hb := permitted_iff s user n 0
    have hh := permitted_iff s user n 4
    simp only [Nat.reducePow] at hb hh
    dsimp only
    cases hp : isUserPermitted (userRolePermissions s user n) permBrowse with
    | false => exact .inl ⟨.badNodeIDUnknown, by decide, by simp⟩
    | true =>
      simp only [Bool.not_true, Bool.false_eq_true, if_false]
      split
      · rename_i ha
        cases hk : n.kind with
        | var level v h =>
          dsimp only
          split
          · exact .inl ⟨_, by decide, rfl⟩
          · rename_i h1
            split
            · exact .inl ⟨_, by decide, rfl⟩
            · rename_i h2
              cases w with
              | bool b => exact .inl ⟨_, by decide, rfl⟩
              | number v' =>
                exact .inr (.inl ⟨n, level, v, h, v', ha, rfl, hk, rfl, hb.1 hp, h1, ((level_write s user n level).1 h2).2, rfl⟩)
        | object _ => exact .inl ⟨_, by decide, rfl⟩
        | objectType => exact .inl ⟨_, by decide, rfl⟩
        | method _ _ => exact .inl ⟨_, by decide, rfl⟩
        | other => exact .inl ⟨_, by decide, rfl⟩
      · split
        · rename_i ha
          cases hk : n.kind with
          | var level v h =>
            dsimp only
            cases hq : isUserPermitted (userRolePermissions s user n) permWriteHistorizing with
            | false => exact .inl ⟨.badUserAccessDenied, by decide, by simp⟩
            | true =>
              cases w with
              | number v' => exact .inl ⟨.badTypeMismatch, by decide, by simp⟩
              | bool b =>
                refine .inr (.inr ⟨n, level, v, h, b, ha, rfl, hk, rfl, hb.1 hp, hh.1 hq, by simp⟩)
          | object _ => exact .inl ⟨_, by decide, rfl⟩
          | objectType => exact .inl ⟨_, by decide, rfl⟩
          | method _ _ => exact .inl ⟨_, by decide, rfl⟩
          | other => exact .inl ⟨_, by decide, rfl⟩
        · exact .inl ⟨_, by decide, rfl⟩

/-- **C66 (Write).** If Write changes anything, it changes the value of a variable that the user may browse and
write and whose access level allows it, or the historizing flag of a variable whose flag the user may write. -/
theorem C66_write (s : Server) (user : Identity) (id : Id) (a : Nat) (w : Written)
    (h : (writeValue s user id a w).1.nodes ≠ s.nodes) :
    ∃ n level v hz, s.nodes id = some n ∧ n.kind = .var level v hz ∧ May s user n 0 ∧
      (a = 13 ∧ level.testBit 1 = true ∧ May s user n 6 ∨ a = 20 ∧ May s user n 4) := by
  rcases writeValue_cases s user id a w with ⟨st, _, h1⟩ | ⟨n, level, v, hz, v', ha, hn, hk, _, h0, hl, h6, _⟩ |
    ⟨n, level, v, hz, b, ha, hn, hk, _, h0, h4, _⟩
  · rw [h1] at h; exact absurd rfl h
  · exact ⟨n, level, v, hz, hn, hk, h0, .inl ⟨ha, (by simpa using (bit_iff level 1).1 (by simpa using hl)), h6⟩⟩
  · exact ⟨n, level, v, hz, hn, hk, h0, .inr ⟨ha, h4⟩⟩

/-- **C66 (Write, other nodes).** Write leaves every other node alone, and the written node keeps its access level and
permissions. -/
theorem C66_writeFrame (s : Server) (user : Identity) (id : Id) (a : Nat) (w : Written) :
    (∀ i, i ≠ id → (writeValue s user id a w).1.nodes i = s.nodes i) ∧
    (writeValue s user id a w).1.perms = s.perms ∧ (writeValue s user id a w).1.rules = s.rules ∧
    (∀ n, s.nodes id = some n → ∃ n', (writeValue s user id a w).1.nodes id = some n' ∧ n'.perms = n.perms) := by
  rcases writeValue_cases s user id a w with ⟨st, _, h1⟩ | ⟨n, level, v, hz, v', _, hn, _, _, _, _, _, h1⟩ |
    ⟨n, level, v, hz, b, _, hn, _, _, _, _, h1⟩
  · rw [h1]; exact ⟨fun _ _ => rfl, rfl, rfl, fun n hn => ⟨n, hn, rfl⟩⟩
  · rw [h1]
    refine ⟨fun i hi => by simp [Server.set, hi], rfl, rfl, fun m hm => ?_⟩
    rw [hn] at hm; cases hm
    exact ⟨{ n with kind := _ }, if_pos rfl, rfl⟩
  · rw [h1]
    refine ⟨fun i hi => by simp [Server.set, hi], rfl, rfl, fun m hm => ?_⟩
    rw [hn] at hm; cases hm
    exact ⟨{ n with kind := _ }, if_pos rfl, rfl⟩

/-- **C66 (Write, permitted).** A number written to a variable by a user who may browse and write it is stored. -/
theorem C66_written (s : Server) (user : Identity) (id : Id) (n : Node) (level v v' : Nat) (hz : Bool) (hn : s.nodes id = some n)
    (hk : n.kind = .var level v hz) (h0 : May s user n 0) (h6 : May s user n 6) (hl : level.testBit 1 = true) :
    writeValue s user id 13 (.number v') = (s.set id { n with kind := .var level v' hz }, .good) := by
  have hb := (permitted_iff s user n 0).2 h0
  have hl' : level &&& 2 ≠ 0 := by simpa using (bit_iff level 1).2 hl
  have hw := (level_write s user n level).2 ⟨hl', h6⟩
  simp only [Nat.reducePow] at hb
  simp [writeValue, hn, hk, hb, hl', hw]

/-- **C66 (Call).** A method runs only if the user may browse the object and the method and call the method, and
the method is executable. -/
theorem C66_call (s : Server) (user : Identity) (o m o' m' : Id) (h : call s user o m = .runs o' m') :
    o' = o ∧ m' = m ∧ ∃ n1 n2 hd, s.nodes o = some n1 ∧ s.nodes m = some n2 ∧ n2.kind = .method true hd ∧
      May s user n1 0 ∧ May s user n2 0 ∧ May s user n2 12 := by
  unfold call at h
  cases hn1 : s.nodes o with
  | none => rw [hn1] at h; cases h
  | some n1 =>
    have h1 := permitted_iff s user n1 0
    simp only [hn1] at h
    simp only [Nat.reducePow] at h1
    cases hp : isUserPermitted (userRolePermissions s user n1) permBrowse with
    | false => simp [hp] at h
    | true =>
      simp only [hp, Bool.not_true, Bool.false_eq_true, if_false] at h
      split at h
      · cases h
      · cases hn2 : s.nodes m with
        | none => rw [hn2] at h; cases h
        | some n2 =>
          have h2 := permitted_iff s user n2 0
          simp only [hn2] at h
          simp only [Nat.reducePow] at h2
          cases hq : isUserPermitted (userRolePermissions s user n2) permBrowse with
          | false => simp [hq] at h
          | true =>
            simp only [hq, Bool.not_true, Bool.false_eq_true, if_false] at h
            cases hk : n2.kind with
            | method e hd =>
              simp only [hk] at h
              cases he : userExecutable s user n2 e with
              | false => simp [he] at h
              | true =>
                obtain ⟨rfl, h12⟩ := (executable_iff s user n2 e).1 he
                cases hd with
                | false => simp [he] at h
                | true =>
                  simp only [he, Bool.not_true, Bool.false_eq_true, if_false, if_true] at h
                  cases h
                  exact ⟨rfl, rfl, n1, n2, true, rfl, rfl, hk, h1.1 hp, h2.1 hq, h12⟩
            | var _ _ _ => rw [hk] at h; cases h
            | object _ => rw [hk] at h; cases h
            | objectType => rw [hk] at h; cases h
            | other => rw [hk] at h; cases h

/-- The user may call the method of the object. -/
def Spec.MayCall (s : Server) (user : Identity) (o m : Id) : Prop :=
  ∃ n1 n2, s.nodes o = some n1 ∧ s.nodes m = some n2 ∧ (n1.kind = .objectType ∨ ∃ e, n1.kind = .object e)
    ∧ n2.kind = .method true true ∧ May s user n1 0 ∧ May s user n2 0 ∧ May s user n2 12

/-- **C66 (Call, exactly).** A method runs exactly if the user may call it, on an object or an object type. -/
theorem C66_callExact (s : Server) (user : Identity) (o m : Id) :
    (∃ o' m', call s user o m = .runs o' m') ↔ Spec.MayCall s user o m := by
  constructor
  · rintro ⟨o', m', h⟩
    obtain ⟨_, _, n1, n2, hd, h1, h2, h3, h4, h5, h6⟩ := C66_call s user o m o' m' h
    have hb := (permitted_iff s user n1 0).2 h4
    have hb2 := (permitted_iff s user n2 0).2 h5
    simp only [Nat.reducePow] at hb hb2
    have he := (executable_iff s user n2 true).2 ⟨rfl, h6⟩
    unfold call at h
    simp only [h1, h2, hb, hb2, h3, he, Bool.not_true, Bool.false_eq_true, if_false] at h
    cases hm : hasMethods n1.kind with
    | false => simp [hm] at h
    | true =>
      cases hd with
      | false => simp [hm] at h
      | true =>
        refine ⟨n1, n2, h1, h2, ?_, h3, h4, h5, h6⟩
        cases hk : n1.kind <;> simp [hk, hasMethods] at hm ⊢
  · rintro ⟨n1, n2, h1, h2, hk, h3, h4, h5, h6⟩
    have hb := (permitted_iff s user n1 0).2 h4
    have hb2 := (permitted_iff s user n2 0).2 h5
    simp only [Nat.reducePow] at hb hb2
    have he := (executable_iff s user n2 true).2 ⟨rfl, h6⟩
    have hm : hasMethods n1.kind = true := by rcases hk with hk | ⟨e, hk⟩ <;> rw [hk] <;> rfl
    refine ⟨o, m, ?_⟩
    unfold call
    simp [h1, h2, hb, hb2, h3, he, hm]

/-- **C66 (monitoring).** A value is monitored only if the user may read it and the access level allows it, events
only if the user may receive them and the object notifies, and any other attribute only if the user may browse
the node; the filter is one for the attribute. -/
theorem C66_monitor (s : Server) (user : Identity) (id : Id) (a : Nat) (f : Filter) (h : createItem s user id a f = .good) :
    ∃ n, s.nodes id = some n ∧
      (a = 13 → f ≠ .event ∧ ∃ level v hz, n.kind = .var level v hz ∧ level.testBit 0 = true ∧ May s user n 5) ∧
      (a = 12 → f = .event ∧ ∃ notifier, n.kind = .object notifier ∧ notifier.testBit 0 = true ∧ May s user n 11) ∧
      (a ≠ 13 → a ≠ 12 → f = .none ∧ May s user n 0) := by
  unfold createItem at h
  cases hn : s.nodes id with
  | none => rw [hn] at h; cases h
  | some n =>
    refine ⟨n, rfl, ?_⟩
    simp only [hn] at h
    split at h
    · cases h
    · split at h
      · rename_i ha
        have ha : a = 13 := ha
        subst ha
        refine ⟨fun _ => ?_, fun h => by omega, fun h => absurd rfl h⟩
        cases hk : n.kind with
        | var level v hz =>
          simp only [hk] at h
          split at h
          · cases h
          · rename_i h1
            split at h
            · cases h
            · rename_i h2
              split at h
              · cases h
              · rename_i hf
                exact ⟨hf, level, v, hz, rfl, by simpa using (bit_iff level 0).1 (by simpa using h1), ((level_read s user n level).1 h2).2⟩
        | object _ => rw [hk] at h; cases h
        | objectType => rw [hk] at h; cases h
        | method _ _ => rw [hk] at h; cases h
        | other => rw [hk] at h; cases h
      · rename_i hne
        split at h
        · rename_i ha
          have ha : a = 12 := ha
          subst ha
          refine ⟨fun h => by omega, fun _ => ?_, fun _ h => absurd rfl h⟩
          cases hk : n.kind with
          | object e =>
            simp only [hk] at h
            split at h
            · cases h
            · rename_i h1
              have h2 := permitted_iff s user n 11
              simp only [Nat.reducePow] at h2
              cases hp : isUserPermitted (userRolePermissions s user n) permReceiveEvents with
              | false => simp [hp] at h
              | true =>
                simp only [hp, Bool.not_true, Bool.false_eq_true, if_false] at h
                split at h
                · cases h
                · rename_i hf
                  exact ⟨Classical.byContradiction hf, e, rfl, by simpa using (bit_iff e 0).1 (by simpa using h1), h2.1 hp⟩
          | var _ _ _ => rw [hk] at h; cases h
          | objectType => rw [hk] at h; cases h
          | method _ _ => rw [hk] at h; cases h
          | other => rw [hk] at h; cases h
        · rename_i hne2
          have h2 := permitted_iff s user n 0
          simp only [Nat.reducePow] at h2
          refine ⟨fun h => absurd h hne, fun h => absurd h hne2, fun _ _ => ?_⟩
          cases hp : isUserPermitted (userRolePermissions s user n) permBrowse with
          | false => simp [hp] at h
          | true =>
            simp only [hp, Bool.not_true, Bool.false_eq_true, if_false] at h
            split at h
            · cases h
            · rename_i hf
              exact ⟨Classical.byContradiction hf, h2.1 hp⟩

/-- **C66 (monitoring, exactly).** An item is created exactly if the user may monitor the attribute of the node with the
filter. For attributes 24 and 25 browsing is enough, also where Read refuses the role permissions. -/
theorem C66_monitorExact (s : Server) (user : Identity) (id : Id) (a : Nat) (f : Filter) :
    createItem s user id a f = .good ↔ ∃ n, s.nodes id = some n ∧ Spec.MayMonitor s user n a f := by
  constructor
  · intro h
    obtain ⟨n, hn, h1, h2, h3⟩ := C66_monitor s user id a f h
    refine ⟨n, hn, ?_⟩
    by_cases e1 : a = 13
    · subst e1
      obtain ⟨hf, level, v, hz, hk, hl, hm⟩ := h1 rfl
      exact .value level v hz f hk hl hm hf
    · by_cases e2 : a = 12
      · subst e2
        obtain ⟨hf, e, hk, he, hm⟩ := h2 rfl
        subst hf
        exact .events e hk he hm
      · obtain ⟨hf, hm⟩ := h3 e1 e2
        subst hf
        refine .other a ?_ e2 hm
        unfold createItem at h
        simp only [hn] at h
        cases hv : attributeValid n.kind a with
        | false => simp [hv] at h
        | true =>
          unfold attributeValid at hv
          rw [← hasAttribute_iff]
          cases hk : n.kind <;> simp [hk, e1] at hv ⊢ <;> grind
  · rintro ⟨n, hn, h⟩
    unfold createItem
    cases h with
    | value level v hz _ hk hl hm hf =>
      have h1 : level &&& 1 ≠ 0 := by simpa using (bit_iff level 0).2 hl
      have h2 := (level_read s user n level).2 ⟨h1, hm⟩
      have hv : attributeValid n.kind 13 = true := by simp [attributeValid, hk]
      simp only [hn, hk] at hv ⊢
      rw [hv, if_neg (by decide), if_pos trivial]
      simp only [if_neg h1, if_neg h2, if_neg hf]
    | events e hk he hm =>
      have h1 : e &&& 1 ≠ 0 := by simpa using (bit_iff e 0).2 he
      have h2 := (permitted_iff s user n 11).2 hm
      simp only [Nat.reducePow] at h2
      have hv : attributeValid n.kind 12 = true := by simp [attributeValid, hasAttribute, hk]
      simp only [hn, hk] at hv ⊢
      rw [hv, if_neg (by decide), if_neg (by decide), if_pos trivial]
      simp only [if_neg h1, h2]
      rfl
    | other a' ha hne hm =>
      have h2 := (permitted_iff s user n 0).2 hm
      simp only [Nat.reducePow] at h2
      have h3 : a ≠ 13 := by
        rintro rfl
        revert ha; cases n.kind <;> simp [Spec.openAttributes]
      have hv : attributeValid n.kind a = true := by
        unfold attributeValid
        rw [← hasAttribute_iff] at ha
        rcases ha with ha | ha | ha <;> simp [ha]
      simp [hn, hv, h3, hne, h2]

/-- A plant: role A browses and reads, role B also writes and calls; node 1 is a variable, node 2 one that only
role B may see, node 3 an object, node 4 a method. -/
def plant : Server where
  rules := [{ role := roleA, identities := [⟨5, ""⟩] }, { role := roleB, identities := [⟨1, "anna"⟩] }]
  perms := [⟨roleA, 33⟩, ⟨roleB, 1 + 32 + 64 + 4096⟩]
  hasHistorian := true
  nodes := fun id =>
    if id = ⟨1, 1⟩ then some { kind := .var 3 10 false }
    else if id = ⟨1, 2⟩ then some { kind := .var 3 20 true, perms := some [⟨roleB, 97⟩] }
    else if id = ⟨1, 3⟩ then some { kind := .object 0 }
    else if id = ⟨1, 4⟩ then some { kind := .method true true }
    else none

abbrev anna : Identity := .userName "anna"

example : readValue plant .anonymous ⟨1, 1⟩ 13 = .value 10 := by decide +kernel
example : readValue plant .anonymous ⟨1, 2⟩ 13 = .status .badNodeIDUnknown := by decide +kernel
example : readValue plant anna ⟨1, 2⟩ 13 = .value 20 := by decide +kernel
example : readValue plant anna ⟨1, 2⟩ 16 = .attr 16 ∧ readValue plant anna ⟨1, 2⟩ 25 = .perms [⟨roleB, 97⟩] ∧
    readValue plant anna ⟨1, 2⟩ 12 = .status .badAttributeIDInvalid ∧ createItem plant anna ⟨1, 4⟩ 22 .none = .good := by
  decide +kernel
example : (writeValue plant .anonymous ⟨1, 1⟩ 13 (.number 7)).2 = .badUserAccessDenied := by decide +kernel
example : (writeValue plant anna ⟨1, 1⟩ 13 (.number 7)).2 = .good ∧
    readValue (writeValue plant anna ⟨1, 1⟩ 13 (.number 7)).1 anna ⟨1, 1⟩ 13 = .value 7 := by decide +kernel
example : (writeValue plant anna ⟨1, 1⟩ 20 (.bool true)).2 = .badUserAccessDenied := by decide +kernel
example : call plant anna ⟨1, 3⟩ ⟨1, 4⟩ = .runs ⟨1, 3⟩ ⟨1, 4⟩ := by decide +kernel
example : call plant .anonymous ⟨1, 3⟩ ⟨1, 4⟩ = .status .badUserAccessDenied := by decide +kernel
example : createItem plant .anonymous ⟨1, 1⟩ 13 .none = .good := by decide +kernel
example : createItem plant .anonymous ⟨1, 2⟩ 13 .none = .badUserAccessDenied := by decide +kernel
example : ¬ May plant .anonymous { kind := .var 3 20 true, perms := some [⟨roleB, 97⟩] } 0 := by
  rw [← permitted_iff]; decide +kernel

/-- **C66 fails (history).** The history of node 2 is read by an anonymous user, who may neither browse nor read the
node nor read its history. -/
theorem C66_history_fails : (∃ n, plant.nodes ⟨1, 2⟩ = some n ∧ ∀ i, ¬ May plant .anonymous n i) ∧
    historyRead plant .anonymous [⟨1, 2⟩] = some [⟨1, 2⟩] := by
  refine ⟨⟨_, rfl, ?_⟩, by decide⟩
  rintro i ⟨role, rp, ⟨roles, hg, hr⟩, he, _, hp⟩
  have : getRoles plant.rules .anonymous "" "" = some [roleA] := by decide +kernel
  rw [this] at hg
  cases hg
  simp only [List.mem_singleton] at hr
  obtain ⟨own, ⟨ho, hm⟩ | ⟨ho, _⟩⟩ := hp
  · cases ho
    simp only [List.mem_singleton] at hm
    rw [hm, hr] at he
    revert he
    decide
  · cases ho

/-- Role A, with all permissions, for known users on any application but the kiosk. -/
def kiosk : Server where
  rules := [{ role := roleA, identities := [⟨6, ""⟩], apps := ["kiosk"] }]
  perms := [⟨roleA, 131071⟩]
  nodes := fun id => if id = ⟨1, 1⟩ then some { kind := .var 3 10 false } else none

/-- **C67 fails (connection).** No rule grants Anna a role on the kiosk, yet the value is read, whatever the
application: the nodes ask for the roles of a user without application and endpoint. -/
theorem C67_connection_fails : getRoles kiosk.rules anna "kiosk" "url" = none ∧ readValue kiosk anna ⟨1, 1⟩ 13 = .value 10 := by
  decide +kernel

end Opcua.Access
