import Verif.Model.Picture
import Verif.Props.Browse

/-!
# C142: Browse, TranslateBrowsePathsToNodeIds and Read show one address space

What is shown by one service is compared with what the others answer about it; only answers of services and the table
itself occur in the statements.
-/

namespace Opcua.Picture

open Opcua.AddressSpace Opcua.Browse

namespace Spec

/-- The user may see the node `id`. -/
def Visible (w : World) (user : Nat) (id : Id) : Prop := ∃ f, w id = some f ∧ user ∈ f.users

/-- Every reference of the node `id` leads to a node that the user may see. -/
def Clear (w : World) (user : Nat) (id : Id) : Prop :=
  ∀ f, w id = some f → ∀ r ∈ f.refs, Visible w user r.target

/-- The reference type is not given, or is a node of class ReferenceType (32). -/
def Known (w : World) (want : Option Id) : Prop :=
  ∀ t, want = some t → ∃ f, w t = some f ∧ f.attrs.body.nodeClass = 32

/-- What Browse is asked to find the targets of a path element. -/
def question (id : Id) (e : Step) : Description :=
  { node := id, direction := if e.inverse then 1 else 0, refType := e.refType, subtypes := e.subtypes }

/-- Browse of `a` shows `b` under the name of the path element. -/
def Shows (w : World) (user : Nat) (e : Step) (a b : Id) : Prop :=
  ∃ out x, browse w.space user (question a e) = .good out ∧ x ∈ out ∧ x.name = e.name ∧ x.target = b

/-- A client that follows a path by browsing can get from `a` to `b`. -/
inductive Walks (w : World) (user : Nat) : List Step → Id → Id → Prop
  | nil (a : Id) : Walks w user [] a a
  | cons {e : Step} {es : List Step} {a b c : Id} : Shows w user e a b → Walks w user es b c → Walks w user (e :: es) a c

end Spec

open Spec

/-! ## The parts of the table -/

theorem space_some {w : World} {id : Id} {n : Node} (h : w.space id = some n) : ∃ f, w id = some f ∧ n = f.node := by
  unfold World.space at h
  cases hw : w id with
  | none => rw [hw] at h; cases h
  | some f => rw [hw] at h; cases h; exact ⟨f, rfl, rfl⟩

theorem space_of {w : World} {id : Id} {f : Full} (h : w id = some f) : w.space id = some f.node := by
  unfold World.space; rw [h]; rfl

theorem class_toNat (b : Attributes.Body) : ((b.nodeClass.toNat : Nat) : Int) = b.nodeClass := by
  cases b <;> rfl

theorem read_visible {w : World} {user : Nat} {id : Id} {f : Full} (h : w id = some f) (hu : user ∈ f.users) :
    w.read user id 2 = .good (.int32 f.attrs.body.nodeClass) ∧
    w.read user id 3 = .good (.qualifiedName f.attrs.browseName) ∧
    w.read user id 4 = .good (.localizedText f.attrs.displayName) := by
  have hp : (f.rights user).permitted Attributes.permBrowse = true := by
    simp [Full.rights, hu]
  unfold World.read Attributes.readValue
  rw [h]
  simp [hp, Attributes.readAttr]

theorem read_hidden {w : World} {user : Nat} {id : Id} (h : ¬ Visible w user id) (a : Nat) :
    w.read user id a = .bad .badNodeIDUnknown := by
  unfold World.read Attributes.readValue
  cases hw : w id with
  | none => simp
  | some f =>
    have hu : user ∉ f.users := fun hu => h ⟨f, hw, hu⟩
    have hp : (f.rights user).permitted Attributes.permBrowse = false := by
      simp [Full.rights, hu]
    simp [hp]

theorem mem_match {α β : Type} {p : α → β → Prop} {as : List α} {bs : List β} (h : Match p as bs) {b : β} (hb : b ∈ bs) :
    ∃ a ∈ as, p a b := by
  induction h with
  | nil => cases hb
  | cons hp _ ih =>
    rcases List.mem_cons.1 hb with rfl | hb
    · exact ⟨_, by simp, hp⟩
    · obtain ⟨a, h1, h2⟩ := ih hb
      exact ⟨a, by simp [h1], h2⟩

/-! ## Browse and Read -/

/-- **C142 (described).** Every node class, browse name and display name in an answer of Browse is what Read gives the
same user for that attribute of the target: in every address space and for every description. -/
theorem C142_described (w : World) (user : Nat) (d : Description) (out : List Described)
    (h : browse w.space user d = .good out) (x : Described) (hx : x ∈ out) :
    (d.resultMask.testBit 2 = true → w.read user x.target 2 = .good (.int32 x.cls)) ∧
    (d.resultMask.testBit 3 = true → w.read user x.target 3 = .good (.qualifiedName x.name)) ∧
    (d.resultMask.testBit 4 = true → w.read user x.target 4 = .good (.localizedText x.display)) := by
  obtain ⟨n, kept, _, _, _, hk, hm⟩ := C63_sound w.space user d out h
  obtain ⟨r, hr, ht⟩ := mem_match hm hx
  obtain ⟨_, t, h1, h2, _⟩ := hk r hr
  obtain ⟨f, hf, rfl⟩ := space_some h1
  have hread := read_visible hf h2
  rw [ht.target, ht.cls _ h1, ht.name _ h1, ht.display _ h1]
  refine ⟨fun hb => ?_, fun hb => ?_, fun hb => ?_⟩
  · rw [hread.1, if_pos hb]
    have := class_toNat f.attrs.body
    simp only [Full.node]
    rw [this]
  · rw [hread.2.1, if_pos hb]; rfl
  · rw [hread.2.2, if_pos hb]; rfl

/-- The answer of the loop when every reference leads to a node the user may see and no class is asked for. -/
theorem browseLoop_clear (s : Space) (user : Nat) (d : Description) (hc : d.classMask = 0) :
    ∀ (refs : List Ref) (out : List Described), (∀ r ∈ refs, ∃ t, s r.target = some t ∧ user ∈ t.users) →
    browseLoop s user d refs out =
      some (out ++ (refs.filter (picks s d)).filterMap (fun r => (s r.target).map (describe d.resultMask r))) := by
  intro refs
  induction refs with
  | nil => intro out _; simp [browseLoop]
  | cons r refs ih =>
    intro out hv
    obtain ⟨t, ht, hu⟩ := hv r (by simp)
    have hv' : ∀ r ∈ refs, ∃ t, s r.target = some t ∧ user ∈ t.users := fun q hq => hv q (by simp [hq])
    unfold browseLoop
    cases hp : picks s d r with
    | false =>
      simp only [Bool.not_false, if_true]
      rw [ih out hv']
      simp [hp]
    | true =>
      have hb : mayBrowse user t = true := by simpa [mayBrowse] using hu
      simp only [Bool.not_true, Bool.false_eq_true, if_false, ht, hb, hc, decide_true, Bool.true_or]
      rw [ih _ hv']
      simp [hp, ht]

theorem browse_clear {w : World} {user : Nat} {d : Description} {f : Full} (hd : d.direction ≤ 2) (hc : d.classMask = 0)
    (hf : w d.node = some f) (hu : user ∈ f.users) (hk : Known w d.refType) (hcl : Clear w user d.node) :
    browse w.space user d = .good ((f.refs.filter (picks w.space d)).filterMap
      (fun r => (w.space r.target).map (describe d.resultMask r))) := by
  have ht : TypeKnown w.space d := by
    intro t hr
    obtain ⟨g, hg, hcg⟩ := hk t hr
    exact ⟨g.node, space_of hg, by simp [Full.node, hcg]⟩
  rw [browse_good hd (space_of hf) hu ht]
  have := browseLoop_clear w.space user d hc f.refs [] (fun r hr => by
    obtain ⟨g, hg, hug⟩ := hcl f hf r hr
    exact ⟨g.node, space_of hg, hug⟩)
  change (match browseLoop w.space user d f.refs [] with
    | none => Browse.Result.badNodeIDUnknown
    | some out => Browse.Result.good out) = _
  rw [this]
  simp

theorem browseLoop_some (s : Space) (user : Nat) (d : Description) :
    ∀ (refs : List Ref) (out : List Described), (∀ r ∈ refs, s r.target ≠ none) → browseLoop s user d refs out ≠ none := by
  intro refs
  induction refs with
  | nil => intro out _ h; cases h
  | cons r refs ih =>
    intro out hv
    have hv' : ∀ r ∈ refs, s r.target ≠ none := fun q hq => hv q (by simp [hq])
    unfold browseLoop
    split
    · exact ih _ hv'
    · cases ht : s r.target with
      | none => exact absurd ht (hv r (by simp))
      | some t =>
        simp only
        split
        · exact ih _ hv'
        · split
          · exact ih _ hv'
          · exact ih _ hv'

/-- **C142 (existence, partial).** Read calls a node unknown exactly if the user may not see it or it is not there, and
Browse, with a valid direction, calls it unknown exactly when Read does. Missing: a node with a reference to a node that
is not in the table (`C142_dangling_fails`). -/
theorem C142_exists_partial (w : World) (user : Nat) (d : Description) (hd : d.direction ≤ 2)
    (hdang : ∀ f, w d.node = some f → ∀ r ∈ f.refs, w r.target ≠ none) :
    (browse w.space user d = .badNodeIDUnknown ↔ w.read user d.node 3 = .bad .badNodeIDUnknown) ∧
    (w.read user d.node 3 = .bad .badNodeIDUnknown ↔ ¬ Visible w user d.node) := by
  by_cases hv : Visible w user d.node
  · obtain ⟨f, hf, hu⟩ := hv
    have h3 := (read_visible hf hu).2.1
    have hb : browse w.space user d ≠ .badNodeIDUnknown := by
      have hbr : mayBrowse user f.node = true := by simpa [mayBrowse, Full.node] using hu
      unfold browse
      rw [if_neg (by omega), space_of hf]
      simp only [hbr, Bool.not_true, Bool.false_eq_true, if_false]
      split
      · intro h; cases h
      · have hsome := browseLoop_some w.space user d f.node.refs [] (fun r hr h0 => by
          refine hdang f hf r hr ?_
          unfold World.space at h0
          cases hw : w r.target with
          | none => rfl
          | some g => rw [hw] at h0; cases h0)
        cases hl : browseLoop w.space user d f.node.refs [] with
        | none => exact absurd hl hsome
        | some out => intro h; cases h
    refine ⟨⟨fun h => absurd h hb, fun h => ?_⟩, ⟨fun h => ?_, fun h => absurd ⟨f, hf, hu⟩ h⟩⟩
    · rw [h3] at h; cases h
    · rw [h3] at h; cases h
  · have h3 := read_hidden hv 3
    have hb : browse w.space user d = .badNodeIDUnknown := by
      unfold browse
      rw [if_neg (by omega)]
      cases hw : w.space d.node with
      | none => rfl
      | some n =>
        obtain ⟨f, hf, rfl⟩ := space_some hw
        have hbr : mayBrowse user f.node = false := by
          cases hm : mayBrowse user f.node with
          | false => rfl
          | true => exact absurd ⟨f, hf, by simpa [mayBrowse, Full.node] using hm⟩ hv
        simp [hbr]
    exact ⟨⟨fun _ => h3, fun _ => hb⟩, ⟨fun _ => hv, fun _ => h3⟩⟩

/-- **C142 (type definition, partial).** The type definition that Browse tells of a target is what browsing the
target for its HasTypeDefinition reference gives first. Missing: type definitions that the user may not see
(`C142_type_fails`). -/
theorem C142_type_partial (w : World) (user : Nat) (d : Description) (out : List Described)
    (h : browse w.space user d = .good out) (x : Described) (hx : x ∈ out) (td : Id) (htd : x.typeDef = some td)
    (hcl : Clear w user x.target) (hk : Known w (some ⟨0, 40⟩)) :
    ∃ y ys, browse w.space user { node := x.target, direction := 2, refType := some ⟨0, 40⟩ } = .good (y :: ys) ∧
      y.target = td := by
  obtain ⟨n, kept, _, _, _, hk', hm⟩ := C63_sound w.space user d out h
  obtain ⟨r, hr, ht⟩ := mem_match hm hx
  obtain ⟨_, t, h1, h2, _⟩ := hk' r hr
  obtain ⟨f, hf, rfl⟩ := space_some h1
  have hty := ht.typeDef _ h1
  rw [ht.target] at hcl ⊢
  have hbit : d.resultMask.testBit 5 = true := by
    cases hb : d.resultMask.testBit 5 with
    | true => rfl
    | false => rw [hty.1 (.inl hb)] at htd; cases htd
  have hcls : f.node.cls = 1 ∨ f.node.cls = 2 := by
    by_cases h1 : f.node.cls = 1
    · exact .inl h1
    · by_cases h2 : f.node.cls = 2
      · exact .inr h2
      · rw [hty.1 (.inr (.inl ⟨h1, h2⟩))] at htd; cases htd
  have hex : ∃ r' ∈ f.node.refs, r'.type = ⟨0, 40⟩ := by
    refine Classical.byContradiction fun hno => ?_
    rw [hty.1 (.inr (.inr fun r' hr' h0 => hno ⟨r', hr', h0⟩))] at htd
    cases htd
  obtain ⟨r', hr', h0⟩ := hex
  obtain ⟨before, q, after, h4, h5, h6, h7⟩ := hty.2 hbit hcls r' hr' h0
  rw [h7] at htd
  cases htd
  have h4' : f.refs = before ++ q :: after := h4
  obtain ⟨g, hg, _⟩ := hcl f hf q (by rw [h4']; simp)
  have hb := browse_clear (w := w) (user := user) (d := { node := r.target, direction := 2, refType := some ⟨0, 40⟩ })
    (Nat.le_refl 2) rfl hf h2 hk hcl
  have hno : before.filter (picks w.space { node := r.target, direction := 2, refType := some ⟨0, 40⟩ }) = [] := by
    rw [List.filter_eq_nil_iff]
    intro p hp hpick
    refine h5 p hp ?_
    simpa [picks, coversType, eq_comm] using hpick
  have hyes : picks w.space { node := r.target, direction := 2, refType := some ⟨0, 40⟩ } q = true := by
    simp [picks, coversType, h6]
  rw [hb, h4', List.filter_append, hno, List.nil_append, List.filter_cons, if_pos hyes, List.filterMap_cons, space_of hg]
  exact ⟨_, _, rfl, rfl⟩

/-! ## Browse and TranslateBrowsePathsToNodeIds -/

theorem target_eq {w : World} {id : Id} {e : Step} {f : Full} (hf : w id = some f) :
    Browse.target w.space id e =
      if ((f.refs.filter (stepMatches w.space e)).map (·.target)).isEmpty then .error .badNoMatch
      else .ok ((f.refs.filter (stepMatches w.space e)).map (·.target)) := by
  unfold Browse.target
  rw [space_of hf]
  rfl

/-- What Browse shows under the name of a path element is what target finds. -/
theorem shown_targets (s : Space) (id : Id) (e : Step) : ∀ refs : List Ref,
    ((((refs.filter (picks s (question id e))).filterMap
      (fun r => (s r.target).map (describe 63 r))).filter (fun x => decide (x.name = e.name))).map (·.target)) =
    (refs.filter (stepMatches s e)).map (·.target) := by
  intro refs
  induction refs with
  | nil => rfl
  | cons r refs ih =>
    have hdir : picks s (question id e) r = (r.inverse == e.inverse && coversType s e.refType e.subtypes r.type) := by
      unfold picks question
      cases e.inverse <;> cases r.inverse <;> simp
    have hst : stepMatches s e r = (picks s (question id e) r &&
        (match s r.target with
          | none => false
          | some n => decide (e.name = n.name))) := by
      rw [hdir]; rfl
    rw [List.filter_cons, List.filter_cons (p := stepMatches s e), hst]
    cases hp : picks s (question id e) r with
    | false => simpa using ih
    | true =>
      cases ht : s r.target with
      | none => simpa [ht] using ih
      | some n =>
        by_cases hn : n.name = e.name
        · simp [ht, describe, hn, ih]
        · have hn' : ¬ e.name = n.name := fun h => hn h.symm
          simp [ht, describe, hn, hn', ih]

/-- **C142 (one element, partial).** For a user who may see the node and its neighbours, the targets of a path of one
element are, in order, those that Browse shows under that name. Missing: neighbours the user may not see
(`C142_hidden_fails`) and reference types that are not in the table (`C142_unknown_type_fails`). -/
theorem C142_element_partial (w : World) (user : Nat) (id : Id) (e : Step) (he : e.name ≠ 0)
    (hv : Visible w user id) (hcl : Clear w user id) (hk : Known w e.refType) :
    ∃ out, browse w.space user (question id e) = .good out ∧
      translate w.space id [e] =
        (if (out.filter (fun x => decide (x.name = e.name))).isEmpty then .badNoMatch else .good,
          (out.filter (fun x => decide (x.name = e.name))).map (fun x => (x.target, none))) := by
  obtain ⟨f, hf, hu⟩ := hv
  refine ⟨_, browse_clear (d := question id e) (by unfold question; cases e.inverse <;> simp) rfl hf hu hk hcl, ?_⟩
  have key := shown_targets w.space id e f.refs
  change translate w.space id [e] = (if ((((f.refs.filter (picks w.space (question id e))).filterMap
      (fun r => (w.space r.target).map (describe 63 r))).filter (fun x => decide (x.name = e.name)))).isEmpty then
      PathStatus.badNoMatch else PathStatus.good, ((((f.refs.filter (picks w.space (question id e))).filterMap
      (fun r => (w.space r.target).map (describe 63 r))).filter (fun x => decide (x.name = e.name)))).map (fun x => (x.target, none)))
  generalize (((f.refs.filter (picks w.space (question id e))).filterMap
      (fun r => (w.space r.target).map (describe 63 r))).filter (fun x => decide (x.name = e.name))) = shown at key ⊢
  have hm : shown.map (fun x => (x.target, (none : Option Nat))) = (shown.map (·.target)).map (fun t => (t, none)) := by
    simp
  unfold translate follow
  rw [if_neg (by simp), if_neg (by simpa using he), target_eq hf, hm, key]
  cases shown with
  | nil => simp only [List.map_nil] at key; rw [← key]; rfl
  | cons x xs => simp only [List.map_cons] at key; rw [← key]; rfl

theorem target_shows {w : World} {user : Nat} {id b : Id} {e : Step} {ts : List Id}
    (hv : Visible w user id) (hcl : Clear w user id) (hk : Known w e.refType)
    (h : Browse.target w.space id e = .ok ts) (hb : b ∈ ts) : Shows w user e id b ∧ Visible w user b := by
  obtain ⟨f, hf, hu⟩ := hv
  rw [target_eq hf] at h
  split at h
  · cases h
  · cases h
    have hout := browse_clear (d := question id e) (by unfold question; cases e.inverse <;> simp) rfl hf hu hk hcl
    constructor
    · rw [← shown_targets w.space id e f.refs] at hb
      obtain ⟨x, hx, hxt⟩ := List.mem_map.1 hb
      rw [List.mem_filter] at hx
      exact ⟨_, x, hout, hx.1, by simpa using hx.2, hxt⟩
    · obtain ⟨r, hr, rfl⟩ := List.mem_map.1 hb
      exact hcl f hf r (List.mem_filter.1 hr).1

theorem follow_walks {w : World} {user : Nat} (hall : ∀ id, Clear w user id) :
    ∀ (path : List Step) (id : Id) (ts : List Target), (∀ e ∈ path, Known w e.refType) →
    Visible w user id → follow w.space id path = .ok ts → ∀ t ∈ ts, t.2 = none ∧ Walks w user path id t.1 := by
  intro path
  induction path with
  | nil => intro id ts _ _ h; cases h
  | cons e es ih =>
    intro id ts hp hv h t ht
    have hk := hp e (by simp)
    cases es with
    | nil =>
      unfold follow at h
      cases htg : Browse.target w.space id e with
      | error st => rw [htg] at h; cases h
      | ok xs =>
        rw [htg] at h
        cases h
        obtain ⟨x, hx, rfl⟩ := List.mem_map.1 ht
        exact ⟨rfl, .cons (target_shows hv (hall id) hk htg hx).1 (.nil _)⟩
    | cons e' es =>
      unfold follow at h
      rcases target_cases w.space id e with ⟨_, h1⟩ | ⟨_, _, _, h1⟩ | ⟨n, x, xs, hn, h2, h1⟩
      · rw [h1] at h; cases h
      · rw [h1] at h; cases h
      · rw [h1] at h
        simp only at h
        obtain ⟨hs, hvx⟩ := target_shows hv (hall id) hk h1 (b := x) (by simp)
        have hvx' := hvx
        obtain ⟨g, hg, _⟩ := hvx'
        rw [space_of hg] at h
        simp only at h
        obtain ⟨h3, h4⟩ := ih x ts (fun q hq => hp q (by simp [hq])) hvx h t ht
        exact ⟨h3, .cons hs h4⟩

theorem walks_last {w : World} {user : Nat} {path : List Step} {a b : Id} (h : Walks w user path a b) :
    ∀ e, path.getLast? = some e → w.read user b 3 = .good (.qualifiedName e.name) := by
  induction h with
  | nil a => intro e hl; cases hl
  | @cons e' es a b c hs hw ih =>
    intro e hl
    cases es with
    | cons e'' es => exact ih e (by simpa using hl)
    | nil =>
      cases hw
      simp only [List.getLast?_singleton, Option.some.injEq] at hl
      subst hl
      obtain ⟨out, x, hb, hx, hxn, rfl⟩ := hs
      rw [← hxn]
      exact (C142_described w user _ out hb x hx).2.1 (by change Nat.testBit 63 3 = true; decide)

/-- **C142 (paths, partial).** For a user who may see what there is, every target of a browse path of any length is
where a client gets that browses its way along the names of the path, and Read gives it the last name of the path.
Missing: nodes the user may not see (`C142_hidden_fails`); that all such targets are found (`C64_first_fails`). -/
theorem C142_path_partial (w : World) (user : Nat) (id : Id) (path : List Step) (ts : List Target)
    (hall : ∀ id, Clear w user id) (hv : Visible w user id) (hk : ∀ e ∈ path, Known w e.refType)
    (h : translate w.space id path = (.good, ts)) :
    ∀ t ∈ ts, t.2 = none ∧ Walks w user path id t.1 ∧
      ∀ e, path.getLast? = some e → w.read user t.1 3 = .good (.qualifiedName e.name) := by
  intro t ht
  unfold translate at h
  split at h
  · cases h
  · split at h
    · cases h
    · cases hf : follow w.space id path with
      | error st =>
        rw [hf] at h
        simp only [Prod.mk.injEq] at h
        exact absurd (h.1 ▸ hf) (follow_not_good path id)
      | ok xs =>
        rw [hf] at h
        simp only at h
        split at h
        · cases h
        · cases h
          obtain ⟨h1, h2⟩ := follow_walks hall path id _ hk hv hf t ht
          exact ⟨h1, h2, fun e he => walks_last h2 e he⟩

/-! ## A plant -/

/-- An object, a variable, a type or a reference type, for the examples. -/
def mk (body : Attributes.Body) (name display : Nat) (users : List Nat) (refs : List Ref) : Full :=
  { attrs := { id := name, browseName := name, displayName := display, description := 0, rolePermissions := none, body := body },
    refs := refs, users := users }

/-- A folder with a pump and a valve; the pump has a speed. Only user 9 may see the valve and the type of the pump. -/
def plant : World := fun id =>
  if id = ⟨1, 1⟩ then some (mk (.object 0) 11 111 [7, 9] [⟨hasComponent, false, ⟨1, 2⟩⟩, ⟨organizes, false, ⟨1, 3⟩⟩])
  else if id = ⟨1, 2⟩ then some (mk (.object 0) 12 112 [7, 9] [⟨hasTypeDefinition, false, ⟨1, 5⟩⟩, ⟨hasComponent, false, ⟨1, 4⟩⟩])
  else if id = ⟨1, 3⟩ then some (mk (.object 0) 13 113 [9] [])
  else if id = ⟨1, 4⟩ then some (mk (.variable_ 6 (-1) [] 1 0 false) 14 114 [7, 9] [])
  else if id = ⟨1, 5⟩ then some (mk (.objectType false) 15 115 [9] [])
  else if id = hasComponent then some (mk (.referenceType false false 0) 47 147 [7, 9] [])
  else if id = hasTypeDefinition then some (mk (.referenceType false false 0) 40 140 [7, 9] [])
  else none

theorem plant_clear : ∀ id, Clear plant 9 id := by
  intro id f hf r hr
  unfold plant at hf
  repeat' split at hf
  all_goals first | cases hf | skip
  all_goals simp [mk] at hr
  · rcases hr with rfl | rfl
    · exact ⟨_, rfl, by decide⟩
    · exact ⟨_, rfl, by decide⟩
  · rcases hr with rfl | rfl
    · exact ⟨_, rfl, by decide⟩
    · exact ⟨_, rfl, by decide⟩

theorem plant_component : Known plant (some hasComponent) := by
  intro t ht; cases ht; exact ⟨_, rfl, rfl⟩

/-- Browse of the folder by user 7 shows the pump as Read does. -/
example : browse plant.space 7 { node := ⟨1, 1⟩, refType := some hasComponent } =
      .good [⟨some hasComponent, true, ⟨1, 2⟩, 1, 12, 112, some ⟨1, 5⟩⟩] ∧
    plant.read 7 ⟨1, 2⟩ 2 = .good (.int32 1) ∧ plant.read 7 ⟨1, 2⟩ 3 = .good (.qualifiedName 12) ∧
    plant.read 7 ⟨1, 2⟩ 4 = .good (.localizedText 112) := by decide +kernel

/-- The hypotheses of `C142_exists_partial` hold of the folder. -/
example : browse plant.space 8 { node := ⟨1, 1⟩ } = .badNodeIDUnknown := by
  refine (C142_exists_partial plant 8 { node := ⟨1, 1⟩ } (by decide) ?_).1.2 (by decide)
  intro f hf r hr h0
  obtain ⟨g, hg, _⟩ := plant_clear ⟨1, 1⟩ f hf r hr
  rw [hg] at h0; cases h0

/-- The hypotheses of `C142_type_partial` hold of the pump as user 9 sees it. -/
example : ∃ y ys, browse plant.space 9 { node := ⟨1, 2⟩, direction := 2, refType := some ⟨0, 40⟩ } = .good (y :: ys) ∧
    y.target = ⟨1, 5⟩ :=
  C142_type_partial plant 9 { node := ⟨1, 1⟩, refType := some hasComponent } _ (by decide +kernel)
    ⟨some hasComponent, true, ⟨1, 2⟩, 1, 12, 112, some ⟨1, 5⟩⟩ (List.mem_singleton.2 rfl) _ rfl (plant_clear _)
    (by intro t ht; cases ht; exact ⟨_, rfl, rfl⟩)

/-- The hypotheses of `C142_element_partial` and `C142_path_partial` hold of the plant as user 9 sees it. -/
example : ∃ out, browse plant.space 9 (question ⟨1, 1⟩ { refType := some hasComponent, name := 12 }) = .good out ∧
    out.length = 1 ∧ translate plant.space ⟨1, 1⟩ [{ refType := some hasComponent, name := 12 }] = (.good, [(⟨1, 2⟩, none)]) := by
  obtain ⟨out, h1, h2⟩ := C142_element_partial plant 9 ⟨1, 1⟩ { refType := some hasComponent, name := 12 } (by decide)
    ⟨_, rfl, by decide⟩ (plant_clear _) plant_component
  have h3 : browse plant.space 9 (question ⟨1, 1⟩ { refType := some hasComponent, name := 12 }) =
      .good [⟨some hasComponent, true, ⟨1, 2⟩, 1, 12, 112, some ⟨1, 5⟩⟩] := by decide +kernel
  rw [h3] at h1
  cases h1
  exact ⟨_, h3, rfl, h2⟩

example : Walks plant 9 [{ refType := some hasComponent, name := 12 }, { name := 14 }] ⟨1, 1⟩ ⟨1, 4⟩ ∧
    plant.read 9 ⟨1, 4⟩ 3 = .good (.qualifiedName 14) := by
  obtain ⟨_, h1, h2⟩ := C142_path_partial plant 9 ⟨1, 1⟩ [{ refType := some hasComponent, name := 12 }, { name := 14 }]
    [(⟨1, 4⟩, none)] plant_clear ⟨_, rfl, by decide⟩ (by
      intro e he
      simp only [List.mem_cons, List.not_mem_nil, or_false] at he
      rcases he with rfl | rfl
      · exact plant_component
      · intro t ht; cases ht) (by decide +kernel) (⟨1, 4⟩, none) (List.mem_singleton.2 rfl)
  exact ⟨h1, h2 _ rfl⟩

/-- **C142 fails (hidden nodes).** User 7 may not see the valve: Browse does not show it and Read calls it unknown, but
a browse path of the same session finds it, and tells that it has this name. -/
theorem C142_hidden_fails : plant.read 7 ⟨1, 3⟩ 3 = .bad .badNodeIDUnknown ∧
    browse plant.space 7 (question ⟨1, 1⟩ { refType := none, name := 13 }) =
      .good [⟨some hasComponent, true, ⟨1, 2⟩, 1, 12, 112, some ⟨1, 5⟩⟩] ∧
    translate plant.space ⟨1, 1⟩ [{ refType := none, name := 13 }] = (.good, [(⟨1, 3⟩, none)]) := by
  decide +kernel

/-- **C142 fails (type definition).** Browse tells user 7 a type definition that Read, and Browse itself, call
unknown. -/
theorem C142_type_fails :
    browse plant.space 7 { node := ⟨1, 1⟩, refType := some hasComponent } =
      .good [⟨some hasComponent, true, ⟨1, 2⟩, 1, 12, 112, some ⟨1, 5⟩⟩] ∧
    browse plant.space 7 { node := ⟨1, 2⟩, direction := 2, refType := some hasTypeDefinition } = .good [] ∧
    plant.read 7 ⟨1, 5⟩ 3 = .bad .badNodeIDUnknown ∧ browse plant.space 7 { node := ⟨1, 5⟩ } = .badNodeIDUnknown := by
  decide +kernel

/-- **C142 fails (reference types).** The type of a reference, here Organizes, is not in the table: Browse refuses the
question, TranslateBrowsePathsToNodeIds answers it. -/
theorem C142_unknown_type_fails :
    browse plant.space 9 (question ⟨1, 1⟩ { refType := some organizes, name := 13 }) = .badReferenceTypeIDInvalid ∧
    translate plant.space ⟨1, 1⟩ [{ refType := some organizes, name := 13 }] = (.good, [(⟨1, 3⟩, none)]) := by
  decide +kernel

/-- A folder with a reference to a node that is not there. -/
def torn : World := fun id =>
  if id = ⟨1, 1⟩ then some (mk (.object 0) 11 111 [7] [⟨organizes, false, ⟨1, 3⟩⟩]) else none

/-- **C142 fails (dangling references).** Browse calls a node unknown that Read reads. -/
theorem C142_dangling_fails : browse torn.space 7 { node := ⟨1, 1⟩ } = .badNodeIDUnknown ∧
    torn.read 7 ⟨1, 1⟩ 3 = .good (.qualifiedName 11) := by
  decide +kernel

end Opcua.Picture
