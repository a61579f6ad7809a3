import Verif.Model.Browse
import Verif.Props.SpaceQueries

/-!
# C63, C64: Browse and browse paths

`Wanted` and `Shown` say which references a browse description asks for, `Tells` which fields of a
reference it asks for, and `Reaches` where a path leads; none of them mentions the loops of the code.
-/

namespace Opcua.Browse

open Opcua.AddressSpace

/-! ## C63: Browse -/

/-- The reference type `want` (any if none), its subtypes included if `sub`, covers the type `actual`. -/
def Covers (s : Space) (want : Option Id) (sub : Bool) (actual : Id) : Prop :=
  want = none ∨ want = some actual ∨ (sub = true ∧ ∃ t k, want = some t ∧ 1 ≤ k ∧ Hops s k actual t)

/-- A reference of the wanted direction and type. -/
def Wanted (s : Space) (d : Description) (r : Ref) : Prop :=
  (d.direction = 0 ∧ r.inverse = false ∨ d.direction = 1 ∧ r.inverse = true ∨ d.direction = 2) ∧
  Covers s d.refType d.subtypes r.type

/-- A wanted reference to an existing node of a wanted class that the user may browse. -/
def Shown (s : Space) (user : Nat) (d : Description) (r : Ref) : Prop :=
  Wanted s d r ∧ ∃ t, s r.target = some t ∧ user ∈ t.users ∧ (d.classMask = 0 ∨ d.classMask &&& t.cls ≠ 0)

/-- `x` tells the requested fields of the reference `r`, and no others. -/
structure Tells (s : Space) (mask : Nat) (r : Ref) (x : Described) : Prop where
  target : x.target = r.target
  refType : x.refType = if mask.testBit 0 then some r.type else none
  forward : x.forward = true ↔ mask.testBit 1 ∧ r.inverse = false
  cls : ∀ t, s r.target = some t → x.cls = if mask.testBit 2 then t.cls else 0
  name : ∀ t, s r.target = some t → x.name = if mask.testBit 3 then t.name else 0
  display : ∀ t, s r.target = some t → x.display = if mask.testBit 4 then t.display else 0
  typeDef : ∀ t, s r.target = some t →
    (mask.testBit 5 = false ∨ (t.cls ≠ 1 ∧ t.cls ≠ 2) ∨ (∀ r' ∈ t.refs, r'.type ≠ ⟨0, 40⟩) → x.typeDef = none) ∧
    (mask.testBit 5 = true → t.cls = 1 ∨ t.cls = 2 → ∀ r', r' ∈ t.refs → r'.type = ⟨0, 40⟩ →
      ∃ before r'' after, t.refs = before ++ r'' :: after ∧ (∀ q ∈ before, q.type ≠ ⟨0, 40⟩) ∧ r''.type = ⟨0, 40⟩ ∧
        x.typeDef = some r''.target)

/-- The lists have the same length and corresponding members are related. -/
inductive Match {α β : Type} (p : α → β → Prop) : List α → List β → Prop
  | nil : Match p [] []
  | cons {a b as bs} : p a b → Match p as bs → Match p (a :: as) (b :: bs)

/-- Every chain of supertypes has a shortcut of at most 101 references. -/
def Shallow (s : Space) : Prop := ∀ a b k, 1 ≤ k → Hops s k a b → ∃ j, 1 ≤ j ∧ j ≤ 101 ∧ Hops s j a b

theorem and_pow_ne (m i : Nat) : (m &&& 2 ^ i ≠ 0) ↔ m.testBit i = true := by
  constructor
  · intro h
    refine Classical.byContradiction fun hb => h (Nat.eq_of_testBit_eq fun j => ?_)
    simp only [Nat.testBit_and, Nat.testBit_two_pow, Nat.zero_testBit]
    by_cases hj : i = j
    · subst hj; simp [hb]
    · simp [hj]
  · intro h h0
    have : (m &&& 2 ^ i).testBit i = true := by simp [h]
    rw [h0] at this
    simp at this

theorem describe_tells (s : Space) (m : Nat) (r : Ref) (t : Node) (ht : s r.target = some t) :
    Tells s m r (describe m r t) := by
  have b0 := and_pow_ne m 0
  have b1 := and_pow_ne m 1
  have b2 := and_pow_ne m 2
  have b3 := and_pow_ne m 3
  have b4 := and_pow_ne m 4
  have b5 := and_pow_ne m 5
  simp only [Nat.reducePow] at b0 b1 b2 b3 b4 b5
  constructor
  · rfl
  · simp only [describe, b0]
  · simp only [describe, b1]
    cases m.testBit 1 <;> simp
  · intro t' ht'; rw [ht] at ht'; cases ht'; simp only [describe, b2]
  · intro t' ht'; rw [ht] at ht'; cases ht'; simp only [describe, b3]
  · intro t' ht'; rw [ht] at ht'; cases ht'; simp only [describe, b4]
  · intro t' ht'
    rw [ht] at ht'; cases ht'
    simp only [describe, b5]
    constructor
    · rintro (h | h | h)
      · simp [h]
      · simp [h.1, h.2]
      · have hf : t.refs.find? (fun tr => decide (tr.type = hasTypeDefinition)) = none := by
          rw [List.find?_eq_none]
          intro r' hr'
          simpa using h r' hr'
        rw [hf]
        simp
    · intro h1 h2 r' hr' hty
      simp only [h1, if_true, if_pos h2]
      cases hf : t.refs.find? (fun tr => decide (tr.type = hasTypeDefinition)) with
      | none =>
        rw [List.find?_eq_none] at hf
        exact absurd (hf r' hr') (by simp [hty])
      | some q =>
        obtain ⟨h3, before, after, h4, h5⟩ := List.find?_eq_some_iff_append.1 hf
        exact ⟨before, q, after, h4, fun p hp => by simpa using h5 p hp, by simpa using h3, rfl⟩

theorem covers_sound {s : Space} {want : Option Id} {sub : Bool} {ty : Id}
    (h : coversType s want sub ty = true) : Covers s want sub ty := by
  unfold coversType at h
  cases want with
  | none => exact .inl rfl
  | some t =>
    simp only [Bool.or_eq_true, decide_eq_true_eq, Bool.and_eq_true] at h
    rcases h with h | ⟨h1, h2⟩
    · exact .inr (.inl (by rw [h]))
    · obtain ⟨k, hk, hh⟩ := C61_sound s _ _ h2
      exact .inr (.inr ⟨h1, t, k, rfl, hk, hh⟩)

theorem covers_complete {s : Space} (hs : SingleInheritance s) (hd : Shallow s) {want : Option Id} {sub : Bool} {ty : Id}
    (h : Covers s want sub ty) : coversType s want sub ty = true := by
  unfold coversType
  rcases h with rfl | rfl | ⟨h1, t, k, rfl, hk, hh⟩
  · rfl
  · simp
  · obtain ⟨j, h2, h3, h4⟩ := hd _ _ _ hk hh
    simp [h1, (C61_exact_partial s hs ty t).2 ⟨j, h2, h3, h4⟩]

theorem picks_sound {s : Space} {d : Description} {r : Ref} (hd : d.direction ≤ 2) (h : picks s d r = true) :
    Wanted s d r := by
  unfold picks at h
  rw [Bool.and_eq_true] at h
  refine ⟨?_, covers_sound h.2⟩
  have h1 := h.1
  have : d.direction = 0 ∨ d.direction = 1 ∨ d.direction = 2 := by omega
  rcases this with h0 | h0 | h0 <;> simp [h0] at h1 ⊢ <;> exact h1

theorem picks_complete {s : Space} (hs : SingleInheritance s) (hsh : Shallow s) {d : Description} {r : Ref}
    (h : Wanted s d r) : picks s d r = true := by
  unfold picks
  rw [Bool.and_eq_true]
  refine ⟨?_, covers_complete hs hsh h.2⟩
  rcases h.1 with ⟨h0, h1⟩ | ⟨h0, h1⟩ | h0
  · simp [h0, h1]
  · simp [h0, h1]
  · simp [h0]

theorem Match.snoc {α β : Type} {p : α → β → Prop} {as : List α} {bs : List β} {a : α} {b : β}
    (h : Match p as bs) (hab : p a b) : Match p (as ++ [a]) (bs ++ [b]) := by
  induction h with
  | nil => exact .cons hab .nil
  | cons h _ ih => exact .cons h ih

open Classical in
theorem browseLoop_exact {s : Space} (hs : SingleInheritance s) (hsh : Shallow s) (user : Nat) (d : Description)
    (hd : d.direction ≤ 2) : ∀ (refs done : List Ref) (out : List Described),
    (∀ r ∈ refs, Wanted s d r → s r.target ≠ none) →
    Match (Tells s d.resultMask) done out →
    ∃ all, browseLoop s user d refs out = some all ∧
      Match (Tells s d.resultMask) (done ++ refs.filter (fun r => decide (Shown s user d r))) all := by
  intro refs
  induction refs with
  | nil => intro done out _ hm; exact ⟨out, rfl, by simpa using hm⟩
  | cons r refs ih =>
    intro done out hdang hm
    have hrest : ∀ r ∈ refs, Wanted s d r → s r.target ≠ none := fun r hr => hdang r (List.mem_cons_of_mem _ hr)
    have skip : ¬ Shown s user d r → (r :: refs).filter (fun r => decide (Shown s user d r)) = refs.filter (fun r => decide (Shown s user d r)) := by
      intro h; rw [List.filter_cons, if_neg (by simpa using h)]
    unfold browseLoop
    cases hp : picks s d r with
    | false =>
      have hw : ¬ Wanted s d r := fun h => by rw [picks_complete hs hsh h] at hp; cases hp
      simp only [Bool.not_false, if_true]
      rw [skip (fun h => hw h.1)]
      exact ih done out hrest hm
    | true =>
      have hw := picks_sound hd hp
      simp only [Bool.not_true, Bool.false_eq_true, if_false]
      cases ht : s r.target with
      | none => exact absurd ht (hdang r List.mem_cons_self hw)
      | some t =>
        simp only
        cases hb : mayBrowse user t with
        | false =>
          simp only [Bool.not_false, if_true]
          rw [skip ?_]
          · exact ih done out hrest hm
          · rintro ⟨_, t', ht', hu, _⟩
            rw [ht] at ht'; cases ht'
            simp [mayBrowse, hu] at hb
        | true =>
          simp only [Bool.not_true, Bool.false_eq_true, if_false]
          have hu : user ∈ t.users := by simpa [mayBrowse] using hb
          by_cases hc : d.classMask = 0 ∨ d.classMask &&& t.cls ≠ 0
          · have hc' : (decide (d.classMask = 0) || decide (d.classMask &&& t.cls ≠ 0)) = true := by simpa using hc
            simp only [hc', Bool.not_true, Bool.false_eq_true, if_false]
            have hsn : Shown s user d r := ⟨hw, t, ht, hu, hc⟩
            rw [List.filter_cons, if_pos (by simpa using hsn)]
            have := ih (done ++ [r]) (out ++ [describe d.resultMask r t]) hrest (hm.snoc (describe_tells s _ r t ht))
            simpa using this
          · have hc' : (decide (d.classMask = 0) || decide (d.classMask &&& t.cls ≠ 0)) = false := by simpa using hc
            simp only [hc', Bool.not_false, if_true]
            rw [skip ?_]
            · exact ih done out hrest hm
            · rintro ⟨_, t', ht', _, h⟩
              rw [ht] at ht'; cases ht'
              exact hc h

theorem browseLoop_sound {s : Space} (user : Nat) (d : Description) (hd : d.direction ≤ 2) :
    ∀ (refs : List Ref) (out all : List Described), browseLoop s user d refs out = some all →
    ∃ kept, kept.Sublist refs ∧ (∀ r ∈ kept, Shown s user d r) ∧
      ∃ more, all = out ++ more ∧ Match (Tells s d.resultMask) kept more := by
  intro refs
  induction refs with
  | nil =>
    intro out all h
    cases h
    exact ⟨[], .refl _, by simp, [], by simp, .nil⟩
  | cons r refs ih =>
    intro out all h
    unfold browseLoop at h
    have skip : browseLoop s user d refs out = some all → ∃ kept, kept.Sublist (r :: refs) ∧
        (∀ r ∈ kept, Shown s user d r) ∧ ∃ more, all = out ++ more ∧ Match (Tells s d.resultMask) kept more := by
      intro h
      obtain ⟨kept, h1, h2⟩ := ih out all h
      exact ⟨kept, h1.cons r, h2⟩
    cases hp : picks s d r with
    | false => simp only [hp, Bool.not_false, if_true] at h; exact skip h
    | true =>
      simp only [hp, Bool.not_true, Bool.false_eq_true, if_false] at h
      cases ht : s r.target with
      | none => rw [ht] at h; cases h
      | some t =>
        simp only [ht] at h
        cases hb : mayBrowse user t with
        | false => simp only [hb, Bool.not_false, if_true] at h; exact skip h
        | true =>
          simp only [hb, Bool.not_true, Bool.false_eq_true, if_false] at h
          split at h
          · exact skip h
          · rename_i hc
            obtain ⟨kept, h1, h2, more, h3, h4⟩ := ih _ all h
            refine ⟨r :: kept, h1.cons_cons r, ?_, describe d.resultMask r t :: more, by simpa using h3, .cons (describe_tells s _ r t ht) h4⟩
            intro q hq
            rcases List.mem_cons.1 hq with rfl | hq
            · exact ⟨picks_sound hd hp, t, ht, by simpa [mayBrowse] using hb, by
              exact Classical.byContradiction fun h0 => hc (by simp only [not_or] at h0; simp [h0.1, Classical.not_not.1 h0.2])⟩
            · exact h2 q hq

/-- The reference type of the description is nil or a reference type of the table. -/
def TypeKnown (s : Space) (d : Description) : Prop :=
  ∀ t, d.refType = some t → ∃ n, s t = some n ∧ n.cls = 32

theorem browse_good {s : Space} {user : Nat} {d : Description} {n : Node} (hd : d.direction ≤ 2)
    (hn : s d.node = some n) (hu : user ∈ n.users) (ht : TypeKnown s d) :
    browse s user d = match browseLoop s user d n.refs [] with
      | none => .badNodeIDUnknown
      | some out => .good out := by
  unfold browse
  rw [if_neg (by omega), hn]
  have hb : mayBrowse user n = true := by simpa [mayBrowse] using hu
  simp only [hb, Bool.not_true, Bool.false_eq_true, if_false]
  have hk : typeKnown s d.refType = true := by
    unfold typeKnown
    cases hr : d.refType with
    | none => rfl
    | some t =>
      obtain ⟨m, hm, hc⟩ := ht t hr
      simp [hm, hc]
  simp only [hk, Bool.not_true, Bool.false_eq_true, if_false]
  rfl

open Classical in
/-- **C63 (partial).** Browse of an existing node, that the user may browse, lists in order exactly the
shown references, each with the requested fields. Missing: references to nodes not in the table
(`C63_dangling_fails`), and types with several supertypes or more than 101 (`C61_multiple_fails`,
`C61_long_fails`). -/
theorem C63_exact_partial (s : Space) (hs : SingleInheritance s) (hsh : Shallow s) (user : Nat) (d : Description)
    (n : Node) (hd : d.direction ≤ 2) (hn : s d.node = some n) (hu : user ∈ n.users) (ht : TypeKnown s d)
    (hdang : ∀ r ∈ n.refs, Wanted s d r → s r.target ≠ none) :
    ∃ out, browse s user d = .good out ∧
      Match (Tells s d.resultMask) (n.refs.filter (fun r => decide (Shown s user d r))) out := by
  rw [browse_good hd hn hu ht]
  obtain ⟨all, h1, h2⟩ := browseLoop_exact hs hsh user d hd n.refs [] [] hdang .nil
  exact ⟨all, by rw [h1], by simpa using h2⟩

/-- **C63 (soundness).** In every address space, a good answer lists only shown references of the node, in
their order and each at most once, and the user may browse the node itself. -/
theorem C63_sound (s : Space) (user : Nat) (d : Description) (out : List Described) (h : browse s user d = .good out) :
    ∃ n kept, s d.node = some n ∧ user ∈ n.users ∧ kept.Sublist n.refs ∧ (∀ r ∈ kept, Shown s user d r) ∧
      Match (Tells s d.resultMask) kept out := by
  unfold browse at h
  split at h
  · cases h
  · rename_i hd
    cases hn : s d.node with
    | none => rw [hn] at h; cases h
    | some n =>
      simp only [hn] at h
      cases hb : mayBrowse user n with
      | false => simp [hb] at h
      | true =>
        simp only [hb, Bool.not_true, Bool.false_eq_true, if_false] at h
        split at h
        · cases h
        · cases hl : browseLoop s user d n.refs [] with
          | none => rw [hl] at h; cases h
          | some all =>
            rw [hl] at h; cases h
            obtain ⟨kept, h1, h2, more, h3, h4⟩ := browseLoop_sound user d (by omega) _ _ _ hl
            simp only [List.nil_append] at h3
            exact ⟨n, kept, rfl, by simpa [mayBrowse] using hb, h1, h2, h3 ▸ h4⟩

/-- **C63 (hidden nodes).** Browsing a node the user may not browse tells the user no more than browsing a
node that is not in the table. -/
theorem C63_hidden (s : Space) (user : Nat) (d : Description) (n : Node) (hn : s d.node = some n) (hu : user ∉ n.users) :
    browse s user d = browse (fun id => if id = d.node then none else s id) user d := by
  unfold browse
  split
  · rfl
  · have : mayBrowse user n = false := by simpa [mayBrowse] using hu
    simp [hn, this]

/-- **C63 (reference type).** A reference type that is not a node of the class ReferenceType is refused, whatever
the references of the node, and no other one is. -/
theorem C63_type (s : Space) (user : Nat) (d : Description) (n : Node) (hd : d.direction ≤ 2)
    (hn : s d.node = some n) (hu : user ∈ n.users) :
    browse s user d = .badReferenceTypeIDInvalid ↔ ¬ TypeKnown s d := by
  constructor
  · intro h ht
    rw [browse_good hd hn hu ht] at h
    split at h <;> cases h
  · intro h
    have hb : mayBrowse user n = true := by simpa [mayBrowse] using hu
    have hk : typeKnown s d.refType = false := by
      refine Classical.byContradiction fun hc => h ?_
      simp only [Bool.not_eq_false] at hc
      intro t ht
      rw [ht] at hc
      unfold typeKnown at hc
      cases hs : s t with
      | none => simp [hs] at hc
      | some m => exact ⟨m, rfl, by simpa [hs] using hc⟩
    unfold browse
    rw [if_neg (by omega), hn]
    simp [hb, hk]

/-- A folder with components 2 (an object), 3 (a variable) and 4 (an object that only user 9 may browse), and a
reference to its own folder. -/
def folder : Space := fun id =>
  if id = ⟨1, 1⟩ then some { refs := [⟨organizes, true, ⟨1, 5⟩⟩, ⟨hasComponent, false, ⟨1, 2⟩⟩, ⟨hasComponent, false, ⟨1, 3⟩⟩, ⟨organizes, false, ⟨1, 2⟩⟩, ⟨hasComponent, false, ⟨1, 4⟩⟩], users := [7, 9] }
  else if id = ⟨1, 2⟩ then some { refs := [⟨hasTypeDefinition, false, ⟨0, 58⟩⟩], cls := 1, name := 12, users := [7, 9], display := 112 }
  else if id = ⟨1, 3⟩ then some { refs := [], cls := 2, name := 13, users := [7, 9] }
  else if id = ⟨1, 4⟩ then some { refs := [], cls := 1, name := 14, users := [9] }
  else if id = ⟨1, 5⟩ then some { refs := [], cls := 1, name := 15, users := [7, 9] }
  else if id = hasComponent then some { refs := [], cls := 32, users := [7, 9] }
  else none

example : browse folder 7 { node := ⟨1, 1⟩, refType := some hasComponent, classMask := 1 } =
    .good [⟨some hasComponent, true, ⟨1, 2⟩, 1, 12, 112, some ⟨0, 58⟩⟩] := by decide +kernel
example : browse folder 9 { node := ⟨1, 1⟩, refType := some hasComponent, classMask := 1, resultMask := 8 } =
    .good [⟨none, false, ⟨1, 2⟩, 0, 12, 0, none⟩, ⟨none, false, ⟨1, 4⟩, 0, 14, 0, none⟩] := by decide +kernel
example : browse folder 7 { node := ⟨1, 4⟩ } = .badNodeIDUnknown := by decide +kernel
example : browse folder 7 { node := ⟨1, 1⟩, refType := some ⟨1, 2⟩ } = .badReferenceTypeIDInvalid := by decide +kernel
example : browse folder 7 { node := ⟨1, 1⟩, direction := 3 } = .badBrowseDirectionInvalid := by decide +kernel

theorem folder_noSuper (a b : Id) : ¬ IsSuper folder a b := by
  rintro ⟨n, hn, hr⟩
  unfold folder at hn
  repeat' split at hn
  all_goals first | cases hn | skip
  all_goals simp [organizes, hasComponent, hasSubtype, hasTypeDefinition] at hr

/-- The hypotheses of `C63_exact_partial` hold of the folder. -/
example : ∃ out, browse folder 7 { node := ⟨1, 1⟩, direction := 2 } = .good out ∧ out.length = 4 := by
  obtain ⟨out, h, _⟩ := C63_exact_partial folder (fun a b _ h => absurd h (folder_noSuper a b))
    (fun a b k hk h => by cases h with
      | zero => omega
      | succ h _ => exact absurd h (folder_noSuper _ _)) 7 { node := ⟨1, 1⟩, direction := 2 } _ (by decide) rfl (by decide)
    (fun t h => by cases h) (fun r hr _ => by
      revert hr
      have key : ∀ r ∈ ((folder ⟨1, 1⟩).map (·.refs)).getD [], folder r.target ≠ none := by decide +kernel
      exact key r)
  refine ⟨out, h, ?_⟩
  have h2 : browse folder 7 { node := ⟨1, 1⟩, direction := 2 } = .good
      [⟨some organizes, false, ⟨1, 5⟩, 1, 15, 0, none⟩, ⟨some hasComponent, true, ⟨1, 2⟩, 1, 12, 112, some ⟨0, 58⟩⟩,
       ⟨some hasComponent, true, ⟨1, 3⟩, 2, 13, 0, none⟩, ⟨some organizes, true, ⟨1, 2⟩, 1, 12, 112, some ⟨0, 58⟩⟩] := by decide +kernel
  rw [h2] at h
  cases h
  rfl

/-- A node with a component and a reference to a node that is not in the table. -/
def dangling : Space := fun id =>
  if id = ⟨1, 1⟩ then some { refs := [⟨hasComponent, false, ⟨1, 2⟩⟩, ⟨organizes, false, ⟨1, 3⟩⟩], users := [7] }
  else if id = ⟨1, 2⟩ then some { refs := [⟨hasComponent, true, ⟨1, 1⟩⟩], users := [7] }
  else none

/-- **C63 fails (dangling references).** One reference to a node that is not in the table, and Browse answers
that the browsed node is unknown, though the user may browse it and its component. -/
theorem C63_dangling_fails : ∃ n r, dangling ⟨1, 1⟩ = some n ∧ 7 ∈ n.users ∧ r ∈ n.refs ∧
    Shown dangling 7 { node := ⟨1, 1⟩ } r ∧ browse dangling 7 { node := ⟨1, 1⟩ } = .badNodeIDUnknown :=
  ⟨_, ⟨hasComponent, false, ⟨1, 2⟩⟩, rfl, by decide, by decide,
    ⟨⟨.inl ⟨rfl, rfl⟩, .inl rfl⟩, _, rfl, by decide, .inl rfl⟩, by decide +kernel⟩

/-! ## C64: browse paths -/

/-- One step of a path leads from `a` to `b`. -/
def Leads (s : Space) (e : Step) (a b : Id) : Prop :=
  ∃ n m r, s a = some n ∧ s b = some m ∧ r ∈ n.refs ∧ r.target = b ∧ r.inverse = e.inverse ∧
    Covers s e.refType e.subtypes r.type ∧ m.name = e.name

/-- The path leads from `a` to `b`. -/
inductive Reaches (s : Space) : List Step → Id → Id → Prop
  | nil (a : Id) : Reaches s [] a a
  | cons {e es a b c} : Leads s e a b → Reaches s es b c → Reaches s (e :: es) a c

theorem stepMatches_sound {s : Space} {e : Step} {r : Ref} {a : Id} {n : Node} (hn : s a = some n) (hr : r ∈ n.refs)
    (h : stepMatches s e r = true) : Leads s e a r.target := by
  unfold stepMatches at h
  simp only [Bool.and_eq_true] at h
  obtain ⟨⟨h1, h2⟩, h3⟩ := h
  cases ht : s r.target with
  | none => rw [ht] at h3; cases h3
  | some m =>
    simp only [ht, decide_eq_true_eq] at h3
    exact ⟨n, m, r, hn, ht, hr, rfl, by simpa using h1, covers_sound h2, h3.symm⟩

theorem stepMatches_complete {s : Space} (hs : SingleInheritance s) (hsh : Shallow s) {e : Step} {a b : Id}
    (h : Leads s e a b) : ∃ n r, s a = some n ∧ r ∈ n.refs ∧ r.target = b ∧ stepMatches s e r = true := by
  obtain ⟨n, m, r, hn, hm, hr, rfl, hi, hc, hname⟩ := h
  refine ⟨n, r, hn, hr, rfl, ?_⟩
  unfold stepMatches
  simp only [Bool.and_eq_true]
  exact ⟨⟨by simpa using hi, covers_complete hs hsh hc⟩, by simp [hm, hname]⟩

theorem target_cases (s : Space) (id : Id) (e : Step) :
    (s id = none ∧ target s id e = .error .badNodeIDUnknown) ∨
    (∃ n, s id = some n ∧ (n.refs.filter (stepMatches s e)).map (·.target) = [] ∧ target s id e = .error .badNoMatch) ∨
    (∃ n x xs, s id = some n ∧ (n.refs.filter (stepMatches s e)).map (·.target) = x :: xs ∧ target s id e = .ok (x :: xs)) := by
  unfold target
  cases hn : s id with
  | none => exact .inl ⟨rfl, rfl⟩
  | some n =>
    cases ht : (n.refs.filter (stepMatches s e)).map (·.target) with
    | nil => exact .inr (.inl ⟨n, rfl, ht, by simp [ht]⟩)
    | cons x xs => exact .inr (.inr ⟨n, x, xs, rfl, ht, by simp [ht]⟩)

theorem target_leads {s : Space} {id b : Id} {e : Step} {ts : List Id} (h : target s id e = .ok ts) (hb : b ∈ ts) :
    Leads s e id b := by
  rcases target_cases s id e with ⟨_, h1⟩ | ⟨_, _, _, h1⟩ | ⟨n, x, xs, hn, h2, h1⟩
  · rw [h1] at h; cases h
  · rw [h1] at h; cases h
  · rw [h1] at h; cases h
    rw [← h2, List.mem_map] at hb
    obtain ⟨r, hr, rfl⟩ := hb
    rw [List.mem_filter] at hr
    exact stepMatches_sound hn hr.1 hr.2

theorem leads_target {s : Space} (hs : SingleInheritance s) (hsh : Shallow s) {id b : Id} {e : Step}
    (h : Leads s e id b) : ∃ ts, target s id e = .ok ts ∧ b ∈ ts := by
  obtain ⟨n, r, hn, hr, rfl, hm⟩ := stepMatches_complete hs hsh h
  have hin : r.target ∈ (n.refs.filter (stepMatches s e)).map (·.target) :=
    List.mem_map.2 ⟨r, List.mem_filter.2 ⟨hr, hm⟩, rfl⟩
  rcases target_cases s id e with ⟨h0, _⟩ | ⟨n', h0, h1, _⟩ | ⟨n', x, xs, h0, h2, h1⟩
  · rw [hn] at h0; cases h0
  · rw [hn] at h0; cases h0; rw [h1] at hin; cases hin
  · rw [hn] at h0; cases h0; exact ⟨_, h1, h2 ▸ hin⟩

theorem follow_sound {s : Space} : ∀ (path : List Step) (id : Id) (ts : List Target), follow s id path = .ok ts →
    ∀ t ∈ ts, t.2 = none ∧ Reaches s path id t.1 := by
  intro path
  induction path with
  | nil => intro id ts h; cases h
  | cons e es ih =>
    intro id ts h
    cases es with
    | nil =>
      unfold follow at h
      cases ht : target s id e with
      | error st => rw [ht] at h; cases h
      | ok xs =>
        rw [ht] at h; cases h
        intro t htm
        obtain ⟨x, hx, rfl⟩ := List.mem_map.1 htm
        exact ⟨rfl, .cons (target_leads ht hx) (.nil _)⟩
    | cons e' es =>
      unfold follow at h
      rcases target_cases s id e with ⟨_, h1⟩ | ⟨_, _, _, h1⟩ | ⟨n, x, xs, hn, h2, h1⟩
      · rw [h1] at h; cases h
      · rw [h1] at h; cases h
      · rw [h1] at h
        simp only at h
        have hl := target_leads h1 (b := x) (by simp)
        have hl' := hl
        obtain ⟨_, m, _, _, hm, _⟩ := hl'
        rw [hm] at h
        simp only at h
        intro t htm
        obtain ⟨h3, h4⟩ := ih x ts h t htm
        exact ⟨h3, .cons hl h4⟩

theorem follow_not_good {s : Space} : ∀ (path : List Step) (id : Id), follow s id path ≠ .error .good := by
  intro path
  induction path with
  | nil => intro id hf; cases hf
  | cons e es ih =>
    intro id hf
    cases es with
    | nil =>
      unfold follow at hf
      rcases target_cases s id e with ⟨_, h1⟩ | ⟨_, _, _, h1⟩ | ⟨n, x, xs, hn, h2, h1⟩ <;> rw [h1] at hf <;> cases hf
    | cons e' es =>
      unfold follow at hf
      rcases target_cases s id e with ⟨_, h1⟩ | ⟨_, _, _, h1⟩ | ⟨n, x, xs, hn, h2, h1⟩
      · rw [h1] at hf; cases hf
      · rw [h1] at hf; cases hf
      · rw [h1] at hf
        simp only at hf
        split at hf
        · exact ih _ hf
        · cases hf

/-- **C64 (soundness, partial).** In every address space, every target of a good answer is reached by the
whole path. Missing: the user may not be allowed to browse it (`C64_permission_fails`). -/
theorem C64_sound_partial (s : Space) (id : Id) (path : List Step) (ts : List Target) (h : translate s id path = (.good, ts)) :
    ts ≠ [] ∧ ∀ t ∈ ts, t.2 = none ∧ Reaches s path id t.1 := by
  unfold translate at h
  split at h
  · cases h
  · split at h
    · cases h
    · cases hf : follow s id path with
      | error st =>
        rw [hf] at h
        simp only [Prod.mk.injEq] at h
        exact absurd (h.1 ▸ hf) (follow_not_good path id)
      | ok xs =>
        rw [hf] at h
        simp only at h
        split at h
        · cases h
        · rename_i hne
          cases h
          exact ⟨by simpa using hne, follow_sound path id _ hf⟩

/-- Every element of the path but the last leads to at most one node, from wherever the path goes. -/
def Unambiguous (s : Space) : List Step → Id → Prop
  | [], _ => True
  | [_], _ => True
  | e :: es, id => ∀ b c, Leads s e id b → Leads s e id c → b = c ∧ Unambiguous s es b

theorem follow_complete {s : Space} (hs : SingleInheritance s) (hsh : Shallow s) : ∀ (path : List Step) (id b : Id),
    path ≠ [] → Unambiguous s path id → Reaches s path id b → ∃ ts, follow s id path = .ok ts ∧ (b, none) ∈ ts := by
  intro path
  induction path with
  | nil => intro id b h; exact absurd rfl h
  | cons e es ih =>
    intro id b _ hu hr
    cases es with
    | nil =>
      cases hr with
      | cons hl hr =>
        cases hr with
        | nil =>
          obtain ⟨ts, h1, h2⟩ := leads_target hs hsh hl
          exact ⟨ts.map (fun t => (t, none)), by unfold follow; rw [h1], List.mem_map.2 ⟨b, h2, rfl⟩⟩
    | cons e' es =>
      cases hr with
      | cons hl hr =>
        rename_i mid
        obtain ⟨ts, h1, h2⟩ := leads_target hs hsh hl
        cases ts with
        | nil => cases h2
        | cons x xs =>
          have hx := target_leads h1 (b := x) (by simp)
          obtain ⟨rfl, hu'⟩ := hu x mid hx hl
          obtain ⟨_, m, _, _, hm, _⟩ := hx
          obtain ⟨ts, h3, h4⟩ := ih x b (by simp) hu' hr
          exact ⟨ts, by unfold follow; rw [h1]; simp only [hm]; exact h3, h4⟩

/-- **C64 (completeness, partial).** If every element but the last leads to at most one node, the answer
holds every node reached by the path. Missing: ambiguous elements (`C64_first_fails`), types with several
supertypes or more than 101. -/
theorem C64_complete_partial (s : Space) (hs : SingleInheritance s) (hsh : Shallow s) (id b : Id) (path : List Step)
    (hne : path ≠ []) (hnames : ∀ e ∈ path, e.name ≠ 0) (hu : Unambiguous s path id) (hr : Reaches s path id b) :
    ∃ ts, translate s id path = (.good, ts) ∧ (b, none) ∈ ts := by
  obtain ⟨ts, h1, h2⟩ := follow_complete hs hsh path id b hne hu hr
  refine ⟨ts, ?_, h2⟩
  unfold translate
  rw [if_neg (by simpa using hne), if_neg (by simpa using hnames), h1]
  cases ts with
  | nil => cases h2
  | cons x xs => simp

/-- **C64 (no match).** A path of named elements that leads nowhere from a known node is answered by
BadNoMatch, and from an unknown node by BadNodeIDUnknown, with no targets. -/
theorem C64_none (s : Space) (id : Id) (path : List Step) (hne : path ≠ []) (hnames : ∀ e ∈ path, e.name ≠ 0)
    (h : ∀ b, ¬ Reaches s path id b) :
    translate s id path = (if (s id).isSome then .badNoMatch else .badNodeIDUnknown, []) := by
  have key : follow s id path = .error (if (s id).isSome then .badNoMatch else .badNodeIDUnknown) := by
    clear hnames
    induction path generalizing id with
    | nil => exact absurd rfl hne
    | cons e es ih =>
      cases es with
      | nil =>
        unfold follow
        rcases target_cases s id e with ⟨h0, h1⟩ | ⟨n, h0, _, h1⟩ | ⟨n, x, xs, hn, h2, h1⟩
        · rw [h1, h0]; rfl
        · rw [h1, h0]; rfl
        · exact absurd (.cons (target_leads h1 (b := x) (by simp)) (.nil _)) (h x)
      | cons e' es =>
        unfold follow
        rcases target_cases s id e with ⟨h0, h1⟩ | ⟨n, h0, _, h1⟩ | ⟨n, x, xs, hn, h2, h1⟩
        · rw [h1, h0]; rfl
        · rw [h1, h0]; rfl
        · have hl := target_leads h1 (b := x) (by simp)
          have hl' := hl
          obtain ⟨_, m, _, _, hm, _⟩ := hl'
          rw [h1, hn]
          simp only [hm]
          rw [ih x (by simp) (fun b hb => h b (.cons hl hb)), hm]
          rfl
  unfold translate
  rw [if_neg (by simpa using hne), if_neg (by simpa using hnames), key]

example : translate folder ⟨1, 1⟩ [{ refType := some hasComponent, name := 12 }] = (.good, [(⟨1, 2⟩, none)]) := by decide +kernel
example : translate folder ⟨1, 1⟩ [{ refType := some hasComponent, name := 99 }] = (.badNoMatch, []) := by decide +kernel
example : translate folder ⟨1, 1⟩ [{ name := 12 }, { name := 0 }] = (.badBrowseNameInvalid, []) := by decide +kernel
example : translate folder ⟨1, 77⟩ [{ name := 12 }] = (.badNodeIDUnknown, []) := by decide +kernel

/-- Two elements, the second with two matches. -/
def house : Space := fun id =>
  if id = ⟨1, 1⟩ then some { refs := [⟨hasComponent, false, ⟨1, 2⟩⟩] }
  else if id = ⟨1, 2⟩ then some { refs := [⟨hasComponent, false, ⟨1, 3⟩⟩, ⟨hasProperty, false, ⟨1, 4⟩⟩], name := 12 }
  else if id = ⟨1, 3⟩ then some { refs := [], name := 13 }
  else if id = ⟨1, 4⟩ then some { refs := [], name := 13 }
  else none

theorem house_noSuper (a b : Id) : ¬ IsSuper house a b := by
  rintro ⟨n, hn, hr⟩
  unfold house at hn
  repeat' split at hn
  all_goals first | cases hn | skip
  all_goals simp [hasProperty, hasComponent, hasSubtype] at hr

/-- The hypotheses of `C64_complete_partial` hold of the house. -/
example : ∃ ts, translate house ⟨1, 1⟩ [{ name := 12 }, { name := 13 }] = (.good, ts) ∧ (⟨1, 4⟩, none) ∈ ts := by
  refine C64_complete_partial house (fun a b _ h => absurd h (house_noSuper a b))
    (fun a b k hk h => by cases h with
      | zero => omega
      | succ h _ => exact absurd h (house_noSuper _ _)) _ _ _ (by simp) (by decide) ?_ ?_
  · rintro b c ⟨n, m, r, hn, _, hr, rfl, _⟩ ⟨n', m', r', hn', _, hr', rfl, _⟩
    have e : house ⟨1, 1⟩ = some { refs := [⟨hasComponent, false, ⟨1, 2⟩⟩] } := rfl
    rw [e] at hn hn'
    cases hn; cases hn'
    simp only [List.mem_singleton] at hr hr'
    rw [hr, hr']
    exact ⟨rfl, trivial⟩
  · exact .cons ⟨_, _, ⟨hasComponent, false, ⟨1, 2⟩⟩, rfl, rfl, by decide, rfl, rfl, .inl rfl, rfl⟩
      (.cons ⟨_, _, ⟨hasProperty, false, ⟨1, 4⟩⟩, rfl, rfl, by decide, rfl, rfl, .inl rfl, rfl⟩ (.nil _))

/-- **C64 fails (permission).** User 7 may not browse node 4, yet the path to it gives its identifier; no user
is asked for. -/
theorem C64_permission_fails : (folder ⟨1, 4⟩).any (fun n => mayBrowse 7 n) = false ∧
    translate folder ⟨1, 1⟩ [{ refType := some hasComponent, name := 14 }] = (.good, [(⟨1, 4⟩, none)]) := by
  decide +kernel

/-- Two components of the same name; only the second has a property 13. -/
def twins : Space := fun id =>
  if id = ⟨1, 1⟩ then some { refs := [⟨hasComponent, false, ⟨1, 2⟩⟩, ⟨hasComponent, false, ⟨1, 3⟩⟩] }
  else if id = ⟨1, 2⟩ then some { refs := [], name := 12 }
  else if id = ⟨1, 3⟩ then some { refs := [⟨hasProperty, false, ⟨1, 4⟩⟩], name := 12 }
  else if id = ⟨1, 4⟩ then some { refs := [], name := 13 }
  else none

/-- **C64 fails (ambiguous elements).** Only the first node that matches an element is followed. -/
theorem C64_first_fails : Reaches twins [{ name := 12 }, { name := 13 }] ⟨1, 1⟩ ⟨1, 4⟩ ∧
    translate twins ⟨1, 1⟩ [{ name := 12 }, { name := 13 }] = (.badNoMatch, []) :=
  ⟨.cons ⟨_, _, ⟨hasComponent, false, ⟨1, 3⟩⟩, rfl, rfl, by decide, rfl, rfl, .inl rfl, rfl⟩
    (.cons ⟨_, _, ⟨hasProperty, false, ⟨1, 4⟩⟩, rfl, rfl, by decide, rfl, rfl, .inl rfl, rfl⟩ (.nil _)), by decide +kernel⟩

end Opcua.Browse
