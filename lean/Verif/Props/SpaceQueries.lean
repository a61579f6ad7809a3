import Verif.Props.AddressSpace

/-!
# C61, C62, C65, C89, C90: questions to the address space

`IsSuper`, `Child`, `ForwardSubtype` and `Notifies` say what a reference between two nodes means; the
relations below are their closures and do not mention the loops of the code.
-/

namespace Opcua.AddressSpace

/-! ## C61: IsSubtype -/

/-- `a` has an inverse HasSubtype reference to `b`. -/
def IsSuper (s : Space) (a b : Id) : Prop := ∃ n, s a = some n ∧ (⟨hasSubtype, true, b⟩ : Ref) ∈ n.refs

/-- `b` is reached from `a` by `k` inverse HasSubtype references. -/
inductive Hops (s : Space) : Nat → Id → Id → Prop
  | zero (a : Id) : Hops s 0 a a
  | succ {k : Nat} {a b c : Id} : IsSuper s a b → Hops s k b c → Hops s (k + 1) a c

/-- No type has two supertypes. -/
def SingleInheritance (s : Space) : Prop := ∀ a b c, IsSuper s a b → IsSuper s a c → b = c

theorem superType_is {s : Space} {a b : Id} (h : superType s a = some b) : IsSuper s a b := by
  unfold superType at h
  cases hs : s a with
  | none => rw [hs] at h; cases h
  | some n =>
    rw [hs] at h
    simp only [Option.map_eq_some_iff] at h
    obtain ⟨r, hr, ht⟩ := h
    have h1 := List.find?_some hr
    simp only [Bool.and_eq_true, decide_eq_true_eq] at h1
    refine ⟨n, hs, ?_⟩
    have h2 := List.mem_of_find?_eq_some hr
    obtain ⟨ty, inv, tg⟩ := r
    simp only at h1 ht
    rw [← ht, ← h1.2, ← h1.1]
    exact h2

theorem superType_none {s : Space} {a b : Id} (h : superType s a = none) : ¬ IsSuper s a b := by
  rintro ⟨n, hn, hr⟩
  rw [superType, hn] at h
  simp only [Option.map_eq_none_iff, List.find?_eq_none] at h
  exact h _ hr (by simp)

theorem isSubtypeLoop_sound {s : Space} {sup : Id} : ∀ (k : Nat) (id : Id), isSubtypeLoop s sup k id = true →
    ∃ j, 1 ≤ j ∧ j ≤ k ∧ Hops s j id sup := by
  intro k
  induction k with
  | zero => intro id h; cases h
  | succ k ih =>
    intro id h
    unfold isSubtypeLoop at h
    split at h
    · cases h
    next t ht =>
      split at h
      next e => exact ⟨1, Nat.le_refl _, by omega, .succ (superType_is ht) (e ▸ .zero _)⟩
      next e =>
        obtain ⟨j, h1, h2, h3⟩ := ih t h
        exact ⟨j + 1, by omega, by omega, .succ (superType_is ht) h3⟩

theorem isSubtypeLoop_complete {s : Space} {sup : Id} (hs : SingleInheritance s) : ∀ (k j : Nat) (id : Id),
    Hops s (j + 1) id sup → j + 1 ≤ k → isSubtypeLoop s sup k id = true := by
  intro k
  induction k with
  | zero => intro j id _ h; omega
  | succ k ih =>
    intro j id h hj
    cases h with
    | succ h1 h2 =>
      next b =>
      unfold isSubtypeLoop
      cases ht : superType s id with
      | none => exact absurd h1 (superType_none ht)
      | some t =>
        have e := hs id b t h1 (superType_is ht)
        subst e
        dsimp only
        split
        · rfl
        next e =>
          cases j with
          | zero => cases h2; exact absurd rfl e
          | succ j => exact ih j b h2 (by omega)

/-- **C61 (soundness).** In every type graph, cyclic or not, an affirmed subtype reaches the supertype by
inverse HasSubtype references. -/
theorem C61_sound (s : Space) (a b : Id) (h : isSubtype s a b = true) : ∃ k, 1 ≤ k ∧ Hops s k a b := by
  obtain ⟨k, h1, _, h3⟩ := isSubtypeLoop_sound 101 a h
  exact ⟨k, h1, h3⟩

/-- **C61 (exactness, partial).** With single inheritance, IsSubtype tells exactly whether the supertype is
reached by one to 101 inverse HasSubtype references. Missing: more than 101 references
(`C61_long_fails`) and several supertypes (`C61_multiple_fails`). -/
theorem C61_exact_partial (s : Space) (hs : SingleInheritance s) (a b : Id) :
    isSubtype s a b = true ↔ ∃ k, 1 ≤ k ∧ k ≤ 101 ∧ Hops s k a b := by
  constructor
  · exact isSubtypeLoop_sound 101 a
  · rintro ⟨k, h1, h2, h3⟩
    obtain ⟨j, rfl⟩ : ∃ j, k = j + 1 := ⟨k - 1, by omega⟩
    exact isSubtypeLoop_complete hs 101 j a h3 h2

/-- A chain of types: the supertype of number `i + 1` is number `i`. -/
def chain : Space := fun id =>
  if id.ns = 1 ∧ id.n ≠ 0 then some { refs := [⟨hasSubtype, true, ⟨1, id.n - 1⟩⟩] }
  else if id = ⟨1, 0⟩ then some { refs := [] } else none

theorem chain_single : SingleInheritance chain := by
  rintro a b c ⟨n, hn, hb⟩ ⟨m, hm, hc⟩
  rw [hn] at hm
  cases hm
  unfold chain at hn
  split at hn
  · cases hn
    simp only [List.mem_singleton] at hb hc
    rw [Ref.mk.injEq] at hb hc
    rw [hb.2.2, hc.2.2]
  · split at hn
    · cases hn; cases hb
    · cases hn

theorem chain_hops (k : Nat) : ∀ n, Hops chain k ⟨1, n + k⟩ ⟨1, n⟩ := by
  induction k with
  | zero => intro n; exact .zero _
  | succ k ih =>
    intro n
    have h : IsSuper chain ⟨1, n + (k + 1)⟩ ⟨1, n + k⟩ := ⟨{ refs := [⟨hasSubtype, true, ⟨1, n + k⟩⟩] }, by simp [chain], by simp⟩
    exact .succ h (ih n)

example : isSubtype chain ⟨1, 50⟩ ⟨1, 3⟩ = true := by decide +kernel
example : isSubtype chain ⟨1, 3⟩ ⟨1, 50⟩ = false := by decide +kernel
example : isSubtype chain ⟨1, 3⟩ ⟨1, 3⟩ = false := by decide +kernel

/-- **C61 fails (long chains).** The 102nd supertype is denied. -/
theorem C61_long_fails : Hops chain 102 ⟨1, 102⟩ ⟨1, 0⟩ ∧ isSubtype chain ⟨1, 102⟩ ⟨1, 0⟩ = false :=
  ⟨by simpa using chain_hops 102 0, by decide +kernel⟩

/-- Type 2 has the supertypes 0 and 1. -/
def twoSupers : Space := fun id =>
  if id = ⟨1, 2⟩ then some { refs := [⟨hasSubtype, true, ⟨1, 0⟩⟩, ⟨hasSubtype, true, ⟨1, 1⟩⟩] } else some { refs := [] }

/-- **C61 fails (several supertypes).** Only the first supertype is followed. -/
theorem C61_multiple_fails : Hops twoSupers 1 ⟨1, 2⟩ ⟨1, 1⟩ ∧ isSubtype twoSupers ⟨1, 2⟩ ⟨1, 1⟩ = false :=
  ⟨.succ ⟨{ refs := [⟨hasSubtype, true, ⟨1, 0⟩⟩, ⟨hasSubtype, true, ⟨1, 1⟩⟩] }, by decide, by decide⟩ (.zero _), by decide +kernel⟩

/-- A cycle of two types: the test ends. -/
def typeCycle : Space := fun id =>
  if id = ⟨1, 0⟩ then some { refs := [⟨hasSubtype, true, ⟨1, 1⟩⟩] }
  else if id = ⟨1, 1⟩ then some { refs := [⟨hasSubtype, true, ⟨1, 0⟩⟩] } else none

example : isSubtype typeCycle ⟨1, 0⟩ ⟨1, 2⟩ = false ∧ isSubtype typeCycle ⟨1, 0⟩ ⟨1, 0⟩ = true := by decide +kernel

/-! ## C62: GetChildren, GetSubTypes and the count of deleted nodes -/

/-- `a` has a forward reference of one of the types to the present node `b`. -/
def Child (types : List Id) (s : Space) (a b : Id) : Prop :=
  ∃ n, s a = some n ∧ ∃ t ∈ types, (⟨t, false, b⟩ : Ref) ∈ n.refs ∧ (s b).isSome

/-- `b` is reached from `a` by one or more such references. -/
inductive Descends (types : List Id) (s : Space) : Id → Id → Prop
  | one {a b : Id} : Child types s a b → Descends types s a b
  | more {a b c : Id} : Child types s a b → Descends types s b c → Descends types s a c

theorem Descends.trans {types : List Id} {s : Space} {a b c : Id} (h1 : Descends types s a b) (h2 : Descends types s b c) :
    Descends types s a c := by
  induction h1 with
  | one h => exact .more h h2
  | more h _ ih => exact .more h (ih h2)

/-- No node reached from `id` (or `id`) is its own descendant. -/
def NoCycle (types : List Id) (s : Space) (id : Id) : Prop :=
  ¬ Descends types s id id ∧ ∀ x, Descends types s id x → ¬ Descends types s x x

theorem mem_kids {types : List Id} {s : Space} {a b : Id} : b ∈ kids types s a ↔ Child types s a b := by
  unfold kids Child
  cases hs : s a with
  | none => simp
  | some n =>
    simp only [List.mem_map, List.mem_filter, Bool.and_eq_true, Bool.not_eq_true', List.contains_iff_mem]
    constructor
    · rintro ⟨⟨ty, inv, tg⟩, ⟨h1, ⟨h2, h3⟩, h4⟩, rfl⟩
      simp only at h2 h3 h4
      subst h2
      exact ⟨n, rfl, ty, h3, h1, h4⟩
    · rintro ⟨n', hn, t, h1, h2, h3⟩
      cases hn
      exact ⟨_, ⟨h2, ⟨rfl, h1⟩, h3⟩, rfl⟩

/-- The number of rounds that the nodes of a queue take. -/
inductive Rounds (types : List Id) (s : Space) : List Id → Nat → Prop
  | nil : Rounds types s [] 0
  | cons {a : Id} {q : List Id} {n m : Nat} : Rounds types s (kids types s a) n → Rounds types s q m →
      Rounds types s (a :: q) (n + m + 1)

theorem Rounds.append {types : List Id} {s : Space} {p q : List Id} {n m : Nat} (h1 : Rounds types s p n)
    (h2 : Rounds types s q m) : Rounds types s (p ++ q) (n + m) := by
  induction h1 with
  | nil => simpa using h2
  | @cons a p n1 n2 h _ _ ih =>
    have := Rounds.cons h ih
    rw [show n1 + n2 + 1 + m = n1 + (n2 + m) + 1 by omega]
    exact this

theorem Rounds.split {types : List Id} {s : Space} : ∀ {p q : List Id} {n : Nat}, Rounds types s (p ++ q) n →
    ∃ n1 n2, Rounds types s p n1 ∧ Rounds types s q n2 ∧ n = n1 + n2
  | [], q, n, h => ⟨0, n, .nil, h, by omega⟩
  | a :: p, q, n, h => by
    cases h with
    | @cons _ _ k m h1 h2 =>
      obtain ⟨n1, n2, h3, h4, h5⟩ := Rounds.split h2
      exact ⟨k + n1 + 1, n2, .cons h1 h3, h4, by omega⟩

theorem Rounds.unique {types : List Id} {s : Space} {p : List Id} {n m : Nat} (h1 : Rounds types s p n)
    (h2 : Rounds types s p m) : n = m := by
  induction h1 generalizing m with
  | nil => cases h2; rfl
  | cons _ _ ih1 ih2 =>
    cases h2 with
    | cons h3 h4 => rw [ih1 h3, ih2 h4]

theorem loop_of_rounds {types : List Id} {s : Space} : ∀ (n : Nat) {q : List Id}, Rounds types s q n → ∀ out,
    (childrenLoop types s n q out).isSome := by
  intro n
  induction n with
  | zero => intro q h out; cases h; rfl
  | succ n ih =>
    intro q h out
    cases h with
    | cons h1 h2 =>
      unfold childrenLoop
      refine ih ?_ _
      rw [Nat.add_comm]
      exact h2.append h1

theorem rounds_of_loop {types : List Id} {s : Space} : ∀ (k : Nat) (q out L : List Id),
    childrenLoop types s k q out = some L → ∃ n, Rounds types s q n := by
  intro k
  induction k with
  | zero =>
    intro q out L h
    cases q with
    | nil => exact ⟨0, .nil⟩
    | cons a q => cases h
  | succ k ih =>
    intro q out L h
    cases q with
    | nil => exact ⟨0, .nil⟩
    | cons a q =>
      unfold childrenLoop at h
      obtain ⟨n, hn⟩ := ih _ _ _ h
      obtain ⟨n1, n2, h1, h2, _⟩ := hn.split
      exact ⟨_, .cons h2 h1⟩

theorem rounds_mem {types : List Id} {s : Space} {q : List Id} {n : Nat} (h : Rounds types s q n) {x : Id} (hx : x ∈ q) :
    ∃ m, m ≤ n ∧ Rounds types s [x] m := by
  induction h with
  | nil => cases hx
  | @cons a q k m h1 h2 _ ih =>
    rcases List.mem_cons.mp hx with rfl | hx
    · exact ⟨k + 0 + 1, by omega, .cons h1 .nil⟩
    · obtain ⟨j, h3, h4⟩ := ih hx
      exact ⟨j, by omega, h4⟩

theorem rounds_child {types : List Id} {s : Space} {a b : Id} {n : Nat} (h : Rounds types s [a] n) (hc : Child types s a b) :
    ∃ m, m < n ∧ Rounds types s [b] m := by
  cases h with
  | cons h1 h2 =>
    obtain ⟨m, h3, h4⟩ := rounds_mem h1 (mem_kids.mpr hc)
    exact ⟨m, by omega, h4⟩

theorem rounds_descends {types : List Id} {s : Space} {a b : Id} (hd : Descends types s a b) : ∀ {n : Nat}, Rounds types s [a] n →
    ∃ m, m < n ∧ Rounds types s [b] m := by
  induction hd with
  | one h => intro n hn; exact rounds_child hn h
  | more h _ ih =>
    intro n hn
    obtain ⟨m, h1, h2⟩ := rounds_child hn h
    obtain ⟨k, h3, h4⟩ := ih h2
    exact ⟨k, by omega, h4⟩

theorem rounds_acyclic {types : List Id} {s : Space} {a : Id} {n : Nat} (h : Rounds types s [a] n) : ¬ Descends types s a a := by
  intro hd
  obtain ⟨m, h1, h2⟩ := rounds_descends hd h
  have := h.unique h2
  omega

theorem child_some {types : List Id} {s : Space} {a b : Id} (h : Child types s a b) : (s b).isSome := by
  obtain ⟨_, _, _, _, _, h⟩ := h
  exact h

theorem descends_some {types : List Id} {s : Space} {a b : Id} (h : Descends types s a b) : (s b).isSome := by
  induction h with
  | one h => exact child_some h
  | more _ _ ih => exact ih

theorem rounds_exist {types : List Id} {s : Space} : ∀ (k : Nat) (avail : List Id), avail.length ≤ k → ∀ a,
    (∀ x, Descends types s a x → x ∈ avail ∧ ¬ Descends types s x x) → ∃ n, Rounds types s [a] n := by
  intro k
  induction k with
  | zero =>
    intro avail hk a ha
    have hnil : kids types s a = [] := by
      apply List.eq_nil_iff_forall_not_mem.mpr
      intro b hb
      have := (ha b (.one (mem_kids.mp hb))).1
      cases avail with
      | nil => cases this
      | cons _ _ => simp at hk
    exact ⟨0 + 0 + 1, .cons (by rw [hnil]; exact .nil) .nil⟩
  | succ k ih =>
    intro avail hk a ha
    have key : ∀ q : List Id, (∀ b ∈ q, Child types s a b) → ∃ n, Rounds types s q n := by
      intro q
      induction q with
      | nil => intro _; exact ⟨0, .nil⟩
      | cons b q ihq =>
        intro hq
        obtain ⟨m, hm⟩ := ihq (fun x hx => hq x (List.mem_cons_of_mem _ hx))
        have hb := hq b (by simp)
        have hlen : (avail.filter (fun x => decide (x ≠ b))).length < avail.length := by
          have h1 := List.length_filter_lt_length_iff_exists (l := avail) (p := fun x => decide (x ≠ b))
          exact h1.mpr ⟨b, (ha b (.one hb)).1, by simp⟩
        obtain ⟨n, hn⟩ := ih (avail.filter (fun x => decide (x ≠ b))) (by omega) b (by
          intro x hx
          obtain ⟨h1, h2⟩ := ha x (.more hb hx)
          refine ⟨List.mem_filter.mpr ⟨h1, ?_⟩, h2⟩
          simp only [decide_eq_true_eq]
          rintro rfl
          exact h2 hx)
        have := hn.append hm
        exact ⟨_, this⟩
    obtain ⟨n, hn⟩ := key (kids types s a) (fun b hb => mem_kids.mp hb)
    exact ⟨_, .cons hn .nil⟩

/-- The address space is finite. -/
def Finite (s : Space) : Prop := ∃ ids : List Id, ∀ x, (s x).isSome → x ∈ ids

/-- **C62 (termination, partial).** In a finite address space, GetChildren ends exactly if no node that it
reaches is its own descendant. Missing: graphs with cycles, see `C62_cycle_fails`. -/
theorem C62_ends_partial (types : List Id) (s : Space) (hf : Finite s) (id : Id) :
    (∃ rounds L, getChildren types s rounds id = some L) ↔ NoCycle types s id := by
  constructor
  · rintro ⟨rounds, L, h⟩
    obtain ⟨n, hn⟩ := rounds_of_loop _ _ _ _ h
    refine ⟨rounds_acyclic hn, ?_⟩
    intro x hx
    obtain ⟨m, _, hm⟩ := rounds_descends hx hn
    exact rounds_acyclic hm
  · rintro ⟨_, h2⟩
    obtain ⟨ids, hids⟩ := hf
    obtain ⟨n, hn⟩ := rounds_exist ids.length ids (Nat.le_refl _) id (fun x hx => ⟨hids x (descends_some hx), h2 x hx⟩)
    obtain ⟨L, hL⟩ := Option.isSome_iff_exists.mp (loop_of_rounds n hn [])
    exact ⟨n, L, hL⟩

/-- **C62 fails (cycles).** If a node reached is its own descendant, GetChildren never ends. -/
theorem C62_cycle_fails (types : List Id) (s : Space) (id x : Id) (h : x = id ∨ Descends types s id x)
    (hx : Descends types s x x) : ∀ rounds, getChildren types s rounds id = none := by
  intro rounds
  cases hg : getChildren types s rounds id with
  | none => rfl
  | some L =>
    obtain ⟨n, hn⟩ := rounds_of_loop _ _ _ _ hg
    rcases h with rfl | h
    · exact absurd hx (rounds_acyclic hn)
    · obtain ⟨m, _, hm⟩ := rounds_descends h hn
      exact absurd hx (rounds_acyclic hm)

/-- Two nodes that are components of one another. -/
def componentCycle : Space := fun id =>
  if id = ⟨1, 0⟩ then some { refs := [⟨hasComponent, false, ⟨1, 1⟩⟩] }
  else if id = ⟨1, 1⟩ then some { refs := [⟨hasComponent, false, ⟨1, 0⟩⟩] } else none

theorem componentCycle_descends : Descends childTypes componentCycle ⟨1, 0⟩ ⟨1, 0⟩ :=
  .more (b := ⟨1, 1⟩) ⟨{ refs := [⟨hasComponent, false, ⟨1, 1⟩⟩] }, by decide, hasComponent, by decide, by decide, by decide⟩
    (.one ⟨{ refs := [⟨hasComponent, false, ⟨1, 0⟩⟩] }, by decide, hasComponent, by decide, by decide, by decide⟩)

/-- So the recursive deletion of a node in such a cycle never ends (and holds the lock of the manager). -/
example : ∀ rounds, deleteRecursive componentCycle rounds ⟨1, 0⟩ = none := by
  intro rounds
  have := C62_cycle_fails childTypes componentCycle ⟨1, 0⟩ ⟨1, 0⟩ (Or.inl rfl) componentCycle_descends rounds
  simp [deleteRecursive, this, protectedId, componentCycle]

/-- The state of the loop: the nodes processed so far have put their children into the list. -/
theorem loop_shape {types : List Id} {s : Space} {id : Id} : ∀ (k : Nat) (P q out L : List Id), id :: out = P ++ q →
    out = P.flatMap (kids types s) → childrenLoop types s k q out = some L →
    ∃ more, L = out ++ more ∧ L = (id :: L).flatMap (kids types s) := by
  intro k
  induction k with
  | zero =>
    intro P q out L h1 h2 h3
    cases q with
    | nil =>
      unfold childrenLoop at h3
      cases h3
      refine ⟨[], by simp, ?_⟩
      rw [h1, List.append_nil]
      exact h2
    | cons a q => cases h3
  | succ k ih =>
    intro P q out L h1 h2 h3
    cases q with
    | nil =>
      unfold childrenLoop at h3
      cases h3
      refine ⟨[], by simp, ?_⟩
      rw [h1, List.append_nil]
      exact h2
    | cons a q =>
      unfold childrenLoop at h3
      obtain ⟨more, h4, h5⟩ := ih (P ++ [a]) (q ++ kids types s a) (out ++ kids types s a) L (by
        rw [← List.cons_append, h1]; simp) (by simp [h2]) h3
      exact ⟨kids types s a ++ more, by rw [h4]; simp, h5⟩

theorem getChildren_fix {types : List Id} {s : Space} {id : Id} {k : Nat} {L : List Id}
    (h : getChildren types s k id = some L) : L = (id :: L).flatMap (kids types s) := by
  obtain ⟨_, _, h'⟩ := loop_shape k [] [id] [] L rfl rfl h
  exact h'

/-- The children found are descendants. -/
theorem loop_sound {types : List Id} {s : Space} {id : Id} : ∀ (k : Nat) (q out L : List Id),
    (∀ x ∈ q, x = id ∨ Descends types s id x) → (∀ x ∈ out, Descends types s id x) →
    childrenLoop types s k q out = some L → ∀ x ∈ L, Descends types s id x := by
  intro k
  induction k with
  | zero =>
    intro q out L h1 h2 h3
    cases q with
    | nil => unfold childrenLoop at h3; cases h3; exact h2
    | cons a q => cases h3
  | succ k ih =>
    intro q out L h1 h2 h3
    cases q with
    | nil => unfold childrenLoop at h3; cases h3; exact h2
    | cons a q =>
      unfold childrenLoop at h3
      have hk : ∀ x ∈ kids types s a, Descends types s id x := by
        intro x hx
        have hc := mem_kids.mp hx
        rcases h1 a (by simp) with rfl | h
        · exact .one hc
        · exact h.trans (.one hc)
      refine ih _ _ L ?_ ?_ h3
      · intro x hx
        rcases List.mem_append.mp hx with h | h
        · exact h1 x (List.mem_cons_of_mem _ h)
        · exact Or.inr (hk x h)
      · intro x hx
        rcases List.mem_append.mp hx with h | h
        · exact h2 x h
        · exact hk x h

/-- **C62 (exactness).** If GetChildren ends, it has found the descendants and nothing else. -/
theorem C62_found (types : List Id) (s : Space) (id : Id) (rounds : Nat) (L : List Id)
    (h : getChildren types s rounds id = some L) (x : Id) : x ∈ L ↔ Descends types s id x := by
  constructor
  · exact loop_sound rounds [id] [] L (by simp) (by simp) h x
  · intro hd
    have hfix := getChildren_fix h
    have closed : ∀ a b, a ∈ id :: L → Child types s a b → b ∈ L := by
      intro a b ha hc
      rw [hfix]
      exact List.mem_flatMap.mpr ⟨a, ha, mem_kids.mpr hc⟩
    have : ∀ a b, Descends types s a b → a ∈ id :: L → b ∈ L := by
      intro a b hd
      induction hd with
      | one h => intro ha; exact closed _ _ ha h
      | more h _ ih => intro ha; exact ih (List.mem_cons_of_mem _ (closed _ _ ha h))
    exact this id x hd (by simp)

/-- **C62 (kinds of children).** The children that are deleted along with a node are those by HasComponent,
HasProperty, HasSubtype and HasOrderedComponent. -/
theorem C62_kinds (s : Space) (id : Id) (rounds : Nat) (L : List Id)
    (h : getChildren childTypes s rounds id = some L) (x : Id) :
    x ∈ L ↔ Descends [⟨0, 47⟩, ⟨0, 46⟩, ⟨0, 45⟩, ⟨0, 49⟩] s id x := C62_found childTypes s id rounds L h x

/-- No node has two references to it of these types: neither from two nodes nor twice from one. -/
structure Forest (types : List Id) (s : Space) : Prop where
  parent : ∀ a b x, Child types s a x → Child types s b x → a = b
  once : ∀ a, (kids types s a).Nodup

theorem loop_nodup {types : List Id} {s : Space} {id : Id} (hf : Forest types s) (hid : ∀ a, a = id ∨ Descends types s id a → ¬ Child types s a id) :
    ∀ (k : Nat) (P q out L : List Id), id :: out = P ++ q → out = P.flatMap (kids types s) →
    (∀ x ∈ out, Descends types s id x) → (id :: out).Nodup →
    childrenLoop types s k q out = some L → (id :: L).Nodup := by
  intro k
  induction k with
  | zero =>
    intro P q out L h1 h2 h3 h4 h5
    cases q with
    | nil => unfold childrenLoop at h5; cases h5; exact h4
    | cons a q => cases h5
  | succ k ih =>
    intro P q out L h1 h2 h3 h4 h5
    cases q with
    | nil => unfold childrenLoop at h5; cases h5; exact h4
    | cons a q =>
      unfold childrenLoop at h5
      have ha : a = id ∨ Descends types s id a := by
        have : a ∈ id :: out := by rw [h1]; simp
        rcases List.mem_cons.mp this with h | h
        · exact Or.inl h
        · exact Or.inr (h3 a h)
      have hk : ∀ x ∈ kids types s a, Descends types s id x := by
        intro x hx
        have hc := mem_kids.mp hx
        rcases ha with rfl | h
        · exact .one hc
        · exact h.trans (.one hc)
      refine ih (P ++ [a]) _ _ L (by rw [← List.cons_append, h1]; simp) (by simp [h2]) ?_ ?_ h5
      · intro x hx
        rcases List.mem_append.mp hx with h | h
        · exact h3 x h
        · exact hk x h
      · rw [← List.cons_append, List.nodup_append]
        refine ⟨h4, hf.once a, ?_⟩
        rintro x hx y hy rfl
        have hc := mem_kids.mp hy
        rcases List.mem_cons.mp hx with rfl | hx
        · exact hid a ha hc
        · rw [h2] at hx
          obtain ⟨p, hp, hpx⟩ := List.mem_flatMap.mp hx
          have := hf.parent p a x (mem_kids.mp hpx) hc
          subst this
          rw [h1, List.nodup_append] at h4
          exact h4.2.2 p hp p (by simp) rfl

/-- **C62 (once, partial).** In a forest, GetChildren lists every descendant once, and not the node
itself. Missing: nodes with two parents, see `C62_diamond_fails`. -/
theorem C62_once_partial (types : List Id) (s : Space) (hf : Forest types s) (id : Id) (rounds : Nat) (L : List Id)
    (h : getChildren types s rounds id = some L) : (id :: L).Nodup := by
  obtain ⟨n, hn⟩ := rounds_of_loop _ _ _ _ h
  have hac := rounds_acyclic hn
  refine loop_nodup hf ?_ rounds [] [id] [] L rfl rfl (by simp) (by simp) h
  rintro a (rfl | ha) hc
  · exact hac (.one hc)
  · exact hac (ha.trans (.one hc))

theorem deleteNode_none {s : Space} {id : Id} {n : Node} (x : Id) : deleteNode s id n x = none ↔ x = id ∨ s x = none := by
  rw [deleteNode_at]
  split
  next h => simp [h]
  next h => simp [h]

theorem deleteChildren_none (cs : List Id) : ∀ (s : Space), (∀ c ∈ cs, c.ns ≠ 0) → ∀ x, (cs.foldl deleteChild s) x = none ↔ x ∈ cs ∨ s x = none := by
  induction cs with
  | nil => intro s _ x; simp
  | cons c cs ih =>
    intro s hp x
    rw [List.foldl_cons, ih _ (fun y hy => hp y (List.mem_cons_of_mem _ hy))]
    have hc : protectedId c = false := by simp [protectedId, hp c (by simp)]
    have : deleteChild s c x = none ↔ x = c ∨ s x = none := by
      unfold deleteChild
      rw [hc, if_neg (by simp)]
      cases hs : s c with
      | none =>
        constructor
        · intro h; exact Or.inr h
        · rintro (rfl | h)
          · exact hs
          · exact h
      | some n => exact deleteNode_none x
    rw [this, List.mem_cons, ← or_assoc, or_comm (a := x ∈ cs)]

/-- **C62 (count, partial).** In a forest without standard nodes, DeleteNodeByIDRecursive deletes the node
and its descendants and nothing else, and returns their number. Missing: nodes with two parents and
standard nodes, see `C62_count_fails`. -/
theorem C62_count_partial (s : Space) (hf : Forest childTypes s) (id : Id) (hid : id.ns ≠ 0)
    (hp : ∀ x, Descends childTypes s id x → x.ns ≠ 0) (rounds : Nat) (s' : Space) (count : Nat)
    (h : deleteRecursive s rounds id = some (s', count, .good)) :
    ∃ gone : List Id, gone.Nodup ∧ gone.length = count ∧ (∀ x, x ∈ gone ↔ x = id ∨ Descends childTypes s id x) ∧
      ∀ x, x ∈ gone ↔ (s x).isSome ∧ s' x = none := by
  have hp' : ¬ protectedId id = true := by simp [protectedId, hid]
  rw [deleteRecursive, if_neg hp'] at h
  cases hs : s id with
  | none => rw [hs] at h; cases h
  | some n =>
    rw [hs] at h
    dsimp only at h
    cases hg : getChildren childTypes s rounds id with
    | none => rw [hg] at h; cases h
    | some L =>
      rw [hg] at h
      dsimp only at h
      have hmem := C62_found childTypes s id rounds L hg
      have hnd := C62_once_partial childTypes s hf id rounds L hg
      have hdel := deleteChildren_none L s (fun c hc => hp c ((hmem c).mp hc))
      have hres : count = L.length + 1 ∧ ∀ x, s' x = none ↔ x = id ∨ x ∈ L ∨ s x = none := by
        split at h
        next h0 =>
          cases h
          refine ⟨rfl, fun x => ?_⟩
          rw [hdel]
          constructor
          · exact Or.inr
          · rintro (rfl | h)
            · exact (hdel _).mp h0
            · exact h
        next n1 h1 =>
          cases h
          refine ⟨rfl, fun x => ?_⟩
          rw [deleteNode_none, hdel]
      refine ⟨id :: L, hnd, by simp [hres.1], fun x => by rw [List.mem_cons, hmem], fun x => ?_⟩
      rw [hres.2, List.mem_cons]
      constructor
      · rintro (rfl | hx)
        · exact ⟨by rw [hs]; rfl, Or.inl rfl⟩
        · exact ⟨descends_some ((hmem x).mp hx), Or.inr (Or.inl hx)⟩
      · rintro ⟨h1, h2 | h2 | h2⟩
        · exact Or.inl h2
        · exact Or.inr h2
        · rw [h2] at h1; cases h1

/-- A node with two components, one of which has a property. -/
def tree : Space := run empty [.add [(⟨1, 0⟩, { refs := [⟨hasComponent, false, ⟨1, 1⟩⟩, ⟨hasComponent, false, ⟨1, 2⟩⟩] }),
  (⟨1, 1⟩, { refs := [⟨hasProperty, false, ⟨1, 3⟩⟩, ⟨organizes, false, ⟨1, 4⟩⟩] }), (⟨1, 2⟩, { refs := [] }), (⟨1, 3⟩, { refs := [] }), (⟨1, 4⟩, { refs := [] })]]

example : getChildren childTypes tree 9 ⟨1, 0⟩ = some [⟨1, 1⟩, ⟨1, 2⟩, ⟨1, 3⟩] := by decide
example : (deleteRecursive tree 9 ⟨1, 0⟩).map (fun r => (r.2.1, [0, 1, 2, 3, 4].map (fun i => (r.1 ⟨1, i⟩).isSome))) =
    some (4, [false, false, false, false, true]) := by decide

/-- Two components of a node share a component. -/
def diamond : Space := run empty [.add [(⟨1, 0⟩, { refs := [⟨hasComponent, false, ⟨1, 1⟩⟩, ⟨hasComponent, false, ⟨1, 2⟩⟩] }),
  (⟨1, 1⟩, { refs := [⟨hasComponent, false, ⟨1, 3⟩⟩] }), (⟨1, 2⟩, { refs := [⟨hasComponent, false, ⟨1, 3⟩⟩] }), (⟨1, 3⟩, { refs := [] })]]

/-- **C62 fails (diamonds).** A descendant with two parents is returned twice. -/
theorem C62_diamond_fails : getChildren childTypes diamond 9 ⟨1, 0⟩ = some [⟨1, 1⟩, ⟨1, 2⟩, ⟨1, 3⟩, ⟨1, 3⟩] := by decide

/-- **C62 fails (count).** Of the four nodes of the diamond, five are reported as deleted; and a standard
node that is kept is counted, too. -/
theorem C62_count_fails :
    (deleteRecursive diamond 9 ⟨1, 0⟩).map (fun r => r.2.1) = some 5 ∧
    (∀ x, (diamond x).isSome → x ∈ [⟨1, 0⟩, ⟨1, 1⟩, ⟨1, 2⟩, ⟨1, 3⟩]) ∧
    (deleteRecursive mixed 9 ⟨1, 1⟩).map (fun r => (r.2.1, (r.1 ⟨0, 9⟩).isSome)) = some (4, true) ∧
    (∀ x, (mixed x).isSome → x ∈ [⟨1, 1⟩, ⟨0, 9⟩, ⟨1, 2⟩, ⟨1, 3⟩]) := by
  refine ⟨by decide, ?_, by decide, ?_⟩
  · intro x hx
    apply Classical.byContradiction
    intro hn
    simp only [List.mem_cons, List.not_mem_nil, or_false, not_or] at hn
    have : diamond x = none := by
      simp [diamond, run, step, addNodes, linkNode, linkBack, put, hn, empty, exempt, isBack]
    rw [this] at hx
    cases hx
  · intro x hx
    apply Classical.byContradiction
    intro hn
    simp only [List.mem_cons, List.not_mem_nil, or_false, not_or] at hn
    have : mixed x = none := by
      simp [mixed, run, step, addNodes, linkNode, linkBack, put, hn, empty, exempt, isBack]
    rw [this] at hx
    cases hx

/-- `a` has a forward HasSubtype reference to `b`. -/
def ForwardSubtype (s : Space) (a b : Id) : Prop := ∃ n, s a = some n ∧ (⟨hasSubtype, false, b⟩ : Ref) ∈ n.refs

theorem subTypesLoop_stuck {s : Space} {id b : Id} (h : ForwardSubtype s id b) : ∀ (k : Nat) (q out : List Id), id ∈ q →
    subTypesLoop s k q out = none := by
  obtain ⟨n, hn, hr⟩ := h
  intro k
  induction k with
  | zero =>
    intro q out hq
    cases q with
    | nil => cases hq
    | cons a q => rfl
  | succ k ih =>
    intro q out hq
    cases q with
    | nil => cases hq
    | cons a q =>
      unfold subTypesLoop
      refine ih _ _ ?_
      rcases List.mem_cons.mp hq with rfl | h
      · refine List.mem_append.mpr (Or.inr ?_)
        rw [hn]
        exact List.mem_map.mpr ⟨_, List.mem_filter.mpr ⟨hr, by simp⟩, rfl⟩
      · exact List.mem_append.mpr (Or.inl h)

/-- **C62 fails (subtypes).** GetSubTypes never ends for a type with a subtype; for a type without, it gives
nothing. -/
theorem C62_subtypes_fails (s : Space) (id : Id) :
    (∀ b, ForwardSubtype s id b → ∀ rounds, getSubTypes s rounds id = none) ∧
    ((∀ b, ¬ ForwardSubtype s id b) → ∀ rounds, getSubTypes s (rounds + 1) id = some []) := by
  refine ⟨fun b h rounds => subTypesLoop_stuck h rounds [id] [] (by simp), ?_⟩
  intro h rounds
  unfold getSubTypes subTypesLoop
  cases hs : s id with
  | none => simp [subTypesLoop]
  | some n =>
    have : n.refs.filter (fun r => !r.inverse && decide (r.type = hasSubtype)) = [] := by
      rw [List.filter_eq_nil_iff]
      rintro ⟨ty, inv, tg⟩ hr hc
      simp only [Bool.and_eq_true, Bool.not_eq_true', decide_eq_true_eq] at hc
      refine h tg ⟨n, hs, ?_⟩
      rw [← hc.1, ← hc.2]
      exact hr
    simp [this, subTypesLoop]

/-! ## C65: the namespace table -/

/-- A sequence of calls of Add. -/
def addAll (table : List String) (uris : List String) : List String := uris.foldl (fun t u => (addNamespace t u).1) table

theorem addNamespace_cases (t : List String) (u : String) :
    (u ∈ t ∧ (addNamespace t u).1 = t ∧ ∃ i, t[i]? = some u ∧ (addNamespace t u).2 = i % 65536) ∨
    (u ∉ t ∧ (addNamespace t u).1 = t ++ [u] ∧ (addNamespace t u).2 = t.length % 65536) := by
  unfold addNamespace
  cases h : t.findIdx? (fun x => decide (x = u)) with
  | none =>
    right
    rw [List.findIdx?_eq_none_iff] at h
    refine ⟨fun hm => ?_, rfl, rfl⟩
    have := h u hm
    simp at this
  | some i =>
    left
    rw [List.findIdx?_eq_some_iff_getElem] at h
    obtain ⟨h1, h2, _⟩ := h
    simp only [decide_eq_true_eq] at h2
    exact ⟨h2 ▸ List.getElem_mem h1, rfl, i, by rw [List.getElem?_eq_getElem h1, h2], rfl⟩

theorem addAll_prefix (uris : List String) : ∀ t, ∃ more, addAll t uris = t ++ more := by
  induction uris with
  | nil => intro t; exact ⟨[], by simp [addAll]⟩
  | cons u uris ih =>
    intro t
    obtain ⟨more, h⟩ := ih (addNamespace t u).1
    rcases addNamespace_cases t u with ⟨_, h1, _⟩ | ⟨_, h1, _⟩
    · exact ⟨more, by rw [h1] at h; exact (show addAll t (u :: uris) = addAll (addNamespace t u).1 uris from rfl).trans (by rw [h1]; exact h)⟩
    · exact ⟨[u] ++ more, by rw [h1] at h; exact (show addAll t (u :: uris) = addAll (addNamespace t u).1 uris from rfl).trans (by rw [h1, h]; simp)⟩

/-- **C65 (no duplicates).** No sequence of additions puts a URI into the table twice. -/
theorem C65_unique (table : List String) (h : table.Nodup) (uris : List String) : (addAll table uris).Nodup := by
  induction uris generalizing table with
  | nil => exact h
  | cons u uris ih =>
    refine ih _ ?_
    show (addNamespace table u).1.Nodup
    rcases addNamespace_cases table u with ⟨_, h1, _⟩ | ⟨h0, h1, _⟩
    · rw [h1]; exact h
    · rw [h1, List.nodup_append]
      refine ⟨h, by simp, ?_⟩
      intro x hx y hy e
      rw [List.mem_singleton.mp hy] at e
      exact h0 (e ▸ hx)

/-- **C65 (stability, partial).** As long as the table has at most 65536 URIs, the index that Add returns
designates the URI, then and after all later additions, and every other URI has another place; and adding
a known URI returns the index that it has. Missing: larger tables, see `C65_wrap_fails`. -/
theorem C65_stable_partial (table : List String) (hn : table.Nodup) (u : String)
    (hl : (addNamespace table u).1.length ≤ 65536) (more : List String) :
    (addAll (addNamespace table u).1 more)[(addNamespace table u).2]? = some u ∧
    (∀ j, (addAll (addNamespace table u).1 more)[j]? = some u → j = (addNamespace table u).2) ∧
    (addNamespace (addAll (addNamespace table u).1 more) u).2 = (addNamespace table u).2 := by
  have key : ∀ t : List String, t.Nodup → (addNamespace t u).1.length ≤ 65536 →
      (addNamespace t u).1[(addNamespace t u).2]? = some u := by
    intro t hn hl
    rcases addNamespace_cases t u with ⟨h0, h1, i, h2, h3⟩ | ⟨h0, h1, h2⟩
    · rw [h1] at hl ⊢
      rw [h3]
      have : i < t.length := (List.getElem?_eq_some_iff.mp h2).1
      rw [Nat.mod_eq_of_lt (by omega)]
      exact h2
    · rw [h1] at hl ⊢
      rw [h2]
      simp only [List.length_append, List.length_singleton] at hl
      rw [Nat.mod_eq_of_lt (by omega)]
      simp
  obtain ⟨rest, hrest⟩ := addAll_prefix more (addNamespace table u).1
  have h1 := key table hn hl
  have hlt : (addNamespace table u).2 < (addNamespace table u).1.length := (List.getElem?_eq_some_iff.mp h1).1
  have h2 : (addAll (addNamespace table u).1 more)[(addNamespace table u).2]? = some u := by
    rw [hrest, List.getElem?_append_left hlt]
    exact h1
  have hnd : (addNamespace table u).1.Nodup := C65_unique table hn [u]
  have hnd2 := C65_unique _ hnd more
  have h3 : ∀ j, (addAll (addNamespace table u).1 more)[j]? = some u → j = (addNamespace table u).2 := by
    intro j hj
    have hj' := (List.getElem?_eq_some_iff.mp hj).1
    exact (List.getElem?_inj hj' hnd2).mp (hj.trans h2.symm)
  refine ⟨h2, h3, ?_⟩
  rcases addNamespace_cases (addAll (addNamespace table u).1 more) u with ⟨_, _, i, h4, h5⟩ | ⟨h0, _, _⟩
  · rw [h5, h3 i h4, Nat.mod_eq_of_lt (by omega)]
  · exact absurd (List.mem_of_getElem? h2) h0

example : addAll ["http://opcfoundation.org/UA/", "urn:a"] ["urn:b", "urn:a", "urn:c", "urn:b"] =
    ["http://opcfoundation.org/UA/", "urn:a", "urn:b", "urn:c"] ∧ (addNamespace ["http://opcfoundation.org/UA/", "urn:a"] "urn:b").2 = 2 := by
  decide

theorem addAll_new (us : List String) : ∀ t : List String, (t ++ us).Nodup → addAll t us = t ++ us := by
  induction us with
  | nil => intro t _; simp [addAll]
  | cons u us ih =>
    intro t h
    show addAll (addNamespace t u).1 us = t ++ u :: us
    rcases addNamespace_cases t u with ⟨h0, _⟩ | ⟨_, h1, _⟩
    · rw [List.nodup_append] at h
      exact absurd rfl (h.2.2 u h0 u (by simp))
    · rw [h1, ih (t ++ [u]) (by simpa using h)]
      simp

/-- Different URIs: "", "a", "aa", ... -/
def manyUris (n : Nat) : List String := (List.range n).map (fun i => String.ofList (List.replicate i 'a'))

theorem manyUris_nodup (n : Nat) : (manyUris n).Nodup := by
  unfold manyUris
  rw [List.nodup_iff_pairwise_ne, List.pairwise_map]
  refine List.Pairwise.imp ?_ List.nodup_range
  intro a b h e
  apply h
  have h2 : (String.ofList (List.replicate a 'a')).toList = (String.ofList (List.replicate b 'a')).toList := by rw [e]
  have := congrArg List.length h2
  simpa using this

theorem manyUris_length (n : Nat) : (manyUris n).length = n := by simp [manyUris]

theorem manyUris_succ (n : Nat) : manyUris (n + 1) = manyUris n ++ [String.ofList (List.replicate n 'a')] := by
  unfold manyUris
  rw [List.range_succ, List.map_append]
  rfl

theorem manyUris_next (n : Nat) : String.ofList (List.replicate n 'a') ∉ manyUris n := by
  have hn := manyUris_nodup (n + 1)
  rw [manyUris_succ, List.nodup_append] at hn
  intro hm
  exact hn.2.2 _ hm _ (List.mem_singleton.mpr rfl) rfl

theorem manyUris_added (n : Nat) : addAll [] (manyUris n) = manyUris n := by
  rw [addAll_new _ [] (by rw [List.nil_append]; exact manyUris_nodup n), List.nil_append]

theorem manyUris_index (n : Nat) :
    (addNamespace (addAll [] (manyUris n)) (String.ofList (List.replicate n 'a'))).2 = n % 65536 ∧
    (0 < n → (addNamespace (addAll [] (manyUris n)) (String.ofList (List.replicate n 'a'))).1[0]? ≠
      some (String.ofList (List.replicate n 'a'))) := by
  rw [manyUris_added]
  rcases addNamespace_cases (manyUris n) (String.ofList (List.replicate n 'a')) with ⟨h0, _⟩ | ⟨_, h1, h2⟩
  · exact absurd h0 (manyUris_next n)
  · refine ⟨by rw [h2, manyUris_length], fun hn => ?_⟩
    rw [h1, List.getElem?_append_left (by rw [manyUris_length]; exact hn)]
    intro h
    exact manyUris_next n (List.mem_of_getElem? h)

/-- **C65 fails (wrap-around).** The index of URI number 65536 is given as 0, which designates another one. -/
theorem C65_wrap_fails : ∃ uris u, u ∉ addAll [] uris ∧ (addNamespace (addAll [] uris) u).2 = 0 ∧
    (addNamespace (addAll [] uris) u).1[0]? ≠ some u := by
  have key : ∀ n, n % 65536 = 0 → 0 < n → ∃ uris u, u ∉ addAll [] uris ∧ (addNamespace (addAll [] uris) u).2 = 0 ∧
      (addNamespace (addAll [] uris) u).1[0]? ≠ some u := by
    intro n h1 h2
    refine ⟨manyUris n, String.ofList (List.replicate n 'a'), ?_, ?_, (manyUris_index n).2 h2⟩
    · rw [manyUris_added]; exact manyUris_next n
    · rw [(manyUris_index n).1, h1]
  exact key 65536 (by decide) (by decide)

/-! ## C89: events travel to the notifiers -/

/-- `a`, which is not the Server object (2253), has an inverse HasNotifier (48) reference to `b`. -/
def Notifies (s : Space) (a b : Id) : Prop :=
  a ≠ ⟨0, 2253⟩ ∧ ∃ n, s a = some n ∧ (⟨⟨0, 48⟩, true, b⟩ : Ref) ∈ n.refs

/-- `b` is `a` or reached from it by such references. -/
inductive Hears (s : Space) : Id → Id → Prop
  | self (a : Id) : Hears s a a
  | up {a b c : Id} : Notifies s a b → Hears s b c → Hears s a c

/-- The objects whose listeners were called. -/
def reached : Raised → List Id
  | .done l => l
  | .badNodeIDUnknown l => l
  | .running l => l

/-- The first inverse HasNotifier reference. -/
def notifier (s : Space) (id : Id) : Option Id :=
  if id = ⟨0, 2253⟩ then none
  else match s id with
    | none => none
    | some n => (n.refs.find? (fun r => r.inverse && decide (r.type = ⟨0, 48⟩))).map (·.target)

theorem notifier_some {s : Space} {a b : Id} (h : notifier s a = some b) : Notifies s a b := by
  unfold notifier at h
  split at h
  · cases h
  next hs =>
    refine ⟨hs, ?_⟩
    cases hn : s a with
    | none => rw [hn] at h; cases h
    | some n =>
      rw [hn] at h
      simp only [Option.map_eq_some_iff] at h
      obtain ⟨⟨ty, inv, tg⟩, hr, ht⟩ := h
      have h1 := List.find?_some hr
      simp only [Bool.and_eq_true, decide_eq_true_eq] at h1 ht
      refine ⟨n, rfl, ?_⟩
      rw [← ht, ← h1.2, ← h1.1]
      exact List.mem_of_find?_eq_some hr

theorem notifier_none {s : Space} {a : Id} (h : notifier s a = none) (b : Id) : ¬ Notifies s a b := by
  rintro ⟨h0, n, hn, hr⟩
  rw [notifier, if_neg h0, hn] at h
  simp only [Option.map_eq_none_iff, List.find?_eq_none] at h
  exact h _ hr (by simp)

theorem onEvent_succ (s : Space) (k : Nat) (id : Id) (out : List Id) : onEvent s (k + 1) id out =
    match notifier s id with
    | none => .done (out ++ [id])
    | some t =>
      match s t with
      | some n => if n.cls = 1 then onEvent s k t (out ++ [id]) else .badNodeIDUnknown (out ++ [id])
      | none => .badNodeIDUnknown (out ++ [id]) := by
  rw [onEvent]
  unfold notifier
  by_cases hs : id = serverObject
  · rw [if_pos hs, if_pos hs]
  · rw [if_neg hs, if_neg hs]
    cases hn : s id with
    | none => rfl
    | some n =>
      dsimp only
      cases hf : n.refs.find? (fun r => r.inverse && decide (r.type = hasNotifier)) with
      | none => rfl
      | some r => rfl

theorem Hears.trans {s : Space} {a b c : Id} (h1 : Hears s a b) (h2 : Hears s b c) : Hears s a c := by
  induction h1 with
  | self => exact h2
  | up h _ ih => exact .up h (ih h2)

theorem onEvent_heard {s : Space} {start : Id} : ∀ (k : Nat) (id : Id) (out : List Id), Hears s start id → (∀ x ∈ out, Hears s start x) →
    ∀ x ∈ reached (onEvent s k id out), Hears s start x := by
  intro k
  induction k with
  | zero => intro id out h1 h2 x hx; exact h2 x hx
  | succ k ih =>
    intro id out h1 h2
    have h3 : ∀ x ∈ out ++ [id], Hears s start x := by
      intro x hx
      rcases List.mem_append.mp hx with h | h
      · exact h2 x h
      · rw [List.mem_singleton.mp h]; exact h1
    rw [onEvent_succ]
    split
    · exact h3
    next t ht =>
      split
      next n hn =>
        split
        · exact ih t _ (h1.trans (.up (notifier_some ht) (.self t))) h3
        · exact h3
      · exact h3

/-- **C89 (only notifiers).** The listeners that are called are those of the object and of objects that are
reached from it by inverse HasNotifier references. -/
theorem C89_heard (s : Space) (id : Id) (rounds : Nat) : ∀ x ∈ reached (onEvent s rounds id []), Hears s id x :=
  onEvent_heard rounds id [] (.self id) (by simp)

/-- The remaining way of an event, by the code. -/
inductive Path (s : Space) : Id → List Id → Prop
  | stop {a : Id} : notifier s a = none → Path s a [a]
  | go {a b : Id} {l : List Id} : notifier s a = some b → Path s b l → Path s a (a :: l)

theorem Path.unique {s : Space} {a : Id} {l m : List Id} (h1 : Path s a l) (h2 : Path s a m) : l = m := by
  induction h1 generalizing m with
  | stop h =>
    cases h2 with
    | stop _ => rfl
    | go h' _ => rw [h] at h'; cases h'
  | go h _ ih =>
    cases h2 with
    | stop h' => rw [h] at h'; cases h'
    | go h' h3 =>
      rw [h] at h'
      cases h'
      rw [ih h3]

theorem Path.suffix {s : Space} {a : Id} {l : List Id} (h : Path s a l) {x : Id} (hx : x ∈ l) : ∃ m, Path s x m ∧ m.length ≤ l.length := by
  induction h with
  | stop h => rw [List.mem_singleton.mp hx]; exact ⟨_, .stop h, Nat.le_refl _⟩
  | go h h' ih =>
    rcases List.mem_cons.mp hx with rfl | hx
    · exact ⟨_, .go h h', Nat.le_refl _⟩
    · obtain ⟨m, h1, h2⟩ := ih hx
      exact ⟨m, h1, by simp; omega⟩

theorem Path.nodup {s : Space} {a : Id} {l : List Id} (h : Path s a l) : l.Nodup := by
  induction h with
  | stop h => simp
  | @go a b l h h' ih =>
    rw [List.nodup_cons]
    refine ⟨fun hm => ?_, ih⟩
    obtain ⟨m, h1, h2⟩ := h'.suffix hm
    have := h1.unique (.go h h')
    rw [this, List.length_cons] at h2
    omega

theorem onEvent_path {s : Space} : ∀ (k : Nat) (id : Id) (out L : List Id), onEvent s k id out = .done L →
    ∃ l, Path s id l ∧ L = out ++ l := by
  intro k
  induction k with
  | zero => intro id out L h; cases h
  | succ k ih =>
    intro id out L h
    rw [onEvent_succ] at h
    split at h
    next h0 => cases h; exact ⟨[id], .stop h0, rfl⟩
    next t ht =>
      split at h
      next n hn =>
        split at h
        · obtain ⟨l, h1, h2⟩ := ih t _ L h
          exact ⟨id :: l, .go ht h1, by rw [h2]; simp⟩
        · cases h
      · cases h

/-- **C89 (once).** No listener is called twice for an event whose delivery ends. -/
theorem C89_once (s : Space) (id : Id) (rounds : Nat) (L : List Id) (h : onEvent s rounds id [] = .done L) : L.Nodup := by
  obtain ⟨l, h1, h2⟩ := onEvent_path rounds id [] L h
  rw [h2]
  exact h1.nodup

/-- No node has two inverse HasNotifier references. -/
def OneNotifier (s : Space) : Prop := ∀ a b c, Notifies s a b → Notifies s a c → b = c

/-- **C89 (all notifiers, partial).** If no object has two notifiers, a delivery that ends has reached every
notifier. Missing: several notifiers, see `C89_second_fails`. -/
theorem C89_all_partial (s : Space) (hs : OneNotifier s) (id : Id) (rounds : Nat) (L : List Id)
    (h : onEvent s rounds id [] = .done L) (x : Id) (hx : Hears s id x) : x ∈ L := by
  obtain ⟨l, h1, h2⟩ := onEvent_path rounds id [] L h
  rw [h2, List.nil_append]
  clear h h2
  induction h1 with
  | stop h =>
    cases hx with
    | self => simp
    | up hn _ => exact absurd hn (notifier_none h _)
  | @go a b l h h' ih =>
    cases hx with
    | self => simp
    | @up _ c _ hn hr =>
      have e := hs a b c (notifier_some h) hn
      subst e
      exact List.mem_cons_of_mem _ (ih hr)

/-- Reached by one or more references. -/
def HearsAbove (s : Space) (a b : Id) : Prop := ∃ c, Notifies s a c ∧ Hears s c b

theorem onEvent_ends {s : Space} : ∀ (k : Nat) (avail : List Id), avail.length ≤ k → ∀ (id : Id) (out : List Id),
    (∀ x, HearsAbove s id x → (s x).isSome → x ∈ avail) → (∀ x, Hears s id x → ¬ HearsAbove s x x) →
    ∀ l, onEvent s (k + 1) id out ≠ .running l := by
  intro k
  induction k with
  | zero =>
    intro avail hk id out h1 h2 l
    have hnil : avail = [] := List.eq_nil_of_length_eq_zero (by omega)
    rw [onEvent_succ]
    cases hn : notifier s id with
    | none => simp
    | some t =>
      dsimp only
      cases ht : s t with
      | none => simp
      | some n =>
        have := h1 t ⟨t, notifier_some hn, .self t⟩ (by rw [ht]; rfl)
        rw [hnil] at this
        cases this
  | succ k ih =>
    intro avail hk id out h1 h2 l
    rw [onEvent_succ]
    cases hn : notifier s id with
    | none => simp
    | some t =>
      dsimp only
      cases ht : s t with
      | none => simp
      | some n =>
        dsimp only
        split
        · have hnot := notifier_some hn
          have htm := h1 t ⟨t, hnot, .self t⟩ (by rw [ht]; rfl)
          have hlen : (avail.filter (fun x => decide (x ≠ t))).length < avail.length :=
            List.length_filter_lt_length_iff_exists.mpr ⟨t, htm, by simp⟩
          refine ih (avail.filter (fun x => decide (x ≠ t))) (by omega) t _ ?_ ?_ l
          · intro x hx hsx
            refine List.mem_filter.mpr ⟨?_, ?_⟩
            · obtain ⟨c, h3, h4⟩ := hx
              exact h1 x ⟨t, hnot, .up h3 h4⟩ hsx
            · simp only [decide_eq_true_eq]
              rintro rfl
              exact h2 _ (.up hnot (.self _)) hx
          · intro x hx
            exact h2 x (.up hnot hx)
        · simp

/-- **C89 (end, partial).** In a finite address space without cycles of notifiers, the delivery ends.
Missing: cycles, see `C89_cycle_fails`. -/
theorem C89_ends_partial (s : Space) (hf : Finite s) (id : Id) (h : ∀ x, Hears s id x → ¬ HearsAbove s x x) :
    ∃ rounds, ∀ l, onEvent s rounds id [] ≠ .running l := by
  obtain ⟨ids, hids⟩ := hf
  exact ⟨ids.length + 1, onEvent_ends ids.length ids (Nat.le_refl _) id [] (fun x _ hx => hids x hx) h⟩

/-- A pump in an area of the server. -/
def plant : Space := run empty [.add [(serverObject, { refs := [⟨hasNotifier, false, ⟨1, 1⟩⟩] }),
  (⟨1, 1⟩, { refs := [⟨hasNotifier, false, ⟨1, 2⟩⟩] }), (⟨1, 2⟩, { refs := [] })]]

example : onEvent plant 5 ⟨1, 2⟩ [] = .done [⟨1, 2⟩, ⟨1, 1⟩, serverObject] := by decide

/-- The pump belongs to two areas of the server. -/
def twoAreas : Space := run empty [.add [(serverObject, { refs := [⟨hasNotifier, false, ⟨1, 1⟩⟩, ⟨hasNotifier, false, ⟨1, 3⟩⟩] }),
  (⟨1, 1⟩, { refs := [⟨hasNotifier, false, ⟨1, 2⟩⟩] }), (⟨1, 2⟩, { refs := [] }), (⟨1, 3⟩, { refs := [⟨hasNotifier, false, ⟨1, 2⟩⟩] })]]

/-- **C89 fails (second notifier).** The listeners of the second area do not get the event. -/
theorem C89_second_fails : Hears twoAreas ⟨1, 2⟩ ⟨1, 3⟩ ∧ onEvent twoAreas 5 ⟨1, 2⟩ [] = .done [⟨1, 2⟩, ⟨1, 1⟩, serverObject] := by
  refine ⟨.up ⟨by decide, ⟨[⟨hasNotifier, true, ⟨1, 1⟩⟩, ⟨hasNotifier, true, ⟨1, 3⟩⟩], 1, 0, [], 0⟩, by decide, by decide⟩ (.self _), by decide⟩

/-- Two objects are notifiers of one another. -/
def notifierCycle : Space := fun id =>
  if id = ⟨1, 0⟩ then some { refs := [⟨hasNotifier, true, ⟨1, 1⟩⟩] }
  else if id = ⟨1, 1⟩ then some { refs := [⟨hasNotifier, true, ⟨1, 0⟩⟩] } else none

/-- **C89 fails (cycles).** An event raised in a cycle of notifiers is delivered again and again, and the
call never returns. -/
theorem C89_cycle_fails (rounds : Nat) : ∃ l, onEvent notifierCycle rounds ⟨1, 0⟩ [] = .running l ∧ l.length = rounds := by
  have key : ∀ (k : Nat) (out : List Id), (∃ l, onEvent notifierCycle k ⟨1, 0⟩ out = .running l ∧ l.length = out.length + k) ∧
      (∃ l, onEvent notifierCycle k ⟨1, 1⟩ out = .running l ∧ l.length = out.length + k) := by
    intro k
    induction k with
    | zero => intro out; exact ⟨⟨out, rfl, rfl⟩, ⟨out, rfl, rfl⟩⟩
    | succ k ih =>
      intro out
      constructor
      · obtain ⟨l, h1, h2⟩ := (ih (out ++ [⟨1, 0⟩])).2
        refine ⟨l, ?_, by rw [h2]; simp; omega⟩
        rw [onEvent_succ, show notifier notifierCycle ⟨1, 0⟩ = some ⟨1, 1⟩ by decide]
        exact h1
      · obtain ⟨l, h1, h2⟩ := (ih (out ++ [⟨1, 1⟩])).1
        refine ⟨l, ?_, by rw [h2]; simp; omega⟩
        rw [onEvent_succ, show notifier notifierCycle ⟨1, 1⟩ = some ⟨1, 0⟩ by decide]
        exact h1
  obtain ⟨l, h1, h2⟩ := (key rounds []).1
  exact ⟨l, h1, by simpa using h2⟩

/-! ## C90: the variant type of a data type -/

/-- The built-in data types of OPC UA Part 6 with their encoding ids, and enumerations as Int32. -/
def BuiltIn (id : Id) (vt : Nat) : Prop :=
  (id.ns = 0 ∧ id.n = vt ∧ 1 ≤ vt ∧ vt ≤ 25) ∨ (id = ⟨0, 29⟩ ∧ vt = 6)

/-- The variant type is that of the nearest built-in supertype, or Null if there is none. -/
inductive VariantOf (s : Space) : Id → Nat → Prop
  | here {a : Id} {vt : Nat} : BuiltIn a vt → VariantOf s a vt
  | up {a b : Id} {vt : Nat} : (∀ v, ¬ BuiltIn a v) → IsSuper s a b → VariantOf s b vt → VariantOf s a vt
  | top {a : Id} : (∀ v, ¬ BuiltIn a v) → (∀ b, ¬ IsSuper s a b) → VariantOf s a 0

theorem builtinType_some {a : Id} {v : Nat} : builtinType a = some v ↔ BuiltIn a v := by
  obtain ⟨ns, n⟩ := a
  unfold builtinType BuiltIn
  simp only [Id.mk.injEq]
  split
  · simp only [Option.some.injEq]; omega
  · split
    · simp only [Option.some.injEq]; omega
    · simp; omega

theorem builtinType_none {a : Id} (h : builtinType a = none) (v : Nat) : ¬ BuiltIn a v := by
  rw [← builtinType_some, h]; simp

theorem variantTypeLoop_sound {s : Space} : ∀ (k : Nat) (id : Id) (vt : Nat), variantTypeLoop s k id = some vt → VariantOf s id vt := by
  intro k
  induction k with
  | zero => intro id vt h; cases h
  | succ k ih =>
    intro id vt h
    unfold variantTypeLoop at h
    split at h
    next v hv => cases h; exact .here (builtinType_some.mp hv)
    next hv =>
      split at h
      next hs => cases h; exact .top (builtinType_none hv) (fun b => superType_none hs)
      next t ht => exact .up (builtinType_none hv) (superType_is ht) (ih t vt h)

/-- A sequence of lookups with the cache that they build up; the results. -/
def lookups (s : Space) (rounds : Nat) : (Id → Option Nat) → List Id → List (Option Nat)
  | _, [] => []
  | cache, id :: ids =>
    match findVariantType s cache rounds id with
    | none => none :: lookups s rounds cache ids
    | some (vt, cache') => some vt :: lookups s rounds cache' ids

/-- **C90 (partial).** In an address space that does not change, every lookup of a sequence gives the
variant type of the nearest built-in supertype. Missing: changes between the lookups, see
`C90_stale_fails`. -/
theorem C90_lookups_partial (s : Space) (rounds : Nat) (ids : List Id) (i : Nat) (id : Id) (vt : Nat)
    (hi : ids[i]? = some id) (hv : (lookups s rounds (fun _ => none) ids)[i]? = some (some vt)) : VariantOf s id vt := by
  have key : ∀ (ids : List Id) (cache : Id → Option Nat), (∀ x v, cache x = some v → VariantOf s x v) → ∀ (i : Nat) (id : Id) (vt : Nat),
      ids[i]? = some id → (lookups s rounds cache ids)[i]? = some (some vt) → VariantOf s id vt := by
    intro ids
    induction ids with
    | nil => intro cache _ i id vt h; simp at h
    | cons a ids ih =>
      intro cache hc i id vt h1 h2
      unfold lookups at h2
      cases hf : findVariantType s cache rounds a with
      | none =>
        rw [hf] at h2
        cases i with
        | zero => simp at h2
        | succ i => exact ih cache hc i id vt (by simpa using h1) (by simpa using h2)
      | some p =>
        obtain ⟨v, cache'⟩ := p
        rw [hf] at h2
        have hres : VariantOf s a v ∧ ∀ x w, cache' x = some w → VariantOf s x w := by
          unfold findVariantType at hf
          split at hf
          next w hw => cases hf; exact ⟨hc a _ hw, hc⟩
          next hw =>
            split at hf
            · cases hf
            next w hl =>
              cases hf
              have := variantTypeLoop_sound rounds a v hl
              refine ⟨this, ?_⟩
              intro x w hx
              dsimp only at hx
              split at hx
              next e => cases hx; rw [e]; exact this
              next e => exact hc x w hx
        cases i with
        | zero =>
          simp only [List.getElem?_cons_zero, Option.some.injEq] at h1 h2
          rw [← h1, ← h2]
          exact hres.1
        | succ i => exact ih cache' hres.2 i id vt (by simpa using h1) (by simpa using h2)
  exact key ids _ (by simp) i id vt hi hv

theorem variantOf_unique {s : Space} (hs : SingleInheritance s) {a : Id} {v w : Nat} (h1 : VariantOf s a v) (h2 : VariantOf s a w) : v = w := by
  induction h1 generalizing w with
  | here h =>
    cases h2 with
    | here h' => exact Option.some.inj ((builtinType_some.mpr h).symm.trans (builtinType_some.mpr h'))
    | up h' _ _ => exact absurd h (h' _)
    | top h' _ => exact absurd h (h' _)
  | up h h3 _ ih =>
    cases h2 with
    | here h' => exact absurd h' (h _)
    | up _ h4 h5 =>
      have e := hs _ _ _ h3 h4
      subst e
      exact ih h5
    | top _ h4 => exact absurd h3 (h4 _)
  | top h h3 =>
    cases h2 with
    | here h' => exact absurd h' (h _)
    | up _ h4 _ => exact absurd h4 (h3 _)
    | top _ _ => rfl

/-- **C90 (end, partial).** A lookup ends within `k` rounds if a built-in type or a type without supertype
is reached by less than `k` inverse HasSubtype references and there is single inheritance. Missing:
cycles, see `C90_cycle_fails`. -/
theorem C90_ends_partial (s : Space) (hs : SingleInheritance s) : ∀ (k j : Nat) (id t : Id), j < k → Hops s j id t →
    ((∃ v, BuiltIn t v) ∨ ∀ b, ¬ IsSuper s t b) → (variantTypeLoop s k id).isSome := by
  intro k
  induction k with
  | zero => intro j id t h; omega
  | succ k ih =>
    intro j id t hj hh ht
    unfold variantTypeLoop
    cases hb : builtinType id with
    | some v => rfl
    | none =>
      dsimp only
      cases hsup : superType s id with
      | none => rfl
      | some u =>
        dsimp only
        cases hh with
        | zero =>
          rcases ht with ⟨v, hv⟩ | ht
          · exact absurd hv (builtinType_none hb v)
          · exact absurd (superType_is hsup) (ht u)
        | @succ j _ b _ h1 h2 =>
          have e := hs _ _ _ h1 (superType_is hsup)
          subst e
          exact ih j b t (by omega) h2 ht

/-- Duration is a Double; an enumeration; Number is abstract and becomes Variant. -/
def dataTypes : Space := fun id =>
  if id = ⟨0, 290⟩ then some { refs := [⟨hasSubtype, true, ⟨0, 11⟩⟩] }
  else if id = ⟨1, 7⟩ then some { refs := [⟨hasProperty, false, ⟨1, 8⟩⟩, ⟨hasSubtype, true, ⟨0, 29⟩⟩] }
  else if id = ⟨0, 26⟩ then some { refs := [⟨hasSubtype, true, ⟨0, 24⟩⟩] } else none

example : lookups dataTypes 5 (fun _ => none) [⟨0, 290⟩, ⟨1, 7⟩, ⟨0, 26⟩, ⟨0, 290⟩, ⟨1, 9⟩] = [some 11, some 6, some 24, some 11, some 0] := by
  decide

/-- **C90 fails (stale).** A data type that was looked up before it was added stays Null for ever. -/
theorem C90_stale_fails :
    let s := addNodes empty [(⟨1, 7⟩, { refs := [⟨hasSubtype, true, ⟨0, 6⟩⟩] })]
    ∃ cache, findVariantType empty (fun _ => none) 5 ⟨1, 7⟩ = some (0, cache) ∧
      (findVariantType s cache 5 ⟨1, 7⟩).map (·.1) = some 0 ∧ VariantOf s ⟨1, 7⟩ 6 ∧ ¬ VariantOf s ⟨1, 7⟩ 0 := by
  have hsuper : IsSuper (addNodes empty [(⟨1, 7⟩, { refs := [⟨hasSubtype, true, ⟨0, 6⟩⟩] })]) ⟨1, 7⟩ ⟨0, 6⟩ :=
    ⟨{ refs := [⟨hasSubtype, true, ⟨0, 6⟩⟩] }, by decide, by decide⟩
  have hno : ∀ v, ¬ BuiltIn ⟨1, 7⟩ v := by intro v h; simp [BuiltIn] at h
  refine ⟨fun x => if x = ⟨1, 7⟩ then some 0 else none, rfl, by decide, .up hno hsuper (.here (Or.inl (by simp))), ?_⟩
  have key : ∀ v, VariantOf (addNodes empty [(⟨1, 7⟩, { refs := [⟨hasSubtype, true, ⟨0, 6⟩⟩] })]) ⟨1, 7⟩ v → v = 6 := by
    intro v h
    cases h with
    | here h => exact absurd h (hno _)
    | up _ h1 h2 =>
      obtain ⟨n, hn, hr⟩ := h1
      have hn' : addNodes empty [(⟨1, 7⟩, { refs := [⟨hasSubtype, true, ⟨0, 6⟩⟩] })] ⟨1, 7⟩ = some { refs := [⟨hasSubtype, true, ⟨0, 6⟩⟩] } := by decide
      rw [hn'] at hn
      cases hn
      simp only [List.mem_singleton, Ref.mk.injEq, true_and] at hr
      subst hr
      cases h2 with
      | here h => simp [BuiltIn] at h; omega
      | up h _ _ => exact absurd (Or.inl (by simp)) (h 6)
      | top h _ => exact absurd (Or.inl (by simp)) (h 6)
    | top _ h1 => exact absurd hsuper (h1 _)
  intro h
  have := key 0 h
  omega

/-- **C90 fails (cycles).** The lookup of a data type in a cycle of types never ends. -/
theorem C90_cycle_fails (rounds : Nat) : findVariantType typeCycle (fun _ => none) rounds ⟨1, 0⟩ = none := by
  have key : ∀ k, variantTypeLoop typeCycle k ⟨1, 0⟩ = none ∧ variantTypeLoop typeCycle k ⟨1, 1⟩ = none := by
    intro k
    induction k with
    | zero => exact ⟨rfl, rfl⟩
    | succ k ih =>
      constructor
      · unfold variantTypeLoop
        rw [show builtinType ⟨1, 0⟩ = none by decide, show superType typeCycle ⟨1, 0⟩ = some ⟨1, 1⟩ by decide]
        exact ih.2
      · unfold variantTypeLoop
        rw [show builtinType ⟨1, 1⟩ = none by decide, show superType typeCycle ⟨1, 1⟩ = some ⟨1, 0⟩ by decide]
        exact ih.1
  simp [findVariantType, (key rounds).1]

end Opcua.AddressSpace
