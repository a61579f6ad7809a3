import Verif.Model.Deletion
import Verif.Props.SpaceQueries

/-!
# C145: what was deleted is gone, and nothing else

Specification: for the answers of the services, what it means that they do not know a node; for a deletion
with children, what is under a node.
-/

namespace Opcua.Deletion

open AddressSpace (Id Ref Node Space exempt isBack protectedId childTypes serverObject hasNotifier
  hasComponent hasTypeDefinition hasSubtype isBack_iff)

namespace Spec

/-- What comes back does not know the node `x`: asked for it, it says unknown; it does not lead there. -/
def Unknown (x : Id) : Out → Prop
  | .value y v => y = x → v = none
  | .wrote y ok => y = x → ok = false
  | .called obj method ok => obj = x ∨ method = x → ok = false
  | .browsed d r => (d.node = x → ∀ l, r ≠ .good l) ∧ ∀ l, r = .good l → ∀ t ∈ l, t.target ≠ x
  | .path y s ts => (y = x → s ≠ .good) ∧ ∀ t ∈ ts, t.1 ≠ x
  | .created _ y ok => y = x → ok = false
  | .sampled _ y v => y = x → v = none
  | .heard _ _ => True

/-- A reference to a child: HasComponent (47), HasProperty (46), HasSubtype (45) and HasOrderedComponent (49). -/
def childRef (r : Ref) : Prop := r.inverse = false ∧ r.type.ns = 0 ∧ (45 ≤ r.type.n ∧ r.type.n ≤ 47 ∨ r.type.n = 49)

/-- `b` is there and a child of `a`. -/
def Child (s : Space) (a b : Id) : Prop := ∃ n, s a = some n ∧ (∃ r ∈ n.refs, childRef r ∧ r.target = b) ∧ (s b).isSome

/-- `b` is `a` or under it. -/
inductive Under (s : Space) (a : Id) : Id → Prop
  | self : Under s a a
  | step {b c : Id} : Under s a b → Child s b c → Under s a c

/-- The call deletes the node `x`: it was given it, or, in the calls with children, a node that it is under; the
calls by id spare the nodes of namespace 0. -/
def Deletes (st : State) (x : Id) : Ev → Prop
  | .delete ps children _ => ∃ p ∈ ps, (st.objs p).id = x ∨ children = true ∧ Under st.space (st.objs p).id x
  | .deleteByID y => y = x ∧ x.ns ≠ 0
  | .deleteRecursive y _ => y.ns ≠ 0 ∧ x.ns ≠ 0 ∧ (st.table y).isSome ∧ Under st.space y x
  | _ => False

/-- A call of DeleteNode, DeleteNodes, DeleteNodeByID or DeleteNodeByIDRecursive that returns. The objects given
are those of the address space. -/
def Deletion (st : State) : Ev → Prop
  | .delete ps children rounds => (deleteNodes st children rounds ps).isSome ∧ ∀ p ∈ ps, st.table (st.objs p).id = some p
  | .deleteByID _ => True
  | .deleteRecursive x rounds => (deleteRecursive st rounds x).isSome
  | _ => False

/-- The same answer without the references to `x`. -/
def without (x : Id) : Browse.Result → Browse.Result
  | .good l => .good (l.filter (fun t => decide (t.target ≠ x)))
  | r => r

/-- The event adds a node of that id. -/
def adds (objs : Nat → Obj) (x : Id) : Ev → Prop
  | .add ps => ∃ p ∈ ps, (objs p).id = x
  | _ => False

end Spec

open Spec

/-! ## Lemmas -/

theorem childTypes_iff (r : Ref) : (!r.inverse && childTypes.contains r.type) = true ↔ childRef r := by
  rcases r with ⟨⟨ns, n⟩, inv, t⟩
  simp only [childTypes, childRef, List.contains_iff_mem, Bool.and_eq_true, Bool.not_eq_true', List.mem_cons,
    List.not_mem_nil, or_false, Id.mk.injEq]
  constructor
  · rintro ⟨h, h2⟩; exact ⟨h, by omega, by omega⟩
  · rintro ⟨h, h2, h3⟩; exact ⟨h, by omega⟩

/-- Every node is in the table under its own id. -/
def Named (st : State) : Prop := ∀ x p, st.table x = some p → (st.objs p).id = x

/-- Nothing but references changes, nothing is added, and references go only with their targets. -/
structure Shrinks (st st' : State) : Prop where
  id : ∀ p, (st'.objs p).id = (st.objs p).id
  value : ∀ p, (st'.objs p).value = (st.objs p).value
  listeners : ∀ p, (st'.objs p).listeners = (st.objs p).listeners
  attrs : ∀ p, { (st'.objs p).node with refs := [] } = { (st.objs p).node with refs := [] }
  items : st'.items = st.items
  table : ∀ x p, st'.table x = some p → st.table x = some p
  refs : ∀ p r, r ∈ (st'.objs p).node.refs → r ∈ (st.objs p).node.refs
  kept : ∀ p r, r ∈ (st.objs p).node.refs → r ∈ (st'.objs p).node.refs ∨ st'.table r.target = none

theorem Shrinks.refl (st : State) : Shrinks st st :=
  ⟨fun _ => rfl, fun _ => rfl, fun _ => rfl, fun _ => rfl, rfl, fun _ _ h => h, fun _ _ h => h, fun _ _ h => .inl h⟩

theorem Shrinks.gone {st st' : State} (h : Shrinks st st') {x : Id} (hx : st.table x = none) : st'.table x = none := by
  cases ht : st'.table x with
  | none => rfl
  | some p => rw [h.table x p ht] at hx; cases hx

theorem Shrinks.trans {a b c : State} (h : Shrinks a b) (h' : Shrinks b c) : Shrinks a c where
  id p := by rw [h'.id, h.id]
  value p := by rw [h'.value, h.value]
  listeners p := by rw [h'.listeners, h.listeners]
  attrs p := by rw [h'.attrs, h.attrs]
  items := by rw [h'.items, h.items]
  table x p hx := h.table x p (h'.table x p hx)
  refs p r hr := h.refs p r (h'.refs p r hr)
  kept p r hr := by
    rcases h.kept p r hr with h1 | h1
    · exact h'.kept p r h1
    · exact .inr (h'.gone h1)

theorem Shrinks.named {st st' : State} (h : Shrinks st st') (hn : Named st) : Named st' := by
  intro x p hx
  rw [h.id, hn x p (h.table x p hx)]

/-- unlinkBack changes references only, and removes only references to the node that is deleted. -/
theorem unlinkBack_spec (p : Nat) (st : State) (r : Ref) :
    (unlinkBack p st r).table = st.table ∧ (unlinkBack p st r).items = st.items ∧
    ∀ q, ((unlinkBack p st r).objs q).id = (st.objs q).id ∧ ((unlinkBack p st r).objs q).value = (st.objs q).value ∧
      ((unlinkBack p st r).objs q).listeners = (st.objs q).listeners ∧
      { ((unlinkBack p st r).objs q).node with refs := [] } = { (st.objs q).node with refs := [] } ∧
      (∀ tr ∈ ((unlinkBack p st r).objs q).node.refs, tr ∈ (st.objs q).node.refs) ∧
      (∀ tr ∈ (st.objs q).node.refs, tr ∈ ((unlinkBack p st r).objs q).node.refs ∨ tr.target = (st.objs p).id) := by
  have triv : st.table = st.table ∧ st.items = st.items ∧
    ∀ q, (st.objs q).id = (st.objs q).id ∧ (st.objs q).value = (st.objs q).value ∧
      (st.objs q).listeners = (st.objs q).listeners ∧
      { (st.objs q).node with refs := [] } = { (st.objs q).node with refs := [] } ∧
      (∀ tr ∈ (st.objs q).node.refs, tr ∈ (st.objs q).node.refs) ∧
      (∀ tr ∈ (st.objs q).node.refs, tr ∈ (st.objs q).node.refs ∨ tr.target = (st.objs p).id) :=
    ⟨rfl, rfl, fun q => ⟨rfl, rfl, rfl, rfl, fun _ h => h, fun _ h => .inl h⟩⟩
  unfold unlinkBack
  split
  · exact triv
  · split
    · exact triv
    next q0 hq0 =>
      refine ⟨rfl, rfl, fun q => ?_⟩
      by_cases hq : q = q0
      · subst hq
        simp only [setRefs, setObj, ↓reduceIte]
        refine ⟨trivial, trivial, trivial, trivial, fun tr h => (List.mem_filter.mp h).1, fun tr h => ?_⟩
        cases hb : isBack (st.objs p).id r tr with
        | true => right; rw [isBack_iff] at hb; rw [hb]
        | false => left; exact List.mem_filter.mpr ⟨h, by rw [hb]; rfl⟩
      · simp only [setRefs, setObj, hq, if_false]
        exact ⟨trivial, trivial, trivial, trivial, fun _ h => h, fun _ h => .inl h⟩

theorem unlinkAll_spec (p : Nat) (rs : List Ref) : ∀ st : State,
    (rs.foldl (unlinkBack p) st).table = st.table ∧ (rs.foldl (unlinkBack p) st).items = st.items ∧
    ∀ q, ((rs.foldl (unlinkBack p) st).objs q).id = (st.objs q).id ∧
      ((rs.foldl (unlinkBack p) st).objs q).value = (st.objs q).value ∧
      ((rs.foldl (unlinkBack p) st).objs q).listeners = (st.objs q).listeners ∧
      { ((rs.foldl (unlinkBack p) st).objs q).node with refs := [] } = { (st.objs q).node with refs := [] } ∧
      (∀ tr ∈ ((rs.foldl (unlinkBack p) st).objs q).node.refs, tr ∈ (st.objs q).node.refs) ∧
      (∀ tr ∈ (st.objs q).node.refs, tr ∈ ((rs.foldl (unlinkBack p) st).objs q).node.refs ∨ tr.target = (st.objs p).id) := by
  induction rs with
  | nil => exact fun st => ⟨rfl, rfl, fun q => ⟨rfl, rfl, rfl, rfl, fun _ h => h, fun _ h => .inl h⟩⟩
  | cons r rs ih =>
    intro st
    obtain ⟨a1, a2, a3⟩ := unlinkBack_spec p st r
    obtain ⟨b1, b2, b3⟩ := ih (unlinkBack p st r)
    rw [List.foldl_cons]
    refine ⟨by rw [b1, a1], by rw [b2, a2], fun q => ?_⟩
    obtain ⟨c1, c2, c3, c4, c5, c6⟩ := a3 q
    obtain ⟨d1, d2, d3, d4, d5, d6⟩ := b3 q
    refine ⟨by rw [d1, c1], by rw [d2, c2], by rw [d3, c3], by rw [d4, c4], fun tr h => c5 tr (d5 tr h), fun tr h => ?_⟩
    rcases c6 tr h with h1 | h1
    · rcases d6 tr h1 with h2 | h2
      · exact .inl h2
      · rw [(a3 p).1] at h2; exact .inr h2
    · exact .inr h1

theorem deleteObj_table (st : State) (p : Nat) (x : Id) :
    (deleteObj st p).table x = if x = (st.objs p).id then none else st.table x := by
  simp only [deleteObj, setTable, (unlinkAll_spec p _ st).1]

theorem deleteObj_shrinks (st : State) (p : Nat) : Shrinks st (deleteObj st p) := by
  obtain ⟨b1, b2, b3⟩ := unlinkAll_spec p (st.objs p).node.refs st
  refine ⟨fun q => (b3 q).1, fun q => (b3 q).2.1, fun q => (b3 q).2.2.1, fun q => (b3 q).2.2.2.1, b2, ?_,
    fun q => (b3 q).2.2.2.2.1, ?_⟩
  · intro x q h
    rw [deleteObj_table] at h
    split at h
    · cases h
    · exact h
  · intro q r h
    rcases (b3 q).2.2.2.2.2 r h with h1 | h1
    · exact .inl h1
    · right; rw [deleteObj_table, if_pos h1]

theorem deleteAll_shrinks (ps : List Nat) : ∀ st : State, Shrinks st (ps.foldl deleteObj st) := by
  induction ps with
  | nil => exact fun st => .refl st
  | cons p ps ih => intro st; exact (deleteObj_shrinks st p).trans (ih _)

theorem deleteAll_table (ps : List Nat) : ∀ (st : State) (x : Id), (ps.foldl deleteObj st).table x = none ↔
    st.table x = none ∨ ∃ p ∈ ps, (st.objs p).id = x := by
  induction ps with
  | nil => intro st x; simp
  | cons p ps ih =>
    intro st x
    rw [List.foldl_cons, ih, deleteObj_table]
    simp only [(deleteObj_shrinks st p).id, List.mem_cons]
    constructor
    · rintro (h | ⟨q, hq, he⟩)
      · split at h
        next hx => exact .inr ⟨p, .inl rfl, hx.symm⟩
        · exact .inl h
      · exact .inr ⟨q, .inr hq, he⟩
    · rintro (h | ⟨q, rfl | hq, he⟩)
      · left; split <;> simp_all
      · left; rw [if_pos he.symm]
      · exact .inr ⟨q, hq, he⟩

/-! ### Children -/

theorem mem_kids {st : State} {p q : Nat} : q ∈ kids st p ↔
    ∃ r ∈ (st.objs p).node.refs, childRef r ∧ st.table r.target = some q := by
  simp only [kids, List.mem_filterMap]
  constructor
  · rintro ⟨r, hr, h⟩
    split at h
    next hc => exact ⟨r, hr, (childTypes_iff r).mp hc, h⟩
    · cases h
  · rintro ⟨r, hr, hc, h⟩
    exact ⟨r, hr, by rw [if_pos ((childTypes_iff r).mpr hc)]; exact h⟩

theorem childrenLoop_closed {st : State} : ∀ (k : Nat) (queue out L : List Nat), childrenLoop st k queue out = some L →
    (∀ q ∈ out, q ∈ L) ∧ (∀ p ∈ queue, ∀ q ∈ kids st p, q ∈ L) ∧ (∀ p ∈ L, p ∈ out ∨ ∀ q ∈ kids st p, q ∈ L) := by
  intro k
  induction k with
  | zero =>
    intro queue out L h
    cases queue with
    | nil =>
      simp only [childrenLoop, Option.some.injEq] at h
      subst h
      exact ⟨fun _ h => h, fun _ h => (by cases h), fun _ h => .inl h⟩
    | cons p queue => cases h
  | succ k ih =>
    intro queue out L h
    cases queue with
    | nil =>
      simp only [childrenLoop, Option.some.injEq] at h
      subst h
      exact ⟨fun _ h => h, fun _ h => (by cases h), fun _ h => .inl h⟩
    | cons p queue =>
      obtain ⟨h1, h2, h3⟩ := ih _ _ _ h
      refine ⟨fun q hq => h1 q (List.mem_append_left _ hq), ?_, ?_⟩
      · intro p' hp' q hq
        rcases List.mem_cons.mp hp' with rfl | hp'
        · exact h1 q (List.mem_append_right _ hq)
        · exact h2 p' (List.mem_append_left _ hp') q hq
      · intro p' hp'
        rcases h3 p' hp' with h | h
        · rcases List.mem_append.mp h with h | h
          · exact .inl h
          · exact .inr (h2 p' (List.mem_append_right _ h))
        · exact .inr h

theorem childrenLoop_sound {st : State} {P : Nat → Prop} (hP : ∀ p, P p → ∀ q ∈ kids st p, P q) :
    ∀ (k : Nat) (queue out L : List Nat), childrenLoop st k queue out = some L → (∀ p ∈ queue, P p) →
      ∀ q ∈ L, q ∈ out ∨ ((∃ p, q ∈ kids st p) ∧ P q) := by
  intro k
  induction k with
  | zero =>
    intro queue out L h _ q hq
    cases queue with
    | nil => simp only [childrenLoop, Option.some.injEq] at h; subst h; exact .inl hq
    | cons p queue => cases h
  | succ k ih =>
    intro queue out L h hp q hq
    cases queue with
    | nil => simp only [childrenLoop, Option.some.injEq] at h; subst h; exact .inl hq
    | cons p queue =>
      have hk := hP p (hp p (List.mem_cons_self ..))
      have hp' : ∀ p' ∈ queue ++ kids st p, P p' := by
        intro p' hp'
        rcases List.mem_append.mp hp' with h | h
        · exact hp p' (List.mem_cons_of_mem _ h)
        · exact hk p' h
      rcases ih _ _ _ h hp' q hq with h | h
      · rcases List.mem_append.mp h with h | h
        · exact .inl h
        · exact .inr ⟨⟨p, h⟩, hk q h⟩
      · exact .inr h

theorem getChildren_spec {st : State} {k p : Nat} {L : List Nat} (h : getChildren st k p = some L) :
    (∀ q ∈ kids st p, q ∈ L) ∧ (∀ q ∈ L, ∀ q' ∈ kids st q, q' ∈ L) ∧
    ∀ P : Nat → Prop, P p → (∀ p, P p → ∀ q ∈ kids st p, P q) → ∀ q ∈ L, (∃ p, q ∈ kids st p) ∧ P q := by
  obtain ⟨_, h2, h3⟩ := childrenLoop_closed _ _ _ _ h
  refine ⟨h2 p (List.mem_singleton.mpr rfl), fun q hq => ?_, fun P hp hP q hq => ?_⟩
  · rcases h3 q hq with h | h
    · cases h
    · exact h
  · rcases childrenLoop_sound hP _ _ _ _ h (fun p' hp' => by rw [List.mem_singleton.mp hp']; exact hp) q hq with h | h
    · cases h
    · exact h

/-! ### DeleteNodes with children -/

theorem child_of {st : State} {a b : Id} : Child st.space a b ↔
    ∃ p q, st.table a = some p ∧ st.table b = some q ∧ ∃ r ∈ (st.objs p).node.refs, childRef r ∧ r.target = b := by
  simp only [Child, State.space, Option.map_eq_some_iff, Option.isSome_map]
  constructor
  · rintro ⟨n, ⟨p, hp, rfl⟩, hr, hb⟩
    obtain ⟨q, hq⟩ := Option.isSome_iff_exists.mp hb
    exact ⟨p, q, hp, hq, hr⟩
  · rintro ⟨p, q, hp, hq, hr⟩
    exact ⟨_, ⟨p, hp, rfl⟩, hr, by rw [hq]; rfl⟩

/-- What holds while DeleteNodes works, from the state `s0`: `done` are the nodes whose children were looked for. -/
structure Progress (s0 : State) (ps done : List Nat) (st : State) : Prop where
  shrinks : Shrinks s0 st
  inner : ∀ x, (s0.table x).isSome → st.table x = none → (∀ p ∈ ps, (s0.objs p).id ≠ x) →
    ∀ y, Child s0.space x y → st.table y = none
  outer : ∀ p ∈ done, ∀ y, Child s0.space (s0.objs p).id y → st.table y = none
  sound : ∀ x, st.table x = none → s0.table x = none ∨ ∃ p ∈ ps, Under s0.space (s0.objs p).id x

theorem kids_of_child {s0 st : State} (h : Shrinks s0 st) {p : Nat} {x y : Id} (hx : s0.table x = some p)
    (hc : Child s0.space x y) : st.table y = none ∨ ∃ q ∈ kids st p, st.table y = some q := by
  obtain ⟨p', q, hp', hq, r, hr, hcr, rfl⟩ := child_of.mp hc
  rw [hx] at hp'
  cases hp'
  cases ht : st.table r.target with
  | none => exact .inl rfl
  | some q' =>
    rcases h.kept p r hr with h1 | h1
    · exact .inr ⟨q', mem_kids.mpr ⟨r, h1, hcr, ht⟩, rfl⟩
    · rw [h1] at ht; cases ht

theorem round_progress {s0 st st' : State} {ps done : List Nat} {rounds p : Nat} (hn : Named s0)
    (hreg : ∀ p ∈ ps, s0.table (s0.objs p).id = some p) (hp : p ∈ ps)
    (h : Progress s0 ps done st) (hr : deleteRound true rounds ps st p = some st') : Progress s0 ps (done ++ [p]) st' := by
  have hns : Named st := h.shrinks.named hn
  simp only [deleteRound, if_true] at hr
  split at hr
  · cases hr
  next L hL =>
    cases hr
    obtain ⟨k1, k2, k3⟩ := getChildren_spec hL
    have s1 := deleteAll_shrinks L st
    have s2 := deleteAll_shrinks ps (L.foldl deleteObj st)
    have hgL : ∀ q ∈ L, (L.foldl deleteObj st).table (st.objs q).id = none := fun q hq =>
      (deleteAll_table L st _).mpr (.inr ⟨q, hq, rfl⟩)
    have hLtab : ∀ q ∈ L, st.table (st.objs q).id = some q := by
      intro q hq
      obtain ⟨⟨p', hp'⟩, _⟩ := k3 (fun _ => True) trivial (fun _ _ _ _ => trivial) q hq
      obtain ⟨r, _, _, ht⟩ := mem_kids.mp hp'
      rw [hns _ _ ht]; exact ht
    have hdown : ∀ (q : Nat) (x y : Id), s0.table x = some q → (∀ q' ∈ kids st q, q' ∈ L) → Child s0.space x y →
        (L.foldl deleteObj st).table y = none := by
      intro q x y hx hq hc
      rcases kids_of_child h.shrinks hx hc with h1 | ⟨q', h1, h2⟩
      · exact s1.gone h1
      · have := hgL q' (hq q' h1)
        rw [hns _ _ h2] at this
        exact this
    refine ⟨h.shrinks.trans (s1.trans s2), ?_, ?_, ?_⟩
    · intro x hx hg hne y hc
      rw [deleteAll_table] at hg
      rcases hg with hg | ⟨p', hp', he⟩
      · rw [deleteAll_table] at hg
        rcases hg with hg | ⟨q, hq, he⟩
        · exact s2.gone (s1.gone (h.inner x hx hg hne y hc))
        · have hq0 := h.shrinks.table _ _ (hLtab q hq)
          rw [he] at hq0
          exact s2.gone (hdown q x y hq0 (k2 q hq) hc)
      · rw [s1.id, h.shrinks.id] at he
        exact absurd he (hne p' hp')
    · intro p' hp' y hc
      rcases List.mem_append.mp hp' with hp' | hp'
      · exact s2.gone (s1.gone (h.outer p' hp' y hc))
      · rw [List.mem_singleton.mp hp'] at hc
        exact s2.gone (hdown p _ y (hreg p hp) k1 hc)
    · intro x hx
      rw [deleteAll_table] at hx
      rcases hx with hx | ⟨p', hp', he⟩
      · rw [deleteAll_table] at hx
        rcases hx with hx | ⟨q, hq, he⟩
        · exact h.sound x hx
        · right
          refine ⟨p, hp, ?_⟩
          have := k3 (fun q => Under s0.space (s0.objs p).id (s0.objs q).id ∧ s0.table (s0.objs q).id = some q)
            ⟨.self, hreg p hp⟩ (by
              rintro a ⟨ha, hta⟩ b hb
              obtain ⟨r, hr, hcr, ht⟩ := mem_kids.mp hb
              have ht0 := h.shrinks.table _ _ ht
              have hid := hn _ _ ht0
              refine ⟨ha.step (child_of.mpr ⟨a, b, hta, by rw [hid]; exact ht0, r, h.shrinks.refs a r hr, hcr, hid.symm⟩), ?_⟩
              rw [hid]; exact ht0) q hq
          rw [← he, h.shrinks.id]
          exact this.2.1
      · right
        refine ⟨p', hp', ?_⟩
        rw [s1.id, h.shrinks.id] at he
        rw [he]; exact .self

theorem rounds_progress {s0 : State} {ps : List Nat} {rounds : Nat} (hn : Named s0)
    (hreg : ∀ p ∈ ps, s0.table (s0.objs p).id = some p) : ∀ (more done : List Nat) (st st' : State),
    (∀ p ∈ more, p ∈ ps) → Progress s0 ps done st → deleteRounds true rounds ps st more = some st' →
    Progress s0 ps (done ++ more) st' := by
  intro more
  induction more with
  | nil =>
    intro done st st' _ h hr
    simp only [deleteRounds, Option.some.injEq] at hr
    subst hr
    rw [List.append_nil]; exact h
  | cons p more ih =>
    intro done st st' hm h hr
    simp only [deleteRounds] at hr
    split at hr
    · cases hr
    next st1 h1 =>
      have := ih _ _ _ (fun q hq => hm q (List.mem_cons_of_mem _ hq))
        (round_progress hn hreg (hm p (List.mem_cons_self ..)) h h1) hr
      rw [List.append_assoc, List.singleton_append] at this
      exact this

/-- After the first round all the nodes given are gone. -/
theorem rounds_gone {children : Bool} {ps : List Nat} {rounds : Nat} : ∀ (more : List Nat) (st st' : State),
    deleteRounds children rounds ps st more = some st' → Shrinks st st' ∧
    (more ≠ [] → ∀ p ∈ ps, st'.table (st.objs p).id = none) := by
  intro more
  induction more with
  | nil =>
    intro st st' h
    simp only [deleteRounds, Option.some.injEq] at h
    subst h
    exact ⟨.refl _, fun h => absurd rfl h⟩
  | cons p more ih =>
    intro st st' h
    simp only [deleteRounds] at h
    split at h
    · cases h
    next st1 h1 =>
      obtain ⟨i1, _⟩ := ih _ _ h
      have key : Shrinks st st1 ∧ ∀ p ∈ ps, st1.table (st.objs p).id = none := by
        unfold deleteRound at h1
        split at h1
        · split at h1
          · cases h1
          next L _ =>
            cases h1
            have s1 := deleteAll_shrinks L st
            exact ⟨s1.trans (deleteAll_shrinks ps _), fun p hp => (deleteAll_table ps _ _).mpr (.inr ⟨p, hp, s1.id p⟩)⟩
        · cases h1
          exact ⟨deleteAll_shrinks ps st, fun p hp => (deleteAll_table ps _ _).mpr (.inr ⟨p, hp, rfl⟩)⟩
      exact ⟨key.1.trans i1, fun _ p hp => i1.gone (key.2 p hp)⟩

/-! ### Exactly what is deleted -/

theorem under_gone {s0 st' : State} (hc : ∀ x y, (s0.table x).isSome → st'.table x = none → Child s0.space x y → st'.table y = none)
    {a x : Id} (ha : st'.table a = none) (hs : (s0.table a).isSome) (h : Under s0.space a x) : st'.table x = none := by
  have : st'.table x = none ∧ (s0.table x).isSome := by
    induction h with
    | self => exact ⟨ha, hs⟩
    | step _ hch ih =>
      refine ⟨hc _ _ ih.2 ih.1 hch, ?_⟩
      obtain ⟨_, q, _, hq, _⟩ := child_of.mp hch
      rw [hq]; rfl
  exact this.1

theorem deleteNodes_exact {st st' : State} {children : Bool} {rounds : Nat} {ps : List Nat} (hn : Named st)
    (hreg : ∀ p ∈ ps, st.table (st.objs p).id = some p) (h : deleteNodes st children rounds ps = some st') (x : Id) :
    st'.table x = none ↔ st.table x = none ∨ ∃ p ∈ ps, (st.objs p).id = x ∨ children = true ∧ Under st.space (st.objs p).id x := by
  obtain ⟨g1, g2⟩ := rounds_gone ps st st' h
  have g2' : ∀ p ∈ ps, st'.table (st.objs p).id = none := fun p hp => g2 (by intro e; rw [e] at hp; cases hp) p hp
  cases children with
  | true =>
    have hp : Progress st ps ([] ++ ps) st' := rounds_progress hn hreg ps [] st st' (fun _ h => h)
      ⟨.refl st, fun x hx hg => (by rw [hg] at hx; cases hx), fun _ h => (by cases h), fun x hx => .inl hx⟩ h
    rw [List.nil_append] at hp
    constructor
    · intro hx
      rcases hp.sound x hx with h1 | ⟨p, h1, h2⟩
      · exact .inl h1
      · exact .inr ⟨p, h1, .inr ⟨rfl, h2⟩⟩
    · rintro (h1 | ⟨p, h1, rfl | ⟨_, h2⟩⟩)
      · exact g1.gone h1
      · exact g2' p h1
      · refine under_gone ?_ (g2' p h1) (by rw [hreg p h1]; rfl) h2
        intro a b ha hg hc
        by_cases hps : ∃ p ∈ ps, (st.objs p).id = a
        · obtain ⟨p', hp', rfl⟩ := hps
          exact hp.outer p' hp' b hc
        · exact hp.inner a ha hg (fun p hp he => hps ⟨p, hp, he⟩) b hc
  | false =>
    have : ∀ (more : List Nat) (s s' : State), Shrinks st s → (∀ y, s.table y = none → st.table y = none ∨ ∃ p ∈ ps, (st.objs p).id = y) →
        deleteRounds false rounds ps s more = some s' → ∀ y, s'.table y = none → st.table y = none ∨ ∃ p ∈ ps, (st.objs p).id = y := by
      intro more
      induction more with
      | nil => intro s s' _ hs hr; simp only [deleteRounds, Option.some.injEq] at hr; subst hr; exact hs
      | cons p more ih =>
        intro s s' hsh hs hr
        simp only [deleteRounds, deleteRound, Bool.false_eq_true, if_false] at hr
        refine ih _ s' (hsh.trans (deleteAll_shrinks ps s)) ?_ hr
        intro y hy
        rw [deleteAll_table] at hy
        rcases hy with hy | ⟨p', hp', he⟩
        · exact hs y hy
        · exact .inr ⟨p', hp', by rw [← hsh.id]; exact he⟩
    constructor
    · intro hx
      rcases this ps st st' (.refl st) (fun y hy => .inl hy) h x hx with h1 | ⟨p, h1, h2⟩
      · exact .inl h1
      · exact .inr ⟨p, h1, .inl h2⟩
    · rintro (h1 | ⟨p, h1, rfl | ⟨h2, _⟩⟩)
      · exact g1.gone h1
      · exact g2' p h1
      · cases h2

theorem deleteRecursive_exact {st st' : State} {rounds : Nat} {y : Id} (hn : Named st)
    (h : deleteRecursive st rounds y = some st') : Shrinks st st' ∧ ∀ x, st'.table x = none ↔
      st.table x = none ∨ y.ns ≠ 0 ∧ x.ns ≠ 0 ∧ (st.table y).isSome ∧ Under st.space y x := by
  unfold deleteRecursive at h
  split at h
  next hp =>
    cases h
    have : y.ns = 0 := by simpa [protectedId] using hp
    exact ⟨.refl _, fun x => ⟨.inl, fun h => h.elim id (fun h => absurd this h.1)⟩⟩
  next hp =>
    have hy0 : y.ns ≠ 0 := by simpa [protectedId] using hp
    split at h
    next ht =>
      cases h
      refine ⟨.refl _, fun x => ⟨.inl, fun h => h.elim id (fun h => ?_)⟩⟩
      rw [ht] at h; cases h.2.2.1
    next p ht =>
      split at h
      · cases h
      next L hL =>
        cases h
        obtain ⟨k1, k2, k3⟩ := getChildren_spec hL
        have hid := hn _ _ ht
        let M := L.filter (fun q => !protectedId (st.objs q).id)
        have s1 := deleteAll_shrinks M st
        refine ⟨s1.trans (deleteObj_shrinks _ p), fun x => ?_⟩
        show (deleteObj (M.foldl deleteObj st) p).table x = none ↔ _
        rw [deleteObj_table, s1.id, hid]
        have found : ∀ {z}, Under st.space y z → ∃ q, st.table z = some q ∧ (z = y ∧ q = p ∨ q ∈ L) := by
          intro z hz
          induction hz with
          | self => exact ⟨p, ht, .inl ⟨rfl, rfl⟩⟩
          | @step b c _ hc ih =>
            obtain ⟨q, hq, hor⟩ := ih
            obtain ⟨q1, q', hq1, hq', r, hr, hcr, rfl⟩ := child_of.mp hc
            rw [hq] at hq1; cases hq1
            refine ⟨q', hq', .inr ?_⟩
            have hk : q' ∈ kids st q := mem_kids.mpr ⟨r, hr, hcr, hq'⟩
            rcases hor with ⟨rfl, rfl⟩ | hor
            · exact k1 q' hk
            · exact k2 q hor q' hk
        constructor
        · intro h
          split at h
          next hx => subst hx; exact .inr ⟨hy0, hy0, by rw [ht]; rfl, .self⟩
          next hx =>
            rw [deleteAll_table] at h
            rcases h with h | ⟨q, hq, he⟩
            · exact .inl h
            · obtain ⟨hq1, hq2⟩ := List.mem_filter.mp hq
              refine .inr ⟨hy0, by rw [← he]; simpa [protectedId] using hq2, by rw [ht]; rfl, ?_⟩
              have := k3 (fun q => Under st.space y (st.objs q).id ∧ st.table (st.objs q).id = some q)
                ⟨by rw [hid]; exact .self, by rw [hid]; exact ht⟩ (by
                  rintro a ⟨ha, hta⟩ b hb
                  obtain ⟨r, hr, hcr, htb⟩ := mem_kids.mp hb
                  have hidb := hn _ _ htb
                  exact ⟨ha.step (child_of.mpr ⟨a, b, hta, by rw [hidb]; exact htb, r, hr, hcr, hidb.symm⟩), by rw [hidb]; exact htb⟩) q hq1
              rw [← he]; exact this.2.1
        · rintro (h | ⟨_, hx0, _, hu⟩)
          · split
            · rfl
            · exact s1.gone h
          · split
            · rfl
            next hx =>
              obtain ⟨q, hq, hor⟩ := found hu
              rcases hor with ⟨rfl, _⟩ | hor
              · exact absurd rfl hx
              · refine (deleteAll_table M st x).mpr (.inr ⟨q, List.mem_filter.mpr ⟨hor, ?_⟩, hn _ _ hq⟩)
                rw [hn _ _ hq]; simpa [protectedId] using hx0

theorem deletion_exact {st : State} (hn : Named st) {e : Ev} (he : Deletion st e) : Shrinks st (step st e).1 ∧
    ∀ x, (step st e).1.table x = none ↔ st.table x = none ∨ Deletes st x e := by
  cases e with
  | delete ps children rounds =>
    obtain ⟨h1, h2⟩ := he
    obtain ⟨st', hst'⟩ := Option.isSome_iff_exists.mp h1
    simp only [step, hst', Option.getD_some, Deletes]
    exact ⟨(rounds_gone ps st st' hst').1, fun x => deleteNodes_exact hn h2 hst' x⟩
  | deleteByID y =>
    simp only [step, deleteByID, Deletes]
    split
    next hp =>
      have : y.ns = 0 := by simpa [protectedId] using hp
      exact ⟨.refl _, fun x => ⟨.inl, fun h => h.elim id (fun h => absurd (h.1 ▸ this) h.2)⟩⟩
    next hp =>
      have hy0 : y.ns ≠ 0 := by simpa [protectedId] using hp
      split
      next ht => exact ⟨.refl _, fun x => ⟨.inl, fun h => h.elim id (fun h => h.1 ▸ ht)⟩⟩
      next p ht =>
        refine ⟨deleteObj_shrinks st p, fun x => ?_⟩
        rw [deleteObj_table, hn _ _ ht]
        by_cases hx : x = y
        · subst hx; simp [hy0]
        · rw [if_neg hx]
          exact ⟨.inl, fun h => h.elim id (fun h => absurd h.1.symm hx)⟩
  | deleteRecursive y rounds =>
    obtain ⟨st', hst'⟩ := Option.isSome_iff_exists.mp he
    simp only [step, hst', Option.getD_some, Deletes]
    exact deleteRecursive_exact hn hst'
  | _ => cases he

/-! ### Histories -/

theorem linkBack_same (p : Nat) (st : State) (r : Ref) : (linkBack p st r).table = st.table ∧
    ∀ q, ((linkBack p st r).objs q).id = (st.objs q).id := by
  unfold linkBack
  split
  · exact ⟨rfl, fun _ => rfl⟩
  · split
    · exact ⟨rfl, fun _ => rfl⟩
    next q0 _ =>
      split
      · exact ⟨rfl, fun _ => rfl⟩
      · refine ⟨rfl, fun q => ?_⟩
        simp only [setRefs, setObj]
        split
        next h => rw [h]
        · rfl

theorem linkAll_same (p : Nat) (rs : List Ref) : ∀ st : State, (rs.foldl (linkBack p) st).table = st.table ∧
    ∀ q, ((rs.foldl (linkBack p) st).objs q).id = (st.objs q).id := by
  induction rs with
  | nil => exact fun st => ⟨rfl, fun _ => rfl⟩
  | cons r rs ih =>
    intro st
    obtain ⟨a1, a2⟩ := linkBack_same p st r
    obtain ⟨b1, b2⟩ := ih (linkBack p st r)
    exact ⟨by rw [List.foldl_cons, b1, a1], fun q => by rw [List.foldl_cons, b2, a2]⟩

theorem linkNodes_same (ps : List Nat) : ∀ st : State,
    (ps.foldl (fun st p => (st.objs p).node.refs.foldl (linkBack p) st) st).table = st.table ∧
    ∀ q, ((ps.foldl (fun st p => (st.objs p).node.refs.foldl (linkBack p) st) st).objs q).id = (st.objs q).id := by
  induction ps with
  | nil => exact fun st => ⟨rfl, fun _ => rfl⟩
  | cons p ps ih =>
    intro st
    obtain ⟨a1, a2⟩ := linkAll_same p (st.objs p).node.refs st
    obtain ⟨b1, b2⟩ := ih ((st.objs p).node.refs.foldl (linkBack p) st)
    exact ⟨by rw [List.foldl_cons, b1, a1], fun q => by rw [List.foldl_cons, b2, a2]⟩

theorem enter_spec (ps : List Nat) : ∀ st : State,
    (ps.foldl (fun st p => setTable st (st.objs p).id (some p)) st).objs = st.objs ∧
    (Named st → Named (ps.foldl (fun st p => setTable st (st.objs p).id (some p)) st)) ∧
    ∀ x, (∀ p ∈ ps, (st.objs p).id ≠ x) → (ps.foldl (fun st p => setTable st (st.objs p).id (some p)) st).table x = st.table x := by
  induction ps with
  | nil => exact fun st => ⟨rfl, id, fun _ _ => rfl⟩
  | cons p ps ih =>
    intro st
    obtain ⟨b1, b2, b3⟩ := ih (setTable st (st.objs p).id (some p))
    refine ⟨b1, fun hn => b2 ?_, fun x hx => ?_⟩
    · intro x q h
      simp only [setTable] at h
      split at h
      next hx => cases h; exact hx.symm
      · exact hn x q h
    · rw [List.foldl_cons, b3 x (fun q hq => hx q (List.mem_cons_of_mem _ hq))]
      simp only [setTable]
      rw [if_neg (fun e => hx p (List.mem_cons_self ..) e.symm)]

/-- Objects keep their ids, the table stays right, and nodes come only by adding them. -/
theorem step_table (st : State) (e : Ev) : (∀ p, ((step st e).1.objs p).id = (st.objs p).id) ∧
    (Named st → Named (step st e).1) ∧
    ∀ x, st.table x = none → ¬ adds st.objs x e → (step st e).1.table x = none := by
  have ofShrinks : ∀ st', Shrinks st st' → (∀ p, (st'.objs p).id = (st.objs p).id) ∧ (Named st → Named st') ∧
      ∀ x, st.table x = none → ¬ adds st.objs x e → st'.table x = none :=
    fun st' h => ⟨h.id, h.named, fun x hx _ => h.gone hx⟩
  have ofObj : ∀ p o, o.id = (st.objs p).id → (∀ q, ((setObj st p o).objs q).id = (st.objs q).id) ∧
      (Named st → Named (setObj st p o)) ∧ ∀ x, st.table x = none → ¬ adds st.objs x e → (setObj st p o).table x = none := by
    intro p o ho
    have hid : ∀ q, ((setObj st p o).objs q).id = (st.objs q).id := by
      intro q
      simp only [setObj]
      split
      next h => rw [h]; exact ho
      · rfl
    exact ⟨hid, fun hn x q hq => by rw [hid]; exact hn x q hq, fun x hx _ => hx⟩
  have hcreate : ∀ i x ev, (∀ q, ((create st i x ev).1.objs q).id = (st.objs q).id) ∧
      (Named st → Named (create st i x ev).1) ∧
      ∀ y, st.table y = none → ¬ adds st.objs y e → (create st i x ev).1.table y = none := by
    intro i x ev
    have hid : ∀ q, ((create st i x ev).1.objs q).id = (st.objs q).id := by
      intro q
      unfold create
      split
      · rfl
      · cases ev with
        | false => rfl
        | true =>
          simp only [if_true, setObj]
          split
          next h => rw [h]
          · rfl
    have htab : (create st i x ev).1.table = st.table := by
      unfold create
      split
      · rfl
      · cases ev <;> rfl
    exact ⟨hid, fun hn y q hq => by rw [htab] at hq; rw [hid]; exact hn y q hq, fun y hy _ => by rw [htab]; exact hy⟩
  cases e with
  | add ps =>
    simp only [step, addNodes]
    obtain ⟨a1, a2, a3⟩ := enter_spec ps st
    obtain ⟨b1, b2⟩ := linkNodes_same ps (ps.foldl (fun st p => setTable st (st.objs p).id (some p)) st)
    refine ⟨fun p => by rw [b2, a1], fun hn x p h => ?_, fun x hx ha => ?_⟩
    · rw [b1] at h; rw [b2]; exact a2 hn x p h
    · rw [b1, a3 x (fun p hp he => ha ⟨p, hp, he⟩)]; exact hx
  | delete ps children rounds =>
    simp only [step]
    cases h : deleteNodes st children rounds ps with
    | none => exact ofShrinks st (.refl st)
    | some st' => exact ofShrinks st' (rounds_gone ps st st' h).1
  | deleteByID y =>
    refine ofShrinks _ ?_
    simp only [step, deleteByID]
    split
    · exact .refl st
    · split
      · exact .refl st
      next p _ => exact deleteObj_shrinks st p
  | deleteRecursive y rounds =>
    refine ofShrinks _ ?_
    simp only [step, deleteRecursive]
    split
    · exact .refl st
    · split
      · exact .refl st
      next p _ =>
        split
        · exact .refl st
        next L _ => exact (deleteAll_shrinks _ st).trans (deleteObj_shrinks _ p)
  | set p v => exact ofObj p _ rfl
  | write x v =>
    simp only [step, write]
    split
    · exact ofShrinks st (.refl st)
    next p _ => exact ofObj p _ rfl
  | monitor i x => exact hcreate i x false
  | listen i x => exact hcreate i x true
  | read x => exact ofShrinks st (.refl st)
  | call obj method => exact ofShrinks st (.refl st)
  | browse user d => exact ofShrinks st (.refl st)
  | translate x path => exact ofShrinks st (.refl st)
  | sample i => exact ofShrinks st (.refl st)
  | raise p e rounds => exact ofShrinks st (.refl st)

theorem run_table (evs : List Ev) : ∀ st : State, (∀ p, ((run st evs).objs p).id = (st.objs p).id) ∧
    (Named st → Named (run st evs)) := by
  induction evs with
  | nil => exact fun st => ⟨fun _ => rfl, id⟩
  | cons e evs ih =>
    intro st
    obtain ⟨a1, a2, _⟩ := step_table st e
    obtain ⟨b1, b2⟩ := ih (step st e).1
    exact ⟨fun p => by rw [run, List.foldl_cons]; rw [← a1]; exact b1 p, fun h => b2 (a2 h)⟩

theorem start_named (objs : Nat → Obj) : Named (start objs) := fun _ _ h => by cases h

/-! ### The answers -/

theorem browseLoop_targets {s : Space} {user : Nat} {d : Browse.Description} {x : Id} (hx : s x = none) :
    ∀ (refs : List Ref) (out l : List Browse.Described), (∀ t ∈ out, t.target ≠ x) →
      Browse.browseLoop s user d refs out = some l → ∀ t ∈ l, t.target ≠ x := by
  intro refs
  induction refs with
  | nil => intro out l h hl; simp only [Browse.browseLoop, Option.some.injEq] at hl; subst hl; exact h
  | cons r refs ih =>
    intro out l h hl
    simp only [Browse.browseLoop] at hl
    split at hl
    · exact ih out l h hl
    · split at hl
      · cases hl
      next t ht =>
        split at hl
        · exact ih out l h hl
        · split at hl
          · exact ih out l h hl
          · refine ih _ l ?_ hl
            intro t' ht'
            rcases List.mem_append.mp ht' with h1 | h1
            · exact h t' h1
            · rw [List.mem_singleton.mp h1]
              rintro he
              rw [show (Browse.describe d.resultMask r t).target = r.target from rfl] at he
              rw [he, hx] at ht; cases ht

theorem target_present {s : Space} {id : Id} {e : Browse.Step} {ts : List Id} (h : Browse.target s id e = .ok ts) :
    ts ≠ [] ∧ ∀ t ∈ ts, (s t).isSome := by
  unfold Browse.target at h
  split at h
  · cases h
  next n _ =>
    dsimp only at h
    split at h
    · cases h
    next hne =>
      cases h
      refine ⟨fun e => hne (by rw [e]; rfl), fun t ht => ?_⟩
      obtain ⟨r, hr, rfl⟩ := List.mem_map.mp ht
      have := (List.mem_filter.mp hr).2
      unfold Browse.stepMatches at this
      cases hs : s r.target with
      | none => rw [hs] at this; simp at this
      | some n => rfl

theorem follow_present {s : Space} : ∀ (path : List Browse.Step) (id : Id) (ts : List Browse.Target),
    Browse.follow s id path = .ok ts → ∀ t ∈ ts, (s t.1).isSome := by
  intro path
  induction path with
  | nil => intro id ts h; cases h
  | cons e path ih =>
    intro id ts h
    cases path with
    | nil =>
      simp only [Browse.follow] at h
      split at h
      · cases h
      next l hl =>
        cases h
        intro t ht
        obtain ⟨t', ht', rfl⟩ := List.mem_map.mp ht
        exact (target_present hl).2 t' ht'
    | cons e' es =>
      simp only [Browse.follow] at h
      split at h
      · cases h
      next hl => exact absurd rfl (target_present hl).1
      next next _ hl =>
        split at h
        · exact ih next ts h
        next hn =>
          have := (target_present hl).2 next (List.mem_cons_self ..)
          rw [hn] at this; cases this

theorem translate_present (s : Space) (id : Id) (path : List Browse.Step) : ∀ t ∈ (Browse.translate s id path).2, (s t.1).isSome := by
  unfold Browse.translate
  split
  · intro t h; cases h
  · split
    · intro t h; cases h
    · split
      · intro t h; cases h
      next ts hf =>
        split
        · exact follow_present _ _ _ hf
        · exact follow_present _ _ _ hf

theorem translate_unknown (s : Space) (id : Id) (path : List Browse.Step) (h : s id = none) : (Browse.translate s id path).1 ≠ .good := by
  have ht : ∀ e, Browse.target s id e = .error .badNodeIDUnknown := fun e => by unfold Browse.target; rw [h]
  unfold Browse.translate
  split
  · simp
  next hne =>
    split
    · simp
    · rcases path with _ | ⟨e, _ | ⟨e', es⟩⟩
      · exact absurd rfl hne
      · simp [Browse.follow, ht]
      · simp [Browse.follow, ht]

/-- Of a node that is not in the table, no service knows anything. -/
theorem step_unknown {st : State} {x : Id} (hx : st.table x = none) (e : Ev) : ∀ o ∈ (step st e).2, Unknown x o := by
  have hsp : st.space x = none := by simp [State.space, hx]
  cases e with
  | read y =>
    intro o ho
    rw [List.mem_singleton.mp ho]
    rintro rfl
    simp [readValue, hx]
  | write y v =>
    intro o ho
    rw [List.mem_singleton.mp ho]
    rintro rfl
    simp [write, hx]
  | call obj method =>
    intro o ho
    rw [List.mem_singleton.mp ho]
    rintro (rfl | rfl) <;> simp [hx]
  | browse user d =>
    intro o ho
    rw [List.mem_singleton.mp ho]
    refine ⟨?_, ?_⟩
    · rintro rfl l h
      unfold Browse.browse at h
      rw [hsp] at h
      split at h <;> cases h
    · intro l h
      unfold Browse.browse at h
      split at h
      · cases h
      · split at h
        · cases h
        · split at h
          · cases h
          · split at h
            · cases h
            · split at h
              · cases h
              next hb =>
                cases h
                exact browseLoop_targets hsp _ [] l (fun _ h => by cases h) hb
  | translate y path =>
    intro o ho
    rw [List.mem_singleton.mp ho]
    refine ⟨?_, ?_⟩
    · rintro rfl
      exact translate_unknown _ _ _ hsp
    · rintro t ht rfl
      have := translate_present _ _ _ t ht
      rw [hsp] at this; cases this
  | monitor i y =>
    intro o ho
    rw [List.mem_singleton.mp ho]
    rintro rfl
    simp [create, hx]
  | listen i y =>
    intro o ho
    rw [List.mem_singleton.mp ho]
    rintro rfl
    simp [create, hx]
  | sample i =>
    intro o ho
    simp only [step, sample] at ho
    split at ho
    next y _ =>
      rw [List.mem_singleton.mp ho]
      rintro rfl
      simp [readValue, hx]
    · cases ho
  | raise p e rounds =>
    intro o ho
    obtain ⟨i, _, rfl⟩ := List.mem_map.mp ho
    trivial
  | _ => intro o ho; cases ho

theorem outs_unknown {x : Id} (evs : List Ev) : ∀ st : State, st.table x = none → (∀ e ∈ evs, ¬ adds st.objs x e) →
    ∀ o ∈ outs st evs, Unknown x o := by
  induction evs with
  | nil => intro st _ _ o ho; cases ho
  | cons e evs ih =>
    intro st hx ha o ho
    simp only [outs] at ho
    rcases List.mem_append.mp ho with h | h
    · exact step_unknown hx e o h
    · obtain ⟨a1, _, a3⟩ := step_table st e
      refine ih _ (a3 x hx (ha e (List.mem_cons_self ..))) ?_ o h
      intro e' he'
      have := ha e' (List.mem_cons_of_mem _ he')
      cases e' <;> first | exact this | (simp only [adds, a1] at this ⊢; exact this)

/-! ## C145 -/

/-- In every history: once a call that deletes the node `x` has returned, and until a node of that id is added
again, no service knows `x`. Read, Write, Call, Browse, browse paths and CreateMonitoredItems do not find it,
Browse and browse paths do not lead to it, and the items that watch its value report that it is unknown. -/
theorem C145_gone (objs : Nat → Obj) (pre post : List Ev) (e : Ev) (x : Id)
    (he : Deletion (run (start objs) pre) e) (hx : Deletes (run (start objs) pre) x e)
    (hpost : ∀ e ∈ post, ¬ adds objs x e) :
    ∀ o ∈ outs (step (run (start objs) pre) e).1 post, Unknown x o := by
  have hn : Named (run (start objs) pre) := (run_table pre _).2 (start_named objs)
  refine outs_unknown post _ (((deletion_exact hn he).2 x).mpr (.inr hx)) ?_
  intro e' he' ha
  refine hpost e' he' ?_
  cases e' with
  | add ps =>
    obtain ⟨p, hp, hid⟩ := ha
    exact ⟨p, hp, by rw [(step_table _ e).1, (run_table pre _).1] at hid; exact hid⟩
  | _ => exact ha

/-- In every history: a call that deletes takes away the nodes that it was to delete and no others. Those that
stay are the same objects with the same attributes and values, and of their references they lose only ones to
nodes that are gone. -/
theorem C145_only (objs : Nat → Obj) (pre : List Ev) (e : Ev) (he : Deletion (run (start objs) pre) e) :
    let st := run (start objs) pre
    let st' := (step st e).1
    (∀ x, st'.table x = none ↔ st.table x = none ∨ Deletes st x e) ∧
    (∀ x p, st'.table x = some p → st.table x = some p) ∧
    ∀ p, (st'.objs p).value = (st.objs p).value ∧ (st'.objs p).listeners = (st.objs p).listeners ∧
      (st'.objs p).node.cls = (st.objs p).node.cls ∧ (st'.objs p).node.name = (st.objs p).node.name ∧
      (st'.objs p).node.users = (st.objs p).node.users ∧
      (∀ r ∈ (st'.objs p).node.refs, r ∈ (st.objs p).node.refs) ∧
      (∀ r ∈ (st.objs p).node.refs, r ∈ (st'.objs p).node.refs ∨ st'.table r.target = none) := by
  have hn : Named (run (start objs) pre) := (run_table pre _).2 (start_named objs)
  obtain ⟨h1, h2⟩ := deletion_exact hn he
  refine ⟨h2, h1.table, fun p => ?_⟩
  have := h1.attrs p
  simp only [Node.mk.injEq, true_and] at this
  exact ⟨h1.value p, h1.listeners p, this.1, this.2.1, this.2.2.1, h1.refs p, h1.kept p⟩

/-! ### Browsing after a deletion -/

theorem setRefs_space {st : State} (hn : Named st) {y : Id} {q : Nat} (hy : st.table y = some q) (refs : List Ref) :
    (setRefs st q refs).space = AddressSpace.put st.space y (some { (st.objs q).node with refs := refs }) := by
  funext z
  simp only [State.space, setRefs, setObj, AddressSpace.put]
  by_cases hz : z = y
  · subst hz; simp [hy]
  · rw [if_neg hz]
    cases hq' : st.table z with
    | none => rfl
    | some q' =>
      have : q' ≠ q := by rintro rfl; exact hz (by rw [← hn _ _ hq', hn _ _ hy])
      simp [this]

theorem unlinkBack_space {st : State} (hn : Named st) (p : Nat) (r : Ref) :
    (unlinkBack p st r).space = AddressSpace.unlinkBack (st.objs p).id st.space r := by
  unfold unlinkBack AddressSpace.unlinkBack
  split
  · rfl
  · cases ht : st.table r.target with
    | none => simp [State.space, ht]
    | some q =>
      simp only
      rw [setRefs_space hn ht]
      simp [State.space, ht]

theorem unlinkAll_space (p : Nat) (rs : List Ref) : ∀ {st : State}, Named st →
    (rs.foldl (unlinkBack p) st).space = rs.foldl (AddressSpace.unlinkBack (st.objs p).id) st.space := by
  induction rs with
  | nil => intro st _; rfl
  | cons r rs ih =>
    intro st hn
    obtain ⟨a1, _, a3⟩ := unlinkBack_spec p st r
    have hn' : Named (unlinkBack p st r) := fun x q h => by rw [(a3 q).1]; rw [a1] at h; exact hn x q h
    rw [List.foldl_cons, ih hn', (a3 p).1, unlinkBack_space hn, List.foldl_cons]

theorem deleteObj_space {st : State} (hn : Named st) (p : Nat) :
    (deleteObj st p).space = AddressSpace.deleteNode st.space (st.objs p).id (st.objs p).node := by
  rw [AddressSpace.deleteNode, ← unlinkAll_space p _ hn]
  funext z
  simp only [deleteObj, State.space, setTable, AddressSpace.put]
  by_cases hz : z = (st.objs p).id
  · rw [if_pos hz, if_pos hz]; rfl
  · rw [if_neg hz, if_neg hz]

section Browsing

variable {s : Space} {x : Id} {n : Node}

/-- The node without the references to `x`. -/
def strip (x : Id) (t : Node) : Node := { t with refs := t.refs.filter (fun r => decide (r.target ≠ x)) }

theorem deleteNode_strip (hsym : AddressSpace.Symmetric s) (hx : s x = some n)
    (hty : ∀ a m, s a = some m → ∀ r ∈ m.refs, r.target = x → r.type ≠ ⟨0, 40⟩ ∧ r.type ≠ ⟨0, 37⟩) (a : Id) (ha : a ≠ x) :
    AddressSpace.deleteNode s x n a = (s a).map (strip x) := by
  rw [AddressSpace.deleteNode_at, if_neg ha]
  cases hs : s a with
  | none => rfl
  | some t =>
    simp only [Option.map_some, strip]
    congr 2
    apply List.filter_congr
    intro tr htr
    by_cases ht : tr.target = x
    · have hex := hty a t hs tr htr ht
      obtain ⟨_, _, m, hm, hback⟩ := hsym a tr.type tr.inverse x ⟨hex.1, hex.2, t, hs, by rw [← ht]; exact htr⟩ (by rw [hx]; rfl)
      rw [hx] at hm; cases hm
      have : AddressSpace.taken x n.refs a tr = true := by
        simp only [AddressSpace.taken, List.any_eq_true, Bool.and_eq_true, decide_eq_true_eq]
        refine ⟨_, hback, ⟨?_, rfl⟩, ?_⟩
        · rw [(AddressSpace.exempt_false ⟨tr.type, !tr.inverse, a⟩).mpr hex]; rfl
        · rw [isBack_iff]; simp [← ht]
      simp [this, ht]
    · have : AddressSpace.taken x n.refs a tr = false := by
        cases h : AddressSpace.taken x n.refs a tr with
        | false => rfl
        | true => exact absurd (AddressSpace.taken_target h) ht
      simp [this, ht]

theorem find_strip (f : Ref → Bool) (l : List Ref) (h : ∀ r ∈ l, f r = true → r.target ≠ x) :
    (l.filter (fun r => decide (r.target ≠ x))).find? f = l.find? f := by
  induction l with
  | nil => rfl
  | cons r l ih =>
    have ih' := ih (fun r' hr' => h r' (List.mem_cons_of_mem _ hr'))
    have h0 := h r (List.mem_cons_self ..)
    by_cases hr : r.target = x
    · have hf : f r = false := by
        cases hf : f r with
        | false => rfl
        | true => exact absurd hr (h0 hf)
      rw [List.filter_cons_of_neg (by simp [hr]), ih', List.find?_cons, hf]
    · rw [List.filter_cons_of_pos (by simp [hr]), List.find?_cons, List.find?_cons, ih']

theorem superType_strip (hsym : AddressSpace.Symmetric s) (hx : s x = some n)
    (hty : ∀ a m, s a = some m → ∀ r ∈ m.refs, r.target = x → r.type ≠ ⟨0, 40⟩ ∧ r.type ≠ ⟨0, 37⟩)
    (hsub : ∀ r ∈ n.refs, r.type ≠ hasSubtype) (a : Id) :
    AddressSpace.superType (AddressSpace.deleteNode s x n) a = AddressSpace.superType s a := by
  by_cases ha : a = x
  · subst ha
    have h1 : AddressSpace.deleteNode s a n a = none := by rw [AddressSpace.deleteNode_at, if_pos rfl]
    unfold AddressSpace.superType
    rw [h1, hx]
    have : n.refs.find? (fun r => r.inverse && decide (r.type = hasSubtype)) = none := by
      rw [List.find?_eq_none]
      intro r hr
      simp [hsub r hr]
    simp only [this, Option.map_none]
  · unfold AddressSpace.superType
    rw [deleteNode_strip hsym hx hty a ha]
    cases hs : s a with
    | none => rfl
    | some t =>
      simp only [Option.map_some, strip]
      rw [find_strip]
      intro r hr hf ht
      simp only [Bool.and_eq_true, decide_eq_true_eq] at hf
      obtain ⟨_, _, m, hm, hback⟩ := hsym a r.type r.inverse x
        ⟨by rw [hf.2]; decide, by rw [hf.2]; decide, t, hs, by rw [← ht]; exact hr⟩ (by rw [hx]; rfl)
      rw [hx] at hm; cases hm
      exact hsub _ hback hf.2

theorem isSubtype_strip (hsym : AddressSpace.Symmetric s) (hx : s x = some n)
    (hty : ∀ a m, s a = some m → ∀ r ∈ m.refs, r.target = x → r.type ≠ ⟨0, 40⟩ ∧ r.type ≠ ⟨0, 37⟩)
    (hsub : ∀ r ∈ n.refs, r.type ≠ hasSubtype) (a b : Id) :
    AddressSpace.isSubtype (AddressSpace.deleteNode s x n) a b = AddressSpace.isSubtype s a b := by
  have : ∀ k a, AddressSpace.isSubtypeLoop (AddressSpace.deleteNode s x n) b k a = AddressSpace.isSubtypeLoop s b k a := by
    intro k
    induction k with
    | zero => intro a; rfl
    | succ k ih =>
      intro a
      simp only [AddressSpace.isSubtypeLoop, superType_strip hsym hx hty hsub a, ih]
  exact this _ a

theorem picks_strip (hsym : AddressSpace.Symmetric s) (hx : s x = some n)
    (hty : ∀ a m, s a = some m → ∀ r ∈ m.refs, r.target = x → r.type ≠ ⟨0, 40⟩ ∧ r.type ≠ ⟨0, 37⟩)
    (hsub : ∀ r ∈ n.refs, r.type ≠ hasSubtype) (d : Browse.Description) (r : Ref) :
    Browse.picks (AddressSpace.deleteNode s x n) d r = Browse.picks s d r := by
  unfold Browse.picks Browse.coversType
  cases d.refType with
  | none => rfl
  | some t => simp only [isSubtype_strip hsym hx hty hsub]

theorem describe_strip (hty : ∀ r ∈ n.refs, r.target = x → r.type ≠ ⟨0, 40⟩ ∧ r.type ≠ ⟨0, 37⟩) (mask : Nat) (r : Ref) :
    Browse.describe mask r (strip x n) = Browse.describe mask r n := by
  have : (n.refs.filter (fun r => decide (r.target ≠ x))).find? (fun tr => decide (tr.type = hasTypeDefinition)) =
      n.refs.find? (fun tr => decide (tr.type = hasTypeDefinition)) :=
    find_strip _ _ (fun r hr hf ht => (hty r hr ht).1 (by simpa using hf))
  simp only [Browse.describe, strip, this]

theorem browseLoop_strip (hsym : AddressSpace.Symmetric s) (hx : s x = some n)
    (hty : ∀ a m, s a = some m → ∀ r ∈ m.refs, r.target = x → r.type ≠ ⟨0, 40⟩ ∧ r.type ≠ ⟨0, 37⟩)
    (hsub : ∀ r ∈ n.refs, r.type ≠ hasSubtype) (user : Nat) (d : Browse.Description) :
    ∀ (refs : List Ref) (out : List Browse.Described),
      Browse.browseLoop (AddressSpace.deleteNode s x n) user d (refs.filter (fun r => decide (r.target ≠ x)))
        (out.filter (fun t => decide (t.target ≠ x))) =
      (Browse.browseLoop s user d refs out).map (List.filter (fun t => decide (t.target ≠ x))) := by
  intro refs
  induction refs with
  | nil => intro out; rfl
  | cons r refs ih =>
    intro out
    by_cases hr : r.target = x
    · rw [List.filter_cons_of_neg (by simp [hr]), ih]
      simp only [Browse.browseLoop, hr, hx]
      split
      · rfl
      · split
        · rfl
        · split
          · rfl
          · rw [← ih, ← ih, List.filter_append]
            congr 1
            rw [show List.filter (fun t : Browse.Described => decide (t.target ≠ x)) [Browse.describe d.resultMask r n] = [] from by
              rw [List.filter_cons_of_neg (by simp [Browse.describe, hr])]; rfl, List.append_nil]
    · rw [List.filter_cons_of_pos (by simp [hr])]
      simp only [Browse.browseLoop, picks_strip hsym hx hty hsub, deleteNode_strip hsym hx hty _ hr]
      cases hs : s r.target with
      | none =>
        simp only [Option.map_none]
        split
        · exact ih out
        · rfl
      | some t =>
        simp only [Option.map_some]
        have hmb : Browse.mayBrowse user (strip x t) = Browse.mayBrowse user t := rfl
        have hcl : (strip x t).cls = t.cls := rfl
        rw [hmb, hcl, describe_strip (hty _ _ hs)]
        split
        · exact ih out
        · split
          · exact ih out
          · split
            · exact ih out
            · rw [← ih, List.filter_append, show List.filter (fun t : Browse.Described => decide (t.target ≠ x))
                [Browse.describe d.resultMask r t] = [Browse.describe d.resultMask r t] from by
                  rw [List.filter_cons_of_pos (by simp [Browse.describe, hr])]; rfl]

end Browsing

theorem browse_after (st : State) (hn : Named st) (p : Nat) (x : Id) (hx : st.table x = some p)
    (hsym : AddressSpace.Symmetric st.space)
    (hty : ∀ a m, st.space a = some m → ∀ r ∈ m.refs, r.target = x → r.type ≠ ⟨0, 40⟩ ∧ r.type ≠ ⟨0, 37⟩)
    (hsub : ∀ r ∈ (st.objs p).node.refs, r.type ≠ ⟨0, 45⟩) (hns : x.ns ≠ 0)
    (user : Nat) (d : Browse.Description) (hd : d.node ≠ x) (hr : d.refType ≠ some x) :
    (step (step st (.deleteByID x)).1 (.browse user d)).2 = [.browsed d (without x (Browse.browse st.space user d))] := by
  have hsp : st.space x = some (st.objs p).node := by simp [State.space, hx]
  have hdel : (step st (.deleteByID x)).1.space = AddressSpace.deleteNode st.space x (st.objs p).node := by
    simp only [step, deleteByID, hx]
    rw [if_neg (by simpa [protectedId] using hns), deleteObj_space hn, hn _ _ hx]
  show [Out.browsed d (Browse.browse (step st (.deleteByID x)).1.space user d)] = _
  rw [hdel]
  congr 2
  unfold Browse.browse
  split
  · rfl
  · rw [deleteNode_strip hsym hsp hty _ hd]
    cases hs : st.space d.node with
    | none => rfl
    | some t =>
      simp only [Option.map_some]
      have hmb : Browse.mayBrowse user (strip x t) = Browse.mayBrowse user t := rfl
      have htk : Browse.typeKnown (AddressSpace.deleteNode st.space x (st.objs p).node) d.refType = Browse.typeKnown st.space d.refType := by
        unfold Browse.typeKnown
        cases hrt : d.refType with
        | none => rfl
        | some ty =>
          have : ty ≠ x := fun e => hr (by rw [hrt, e])
          simp only
          rw [deleteNode_strip hsym hsp hty _ this]
          cases st.space ty <;> rfl
      rw [hmb, htk]
      split
      · rfl
      · split
        · rfl
        · have := browseLoop_strip hsym hsp hty hsub user d t.refs []
          simp only [List.filter_nil] at this
          rw [show (strip x t).refs = t.refs.filter (fun r => decide (r.target ≠ x)) from rfl, this]
          cases Browse.browseLoop st.space user d t.refs [] <;> rfl

/-- In every history: if every reference has its inverse (see C59), deleting a node that is nobody's type
leaves all others browsable: the answer of every Browse of another node is what it was before, without the
references to the deleted node. Missing: types (see `C145_type_fails`; and the subtypes of a deleted type lose
their supertype). -/
theorem C145_browse_partial (objs : Nat → Obj) (pre : List Ev) (p : Nat) (x : Id)
    (hx : (run (start objs) pre).table x = some p) (hns : x.ns ≠ 0)
    (hsym : AddressSpace.Symmetric (run (start objs) pre).space)
    (hty : ∀ a m, (run (start objs) pre).space a = some m → ∀ r ∈ m.refs, r.target = x → r.type ≠ ⟨0, 40⟩ ∧ r.type ≠ ⟨0, 37⟩)
    (hsub : ∀ r ∈ ((run (start objs) pre).objs p).node.refs, r.type ≠ ⟨0, 45⟩)
    (user : Nat) (d : Browse.Description) (hd : d.node ≠ x) (hr : d.refType ≠ some x) :
    outs (run (start objs) pre) [.deleteByID x, .browse user d] =
      [.browsed d (without x (Browse.browse (run (start objs) pre).space user d))] := by
  have := browse_after _ ((run_table pre _).2 (start_named objs)) p x hx hsym hty hsub hns user d hd hr
  simp only [outs, List.append_nil, this]
  rfl

/-! ## Examples -/

/-- A folder (0,85) with two pumps (1,1) and (1,3), of the type (1,10). The first has a speed (1,2) and, like the
second, a method (1,5). Object 7 is another pump with the id of the first. -/
def plant (p : Nat) : Obj :=
  match p with
  | 0 => { id := ⟨0, 85⟩, node := { refs := [], cls := 1, name := 85, users := [9] } }
  | 1 => { id := ⟨1, 1⟩, node := { refs := [⟨⟨0, 35⟩, true, ⟨0, 85⟩⟩, ⟨hasComponent, false, ⟨1, 2⟩⟩, ⟨hasComponent, false, ⟨1, 5⟩⟩,
      ⟨hasTypeDefinition, false, ⟨1, 10⟩⟩], cls := 1, name := 1, users := [9] } }
  | 2 => { id := ⟨1, 2⟩, node := { refs := [], cls := 2, name := 2, users := [9] }, value := 42 }
  | 3 => { id := ⟨1, 3⟩, node := { refs := [⟨⟨0, 35⟩, true, ⟨0, 85⟩⟩, ⟨hasComponent, false, ⟨1, 5⟩⟩,
      ⟨hasTypeDefinition, false, ⟨1, 10⟩⟩], cls := 1, name := 3, users := [9] } }
  | 5 => { id := ⟨1, 5⟩, node := { refs := [], cls := 4, name := 5, users := [9] } }
  | 7 => { id := ⟨1, 1⟩, node := { refs := [⟨⟨0, 35⟩, true, ⟨0, 85⟩⟩], cls := 1, name := 1, users := [9] } }
  | 10 => { id := ⟨1, 10⟩, node := { refs := [], cls := 8, name := 10, users := [9] } }
  | 11 => { id := ⟨0, 99⟩, node := { refs := [], cls := 4, name := 99, users := [9] } }
  | 12 => { id := ⟨1, 12⟩, node := { refs := [⟨hasComponent, false, ⟨0, 99⟩⟩], cls := 1, name := 12, users := [9] } }
  | p => { id := ⟨2, p⟩, node := { refs := [] } }

def built : List Ev := [.add [0, 10], .add [1, 2, 3, 5], .monitor 1 ⟨1, 2⟩, .listen 2 ⟨1, 1⟩]

def all (x : Id) : Browse.Description := { node := x, direction := 2, resultMask := 63 }

-- The items were created, and the first is told the value.
example : outs (start plant) (built ++ [.sample 1, .raise 1 7 5]) =
    [.created 1 ⟨1, 2⟩ true, .created 2 ⟨1, 1⟩ true, .sampled 1 ⟨1, 2⟩ (some 42), .heard 2 7] := by decide +kernel

/-- What DeleteNode of the first pump, with its children, deletes. -/
theorem built_deletes : Deletion (run (start plant) built) (.delete [1] true 9) ∧
    Deletes (run (start plant) built) ⟨1, 2⟩ (.delete [1] true 9) := by
  refine ⟨⟨by decide +kernel, by decide +kernel⟩, 1, List.mem_singleton.mpr rfl, .inr ⟨rfl, Under.self.step ?_⟩⟩
  refine child_of.mpr ⟨1, 2, by decide +kernel, by decide +kernel, ⟨hasComponent, false, ⟨1, 2⟩⟩, by decide +kernel, ?_, rfl⟩
  exact ⟨rfl, rfl, by decide⟩

-- C145_gone and C145_only: the speed is gone with the pump, the item says so, the folder shows the other pump.
example : outs (run (start plant) (built ++ [.delete [1] true 9])) [.read ⟨1, 2⟩, .sample 1, .write ⟨1, 2⟩ 5, .monitor 3 ⟨1, 1⟩,
    .call ⟨1, 1⟩ ⟨1, 5⟩, .browse 9 { node := ⟨0, 85⟩, direction := 2, resultMask := 0 }] =
    [.value ⟨1, 2⟩ none, .sampled 1 ⟨1, 2⟩ none, .wrote ⟨1, 2⟩ false, .created 3 ⟨1, 1⟩ false, .called ⟨1, 1⟩ ⟨1, 5⟩ false,
     .browsed { node := ⟨0, 85⟩, direction := 2, resultMask := 0 } (.good [⟨none, false, ⟨1, 3⟩, 0, 0, 0, none⟩])] := by decide +kernel

example : ∀ o ∈ outs (step (run (start plant) built) (.delete [1] true 9)).1
    [.sample 1, .add [7], .browse 9 (all ⟨1, 1⟩)], Unknown ⟨1, 2⟩ o :=
  C145_gone plant built _ _ _ built_deletes.1 built_deletes.2 (by
    intro e he
    simp only [List.mem_cons, List.not_mem_nil, or_false] at he
    rcases he with rfl | rfl | rfl
    · exact id
    · rintro ⟨p, hp, h⟩
      rw [List.mem_singleton.mp hp] at h
      exact absurd h (by decide)
    · exact id)

-- Without the children, the speed stays, but no longer belongs to anything.
example : outs (run (start plant) (built ++ [.delete [1] false 9])) [.read ⟨1, 1⟩, .read ⟨1, 2⟩, .browse 9 (all ⟨1, 2⟩)] =
    [.value ⟨1, 1⟩ none, .value ⟨1, 2⟩ (some 42), .browsed (all ⟨1, 2⟩) (.good [])] := by decide +kernel

-- C145_browse_partial: after the speed is deleted, the pump shows its other references.
example : Browse.browse (run (start plant) built).space 9 { node := ⟨1, 1⟩, direction := 0, resultMask := 0 } =
      .good [⟨none, false, ⟨1, 2⟩, 0, 0, 0, none⟩, ⟨none, false, ⟨1, 5⟩, 0, 0, 0, none⟩, ⟨none, false, ⟨1, 10⟩, 0, 0, 0, none⟩] ∧
    outs (run (start plant) built) [.deleteByID ⟨1, 2⟩, .browse 9 { node := ⟨1, 1⟩, direction := 0, resultMask := 0 }] =
      [.browsed { node := ⟨1, 1⟩, direction := 0, resultMask := 0 }
        (.good [⟨none, false, ⟨1, 5⟩, 0, 0, 0, none⟩, ⟨none, false, ⟨1, 10⟩, 0, 0, 0, none⟩])] := by decide +kernel

/-- A folder with a variable. -/
def pair : State := run (start (fun p => if p = 0 then { id := ⟨1, 0⟩, node := { refs := [⟨⟨0, 35⟩, false, ⟨1, 1⟩⟩], users := [9] } }
  else { id := ⟨1, 1⟩, node := { refs := [], cls := 2, users := [9] } })) [.add [0], .add [1], .add [0]]

theorem pair_space (a : Id) : pair.space a = if a = ⟨1, 0⟩ then some { refs := [⟨⟨0, 35⟩, false, ⟨1, 1⟩⟩], users := [9] }
    else if a = ⟨1, 1⟩ then some { refs := [⟨⟨0, 35⟩, true, ⟨1, 0⟩⟩], cls := 2, users := [9] } else none := by
  have ht : pair.table a = if a = ⟨1, 0⟩ then some 0 else if a = ⟨1, 1⟩ then some 1 else if a = ⟨1, 0⟩ then some 0 else none := rfl
  simp only [State.space, ht]
  split
  · simp only [Option.map_some]
    decide +kernel
  · split
    · simp only [Option.map_some]
      decide +kernel
    · rfl

-- The hypotheses of C145_browse_partial can be met.
example : AddressSpace.Symmetric pair.space ∧ pair.table ⟨1, 1⟩ = some 1 ∧
    (∀ a m, pair.space a = some m → ∀ r ∈ m.refs, r.target = ⟨1, 1⟩ → r.type ≠ ⟨0, 40⟩ ∧ r.type ≠ ⟨0, 37⟩) ∧
    (∀ r ∈ (pair.objs 1).node.refs, r.type ≠ ⟨0, 45⟩) ∧
    Browse.browse pair.space 9 { node := ⟨1, 0⟩, resultMask := 0 } = .good [⟨none, false, ⟨1, 1⟩, 0, 0, 0, none⟩] := by
  refine ⟨?_, by decide +kernel, ?_, by decide +kernel, by decide +kernel⟩
  · rintro a ty inv b ⟨h1, h2, n, hn, hr⟩ _
    rw [pair_space] at hn
    split at hn
    next ha =>
      cases hn
      cases List.mem_singleton.mp hr
      exact ⟨h1, h2, _, by rw [pair_space]; rfl, by rw [ha]; decide⟩
    · split at hn
      next ha =>
        cases hn
        cases List.mem_singleton.mp hr
        exact ⟨h1, h2, _, by rw [pair_space]; rfl, by rw [ha]; decide⟩
      · cases hn
  · intro a m hm r hr _
    rw [pair_space] at hm
    split at hm
    · cases hm; cases List.mem_singleton.mp hr; decide
    · split at hm
      · cases hm; cases List.mem_singleton.mp hr; decide
      · cases hm

/-! ## Where it fails -/

/-- Deleting a type leaves the references of its instances to it. They cannot be browsed any more: Browse answers
BadNodeIDUnknown for a node that is there. Other nodes still show them with the type that is gone. -/
theorem C145_type_fails :
    (∃ l, Browse.browse (run (start plant) built).space 9 (all ⟨1, 3⟩) = .good l) ∧
    outs (run (start plant) (built ++ [.deleteByID ⟨1, 10⟩])) [.read ⟨1, 10⟩, .read ⟨1, 3⟩, .browse 9 (all ⟨1, 3⟩),
      .browse 9 { node := ⟨1, 5⟩, direction := 2, resultMask := 32 }] =
    [.value ⟨1, 10⟩ none, .value ⟨1, 3⟩ (some 0), .browsed (all ⟨1, 3⟩) .badNodeIDUnknown,
     .browsed { node := ⟨1, 5⟩, direction := 2, resultMask := 32 }
       (.good [⟨none, false, ⟨1, 1⟩, 0, 0, 0, some ⟨1, 10⟩⟩, ⟨none, false, ⟨1, 3⟩, 0, 0, 0, some ⟨1, 10⟩⟩])] :=
  ⟨⟨[⟨some ⟨0, 35⟩, false, ⟨0, 85⟩, 1, 85, 0, none⟩, ⟨some hasComponent, true, ⟨1, 5⟩, 4, 5, 0, none⟩,
     ⟨some hasTypeDefinition, true, ⟨1, 10⟩, 8, 10, 0, none⟩], by decide +kernel⟩, by decide +kernel⟩

/-- Deleting a node with its children takes away children that it shares with nodes that stay. -/
theorem C145_shared_fails :
    outs (run (start plant) built) [.call ⟨1, 3⟩ ⟨1, 5⟩, .delete [1] true 9, .call ⟨1, 3⟩ ⟨1, 5⟩, .read ⟨1, 3⟩] =
    [.called ⟨1, 3⟩ ⟨1, 5⟩ true, .called ⟨1, 3⟩ ⟨1, 5⟩ false, .value ⟨1, 3⟩ (some 0)] := by decide +kernel

/-- DeleteNode takes away nodes of namespace 0; DeleteNodeByIDRecursive spares them. -/
theorem C145_standard_fails :
    outs (run (start plant) [.add [11, 12]]) [.delete [12] true 9, .read ⟨0, 99⟩] = [.value ⟨0, 99⟩ none] ∧
    outs (run (start plant) [.add [11, 12]]) [.deleteRecursive ⟨1, 12⟩ 9, .read ⟨0, 99⟩, .read ⟨1, 12⟩] =
      [.value ⟨0, 99⟩ (some 0), .value ⟨1, 12⟩ none] := by decide +kernel

/-- An event item stays with the object that was deleted: it still tells events raised there, though the node does
not exist, and tells nothing that is raised at the node that has taken its place. -/
theorem C145_events_fails :
    outs (run (start plant) built) [.deleteByID ⟨1, 1⟩, .read ⟨1, 1⟩, .raise 1 7 5, .add [7], .read ⟨1, 1⟩, .raise 7 8 5, .raise 1 9 5] =
    [.value ⟨1, 1⟩ none, .heard 2 7, .value ⟨1, 1⟩ (some 0), .heard 2 9] := by decide +kernel

/-- Two objects that are each a component of the other. -/
def circle (p : Nat) : Obj :=
  match p with
  | 0 => { id := ⟨1, 0⟩, node := { refs := [⟨hasComponent, false, ⟨1, 1⟩⟩] } }
  | _ => { id := ⟨1, 1⟩, node := { refs := [⟨hasComponent, false, ⟨1, 0⟩⟩] } }

/-- The call need not return: with children that go round in a circle it looks for them for ever, holding the lock
of the address space. -/
theorem C145_circle_fails (rounds : Nat) :
    deleteNodes (run (start circle) [.add [0, 1]]) true rounds [0] = none := by
  have hk : ∀ p, p = 0 ∨ p = 1 → ∃ q, (q = 0 ∨ q = 1) ∧ kids (run (start circle) [.add [0, 1]]) p = [q] := by
    rintro p (rfl | rfl)
    · exact ⟨1, .inr rfl, by decide +kernel⟩
    · exact ⟨0, .inl rfl, by decide +kernel⟩
  have : ∀ k p out, p = 0 ∨ p = 1 → childrenLoop (run (start circle) [.add [0, 1]]) k [p] out = none := by
    intro k
    induction k with
    | zero => intro p out _; rfl
    | succ k ih =>
      intro p out hp
      obtain ⟨q, hq, he⟩ := hk p hp
      simp only [childrenLoop, he, List.nil_append]
      exact ih q _ hq
  simp only [deleteNodes, deleteRounds, deleteRound, getChildren, if_true, this rounds 0 [] (.inl rfl)]

end Opcua.Deletion
