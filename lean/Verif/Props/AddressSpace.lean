import Verif.Model.AddressSpace
import Verif.Lemmas.Lists

/-! # C59, C60: references and deletion in the address space -/

namespace Opcua.AddressSpace

/-! ## C59: specification -/

/-- Node `a` has this reference, which is one of those that have inverses: all but HasTypeDefinition (40) and
HasModellingRule (37). -/
def HasRef (s : Space) (a : Id) (type : Id) (inverse : Bool) (b : Id) : Prop :=
  type ≠ ⟨0, 40⟩ ∧ type ≠ ⟨0, 37⟩ ∧ ∃ n, s a = some n ∧ (⟨type, inverse, b⟩ : Ref) ∈ n.refs

/-- Every reference between two present nodes has its inverse. -/
def Symmetric (s : Space) : Prop :=
  ∀ a type inverse b, HasRef s a type inverse b → (s b).isSome → HasRef s b type (!inverse) a

/-- Every reference leads to a present node. -/
def Closed (s : Space) : Prop := ∀ a type inverse b, HasRef s a type inverse b → (s b).isSome

/-- No reference is there twice. -/
def NoDuplicates (s : Space) : Prop := ∀ a n, s a = some n → n.refs.Nodup

inductive Ev where
  | add (nodes : List (Id × Node))
  | delete (id : Id)
  | deleteRecursive (id : Id) (rounds : Nat)
  deriving DecidableEq, Repr

/-- What a call leaves behind. -/
def step (s : Space) : Ev → Space
  | .add nodes => addNodes s nodes
  | .delete id => (deleteByID s id).1
  | .deleteRecursive id rounds =>
    match deleteRecursive s rounds id with
    | some (s', _) => s'
    | none => s

def run (s : Space) (evs : List Ev) : Space := evs.foldl step s

/-- The new nodes have new ids, all different, and refer only to nodes that are there or are added with
them. -/
def orderly (s : Space) : Ev → Bool
  | .add nodes =>
    decide ((nodes.map (·.1)).Nodup) && nodes.all (fun p => (s p.1).isNone) &&
      nodes.all (fun p => p.2.refs.all (fun r => exempt r || (s r.target).isSome || (nodes.map (·.1)).contains r.target))
  | _ => true

def allOrderly : Space → List Ev → Bool
  | _, [] => true
  | s, e :: evs => orderly s e && allOrderly (step s e) evs

def empty : Space := fun _ => none

/-! ### Lemmas -/

theorem put_same (s : Space) (id : Id) (n : Option Node) : put s id n id = n := by simp [put]
theorem put_ne (s : Space) (id x : Id) (n : Option Node) (h : x ≠ id) : put s id n x = s x := by simp [put, h]

theorem exempt_false (r : Ref) : exempt r = false ↔ r.type ≠ ⟨0, 40⟩ ∧ r.type ≠ ⟨0, 37⟩ := by
  simp [exempt]

/-- The reference of node `a` has its inverse, if its target is there. -/
def HasBack (s : Space) (a : Id) (r : Ref) : Prop := ∀ t, s r.target = some t → ∃ tr ∈ t.refs, isBack a r tr = true

theorem isBack_iff (a : Id) (r tr : Ref) : isBack a r tr = true ↔ tr = ⟨r.type, !r.inverse, a⟩ := by
  cases tr with
  | mk ty inv tg =>
    simp only [isBack, decide_eq_true_eq, Ref.mk.injEq]
    constructor
    · rintro ⟨h1, h2, h3⟩; refine ⟨h1, ?_, h3⟩; cases inv <;> cases hr : r.inverse <;> simp_all
    · rintro ⟨h1, h2, h3⟩; refine ⟨h1, ?_, h3⟩; subst h2; cases r.inverse <;> simp

theorem symmetric_iff (s : Space) :
    Symmetric s ↔ ∀ a n r, s a = some n → r ∈ n.refs → exempt r = false → HasBack s a r := by
  constructor
  · intro h a n r ha hr he t ht
    rw [exempt_false] at he
    obtain ⟨_, _, n', hn', hm⟩ := h a r.type r.inverse r.target ⟨he.1, he.2, n, ha, hr⟩ (by rw [ht]; rfl)
    rw [ht] at hn'
    cases hn'
    exact ⟨_, hm, (isBack_iff _ _ _).mpr rfl⟩
  · intro h a type inverse b ⟨h1, h2, n, hn, hm⟩ hb
    obtain ⟨t, ht⟩ := Option.isSome_iff_exists.mp hb
    obtain ⟨tr, htm, hbk⟩ := h a n ⟨type, inverse, b⟩ hn hm ((exempt_false _).mpr ⟨h1, h2⟩) t ht
    rw [isBack_iff] at hbk
    subst hbk
    exact ⟨h1, h2, t, ht, htm⟩

theorem closed_iff (s : Space) :
    Closed s ↔ ∀ a n r, s a = some n → r ∈ n.refs → exempt r = false → (s r.target).isSome := by
  constructor
  · intro h a n r ha hr he
    rw [exempt_false] at he
    exact h a r.type r.inverse r.target ⟨he.1, he.2, n, ha, hr⟩
  · intro h a type inverse b ⟨h1, h2, n, hn, hm⟩
    exact h a n ⟨type, inverse, b⟩ hn hm ((exempt_false _).mpr ⟨h1, h2⟩)

/-- References are only added, at the end. -/
def Grows (s s' : Space) : Prop :=
  (∀ a, s a = none → s' a = none) ∧ ∀ a n, s a = some n → ∃ n', s' a = some n' ∧ ∀ r ∈ n.refs, r ∈ n'.refs

theorem Grows.refl (s : Space) : Grows s s := ⟨fun _ h => h, fun _ n h => ⟨n, h, fun _ h => h⟩⟩

theorem Grows.trans {s s' s'' : Space} (h : Grows s s') (h' : Grows s' s'') : Grows s s'' := by
  refine ⟨fun a ha => h'.1 a (h.1 a ha), ?_⟩
  intro a n ha
  obtain ⟨n', h1, h2⟩ := h.2 a n ha
  obtain ⟨n'', h3, h4⟩ := h'.2 a n' h1
  exact ⟨n'', h3, fun r hr => h4 r (h2 r hr)⟩

/-- The two outcomes of `linkBack`. -/
theorem linkBack_cases (id : Id) (s : Space) (r : Ref) :
    (linkBack id s r = s ∧ (exempt r = true ∨ HasBack s id r)) ∨
    (exempt r = false ∧ ∃ t, s r.target = some t ∧ (∀ tr ∈ t.refs, isBack id r tr = false) ∧
      linkBack id s r = put s r.target (some { t with refs := t.refs ++ [⟨r.type, !r.inverse, id⟩] })) := by
  unfold linkBack
  split
  next h => exact Or.inl ⟨rfl, Or.inl h⟩
  next h =>
    have he : exempt r = false := by simpa using h
    split
    next ht => exact Or.inl ⟨rfl, Or.inr (fun t h' => by rw [ht] at h'; cases h')⟩
    next t ht =>
      split
      next hany =>
        refine Or.inl ⟨rfl, Or.inr ?_⟩
        intro t' ht'
        rw [ht] at ht'
        cases ht'
        obtain ⟨tr, h1, h2⟩ := List.any_eq_true.mp hany
        exact ⟨tr, h1, h2⟩
      next hany =>
        refine Or.inr ⟨he, t, ht, ?_, rfl⟩
        intro tr htr
        cases hb : isBack id r tr with
        | false => rfl
        | true => exact absurd (List.any_eq_true.mpr ⟨tr, htr, hb⟩) hany

theorem linkBack_grows (id : Id) (s : Space) (r : Ref) : Grows s (linkBack id s r) := by
  rcases linkBack_cases id s r with ⟨h, _⟩ | ⟨_, t, ht, _, h⟩
  · rw [h]; exact .refl s
  · rw [h]
    refine ⟨?_, ?_⟩
    · intro a ha
      by_cases hx : a = r.target
      · subst hx; rw [ht] at ha; cases ha
      · rw [put_ne _ _ _ _ hx]; exact ha
    · intro a n ha
      by_cases hx : a = r.target
      · subst hx
        rw [ht] at ha
        cases ha
        exact ⟨_, put_same _ _ _, fun x hx => List.mem_append_left _ hx⟩
      · rw [put_ne _ _ _ _ hx]; exact ⟨n, ha, fun _ h => h⟩

theorem HasBack.grows {s s' : Space} {a : Id} {r : Ref} (h : HasBack s a r) (hg : Grows s s') : HasBack s' a r := by
  intro t ht
  cases hs : s r.target with
  | none => rw [hg.1 _ hs] at ht; cases ht
  | some t0 =>
    obtain ⟨tr, h1, h2⟩ := h t0 hs
    obtain ⟨n', h3, h4⟩ := hg.2 _ _ hs
    rw [ht] at h3
    cases h3
    exact ⟨tr, h4 tr h1, h2⟩

/-- All references have inverses, but for some that are still to be looked at. -/
def Almost (s : Space) (todo : Id → Ref → Prop) : Prop :=
  ∀ a n r, s a = some n → r ∈ n.refs → exempt r = false → HasBack s a r ∨ todo a r

theorem linkBack_almost {id : Id} {s : Space} {r : Ref} {todo : Id → Ref → Prop} (h : Almost s todo) {n0 : Node}
    (h0 : s id = some n0) (hr : r ∈ n0.refs) : Almost (linkBack id s r) (fun a x => todo a x ∧ ¬ (a = id ∧ x = r)) := by
  have hg := linkBack_grows id s r
  rcases linkBack_cases id s r with ⟨he, hb⟩ | ⟨hex, t, ht, hno, he⟩
  · rw [he]
    intro a n x ha hx hxe
    by_cases hc : a = id ∧ x = r
    · obtain ⟨rfl, rfl⟩ := hc
      rcases hb with hb | hb
      · rw [hb] at hxe; cases hxe
      · exact Or.inl hb
    · rcases h a n x ha hx hxe with h' | h'
      · exact Or.inl h'
      · exact Or.inr ⟨h', hc⟩
  · intro a n x ha hx hxe
    -- the new reference or an old one
    have hold : (∃ n1, s a = some n1 ∧ x ∈ n1.refs) ∨ (a = r.target ∧ x = ⟨r.type, !r.inverse, id⟩) := by
      rw [he] at ha
      by_cases hx' : a = r.target
      · subst hx'
        rw [put_same] at ha
        cases ha
        rcases List.mem_append.mp hx with h' | h'
        · exact Or.inl ⟨t, ht, h'⟩
        · exact Or.inr ⟨rfl, List.mem_singleton.mp h'⟩
      · rw [put_ne _ _ _ _ hx'] at ha
        exact Or.inl ⟨n, ha, hx⟩
    rcases hold with ⟨n1, h1, h2⟩ | ⟨rfl, rfl⟩
    · by_cases hc : a = id ∧ x = r
      · obtain ⟨rfl, rfl⟩ := hc
        left
        intro t' ht'
        rw [he, put_same] at ht'
        cases ht'
        exact ⟨_, List.mem_append_right _ (List.mem_singleton.mpr rfl), (isBack_iff _ _ _).mpr rfl⟩
      · rcases h a n1 x h1 h2 hxe with h' | h'
        · exact Or.inl (h'.grows hg)
        · exact Or.inr ⟨h', hc⟩
    · left
      intro t' ht'
      obtain ⟨n', h3, h4⟩ := hg.2 id n0 h0
      dsimp only at ht'
      rw [h3] at ht'
      cases ht'
      refine ⟨r, h4 r hr, ?_⟩
      rw [isBack_iff]
      cases r with
      | mk ty inv tg => simp

theorem linkRefs_almost {id : Id} (rs : List Ref) : ∀ {s : Space} {todo : Id → Ref → Prop}, Almost s todo → ∀ {n0 : Node},
    s id = some n0 → (∀ r ∈ rs, r ∈ n0.refs) →
    Almost (rs.foldl (linkBack id) s) (fun a x => todo a x ∧ ¬ (a = id ∧ x ∈ rs)) := by
  induction rs with
  | nil =>
    intro s todo h n0 h0 hr a n x ha hx he
    rcases h a n x ha hx he with h' | h'
    · exact Or.inl h'
    · exact Or.inr ⟨h', by simp⟩
  | cons r rs ih =>
    intro s todo h n0 h0 hr
    obtain ⟨n1, h1, h2⟩ := (linkBack_grows id s r).2 id n0 h0
    have := ih (linkBack_almost h h0 (hr r (by simp))) h1 (fun x hx => h2 x (hr x (List.mem_cons_of_mem _ hx)))
    intro a n x ha hx he
    rcases this a n x ha hx he with h' | ⟨⟨h3, h4⟩, h5⟩
    · exact Or.inl h'
    · refine Or.inr ⟨h3, ?_⟩
      rintro ⟨rfl, hm⟩
      rcases List.mem_cons.mp hm with e | e
      · exact h4 ⟨rfl, e⟩
      · exact h5 ⟨rfl, e⟩

theorem linkRefs_grows (id : Id) (rs : List Ref) : ∀ s : Space, Grows s (rs.foldl (linkBack id) s) := by
  induction rs with
  | nil => intro s; exact .refl s
  | cons r rs ih => intro s; exact (linkBack_grows id s r).trans (ih _)

theorem linkNode_grows (s : Space) (id : Id) : Grows s (linkNode s id) := by
  unfold linkNode
  split
  · exact .refl s
  · exact linkRefs_grows _ _ _

theorem linkNode_almost {s : Space} {todo : Id → Ref → Prop} (h : Almost s todo) (id : Id) :
    Almost (linkNode s id) (fun a x => todo a x ∧ a ≠ id) := by
  unfold linkNode
  split
  next hs =>
    intro a n x ha hx he
    rcases h a n x ha hx he with h' | h'
    · exact Or.inl h'
    · refine Or.inr ⟨h', ?_⟩
      rintro rfl
      rw [hs] at ha
      cases ha
  next n0 h0 =>
    have h' : Almost s (fun a x => todo a x ∧ ∃ n1, s a = some n1 ∧ x ∈ n1.refs) := by
      intro a n x ha hx he
      rcases h a n x ha hx he with h' | h'
      · exact Or.inl h'
      · exact Or.inr ⟨h', n, ha, hx⟩
    have h1 := linkRefs_almost n0.refs h' h0 (fun _ h => h)
    intro a n x ha hx he
    rcases h1 a n x ha hx he with h2 | ⟨⟨h2, n1, h3, h4⟩, h5⟩
    · exact Or.inl h2
    · refine Or.inr ⟨h2, ?_⟩
      rintro rfl
      rw [h0] at h3
      cases h3
      exact h5 ⟨rfl, h4⟩

theorem linkNodes_almost (nodes : List (Id × Node)) : ∀ {s : Space} {todo : Id → Ref → Prop}, Almost s todo →
    Almost (nodes.foldl (fun s p => linkNode s p.1) s) (fun a x => todo a x ∧ a ∉ nodes.map (·.1)) := by
  induction nodes with
  | nil =>
    intro s todo h a n x ha hx he
    rcases h a n x ha hx he with h' | h'
    · exact Or.inl h'
    · exact Or.inr ⟨h', by simp⟩
  | cons p nodes ih =>
    intro s todo h a n x ha hx he
    rcases ih (linkNode_almost h p.1) a n x ha hx he with h' | ⟨⟨h1, h2⟩, h3⟩
    · exact Or.inl h'
    · refine Or.inr ⟨h1, ?_⟩
      simp only [List.map_cons, List.mem_cons, not_or]
      exact ⟨h2, h3⟩

theorem linkNodes_grows (nodes : List (Id × Node)) : ∀ s : Space, Grows s (nodes.foldl (fun s p => linkNode s p.1) s) := by
  induction nodes with
  | nil => intro s; exact .refl s
  | cons p nodes ih => intro s; exact (linkNode_grows s p.1).trans (ih _)

/-- The table after the nodes were put into it. -/
def putAll (s : Space) (nodes : List (Id × Node)) : Space := nodes.foldl (fun s p => put s p.1 (some p.2)) s

theorem putAll_other (nodes : List (Id × Node)) : ∀ (s : Space) (a : Id), a ∉ nodes.map (·.1) → putAll s nodes a = s a := by
  induction nodes with
  | nil => intro s a _; rfl
  | cons p nodes ih =>
    intro s a h
    simp only [List.map_cons, List.mem_cons, not_or] at h
    show putAll (put s p.1 (some p.2)) nodes a = s a
    rw [ih _ a h.2, put_ne _ _ _ _ h.1]

theorem putAll_mem (nodes : List (Id × Node)) : ∀ (s : Space) (a : Id), a ∈ nodes.map (·.1) →
    ∃ n, (a, n) ∈ nodes ∧ putAll s nodes a = some n := by
  induction nodes with
  | nil => intro s a h; cases h
  | cons p nodes ih =>
    intro s a h
    show ∃ n, (a, n) ∈ p :: nodes ∧ putAll (put s p.1 (some p.2)) nodes a = some n
    by_cases hm : a ∈ nodes.map (·.1)
    · obtain ⟨n, h1, h2⟩ := ih (put s p.1 (some p.2)) a hm
      exact ⟨n, List.mem_cons_of_mem _ h1, h2⟩
    · have : a = p.1 := by
        rcases List.mem_cons.mp h with h | h
        · exact h
        · exact absurd h hm
      subst this
      refine ⟨p.2, List.mem_cons_self .., ?_⟩
      rw [putAll_other nodes _ _ hm, put_same]

theorem addNodes_eq (s : Space) (nodes : List (Id × Node)) :
    addNodes s nodes = nodes.foldl (fun s p => linkNode s p.1) (putAll s nodes) := rfl

structure Inv (s : Space) : Prop where
  symmetric : Symmetric s
  closed : Closed s

theorem orderly_add {s : Space} {nodes : List (Id × Node)} (h : orderly s (.add nodes) = true) :
    (∀ p ∈ nodes, s p.1 = none) ∧
    ∀ p ∈ nodes, ∀ r ∈ p.2.refs, exempt r = false → (s r.target).isSome ∨ r.target ∈ nodes.map (·.1) := by
  simp only [orderly, Bool.and_eq_true, List.all_eq_true, Bool.or_eq_true, Option.isNone_iff_eq_none] at h
  refine ⟨fun p hp => h.1.2 p hp, ?_⟩
  intro p hp r hr he
  rcases h.2 p hp r hr with (h1 | h1) | h1
  · rw [he] at h1; cases h1
  · exact Or.inl h1
  · exact Or.inr (by simpa using h1)

/-- The added links do not lead out of the table. -/
theorem linkBack_closed {id : Id} {s : Space} {r : Ref} (h : Closed s) (h0 : (s id).isSome) : Closed (linkBack id s r) := by
  have hg := linkBack_grows id s r
  have some_of : ∀ x, (s x).isSome → (linkBack id s r x).isSome := by
    intro x hx
    obtain ⟨n, hn⟩ := Option.isSome_iff_exists.mp hx
    obtain ⟨n', h1, _⟩ := hg.2 x n hn
    rw [h1]; rfl
  rw [closed_iff] at h ⊢
  rcases linkBack_cases id s r with ⟨he, _⟩ | ⟨hex, t, ht, hno, he⟩
  · rw [he]; exact h
  · intro a n x ha hx hxe
    rw [he] at ha
    by_cases hx' : a = r.target
    · subst hx'
      rw [put_same] at ha
      cases ha
      rcases List.mem_append.mp hx with h' | h'
      · exact some_of _ (h _ t x ht h' hxe)
      · rw [List.mem_singleton.mp h']; exact some_of _ h0
    · rw [put_ne _ _ _ _ hx'] at ha
      exact some_of _ (h a n x ha hx hxe)

theorem linkRefs_closed {id : Id} (rs : List Ref) : ∀ {s : Space}, Closed s → (s id).isSome → Closed (rs.foldl (linkBack id) s) := by
  induction rs with
  | nil => intro s h _; exact h
  | cons r rs ih =>
    intro s h h0
    refine ih (linkBack_closed h h0) ?_
    obtain ⟨n, hn⟩ := Option.isSome_iff_exists.mp h0
    obtain ⟨n', h1, _⟩ := (linkBack_grows id s r).2 id n hn
    rw [h1]; rfl

theorem linkNodes_closed (nodes : List (Id × Node)) : ∀ {s : Space}, Closed s → Closed (nodes.foldl (fun s p => linkNode s p.1) s) := by
  induction nodes with
  | nil => intro s h; exact h
  | cons p nodes ih =>
    intro s h
    refine ih ?_
    dsimp only [linkNode]
    split
    · exact h
    next n hn => exact linkRefs_closed _ h (by rw [hn]; rfl)

theorem add_inv {s : Space} {nodes : List (Id × Node)} (h : Inv s) (ho : orderly s (.add nodes) = true) :
    Inv (addNodes s nodes) := by
  obtain ⟨hfresh, hclosed⟩ := orderly_add ho
  have hnew : ∀ a ∈ nodes.map (·.1), s a = none := by
    intro a ha
    obtain ⟨p, hp, rfl⟩ := List.mem_map.mp ha
    exact hfresh p hp
  have hsome : ∀ x, (s x).isSome → (putAll s nodes x).isSome := by
    intro x hx
    by_cases hm : x ∈ nodes.map (·.1)
    · obtain ⟨n, _, h2⟩ := putAll_mem nodes s x hm
      rw [h2]; rfl
    · rw [putAll_other nodes s x hm]; exact hx
  have hput : Closed (putAll s nodes) := by
    have hc := (closed_iff s).mp h.closed
    rw [closed_iff]
    intro a n r ha hr he
    by_cases hm : a ∈ nodes.map (·.1)
    · obtain ⟨n', h1, h2⟩ := putAll_mem nodes s a hm
      rw [ha] at h2
      cases h2
      rcases hclosed _ h1 r hr he with h3 | h3
      · exact hsome _ h3
      · obtain ⟨n2, _, h4⟩ := putAll_mem nodes s _ h3
        rw [h4]; rfl
    · rw [putAll_other nodes s a hm] at ha
      exact hsome _ (hc a n r ha hr he)
  have halmost : Almost (putAll s nodes) (fun a _ => a ∈ nodes.map (·.1)) := by
    have hs := (symmetric_iff s).mp h.symmetric
    have hc := (closed_iff s).mp h.closed
    intro a n r ha hr he
    by_cases hm : a ∈ nodes.map (·.1)
    · exact Or.inr hm
    · left
      rw [putAll_other nodes s a hm] at ha
      have h1 := hs a n r ha hr he
      have h2 := hc a n r ha hr he
      intro t ht
      have hm2 : r.target ∉ nodes.map (·.1) := by
        intro hm2
        rw [hnew _ hm2] at h2
        cases h2
      rw [putAll_other nodes s _ hm2] at ht
      exact h1 t ht
  constructor
  · rw [symmetric_iff, addNodes_eq]
    intro a n r ha hr he
    rcases linkNodes_almost nodes halmost a n r ha hr he with h' | ⟨h1, h2⟩
    · exact h'
    · exact absurd h1 h2
  · rw [addNodes_eq]
    exact linkNodes_closed nodes hput

/-! ### Deleting -/

/-- What is taken out of the references of node `a` when the node `id` with references `rs` is deleted. -/
def taken (id : Id) (rs : List Ref) (a : Id) (tr : Ref) : Bool :=
  rs.any (fun r => !exempt r && decide (r.target = a) && isBack id r tr)

theorem unlinkBack_at (id : Id) (s : Space) (r : Ref) (a : Id) :
    unlinkBack id s r a = (s a).map (fun t => { t with refs := t.refs.filter (fun tr => !taken id [r] a tr) }) := by
  have triv : ∀ t : Node, (∀ tr, taken id [r] a tr = false) →
      ({ t with refs := t.refs.filter (fun tr => !taken id [r] a tr) } : Node) = t := by
    intro t h
    rw [show (fun tr => !taken id [r] a tr) = (fun _ => true) from funext (fun tr => by rw [h]; rfl)]
    rw [List.filter_eq_self.mpr (fun _ _ => rfl)]
  unfold unlinkBack
  split
  next he =>
    cases hs : s a with
    | none => rfl
    | some t => rw [Option.map_some, triv t (by intro tr; simp [taken, he])]
  next he =>
    have he' : exempt r = false := by simpa using he
    cases ht : s r.target with
    | none =>
      dsimp only
      cases hs : s a with
      | none => rfl
      | some t =>
        have : r.target ≠ a := by rintro rfl; rw [ht] at hs; cases hs
        rw [Option.map_some, triv t (by intro tr; simp [taken, this])]
    | some t =>
      dsimp only
      by_cases hx : a = r.target
      · subst hx
        rw [put_same, ht]
        simp [taken, he']
      · rw [put_ne _ _ _ _ hx]
        have hx' : r.target ≠ a := fun e => hx e.symm
        cases hs : s a with
        | none => rfl
        | some t => rw [Option.map_some, triv t (by intro tr; simp [taken, hx'])]

theorem unlinkRefs_at (id : Id) (rs : List Ref) : ∀ (s : Space) (a : Id), (rs.foldl (unlinkBack id) s) a =
    (s a).map (fun t => { t with refs := t.refs.filter (fun tr => !taken id rs a tr) }) := by
  induction rs with
  | nil =>
    intro s a
    cases hs : s a with
    | none => simp [hs]
    | some t =>
      have : t.refs.filter (fun tr => !taken id [] a tr) = t.refs := List.filter_eq_self.mpr (fun _ _ => rfl)
      rw [List.foldl_nil, hs, Option.map_some, this]
  | cons r rs ih =>
    intro s a
    rw [List.foldl_cons, ih, unlinkBack_at]
    cases hs : s a with
    | none => rfl
    | some t =>
      simp only [Option.map_some, List.filter_filter]
      congr 3
      funext tr
      simp [taken, Bool.and_comm]

theorem deleteNode_at (s : Space) (id : Id) (n : Node) (a : Id) : deleteNode s id n a =
    if a = id then none else (s a).map (fun t => { t with refs := t.refs.filter (fun tr => !taken id n.refs a tr) }) := by
  unfold deleteNode
  split
  next h => rw [h, put_same]
  next h => rw [put_ne _ _ _ _ h, unlinkRefs_at]

theorem taken_target {id : Id} {rs : List Ref} {a : Id} {tr : Ref} (h : taken id rs a tr = true) : tr.target = id := by
  simp only [taken, List.any_eq_true, Bool.and_eq_true] at h
  obtain ⟨r, _, _, h2⟩ := h
  rw [isBack_iff] at h2
  rw [h2]

theorem deleteNode_inv {s : Space} (h : Inv s) {id : Id} {n : Node} (hn : s id = some n) :
    Inv (deleteNode s id n) ∧ ∀ a type inverse, ¬ HasRef (deleteNode s id n) a type inverse id := by
  have hs := (symmetric_iff s).mp h.symmetric
  have hc := (closed_iff s).mp h.closed
  -- what is left of a node
  have hat : ∀ a m r, deleteNode s id n a = some m → r ∈ m.refs →
      a ≠ id ∧ ∃ t, s a = some t ∧ r ∈ t.refs ∧ taken id n.refs a r = false := by
    intro a m r ha hr
    rw [deleteNode_at] at ha
    by_cases hx : a = id
    · rw [if_pos hx] at ha; cases ha
    · rw [if_neg hx] at ha
      cases hsa : s a with
      | none => rw [hsa] at ha; cases ha
      | some t =>
        rw [hsa, Option.map_some] at ha
        cases ha
        have := List.mem_filter.mp hr
        exact ⟨hx, t, rfl, this.1, by simpa using this.2⟩
  have hgone : ∀ a m r, deleteNode s id n a = some m → r ∈ m.refs → exempt r = false → r.target ≠ id := by
    intro a m r ha hr he e
    obtain ⟨hx, t, h1, h2, h3⟩ := hat a m r ha hr
    have hb := hs a t r h1 h2 he
    obtain ⟨tr, h4, h5⟩ := hb n (by rw [e]; exact hn)
    rw [isBack_iff] at h5
    have : taken id n.refs a r = true := by
      simp only [taken, List.any_eq_true, Bool.and_eq_true]
      refine ⟨tr, h4, ⟨?_, ?_⟩, ?_⟩
      · rw [h5]; simpa [exempt] using he
      · rw [h5]; simp
      · rw [isBack_iff, h5]; cases r; simp_all
    rw [this] at h3
    cases h3
  refine ⟨⟨?_, ?_⟩, ?_⟩
  · rw [symmetric_iff]
    intro a m r ha hr he t' ht'
    obtain ⟨hx, t, h1, h2, h3⟩ := hat a m r ha hr
    have htg := hgone a m r ha hr he
    rw [deleteNode_at, if_neg htg] at ht'
    cases hst : s r.target with
    | none => rw [hst] at ht'; cases ht'
    | some t0 =>
      rw [hst, Option.map_some] at ht'
      cases ht'
      obtain ⟨tr, h4, h5⟩ := hs a t r h1 h2 he t0 hst
      refine ⟨tr, ?_, h5⟩
      rw [List.mem_filter]
      refine ⟨h4, ?_⟩
      cases htk : taken id n.refs r.target tr with
      | false => rfl
      | true =>
        have := taken_target htk
        rw [isBack_iff] at h5
        rw [h5] at this
        exact absurd this hx
  · rw [closed_iff]
    intro a m r ha hr he
    obtain ⟨hx, t, h1, h2, h3⟩ := hat a m r ha hr
    have htg := hgone a m r ha hr he
    rw [deleteNode_at, if_neg htg, Option.isSome_map]
    exact hc a t r h1 h2 he
  · rintro a type inverse ⟨h1, h2, m, hm, hr⟩
    exact hgone a m _ hm hr ((exempt_false _).mpr ⟨h1, h2⟩) rfl

theorem deleteChild_inv {s : Space} (h : Inv s) (c : Id) : Inv (deleteChild s c) := by
  unfold deleteChild
  split
  · exact h
  · split
    · exact h
    next n hn => exact (deleteNode_inv h hn).1

theorem deleteChildren_inv (cs : List Id) : ∀ {s : Space}, Inv s → Inv (cs.foldl deleteChild s) := by
  induction cs with
  | nil => intro s h; exact h
  | cons c cs ih => intro s h; exact ih (deleteChild_inv h c)

theorem step_inv {s : Space} (h : Inv s) (e : Ev) (ho : orderly s e = true) : Inv (step s e) := by
  cases e with
  | add nodes => exact add_inv h ho
  | delete id =>
    dsimp only [step, deleteByID]
    split
    · exact h
    · split
      · exact h
      next n hn => exact (deleteNode_inv h hn).1
  | deleteRecursive id rounds =>
    dsimp only [step, deleteRecursive]
    by_cases hp : protectedId id = true
    · rw [if_pos hp]; exact h
    · rw [if_neg hp]
      cases hs : s id with
      | none => exact h
      | some n =>
        cases hcs : getChildren childTypes s rounds id with
        | none => exact h
        | some cs =>
          dsimp only
          have h2 := deleteChildren_inv cs h
          cases hs2 : (cs.foldl deleteChild s) id with
          | none => exact h2
          | some n => exact (deleteNode_inv h2 hs2).1

theorem run_inv (evs : List Ev) : ∀ {s : Space}, Inv s → allOrderly s evs = true → Inv (run s evs) := by
  induction evs with
  | nil => intro s h _; exact h
  | cons e evs ih =>
    intro s h ho
    simp only [allOrderly, Bool.and_eq_true] at ho
    exact ih (step_inv h e ho.1) ho.2

theorem inv_empty : Inv empty :=
  ⟨(by rintro a ty i b ⟨_, _, n, hn, _⟩ _; cases hn), (by rintro a ty i b ⟨_, _, n, hn, _⟩; cases hn)⟩

/-! ### Theorems -/

/-- **C59 (symmetry, partial).** After any history of additions and deletions in which the added nodes have
new ids and refer only to nodes that are present or added with them, every reference has its inverse on
the other node. Missing: other additions, see `C59_late_fails` and `C59_replaced_fails`. -/
theorem C59_symmetric_partial (evs : List Ev) (h : allOrderly empty evs = true) : Symmetric (run empty evs) :=
  (run_inv evs inv_empty h).symmetric

/-- **C59 (deletion, partial).** In such a history, no node refers to a node that is not there, so a deleted
node takes all references to it along. -/
theorem C59_deleted_partial (evs : List Ev) (h : allOrderly empty evs = true) (id : Id) (hd : run empty evs id = none) :
    ∀ a type inverse, ¬ HasRef (run empty evs) a type inverse id := by
  intro a type inverse hr
  have := (run_inv evs inv_empty h).closed a type inverse id hr
  rw [hd] at this
  cases this

theorem linkBack_noDup (id : Id) {s : Space} (h : NoDuplicates s) (r : Ref) : NoDuplicates (linkBack id s r) := by
  rcases linkBack_cases id s r with ⟨he, _⟩ | ⟨hex, t, ht, hno, he⟩
  · rw [he]; exact h
  · rw [he]
    intro a n ha
    by_cases hx : a = r.target
    · subst hx
      rw [put_same] at ha
      cases ha
      rw [List.nodup_append]
      refine ⟨h _ t ht, by simp, ?_⟩
      intro x hx y hy e
      rw [List.mem_singleton.mp hy] at e
      subst e
      have := hno _ hx
      rw [(isBack_iff _ _ _).mpr rfl] at this
      cases this
    · rw [put_ne _ _ _ _ hx] at ha; exact h a n ha

theorem deleteNode_noDup {s : Space} (h : NoDuplicates s) (id : Id) (n : Node) : NoDuplicates (deleteNode s id n) := by
  intro a m ha
  rw [deleteNode_at] at ha
  split at ha
  · cases ha
  · cases hs : s a with
    | none => rw [hs] at ha; cases ha
    | some t =>
      rw [hs, Option.map_some] at ha
      cases ha
      exact (h a t hs).sublist List.filter_sublist

/-- **C59 (no duplicates).** Whatever is added and deleted: if no added node has a reference twice, no node
ever has. -/
theorem C59_noDuplicates (evs : List Ev) (h : ∀ e ∈ evs, ∀ nodes, e = .add nodes → ∀ p ∈ nodes, p.2.refs.Nodup) :
    NoDuplicates (run empty evs) := by
  have key : ∀ (evs : List Ev) (s : Space), NoDuplicates s →
      (∀ e ∈ evs, ∀ nodes, e = .add nodes → ∀ p ∈ nodes, p.2.refs.Nodup) → NoDuplicates (run s evs) := by
    intro evs
    induction evs with
    | nil => intro s h _; exact h
    | cons e evs ih =>
      intro s hs he
      refine ih _ ?_ (fun x hx => he x (List.mem_cons_of_mem _ hx))
      have he := he e (by simp)
      cases e with
      | add nodes =>
        have hp := he nodes rfl
        dsimp only [step]
        rw [addNodes_eq]
        have h1 : NoDuplicates (putAll s nodes) := by
          intro a n ha
          by_cases hm : a ∈ nodes.map (·.1)
          · obtain ⟨n', h1, h2⟩ := putAll_mem nodes s a hm
            rw [ha] at h2
            cases h2
            exact hp _ h1
          · rw [putAll_other nodes s a hm] at ha; exact hs a n ha
        have h2 : ∀ (rs : List Ref) (id : Id) (s : Space), NoDuplicates s → NoDuplicates (rs.foldl (linkBack id) s) := by
          intro rs
          induction rs with
          | nil => intro id s h; exact h
          | cons r rs ih => intro id s h; exact ih id _ (linkBack_noDup id h r)
        have h3 : ∀ (ns : List (Id × Node)) (s : Space), NoDuplicates s → NoDuplicates (ns.foldl (fun s p => linkNode s p.1) s) := by
          intro ns
          induction ns with
          | nil => intro s h; exact h
          | cons p ns ih =>
            intro s h
            refine ih _ ?_
            dsimp only [linkNode]
            split
            · exact h
            · exact h2 _ _ _ h
        exact h3 nodes _ h1
      | delete id =>
        dsimp only [step, deleteByID]
        split
        · exact hs
        · split
          · exact hs
          · exact deleteNode_noDup hs _ _
      | deleteRecursive id rounds =>
        have h2 : ∀ (cs : List Id) (s : Space), NoDuplicates s → NoDuplicates (cs.foldl deleteChild s) := by
          intro cs
          induction cs with
          | nil => intro s h; exact h
          | cons c cs ih =>
            intro s h
            refine ih _ ?_
            unfold deleteChild
            split
            · exact h
            · split
              · exact h
              · exact deleteNode_noDup h _ _
        dsimp only [step, deleteRecursive]
        by_cases hp : protectedId id = true
        · rw [if_pos hp]; exact hs
        · rw [if_neg hp]
          cases hs1 : s id with
          | none => exact hs
          | some n =>
            cases hcs : getChildren childTypes s rounds id with
            | none => exact hs
            | some cs =>
              dsimp only
              have h4 := h2 cs s hs
              cases hs2 : (cs.foldl deleteChild s) id with
              | none => exact h4
              | some n => exact deleteNode_noDup h4 _ _
  exact key evs empty (by intro a n ha; cases ha) h

/-- A folder with two variables, of which one names its folder; then one of them is deleted. -/
def folder : List Ev :=
  [.add [(⟨1, 1⟩, { refs := [⟨organizes, false, ⟨1, 2⟩⟩, ⟨hasTypeDefinition, false, ⟨0, 61⟩⟩] }),
    (⟨1, 2⟩, { refs := [] }), (⟨1, 3⟩, { refs := [⟨organizes, true, ⟨1, 1⟩⟩] })], .delete ⟨1, 2⟩]

example : allOrderly empty folder = true := by decide
example : (run empty folder ⟨1, 1⟩).map (·.refs) = some [⟨hasTypeDefinition, false, ⟨0, 61⟩⟩, ⟨organizes, false, ⟨1, 3⟩⟩] := by decide
example : (run empty (folder.take 1) ⟨1, 2⟩).map (·.refs) = some [⟨organizes, true, ⟨1, 1⟩⟩] := by decide

/-- **C59 fails (late).** A node refers to a node that is added later: it never gets the inverse, and when
it is deleted again the reference to it stays. -/
theorem C59_late_fails :
    let evs : List Ev := [.add [(⟨1, 1⟩, { refs := [⟨organizes, false, ⟨1, 2⟩⟩] })], .add [(⟨1, 2⟩, { refs := [] })]]
    ¬ Symmetric (run empty evs) ∧ HasRef (run empty (evs ++ [.delete ⟨1, 2⟩])) ⟨1, 1⟩ organizes false ⟨1, 2⟩ ∧
      run empty (evs ++ [.delete ⟨1, 2⟩]) ⟨1, 2⟩ = none := by
  refine ⟨?_, ⟨by decide, by decide, ⟨[⟨organizes, false, ⟨1, 2⟩⟩], 1, 0, [], 0⟩, by decide, by decide⟩, by decide⟩
  intro h
  obtain ⟨_, _, n, hn, hm⟩ := h ⟨1, 1⟩ organizes false ⟨1, 2⟩ ⟨by decide, by decide, ⟨[⟨organizes, false, ⟨1, 2⟩⟩], 1, 0, [], 0⟩, by decide, by decide⟩ (by decide)
  have : run empty [.add [(⟨1, 1⟩, { refs := [⟨organizes, false, ⟨1, 2⟩⟩] })], .add [(⟨1, 2⟩, { refs := [] })]] ⟨1, 2⟩ =
    some { refs := [] } := by decide
  rw [this] at hn
  cases hn
  cases hm

/-- **C59 fails (replaced).** A node is added again under the same id without its references: its
neighbours keep their references to it, and it has none to them. -/
theorem C59_replaced_fails :
    let evs : List Ev := [.add [(⟨1, 1⟩, { refs := [⟨organizes, false, ⟨1, 2⟩⟩] }), (⟨1, 2⟩, { refs := [] })],
      .add [(⟨1, 1⟩, { refs := [] })]]
    HasRef (run empty evs) ⟨1, 2⟩ organizes true ⟨1, 1⟩ ∧ (run empty evs ⟨1, 1⟩).map (·.refs) = some [] := by
  exact ⟨⟨by decide, by decide, ⟨[⟨organizes, true, ⟨1, 1⟩⟩], 1, 0, [], 0⟩, by decide, by decide⟩, by decide⟩

/-! ## C60 -/

/-- Calls of DeleteNodeByID and DeleteNodeByIDRecursive. -/
def deletes : Ev → Bool
  | .add _ => false
  | _ => true

theorem deleteNode_keeps (s : Space) (id : Id) (n : Node) (x : Id) (h : (s x).isSome) (hx : x ≠ id) :
    (deleteNode s id n x).isSome := by
  rw [deleteNode_at, if_neg hx, Option.isSome_map]; exact h

theorem deleteChildren_keeps (cs : List Id) : ∀ (s : Space) (x : Id), (s x).isSome → x.ns = 0 →
    (cs.foldl deleteChild s x).isSome := by
  induction cs with
  | nil => intro s x h _; exact h
  | cons c cs ih =>
    intro s x h hx
    refine ih _ x ?_ hx
    unfold deleteChild
    split
    · exact h
    next hp =>
      cases s c with
      | none => exact h
      | some n => exact deleteNode_keeps s c _ x h (by rintro rfl; exact hp (by simp [protectedId, hx]))

/-- **C60 (standard nodes).** No sequence of DeleteNodeByID and DeleteNodeByIDRecursive removes a node of
namespace 0, whatever refers to it. -/
theorem C60_standard (s : Space) (x : Id) (hx : x.ns = 0) (hs : (s x).isSome) (evs : List Ev)
    (hd : ∀ e ∈ evs, deletes e = true) : (run s evs x).isSome := by
  induction evs generalizing s with
  | nil => exact hs
  | cons e evs ih =>
    refine ih (step s e) ?_ (fun y hy => hd y (List.mem_cons_of_mem _ hy))
    have hde := hd e (by simp)
    cases e with
    | add nodes => cases hde
    | delete id =>
      dsimp only [step, deleteByID]
      split
      · exact hs
      next hp =>
        cases s id with
        | none => exact hs
        | some n => exact deleteNode_keeps s id _ x hs (by rintro rfl; exact hp (by simp [protectedId, hx]))
    | deleteRecursive id rounds =>
      dsimp only [step, deleteRecursive]
      by_cases hp : protectedId id = true
      · rw [if_pos hp]; exact hs
      · rw [if_neg hp]
        cases hs1 : s id with
        | none => exact hs
        | some n =>
          cases hcs : getChildren childTypes s rounds id with
          | none => exact hs
          | some cs =>
            dsimp only
            have h2 := deleteChildren_keeps cs s x hs hx
            cases hs2 : (cs.foldl deleteChild s) id with
            | none => exact h2
            | some n => exact deleteNode_keeps _ id _ x h2 (by rintro rfl; exact hp (by simp [protectedId, hx]))

/-- **C60 (refusal).** A call that is refused changes nothing; calls are refused for nodes of namespace 0
and for unknown nodes, and only for these. -/
theorem C60_refused (s : Space) (id : Id) (rounds : Nat) :
    ((deleteByID s id).2 ≠ .good ↔ id.ns = 0 ∨ s id = none) ∧
    ((deleteByID s id).2 ≠ .good → (deleteByID s id).1 = s) ∧
    (∀ s' k st, deleteRecursive s rounds id = some (s', k, st) →
      (st ≠ .good ↔ id.ns = 0 ∨ s id = none) ∧ (st ≠ .good → s' = s ∧ k = 0)) := by
  by_cases hp : id.ns = 0
  · have hp' : protectedId id = true := by simp [protectedId, hp]
    refine ⟨by simp [deleteByID, hp', hp], by simp [deleteByID, hp'], ?_⟩
    intro s' k st h
    rw [deleteRecursive, if_pos hp'] at h
    cases h
    simp [hp]
  · have hp' : ¬ protectedId id = true := by simp [protectedId, hp]
    cases hs : s id with
    | none =>
      refine ⟨by simp [deleteByID, hp', hs], by simp [deleteByID, hp', hs], ?_⟩
      intro s' k st h
      rw [deleteRecursive, if_neg hp', hs] at h
      cases h
      simp
    | some n =>
      refine ⟨by simp [deleteByID, hp', hs, hp], by simp [deleteByID, hp', hs], ?_⟩
      intro s' k st h
      rw [deleteRecursive, if_neg hp', hs] at h
      dsimp only at h
      have hst : st = .good := by
        cases hcs : getChildren childTypes s rounds id with
        | none => rw [hcs] at h; cases h
        | some cs =>
          rw [hcs] at h
          dsimp only at h
          split at h <;> cases h <;> rfl
      simp [hst, hp]

/-- A folder of namespace 1 has a standard node as component. -/
def mixed : Space := run empty [.add [(⟨1, 1⟩, { refs := [⟨hasComponent, false, ⟨0, 9⟩⟩, ⟨hasComponent, false, ⟨1, 2⟩⟩] }),
  (⟨0, 9⟩, { refs := [⟨hasComponent, false, ⟨1, 3⟩⟩] }), (⟨1, 2⟩, { refs := [] }), (⟨1, 3⟩, { refs := [] })]]

example : [⟨1, 1⟩, ⟨0, 9⟩, ⟨1, 2⟩, ⟨1, 3⟩].map (fun x => (run mixed [.delete ⟨0, 9⟩, .deleteRecursive ⟨1, 1⟩ 9] x).isSome) =
    [false, true, false, false] := by decide

end Opcua.AddressSpace
