import Verif.Model.Registry

/-! Property C15: the type registry stays a bijection. -/
namespace Opcua.Registry

/-- Specification: the two directions agree. -/
def Bijection (s : St) : Prop := ∀ id typ, s.types id = some typ ↔ s.ids typ = some id

theorem register_cases (s : St) (typ : Nat) (id : ExpandedNodeID) (h : Bijection s) :
    -- a repetition or a refusal changes nothing
    ((register s typ id).1 = s ∧
      ((register s typ id).2 = .returned ↔ s.types id = some typ)) ∨
    -- otherwise both id and type were free and exactly this pair is added
    ((register s typ id).2 = .returned ∧ s.types id = none ∧ s.ids typ = none ∧
      (∀ i, (register s typ id).1.types i = if i = id then some typ else s.types i) ∧
      (∀ t, (register s typ id).1.ids t = if t = typ then some id else s.ids t)) := by
  unfold register
  cases ht : s.types id with
  | some t =>
    simp only
    by_cases htt : t = typ
    · subst htt
      have := (h id t).mp ht
      left
      simp [this]
    · left; simp [htt]
  | none =>
    simp only
    cases hi : s.ids typ with
    | some n =>
      have hne : n ≠ id := by
        rintro rfl
        have := (h n typ).mpr hi
        rw [ht] at this; cases this
      left
      simp only [hne, ne_eq, not_false_eq_true, if_true, reduceCtorEq, iff_self, and_true]
      have : upd (upd s.types id (some typ)) id none = s.types := by
        funext x
        unfold upd
        split
        · rename_i hx; rw [hx, ht]
        · rfl
      rw [this]
    | none => right; simp [upd]

theorem register_bijection (s : St) (typ : Nat) (id : ExpandedNodeID) (h : Bijection s) :
    Bijection (register s typ id).1 := by
  rcases register_cases s typ id h with ⟨h1, -⟩ | ⟨-, hf1, hf2, ht, hi⟩
  · rw [h1]; exact h
  · intro i t
    rw [ht, hi]
    by_cases hid : i = id <;> by_cases htt : t = typ
    · simp [hid, htt]
    · subst hid
      have hfalse : s.ids t ≠ some i := by
        intro hc; have := (h i t).mpr hc; rw [hf1] at this; cases this
      simp only [if_true, htt, if_false, Option.some.injEq]
      constructor
      · intro hc; exact absurd hc.symm htt
      · intro hc; exact absurd hc hfalse
    · subst htt
      have hfalse : s.types i ≠ some t := by
        intro hc; have := (h i t).mp hc; rw [hf2] at this; cases this
      simp only [if_true, hid, if_false, Option.some.injEq]
      constructor
      · intro hc; exact absurd hc hfalse
      · intro hc; exact absurd hc.symm hid
    · simp only [hid, htt, if_false]; exact h i t

theorem run_bijection (cs : List (Nat × ExpandedNodeID)) : ∀ s, Bijection s → Bijection (run s cs) := by
  induction cs with
  | nil => intro s h; exact h
  | cons c cs ih => intro s h; exact ih _ (register_bijection s c.1 c.2 h)

theorem init_bijection : Bijection init := by intro id typ; simp [init]

/-- After any history of calls, refused ones included, looking up an id and looking up its
type are inverse to each other; hence ids and types correspond one to one. -/
theorem C15_registry_bijection (cs : List (Nat × ExpandedNodeID)) (id : ExpandedNodeID) (typ : Nat) :
    (run init cs).types id = some typ ↔ (run init cs).ids typ = some id :=
  run_bijection cs init init_bijection id typ

/-- In any reachable state, a call that is not refused registers the pair; a refused one
happens exactly when id or type is already used differently, and leaves every lookup as
it was. -/
theorem C15_register_outcome (cs : List (Nat × ExpandedNodeID)) (typ : Nat) (id : ExpandedNodeID) :
    let s := run init cs
    ((register s typ id).2 = .returned →
      (register s typ id).1.types id = some typ ∧ (register s typ id).1.ids typ = some id ∧
      (∀ i, i ≠ id → (register s typ id).1.types i = s.types i)) ∧
    ((register s typ id).2 = .panicked → (register s typ id).1 = s) ∧
    ((register s typ id).2 = .panicked ↔
      (∃ t, s.types id = some t ∧ t ≠ typ) ∨ (∃ n, s.ids typ = some n ∧ n ≠ id)) := by
  intro s
  have h : Bijection s := run_bijection cs init init_bijection
  rcases register_cases s typ id h with ⟨h1, h2⟩ | ⟨h0, hf1, hf2, ht, hi⟩
  · rw [h1]
    refine ⟨fun hr => ?_, fun _ => rfl, ?_⟩
    · have := h2.mp hr
      exact ⟨this, (h id typ).mp this, fun _ _ => rfl⟩
    · constructor
      · intro hp
        have hne : s.types id ≠ some typ := by
          intro hc; have := h2.mpr hc; rw [hp] at this; cases this
        cases ht : s.types id with
        | some t => exact .inl ⟨t, rfl, fun hc => hne (by rw [ht, hc])⟩
        | none =>
          right
          cases hi : s.ids typ with
          | some n =>
            refine ⟨n, rfl, fun hc => ?_⟩
            rw [hc] at hi
            exact hne ((h id typ).mpr hi)
          | none => simp [register, ht, hi] at hp
      · intro hc
        cases ho : (register s typ id).2 with
        | panicked => rfl
        | returned =>
          have hty := h2.mp ho
          have hid := (h id typ).mp hty
          rcases hc with ⟨t, h3, h4⟩ | ⟨n, h3, h4⟩
          · rw [hty] at h3; cases h3; exact absurd rfl h4
          · rw [hid] at h3; cases h3; exact absurd rfl h4
  · refine ⟨fun _ => ⟨by simp [ht], by simp [hi], fun i hne => by simp [ht, hne]⟩, ?_, ?_⟩
    · intro hc; rw [h0] at hc; cases hc
    · constructor
      · intro hc; rw [h0] at hc; cases hc
      · rintro (⟨t, h3, -⟩ | ⟨n, h3, -⟩)
        · rw [hf1] at h3; cases h3
        · rw [hf2] at h3; cases h3

/-- A pair, once registered, stays registered. -/
theorem C15_registrations_permanent (cs ds : List (Nat × ExpandedNodeID)) (id : ExpandedNodeID)
    (typ : Nat) (h : (run init cs).types id = some typ) : (run init (cs ++ ds)).types id = some typ := by
  have happ : ∀ (cs : List (Nat × ExpandedNodeID)) s, run s (cs ++ ds) = run (run s cs) ds := by
    intro cs
    induction cs with
    | nil => intro s; rfl
    | cons c cs ih => intro s; exact ih _
  rw [happ]
  have hb : Bijection (run init cs) := run_bijection cs init init_bijection
  generalize run init cs = s at h hb
  induction ds generalizing s with
  | nil => exact h
  | cons d ds ih =>
    have hperm : (register s d.1 d.2).1.types id = some typ := by
      rcases register_cases s d.1 d.2 hb with ⟨h1, -⟩ | ⟨-, hf1, -, ht, -⟩
      · rw [h1]; exact h
      · rw [ht]
        have : id ≠ d.2 := by rintro rfl; rw [hf1] at h; cases h
        simp [this, h]
    exact ih (fun cs => by
      induction cs with
      | nil => intro s; rfl
      | cons c cs ih => intro s; exact ih _) _ hperm (register_bijection s d.1 d.2 hb)

example : (run init [(1, ⟨0, [], some (.numeric 0 7)⟩), (2, ⟨0, [], some (.numeric 0 7)⟩),
    (1, ⟨0, [], some (.numeric 0 8)⟩)]).types ⟨0, [], some (.numeric 0 7)⟩ = some 1 := by decide
example : (register (run init [(1, ⟨0, [], some (.numeric 0 7)⟩)]) 1 ⟨0, [], some (.numeric 0 8)⟩).2 =
    .panicked := by decide

end Opcua.Registry
