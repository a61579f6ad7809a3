import Verif.Model.Batch
import Verif.Lemmas.Lists
import Verif.Props.Range

/-!
# C71: batch services answer every item in place
-/

namespace Opcua.Batch

/-! ## Specification -/

namespace Spec

/-- A result that a program can come to, whatever the shared state is whenever it looks. -/
inductive Possible {σ ρ : Type} : Prog σ ρ → ρ → Prop
  | done (r) : Possible (.done r) r
  | act (next k s r) : Possible (k s) r → Possible (.act next k) r

/-- A program that changes nothing. -/
inductive ReadOnly {σ ρ : Type} : Prog σ ρ → Prop
  | done (r) : ReadOnly (.done r)
  | act (next k) : (∀ s, next s = s) → (∀ s, ReadOnly (k s)) → ReadOnly (.act next k)

/-- A program that looks at one entry of the shared state, and changes no other. -/
inductive Local {α ρ : Type} (key : Nat) : Prog (Nat → α) ρ → Prop
  | done (r) : Local key (.done r)
  | act (next k) : (∀ s x, x ≠ key → next s x = s x) →
      (∀ s s', s key = s' key → next s key = next s' key ∧ k s = k s') → (∀ s, Local key (k s)) →
      Local key (.act next k)

end Spec

open Spec

/-! ## The invariant of a batch -/

section Inv

variable {σ ρ : Type}

/-- Every task is running and has no result, or is done and has its result. -/
def Inv (n : Nat) (P : Nat → Prog σ ρ → σ → Prop) (Q : Nat → ρ → σ → Prop) (b : State σ ρ) : Prop :=
  b.tasks.length = n ∧ b.results.length = n ∧
    ∀ i, i < n →
      (∃ p, b.tasks[i]? = some (some p) ∧ b.results[i]? = some none ∧ P i p b.shared) ∨
      (∃ r, b.tasks[i]? = some none ∧ b.results[i]? = some (some r) ∧ Q i r b.shared)

theorem inv_run {n : Nat} {P : Nat → Prog σ ρ → σ → Prop} {Q : Nat → ρ → σ → Prop} {A : (σ → σ) → Prop}
    (hdone : ∀ i r s, P i (.done r) s → Q i r s)
    (hact : ∀ i next k s, P i (.act next k) s → P i (k s) (next s))
    (hactP : ∀ i next k s, P i (.act next k) s → ∀ j p, j ≠ i → P j p s → P j p (next s))
    (hactQ : ∀ i next k s, P i (.act next k) s → ∀ j r, j ≠ i → Q j r s → Q j r (next s))
    (hothP : ∀ f, A f → ∀ j p s, P j p s → P j p (f s))
    (hothQ : ∀ f, A f → ∀ j r s, Q j r s → Q j r (f s))
    {b : State σ ρ} (hb : Inv n P Q b) (evs : List (Event σ)) (hev : ∀ f, .other f ∈ evs → A f) :
    Inv n P Q (run b evs) := by
  induction evs using snocInd with
  | nil => exact hb
  | append_singleton evs e ih =>
    have ih := ih (fun f hf => hev f (List.mem_append.2 (.inl hf)))
    unfold run at ih ⊢
    rw [List.foldl_append]
    simp only [List.foldl_cons, List.foldl_nil]
    generalize evs.foldl step b = b' at ih ⊢
    obtain ⟨h1, h2, h3⟩ := ih
    cases e with
    | other f =>
      have hA := hev f (List.mem_append.2 (.inr List.mem_cons_self))
      refine ⟨h1, h2, ?_⟩
      intro i hi
      rcases h3 i hi with ⟨p, a, b, c⟩ | ⟨r, a, b, c⟩
      · exact .inl ⟨p, a, b, hothP f hA _ _ _ c⟩
      · exact .inr ⟨r, a, b, hothQ f hA _ _ _ c⟩
    | task i =>
      show Inv n P Q (stepTask b' i)
      unfold stepTask
      split
      · rename_i r hr
        have hi : i < n := by rw [← h1]; exact (List.getElem?_eq_some_iff.1 hr).1
        have hPi : P i (.done r) b'.shared := by
          rcases h3 i hi with ⟨p, a, _, c⟩ | ⟨r', a, _, _⟩
          · rw [a] at hr; simp at hr; rw [← hr]; exact c
          · rw [a] at hr; simp at hr
        refine ⟨by simp [h1], by simp [h2], ?_⟩
        intro j hj
        by_cases hij : i = j
        · subst hij
          exact .inr ⟨r, by simp [h1, hi], by simp [h2, hi], hdone _ _ _ hPi⟩
        · rcases h3 j hj with ⟨p, a, b, c⟩ | ⟨r', a, b, c⟩
          · exact .inl ⟨p, by simpa [List.getElem?_set, hij] using a, by simpa [List.getElem?_set, hij] using b, c⟩
          · exact .inr ⟨r', by simpa [List.getElem?_set, hij] using a, by simpa [List.getElem?_set, hij] using b, c⟩
      · rename_i next k hr
        have hi : i < n := by rw [← h1]; exact (List.getElem?_eq_some_iff.1 hr).1
        have hPi : P i (.act next k) b'.shared ∧ b'.results[i]? = some none := by
          rcases h3 i hi with ⟨p, a, b, c⟩ | ⟨r', a, _, _⟩
          · rw [a] at hr; simp at hr; rw [← hr]; exact ⟨c, b⟩
          · rw [a] at hr; simp at hr
        refine ⟨by simp [h1], h2, ?_⟩
        intro j hj
        by_cases hij : i = j
        · subst hij
          exact .inl ⟨_, by simp [h1, hi], hPi.2, hact _ _ _ _ hPi.1⟩
        · rcases h3 j hj with ⟨p, a, b, c⟩ | ⟨r', a, b, c⟩
          · exact .inl ⟨p, by simpa [List.getElem?_set, hij] using a, b, hactP _ _ _ _ hPi.1 _ _ (Ne.symm hij) c⟩
          · exact .inr ⟨r', by simpa [List.getElem?_set, hij] using a, b, hactQ _ _ _ _ hPi.1 _ _ (Ne.symm hij) c⟩
      · exact ⟨h1, h2, h3⟩

theorem inv_start {s : σ} {items : List (Prog σ ρ)} {P : Nat → Prog σ ρ → σ → Prop} {Q : Nat → ρ → σ → Prop}
    (h : ∀ i p, items[i]? = some p → P i p s) : Inv items.length P Q (start s items) := by
  refine ⟨by simp [start], by simp [start], ?_⟩
  intro i hi
  have hp : items[i]? = some items[i] := by simp [hi]
  refine .inl ⟨items[i], by simp [start, hi], by simp [start, hi], h i _ hp⟩

theorem inv_finished {n : Nat} {P : Nat → Prog σ ρ → σ → Prop} {Q : Nat → ρ → σ → Prop} {b : State σ ρ}
    (h : Inv n P Q b) (hf : finished b = true) :
    b.results.length = n ∧ ∀ i, i < n → ∃ r, b.results[i]? = some (some r) ∧ Q i r b.shared := by
  obtain ⟨h1, h2, h3⟩ := h
  refine ⟨h2, ?_⟩
  intro i hi
  rcases h3 i hi with ⟨p, a, _, _⟩ | ⟨r, _, b, c⟩
  · unfold finished at hf
    rw [List.all_eq_true] at hf
    have := hf _ (List.mem_of_getElem? a)
    simp at this
  · exact ⟨r, b, c⟩

end Inv

/-! ## The theorems -/

theorem service_ok {σ ρ : Type} {limit : Nat} {s s' : σ} {items : List (Prog σ ρ)} {evs : List (Event σ)}
    {rs : List (Option ρ)} (h : service limit s items evs = (s', some (.ok rs))) :
    finished (run (start s items) evs) = true ∧ rs = (run (start s items) evs).results ∧
      s' = (run (start s items) evs).shared := by
  unfold service at h
  split at h
  · simp at h
  · dsimp only at h
    simp only [Prod.mk.injEq] at h
    obtain ⟨h1, h2⟩ := h
    split at h2
    · rename_i hf
      simp at h2
      exact ⟨hf, h2.symm, h1.symm⟩
    · simp at h2

/-- An empty batch and a batch over the limit are refused as a whole, with no effect. -/
theorem C71_refused {σ ρ : Type} (limit : Nat) (s : σ) (items : List (Prog σ ρ)) (evs : List (Event σ)) :
    (items = [] → service limit s items evs = (s, some (.error .badNothingToDo))) ∧
      (items ≠ [] → limit < items.length → service limit s items evs = (s, some (.error .badTooManyOperations))) := by
  constructor
  · rintro rfl
    rfl
  · intro hne hl
    have : items.length ≠ 0 := by simpa using hne
    unfold service refuse
    rw [if_neg this, if_pos (by omega)]

/-- No other batch is refused. -/
theorem C71_taken {σ ρ : Type} (limit : Nat) (s s' : σ) (items : List (Prog σ ρ)) (evs : List (Event σ)) (f : Fault)
    (h : service limit s items evs = (s', some (.error f))) : items = [] ∨ limit < items.length := by
  unfold service refuse at h
  by_cases h0 : items.length = 0
  · exact .inl (by simpa using h0)
  · rw [if_neg h0] at h
    by_cases h1 : items.length > limit
    · exact .inr h1
    · rw [if_neg h1] at h
      dsimp only at h
      simp only [Prod.mk.injEq] at h
      obtain ⟨_, h2⟩ := h
      split at h2 <;> simp at h2

/-- The answer has one result for each item, at the place of the item, which the item came to; whatever the
order in which the tasks run and whatever other requests do meanwhile. -/
theorem C71_inPlace {σ ρ : Type} (limit : Nat) (s s' : σ) (items : List (Prog σ ρ)) (evs : List (Event σ))
    (rs : List (Option ρ)) (h : service limit s items evs = (s', some (.ok rs))) :
    rs.length = items.length ∧
      ∀ (i : Nat) p, items[i]? = some p → ∃ r, rs[i]? = some (some r) ∧ Possible p r := by
  obtain ⟨hf, rfl, rfl⟩ := service_ok h
  have hinv : Inv items.length
      (fun i p _ => ∀ r, Possible p r → ∀ p0, items[i]? = some p0 → Possible p0 r)
      (fun i r _ => ∀ p0, items[i]? = some p0 → Possible p0 r) (run (start s items) evs) := by
    apply inv_run (A := fun _ => True)
    · intro i r s h p0 hp0
      exact h r (.done r) p0 hp0
    · intro i next k s h r hr
      exact h r (.act next k s r hr)
    · intro _ _ _ _ _ j p _ h
      exact h
    · intro _ _ _ _ _ j p _ h
      exact h
    · intro _ _ j p s h
      exact h
    · intro _ _ j p s h
      exact h
    · apply inv_start
      intro i p hp r hr p0 hp0
      rw [hp] at hp0
      simp at hp0
      rw [← hp0]
      exact hr
    · intro _ _
      trivial
  obtain ⟨hl, hr⟩ := inv_finished hinv hf
  refine ⟨hl, ?_⟩
  intro i p hp
  obtain ⟨r, h1, h2⟩ := hr i (List.getElem?_eq_some_iff.1 hp).1
  exact ⟨r, h1, h2 p hp⟩

theorem alone_local {α ρ : Type} {key : Nat} {p : Prog (Nat → α) ρ} (h : Local key p) (s s' : Nat → α)
    (hs : s key = s' key) : (p.alone s).2 = (p.alone s').2 ∧ (p.alone s).1 key = (p.alone s').1 key := by
  induction h generalizing s s' with
  | done r => exact ⟨rfl, hs⟩
  | act next k h1 h2 _ ih =>
    simp only [Prog.alone]
    obtain ⟨ha, hb⟩ := h2 s s' hs
    rw [hb]
    exact ih s' _ _ ha

theorem alone_frame {α ρ : Type} {key : Nat} {p : Prog (Nat → α) ρ} (h : Local key p) (s : Nat → α) (x : Nat)
    (hx : x ≠ key) : (p.alone s).1 x = s x := by
  induction h generalizing s with
  | done r => rfl
  | act next k h1 h2 _ ih =>
    simp only [Prog.alone]
    rw [ih s, h1 s x hx]

/-- A batch whose items look at one entry of the shared state each, where two items that look at the same
entry change nothing: whatever the order in which the tasks run, and whatever other requests do to other
entries, each result is what the item alone would have given, and so is the state. -/
theorem C71_alone_partial {α ρ : Type} (limit : Nat) (s s' : Nat → α) (items : List (Prog (Nat → α) ρ))
    (keys : Nat → Nat) (evs : List (Event (Nat → α))) (rs : List (Option ρ))
    (hloc : ∀ i p, items[i]? = some p → Local (keys i) p)
    (hdis : ∀ i j p q, i ≠ j → items[i]? = some p → items[j]? = some q → keys i = keys j → ReadOnly p ∧ ReadOnly q)
    (hoth : ∀ f, .other f ∈ evs → ∀ s i, i < items.length → f s (keys i) = s (keys i))
    (h : service limit s items evs = (s', some (.ok rs))) :
    rs.length = items.length ∧
      ∀ i p, items[i]? = some p →
        rs[i]? = some (some (p.alone s).2) ∧ s' (keys i) = (p.alone s).1 (keys i) := by
  obtain ⟨hf, rfl, rfl⟩ := service_ok h
  have hinv : Inv items.length
      (fun i p s1 => ∃ p0, items[i]? = some p0 ∧ Local (keys i) p ∧ (ReadOnly p0 → ReadOnly p) ∧
        (p.alone s1).2 = (p0.alone s).2 ∧ (p.alone s1).1 (keys i) = (p0.alone s).1 (keys i))
      (fun i r s1 => ∃ p0, items[i]? = some p0 ∧ r = (p0.alone s).2 ∧ s1 (keys i) = (p0.alone s).1 (keys i))
      (run (start s items) evs) := by
    have hsame : ∀ i next k s1, (∃ p0, items[i]? = some p0 ∧ Local (keys i) (.act next k) ∧
        (ReadOnly p0 → ReadOnly (.act next k)) ∧ ((Prog.act next k).alone s1).2 = (p0.alone s).2 ∧
        ((Prog.act next k).alone s1).1 (keys i) = (p0.alone s).1 (keys i)) →
        ∀ j q, j ≠ i → items[j]? = some q → next s1 (keys j) = s1 (keys j) := by
      rintro i next k s1 ⟨p0, hp0, hl, hro, _⟩ j q hji hq
      by_cases hk : keys j = keys i
      · have := hro (hdis i j p0 q (Ne.symm hji) hp0 hq hk.symm).1
        cases this with
        | act _ _ h1 _ => rw [h1]
      · cases hl with
        | act _ _ h1 _ _ => exact h1 s1 _ hk
    apply inv_run (A := fun f => ∀ (s : Nat → α) i, i < items.length → f s (keys i) = s (keys i))
    · rintro i r s1 ⟨p0, h0, _, _, h1, h2⟩
      exact ⟨p0, h0, h1, h2⟩
    · rintro i next k s1 ⟨p0, h0, hl, hro, h1, h2⟩
      refine ⟨p0, h0, ?_, ?_, h1, h2⟩
      · cases hl with
        | act _ _ _ _ h => exact h s1
      · intro hr
        cases hro hr with
        | act _ _ _ h => exact h s1
    · rintro i next k s1 hP j p hji ⟨q0, hq0, hl, hro, h1, h2⟩
      have he := hsame i next k s1 hP j q0 hji hq0
      obtain ⟨a, b⟩ := alone_local hl (next s1) s1 he
      exact ⟨q0, hq0, hl, hro, a.trans h1, b.trans h2⟩
    · rintro i next k s1 hP j r hji ⟨q0, hq0, h1, h2⟩
      have he := hsame i next k s1 hP j q0 hji hq0
      exact ⟨q0, hq0, h1, he.trans h2⟩
    · rintro f hA j p s1 ⟨q0, hq0, hl, hro, h1, h2⟩
      have he := hA s1 j (List.getElem?_eq_some_iff.1 hq0).1
      obtain ⟨a, b⟩ := alone_local hl (f s1) s1 he
      exact ⟨q0, hq0, hl, hro, a.trans h1, b.trans h2⟩
    · rintro f hA j r s1 ⟨q0, hq0, h1, h2⟩
      have he := hA s1 j (List.getElem?_eq_some_iff.1 hq0).1
      exact ⟨q0, hq0, h1, he.trans h2⟩
    · apply inv_start
      intro i p hp
      exact ⟨p, hp, hloc i p hp, fun h => h, rfl, rfl⟩
    · intro f hf
      exact hoth f hf
  obtain ⟨hl, hr⟩ := inv_finished hinv hf
  refine ⟨hl, ?_⟩
  intro i p hp
  obtain ⟨r, h1, p0, h2, h3, h4⟩ := hr i (List.getElem?_eq_some_iff.1 hp).1
  rw [hp] at h2
  simp at h2
  subst h2
  exact ⟨by rw [h1, h3], h4⟩

/-- Programs that change nothing may look at everything. -/
theorem C71_readOnly {σ ρ : Type} (limit : Nat) (s s' : σ) (items : List (Prog σ ρ)) (evs : List (Event σ))
    (rs : List (Option ρ)) (hro : ∀ p ∈ items, ReadOnly p) (hoth : ∀ f, .other f ∈ evs → ∀ s, f s = s)
    (h : service limit s items evs = (s', some (.ok rs))) :
    s' = s ∧ rs = items.map fun p => some (p.alone s).2 := by
  obtain ⟨hf, rfl, rfl⟩ := service_ok h
  have hinv : Inv items.length
      (fun i p s1 => s1 = s ∧ ∃ p0, items[i]? = some p0 ∧ ReadOnly p ∧ (p.alone s).2 = (p0.alone s).2)
      (fun i r s1 => s1 = s ∧ ∃ p0, items[i]? = some p0 ∧ r = (p0.alone s).2)
      (run (start s items) evs) := by
    apply inv_run (A := fun f => ∀ s, f s = s)
    · rintro i r s1 ⟨h0, p0, hp0, _, h1⟩
      exact ⟨h0, p0, hp0, h1⟩
    · rintro i next k s1 ⟨rfl, p0, hp0, hr, h1⟩
      cases hr with
      | act _ _ h2 h3 =>
        refine ⟨h2 _, p0, hp0, h3 _, ?_⟩
        simp only [Prog.alone, h2] at h1
        exact h1
    · rintro i next k s1 ⟨rfl, p0, hp0, hr, h1⟩ j p _ ⟨_, h⟩
      cases hr with
      | act _ _ h2 h3 => exact ⟨h2 _, h⟩
    · rintro i next k s1 ⟨rfl, p0, hp0, hr, h1⟩ j r _ ⟨_, h⟩
      cases hr with
      | act _ _ h2 h3 => exact ⟨h2 _, h⟩
    · rintro f hA j p s1 ⟨rfl, h⟩
      exact ⟨hA _, h⟩
    · rintro f hA j p s1 ⟨rfl, h⟩
      exact ⟨hA _, h⟩
    · apply inv_start
      intro i p hp
      exact ⟨rfl, p, hp, hro p (List.mem_of_getElem? hp), rfl⟩
    · intro f hf
      exact hoth f hf
  obtain ⟨hl, hr⟩ := inv_finished hinv hf
  constructor
  · cases items with
    | nil => simp [service, refuse] at h
    | cons p ps =>
      obtain ⟨_, _, h1, _⟩ := hr 0 (by simp)
      exact h1
  · apply List.ext_getElem?
    intro i
    by_cases hi : i < items.length
    · obtain ⟨r, h1, _, p0, h2, h3⟩ := hr i hi
      rw [h1, List.getElem?_map, h2, h3]
      rfl
    · rw [List.getElem?_eq_none (by omega), List.getElem?_eq_none (by simp; omega)]

/-! ### Every batch is answered -/

/-- A task can step. -/
def Enabled {σ ρ : Type} (b : State σ ρ) (i : Nat) : Prop := ∃ p, b.tasks[i]? = some (some p)

/-- One task steps. -/
def Next {σ ρ : Type} (b' b : State σ ρ) : Prop := ∃ i, Enabled b i ∧ ∃ s, b' = { stepTask b i with shared := s }

inductive TaskStep {σ ρ : Type} : Option (Prog σ ρ) → Option (Prog σ ρ) → Prop
  | done (r) : TaskStep none (some (.done r))
  | act (next k s) : TaskStep (some (k s)) (some (.act next k))

def ListStep {σ ρ : Type} (ts' ts : List (Option (Prog σ ρ))) : Prop :=
  ∃ (i : Nat) (p q : Option (Prog σ ρ)), ts[i]? = some p ∧ TaskStep q p ∧ ts' = ts.set i q

theorem acc_none {σ ρ : Type} : Acc (TaskStep (σ := σ) (ρ := ρ)) none :=
  ⟨_, fun _ h => by cases h⟩

theorem acc_prog {σ ρ : Type} (p : Prog σ ρ) : Acc TaskStep (some p) := by
  induction p with
  | done r => exact ⟨_, fun _ h => by cases h; exact acc_none⟩
  | act next k ih => exact ⟨_, fun _ h => by cases h; exact ih _⟩

theorem acc_cons {σ ρ : Type} {t : Option (Prog σ ρ)} (ht : Acc TaskStep t) {ts : List (Option (Prog σ ρ))}
    (hts : Acc ListStep ts) : Acc ListStep (t :: ts) := by
  induction ht generalizing ts with
  | intro t _ iht =>
    induction hts with
    | intro ts hts' ihts =>
      refine ⟨_, ?_⟩
      rintro ts' ⟨i, p, q, h1, h2, rfl⟩
      cases i with
      | zero =>
        simp at h1
        subst h1
        simp only [List.set_cons_zero]
        exact iht q h2 ⟨_, hts'⟩
      | succ i =>
        simp only [List.getElem?_cons_succ] at h1
        simp only [List.set_cons_succ]
        exact ihts _ ⟨i, p, q, h1, h2, rfl⟩

theorem acc_list {σ ρ : Type} (ts : List (Option (Prog σ ρ))) : Acc ListStep ts := by
  induction ts with
  | nil => exact ⟨_, by rintro ts' ⟨i, p, q, h1, _⟩; simp at h1⟩
  | cons t ts ih =>
    refine acc_cons ?_ ih
    cases t with
    | none => exact acc_none
    | some p => exact acc_prog p

theorem next_list {σ ρ : Type} {b' b : State σ ρ} (h : Next b' b) : ListStep b'.tasks b.tasks := by
  obtain ⟨i, ⟨p, hp⟩, s, rfl⟩ := h
  refine ⟨i, some p, ?_⟩
  cases p with
  | done r => exact ⟨none, hp, .done r, by simp [stepTask, hp]⟩
  | act next k => exact ⟨some (k b.shared), hp, .act next k _, by simp [stepTask, hp]⟩

/-- No batch runs for ever: there is no infinite sequence of steps of its tasks, whatever other requests do to
the shared state in between; and while the batch is not finished some task can step. -/
theorem C71_answered {σ ρ : Type} (b : State σ ρ) :
    Acc Next b ∧ (finished b = false → ∃ i, Enabled b i) := by
  constructor
  · have := acc_list b.tasks
    generalize hts : b.tasks = ts at this
    induction this generalizing b with
    | intro ts _ ih =>
      refine ⟨_, fun b' hb' => ?_⟩
      have hl := next_list hb'
      rw [hts] at hl
      exact ih _ hl b' rfl
  · intro h
    unfold finished at h
    rw [List.all_eq_false] at h
    obtain ⟨t, ht, hn⟩ := h
    obtain ⟨i, hi⟩ := List.getElem?_of_mem ht
    cases t with
    | none => simp at hn
    | some p => exact ⟨i, p, hi⟩

/-! ### Read and Write -/

theorem readItem_readOnly (id : Nat) (r : Range.Text) : ReadOnly (readItem id r) :=
  .act _ _ (fun _ => rfl) (fun _ => .done _)

/-- A Read of values: every result is what the item alone would have given. -/
theorem C71_read (limit : Nat) (s s' : Space) (items : List (Nat × Range.Text)) (evs : List (Event Space))
    (rs : List (Option (Except Range.Status Range.Val))) (hoth : ∀ f, .other f ∈ evs → ∀ s, f s = s)
    (h : service limit s (items.map fun it => readItem it.1 it.2) evs = (s', some (.ok rs))) :
    s' = s ∧ rs = items.map fun it => some (Range.readRange (s it.1).value it.2) := by
  obtain ⟨h1, h2⟩ := C71_readOnly limit s s' _ evs rs
    (by
      intro p hp
      obtain ⟨it, _, rfl⟩ := List.mem_map.1 hp
      exact readItem_readOnly _ _) hoth h
  refine ⟨h1, ?_⟩
  rw [h2, List.map_map]
  rfl

theorem store_same (s : Space) (id : Nat) (w : Range.Val) : store s id w id = { s id with value := w } := by
  simp [store]

theorem writeItem_local (c : Write.Caps) (id : Nat) (v : Range.Val) (r : Range.Text) :
    Local id (writeItem c id v r) := by
  refine .act _ _ (fun _ _ _ => rfl) ?_ ?_
  · intro s s' hs
    refine ⟨hs, ?_⟩
    simp only [hs]
  · intro s
    dsimp only
    split
    · split
      · exact .done _
      · exact .done _
      · refine .act _ _ ?_ ?_ (fun _ => .done _)
        · intro s x hx
          simp [store, hx]
        · intro s s' hs
          refine ⟨?_, rfl⟩
          simp [store, hs]
    · exact .done _

/-- The item alone is the write of Model/Write.lean. -/
theorem writeItem_alone (c : Write.Caps) (id : Nat) (v : Range.Val) (r : Range.Text) (s : Space)
    (hh : (s id).historizing = false) :
    ((writeItem c id v r).alone s).2 = (Write.writeValue c (s id) v r).map Prod.snd ∧
      ((writeItem c id v r).alone s).1 id = ((Write.writeValue c (s id) v r).map Prod.fst).getD (s id) := by
  unfold writeItem Write.writeValue
  simp only [Prog.alone]
  cases hc : Write.checkValue c (s id).type (s id).rank (Write.convert (s id).type (s id).rank v) with
  | good =>
    dsimp only
    cases hw : Range.writeRange (s id).value (Write.convert (s id).type (s id).rank v) r with
    | panic => exact ⟨rfl, rfl⟩
    | bad st => exact ⟨rfl, rfl⟩
    | ok w =>
      simp [Write.setValue, hh, Prog.alone, store_same]
  | _ => exact ⟨rfl, rfl⟩

/-- A Write of values to different variables: every status is what the item alone would have given, and every
variable has the value that the item alone would have stored. Partial: two items for one variable, see below. -/
theorem C71_write_partial (c : Write.Caps) (limit : Nat) (s s' : Space)
    (items : List (Nat × Range.Val × Range.Text)) (evs : List (Event Space)) (rs : List (Option (Option Write.Status)))
    (hdis : ∀ (i j : Nat) (a b : Nat × Range.Val × Range.Text), i ≠ j → items[i]? = some a → items[j]? = some b →
      a.1 ≠ b.1)
    (hh : ∀ a ∈ items, (s a.1).historizing = false)
    (hoth : ∀ f, .other f ∈ evs → ∀ s, ∀ a ∈ items, f s a.1 = s a.1)
    (h : service limit s (items.map fun it => writeItem c it.1 it.2.1 it.2.2) evs = (s', some (.ok rs))) :
    rs.length = items.length ∧
      ∀ (i : Nat) (a : Nat × Range.Val × Range.Text), items[i]? = some a →
        rs[i]? = some (some ((Write.writeValue c (s a.1) a.2.1 a.2.2).map Prod.snd)) ∧
        s' a.1 = ((Write.writeValue c (s a.1) a.2.1 a.2.2).map Prod.fst).getD (s a.1) := by
  have hget : ∀ (i : Nat) p, (items.map fun it => writeItem c it.1 it.2.1 it.2.2)[i]? = some p →
      ∃ a, items[i]? = some a ∧ p = writeItem c a.1 a.2.1 a.2.2 := by
    intro i p hp
    rw [List.getElem?_map] at hp
    cases ha : items[i]? with
    | none => simp [ha] at hp
    | some a => rw [ha] at hp; exact ⟨a, rfl, by simpa using hp.symm⟩
  have key := C71_alone_partial limit s s' _ (fun i => (items[i]?.map Prod.fst).getD 0) evs rs
    (by
      intro i p hp
      obtain ⟨a, ha, rfl⟩ := hget i p hp
      simp only [ha, Option.map_some, Option.getD_some]
      exact writeItem_local _ _ _ _)
    (by
      intro i j p q hij hp hq hk
      obtain ⟨a, ha, rfl⟩ := hget i p hp
      obtain ⟨b, hb, rfl⟩ := hget j q hq
      simp only [ha, hb, Option.map_some, Option.getD_some] at hk
      exact absurd hk (hdis i j a b hij ha hb))
    (by
      intro f hf s1 i hi
      simp only [List.length_map] at hi
      have ha : items[i]? = some items[i] := by simp [hi]
      simp only [ha, Option.map_some, Option.getD_some]
      exact hoth f hf s1 _ (List.mem_of_getElem? ha)) h
  obtain ⟨hl, hr⟩ := key
  refine ⟨by simpa using hl, ?_⟩
  intro i a ha
  have hp : (items.map fun it => writeItem c it.1 it.2.1 it.2.2)[i]? = some (writeItem c a.1 a.2.1 a.2.2) := by
    rw [List.getElem?_map, ha]; rfl
  obtain ⟨h1, h2⟩ := hr i _ hp
  obtain ⟨k1, k2⟩ := writeItem_alone c a.1 a.2.1 a.2.2 s (hh a (List.mem_of_getElem? ha))
  simp only [ha, Option.map_some, Option.getD_some] at h2
  rw [k1] at h1
  rw [k2] at h2
  exact ⟨h1, h2⟩

abbrev exSpace : Space := fun _ => ⟨6, 1, .array 6 [10, 20], false, false⟩
abbrev exItems : List (Prog Space (Option Write.Status)) :=
  [writeItem ⟨8, 8, 8⟩ 1 (.array 6 [7]) "0".toList, writeItem ⟨8, 8, 8⟩ 2 (.array 6 [8]) "1".toList]

example : (service 10 exSpace exItems [.task 1, .task 0, .task 0, .task 1, .task 1, .task 0]).2
    = some (.ok [some (some .good), some (some .good)]) := by decide

/-- Two writes to different elements of one array in one batch: both are answered Good, and one of them is
lost. -/
theorem C71_lost_fails :
    let items := [writeItem ⟨8, 8, 8⟩ 1 (.array 6 [7]) "0".toList, writeItem ⟨8, 8, 8⟩ 1 (.array 6 [8]) "1".toList]
    let evs : List (Event Space) := [.task 0, .task 1, .task 0, .task 1, .task 0, .task 1]
    (service 10 exSpace items evs).2 = some (.ok [some (some .good), some (some .good)]) ∧
      ((service 10 exSpace items evs).1 1).value = .array 6 [10, 8] := by
  decide

end Opcua.Batch
