import Verif.Model.History
import Verif.Lemmas.Lists

/-! # C116: history is what clients saw -/

namespace Opcua.History

namespace Spec

/-- The values that should be recorded: those stored while Historizing was on, in order. -/
def historized (stores : List (Data × Bool)) : List Data := (stores.filter (·.2)).map (·.1)

/-- No writer has begun. -/
def fresh (v : Data) (historizing : Bool) : State := { value := v, historizing }

/-- The historian refuses nothing. -/
def Willing (evs : List Ev) : Prop := ∀ i, Ev.answer i false ∉ evs

/-- What a request should be answered, without asking the historian. -/
def fault {ρ : Type} (limit : Nat) (historian : Bool) (req : Req) : Option (Answer ρ) :=
  if ¬ (0 ≤ req.timestamps ∧ req.timestamps ≤ 2) then some .badInvalidTimestampArgument
  else if req.nodes = [] then some .badNothingToDo
  else if limit < req.nodes.length then some .badTooManyOperations
  else if historian = false then some .badHistoryOperationUnsupported
  else if req.details = .other then some .badHistoryOperationInvalid
  else none

/-- The method for each kind of details (Part 11, 6.4) and the details themselves. -/
def method : Details → Option (Kind × Nat)
  | .event d => some (.readEvent, d)
  | .raw d => some (.readRawModified, d)
  | .processed d => some (.readProcessed, d)
  | .atTime d => some (.readAtTime, d)
  | .other => none

end Spec
open Spec

/-! ## What holds at every moment -/

/-- Whether a phase holds the lock. -/
def holds : Phase → Bool
  | .holding _ _ => true
  | .recorded => true
  | _ => false

/-- What the lock means: nobody holds it and every value to record is recorded, or one writer does, and at most the
value it stored is still to be recorded. -/
def Inv (s : State) : Prop :=
  (∀ i, holds (s.writers i) = true ↔ s.lock = some i) ∧
  (∀ i v, s.writers i = .holding v true → ∃ st, s.stores = st ++ [(v, true)]) ∧
  (∀ v b, (v, b) ∈ s.stores.getLast? → s.value = v)

theorem put_same (f : Nat → Phase) (i : Nat) (p : Phase) : put f i p i = p := by simp [put]

theorem put_other (f : Nat → Phase) {i j : Nat} (p : Phase) (h : j ≠ i) : put f i p j = f j := by simp [put, h]

theorem inv_fresh (v : Data) (b : Bool) : Inv (fresh v b) := by
  refine ⟨fun i => by simp [fresh, holds], fun i v h => by simp [fresh] at h, fun v b h => by simp [fresh] at h⟩

/-- Changing the phase of a writer that neither holds the lock before nor after. -/
theorem inv_put {s : State} (h : Inv s) (i : Nat) (p : Phase) (h1 : holds (s.writers i) = false)
    (h2 : holds p = false) : Inv { s with writers := put s.writers i p } := by
  obtain ⟨ha, hb, hc⟩ := h
  refine ⟨fun j => ?_, fun j v hj => ?_, hc⟩
  · by_cases e : j = i
    · subst e
      simp only [put_same, h2]
      rw [← ha, h1]
    · simp only [put_other _ _ e]
      exact ha j
  · by_cases e : j = i
    · subst e
      simp only [put_same] at hj
      rw [hj] at h2
      cases h2
    · simp only [put_other _ _ e] at hj
      exact hb j v hj

theorem inv_step {s : State} (h : Inv s) (e : Ev) : Inv (step s e) := by
  cases e with
  | write i v =>
    simp only [step]
    split
    · next hi => exact inv_put h i _ (by rw [hi]; rfl) rfl
    · exact h
  | setValue i v =>
    simp only [step]
    split
    · next hi => exact inv_put h i _ (by rw [hi]; rfl) rfl
    · exact h
  | stamp i =>
    simp only [step]
    split
    · next v hi => exact inv_put h i _ (by rw [hi]; rfl) rfl
    · exact h
  | lock i =>
    simp only [step]
    split
    · next v hl hi =>
      obtain ⟨ha, hb, hc⟩ := h
      have none_holds : ∀ j, holds (s.writers j) = false := by
        intro j
        cases hj : holds (s.writers j)
        · rfl
        · rw [ha j, hl] at hj
          cases hj
      refine ⟨fun j => ?_, fun j w hj => ?_, fun w b hw => ?_⟩
      · by_cases e : j = i
        · subst e
          simp [put_same, holds]
        · have : ¬ i = j := fun x => e x.symm
          simp [put_other _ _ e, none_holds j, this]
      · by_cases e : j = i
        · subst e
          simp only [put_same, Phase.holding.injEq] at hj
          exact ⟨s.stores, by rw [hj.1, hj.2]⟩
        · simp only [put_other _ _ e] at hj
          have := none_holds j
          rw [hj] at this
          cases this
      · simp at hw
        exact hw.1
    · exact h
  | answer i ok =>
    simp only [step]
    split
    · next v hi =>
      obtain ⟨ha, hb, hc⟩ := h
      refine ⟨fun j => ?_, fun j w hj => ?_, hc⟩
      · by_cases e : j = i
        · subst e
          have := (ha j).mp (by rw [hi]; rfl)
          simp [put_same, holds, this]
        · simp only [put_other _ _ e]
          exact ha j
      · by_cases e : j = i
        · subst e
          simp [put_same] at hj
        · simp only [put_other _ _ e] at hj
          exact hb j w hj
    · exact h
  | unlock i =>
    have free : holds (s.writers i) = true →
        Inv { s with lock := none, writers := put s.writers i .finished } := by
      intro hi
      obtain ⟨ha, hb, hc⟩ := h
      have hl := (ha i).mp hi
      refine ⟨fun j => ?_, fun j w hj => ?_, hc⟩
      · by_cases e : j = i
        · subst e
          simp [put_same, holds]
        · have hj : holds (s.writers j) = false := by
            cases hj : holds (s.writers j)
            · rfl
            · rw [ha j, hl] at hj
              exact absurd (Option.some.inj hj).symm e
          simp [put_other _ _ e, hj]
      · by_cases e : j = i
        · subst e
          simp [put_same] at hj
        · simp only [put_other _ _ e] at hj
          exact hb j w hj
    simp only [step]
    split
    · next hi => exact free (by rw [hi]; rfl)
    · next hi => exact free (by rw [hi]; rfl)
    · exact h
  | read => simp only [step]; split <;> exact h
  | setHistorizing b =>
    simp only [step]
    split
    · exact h
    · exact h
  | tick => exact h

theorem run_append (s : State) (evs : List Ev) (e : Ev) : run s (evs ++ [e]) = step (run s evs) e := by
  simp [run, List.foldl_append]

theorem inv_run (v : Data) (b : Bool) (evs : List Ev) : Inv (run (fresh v b) evs) := by
  induction evs using snocInd with
  | nil => exact inv_fresh v b
  | append_singleton evs e ih => rw [run_append]; exact inv_step ih e

/-! ## The history of a willing historian -/

/-- What is recorded: everything to record, but for the value that is being recorded. -/
def Complete (s : State) : Prop :=
  ((∀ i v, s.writers i ≠ .holding v true) → s.log = historized s.stores) ∧
  (∀ i v, s.writers i = .holding v true →
    ∃ st, s.stores = st ++ [(v, true)] ∧ s.log = historized st)

theorem historized_snoc (st : List (Data × Bool)) (v : Data) (b : Bool) :
    historized (st ++ [(v, b)]) = historized st ++ (if b then [v] else []) := by
  cases b <;> simp [historized]

theorem complete_put {s : State} (h : Complete s) (i : Nat) (p : Phase)
    (h1 : holds (s.writers i) = false) (h2 : holds p = false) :
    Complete { s with writers := put s.writers i p } := by
  obtain ⟨ha, hb⟩ := h
  refine ⟨fun hn => ha fun j v hj => ?_, fun j v hj => ?_⟩
  · by_cases e : j = i
    · subst e
      rw [hj] at h1
      cases h1
    · exact hn j v (by simp only [put_other _ _ e]; exact hj)
  · by_cases e : j = i
    · subst e
      simp only [put_same] at hj
      rw [hj] at h2
      cases h2
    · simp only [put_other _ _ e] at hj
      exact hb j v hj

theorem complete_step {s : State} (hi : Inv s) (h : Complete s) (e : Ev) (he : ∀ i, e ≠ .answer i false) :
    Complete (step s e) := by
  cases e with
  | write i v =>
    simp only [step]
    split
    · next hw => exact complete_put h i _ (by rw [hw]; rfl) rfl
    · exact h
  | setValue i v =>
    simp only [step]
    split
    · next hw => exact complete_put h i _ (by rw [hw]; rfl) rfl
    · exact h
  | stamp i =>
    simp only [step]
    split
    · next v hw => exact complete_put h i _ (by rw [hw]; rfl) rfl
    · exact h
  | lock i =>
    simp only [step]
    split
    · next v hl hw =>
      have none_holds : ∀ j w, s.writers j ≠ .holding w true := by
        intro j w hj
        have := (hi.1 j).mp (by rw [hj]; rfl)
        rw [hl] at this
        cases this
      have hlog := h.1 none_holds
      refine ⟨fun hn => ?_, fun j w hj => ?_⟩
      · show s.log = historized (s.stores ++ [(v, s.historizing)])
        cases hb : s.historizing
        · rw [historized_snoc, hlog]; simp
        · exact absurd (show put s.writers i (.holding v s.historizing) i = .holding v true by
            rw [put_same, hb]) (hn i v)
      · by_cases e : j = i
        · subst e
          simp only [put_same, Phase.holding.injEq] at hj
          exact ⟨s.stores, by rw [hj.1, hj.2], hlog⟩
        · simp only [put_other _ _ e] at hj
          exact absurd hj (none_holds j w)
    · exact h
  | answer i ok =>
    cases ok with
    | false => exact absurd rfl (he i)
    | true =>
      simp only [step]
      split
      · next v hw =>
        obtain ⟨st, hst, hlog⟩ := h.2 i v hw
        have hl := (hi.1 i).mp (by rw [hw]; rfl)
        refine ⟨fun _ => ?_, fun j w hj => ?_⟩
        · show (if true = true then s.log ++ [v] else s.log) = historized s.stores
          rw [hst, historized_snoc, hlog]; simp
        · by_cases e : j = i
          · subst e
            simp [put_same] at hj
          · simp only [put_other _ _ e] at hj
            have := (hi.1 j).mp (by rw [hj]; rfl)
            rw [hl] at this
            exact absurd (Option.some.inj this).symm e
      · exact h
  | unlock i =>
    have free : (∀ v, s.writers i ≠ .holding v true) →
        Complete { s with lock := none, writers := put s.writers i .finished } := by
      intro hw
      refine ⟨fun hn => h.1 fun j v hj => ?_, fun j v hj => ?_⟩
      · by_cases e : j = i
        · subst e
          exact hw v hj
        · exact hn j v (by simp only [put_other _ _ e]; exact hj)
      · by_cases e : j = i
        · subst e
          simp [put_same] at hj
        · simp only [put_other _ _ e] at hj
          exact h.2 j v hj
    simp only [step]
    split
    · next hw => exact free fun v => by rw [hw]; simp
    · next hw => exact free fun v => by rw [hw]; simp
    · exact h
  | read => simp only [step]; split <;> exact h
  | setHistorizing b =>
    simp only [step]
    split
    · exact h
    · exact h
  | tick => exact h

theorem complete_run (v : Data) (b : Bool) (evs : List Ev) (hw : Willing evs) :
    Complete (run (fresh v b) evs) := by
  induction evs using snocInd with
  | nil => exact ⟨fun _ => rfl, fun i v h => by simp [run, fresh] at h⟩
  | append_singleton evs e ih =>
    rw [run_append]
    refine complete_step (inv_run v b evs) (ih fun i hi => hw i (by simp [hi])) e fun i he => ?_
    subst he
    exact hw i (by simp)

/-- With a historian that takes every value, the history is at every moment exactly the values that were stored
while Historizing was on, in the order in which they were stored, but for the one that is just being stored, which
no client can see yet. -/
theorem C116_recorded (v : Data) (b : Bool) (evs : List Ev) (hw : Willing evs) :
    let s := run (fresh v b) evs
    s.log = historized s.stores ∨
      (∃ st w, s.stores = st ++ [(w, true)] ∧ s.log = historized st ∧ s.lock ≠ none) := by
  have hc := complete_run v b evs hw
  have hi := inv_run v b evs
  by_cases h : ∀ i w, (run (fresh v b) evs).writers i ≠ .holding w true
  · exact Or.inl (hc.1 h)
  · simp only [Classical.not_forall, Classical.not_not] at h
    obtain ⟨i, w, hw'⟩ := h
    obtain ⟨st, h1, h2⟩ := hc.2 i w hw'
    refine Or.inr ⟨st, w, h1, h2, ?_⟩
    rw [(hi.1 i).mp (by rw [hw']; rfl)]
    simp

/-- The log only grows. -/
theorem log_grows (s : State) (e : Ev) : ∃ l, (step s e).log = s.log ++ l := by
  have refl : ∃ l, s.log = s.log ++ l := ⟨[], by simp⟩
  cases e with
  | write i v => simp only [step]; split <;> exact refl
  | setValue i v => simp only [step]; split <;> exact refl
  | stamp i => simp only [step]; split <;> exact refl
  | lock i => simp only [step]; split <;> exact refl
  | answer i ok =>
    simp only [step]
    split
    · next v hw =>
      cases ok
      · exact ⟨[], by simp⟩
      · exact ⟨[v], by simp⟩
    · exact refl
  | unlock i => simp only [step]; split <;> exact refl
  | read => simp only [step]; split <;> exact refl
  | setHistorizing b => simp only [step]; split <;> exact refl
  | tick => exact refl

/-- Until something is stored the value is the first one. -/
theorem first_value (v : Data) (b : Bool) (evs : List Ev) :
    (run (fresh v b) evs).stores = [] → (run (fresh v b) evs).value = v := by
  induction evs using snocInd with
  | nil => intro _; rfl
  | append_singleton evs e ih =>
    rw [run_append]
    intro h
    have keep : (step (run (fresh v b) evs) e).stores = (run (fresh v b) evs).stores ∧
        (step (run (fresh v b) evs) e).value = (run (fresh v b) evs).value ∨
        (step (run (fresh v b) evs) e).stores ≠ [] := by
      generalize run (fresh v b) evs = s
      cases e with
      | lock i =>
        simp only [step]
        split
        · exact Or.inr (by simp)
        · exact Or.inl ⟨rfl, rfl⟩
      | tick => exact Or.inl ⟨rfl, rfl⟩
      | _ => simp only [step]; split <;> exact Or.inl ⟨rfl, rfl⟩
    rcases keep with ⟨h1, h2⟩ | h1
    · rw [h2]
      exact ih (by rw [← h1]; exact h)
    · exact absurd h h1

theorem handler_step (s : State) (e : Ev) : (step s e).handler = s.handler := by
  cases e with
  | tick => rfl
  | _ => simp only [step]; split <;> rfl

theorem handler_run (s : State) (evs : List Ev) : (run s evs).handler = s.handler := by
  induction evs using snocInd with
  | nil => rfl
  | append_singleton evs e ih => rw [run_append, handler_step, ih]

/-- Only a read adds to what was seen, and then what is there, while nobody holds the lock. -/
theorem seen_step (s : State) (hh : s.handler = none) (e : Ev) :
    (step s e).seen = s.seen ∨ (s.lock = none ∧ (step s e).seen = s.seen ++ [(s.value, s.log, s.stores)]) := by
  cases e with
  | write i v => simp only [step]; split <;> exact Or.inl rfl
  | setValue i v => simp only [step]; split <;> exact Or.inl rfl
  | stamp i => simp only [step]; split <;> exact Or.inl rfl
  | lock i => simp only [step]; split <;> exact Or.inl rfl
  | answer i ok => simp only [step]; split <;> exact Or.inl rfl
  | unlock i => simp only [step]; split <;> exact Or.inl rfl
  | read =>
    simp only [step]
    split
    · next f hf =>
      rw [hh] at hf
      cases hf
    · next hl => exact Or.inr ⟨hl, rfl⟩
    · exact Or.inl rfl
  | setHistorizing b => simp only [step]; split <;> exact Or.inl rfl
  | tick => exact Or.inl rfl

/-- A value that a client read, if it was stored while Historizing was on, was already in the history when the
client read it, as the last entry; it stays there. -/
theorem C116_seen (v : Data) (b : Bool) (evs : List Ev) (hw : Willing evs) :
    let s := run (fresh v b) evs
    ∀ x l st, (x, l, st) ∈ s.seen →
      (∀ y h, st.getLast? = some (y, h) → x = y ∧ (h = true → l.getLast? = some x)) ∧
      (st = [] → x = v) ∧ l = historized st ∧ ∃ more, s.log = l ++ more := by
  induction evs using snocInd with
  | nil => simp [run, fresh]
  | append_singleton evs e ih =>
    intro s x l st hx
    have hw' : Willing evs := fun i hi => hw i (by simp [hi])
    have hs : s = step (run (fresh v b) evs) e := run_append _ _ _
    obtain ⟨more, hm⟩ := log_grows (run (fresh v b) evs) e
    rcases seen_step (run (fresh v b) evs) (handler_run _ _) e with h | ⟨hl, h⟩
    · rw [hs, h] at hx
      obtain ⟨h1, h2, h3, m, h4⟩ := ih hw' x l st hx
      exact ⟨h1, h2, h3, m ++ more, by rw [hs, hm, h4, List.append_assoc]⟩
    · rw [hs, h, List.mem_append, List.mem_singleton] at hx
      rcases hx with hx | hx
      · obtain ⟨h1, h2, h3, m, h4⟩ := ih hw' x l st hx
        exact ⟨h1, h2, h3, m ++ more, by rw [hs, hm, h4, List.append_assoc]⟩
      · simp only [Prod.mk.injEq] at hx
        obtain ⟨rfl, rfl, rfl⟩ := hx
        have hi := inv_run v b evs
        have hlog : (run (fresh v b) evs).log = historized (run (fresh v b) evs).stores := by
          refine (complete_run v b evs hw').1 fun i w hh => ?_
          have := (hi.1 i).mp (by rw [hh]; rfl)
          rw [hl] at this
          cases this
        refine ⟨fun y h hy => ?_, fun he => ?_, hlog, more, by rw [hs, hm]⟩
        · have hv : (run (fresh v b) evs).value = y := hi.2.2 y h hy
          refine ⟨hv, fun ht => ?_⟩
          subst ht
          obtain ⟨pre, hp⟩ : ∃ pre, (run (fresh v b) evs).stores = pre ++ [(y, true)] :=
            List.getLast?_eq_some_iff.mp hy
          rw [hlog, hp, historized_snoc, hv]
          simp
        · exact first_value v b evs he

/-- What is in the history was stored while Historizing was on, in that order, and nothing twice, even if the
historian refuses values. -/
theorem C116_genuine (v : Data) (b : Bool) (evs : List Ev) :
    (run (fresh v b) evs).log.Sublist (historized (run (fresh v b) evs).stores) := by
  have key : let s := run (fresh v b) evs
      (∀ i w, s.writers i = .holding w true → ∃ st, s.stores = st ++ [(w, true)] ∧
        s.log.Sublist (historized st)) ∧ s.log.Sublist (historized s.stores) := by
    induction evs using snocInd with
    | nil => exact ⟨fun i w h => by simp [run, fresh] at h, List.Sublist.refl _⟩
    | append_singleton evs e ih =>
      have hi := inv_run v b evs
      have hi' := inv_run v b (evs ++ [e])
      rw [run_append] at hi' ⊢
      generalize run (fresh v b) evs = s at ih hi hi'
      obtain ⟨ih1, ih2⟩ := ih
      cases e with
      | lock i =>
        simp only [step] at hi' ⊢
        split
        · next w hl hw =>
          have grow : s.log.Sublist (historized (s.stores ++ [(w, s.historizing)])) := by
            rw [historized_snoc]
            exact ih2.trans (List.sublist_append_left _ _)
          refine ⟨fun j x hj => ?_, grow⟩
          by_cases e : j = i
          · subst e
            simp only [put_same, Phase.holding.injEq] at hj
            exact ⟨s.stores, by rw [hj.1, hj.2], ih2⟩
          · simp only [put_other _ _ e] at hj
            have := (hi.1 j).mp (by rw [hj]; rfl)
            rw [hl] at this
            cases this
        · exact ⟨ih1, ih2⟩
      | answer i ok =>
        simp only [step]
        split
        · next w hw =>
          obtain ⟨st, hst, hsub⟩ := ih1 i w hw
          have hl := (hi.1 i).mp (by rw [hw]; rfl)
          refine ⟨fun j x hj => ?_, ?_⟩
          · by_cases e : j = i
            · subst e
              simp [put_same] at hj
            · simp only [put_other _ _ e] at hj
              have := (hi.1 j).mp (by rw [hj]; rfl)
              rw [hl] at this
              exact absurd (Option.some.inj this).symm e
          · show (if ok = true then s.log ++ [w] else s.log).Sublist (historized s.stores)
            cases ok
            · exact ih2
            · rw [hst, historized_snoc]
              exact hsub.append (List.Sublist.refl _)
        · exact ⟨ih1, ih2⟩
      | unlock i =>
        have free : (∀ j w, put s.writers i .finished j = .holding w true → ∃ st, s.stores = st ++ [(w, true)] ∧
            s.log.Sublist (historized st)) := by
          intro j w hj
          by_cases e : j = i
          · subst e
            simp [put_same] at hj
          · simp only [put_other _ _ e] at hj
            exact ih1 j w hj
        simp only [step]
        split
        · exact ⟨free, ih2⟩
        · exact ⟨free, ih2⟩
        · exact ⟨ih1, ih2⟩
      | write i x =>
        simp only [step]
        split
        · refine ⟨fun j w hj => ?_, ih2⟩
          by_cases e : j = i
          · subst e
            simp [put_same] at hj
          · simp only [put_other _ _ e] at hj
            exact ih1 j w hj
        · exact ⟨ih1, ih2⟩
      | setValue i x =>
        simp only [step]
        split
        · refine ⟨fun j w hj => ?_, ih2⟩
          by_cases e : j = i
          · subst e
            simp [put_same] at hj
          · simp only [put_other _ _ e] at hj
            exact ih1 j w hj
        · exact ⟨ih1, ih2⟩
      | stamp i =>
        simp only [step]
        split
        · refine ⟨fun j w hj => ?_, ih2⟩
          by_cases e : j = i
          · subst e
            simp [put_same] at hj
          · simp only [put_other _ _ e] at hj
            exact ih1 j w hj
        · exact ⟨ih1, ih2⟩
      | read => simp only [step]; split <;> exact ⟨ih1, ih2⟩
      | setHistorizing c => simp only [step]; split <;> exact ⟨ih1, ih2⟩
      | tick => exact ⟨ih1, ih2⟩
  exact key.2

/-! ## What goes wrong -/

/-- Two clients write; the first takes its time earlier and stores later. -/
def crossing : List Ev :=
  [.write 1 { value := 10, time := 700 }, .write 2 { value := 20, time := 700 }, .stamp 1, .tick, .stamp 2, .lock 2,
   .answer 2 true, .unlock 2, .lock 1, .answer 1 true, .unlock 1, .read]

/-- The times of the history can run backwards, and the current value be older than one in the history: the time is
taken before the lock. -/
theorem C116_order_fails : ∃ evs, Willing evs ∧
    let s := run (fresh { value := 0 } true) evs
    ¬ s.log.Pairwise (fun a b => a.time ≤ b.time) ∧ ∃ x ∈ s.log, s.value.time < x.time := by
  refine ⟨crossing, ?_, ?_, ⟨20, 0, 1⟩, ?_, ?_⟩
  · intro i
    simp [crossing]
  · decide
  · decide
  · decide

/-- With one writer at a time the times never run backwards: whenever nobody is between taking the time and
storing, the next value is not older. -/
theorem C116_order_partial (v : Data) (b : Bool) (evs : List Ev)
    (h0 : ∀ i x, Ev.setValue i x ∉ evs)
    (h1 : ∀ pre i post, evs = pre ++ Ev.stamp i :: post → ∀ j x, (run (fresh v b) pre).writers j ≠ .calling x) :
    ((run (fresh v b) evs).stores.map (·.1)).Pairwise (fun a b => a.time ≤ b.time) := by
  have key : let s := run (fresh v b) evs
      (∀ a ∈ s.stores, a.1.time ≤ s.clock) ∧
      (∀ j x, s.writers j = .calling x → x.time ≤ s.clock ∧ (∀ a ∈ s.stores, a.1.time ≤ x.time)) ∧
      (∀ j k x y, s.writers j = .calling x → s.writers k = .calling y → j = k) ∧
      (s.stores.map (·.1)).Pairwise (fun a b => a.time ≤ b.time) := by
    induction evs using snocInd with
    | nil => simp [run, fresh]
    | append_singleton evs e ih =>
      have ih := ih (fun i x hx => h0 i x (by simp [hx])) (fun pre i post hp j x =>
        h1 pre i (post ++ [e]) (by rw [hp]; simp) j x)
      rw [run_append]
      have hq : ∀ i, e = .stamp i → ∀ j x, (run (fresh v b) evs).writers j ≠ .calling x := by
        intro i he
        exact h1 evs i [] (by rw [he])
      have hset : ∀ i x, e ≠ .setValue i x := fun i x he => h0 i x (by simp [he])
      generalize run (fresh v b) evs = s at ih hq
      obtain ⟨ha, hb, hc, hd⟩ := ih
      cases e with
      | setValue i x => exact absurd rfl (hset i x)
      | write i x =>
        simp only [step]
        split
        · refine ⟨ha, fun j y hj => ?_, fun j k y z hj hk => ?_, hd⟩
          · by_cases e : j = i
            · subst e
              simp [put_same] at hj
            · simp only [put_other _ _ e] at hj
              exact hb j y hj
          · by_cases e : j = i
            · subst e
              simp [put_same] at hj
            · by_cases e' : k = i
              · subst e'
                simp [put_same] at hk
              · simp only [put_other _ _ e] at hj
                simp only [put_other _ _ e'] at hk
                exact hc j k y z hj hk
        · exact ⟨ha, hb, hc, hd⟩
      | stamp i =>
        have none_calls := hq i rfl
        simp only [step]
        split
        · next w hw =>
          refine ⟨ha, fun j y hj => ?_, fun j k y z hj hk => ?_, hd⟩
          · by_cases e : j = i
            · subst e
              simp only [put_same, Phase.calling.injEq] at hj
              subst hj
              exact ⟨Nat.le_refl _, ha⟩
            · simp only [put_other _ _ e] at hj
              exact absurd hj (none_calls j y)
          · by_cases e : j = i
            · by_cases e' : k = i
              · rw [e, e']
              · simp only [put_other _ _ e'] at hk
                exact absurd hk (none_calls k z)
            · simp only [put_other _ _ e] at hj
              exact absurd hj (none_calls j y)
        · exact ⟨ha, hb, hc, hd⟩
      | lock i =>
        simp only [step]
        split
        · next w hl hw =>
          obtain ⟨hw1, hw2⟩ := hb i w hw
          refine ⟨?_, fun j y hj => ?_, fun j k y z hj hk => ?_, ?_⟩
          · intro a hm
            simp only [List.mem_append, List.mem_singleton] at hm
            rcases hm with hm | rfl
            · exact ha a hm
            · exact hw1
          · by_cases e : j = i
            · subst e
              simp [put_same] at hj
            · simp only [put_other _ _ e] at hj
              exact absurd (hc j i y w hj hw) e
          · by_cases e : j = i
            · subst e
              simp [put_same] at hj
            · simp only [put_other _ _ e] at hj
              exact absurd (hc j i y w hj hw) e
          · simp only [List.map_append, List.map_cons, List.map_nil]
            rw [List.pairwise_append]
            refine ⟨hd, by simp, fun a hm c hc' => ?_⟩
            simp only [List.mem_singleton] at hc'
            subst hc'
            obtain ⟨p, hp, rfl⟩ := List.mem_map.mp hm
            exact hw2 p hp
        · exact ⟨ha, hb, hc, hd⟩
      | answer i ok =>
        simp only [step]
        split
        · refine ⟨ha, fun j y hj => ?_, fun j k y z hj hk => ?_, hd⟩
          · by_cases e : j = i
            · subst e
              simp [put_same] at hj
            · simp only [put_other _ _ e] at hj
              exact hb j y hj
          · by_cases e : j = i
            · subst e
              simp [put_same] at hj
            · by_cases e' : k = i
              · subst e'
                simp [put_same] at hk
              · simp only [put_other _ _ e] at hj
                simp only [put_other _ _ e'] at hk
                exact hc j k y z hj hk
        · exact ⟨ha, hb, hc, hd⟩
      | unlock i =>
        have hb' : ∀ j y, put s.writers i .finished j = .calling y →
            y.time ≤ s.clock ∧ ∀ a ∈ s.stores, a.1.time ≤ y.time := by
          intro j y hj
          by_cases e : j = i
          · subst e
            simp [put_same] at hj
          · simp only [put_other _ _ e] at hj
            exact hb j y hj
        have hc' : ∀ j k y z, put s.writers i .finished j = .calling y →
            put s.writers i .finished k = .calling z → j = k := by
          intro j k y z hj hk
          by_cases e : j = i
          · subst e
            simp [put_same] at hj
          · by_cases e' : k = i
            · subst e'
              simp [put_same] at hk
            · simp only [put_other _ _ e] at hj
              simp only [put_other _ _ e'] at hk
              exact hc j k y z hj hk
        simp only [step]
        split
        · exact ⟨ha, hb', hc', hd⟩
        · exact ⟨ha, hb', hc', hd⟩
        · exact ⟨ha, hb, hc, hd⟩
      | read => simp only [step]; split <;> exact ⟨ha, hb, hc, hd⟩
      | setHistorizing c => simp only [step]; split <;> exact ⟨ha, hb, hc, hd⟩
      | tick =>
        exact ⟨fun a hm => Nat.le_succ_of_le (ha a hm), fun j x hj => ⟨Nat.le_succ_of_le (hb j x hj).1, (hb j x hj).2⟩,
          hc, hd⟩
  exact key.2.2.2

/-- The historian refuses a value; the client is told Good, and the value is current but not in the history. -/
theorem C116_error_fails : ∃ evs,
    let s := run (fresh { value := 0 } true) evs
    s.writers 1 = .finished ∧ s.historizing = true ∧ s.lock = none ∧ s.value ∉ s.log := by
  refine ⟨[.write 1 { value := 10 }, .stamp 1, .lock 1, .answer 1 false, .unlock 1], ?_⟩
  decide

/-- Whatever source timestamp a client writes, the value gets the time of the server, without the client being
told. -/
theorem C116_source_time_fails (v w : Data) (b : Bool) :
    let s := run (fresh v b) [.write 1 w, .stamp 1, .lock 1, .answer 1 true, .unlock 1, .read]
    s.writers 1 = .finished ∧ s.value = { value := w.value, status := w.status, time := 0 } := by
  cases b <;> simp [run, step, fresh, put, stamped]

/-- While the historian stores a value nobody reads the variable, not even the old value, and nobody else writes
it. -/
theorem C116_blocked_fails (v w : Data) (b : Bool) (evs more : List Ev) (i : Nat)
    (h : (run (fresh v b) evs).writers i = .holding w true) (hm : ∀ ok, Ev.answer i ok ∉ more) :
    let s := run (fresh v b) evs
    let t := run s more
    t.seen = s.seen ∧ t.value = s.value ∧ t.log = s.log ∧ t.writers i = .holding w true := by
  have key : let s := run (fresh v b) evs
      let t := run s more
      t.seen = s.seen ∧ t.value = s.value ∧ t.log = s.log ∧ t.writers i = .holding w true ∧ Inv t := by
    induction more using snocInd with
    | nil => exact ⟨rfl, rfl, rfl, h, inv_run v b evs⟩
    | append_singleton more e ih =>
      obtain ⟨h1, h2, h3, h4, h5⟩ := ih fun ok ho => hm ok (by simp [ho])
      have he : ∀ ok, e ≠ .answer i ok := fun ok ho => hm ok (by simp [ho])
      simp only [run_append]
      have hinv := inv_step h5 e
      have hl := (h5.1 i).mp (by rw [h4]; rfl)
      have hh : (run (run (fresh v b) evs) more).handler = none := by rw [handler_run, handler_run]; rfl
      generalize run (run (fresh v b) evs) more = t at *
      refine ⟨?_, ?_, ?_, ?_, hinv⟩
      · rcases seen_step t hh e with h | ⟨hn, _⟩
        · rw [h, h1]
        · rw [hl] at hn
          cases hn
      · rw [← h2]
        cases e with
        | lock j => simp [step, hl]
        | tick => rfl
        | _ => simp only [step]; split <;> rfl
      · rw [← h3]
        cases e with
        | answer j ok =>
          have hj : j ≠ i := fun x => he ok (by rw [x])
          simp only [step]
          split
          · next x hx =>
            have := (h5.1 j).mp (by rw [hx]; rfl)
            rw [hl] at this
            exact absurd (Option.some.inj this).symm hj
          · rfl
        | tick => rfl
        | _ => simp only [step]; split <;> rfl
      · have other : ∀ j p, t.writers j ≠ .holding w true → put t.writers j p i = .holding w true := by
          intro j p hj
          have : i ≠ j := fun x => hj (by rw [← x]; exact h4)
          rw [put_other _ _ this]
          exact h4
        cases e with
        | write j x =>
          simp only [step]
          split
          · next hx => exact other j _ (by rw [hx]; simp)
          · exact h4
        | setValue j x =>
          simp only [step]
          split
          · next hx => exact other j _ (by rw [hx]; simp)
          · exact h4
        | stamp j =>
          simp only [step]
          split
          · next hx => exact other j _ (by rw [hx]; simp)
          · exact h4
        | lock j => simp [step, hl, h4]
        | answer j ok =>
          have hj : i ≠ j := fun x => he ok (by rw [x])
          simp only [step]
          split
          · simp only [put_other _ _ hj]
            exact h4
          · exact h4
        | unlock j =>
          simp only [step]
          split
          · next hx => exact other j _ (by rw [hx]; simp)
          · next hx => exact other j _ (by rw [hx]; simp)
          · exact h4
        | read => simp only [step]; split <;> exact h4
        | setHistorizing c => simp only [step]; split <;> exact h4
        | tick => exact h4
  exact ⟨key.1, key.2.1, key.2.2.1, key.2.2.2.1⟩

/-- A historian that reads the variable before it answers never answers: nothing moves any more. -/
theorem C116_deadlock_fails (v w : Data) (b : Bool) (evs more : List Ev) (i : Nat)
    (h : (run (fresh v b) evs).writers i = .holding w true)
    (hm : ∀ pre ok post, more = pre ++ Ev.answer i ok :: post →
      (run (run (fresh v b) evs) pre).seen ≠ (run (fresh v b) evs).seen) :
    (run (run (fresh v b) evs) more).writers i = .holding w true := by
  have none_answers : ∀ ok, Ev.answer i ok ∉ more := by
    have first : ∀ (l : List Ev) (ok : Bool), Ev.answer i ok ∈ l →
        ∃ pre ok' post, l = pre ++ Ev.answer i ok' :: post ∧ ∀ o, Ev.answer i o ∉ pre := by
      intro l
      induction l with
      | nil => intro ok h; cases h
      | cons e l ih =>
        intro ok hmem
        by_cases he : ∃ o, e = .answer i o
        · obtain ⟨o, rfl⟩ := he
          exact ⟨[], o, l, rfl, by simp⟩
        · rcases List.mem_cons.mp hmem with hx | hx
          · exact absurd ⟨ok, hx.symm⟩ he
          · obtain ⟨pre, o, post, h1, h2⟩ := ih ok hx
            refine ⟨e :: pre, o, post, by rw [h1]; rfl, fun o' ho => ?_⟩
            rcases List.mem_cons.mp ho with hy | hy
            · exact he ⟨o', hy.symm⟩
            · exact h2 o' hy
    intro ok hmem
    obtain ⟨pre, o, post, h1, h2⟩ := first more ok hmem
    exact hm pre o post h1 (C116_blocked_fails v w b evs pre i h h2).1
  exact (C116_blocked_fails v w b evs more i h none_answers).2.2.2

/-- A variable whose value comes from a handler: clients see every value of the handler, and Historizing may be on,
but nothing is ever recorded. -/
theorem C116_handler_fails (v : Data) (b : Bool) (f : Nat → Data) (evs : List Ev)
    (hw : ∀ i x, Ev.write i x ∉ evs ∧ Ev.setValue i x ∉ evs) :
    let s := run { fresh v b with handler := some f } evs
    s.log = [] ∧ s.seen.length = evs.count .read := by
  have key : let s := run { fresh v b with handler := some f } evs
      (∀ i, s.writers i = .idle) ∧ s.log = [] ∧ s.seen.length = evs.count .read := by
    induction evs using snocInd with
    | nil => exact ⟨fun _ => rfl, rfl, rfl⟩
    | append_singleton evs e ih =>
      obtain ⟨h1, h2, h3⟩ := ih fun i x => ⟨fun h => (hw i x).1 (by simp [h]), fun h => (hw i x).2 (by simp [h])⟩
      have hh : (run { fresh v b with handler := some f } evs).handler = some f := handler_run _ _
      simp only [run_append, List.count_append]
      generalize run { fresh v b with handler := some f } evs = s at *
      cases e with
      | write i x => exact absurd (by simp) (hw i x).1
      | setValue i x => exact absurd (by simp) (hw i x).2
      | stamp i => simp [step, h1, h2, h3]
      | lock i => simp [step, h1, h2, h3]
      | answer i ok => simp [step, h1, h2, h3]
      | unlock i => simp [step, h1, h2, h3]
      | read => simp [step, hh, h1, h2, h3]
      | setHistorizing c =>
        simp only [step]
        split <;> simp [h1, h2, h3]
      | tick => simp [step, h1, h2, h3]
  exact ⟨key.2.1, key.2.2⟩

/-! ## Reading history -/

/-- A request for history is answered with one of the faults of the standard, and then the historian is not asked,
or the method of its kind is asked once, with the nodes, the details, the timestamps and the release flag of the
request, and what it returns is the answer. -/
theorem C116_dispatch {ρ : Type} (limit : Nat) (h : Option (Call → ρ)) (req : Req) :
    (∀ f, fault limit h.isSome req = some f → historyRead limit h req = ([], f)) ∧
    (fault (ρ := ρ) limit h.isSome req = none → ∃ g k d, h = some g ∧ method req.details = some (k, d) ∧
      historyRead limit h req =
        ([⟨k, req.nodes, d, req.timestamps, req.release⟩],
          .response (g ⟨k, req.nodes, d, req.timestamps, req.release⟩))) := by
  obtain ⟨ts, nodes, details, release⟩ := req
  by_cases h1 : ts < 0 ∨ ts > 2
  · have : ¬ (0 ≤ ts ∧ ts ≤ 2) := by omega
    simp [fault, historyRead, h1, this]
  · have h1' : 0 ≤ ts ∧ ts ≤ 2 := by omega
    cases nodes with
    | nil => simp [fault, historyRead, h1, h1']
    | cons n ns =>
      by_cases h2 : limit < ns.length + 1
      · simp [fault, historyRead, h1, h1', h2]
      · cases h with
        | none => simp [fault, historyRead, h1, h1', h2]
        | some g =>
          cases details <;> simp [fault, historyRead, h1, h1', h2, method] <;> exact ⟨_, _, ⟨rfl, rfl⟩, rfl⟩

/-! ## Examples -/

/-- A client and the application write, a reader in between, Historizing is switched off for a while. -/
def day : List Ev :=
  [.read, .write 1 { value := 10 }, .tick, .stamp 1, .lock 1, .read, .answer 1 true, .unlock 1, .read,
   .setHistorizing false, .setValue 2 { value := 20, time := 5 }, .lock 2, .unlock 2, .read, .setHistorizing true,
   .setValue 3 { value := 30, time := 6 }, .lock 3, .answer 3 true, .unlock 3, .read]

example : Willing day := by intro i; simp [day]
example : (run (fresh { value := 1 } true) day).log = [⟨10, 0, 1⟩, ⟨30, 0, 6⟩] := by decide
example : (run (fresh { value := 1 } true) day).seen.map (fun x => x.1.value) = [1, 10, 20, 30] := by decide
example : (run (fresh { value := 1 } true) (day.take 5)).writers 1 = .holding ⟨10, 0, 1⟩ true := by decide
example : historyRead (ρ := Nat) 10 (some fun c => c.nodes.length) ⟨2, [5, 6], .raw 3, false⟩ =
    ([⟨.readRawModified, [5, 6], 3, 2, false⟩], .response 2) := by decide
example : historyRead (ρ := Nat) 10 none ⟨3, [5, 6], .raw 3, false⟩ = ([], .badInvalidTimestampArgument) := by decide

end Opcua.History
