import Verif.Model.Locks
import Verif.Lemmas.Lists

/-!
# C83: nobody waits for ever
-/

namespace Opcua.Locks

theorem run_append (s : State) (a b : List Nat) : run s (a ++ b) = run (run s a) b := by simp [run]

/-! ### Specification -/

/-- Goroutine `t` has finished. -/
def Done (s : State) (t : Nat) : Prop := s.prog t = []

/-- Goroutine `t` will never finish, whatever the others do. -/
def Stuck (s : State) (t : Nat) : Prop := ∀ schedule, ¬ Done (run s schedule) t

/-! ### Without the check for expired subscriptions -/

/-- Programs that hold at most one subscription, take the lock of the table last and do not wait for a
queue while they hold it. -/
def ok : Option Nat → Bool → List Instr → Prop
  | h, b, [] => h = none ∧ b = false
  | h, b, .acquire .table :: p => b = false ∧ ok h true p
  | h, b, .acquire (.sub i) :: p => h = none ∧ b = false ∧ ok (some i) false p
  | h, b, .release .table :: p => b = true ∧ ok h false p
  | h, b, .release (.sub i) :: p => h = some i ∧ b = false ∧ ok none false p
  | h, b, .send _ :: p => b = false ∧ ok h b p
  | h, b, .recv _ :: p => ok h b p

theorem ok_append {p q : List Instr} : ∀ {h b}, ok h b p → ok none false q → ok h b (p ++ q) := by
  induction p with
  | nil =>
    intro h b hp hq
    obtain ⟨rfl, rfl⟩ := hp
    exact hq
  | cons i p ih =>
    intro h b hp hq
    cases i with
    | acquire l => cases l with
      | table => exact ⟨hp.1, ih hp.2 hq⟩
      | sub i => exact ⟨hp.1, hp.2.1, ih hp.2.2 hq⟩
    | release l => cases l with
      | table => exact ⟨hp.1, ih hp.2 hq⟩
      | sub i => exact ⟨hp.1, hp.2.1, ih hp.2.2 hq⟩
    | send j => exact ⟨hp.1, ih hp.2 hq⟩
    | recv j => exact ih (h := h) (b := b) hp hq

theorem ok_flatMap {α : Type} (f : α → List Instr) (hf : ∀ a, ok none false (f a)) (as : List α) :
    ok none false (as.flatMap f) := by
  induction as with
  | nil => exact ⟨rfl, rfl⟩
  | cons a as ih => rw [List.flatMap_cons]; exact ok_append (hf a) ih

theorem ok_onTable : ok none false onTable := ⟨rfl, rfl, rfl, rfl⟩
theorem ok_onSub (i : Nat) : ok none false (onSub i) := ⟨rfl, rfl, rfl, rfl, rfl, rfl⟩

theorem ok_task (k : Task) : ok none false k.instrs := by
  cases k with
  | create => exact ok_onTable
  | use i => exact ok_append ok_onTable (ok_onSub i)
  | delete i => exact ok_append (ok_append ok_onTable ok_onTable) (ok_onSub i)
  | publish j acks subs =>
    refine ok_append (ok_append (ok_append (ok_append ?_ ?_) ok_onTable) ok_onTable) (ok_flatMap _ ok_onSub _)
    · exact ok_flatMap _ (fun i => ok_append ok_onTable (ok_onSub i)) _
    · exact ⟨rfl, rfl⟩
  | cycle i => exact ok_onSub i
  | expiry j i => exact ⟨rfl, rfl, rfl, rfl, rfl, rfl, rfl, rfl, rfl⟩

/-- What is true of every goroutine at any time. -/
structure Inv (s : State) : Prop where
  thread : ∀ t, ∃ h b, ok h b (s.prog t) ∧ (∀ i, s.held (.sub i) = some t ↔ h = some i)
    ∧ (s.held .table = some t ↔ b = true)

theorem inv_step (s : State) (t : Nat) (hs : Inv s) : Inv (step s t) := by
  unfold step
  split
  · exact hs
  · next l p hp =>
    split
    · next hl =>
      constructor
      intro u
      obtain ⟨h, b, h1, h2, h3⟩ := hs.thread u
      by_cases hu : u = t
      · subst hu
        rw [hp] at h1
        cases l with
        | table =>
          refine ⟨h, true, ?_, ?_, ?_⟩
          · simpa [set] using h1.2
          · intro i; simpa [set] using h2 i
          · simp [set]
        | sub i =>
          refine ⟨some i, false, ?_, ?_, ?_⟩
          · simpa [set] using h1.2.2
          · intro k
            have := h2 k
            rw [h1.1] at this
            by_cases hk : k = i
            · simp [set, hk]
            · simp [set, hk, this]; intro e; exact hk e.symm
          · rw [h1.2.1] at h3; simpa [set] using h3
      · have hut : ¬ t = u := fun e => hu e.symm
        refine ⟨h, b, ?_, ?_, ?_⟩
        · simpa [set, hu] using h1
        · intro i
          have := h2 i
          by_cases hl' : Lock.sub i = l
          · rw [hl'] at this; rw [hl] at this; simp [set, hl', hut]; simpa using this
          · simp [set, hl', this]
        · by_cases hl' : Lock.table = l
          · rw [hl', hl] at h3; simp [set, hl', hut]; simpa using h3
          · simp [set, hl', h3]
    · exact hs
  · next l p hp =>
    obtain ⟨ht, bt, ht1, ht2, ht3⟩ := hs.thread t
    rw [hp] at ht1
    constructor
    intro u
    obtain ⟨h, b, h1, h2, h3⟩ := hs.thread u
    by_cases hu : u = t
    · subst hu
      rw [hp] at h1
      cases l with
      | table =>
        refine ⟨h, false, ?_, ?_, ?_⟩
        · simpa [set] using h1.2
        · intro i; simpa [set] using h2 i
        · simp [set]
      | sub i =>
        refine ⟨none, false, ?_, ?_, ?_⟩
        · simpa [set] using h1.2.2
        · intro k
          have := h2 k
          rw [h1.1] at this
          by_cases hk : k = i
          · simp [set, hk]
          · simp [set, hk, this]; intro e; exact hk e.symm
        · rw [h1.2.1] at h3; simpa [set] using h3
    · refine ⟨h, b, ?_, ?_, ?_⟩
      · simpa [set, hu] using h1
      · intro i
        have := h2 i
        by_cases hl' : Lock.sub i = l
        · subst hl'
          have hheld : s.held (.sub i) = some t := (ht2 i).2 ht1.1
          rw [hheld] at this
          have hne : ¬ t = u := fun e => hu e.symm
          simp [set]; simpa [hne] using this
        · simp [set, hl', this]
      · by_cases hl' : Lock.table = l
        · subst hl'
          have hheld : s.held .table = some t := ht3.2 ht1.1
          rw [hheld] at h3
          have hne : ¬ t = u := fun e => hu e.symm
          simp [set]; simpa [hne] using h3
        · simp [set, hl', h3]
  · next j p hp =>
    split
    · constructor
      intro u
      obtain ⟨h, b, h1, h2, h3⟩ := hs.thread u
      refine ⟨h, b, ?_, h2, h3⟩
      by_cases hu : u = t
      · subst hu; rw [hp] at h1; simpa [set] using h1.2
      · simpa [set, hu] using h1
    · exact hs
  · next j p hp =>
    constructor
    intro u
    obtain ⟨h, b, h1, h2, h3⟩ := hs.thread u
    refine ⟨h, b, ?_, h2, h3⟩
    by_cases hu : u = t
    · subst hu; rw [hp] at h1; simpa [set, ok] using h1
    · simpa [set, hu] using h1

/-- How often a program sends to the queue of session `j`. -/
def sends (j : Nat) (p : List Instr) : Nat := (p.filter (fun i => decide (i = .send j))).length

/-- The instructions left for the goroutines below `n`, and the state changes they will send. -/
def left (s : State) : Nat → Nat
  | 0 => 0
  | n + 1 => left s n + (s.prog n).length

def toSend (j : Nat) (s : State) : Nat → Nat
  | 0 => 0
  | n + 1 => toSend j s n + sends j (s.prog n)

theorem left_eq (s s' : State) (n : Nat) (h : ∀ u, u < n → s'.prog u = s.prog u) : left s' n = left s n := by
  induction n with
  | zero => rfl
  | succ n ih => rw [left, left, ih (fun u hu => h u (by omega)), h n (by omega)]

theorem toSend_eq (j : Nat) (s s' : State) (n : Nat) (h : ∀ u, u < n → s'.prog u = s.prog u) :
    toSend j s' n = toSend j s n := by
  induction n with
  | zero => rfl
  | succ n ih => rw [toSend, toSend, ih (fun u hu => h u (by omega)), h n (by omega)]

theorem left_set (s s' : State) (t : Nat) (n : Nat) (hn : t < n) (h : ∀ u, u ≠ t → s'.prog u = s.prog u) :
    left s' n + (s.prog t).length = left s n + (s'.prog t).length := by
  induction n with
  | zero => omega
  | succ n ih =>
    rw [left, left]
    by_cases e : t = n
    · subst e
      rw [left_eq s s' t (fun u hu => h u (by omega))]
      omega
    · have := ih (by omega)
      rw [h n (fun e' => e e'.symm)]
      omega

theorem toSend_set (j : Nat) (s s' : State) (t : Nat) (n : Nat) (hn : t < n) (h : ∀ u, u ≠ t → s'.prog u = s.prog u) :
    toSend j s' n + sends j (s.prog t) = toSend j s n + sends j (s'.prog t) := by
  induction n with
  | zero => omega
  | succ n ih =>
    rw [toSend, toSend]
    by_cases e : t = n
    · subst e
      rw [toSend_eq j s s' t (fun u hu => h u (by omega))]
      omega
    · have := ih (by omega)
      rw [h n (fun e' => e e'.symm)]
      omega

/-- A turn of `t` is idle, or executes the first instruction. -/
theorem step_cases (s : State) (t : Nat) :
    step s t = s ∨ ∃ i p, s.prog t = i :: p ∧ (step s t).prog = set s.prog t p
      ∧ (∀ j, i = .send j → s.queue j < capacity ∧ (step s t).queue = set s.queue j (s.queue j + 1))
      ∧ (∀ j, i = .recv j → (step s t).queue = set s.queue j (s.queue j - 1))
      ∧ ((∀ j, i ≠ .send j ∧ i ≠ .recv j) → (step s t).queue = s.queue) := by
  unfold step
  split
  · exact .inl rfl
  · next l p hp =>
    split
    · exact .inr ⟨_, p, hp, rfl, by simp, by simp, fun _ => rfl⟩
    · exact .inl rfl
  · next l p hp => exact .inr ⟨_, p, hp, rfl, by simp, by simp, fun _ => rfl⟩
  · next j p hp =>
    split
    · next h =>
      refine .inr ⟨_, p, hp, rfl, ?_, by simp, fun h => absurd rfl (h j).1⟩
      intro k hk; cases hk; exact ⟨h, rfl⟩
    · exact .inl rfl
  · next j p hp =>
    refine .inr ⟨_, p, hp, rfl, by simp, ?_, fun h => absurd rfl (h j).2⟩
    intro k hk; cases hk; rfl

/-- State changes that wait or will be sent do not become more. -/
theorem queue_step (j : Nat) (s : State) (t n : Nat) (hn : t < n) :
    (step s t).queue j + toSend j (step s t) n ≤ s.queue j + toSend j s n := by
  rcases step_cases s t with h | ⟨i, p, hp, hprog, hsend, hrecv, hother⟩
  · rw [h]; exact Nat.le_refl _
  · have h1 := toSend_set j s (step s t) t n hn (by intro u hu; rw [hprog]; simp [set, hu])
    have h2 : sends j ((step s t).prog t) = sends j p := by rw [hprog]; simp [set]
    rw [hp, h2] at h1
    by_cases hs : ∃ k, i = .send k
    · obtain ⟨k, rfl⟩ := hs
      rw [(hsend k rfl).2]
      by_cases hk : k = j
      · subst hk
        have : sends k (.send k :: p) = sends k p + 1 := by simp [sends]
        simp [set]; omega
      · have : sends j (.send k :: p) = sends j p := by simp [sends, hk]
        have hk' : ¬ j = k := fun e => hk e.symm
        simp [set, hk']; omega
    · by_cases hr : ∃ k, i = .recv k
      · obtain ⟨k, rfl⟩ := hr
        rw [hrecv k rfl]
        have : sends j (.recv k :: p) = sends j p := by simp [sends]
        by_cases hk : j = k
        · subst hk; simp [set]; omega
        · simp [set, hk]; omega
      · have hq := hother (fun k => ⟨fun e => hs ⟨k, e⟩, fun e => hr ⟨k, e⟩⟩)
        rw [hq]
        have : sends j (i :: p) = sends j p := by
          unfold sends; rw [List.filter_cons_of_neg]; simp; intro e; exact hs ⟨j, e⟩
        omega

/-- The instruction that `t` has to execute need not wait. -/
def Enabled (s : State) (t : Nat) : Prop := left (step s t) (t + 1) < left s (t + 1)

theorem enabled_of {s : State} {t : Nat} {p : List Instr} {i : Instr} (hp : s.prog t = i :: p)
    (h : (step s t).prog = set s.prog t p) : Enabled s t := by
  unfold Enabled
  have := left_set s (step s t) t (t + 1) (by omega) (by intro u hu; rw [h]; simp [set, hu])
  have h2 : (step s t).prog t = p := by rw [h]; simp [set]
  rw [h2, hp, List.length_cons] at this
  omega

/-- As long as somebody has not finished, somebody can go on. -/
theorem progress (s : State) (n : Nat) (hs : Inv s) (hn : ∀ t, n ≤ t → s.prog t = [])
    (hq : ∀ j, s.queue j + toSend j s n ≤ capacity) (t : Nat) (ht : s.prog t ≠ []) : ∃ u, u < n ∧ Enabled s u := by
  have ltn : ∀ u, s.prog u ≠ [] → u < n := by
    intro u hu
    rcases Nat.lt_or_ge u n with h | h
    · exact h
    · exact absurd (hn u h) hu
  have room : ∀ u j p, s.prog u = .send j :: p → s.queue j < capacity := by
    intro u j p hp
    have h1 := hq j
    have h2 : sends j (s.prog u) ≤ toSend j s n := by
      have hun := ltn u (by rw [hp]; simp)
      clear hq ht ltn hn h1
      induction n with
      | zero => omega
      | succ n ih =>
        rw [toSend]
        by_cases e : u = n
        · subst e; omega
        · have := ih (by omega); omega
    rw [hp] at h2
    have : sends j (.send j :: p) = sends j p + 1 := by simp [sends]
    omega
  -- everything but waiting for a lock goes on
  have free : ∀ u i p, s.prog u = i :: p → (∀ l, i = .acquire l → s.held l = none) → Enabled s u := by
    intro u i p hp hl
    apply enabled_of hp
    unfold step
    rw [hp]
    cases i with
    | acquire l => dsimp only; rw [if_pos (hl l rfl)]
    | release l => rfl
    | send j => dsimp only; rw [if_pos (room u j p hp)]
    | recv j => rfl
  by_cases htab : ∃ u, s.held .table = some u
  · obtain ⟨u, hu⟩ := htab
    obtain ⟨h, b, h1, h2, h3⟩ := hs.thread u
    have hb : b = true := h3.1 hu
    subst hb
    cases hp : s.prog u with
    | nil => rw [hp] at h1; exact absurd h1.2 (by simp)
    | cons i p =>
      refine ⟨u, ltn u (by rw [hp]; simp), free u i p hp ?_⟩
      intro l hl
      subst hl
      rw [hp] at h1
      cases l with
      | table => exact absurd h1.1 (by simp)
      | sub k => exact absurd h1.2.1 (by simp)
  · have htab : s.held .table = none := by
      cases h : s.held .table with
      | none => rfl
      | some u => exact absurd ⟨u, h⟩ htab
    have nosub : ∀ u i p, s.prog u = i :: p → (∀ k, i ≠ .acquire (.sub k)) → Enabled s u := by
      intro u i p hp hk
      refine free u i p hp ?_
      intro l hl
      cases l with
      | table => exact htab
      | sub k => exact absurd hl (hk k)
    cases hp : s.prog t with
    | nil => exact absurd hp ht
    | cons i p =>
      by_cases hk : ∃ k, i = .acquire (.sub k)
      · obtain ⟨k, rfl⟩ := hk
        cases hheld : s.held (.sub k) with
        | none =>
          refine ⟨t, ltn t ht, free t _ p hp ?_⟩
          intro l hl; cases hl; exact hheld
        | some u =>
          obtain ⟨h, b, h1, h2, h3⟩ := hs.thread u
          have hh := (h2 k).1 hheld
          subst hh
          cases hpu : s.prog u with
          | nil => rw [hpu] at h1; exact absurd h1.1 (by simp)
          | cons i' p' =>
            refine ⟨u, ltn u (by rw [hpu]; simp), nosub u i' p' hpu ?_⟩
            intro k' e
            subst e
            rw [hpu] at h1
            exact absurd h1.1 (by simp)
      · exact ⟨t, ltn t ht, nosub t i p hp (fun k e => hk ⟨k, e⟩)⟩

theorem prog_nil_step (s : State) (t : Nat) (h : s.prog t = []) : step s t = s := by
  unfold step; rw [h]

theorem prog_step (s : State) (t u : Nat) (h : s.prog u = []) : (step s t).prog u = [] := by
  rcases step_cases s t with e | ⟨i, p, hp, hprog, _⟩
  · rw [e]; exact h
  · rw [hprog]
    by_cases hu : u = t
    · subst hu; rw [hp] at h; cases h
    · simpa [set, hu] using h

theorem step_left (s : State) (t n : Nat) (hn : t < n) (h : Enabled s t) : left (step s t) n < left s n := by
  rcases step_cases s t with e | ⟨i, p, hp, hprog, _⟩
  · rw [Enabled, e] at h; omega
  · have := left_set s (step s t) t n hn (by intro u hu; rw [hprog]; simp [set, hu])
    have h2 : (step s t).prog t = p := by rw [hprog]; simp [set]
    rw [h2, hp, List.length_cons] at this
    omega

theorem finish (n : Nat) : ∀ m s, left s n ≤ m → Inv s → (∀ t, n ≤ t → s.prog t = []) →
    (∀ j, s.queue j + toSend j s n ≤ capacity) → ∃ schedule, ∀ t, Done (run s schedule) t := by
  intro m
  induction m with
  | zero =>
    intro s hm hs hn hq
    refine ⟨[], ?_⟩
    intro t
    apply Classical.byContradiction
    intro ht
    obtain ⟨u, hu, he⟩ := progress s n hs hn hq t ht
    have := step_left s u n hu he
    omega
  | succ m ih =>
    intro s hm hs hn hq
    by_cases hd : ∀ t, Done s t
    · exact ⟨[], hd⟩
    · have : ∃ t, ¬ Done s t := Classical.not_forall.1 hd
      obtain ⟨t, ht⟩ := this
      obtain ⟨u, hu, he⟩ := progress s n hs hn hq t ht
      have hl := step_left s u n hu he
      obtain ⟨sch, h⟩ := ih (step s u) (by omega) (inv_step s u hs) (fun t ht => prog_step s u t (hn t ht))
        (fun j => Nat.le_trans (queue_step j s u n hu) (hq j))
      exact ⟨u :: sch, h⟩

/-- Whether a subscription of session `j` expires in a task. -/
def expires (j : Nat) : Task → Bool
  | .expiry j' _ => decide (j' = j)
  | _ => false

/-- What the goroutines start with, one list of tasks for each. -/
def start (tasks : List (List Task)) : State := init (fun t => (tasks.getD t []).flatMap Task.instrs)

theorem sends_append (j : Nat) (p q : List Instr) : sends j (p ++ q) = sends j p + sends j q := by
  simp [sends, List.filter_append]

theorem sends_flatMap_zero {α : Type} (j : Nat) (f : α → List Instr) (hf : ∀ a, sends j (f a) = 0) (as : List α) :
    sends j (as.flatMap f) = 0 := by
  induction as with
  | nil => rfl
  | cons a as ih => rw [List.flatMap_cons, sends_append, hf, ih]

theorem sends_task (j : Nat) (k : Task) : sends j k.instrs = if expires j k then 1 else 0 := by
  have hsub : ∀ i, sends j (onSub i) = 0 := fun i => by simp [sends, onSub]
  have htab : sends j onTable = 0 := by simp [sends, onTable]
  cases k with
  | create => simpa [expires, Task.instrs] using htab
  | use i => simp [expires, Task.instrs, sends_append, htab, hsub]
  | delete i => simp [expires, Task.instrs, sends_append, htab, hsub]
  | publish s acks subs =>
    simp only [Task.instrs, sends_append, htab]
    rw [sends_flatMap_zero j _ (fun i => by rw [sends_append, htab, hsub]), sends_flatMap_zero j _ hsub]
    simp [expires, sends]
  | cycle i => simpa [expires, Task.instrs] using hsub i
  | expiry s i =>
    by_cases h : s = j
    · simp [Task.instrs, expires, sends, onTable, h]
    · simp [Task.instrs, expires, sends, onTable, h]

theorem sends_tasks (j : Nat) (ks : List Task) : sends j (ks.flatMap Task.instrs) = (ks.filter (expires j)).length := by
  induction ks with
  | nil => rfl
  | cons k ks ih =>
    rw [List.flatMap_cons, sends_append, ih, sends_task, List.filter_cons]
    by_cases h : expires j k = true
    · rw [if_pos h, if_pos h, List.length_cons]; omega
    · rw [if_neg h, if_neg h]; omega

theorem toSend_start (j : Nat) (tasks : List (List Task)) (n : Nat) :
    toSend j (start tasks) n = ((tasks.take n).flatten.filter (expires j)).length := by
  induction n with
  | zero => rfl
  | succ n ih =>
    rw [toSend, ih]
    show _ + sends j ((tasks.getD n []).flatMap Task.instrs) = _
    rw [sends_tasks, List.take_add_one, List.flatten_append, List.filter_append, List.length_append]
    congr 1
    rw [List.getD_eq_getElem?_getD]
    cases tasks[n]? with
    | none => rfl
    | some ks => simp

theorem start_inv (tasks : List (List Task)) : Inv (start tasks) :=
  ⟨fun _ => ⟨none, false, ok_flatMap _ ok_task _, by simp [start, init], by simp [start, init]⟩⟩

theorem start_beyond (tasks : List (List Task)) (t : Nat) (ht : tasks.length ≤ t) : (start tasks).prog t = [] := by
  show (tasks.getD t []).flatMap _ = []
  rw [List.getD_eq_getElem?_getD, List.getElem?_eq_none ht]
  rfl

/-- **C83 (partial).** Without the check for expired subscriptions, and if of each session at most 64
subscriptions expire, the services and timers never get stuck: whatever happened so far, every one of
them can finish. -/
theorem C83_finish_partial (tasks : List (List Task))
    (h64 : ∀ j, (tasks.flatten.filter (expires j)).length ≤ 64) (schedule : List Nat) (t : Nat) :
    ¬ Stuck (run (start tasks) schedule) t := by
  suffices h : ∃ schedule', ∀ t, Done (run (run (start tasks) schedule) schedule') t by
    obtain ⟨sch, h⟩ := h
    exact fun hst => hst sch (h t)
  have hbeyond := start_beyond tasks
  have hinit := start_inv tasks
  have hq : ∀ j, (start tasks).queue j + toSend j (start tasks) tasks.length ≤ capacity := by
    intro j
    have h0 : (start tasks).queue j = 0 := rfl
    rw [toSend_start, List.take_length, h0, Nat.zero_add]
    exact h64 j
  clear h64
  generalize start tasks = s at *
  induction schedule generalizing s with
  | nil => exact finish tasks.length _ s (Nat.le_refl _) hinit hbeyond hq
  | cons u sch ih =>
    by_cases hu : u < tasks.length
    · exact ih (step s u) (fun t ht => prog_step s u t (hbeyond t ht)) (inv_step s u hinit)
        (fun j => Nat.le_trans (queue_step j s u _ hu) (hq j))
    · have : run s (u :: sch) = run s sch := by
        show run (step s u) sch = _
        rw [prog_nil_step s u (hbeyond u (by omega))]
      rw [this]
      exact ih s hbeyond hinit hq

/-- Sixty-four subscriptions of session 1 expire while session 2 works and session 1 publishes once. -/
def busy : List (List Task) :=
  ((List.range 64).map (fun i => [.expiry 1 i])) ++ [[.create, .use 70, .delete 70], [.publish 1 [3] [3, 4]]]

example : (busy.flatten.filter (expires 1)).length = 64 ∧ busy.length = 66 := by decide +kernel

/-! ### Violations -/

/-- Nobody can go on. -/
def Blocked (s : State) : Prop := ∀ t, step s t = s

theorem blocked_stuck {s : State} (h : Blocked s) {t : Nat} (ht : s.prog t ≠ []) : Stuck s t := by
  intro sch
  have : run s sch = s := by
    induction sch with
    | nil => rfl
    | cons u sch ih => show run (step s u) sch = s; rw [h u]; exact ih
  rw [this]
  exact ht

/-- The goroutine is finished or waits. -/
def waits (s : State) (t : Nat) : Bool :=
  match s.prog t with
  | [] => true
  | .acquire l :: _ => decide (s.held l ≠ none)
  | .send j :: _ => decide (¬ s.queue j < capacity)
  | _ => false

theorem waits_idle {s : State} {t : Nat} (h : waits s t = true) : step s t = s := by
  unfold waits at h
  unfold step
  split at h
  · next hp => rw [hp]
  · next l p hp => rw [hp]; dsimp only; rw [if_neg (by simpa using h)]
  · next j p hp => rw [hp]; dsimp only; rw [if_neg (by simpa using h)]
  · cases h

theorem blocked_of_waits {s : State} (n : Nat) (h : ∀ t, t < n → waits s t = true) (hn : ∀ t, n ≤ t → s.prog t = []) :
    Blocked s := by
  intro t
  rcases Nat.lt_or_ge t n with ht | ht
  · exact waits_idle (h t ht)
  · exact prog_nil_step s t (hn t ht)

theorem run_beyond (s : State) (n : Nat) (hn : ∀ t, n ≤ t → s.prog t = []) (sch : List Nat) :
    ∀ t, n ≤ t → (run s sch).prog t = [] := by
  induction sch generalizing s with
  | nil => exact hn
  | cons u sch ih => exact ih (step s u) (fun t ht => prog_step s u t (hn t ht))

/-- A timer whose subscription 0 expires, the check for expired subscriptions, and a CreateSubscription
request of another client. -/
def inversion : Nat → List Instr
  | 0 => (Task.expiry 1 0).instrs
  | 1 => sweep [0]
  | 2 => Task.create.instrs
  | _ => []

/-- **C83 fails (order of locks).** The check for expired subscriptions takes the lock of the table and
then that of a subscription; a subscription that expires takes them the other way round. If they meet,
no subscription can be created any more. -/
theorem C83_inversion_fails : ∃ schedule, Stuck (run (init inversion) schedule) 2 := by
  refine ⟨[0, 0, 1], blocked_stuck (blocked_of_waits 3 ?_ ?_) (by decide)⟩
  · decide
  · refine run_beyond _ 3 ?_ _
    intro t ht
    show inversion t = []
    unfold inversion
    split <;> first | omega | rfl

/-- As long as nobody receives, nothing leaves the queue, and it holds at most 64 state changes. -/
structure Fill (j total n : Nat) (s : State) : Prop where
  norecv : ∀ t, Instr.recv j ∉ s.prog t
  count : s.queue j + toSend j s n = total
  bound : s.queue j ≤ capacity

theorem fill_step (j total n : Nat) (s : State) (t : Nat) (hn : t < n) (h : Fill j total n s) :
    Fill j total n (step s t) := by
  rcases step_cases s t with e | ⟨i, p, hp, hprog, hsend, hrecv, hother⟩
  · rw [e]; exact h
  have hnr : ∀ u, Instr.recv j ∉ (step s t).prog u := by
    intro u
    rw [hprog]
    by_cases hu : u = t
    · subst hu
      have := h.norecv u
      rw [hp] at this
      simpa [set] using fun hm => this (List.mem_cons_of_mem _ hm)
    · simpa [set, hu] using h.norecv u
  have h1 := toSend_set j s (step s t) t n hn (by intro u hu; rw [hprog]; simp [set, hu])
  have h2 : sends j ((step s t).prog t) = sends j p := by rw [hprog]; simp [set]
  rw [hp, h2] at h1
  have hc := h.count
  have hb := h.bound
  by_cases hs : i = .send j
  · subst hs
    obtain ⟨hlt, hq⟩ := hsend j rfl
    have h3 : sends j (.send j :: p) = sends j p + 1 := by simp [sends]
    have h4 : (step s t).queue j = s.queue j + 1 := by rw [hq]; simp [set]
    exact ⟨hnr, by omega, by omega⟩
  · have h3 : sends j (i :: p) = sends j p := by simp [sends, hs]
    have h4 : (step s t).queue j = s.queue j := by
      by_cases hk : ∃ k, i = .send k
      · obtain ⟨k, rfl⟩ := hk
        rw [(hsend k rfl).2]
        have : ¬ j = k := fun e => hs (by rw [e])
        simp [set, this]
      · by_cases hr : ∃ k, i = .recv k
        · obtain ⟨k, rfl⟩ := hr
          rw [hrecv k rfl]
          have : ¬ j = k := by
            intro e
            subst e
            exact h.norecv t (by rw [hp]; exact List.mem_cons_self)
          simp [set, this]
        · rw [hother (fun k => ⟨fun e => hk ⟨k, e⟩, fun e => hr ⟨k, e⟩⟩)]
    exact ⟨hnr, by omega, by omega⟩

theorem norecv_task (j : Nat) (k : Task) (h : ∀ acks subs, k ≠ .publish j acks subs) : Instr.recv j ∉ k.instrs := by
  cases k with
  | publish j' acks subs =>
    intro hm
    apply h acks subs
    have : j = j' := by simpa [Task.instrs, onTable, onSub] using hm
    rw [this]
  | _ => simp [Task.instrs, onTable, onSub]

/-- **C83 fails (full queue).** If 65 or more subscriptions of a session expire and the session does not
publish, not all of the timers ever finish. -/
theorem C83_queue_fails (tasks : List (List Task)) (j : Nat) (h65 : 64 < (tasks.flatten.filter (expires j)).length)
    (hp : ∀ ks ∈ tasks, ∀ acks subs, Task.publish j acks subs ∉ ks) (schedule : List Nat) :
    ∃ t, t < tasks.length ∧ ¬ Done (run (start tasks) schedule) t := by
  have hfill : Fill j (tasks.flatten.filter (expires j)).length tasks.length (start tasks) := by
    refine ⟨?_, ?_, Nat.zero_le _⟩
    · intro t hm
      have hm : Instr.recv j ∈ (tasks.getD t []).flatMap Task.instrs := hm
      obtain ⟨k, hk, hmk⟩ := List.mem_flatMap.1 hm
      rw [List.getD_eq_getElem?_getD] at hk
      cases ht : tasks[t]? with
      | none => rw [ht] at hk; cases hk
      | some ks =>
        rw [ht] at hk
        exact norecv_task j k (fun acks subs e => hp ks (List.mem_of_getElem? ht) acks subs (e ▸ hk)) hmk
    · have h0 : (start tasks).queue j = 0 := rfl
      rw [toSend_start, List.take_length, h0, Nat.zero_add]
  have hbeyond := start_beyond tasks
  generalize (tasks.flatten.filter (expires j)).length = total at *
  generalize start tasks = s at *
  have hend : Fill j total tasks.length (run s schedule) := by
    induction schedule generalizing s with
    | nil => exact hfill
    | cons u sch ih =>
      by_cases hu : u < tasks.length
      · exact ih (step s u) (fun t ht => prog_step s u t (hbeyond t ht)) (fill_step j total _ s u hu hfill)
      · have : run s (u :: sch) = run s sch := by
          show run (step s u) sch = _
          rw [prog_nil_step s u (hbeyond u (by omega))]
        rw [this]
        exact ih s hbeyond hfill
  apply Classical.byContradiction
  intro hno
  have hdone : ∀ t, t < tasks.length → (run s schedule).prog t = [] := by
    intro t ht
    exact Classical.byContradiction fun h => hno ⟨t, ht, h⟩
  have hz : ∀ n, n ≤ tasks.length → toSend j (run s schedule) n = 0 := by
    intro n hn
    induction n with
    | zero => rfl
    | succ n ih => rw [toSend, ih (by omega), hdone n (by omega)]; rfl
  have h1 := hend.count
  have h2 := hend.bound
  rw [hz _ (Nat.le_refl _)] at h1
  simp only [capacity] at h2
  omega

/-- 65 subscriptions of session 1, which has gone away. -/
def gone : List (List Task) := (List.range 65).map (fun i => [.expiry 1 i])

example : 64 < (gone.flatten.filter (expires 1)).length ∧ ∀ ks ∈ gone, ks.length = 1 ∧ expires 1 (ks.getD 0 .create) = true := by
  decide +kernel

/-- The 65 timers, the check for expired subscriptions (thread 65) and a CreateSubscription request of
another client (thread 66). -/
def outage (t : Nat) : List Instr :=
  if t < 65 then (Task.expiry 1 t).instrs else if t = 65 then sweep [64] else if t = 66 then Task.create.instrs else []

/-- **C83 fails (one client stops all).** A client with 65 subscriptions that goes away stops the
subscriptions of all clients: the last timer waits for ever with its lock, then the check for expired
subscriptions waits for that lock with the lock of the table. -/
theorem C83_outage_fails : ∃ schedule, Stuck (run (init outage) schedule) 66 := by
  refine ⟨(List.range 65).flatMap (fun t => [t, t, t, t, t]) ++ [65, 65], blocked_stuck (blocked_of_waits 67 ?_ ?_) ?_⟩
  · have : (List.range 67).all (fun t =>
        waits (run (init outage) ((List.range 65).flatMap (fun t => [t, t, t, t, t]) ++ [65, 65])) t) = true := by
      decide +kernel
    intro t ht
    exact List.all_eq_true.1 this t (List.mem_range.2 ht)
  · refine run_beyond _ 67 ?_ _
    intro t ht
    show outage t = []
    unfold outage
    rw [if_neg (by omega), if_neg (by omega), if_neg (by omega)]
  · decide +kernel

end Opcua.Locks
