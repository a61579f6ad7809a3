import Verif.Model.PublishQueue
import Verif.Lemmas.Lists

/-! C38: publish requests are answered exactly once, in order, with bounded queueing; C80: when they
time out. -/
namespace Opcua.PublishQueue

theorem run_snoc (s : State) (evs : List Ev) (e : Ev) : run s (evs ++ [e]) = step (run s evs) e := by simp [run]

/-- Conservation and order, the bound, and that a timeout answer means the hint has run out. -/
structure Inv (s : State) : Prop where
  fifo : ∀ q, s.chan = some q → s.arrived = s.left.map (·.1) ++ q
  prefixed : ∃ r, s.arrived = s.left.map (·.1) ++ r
  bound : ∀ q, s.chan = some q → q.length ≤ capacity
  late : ∀ o, (o, Answer.badTimeout) ∈ s.left → o.timestamp + o.hint < s.now

theorem Inv.step {s : State} (h : Inv s) (e : Ev) : Inv (step s e) := by
  obtain ⟨h1, h2, h3, h4⟩ := h
  cases e with
  | tick d => exact ⟨h1, h2, h3, fun o ho => Nat.lt_of_lt_of_le (h4 o ho) (Nat.le_add_right _ _)⟩
  | call t op =>
    simp only [PublishQueue.step]
    split <;> exact ⟨h1, h2, h3, h4⟩
  | trySend t =>
    simp only [PublishQueue.step]
    split
    · split
      · exact ⟨h1, h2, h3, h4⟩
      · rename_i q hq
        split
        · rename_i hlt
          refine ⟨?_, ?_, ?_, h4⟩
          · intro q' hq'
            simp only [Option.some.injEq] at hq'
            subst hq'
            simp [h1 q hq]
          · exact ⟨_, by rw [h1 q hq, List.append_assoc]⟩
          · intro q' hq'
            simp only [Option.some.injEq] at hq'
            subst hq'
            simp only [List.length_append, List.length_cons, List.length_nil]
            omega
        · exact ⟨h1, h2, h3, h4⟩
    · exact ⟨h1, h2, h3, h4⟩
  | evict t ok =>
    simp only [PublishQueue.step]
    split
    · rename_i o q _ hq
      refine ⟨?_, ?_, ?_, ?_⟩
      · intro q' hq'
        simp only [Option.some.injEq] at hq'
        subst hq'
        simp [h1 _ hq]
      · exact ⟨q, by simp [h1 _ hq]⟩
      · intro q' hq'
        simp only [Option.some.injEq] at hq'
        subst hq'
        have := h3 _ hq
        simp only [List.length_cons] at this
        omega
      · intro o' ho'
        simp only [List.mem_append, List.mem_singleton, Prod.mk.injEq, reduceCtorEq, and_false, or_false] at ho'
        exact h4 o' ho'
    · exact ⟨h1, h2, h3, h4⟩
  | remove =>
    simp only [PublishQueue.step]
    split
    · rename_i o q hq
      refine ⟨?_, ?_, ?_, ?_⟩
      · intro q' hq'
        simp only [Option.some.injEq] at hq'
        subst hq'
        simp [h1 _ hq]
      · exact ⟨q, by simp [h1 _ hq]⟩
      · intro q' hq'
        simp only [Option.some.injEq] at hq'
        subst hq'
        have := h3 _ hq
        simp only [List.length_cons] at this
        omega
      · intro o' ho'
        simp only [List.mem_append, List.mem_singleton, Prod.mk.injEq] at ho'
        rcases ho' with ho' | ⟨rfl, ho'⟩
        · exact h4 o' ho'
        · split at ho'
          · rename_i hov
            simpa [overdue] using hov
          · simp at ho'
    · exact ⟨h1, h2, h3, h4⟩
  | delete => exact ⟨by simp [PublishQueue.step], h2, by simp [PublishQueue.step], h4⟩

theorem inv_run (evs : List Ev) : Inv (run init evs) := by
  induction evs using snocInd with
  | nil => exact ⟨by simp [run, init], ⟨[], by simp [run, init]⟩, by simp [run, init, capacity], by simp [run, init]⟩
  | append_singleton evs e ih => rw [run_snoc]; exact ih.step e

/-- While the session lives, in every interleaving of workers and timers: the requests put into the
queue are, in order of arrival, those that left it followed by those still in it. So each left at
most once, in arrival order, and each is either queued or answered. -/
theorem C38_conserved (evs : List Ev) (q : List Op) (h : (run init evs).chan = some q) :
    (run init evs).arrived = (run init evs).left.map (·.1) ++ q := (inv_run evs).fifo q h

/-- Requests leave in arrival order also when the session has been deleted. -/
theorem C38_in_order (evs : List Ev) : (run init evs).left.map (·.1) <+: (run init evs).arrived := by
  obtain ⟨r, hr⟩ := (inv_run evs).prefixed
  exact ⟨r, hr.symm⟩

/-- When the requests that arrived are distinct, none is answered twice. -/
theorem C38_at_most_once (evs : List Ev) (h : ((run init evs).arrived.map (·.rid)).Nodup) :
    ((run init evs).left.map (·.1.rid)).Nodup := by
  obtain ⟨r, hr⟩ := (inv_run evs).prefixed
  rw [hr, List.map_append] at h
  have := (List.nodup_append.1 h).1
  simpa [List.map_map, Function.comp_def] using this

/-- At most 64 requests are held. -/
theorem C38_bounded (evs : List Ev) (q : List Op) (h : (run init evs).chan = some q) : q.length ≤ 64 :=
  (inv_run evs).bound q h

/-- A request that finds the queue full makes room by answering the oldest one, and is then queued:
the two steps of a worker running alone. -/
theorem C38_eviction (s : State) (t : Nat) (op o : Op) (q : List Op) (hp : s.phase t = .evicting op)
    (hq : s.chan = some (o :: q)) (hl : (o :: q).length ≤ capacity) :
    (run s [.evict t true, .trySend t]).chan = some (q ++ [op]) ∧
    (run s [.evict t true, .trySend t]).left = s.left ++ [(o, .badTooManyPublishRequests)] ∧
    (run s [.evict t true, .trySend t]).phase t = .returned true := by
  have hl' : q.length < capacity := by simp only [List.length_cons] at hl; omega
  simp [run, step, hp, hq, setPhase, hl']

/-- Deleting the session drops the queued requests: they are neither queued nor answered, and never
will be. -/
theorem C38_delete_fails : ∃ evs op, op ∈ (run init evs).arrived ∧ (run init evs).chan = none ∧
    ∀ more, op ∉ (run init (evs ++ more)).left.map (·.1) := by
  refine ⟨[.call 1 ⟨5, 0, 60000⟩, .trySend 1, .delete], ⟨5, 0, 60000⟩, by decide, by decide, ?_⟩
  intro more
  have key : ∀ more s, s.chan = none → s.left = [] → (run s more).left = [] := by
    intro more
    induction more with
    | nil => intro s _ h; exact h
    | cons e more ih =>
      intro s h1 h2
      have : (step s e).chan = none ∧ (step s e).left = [] := by
        cases e with
        | tick d => exact ⟨h1, h2⟩
        | call t op => simp only [step]; split <;> exact ⟨h1, h2⟩
        | trySend t => simp only [step, h1]; split <;> exact ⟨by first | rfl | exact h1, h2⟩
        | evict t ok =>
          simp only [step, h1]
          split
          · rename_i h; simp at h
          · exact ⟨h1, h2⟩
        | remove => simp only [step, h1]; exact ⟨trivial, h2⟩
        | delete => exact ⟨rfl, h2⟩
      exact ih _ this.1 this.2
  have := key more (run init [.call 1 ⟨5, 0, 60000⟩, .trySend 1, .delete]) rfl rfl
  rw [show run init ([.call 1 ⟨5, 0, 60000⟩, .trySend 1, .delete] ++ more) =
    run (run init [.call 1 ⟨5, 0, 60000⟩, .trySend 1, .delete]) more by simp [run], this]
  simp

/-- 64 requests, one per worker step. -/
def fill : List Ev := (List.range 64).flatMap (fun i => [.call 0 ⟨i, 0, 10⟩, .trySend 0])

/-- The worker can hang: it finds the queue full, the timers then empty it (all requests have timed
out), and the worker waits to receive from an empty queue. No timer and no passing of time gets it
out; its request is neither queued nor answered, and its channel serves no further request. -/
theorem C38_hang_fails : ∃ evs op, (run init evs).phase 0 = .evicting op ∧ op ∉ (run init evs).arrived ∧
    ∀ more, (∀ e ∈ more, e = .remove ∨ (∃ d, e = .tick d) ∨ (∃ ok, e = .evict 0 ok) ∨ e = .trySend 0) →
      (run init (evs ++ more)).phase 0 = .evicting op ∧ op ∉ (run init (evs ++ more)).arrived := by
  refine ⟨fill ++ [.call 0 ⟨64, 0, 10⟩, .trySend 0, .tick 11] ++ List.replicate 64 .remove, ⟨64, 0, 10⟩,
    by decide +kernel, by decide +kernel, ?_⟩
  intro more hm
  have key : ∀ more s, (∀ e ∈ more, e = .remove ∨ (∃ d, e = .tick d) ∨ (∃ ok, e = .evict 0 ok) ∨ e = .trySend 0) →
      s.chan = some [] → s.phase 0 = .evicting ⟨64, 0, 10⟩ →
      (run s more).phase 0 = .evicting ⟨64, 0, 10⟩ ∧ (run s more).arrived = s.arrived := by
    intro more
    induction more with
    | nil => intro s _ _ h; exact ⟨h, rfl⟩
    | cons e more ih =>
      intro s he h1 h2
      have : (step s e).chan = some [] ∧ (step s e).phase 0 = .evicting ⟨64, 0, 10⟩ ∧ (step s e).arrived = s.arrived := by
        rcases he e (List.mem_cons_self) with rfl | ⟨d, rfl⟩ | ⟨ok, rfl⟩ | rfl
        · simp [step, h1, h2]
        · simp [step, h1, h2]
        · simp [step, h1, h2]
        · simp [step, h1, h2]
      have h3 := ih (step s e) (fun e' he' => he e' (List.mem_cons_of_mem _ he')) this.1 this.2.1
      exact ⟨h3.1, h3.2.trans this.2.2⟩
  have h3 := key more (run init (fill ++ [.call 0 ⟨64, 0, 10⟩, .trySend 0, .tick 11] ++ List.replicate 64 .remove)) hm
    (by decide +kernel) (by decide +kernel)
  have happ : ∀ a b, run init (a ++ b) = run (run init a) b := by intro a b; simp [run]
  rw [happ, h3.2]
  exact ⟨h3.1, by decide +kernel⟩

/-- Queueing and eviction at work. -/
example :
    let s := run init (fill ++ [.call 0 ⟨64, 0, 10⟩, .trySend 0, .evict 0 true, .trySend 0, .remove, .tick 20, .remove])
    s.left = [(⟨0, 0, 10⟩, .badTooManyPublishRequests), (⟨1, 0, 10⟩, .published), (⟨2, 0, 10⟩, .badTimeout)] ∧
    s.arrived.length = 65 ∧ s.phase 0 = .returned true := by
  decide +kernel

/-! ### C80 -/

/-- A request is timed out only when its hint has run out, counted from the client's time stamp. -/
theorem C80_timeout_partial (evs : List Ev) (o : Op) (h : (o, Answer.badTimeout) ∈ (run init evs).left) :
    o.timestamp + o.hint < (run init evs).now := (inv_run evs).late o h

/-- A request without timeout (hint 0) is refused with BadTimeout one millisecond after it was
made. -/
theorem C80_no_hint_fails :
    (run init [.call 0 ⟨7, 0, 0⟩, .trySend 0, .tick 1, .remove]).left = [(⟨7, 0, 0⟩, .badTimeout)] := by decide

/-- A client whose clock is more than the hint behind the server's never gets a notification: its
request is timed out the moment it arrives. -/
theorem C80_clock_skew_fails :
    (run init [.tick 100000, .call 0 ⟨7, 10000, 60000⟩, .trySend 0, .remove]).left =
      [(⟨7, 10000, 60000⟩, .badTimeout)] := by decide

end Opcua.PublishQueue
