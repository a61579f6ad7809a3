import Verif.Props.DataChange

/-! More about the sampling machine of data change items: what one publishing cycle does to the queue and the waiting
samples (C53, C55), that a disabled item is silent (C87), and what ResendData brings (C95). -/

namespace Opcua.DataChange

theorem offer_appends (A : Arith) (i : Item) (v : DV) :
    ∃ more, (offer A i v).queue = i.queue ++ more := by
  unfold offer
  split
  · exact ⟨_, rfl⟩
  · exact ⟨[], by simp⟩

theorem sweep_appends (A : Arith) (n : Nat) : ∀ (v : DV) (i : Item),
    ∃ more, (sweep A n v i).queue = i.queue ++ more := by
  induction n with
  | zero => intro v i; exact ⟨[], by simp [sweep]⟩
  | succ n ih =>
    intro v i
    dsimp only [sweep]
    obtain ⟨m1, h1⟩ := offer_appends A { i with prequeue := (takeDue i.ts v i.seen i.prequeue).2.2, seen := (takeDue i.ts v i.seen i.prequeue).2.1 }
      (takeDue i.ts v i.seen i.prequeue).1
    generalize offer A { i with prequeue := (takeDue i.ts v i.seen i.prequeue).2.2, seen := (takeDue i.ts v i.seen i.prequeue).2.1 }
      (takeDue i.ts v i.seen i.prequeue).1 = j at h1 ⊢
    obtain ⟨m2, h2⟩ := ih (takeDue i.ts v i.seen i.prequeue).1 { j with ts := j.ts + j.ti }
    exact ⟨m1 ++ m2, by rw [h2]; show j.queue ++ m2 = _; rw [h1]; simp⟩

theorem drain_appends (A : Arith) (vs : List DV) : ∀ (i : Item), ∃ more, (drain A i vs).queue = i.queue ++ more := by
  induction vs with
  | nil => intro i; exact ⟨[], by simp [drain]⟩
  | cons v vs ih =>
    intro i
    obtain ⟨m1, h1⟩ := offer_appends A { i with seen := some v } v
    obtain ⟨m2, h2⟩ := ih (offer A { i with seen := some v } v)
    exact ⟨m1 ++ m2, by rw [drain, h2, h1]; simp⟩

/-- The samples of a cycle before ResendData is looked at. -/
def sampled (A : Arith) (i : Item) (tn : Nat) : Item :=
  if 0 < i.ti then sweep A (rounds i.ti i.ts tn) i.prev i else drain A i i.prequeue

theorem sampled_appends (A : Arith) (i : Item) (tn : Nat) : ∃ more, (sampled A i tn).queue = i.queue ++ more := by
  unfold sampled
  split
  · exact sweep_appends A _ _ i
  · exact drain_appends A _ i

theorem offer_mode (A : Arith) (i : Item) (v : DV) : (offer A i v).mode = i.mode ∧ (offer A i v).timestamps = i.timestamps ∧
    (offer A i v).ti = i.ti ∧ (offer A i v).ts = i.ts ∧ (offer A i v).prequeue = i.prequeue := by
  unfold offer; split <;> exact ⟨rfl, rfl, rfl, rfl, rfl⟩

theorem sweep_mode (A : Arith) (n : Nat) : ∀ (v : DV) (i : Item),
    (sweep A n v i).mode = i.mode ∧ (sweep A n v i).timestamps = i.timestamps ∧ (sweep A n v i).ti = i.ti ∧
    (sweep A n v i).ts = i.ts + n * i.ti := by
  induction n with
  | zero => intro v i; exact ⟨rfl, rfl, rfl, by simp [sweep]⟩
  | succ n ih =>
    intro v i
    dsimp only [sweep]
    have h1 := offer_mode A { i with prequeue := (takeDue i.ts v i.seen i.prequeue).2.2, seen := (takeDue i.ts v i.seen i.prequeue).2.1 }
      (takeDue i.ts v i.seen i.prequeue).1
    generalize offer A { i with prequeue := (takeDue i.ts v i.seen i.prequeue).2.2, seen := (takeDue i.ts v i.seen i.prequeue).2.1 }
      (takeDue i.ts v i.seen i.prequeue).1 = j at h1 ⊢
    dsimp only at h1
    obtain ⟨h2, h3, h4, h5⟩ := ih (takeDue i.ts v i.seen i.prequeue).1 { j with ts := j.ts + j.ti }
    dsimp only at h2 h3 h4 h5
    refine ⟨h2.trans h1.1, h3.trans h1.2.1, h4.trans h1.2.2.1, ?_⟩
    rw [h5, h1.2.2.1, h1.2.2.2.1, Nat.succ_mul]
    omega

theorem drain_mode (A : Arith) (vs : List DV) : ∀ (i : Item),
    (drain A i vs).mode = i.mode ∧ (drain A i vs).timestamps = i.timestamps := by
  induction vs with
  | nil => intro i; exact ⟨rfl, rfl⟩
  | cons v vs ih =>
    intro i
    have h1 := offer_mode A { i with seen := some v } v
    have h2 := ih (offer A { i with seen := some v } v)
    exact ⟨h2.1.trans h1.1, h2.2.trans h1.2.1⟩

theorem sampled_mode (A : Arith) (i : Item) (tn : Nat) :
    (sampled A i tn).mode = i.mode ∧ (sampled A i tn).timestamps = i.timestamps := by
  unfold sampled
  split
  · exact ⟨(sweep_mode A _ _ i).1, (sweep_mode A _ _ i).2.1⟩
  · exact drain_mode A _ i

/-- **C53 (nothing queued is lost by sampling).** A publishing cycle only adds to the end of the queue of an item, with
and without ResendData. -/
theorem C53_cycle (A : Arith) (i : Item) (tn : Nat) (r : Option DV) : ∃ more, (cycle A i tn r).queue = i.queue ++ more := by
  unfold cycle
  split
  · exact ⟨[], by simp⟩
  · obtain ⟨more, hm⟩ := sampled_appends A i tn
    dsimp only
    rw [show (if 0 < i.ti then sweep A (rounds i.ti i.ts tn) i.prev i else drain A i i.prequeue) = sampled A i tn from rfl]
    cases r with
    | none => exact ⟨more, hm⟩
    | some v =>
      dsimp only
      split
      next h =>
        rw [hm] at h
        have : i.queue = [] := (List.append_eq_nil_iff.1 h.2).1
        exact ⟨_, by rw [this, List.nil_append]⟩
      · exact ⟨more, hm⟩

example : (cycle exactly ⟨.reporting, 10, 0, ⟨.statusValue, .none⟩, .both, [], sampleAt 5 1, [sampleAt 5 1], [], none⟩ 10
    (some (sampleAt 10 1))).queue = [sampleAt 5 1] := by decide +kernel

/-- **C95 (ResendData).** In the cycle after ResendData a reporting item has something to send: what was queued and
sampled, and if that is nothing, the present value; an item that is not reporting is sampled as ever. -/
theorem C95_resend (A : Arith) (i : Item) (tn : Nat) (v : DV) :
    (i.mode = .reporting → (cycle A i tn (some v)).queue ≠ [] ∧
      ((cycle A i tn none).queue = [] → (cycle A i tn (some v)).queue = [withTimestamps v i.timestamps]) ∧
      ((cycle A i tn none).queue ≠ [] → (cycle A i tn (some v)).queue = (cycle A i tn none).queue)) ∧
    (i.mode ≠ .reporting → cycle A i tn (some v) = cycle A i tn none) := by
  have hs := sampled_mode A i tn
  unfold cycle
  dsimp only
  rw [show (if 0 < i.ti then sweep A (rounds i.ti i.ts tn) i.prev i else drain A i i.prequeue) = sampled A i tn from rfl]
  refine ⟨fun h => ?_, fun h => ?_⟩
  · rw [h] at hs
    simp only [h, reduceCtorEq, if_false, hs.1, true_and, hs.2]
    by_cases hq : (sampled A i tn).queue = []
    · simp [hq]
    · simp [hq]
  · split
    · rfl
    · rw [if_neg (by rw [hs.1]; exact fun h' => h h'.1)]

example : (cycle exactly ⟨.reporting, 10, 0, ⟨.statusValue, .none⟩, .both, [], sampleAt 5 1, [], [], none⟩ 10
    (some (sampleAt 10 1))).queue = [sampleAt 10 1] := by decide +kernel

/-- Does not change the monitoring mode. -/
def keepsMode : Ev → Bool
  | .setMode _ _ _ => false
  | _ => true

/-- **C87 (a disabled item is silent).** As long as its mode is not set, a disabled item reports nothing, whatever is
polled and however often the subscription publishes. -/
theorem C87_disabled (A : Arith) (i : Item) (hm : i.mode = .disabled) (evs : List Ev) (h : ∀ e ∈ evs, keepsMode e = true) :
    (run A i evs).log = i.log ∧ (run A i evs).mode = .disabled ∧ ∃ n, (run A i evs).queue = i.queue.drop n := by
  induction evs generalizing i with
  | nil => exact ⟨rfl, hm, 0, by simp [run]⟩
  | cons e evs ih =>
    have key : (step A i e).log = i.log ∧ (step A i e).mode = .disabled ∧ ∃ n, (step A i e).queue = i.queue.drop n := by
      cases e with
      | poll v => exact ⟨rfl, hm, 0, by simp [step]⟩
      | take n => exact ⟨rfl, hm, n, rfl⟩
      | cycle tn r =>
        dsimp only [step, cycle]
        rw [if_pos hm]
        exact ⟨rfl, hm, 0, by simp⟩
      | modify f t ti now v =>
        dsimp only [step, modify, startMonitoring]
        rw [if_pos hm]
        exact ⟨rfl, hm, 0, by simp⟩
      | setMode m now v => exact absurd (h _ List.mem_cons_self) (by simp [keepsMode])
    obtain ⟨k1, k2, n, k3⟩ := key
    obtain ⟨h1, h2, m, h3⟩ := ih (step A i e) k2 (fun e' he' => h e' (List.mem_cons_of_mem _ he'))
    refine ⟨h1.trans k1, h2, n + m, ?_⟩
    show (run A (step A i e) evs).queue = _
    rw [h3, k3, List.drop_drop]

example : (run exactly (newItem .disabled ⟨.statusValue, .none⟩ .both 10 0 (sampleAt 0 1))
    [.poll (sampleAt 5 2), .cycle 10 (some (sampleAt 10 3)), .take 1]).queue = [] := by decide +kernel

theorem takeDue_rest (ts : Nat) (l : List DV) : ∀ (v : DV) (s : Option DV),
    ∀ p rest, (takeDue ts v s l).2.2 = p :: rest → ts < p.server := by
  induction l with
  | nil => intro v s p rest h; cases h
  | cons a l ih =>
    intro v s p rest h
    unfold takeDue at h
    split at h
    · exact ih _ _ p rest h
    · cases h; omega

theorem takeDue_sub (ts : Nat) (l : List DV) : ∀ (v : DV) (s : Option DV),
    ∃ due, l = due ++ (takeDue ts v s l).2.2 ∧ ∀ p ∈ due, p.server ≤ ts := by
  induction l with
  | nil => intro v s; exact ⟨[], rfl, fun p h => nomatch h⟩
  | cons a l ih =>
    intro v s
    unfold takeDue
    split
    next ha =>
      obtain ⟨due, h1, h2⟩ := ih a (some a)
      refine ⟨a :: due, by rw [List.cons_append, ← h1], fun p hp => ?_⟩
      rcases List.mem_cons.1 hp with rfl | hp
      · exact ha
      · exact h2 p hp
    · exact ⟨[], rfl, fun p h => nomatch h⟩

/-- What waits after `n` sampling intervals: a suffix of what waited, beginning after the last instant, and what was
taken is not later than it. -/
theorem sweep_rest (A : Arith) (n : Nat) : ∀ (v : DV) (i : Item),
    ∃ due, i.prequeue = due ++ (sweep A n v i).prequeue ∧ (∀ p ∈ due, p.server + i.ti ≤ i.ts + n * i.ti) ∧
      (0 < n → ∀ p rest, (sweep A n v i).prequeue = p :: rest → i.ts + n * i.ti < p.server + i.ti) := by
  induction n with
  | zero => intro v i; exact ⟨[], rfl, by simp, by omega⟩
  | succ n ih =>
    intro v i
    dsimp only [sweep]
    have h1 := offer_mode A { i with prequeue := (takeDue i.ts v i.seen i.prequeue).2.2, seen := (takeDue i.ts v i.seen i.prequeue).2.1 }
      (takeDue i.ts v i.seen i.prequeue).1
    generalize offer A { i with prequeue := (takeDue i.ts v i.seen i.prequeue).2.2, seen := (takeDue i.ts v i.seen i.prequeue).2.1 }
      (takeDue i.ts v i.seen i.prequeue).1 = j at h1 ⊢
    dsimp only at h1
    obtain ⟨due1, hd1, hle1⟩ := takeDue_sub i.ts i.prequeue v i.seen
    have hlast := takeDue_rest i.ts i.prequeue v i.seen
    obtain ⟨due2, hd2, hle2, hlt2⟩ := ih (takeDue i.ts v i.seen i.prequeue).1 { j with ts := j.ts + j.ti }
    dsimp only at hd2 hle2 hlt2
    have e1 := h1.2.2.1
    have e2 := h1.2.2.2.1
    refine ⟨due1 ++ due2, by rw [List.append_assoc, ← hd2, h1.2.2.2.2, ← hd1], fun p hp => ?_, fun _ p rest hp => ?_⟩
    · rw [Nat.succ_mul]
      rcases List.mem_append.1 hp with hp | hp
      · have := hle1 p hp
        omega
      · have := hle2 p hp
        rw [e1, e2] at this
        omega
    · rw [Nat.succ_mul]
      cases n with
      | zero =>
        simp only [sweep] at hp
        rw [h1.2.2.2.2] at hp
        have := hlast p rest hp
        omega
      | succ n =>
        have := hlt2 (by omega) p rest hp
        rw [e1, e2] at this
        omega

theorem rounds_bound (ti ts tn : Nat) (hti : 0 < ti) (h : ts ≤ tn) :
    tn < ts + rounds ti ts tn * ti ∧ ts + rounds ti ts tn * ti ≤ tn + ti ∧ 0 < rounds ti ts tn := by
  unfold rounds
  rw [if_pos h, Nat.succ_mul]
  have h1 := Nat.div_add_mod (tn - ts) ti
  have h2 := Nat.mod_lt (tn - ts) hti
  rw [Nat.mul_comm ((tn - ts) / ti) ti]
  generalize ti * ((tn - ts) / ti) = x at h1 ⊢
  generalize (tn - ts) / ti = y at *
  omega

/-- **C55 (due samples are looked at).** After a cycle of an enabled item at `tn`, the samples up to the last sampling
instant, which is `ts - ti` and less than an interval before `tn`, have been taken in their order; what waits begins
with a later one. An item without sampling interval has looked at everything. -/
theorem C55_due (A : Arith) (i : Item) (tn : Nat) (hm : i.mode ≠ .disabled) :
    (i.ti = 0 → (cycle A i tn none).prequeue = []) ∧
    (0 < i.ti → i.ts ≤ tn →
      ∃ due, i.prequeue = due ++ (cycle A i tn none).prequeue ∧
        tn < (cycle A i tn none).ts ∧ (cycle A i tn none).ts ≤ tn + i.ti ∧
        (∀ p ∈ due, p.server + i.ti ≤ (cycle A i tn none).ts) ∧
        ∀ p rest, (cycle A i tn none).prequeue = p :: rest → (cycle A i tn none).ts < p.server + i.ti) := by
  unfold cycle
  rw [if_neg hm]
  dsimp only
  refine ⟨fun h0 => ?_, fun hti hts => ?_⟩
  · rw [if_neg (by omega)]
    have : ∀ (vs : List DV) (j : Item), (drain A j vs).prequeue = [] := by
      intro vs
      induction vs with
      | nil => intro j; rfl
      | cons v vs ih => intro j; exact ih _
    exact this _ i
  · rw [if_pos hti]
    obtain ⟨due, h1, h2, h3⟩ := sweep_rest A (rounds i.ti i.ts tn) i.prev i
    have hb := rounds_bound i.ti i.ts tn hti hts
    have ht := (sweep_mode A (rounds i.ti i.ts tn) i.prev i).2.2.2
    exact ⟨due, h1, by omega, by omega, fun p hp => by have := h2 p hp; omega, fun p rest hp => by
      have := h3 hb.2.2 p rest hp; omega⟩

example : (cycle exactly ⟨.reporting, 10, 10, ⟨.statusValue, .none⟩, .both, [sampleAt 10 1, sampleAt 20 2, sampleAt 21 3],
    initialValue, [], [], none⟩ 25 none).prequeue = [sampleAt 21 3] := by decide +kernel

theorem sweep_log (A : Arith) (n : Nat) : ∀ (v : DV) (i : Item), ∃ more, (sweep A n v i).log = i.log ++ more := by
  induction n with
  | zero => intro v i; exact ⟨[], by simp [sweep]⟩
  | succ n ih =>
    intro v i
    dsimp only [sweep]
    have h1 : ∃ more, (offer A { i with prequeue := (takeDue i.ts v i.seen i.prequeue).2.2, seen := (takeDue i.ts v i.seen i.prequeue).2.1 }
      (takeDue i.ts v i.seen i.prequeue).1).log = i.log ++ more := by
      unfold offer
      split
      · exact ⟨_, rfl⟩
      · exact ⟨[], by simp⟩
    obtain ⟨m1, h1⟩ := h1
    generalize offer A { i with prequeue := (takeDue i.ts v i.seen i.prequeue).2.2, seen := (takeDue i.ts v i.seen i.prequeue).2.1 }
      (takeDue i.ts v i.seen i.prequeue).1 = j at h1 ⊢
    obtain ⟨m2, h2⟩ := ih (takeDue i.ts v i.seen i.prequeue).1 { j with ts := j.ts + j.ti }
    exact ⟨m1 ++ m2, by rw [h2]; show j.log ++ m2 = _; rw [h1]; simp⟩

/-- **C55 (the first value is reported).** The first cycle of a new item that is not disabled reports the value it was
created with, whatever the value is, null too, with every trigger and deadband, unless its status is that of waiting for
the initial data. -/
theorem C55_first (A : Arith) (m : Mode) (hm : m ≠ .disabled) (f : Filter) (t : Timestamps) (ti now tn : Nat) (v : DV)
    (hs : v.status &&& statusMask ≠ badWaiting &&& statusMask) (hv : ti = 0 ∨ v.server ≤ now) (hn : now ≤ tn) :
    ∃ more, (ran A m f t ti now v [.cycle tn none]).log = .report v f :: more := by
  have hchg : isDataChange A f v initialValue = true := by
    have hs' : v.status &&& statusMask ≠ initialValue.status &&& statusMask := hs
    unfold isDataChange
    cases f.trigger with
    | status => exact decide_eq_true hs'
    | statusValue => dsimp only; rw [if_pos hs']
    | statusValueTimestamp => dsimp only; rw [if_pos hs']
    | other => rfl
  have hnew : newItem m f t ti now v = ⟨m, ti, now, f, t, [v], initialValue, [], [], none⟩ := by
    unfold newItem startMonitoring
    dsimp only
    rw [if_neg hm]
    rfl
  have hoff : ∀ (pre : List DV) (seen : Option DV), offer A ⟨m, ti, now, f, t, pre, initialValue, [], [], seen⟩ v =
      ⟨m, ti, now, f, t, pre, v, [withTimestamps v t], [.report v f], seen⟩ := by
    intro pre seen
    unfold offer
    rw [if_pos hchg]
    rfl
  show ∃ more, (cycle A (newItem m f t ti now v) tn none).log = _
  rw [hnew]
  unfold cycle
  rw [if_neg hm]
  dsimp only
  by_cases h0 : 0 < ti
  · rw [if_pos h0]
    have hr : ∃ n, rounds ti now tn = n + 1 := ⟨_, by unfold rounds; rw [if_pos hn]⟩
    obtain ⟨n, hr⟩ := hr
    rw [hr]
    dsimp only [sweep]
    have htd : takeDue now initialValue none [v] = (v, some v, []) := by
      unfold takeDue
      rw [if_pos (hv.resolve_left (by omega))]
      rfl
    rw [htd]
    dsimp only
    rw [hoff]
    obtain ⟨more, h⟩ := sweep_log A n v ⟨m, ti, now + ti, f, t, [], v, [withTimestamps v t], [.report v f], some v⟩
    exact ⟨more, h⟩
  · rw [if_neg h0]
    dsimp only [drain]
    rw [hoff]
    exact ⟨[], rfl⟩

example : (ran exactly .sampling ⟨.status, .none⟩ .both 10 5 ⟨.null, 0, 3, 0, 3, 0⟩ [.cycle 6 none]).log =
    [.report ⟨.null, 0, 3, 0, 3, 0⟩ ⟨.status, .none⟩] := by decide +kernel

end Opcua.DataChange
