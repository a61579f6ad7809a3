import Verif.Lemmas.Subscription

/-!
# C44, C45, C47, C48: sequence numbers, retransmission, keep-alives and lifetime
-/

namespace Opcua.Subscription

variable {C : Type}

/-! ### C44 -/

/-- The number of a notification message, none for a keep-alive. -/
def dataSeq (r : Resp C) : Option (BitVec 32) := if r.msg.body.isSome then some r.msg.seq else none

/-- The numbers 1, 2, 3, ... -/
def numbersTo (n : Nat) : List (BitVec 32) := (List.range n).map (fun i => BitVec.ofNat 32 (i + 1))

theorem numbersTo_succ (n : Nat) : numbersTo (n + 1) = numbersTo n ++ [BitVec.ofNat 32 (n + 1)] := by
  simp [numbersTo, List.range_succ]

theorem ofNat_succ (n : Nat) : BitVec.ofNat 32 n + 1 = BitVec.ofNat 32 (n + 1) := by
  apply BitVec.eq_of_toNat_eq
  simp [BitVec.toNat_add, BitVec.toNat_ofNat]

/-- How many notification messages have been sent. -/
def dataCount (l : List (Resp C)) : Nat := (l.filterMap dataSeq).length

theorem dataCount_append (a b : List (Resp C)) : dataCount (a ++ b) = dataCount a + dataCount b := by
  simp [dataCount]

structure SeqInv (s : Sub C) : Prop where
  seqs : s.sent.filterMap dataSeq = numbersTo (dataCount s.sent)
  next : s.alive = true → s.nextSeq = BitVec.ofNat 32 (dataCount s.sent + 1) ∧ s.statusChanges = []
  status : s.alive = false → s.statusChanges = [BitVec.ofNat 32 (dataCount s.sent + 1)]
  keep : ∀ a r b, s.sent = a ++ r :: b → r.msg.body = none → r.msg.seq = BitVec.ofNat 32 (dataCount a + 1)

theorem split_snoc {α : Type} {l a b : List α} {x r : α} (h : l ++ [x] = a ++ r :: b) :
    (b = [] ∧ a = l ∧ r = x) ∨ ∃ b', b = b' ++ [x] ∧ l = a ++ r :: b' := by
  induction b using snocInd with
  | nil =>
    left
    have := List.append_inj' h rfl
    exact ⟨rfl, this.1.symm, by simpa using this.2.symm⟩
  | append_singleton b y _ =>
    right
    have h' : l ++ [x] = (a ++ r :: b) ++ [y] := by rw [h]; simp
    have := List.append_inj' h' rfl
    exact ⟨b, by simpa using this.2.symm, this.1⟩

theorem SeqInv.step {s : Sub C} (h : SeqInv s) (e : Ev C) : SeqInv (step s e) := by
  have hk := step_kind s e
  generalize Subscription.step s e = s' at hk
  cases hk with
  | quiet hs hp hn hpc ha hc hq =>
    exact ⟨by rw [hs]; exact h.seqs, by rw [ha, hn, hs, hc]; exact h.next, by rw [ha, hs, hc]; exact h.status,
      by rw [hs]; exact h.keep⟩
  | data c more results ok late halive hd he =>
    subst hd
    obtain ⟨hn, hst⟩ := h.next halive
    cases ok with
    | false =>
      refine ⟨h.seqs, h.next, h.status, h.keep⟩
    | true =>
      have hc : dataCount (sendData s c more results true late).sent = dataCount s.sent + 1 := by
        show dataCount (s.sent ++ [_]) = _
        rw [dataCount_append]; rfl
      refine ⟨?_, ?_, ?_, ?_⟩
      · rw [hc, numbersTo_succ, ← h.seqs, ← hn]
        show List.filterMap dataSeq (s.sent ++ [_]) = _
        rw [List.filterMap_append]; rfl
      · intro _
        rw [hc, ← ofNat_succ]
        exact ⟨by show s.nextSeq + 1 = _; rw [hn], hst⟩
      · intro hf
        exact absurd hf (by show ¬ s.alive = false; rw [halive]; decide)
      · intro a r b hab hb
        have hab' : s.sent ++ [_] = a ++ r :: b := hab
        rcases split_snoc hab' with ⟨_, _, rfl⟩ | ⟨b', _, hl⟩
        · cases hb
        · exact h.keep a r b' hl hb
  | keepAlive k results halive hd he =>
    subst hd
    obtain ⟨hn, hst⟩ := h.next halive
    have hc : dataCount (sendKeepAlive { s with keepAlive := k } results true).sent = dataCount s.sent := by
      show dataCount (s.sent ++ [_]) = _
      rw [dataCount_append]; rfl
    refine ⟨?_, ?_, ?_, ?_⟩
    · rw [hc, ← h.seqs]
      show List.filterMap dataSeq (s.sent ++ [_]) = _
      rw [List.filterMap_append]
      show _ ++ [] = _
      rw [List.append_nil]
    · intro _
      rw [hc]; exact ⟨hn, hst⟩
    · intro hf
      exact absurd hf (by show ¬ s.alive = false; rw [halive]; decide)
    · intro a r b hab hb
      have hab' : s.sent ++ [_] = a ++ r :: b := hab
      rcases split_snoc hab' with ⟨_, rfl, rfl⟩ | ⟨b', _, hl⟩
      · exact hn
      · exact h.keep a r b' hl hb
  | expire k l halive hd hl he =>
    subst hd
    obtain ⟨hn, hst⟩ := h.next halive
    refine ⟨h.seqs, ?_, ?_, h.keep⟩
    · intro hf; cases hf
    · intro _
      show s.statusChanges ++ [s.nextSeq] = _
      rw [hst, hn]; rfl

theorem seqInv (en : Bool) (l k : Nat) (evs : List (Ev C)) : SeqInv (run (new en l k) evs) := by
  induction evs using snocInd with
  | nil =>
    refine ⟨rfl, fun _ => ⟨rfl, rfl⟩, fun h => (by cases h), ?_⟩
    intro a r b h
    have h' : [] = a ++ r :: b := h
    exact absurd h'.symm (by simp)
  | append_singleton evs e ih => rw [run_snoc]; exact ih.step e

/-- **C44 (consecutive).** Whatever happens, failures to write included, the notification messages
that reach the client carry the numbers 1, 2, 3, ... in order. -/
theorem C44_consecutive (en : Bool) (l k : Nat) (evs : List (Ev C)) :
    ∃ n, (run (new en l k) evs).sent.filterMap dataSeq = numbersTo n :=
  ⟨_, (seqInv en l k evs).seqs⟩

/-- **C44 (keep-alives).** A keep-alive carries the number that the next notification message will
have: one more than there are notification messages before it. -/
theorem C44_keep_alive (en : Bool) (l k : Nat) (evs : List (Ev C)) (a b : List (Resp C)) (r : Resp C)
    (h : (run (new en l k) evs).sent = a ++ r :: b) (hr : r.msg.body = none) :
    r.msg.seq = BitVec.ofNat 32 ((a.filterMap dataSeq).length + 1) :=
  (seqInv en l k evs).keep a r b h hr

/-- **C44 (status change).** The status change left when the subscription expires continues the
numbers. -/
theorem C44_status_change (en : Bool) (l k : Nat) (evs : List (Ev C))
    (h : (run (new en l k) evs).alive = false) :
    (run (new en l k) evs).statusChanges
      = [BitVec.ofNat 32 (((run (new en l k) evs).sent.filterMap dataSeq).length + 1)] :=
  (seqInv en l k evs).status h

/-- A history with two notification messages, a keep-alive between them and expiry at the end. -/
def history1 : List (Ev Nat) :=
  [.cycle none (.some [] true), .cycle (some (7, false)) (.some [] true), .cycle none .none, .cycle none .none,
   .late none [] true, .cycle (some (8, true)) (.some [] true), .cycle (some (9, false)) .none,
   .cycle (some (9, false)) .none, .cycle (some (9, false)) .none]

example : (run (new true 3 2) history1).sent.map (fun r => (r.msg.seq, r.msg.body))
      = [(1, none), (1, some 7), (2, none), (2, some 8)]
    ∧ (run (new true 3 2) history1).alive = false ∧ (run (new true 3 2) history1).statusChanges = [3] := by
  decide

/-- Whether the event is one where a response cannot be written. -/
def writeFails : Ev C → Bool
  | .cycle _ (.some _ false) => true
  | .late _ _ false => true
  | _ => false

/-- Without failures to write every message made is sent. -/
theorem produced_sent (en : Bool) (l k : Nat) (evs : List (Ev C)) (hw : ∀ e ∈ evs, writeFails e = false) :
    (run (new en l k) evs).produced.map (·.1) = (run (new en l k) evs).sent.filterMap dataSeq := by
  induction evs using snocInd with
  | nil => rfl
  | append_singleton evs e ih =>
    have ih := ih (fun x hx => hw x (List.mem_append_left _ hx))
    have he := hw e (by simp)
    rw [run_snoc]
    have hk := step_kind (run (new en l k) evs) e
    generalize run (new en l k) evs = s at *
    generalize step s e = s' at hk
    cases hk with
    | quiet hs hp hn hpc ha hc hq => rw [hs, hp]; exact ih
    | data c more results ok late halive hd hx =>
      subst hd
      have hok : ok = true := by
        rcases hx with ⟨d, rfl⟩ | ⟨d, rfl⟩ <;> cases ok <;> simp_all [writeFails]
      subst hok
      show List.map _ (s.produced ++ [_]) = List.filterMap dataSeq (s.sent ++ [_])
      rw [List.map_append, List.filterMap_append, ih]; rfl
    | keepAlive k results halive hd hx =>
      subst hd
      show List.map _ s.produced = List.filterMap dataSeq (s.sent ++ [_])
      rw [List.filterMap_append, ih]
      show _ = _ ++ []
      rw [List.append_nil]
    | expire k l halive hd hl hx => subst hd; exact ih

theorem numbersTo_nodup (n : Nat) (hn : n < 2 ^ 32) : (numbersTo n).Nodup := by
  unfold numbersTo
  rw [List.nodup_iff_pairwise_ne, List.pairwise_map]
  have : (List.range n).Pairwise (fun a b => a < b ∧ b < n) := by
    rw [List.pairwise_iff_getElem]
    intro i j hi hj hij
    simp only [List.length_range] at hi hj
    simp only [List.getElem_range]
    omega
  refine this.imp ?_
  intro a b hab e
  have := congrArg BitVec.toNat e
  simp only [BitVec.toNat_ofNat] at this
  omega

/-- **C44 (no number twice).** If no response fails to be written and fewer than 2^32 messages are
sent, no number is used for two messages. -/
theorem C44_unique_partial (en : Bool) (l k : Nat) (evs : List (Ev C)) (hw : ∀ e ∈ evs, writeFails e = false)
    (hn : (run (new en l k) evs).produced.length < 2 ^ 32) :
    ((run (new en l k) evs).produced.map (·.1)).Nodup := by
  have e := produced_sent en l k evs hw
  have e2 := (seqInv en l k evs).seqs
  have : dataCount (run (new en l k) evs).sent = (run (new en l k) evs).produced.length := by
    have := congrArg List.length e
    rw [List.length_map] at this
    exact this.symm
  rw [e, e2, this]
  exact numbersTo_nodup _ hn

example : (∀ e ∈ history1, writeFails e = false) ∧ (run (new true 3 2) history1).produced = [(1, 7), (2, 8)] := by
  decide

/-- **C44 fails (no number twice).** A message whose response cannot be written stays in the
retransmission queue under a number that the next message uses again; Republish for that number then
gives the other message. -/
theorem C44_reuse_fails :
    let s := run (new true 3 2) [.cycle (some (7, false)) (.some [] false), .cycle (some (8, false)) (.some [] true)]
    s.queue = [(1, 7), (1, 8)] ∧ s.sent.map (·.msg) = [⟨1, some 8⟩] ∧ (republish s 1 true).2 = some 7 := by
  decide

/-! ### C45 -/

/-- **C45 (bound).** At most 128 messages are held. -/
theorem C45_bound (en : Bool) (l k : Nat) (evs : List (Ev C)) : (run (new en l k) evs).queue.length ≤ 128 := by
  induction evs using snocInd with
  | nil => exact Nat.zero_le _
  | append_singleton evs e ih =>
    rw [run_snoc]
    have hk := step_kind (run (new en l k) evs) e
    generalize run (new en l k) evs = s at *
    generalize step s e = s' at hk
    cases hk with
    | quiet hs hp hn hpc ha hc hq =>
      rcases hq with hq | ⟨n, hq, _⟩
      · rw [hq]; exact ih
      · rw [hq]; exact Nat.le_trans (removeFirst_sublist _ _).length_le ih
    | data c more results ok late halive hd hx =>
      subst hd
      have : (sendData s c more results ok late).queue = trim s.queue ++ [(s.nextSeq, c)] := by
        unfold sendData; cases ok <;> rfl
      rw [this, List.length_append]
      have := trim_length s.queue ih
      simp only [List.length_cons, List.length_nil]; omega
    | keepAlive k results halive hd hx => subst hd; exact ih
    | expire k l halive hd hl hx => subst hd; exact Nat.zero_le _

/-- 130 cycles with notifications. -/
example : (run (new true 3 2) (List.replicate 130 (.cycle (some (0, false)) (.some [] true)))).queue.length = 128
    ∧ ((run (new true 3 2) (List.replicate 130 (.cycle (some (0, false)) (.some [] true)))).queue.map (·.1)).head?
      = some 3 := by decide +kernel

/-- **C45 (available numbers).** Every response lists exactly the messages held when it is sent. -/
theorem C45_available (s : Sub C) (e : Ev C) (r : Resp C) (h : (step s e).sent = s.sent ++ [r]) :
    r.avail = (step s e).queue.map (·.1) := by
  have hk := step_kind s e
  generalize step s e = s' at *
  cases hk with
  | quiet hs hp hn hpc ha hc hq =>
    rw [hs] at h
    exact absurd (congrArg List.length h) (by rw [List.length_append]; simp)
  | data c more results ok late halive hd hx =>
    subst hd
    cases ok with
    | false => exact absurd (congrArg List.length h) (by
        show ¬ s.sent.length = _
        rw [List.length_append]; simp)
    | true =>
      have h' : s.sent ++ [_] = s.sent ++ [r] := h
      have := List.append_cancel_left h'
      injection this with this _
      rw [← this]; rfl
  | keepAlive k results halive hd hx =>
    subst hd
    have h' : s.sent ++ [_] = s.sent ++ [r] := h
    have := List.append_cancel_left h'
    injection this with this _
    rw [← this]; rfl
  | expire k l halive hd hl hx =>
    subst hd
    exact absurd (congrArg List.length (show s.sent = _ from h)) (by rw [List.length_append]; simp)

example : ((run (new true 3 2) history1).sent.map (·.avail)) = [[], [1], [1], [1, 2]] := by decide

/-- Where a message stands in the queue from the end, when messages are added. -/
def After (q : List (BitVec 32 × C)) (m : BitVec 32 × C) (j : Nat) : Prop :=
  ∃ a b, q = a ++ m :: b ∧ b.length ≤ j

theorem After.removeFirst {q : List (BitVec 32 × C)} {m : BitVec 32 × C} {j : Nat} (h : After q m j)
    {n : BitVec 32} (hn : m.1 ≠ n) : After (removeFirst q n) m j := by
  obtain ⟨a, b, rfl, hb⟩ := h
  induction a with
  | nil =>
    rw [List.nil_append]
    refine ⟨[], Subscription.removeFirst b n, ?_, Nat.le_trans (removeFirst_sublist b n).length_le hb⟩
    simp [Subscription.removeFirst, hn]
  | cons x a ih =>
    simp only [List.cons_append, Subscription.removeFirst]
    split
    · exact ⟨a, b, rfl, hb⟩
    · obtain ⟨a', b', e, hb'⟩ := ih
      exact ⟨x :: a', b', by rw [e]; rfl, hb'⟩

theorem After.push {q : List (BitVec 32 × C)} {m x : BitVec 32 × C} {j : Nat} (h : After q m j)
    (hj : j < 127) : After (trim q ++ [x]) m (j + 1) := by
  obtain ⟨a, b, rfl, hb⟩ := h
  unfold trim
  have hm : maxQueue = 128 := rfl
  split
  · next hl =>
    cases a with
    | nil => simp only [List.nil_append, List.length_cons] at hl; omega
    | cons y a => exact ⟨a, b ++ [x], by simp, by simp; omega⟩
  · exact ⟨a, b ++ [x], by simp, by simp; omega⟩

/-- Whether an event names the message with a number: an acknowledgement, or a Republish that is
answered. -/
def releases (n : BitVec 32) : Ev C → Bool
  | .ack m => decide (m = n)
  | .republish m true => decide (m = n)
  | _ => false

theorem After.run {m : BitVec 32 × C} (later : List (Ev C)) (s : Sub C) (j : Nat) (h : After s.queue m j)
    (hrel : ∀ e ∈ later, releases m.1 e = false)
    (hnew : (Subscription.run s later).produced.length + j ≤ s.produced.length + 127)
    (halive : (Subscription.run s later).alive = true) :
    After (Subscription.run s later).queue m (j + ((Subscription.run s later).produced.length - s.produced.length))
    ∧ s.produced.length ≤ (Subscription.run s later).produced.length := by
  induction later using snocInd with
  | nil => exact ⟨by rw [run_nil, Nat.sub_self]; exact h, Nat.le_refl _⟩
  | append_singleton later e ih =>
    rw [run_snoc] at *
    have hr := hrel e (by simp)
    have hk := step_kind (Subscription.run s later) e
    have ih := ih (fun x hx => hrel x (List.mem_append_left _ hx))
    generalize Subscription.run s later = t at *
    generalize Subscription.step t e = t' at *
    cases hk with
    | quiet hs hp hn hpc ha hc hq =>
      rw [hp] at hnew ⊢
      obtain ⟨i1, i2⟩ := ih hnew (by rw [← ha]; exact halive)
      refine ⟨?_, i2⟩
      rcases hq with hq | ⟨n, hq, hev⟩
      · rw [hq]; exact i1
      · rw [hq]
        refine i1.removeFirst ?_
        rintro e'
        rcases hev with rfl | rfl <;> simp [releases, e'] at hr
    | data c more results ok late hal hd hx =>
      subst hd
      have hq : (sendData t c more results ok late).queue = trim t.queue ++ [(t.nextSeq, c)] := by
        unfold sendData; cases ok <;> rfl
      have hp : (sendData t c more results ok late).produced.length = t.produced.length + 1 := by
        unfold sendData; cases ok <;> simp
      rw [hp] at hnew ⊢
      obtain ⟨i1, i2⟩ := ih (by omega) hal
      rw [hq]
      refine ⟨?_, by omega⟩
      have := i1.push (x := (t.nextSeq, c)) (by omega)
      rwa [show j + (t.produced.length - s.produced.length) + 1
        = j + (t.produced.length + 1 - s.produced.length) by omega] at this
    | keepAlive k results hal hd hx =>
      subst hd
      exact ih hnew hal
    | expire k l hal hd hl hx =>
      subst hd
      cases halive

/-- **C45 (retained).** A message that was made stays in the queue while the subscription lives, no
acknowledgement or answered Republish names its number, and fewer than 128 messages are made after
it. -/
theorem C45_retained_partial (en : Bool) (l k : Nat) (evs later : List (Ev C)) (e : Ev C) (m : BitVec 32 × C)
    (hm : (run (new en l k) (evs ++ [e])).produced = (run (new en l k) evs).produced ++ [m])
    (hrel : ∀ e ∈ later, releases m.1 e = false)
    (hnew : (run (new en l k) (evs ++ e :: later)).produced.length < (run (new en l k) (evs ++ [e])).produced.length + 128)
    (halive : (run (new en l k) (evs ++ e :: later)).alive = true) :
    m ∈ (run (new en l k) (evs ++ e :: later)).queue := by
  rw [show evs ++ e :: later = (evs ++ [e]) ++ later by simp, run_append (new en l k) (evs ++ [e]) later] at *
  have hafter : After (run (new en l k) (evs ++ [e])).queue m 0 := by
    rw [run_snoc] at hm ⊢
    have hk := step_kind (run (new en l k) evs) e
    generalize run (new en l k) evs = s at *
    generalize step s e = s' at *
    cases hk with
    | quiet hs hp hn hpc ha hc hq =>
      rw [hp] at hm
      exact absurd (congrArg List.length hm) (by rw [List.length_append]; simp)
    | data c more results ok late hal hd hx =>
      subst hd
      have hq : (sendData s c more results ok late).queue = trim s.queue ++ [(s.nextSeq, c)] := by
        unfold sendData; cases ok <;> rfl
      have hp : (sendData s c more results ok late).produced = s.produced ++ [(s.nextSeq, c)] := by
        unfold sendData; cases ok <;> rfl
      rw [hp] at hm
      have := List.append_cancel_left hm
      injection this with this _
      exact ⟨trim s.queue, [], by rw [hq, this], Nat.le_refl _⟩
    | keepAlive k results hal hd hx =>
      subst hd
      exact absurd (congrArg List.length (show s.produced = _ from hm)) (by rw [List.length_append]; simp)
    | expire k l hal hd hl hx =>
      subst hd
      exact absurd (congrArg List.length (show s.produced = _ from hm)) (by rw [List.length_append]; simp)
  obtain ⟨⟨a, b, hq, _⟩, _⟩ := hafter.run later _ 0 hrel (by omega) halive
  rw [hq]; simp

/-- A message that is held for 127 newer messages, and not for 128. -/
example :
    let more := fun n => List.replicate n (Ev.cycle (some (0, false)) (.some [] true))
    let first : Ev Nat := .cycle (some (7, false)) (.some [] true)
    (1, 7) ∈ (run (new true 3 2) ([] ++ first :: more 127)).queue
    ∧ ¬ (1, 7) ∈ (run (new true 3 2) ([] ++ first :: more 128)).queue := by decide +kernel

/-- The queue holds what was made, in order. -/
theorem queue_sublist (en : Bool) (l k : Nat) (evs : List (Ev C)) :
    (run (new en l k) evs).queue.Sublist (run (new en l k) evs).produced := by
  induction evs using snocInd with
  | nil => exact .slnil
  | append_singleton evs e ih =>
    rw [run_snoc]
    have hk := step_kind (run (new en l k) evs) e
    generalize run (new en l k) evs = s at *
    generalize step s e = s' at hk
    cases hk with
    | quiet hs hp hn hpc ha hc hq =>
      rw [hp]
      rcases hq with hq | ⟨n, hq, _⟩
      · rw [hq]; exact ih
      · rw [hq]; exact (removeFirst_sublist _ _).trans ih
    | data c more results ok late halive hd hx =>
      subst hd
      have hq : (sendData s c more results ok late).queue = trim s.queue ++ [(s.nextSeq, c)] := by
        unfold sendData; cases ok <;> rfl
      have hp : (sendData s c more results ok late).produced = s.produced ++ [(s.nextSeq, c)] := by
        unfold sendData; cases ok <;> rfl
      rw [hq, hp]
      exact ((trim_sublist _).trans ih).append (.refl _)
    | keepAlive k results halive hd hx => subst hd; exact ih
    | expire k l halive hd hl hx => subst hd; exact List.nil_sublist _

theorem find_of_mem_nodup {q : List (BitVec 32 × C)} {m : BitVec 32 × C} (h : m ∈ q)
    (hn : (q.map (·.1)).Nodup) : q.find? (fun x => decide (x.1 = m.1)) = some m := by
  induction q with
  | nil => cases h
  | cons a q ih =>
    rw [List.map_cons, List.nodup_cons] at hn
    rcases List.mem_cons.1 h with rfl | h
    · simp
    · have hne : a.1 ≠ m.1 := by
        intro e
        exact hn.1 (e ▸ List.mem_map_of_mem h)
      rw [List.find?_cons_of_neg (by simpa using hne)]
      exact ih h hn.2

/-- **C45 (retrievable).** In histories without failures to write, Republish gives back every message
that is held, with the data it was made with. -/
theorem C45_republish_partial (en : Bool) (l k : Nat) (evs : List (Ev C)) (m : BitVec 32 × C)
    (hw : ∀ e ∈ evs, writeFails e = false) (hn : (run (new en l k) evs).produced.length < 2 ^ 32)
    (hm : m ∈ (run (new en l k) evs).queue) :
    (republish (run (new en l k) evs) m.1 true).2 = some m.2 := by
  have h1 := C44_unique_partial en l k evs hw hn
  have h2 : ((run (new en l k) evs).queue.map (·.1)).Nodup := h1.sublist ((queue_sublist en l k evs).map _)
  unfold republish
  dsimp only
  rw [find_of_mem_nodup hm h2]
  rfl

example : (republish (run (new true 9 2) history1) 1 true).2 = some 7
    ∧ (republish (run (new true 9 2) history1) 2 true).2 = some 8
    ∧ (republish (run (new true 9 2) history1) 3 true).2 = none := by decide

/-- **C45 fails (until acknowledged).** Republish removes the message that it sends: asked again, for
instance because that response was lost, it has nothing, though nobody acknowledged the message. -/
theorem C45_republish_removes_fails :
    let s := run (new true 3 2) [.cycle (some (7, false)) (.some [] true)]
    (republish s 1 true).2 = some 7 ∧ (republish (republish s 1 true).1 1 true).2 = none := by
  decide

/-! ### C47 -/

/-- A publishing cycle that finds a request and can write. -/
def served : Ev C → Bool
  | .cycle _ (.some _ true) => true
  | _ => false

/-- Events other than cycles without a usable request, and changes of the counts. -/
def undisturbed : Ev C → Bool
  | .cycle _ (.some _ true) => true
  | .cycle _ _ => false
  | .modify _ _ => false
  | _ => true

theorem cycle_served (s : Sub C) (ha : s.alive = true) (d : Option (C × Bool)) (r : List AckStatus) :
    (∃ x, (step s (.cycle d (.some r true))).sent = s.sent ++ [x])
    ∨ ((step s (.cycle d (.some r true))) = { s with keepAlive := s.keepAlive + 1 }
      ∧ s.keepAlive + 1 < s.maxKeepAlive ∧ s.pubCount ≠ 0) := by
  have ha' : ¬ s.alive = false := by simp [ha]
  unfold step
  rw [if_neg ha']
  dsimp only [cycle]
  rw [if_neg ha']
  split
  · exact .inl ⟨_, rfl⟩
  · split
    · exact .inl ⟨_, rfl⟩
    · next h =>
      refine .inr ⟨rfl, ?_, ?_⟩
      · omega
      · exact fun e => h (.inr e)

/-- **C47 (first message).** The first publishing cycle sends a message, if it finds a request. -/
theorem C47_first (en : Bool) (l k : Nat) (d : Option (C × Bool)) (r : List AckStatus) :
    (run (new en l k) [.cycle d (.some r true)]).sent.length = 1 := by
  rcases cycle_served (new en l k : Sub C) rfl d r with ⟨x, h⟩ | ⟨_, _, h⟩
  · rw [run_cons, run_nil, h]; rfl
  · exact absurd rfl h

example : ((run (new true 30 10) [.cycle none (.some [] true)]).sent : List (Resp Nat)).length = 1 := C47_first ..

theorem undisturbed_step (s : Sub C) (e : Ev C) (h : undisturbed e = true) (ha : s.alive = true)
    (hs : (step s e).sent.length ≤ s.sent.length) :
    (step s e).maxKeepAlive = s.maxKeepAlive ∧ (step s e).alive = true
    ∧ (served e = false → (step s e).keepAlive = s.keepAlive)
    ∧ (served e = true → (step s e).keepAlive = s.keepAlive + 1 ∧ s.keepAlive + 1 < s.maxKeepAlive) := by
  have ha' : ¬ s.alive = false := by simp [ha]
  cases e with
  | cycle d req =>
    cases req with
    | none => cases h
    | failed => cases h
    | some r ok =>
      cases ok with
      | false => cases h
      | true =>
        rcases cycle_served s ha d r with ⟨x, hx⟩ | ⟨hx, hk, _⟩
        · rw [hx, List.length_append] at hs; simp at hs; omega
        · rw [hx]; exact ⟨rfl, ha, fun h => (by cases h), fun _ => ⟨rfl, hk⟩⟩
  | late d r ok =>
    unfold step at hs ⊢
    rw [if_neg ha'] at hs ⊢
    dsimp only [late] at hs ⊢
    split
    · exact ⟨rfl, ha, fun _ => rfl, fun h => (by cases h)⟩
    · next hl =>
      rw [if_neg hl] at hs
      split
      · next hd =>
        rw [hd] at hs
        cases ok with
        | true =>
          exact absurd hs (by show ¬ (s.sent ++ [_]).length ≤ _; rw [List.length_append]; simp)
        | false => exact ⟨rfl, ha, fun _ => rfl, fun h => (by cases h)⟩
      · next hd =>
        rw [hd] at hs
        dsimp only at hs
        split
        · next hk =>
          rw [if_pos hk] at hs
          cases ok with
          | true =>
            exact absurd hs (by show ¬ (s.sent ++ [_]).length ≤ _; rw [List.length_append]; simp)
          | false => exact ⟨rfl, ha, fun _ => rfl, fun h => (by cases h)⟩
        · exact ⟨rfl, ha, fun _ => rfl, fun h => (by cases h)⟩
  | ack n => unfold step; rw [if_neg ha']; exact ⟨rfl, ha, fun _ => rfl, fun h => (by cases h)⟩
  | republish n ok =>
    unfold step; rw [if_neg ha']
    dsimp only [republish]
    split
    · exact ⟨rfl, ha, fun _ => rfl, fun h => (by cases h)⟩
    · cases ok <;> exact ⟨rfl, ha, fun _ => rfl, fun h => (by cases h)⟩
  | setMode b => unfold step; rw [if_neg ha']; exact ⟨rfl, ha, fun _ => rfl, fun h => (by cases h)⟩
  | touch => unfold step; rw [if_neg ha']; exact ⟨rfl, ha, fun _ => rfl, fun h => (by cases h)⟩
  | modify l k => cases h

theorem sent_mono (s : Sub C) (e : Ev C) : s.sent.length ≤ (step s e).sent.length := by
  have hk := step_kind s e
  generalize step s e = s' at *
  cases hk with
  | quiet hs => rw [hs]; exact Nat.le_refl _
  | data c more results ok late hal hd hx =>
    subst hd
    cases ok with
    | true => show _ ≤ (s.sent ++ [_]).length; rw [List.length_append]; omega
    | false => exact Nat.le_refl _
  | keepAlive k results hal hd hx =>
    subst hd
    show _ ≤ (s.sent ++ [_]).length; rw [List.length_append]; omega
  | expire k l hal hd hl hx => subst hd; exact Nat.le_refl _

theorem sent_mono_run (s : Sub C) (evs : List (Ev C)) : s.sent.length ≤ (run s evs).sent.length := by
  induction evs using snocInd with
  | nil => exact Nat.le_refl _
  | append_singleton evs e ih => rw [run_snoc]; exact Nat.le_trans ih (sent_mono _ e)

/-- **C47 (timely).** From any state of a living subscription, `maxKeepAliveCount` publishing cycles
that find a request do not pass without a message, whatever other requests are served in between and
whatever data there is. -/
theorem C47_timely (s : Sub C) (evs : List (Ev C)) (ha : s.alive = true) (hk : 0 < s.maxKeepAlive)
    (hu : ∀ e ∈ evs, undisturbed e = true) (hc : s.maxKeepAlive ≤ (evs.filter served).length) :
    s.sent.length < (run s evs).sent.length := by
  suffices h : ∀ (evs : List (Ev C)) (s : Sub C), s.alive = true → 0 < s.maxKeepAlive →
      (∀ e ∈ evs, undisturbed e = true) → (run s evs).sent.length ≤ s.sent.length →
      (evs.filter served) = [] ∨ s.keepAlive + (evs.filter served).length < s.maxKeepAlive by
    rcases Nat.lt_or_ge s.sent.length (run s evs).sent.length with h1 | h1
    · exact h1
    · rcases h evs s ha hk hu h1 with h2 | h2
      · rw [h2] at hc; simp at hc; omega
      · omega
  intro evs
  induction evs with
  | nil => intro s _ _ _ _; exact .inl rfl
  | cons e evs ih =>
    intro s ha hk hu hs
    rw [run_cons] at hs
    have h1 : (step s e).sent.length ≤ s.sent.length :=
      Nat.le_trans (sent_mono_run (step s e) evs) hs
    obtain ⟨g1, g2, g3, g4⟩ := undisturbed_step s e (hu e (by simp)) ha h1
    have := ih (step s e) g2 (by rw [g1]; exact hk) (fun x hx => hu x (List.mem_cons_of_mem _ hx))
      (Nat.le_trans hs (sent_mono s e))
    rw [g1] at this
    cases hse : served e with
    | false =>
      rw [List.filter_cons_of_neg (by simp [hse])]
      rw [g3 hse] at this
      exact this
    | true =>
      obtain ⟨g5, g6⟩ := g4 hse
      rw [List.filter_cons_of_pos hse]
      right
      rw [List.length_cons]
      rcases this with h | h
      · rw [h]; simp; omega
      · rw [g5] at h; omega

/-- Ten cycles without data, an acknowledgement among them: the tenth sends the keep-alive. -/
example :
    let s := run (new true 30 10 : Sub Nat) [.cycle (some (1, false)) (.some [] true)]
    let idle : List (Ev Nat) := List.replicate 9 (.cycle none (.some [] true))
    (run s idle).sent.length = 1 ∧ (run s (idle ++ [.ack 1, .cycle none (.some [] true)])).sent.length = 2
    ∧ (∀ e ∈ idle ++ [.ack 1, .cycle none (.some [] true)], undisturbed e = true) := by
  decide

/-- After a message the keep-alive counter starts again. -/
theorem sent_fresh (s : Sub C) (e : Ev C) (h : s.sent.length < (step s e).sent.length) :
    (step s e).keepAlive = 0 := by
  have hk := step_kind s e
  generalize step s e = s' at *
  cases hk with
  | quiet hs hp hn hpc ha hc hq => rw [hs] at h; exact absurd h (Nat.lt_irrefl _)
  | data c more results ok late halive hd hx =>
    subst hd
    cases ok with
    | false => exact absurd h (Nat.lt_irrefl _)
    | true => rfl
  | keepAlive k results halive hd hx => subst hd; rfl
  | expire k l halive hd hl hx => subst hd; exact absurd h (Nat.lt_irrefl _)

/-- **C47 (sparing).** After a message, fewer than `maxKeepAliveCount` cycles without data send nothing,
whether or not requests are queued. (The message counter wraps around to zero after 2^32 messages; the
next cycle then sends a keep-alive at once.) -/
theorem C47_sparing (s : Sub C) (e : Ev C) (h : s.sent.length < (step s e).sent.length)
    (h2 : (step s e).pubCount ≠ 0) (reqs : List Req)
    (hn : reqs.length < (step s e).maxKeepAlive) :
    (run (step s e) (reqs.map (.cycle none ·))).sent = (step s e).sent := by
  have h1 := sent_fresh s e h
  generalize step s e = t at *
  suffices hh : ∀ (reqs : List Req) (t : Sub C), t.pubCount ≠ 0 → t.keepAlive + reqs.length < t.maxKeepAlive →
      (run t (reqs.map (.cycle none ·))).sent = t.sent from hh reqs t h2 (by omega)
  intro reqs
  induction reqs with
  | nil => intro t _ _; rfl
  | cons r reqs ih =>
    intro t hp hl
    rw [List.length_cons] at hl
    rw [List.map_cons, run_cons]
    have hst : step t (.cycle none r) = t ∨ step t (.cycle none r) = { t with keepAlive := t.keepAlive + 1 } := by
      unfold step
      split
      · exact .inl rfl
      · dsimp only [cycle]
        rename_i ha
        rw [if_neg ha]
        have : (if t.enabled = true then (none : Option (C × Bool)) else none) = none := by split <;> rfl
        rw [this]
        dsimp only
        rw [if_neg (by intro hh; rcases hh with hh | hh; omega; exact hp hh)]
        exact .inr rfl
    rcases hst with e | e
    · rw [e]; exact ih t hp (by omega)
    · rw [e]; exact ih _ hp (by show t.keepAlive + 1 + reqs.length < t.maxKeepAlive; omega)

example :
    let s := (new true 30 10 : Sub Nat)
    s.sent.length < (step s (.cycle (some (1, false)) (.some [] true))).sent.length
    ∧ (step s (.cycle (some (1, false)) (.some [] true))).pubCount ≠ 0
    ∧ (List.replicate 9 (Req.some [] true)).length < (step s (.cycle (some (1, false)) (.some [] true))).maxKeepAlive := by
  decide

/-! ### C48 -/

/-- A cycle in which no publish request is available. -/
def unserved : Ev C → Bool
  | .cycle _ .none => true
  | _ => false

/-- What the lifetime counter counts. -/
theorem lifetime_counts (en : Bool) (l k : Nat) (evs : List (Ev C)) :
    ∃ a b, evs = a ++ b ∧ (run (new en l k) evs).sent = (run (new en l k) a).sent
      ∧ (run (new en l k) evs).lifetime ≤ (b.filter unserved).length
      ∧ (run (new en l k) evs).maxLifetime = (run (new en l k) a).maxLifetime := by
  induction evs using snocInd with
  | nil => exact ⟨[], [], rfl, rfl, Nat.le_refl _, rfl⟩
  | append_singleton evs e ih =>
    obtain ⟨a, b, hab, hs, hl, hml⟩ := ih
    have fresh : ∀ s' : Sub C, run (new en l k) (evs ++ [e]) = s' → s'.lifetime = 0 →
        ∃ a b, evs ++ [e] = a ++ b ∧ (run (new en l k) (evs ++ [e])).sent = (run (new en l k) a).sent
          ∧ (run (new en l k) (evs ++ [e])).lifetime ≤ (b.filter unserved).length
          ∧ (run (new en l k) (evs ++ [e])).maxLifetime = (run (new en l k) a).maxLifetime := by
      intro s' h h0
      exact ⟨evs ++ [e], [], by simp, rfl, by rw [h, h0]; exact Nat.zero_le _, rfl⟩
    have extend : ∀ s' : Sub C, run (new en l k) (evs ++ [e]) = s' →
        s'.sent = (run (new en l k) evs).sent →
        s'.lifetime ≤ (run (new en l k) evs).lifetime + ([e].filter unserved).length →
        s'.maxLifetime = (run (new en l k) evs).maxLifetime →
        ∃ a b, evs ++ [e] = a ++ b ∧ (run (new en l k) (evs ++ [e])).sent = (run (new en l k) a).sent
          ∧ (run (new en l k) (evs ++ [e])).lifetime ≤ (b.filter unserved).length
          ∧ (run (new en l k) (evs ++ [e])).maxLifetime = (run (new en l k) a).maxLifetime := by
      intro s' h h1 h2 h3
      refine ⟨a, b ++ [e], by rw [hab]; simp, by rw [h, h1, hs], ?_, by rw [h, h3, hml]⟩
      rw [h, List.filter_append, List.length_append]
      omega
    have hrun := run_snoc (new en l k : Sub C) evs e
    generalize run (new en l k) evs = s at *
    unfold step at hrun
    by_cases ha : s.alive = false
    · rw [if_pos ha] at hrun
      exact extend s hrun rfl (by omega) rfl
    rw [if_neg ha] at hrun
    cases e with
    | cycle data req =>
      dsimp only [cycle] at hrun
      rw [if_neg ha] at hrun
      split at hrun
      · next c more _ =>
        cases req with
        | none =>
          dsimp only at hrun
          split at hrun
          · exact extend _ hrun rfl (Nat.le_refl _) rfl
          · exact extend _ hrun rfl (Nat.le_refl _) rfl
        | failed => exact extend _ hrun rfl (Nat.le_add_right _ _) rfl
        | some results ok =>
          cases ok with
          | true => exact fresh _ hrun rfl
          | false => exact extend _ hrun rfl (Nat.le_add_right _ _) rfl
      · split at hrun
        · cases req with
          | none =>
            dsimp only at hrun
            split at hrun
            · exact extend _ hrun rfl (Nat.le_refl _) rfl
            · exact extend _ hrun rfl (Nat.le_refl _) rfl
          | failed => exact extend _ hrun rfl (Nat.le_add_right _ _) rfl
          | some results ok =>
            cases ok with
            | true => exact fresh _ hrun rfl
            | false => exact extend _ hrun rfl (Nat.le_add_right _ _) rfl
        · exact extend _ hrun rfl (Nat.le_add_right _ _) rfl
    | late data results ok =>
      dsimp only [late] at hrun
      split at hrun
      · exact extend _ hrun rfl (Nat.le_add_right _ _) rfl
      · split at hrun
        · cases ok with
          | true => exact fresh _ hrun rfl
          | false => exact extend _ hrun rfl (Nat.le_add_right _ _) rfl
        · split at hrun
          · cases ok with
            | true => exact fresh _ hrun rfl
            | false => exact extend _ hrun rfl (Nat.le_add_right _ _) rfl
          · exact extend _ hrun rfl (Nat.le_add_right _ _) rfl
    | ack n => exact extend _ hrun rfl (Nat.le_add_right _ _) rfl
    | republish n ok =>
      refine fresh _ hrun ?_
      dsimp only [republish]
      split
      · rfl
      · cases ok <;> rfl
    | setMode b => exact fresh _ hrun rfl
    | touch => exact fresh _ hrun rfl
    | modify l k => exact fresh _ hrun rfl

theorem alive_or_expired (s : Sub C) (e : Ev C) (ha : s.alive = true) (hd : (step s e).alive = false) :
    s.maxLifetime ≤ (step s e).lifetime ∧ (step s e).maxLifetime = s.maxLifetime := by
  have ha' : ¬ s.alive = false := by simp [ha]
  unfold step at *
  rw [if_neg ha'] at *
  cases e with
  | cycle data req =>
    dsimp only [cycle] at *
    rw [if_neg ha'] at *
    split at hd
    · next h =>
      cases req with
      | none =>
        dsimp only at *
        split at hd
        · next hl => rw [if_pos hl]; exact ⟨hl, rfl⟩
        · exact absurd hd ha'
      | failed => exact absurd hd ha'
      | some r ok => cases ok <;> exact absurd hd ha'
    · split at hd
      · next hk =>
        rw [if_pos hk]
        cases req with
        | none =>
          dsimp only at *
          split at hd
          · next hl => rw [if_pos hl]; exact ⟨Nat.le_of_eq hl.symm, rfl⟩
          · exact absurd hd ha'
        | failed => exact absurd hd ha'
        | some r ok => cases ok <;> exact absurd hd ha'
      · exact absurd hd ha'
  | late data results ok =>
    dsimp only [late] at *
    split at hd
    · exact absurd hd ha'
    · split at hd
      · cases ok <;> exact absurd hd ha'
      · split at hd
        · cases ok <;> exact absurd hd ha'
        · exact absurd hd ha'
  | ack n => exact absurd hd ha'
  | republish n ok =>
    dsimp only [republish] at hd
    split at hd
    · exact absurd hd ha'
    · cases ok <;> exact absurd hd ha'
  | setMode b => exact absurd hd ha'
  | touch => exact absurd hd ha'
  | modify l k => exact absurd hd ha'

/-- **C48 (not too early).** A subscription expires only if the history ends with a part in which the
client got no message and in which at least `maxLifetimeCount` cycles found no publish request. These
cycles need not follow one another, see `C48_not_consecutive_fails`. -/
theorem C48_not_early_partial (en : Bool) (l k : Nat) (evs : List (Ev C)) (e : Ev C)
    (ha : (run (new en l k) evs).alive = true) (hd : (run (new en l k) (evs ++ [e])).alive = false) :
    ∃ a b, evs ++ [e] = a ++ b ∧ (run (new en l k) (evs ++ [e])).sent = (run (new en l k) a).sent
      ∧ (run (new en l k) evs).maxLifetime ≤ (b.filter unserved).length := by
  obtain ⟨a, b, h1, h2, h3, _⟩ := lifetime_counts en l k (evs ++ [e])
  refine ⟨a, b, h1, h2, Nat.le_trans ?_ h3⟩
  rw [run_snoc] at hd ⊢
  exact (alive_or_expired _ e ha hd).1

example : (run (new true 3 2 : Sub Nat) (history1.take 8)).alive = true
    ∧ (run (new true 3 2 : Sub Nat) (history1.take 8 ++ [.cycle (some (9, false)) .none])).alive = false := by decide

/-- **C48 fails (consecutive).** Cycles in which the keep-alive is not due do not look for a request
and do not reset the counter. Here three cycles without a request, with cycles in between for which
requests were queued, end a subscription whose lifetime is three cycles. -/
theorem C48_not_consecutive_fails :
    let evs : List (Ev Nat) :=
      [.cycle none (.some [] true), .cycle (some (1, false)) .none, .cycle none (.some [] true),
       .cycle (some (1, false)) .none, .cycle none (.some [] true), .cycle (some (1, false)) .none]
    (run (new true 3 5) evs).alive = false := by decide

/-- While a subscription lives its counter is below the limit, so the check for expired subscriptions
that runs every minute finds none (`IsExpired`, subscription.go:88-92). -/
theorem C48_below_limit (en : Bool) (l k : Nat) (hl : 0 < l) (evs : List (Ev C))
    (hm : ∀ l' k', Ev.modify l' k' ∈ evs → 0 < l') (ha : (run (new en l k) evs).alive = true) :
    (run (new en l k) evs).lifetime < (run (new en l k) evs).maxLifetime := by
  suffices h : ((run (new en l k) evs).alive = true →
      (run (new en l k) evs).lifetime < (run (new en l k) evs).maxLifetime)
      ∧ 0 < (run (new en l k) evs).maxLifetime from h.1 ha
  clear ha
  induction evs using snocInd with
  | nil => exact ⟨fun _ => hl, hl⟩
  | append_singleton evs e ih =>
    obtain ⟨i1, i2⟩ := ih (fun l' k' h => hm l' k' (List.mem_append_left _ h))
    have hm' : ∀ l' k', e = .modify l' k' → 0 < l' := fun l' k' h => hm l' k' (by simp [h])
    rw [run_snoc]
    generalize run (new en l k) evs = s at *
    unfold step
    by_cases ha : s.alive = false
    · rw [if_pos ha]; exact ⟨i1, i2⟩
    rw [if_neg ha]
    have i1 := i1 (by simpa using ha)
    cases e with
    | cycle data req =>
      dsimp only [cycle]
      rw [if_neg ha]
      split
      · cases req with
        | none =>
          dsimp only
          split
          · exact ⟨fun h => (by cases h), i2⟩
          · next h => exact ⟨fun _ => Nat.lt_of_not_le h, i2⟩
        | failed => exact ⟨fun _ => i1, i2⟩
        | some r ok => cases ok <;> exact ⟨fun _ => (by first | exact i2 | exact i1), i2⟩
      · split
        · cases req with
          | none =>
            dsimp only
            split
            · exact ⟨fun h => (by cases h), i2⟩
            · next h => exact ⟨fun _ => by dsimp only; omega, i2⟩
          | failed => exact ⟨fun _ => i1, i2⟩
          | some r ok => cases ok <;> exact ⟨fun _ => (by first | exact i2 | exact i1), i2⟩
        · exact ⟨fun _ => i1, i2⟩
    | late data results ok =>
      dsimp only [late]
      split
      · exact ⟨fun _ => i1, i2⟩
      · split
        · cases ok <;> exact ⟨fun _ => (by first | exact i2 | exact i1), i2⟩
        · split
          · cases ok <;> exact ⟨fun _ => (by first | exact i2 | exact i1), i2⟩
          · exact ⟨fun _ => i1, i2⟩
    | ack n => exact ⟨fun _ => i1, i2⟩
    | republish n ok =>
      dsimp only [republish]
      split
      · exact ⟨fun _ => i2, i2⟩
      · cases ok <;> exact ⟨fun _ => i2, i2⟩
    | setMode b => exact ⟨fun _ => i2, i2⟩
    | touch => exact ⟨fun _ => i2, i2⟩
    | modify l' k' => exact ⟨fun _ => hm' l' k' rfl, hm' l' k' rfl⟩

example : (run (new true 3 2 : Sub Nat) (history1.take 8)).lifetime = 2 := by decide

/-- Events that do not keep a subscription alive: cycles without a request, and acknowledgements. -/
def idle : Ev C → Bool
  | .cycle _ .none => true
  | .ack _ => true
  | _ => false

/-- **C48 (not too late).** After `maxKeepAliveCount + maxLifetimeCount` cycles in a row that find no
request, the subscription is deleted and has left exactly one status change for the client. -/
theorem C48_not_late (en : Bool) (l k : Nat) (hl : 0 < l) (evs b : List (Ev C))
    (hm : ∀ l' k', Ev.modify l' k' ∈ evs → 0 < l') (hb : ∀ e ∈ b, idle e = true)
    (hc : (run (new en l k) evs).maxKeepAlive + (run (new en l k) evs).maxLifetime ≤ (b.filter unserved).length) :
    (run (new en l k) (evs ++ b)).alive = false ∧ (run (new en l k) (evs ++ b)).statusChanges.length = 1 := by
  suffices h : (run (new en l k) (evs ++ b)).alive = false by
    exact ⟨h, by rw [(seqInv en l k (evs ++ b)).status h]; rfl⟩
  refine Classical.byContradiction fun hna => ?_
  have halive : (run (new en l k) (evs ++ b)).alive = true := by simpa using hna
  rw [run_append] at halive
  have hlt : (run (new en l k) evs).alive = true →
      (run (new en l k) evs).lifetime < (run (new en l k) evs).maxLifetime := C48_below_limit en l k hl evs hm
  generalize run (new en l k) evs = s at *
  have dead : ∀ (b : List (Ev C)) (s : Sub C), s.alive = false → run s b = s := by
    intro b
    induction b with
    | nil => intro s _; rfl
    | cons e b ih => intro s h; rw [run_cons, show step s e = s by unfold step; rw [if_pos h]]; exact ih s h
  have hs : s.alive = true := by
    rcases Bool.eq_false_or_eq_true s.alive with h | h
    · exact h
    · rw [dead b s h] at halive; exact halive
  have key : ∀ (b : List (Ev C)) (s : Sub C), s.alive = true → s.lifetime < s.maxLifetime →
      (∀ e ∈ b, idle e = true) → (run s b).alive = true →
      (b.filter unserved).length + s.lifetime + min s.keepAlive s.maxKeepAlive < s.maxKeepAlive + s.maxLifetime := by
    intro b
    induction b with
    | nil => intro s _ h _ _; simp only [List.filter_nil, List.length_nil]; omega
    | cons e b ih =>
      intro s ha hlt hi hr
      have ha' : ¬ s.alive = false := by simp [ha]
      rw [run_cons] at hr
      have hi' : ∀ e ∈ b, idle e = true := fun x hx => hi x (List.mem_cons_of_mem _ hx)
      have hsa : (step s e).alive = true := by
        rcases Bool.eq_false_or_eq_true (step s e).alive with h | h
        · exact h
        · rw [dead b _ h] at hr; exact hr
      have hie := hi e (by simp)
      cases e with
      | late d r ok => cases hie
      | republish n ok => cases hie
      | setMode x => cases hie
      | touch => cases hie
      | modify x y => cases hie
      | ack n =>
        rw [List.filter_cons_of_neg (by simp [unserved])]
        have e1 : step s (.ack n) = { s with queue := removeFirst s.queue n } := by
          unfold step; rw [if_neg ha']; rfl
        rw [e1] at hr
        exact ih { s with queue := removeFirst s.queue n } ha hlt hi' hr
      | cycle d req =>
        cases req with
        | failed => cases hie
        | some r ok => cases hie
        | none =>
          rw [List.filter_cons_of_pos rfl, List.length_cons]
          have hcyc : step s (.cycle d .none) = cycle s d .none := by unfold step; rw [if_neg ha']
          rw [hcyc] at hr hsa
          have hstep : ((cycle s d .none).lifetime = s.lifetime + 1 ∧ s.keepAlive ≤ (cycle s d .none).keepAlive
              ∧ (cycle s d .none).maxKeepAlive = s.maxKeepAlive ∧ (cycle s d .none).maxLifetime = s.maxLifetime
              ∧ s.lifetime + 1 < s.maxLifetime)
            ∨ ((cycle s d .none).lifetime = s.lifetime ∧ (cycle s d .none).keepAlive = s.keepAlive + 1
              ∧ s.keepAlive + 1 < s.maxKeepAlive
              ∧ (cycle s d .none).maxKeepAlive = s.maxKeepAlive ∧ (cycle s d .none).maxLifetime = s.maxLifetime) := by
            unfold cycle at hsa ⊢
            rw [if_neg ha'] at hsa ⊢
            split
            · next heq =>
              rw [heq] at hsa
              dsimp only at hsa ⊢
              split
              · next h => rw [if_pos h] at hsa; cases hsa
              · next h => exact .inl ⟨rfl, Nat.le_refl _, rfl, rfl, Nat.lt_of_not_le h⟩
            · next heq =>
              rw [heq] at hsa
              dsimp only at hsa ⊢
              split
              · next hk =>
                rw [if_pos hk] at hsa
                split
                · next h => rw [if_pos h] at hsa; cases hsa
                · next h => exact .inl ⟨rfl, Nat.le_succ _, rfl, rfl, by omega⟩
              · next hk => exact .inr ⟨rfl, rfl, by omega, rfl, rfl⟩
          rcases hstep with ⟨g1, g2, g3, g4, g5⟩ | ⟨g1, g2, g3, g4, g5⟩
          · have := ih (cycle s d .none) hsa (by rw [g1, g4]; exact g5) hi' hr
            rw [g1, g3, g4] at this
            omega
          · have := ih (cycle s d .none) hsa (by rw [g1, g5]; exact hlt) hi' hr
            rw [g1, g2, g4, g5] at this
            omega
  have := key b s hs (hlt hs) hb halive
  omega

/-- One message, then seven cycles without a request for keep-alive count 2 and lifetime 5; the client
acknowledges the message meanwhile. -/
example :
    let evs : List (Ev Nat) := [.cycle (some (1, false)) (.some [] true)]
    let b : List (Ev Nat) := .ack 1 :: List.replicate 7 (.cycle none .none)
    (run (new true 5 2) (evs ++ b)).statusChanges = [2] ∧ (∀ e ∈ b, idle e = true)
    ∧ (run (new true 5 2) evs).maxKeepAlive + (run (new true 5 2) evs).maxLifetime ≤ (b.filter unserved).length := by
  decide

/-! ### C85 -/

/-- The publishing mode that was asked for last. -/
def modeAsked (en : Bool) (evs : List (Ev C)) : Bool :=
  evs.foldl (fun b e => match e with | .setMode b' => b' | _ => b) en

/-- What the step brings to the client. -/
def news (s s' : Sub C) : List (Msg C × Bool) := (s'.sent.drop s.sent.length).map (fun r => (r.msg, r.more))

theorem step_enabled (s : Sub C) (e : Ev C) (ha : s.alive = true) :
    (step s e).enabled = (match e with | .setMode b' => b' | _ => s.enabled) := by
  unfold step
  rw [if_neg (by simp [ha])]
  cases e with
  | cycle data req =>
    dsimp only [cycle]
    rw [if_neg (by simp [ha])]
    split
    · cases req with
      | none => dsimp only; split <;> rfl
      | failed => rfl
      | some r ok => dsimp only [sendData]; split <;> rfl
    · split
      · cases req with
        | none => dsimp only; split <;> rfl
        | failed => rfl
        | some r ok => dsimp only [sendKeepAlive]; split <;> rfl
      · rfl
  | late data r ok =>
    dsimp only [late]
    split
    · rfl
    · split
      · dsimp only [sendData]; split <;> rfl
      · split
        · dsimp only [sendKeepAlive]; split <;> rfl
        · rfl
  | ack n => rfl
  | republish n ok =>
    dsimp only [republish]
    split
    · rfl
    · split <;> rfl
  | setMode b => rfl
  | modify l k => rfl
  | touch => rfl

theorem mode_run (en : Bool) (l k : Nat) (evs : List (Ev C)) (ha : (run (new en l k) evs).alive = true) :
    (run (new en l k) evs).enabled = modeAsked en evs := by
  induction evs using snocInd with
  | nil => rfl
  | append_singleton evs e ih =>
    rw [run_snoc] at ha ⊢
    have halive : (run (new en l k) evs).alive = true := by
      cases h : (run (new en l k) evs).alive with
      | true => rfl
      | false => simp [step, h] at ha
    rw [step_enabled _ _ halive, modeAsked, List.foldl_append, ih halive]
    rfl

/-- **C85 (disabled).** While publishing is disabled no notifications are sent, only keep-alives. -/
theorem C85_disabled (en : Bool) (l k : Nat) (evs : List (Ev C)) (e : Ev C) (hm : modeAsked en evs = false) :
    ∀ m ∈ news (run (new en l k) evs) (run (new en l k) (evs ++ [e])), m.1.body = none := by
  rw [run_snoc]
  cases ha : (run (new en l k) evs).alive with
  | false =>
    simp [step, ha, news]
  | true =>
    have hen := mode_run en l k evs ha
    rw [hm] at hen
    generalize run (new en l k) evs = s at *
    have hnil : ∀ s' : Sub C, s'.sent = s.sent → ∀ m ∈ news s s', m.1.body = none := by
      intro s' h m hm
      simp [news, h] at hm
    have hka : ∀ (s0 : Sub C) r ok, s0.sent = s.sent → ∀ m ∈ news s (sendKeepAlive s0 r ok), m.1.body = none := by
      intro s0 r ok h
      cases ok with
      | false => exact hnil _ h
      | true =>
        intro m hm
        have : m ∈ (([⟨s0.queue.map (·.1), false, ⟨s0.nextSeq, none⟩, r⟩] : List (Resp C)).map fun r => (r.msg, r.more)) := by
          simpa [news, sendKeepAlive, h] using hm
        simp at this
        rw [this]
    unfold step
    rw [if_neg (by simp [ha])]
    cases e with
    | cycle data req =>
      have hd : (if s.enabled = true then data else none) = none := by rw [hen]; rfl
      dsimp only [cycle]
      rw [if_neg (by simp [ha]), hd]
      dsimp only
      split
      · cases req with
        | none => dsimp only; split <;> exact hnil _ rfl
        | failed => exact hnil _ rfl
        | some r ok => exact hka _ r ok rfl
      · exact hnil _ rfl
    | late data r ok =>
      have hd : (if s.enabled = true then data else none) = none := by rw [hen]; rfl
      dsimp only [late]
      split
      · exact hnil _ rfl
      · rw [hd]
        dsimp only
        split
        · exact hka _ _ ok rfl
        · exact hnil _ rfl
    | ack n => exact hnil _ rfl
    | republish n ok =>
      dsimp only [republish]
      split
      · exact hnil _ rfl
      · split <;> exact hnil _ rfl
    | setMode b => exact hnil _ rfl
    | modify l k => exact hnil _ rfl
    | touch => exact hnil _ rfl

/-- **C85 (enabled).** While publishing is enabled, the notifications that are available go out with the
first publish request: in a publishing cycle, or at once if the subscription is late. -/
theorem C85_enabled (en : Bool) (l k : Nat) (evs : List (Ev C)) (c : C) (more : Bool) (results : List AckStatus)
    (hm : modeAsked en evs = true) (ha : (run (new en l k) evs).alive = true) :
    (∃ n, news (run (new en l k) evs) (run (new en l k) (evs ++ [.cycle (some (c, more)) (.some results true)]))
        = [(⟨n, some c⟩, more)])
    ∧ ((run (new en l k) evs).isLate = true →
      ∃ n, news (run (new en l k) evs) (run (new en l k) (evs ++ [.late (some (c, more)) results true]))
        = [(⟨n, some c⟩, more)]) := by
  have hen := mode_run en l k evs ha
  rw [hm] at hen
  rw [run_snoc, run_snoc]
  generalize run (new en l k) evs = s at *
  constructor
  · refine ⟨s.nextSeq, ?_⟩
    simp [step, ha, cycle, hen, sendData, news]
  · intro hl
    refine ⟨s.nextSeq, ?_⟩
    simp [step, ha, late, hl, hen, sendData, news]

/-- **C85 (late).** A subscription that had notifications and found no request is late, so the next
request gets them at once. -/
theorem C85_late (en : Bool) (l k : Nat) (evs : List (Ev C)) (c : C) (more : Bool) (hm : modeAsked en evs = true)
    (ha : (run (new en l k) (evs ++ [.cycle (some (c, more)) .none])).alive = true) :
    (run (new en l k) (evs ++ [.cycle (some (c, more)) .none])).isLate = true := by
  rw [run_snoc] at ha ⊢
  have halive : (run (new en l k) evs).alive = true := by
    cases h : (run (new en l k) evs).alive with
    | true => rfl
    | false => simp [step, h] at ha
  have hen := mode_run en l k evs halive
  rw [hm] at hen
  generalize run (new en l k) evs = s at *
  simp only [step, halive, cycle, hen, if_true] at ha ⊢
  simp only [reduceCtorEq, if_false] at ha ⊢
  split at ha
  · simp [expire] at ha
  · next h => rw [if_neg h]

example :
    let s := run (new true 30 10 : Sub Nat) [.cycle (some (5, false)) .none]
    modeAsked true [.cycle (some (5, false)) .none] = true ∧ s.alive = true ∧ s.isLate = true
    ∧ news s (step s (.late (some (5, false)) [] true)) = [(⟨1, some 5⟩, false)]
    ∧ news s (run s [.setMode false, .late (some (5, false)) [] true]) = [(⟨1, none⟩, false)] := by decide

end Opcua.Subscription
