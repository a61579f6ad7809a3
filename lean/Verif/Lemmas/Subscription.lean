import Verif.Model.Subscription
import Verif.Lemmas.Lists

/-! What one step of a subscription can do. -/

namespace Opcua.Subscription

variable {C : Type}

theorem run_append (s : Sub C) (a b : List (Ev C)) : run s (a ++ b) = run (run s a) b := by
  simp [run, List.foldl_append]

theorem run_snoc (s : Sub C) (a : List (Ev C)) (e : Ev C) : run s (a ++ [e]) = step (run s a) e := by
  simp [run]

theorem run_nil (s : Sub C) : run s [] = s := rfl

theorem run_cons (s : Sub C) (e : Ev C) (a : List (Ev C)) : run s (e :: a) = run (step s e) a := rfl

/-- The ways a step can go. -/
inductive Kind (s : Sub C) (e : Ev C) (s' : Sub C) : Prop where
  /-- Nothing is sent. -/
  | quiet (hs : s'.sent = s.sent) (hp : s'.produced = s.produced) (hn : s'.nextSeq = s.nextSeq)
      (hpc : s'.pubCount = s.pubCount) (ha : s'.alive = s.alive) (hc : s'.statusChanges = s.statusChanges)
      (hq : s'.queue = s.queue
        ∨ ∃ n, s'.queue = removeFirst s.queue n ∧ (e = .ack n ∨ e = .republish n true))
  /-- A notification message is made. -/
  | data (c : C) (more : Bool) (results : List AckStatus) (ok late : Bool) (halive : s.alive = true)
      (h : s' = sendData s c more results ok late)
      (he : (∃ d, e = .cycle d (.some results ok)) ∨ ∃ d, e = .late d results ok)
  /-- A keep-alive is sent. -/
  | keepAlive (k : Nat) (results : List AckStatus) (halive : s.alive = true)
      (h : s' = sendKeepAlive { s with keepAlive := k } results true)
      (he : (∃ d, e = .cycle d (.some results true)) ∨
        ∃ d r, e = .late d r true ∧ results = List.replicate r.length .good)
  /-- The subscription expires. -/
  | expire (k l : Nat) (halive : s.alive = true)
      (h : s' = expire { s with keepAlive := k, isLate := true, lifetime := l })
      (hl : s.lifetime + 1 = l) (he : ∃ d, e = .cycle d .none)

theorem step_kind (s : Sub C) (e : Ev C) : Kind s e (step s e) := by
  unfold step
  by_cases ha : s.alive = false
  · rw [if_pos ha]; exact .quiet rfl rfl rfl rfl rfl rfl (.inl rfl)
  have ha' : s.alive = true := by simpa using ha
  rw [if_neg ha]
  cases e with
  | cycle data req =>
    dsimp only [cycle]
    rw [if_neg ha]
    split
    · next c more _ =>
      cases req with
      | none =>
        dsimp only
        split
        · exact .expire s.keepAlive _ ha' rfl rfl ⟨_, rfl⟩
        · exact .quiet rfl rfl rfl rfl rfl rfl (.inl rfl)
      | failed => exact .quiet rfl rfl rfl rfl rfl rfl (.inl rfl)
      | some results ok => exact .data c more results ok false ha' rfl (.inl ⟨_, rfl⟩)
    · split
      · cases req with
        | none =>
          dsimp only
          split
          · exact .expire _ _ ha' rfl rfl ⟨_, rfl⟩
          · exact .quiet rfl rfl rfl rfl rfl rfl (.inl rfl)
        | failed => exact .quiet rfl rfl rfl rfl rfl rfl (.inl rfl)
        | some results ok =>
          cases ok with
          | true => exact .keepAlive _ results ha' rfl (.inl ⟨_, rfl⟩)
          | false => exact .quiet rfl rfl rfl rfl rfl rfl (.inl rfl)
      · exact .quiet rfl rfl rfl rfl rfl rfl (.inl rfl)
  | late data results ok =>
    dsimp only [late]
    split
    · exact .quiet rfl rfl rfl rfl rfl rfl (.inl rfl)
    · split
      · next c more _ => exact .data c more results ok true ha' rfl (.inr ⟨_, rfl⟩)
      · split
        · cases ok with
          | true => exact .keepAlive s.keepAlive _ ha' rfl (.inr ⟨_, _, rfl, rfl⟩)
          | false => exact .quiet rfl rfl rfl rfl rfl rfl (.inl rfl)
        · exact .quiet rfl rfl rfl rfl rfl rfl (.inl rfl)
  | ack n => exact .quiet rfl rfl rfl rfl rfl rfl (.inr ⟨n, rfl, .inl rfl⟩)
  | republish n ok =>
    dsimp only [republish]
    split
    · exact .quiet rfl rfl rfl rfl rfl rfl (.inl rfl)
    · cases ok with
      | true => exact .quiet rfl rfl rfl rfl rfl rfl (.inr ⟨n, rfl, .inr rfl⟩)
      | false => exact .quiet rfl rfl rfl rfl rfl rfl (.inl rfl)
  | setMode b => exact .quiet rfl rfl rfl rfl rfl rfl (.inl rfl)
  | modify l k => exact .quiet rfl rfl rfl rfl rfl rfl (.inl rfl)
  | touch => exact .quiet rfl rfl rfl rfl rfl rfl (.inl rfl)

theorem removeFirst_sublist (q : List (BitVec 32 × C)) (n : BitVec 32) : (removeFirst q n).Sublist q := by
  induction q with
  | nil => exact .slnil
  | cons m q ih =>
    simp only [removeFirst]
    split
    · exact List.sublist_cons_self m q
    · exact ih.cons_cons m

theorem mem_removeFirst {q : List (BitVec 32 × C)} {n : BitVec 32} {m : BitVec 32 × C} (h : m ∈ q)
    (hn : m.1 ≠ n) : m ∈ removeFirst q n := by
  induction q with
  | nil => cases h
  | cons a q ih =>
    simp only [removeFirst]
    rcases List.mem_cons.1 h with rfl | h
    · rw [if_neg hn]; exact List.mem_cons_self
    · split
      · exact h
      · exact List.mem_cons_of_mem _ (ih h)

theorem trim_length (q : List (BitVec 32 × C)) (h : q.length ≤ 128) : (trim q).length ≤ 127 := by
  unfold trim
  have : maxQueue = 128 := rfl
  split
  · rw [List.length_tail]; omega
  · omega

theorem trim_sublist (q : List (BitVec 32 × C)) : (trim q).Sublist q := by
  unfold trim
  split
  · exact List.tail_sublist q
  · exact .refl q

end Opcua.Subscription
