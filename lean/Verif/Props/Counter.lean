import Verif.Model.Counter
import Verif.Lemmas.Channel

/-! Property C26: counters. -/
namespace Opcua.Counter
open Opcua.Channel (nextSeq seqFrom)

/-- The value after `n` draws. -/
def after (v : BitVec 32) : Nat → BitVec 32
  | 0 => v
  | n + 1 => after (nextSeq v) n

theorem seqFrom_snoc (v : BitVec 32) (n : Nat) : seqFrom v (n + 1) = seqFrom v n ++ [nextSeq (after v n)] := by
  induction n generalizing v with
  | zero => rfl
  | succ n ih =>
    rw [seqFrom, ih (nextSeq v)]
    rfl

theorem after_succ (v : BitVec 32) (n : Nat) : after v (n + 1) = nextSeq (after v n) := by
  induction n generalizing v with
  | zero => rfl
  | succ n ih => rw [after, ih]; rfl

/-- For every interleaving of the load and compare-and-swap steps of any number of callers, the
numbers handed out are, in order, the successive values of the counter: none is skipped, none is
handed out twice for one advance. -/
theorem C26_interleaving (s : State) (evs : List Ev) :
    ∃ n, (run s evs).draws.map Prod.snd = s.draws.map Prod.snd ++ seqFrom s.val n ∧
      (run s evs).val = after s.val n := by
  suffices h : ∀ (evs : List Ev) (t : State) (n : Nat), t.draws.map Prod.snd = s.draws.map Prod.snd ++ seqFrom s.val n →
      t.val = after s.val n → ∃ m, (run t evs).draws.map Prod.snd = s.draws.map Prod.snd ++ seqFrom s.val m ∧
        (run t evs).val = after s.val m from h evs s 0 (by simp [seqFrom]) rfl
  intro evs
  induction evs with
  | nil => intro t n h1 h2; exact ⟨n, h1, h2⟩
  | cons e evs ih =>
    intro t n h1 h2
    cases e with
    | load u => exact ih _ n h1 h2
    | cas u =>
      have hstep : run t (.cas u :: evs) = run (step t (.cas u)) evs := rfl
      rw [hstep]
      cases hl : t.loaded u with
      | none =>
        have : step t (.cas u) = t := by simp [step, hl]
        rw [this]; exact ih t n h1 h2
      | some old =>
        by_cases he : t.val = old
        · refine ih _ (n + 1) ?_ ?_
          · simp only [step, hl, he, if_true, List.map_append, h1, List.map_cons, List.map_nil]
            rw [seqFrom_snoc, ← h2, he, List.append_assoc]
          · simp only [step, hl, he, if_true]
            rw [after_succ, ← h2, he]
        · refine ih _ n ?_ ?_
          · simp only [step, hl, he, if_false]; exact h1
          · simp only [step, hl, he, if_false]; exact h2

theorem nextSeq_ne_zero (v : BitVec 32) : nextSeq v ≠ 0 := by
  unfold nextSeq
  split
  · decide
  · rename_i h
    intro e
    apply h
    have e2 := congrArg BitVec.toNat e
    rw [BitVec.toNat_add] at e2
    have h1 : BitVec.toNat (1 : BitVec 32) = 1 := rfl
    have h0 : BitVec.toNat (0 : BitVec 32) = 0 := rfl
    have hv := v.isLt
    apply BitVec.eq_of_toNat_eq
    show v.toNat = 4294967295
    omega

/-- No number handed out is zero. -/
theorem C26_nonzero (v : BitVec 32) (n : Nat) : (0 : BitVec 32) ∉ seqFrom v n := by
  induction n generalizing v with
  | zero => simp [seqFrom]
  | succ n ih =>
    simp only [seqFrom, List.mem_cons, not_or]
    exact ⟨fun e => nextSeq_ne_zero v e.symm, ih _⟩

/-- Each number is one more than the previous one, and 2^32 − 1 is followed by 1. -/
theorem C26_consecutive (v : BitVec 32) :
    (v.toNat ≠ 2 ^ 32 - 1 → (nextSeq v).toNat = v.toNat + 1) ∧
    (v.toNat = 2 ^ 32 - 1 → (nextSeq v).toNat = 1) := by
  have hv := v.isLt
  constructor
  · intro h
    unfold nextSeq
    have hne : v ≠ 0xFFFFFFFF#32 := by
      intro e; apply h; rw [e]; rfl
    rw [if_neg hne, BitVec.toNat_add]
    have : BitVec.toNat (1 : BitVec 32) = 1 := rfl
    omega
  · intro h
    have : v = 0xFFFFFFFF#32 := BitVec.eq_of_toNat_eq h
    rw [this]; rfl

/-- Position of a counter value on the cycle of 2^32 − 1 values (0 and 2^32 − 1 coincide). -/
def pos (v : BitVec 32) : Nat := v.toNat % (2 ^ 32 - 1)

theorem pos_next (v : BitVec 32) : pos (nextSeq v) = (pos v + 1) % (2 ^ 32 - 1) := by
  have h := C26_consecutive v
  have hv := v.isLt
  unfold pos
  by_cases e : v.toNat = 2 ^ 32 - 1
  · rw [h.2 e, e]
  · rw [h.1 e]; omega

theorem seqFrom_length (v : BitVec 32) (n : Nat) : (seqFrom v n).length = n := by
  induction n generalizing v with
  | zero => rfl
  | succ n ih => simp [seqFrom, ih]

theorem pos_getElem (v : BitVec 32) (n i : Nat) (h : i < (seqFrom v n).length) :
    pos ((seqFrom v n)[i]) = (pos v + i + 1) % (2 ^ 32 - 1) := by
  induction n generalizing v i with
  | zero => simp [seqFrom] at h
  | succ n ih =>
    cases i with
    | zero => simp only [seqFrom, List.getElem_cons_zero]; rw [pos_next]
    | succ i =>
      simp only [seqFrom, List.getElem_cons_succ]
      rw [ih, pos_next]
      omega

/-- Any 2^32 − 1 successive draws are pairwise distinct. -/
theorem C26_distinct (v : BitVec 32) (n : Nat) (hn : n ≤ 2 ^ 32 - 1) : (seqFrom v n).Nodup := by
  rw [List.Nodup, List.pairwise_iff_getElem]
  intro i j hi hj hij e
  rw [seqFrom_length] at hi hj
  have h1 := pos_getElem v n i (by rw [seqFrom_length]; exact hi)
  have h2 := pos_getElem v n j (by rw [seqFrom_length]; exact hj)
  rw [e, h2] at h1
  omega

/-- And the next draw after a full cycle repeats the first: the period is exactly 2^32 − 1. -/
theorem C26_period (v : BitVec 32) (n i j : Nat) (hi : i < (seqFrom v n).length) (hj : j < (seqFrom v n).length) :
    (seqFrom v n)[i] = (seqFrom v n)[j] ↔ i % (2 ^ 32 - 1) = j % (2 ^ 32 - 1) := by
  have h1 := pos_getElem v n i hi
  have h2 := pos_getElem v n j hj
  constructor
  · intro e
    rw [e, h2] at h1
    omega
  · intro e
    have hp : pos ((seqFrom v n)[i]) = pos ((seqFrom v n)[j]) := by rw [h1, h2]; omega
    have hz : ∀ k (hk : k < (seqFrom v n).length), 1 ≤ ((seqFrom v n)[k]).toNat := by
      intro k hk
      rcases Nat.eq_zero_or_pos ((seqFrom v n)[k]).toNat with h | h
      · exfalso
        apply C26_nonzero v n
        rw [← show (seqFrom v n)[k] = 0 from BitVec.eq_of_toNat_eq h]
        exact List.getElem_mem hk
      · exact h
    have a := hz i hi
    have b := hz j hj
    have a2 := ((seqFrom v n)[i]).isLt
    have b2 := ((seqFrom v n)[j]).isLt
    unfold pos at hp
    apply BitVec.eq_of_toNat_eq
    omega

/-- Two callers race: the second swap fails and its caller retries; both get different numbers,
across the wrap-around. -/
example : (run ⟨0xFFFFFFFE#32, fun _ => none, []⟩
    [.load 0, .load 1, .cas 1, .cas 0, .load 0, .cas 0]).draws = [(1, 0xFFFFFFFF#32), (0, 1#32)] := by
  decide

end Opcua.Counter
