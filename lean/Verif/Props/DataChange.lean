import Verif.Model.DataChange
import Verif.Lemmas.Lists

/-! # C54, C55, C73, C87, C88: which samples are reported -/

namespace Opcua.DataChange

open Opcua.Revise (F64)

/-! ## C54 -/

/-- What is assumed about rounding: it is monotonic, and whole numbers up to 2^53 are exact. -/
structure Arith.Lawful (A : Arith) : Prop where
  mono : ∀ a b : Rat, a ≤ b → le (A.round a) (A.round b) = true
  whole : ∀ n : Int, n.natAbs ≤ 2 ^ 53 → A.round n = .fin n

/-- The number that a scalar stands for. -/
def number : Scalar → Option Rat
  | .int _ x => some (x.toInt : Int)
  | .uint _ x => some (x.toNat : Int)
  | .float _ (.fin q) => some q
  | _ => none

/-- The distance of two numbers. -/
def dist (a b : Rat) : Rat := if a ≤ b then b - a else a - b

/-- The numbers of the small integer types: from `-2^(b-1)` to `2^(b-1) - 1`. -/
def fits (b : Nat) (x : BitVec 64) : Prop := -2 ^ (b - 1) ≤ x.toInt ∧ x.toInt < 2 ^ (b - 1)

/-- Whether a sample is reported under an absolute deadband, the status being the same. -/
def reported (A : Arith) (d : Rat) (c p : Scalar) : Bool :=
  isDataChange A ⟨.statusValue, .absolute (.fin d)⟩ ⟨.scalar c, 0, 1, 0, 1, 0⟩ ⟨.scalar p, 0, 1, 0, 1, 0⟩

theorem reported_eq (A : Arith) (d : Rat) (c p : Scalar) : reported A d c p = !equalScalars A (.fin d) c p := by
  simp [reported, isDataChange, valueChange, equalDeadband]

theorem abs_dist (a b : Rat) : (if a - b < 0 then -(a - b) else a - b) = dist a b := by
  unfold dist
  split <;> split <;> grind

theorem exact_le (A : Arith) (d : Rat) (n : Int) (hn : A.round n = .fin n) (a b : Rat) (hab : (n : Rat) = a - b) :
    le (abs (A.round n)) (.fin d) = decide (dist a b ≤ d) := by
  rw [hn]
  simp only [abs, le, hab, abs_dist]

/-- What a whole number's distance is as an integer difference. -/
theorem int_dist (m n : Int) : (((m - n : Int)) : Rat) = (m : Rat) - (n : Rat) := by
  exact Rat.intCast_sub m n

theorem sub_toInt (x y : BitVec 64) (h1 : -2 ^ 63 ≤ x.toInt - y.toInt) (h2 : x.toInt - y.toInt < 2 ^ 63) :
    (x - y).toInt = x.toInt - y.toInt := by
  rw [BitVec.toInt_sub]
  rw [Int.bmod_def]
  split <;> omega

theorem sub_toNat (x y : BitVec 64) (h : y.toNat ≤ x.toNat) : ((x - y).toNat : Int) = x.toNat - y.toNat := by
  rw [BitVec.toNat_sub]
  omega

theorem bool_flip {b : Bool} {p : Prop} [Decidable p] (h : b = decide p) : (!b) = true ↔ ¬ p := by
  subst h; simp

/-- **C54 (signed, partial).** Signed numbers whose difference is at most 2^53, which is so for all
numbers of 8, 16 and 32 bits, are reported exactly when they differ from the last reported number by more
than the deadband. Missing: larger differences of 64-bit numbers, for which see `C54_wrap_fails`. -/
theorem C54_signed_partial (A : Arith) (hA : A.Lawful) (d : Rat) (b : Nat) (x y : BitVec 64)
    (h : (fits b x ∧ fits b y ∧ b ≤ 32) ∨ (x.toInt - y.toInt).natAbs ≤ 2 ^ 53) :
    reported A d (.int b x) (.int b y) = true ↔ d < dist (x.toInt : Int) (y.toInt : Int) := by
  have hs : (x.toInt - y.toInt).natAbs ≤ 2 ^ 53 := by
    rcases h with ⟨⟨h1, h2⟩, ⟨h3, h4⟩, h5⟩ | h
    · have : (2 : Int) ^ (b - 1) ≤ 2 ^ 31 := by
        have : b - 1 ≤ 31 := by omega
        exact_mod_cast Nat.pow_le_pow_right (by decide : 0 < 2) this
      omega
    · exact h
  rw [reported_eq]
  have : equalScalars A (.fin d) (.int b x) (.int b y) = decide (dist (x.toInt : Int) (y.toInt : Int) ≤ d) := by
    simp only [equalScalars, Scalar.type, ne_eq, not_true_eq_false, if_false]
    rw [sub_toInt x y (by omega) (by omega)]
    exact exact_le A d _ (hA.whole _ hs) _ _ (int_dist _ _)
  rw [bool_flip this]
  grind

/-- **C54 (unsigned, partial).** An unsigned number that did not decrease, by at most 2^53, is reported
exactly when it increased by more than the deadband. Missing: decreases, see `C54_unsigned_fails`. -/
theorem C54_unsigned_partial (A : Arith) (hA : A.Lawful) (d : Rat) (b : Nat) (x y : BitVec 64)
    (hle : y.toNat ≤ x.toNat) (h : x.toNat - y.toNat ≤ 2 ^ 53) :
    reported A d (.uint b x) (.uint b y) = true ↔ d < dist ((x.toNat : Int) : Rat) ((y.toNat : Int) : Rat) := by
  rw [reported_eq]
  have : equalScalars A (.fin d) (.uint b x) (.uint b y) =
      decide (dist ((x.toNat : Int) : Rat) ((y.toNat : Int) : Rat) ≤ d) := by
    simp only [equalScalars, Scalar.type, ne_eq, not_true_eq_false, if_false]
    rw [sub_toNat x y hle]
    refine exact_le A d _ (hA.whole _ (by omega)) _ _ ?_
    exact int_dist _ _
  rw [bool_flip this]
  grind

/-- **C54 (decreases, partial).** Every unsigned number below 2^52 that decreased is reported if the
deadband is below 2^52: no change is missed, but see `C54_unsigned_fails`. -/
theorem C54_decrease_partial (A : Arith) (hA : A.Lawful) (d : Rat) (hd : d < 2 ^ 52) (b : Nat) (x y : BitVec 64)
    (hlt : x.toNat < y.toNat) (hy : y.toNat < 2 ^ 52) :
    reported A d (.uint b x) (.uint b y) = true := by
  rw [reported_eq]
  simp only [equalScalars, Scalar.type, ne_eq, not_true_eq_false, if_false]
  have hbig : (2 ^ 53 : Int) ≤ ((x - y).toNat : Int) := by
    rw [BitVec.toNat_sub]
    omega
  have h1 := hA.mono ((2 ^ 53 : Int) : Rat) ((((x - y).toNat : Int)) : Rat) (Rat.intCast_le_intCast.mpr hbig)
  rw [hA.whole _ (by decide)] at h1
  generalize A.round ((((x - y).toNat : Int)) : Rat) = r at h1 ⊢
  cases r with
  | nan => simp [le] at h1
  | negInf => simp [le] at h1
  | posInf => simp [abs, le]
  | fin q =>
    simp only [le, decide_eq_true_eq] at h1
    simp only [abs, le, Bool.not_eq_true', decide_eq_false_iff_not]
    have h53 : ((2 ^ 53 : Int) : Rat) = 2 ^ 53 := by rfl
    rw [h53] at h1
    have h5 : (2 : Rat) ^ 52 ≤ 2 ^ 53 := by decide +kernel
    grind

/-- **C54 (floats, partial).** Finite floating point numbers whose difference is exact are reported
exactly when they differ by more than the deadband. Missing: differences that have to be rounded. -/
theorem C54_float_partial (A : Arith) (d : Rat) (b : Nat) (x y : Rat) (h : A.round (x - y) = .fin (x - y)) :
    reported A d (.float b (.fin x)) (.float b (.fin y)) = true ↔ d < dist x y := by
  rw [reported_eq]
  have : equalScalars A (.fin d) (.float b (.fin x)) (.float b (.fin y)) = decide (dist x y ≤ d) := by
    simp only [equalScalars, Scalar.type, ne_eq, not_true_eq_false, if_false, Arith.sub, h, abs, le, abs_dist]
  rw [bool_flip this]
  grind

/-- **C54 (no missed float, partial).** With rounding, too: a finite number that is reported differs by
more than the deadband, if the deadband and its negative are float64 numbers. -/
theorem C54_float_sound_partial (A : Arith) (hA : A.Lawful) (d : Rat) (hd : A.round d = .fin d)
    (hd' : A.round (-d) = .fin (-d)) (b : Nat) (x y : Rat)
    (h : reported A d (.float b (.fin x)) (.float b (.fin y)) = true) : d < dist x y := by
  rw [reported_eq] at h
  refine Classical.byContradiction fun hn => ?_
  have hn : dist x y ≤ d := by grind
  have h1 : x - y ≤ d := by unfold dist at hn; split at hn <;> grind
  have h2 : -d ≤ x - y := by unfold dist at hn; split at hn <;> grind
  have m1 := hA.mono _ _ h1
  have m2 := hA.mono _ _ h2
  rw [hd] at m1
  rw [hd'] at m2
  simp only [equalScalars, Scalar.type, ne_eq, not_true_eq_false, if_false, Arith.sub] at h
  generalize A.round (x - y) = r at h m1 m2
  cases r with
  | nan => simp [le] at m1
  | negInf => simp [le] at m2
  | posInf => simp [le] at m1
  | fin q =>
    simp only [le, decide_eq_true_eq] at m1 m2
    simp only [abs, le, Bool.not_eq_true', decide_eq_false_iff_not] at h
    apply h
    split <;> grind

/-- Exact arithmetic, for the examples. -/
def exactly : Arith := ⟨.fin⟩

theorem exactly_lawful : exactly.Lawful := ⟨by intro a b h; simp [exactly, le, h], by intro n _; rfl⟩

/-- From 100, 104 and 96 are not reported with a deadband of 4, 105 and 95 are. -/
example : [104, 96, 105, 95].map (fun n => reported exactly 4 (.int 16 (BitVec.ofInt 64 n)) (.int 16 100)) =
    [false, false, true, true] := by decide +kernel
example : fits 16 104 ∧ fits 16 100 := by simp [fits]
example : reported exactly (1/2) (.float 64 (.fin (3/4))) (.float 64 (.fin (1/4))) = false ∧
    reported exactly (1/2) (.float 64 (.fin (4/5))) (.float 64 (.fin (1/4))) = true := by decide +kernel

/-- **C54 fails (unsigned).** An unsigned number that decreases by 1 is reported whatever the deadband. -/
theorem C54_unsigned_fails :
    reported exactly 10 (.uint 32 99) (.uint 32 100) = true ∧ dist 99 100 ≤ 10 := by decide +kernel

/-- **C54 fails (wrap-around).** A change from the smallest to the largest 64-bit number is not reported
with a deadband of 1. -/
theorem C54_wrap_fails :
    reported exactly 1 (.int 64 (BitVec.intMax 64)) (.int 64 (BitVec.intMin 64)) = false ∧
    (1 : Rat) < dist ((BitVec.intMax 64).toInt : Int) ((BitVec.intMin 64).toInt : Int) := by decide +kernel

/-- **C54 fails (arrays).** Two equal arrays at different addresses are reported, whatever the deadband. -/
theorem C54_array_fails (A : Arith) (d : F64) :
    isDataChange A ⟨.statusValue, .absolute d⟩
      ⟨.slice false 1 (.int 32) [.int 32 7], 0, 1, 0, 1, 0⟩ ⟨.slice false 2 (.int 32) [.int 32 7], 0, 1, 0, 1, 0⟩ = true := by
  simp [isDataChange, valueChange, equalDeadband, allEq]

/-- **C54 (arrays).** With a deadband, two arrays that are not reported are the same: no change of an array
is lost, however small. -/
theorem C54_array_kept (A : Arith) (t : Trigger) (d : F64) (c p : DV) (n m : Bool) (a b : Nat) (e f : Ty) (cs ps : List Scalar)
    (hc : c.value = .slice n a e cs) (hp : p.value = .slice m b f ps) (ht : t ≠ .status)
    (hsame : a = b → e = f → n = m → cs.length = ps.length → cs = ps)
    (h : isDataChange A ⟨t, .absolute d⟩ c p = false) : n = m ∧ e = f ∧ cs = ps := by
  have hv : equalDeadband A d (.slice n a e cs) (.slice m b f ps) = true := by
    cases t with
    | status => exact absurd rfl ht
    | other => simp [isDataChange] at h
    | statusValue =>
      simp only [isDataChange, valueChange, hc, hp] at h
      split at h
      · cases h
      · simpa using h
    | statusValueTimestamp =>
      simp only [isDataChange, valueChange, hc, hp] at h
      split at h
      · cases h
      · split at h
        · cases h
        · simpa using h
  simp only [equalDeadband] at hv
  split at hv
  · cases hv
  rename_i he
  split at hv
  · cases hv
  rename_i hn
  split at hv
  · cases hv
  rename_i hl
  simp only [ne_eq, Classical.not_not] at he hn hl
  refine ⟨hn, he, ?_⟩
  split at hv
  · rename_i hab; exact hsame hab he hn hl
  split at hv
  · simpa using hv
  · cases cs with
    | nil => cases ps with
      | nil => rfl
      | cons => simp at hl
    | cons => cases ps with
      | nil => simp at hl
      | cons => simp [allEq] at hv

/-- **C54 (byte strings).** A byte string with the same bytes is not reported again, wherever it is in memory. -/
theorem C54_bytes (A : Arith) (d : F64) (c p : DV) (n : Bool) (a b : Nat) (cs : List Scalar)
    (hc : c.value = .slice n a (.uint 8) cs) (hp : p.value = .slice n b (.uint 8) cs) (hs : c.status = p.status) :
    isDataChange A ⟨.statusValue, .absolute d⟩ c p = false := by
  simp [isDataChange, valueChange, hc, hp, equalDeadband, hs]

example : isDataChange exactly ⟨.statusValue, .absolute (.fin 5)⟩ ⟨.slice false 1 (.uint 8) [.uint 8 7], 0, 1, 0, 1, 0⟩
      ⟨.slice false 2 (.uint 8) [.uint 8 7], 0, 1, 0, 1, 0⟩ = false ∧
    isDataChange exactly ⟨.statusValue, .absolute (.fin 5)⟩ ⟨.slice false 1 (.int 32) [], 0, 1, 0, 1, 0⟩
      ⟨.slice false 2 (.int 32) [], 0, 1, 0, 1, 0⟩ = false := by decide +kernel

/-- **C54 fails (infinities).** A value that stays infinite is reported again and again. -/
theorem C54_inf_fails (A : Arith) (d : Rat) :
    reported A d (.float 64 .posInf) (.float 64 .posInf) = true := by
  rw [reported_eq]
  simp [equalScalars, Scalar.type, Arith.sub, abs, le]

/-! ## C55 -/

/-- The contents of a value, without addresses. -/
inductive Content where
  | null
  | scalar (s : Scalar)
  | array (isNil : Bool) (elem : Ty) (elems : List Scalar)
  deriving DecidableEq, Repr

def content : Val → Content
  | .null => .null
  | .scalar s => .scalar s
  | .slice n _ e as => .array n e as

/-- No NaN in the value. -/
def isNaN : Scalar → Bool
  | .float _ .nan => true
  | _ => false

def noNaN : Val → Bool
  | .null => true
  | .scalar s => !isNaN s
  | .slice _ _ _ as => as.all (fun s => !isNaN s)

/-- Arrays at the same address have the same elements if they have the same type and length. -/
def Coherent : Val → Val → Prop
  | .slice n p e as, .slice m q f bs => p = q → e = f → n = m → as.length = bs.length → as = bs
  | _, _ => True

/-- The severity and code of two statuses differ: the upper twenty bits. -/
def StatusDiffers (a b : BitVec 32) : Prop := a.toNat / 2 ^ 12 ≠ b.toNat / 2 ^ 12

/-- What a trigger selects. -/
def Differs : Trigger → DV → DV → Prop
  | .status, a, b => StatusDiffers a.status b.status
  | .statusValue, a, b => StatusDiffers a.status b.status ∨ content a.value ≠ content b.value
  | .statusValueTimestamp, a, b =>
    StatusDiffers a.status b.status ∨ content a.value ≠ content b.value ∨ a.source ≠ b.source
  | .other, _, _ => True

theorem status_differs (a b : BitVec 32) : a &&& statusMask ≠ b &&& statusMask ↔ StatusDiffers a b := by
  have key : ∀ x : BitVec 32, x &&& statusMask = (x >>> 12) <<< 12 := by
    intro x
    apply BitVec.eq_of_getLsbD_eq
    intro i hi
    have : i < 32 := hi
    simp only [statusMask, BitVec.getLsbD_and, BitVec.getLsbD_shiftLeft, BitVec.getLsbD_ushiftRight]
    have hm : BitVec.getLsbD (0xFFFFF000 : BitVec 32) i = decide (12 ≤ i) := by
      have : ∀ i, i < 32 → BitVec.getLsbD (0xFFFFF000 : BitVec 32) i = decide (12 ≤ i) := by decide
      exact this i hi
    rw [hm]
    by_cases h : 12 ≤ i
    · rw [show 12 + (i - 12) = i by omega]; simp [h]; try omega
    · simp [h]; try omega
  have k2 : ∀ x : BitVec 32, ((x >>> 12) <<< 12 : BitVec 32).toNat = x.toNat / 2 ^ 12 * 2 ^ 12 := by
    intro x
    have := x.isLt
    rw [BitVec.toNat_shiftLeft, BitVec.toNat_ushiftRight, Nat.shiftRight_eq_div_pow, Nat.shiftLeft_eq]
    apply Nat.mod_eq_of_lt
    omega
  unfold StatusDiffers
  rw [key, key]
  constructor
  · intro h e; apply h; apply BitVec.eq_of_toNat_eq; rw [k2, k2, e]
  · intro h e
    apply h
    have := congrArg BitVec.toNat e
    rw [k2, k2] at this
    omega

theorem scalar_eq (a b : Scalar) (ha : isNaN a = false) : a.eq b = decide (a = b) := by
  cases a <;> cases b <;> simp [Scalar.eq]
  next b x c y =>
    have : x ≠ .nan := by intro h; subst h; simp [isNaN] at ha
    simp [this]

theorem all_eq (as : List Scalar) : ∀ bs : List Scalar, (as.all fun s => !isNaN s) = true → as.length = bs.length →
    allEq Scalar.eq as bs = decide (as = bs) := by
  induction as with
  | nil => intro bs _ hl; cases bs with
    | nil => rfl
    | cons b bs => simp at hl
  | cons a as ih =>
    intro bs hn hl
    cases bs with
    | nil => simp at hl
    | cons b bs =>
      simp only [List.all_cons, Bool.and_eq_true, Bool.not_eq_true'] at hn
      simp only [List.length_cons, Nat.add_right_cancel_iff] at hl
      simp only [allEq, scalar_eq a b hn.1, ih bs hn.2 hl, List.cons.injEq, Bool.decide_and]

theorem deep_content (a b : Val) (h : noNaN a = true) (hc : Coherent a b) :
    deepEqual a b = decide (content a = content b) := by
  cases a with
  | null => cases b <;> simp [deepEqual, content]
  | scalar s => cases b <;> simp [deepEqual, content, scalar_eq s _ (by simpa [noNaN] using h)]
  | slice n p e as =>
    cases b with
    | null => simp [deepEqual, content]
    | scalar s => simp [deepEqual, content]
    | slice m q f bs =>
      simp only [deepEqual, content, Content.array.injEq]
      by_cases he : e = f <;> simp only [he, ne_eq, not_true_eq_false, if_false, not_false_eq_true, if_true, false_and, and_false, decide_false]
      by_cases hn : n = m <;> simp only [hn, not_true_eq_false, if_false, not_false_eq_true, if_true, false_and, decide_false]
      by_cases hl : as.length = bs.length
      · simp only [hl, not_true_eq_false, if_false]
        by_cases hp : p = q
        · have := hc hp he hn hl
          simp [hp, this]
        · simp only [hp, if_false, true_and]
          exact all_eq as bs h hl
      · simp only [hl, not_false_eq_true, if_true]
        have : as ≠ bs := fun e => hl (by rw [e])
        simp [this]

/-- **C55 (test).** Without deadband, a sample passes the filter exactly when it differs from the last
reported one in what the trigger selects. -/
theorem C55_test_partial (A : Arith) (t : Trigger) (c p : DV) (hn : noNaN c.value = true) (hc : Coherent c.value p.value) :
    isDataChange A ⟨t, .none⟩ c p = true ↔ Differs t c p := by
  have hs := status_differs c.status p.status
  have hv : valueChange A .none c.value p.value = true ↔ content c.value ≠ content p.value := by
    simp [valueChange, deep_content _ _ hn hc]
  cases t with
  | status => simp only [isDataChange, Differs, decide_eq_true_eq]; exact hs
  | statusValue =>
    simp only [isDataChange, Differs]
    split
    next h => exact iff_of_true rfl (Or.inl (hs.mp h))
    next h => rw [hv]; exact ⟨Or.inr, fun h' => h'.resolve_left (fun h'' => h (hs.mpr h''))⟩
  | statusValueTimestamp =>
    simp only [isDataChange, Differs]
    split
    next h => exact iff_of_true rfl (Or.inl (hs.mp h))
    next h =>
      have hns : ¬ StatusDiffers c.status p.status := fun h'' => h (hs.mpr h'')
      split
      next h2 => exact iff_of_true rfl (Or.inr (Or.inr h2))
      next h2 => rw [hv]; exact ⟨fun h' => Or.inr (Or.inl h'), fun h' => (h'.resolve_left hns).resolve_right h2⟩
  | other => simp [isDataChange, Differs]

/-- The value that was last put into the queue according to the records, since the last reset. -/
def lastOf : List Rec → DV
  | [] => initialValue
  | r :: rs =>
    match rs with
    | [] => match r with
      | .report v _ => v
      | .again v => v
      | .reset => initialValue
    | _ => lastOf rs

theorem lastOf_snoc (rs : List Rec) (r : Rec) :
    lastOf (rs ++ [r]) = match r with
      | .report v _ => v
      | .again v => v
      | .reset => initialValue := by
  induction rs with
  | nil => rfl
  | cons a rs ih =>
    rw [List.cons_append, ← ih]
    cases rs <;> rfl

/-- Every report passed the test against the value reported before it. -/
def Justified (A : Arith) (log : List Rec) : Prop :=
  ∀ a v f b, log = a ++ .report v f :: b → isDataChange A f v (lastOf a) = true

/-- The invariant of an item: the last value is that of the records, and the records are justified. -/
structure Inv (A : Arith) (i : Item) : Prop where
  prev : i.prev = lastOf i.log
  just : Justified A i.log

theorem justified_snoc {A : Arith} {log : List Rec} (h : Justified A log) (r : Rec)
    (hr : ∀ v f, r = .report v f → isDataChange A f v (lastOf log) = true) : Justified A (log ++ [r]) := by
  intro a v f b he
  rcases List.eq_nil_or_concat b with rfl | ⟨b', x, rfl⟩
  · have := List.append_inj' he rfl
    obtain ⟨rfl, h2⟩ := this
    exact hr v f (by simpa using h2)
  · have he' : log ++ [r] = (a ++ .report v f :: b') ++ [x] := by simpa using he
    have := List.append_inj' he' rfl
    exact h a v f b' this.1

theorem inv_offer {A : Arith} {i : Item} (h : Inv A i) (v : DV) : Inv A (offer A i v) := by
  unfold offer
  split
  next hc =>
    refine ⟨?_, ?_⟩
    · show v = lastOf (i.log ++ [_]); rw [lastOf_snoc]
    · refine justified_snoc h.just _ ?_
      intro v' f' e
      cases e
      rw [← h.prev]
      exact hc
  · exact h

theorem inv_sweep {A : Arith} (n : Nat) : ∀ {v : DV} {i : Item}, Inv A i → Inv A (sweep A n v i) := by
  induction n with
  | zero => intro v i h; exact h
  | succ n ih =>
    intro v i h
    refine ih ?_
    have := inv_offer (A := A) (i := { i with prequeue := (takeDue i.ts v i.seen i.prequeue).2.2, seen := (takeDue i.ts v i.seen i.prequeue).2.1 })
      ⟨h.prev, h.just⟩ (takeDue i.ts v i.seen i.prequeue).1
    exact ⟨this.prev, this.just⟩

theorem inv_drain {A : Arith} (vs : List DV) : ∀ {i : Item}, Inv A i → Inv A (drain A i vs) := by
  induction vs with
  | nil => intro i h; exact ⟨h.prev, h.just⟩
  | cons v vs ih => intro i h; exact ih (inv_offer (i := { i with seen := some v }) ⟨h.prev, h.just⟩ v)

theorem inv_start {A : Arith} {i : Item} (h : Inv A i) (now : Nat) (v : DV) : Inv A (startMonitoring i now v) := by
  unfold startMonitoring
  dsimp only
  split <;> exact ⟨h.prev, h.just⟩

theorem inv_step {A : Arith} {i : Item} (h : Inv A i) (e : Ev) : Inv A (step A i e) := by
  cases e with
  | poll v => exact ⟨h.prev, h.just⟩
  | take n => exact ⟨h.prev, h.just⟩
  | modify f t ti now v => exact inv_start (i := { i with filter := f, ti := ti }) ⟨h.prev, h.just⟩ now v
  | setMode m now v =>
    dsimp only [step, setMode]
    split
    · exact h
    · refine inv_start ?_ now v
      split
      · refine ⟨?_, justified_snoc h.just _ (by intro v f e; cases e)⟩
        show initialValue = lastOf (i.log ++ [_]); rw [lastOf_snoc]
      · exact ⟨h.prev, h.just⟩
  | cycle tn r =>
    dsimp only [step, cycle]
    split
    · exact ⟨h.prev, h.just⟩
    · have h2 : Inv A (if 0 < i.ti then sweep A (rounds i.ti i.ts tn) i.prev i else drain A i i.prequeue) := by
        split
        · exact inv_sweep _ h
        · exact inv_drain _ h
      generalize (if 0 < i.ti then sweep A (rounds i.ti i.ts tn) i.prev i else drain A i i.prequeue) = j at h2 ⊢
      cases r with
      | none => exact h2
      | some v =>
        dsimp only
        split
        · refine ⟨?_, justified_snoc h2.just _ (by intro v f e; cases e)⟩
          show v = lastOf (j.log ++ [_]); rw [lastOf_snoc]
        · exact h2

theorem inv_run {A : Arith} (evs : List Ev) : ∀ {i : Item}, Inv A i → Inv A (run A i evs) := by
  induction evs with
  | nil => intro i h; exact h
  | cons e evs ih => intro i h; exact ih (inv_step h e)

theorem inv_new (A : Arith) (m : Mode) (f : Filter) (t : Timestamps) (ti now : Nat) (v : DV) :
    Inv A (newItem m f t ti now v) := by
  refine inv_start ⟨rfl, ?_⟩ now v
  intro a v f b he
  cases a <;> simp at he

/-- A run as a list of events from a new item. -/
def ran (A : Arith) (m : Mode) (f : Filter) (t : Timestamps) (ti now : Nat) (v : DV) (evs : List Ev) : Item :=
  run A (newItem m f t ti now v) evs

/-- **C55 (consecutive reports differ).** Whatever happens to an item: without deadband and without NaN,
every reported sample differs in what the trigger selects from the value that was reported before it (or
from the initial value, if there is none since the item was last disabled). -/
theorem C55_consecutive_partial (A : Arith) (m : Mode) (f0 : Filter) (t : Timestamps) (ti now : Nat) (v0 : DV) (evs : List Ev)
    (a b : List Rec) (v : DV) (tr : Trigger) (h : (ran A m f0 t ti now v0 evs).log = a ++ .report v ⟨tr, .none⟩ :: b)
    (hn : noNaN v.value = true) (hc : Coherent v.value (lastOf a).value) : Differs tr v (lastOf a) :=
  (C55_test_partial A tr v _ hn hc).mp ((inv_run evs (inv_new A m f0 t ti now v0)).just a v _ b h)

/-! ### The sampling interval -/

theorem sweep_reports (A : Arith) : ∀ (n : Nat) (v : DV) (i : Item), (sweep A n v i).log.length ≤ i.log.length + n := by
  intro n
  induction n with
  | zero => intro v i; exact Nat.le_refl _
  | succ n ih =>
    intro v i
    rw [sweep]
    dsimp only
    refine Nat.le_trans (ih _ _) ?_
    unfold offer
    split <;> simp <;> omega

/-- **C55 (interval).** Values are reported no faster than the sampling interval allows: a publishing cycle at the time `tn`
adds at most one report for each sampling time that has come up since the last one, none if none has, and leaves an item
alone whose next sampling time is still to come. -/
theorem C55_interval (A : Arith) (i : Item) (tn : Nat) (hm : i.mode ≠ .disabled) (ht : 0 < i.ti) :
    (tn < i.ts → cycle A i tn none = i) ∧
    (cycle A i tn none).log.length ≤ i.log.length + (tn + i.ti - i.ts) / i.ti := by
  unfold cycle
  rw [if_neg hm]
  simp only [if_pos ht]
  constructor
  · intro h
    unfold rounds
    rw [if_neg (by omega)]
    rfl
  · refine Nat.le_trans (sweep_reports A _ _ _) ?_
    unfold rounds
    split
    · rename_i h
      have : (tn + i.ti - i.ts) / i.ti = (tn - i.ts) / i.ti + 1 := by
        rw [show tn + i.ti - i.ts = (tn - i.ts) + i.ti by omega, Nat.add_div_right _ ht]
      omega
    · exact Nat.le_add_right _ _

example : ((ran exactly .reporting ⟨.statusValue, .none⟩ .both 10 5 ⟨.scalar (.int 32 1), 0, 5, 0, 5, 0⟩ [.cycle 4 none]).log = []) ∧
    ((ran exactly .reporting ⟨.statusValue, .none⟩ .both 10 5 ⟨.scalar (.int 32 1), 0, 5, 0, 5, 0⟩ [.cycle 5 none]).log.length = 1) := by decide +kernel

/-! ### The client is up to date -/

/-- A value that does not pass the filter against itself. -/
def Stable (A : Arith) (f : Filter) (v : DV) : Prop := isDataChange A f v v = false

theorem stable_none (A : Arith) (t : Trigger) (ht : t ≠ .other) (v : DV) (hn : noNaN v.value = true) :
    Stable A ⟨t, .none⟩ v := by
  have hc : Coherent v.value v.value := by
    cases v.value <;> simp [Coherent]
  have := C55_test_partial A t v v hn hc
  unfold Stable
  cases h : isDataChange A ⟨t, .none⟩ v v with
  | false => rfl
  | true =>
    have := this.mp h
    cases t with
    | status => exact absurd rfl this
    | statusValue => rcases this with h | h <;> exact absurd rfl h
    | statusValueTimestamp => rcases this with h | h | h <;> exact absurd rfl h
    | other => exact absurd rfl ht

/-- The last sample looked at would not be reported now: the client knows of it. -/
def Fresh (A : Arith) (i : Item) : Prop :=
  ∀ s, i.seen = some s → isDataChange A i.filter s i.prev = false

theorem fresh_offer {A : Arith} {i : Item} {v : DV} (hst : Stable A i.filter v) :
    isDataChange A (offer A i v).filter v (offer A i v).prev = false := by
  unfold offer
  split
  next h => exact hst
  next h => simpa using h

/-- All values that an item holds or gets pass `P`. -/
def Holds (P : DV → Prop) (i : Item) : Prop := (∀ v ∈ i.prequeue, P v) ∧ P i.prev ∧ ∀ s, i.seen = some s → P s

/-- Values that come in with an event. -/
def brings : Ev → List DV
  | .poll v => [v]
  | .cycle _ (some v) => [v]
  | .setMode _ _ v => [v]
  | .modify _ _ _ _ v => [v]
  | _ => []

/-- No change of the filter. -/
def keepsFilter : Ev → Bool
  | .modify .. => false
  | _ => true

theorem takeDue_holds (P : DV → Prop) (ts : Nat) (pre : List DV) : ∀ (v : DV) (seen : Option DV),
    (∀ x ∈ pre, P x) → P v → (∀ s, seen = some s → P s) →
    P (takeDue ts v seen pre).1 ∧ (∀ s, (takeDue ts v seen pre).2.1 = some s → P s) ∧ ∀ x ∈ (takeDue ts v seen pre).2.2, P x := by
  induction pre with
  | nil => intro v seen _ hv hs; exact ⟨hv, hs, by simp [takeDue]⟩
  | cons p pre ih =>
    intro v seen hp hv hs
    unfold takeDue
    split
    · exact ih p (some p) (fun x hx => hp x (List.mem_cons_of_mem _ hx)) (hp p (by simp)) (by intro s e; cases e; exact hp p (by simp))
    · exact ⟨hv, hs, hp⟩

/-- Either nothing was taken, or the value carried along is the last sample seen. -/
theorem takeDue_seen (ts : Nat) (pre : List DV) : ∀ (v : DV) (seen : Option DV),
    ((takeDue ts v seen pre).1 = v ∧ (takeDue ts v seen pre).2.1 = seen) ∨
    (takeDue ts v seen pre).2.1 = some (takeDue ts v seen pre).1 := by
  induction pre with
  | nil => intro v seen; exact Or.inl ⟨rfl, rfl⟩
  | cons p pre ih =>
    intro v seen
    unfold takeDue
    split
    · rcases ih p (some p) with ⟨h1, h2⟩ | h
      · exact Or.inr (by rw [h1, h2])
      · exact Or.inr h
    · exact Or.inl ⟨rfl, rfl⟩

theorem offer_fields (A : Arith) (i : Item) (v : DV) : (offer A i v).filter = i.filter ∧ (offer A i v).seen = i.seen ∧
    (offer A i v).prequeue = i.prequeue ∧ (offer A i v).ti = i.ti ∧ (offer A i v).ts = i.ts ∧ (offer A i v).mode = i.mode ∧
    (offer A i v).timestamps = i.timestamps ∧ ((offer A i v).prev = i.prev ∨ (offer A i v).prev = v) := by
  unfold offer
  split
  · exact ⟨rfl, rfl, rfl, rfl, rfl, rfl, rfl, Or.inr rfl⟩
  · exact ⟨rfl, rfl, rfl, rfl, rfl, rfl, rfl, Or.inl rfl⟩

/-- What the sweep keeps: `v` is the last reported value or the last sample seen. -/
structure SweepInv (A : Arith) (v : DV) (i : Item) : Prop where
  holds : Holds (Stable A i.filter) i
  stable : Stable A i.filter v
  carried : i.seen = some v ∨ v = i.prev
  fresh : Fresh A i

theorem sweep_inv {A : Arith} (n : Nat) : ∀ {v : DV} {i : Item}, SweepInv A v i →
    Fresh A (sweep A n v i) ∧ Holds (Stable A (sweep A n v i).filter) (sweep A n v i) ∧ (sweep A n v i).filter = i.filter := by
  induction n with
  | zero => intro v i h; exact ⟨h.fresh, h.holds, rfl⟩
  | succ n ih =>
    intro v i h
    have h1 := takeDue_holds (Stable A i.filter) i.ts i.prequeue v i.seen h.holds.1 h.stable h.holds.2.2
    have h2 := takeDue_seen i.ts i.prequeue v i.seen
    generalize hT : takeDue i.ts v i.seen i.prequeue = T at h1 h2
    obtain ⟨w, seen, rest⟩ := T
    dsimp only at h1 h2
    have hstep : sweep A (n + 1) v i =
        sweep A n w { offer A { i with prequeue := rest, seen := seen } w with
          ts := (offer A { i with prequeue := rest, seen := seen } w).ts + (offer A { i with prequeue := rest, seen := seen } w).ti } := by
      rw [sweep, hT]
    rw [hstep]
    obtain ⟨hf, hs, hp, -, -, -, -, hpr⟩ := offer_fields A { i with prequeue := rest, seen := seen } w
    have hfresh : isDataChange A (offer A { i with prequeue := rest, seen := seen } w).filter w
        (offer A { i with prequeue := rest, seen := seen } w).prev = false := fresh_offer (by exact h1.1)
    generalize hO : offer A { i with prequeue := rest, seen := seen } w = o at hf hs hp hpr hfresh
    have hf' : o.filter = i.filter := hf
    have hsi : SweepInv A w { o with ts := o.ts + o.ti } := by
      refine ⟨⟨?_, ?_, ?_⟩, ?_, ?_, ?_⟩
      · intro x hx; show Stable A o.filter x; rw [hf']; exact h1.2.2 x (by have hx' : x ∈ o.prequeue := hx; rw [hp] at hx'; exact hx')
      · show Stable A o.filter o.prev
        rw [hf']
        rcases hpr with e | e <;> rw [e]
        · exact h.holds.2.1
        · exact h1.1
      · intro s he; show Stable A o.filter s; rw [hf']; exact h1.2.1 s (by have he' : o.seen = some s := he; rw [hs] at he'; exact he')
      · show Stable A o.filter w; rw [hf']; exact h1.1
      · show o.seen = some w ∨ w = o.prev
        rcases h2 with ⟨e1, e2⟩ | e
        · subst e1
          rcases h.carried with c | c
          · left; rw [hs, e2]; exact c
          · right
            rcases hpr with e | e
            · rw [e]; exact c
            · exact e.symm
        · left; rw [hs]; exact e
      · intro s he
        have he' : o.seen = some s := he
        show isDataChange A o.filter s o.prev = false
        rcases h2 with ⟨e1, e2⟩ | e
        · subst e1
          rcases h.carried with c | c
          · have : s = w := by rw [hs] at he'; dsimp only at he'; rw [e2, c] at he'; cases he'; rfl
            rw [this]; exact hfresh
          · rw [hs] at he'
            dsimp only at he'
            rw [e2] at he'
            have := h.fresh s he'
            rcases hpr with e | e
            · rw [hf', e]; exact this
            · rw [hf', e, c]; exact this
        · have : s = w := by rw [hs] at he'; dsimp only at he'; rw [e] at he'; cases he'; rfl
          rw [this]; exact hfresh
    obtain ⟨g1, g2, g3⟩ := ih hsi
    exact ⟨g1, g2, g3.trans hf'⟩

theorem drain_inv {A : Arith} (vs : List DV) : ∀ {i : Item}, Fresh A i → (∀ v ∈ vs, Stable A i.filter v) →
    Stable A i.filter i.prev → (∀ s, i.seen = some s → Stable A i.filter s) →
    Fresh A (drain A i vs) ∧ Holds (Stable A (drain A i vs).filter) (drain A i vs) ∧ (drain A i vs).filter = i.filter := by
  induction vs with
  | nil => intro i hf _ hp hs; exact ⟨hf, ⟨by simp [drain], hp, hs⟩, rfl⟩
  | cons v vs ih =>
    intro i hf hv hp hs
    have hst : Stable A i.filter v := hv v (by simp)
    obtain ⟨e1, e2, -, -, -, -, -, e3⟩ := offer_fields A { i with seen := some v } v
    have hfr := fresh_offer (A := A) (i := { i with seen := some v }) hst
    have := ih (i := offer A { i with seen := some v } v) ?_ ?_ ?_ ?_
    · exact ⟨this.1, this.2.1, this.2.2.trans e1⟩
    · intro s he
      rw [e2] at he
      cases he
      exact hfr
    · intro x hx; rw [e1]; exact hv x (List.mem_cons_of_mem _ hx)
    · rw [e1]; rcases e3 with e | e <;> rw [e]
      · exact hp
      · exact hst
    · intro s he; rw [e2] at he; cases he; rw [e1]; exact hst

structure Good (A : Arith) (f : Filter) (i : Item) : Prop where
  filter : i.filter = f
  fresh : Fresh A i
  holds : Holds (Stable A f) i

theorem good_start {A : Arith} {f : Filter} {i : Item} (h : Good A f i) (now : Nat) (v : DV) (hv : Stable A f v) :
    Good A f (startMonitoring i now v) := by
  unfold startMonitoring
  dsimp only
  split
  · exact ⟨h.filter, h.fresh, h.holds⟩
  · refine ⟨h.filter, h.fresh, ?_, h.holds.2⟩
    intro x hx
    rcases List.mem_append.mp hx with hx | hx
    · exact h.holds.1 x hx
    · rw [List.mem_singleton.mp hx]; exact hv

theorem good_step {A : Arith} {f : Filter} (hi : Stable A f initialValue) {i : Item} (h : Good A f i) (e : Ev)
    (hk : keepsFilter e = true) (hv : ∀ v ∈ brings e, Stable A f v) : Good A f (step A i e) := by
  cases e with
  | poll v =>
    refine ⟨h.filter, h.fresh, ?_, h.holds.2⟩
    intro x hx
    rcases List.mem_append.mp hx with hx | hx
    · exact h.holds.1 x hx
    · rw [List.mem_singleton.mp hx]; exact hv v (by simp [brings])
  | take n => exact ⟨h.filter, h.fresh, h.holds⟩
  | modify f t ti now v => cases hk
  | setMode m now v =>
    dsimp only [step, setMode]
    split
    · exact h
    · refine good_start ?_ now v (hv v (by simp [brings]))
      split
      · refine ⟨h.filter, ?_, h.holds.1, hi, ?_⟩
        · intro s e; cases e
        · intro s e; cases e
      · exact ⟨h.filter, h.fresh, h.holds⟩
  | cycle tn r =>
    dsimp only [step, cycle]
    split
    · exact ⟨h.filter, h.fresh, h.holds⟩
    · have h2 : Good A f (if 0 < i.ti then sweep A (rounds i.ti i.ts tn) i.prev i else drain A i i.prequeue) := by
        have hh : Holds (Stable A i.filter) i := by rw [h.filter]; exact h.holds
        split
        · obtain ⟨g1, g2, g3⟩ := sweep_inv (rounds i.ti i.ts tn) (v := i.prev) (i := i) ⟨hh, hh.2.1, Or.inr rfl, h.fresh⟩
          exact ⟨g3.trans h.filter, g1, by rw [g3, h.filter] at g2; exact g2⟩
        · obtain ⟨g1, g2, g3⟩ := drain_inv i.prequeue h.fresh hh.1 hh.2.1 hh.2.2
          exact ⟨g3.trans h.filter, g1, by rw [g3, h.filter] at g2; exact g2⟩
      generalize (if 0 < i.ti then sweep A (rounds i.ti i.ts tn) i.prev i else drain A i i.prequeue) = j at h2 ⊢
      cases r with
      | none => exact h2
      | some v =>
        have hv' : Stable A f v := hv v (by simp [brings])
        dsimp only
        split
        · refine ⟨h2.filter, ?_, h2.holds.1, hv', ?_⟩
          · intro s e; cases e; show isDataChange A j.filter v v = false; rw [h2.filter]; exact hv'
          · intro s e; cases e; exact hv'
        · exact h2

theorem good_run {A : Arith} {f : Filter} (hi : Stable A f initialValue) (evs : List Ev) : ∀ {i : Item}, Good A f i →
    (∀ e ∈ evs, keepsFilter e = true) → (∀ e ∈ evs, ∀ v ∈ brings e, Stable A f v) → Good A f (run A i evs) := by
  induction evs with
  | nil => intro i h _ _; exact h
  | cons e evs ih =>
    intro i h hk hv
    exact ih (good_step hi h e (hk e (by simp)) (hv e (by simp)))
      (fun x hx => hk x (List.mem_cons_of_mem _ hx)) (fun x hx => hv x (List.mem_cons_of_mem _ hx))

theorem holds_start (P : DV → Prop) (i : Item) (now : Nat) (v : DV) (h : Holds P i) (hv : P v) :
    Holds P (startMonitoring i now v) := by
  unfold startMonitoring
  dsimp only
  split
  · exact h
  · refine ⟨?_, h.2⟩
    intro x hx
    rcases List.mem_append.mp hx with hx | hx
    · exact h.1 x hx
    · rw [List.mem_singleton.mp hx]; exact hv

theorem holds_offer (A : Arith) (P : DV → Prop) (i : Item) (v : DV) (h : Holds P i) (hv : P v) : Holds P (offer A i v) := by
  obtain ⟨-, e2, e1, -, -, -, -, e3⟩ := offer_fields A i v
  refine ⟨by rw [e1]; exact h.1, ?_, by rw [e2]; exact h.2.2⟩
  rcases e3 with e | e <;> rw [e]
  · exact h.2.1
  · exact hv

/-- The value of a record. -/
def recOk (P : DV → Prop) : Rec → Prop
  | .report v _ => P v
  | .again v => P v
  | .reset => True

/-- The records grew by records about values in `P`. -/
def Grown (P : DV → Prop) (i j : Item) : Prop := ∃ new, j.log = i.log ++ new ∧ ∀ r ∈ new, recOk P r

theorem Grown.refl {P : DV → Prop} {i j : Item} (h : j.log = i.log) : Grown P i j := ⟨[], by simp [h], by simp⟩

theorem Grown.trans {P : DV → Prop} {i j k : Item} (h : Grown P i j) (h' : Grown P j k) : Grown P i k := by
  obtain ⟨a, ha, hp⟩ := h
  obtain ⟨b, hb, hq⟩ := h'
  refine ⟨a ++ b, by rw [hb, ha, List.append_assoc], ?_⟩
  intro r hr
  rcases List.mem_append.mp hr with h | h
  · exact hp r h
  · exact hq r h

theorem grown_offer (A : Arith) (P : DV → Prop) (i : Item) (v : DV) (hv : P v) : Grown P i (offer A i v) := by
  unfold offer
  split
  · exact ⟨[.report v i.filter], rfl, by intro r hr; rw [List.mem_singleton.mp hr]; exact hv⟩
  · exact .refl rfl

theorem sweep_succ (A : Arith) (n : Nat) (v : DV) (i : Item) : sweep A (n + 1) v i =
    (fun o : Item => sweep A n (takeDue i.ts v i.seen i.prequeue).1 { o with ts := o.ts + o.ti })
      (offer A { i with prequeue := (takeDue i.ts v i.seen i.prequeue).2.2, seen := (takeDue i.ts v i.seen i.prequeue).2.1 }
        (takeDue i.ts v i.seen i.prequeue).1) := rfl

theorem holds_sweep (A : Arith) (P : DV → Prop) (n : Nat) : ∀ (v : DV) (i : Item), Holds P i → P v →
    Holds P (sweep A n v i) ∧ Grown P i (sweep A n v i) := by
  induction n with
  | zero => intro v i h _; exact ⟨h, .refl rfl⟩
  | succ n ih =>
    intro v i h hv
    have h1 := takeDue_holds P i.ts i.prequeue v i.seen h.1 hv h.2.2
    rw [sweep_succ]
    generalize takeDue i.ts v i.seen i.prequeue = T at h1
    have h2 : Holds P { i with prequeue := T.2.2, seen := T.2.1 } := ⟨h1.2.2, h.2.1, h1.2.1⟩
    have h3 := holds_offer A P _ T.1 h2 h1.1
    have h4 := grown_offer A P { i with prequeue := T.2.2, seen := T.2.1 } T.1 h1.1
    generalize offer A { i with prequeue := T.2.2, seen := T.2.1 } T.1 = o at h3 h4
    obtain ⟨h5, h6⟩ := ih T.1 { o with ts := o.ts + o.ti } h3 h1.1
    exact ⟨h5, Grown.trans (j := o) h4 h6⟩

theorem holds_drain (A : Arith) (P : DV → Prop) (vs : List DV) : ∀ (i : Item), (∀ v ∈ vs, P v) → P i.prev →
    (∀ s, i.seen = some s → P s) → Holds P (drain A i vs) ∧ Grown P i (drain A i vs) := by
  induction vs with
  | nil => intro i _ hp hs; exact ⟨⟨by simp [drain], hp, hs⟩, .refl rfl⟩
  | cons v vs ih =>
    intro i hv hp hs
    have hv' : P v := hv v (by simp)
    obtain ⟨-, e2, -, -, -, -, -, e3⟩ := offer_fields A { i with seen := some v } v
    have h4 := grown_offer A P { i with seen := some v } v hv'
    obtain ⟨h5, h6⟩ := ih (offer A { i with seen := some v } v) (fun x hx => hv x (List.mem_cons_of_mem _ hx))
      (by rcases e3 with e | e <;> rw [e]
          · exact hp
          · exact hv')
      (by intro s he; rw [e2] at he; cases he; exact hv')
    exact ⟨h5, Grown.trans (j := offer A { i with seen := some v } v) h4 h6⟩

theorem holds_step (A : Arith) (P : DV → Prop) (hi : P initialValue) (i : Item) (e : Ev) (h : Holds P i)
    (hb : ∀ v ∈ brings e, P v) : Holds P (step A i e) ∧ Grown P i (step A i e) := by
  have start_log : ∀ (j : Item) (now : Nat) (v : DV), (startMonitoring j now v).log = j.log := by
    intro j now v; unfold startMonitoring; dsimp only; split <;> rfl
  cases e with
  | poll v =>
    refine ⟨⟨?_, h.2⟩, .refl rfl⟩
    intro x hx
    rcases List.mem_append.mp hx with hx | hx
    · exact h.1 x hx
    · rw [List.mem_singleton.mp hx]; exact hb v (by simp [brings])
  | take n => exact ⟨h, .refl rfl⟩
  | modify f t ti now v => exact ⟨holds_start P { i with filter := f, ti := ti } now v h (hb v (by simp [brings])), .refl (start_log _ _ _)⟩
  | setMode m now v =>
    dsimp only [step, setMode]
    split
    · exact ⟨h, .refl rfl⟩
    · split
      · refine ⟨holds_start P _ now v ⟨h.1, hi, by simp⟩ (hb v (by simp [brings])), ?_⟩
        exact ⟨[.reset], by rw [start_log], by intro r hr; rw [List.mem_singleton.mp hr]; trivial⟩
      · exact ⟨holds_start P { i with mode := m } now v h (hb v (by simp [brings])), .refl (start_log _ _ _)⟩
  | cycle tn r =>
    dsimp only [step, cycle]
    split
    · exact ⟨h, .refl rfl⟩
    · have h2 : Holds P (if 0 < i.ti then sweep A (rounds i.ti i.ts tn) i.prev i else drain A i i.prequeue) ∧
          Grown P i (if 0 < i.ti then sweep A (rounds i.ti i.ts tn) i.prev i else drain A i i.prequeue) := by
        split
        · exact holds_sweep A P _ _ _ h h.2.1
        · exact holds_drain A P _ _ h.1 h.2.1 h.2.2
      generalize (if 0 < i.ti then sweep A (rounds i.ti i.ts tn) i.prev i else drain A i i.prequeue) = j at h2 ⊢
      cases r with
      | none => exact h2
      | some v =>
        have hv' : P v := hb v (by simp [brings])
        dsimp only
        split
        · refine ⟨⟨h2.1.1, hv', by intro s e; cases e; exact hv'⟩, Grown.trans h2.2 ?_⟩
          exact ⟨[.again v], rfl, by intro r hr; rw [List.mem_singleton.mp hr]; exact hv'⟩
        · exact h2

theorem holds_run (A : Arith) (P : DV → Prop) (hi : P initialValue) (evs : List Ev) : ∀ (i : Item), Holds P i →
    (∀ e ∈ evs, ∀ v ∈ brings e, P v) → Holds P (run A i evs) ∧ Grown P i (run A i evs) := by
  induction evs with
  | nil => intro i h _; exact ⟨h, .refl rfl⟩
  | cons e evs ih =>
    intro i h hb
    obtain ⟨h1, h2⟩ := holds_step A P hi i e h (hb e (by simp))
    obtain ⟨h3, h4⟩ := ih (step A i e) h1 (fun x hx => hb x (List.mem_cons_of_mem _ hx))
    exact ⟨h3, h2.trans h4⟩

/-- **C55 (up to date).** Whatever happens to an item with a trigger and without deadband, as long as its
filter is not modified and there are no NaN: the last sample that a publishing cycle looked at does not
differ, in what the trigger selects, from the last reported value. So no change is missed. -/
theorem C55_current_partial (A : Arith) (m : Mode) (tr : Trigger) (htr : tr ≠ .other) (t : Timestamps) (ti now : Nat) (v0 : DV)
    (evs : List Ev) (hk : ∀ e ∈ evs, keepsFilter e = true) (h0 : noNaN v0.value = true)
    (hv : ∀ e ∈ evs, ∀ v ∈ brings e, noNaN v.value = true) (s : DV)
    (hs : (ran A m ⟨tr, .none⟩ t ti now v0 evs).seen = some s)
    (hc : Coherent s.value (lastOf (ran A m ⟨tr, .none⟩ t ti now v0 evs).log).value) :
    ¬ Differs tr s (lastOf (ran A m ⟨tr, .none⟩ t ti now v0 evs).log) := by
  have hi : Stable A ⟨tr, .none⟩ initialValue := stable_none A tr htr _ rfl
  have hnew : Good A ⟨tr, .none⟩ (newItem m ⟨tr, .none⟩ t ti now v0) := by
    refine good_start (i := ⟨m, ti, now, ⟨tr, .none⟩, t, [], initialValue, [], [], none⟩) ⟨rfl, ?_, ?_, hi, ?_⟩ now v0 (stable_none A tr htr _ h0)
    · intro s e; cases e
    · intro x hx; cases hx
    · intro s e; cases e
  have hg := good_run hi evs hnew hk (fun e he v hv' => stable_none A tr htr v (hv e he v hv'))
  have hp := (inv_run (A := A) evs (inv_new A m ⟨tr, .none⟩ t ti now v0)).prev
  have hfr := hg.fresh s hs
  rw [hg.filter] at hfr
  have hpn : noNaN s.value = true := by
    have hinit : Holds (fun v => noNaN v.value = true) (⟨m, ti, now, ⟨tr, .none⟩, t, [], initialValue, [], [], none⟩ : Item) :=
      ⟨by simp, rfl, by simp⟩
    exact (holds_run A (fun v => noNaN v.value = true) rfl evs _ (holds_start _ _ now v0 hinit h0) hv).1.2.2 s hs
  intro hd
  have := (C55_test_partial A tr s _ hpn hc).mpr hd
  rw [show (ran A m ⟨tr, .none⟩ t ti now v0 evs).log = (run A (newItem m ⟨tr, .none⟩ t ti now v0) evs).log from rfl, ← hp, hfr] at this
  cases this

/-! Samples at times 5, 12, 18 and 25 of an item with a sampling interval of 10: the sample at 12 is passed
over, the one at 25 is equal to the one before it. -/

def sampleAt (time n : Nat) : DV := ⟨.scalar (.int 32 (BitVec.ofNat 64 n)), 0, time, 0, time, 0⟩

def day : List Ev := [.poll (sampleAt 12 2), .poll (sampleAt 18 3), .cycle 20 none, .take 5, .poll (sampleAt 25 3), .cycle 30 none]

example : (ran exactly .reporting ⟨.statusValue, .none⟩ .both 10 0 (sampleAt 5 1) day).log =
    [.report (sampleAt 5 1) ⟨.statusValue, .none⟩, .report (sampleAt 18 3) ⟨.statusValue, .none⟩] ∧
    (ran exactly .reporting ⟨.statusValue, .none⟩ .both 10 0 (sampleAt 5 1) day).seen = some (sampleAt 25 3) := by
  decide +kernel

example : (∀ e ∈ day, keepsFilter e = true) ∧ ∀ e ∈ day, ∀ v ∈ brings e, noNaN v.value = true := by decide

/-- **C55 fails (NaN).** A value that is and stays NaN is reported in every sampling interval. -/
theorem C55_nan_fails :
    let v : DV := ⟨.scalar (.float 64 .nan), 0, 5, 0, 5, 0⟩
    (ran exactly .reporting ⟨.statusValue, .none⟩ .both 10 0 v [.cycle 40 none]).log =
      [.report v ⟨.statusValue, .none⟩, .report v ⟨.statusValue, .none⟩, .report v ⟨.statusValue, .none⟩, .report v ⟨.statusValue, .none⟩] := by
  decide +kernel

/-! ## C73 -/

/-- Value and status are those of `v`, and the timestamps that were asked for are there, and no others. -/
def Selected (t : Timestamps) (v w : DV) : Prop :=
  w.value = v.value ∧ w.status = v.status ∧
  w.source = (if t = .source ∨ t = .both then v.source else noTime) ∧
  w.server = (if t = .server ∨ t = .both then v.server else noTime)

/-- **C73 (read).** Each result of a Read has the timestamps that were asked for and no others, with the
value and status unchanged. -/
theorem C73_read (vs : List DV) (t : Timestamps) :
    (selectTimestamps vs t).length = vs.length ∧
    ∀ (n : Nat) (v : DV), vs[n]? = some v → ∃ w, (selectTimestamps vs t)[n]? = some w ∧ Selected t v w := by
  cases t <;> simp only [selectTimestamps, List.length_map, true_and, List.getElem?_map] <;>
    (intro n v h; rw [h]; exact ⟨_, rfl, by simp [Selected]⟩)

/-- The values that the records say were queued since the last reset. -/
def recValue : Rec → Option DV
  | .report v _ => some v
  | .again v => some v
  | .reset => none

/-- Everything in the queue is a recorded value with selected timestamps. -/
def Queued (t : Timestamps) (i : Item) : Prop :=
  i.timestamps = t ∧ ∀ w ∈ i.queue, ∃ v, (∃ r ∈ i.log, recValue r = some v) ∧ Selected t v w

theorem selected_with (v : DV) (t : Timestamps) : Selected t v (withTimestamps v t) := by
  cases t <;> simp [Selected, withTimestamps]

theorem queued_offer {A : Arith} {t : Timestamps} {i : Item} (h : Queued t i) (v : DV) : Queued t (offer A i v) := by
  unfold offer
  split
  · refine ⟨h.1, ?_⟩
    intro w hw
    rcases List.mem_append.mp hw with hw | hw
    · obtain ⟨x, ⟨r, hr, hx⟩, hs⟩ := h.2 w hw
      exact ⟨x, ⟨r, List.mem_append_left _ hr, hx⟩, hs⟩
    · rw [List.mem_singleton.mp hw]
      refine ⟨v, ⟨_, List.mem_append_right _ (List.mem_singleton.mpr rfl), rfl⟩, ?_⟩
      have := selected_with v i.timestamps
      rw [h.1] at this ⊢
      exact this
  · exact h

theorem queued_step {A : Arith} {t : Timestamps} {i : Item} (h : Queued t i) (e : Ev) : Queued t (step A i e) := by
  have hstart : ∀ (j : Item) (now : Nat) (v : DV), Queued t j → Queued t (startMonitoring j now v) := by
    intro j now v hj; unfold startMonitoring; dsimp only; split <;> exact hj
  cases e with
  | poll v => exact h
  | take n => exact ⟨h.1, fun w hw => h.2 w (List.mem_of_mem_drop hw)⟩
  | modify f t' ti now v => exact hstart { i with filter := f, ti := ti } now v h
  | setMode m now v =>
    dsimp only [step, setMode]
    split
    · exact h
    · refine hstart _ now v ?_
      split
      · exact ⟨h.1, by intro w hw; cases hw⟩
      · exact h
  | cycle tn r =>
    dsimp only [step, cycle]
    split
    · exact h
    · have h2 : Queued t (if 0 < i.ti then sweep A (rounds i.ti i.ts tn) i.prev i else drain A i i.prequeue) := by
        split
        · have : ∀ (n : Nat) (v : DV) (j : Item), Queued t j → Queued t (sweep A n v j) := by
            intro n
            induction n with
            | zero => intro v j hj; exact hj
            | succ n ih =>
              intro v j hj
              rw [sweep_succ]
              generalize takeDue j.ts v j.seen j.prequeue = T
              have := queued_offer (A := A) (i := { j with prequeue := T.2.2, seen := T.2.1 }) hj T.1
              generalize offer A { j with prequeue := T.2.2, seen := T.2.1 } T.1 = o at this
              exact ih T.1 { o with ts := o.ts + o.ti } this
          exact this _ _ _ h
        · have : ∀ (vs : List DV) (j : Item), Queued t j → Queued t (drain A j vs) := by
            intro vs
            induction vs with
            | nil => intro j hj; exact hj
            | cons v vs ih => intro j hj; exact ih _ (queued_offer (A := A) (i := { j with seen := some v }) hj v)
          exact this _ _ h
      generalize (if 0 < i.ti then sweep A (rounds i.ti i.ts tn) i.prev i else drain A i i.prequeue) = j at h2 ⊢
      cases r with
      | none => exact h2
      | some v =>
        dsimp only
        split
        · refine ⟨h2.1, ?_⟩
          intro w hw
          rw [List.mem_singleton.mp hw]
          refine ⟨v, ⟨_, List.mem_append_right _ (List.mem_singleton.mpr rfl), rfl⟩, ?_⟩
          have := selected_with v j.timestamps
          rw [h2.1] at this ⊢
          exact this
        · exact h2

/-- **C73 (monitored items, partial).** Every value in the queue of an item is a reported sample with the
timestamps that were asked for when the item was created, and no others. Missing: a different choice in
ModifyMonitoredItems, see `C73_modify_fails`. -/
theorem C73_item_partial (A : Arith) (m : Mode) (f : Filter) (t : Timestamps) (ti now : Nat) (v0 : DV) (evs : List Ev)
    (w : DV) (hw : w ∈ (ran A m f t ti now v0 evs).queue) :
    ∃ v, (∃ r ∈ (ran A m f t ti now v0 evs).log, recValue r = some v) ∧ Selected t v w := by
  have : ∀ (evs : List Ev) (i : Item), Queued t i → Queued t (run A i evs) := by
    intro evs
    induction evs with
    | nil => intro i h; exact h
    | cons e evs ih => intro i h; exact ih _ (queued_step h e)
  refine (this evs _ ?_).2 w hw
  unfold newItem startMonitoring
  dsimp only
  split <;> exact ⟨rfl, by intro w hw; cases hw⟩

example : (ran exactly .reporting ⟨.statusValue, .none⟩ .source 10 0 (sampleAt 5 1) [.poll (sampleAt 12 2), .cycle 20 none]).queue =
    [⟨.scalar (.int 32 1), 0, 5, 0, 0, 0⟩, ⟨.scalar (.int 32 2), 0, 12, 0, 0, 0⟩] := by decide +kernel

/-- **C73 fails (modify).** A client asks for both timestamps by ModifyMonitoredItems and still gets none. -/
theorem C73_modify_fails :
    (ran exactly .reporting ⟨.statusValue, .none⟩ .neither 10 0 (sampleAt 5 1)
      [.modify ⟨.statusValue, .none⟩ .both 10 6 (sampleAt 6 1), .cycle 20 none]).queue = [⟨.scalar (.int 32 1), 0, 0, 0, 0, 0⟩] := by
  decide +kernel

/-! ## C87 -/

/-- **C87 (partial).** If all samples taken so far were looked at when an item is disabled, then what is
reported later was sampled later (or is the initial value). Missing: samples that were still waiting, see
`C87_stale_fails`. -/
theorem C87_partial (A : Arith) (i : Item) (h : i.prequeue = []) (hm : i.mode ≠ .disabled) (now : Nat) (v : DV) (evs : List Ev) :
    ∃ new, (run A (step A i (.setMode .disabled now v)) evs).log = i.log ++ .reset :: new ∧
      ∀ r ∈ new, recOk (fun w => w = initialValue ∨ ∃ e ∈ evs, w ∈ brings e) r := by
  have hs : step A i (.setMode .disabled now v) =
      { i with mode := .disabled, queue := [], prev := initialValue, log := i.log ++ [.reset], seen := none, ts := now } := by
    dsimp only [step, setMode]
    rw [if_neg hm, if_pos rfl]
    unfold startMonitoring
    dsimp only
    rw [if_pos rfl]
  rw [hs]
  obtain ⟨-, new, h1, h2⟩ := holds_run A (fun w => w = initialValue ∨ ∃ e ∈ evs, w ∈ brings e) (Or.inl rfl) evs
    { i with mode := .disabled, queue := [], prev := initialValue, log := i.log ++ [.reset], seen := none, ts := now }
    ⟨by intro w hw; dsimp only at hw; rw [h] at hw; simp at hw, Or.inl rfl, by intro s hs; simp at hs⟩
    (fun e he w hw => Or.inr ⟨e, he, hw⟩)
  exact ⟨new, by rw [h1]; simp, h2⟩

example : (ran exactly .reporting ⟨.statusValue, .none⟩ .both 10 0 (sampleAt 5 1) [.cycle 10 none]).prequeue = [] := by
  decide +kernel

/-- **C87 fails.** A sample of time 15 waits for the next cycle when the item is disabled at 16; a day
later, at 1000, the item is enabled again, and the first value that it reports is the old one. -/
theorem C87_stale_fails :
    (ran exactly .reporting ⟨.statusValue, .none⟩ .both 10 0 (sampleAt 5 1)
      [.cycle 10 none, .poll (sampleAt 15 2), .setMode .disabled 16 (sampleAt 16 2), .setMode .reporting 1000 (sampleAt 1001 7),
        .cycle 1010 none]).log =
    [.report (sampleAt 5 1) ⟨.statusValue, .none⟩, .reset, .report (sampleAt 15 2) ⟨.statusValue, .none⟩,
      .report (sampleAt 1001 7) ⟨.statusValue, .none⟩] := by decide +kernel

/-! ## C88 -/

/-- **C88 (partial).** With a percent deadband nothing is missed: the last sample that a cycle looked at is
the last reported value. Missing: small changes are reported, too, see `C88_percent_fails`. -/
theorem C88_current_partial (A : Arith) (m : Mode) (t : Timestamps) (ti now : Nat) (v0 : DV) (evs : List Ev)
    (hk : ∀ e ∈ evs, keepsFilter e = true) (s : DV) (hs : (ran A m ⟨.statusValue, .percent⟩ t ti now v0 evs).seen = some s) :
    lastOf (ran A m ⟨.statusValue, .percent⟩ t ti now v0 evs).log = s := by
  have hall : ∀ c p, isDataChange A ⟨.statusValue, .percent⟩ c p = true := by
    intro c p; simp [isDataChange, valueChange]
  let Ok : Item → Prop := fun i => i.filter = ⟨.statusValue, .percent⟩ ∧ ∀ s, i.seen = some s → i.prev = s
  have hoffer : ∀ (i : Item) (v : DV), i.filter = ⟨.statusValue, .percent⟩ →
      (offer A i v).prev = v ∧ (offer A i v).filter = ⟨.statusValue, .percent⟩ ∧ (offer A i v).seen = i.seen := by
    intro i v h
    unfold offer
    rw [if_pos (by rw [h]; exact hall _ _)]
    exact ⟨rfl, h, rfl⟩
  have hstart : ∀ (i : Item) (now : Nat) (v : DV), Ok i → Ok (startMonitoring i now v) := by
    intro i now v h; unfold startMonitoring; dsimp only; split <;> exact h
  have hsweep : ∀ (n : Nat) (v : DV) (i : Item), Ok i → v = i.prev → Ok (sweep A n v i) := by
    intro n
    induction n with
    | zero => intro v i h _; exact h
    | succ n ih =>
      intro v i h hv
      rw [sweep_succ]
      have h2 := takeDue_seen i.ts i.prequeue v i.seen
      generalize takeDue i.ts v i.seen i.prequeue = T at h2
      obtain ⟨e1, e2, e3⟩ := hoffer { i with prequeue := T.2.2, seen := T.2.1 } T.1 h.1
      generalize offer A { i with prequeue := T.2.2, seen := T.2.1 } T.1 = o at e1 e2 e3
      refine ih _ _ ⟨e2, ?_⟩ e1.symm
      intro s he
      have he' : o.seen = some s := he
      show o.prev = s
      rw [e3] at he'
      rcases h2 with ⟨a, b⟩ | b
      · rw [e1, a, hv]; dsimp only at he'; rw [b] at he'; exact h.2 s he'
      · dsimp only at he'; rw [b] at he'; cases he'; exact e1
  have hdrain : ∀ (vs : List DV) (i : Item), Ok i → Ok (drain A i vs) := by
    intro vs
    induction vs with
    | nil => intro i h; exact h
    | cons v vs ih =>
      intro i h
      obtain ⟨e1, e2, e3⟩ := hoffer { i with seen := some v } v h.1
      exact ih _ ⟨e2, by intro s he; rw [e3] at he; cases he; exact e1⟩
  have hstep : ∀ (i : Item) (e : Ev), keepsFilter e = true → Ok i → Ok (step A i e) := by
    intro i e hk h
    cases e with
    | poll v => exact h
    | take n => exact h
    | modify f t ti now v => cases hk
    | setMode m now v =>
      dsimp only [step, setMode]
      split
      · exact h
      · refine hstart _ now v ?_
        split
        · exact ⟨h.1, by intro s e; cases e⟩
        · exact h
    | cycle tn r =>
      dsimp only [step, cycle]
      split
      · exact h
      · have h2 : Ok (if 0 < i.ti then sweep A (rounds i.ti i.ts tn) i.prev i else drain A i i.prequeue) := by
          split
          · exact hsweep _ _ _ h rfl
          · exact hdrain _ _ h
        generalize (if 0 < i.ti then sweep A (rounds i.ti i.ts tn) i.prev i else drain A i i.prequeue) = j at h2 ⊢
        cases r with
        | none => exact h2
        | some v =>
          dsimp only
          split
          · exact ⟨h2.1, by intro s e; cases e; rfl⟩
          · exact h2
  have hrun : ∀ (evs : List Ev) (i : Item), (∀ e ∈ evs, keepsFilter e = true) → Ok i → Ok (run A i evs) := by
    intro evs
    induction evs with
    | nil => intro i _ h; exact h
    | cons e evs ih =>
      intro i hk h
      exact ih _ (fun x hx => hk x (List.mem_cons_of_mem _ hx)) (hstep i e (hk e (by simp)) h)
  have hnew : Ok (newItem m ⟨.statusValue, .percent⟩ t ti now v0) := hstart _ now v0 ⟨rfl, by intro s e; cases e⟩
  have := (hrun evs _ hk hnew).2 s hs
  exact (inv_run (A := A) evs (inv_new A m ⟨.statusValue, .percent⟩ t ti now v0)).prev.symm.trans this

/-- **C88 fails.** With a percent deadband a value that does not change is reported in every sampling
interval, and so is the placeholder before the first sample. -/
theorem C88_percent_fails :
    (ran exactly .reporting ⟨.statusValue, .percent⟩ .both 10 0 (sampleAt 5 1) [.cycle 30 none]).queue =
      [initialValue, sampleAt 5 1, sampleAt 5 1, sampleAt 5 1] := by decide +kernel

end Opcua.DataChange
