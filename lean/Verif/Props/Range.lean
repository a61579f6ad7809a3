import Verif.Model.Range
import Verif.Lemmas.Lists

/-!
# C69: index ranges on read and write
-/

namespace Opcua.Range

/-! ## Specification: numerals, range texts, and the elements of a value -/

namespace Spec

/-- A decimal digit. -/
def Digit (c : Char) (d : Nat) : Prop := d < 10 ∧ c = Char.ofNat (48 + d)

/-- A numeral and its value. -/
inductive Decimal : Text → Nat → Prop
  | one {c d} : Digit c d → Decimal [c] d
  | snoc {s n c d} : Decimal s n → Digit c d → Decimal (s ++ [c]) (10 * n + d)

/-- A well-formed range of one dimension and its first and last index (Part 4, 7.27). -/
inductive Denotes : Text → Nat → Nat → Prop
  | one {s n} : Decimal s n → Denotes s n n
  | span {a b lo hi} : Decimal a lo → Decimal b hi → lo < hi → Denotes (a ++ ':' :: b) lo hi

/-- An element of a value. -/
inductive Cell where
  | char (c : Char)
  | num (n : Nat)
  | text (s : Text)
  | bytes (b : List Nat)
  deriving DecidableEq

/-- The elements that an index range selects from, of a value that has such. -/
def cells : Val → Option (List Cell)
  | .text s => some (s.map .char)
  | .bytes b => some (b.map .num)
  | .array _ xs => some (xs.map .num)
  | .texts xs => some (xs.map .text)
  | .byteStrings xs => some (xs.map .bytes)
  | _ => none

/-- The type of a value. -/
def form : Val → Nat × Nat
  | .null => (0, 0)
  | .scalar t _ => (1, t)
  | .text _ => (2, 0)
  | .bytes _ => (3, 0)
  | .struct t _ => (4, t)
  | .array t _ => (5, t)
  | .texts _ => (6, 0)
  | .byteStrings _ => (7, 0)
  | .matrix t _ => (8, t)

end Spec

open Spec

deriving instance DecidableEq for Except

/-! ## Lemmas on texts -/

theorem digit_iff (c : Char) (d : Nat) : digit c = some d ↔ Digit c d := by
  unfold digit Digit
  have h0 : '0'.toNat = 48 := rfl
  have h9 : '9'.toNat = 57 := rfl
  rw [h0, h9]
  constructor
  · intro h
    split at h
    · rename_i hc
      simp only [Option.some.injEq] at h
      refine ⟨by omega, ?_⟩
      have : 48 + d = c.toNat := by omega
      rw [this, Char.ofNat_toNat]
    · simp at h
  · rintro ⟨hd, rfl⟩
    have hv : (Char.ofNat (48 + d)).toNat = 48 + d := by
      have : ∀ d : Fin 10, (Char.ofNat (48 + d.val)).toNat = 48 + d.val := by decide
      exact this ⟨d, hd⟩
    rw [hv, if_pos (by omega)]
    congr 1
    omega

theorem digitsLoop_snoc (s : Text) (c : Char) (a : Nat) :
    digitsLoop (s ++ [c]) a = (digitsLoop s a).bind fun m => (digit c).map fun d => m * 10 + d := by
  induction s generalizing a with
  | nil =>
    simp only [List.nil_append, digitsLoop, Option.bind_some]
    cases digit c <;> rfl
  | cons x s ih =>
    simp only [List.cons_append, digitsLoop]
    cases digit x with
    | none => rfl
    | some d => exact ih _

theorem parseUint_iff (s : Text) (n : Nat) : parseUint s = some n ↔ Decimal s n := by
  constructor
  · intro h
    have key : ∀ s : Text, ∀ n, s ≠ [] → digitsLoop s 0 = some n → Decimal s n := by
      intro s
      induction s using snocInd with
      | nil => intro n h; exact absurd rfl h
      | append_singleton s c ih =>
        intro n _ hn
        rw [digitsLoop_snoc] at hn
        cases hm : digitsLoop s 0 with
        | none => rw [hm] at hn; simp at hn
        | some m =>
          rw [hm] at hn
          cases hd : digit c with
          | none => rw [hd] at hn; simp at hn
          | some d =>
            rw [hd] at hn
            simp only [Option.bind_some, Option.map_some, Option.some.injEq] at hn
            have hdd := (digit_iff c d).1 hd
            by_cases hs : s = []
            · subst hs
              simp only [digitsLoop, Option.some.injEq] at hm
              subst hm
              have : n = d := by omega
              subst this
              exact .one hdd
            · have := Decimal.snoc (ih m hs hm) hdd
              have he : n = 10 * m + d := by omega
              rw [he]; exact this
    unfold parseUint at h
    split at h
    · simp at h
    · rename_i hs
      exact key s n (by intro he; simp [he] at hs) h
  · intro h
    have : s ≠ [] ∧ digitsLoop s 0 = some n := by
      induction h with
      | one hd => exact ⟨by simp, by simp [digitsLoop, (digit_iff _ _).2 hd]⟩
      | snoc hs hd ih =>
        refine ⟨by simp, ?_⟩
        rw [digitsLoop_snoc, ih.2, (digit_iff _ _).2 hd]
        simp only [Option.bind_some, Option.map_some, Option.some.injEq]
        omega
    unfold parseUint
    rw [if_neg (by simpa using this.1)]
    exact this.2

theorem Spec.Digit.ne {c d} (h : Digit c d) : c ≠ ':' ∧ c ≠ ',' ∧ c ≠ '+' ∧ c ≠ '-' := by
  obtain ⟨hd, rfl⟩ := h
  have : ∀ d : Fin 10, Char.ofNat (48 + d.val) ≠ ':' ∧ Char.ofNat (48 + d.val) ≠ ',' ∧
      Char.ofNat (48 + d.val) ≠ '+' ∧ Char.ofNat (48 + d.val) ≠ '-' := by decide
  exact this ⟨d, hd⟩

theorem Spec.Decimal.chars {s n} (h : Decimal s n) : s ≠ [] ∧ ':' ∉ s ∧ ',' ∉ s ∧ '+' ∉ s ∧ '-' ∉ s := by
  induction h with
  | one hd => have := Spec.Digit.ne hd; grind
  | snoc _ hd ih =>
    have := Spec.Digit.ne hd
    refine ⟨by simp, ?_⟩
    simp only [List.mem_append, List.mem_singleton]
    grind

theorem parseInt_decimal {s n} (h : Decimal s n) (hn : n < 2147483648) : parseInt s = some (n : Int) := by
  have hu := (parseUint_iff s n).2 h
  have hc := h.chars
  cases s with
  | nil => exact absurd rfl hc.1
  | cons c cs =>
    have h1 : (c == '+') = false := by have := hc.2.2.2.1; grind
    have h2 : (c == '-') = false := by have := hc.2.2.2.2; grind
    unfold parseInt
    simp only [h1, h2, Bool.or_self, Bool.false_eq_true, if_false, hu]
    have : decide (n ≥ 2147483648) = false := by simp; omega
    simp only [this]
    rfl

theorem parseInt_inv {s : Text} {z : Int} (h : parseInt s = some z) (h1 : '+' ∉ s) (h2 : '-' ∉ s) :
    ∃ n : Nat, z = n ∧ Decimal s n := by
  cases s with
  | nil => simp [parseInt] at h
  | cons c cs =>
    have h1 : (c == '+') = false := by grind
    have h2 : (c == '-') = false := by grind
    unfold parseInt at h
    simp only [h1, h2, Bool.or_self] at h
    cases hu : parseUint (c :: cs) with
    | none => simp [hu] at h
    | some n =>
      simp only [hu, Bool.false_eq_true, if_false] at h
      refine ⟨n, ?_, (parseUint_iff _ _).1 hu⟩
      split at h
      · simp at h
      · simp at h; exact h.symm

theorem cutColon_none {s : Text} (h : ':' ∉ s) : cutColon s = none := by
  induction s with
  | nil => rfl
  | cons c s ih =>
    have : (c == ':') = false := by grind
    simp [cutColon, this, ih (by grind)]

theorem cutColon_some {a b : Text} (h : ':' ∉ a) : cutColon (a ++ ':' :: b) = some (a, b) := by
  induction a with
  | nil => simp [cutColon]
  | cons c s ih =>
    have : (c == ':') = false := by grind
    simp [cutColon, this, ih (by grind)]

theorem cutColon_inv {s a b : Text} (h : cutColon s = some (a, b)) : s = a ++ ':' :: b := by
  induction s generalizing a with
  | nil => simp [cutColon] at h
  | cons c s ih =>
    unfold cutColon at h
    split at h
    · rename_i hc
      simp only [Option.some.injEq, Prod.mk.injEq] at h
      obtain ⟨rfl, rfl⟩ := h
      simp at hc; simp [hc]
    · split at h
      · simp at h
      · rename_i a' b' hs
        simp only [Option.some.injEq, Prod.mk.injEq] at h
        obtain ⟨rfl, rfl⟩ := h
        rw [ih hs]; rfl

theorem splitComma_one {s : Text} (h : ',' ∉ s) : splitComma s = [s] := by
  induction s with
  | nil => rfl
  | cons c s ih =>
    have : (c == ',') = false := by grind
    simp [splitComma, this, ih (by grind)]

theorem splitComma_cons {a b : Text} (h : ',' ∉ a) : splitComma (a ++ ',' :: b) = a :: splitComma b := by
  induction a with
  | nil => simp [splitComma]
  | cons c s ih =>
    have : (c == ',') = false := by grind
    simp [splitComma, this, ih (by grind)]

theorem Spec.Denotes.chars {s lo hi} (h : Denotes s lo hi) : s ≠ [] ∧ ',' ∉ s := by
  cases h with
  | one h => exact ⟨h.chars.1, h.chars.2.2.1⟩
  | span ha hb _ => have := ha.chars; have := hb.chars; exact ⟨by simp, by grind⟩

theorem Spec.Denotes.le {s lo hi} (h : Denotes s lo hi) : lo ≤ hi := by
  cases h with
  | one h => exact Nat.le_refl _
  | span ha hb h => omega

theorem parseLoHi_denotes {s lo hi} (h : Denotes s lo hi) (hn : hi < 2147483648) :
    parseLoHi s = some ((lo : Int), if lo = hi then -1 else (hi : Int)) := by
  cases h with
  | one h =>
    unfold parseLoHi
    rw [cutColon_none h.chars.2.1]
    dsimp only
    rw [parseInt_decimal h hn]
    simp
  | span ha hb hlt =>
    unfold parseLoHi
    rw [cutColon_some ha.chars.2.1]
    dsimp only
    rw [parseInt_decimal ha (by omega), parseInt_decimal hb hn]
    dsimp only
    rw [if_neg (by omega), if_neg (by omega), if_neg (by omega), if_neg (by omega)]

theorem parseLoHi_inv {s : Text} {p : Int × Int} (h : parseLoHi s = some p) (h1 : '+' ∉ s) (h2 : '-' ∉ s) :
    ∃ lo hi, Denotes s lo hi := by
  unfold parseLoHi at h
  cases hc : cutColon s with
  | none =>
    simp only [hc] at h
    cases hz : parseInt s with
    | none => simp [hz] at h
    | some z =>
      obtain ⟨n, _, hd⟩ := parseInt_inv hz h1 h2
      exact ⟨n, n, .one hd⟩
  | some ab =>
    obtain ⟨a, b⟩ := ab
    have hs := cutColon_inv hc
    simp only [hc] at h
    have ha1 : '+' ∉ a ∧ '-' ∉ a ∧ '+' ∉ b ∧ '-' ∉ b := by
      rw [hs] at h1 h2
      refine ⟨?_, ?_, ?_, ?_⟩ <;> intro hh
      · exact h1 (List.mem_append.2 (.inl hh))
      · exact h2 (List.mem_append.2 (.inl hh))
      · exact h1 (List.mem_append.2 (.inr (List.mem_cons_of_mem _ hh)))
      · exact h2 (List.mem_append.2 (.inr (List.mem_cons_of_mem _ hh)))
    cases hz : parseInt a with
    | none => simp [hz] at h
    | some lo =>
      cases hz' : parseInt b with
      | none => simp [hz, hz'] at h
      | some hi =>
        simp only [hz, hz'] at h
        obtain ⟨n, rfl, hd⟩ := parseInt_inv hz ha1.1 ha1.2.1
        obtain ⟨m, rfl, hd'⟩ := parseInt_inv hz' ha1.2.2.1 ha1.2.2.2
        split at h
        · simp at h
        · split at h
          · simp at h
          · refine ⟨n, m, ?_⟩
            rw [hs]
            exact .span hd hd' (by omega)

/-- The bounds of a well-formed range inside the data. -/
theorem parseBounds_in {s lo hi len} (h : Denotes s lo hi) (hn : hi < 2147483648) (hl : lo < len) :
    parseBounds s len = .ok (lo, min hi (len - 1) + 1) := by
  have hle := h.le
  unfold parseBounds
  rw [if_neg (by omega), if_neg (by simpa using h.chars.1), parseLoHi_denotes h hn]
  dsimp only
  rw [if_neg (by omega)]
  congr 1
  by_cases he : lo = hi
  · rw [if_pos he]
    simp only [Int.toNat_natCast]
    have : ¬ ((-1 : Int) ≥ (len : Int)) := by omega
    rw [if_neg this, if_pos rfl]
    congr 1
    omega
  · rw [if_neg he]
    simp only [Int.toNat_natCast]
    congr 1
    split <;> split <;> omega

/-- The bounds of a well-formed range outside the data. -/
theorem parseBounds_out {s lo hi len} (h : Denotes s lo hi) (hn : hi < 2147483648) (hl : len ≤ lo) :
    parseBounds s len = .error .badIndexRangeNoData := by
  unfold parseBounds
  split
  · rfl
  · rw [if_neg (by simpa using h.chars.1), parseLoHi_denotes h hn]
    dsimp only
    rw [if_pos (by omega)]

theorem parseBounds_le {s len i j} (h : parseBounds s len = .ok (i, j)) : i < j ∧ j ≤ len := by
  unfold parseBounds at h
  split at h
  · simp at h
  · split at h
    · simp at h; omega
    · cases hp : parseLoHi s with
      | none => simp [hp] at h
      | some p =>
        obtain ⟨lo, hi⟩ := p
        have hpos : 0 ≤ lo ∧ (hi = -1 ∨ lo < hi) := by
          unfold parseLoHi at hp
          split at hp
          · split at hp
            · simp at hp
            · split at hp
              · simp at hp
              · split at hp
                · simp at hp
                · split at hp
                  · simp at hp
                  · split at hp
                    · simp at hp
                    · simp at hp; omega
          · split at hp
            · simp at hp
            · split at hp
              · simp at hp
              · simp at hp; omega
        simp only [hp] at h
        split at h
        · simp at h
        · simp only [Except.ok.injEq, Prod.mk.injEq] at h
          obtain ⟨h1, h2⟩ := h
          split at h2 <;> split at h2 <;> omega

theorem parseBounds_malformed {s len} (hs : s ≠ []) (hl : len ≠ 0) (h1 : '+' ∉ s) (h2 : '-' ∉ s)
    (h : ¬ ∃ lo hi, Denotes s lo hi) : parseBounds s len = .error .badIndexRangeInvalid := by
  unfold parseBounds
  rw [if_neg hl, if_neg (by simpa using hs)]
  cases hp : parseLoHi s with
  | none => rfl
  | some p => exact absurd (parseLoHi_inv hp h1 h2) h

/-! ## Lemmas on lists -/

theorem slice_get {α : Type} (xs : List α) (i j k : Nat) :
    (slice xs i j)[k]? = if i + k < j then xs[i + k]? else none := by
  unfold slice
  rw [List.getElem?_take]
  split
  · rw [List.getElem?_drop, if_pos (by omega)]
  · rw [if_neg (by omega)]

theorem patch_get {α : Type} (xs ys : List α) (i j k : Nat) (hi : i ≤ j) (hj : j ≤ xs.length)
    (hy : ys.length = j - i) :
    (patch xs i j ys)[k]? = if i ≤ k ∧ k < j then ys[k - i]? else xs[k]? := by
  unfold patch
  have hlen : (xs.take i).length = i := by simp; omega
  rcases Nat.lt_or_ge k i with h | h
  · rw [if_neg (by omega), List.append_assoc, List.getElem?_append_left (by omega), List.getElem?_take,
      if_pos h]
  · rcases Nat.lt_or_ge k j with h' | h'
    · rw [if_pos ⟨h, h'⟩, List.append_assoc, List.getElem?_append_right (by omega), hlen,
        List.getElem?_append_left (by omega)]
    · rw [if_neg (by omega), List.getElem?_append_right (by simp; omega), List.getElem?_drop]
      congr 1
      simp
      omega

theorem patch_length {α : Type} (xs ys : List α) (i j : Nat) (hi : i ≤ j) (hj : j ≤ xs.length)
    (hy : ys.length = j - i) : (patch xs i j ys).length = xs.length := by
  unfold patch
  simp
  omega

theorem slice_patch {α : Type} (xs ys : List α) (i j : Nat) (hi : i ≤ j) (hj : j ≤ xs.length)
    (hy : ys.length = j - i) : slice (patch xs i j ys) i j = ys := by
  apply List.ext_getElem?
  intro k
  rw [slice_get, patch_get _ _ _ _ _ hi hj hy]
  by_cases h : i + k < j
  · rw [if_pos h, if_pos (by omega)]
    congr 1
    omega
  · rw [if_neg h]
    symm
    exact List.getElem?_eq_none (by omega)

/-! ## The theorems -/

theorem readSlice_in {α : Type} {xs : List α} {s lo hi} (h : Denotes s lo hi) (hn : hi < 2147483648)
    (hl : lo < xs.length) :
    ∃ ys, readSlice xs s = .ok ys ∧ ∀ k, ys[k]? = if lo + k ≤ hi then xs[lo + k]? else none := by
  refine ⟨slice xs lo (min hi (xs.length - 1) + 1), ?_, ?_⟩
  · unfold readSlice; rw [parseBounds_in h hn hl]
  · intro k
    rw [slice_get]
    by_cases hk : lo + k < xs.length
    · by_cases hk' : lo + k ≤ hi
      · rw [if_pos hk', if_pos (by omega)]
      · rw [if_neg hk', if_neg (by omega)]
    · rw [if_neg (by omega), List.getElem?_eq_none (by omega)]
      split <;> rfl

/-- The value of a sequence of elements is read by readSlice. -/
theorem read_one (v : Val) (s : Text) (hs : s ≠ []) (hc : ',' ∉ s) :
    readRange v s = match v with
      | .text x => (readSlice x s).map .text
      | .bytes x => (readSlice x s).map .bytes
      | .array t x => (readSlice x s).map (.array t)
      | .texts x => (readSlice x s).map .texts
      | .byteStrings x => (readSlice x s).map .byteStrings
      | _ => .error .badIndexRangeNoData := by
  have : s.isEmpty = false := by simpa using hs
  unfold readRange
  rw [this, splitComma_one hc]
  cases v <;> rfl

theorem map_get {α β : Type} (f : α → β) {xs ys : List α} {lo hi : Nat}
    (h : ∀ k, ys[k]? = if lo + k ≤ hi then xs[lo + k]? else none) (k : Nat) :
    (ys.map f)[k]? = if lo + k ≤ hi then (xs.map f)[lo + k]? else none := by
  rw [List.getElem?_map, List.getElem?_map, h k]
  split <;> rfl

/-- Reading with a range that lies in the data, at least in part, gives the selected elements, in order, in a
value of the same type. -/
theorem C69_read_partial (v : Val) (cs : List Cell) (s : Text) (lo hi : Nat) (hv : cells v = some cs)
    (h : Denotes s lo hi) (hn : hi < 2147483648) (hl : lo < cs.length) :
    ∃ w ws, readRange v s = .ok w ∧ form w = form v ∧ cells w = some ws ∧
      ∀ k, ws[k]? = if lo + k ≤ hi then cs[lo + k]? else none := by
  rw [read_one v s h.chars.1 h.chars.2]
  cases v <;> simp only [cells, Option.some.injEq, reduceCtorEq] at hv
  all_goals
    subst hv
    rw [List.length_map] at hl
    obtain ⟨ys, hy, hg⟩ := readSlice_in h hn hl
    simp only [hy]
    exact ⟨_, _, rfl, rfl, rfl, map_get _ hg⟩

example : Denotes "1:2".toList 1 2 :=
  .span (a := ['1']) (b := ['2']) (.one ⟨by decide, by decide⟩) (.one ⟨by decide, by decide⟩) (by decide)

example : readRange (.array 6 [10, 20, 30, 40]) "1:2".toList = .ok (.array 6 [20, 30]) := by decide
example : readRange (.text "hello".toList) "3:100".toList = .ok (.text "lo".toList) := by decide

/-- A range that lies outside the data is answered so, read or written. -/
theorem C69_outside (v : Val) (cs : List Cell) (s : Text) (lo hi : Nat) (hv : cells v = some cs)
    (h : Denotes s lo hi) (hn : hi < 2147483648) (hl : cs.length ≤ lo) (new : Val) :
    readRange v s = .error .badIndexRangeNoData ∧ writeRange v new s = .bad .badIndexRangeNoData := by
  have he : s.isEmpty = false := by simpa using h.chars.1
  unfold readRange writeRange
  rw [he, splitComma_one h.chars.2]
  cases v <;> simp only [cells, Option.some.injEq, reduceCtorEq] at hv
  all_goals
    subst hv
    rw [List.length_map] at hl
    have := parseBounds_out h hn hl
    simp [readFlat, readNested, readSlice, writeFlat, writeNested, writeSlice, this, Except.map, Outcome.map]

example : readRange (.array 6 [10, 20]) "2".toList = .error .badIndexRangeNoData := by decide

/-- A value that has no elements has no range. -/
theorem C69_scalar (v new : Val) (s : Text) (hv : cells v = none) (hs : s ≠ []) :
    readRange v s = .error .badIndexRangeNoData ∧ writeRange v new s = .bad .badIndexRangeNoData := by
  have he : s.isEmpty = false := by simpa using hs
  unfold readRange writeRange
  rw [he]
  cases v <;> simp only [cells, reduceCtorEq] at hv <;> exact ⟨rfl, rfl⟩

example : cells (.scalar 6 3) = none := rfl

/-- A malformed range of one dimension is answered so, read or written, for a value that is not empty. -/
theorem C69_malformed_partial (v : Val) (cs : List Cell) (s : Text) (hv : cells v = some cs) (hne : cs ≠ [])
    (hs : s ≠ []) (hc : ',' ∉ s) (h1 : '+' ∉ s) (h2 : '-' ∉ s) (h : ¬ ∃ lo hi, Denotes s lo hi) (new : Val) :
    readRange v s = .error .badIndexRangeInvalid ∧ writeRange v new s = .bad .badIndexRangeInvalid := by
  have he : s.isEmpty = false := by simpa using hs
  unfold readRange writeRange
  rw [he, splitComma_one hc]
  cases v <;> simp only [cells, Option.some.injEq, reduceCtorEq] at hv
  all_goals
    subst hv
    rename_i x
    have hl : x.length ≠ 0 := by
      intro hx
      apply hne
      have := List.eq_nil_of_length_eq_zero hx
      simp [this]
    have := parseBounds_malformed hs hl h1 h2 h
    simp [readFlat, readNested, readSlice, writeFlat, writeNested, writeSlice, this, Except.map, Outcome.map]

example : readRange (.array 6 [10, 20]) "2:1".toList = .error .badIndexRangeInvalid := by decide
example : readRange (.array 6 [10, 20]) "a".toList = .error .badIndexRangeInvalid := by decide

/-- The text of the range of a value that is empty is not looked at. -/
theorem C69_empty_fails : readRange (.array 6 []) "x".toList = .error .badIndexRangeNoData := by decide

/-- A sign is taken, although the grammar has none. -/
theorem C69_sign_fails :
    (¬ ∃ lo hi, Denotes "+1".toList lo hi) ∧ readRange (.array 6 [10, 20]) "+1".toList = .ok (.array 6 [20]) := by
  refine ⟨?_, by decide⟩
  rintro ⟨lo, hi, h⟩
  generalize hs : "+1".toList = s at h
  have hp : '+' ∈ s := by rw [← hs]; decide
  cases h with
  | one h => exact h.chars.2.2.2.1 hp
  | span ha hb _ =>
    rcases List.mem_append.1 hp with h | h
    · exact ha.chars.2.2.2.1 h
    · rcases List.mem_cons.1 h with h | h
      · exact absurd h (by decide)
      · exact hb.chars.2.2.2.1 h

/-- A well-formed index beyond 32 bits is called malformed, not outside the data. -/
theorem C69_large_fails :
    Denotes "2147483648".toList 2147483648 2147483648 ∧
      readRange (.array 6 [10, 20]) "2147483648".toList = .error .badIndexRangeInvalid := by
  refine ⟨.one ?_, by decide⟩
  exact (parseUint_iff _ _).1 (by decide)

/-- An empty component selects everything, although the grammar has none. -/
theorem C69_component_fails :
    readRange (.texts ["ab".toList, "cd".toList]) ",1".toList = .ok (.texts ["b".toList, "d".toList]) := by decide

/-- The ranges of two dimensions: of the selected strings, the selected characters. -/
theorem readInner_ok {α : Type} {s : Text} {lo hi : Nat} (h : Denotes s lo hi) (hn : hi < 2147483648)
    (xs : List (List α)) (hx : ∀ x ∈ xs, lo < x.length) :
    ∃ ys, readInner s xs = .ok ys ∧ ys.length = xs.length ∧
      ∀ (k : Nat) (x y : List α), xs[k]? = some x → ys[k]? = some y →
        ∀ m, y[m]? = if lo + m ≤ hi then x[lo + m]? else none := by
  induction xs with
  | nil => exact ⟨[], rfl, rfl, by simp⟩
  | cons x xs ih =>
    obtain ⟨ys, hy, hl, hg⟩ := ih (fun x hx' => hx x (List.mem_cons_of_mem _ hx'))
    obtain ⟨y, hy', hg'⟩ := readSlice_in h hn (hx x List.mem_cons_self)
    refine ⟨y :: ys, ?_, by simp [hl], ?_⟩
    · simp [readInner, hy, hy']
    · intro k a b ha hb
      cases k with
      | zero =>
        simp at ha hb
        subst ha; subst hb
        exact hg'
      | succ k =>
        simp only [List.getElem?_cons_succ] at ha hb
        exact hg k a b ha hb

theorem readNested_ok {α : Type} {s s' : Text} {lo hi lo' hi' : Nat} (h : Denotes s lo hi) (hn : hi < 2147483648)
    (h' : Denotes s' lo' hi') (hn' : hi' < 2147483648) (xs : List (List α)) (hl : lo < xs.length)
    (hx : ∀ k x, lo ≤ k → k ≤ hi → xs[k]? = some x → lo' < x.length) :
    ∃ ys, readNested xs [s, s'] = .ok ys ∧ ys.length = min hi (xs.length - 1) + 1 - lo ∧
      ∀ (k : Nat) (x y : List α), xs[lo + k]? = some x → ys[k]? = some y →
        ∀ m, y[m]? = if lo' + m ≤ hi' then x[lo' + m]? else none := by
  obtain ⟨ys, hy, hg⟩ := readSlice_in h hn hl
  have hsl : ys = slice xs lo (min hi (xs.length - 1) + 1) := by
    unfold readSlice at hy
    rw [parseBounds_in h hn hl] at hy
    simpa using hy.symm
  have hle := h.le
  have hlen : ys.length = min hi (xs.length - 1) + 1 - lo := by
    rw [hsl]; unfold slice; simp; omega
  have hx' : ∀ y ∈ ys, lo' < y.length := by
    intro y hy'
    obtain ⟨k, hk⟩ := List.getElem?_of_mem hy'
    have := hg k
    rw [hk] at this
    split at this
    · exact hx (lo + k) y (by omega) (by omega) this.symm
    · simp at this
  obtain ⟨zs, hz, hzl, hzg⟩ := readInner_ok h' hn' ys hx'
  refine ⟨zs, ?_, by rw [hzl, hlen], ?_⟩
  · simp [readNested, hy, hz]
  · intro k x y hxk hyk
    have hk : k < ys.length := by
      have := (List.getElem?_eq_some_iff.1 hyk).1
      omega
    have hlk : lo + k ≤ hi := by omega
    exact hzg k x y (by rw [hg k, if_pos hlk]; exact hxk) hyk

/-- Two ranges on an array of strings give the selected characters of the selected strings. -/
theorem C69_readTexts_partial (xs : List Text) (s s' : Text) (lo hi lo' hi' : Nat) (h : Denotes s lo hi)
    (hn : hi < 2147483648) (h' : Denotes s' lo' hi') (hn' : hi' < 2147483648) (hl : lo < xs.length)
    (hx : ∀ k x, lo ≤ k → k ≤ hi → xs[k]? = some x → lo' < x.length) :
    ∃ ys, readRange (.texts xs) (s ++ ',' :: s') = .ok (.texts ys) ∧
      ys.length = min hi (xs.length - 1) + 1 - lo ∧
      ∀ (k : Nat) (x y : Text), xs[lo + k]? = some x → ys[k]? = some y →
        ∀ m, y[m]? = if lo' + m ≤ hi' then x[lo' + m]? else none := by
  obtain ⟨ys, hy, hlen, hg⟩ := readNested_ok h hn h' hn' xs hl hx
  refine ⟨ys, ?_, hlen, hg⟩
  unfold readRange
  rw [splitComma_cons h.chars.2, splitComma_one h'.chars.2]
  simp [Except.map, hy]

/-- The same for an array of byte strings. -/
theorem C69_readByteStrings_partial (xs : List (List Nat)) (s s' : Text) (lo hi lo' hi' : Nat)
    (h : Denotes s lo hi) (hn : hi < 2147483648) (h' : Denotes s' lo' hi') (hn' : hi' < 2147483648)
    (hl : lo < xs.length) (hx : ∀ k x, lo ≤ k → k ≤ hi → xs[k]? = some x → lo' < x.length) :
    ∃ ys, readRange (.byteStrings xs) (s ++ ',' :: s') = .ok (.byteStrings ys) ∧
      ys.length = min hi (xs.length - 1) + 1 - lo ∧
      ∀ (k : Nat) (x y : List Nat), xs[lo + k]? = some x → ys[k]? = some y →
        ∀ m, y[m]? = if lo' + m ≤ hi' then x[lo' + m]? else none := by
  obtain ⟨ys, hy, hlen, hg⟩ := readNested_ok h hn h' hn' xs hl hx
  refine ⟨ys, ?_, hlen, hg⟩
  unfold readRange
  rw [splitComma_cons h.chars.2, splitComma_one h'.chars.2]
  simp [Except.map, hy]

example : readRange (.texts ["abc".toList, "def".toList, "ghi".toList]) "0:1,1:2".toList
    = .ok (.texts ["bc".toList, "ef".toList]) := by decide

/-- The value that is written has the elements of the same type. -/
theorem writeSlice_ok {α : Type} {xs ys : List α} {s lo hi} (h : Denotes s lo hi) (hn : hi < 2147483648)
    (hl : lo < xs.length) (hy : ys.length = min hi (xs.length - 1) + 1 - lo) :
    ∃ zs, writeSlice xs s (some ys) = .ok zs ∧ zs.length = xs.length ∧
      ∀ k, zs[k]? = if lo ≤ k ∧ k ≤ hi then ys[k - lo]? else xs[k]? := by
  have hle := h.le
  refine ⟨patch xs lo (min hi (xs.length - 1) + 1) ys, ?_, ?_, ?_⟩
  · unfold writeSlice
    rw [parseBounds_in h hn hl]
    dsimp only
    rw [if_neg (by omega)]
  · exact patch_length _ _ _ _ (by omega) (by omega) hy
  · intro k
    rw [patch_get _ _ _ _ _ (by omega) (by omega) hy]
    by_cases hk : k < xs.length
    · by_cases hk' : lo ≤ k ∧ k ≤ hi
      · rw [if_pos hk', if_pos (by omega)]
      · rw [if_neg hk', if_neg (by omega)]
    · rw [if_neg (by omega), List.getElem?_eq_none (by omega)]
      split
      · rw [List.getElem?_eq_none (by omega)]
      · rfl

theorem map_get' {α β : Type} (f : α → β) {xs ys zs : List α} {lo hi : Nat}
    (h : ∀ k, zs[k]? = if lo ≤ k ∧ k ≤ hi then ys[k - lo]? else xs[k]?) (k : Nat) :
    (zs.map f)[k]? = if lo ≤ k ∧ k ≤ hi then (ys.map f)[k - lo]? else (xs.map f)[k]? := by
  rw [List.getElem?_map, List.getElem?_map, List.getElem?_map, h k]
  split <;> rfl

/-- Writing with a range that lies in the data, at least in part, a value of the same type with as many
elements as the range selects, changes the selected elements and no others. -/
theorem C69_write_partial (v new : Val) (cs ns : List Cell) (s : Text) (lo hi : Nat) (hv : cells v = some cs)
    (hw : cells new = some ns) (hf : form new = form v) (h : Denotes s lo hi) (hn : hi < 2147483648)
    (hl : lo < cs.length) (hc : ns.length = min hi (cs.length - 1) + 1 - lo) :
    ∃ w ws, writeRange v new s = .ok w ∧ form w = form v ∧ cells w = some ws ∧ ws.length = cs.length ∧
      ∀ k, ws[k]? = if lo ≤ k ∧ k ≤ hi then ns[k - lo]? else cs[k]? := by
  have he : s.isEmpty = false := by simpa using h.chars.1
  unfold writeRange
  rw [he, splitComma_one h.chars.2]
  cases v <;> simp only [cells, Option.some.injEq, reduceCtorEq] at hv
  all_goals
    cases new <;> simp [form] at hf
    simp only [cells, Option.some.injEq] at hw
    subst hv
    subst hw
    rw [List.length_map] at hl
    rw [List.length_map, List.length_map] at hc
    obtain ⟨zs, hz, hzl, hg⟩ := writeSlice_ok h hn hl hc
    simp only [writeFlat, writeNested, asText, asBytes, asArray, asTexts, asByteStrings, hf, hz, if_true,
      Bool.false_eq_true, if_false]
    exact ⟨_, _, rfl, rfl, rfl, by simp [hzl], map_get' _ hg⟩

example : writeRange (.array 6 [10, 20, 30, 40]) (.array 6 [7, 8]) "1:2".toList
    = .ok (.array 6 [10, 7, 8, 40]) := by decide

/-- A value with another number of elements is refused. -/
theorem C69_count (v new : Val) (cs ns : List Cell) (s : Text) (lo hi : Nat) (hv : cells v = some cs)
    (hw : cells new = some ns) (hf : form new = form v) (h : Denotes s lo hi) (hn : hi < 2147483648)
    (hl : lo < cs.length) (hc : ns.length ≠ min hi (cs.length - 1) + 1 - lo) :
    writeRange v new s = .bad .badIndexRangeNoData := by
  have he : s.isEmpty = false := by simpa using h.chars.1
  unfold writeRange
  rw [he, splitComma_one h.chars.2]
  cases v <;> simp only [cells, Option.some.injEq, reduceCtorEq] at hv
  all_goals
    cases new <;> simp [form] at hf
    simp only [cells, Option.some.injEq] at hw
    subst hv
    subst hw
    rw [List.length_map] at hl
    rw [List.length_map, List.length_map] at hc
    have := parseBounds_in h hn hl
    simp only [writeFlat, writeNested, writeSlice, this, asText, asBytes, asArray, asTexts, asByteStrings, hf,
      if_true, Bool.false_eq_true, if_false]
    rw [if_pos (by omega)]
    rfl

example : writeRange (.array 6 [10, 20, 30]) (.array 6 [7]) "1:2".toList = .bad .badIndexRangeNoData := by decide

theorem writeSlice_back {α : Type} {xs zs : List α} {new : Option (List α)} {s : Text}
    (h : writeSlice xs s new = .ok zs) : ∃ ys, new = some ys ∧ readSlice zs s = .ok ys := by
  unfold writeSlice at h
  cases hb : parseBounds s xs.length with
  | error st => simp [hb] at h
  | ok p =>
    obtain ⟨i, j⟩ := p
    cases new with
    | none => simp [hb] at h
    | some ys =>
      simp only [hb] at h
      split at h
      · simp at h
      · rename_i hl
        simp only [Outcome.ok.injEq] at h
        subst h
        have hle := parseBounds_le hb
        have hl' : ys.length = j - i := by omega
        refine ⟨ys, rfl, ?_⟩
        unfold readSlice
        rw [patch_length _ _ _ _ (by omega) hle.2 hl', hb]
        dsimp only
        rw [slice_patch _ _ _ _ (by omega) hle.2 hl']

theorem map_ok {α β : Type} {f : α → β} {o : Outcome α} {w : β} (h : o.map f = .ok w) :
    ∃ a, o = .ok a ∧ w = f a := by
  cases o <;> simp [Outcome.map] at h
  exact ⟨_, rfl, h.symm⟩

/-- Whatever the text of one range: when the write is good, reading the same range gives what was written. -/
theorem C69_readBack_partial (v new w : Val) (s : Text) (hc : ',' ∉ s) (h : writeRange v new s = .ok w) :
    readRange w s = .ok new := by
  by_cases hs : s = []
  · subst hs
    simp [writeRange] at h
    simp [readRange, h]
  · have he : s.isEmpty = false := by simpa using hs
    unfold writeRange at h
    rw [he, splitComma_one hc] at h
    rw [read_one w s hs hc]
    cases v <;> simp only [writeFlat, writeNested, Bool.false_eq_true, if_false, reduceCtorEq] at h
    all_goals
      obtain ⟨zs, hz, rfl⟩ := map_ok h
      obtain ⟨ys, hy, hr⟩ := writeSlice_back hz
      simp only [hr]
      cases new <;> simp [asText, asBytes, asArray, asTexts, asByteStrings] at hy
      simp [Except.map, hy]

example : writeRange (.text "hello".toList) (.text "XY".toList) "3:9".toList = .ok (.text "helXY".toList) := by
  decide

/-- With a second range the write replaces the whole strings: the characters outside the range are lost, and
reading the range back does not give what was written. -/
theorem C69_second_fails :
    writeRange (.texts ["abc".toList, "def".toList]) (.texts ["X".toList]) "0,1".toList
        = .ok (.texts ["X".toList, "def".toList]) ∧
      readRange (.texts ["X".toList, "def".toList]) "0,1".toList = .error .badIndexRangeNoData := by
  decide

/-! ## validateIndexRange -/

theorem any_none_iff (rs : List Text) :
    rs.any (fun r => (parseLoHi r).isNone) = false ↔ ∀ r ∈ rs, ∃ p, parseLoHi r = some p := by
  simp only [List.any_eq_false, Option.isNone_iff_eq_none]
  constructor
  · intro h r hr
    have := h r hr
    cases hp : parseLoHi r with
    | none => simp [hp] at this
    | some p => exact ⟨p, rfl⟩
  · intro h r hr
    obtain ⟨p, hp⟩ := h r hr
    simp [hp]

/-- A monitored item with a range that has a malformed component is refused as malformed. -/
theorem C69_validate_partial (s r : Text) (type : Nat) (rank : Int) (hs : s ≠ []) (hr : r ∈ splitComma s)
    (h1 : '+' ∉ r) (h2 : '-' ∉ r) (h : ¬ ∃ lo hi, Denotes r lo hi) :
    validateIndexRange s type rank = .badIndexRangeInvalid := by
  unfold validateIndexRange
  rw [if_neg (by simpa using hs)]
  dsimp only
  rw [if_pos]
  cases hb : (splitComma s).any (fun r => (parseLoHi r).isNone) with
  | true => rfl
  | false =>
    obtain ⟨p, hp⟩ := (any_none_iff _).1 hb r hr
    exact absurd (parseLoHi_inv hp h1 h2) h

/-- A range of one dimension of an array, and one of the characters of a string, is taken. -/
theorem C69_validateGood (s : Text) (lo hi type : Nat) (rank : Int) (h : Denotes s lo hi) (hn : hi < 2147483648)
    (hr : rank = 1 ∨ (rank = -1 ∧ (type = 12 ∨ type = 15))) :
    validateIndexRange s type rank = .good := by
  unfold validateIndexRange
  rw [if_neg (by simpa using h.chars.1), splitComma_one h.chars.2]
  simp only [List.any_cons, List.any_nil, parseLoHi_denotes h hn, Option.isNone_some, Bool.or_self,
    Bool.false_eq_true, if_false, List.length_cons, List.length_nil]
  rcases hr with rfl | ⟨rfl, h⟩
  · simp [rankScalarOrOne, rankAny, rankScalar]
  · rcases h with rfl | rfl <;> simp [rankScalarOrOne, rankAny, rankScalar]

/-- Two ranges on a number array, or one on a number, select nothing. -/
theorem C69_validateNoData (s : Text) (type : Nat) (h : ∀ r ∈ splitComma s, ∃ lo hi, Denotes r lo hi ∧ hi < 2147483648)
    (hs : s ≠ []) (ht : type ≠ 12 ∧ type ≠ 15) :
    validateIndexRange s type (-1) = .badIndexRangeNoData ∧
      (1 < (splitComma s).length → validateIndexRange s type 1 = .badIndexRangeNoData) := by
  have hb : (splitComma s).any (fun r => (parseLoHi r).isNone) = false := by
    rw [any_none_iff]
    intro r hr
    obtain ⟨lo, hi, hd, hn⟩ := h r hr
    exact ⟨_, parseLoHi_denotes hd hn⟩
  have ht' : (decide (type = typeString) || decide (type = typeByteString)) = false := by
    simp [ht.1, ht.2]
  have he : s.isEmpty = false := by simpa using hs
  unfold validateIndexRange
  simp only [he, hb, ht', rankScalarOrOne, rankAny, rankScalar, rankOneOrMore, Bool.false_eq_true, if_false,
    and_false, or_false]
  refine ⟨by simp, ?_⟩
  intro hl
  rw [if_neg (by omega), if_neg (by omega), if_neg (by omega), if_neg (by omega), if_neg (by omega)]

example : validateIndexRange "1:2,0".toList 6 1 = .badIndexRangeNoData := by decide
example : validateIndexRange "1:2".toList 12 (-1) = .good := by decide

end Opcua.Range
