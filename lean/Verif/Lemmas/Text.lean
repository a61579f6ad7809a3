import Verif.Model.Text

namespace Opcua

/-! Lemmas about the library functions of Model/Text.lean. -/

theorem stripPrefix_append (p s : Bytes) : stripPrefix p (p ++ s) = some s := by
  induction p with
  | nil => rfl
  | cons c p ih => simp [stripPrefix, ih]

theorem stripPrefix_some {p s t : Bytes} (h : stripPrefix p s = some t) : s = p ++ t := by
  induction p generalizing s with
  | nil => simp [stripPrefix] at h; simp [h]
  | cons c p ih =>
    cases s with
    | nil => simp [stripPrefix] at h
    | cons d s =>
      simp only [stripPrefix] at h
      split at h
      · rename_i hc; subst hc; rw [ih h]; rfl
      · cases h

theorem cut_append {c : UInt8} {a : Bytes} (b : Bytes) (h : c ∉ a) : cut c (a ++ c :: b) = some (a, b) := by
  induction a with
  | nil => simp [cut]
  | cons x a ih =>
    simp only [List.mem_cons, not_or] at h
    have hx : x ≠ c := fun hc => h.1 hc.symm
    simp [cut, hx, ih h.2]

theorem cut_some {c : UInt8} {s a b : Bytes} (h : cut c s = some (a, b)) : s = a ++ c :: b ∧ c ∉ a := by
  induction s generalizing a with
  | nil => simp [cut] at h
  | cons x s ih =>
    simp only [cut] at h
    split at h
    · rename_i hx; cases h; subst hx; simp
    · rename_i hx
      split at h
      · cases h
      · rename_i a' b' hc
        cases h
        have := ih hc
        refine ⟨by rw [this.1]; rfl, ?_⟩
        simp only [List.mem_cons, not_or]
        exact ⟨fun hcx => hx hcx.symm, this.2⟩

theorem cut_none {c : UInt8} {s : Bytes} (h : cut c s = none) : c ∉ s := by
  induction s with
  | nil => simp
  | cons x s ih =>
    simp only [cut] at h
    split at h
    · cases h
    · rename_i hx
      split at h
      · rename_i hc
        simp only [List.mem_cons, not_or]
        exact ⟨fun hcx => hx hcx.symm, ih hc⟩
      · cases h

theorem splitOn_noSep {c : UInt8} {a : Bytes} (h : c ∉ a) : splitOn c a = [a] := by
  induction a with
  | nil => rfl
  | cons x a ih =>
    simp only [List.mem_cons, not_or] at h
    have hx : x ≠ c := fun hc => h.1 hc.symm
    simp [splitOn, hx, ih h.2]

theorem splitOn_append {c : UInt8} {a : Bytes} (b : Bytes) (h : c ∉ a) :
    splitOn c (a ++ c :: b) = a :: splitOn c b := by
  induction a with
  | nil => simp [splitOn]
  | cons x a ih =>
    simp only [List.mem_cons, not_or] at h
    have hx : x ≠ c := fun hc => h.1 hc.symm
    simp [splitOn, hx, ih h.2]

/-! decimal numbers -/

def isDigit (c : UInt8) : Prop := 48 ≤ c.toNat ∧ c.toNat ≤ 57

instance (c : UInt8) : Decidable (isDigit c) := by unfold isDigit; infer_instance

/-- Specification: the value of a string of decimal digits. -/
def digitsVal (s : Bytes) : Nat := s.foldl (fun n c => n * 10 + (c.toNat - 48)) 0

theorem parseUintGo_append (max n : Nat) (a b : Bytes) : parseUintGo max n (a ++ b) =
    match parseUintGo max n a with
    | .ok m => parseUintGo max m b
    | e => e := by
  induction a generalizing n with
  | nil => rfl
  | cons c a ih =>
    simp only [List.cons_append, parseUintGo]
    split
    · split
      · rfl
      · exact ih _
    · rfl

theorem foldl_ge (s : Bytes) (n : Nat) : n ≤ s.foldl (fun n c => n * 10 + (c.toNat - 48)) n := by
  induction s generalizing n with
  | nil => simp
  | cons c s ih =>
    simp only [List.foldl_cons]
    exact Nat.le_trans (by omega) (ih _)

theorem parseUintGo_ok_iff (max n : Nat) (s : Bytes) (m : Nat) (hn : n ≤ max) :
    parseUintGo max n s = .ok m ↔
      (∀ c ∈ s, isDigit c) ∧ s.foldl (fun n c => n * 10 + (c.toNat - 48)) n = m ∧ m ≤ max := by
  induction s generalizing n with
  | nil =>
    simp only [parseUintGo, PU.ok.injEq, List.not_mem_nil, false_implies, implies_true, List.foldl_nil,
      true_and]
    constructor
    · rintro rfl; exact ⟨rfl, hn⟩
    · exact fun h => h.1
  | cons c s ih =>
    simp only [parseUintGo, List.mem_cons, forall_eq_or_imp, List.foldl_cons]
    by_cases hd : isDigit c
    · have hd' : 48 ≤ c.toNat ∧ c.toNat ≤ 57 := hd
      rw [if_pos hd']
      by_cases hg : n * 10 + (c.toNat - 48) > max
      · rw [if_pos hg]
        constructor
        · intro h; cases h
        · rintro ⟨-, h1, h2⟩
          have := foldl_ge s (n * 10 + (c.toNat - 48))
          omega
      · rw [if_neg hg, ih _ (by omega)]
        simp [hd]
    · have hd' : ¬(48 ≤ c.toNat ∧ c.toNat ≤ 57) := hd
      rw [if_neg hd']
      simp [hd]

theorem parseUint_ok_iff (max : Nat) (s : Bytes) (m : Nat) :
    parseUint max s = .ok m ↔ s ≠ [] ∧ (∀ c ∈ s, isDigit c) ∧ digitsVal s = m ∧ m ≤ max := by
  unfold parseUint
  split
  · simp
  · rename_i s' hs
    rw [parseUintGo_ok_iff max 0 _ m (by omega)]
    simp only [digitsVal, ne_eq, iff_and_self]
    intro _ hc; exact hs hc

theorem decStr_lt {n : Nat} (h : n < 10) : decStr n = [UInt8.ofNat (48 + n)] := by
  rw [decStr, if_pos h]

theorem decStr_ge {n : Nat} (h : ¬ n < 10) : decStr n = decStr (n / 10) ++ [UInt8.ofNat (48 + n % 10)] := by
  rw [decStr, if_neg h]

theorem digit_toNat {k : Nat} (h : k < 10) : (UInt8.ofNat (48 + k)).toNat = 48 + k := by
  simp [UInt8.toNat_ofNat]; omega

theorem decStr_spec (n : Nat) : (∀ c ∈ decStr n, isDigit c) ∧ digitsVal (decStr n) = n := by
  induction n using Nat.strongRecOn with
  | ind n ih =>
    by_cases h : n < 10
    · rw [decStr_lt h]
      simp only [List.mem_singleton, forall_eq, isDigit, digit_toNat h, digitsVal, List.foldl_cons,
        List.foldl_nil]
      omega
    · have h2 := ih (n / 10) (by omega)
      rw [decStr_ge h]
      have hd := digit_toNat (k := n % 10) (by omega)
      constructor
      · intro c hc
        rcases List.mem_append.mp hc with hc | hc
        · exact h2.1 c hc
        · simp only [List.mem_singleton] at hc
          subst hc
          simp only [isDigit, hd]; omega
      · have h3 := h2.2
        unfold digitsVal at h3 ⊢
        rw [List.foldl_append, h3]
        simp only [List.foldl_cons, List.foldl_nil, hd]
        omega

theorem decStr_ne_nil (n : Nat) : decStr n ≠ [] := by
  by_cases h : n < 10
  · simp [decStr_lt h]
  · simp [decStr_ge h]

theorem parseUint_decStr {max n : Nat} (h : n ≤ max) : parseUint max (decStr n) = .ok n :=
  (parseUint_ok_iff _ _ _).mpr ⟨decStr_ne_nil n, (decStr_spec n).1, (decStr_spec n).2, h⟩

theorem decStr_no {c : UInt8} (n : Nat) (h : ¬ isDigit c) : c ∉ decStr n :=
  fun hc => h ((decStr_spec n).1 c hc)

theorem ofNat16_toNat (b : BitVec 16) : BitVec.ofNat 16 b.toNat = b := by simp
theorem ofNat32_toNat (b : BitVec 32) : BitVec.ofNat 32 b.toNat = b := by simp

/-! GUID text -/

theorem hexVal_hexDigit : ∀ n < 16, hexVal (hexDigit n) = some n := by decide

theorem hexPairs_hexByte (k : Nat) (b : UInt8) (s : Bytes) : hexPairs (k + 1) (hexByte b ++ s) =
    match hexPairs k s with
    | some (bs, r) => some (b :: bs, r)
    | none => none := by
  have hb : b.toNat < 256 := UInt8.toNat_lt b
  simp only [hexByte, List.cons_append, List.nil_append, hexPairs]
  rw [hexVal_hexDigit _ (by omega), hexVal_hexDigit _ (by omega)]
  have : UInt8.ofNat (b.toNat / 16 * 16 + b.toNat % 16) = b := by
    rw [show b.toNat / 16 * 16 + b.toNat % 16 = b.toNat by omega]; simp
  simp only [this]
  cases hexPairs k s <;> rfl

theorem parseDashed_guidStr (g : Guid) (s : Bytes) : parseDashed (guidStr g ++ s) = some g := by
  have h0 (s : Bytes) : hexPairs 0 s = some ([], s) := rfl
  have e (k : Nat) (b : UInt8) : hexPairs (k + 1) (hexByte b) =
      hexPairs (k + 1) (hexByte b ++ []) := by simp
  simp only [guidStr, parseDashed, List.append_assoc, List.cons_append, hexPairs_hexByte, h0, e]

theorem guidStr_length (g : Guid) : (guidStr g).length = 36 := by
  simp [guidStr, hexByte]

theorem parseGuid_guidStr (g : Guid) : parseGuid (guidStr g) = some g := by
  unfold parseGuid
  rw [if_pos (guidStr_length g)]
  have := parseDashed_guidStr g []
  simpa using this

/-! base64 -/

theorem d64_e64 : ∀ n < 64, d64 (e64 n) = some n := by decide
theorem e64_ne : ∀ n < 64, e64 n ≠ 61 ∧ e64 n ≠ 10 ∧ e64 n ≠ 13 := by decide

theorem b64enc_filter (b : Bytes) : (b64enc b).filter (fun c => c ≠ 10 ∧ c ≠ 13) = b64enc b := by
  rw [List.filter_eq_self]
  induction b using b64enc.induct with
  | case1 => simp [b64enc]
  | case2 a =>
    have ha := UInt8.toNat_lt a
    have h1 := e64_ne (a.toNat / 4) (by omega)
    have h2 := e64_ne (a.toNat % 4 * 16) (by omega)
    simp [b64enc, h1, h2]
  | case3 a b =>
    have ha := UInt8.toNat_lt a
    have hb := UInt8.toNat_lt b
    have h1 := e64_ne (a.toNat / 4) (by omega)
    have h2 := e64_ne (a.toNat % 4 * 16 + b.toNat / 16) (by omega)
    have h3 := e64_ne (b.toNat % 16 * 4) (by omega)
    simp [b64enc, h1, h2, h3]
  | case4 a b c r ih =>
    have ha := UInt8.toNat_lt a
    have hb := UInt8.toNat_lt b
    have hc := UInt8.toNat_lt c
    have h1 := e64_ne (a.toNat / 4) (by omega)
    have h2 := e64_ne (a.toNat % 4 * 16 + b.toNat / 16) (by omega)
    have h3 := e64_ne (b.toNat % 16 * 4 + c.toNat / 64) (by omega)
    have h4 := e64_ne (c.toNat % 64) (by omega)
    intro x hx
    simp only [b64enc, List.mem_cons] at hx
    rcases hx with rfl | rfl | rfl | rfl | hx
    · simp [h1]
    · simp [h2]
    · simp [h3]
    · simp [h4]
    · exact ih x hx

theorem u8_eq {n : Nat} (a : UInt8) (h : n = a.toNat) : UInt8.ofNat n = a := by subst h; simp

theorem b64decGo_b64enc (b : Bytes) : b64decGo (b64enc b) = some b := by
  induction b using b64enc.induct with
  | case1 => rfl
  | case2 a =>
    have ha := UInt8.toNat_lt a
    simp only [b64enc, b64decGo, d64_e64 (a.toNat / 4) (by omega), d64_e64 (a.toNat % 4 * 16) (by omega),
      if_true, and_self]
    rw [u8_eq a (by omega)]
  | case3 a b =>
    have ha := UInt8.toNat_lt a
    have hb := UInt8.toNat_lt b
    simp only [b64enc, b64decGo, d64_e64 (a.toNat / 4) (by omega),
      d64_e64 (a.toNat % 4 * 16 + b.toNat / 16) (by omega), d64_e64 (b.toNat % 16 * 4) (by omega),
      (e64_ne (b.toNat % 16 * 4) (by omega)).1, if_false, if_true]
    rw [u8_eq a (by omega), u8_eq b (by omega)]
  | case4 a b c r ih =>
    have ha := UInt8.toNat_lt a
    have hb := UInt8.toNat_lt b
    have hc := UInt8.toNat_lt c
    simp only [b64enc, b64decGo, d64_e64 (a.toNat / 4) (by omega),
      d64_e64 (a.toNat % 4 * 16 + b.toNat / 16) (by omega),
      d64_e64 (b.toNat % 16 * 4 + c.toNat / 64) (by omega), d64_e64 (c.toNat % 64) (by omega),
      (e64_ne (b.toNat % 16 * 4 + c.toNat / 64) (by omega)).1,
      (e64_ne (c.toNat % 64) (by omega)).1, if_false, ih]
    rw [u8_eq a (by omega), u8_eq b (by omega), u8_eq c (by omega)]

theorem b64dec_b64enc (b : Bytes) : b64dec (b64enc b) = some b := by
  unfold b64dec; rw [b64enc_filter, b64decGo_b64enc]

end Opcua
