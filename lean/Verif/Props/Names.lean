import Verif.Model.Names
import Verif.Model.Text

/-! C123: status codes and enumeration values have the names and texts that their documentation gives them. -/

namespace Opcua.Names

set_option maxRecDepth 100000

namespace Spec

/-- The bytes of a string. -/
def bytes (s : String) : List Nat := s.toByteArray.data.toList.map UInt8.toNat

def startsWith : List Nat → List Nat → Bool
  | [], _ => true
  | _ :: _, [] => false
  | a :: as, b :: bs => Nat.beq a b && startsWith as bs

def same : List Nat → List Nat → Bool
  | [], [] => true
  | a :: as, b :: bs => Nat.beq a b && same as bs
  | _, _ => false

end Spec

open Spec

theorem same_iff : ∀ a b : List Nat, same a b = true ↔ a = b
  | [], [] => by simp [same]
  | [], _ :: _ => by simp [same]
  | _ :: _, [] => by simp [same]
  | a :: as, b :: bs => by simp [same, same_iff as bs]

theorem map_inj : ∀ x y : List UInt8, x.map UInt8.toNat = y.map UInt8.toNat → x = y
  | [], [], _ => rfl
  | [], _ :: _, h => by cases h
  | _ :: _, [], h => by cases h
  | a :: x, b :: y, h => by
    simp only [List.map_cons, List.cons.injEq] at h
    rw [UInt8.toNat_inj.1 h.1, map_inj x y h.2]

theorem bytes_inj (a b : String) (h : bytes a = bytes b) : a = b := by
  have h2 := map_inj _ _ h
  apply String.toByteArray_inj.1
  have : a.toByteArray.data = b.toByteArray.data := Array.toList_inj.1 h2
  cases ha : a.toByteArray; cases hb : b.toByteArray
  simp_all

theorem switch_mem {α : Type} [DecidableEq α] (d : String) : ∀ (cs : List (α × String)) (v : α) (t : String),
    (cs.map Prod.fst).Nodup → (v, t) ∈ cs → switch cs d v = t
  | (k, u) :: cs, v, t, hn, h => by
    rw [switch]
    simp only [List.map_cons, List.nodup_cons] at hn
    rcases List.mem_cons.1 h with h | h
    · cases h; rw [if_pos rfl]
    · have : v ≠ k := fun e => hn.1 (e ▸ List.mem_map.2 ⟨(v, t), h, rfl⟩)
      rw [if_neg this]
      exact switch_mem d cs v t hn.2 h

theorem switch_none {α : Type} [DecidableEq α] (d : String) : ∀ (cs : List (α × String)) (v : α),
    (∀ t, (v, t) ∉ cs) → switch cs d v = d
  | [], _, _ => rfl
  | (k, u) :: cs, v, h => by
    rw [switch]
    have : v ≠ k := fun e => h u (e ▸ List.mem_cons_self ..)
    rw [if_neg this]
    exact switch_none d cs v (fun t ht => h t (List.mem_cons_of_mem _ ht))

def nodupNat : List Nat → Bool
  | [] => true
  | a :: as => as.all (fun b => !Nat.beq a b) && nodupNat as

theorem nodupNat_iff : ∀ l : List Nat, nodupNat l = true → l.Nodup
  | [], _ => List.nodup_nil
  | a :: as, h => by
    rw [nodupNat, Bool.and_eq_true, List.all_eq_true] at h
    refine List.nodup_cons.2 ⟨fun hm => ?_, nodupNat_iff as h.2⟩
    have := h.1 a hm
    simp at this

theorem cases_eq : errorCases = statusConstants.map (fun e => (e.2.2, e.1)) := rfl

theorem values_nodup : (statusConstants.map (fun e => e.2.2)).Nodup := nodupNat_iff _ (by decide +kernel)

theorem cases_nodup : (errorCases.map Prod.fst).Nodup := by
  rw [cases_eq, List.map_map]; exact values_nodup

theorem values_small : ∀ e ∈ statusConstants, e.2.2 < 2 ^ 32 ∧ e.2.2 % 2 ^ 16 = 0 := by
  have : statusConstants.all (fun e => Nat.blt e.2.2 4294967296 && Nat.beq (e.2.2 % 65536) 0) = true := by decide +kernel
  intro e he
  have := List.all_eq_true.1 this e he
  simpa using this

/-- Each constant has the text of its documentation. -/
theorem C123_text (doc name : String) (v : Nat) (h : (doc, name, v) ∈ statusConstants) :
    errorText (BitVec.ofNat 32 v) = doc := by
  rw [errorText]
  have hv : (BitVec.ofNat 32 v).toNat = v := by
    rw [BitVec.toNat_ofNat, Nat.mod_eq_of_lt (values_small _ h).1]
  rw [hv]
  refine switch_mem _ _ _ _ cases_nodup ?_
  rw [cases_eq]
  exact List.mem_map.2 ⟨_, h, rfl⟩

theorem no_unknown : ∀ e ∈ errorCases, e.2 ≠ unknownText := by
  have : errorCases.all (fun e => !same (bytes e.2) (bytes unknownText)) = true := by decide +kernel
  intro e he h
  have := List.all_eq_true.1 this e he
  rw [h] at this
  have : same (bytes unknownText) (bytes unknownText) = true := (same_iff _ _).2 rfl
  simp_all

/-- The text says that a code is unknown exactly for the codes without a constant. -/
theorem C123_unknown (c : BitVec 32) :
    errorText c = unknownText ↔ ∀ doc name, (doc, name, c.toNat) ∉ statusConstants := by
  constructor
  · intro h doc name hm
    have h2 := C123_text doc name c.toNat hm
    rw [show BitVec.ofNat 32 c.toNat = c by simp] at h2
    refine no_unknown (c.toNat, doc) ?_ (h2.symm.trans h)
    rw [cases_eq]
    exact List.mem_map.2 ⟨_, hm, rfl⟩
  · intro h
    refine switch_none _ _ _ (fun t ht => ?_)
    rw [cases_eq] at ht
    obtain ⟨⟨d, n, v⟩, hm, e⟩ := List.mem_map.1 ht
    cases e
    exact h _ n hm

/-- Distinct constants have distinct values; the beginning of the name tells the severity that IsGood, IsBad and
IsUncertain report; none of the constants has information bits. -/
theorem C123_severity :
    (statusConstants.map (fun e => e.2.2)).Nodup ∧
    ∀ e ∈ statusConstants,
      (StatusCode.isGood (BitVec.ofNat 32 e.2.2) = startsWith (bytes "Good") (bytes e.2.1)) ∧
      (StatusCode.isBad (BitVec.ofNat 32 e.2.2) = startsWith (bytes "Bad") (bytes e.2.1)) ∧
      (StatusCode.isUncertain (BitVec.ofNat 32 e.2.2) = startsWith (bytes "Uncertain") (bytes e.2.1)) ∧
      e.2.2 % 2 ^ 16 = 0 := by
  refine ⟨values_nodup, fun e he => ?_⟩
  have : statusConstants.all (fun e =>
      (StatusCode.isGood (BitVec.ofNat 32 e.2.2) == startsWith (bytes "Good") (bytes e.2.1)) &&
      (StatusCode.isBad (BitVec.ofNat 32 e.2.2) == startsWith (bytes "Bad") (bytes e.2.1)) &&
      (StatusCode.isUncertain (BitVec.ofNat 32 e.2.2) == startsWith (bytes "Uncertain") (bytes e.2.1))) = true := by
    decide +kernel
  have h := List.all_eq_true.1 this e he
  simp only [Bool.and_eq_true, beq_iff_eq] at h
  exact ⟨h.1.1, h.1.2, h.2, (values_small e he).2⟩

/-- A code with information bits, such as an overflow or a limit, has lost its text: for every code. -/
theorem C123_info_fails (c : BitVec 32) (h : c.toNat % 2 ^ 16 ≠ 0) : errorText c = unknownText :=
  (C123_unknown c).2 (fun _ _ hm => h (values_small _ hm).2)

/-- The text does not tell the codes apart: two pairs of constants share theirs, BadNoData with GoodNoData and
GoodEntryReplaced with GoodMoreData. -/
theorem C123_tell_fails :
    (errorText 0x809B0000#32 = errorText 0x00A50000#32 ∧ errorText 0x809B0000#32 ≠ unknownText) ∧
    (errorText 0x00A30000#32 = errorText 0x00A60000#32 ∧ errorText 0x00A30000#32 ≠ unknownText) ∧
    StatusCode.isBad 0x809B0000#32 = true ∧ StatusCode.isGood 0x00A50000#32 = true := by
  decide +kernel

def nodupBytes : List (List Nat) → Bool
  | [] => true
  | a :: as => as.all (fun b => !same a b) && nodupBytes as

theorem nodupBytes_iff : ∀ l : List (List Nat), nodupBytes l = true → l.Nodup
  | [], _ => List.nodup_nil
  | a :: as, h => by
    rw [nodupBytes, Bool.and_eq_true, List.all_eq_true] at h
    refine List.nodup_cons.2 ⟨fun hm => ?_, nodupBytes_iff as h.2⟩
    have := h.1 a hm
    rw [(same_iff a a).2 rfl] at this
    cases this

theorem nodup_fst {α β : Type} : ∀ (l : List (α × β)), (l.map Prod.snd).Nodup → ∀ a b x, (a, x) ∈ l → (b, x) ∈ l → a = b
  | (k, y) :: l, hn, a, b, x, ha, hb => by
    simp only [List.map_cons, List.nodup_cons] at hn
    rcases List.mem_cons.1 ha with ha | ha <;> rcases List.mem_cons.1 hb with hb | hb
    · cases ha; cases hb; rfl
    · cases ha; exact absurd (List.mem_map.2 ⟨_, hb, rfl⟩) hn.1
    · cases hb; exact absurd (List.mem_map.2 ⟨_, ha, rfl⟩) hn.1
    · exact nodup_fst l hn.2 a b x ha hb

/-- Apart from GoodNoData and GoodMoreData the text of a constant tells which it is. -/
theorem C123_tell_partial (a b : BitVec 32) (ha : errorText a ≠ unknownText) (he : errorText a = errorText b)
    (h1 : a ≠ 0x00A50000#32 ∧ a ≠ 0x00A60000#32) (h2 : b ≠ 0x00A50000#32 ∧ b ≠ 0x00A60000#32) : a = b := by
  have key : ∀ c : BitVec 32, errorText c ≠ unknownText → c ≠ 0x00A50000#32 ∧ c ≠ 0x00A60000#32 →
      (c.toNat, bytes (errorText c)) ∈ (errorCases.filter fun e => !Nat.beq e.1 0x00A50000 && !Nat.beq e.1 0x00A60000).map
        (fun e => (e.1, bytes e.2)) := by
    intro c hc hx
    have : ∃ doc name, (doc, name, c.toNat) ∈ statusConstants := by
      apply Classical.byContradiction
      intro hno
      exact hc ((C123_unknown c).2 fun d n hm => hno ⟨d, n, hm⟩)
    obtain ⟨doc, name, hm⟩ := this
    have ht := C123_text doc name c.toNat hm
    rw [show BitVec.ofNat 32 c.toNat = c by simp] at ht
    refine List.mem_map.2 ⟨(c.toNat, doc), List.mem_filter.2 ⟨?_, ?_⟩, by rw [ht]⟩
    · rw [cases_eq]; exact List.mem_map.2 ⟨_, hm, rfl⟩
    · have e1 : c.toNat ≠ 0x00A50000 := fun e => hx.1 (BitVec.eq_of_toNat_eq e)
      have e2 : c.toNat ≠ 0x00A60000 := fun e => hx.2 (BitVec.eq_of_toNat_eq e)
      rw [Bool.and_eq_true, Bool.not_eq_true', Bool.not_eq_true']
      exact ⟨Bool.eq_false_iff.2 fun h => e1 (Nat.eq_of_beq_eq_true h),
        Bool.eq_false_iff.2 fun h => e2 (Nat.eq_of_beq_eq_true h)⟩
  have hn := nodupBytes_iff (((errorCases.filter fun e => !Nat.beq e.1 0x00A50000 && !Nat.beq e.1 0x00A60000).map
        (fun e => (e.1, bytes e.2))).map Prod.snd) (by decide +kernel)
  have := nodup_fst _ hn a.toNat b.toNat _ (key a ha h1) (by rw [he]; exact key b (he ▸ ha) h2)
  exact BitVec.eq_of_toNat_eq this

/-! ### Enumerations -/

/-- What the tables are checked for. -/
def Enum.checked (e : Enum) : Bool :=
  e.cases.all (fun c => Nat.blt c.1.toNat 2147483648 && decide (0 ≤ c.1) && !(bytes c.2).isEmpty) &&
  nodupNat (e.cases.map (fun c => c.1.toNat)) &&
  nodupBytes (e.cases.map (fun c => bytes c.2))

theorem enums_checked : enums.all Enum.checked = true := by decide +kernel

/-- The constants against the cases, in order. -/
def alike (type : List Nat) : List (String × Int) → List (Int × String) → Bool
  | [], [] => true
  | (n, v) :: cs, (w, s) :: ds => decide (v = w) && same (bytes n) (type ++ bytes s) && alike type cs ds
  | _, _ => false

theorem enums_alike : enums.all (fun e => alike (bytes e.type) e.consts e.cases) = true := by decide +kernel

theorem bytes_append (a b : String) : bytes (a ++ b) = bytes a ++ bytes b := by
  simp [bytes]

theorem alike_mem (type : String) : ∀ (cs : List (String × Int)) (ds : List (Int × String)),
    alike (bytes type) cs ds = true → ∀ n v, (n, v) ∈ cs ↔ ∃ s, n = type ++ s ∧ (v, s) ∈ ds
  | [], [], _, n, v => by simp
  | [], _ :: _, h, _, _ => by cases h
  | _ :: _, [], h, _, _ => by cases h
  | (m, x) :: cs, (w, s) :: ds, h, n, v => by
    simp only [alike, Bool.and_eq_true, decide_eq_true_eq, same_iff] at h
    obtain ⟨⟨rfl, hb⟩, h⟩ := h
    rw [← bytes_append] at hb
    have := bytes_inj _ _ hb
    subst this
    simp only [List.mem_cons, alike_mem type cs ds h n v, Prod.mk.injEq]
    constructor
    · rintro (⟨rfl, rfl⟩ | ⟨s', hs, hm⟩)
      · exact ⟨s, rfl, .inl ⟨rfl, rfl⟩⟩
      · exact ⟨s', hs, .inr hm⟩
    · rintro ⟨s', hs, (⟨rfl, rfl⟩ | hm)⟩
      · exact .inl ⟨hs, rfl⟩
      · exact .inr ⟨s', hs, hm⟩

theorem nodup_of_map {α β : Type} (f : α → β) : ∀ l : List α, (l.map f).Nodup → l.Nodup
  | [], _ => List.nodup_nil
  | a :: l, h => by
    rw [List.map_cons, List.nodup_cons] at h
    exact List.nodup_cons.2 ⟨fun hm => h.1 (List.mem_map.2 ⟨a, hm, rfl⟩), nodup_of_map f l h.2⟩

structure Enum.Good (e : Enum) : Prop where
  range : ∀ c ∈ e.cases, 0 ≤ c.1 ∧ c.1 < 2 ^ 31
  named : ∀ c ∈ e.cases, c.2 ≠ ""
  values : (e.cases.map Prod.fst).Nodup
  names : (e.cases.map Prod.snd).Nodup
  consts : ∀ n v, (n, v) ∈ e.consts ↔ ∃ s, n = e.type ++ s ∧ (v, s) ∈ e.cases

theorem enum_good (e : Enum) (he : e ∈ enums) : e.Good := by
  have h := List.all_eq_true.1 enums_checked e he
  simp only [Enum.checked, Bool.and_eq_true, List.all_eq_true] at h
  obtain ⟨⟨h1, h2⟩, h3⟩ := h
  have range : ∀ c ∈ e.cases, 0 ≤ c.1 ∧ c.1 < 2 ^ 31 := by
    intro c hc
    have := (h1 c hc).1
    simp only [Bool.and_eq_true, decide_eq_true_eq, Nat.blt_eq] at this
    omega
  refine ⟨range, ?_, ?_, ?_, alike_mem _ _ _ (List.all_eq_true.1 enums_alike e he)⟩
  · intro c hc e0
    have := (h1 c hc).2
    rw [e0] at this
    revert this
    decide +kernel
  · have := nodupNat_iff _ h2
    rw [show (fun c : Int × String => c.1.toNat) = Int.toNat ∘ Prod.fst from rfl, ← List.map_map] at this
    exact nodup_of_map _ _ this
  · have := nodupBytes_iff _ h3
    rw [show (fun c : Int × String => bytes c.2) = bytes ∘ Prod.snd from rfl, ← List.map_map] at this
    exact nodup_of_map _ _ this

/-- `String` of a constant is its name without that of the type. -/
theorem C123_enum (e : Enum) (he : e ∈ enums) (name : String) (v : Int) (h : (name, v) ∈ e.consts) :
    name = e.type ++ e.string (BitVec.ofInt 32 v) ∧ e.string (BitVec.ofInt 32 v) ≠ "" := by
  have g := enum_good e he
  obtain ⟨s, hs, hm⟩ := (g.consts name v).1 h
  have hv : (BitVec.ofInt 32 v).toInt = v := by
    have := g.range _ hm
    rw [BitVec.toInt_ofInt, Int.bmod_eq_of_le] <;> simp at this ⊢ <;> omega
  have : e.string (BitVec.ofInt 32 v) = s := by
    rw [Enum.string, hv]
    exact switch_mem _ _ _ _ g.values hm
  rw [this]
  exact ⟨hs, g.named _ hm⟩

/-- Of all numbers exactly the constants have a name, and no two of them the same. -/
theorem C123_enum_only (e : Enum) (he : e ∈ enums) (v : BitVec 32) :
    (e.string v = "" ↔ ∀ name, (name, v.toInt) ∉ e.consts) ∧
    (∀ w, e.string v = e.string w → e.string v ≠ "" → v = w) := by
  have g := enum_good e he
  have known : ∀ v : BitVec 32, e.string v ≠ "" → (v.toInt, e.string v) ∈ e.cases := by
    intro v hv
    apply Classical.byContradiction
    intro hno
    by_cases hx : ∃ t, (v.toInt, t) ∈ e.cases
    · obtain ⟨t, ht⟩ := hx
      have := switch_mem "" _ _ _ g.values ht
      exact hno (by rw [Enum.string, this]; exact ht)
    · exact hv (switch_none _ _ _ (fun t ht => hx ⟨t, ht⟩))
  refine ⟨⟨?_, ?_⟩, ?_⟩
  · intro h name hm
    obtain ⟨s, _, hm⟩ := (g.consts _ _).1 hm
    have : e.string v = s := switch_mem "" _ _ _ g.values hm
    exact g.named _ hm (this.symm.trans h)
  · intro h
    refine switch_none _ _ _ (fun t ht => ?_)
    exact h _ ((g.consts _ _).2 ⟨t, rfl, ht⟩)
  · intro w hw hv
    have h1 := known v hv
    have h2 := known w (hw ▸ hv)
    rw [← hw] at h2
    exact BitVec.eq_of_toInt_eq (nodup_fst _ g.names _ _ _ h1 h2)

/-- A union of flags has no name: reading and writing is the empty string. -/
theorem C123_flags_fails :
    accessLevelType ∈ enums ∧ accessLevelType.string 1 = "CurrentRead" ∧ accessLevelType.string 2 = "CurrentWrite" ∧
    accessLevelType.string (1 ||| 2) = "" := by
  refine ⟨List.mem_iff_getElem?.2 ⟨20, rfl⟩, ?_, ?_, ?_⟩ <;> decide +kernel

example : ("A low level communication error occurred.", "BadCommunicationError", 0x80050000) ∈ statusConstants :=
  List.mem_iff_getElem?.2 ⟨5, rfl⟩

example : StatusCode.isGood 0x00A50480#32 = true ∧ (0x00A50480#32).toNat % 2 ^ 16 ≠ 0 := by decide

example : nodeClass ∈ enums ∧ ("NodeClassMethod", 4) ∈ nodeClass.consts := by
  refine ⟨List.mem_iff_getElem?.2 ⟨18, rfl⟩, List.mem_iff_getElem?.2 ⟨3, rfl⟩⟩

end Opcua.Names
