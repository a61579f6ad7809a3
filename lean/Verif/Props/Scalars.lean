import Verif.Lemmas.Scalars

/-! Properties C01–C07: the built-in scalar types survive the binary codec. -/
namespace Opcua

/-! ### C01 -/

/-- Any fixed-width integer or float (as bit pattern of `8*n` bits) is read back
unchanged, and the reader stops exactly at `rest`. -/
theorem C01_fixed_width_roundtrip (n : Nat) (v : BitVec (8 * n)) (rest : Bytes) :
    (readBits n).run (writeBits n v ++ rest) = .ok (v, rest) := rt_bits n v rest

theorem C01_bool_roundtrip (b : Bool) (rest : Bytes) :
    readBool.run (writeBool b ++ rest) = .ok (b, rest) := rt_bool b rest

/-- int32 values, as signed integers. -/
theorem C01_int32_roundtrip (x : Int) (h : -2 ^ 31 ≤ x ∧ x < 2 ^ 31) (rest : Bytes) :
    readI32.run (writeI32 x ++ rest) = .ok (x, rest) := rt_i32 x h rest

/-- Wire form: byte `i` is bits `8i … 8i+7` of the value (little endian), `n` bytes in all. -/
theorem C01_little_endian (n : Nat) (v : BitVec (8 * n)) :
    (writeBits n v).length = n ∧
    ∀ i, i < n → (writeBits n v)[i]? = some (UInt8.ofNat (v.toNat / 256 ^ i)) := by
  refine ⟨by simp [writeBits], ?_⟩
  have key : ∀ (n x i : Nat), i < n → (leBytes n x)[i]? = some (UInt8.ofNat (x / 256 ^ i)) := by
    intro n
    induction n with
    | zero => intro x i h; omega
    | succ n ih =>
      intro x i h
      cases i with
      | zero =>
        simp only [leBytes, List.getElem?_cons_zero, Nat.pow_zero, Nat.div_one, Option.some.injEq]
        apply UInt8.toNat_inj.mp
        simp
      | succ i =>
        simp only [leBytes, List.getElem?_cons_succ]
        rw [ih _ _ (by omega), Nat.div_div_eq_div_mul, ← Nat.pow_succ']
  intro i hi
  exact key n v.toNat i hi

example : (readBits 4).run (writeBits 4 (0xDEADBEEF : BitVec 32) ++ [7, 8]) =
    .ok (0xDEADBEEF, [7, 8]) := by decide
example : writeBits 2 (0x1234 : BitVec 16) = [0x34, 0x12] := by decide
example : readI32.run (writeI32 (-5) ++ [1]) = .ok (-5, [1]) := by decide

/-! ### C02 -/

theorem C02_string_roundtrip (s rest : Bytes) (h : s.length < 2 ^ 31) :
    readString.run (writeString s ++ rest) = .ok (s, rest) := rt_string s h rest

theorem C02_bytestring_roundtrip (s rest : Bytes) (h : s.length < 2 ^ 31) :
    readByteString.run (writeString s ++ rest) = .ok (s, rest) := rt_bytestring s h rest

/-- nil stays nil, empty stays empty. -/
theorem C02_bytearray_roundtrip (s : Option Bytes) (rest : Bytes)
    (h : ∀ b, s = some b → b.length < 2 ^ 31) :
    readByteArray.run (writeByteArray s ++ rest) = .ok (s, rest) := rt_bytearray s h rest

/-- The null string (length -1) and the zero-length string both read as the empty string. -/
theorem C02_null_and_empty (rest : Bytes) :
    readString.run ([0xFF, 0xFF, 0xFF, 0xFF] ++ rest) = .ok ([], rest) ∧
    readString.run ([0, 0, 0, 0] ++ rest) = .ok ([], rest) ∧
    readByteString.run ([0xFF, 0xFF, 0xFF, 0xFF] ++ rest) = .ok ([], rest) ∧
    readByteString.run ([0, 0, 0, 0] ++ rest) = .ok ([], rest) := by
  refine ⟨rt_string [] (by decide) rest, ?_, rt_bytestring [] (by decide) rest, ?_⟩
  · exact RT.bind_nil (e1 := writeI32 0) (v := (0:Int)) (rt_i32 0 (by omega)) (rt_readN []) rest
  · exact RT.bind_nil (e1 := writeI32 0) (v := (0:Int)) (rt_i32 0 (by omega)) (RT.pure []) rest

/-- A length field larger than what is left is an error, never a short value. -/
theorem C02_short_input_rejected (n : Nat) (avail : Bytes) (hn : n < 2 ^ 31)
    (h : avail.length < n) :
    readString.run (writeI32 n ++ avail) = .err [] ∧
    readByteString.run (writeI32 n ++ avail) = .err [] ∧
    readByteArray.run (writeI32 n ++ avail) = .err [] := by
  have hr := rt_i32 n (by omega) avail
  have h1 : ¬ ((n : Int) < 0) := by omega
  have h2 : ¬ ((n : Int) ≤ 0) := by omega
  have hf : (readN n).run avail = .err [] := by simp [readN]; omega
  refine ⟨?_, ?_, ?_⟩
  · rw [readString, Dec.bind_apply, hr]; simp [h1, hf]
  · rw [readByteString, Dec.bind_apply, hr]; simp only [h2, if_false, Int.toNat_natCast]; exact hf
  · rw [readByteArray, Dec.bind_apply, hr]
    simp only [h1, if_false, Int.toNat_natCast]
    show (readN n >>= fun a => pure (some a)).run avail = _
    rw [Dec.bind_apply, hf]

example : readString.run (writeString [104, 105] ++ [1]) = .ok ([104, 105], [1]) := by decide
example : readByteArray.run (writeByteArray (some []) ++ [9]) = .ok (some [], [9]) := by decide
example : readByteArray.run (writeByteArray none ++ [9]) = .ok (none, [9]) := by decide
example : readString.run (writeI32 5 ++ [1, 2]) = .err [] := by decide

/-! ### C03

Specification: the exact number of 100 ns ticks since 1601, as an unbounded integer. -/

def exactTicks (t : Time) : Int := (t.sec + 11644473600) * 10000000 + ((t.ns / 100 : Nat) : Int)

def earliest : Time := ⟨-11644473600, 0⟩
/-- 9999-12-31T23:59:59Z -/
def latest : Time := ⟨253402300799, 0⟩

/-- the tick count does not overflow int64 (years up to about 31196) -/
def TicksFit (t : Time) : Prop := -2 ^ 63 ≤ exactTicks t ∧ exactTicks t < 2 ^ 63

def Time.le (a b : Time) : Prop := a.sec < b.sec ∨ (a.sec = b.sec ∧ a.ns ≤ b.ns)

theorem wrap64_of_fits (x : Int) (h : -2 ^ 63 ≤ x ∧ x < 2 ^ 63) : wrap64 x = x := by
  apply Int.bmod_eq_of_le <;> omega

theorem C03_in_range (t : Time) (hns : t.ns < 10 ^ 9) (h0 : 0 ≤ exactTicks t)
    (h1 : exactTicks t < 2650467743990000000) (rest : Bytes) :
    readDateTime.run (writeDateTime t ++ rest) = .ok (⟨t.sec, t.ns / 100 * 100⟩, rest) := by
  rw [rt_datetime t rest]
  simp only [exactTicks] at h0 h1
  have hw : wrap64 ((t.sec + 11644473600) * 10000000 + ((t.ns / 100 : Nat) : Int)) =
      (t.sec + 11644473600) * 10000000 + ((t.ns / 100 : Nat) : Int) := wrap64_of_fits _ (by omega)
  simp only [timeTicks, hw]
  rw [if_neg (show ¬ (t.sec + 11644473600) * 10000000 + ((t.ns / 100 : Nat) : Int) < 0 by omega)]
  rw [if_neg (by omega)]
  simp only [ticksTime]
  rw [if_neg (show ¬ (t.sec + 11644473600) * 10000000 + ((t.ns / 100 : Nat) : Int) < 0 by omega)]
  rw [if_neg (by omega)]
  have hq : ((t.sec + 11644473600) * 10000000 + ((t.ns / 100 : Nat) : Int)) / 10000000 - 11644473600 = t.sec := by
    omega
  have hm : ((((t.sec + 11644473600) * 10000000 + ((t.ns / 100 : Nat) : Int)) % 10000000) * 100).toNat =
      t.ns / 100 * 100 := by omega
  rw [hq, hm]

theorem C03_before_range_clamped (t : Time) (hfit : TicksFit t) (h : exactTicks t < 0) (rest : Bytes) :
    readDateTime.run (writeDateTime t ++ rest) = .ok (earliest, rest) := by
  rw [rt_datetime t rest]
  have hw := wrap64_of_fits _ hfit
  simp only [exactTicks] at hw h
  simp only [timeTicks, hw, h, if_true]
  rfl

/-- Full statement wanted: every time after the range reads back as `latest`. Missing:
times whose tick count overflows int64, for which `C03_after_range_fails`. -/
theorem C03_after_range_clamped_partial (t : Time) (hfit : TicksFit t)
    (h : 2650467743990000000 ≤ exactTicks t) (rest : Bytes) :
    readDateTime.run (writeDateTime t ++ rest) = .ok (latest, rest) := by
  rw [rt_datetime t rest]
  have hw := wrap64_of_fits _ hfit
  simp only [exactTicks] at hw h
  simp only [timeTicks, hw]
  rw [if_neg (show ¬ (t.sec + 11644473600) * 10000000 + ((t.ns / 100 : Nat) : Int) < 0 by omega)]
  rw [if_pos (by omega)]
  rfl

/-- The code violates the clamping claim: a time in the far future (year ≈ 36812) is
read back as the year 1601, because the tick count wraps around. -/
theorem C03_after_range_fails :
    ∃ t : Time, t.ns < 10 ^ 9 ∧ 2650467743990000000 ≤ exactTicks t ∧
      ∀ rest, readDateTime.run (writeDateTime t ++ rest) = .ok (earliest, rest) := by
  refine ⟨⟨2 ^ 40, 0⟩, by decide, by decide, fun rest => ?_⟩
  rw [rt_datetime]
  have : ticksTime (timeTicks ⟨2 ^ 40, 0⟩) = earliest := by decide
  rw [this]

/-- Encoding is order preserving as long as the tick counts fit int64. -/
theorem C03_monotone (a b a' b' : Time) (ra rb : Bytes) (ha : a.ns < 10 ^ 9) (hb : b.ns < 10 ^ 9)
    (fa : TicksFit a) (fb : TicksFit b) (hab : a.le b)
    (ha' : readDateTime.run (writeDateTime a ++ ra) = .ok (a', ra))
    (hb' : readDateTime.run (writeDateTime b ++ rb) = .ok (b', rb)) : a'.le b' := by
  have hle : exactTicks a ≤ exactTicks b := by
    simp only [exactTicks]
    rcases hab with h | ⟨h1, h2⟩
    · omega
    · omega
  rw [rt_datetime] at ha' hb'
  simp only [DRes.ok.injEq, Prod.mk.injEq, and_true] at ha' hb'
  subst ha' hb'
  have wa := wrap64_of_fits _ fa
  have wb := wrap64_of_fits _ fb
  simp only [exactTicks] at wa wb hle
  simp only [timeTicks, wa, wb]
  generalize (a.sec + 11644473600) * 10000000 + ((a.ns / 100 : Nat) : Int) = x at *
  generalize (b.sec + 11644473600) * 10000000 + ((b.ns / 100 : Nat) : Int) = y at *
  simp only [Time.le, ticksTime]
  repeat' split
  all_goals try omega

example : readDateTime.run (writeDateTime ⟨1700000000, 123456789⟩ ++ [1]) =
    .ok (⟨1700000000, 123456700⟩, [1]) := by decide
example : TicksFit ⟨253402300800, 5⟩ ∧ 2650467743990000000 ≤ exactTicks ⟨253402300800, 5⟩ := by
  unfold TicksFit; decide
example : TicksFit Time.zero ∧ exactTicks Time.zero < 0 := by unfold TicksFit; decide

/-! ### C04 -/

theorem C04_guid_roundtrip (g : Guid) (rest : Bytes) :
    readGuid.run (writeGuid g ++ rest) = .ok (g, rest) := rt_guid g rest

/-- Textual byte order of a GUID. -/
def Guid.text (g : Guid) : Bytes :=
  [g.b0, g.b1, g.b2, g.b3, g.b4, g.b5, g.b6, g.b7, g.b8, g.b9, g.b10, g.b11, g.b12, g.b13, g.b14, g.b15]

/-- Groups of 4, 2 and 2 bytes are reversed, the remaining 8 are in order. -/
theorem C04_wire_layout (g : Guid) :
    writeGuid g = (g.text.take 4).reverse ++ ((g.text.drop 4).take 2).reverse ++
      ((g.text.drop 6).take 2).reverse ++ g.text.drop 8 := rfl

example : readGuid.run (writeGuid ⟨1,2,3,4,5,6,7,8,9,10,11,12,13,14,15,16⟩ ++ [0]) =
    .ok (⟨1,2,3,4,5,6,7,8,9,10,11,12,13,14,15,16⟩, [0]) := by decide

/-! ### C05 -/

/-- The null identifiers of namespace 0. -/
def NodeID.IsNull (n : NodeID) : Prop :=
  n = .numeric 0 0 ∨ n = .string 0 [] ∨ n = .guid 0 Guid.nil ∨ n = .opq 0 []

theorem C05_nodeid_roundtrip (n : NodeID) (hnull : ¬ n.IsNull) (hfit : n.Fits) (rest : Bytes) :
    readNodeID.run (writeNodeID (some n) ++ rest) = .ok (some n, rest) := by
  rw [rt_nodeID (some n) (by intro m hm; cases hm; exact hfit) rest]
  have : canonNodeID (some n) = some n := by
    simp only [NodeID.IsNull, not_or] at hnull
    cases n <;> simp_all [canonNodeID]
  rw [this]

theorem C05_null_reads_nil (n : NodeID) (hnull : n.IsNull) (rest : Bytes) :
    readNodeID.run (writeNodeID (some n) ++ rest) = .ok (none, rest) ∧
    readNodeID.run (writeNodeID none ++ rest) = .ok (none, rest) := by
  constructor
  · rw [rt_nodeID (some n) (by
      intro m hm; cases hm
      rcases hnull with h | h | h | h <;> subst h <;> simp [NodeID.Fits]) rest]
    have : canonNodeID (some n) = none := by
      rcases hnull with h | h | h | h <;> subst h <;> decide
    rw [this]
  · exact rt_nodeID none (by simp) rest

/-- Among the GUIDs it is the one of sixteen zeros, and in namespace 0 only. -/
theorem C05_null_guid (ns : BitVec 16) (g : Guid) : (NodeID.guid ns g).IsNull ↔ ns = 0 ∧ g.text = List.replicate 16 0 := by
  obtain ⟨b0, b1, b2, b3, b4, b5, b6, b7, b8, b9, b10, b11, b12, b13, b14, b15⟩ := g
  simp [NodeID.IsNull, Guid.nil, Guid.text, List.replicate]

/-- The two-byte form is used exactly for numeric identifiers up to 255 of namespace 0. -/
theorem C05_two_byte_form_iff (n : NodeID) :
    (writeNodeID (some n)).length = 2 ↔ ∃ id : BitVec 32, n = .numeric 0 id ∧ id.toNat ≤ 255 := by
  have hs : ∀ id : Bytes, 4 ≤ (writeString id).length := by
    intro id; unfold writeString; split <;> simp [writeI32, writeU32, writeBits]
  cases n with
  | numeric ns id =>
    simp only [writeNodeID, writeNumeric]
    split
    · rename_i h
      simp only [writeByte, List.length_append, List.length_cons, List.length_nil, true_iff]
      exact ⟨id, by rw [h.2], h.1⟩
    · rename_i h
      have : ¬ ∃ id' : BitVec 32, NodeID.numeric ns id = .numeric 0 id' ∧ id'.toNat ≤ 255 := by
        rintro ⟨id', h1, h2⟩
        simp only [NodeID.numeric.injEq] at h1
        exact h ⟨by rw [h1.2]; exact h2, h1.1⟩
      simp only [this, iff_false]
      split <;> simp [writeByte, writeU16, writeU32, writeBits]
  | string ns id =>
    have := hs id
    simp [writeNodeID, writeByte, writeU16, writeBits]; omega
  | guid ns id => simp [writeNodeID, writeByte, writeU16, writeBits, writeGuid]
  | opq ns id =>
    have := hs id
    simp [writeNodeID, writeByte, writeU16, writeBits]; omega

example : ¬ (NodeID.numeric 300 70000).IsNull := by
  simp [NodeID.IsNull]
example : readNodeID.run (writeNodeID (some (.numeric 7 1000)) ++ [1]) =
    .ok (some (.numeric 7 1000), [1]) := by decide
example : (NodeID.string 0 []).IsNull := by simp [NodeID.IsNull]

/-! ### C06 -/

/-- The value expected back: the namespace index is not transmitted beside a URI. -/
def ExpandedNodeID.expected (v : ExpandedNodeID) (n : NodeID) : ExpandedNodeID :=
  ⟨v.serverIndex, v.uri, some (if v.uri = [] then n else n.setNs 0)⟩

theorem C06_expanded_roundtrip (v : ExpandedNodeID) (n : NodeID) (hn : v.nodeID = some n)
    (hnull : (if v.uri = [] then n else n.setNs 0) ≠ .numeric 0 0)
    (hu : v.uri.length < 2 ^ 31) (hf : n.Fits) (rest : Bytes) :
    readExpandedNodeID.run (writeExpandedNodeID v ++ rest) = .ok (v.expected n, rest) := by
  rw [rt_expanded v hu n hn hf rest]
  simp only [canonExpanded, hn, Option.bind_some, if_neg hnull, ExpandedNodeID.expected]

/-- With a nil NodeID the flags are lost but the URI and index are still written: the
reader gets a different value and stops in the middle of the encoding. -/
theorem C06_nil_nodeid_fails :
    ∃ v : ExpandedNodeID, v.nodeID = none ∧
      readExpandedNodeID.run (writeExpandedNodeID v) = .ok (⟨0, [], none⟩, [1, 0, 0, 0]) ∧
      v ≠ ⟨0, [], none⟩ := ⟨⟨1, [], none⟩, rfl, by decide, by decide⟩

example : readExpandedNodeID.run (writeExpandedNodeID ⟨3, [97, 98], some (.string 5 [99])⟩ ++ [1]) =
    .ok (⟨3, [97, 98], some (.string 0 [99])⟩, [1]) := by decide
example : readExpandedNodeID.run (writeExpandedNodeID ⟨0, [], some (.numeric 5 77)⟩ ++ [1]) =
    .ok (⟨0, [], some (.numeric 5 77)⟩, [1]) := by decide

/-! ### C07 -/

theorem C07_qualifiedname_roundtrip (q : QualifiedName) (h : q.name.length < 2 ^ 31) (rest : Bytes) :
    readQualifiedName.run (writeQualifiedName q ++ rest) = .ok (q, rest) := rt_qualifiedName q h rest

theorem C07_localizedtext_roundtrip (v : LocalizedText) (ht : v.text.length < 2 ^ 31)
    (hl : v.locale.length < 2 ^ 31) (rest : Bytes) :
    readLocalizedText.run (writeLocalizedText v ++ rest) = .ok (v, rest) := rt_localizedText v ht hl rest

/-- First byte on the wire: bit 0 iff there is a locale, bit 1 iff there is a text, nothing else. -/
theorem C07_mask_exact (v : LocalizedText) :
    ∃ m tail, writeLocalizedText v = m :: tail ∧
      m.toNat = (if v.locale = [] then 0 else 1) + (if v.text = [] then 0 else 2) := by
  refine ⟨ltMask v, _, rfl, ?_⟩
  unfold ltMask
  split <;> split <;> simp_all

example : readLocalizedText.run (writeLocalizedText ⟨[], [101, 110]⟩ ++ [1]) =
    .ok (⟨[], [101, 110]⟩, [1]) := by decide
example : readQualifiedName.run (writeQualifiedName ⟨65535, [58]⟩ ++ [1]) =
    .ok (⟨65535, [58]⟩, [1]) := by decide

end Opcua
