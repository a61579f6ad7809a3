import Verif.Model.Scalars
import Verif.Lemmas.Bytes

namespace Opcua

theorem rt_bits (n : Nat) (v : BitVec (8 * n)) : RT (writeBits n v) (readBits n) v := by
  intro rest
  simp only [writeBits, readBits, Dec.bind_apply]
  rw [readN_append' n _ rest (leBytes_length _ _)]
  simp only [Dec.pure_apply, leVal_leBytes, DRes.ok.injEq, Prod.mk.injEq, and_true]
  have h : v.toNat % 256 ^ n = v.toNat := by
    apply Nat.mod_eq_of_lt
    have h1 := v.isLt
    have h2 : (256 : Nat) ^ n = 2 ^ (8 * n) := by
      rw [Nat.pow_mul]
    omega
  rw [h, BitVec.ofNat_toNat]
  simp

theorem local_bits (n : Nat) : Local (readBits n) :=
  Local.bind (Local.readN n) fun _ => Local.pure _

theorem rt_byte (b : UInt8) : RT (writeByte b) readByte b := by
  intro rest
  simp only [writeByte, readByte, Dec.bind_apply]
  rw [readN_append' 1 [b] rest rfl]
  rfl

theorem local_byte : Local readByte := by
  refine Local.bind (Local.readN 1) fun bs => ?_
  cases bs with
  | nil => exact Local.fail
  | cons b _ => exact Local.pure b

theorem rt_bool (b : Bool) : RT (writeBool b) readBool b := by
  intro rest
  simp only [writeBool, readBool, Dec.bind_apply]
  have := rt_byte (if b then 1 else 0) rest
  simp only [writeByte] at this
  rw [this]
  cases b <;> rfl

theorem local_bool : Local readBool := Local.bind local_byte fun _ => Local.pure _

theorem rt_u16 (v : BitVec 16) : RT (writeU16 v) readU16 v := rt_bits 2 v
theorem rt_u32 (v : BitVec 32) : RT (writeU32 v) readU32 v := rt_bits 4 v
theorem rt_u64 (v : BitVec 64) : RT (writeU64 v) readU64 v := rt_bits 8 v
theorem local_u16 : Local readU16 := local_bits 2
theorem local_u32 : Local readU32 := local_bits 4
theorem local_u64 : Local readU64 := local_bits 8

theorem rt_i32 (x : Int) (h : -2 ^ 31 ≤ x ∧ x < 2 ^ 31) : RT (writeI32 x) readI32 x := by
  have h1 := RT.map (fun v : BitVec 32 => v.toInt) (rt_u32 (BitVec.ofInt 32 x))
  have h2 : (BitVec.ofInt 32 x).toInt = x := by
    rw [BitVec.toInt_ofInt]
    apply Int.bmod_eq_of_le <;> omega
  simp only [h2] at h1
  exact h1

theorem local_i32 : Local readI32 := Local.bind local_u32 fun _ => Local.pure _

theorem rt_readN (bs : Bytes) : RT bs (readN bs.length) bs := fun rest => readN_append bs rest

theorem rt_string (s : Bytes) (h : s.length < 2 ^ 31) : RT (writeString s) readString s := by
  unfold writeString
  split
  · rename_i h0
    have hs : s = [] := List.eq_nil_of_length_eq_zero h0
    subst hs
    refine RT.bind_nil (rt_i32 (-1) (by omega)) ?_
    simp only [show (-1 : Int) < 0 from by omega, if_true]
    exact RT.pure _
  · refine RT.bind (rt_i32 s.length (by omega)) ?_
    rw [if_neg (by omega), Int.toNat_natCast]
    exact rt_readN s

theorem local_string : Local readString :=
  Local.bind local_i32 fun _ => Local.ite (Local.pure _) (Local.readN _)

theorem rt_bytestring (s : Bytes) (h : s.length < 2 ^ 31) :
    RT (writeString s) readByteString s := by
  unfold writeString
  split
  · rename_i h0
    have hs : s = [] := List.eq_nil_of_length_eq_zero h0
    subst hs
    refine RT.bind_nil (rt_i32 (-1) (by omega)) ?_
    simp only [show (-1 : Int) ≤ 0 from by omega, if_true]
    exact RT.pure _
  · refine RT.bind (rt_i32 s.length (by omega)) ?_
    rw [if_neg (by omega), Int.toNat_natCast]
    exact rt_readN s

theorem local_bytestring : Local readByteString :=
  Local.bind local_i32 fun _ => Local.ite (Local.pure _) (Local.readN _)

theorem rt_bytearray (s : Option Bytes) (h : ∀ b, s = some b → b.length < 2 ^ 31) :
    RT (writeByteArray s) readByteArray s := by
  cases s with
  | none =>
    refine RT.bind_nil (rt_i32 (-1) (by omega)) ?_
    simp only [show (-1 : Int) < 0 from by omega, if_true]
    exact RT.pure _
  | some b =>
    have := h b rfl
    refine RT.bind (rt_i32 b.length (by omega)) ?_
    rw [if_neg (by omega), Int.toNat_natCast]
    exact RT.map some (rt_readN b)

theorem local_bytearray : Local readByteArray :=
  Local.bind local_i32 fun _ => Local.ite (Local.pure _) (Local.map _ (Local.readN _))

theorem timeTicks_range (t : Time) : 0 ≤ timeTicks t ∧ timeTicks t < 2 ^ 63 := by
  simp only [timeTicks]
  split <;> split <;> omega

theorem rt_datetime (t : Time) : RT (writeDateTime t) readDateTime (ticksTime (timeTicks t)) := by
  have h1 := RT.map (fun v : BitVec 64 => ticksTime v.toInt) (rt_u64 (BitVec.ofInt 64 (timeTicks t)))
  have h2 : (BitVec.ofInt 64 (timeTicks t)).toInt = timeTicks t := by
    have := timeTicks_range t
    rw [BitVec.toInt_ofInt]
    apply Int.bmod_eq_of_le <;> omega
  simp only [h2] at h1
  exact h1

theorem local_datetime : Local readDateTime := Local.bind local_u64 fun _ => Local.pure _

theorem rt_guid (g : Guid) : RT (writeGuid g) readGuid g := by
  intro rest
  simp only [writeGuid, readGuid, Dec.bind_apply, List.append_assoc]
  rw [readN_append' 8 _ _ rfl]
  simp only [Dec.bind_apply]
  rw [readN_append' 8 _ _ rfl]
  simp

theorem local_guid : Local readGuid := by
  refine Local.bind (Local.readN 8) fun bs => ?_
  split
  · refine Local.bind (Local.readN 8) fun bs => ?_
    split
    · exact Local.pure _
    · exact Local.fail
  · exact Local.fail

/-- What a decoder makes of the null identifiers of namespace 0. -/
def canonNodeID : Option NodeID → Option NodeID
  | some (.numeric ns id) => if ns = 0 ∧ id = 0 then none else some (.numeric ns id)
  | some (.string ns id) => if ns = 0 ∧ id = [] then none else some (.string ns id)
  | some (.guid ns id) => if ns = 0 ∧ id = Guid.nil then none else some (.guid ns id)
  | some (.opq ns id) => if ns = 0 ∧ id = [] then none else some (.opq ns id)
  | none => none

/-- Variable-length identifiers fit the 31-bit length field. -/
def NodeID.Fits : NodeID → Prop
  | .string _ id => id.length < 2 ^ 31
  | .opq _ id => id.length < 2 ^ 31
  | _ => True

theorem numeric_small_byte (id : BitVec 32) (h : id.toNat ≤ 255) :
    (BitVec.ofNat 32 (UInt8.ofNat id.toNat).toNat) = id := by
  apply BitVec.eq_of_toNat_eq
  simp
  omega

theorem numeric_small_byte_zero (id : BitVec 32) (h : id.toNat ≤ 255) :
    UInt8.ofNat id.toNat = 0 ↔ id = 0 := by
  rw [← UInt8.toNat_inj, ← BitVec.toNat_inj]
  simp
  omega

theorem numeric_ns_byte (ns : BitVec 16) (h : ns.toNat ≤ 255) :
    (BitVec.ofNat 16 (UInt8.ofNat ns.toNat).toNat) = ns := by
  apply BitVec.eq_of_toNat_eq
  simp
  omega

theorem numeric_id_u16 (id : BitVec 32) (h : id.toNat ≤ 65535) :
    ((id.truncate 16).zeroExtend 32) = id := by
  apply BitVec.eq_of_toNat_eq
  simp
  omega

theorem rt_nodeID (v : Option NodeID) (h : ∀ n, v = some n → n.Fits) :
    RT (writeNodeID v) readNodeID (canonNodeID v) := by
  unfold readNodeID
  match v with
  | none =>
    have : writeNodeID none = writeByte 0 ++ writeByte 0 := by decide
    rw [this]
    refine RT.bind (rt_byte 0) ?_
    rw [if_pos rfl]
    refine RT.bind_nil (rt_byte 0) ?_
    rw [if_pos rfl]
    exact RT.pure _
  | some (.numeric ns id) =>
    simp only [writeNodeID, writeNumeric]
    split
    · rename_i hc
      obtain ⟨hid, hns⟩ := hc
      subst hns
      refine RT.bind (rt_byte _) ?_
      rw [if_pos (by decide)]
      refine RT.bind_nil (rt_byte _) ?_
      simp only [numeric_small_byte_zero id hid, canonNodeID, true_and]
      split
      · exact RT.pure _
      · rw [numeric_small_byte id hid]; exact RT.pure _
    · rename_i hc
      have hnz : ¬ (ns = 0 ∧ id = 0) := by
        rintro ⟨rfl, rfl⟩; exact hc (by decide)
      split
      · rename_i hc2
        refine RT.bind (rt_byte _) ?_
        rw [if_neg (by decide), if_pos (by decide)]
        refine RT.bind (rt_byte _) (RT.bind_nil (rt_u16 _) ?_)
        rw [numeric_ns_byte ns hc2.2, numeric_id_u16 id hc2.1]
        simp only [canonNodeID, hnz, if_false]
        exact RT.pure _
      · refine RT.bind (rt_byte _) ?_
        rw [if_neg (by decide), if_neg (by decide), if_pos (by decide)]
        refine RT.bind (rt_u16 _) (RT.bind_nil (rt_u32 _) ?_)
        simp only [canonNodeID, hnz, if_false]
        exact RT.pure _
  | some (.string ns id) =>
    have hf := h _ rfl
    refine RT.bind (rt_byte _) ?_
    rw [if_neg (by decide), if_neg (by decide), if_neg (by decide), if_pos (by decide)]
    refine RT.bind (rt_u16 _) (RT.bind_nil (rt_string _ hf) ?_)
    simp only [canonNodeID]
    split <;> exact RT.pure _
  | some (.guid ns id) =>
    refine RT.bind (rt_byte _) ?_
    rw [if_neg (by decide), if_neg (by decide), if_neg (by decide), if_neg (by decide),
      if_pos (by decide)]
    refine RT.bind (rt_u16 _) (RT.bind_nil (rt_guid _) ?_)
    simp only [canonNodeID]
    split <;> exact RT.pure _
  | some (.opq ns id) =>
    have hf := h _ rfl
    refine RT.bind (rt_byte _) ?_
    rw [if_neg (by decide), if_neg (by decide), if_neg (by decide), if_neg (by decide),
      if_neg (by decide), if_pos (by decide)]
    refine RT.bind (rt_u16 _) (RT.bind_nil (rt_bytestring _ hf) ?_)
    simp only [canonNodeID]
    split <;> exact RT.pure _

theorem local_nodeID : Local readNodeID := by
  refine Local.bind local_byte fun b => ?_
  refine Local.ite ?_ (Local.ite ?_ (Local.ite ?_ (Local.ite ?_ (Local.ite ?_ (Local.ite ?_ Local.fail)))))
  · exact Local.bind local_byte fun _ => Local.ite (Local.pure _) (Local.pure _)
  · exact Local.bind local_byte fun _ => Local.bind local_u16 fun _ => Local.pure _
  · exact Local.bind local_u16 fun _ => Local.bind local_u32 fun _ => Local.pure _
  · exact Local.bind local_u16 fun _ => Local.bind local_string fun _ => Local.ite (Local.pure _) (Local.pure _)
  · exact Local.bind local_u16 fun _ => Local.bind local_guid fun _ => Local.ite (Local.pure _) (Local.pure _)
  · exact Local.bind local_u16 fun _ => Local.bind local_bytestring fun _ => Local.ite (Local.pure _) (Local.pure _)

/-- What the expanded decoder makes of a NodeID: namespace index `0` when `hasUri`;
only the two-byte null form is nil. -/
def NodeID.setNs (ns' : BitVec 16) : NodeID → NodeID
  | .numeric _ id => .numeric ns' id
  | .string _ id => .string ns' id
  | .guid _ id => .guid ns' id
  | .opq _ id => .opq ns' id

theorem expFlags_cases (v : ExpandedNodeID) :
    expFlags v = (if v.serverIndex = 0 then 0 else 0x40) ||| (if v.uri = [] then 0 else 0x80) := by
  unfold expFlags
  have h1 : (v.serverIndex.toNat > 0) ↔ ¬ v.serverIndex = 0 := by
    rw [← BitVec.toNat_inj]; simp; omega
  have h2 : (v.uri.length > 0) ↔ ¬ v.uri = [] := by
    cases v.uri <;> simp
  simp only [h1, h2]
  split <;> split <;> simp_all <;> decide

def canonExpanded (v : ExpandedNodeID) : ExpandedNodeID :=
  { v with nodeID := v.nodeID.bind fun n =>
      let n' := if v.uri = [] then n else n.setNs 0
      if n' = .numeric 0 0 then none else some n' }

theorem numeric_zero (ns : BitVec 16) (id : BitVec 32) :
    (NodeID.numeric ns id = .numeric 0 0) ↔ (ns = 0 ∧ id = 0) := by simp

theorem rt_expBody_numeric (b : UInt8) (hb : b = 0 ∨ b = 0x40 ∨ b = 0x80 ∨ b = 0xC0)
    (ns : BitVec 16) (id : BitVec 32) {f : UInt8 → Option NodeID → Dec β} {tail : Bytes} {w : β}
    (h : ∀ t : UInt8, t = 0 ∨ t = 1 ∨ t = 2 →
      RT tail (f (t ||| b) (if NodeID.numeric ns id = .numeric 0 0 then none else some (.numeric ns id))) w) :
    RT (writeNumeric b ns id ++ tail)
      (readByte >>= fun b => readExpandedBody (b &&& 0x0F) >>= fun n => f b n) w := by
  unfold writeNumeric
  have hm : ∀ t : UInt8, t = 0 ∨ t = 1 ∨ t = 2 → (t ||| b) &&& 0x0F = t := by
    rintro t (rfl | rfl | rfl) <;> rcases hb with rfl | rfl | rfl | rfl <;> decide
  split
  · rename_i hc
    obtain ⟨hid, rfl⟩ := hc
    rw [List.append_assoc]
    refine RT.bind (rt_byte _) ?_
    rw [hm 0 (by simp)]
    refine RT.bind (v := (if NodeID.numeric 0 id = .numeric 0 0 then none else some (.numeric 0 id))) ?_ (h 0 (by simp))
    rw [readExpandedBody, if_pos rfl]
    refine RT.bind_nil (rt_byte _) ?_
    simp only [numeric_small_byte_zero id hid, numeric_zero, true_and]
    split
    · exact RT.pure _
    · rw [numeric_small_byte id hid]; exact RT.pure _
  · rename_i hc
    have hnz : ¬ (ns = 0 ∧ id = 0) := by
      rintro ⟨rfl, rfl⟩; exact hc (by decide)
    have hnz' : ¬ (NodeID.numeric ns id = .numeric 0 0) := by rw [numeric_zero]; exact hnz
    simp only [hnz', if_false] at h
    split
    · rename_i hc2
      rw [List.append_assoc]
      refine RT.bind (rt_byte _) ?_
      rw [hm 1 (by simp)]
      refine RT.bind (v := some (.numeric ns id)) ?_ (h 1 (by simp))
      rw [readExpandedBody, if_neg (by decide), if_pos (by decide)]
      refine RT.bind (rt_byte _) (RT.bind_nil (rt_u16 _) ?_)
      rw [numeric_ns_byte ns hc2.2, numeric_id_u16 id hc2.1]
      exact RT.pure _
    · rw [List.append_assoc]
      refine RT.bind (rt_byte _) ?_
      rw [hm 2 (by simp)]
      refine RT.bind (v := some (.numeric ns id)) ?_ (h 2 (by simp))
      rw [readExpandedBody, if_neg (by decide), if_neg (by decide), if_pos (by decide)]
      refine RT.bind (rt_u16 _) (RT.bind_nil (rt_u32 _) ?_)
      exact RT.pure _

theorem rt_optString (c : Prop) [Decidable c] (s : Bytes) (h : s.length < 2 ^ 31) (hc : ¬ c → s = []) :
    RT (if c then writeString s else []) (if c then readString else pure []) s := by
  split
  · exact rt_string s h
  · rename_i h'; rw [hc h']; exact RT.pure _

theorem rt_optU32 (c : Prop) [Decidable c] (s : BitVec 32) (hc : ¬ c → s = 0) :
    RT (if c then writeU32 s else []) (if c then readU32 else pure 0) s := by
  split
  · exact rt_u32 s
  · rename_i h'; rw [hc h']; exact RT.pure _

/-- tail of the expanded reader -/
theorem rt_expTail (v : ExpandedNodeID) (hu : v.uri.length < 2 ^ 31) (n : Option NodeID) (b : UInt8)
    (h80 : b &&& 0x80 ≠ 0 ↔ v.uri ≠ []) (h40 : b &&& 0x40 ≠ 0 ↔ v.serverIndex ≠ 0) 
    (b' : UInt8) (h80' : b' &&& 0x80 = b &&& 0x80) (h40' : b' &&& 0x40 = b &&& 0x40) :
    RT ((if b &&& 0x80 ≠ 0 then writeString v.uri else []) ++
        (if b &&& 0x40 ≠ 0 then writeU32 v.serverIndex else []))
      (do
        let uri ← (if b' &&& 0x80 ≠ 0 then readString else pure [])
        let svr ← (if b' &&& 0x40 ≠ 0 then readU32 else pure 0)
        return (⟨svr, uri, n⟩ : ExpandedNodeID)) ⟨v.serverIndex, v.uri, n⟩ := by
  rw [h80', h40']
  refine RT.bind (rt_optString _ _ hu ?_) (RT.bind_nil (rt_optU32 _ _ ?_) (RT.pure _))
  · intro h; exact Classical.byContradiction fun h' => h (h80.mpr h')
  · intro h; exact Classical.byContradiction fun h' => h (h40.mpr h')

theorem rt_expanded (v : ExpandedNodeID) (hu : v.uri.length < 2 ^ 31) (n : NodeID)
    (hn : v.nodeID = some n) (hf : n.Fits) :
    RT (writeExpandedNodeID v) readExpandedNodeID (canonExpanded v) := by
  have hb : expFlags v = 0 ∨ expFlags v = 0x40 ∨ expFlags v = 0x80 ∨ expFlags v = 0xC0 := by
    rw [expFlags_cases]; split <;> split <;> decide
  have h80 : expFlags v &&& 0x80 ≠ 0 ↔ v.uri ≠ [] := by
    rw [expFlags_cases]; split <;> split <;> simp_all <;> decide
  have h40 : expFlags v &&& 0x40 ≠ 0 ↔ v.serverIndex ≠ 0 := by
    rw [expFlags_cases]; split <;> split <;> simp_all <;> decide
  have key : ∀ t : UInt8, t = 0 ∨ t = 1 ∨ t = 2 ∨ t = 3 ∨ t = 4 ∨ t = 5 →
      (t ||| expFlags v) &&& 0x80 = expFlags v &&& 0x80 ∧
      (t ||| expFlags v) &&& 0x40 = expFlags v &&& 0x40 ∧
      (t ||| expFlags v) &&& 0x0F = t := by
    rintro t (rfl | rfl | rfl | rfl | rfl | rfl) <;> rcases hb with h | h | h | h <;> rw [h] <;> decide
  obtain ⟨svr, uri, nid⟩ := v
  simp only at hn hu
  subst hn
  simp only [canonExpanded, Option.bind_some]
  unfold readExpandedNodeID writeExpandedNodeID
  have hns : ∀ ns : BitVec 16, (if expFlags ⟨svr, uri, some n⟩ &&& 0x80 ≠ 0 then 0 else ns) =
      (if uri = [] then ns else 0) := by
    intro ns
    by_cases hu0 : uri = []
    · rw [if_pos hu0, if_neg (by rw [h80]; simp [hu0])]
    · rw [if_neg hu0, if_pos (by rw [h80]; simp [hu0])]
  simp only [hns]
  have tailRT := fun m t ht => rt_expTail ⟨svr, uri, some n⟩ hu m (expFlags ⟨svr, uri, some n⟩) h80 h40
    (t ||| expFlags ⟨svr, uri, some n⟩) (key t ht).1 (key t ht).2.1
  cases n with
  | numeric ns id =>
    have e : (if uri = [] then NodeID.numeric ns id else (NodeID.numeric ns id).setNs 0) =
        .numeric (if uri = [] then ns else 0) id := by split <;> simp [NodeID.setNs]
    rw [e]
    refine rt_expBody_numeric _ hb _ _ ?_
    intro t ht
    exact tailRT _ t (by rcases ht with h | h | h <;> simp [h])
  | string ns id =>
    have e : (if uri = [] then NodeID.string ns id else (NodeID.string ns id).setNs 0) =
        .string (if uri = [] then ns else 0) id := by split <;> simp [NodeID.setNs]
    rw [e]
    simp only [reduceCtorEq, if_false]
    simp only [List.append_assoc]
    refine RT.bind (rt_byte _) ?_
    rw [(key 3 (by simp)).2.2, ← List.append_assoc]
    refine RT.bind (v := some (.string (if uri = [] then ns else 0) id)) ?_ (tailRT _ 3 (by simp))
    exact RT.bind (rt_u16 _) (RT.bind_nil (rt_string _ hf) (RT.pure _))
  | guid ns id =>
    have e : (if uri = [] then NodeID.guid ns id else (NodeID.guid ns id).setNs 0) =
        .guid (if uri = [] then ns else 0) id := by split <;> simp [NodeID.setNs]
    rw [e]
    simp only [reduceCtorEq, if_false]
    simp only [List.append_assoc]
    refine RT.bind (rt_byte _) ?_
    rw [(key 4 (by simp)).2.2, ← List.append_assoc]
    refine RT.bind (v := some (.guid (if uri = [] then ns else 0) id)) ?_ (tailRT _ 4 (by simp))
    exact RT.bind (rt_u16 _) (RT.bind_nil (rt_guid _) (RT.pure _))
  | opq ns id =>
    have e : (if uri = [] then NodeID.opq ns id else (NodeID.opq ns id).setNs 0) =
        .opq (if uri = [] then ns else 0) id := by split <;> simp [NodeID.setNs]
    rw [e]
    simp only [reduceCtorEq, if_false]
    simp only [List.append_assoc]
    refine RT.bind (rt_byte _) ?_
    rw [(key 5 (by simp)).2.2, ← List.append_assoc]
    refine RT.bind (v := some (.opq (if uri = [] then ns else 0) id)) ?_ (tailRT _ 5 (by simp))
    exact RT.bind (rt_u16 _) (RT.bind_nil (rt_bytestring _ hf) (RT.pure _))

theorem local_expBody (t : UInt8) : Local (readExpandedBody t) := by
  unfold readExpandedBody
  refine Local.ite ?_ (Local.ite ?_ (Local.ite ?_ (Local.ite ?_ (Local.ite ?_ (Local.ite ?_ Local.fail)))))
  · exact Local.bind local_byte fun _ => Local.ite (Local.pure _) (Local.pure _)
  · exact Local.bind local_byte fun _ => Local.bind local_u16 fun _ => Local.pure _
  · exact Local.bind local_u16 fun _ => Local.bind local_u32 fun _ => Local.pure _
  · exact Local.bind local_u16 fun _ => Local.bind local_string fun _ => Local.pure _
  · exact Local.bind local_u16 fun _ => Local.bind local_guid fun _ => Local.pure _
  · exact Local.bind local_u16 fun _ => Local.bind local_bytestring fun _ => Local.pure _

theorem local_expanded : Local readExpandedNodeID :=
  Local.bind local_byte fun _ => Local.bind (local_expBody _) fun _ =>
    Local.bind (Local.ite local_string (Local.pure _)) fun _ =>
      Local.bind (Local.ite local_u32 (Local.pure _)) fun _ => Local.pure _

theorem rt_qualifiedName (q : QualifiedName) (h : q.name.length < 2 ^ 31) :
    RT (writeQualifiedName q) readQualifiedName q :=
  RT.bind (rt_u16 _) (RT.bind_nil (rt_string _ h) (RT.pure _))

theorem local_qualifiedName : Local readQualifiedName :=
  Local.bind local_u16 fun _ => Local.bind local_string fun _ => Local.pure _

theorem rt_localizedText (v : LocalizedText) (ht : v.text.length < 2 ^ 31)
    (hl : v.locale.length < 2 ^ 31) : RT (writeLocalizedText v) readLocalizedText v := by
  have h1 : ltMask v &&& 1 ≠ 0 ↔ v.locale ≠ [] := by
    unfold ltMask; split <;> split <;> simp_all <;> decide
  have h2 : ltMask v &&& 2 ≠ 0 ↔ v.text ≠ [] := by
    unfold ltMask; split <;> split <;> simp_all <;> decide
  refine RT.bind (rt_byte _) (RT.bind (rt_optString _ _ hl ?_)
    (RT.bind_nil (rt_optString _ _ ht ?_) (RT.pure _)))
  · intro h; exact Classical.byContradiction fun h' => h (h1.mpr h')
  · intro h; exact Classical.byContradiction fun h' => h (h2.mpr h')

theorem local_localizedText : Local readLocalizedText :=
  Local.bind local_byte fun _ => Local.bind (Local.ite local_string (Local.pure _)) fun _ =>
    Local.bind (Local.ite local_string (Local.pure _)) fun _ => Local.pure _

end Opcua
