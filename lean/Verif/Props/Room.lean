import Verif.Props.SendOn

/-! C148: a value takes no more room when it is sent on than when it was received. -/
namespace Opcua.Room

/-! ### Specification -/

mutual
/-- How many DataValues in a value say that their value could not be read (`BadDataTypeIDUnknown` and no value). -/
def Spec.unread : Val → Nat
  | .struct fs => Spec.unreadAll fs
  | .slice vs => Spec.unreadAll vs
  | .varray _ (some vs) => Spec.unreadAll vs
  | .vmat _ rows => Spec.unreadRows rows
  | .vcube _ cs => Spec.unreadCubes cs
  | .vext _ fs => Spec.unreadAll fs
  | .dv v st _ _ _ _ => (if v.isVNull = true ∧ st = 0x80110000 then 1 else 0) + Spec.unread v
  | .ext _ fs => Spec.unreadAll fs
  | _ => 0

def Spec.unreadAll : List Val → Nat
  | [] => 0
  | v :: vs => Spec.unread v + Spec.unreadAll vs

def Spec.unreadRows : List (List Val) → Nat
  | [] => 0
  | v :: vs => Spec.unreadAll v + Spec.unreadRows vs

def Spec.unreadCubes : List (List (List Val)) → Nat
  | [] => 0
  | v :: vs => Spec.unreadRows v + Spec.unreadCubes vs
end

/-- A type that is found under an id is sent under one that takes no more bytes. -/
def Spec.ShortId (R : Reg) : Prop := ∀ id tag, R.tyOf id = some tag →
  ∃ id', R.idOf tag = some id' ∧ (writeNodeID id').length ≤ (writeNodeID id).length

/-! ### What decoders use up -/

/-- A result and the number of bytes it took satisfy `P`; a failure gives nothing back. -/
def Uses (d : Dec α) (P : α → Nat → Prop) : Prop :=
  (∀ s v r, d.run s = .ok (v, r) → r.length ≤ s.length ∧ P v (s.length - r.length)) ∧
  ∀ s l, d.run s = .err l → l.length ≤ s.length

theorem Uses.pure {P : α → Nat → Prop} {v : α} (h : P v 0) : Uses (pure v : Dec α) P :=
  ⟨fun s v' r hr => by cases hr; exact ⟨Nat.le_refl _, by rw [Nat.sub_self]; exact h⟩, fun s l hr => by cases hr⟩
theorem Uses.fail {P : α → Nat → Prop} : Uses (Dec.fail : Dec α) P :=
  ⟨fun s v r hr => (by cases hr), fun s l hr => by cases hr; exact Nat.le_refl _⟩
theorem Uses.crash {P : α → Nat → Prop} : Uses (Dec.crash : Dec α) P :=
  ⟨fun s v r hr => (by cases hr), fun s l hr => by cases hr⟩
theorem Uses.bind {d : Dec α} {f : α → Dec β} {P : α → Nat → Prop} {Q : β → Nat → Prop} (h1 : Uses d P)
    (h2 : ∀ a n, P a n → Uses (f a) fun b m => Q b (n + m)) : Uses (d >>= f) Q := by
  refine ⟨fun s v r hr => ?_, fun s l hr => ?_⟩
  · cases hd : d.run s with
    | ok p =>
      obtain ⟨a, s'⟩ := p
      simp only [Bind.bind, hd] at hr
      obtain ⟨l1, p1⟩ := h1.1 s a s' hd
      obtain ⟨l2, p2⟩ := (h2 a _ p1).1 s' v r hr
      refine ⟨by omega, ?_⟩
      have : s.length - s'.length + (s'.length - r.length) = s.length - r.length := by omega
      rw [← this]; exact p2
    | err l => simp only [Bind.bind, hd] at hr; cases hr
    | panic => simp only [Bind.bind, hd] at hr; cases hr
  · cases hd : d.run s with
    | ok p =>
      obtain ⟨a, s'⟩ := p
      simp only [Bind.bind, hd] at hr
      obtain ⟨l1, p1⟩ := h1.1 s a s' hd
      have := (h2 a _ p1).2 s' l hr
      omega
    | err l' => simp only [Bind.bind, hd] at hr; cases hr; exact h1.2 s _ hd
    | panic => simp only [Bind.bind, hd] at hr; cases hr
theorem Uses.map {d : Dec α} {f : α → β} {P : α → Nat → Prop} {Q : β → Nat → Prop} (h1 : Uses d P)
    (h2 : ∀ a n, P a n → Q (f a) n) : Uses (f <$> d) Q := Uses.bind h1 fun a n h => Uses.pure (h2 a n h)
theorem Uses.ite {c : Prop} [Decidable c] {d e : Dec α} {P : α → Nat → Prop} (h1 : c → Uses d P)
    (h2 : ¬ c → Uses e P) : Uses (if c then d else e) P := by split <;> simp_all
theorem Uses.mono {d : Dec α} {P Q : α → Nat → Prop} (h : Uses d P) (hpq : ∀ a n, P a n → Q a n) : Uses d Q :=
  ⟨fun s v r hr => ⟨(h.1 s v r hr).1, hpq v _ (h.1 s v r hr).2⟩, h.2⟩

theorem uses_readN (k : Nat) : Uses (readN k) fun b n => b.length = k ∧ n = k := by
  refine ⟨fun s v r hr => ?_, fun s l hr => ?_⟩
  · simp only [readN] at hr
    split at hr
    · cases hr
      refine ⟨by simp, by simp; omega, by simp; omega⟩
    · cases hr
  · simp only [readN] at hr
    split at hr
    · cases hr
    · cases hr; simp

theorem uses_bits (k : Nat) : Uses (readBits k) fun _ n => n = k :=
  Uses.bind (uses_readN k) fun b n h => Uses.pure (by omega)
theorem uses_byte : Uses readByte fun _ n => n = 1 := by
  refine Uses.bind (uses_readN 1) fun b n h => ?_
  split
  · exact Uses.pure (by omega)
  · exact Uses.fail
theorem uses_u16 : Uses readU16 fun _ n => n = 2 := uses_bits 2
theorem uses_u32 : Uses readU32 fun _ n => n = 4 := uses_bits 4
theorem uses_u64 : Uses readU64 fun _ n => n = 8 := uses_bits 8
theorem uses_bool : Uses readBool fun _ n => n = 1 := Uses.bind uses_byte fun _ n h => Uses.pure (by omega)
theorem uses_i32 : Uses readI32 fun _ n => n = 4 := Uses.bind uses_u32 fun _ n h => Uses.pure (by omega)
theorem uses_string : Uses readString fun b n => n = 4 + b.length :=
  Uses.bind uses_i32 fun k n h => Uses.ite (fun _ => Uses.pure (by simp [h]))
    fun _ => (uses_readN _).mono fun b m hb => by omega
theorem uses_bytestring : Uses readByteString fun b n => n = 4 + b.length :=
  Uses.bind uses_i32 fun k n h => Uses.ite (fun _ => Uses.pure (by simp [h]))
    fun _ => (uses_readN _).mono fun b m hb => by omega
theorem uses_bytearray : Uses readByteArray fun b n => n = 4 + (b.getD []).length :=
  Uses.bind uses_i32 fun k n h => Uses.ite (fun _ => Uses.pure (by simp [h]))
    fun _ => Uses.map (uses_readN _) fun b m hb => by simp only [Option.getD_some]; omega
theorem uses_datetime : Uses readDateTime fun _ n => n = 8 := Uses.bind uses_u64 fun _ n h => Uses.pure (by omega)
theorem uses_guid : Uses readGuid fun _ n => n = 16 := by
  refine Uses.bind (uses_readN 8) fun b n h => ?_
  split
  · refine Uses.bind (uses_readN 8) fun b' n' h' => ?_
    split
    · exact Uses.pure (by omega)
    · exact Uses.fail
  · exact Uses.fail

/-! ### How long the writers write -/

theorem len_le : ∀ k v, (leBytes k v).length = k
  | 0, _ => rfl
  | k + 1, v => by simp [leBytes, len_le k]
theorem len_bits (k : Nat) (v : BitVec (8 * k)) : (writeBits k v).length = k := len_le _ _
theorem len_u16 (v : BitVec 16) : (writeU16 v).length = 2 := len_bits 2 v
theorem len_u32 (v : BitVec 32) : (writeU32 v).length = 4 := len_bits 4 v
theorem len_u64 (v : BitVec 64) : (writeU64 v).length = 8 := len_bits 8 v
theorem len_i32 (v : Int) : (writeI32 v).length = 4 := len_u32 _
theorem len_byte (b : UInt8) : (writeByte b).length = 1 := rfl
theorem len_datetime (t : Time) : (writeDateTime t).length = 8 := len_u64 _
theorem len_guid (g : Guid) : (writeGuid g).length = 16 := rfl
theorem len_string (s : Bytes) : (writeString s).length = 4 + s.length := by
  unfold writeString
  split
  · rw [len_i32]; omega
  · rw [List.length_append, len_i32]

theorem len_numeric (b : UInt8) (ns : BitVec 16) (id : BitVec 32) :
    (writeNumeric b ns id).length ≤ 7 ∧ (id.toNat ≤ 65535 → ns.toNat ≤ 255 → (writeNumeric b ns id).length ≤ 4) ∧
    (id.toNat ≤ 255 → ns = 0 → (writeNumeric b ns id).length = 2) := by
  unfold writeNumeric
  refine ⟨?_, fun h1 h2 => ?_, fun h1 h2 => ?_⟩
  · split
    · simp [len_byte]
    · split <;> simp [len_byte, len_u16, len_u32]
  · split
    · simp [len_byte]
    · rw [if_pos ⟨h1, h2⟩]; simp [len_byte, len_u16]
  · rw [if_pos ⟨h1, h2⟩]; simp [len_byte]

theorem small8 (b : UInt8) : (BitVec.ofNat 32 b.toNat).toNat ≤ 255 := by
  have := b.toNat_lt; rw [BitVec.toNat_ofNat, Nat.mod_eq_of_lt (by omega)]; omega
theorem small8' (b : UInt8) : (BitVec.ofNat 16 b.toNat).toNat ≤ 255 := by
  have := b.toNat_lt; rw [BitVec.toNat_ofNat, Nat.mod_eq_of_lt (by omega)]; omega
theorem small16 (v : BitVec 16) : (v.zeroExtend 32).toNat ≤ 65535 := by
  have := v.isLt; simp; omega

theorem uses_nodeID : Uses readNodeID fun v n => (writeNodeID v).length ≤ n := by
  have hn : (writeNodeID none).length = 2 := rfl
  unfold readNodeID
  refine Uses.bind uses_byte fun b n h => ?_
  subst h
  refine Uses.ite (fun _ => ?_) fun _ => Uses.ite (fun _ => ?_) fun _ => Uses.ite (fun _ => ?_) fun _ =>
    Uses.ite (fun _ => ?_) fun _ => Uses.ite (fun _ => ?_) fun _ => Uses.ite (fun _ => ?_) fun _ => Uses.fail
  · refine Uses.bind uses_byte fun id n h => Uses.ite (fun _ => Uses.pure (by omega)) fun _ => Uses.pure ?_
    simp only [writeNodeID]
    rw [(len_numeric _ _ _).2.2 (small8 id) rfl]; omega
  · refine Uses.bind uses_byte fun ns n h => Uses.bind uses_u16 fun id m h' => Uses.pure ?_
    simp only [writeNodeID]
    have := (len_numeric 0 _ _).2.1 (small16 id) (small8' ns); omega
  · refine Uses.bind uses_u16 fun ns n h => Uses.bind uses_u32 fun id m h' => Uses.pure ?_
    simp only [writeNodeID]
    have := (len_numeric 0 ns id).1; omega
  · refine Uses.bind uses_u16 fun ns n h => Uses.bind uses_string fun id m h' =>
      Uses.ite (fun _ => Uses.pure (by omega)) fun _ => Uses.pure ?_
    simp only [writeNodeID, List.length_append, len_byte, len_u16, len_string]; omega
  · refine Uses.bind uses_u16 fun ns n h => Uses.bind uses_guid fun id m h' =>
      Uses.ite (fun _ => Uses.pure (by omega)) fun _ => Uses.pure ?_
    simp only [writeNodeID, List.length_append, len_byte, len_u16, len_guid]; omega
  · refine Uses.bind uses_u16 fun ns n h => Uses.bind uses_bytestring fun id m h' =>
      Uses.ite (fun _ => Uses.pure (by omega)) fun _ => Uses.pure ?_
    simp only [writeNodeID, List.length_append, len_byte, len_u16, len_string]; omega

/-- the identifier part of WriteExpandedNodeID -/
def expBody (b : UInt8) (nsOf : BitVec 16 → BitVec 16) : Option NodeID → Bytes
  | some (.numeric ns id) => writeNumeric b (nsOf ns) id
  | some (.string ns id) => writeByte (0x03 ||| b) ++ (writeU16 (nsOf ns) ++ writeString id)
  | some (.guid ns id) => writeByte (0x04 ||| b) ++ (writeU16 (nsOf ns) ++ writeGuid id)
  | some (.opq ns id) => writeByte (0x05 ||| b) ++ (writeU16 (nsOf ns) ++ writeString id)
  | none => writeU16 0

theorem uses_expBody (t : UInt8) : Uses (readExpandedBody t) fun v n =>
    ∀ b nsOf, (∀ ns : BitVec 16, nsOf ns = ns ∨ nsOf ns = 0) → (expBody b nsOf v).length ≤ 1 + n := by
  unfold readExpandedBody
  refine Uses.ite (fun _ => ?_) fun _ => Uses.ite (fun _ => ?_) fun _ => Uses.ite (fun _ => ?_) fun _ =>
    Uses.ite (fun _ => ?_) fun _ => Uses.ite (fun _ => ?_) fun _ => Uses.ite (fun _ => ?_) fun _ => Uses.fail
  · refine Uses.bind uses_byte fun id n h => Uses.ite (fun _ => Uses.pure ?_) fun _ => Uses.pure ?_
    · intro b nsOf _; simp only [expBody, len_u16]; omega
    · intro b nsOf hns
      simp only [expBody]
      have h0 : nsOf 0 = 0 := by rcases hns 0 with h | h <;> exact h
      rw [(len_numeric _ _ _).2.2 (small8 id) h0]; omega
  · refine Uses.bind uses_byte fun ns n h => Uses.bind uses_u16 fun id m h' => Uses.pure ?_
    intro b nsOf hns
    simp only [expBody]
    have h0 : (nsOf (BitVec.ofNat 16 ns.toNat)).toNat ≤ 255 := by
      rcases hns (BitVec.ofNat 16 ns.toNat) with h | h
      · rw [h]; exact small8' ns
      · rw [h]; simp
    have := (len_numeric b _ _).2.1 (small16 id) h0; omega
  · refine Uses.bind uses_u16 fun ns n h => Uses.bind uses_u32 fun id m h' => Uses.pure ?_
    intro b nsOf hns
    simp only [expBody]
    have := (len_numeric b (nsOf ns) id).1; omega
  · refine Uses.bind uses_u16 fun ns n h => Uses.bind uses_string fun id m h' => Uses.pure ?_
    intro b nsOf _
    simp only [expBody, List.length_append, len_byte, len_u16, len_string]; omega
  · refine Uses.bind uses_u16 fun ns n h => Uses.bind uses_guid fun id m h' => Uses.pure ?_
    intro b nsOf _
    simp only [expBody, List.length_append, len_byte, len_u16, len_guid]; omega
  · refine Uses.bind uses_u16 fun ns n h => Uses.bind uses_bytestring fun id m h' => Uses.pure ?_
    intro b nsOf _
    simp only [expBody, List.length_append, len_byte, len_u16, len_string]; omega

theorem expanded_eq (v : ExpandedNodeID) : writeExpandedNodeID v =
    expBody (expFlags v) (fun ns => if expFlags v &&& 0x80 ≠ 0 then 0 else ns) v.nodeID ++
    ((if expFlags v &&& 0x80 ≠ 0 then writeString v.uri else []) ++
     (if expFlags v &&& 0x40 ≠ 0 then writeU32 v.serverIndex else [])) := by
  unfold writeExpandedNodeID expBody
  rcases v with ⟨a, b, _ | (_ | _ | _ | _)⟩ <;> rfl

theorem flag_uri (v : ExpandedNodeID) : expFlags v &&& 0x80 ≠ 0 → v.uri ≠ [] := by
  intro h hu
  apply h
  rw [expFlags_cases, hu]
  split <;> decide
theorem flag_idx (v : ExpandedNodeID) : expFlags v &&& 0x40 ≠ 0 → v.serverIndex ≠ 0 := by
  intro h hu
  apply h
  rw [expFlags_cases, hu, if_pos rfl]
  by_cases hv : v.uri = []
  · rw [if_pos hv]; decide
  · rw [if_neg hv]; decide

theorem uses_expanded : Uses readExpandedNodeID fun v n => (writeExpandedNodeID v).length ≤ n := by
  unfold readExpandedNodeID
  refine Uses.bind uses_byte fun b n hn => Uses.bind (uses_expBody _) fun id m hm => ?_
  refine Uses.bind (P := fun (u : Bytes) k => u ≠ [] → k = 4 + u.length)
    (Uses.ite (fun _ => uses_string.mono fun _ _ h _ => h) fun _ => Uses.pure (by simp)) fun u k hk => ?_
  refine Uses.bind (P := fun (x : BitVec 32) j => x ≠ 0 → j = 4)
    (Uses.ite (fun _ => uses_u32.mono fun _ _ h _ => h) fun _ => Uses.pure (by simp)) fun x j hj => ?_
  refine Uses.pure ?_
  rw [expanded_eq]
  simp only [List.length_append]
  have h1 := hm (expFlags ⟨x, u, id⟩) (fun ns => if expFlags ⟨x, u, id⟩ &&& 0x80 ≠ 0 then 0 else ns)
    (fun ns => by by_cases hc : expFlags ⟨x, u, id⟩ &&& 0x80 ≠ 0 <;> simp [hc])
  have h2 : (if expFlags ⟨x, u, id⟩ &&& 0x80 ≠ 0 then writeString u else []).length ≤ k := by
    split
    · rename_i hf; rw [len_string, hk (flag_uri ⟨x, u, id⟩ hf)]; omega
    · simp
  have h3 : (if expFlags ⟨x, u, id⟩ &&& 0x40 ≠ 0 then writeU32 x else []).length ≤ j := by
    split
    · rename_i hf; rw [len_u32, hj (flag_idx ⟨x, u, id⟩ hf)]; omega
    · simp
  omega

theorem uses_leaf (t : LTy) : Uses (decLeaf t) fun l n => (encLeaf l).length ≤ n := by
  cases t
  case bool => exact Uses.map uses_bool fun b n h => by simp only [encLeaf, writeBool, List.length_singleton]; omega
  case sbyte => exact Uses.map (uses_bits 1) fun b n h => by simp only [encLeaf, len_bits]; omega
  case byte => exact Uses.map (uses_bits 1) fun b n h => by simp only [encLeaf, len_bits]; omega
  case int16 => exact Uses.map uses_u16 fun b n h => by simp only [encLeaf, len_u16]; omega
  case uint16 => exact Uses.map uses_u16 fun b n h => by simp only [encLeaf, len_u16]; omega
  case int32 => exact Uses.map uses_u32 fun b n h => by simp only [encLeaf, len_u32]; omega
  case uint32 => exact Uses.map uses_u32 fun b n h => by simp only [encLeaf, len_u32]; omega
  case float => exact Uses.map uses_u32 fun b n h => by simp only [encLeaf, len_u32]; omega
  case statusCode => exact Uses.map uses_u32 fun b n h => by simp only [encLeaf, len_u32]; omega
  case int64 => exact Uses.map uses_u64 fun b n h => by simp only [encLeaf, len_u64]; omega
  case uint64 => exact Uses.map uses_u64 fun b n h => by simp only [encLeaf, len_u64]; omega
  case double => exact Uses.map uses_u64 fun b n h => by simp only [encLeaf, len_u64]; omega
  case string => exact Uses.map uses_string fun b n h => by simp only [encLeaf, len_string]; omega
  case xmlElement => exact Uses.map uses_string fun b n h => by simp only [encLeaf, len_string]; omega
  case byteString => exact Uses.map uses_bytestring fun b n h => by simp only [encLeaf, len_string]; omega
  case dateTime => exact Uses.map uses_datetime fun b n h => by simp only [encLeaf, len_datetime]; omega
  case guid => exact Uses.map uses_guid fun b n h => by simp only [encLeaf, len_guid]; omega
  case nodeID => exact Uses.map uses_nodeID fun b n h => h
  case expandedNodeID => exact Uses.map uses_expanded fun b n h => h
  case qualifiedName =>
    refine Uses.map (P := fun q n => n = 6 + q.name.length)
      (Uses.bind uses_u16 fun _ _ h => Uses.bind uses_string fun _ _ h' => Uses.pure (by simp only; omega)) fun q n h => ?_
    simp only [encLeaf, writeQualifiedName, List.length_append, len_u16, len_string]; omega
  case localizedText =>
    have hs : ∀ c : Prop, ∀ _ : Decidable c, Uses (if c then readString else pure []) fun (u : Bytes) k => u ≠ [] → k = 4 + u.length :=
      fun c _ => Uses.ite (fun _ => uses_string.mono fun _ _ h _ => h) fun _ => Uses.pure (by simp)
    refine Uses.map (P := fun q n => (writeLocalizedText q).length ≤ n) ?_ fun q n h => h
    refine Uses.bind uses_byte fun b n hn => Uses.bind (hs _ _) fun u k hk => Uses.bind (hs _ _) fun x j hj => Uses.pure ?_
    unfold writeLocalizedText
    simp only [List.length_append, len_byte]
    have h1 : (if ltMask ⟨x, u⟩ &&& 1 ≠ 0 then writeString u else []).length ≤ k := by
      split
      · rename_i hf
        have : u ≠ [] := by
          rintro rfl; apply hf; unfold ltMask; simp only [ne_eq, not_true, if_false]; split <;> decide
        rw [len_string, hk this]; omega
      · simp
    have h2 : (if ltMask ⟨x, u⟩ &&& 2 ≠ 0 then writeString x else []).length ≤ j := by
      split
      · rename_i hf
        have : x ≠ [] := by
          rintro rfl; apply hf; unfold ltMask; simp only [ne_eq, not_true, if_false]; split <;> decide
        rw [len_string, hj this]; omega
      · simp
    omega

/-! ### Sequences -/

/-- The number of bytes a value is encoded in; nothing for one that is not. -/
def size (R : Reg) (v : Val) : Nat := ((enc R v).getD []).length

/-- What is wanted of a value that took `n` bytes. -/
def Fits (R : Reg) (v : Val) (n : Nat) : Prop := size R v ≤ n + 4 * Spec.unread v ∧ Spec.unread v ≤ n

/-- The same of a list of values, each by itself. -/
def AllFit (R : Reg) : List Val → Nat → Prop
  | [], _ => True
  | v :: vs, n => ∃ a b, a + b ≤ n ∧ Fits R v a ∧ AllFit R vs b

theorem enc_some {R : Reg} {v : Val} {e : Bytes} (h : enc R v = some e) : size R v = e.length := by simp [size, h]

theorem fit_list {R : Reg} : ∀ (vs left : List Val) (n : Nat), AllFit R (vs ++ left) n →
    (∀ e, encList R vs = some e → e.length ≤ n + 4 * Spec.unreadAll vs) ∧ Spec.unreadAll vs ≤ n ∧
    ∃ m, m ≤ n ∧ AllFit R left m ∧ (∀ e, encList R vs = some e → e.length + m ≤ n + 4 * Spec.unreadAll vs) ∧
      Spec.unreadAll vs + m ≤ n
  | [], left, n, h => by
    refine ⟨?_, by simp [Spec.unreadAll], n, Nat.le_refl _, h, ?_, by simp [Spec.unreadAll]⟩ <;>
    · intro e he; rw [encList] at he; cases he; simp
  | v :: vs, left, n, h => by
    obtain ⟨a, b, hab, ⟨h1, h2⟩, h3⟩ := h
    obtain ⟨g1, g2, m, g3, g4, g5, g6⟩ := fit_list vs left b h3
    have key : ∀ e, encList R (v :: vs) = some e → e.length + m ≤ n + 4 * Spec.unreadAll (v :: vs) := by
      intro e he
      rw [encList] at he
      cases h5 : enc R v with
      | none => rw [h5] at he; cases he
      | some e1 =>
        cases h6 : encList R vs with
        | none => rw [h5, h6] at he; cases he
        | some e2 =>
          rw [h5, h6] at he
          cases he
          have := g5 e2 h6
          have := enc_some h5
          rw [List.length_append, Spec.unreadAll]; omega
    exact ⟨fun e he => by have := key e he; omega, by rw [Spec.unreadAll]; omega, m, by omega, g4, key,
      by rw [Spec.unreadAll]; omega⟩

theorem fit_rows {R : Reg} : ∀ (rows : List (List Val)) (left : List Val) (n : Nat), AllFit R (rows.flatten ++ left) n →
    ∃ m, m ≤ n ∧ AllFit R left m ∧ (∀ e, encRows R rows = some e → e.length + m ≤ n + 4 * Spec.unreadRows rows) ∧
      Spec.unreadRows rows + m ≤ n
  | [], left, n, h => by
    refine ⟨n, Nat.le_refl _, h, ?_, by simp [Spec.unreadRows]⟩
    intro e he; rw [encRows] at he; cases he; simp
  | v :: vs, left, n, h => by
    rw [List.flatten_cons, List.append_assoc] at h
    obtain ⟨-, -, k, k1, k2, k3, k4⟩ := fit_list v _ n h
    obtain ⟨m, g3, g4, g5, g6⟩ := fit_rows vs left k k2
    refine ⟨m, by omega, g4, ?_, by rw [Spec.unreadRows]; omega⟩
    intro e he
    rw [encRows] at he
    cases h5 : encList R v with
    | none => rw [h5] at he; cases he
    | some e1 =>
      cases h6 : encRows R vs with
      | none => rw [h5, h6] at he; cases he
      | some e2 =>
        rw [h5, h6] at he
        cases he
        have := g5 e2 h6
        have := k3 e1 h5
        rw [List.length_append, Spec.unreadRows]; omega

theorem fit_cubes {R : Reg} : ∀ (cs : List (List (List Val))) (left : List Val) (n : Nat),
    AllFit R ((cs.map List.flatten).flatten ++ left) n →
    (∀ e, encCubes R cs = some e → e.length ≤ n + 4 * Spec.unreadCubes cs) ∧ Spec.unreadCubes cs ≤ n
  | [], left, n, h => by
    refine ⟨?_, by simp [Spec.unreadCubes]⟩
    intro e he; rw [encCubes] at he; cases he; simp
  | v :: vs, left, n, h => by
    rw [List.map_cons, List.flatten_cons, List.append_assoc] at h
    obtain ⟨k, k1, k2, k3, k4⟩ := fit_rows v _ n h
    obtain ⟨g5, g6⟩ := fit_cubes vs left k k2
    refine ⟨?_, by rw [Spec.unreadCubes]; omega⟩
    intro e he
    rw [encCubes] at he
    cases h5 : encRows R v with
    | none => rw [h5] at he; cases he
    | some e1 =>
      cases h6 : encCubes R vs with
      | none => rw [h5, h6] at he; cases he
      | some e2 =>
        rw [h5, h6] at he
        cases he
        have := g5 e2 h6
        have := k3 e1 h5
        rw [List.length_append, Spec.unreadCubes]; omega

theorem uses_fields {R : Reg} {f : Nat} (ih : ∀ ty, Uses (dec R f ty) (Fits R)) : ∀ tys : List Ty,
    Uses (decSeq (tys.map (dec R f))) (AllFit R)
  | [] => Uses.pure trivial
  | t :: ts => by
    rw [List.map_cons, decSeq]
    exact Uses.bind (ih t) fun v n hv => Uses.bind (uses_fields ih ts) fun vs m hvs =>
      Uses.pure ⟨n, m, by omega, hv, hvs⟩

theorem uses_many {R : Reg} {f : Nat} (ih : ∀ ty, Uses (dec R f ty) (Fits R)) (ty : Ty) (n : Nat) :
    Uses (decSeq (List.replicate n (dec R f ty))) (AllFit R) := by
  rw [← List.map_replicate]; exact uses_fields ih _

theorem uses_array {R : Reg} {f : Nat} (ih : ∀ ty, Uses (dec R f ty) (Fits R)) (ty : Ty) :
    Uses (decArray (dec R f ty)) fun vs n => 4 ≤ n ∧ AllFit R (vs.getD []) (n - 4) :=
  Uses.bind uses_i32 fun k n hn => Uses.ite (fun _ => Uses.pure ⟨by omega, trivial⟩)
    fun _ => Uses.map (uses_many ih ty _) fun vs m hvs => ⟨by omega, by
      have : n + m - 4 = m := by omega
      rw [this]; exact hvs⟩

theorem uses_seq32 : ∀ k, Uses (decSeq (List.replicate k readI32)) fun vs n => n = 4 * vs.length
  | 0 => Uses.pure rfl
  | k + 1 => by
    rw [List.replicate_succ, decSeq]
    exact Uses.bind uses_i32 fun v n hv => Uses.bind (uses_seq32 k) fun vs m hvs => Uses.pure (by
      rw [List.length_cons]; omega)

theorem uses_dims : Uses (decArray readI32) fun vs n => n = 4 + 4 * (vs.getD []).length :=
  Uses.bind uses_i32 fun k n hn => Uses.ite (fun _ => Uses.pure (by simp [hn]))
    fun _ => Uses.map (uses_seq32 _) fun vs m hvs => by simp only [Option.getD_some]; omega

/-! ### Values -/

theorem size_le {R : Reg} {v : Val} {k : Nat} (h : ∀ e, enc R v = some e → e.length ≤ k) : size R v ≤ k := by
  unfold size
  cases he : enc R v with
  | none => simp
  | some e => simpa using h e he

theorem len_writeDims2 (a b : Nat) : (writeDims [a, b]).length = 12 := by
  simp [writeDims, len_i32]
theorem len_writeDims3 (a b c : Nat) : (writeDims [a, b, c]).length = 16 := by
  simp [writeDims, len_i32]
theorem len_dims2 (rows : List (List α)) : (writeDims (dims2D rows)).length = 12 := by
  cases rows <;> exact len_writeDims2 _ _
theorem len_dims3 (rows : List (List (List α))) : (writeDims (dims3D rows)).length = 16 := by
  unfold dims3D
  split <;> exact len_writeDims3 _ _ _

theorem fits_array {R : Reg} (t : ATy) (vs : Option (List Val)) (n : Nat) (h : 4 ≤ n ∧ AllFit R (vs.getD []) (n - 4)) :
    Fits R (.varray t vs) (1 + n) := by
  cases vs with
  | none =>
    refine ⟨size_le fun e he => ?_, by simp [Spec.unread]⟩
    by_cases ht : t = .diag
    · subst ht; rw [enc] at he; cases he
    · have : enc R (.varray t none) = some (writeByte (t.code ||| 0x80) ++ writeI32 (-1)) := by
        cases t <;> first | exact absurd rfl ht | rw [enc] <;> simp
      rw [this] at he
      cases he
      simp only [List.length_append, len_byte, len_i32]; omega
  | some vs =>
    have := fit_list vs [] _ (by rw [List.append_nil]; exact h.2)
    refine ⟨size_le fun e he => ?_, by rw [Spec.unread]; omega⟩
    by_cases ht : t = .diag
    · subst ht; rw [enc] at he; cases he
    · cases hl : encList R vs with
      | none =>
        have : enc R (.varray t (some vs)) = none := by
          cases t <;> first | exact absurd rfl ht | (rw [enc, hl] <;> first | rfl | simp)
        rw [this] at he; cases he
      | some e1 =>
        have h2 : enc R (.varray t (some vs)) = some (writeByte (t.code ||| 0x80) ++ (writeI32 vs.length ++ e1)) := by
          cases t <;> first | exact absurd rfl ht | (rw [enc, hl] <;> first | rfl | simp)
        rw [h2] at he
        cases he
        have := this.1 e1 hl
        rw [Spec.unread]
        simp only [List.length_append, len_byte, len_i32]; omega

theorem fits_shape {R : Reg} (t : ATy) (vals : List Val) (dims : List Int) (v : Val) (n : Nat)
    (hv : AllFit R vals n) (h : shape t vals dims = .ok v) : Fits R v (1 + (4 + n + (4 + 4 * dims.length))) := by
  unfold shape at h
  split at h
  · split at h
    · cases h
    · split at h
      · rename_i rows left hr
        cases h
        obtain ⟨-, -, h3⟩ := splitRows_ok _ _ _ _ _ hr
        rw [h3] at hv
        obtain ⟨m, -, -, k3, k4⟩ := fit_rows rows left n hv
        refine ⟨size_le fun e he => ?_, by rw [Spec.unread]; omega⟩
        by_cases ht : t = .diag
        · subst ht; rw [enc] at he; cases he
        · cases hl : encRows R rows with
          | none =>
            have : enc R (.vmat t rows) = none := by
              cases t <;> first | exact absurd rfl ht | (rw [enc, hl] <;> first | rfl | simp)
            rw [this] at he; cases he
          | some e1 =>
            have h2 : enc R (.vmat t rows) = some (writeByte (t.code ||| 0x80 ||| 0x40) ++
                (writeI32 (countRows rows) ++ (e1 ++ writeDims (dims2D rows)))) := by
              cases t <;> first | exact absurd rfl ht | (rw [enc, hl] <;> first | rfl | simp)
            rw [h2] at he
            cases he
            have := k3 e1 hl
            rw [Spec.unread]
            simp only [List.length_append, len_byte, len_i32, len_dims2, List.length_cons, List.length_nil]; omega
      · cases h
      · cases h
  · split at h
    · cases h
    · split at h
      · rename_i cs hr
        cases h
        obtain ⟨-, -, -, left, h4⟩ := splitCubes_ok _ _ _ _ _ hr
        rw [h4] at hv
        obtain ⟨k3, k4⟩ := fit_cubes cs left n hv
        refine ⟨size_le fun e he => ?_, by rw [Spec.unread]; omega⟩
        by_cases ht : t = .diag
        · subst ht; rw [enc] at he; cases he
        · cases hl : encCubes R cs with
          | none =>
            have : enc R (.vcube t cs) = none := by
              cases t <;> first | exact absurd rfl ht | (rw [enc, hl] <;> first | rfl | simp)
            rw [this] at he; cases he
          | some e1 =>
            have h2 : enc R (.vcube t cs) = some (writeByte (t.code ||| 0x80 ||| 0x40) ++
                (writeI32 (cs.map countRows).sum ++ (e1 ++ writeDims (dims3D cs)))) := by
              cases t <;> first | exact absurd rfl ht | (rw [enc, hl] <;> first | rfl | simp)
            rw [h2] at he
            cases he
            have := k3 e1 hl
            rw [Spec.unread]
            simp only [List.length_append, len_byte, len_i32, len_dims3, List.length_cons, List.length_nil]; omega
      · cases h
      · cases h
  · cases h

theorem fits_vnull {R : Reg} {n : Nat} (h : 1 ≤ n) : Fits R .vnull n :=
  ⟨by simp only [size, enc, Option.getD_some, len_byte]; omega, by simp [Spec.unread]⟩

theorem uses_diag : ∀ f, Uses (readDiag f) fun d n => d = Diag.empty ∧ n = 1
  | 0 => Uses.crash
  | f + 1 => by
    unfold readDiag
    refine Uses.bind uses_byte fun b n hn => ?_
    have hc : ∀ {α : Type} (d : Dec α) (Q : α → Nat → Prop) (P : Diag → Nat → Prop), Uses d Q →
        Uses (do let _ ← d; Dec.crash) P := fun d Q P h => Uses.bind h fun _ _ _ => Uses.crash
    exact Uses.ite (fun _ => hc _ _ _ uses_u32) fun _ => Uses.ite (fun _ => hc _ _ _ uses_u32) fun _ =>
      Uses.ite (fun _ => hc _ _ _ uses_u32) fun _ => Uses.ite (fun _ => hc _ _ _ uses_u32) fun _ =>
      Uses.ite (fun _ => hc _ _ _ uses_string) fun _ => Uses.ite (fun _ => hc _ _ _ uses_u32) fun _ =>
      Uses.ite (fun _ => hc _ _ _ (uses_diag f)) fun _ => Uses.pure ⟨rfl, by omega⟩

theorem uses_variant {R : Reg} {f : Nat} (ih : ∀ ty, Uses (dec R f ty) (Fits R)) :
    Uses (decVariant (dec R f) f) (Fits R) := by
  unfold decVariant
  refine Uses.bind uses_byte fun b n hn => ?_
  subst hn
  refine Uses.ite (fun _ => ?_) fun _ => Uses.ite (fun _ => ?_) fun _ => ?_
  · refine Uses.ite (fun _ => Uses.pure (fits_vnull (by omega))) fun _ => ?_
    split
    · refine Uses.map (uses_leaf _) fun l m hl => ?_
      unfold mkScalar
      split
      · exact fits_vnull (by omega)
      · refine ⟨?_, by simp [Spec.unread]⟩
        simp only [size, enc, Option.getD_some, List.length_append, len_byte]; omega
    · refine Uses.map (ih .ext) fun v m hv => ?_
      unfold extToVariant
      split
      · rename_i tag fs
        obtain ⟨h1, h2⟩ := hv
        rw [Spec.unread] at h1 h2
        refine ⟨size_le fun e he => ?_, by rw [Spec.unread]; omega⟩
        rw [Spec.unread]
        rw [enc] at he
        have hx : enc R (.ext tag fs) = some (e.drop 1) ∧ 1 ≤ e.length := by
          rw [enc]
          cases h3 : R.idOf tag with
          | none => rw [h3] at he; cases he
          | some id =>
            rw [h3] at he
            cases h4 : Ty.allSupported (R.fieldsOf tag) with
            | false => rw [h4] at he; cases he
            | true =>
              rw [h4] at he
              cases h5 : encList R fs with
              | none => rw [h5] at he; cases he
              | some body =>
                rw [h5] at he
                cases he
                exact ⟨rfl, by simp [writeByte]⟩
        have := enc_some hx.1
        rw [List.length_drop] at this
        omega
      · exact fits_vnull (by omega)
    · refine Uses.map (ih .dataValue) fun v m hv => ⟨?_, by simp [Spec.unread]⟩
      simp [size, enc]
    · exact (ih .variant).mono fun v m hv => ⟨by have := hv.1; omega, by have := hv.2; omega⟩
    · refine Uses.map (uses_diag f) fun v m hv => ⟨?_, by simp [Spec.unread]⟩
      simp [size, enc]
    · exact Uses.fail
  · refine Uses.ite (fun _ => Uses.pure (fits_vnull (by omega))) fun _ => ?_
    split
    · exact Uses.map (uses_array ih _) fun vs m hvs => fits_array _ vs m hvs
    · exact Uses.fail
  · refine Uses.ite (fun _ => Uses.pure (fits_vnull (by omega))) fun _ => ?_
    split
    · rename_i t _
      refine Uses.bind (uses_array ih t.ty) fun vs m hvs => Uses.bind uses_dims fun ds k hds => ?_
      cases hs : shape t (vs.getD []) (ds.getD []) with
      | ok v =>
        refine Uses.pure ?_
        have := fits_shape t _ _ v _ hvs.2 hs
        have e : 1 + (4 + (m - 4) + (4 + 4 * (ds.getD []).length)) = 1 + (m + (k + 0)) := by have := hvs.1; omega
        rw [e] at this
        exact this
      | err => exact Uses.fail
      | panic => exact Uses.crash
    · exact Uses.fail

theorem uses_dvTail {R : Reg} (b : UInt8) (v : Val) (st0 : BitVec 32) (a : Nat) (hv : v.isVNull = true ∨ Fits R v a)
    (hst : st0 = 0 ∨ (v.isVNull = true ∧ st0 = 0x80110000)) :
    Uses (decDVTail b v st0) fun w n => Fits R w (1 + (a + n)) := by
  have ht : ∀ c : Prop, ∀ _ : Decidable c, Uses (if c then readDateTime else pure Time.zero) fun t n => t ≠ Time.zero → n = 8 :=
    fun c _ => Uses.ite (fun _ => uses_datetime.mono fun _ _ h _ => h) fun _ => Uses.pure (by simp)
  have hp : ∀ c : Prop, ∀ _ : Decidable c, Uses (if c then readU16 else pure 0) fun t n => t ≠ 0 → n = 2 :=
    fun c _ => Uses.ite (fun _ => uses_u16.mono fun _ _ h _ => h) fun _ => Uses.pure (by simp)
  have hs : Uses (if b &&& 2 ≠ 0 ∧ st0 = 0 then readU32 else pure st0) fun t n =>
      t ≠ 0 → n = 4 ∨ (v.isVNull = true ∧ t = 0x80110000) := by
    refine Uses.ite (fun _ => uses_u32.mono fun _ _ h _ => .inl h) fun _ => Uses.pure fun h => ?_
    rcases hst with hst | hst
    · exact absurd hst h
    · exact .inr hst
  unfold decDVTail
  refine Uses.bind hs fun st n1 h1 => Uses.bind (ht _ _) fun ts n2 h2 => Uses.bind (hp _ _) fun tp n3 h3 =>
    Uses.bind (ht _ _) fun us n4 h4 => Uses.bind (hp _ _) fun up n5 h5 => Uses.pure ?_
  have hu : Spec.unread v ≤ a := by
    rcases hv with hv | hv
    · have := isVNull_eq hv; subst this; simp [Spec.unread]
    · exact hv.2
  have htail : ∀ m : UInt8, m = dvMask (!v.isVNull) st ts tp us up → (writeDVTail m st ts tp us up).length ≤
      (if st ≠ 0 then 4 else 0) + (if ts ≠ Time.zero then 8 else 0) + (if tp ≠ 0 then 2 else 0) +
      (if us ≠ Time.zero then 8 else 0) + (if up ≠ 0 then 2 else 0) := by
    rintro m rfl
    obtain ⟨-, m2, m3, m4, m5, m6⟩ := dvMask_bits (!v.isVNull) st ts tp us up
    unfold writeDVTail
    simp only [List.length_append, m2, m3, m4, m5, m6]
    have q : ∀ (c : Prop) [Decidable c] (x : Bytes) (k : Nat), x.length = k →
        (if c then x else []).length = if c then k else 0 := by
      intro c _ x k hx
      split <;> simp [hx]
    rw [q _ _ 4 (len_u32 _), q _ _ 8 (len_datetime _), q _ _ 2 (len_u16 _), q _ _ 8 (len_datetime _),
      q _ _ 2 (len_u16 _)]
    omega
  have l2 : (if ts ≠ Time.zero then 8 else 0) ≤ n2 := by split; (have := h2 ‹_›; omega); omega
  have l3 : (if tp ≠ 0 then 2 else 0) ≤ n3 := by split; (have := h3 ‹_›; omega); omega
  have l4 : (if us ≠ Time.zero then 8 else 0) ≤ n4 := by split; (have := h4 ‹_›; omega); omega
  have l5 : (if up ≠ 0 then 2 else 0) ≤ n5 := by split; (have := h5 ‹_›; omega); omega
  have l1 : (if st ≠ 0 then 4 else 0) ≤ n1 + 4 * (if v.isVNull = true ∧ st = 0x80110000 then 1 else 0) := by
    by_cases hz : st = 0
    · simp [hz]
    · rw [if_pos hz]
      rcases h1 hz with h | h
      · omega
      · rw [if_pos h]; omega
  have ht' := htail _ rfl
  refine ⟨size_le fun e he => ?_, ?_⟩
  · rw [enc] at he
    rw [Spec.unread]
    by_cases hn : v.isVNull = true
    · simp only [hn, if_true] at he
      cases he
      rw [hn] at ht'
      simp only [List.length_append, len_byte]
      simp only [hn, true_and] at l1 ⊢
      omega
    · simp only [hn] at he
      have hv : Fits R v a := by simpa [hn] using hv
      cases h6 : enc R v with
      | none => rw [h6] at he; cases he
      | some e1 =>
        rw [h6] at he
        cases he
        have := hv.1
        rw [enc_some h6] at this
        have hn' : v.isVNull = false := by simpa using hn
        rw [hn'] at ht'
        simp only [List.length_append, len_byte]
        simp only [hn', false_and, if_false, Bool.false_eq_true] at l1 ⊢
        omega
  · rw [Spec.unread]
    split <;> omega

theorem uses_dataValue {R : Reg} {f : Nat} (ih : ∀ ty, Uses (dec R f ty) (Fits R)) :
    Uses (decDataValue (dec R f)) (Fits R) := by
  unfold decDataValue
  refine Uses.bind uses_byte fun b n hn => Uses.ite (fun _ => ?_) fun _ => ?_
  · subst hn
    refine ⟨fun s v r hr => ?_, fun s l hr => ?_⟩
    · simp only at hr
      split at hr
      · rename_i v' s' h'
        obtain ⟨l1, p1⟩ := (ih .variant).1 s v' s' h'
        obtain ⟨l2, p2⟩ := (uses_dvTail b v' 0 _ (.inr p1) (.inl rfl)).1 s' v r hr
        refine ⟨by omega, ?_⟩
        have : s.length - s'.length + (s'.length - r.length) = s.length - r.length := by omega
        rw [this] at p2; exact p2
      · rename_i left h'
        have l1 := (ih .variant).2 s left h'
        obtain ⟨l2, p1, p2⟩ := (uses_dvTail (R := R) b .vnull badDataTypeIDUnknown 0 (.inl rfl) (.inr ⟨rfl, rfl⟩)).1 left v r hr
        exact ⟨by omega, by omega, by omega⟩
      · cases hr
    · simp only at hr
      split at hr
      · rename_i v' s' h'
        obtain ⟨l1, p1⟩ := (ih .variant).1 s v' s' h'
        have := (uses_dvTail b v' 0 _ (.inr p1) (.inl rfl)).2 s' l hr
        omega
      · rename_i left h'
        have l1 := (ih .variant).2 s left h'
        have := (uses_dvTail (R := R) b .vnull badDataTypeIDUnknown 0 (.inl rfl) (.inr ⟨rfl, rfl⟩)).2 left l hr
        omega
      · cases hr
  · subst hn
    exact (uses_dvTail b .vnull 0 0 (.inl rfl) (.inl rfl)).mono fun w m h => by rw [Nat.zero_add] at h; exact h

theorem two_nodeID (v : Option NodeID) : 2 ≤ (writeNodeID v).length := by
  cases v with
  | none => exact Nat.le_refl 2
  | some id => cases id <;> simp only [writeNodeID, writeNumeric] <;> (try split) <;> (try split) <;>
      simp [len_byte, len_u16, len_u32, len_string, len_guid] <;> omega

theorem uses_ext {R : Reg} {f : Nat} (hR : Spec.ShortId R) (ih : ∀ ty, Uses (dec R f ty) (Fits R)) :
    Uses (decExt R (dec R f)) (Fits R) := by
  unfold decExt
  refine Uses.bind uses_nodeID fun id n hid => Uses.bind uses_byte fun b m hm => ?_
  subst hm
  have hnil : ∀ k, 3 ≤ k → Fits R .extNil k := fun k hk => by
    refine ⟨?_, by simp [Spec.unread]⟩
    have : size R .extNil = 3 := by simp only [size, enc]; rfl
    omega
  have h2 := two_nodeID id
  refine Uses.ite (fun _ => Uses.pure (hnil _ (by omega))) fun _ => Uses.ite (fun _ => ?_) fun _ => ?_
  · split
    · rename_i tag htag
      obtain ⟨id', hid', hlen⟩ := hR id tag htag
      refine Uses.bind uses_i32 fun k n4 h4 => Uses.ite (fun _ => ?_) fun _ => Uses.fail
      refine Uses.bind (ih _) fun v m hv => ?_
      split
      · rename_i fs
        refine Uses.pure ?_
        obtain ⟨g1, g2⟩ := hv
        rw [Spec.unread] at g1 g2
        refine ⟨size_le fun e he => ?_, by rw [Spec.unread]; omega⟩
        rw [enc, hid'] at he
        rw [Spec.unread]
        cases h4 : Ty.allSupported (R.fieldsOf tag) with
        | false => rw [h4] at he; cases he
        | true =>
          rw [h4] at he
          cases h5 : encList R fs with
          | none => rw [h5] at he; cases he
          | some body =>
            rw [h5] at he
            cases he
            have h6 : size R (.struct fs) = body.length := enc_some (by rw [enc]; exact h5)
            simp only [List.length_append, len_byte, len_u32]
            omega
      · exact Uses.fail
    · exact Uses.bind uses_bytearray fun _ _ _ => Uses.pure (hnil _ (by omega))
  · exact Uses.ite (fun _ => Uses.bind uses_string fun _ _ _ => Uses.pure (hnil _ (by omega))) fun _ => Uses.fail

theorem fits_struct {R : Reg} (vs : List Val) (n : Nat) (h : AllFit R vs n) : Fits R (.struct vs) n := by
  obtain ⟨h1, h2, -⟩ := fit_list vs [] n (by rw [List.append_nil]; exact h)
  refine ⟨size_le fun e he => ?_, by rw [Spec.unread]; exact h2⟩
  rw [enc] at he
  rw [Spec.unread]; exact h1 e he

theorem fits_slice {R : Reg} (vs : List Val) (n : Nat) (h : AllFit R vs n) : Fits R (.slice vs) (4 + n) := by
  obtain ⟨h1, h2, -⟩ := fit_list vs [] n (by rw [List.append_nil]; exact h)
  refine ⟨size_le fun e he => ?_, by rw [Spec.unread]; omega⟩
  rw [Spec.unread]
  cases vs with
  | nil => rw [enc] at he; cases he; rw [List.length_append, len_i32, List.length_nil]; omega
  | cons v vs =>
    rw [enc] at he
    cases h5 : encList R (v :: vs) with
    | none => rw [h5] at he; cases he
    | some body =>
      rw [h5] at he
      cases he
      have := h1 _ h5
      rw [List.length_append, len_i32]; omega

theorem uses_dec {R : Reg} (hR : Spec.ShortId R) : ∀ f ty, Uses (dec R f ty) (Fits R)
  | 0, ty => by unfold dec; exact Uses.crash
  | f + 1, ty => by
    have ih := uses_dec hR f
    cases ty <;> rw [dec]
    · refine Uses.map (uses_leaf _) fun l n h => ⟨?_, by simp [Spec.unread]⟩
      simp only [size, enc, Option.getD_some]; omega
    · refine Uses.map uses_bytearray fun l n h => ⟨?_, by simp [Spec.unread]⟩
      simp only [size, enc, Option.getD_some, writeByteArray]
      split
      · rw [len_i32]; omega
      · rw [List.length_append, len_i32]; rw [Option.getD_some] at h; omega
    · exact Uses.map (uses_fields ih _) fun vs n h => fits_struct vs n h
    · exact Uses.map (uses_fields ih _) fun vs n h => fits_struct vs n h
    · refine Uses.bind uses_i32 fun k n h => Uses.ite (fun _ => Uses.pure ?_) fun _ => Uses.map (uses_many ih _ _) fun vs m hvs => ?_
      · subst h; exact fits_slice [] 0 trivial
      · subst h; exact fits_slice vs m hvs
    · exact uses_variant ih
    · exact uses_dataValue ih
    · exact uses_ext hR ih
    · refine Uses.map (uses_diag f) fun d n h => ⟨?_, by simp [Spec.unread]⟩
      have : size R (.diag d) = 1 := by rw [h.1]; simp only [size, enc]; rfl
      omega

/-! ### C148 -/

/-- Whatever bytes a decoder accepts, the value is sent on in no more bytes than it was read from, but for four bytes for
each DataValue in it whose value could not be read: these are for the status that says so. -/
theorem C148_no_longer_partial (R : Reg) (hR : Spec.ShortId R) (f : Nat) (ty : Ty) (s rest : Bytes) (v : Val)
    (h : (dec R f ty).run s = .ok (v, rest)) (e : Bytes) (he : enc R v = some e) :
    e.length + rest.length ≤ s.length + 4 * Spec.unread v := by
  obtain ⟨h1, h2, -⟩ := (uses_dec hR f ty).1 s v rest h
  rw [enc_some he] at h2
  omega

/-- So a value in which nothing was unreadable does not grow at all. -/
theorem C148_no_longer (R : Reg) (hR : Spec.ShortId R) (f : Nat) (ty : Ty) (s rest : Bytes) (v : Val)
    (h : (dec R f ty).run s = .ok (v, rest)) (e : Bytes) (he : enc R v = some e) (hu : Spec.unread v = 0) :
    e.length ≤ s.length - rest.length := by
  have := C148_no_longer_partial R hR f ty s rest v h e he
  omega

/-- And no peer makes a relay send more than five times what it has received. -/
theorem C148_five_times (R : Reg) (hR : Spec.ShortId R) (f : Nat) (ty : Ty) (s rest : Bytes) (v : Val)
    (h : (dec R f ty).run s = .ok (v, rest)) (e : Bytes) (he : enc R v = some e) :
    e.length ≤ 5 * (s.length - rest.length) := by
  obtain ⟨h1, h2, h3⟩ := (uses_dec hR f ty).1 s v rest h
  rw [enc_some he] at h2
  omega

/-- The encoder writes the shortest form there is: of all the bytes that are read as a value that keeps, at any depth of
the stack, none are fewer than those it writes, and these are among them. -/
theorem C148_shortest_partial (R : Reg) (hR : Spec.ShortId R) (hP : R.Paired) (f : Nat) (ty : Ty) (s rest : Bytes) (v : Val)
    (h : (dec R f ty).run s = .ok (v, rest)) (hk : v.Keeps) (hu : Spec.unread v = 0) :
    ∃ e, enc R v = some e ∧ (dec R (f + 1) ty).run e = .ok (v, []) ∧
      ∀ g s', (dec R g ty).run s' = .ok (v, []) → e.length ≤ s'.length := by
  obtain ⟨e, he, hr⟩ := SendOn.C147_sent_on_partial R hP f ty s rest v h hk
  refine ⟨e, he, ?_, fun g s' hs => ?_⟩
  · have := hr (f + 1) (by omega) []
    rwa [List.append_nil] at this
  · have := C148_no_longer R hR g ty s' [] v hs e he hu
    simpa using this

theorem len_withNs (n : NodeID) (k : BitVec 16) (h : k.toNat ≤ n.ns.toNat) :
    (writeNodeID (some (n.withNs k))).length ≤ (writeNodeID (some n)).length := by
  cases n with
  | numeric ns id =>
    simp only [NodeID.ns] at h
    simp only [NodeID.withNs, writeNodeID, writeNumeric]
    have hz : ns = 0 → k = 0 := by
      rintro rfl
      apply BitVec.eq_of_toNat_eq
      simpa using h
    by_cases h1 : id.toNat ≤ 255 ∧ k = 0
    · rw [if_pos h1]
      split
      · simp [len_byte]
      · split <;> simp [len_byte, len_u16, len_u32]
    · have h1' : ¬ (id.toNat ≤ 255 ∧ ns = 0) := fun hc => h1 ⟨hc.1, hz hc.2⟩
      rw [if_neg h1, if_neg h1']
      by_cases h2 : id.toNat ≤ 65535 ∧ k.toNat ≤ 255
      · rw [if_pos h2]
        split <;> simp [len_byte, len_u16, len_u32]
      · have h2' : ¬ (id.toNat ≤ 65535 ∧ ns.toNat ≤ 255) := fun hc => h2 ⟨hc.1, by omega⟩
        rw [if_neg h2, if_neg h2']
        simp [len_byte, len_u16, len_u32]
  | string ns id => simp [NodeID.withNs, writeNodeID, len_byte, len_u16]
  | guid ns id => simp [NodeID.withNs, writeNodeID, len_byte, len_u16]
  | opq ns id => simp [NodeID.withNs, writeNodeID, len_byte, len_u16]

/-- The registry of the program satisfies the hypothesis, after any history of registrations and under every table of
namespaces whatever: where the table has a URI twice, a type is sent with the lower of the indexes. -/
theorem C148_registry (cs : List (Nat × ExpandedNodeID)) (uris : List Bytes) (fields : Nat → List Ty) :
    Spec.ShortId (Namespaces.regOf (Registry.run Registry.init cs) uris fields) := by
  intro n tag h
  have h : (Registry.run Registry.init cs).types (toExpanded n uris) = some tag := h
  have hi := (Registry.C15_registry_bijection cs _ _).mp h
  refine ⟨toNodeID (toExpanded n uris) uris, ?_, ?_⟩
  · show ((Registry.run Registry.init cs).ids tag).map (fun id => toNodeID id uris) = _
    rw [hi, Option.map_some]
  · cases n with
    | none => exact Nat.le_refl _
    | some n =>
      simp only [toExpanded]
      split
      · rename_i hlt
        cases hu : uris[n.ns.toNat]? with
        | none => exact Nat.le_refl _
        | some u =>
          simp only [toNodeID]
          split
          · exact len_withNs n 0 (by simp)
          · cases hx : uriIndex u uris 0 with
            | none => exact absurd (List.mem_of_getElem? hu) (uriIndex_none.mp hx)
            | some i =>
              obtain ⟨-, -, h3⟩ := uriIndex_some hx
              have hle : i ≤ n.ns.toNat := by
                apply Nat.le_of_not_lt
                intro hc
                exact h3 _ (by omega) hu
              have hw : (n.withNs 0).withNs (BitVec.ofNat 16 i) = n.withNs (BitVec.ofNat 16 i) := by cases n <;> rfl
              simp only [Option.map_some, hw]
              refine len_withNs n _ ?_
              rw [BitVec.toNat_ofNat]
              exact Nat.le_trans (Nat.mod_le _ _) hle
      · exact Nat.le_refl _

theorem demo_short : Spec.ShortId SendOn.demo := C148_registry _ _ _

/-- A table with a URI at 1 and again at 300: the type is received with the long form of the id, 7 bytes, and sent on with
the short one, 4 bytes. -/
example : let uris := [117] :: (List.replicate 300 [112])
    toNodeID (toExpanded (some (.numeric 300 5001)) uris) uris = some (.numeric 1 5001) ∧
    (writeNodeID (some (.numeric 300 5001))).length = 7 ∧ (writeNodeID (some (.numeric 1 5001))).length = 4 := by
  decide +kernel

/-- A DataValue with a structure in it, read from 26 bytes and sent on in 23. -/
example : ∃ v e, (dec SendOn.demo 8 .dataValue).run (SendOn.wordy ++ [1, 2]) = .ok (v, [1, 2]) ∧
    enc SendOn.demo v = some e ∧ SendOn.wordy.length = 26 ∧ e.length = 23 ∧ Spec.unread v = 0 :=
  ⟨.dv (.vext 1 [.leaf (.b32 7), .leaf (.str [])]) 0x80000000 Time.zero 0 Time.zero 0, _, rfl, rfl, rfl, rfl,
    by simp [Spec.unread, Spec.unreadAll, Val.isVNull]⟩

/-- That is the shortest form of it. -/
example : ∃ e, enc SendOn.demo (.dv (.vext 1 [.leaf (.b32 7), .leaf (.str [])]) 0x80000000 Time.zero 0 Time.zero 0) = some e ∧
    ∀ g s', (dec SendOn.demo g .dataValue).run s' =
      .ok (.dv (.vext 1 [.leaf (.b32 7), .leaf (.str [])]) 0x80000000 Time.zero 0 Time.zero 0, []) → e.length ≤ s'.length := by
  obtain ⟨e, h1, -, h2⟩ := C148_shortest_partial SendOn.demo demo_short SendOn.demo_paired 8 .dataValue (SendOn.wordy ++ [1, 2])
    [1, 2] (.dv (.vext 1 [.leaf (.b32 7), .leaf (.str [])]) 0x80000000 Time.zero 0 Time.zero 0) rfl
    (by simp [Val.Keeps, Val.AllKeep, Leaf.Keeps, Time.Early, Time.zero]) (by simp [Spec.unread, Spec.unreadAll, Val.isVNull])
  exact ⟨e, h1, h2⟩

/-- A matrix of 2 × 1 bytes with a byte left over, sent on without it. -/
example : ∃ v e, (dec SendOn.demo 8 .variant).run
      [0xC3, 3, 0, 0, 0, 7, 8, 9, 2, 0, 0, 0, 2, 0, 0, 0, 1, 0, 0, 0] = .ok (v, []) ∧
    enc SendOn.demo v = some e ∧ e.length = 19 := ⟨_, _, rfl, rfl, rfl⟩

/-- The DataValue whose value could not be read. -/
def bad : Val := .dv .vnull 0x80110000 Time.zero 0 Time.zero 0

theorem read_bad (R : Reg) (f : Nat) (rest : Bytes) :
    (dec R (f + 2) .dataValue).run (1 :: 26 :: rest) = .ok (bad, rest) := by
  rfl

theorem read_bads (R : Reg) (f : Nat) (rest : Bytes) : ∀ k,
    (decSeq (List.replicate k (dec R (f + 2) .dataValue))).run ((List.replicate k [1, 26]).flatten ++ rest) =
      .ok (List.replicate k bad, rest)
  | 0 => rfl
  | k + 1 => by
    rw [List.replicate_succ, List.replicate_succ, List.replicate_succ, decSeq, List.flatten_cons]
    simp only [Bind.bind, List.cons_append, List.nil_append, read_bad, read_bads R f rest k]
    rfl

/-- Values grow where they could not be read: of a DataValue with a mask and a type that is not known, two bytes, five are
sent, with the status that the reader has put in; and there may be any number of them. -/
theorem C148_unread_fails (R : Reg) (f k : Nat) (rest : Bytes) (hk : 0 < k) :
    (decSeq (List.replicate k (dec R (f + 2) .dataValue))).run ((List.replicate k [1, 26]).flatten ++ rest) =
      .ok (List.replicate k bad, rest) ∧
    ((List.replicate k ([1, 26] : Bytes)).flatten).length = 2 * k ∧
    ∃ e, encList R (List.replicate k bad) = some e ∧ e.length = 5 * k ∧ 2 * k < e.length := by
  refine ⟨read_bads R f rest k, by simp; omega, ?_⟩
  have h1 : ∀ k, encList R (List.replicate k bad) = some (List.replicate k [2, 0, 0, 0x11, 0x80]).flatten := by
    intro k
    induction k with
    | zero => rw [List.replicate_zero, encList]; rfl
    | succ k ih =>
      rw [List.replicate_succ, encList, ih, List.replicate_succ, List.flatten_cons]
      rfl
  refine ⟨_, h1 k, by simp; omega, by simp; omega⟩

/-- Five times is reached: a mask alone, at the end of a message. -/
theorem C148_mask_fails (R : Reg) : ∃ v e, (dec R 2 .dataValue).run [1] = .ok (v, []) ∧ enc R v = some e ∧
    e.length = 5 := ⟨bad, [2, 0, 0, 0x11, 0x80], rfl, rfl, rfl⟩

end Opcua.Room
