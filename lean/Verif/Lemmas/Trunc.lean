import Verif.Lemmas.ValueRT

namespace Opcua

/-! ### Decoders that cannot panic -/

def NoPanic (d : Dec α) : Prop := ∀ s, d.run s ≠ .panic

theorem NoPanic.pure (v : α) : NoPanic (pure v : Dec α) := by intro s; simp
theorem NoPanic.fail : NoPanic (Dec.fail : Dec α) := by intro s; simp
theorem NoPanic.readN (n : Nat) : NoPanic (readN n) := by
  intro s; simp only [Opcua.readN]; split <;> simp
theorem NoPanic.bind {d : Dec α} {f : α → Dec β} (h1 : NoPanic d) (h2 : ∀ a, NoPanic (f a)) :
    NoPanic (d >>= f) := by
  intro s
  rw [Dec.bind_apply]
  split
  · exact h2 _ _
  · simp
  · rename_i h; exact absurd h (h1 s)
theorem NoPanic.map {d : Dec α} (f : α → β) (h : NoPanic d) : NoPanic (f <$> d) :=
  NoPanic.bind h fun a => NoPanic.pure (f a)
theorem NoPanic.ite {p : Prop} [Decidable p] {d e : Dec α} (h1 : NoPanic d) (h2 : NoPanic e) :
    NoPanic (if p then d else e) := by
  split <;> assumption
theorem NoPanic.decSeq {ds : List (Dec α)} (h : ∀ d ∈ ds, NoPanic d) : NoPanic (decSeq ds) := by
  induction ds with
  | nil => exact NoPanic.pure _
  | cons d ds ih =>
    exact NoPanic.bind (h d (by simp)) fun _ =>
      NoPanic.bind (ih fun d hd => h d (by simp [hd])) fun _ => NoPanic.pure _
theorem NoPanic.decArray {d : Dec α} (h : NoPanic d) (h32 : NoPanic readI32) : NoPanic (decArray d) :=
  NoPanic.bind h32 fun _ => NoPanic.ite (NoPanic.pure _) (NoPanic.map _ (NoPanic.decSeq (by
    intro d' hd'; rw [List.eq_of_mem_replicate hd']; exact h)))

theorem np_bits (n : Nat) : NoPanic (readBits n) := NoPanic.bind (NoPanic.readN n) fun _ => NoPanic.pure _
theorem np_byte : NoPanic readByte := NoPanic.bind (NoPanic.readN 1) fun l => by
  cases l
  · exact NoPanic.fail
  · exact NoPanic.pure _
theorem np_bool : NoPanic readBool := NoPanic.bind np_byte fun _ => NoPanic.pure _
theorem np_u16 : NoPanic readU16 := np_bits 2
theorem np_u32 : NoPanic readU32 := np_bits 4
theorem np_u64 : NoPanic readU64 := np_bits 8
theorem np_i32 : NoPanic readI32 := NoPanic.bind np_u32 fun _ => NoPanic.pure _
theorem np_string : NoPanic readString :=
  NoPanic.bind np_i32 fun _ => NoPanic.ite (NoPanic.pure _) (NoPanic.readN _)
theorem np_bytestring : NoPanic readByteString :=
  NoPanic.bind np_i32 fun _ => NoPanic.ite (NoPanic.pure _) (NoPanic.readN _)
theorem np_bytearray : NoPanic readByteArray :=
  NoPanic.bind np_i32 fun _ => NoPanic.ite (NoPanic.pure _) (NoPanic.map _ (NoPanic.readN _))
theorem np_datetime : NoPanic readDateTime := NoPanic.bind np_u64 fun _ => NoPanic.pure _
theorem np_guid : NoPanic readGuid := by
  refine NoPanic.bind (NoPanic.readN 8) fun l => ?_
  split
  · refine NoPanic.bind (NoPanic.readN 8) fun l' => ?_
    split
    · exact NoPanic.pure _
    · exact NoPanic.fail
  · exact NoPanic.fail
theorem np_nodeID : NoPanic readNodeID := by
  refine NoPanic.bind np_byte fun b => ?_
  refine NoPanic.ite (NoPanic.bind np_byte fun _ => NoPanic.ite (NoPanic.pure _) (NoPanic.pure _)) ?_
  refine NoPanic.ite (NoPanic.bind np_byte fun _ => NoPanic.bind np_u16 fun _ => NoPanic.pure _) ?_
  refine NoPanic.ite (NoPanic.bind np_u16 fun _ => NoPanic.bind np_u32 fun _ => NoPanic.pure _) ?_
  refine NoPanic.ite (NoPanic.bind np_u16 fun _ => NoPanic.bind np_string fun _ =>
    NoPanic.ite (NoPanic.pure _) (NoPanic.pure _)) ?_
  refine NoPanic.ite (NoPanic.bind np_u16 fun _ => NoPanic.bind np_guid fun _ =>
    NoPanic.ite (NoPanic.pure _) (NoPanic.pure _)) ?_
  refine NoPanic.ite (NoPanic.bind np_u16 fun _ => NoPanic.bind np_bytestring fun _ =>
    NoPanic.ite (NoPanic.pure _) (NoPanic.pure _)) ?_
  exact NoPanic.fail
theorem np_expBody (t : UInt8) : NoPanic (readExpandedBody t) := by
  refine NoPanic.ite (NoPanic.bind np_byte fun _ => NoPanic.ite (NoPanic.pure _) (NoPanic.pure _)) ?_
  refine NoPanic.ite (NoPanic.bind np_byte fun _ => NoPanic.bind np_u16 fun _ => NoPanic.pure _) ?_
  refine NoPanic.ite (NoPanic.bind np_u16 fun _ => NoPanic.bind np_u32 fun _ => NoPanic.pure _) ?_
  refine NoPanic.ite (NoPanic.bind np_u16 fun _ => NoPanic.bind np_string fun _ => NoPanic.pure _) ?_
  refine NoPanic.ite (NoPanic.bind np_u16 fun _ => NoPanic.bind np_guid fun _ => NoPanic.pure _) ?_
  refine NoPanic.ite (NoPanic.bind np_u16 fun _ => NoPanic.bind np_bytestring fun _ => NoPanic.pure _) ?_
  exact NoPanic.fail
theorem np_expanded : NoPanic readExpandedNodeID :=
  NoPanic.bind np_byte fun _ => NoPanic.bind (np_expBody _) fun _ =>
    NoPanic.bind (NoPanic.ite np_string (NoPanic.pure _)) fun _ =>
      NoPanic.bind (NoPanic.ite np_u32 (NoPanic.pure _)) fun _ => NoPanic.pure _
theorem np_qualifiedName : NoPanic readQualifiedName :=
  NoPanic.bind np_u16 fun _ => NoPanic.bind np_string fun _ => NoPanic.pure _
theorem np_localizedText : NoPanic readLocalizedText :=
  NoPanic.bind np_byte fun _ => NoPanic.bind (NoPanic.ite np_string (NoPanic.pure _)) fun _ =>
    NoPanic.bind (NoPanic.ite np_string (NoPanic.pure _)) fun _ => NoPanic.pure _
theorem np_leaf (t : LTy) : NoPanic (decLeaf t) := by
  cases t <;> first
    | exact NoPanic.map _ np_bool
    | exact NoPanic.map _ (np_bits _)
    | exact NoPanic.map _ np_u16
    | exact NoPanic.map _ np_u32
    | exact NoPanic.map _ np_u64
    | exact NoPanic.map _ np_string
    | exact NoPanic.map _ np_bytestring
    | exact NoPanic.map _ np_datetime
    | exact NoPanic.map _ np_guid
    | exact NoPanic.map _ np_nodeID
    | exact NoPanic.map _ np_expanded
    | exact NoPanic.map _ np_qualifiedName
    | exact NoPanic.map _ np_localizedText

/-! ### Truncated encodings -/

/-- On every proper prefix of `e` the decoder returns an error. -/
def Trunc (e : Bytes) (d : Dec α) : Prop :=
  ∀ p q, e = p ++ q → q ≠ [] → ∃ left, d.run p = .err left

theorem Trunc.of_local {e : Bytes} {d : Dec α} {v : α} (hr : RT e d v) (hl : Local d)
    (hp : NoPanic d) : Trunc e d := by
  intro p q he hq
  cases h : d.run p with
  | ok a => exact absurd h (hl.truncated hr p q he hq a.1 a.2)
  | err l => exact ⟨l, rfl⟩
  | panic => exact absurd h (hp p)

theorem Trunc.nil (d : Dec α) : Trunc [] d := by
  intro p q he hq
  have := List.append_eq_nil_iff.mp he.symm
  exact absurd this.2 hq

theorem Trunc.bind {e1 e2 : Bytes} {d : Dec α} {f : α → Dec β} {v : α} (h1 : RT e1 d v)
    (t1 : Trunc e1 d) (t2 : Trunc e2 (f v)) : Trunc (e1 ++ e2) (d >>= f) := by
  intro p q he hq
  rcases List.append_eq_append_iff.mp he with ⟨a, ha, hb⟩ | ⟨c, hc, hd⟩
  · obtain ⟨l, hl⟩ := t2 a q hb hq
    exact ⟨l, by rw [Dec.bind_apply, ha, h1]; exact hl⟩
  · by_cases hc0 : c = []
    · subst hc0
      rw [List.append_nil] at hc
      rw [List.nil_append] at hd
      subst hc
      obtain ⟨l, hl⟩ := t2 [] q (by rw [hd]; rfl) hq
      exact ⟨l, by rw [Dec.bind_apply]; have := h1 []; rw [List.append_nil] at this; rw [this]; exact hl⟩
    · obtain ⟨l, hl⟩ := t1 p c hc hc0
      exact ⟨l, by rw [Dec.bind_apply, hl]⟩

theorem Trunc.bind_nil {e : Bytes} {d : Dec α} (f : α → Dec β) (t : Trunc e d) :
    Trunc e (d >>= f) := by
  intro p q he hq
  obtain ⟨l, hl⟩ := t p q he hq
  exact ⟨l, by rw [Dec.bind_apply, hl]⟩

theorem Trunc.map {e : Bytes} {d : Dec α} (f : α → β) (t : Trunc e d) : Trunc e (f <$> d) :=
  Trunc.bind_nil _ t

theorem tr_byte (b : UInt8) : Trunc (writeByte b) readByte :=
  Trunc.of_local (rt_byte b) local_byte np_byte
theorem tr_u32 (b : BitVec 32) : Trunc (writeU32 b) readU32 :=
  Trunc.of_local (rt_u32 b) local_u32 np_u32
theorem tr_i32 (n : Int) (h : -2 ^ 31 ≤ n ∧ n < 2 ^ 31) : Trunc (writeI32 n) readI32 :=
  Trunc.of_local (rt_i32 n h) local_i32 np_i32
theorem tr_nodeID (v : Option NodeID) (h : ∀ n, v = some n → n.Fits) :
    Trunc (writeNodeID v) readNodeID := Trunc.of_local (rt_nodeID v h) local_nodeID np_nodeID
theorem tr_leaf (t : LTy) (l : Leaf) (ht : l.hasTy t) (hf : l.Fits) : Trunc (encLeaf l) (decLeaf t) :=
  Trunc.of_local (rt_leaf t l ht hf) (local_leaf t) (np_leaf t)

theorem Trunc.decArray {d : Dec α} {e : Bytes} (n : Nat) (hn : n < 2 ^ 31)
    (h : Trunc e (Opcua.decSeq (List.replicate n d))) :
    Trunc (writeI32 n ++ e) (Opcua.decArray d) := by
  refine Trunc.bind (rt_i32 n (by omega)) (tr_i32 n (by omega)) ?_
  rw [if_neg (by omega), Int.toNat_natCast]
  exact Trunc.map some h

theorem tr_dims (ds : List Nat) (hl : ds.length < 2 ^ 31) (h : ∀ d ∈ ds, d < 2 ^ 31) :
    Trunc (writeDims ds) (decArray readI32) := by
  refine Trunc.of_local (rt_dims ds hl h) (Local.decArray local_i32) (NoPanic.decArray np_i32 np_i32)

theorem Trunc.decSeq_append {e1 e2 : Bytes} {ds1 ds2 : List (Dec α)} {vs1 : List α}
    (h1 : RT e1 (decSeq ds1) vs1) (t1 : Trunc e1 (decSeq ds1)) (t2 : Trunc e2 (decSeq ds2)) :
    Trunc (e1 ++ e2) (decSeq (ds1 ++ ds2)) := by
  intro p q he hq
  rw [decSeq_append_run]
  exact Trunc.bind h1 t1 (Trunc.bind_nil (fun ws => Pure.pure (vs1 ++ ws)) t2) p q he hq

theorem tr_variantArray (rec : Ty → Dec Val) (f : Nat) (t : ATy) (e : Bytes)
    (h : Trunc e (decArray (rec t.ty))) :
    Trunc (writeByte (t.code ||| 0x80) ++ e) (decVariant rec f) := by
  obtain ⟨-, -, h0, h1, h2, h3, -⟩ := t.code_bits
  refine Trunc.bind (rt_byte _) (tr_byte _) ?_
  simp only [h1, if_false, h2, if_true, h3, h0, ATy.ofCode_code]
  exact Trunc.map _ h

theorem tr_variantMulti (rec : Ty → Dec Val) (f : Nat) (t : ATy) (e ed : Bytes) (vs : List Val)
    (h : RT e (decArray (rec t.ty)) (some vs)) (ht : Trunc e (decArray (rec t.ty)))
    (hd : Trunc ed (decArray readI32)) :
    Trunc (writeByte (t.code ||| 0x80 ||| 0x40) ++ (e ++ ed)) (decVariant rec f) := by
  obtain ⟨-, -, h0, -, -, -, h1, h2, h3⟩ := t.code_bits
  refine Trunc.bind (rt_byte _) (tr_byte _) ?_
  simp only [h1, if_false, h2, h3, h0, ATy.ofCode_code]
  exact Trunc.bind h ht (Trunc.bind_nil _ hd)

theorem tr_variantScalar (rec : Ty → Dec Val) (f : Nat) (t : LTy) (l : Leaf)
    (ht : l.hasTy t) (hf : l.Fits) :
    Trunc (writeByte t.code ++ encLeaf l) (decVariant rec f) := by
  obtain ⟨h1, h2, h0, -⟩ := (ATy.leaf t).code_bits
  simp only [ATy.code] at h1 h2 h0
  refine Trunc.bind (rt_byte _) (tr_byte _) ?_
  have := ATy.ofCode_code (.leaf t)
  simp only [ATy.code] at this
  simp only [h1, if_true, h2, h0, if_false, this]
  exact Trunc.map _ (tr_leaf t l ht hf)

theorem tr_ext (R : Reg) (rec : Ty → Dec Val) (id : Option NodeID) (tag : Nat)
    (body : Bytes) (hid : canonNodeID id = id) (hf : ∀ m, id = some m → m.Fits)
    (ht : R.tyOf id = some tag) (hs : Ty.allSupported (R.fieldsOf tag) = true)
    (h : Trunc body (rec (.struct (R.fieldsOf tag)))) :
    Trunc (writeNodeID id ++ (writeByte 1 ++ (writeU32 (BitVec.ofNat 32 body.length) ++ body)))
      (decExt R rec) := by
  have hn := rt_nodeID id hf
  rw [hid] at hn
  refine Trunc.bind hn (tr_nodeID id hf) (Trunc.bind (rt_byte 1) (tr_byte 1) ?_)
  rw [if_neg (by decide), if_pos rfl, ht]
  have hi : RT (writeU32 (BitVec.ofNat 32 body.length)) readI32 (BitVec.ofNat 32 body.length).toInt :=
    RT.map (fun v : BitVec 32 => v.toInt) (rt_u32 _)
  simp only [hs, if_true]
  exact Trunc.bind hi (Trunc.map (fun v : BitVec 32 => v.toInt) (tr_u32 _)) (Trunc.bind_nil _ h)

/-! ### Values without DataValues -/

mutual
/-- No DataValue occurs anywhere inside. -/
def noDV : Val → Prop
  | .struct fs => noDVs fs
  | .slice vs => noDVs vs
  | .varray _ (some vs) => noDVs vs
  | .vmat _ rows => noDVrows rows
  | .vcube _ cs => noDVcubes cs
  | .vext _ fs => noDVs fs
  | .dv _ _ _ _ _ _ => False
  | .vdv _ => False
  | .ext _ fs => noDVs fs
  | _ => True

def noDVs : List Val → Prop
  | [] => True
  | v :: vs => noDV v ∧ noDVs vs

def noDVrows : List (List Val) → Prop
  | [] => True
  | v :: vs => noDVs v ∧ noDVrows vs

def noDVcubes : List (List (List Val)) → Prop
  | [] => True
  | v :: vs => noDVrows v ∧ noDVcubes vs
end

mutual
theorem tr_val (R : Reg) : ∀ (v : Val) (ty : Ty) (f : Nat) (e : Bytes), wt R ty v → depth v ≤ f →
    noDV v → enc R v = some e → Trunc e (dec R f ty)
  | v, ty, 0, _, _, hd, _, _ => absurd hd (by have := depth_pos v; omega)
  | .leaf l, .leaf t, f + 1, e, h, _, _, he => by
      rw [enc] at he; cases he
      rw [wt] at h; rw [dec]; exact Trunc.map _ (tr_leaf t l h.1 h.2)
  | .bytes b, .bytes, f + 1, e, h, _, _, he => by
      rw [enc] at he; cases he
      rw [wt] at h; simp only [dec]
      exact Trunc.map _ (Trunc.of_local (rt_bytearray b h) local_bytearray np_bytearray)
  | .struct fs, .struct ts, f + 1, e, h, hd, hn, he => by
      rw [wt] at h; rw [depth] at hd; rw [noDV] at hn; rw [enc] at he
      simp only [dec]
      exact Trunc.map _ (tr_fields R fs ts f e h (by omega) hn he)
  | .struct fs, .ptr ts, f + 1, e, h, hd, hn, he => by
      rw [wt] at h; rw [depth] at hd; rw [noDV] at hn; rw [enc] at he
      simp only [dec]
      exact Trunc.map _ (tr_fields R fs ts f e h (by omega) hn he)
  | .slice vs, .slice t, f + 1, e, h, hd, hn, he => by
      rw [wt] at h; rw [depth] at hd; rw [noDV] at hn
      obtain ⟨e', he', -⟩ := rt_fields R vs _ f h.2 (by omega)
      rw [enc, he'] at he; cases he
      have ht := tr_fields R vs _ f e' h.2 (by omega) hn he'
      simp only [dec]
      refine Trunc.bind (rt_i32 _ (by omega)) (tr_i32 _ (by omega)) ?_
      split
      · rename_i hn
        have : vs = [] := List.length_eq_zero_iff.mp (by omega)
        subst this
        rw [encList] at he'
        cases he'
        exact Trunc.nil _
      · rw [Int.toNat_natCast]
        rw [List.map_replicate] at ht
        exact Trunc.map _ ht
  | .vnull, .variant, f + 1, e, _, _, _, he => by
      rw [enc] at he; cases he
      simp only [dec]
      exact Trunc.bind_nil _ (tr_byte 0)
  | .vscalar t l, .variant, f + 1, e, h, _, _, he => by
      rw [enc] at he; cases he
      rw [wt] at h; simp only [dec]
      exact tr_variantScalar _ _ t l h.1 h.2.1
  | .varray t none, .variant, f + 1, e, h, _, _, he => by
      rw [wt] at h
      have : e = writeByte (t.code ||| 0x80) ++ writeI32 (-1) := by
        cases t <;> first | exact absurd rfl h | (rw [enc] at he <;> first | (cases he; rfl) | simp)
      subst this
      simp only [dec]
      exact tr_variantArray _ _ t _ (Trunc.bind_nil _ (tr_i32 (-1) (by omega)))
  | .varray t (some vs), .variant, f + 1, e, h, hd, hn, he => by
      rw [wt] at h; rw [depth] at hd; rw [noDV] at hn
      obtain ⟨e', he', -⟩ := rt_fields R vs _ f h.2.2 (by omega)
      have : e = writeByte (t.code ||| 0x80) ++ (writeI32 vs.length ++ e') := by
        cases t <;> first
          | exact absurd rfl h.1
          | (rw [enc, he'] at he <;> first | (cases he; rfl) | simp)
      subst this
      have ht := tr_fields R vs _ f e' h.2.2 (by omega) hn he'
      rw [List.map_replicate] at ht
      simp only [dec]
      exact tr_variantArray _ _ t _ (Trunc.decArray _ h.2.1 ht)
  | .vmat t rows, .variant, f + 1, e, h, hd, hn, he => by
      rw [wt] at h; rw [depth] at hd; rw [noDV] at hn
      obtain ⟨hnd, hc, hl, ⟨w, hw, hrect⟩, hrows⟩ := h
      obtain ⟨e', he', hr⟩ := rt_rows R rows t.ty f hrows (by omega)
      have : e = writeByte (t.code ||| 0x80 ||| 0x40) ++
          ((writeI32 (countRows rows) ++ e') ++ writeDims (dims2D rows)) := by
        rw [List.append_assoc]
        cases t <;> first
          | exact absurd rfl hnd
          | (rw [enc, he'] at he <;> first | (cases he; rfl) | simp)
      subst this
      have ht := tr_rows R rows t.ty f e' hrows (by omega) hn he'
      simp only [dec]
      refine tr_variantMulti _ _ t _ _ _ (RT.decArray _ hc hr) (Trunc.decArray _ hc ht)
        (tr_dims _ ?_ ?_)
      · cases rows <;> simp [dims2D]
      · cases rows with
        | nil => simp [dims2D]
        | cons r rs =>
          have := hrect r (by simp)
          simp only [dims2D, List.mem_cons, List.not_mem_nil, or_false]
          intro d hd; omega
  | .vcube t cs, .variant, f + 1, e, h, hd, hn, he => by
      rw [wt] at h; rw [depth] at hd; rw [noDV] at hn
      obtain ⟨hnd, hc, hl, ⟨h', w, h0, hh, hw, hrect1, hrect2⟩, hcs⟩ := h
      obtain ⟨e', he', hr⟩ := rt_cubes R cs t.ty f hcs (by omega)
      have : e = writeByte (t.code ||| 0x80 ||| 0x40) ++
          ((writeI32 (cs.map countRows).sum ++ e') ++ writeDims (dims3D cs)) := by
        rw [List.append_assoc]
        cases t <;> first
          | exact absurd rfl hnd
          | (rw [enc, he'] at he <;> first | (cases he; rfl) | simp)
      subst this
      have ht := tr_cubes R cs t.ty f e' hcs (by omega) hn he'
      simp only [dec]
      refine tr_variantMulti _ _ t _ _ _ (RT.decArray _ hc hr) (Trunc.decArray _ hc ht)
        (tr_dims _ ?_ ?_)
      · unfold dims3D; split <;> simp
      · unfold dims3D
        split
        · simp
        · simp
        · rename_i rows r rs rest
          have h1 := hrect1 (r :: rs) (by simp)
          have h2 := hrect2 (r :: rs) (by simp) r (by simp)
          simp only [List.mem_cons, List.not_mem_nil, or_false]
          intro d hd; omega
  | .vext tag fs, .variant, f + 1, e, h, hd, hn, he => by
      rw [wt] at h; rw [depth] at hd; rw [noDV] at hn
      obtain ⟨⟨id, hid, hcan, hfit, hty⟩, hsup, hfs⟩ := h
      obtain ⟨g, rfl⟩ : ∃ g, f = g + 2 := ⟨f - 2, by omega⟩
      obtain ⟨e', he', -⟩ := rt_fields R fs _ g hfs (by omega)
      rw [enc, hid, hsup, he'] at he; cases he
      have ht := tr_fields R fs _ g e' hfs (by omega) hn he'
      simp only [dec]
      refine Trunc.bind (rt_byte 22) (tr_byte 22) ?_
      rw [if_pos (by decide), if_neg (by decide)]
      have : ATy.ofCode (22 &&& 0x3F) = some .ext := rfl
      simp only [this]
      refine Trunc.map extToVariant ?_
      refine tr_ext R _ id tag e' hcan hfit hty hsup ?_
      exact Trunc.map _ ht
  | .extNil, .ext, f + 1, e, _, _, _, he => by
      rw [enc] at he; cases he
      simp only [dec]
      exact Trunc.bind (rt_nodeID none (by simp)) (tr_nodeID none (by simp))
        (Trunc.bind_nil _ (tr_byte 0))
  | .ext tag fs, .ext, f + 1, e, h, hd, hn, he => by
      rw [wt] at h; rw [depth] at hd; rw [noDV] at hn
      obtain ⟨⟨id, hid, hcan, hfit, hty⟩, hsup, hfs⟩ := h
      obtain ⟨g, rfl⟩ : ∃ g, f = g + 1 := ⟨f - 1, by omega⟩
      obtain ⟨e', he', -⟩ := rt_fields R fs _ g hfs (by omega)
      rw [enc, hid, hsup, he'] at he; cases he
      have ht := tr_fields R fs _ g e' hfs (by omega) hn he'
      simp only [dec]
      refine tr_ext R _ id tag e' hcan hfit hty hsup ?_
      exact Trunc.map _ ht
  | .diag d, .diag, f + 1, e, h, hd, _, he => by
      rw [enc] at he; cases he
      rw [wt] at h; rw [depth] at hd; subst h
      obtain ⟨g, rfl⟩ : ∃ g, f = g + 1 := ⟨f - 1, by omega⟩
      simp only [dec]
      refine Trunc.map _ ?_
      have : writeDiag Diag.empty = writeByte 0 := by decide
      rw [this, readDiag]
      exact Trunc.bind_nil _ (tr_byte 0)
  | .dv .., _, _ + 1, _, _, _, hn, _ => by simp [noDV] at hn
  | .nilPtr, ty, _ + 1, _, h, _, _, _ => by cases ty <;> simp [wt] at h
  | .vdv _, ty, _ + 1, _, h, _, _, _ => by cases ty <;> simp [wt] at h
  | .vdiag _, ty, _ + 1, _, h, _, _, _ => by cases ty <;> simp [wt] at h

theorem tr_fields (R : Reg) : ∀ (vs : List Val) (tys : List Ty) (f : Nat) (e : Bytes),
    wtFields R tys vs → depthList vs ≤ f → noDVs vs → encList R vs = some e →
    Trunc e (decSeq (tys.map (dec R f)))
  | [], [], f, e, _, _, _, he => by
      rw [encList] at he; cases he; exact Trunc.nil _
  | v :: vs, t :: ts, f, e, h, hd, hn, he => by
      rw [wtFields] at h; rw [depthList] at hd; rw [noDVs] at hn
      obtain ⟨e1, he1, hr1⟩ := rt_val R v t f h.1 (by omega)
      obtain ⟨e2, he2, -⟩ := rt_fields R vs ts f h.2 (by omega)
      have ht1 := tr_val R v t f e1 h.1 (by omega) hn.1 he1
      have ht2 := tr_fields R vs ts f e2 h.2 (by omega) hn.2 he2
      rw [encList, he1, he2] at he; cases he
      exact Trunc.bind hr1 ht1 (Trunc.bind_nil _ ht2)
  | [], _ :: _, _, _, h, _, _, _ => by simp [wtFields] at h
  | _ :: _, [], _, _, h, _, _, _ => by simp [wtFields] at h

theorem tr_rows (R : Reg) : ∀ (rows : List (List Val)) (ty : Ty) (f : Nat) (e : Bytes),
    wtRows R ty rows → depthRows rows ≤ f → noDVrows rows → encRows R rows = some e →
    Trunc e (decSeq (List.replicate (countRows rows) (dec R f ty)))
  | [], ty, f, e, _, _, _, he => by
      rw [encRows] at he; cases he; exact Trunc.nil _
  | r :: rs, ty, f, e, h, hd, hn, he => by
      rw [wtRows] at h; rw [depthRows] at hd; rw [noDVrows] at hn
      obtain ⟨e1, he1, hr1⟩ := rt_fields R r _ f h.1 (by omega)
      obtain ⟨e2, he2, -⟩ := rt_rows R rs ty f h.2 (by omega)
      have ht1 := tr_fields R r _ f e1 h.1 (by omega) hn.1 he1
      have ht2 := tr_rows R rs ty f e2 h.2 (by omega) hn.2 he2
      rw [encRows, he1, he2] at he; cases he
      have : countRows (r :: rs) = r.length + countRows rs := by simp [countRows]
      rw [this, ← List.replicate_append_replicate]
      rw [List.map_replicate] at hr1 ht1
      exact Trunc.decSeq_append hr1 ht1 ht2

theorem tr_cubes (R : Reg) : ∀ (cs : List (List (List Val))) (ty : Ty) (f : Nat) (e : Bytes),
    wtCubes R ty cs → depthCubes cs ≤ f → noDVcubes cs → encCubes R cs = some e →
    Trunc e (decSeq (List.replicate (cs.map countRows).sum (dec R f ty)))
  | [], ty, f, e, _, _, _, he => by
      rw [encCubes] at he; cases he; exact Trunc.nil _
  | r :: rs, ty, f, e, h, hd, hn, he => by
      rw [wtCubes] at h; rw [depthCubes] at hd; rw [noDVcubes] at hn
      obtain ⟨e1, he1, hr1⟩ := rt_rows R r ty f h.1 (by omega)
      obtain ⟨e2, he2, -⟩ := rt_cubes R rs ty f h.2 (by omega)
      have ht1 := tr_rows R r ty f e1 h.1 (by omega) hn.1 he1
      have ht2 := tr_cubes R rs ty f e2 h.2 (by omega) hn.2 he2
      rw [encCubes, he1, he2] at he; cases he
      simp only [List.map_cons, List.sum_cons, ← List.replicate_append_replicate]
      exact Trunc.decSeq_append hr1 ht1 ht2
end

end Opcua
