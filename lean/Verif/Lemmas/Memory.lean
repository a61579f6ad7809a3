import Verif.Model.Memory

/-!
Facts about the counting decoder: it reads what the plain one reads (`erase_mdec`), and what it asks for can
be accounted for by rules that follow its text (`Cost`).
-/

namespace Opcua.Memory

open MDec

/-! ## The same results as the plain decoder -/

theorem Dec.ext' {a b : Dec α} (h : ∀ s, a.run s = b.run s) : a = b := by
  cases a; cases b; congr 1; funext s; exact h s

theorem erase_pure (a : α) : (pure a : MDec α).erase = pure a := rfl

theorem erase_bind (m : MDec α) (f : α → MDec β) :
    (m >>= f).erase = m.erase >>= fun a => (f a).erase := by
  apply Dec.ext'
  intro s
  change (bind' m f).erase.run s = _
  unfold bind' erase
  change (match (m.run s).out with | .ok (a, s') => _ | .err l => _ | .panic => _ : Used β).out = (match (m.run s).out with | .ok (a, s') => _ | .err l => _ | .panic => _)
  cases (m.run s).out <;> rfl

theorem erase_map (f : α → β) (m : MDec α) : (f <$> m).erase = f <$> m.erase :=
  erase_bind m (pure ∘ f)

theorem erase_lift (d : Dec α) : (lift d).erase = d := rfl

theorem erase_alloc (n : Nat) (f : Unit → MDec β) : (alloc n >>= f).erase = (f ()).erase := by
  rw [erase_bind]; rfl

theorem erase_odd (f : Unit → MDec β) : (odd >>= f).erase = (f ()).erase := by
  rw [erase_bind]; rfl

theorem erase_ite (c : Prop) [Decidable c] (a b : MDec α) :
    (if c then a else b).erase = if c then a.erase else b.erase := by
  split <;> rfl

theorem erase_mString : mString.erase = readString := by
  unfold mString readString
  rw [erase_bind, erase_lift]
  congr 1; funext n
  rw [erase_ite, erase_alloc]
  rfl

theorem erase_mByteString : mByteString.erase = readByteString := by
  unfold mByteString readByteString
  rw [erase_bind, erase_lift]
  congr 1; funext n
  rw [erase_ite, erase_alloc]
  rfl

theorem erase_mByteArray : mByteArray.erase = readByteArray := by
  unfold mByteArray readByteArray
  rw [erase_bind, erase_lift]
  congr 1; funext n
  rw [erase_ite, erase_alloc, erase_map]
  rfl

theorem erase_mkNode (n : Nat) (id : NodeID) : (mkNode n id).erase = pure (some id) := rfl

theorem erase_mNodeID : mNodeID.erase = readNodeID := by
  unfold mNodeID readNodeID
  simp only [erase_bind, erase_ite, erase_lift, erase_pure, erase_mkNode, erase_mString, erase_mByteString]

theorem erase_mExpandedBody (t : UInt8) : (mExpandedBody t).erase = readExpandedBody t := by
  unfold mExpandedBody readExpandedBody
  simp only [erase_bind, erase_ite, erase_lift, erase_pure, erase_mkNode, erase_mString, erase_mByteString]

theorem erase_mExpandedNodeID : mExpandedNodeID.erase = readExpandedNodeID := by
  unfold mExpandedNodeID readExpandedNodeID
  simp only [erase_bind, erase_ite, erase_lift, erase_pure, erase_mString, erase_mExpandedBody]

theorem erase_mQualifiedName : mQualifiedName.erase = readQualifiedName := by
  unfold mQualifiedName readQualifiedName
  simp only [erase_bind, erase_lift, erase_pure, erase_mString]

theorem erase_mLocalizedText : mLocalizedText.erase = readLocalizedText := by
  unfold mLocalizedText readLocalizedText
  simp only [erase_bind, erase_ite, erase_lift, erase_pure, erase_mString]

theorem erase_mLeaf (t : LTy) : (mLeaf t).erase = decLeaf t := by
  cases t <;> simp only [mLeaf, decLeaf, erase_map, erase_lift, erase_mString, erase_mByteString, erase_mNodeID,
    erase_mExpandedNodeID, erase_mQualifiedName, erase_mLocalizedText]

theorem erase_mDiag : ∀ fuel, (mDiag fuel).erase = readDiag fuel
  | 0 => rfl
  | fuel + 1 => by
    unfold mDiag readDiag
    simp only [erase_bind, erase_ite, erase_lift, erase_pure, erase_mString, erase_mDiag fuel]

theorem erase_mSeq : ∀ ds : List (MDec α), (mSeq ds).erase = decSeq (ds.map erase)
  | [] => rfl
  | d :: ds => by
    unfold mSeq
    rw [List.map_cons]
    unfold decSeq
    simp only [erase_bind, erase_pure, erase_mSeq ds]

theorem erase_mArray (n : Nat) (d : MDec α) : (mArray n d).erase = decArray d.erase := by
  unfold mArray decArray
  simp only [erase_bind, erase_ite, erase_lift, erase_pure, erase_map, erase_mSeq, List.map_replicate]
  rfl

theorem erase_mShape (t : ATy) (vals : List Val) (dims : List Int) :
    (mShape t vals dims).erase = Dec.ofRes (shape t vals dims) := by
  unfold mShape
  rw [erase_alloc]
  split
  · rw [erase_odd]; rfl
  · rfl

theorem erase_mVariant (rec : Ty → MDec Val) (rec' : Ty → Dec Val) (h : ∀ t, (rec t).erase = rec' t) (fuel : Nat) :
    (mVariant rec fuel).erase = decVariant rec' fuel := by
  unfold mVariant decVariant
  rw [erase_bind, erase_lift]
  congr 1; funext b
  dsimp only
  by_cases h1 : b &&& 0x80 = 0
  · rw [if_pos h1, if_pos h1]
    by_cases h2 : b &&& 0x3F = 0
    · rw [if_pos h2, if_pos h2]; rfl
    · rw [if_neg h2, if_neg h2]
      cases ATy.ofCode (b &&& 0x3F) with
      | none => rfl
      | some t =>
        cases t with
        | leaf t => dsimp only; rw [erase_bind, erase_mLeaf]; rfl
        | ext => dsimp only; rw [erase_map, h]
        | dataValue => dsimp only; rw [erase_bind, h]; rfl
        | variant => dsimp only; rw [h]
        | diag => dsimp only; rw [erase_bind, erase_mDiag]; rfl
  · rw [if_neg h1, if_neg h1]
    by_cases h3 : b &&& 0x40 = 0
    · rw [if_pos h3, if_pos h3]
      by_cases h2 : b &&& 0x3F = 0
      · rw [if_pos h2, if_pos h2]; rfl
      · rw [if_neg h2, if_neg h2]
        cases ATy.ofCode (b &&& 0x3F) with
        | none => rfl
        | some t => dsimp only; rw [erase_bind, erase_mArray, h]; rfl
    · rw [if_neg h3, if_neg h3]
      by_cases h2 : b &&& 0x3F = 0
      · rw [if_pos h2, if_pos h2]; rfl
      · rw [if_neg h2, if_neg h2]
        cases ATy.ofCode (b &&& 0x3F) with
        | none => rfl
        | some t =>
          dsimp only
          rw [erase_bind, erase_mArray, h]
          congr 1; funext vals
          rw [erase_bind, erase_mArray]
          congr 1; funext dims
          exact erase_mShape t _ _

theorem erase_mDataValue (rec : Ty → MDec Val) (rec' : Ty → Dec Val) (h : ∀ t, (rec t).erase = rec' t) :
    (mDataValue rec).erase = decDataValue rec' := by
  unfold mDataValue decDataValue
  rw [erase_bind, erase_lift]
  congr 1; funext b
  rw [erase_ite, erase_lift]
  split
  · apply Dec.ext'
    intro s
    have hs : ((rec .variant).run s).out = (rec' .variant).run s := by rw [← h]; rfl
    unfold erase
    dsimp only
    rw [hs]
    cases (rec' .variant).run s <;> rfl
  · rfl

theorem erase_mExt (R : Reg) (rec : Ty → MDec Val) (rec' : Ty → Dec Val) (h : ∀ t, (rec t).erase = rec' t) :
    (mExt R rec).erase = decExt R rec' := by
  unfold mExt decExt
  rw [erase_bind, erase_mNodeID]
  congr 1; funext id
  rw [erase_bind, erase_lift]
  congr 1; funext b
  rw [erase_ite, erase_ite, erase_ite]
  congr 1
  congr 1
  · cases R.tyOf id with
    | none => dsimp only; rw [erase_bind, erase_mByteArray]; rfl
    | some tag =>
      dsimp only
      rw [erase_bind, erase_lift]
      congr 1; funext _
      rw [erase_alloc, erase_ite, erase_bind, h]
      congr 1
      congr 1; funext v
      cases v <;> rfl
  · congr 1
    rw [erase_bind, erase_mString]; rfl

/-- Counting does not change what is decoded. -/
theorem erase_mdec (R : Reg) : ∀ fuel ty, (mdec R fuel ty).erase = dec R fuel ty
  | 0, _ => rfl
  | fuel + 1, ty => by
    have ih := erase_mdec R fuel
    cases ty with
    | leaf t => unfold mdec dec; rw [erase_map, erase_mLeaf]
    | bytes => unfold mdec dec; rw [erase_map, erase_mByteArray]
    | struct ts =>
      unfold mdec dec
      rw [erase_map, erase_mSeq, List.map_map]
      congr 3; funext t; exact ih t
    | ptr ts =>
      unfold mdec dec
      rw [erase_alloc, erase_map, erase_mSeq, List.map_map]
      congr 3; funext t; exact ih t
    | slice t =>
      unfold mdec dec
      dsimp only
      rw [erase_bind, erase_lift]
      congr 1; funext n
      rw [erase_ite, erase_alloc, erase_map, erase_mSeq, List.map_replicate, ih]
      rfl
    | variant => unfold mdec dec; exact erase_mVariant _ _ ih fuel
    | dataValue => unfold mdec dec; exact erase_mDataValue _ _ ih
    | ext => unfold mdec dec; exact erase_mExt R _ _ ih
    | diag => unfold mdec dec; rw [erase_map, erase_mDiag]

/-! ## Accounts

`Cost K m min start P`: a run of `m` that succeeds and is plain reads at least `min` bytes, and what it asks
for is paid by `K` for every byte read beyond those, by `start`, and leaves `P v` over. -/

def Cost (K : Nat) (m : MDec α) (min start : Nat) (P : α → Nat) : Prop :=
  ∀ s v s', (m.run s).out = .ok (v, s') → (m.run s).plain = true →
    ∃ u, s.length = s'.length + u ∧ min ≤ u ∧ (m.run s).cost + K * min + P v ≤ start + K * u

theorem Cost.mono {K : Nat} {m : MDec α} {min start : Nat} {P : α → Nat} (h : Cost K m min start P)
    {min' start' : Nat} {Q : α → Nat} (hm : min' ≤ min)
    (hs : ∀ v, start + K * min' + Q v ≤ start' + K * min + P v) : Cost K m min' start' Q := by
  intro s v s' ho hp
  obtain ⟨u, hu, hmu, hc⟩ := h s v s' ho hp
  have := hs v
  exact ⟨u, hu, Nat.le_trans hm hmu, by omega⟩

theorem Cost.pure {K : Nat} (a : α) (P : α → Nat) : Cost K (pure a) 0 (P a) P := by
  intro s v s' ho _
  cases ho
  exact ⟨0, rfl, Nat.le_refl 0, by change 0 + _ + _ ≤ _; omega⟩

theorem Cost.bind {K : Nat} {m : MDec α} {f : α → MDec β} {min₁ min₂ s₁ s₂ : Nat} {P : α → Nat} {Q : β → Nat}
    (hm : Cost K m min₁ s₁ P) (hf : ∀ a, Cost K (f a) min₂ (s₂ + P a) Q) :
    Cost K (m >>= f) (min₁ + min₂) (s₁ + s₂) Q := by
  intro s v s' ho hp
  change (bind' m f |>.run s).out = _ at ho
  change (bind' m f |>.run s).plain = _ at hp
  change ∃ u, _ ∧ _ ∧ (bind' m f |>.run s).cost + _ + _ ≤ _
  have hm := hm s
  unfold bind' at ho hp ⊢
  dsimp only at ho hp ⊢
  cases ho' : (m.run s).out with
  | err l => rw [ho'] at ho; cases ho
  | panic => rw [ho'] at ho; cases ho
  | ok a =>
    obtain ⟨a, s₀⟩ := a
    rw [ho'] at ho hp
    dsimp only at ho hp ⊢
    have hp' : (m.run s).plain = true ∧ ((f a).run s₀).plain = true := by simpa using hp
    obtain ⟨u, hu, hmu, hc⟩ := hm a s₀ ho' hp'.1
    obtain ⟨u', hu', hmu', hc'⟩ := hf a s₀ v s' ho hp'.2
    refine ⟨u + u', by omega, by omega, ?_⟩
    rw [Nat.mul_add, Nat.mul_add]
    omega

theorem Cost.map {K : Nat} {m : MDec α} {min start : Nat} {P : α → Nat} {Q : β → Nat} {f : α → β}
    (hm : Cost K m min start P) (hf : ∀ a, Q (f a) ≤ P a) : Cost K (f <$> m) min start Q := by
  have := Cost.bind (f := fun a => (Pure.pure (f a) : MDec β)) (s₂ := 0) (min₂ := 0) (Q := Q) hm
    (fun a => (Cost.pure (K := K) (f a) Q).mono (Nat.le_refl 0) (fun v => by have := hf a; omega))
  exact this

theorem Cost.alloc {K : Nat} (n : Nat) : Cost K (alloc n) 0 n (fun _ => 0) := by
  intro s v s' ho _
  cases ho
  exact ⟨0, rfl, Nat.le_refl 0, by change n + K * 0 + 0 ≤ n + K * 0; omega⟩

theorem Cost.ite {K : Nat} {c : Prop} [Decidable c] {a b : MDec α} {min start : Nat} {P : α → Nat}
    (ha : c → Cost K a min start P) (hb : ¬ c → Cost K b min start P) :
    Cost K (if c then a else b) min start P := by
  split
  · exact ha ‹_›
  · exact hb ‹_›

/-- Nothing that fails or panics is in debt. -/
theorem Cost.never {K : Nat} {d : Dec α} (h : ∀ s v, d.run s ≠ .ok v) {min start : Nat} {P : α → Nat} :
    Cost K (lift d) min start P := by
  intro s v s' ho _
  exact absurd ho (h s _)

/-- A reader of at least `n` bytes. -/
def Reads (d : Dec α) (n : Nat) : Prop :=
  ∀ s v s', d.run s = .ok (v, s') → ∃ u, s.length = s'.length + u ∧ n ≤ u

theorem Cost.lift {K : Nat} {d : Dec α} {n : Nat} (h : Reads d n) : Cost K (lift d) n 0 (fun _ => 0) := by
  intro s v s' ho _
  obtain ⟨u, hu, hn⟩ := h s v s' ho
  exact ⟨u, hu, hn, by change 0 + _ + 0 ≤ _; have := Nat.mul_le_mul_left K hn; omega⟩

theorem Reads.bind {d : Dec α} {f : α → Dec β} {n k : Nat} (hd : Reads d n) (hf : ∀ a, Reads (f a) k) :
    Reads (d >>= f) (n + k) := by
  intro s v s' ho
  change (match d.run s with | .ok (a, s') => (f a).run s' | .err l => .err l | .panic => .panic) = _ at ho
  have hd := hd s
  cases h : d.run s with
  | err l => rw [h] at ho; cases ho
  | panic => rw [h] at ho; cases ho
  | ok a =>
    obtain ⟨a, s₀⟩ := a
    rw [h] at ho hd
    obtain ⟨u, hu, hn⟩ := hd a s₀ rfl
    obtain ⟨u', hu', hk⟩ := hf a s₀ v s' ho
    exact ⟨u + u', by omega, by omega⟩

theorem Reads.pure (a : α) : Reads (pure a : Dec α) 0 := by
  intro s v s' ho
  cases ho
  exact ⟨0, rfl, Nat.le_refl 0⟩

theorem Reads.less {d : Dec α} {n k : Nat} (h : Reads d n) (hk : k ≤ n) : Reads d k := by
  intro s v s' ho
  obtain ⟨u, hu, hn⟩ := h s v s' ho
  exact ⟨u, hu, Nat.le_trans hk hn⟩

theorem Reads.ite {c : Prop} [Decidable c] {a b : Dec α} {n : Nat} (ha : c → Reads a n) (hb : ¬ c → Reads b n) :
    Reads (if c then a else b) n := by
  split
  · exact ha ‹_›
  · exact hb ‹_›

theorem Reads.fail {n : Nat} : Reads (Dec.fail : Dec α) n := by
  intro s v s' ho
  cases ho

theorem reads_readN (n : Nat) : Reads (readN n) n := by
  intro s v s' ho
  unfold readN at ho
  dsimp only at ho
  split at ho
  · cases ho
    exact ⟨n, by rw [List.length_drop]; omega, Nat.le_refl n⟩
  · cases ho

theorem Reads.then {d : Dec α} {f : α → β} {n : Nat} (hd : Reads d n) :
    Reads (d >>= fun a => Pure.pure (f a)) n := Reads.bind (k := 0) hd (fun _ => Reads.pure _)

theorem reads_readBits (n : Nat) : Reads (readBits n) n := Reads.then (reads_readN n)

theorem reads_readU32 : Reads readU32 4 := reads_readBits 4
theorem reads_readU16 : Reads readU16 2 := reads_readBits 2
theorem reads_readU64 : Reads readU64 8 := reads_readBits 8
theorem reads_readI32 : Reads readI32 4 := Reads.then reads_readU32
theorem reads_readDateTime : Reads readDateTime 8 := Reads.then reads_readU64

theorem reads_readByte : Reads readByte 1 := by
  unfold readByte
  refine Reads.bind (n := 1) (k := 0) (reads_readN 1) (fun bs => ?_)
  split
  · exact Reads.pure _
  · exact Reads.fail

theorem reads_readBool : Reads readBool 1 := Reads.then reads_readByte

theorem reads_readGuid : Reads readGuid 16 := by
  unfold readGuid
  refine Reads.bind (n := 8) (k := 8) (reads_readN 8) (fun bs => ?_)
  split
  · refine Reads.bind (n := 8) (k := 0) (reads_readN 8) (fun bs => ?_)
    split
    · exact Reads.pure _
    · exact Reads.fail
  · exact Reads.fail

/-! ## What a type takes on the wire, and what it may ask for before anything is read -/

def leafMin : LTy → Nat
  | .bool | .sbyte | .byte | .localizedText => 1
  | .int16 | .uint16 | .nodeID | .expandedNodeID => 2
  | .int32 | .uint32 | .float | .statusCode | .string | .byteString | .xmlElement => 4
  | .qualifiedName => 6
  | .int64 | .uint64 | .double | .dateTime => 8
  | .guid => 16

mutual
/-- No value of the type is shorter on the wire. -/
def minSize : Ty → Nat
  | .leaf t => leafMin t
  | .bytes => 4
  | .struct ts => minSizes ts
  | .ptr ts => minSizes ts
  | .slice _ => 4
  | .variant => 1
  | .dataValue => 1
  | .ext => 3
  | .diag => 1

def minSizes : List Ty → Nat
  | [] => 0
  | t :: ts => minSize t + minSizes ts
end

def leafCharge : LTy → Nat
  | .nodeID => 40
  | .expandedNodeID => 64
  | t => pad (leafSize t)

mutual
/-- What a variable of the type takes, with what hangs on it by pointers whatever is read. -/
def charge : Ty → Nat
  | .leaf t => leafCharge t
  | .bytes => 24
  | .struct ts => charges ts
  | .ptr ts => 8 + charges ts
  | .slice _ => 24
  | .variant => 16
  | .dataValue => 88
  | .ext => 40
  | .diag => 56

def charges : List Ty → Nat
  | [] => 0
  | t :: ts => charge t + charges ts
end

mutual
/-- `K` a byte pays for the elements of every slice in the type. -/
def fits (K : Nat) : Ty → Bool
  | .struct ts => allFit K ts
  | .ptr ts => allFit K ts
  | .slice t => fits K t && Nat.ble (charge t + 48) (K * minSize t)
  | _ => true

def allFit (K : Nat) : List Ty → Bool
  | [] => true
  | t :: ts => fits K t && allFit K ts
end

/-- `K` a byte pays for the structures that may stand in an ExtensionObject. -/
def RegFits (K : Nat) (R : Reg) : Prop :=
  ∀ tag, allFit K (R.fieldsOf tag) = true ∧
    charges (R.fieldsOf tag) + sizes (R.fieldsOf tag) ≤ K * (minSizes (R.fieldsOf tag) + 4)

section

variable {K : Nat}

theorem cost_readN (hK : 1 ≤ K) (n : Nat) :
    Cost K (alloc n >>= fun _ => lift (readN n)) 0 0 (fun _ => 0) := by
  refine (Cost.bind (s₂ := 0) (Cost.alloc n) (fun _ => (Cost.lift (reads_readN n)).mono (Nat.le_refl n)
    (fun _ => Nat.le_refl _))).mono (Nat.zero_le _) (fun _ => ?_)
  have := Nat.mul_le_mul_right n hK
  simp only [Nat.zero_add, Nat.mul_zero, Nat.add_zero]
  omega

theorem cost_mString (hK : 1 ≤ K) : Cost K mString 4 0 (fun _ => 0) := by
  unfold mString
  refine Cost.bind (min₂ := 0) (s₂ := 0) (Cost.lift reads_readI32) (fun n => Cost.ite (fun _ => ?_) (fun _ => ?_))
  · exact Cost.pure _ _
  · exact cost_readN hK _

theorem cost_mByteString (hK : 1 ≤ K) : Cost K mByteString 4 0 (fun _ => 0) := by
  unfold mByteString
  refine Cost.bind (min₂ := 0) (s₂ := 0) (Cost.lift reads_readI32) (fun n => Cost.ite (fun _ => ?_) (fun _ => ?_))
  · exact Cost.pure _ _
  · exact cost_readN hK _

theorem cost_mByteArray (hK : 1 ≤ K) : Cost K mByteArray 4 0 (fun _ => 0) := by
  unfold mByteArray
  refine Cost.bind (min₂ := 0) (s₂ := 0) (Cost.lift reads_readI32) (fun n => Cost.ite (fun _ => ?_) (fun _ => ?_))
  · exact Cost.pure _ _
  · refine (Cost.bind (s₂ := 0) (Cost.alloc n.toNat) (fun _ => (Cost.map (Cost.lift (reads_readN n.toNat))
      (Q := fun _ => 0) (fun _ => Nat.le_refl 0)).mono (Nat.le_refl _) (fun _ => Nat.le_refl _))).mono
      (Nat.zero_le _) (fun _ => ?_)
    have := Nat.mul_le_mul_right n.toNat hK
    simp only [Nat.zero_add, Nat.mul_zero, Nat.add_zero]
    omega

theorem cost_mkNode {n : Nat} (hn : n ≤ 24) (id : NodeID) : Cost K (mkNode n id) 0 24 (fun _ => 0) := by
  unfold mkNode
  exact (Cost.bind (s₂ := 0) (Cost.alloc n) (fun _ => Cost.pure (some id) (fun _ => 0))).mono (Nat.le_refl 0)
    (fun _ => by omega)

theorem cost_none (P : Nat) : Cost K (Pure.pure none : MDec (Option NodeID)) 0 P (fun _ => 0) :=
  (Cost.pure none (fun _ => 0)).mono (Nat.le_refl 0) (fun _ => by omega)

theorem cost_fail {min start : Nat} {P : α → Nat} : Cost K (lift (Dec.fail : Dec α)) min start P :=
  Cost.never (fun _ _ h => by cases h)

theorem cost_crash {min start : Nat} {P : α → Nat} : Cost K (lift (Dec.crash : Dec α)) min start P :=
  Cost.never (fun _ _ h => by cases h)

theorem Cost.less {m : MDec α} {min start : Nat} {P : α → Nat} (h : Cost K m min start P) {min' : Nat}
    (hm : min' ≤ min) : Cost K m min' start P :=
  h.mono hm (fun v => by have := Nat.mul_le_mul_left K hm; omega)

theorem cost_mExpandedBody (hK : 1 ≤ K) (t : UInt8) : Cost K (mExpandedBody t) 1 24 (fun _ => 0) := by
  have hb : Cost K (lift readByte) 1 0 (fun _ => 0) := Cost.lift reads_readByte
  have h16 : Cost K (lift readU16) 1 0 (fun _ => 0) := Cost.less (Cost.lift reads_readU16) (by omega)
  have h32 : Cost K (lift readU32) 0 0 (fun _ => 0) := Cost.less (Cost.lift reads_readU32) (by omega)
  have h16' : Cost K (lift readU16) 0 0 (fun _ => 0) := Cost.less (Cost.lift reads_readU16) (by omega)
  have hg : Cost K (lift readGuid) 0 0 (fun _ => 0) := Cost.less (Cost.lift reads_readGuid) (by omega)
  have hs := (cost_mString hK).less (min' := 0) (by omega)
  have ho := (cost_mByteString hK).less (min' := 0) (by omega)
  unfold mExpandedBody
  refine Cost.ite (fun _ => ?_) (fun _ => Cost.ite (fun _ => ?_) (fun _ => Cost.ite (fun _ => ?_)
    (fun _ => Cost.ite (fun _ => ?_) (fun _ => Cost.ite (fun _ => ?_) (fun _ => Cost.ite (fun _ => ?_)
    (fun _ => cost_fail))))))
  · exact Cost.bind (s₂ := 24) hb (fun _ => Cost.ite (fun _ => cost_none _) (fun _ => cost_mkNode (by omega) _))
  · exact Cost.bind (s₂ := 24) hb (fun _ => Cost.bind (s₂ := 24) h16' (fun _ => cost_mkNode (by omega) _))
  · exact Cost.bind (s₂ := 24) h16 (fun _ => Cost.bind (s₂ := 24) h32 (fun _ => cost_mkNode (by omega) _))
  · exact Cost.bind (s₂ := 24) h16 (fun _ => Cost.bind (s₂ := 24) hs (fun _ => cost_mkNode (by omega) _))
  · exact Cost.bind (s₂ := 24) h16 (fun _ => Cost.bind (s₂ := 24) hg (fun _ => cost_mkNode (by omega) _))
  · exact Cost.bind (s₂ := 24) h16 (fun _ => Cost.bind (s₂ := 24) ho (fun _ => cost_mkNode (by omega) _))

theorem cost_mNodeID (hK : 1 ≤ K) : Cost K mNodeID 2 24 (fun _ => 0) := by
  have hb : Cost K (lift readByte) 1 0 (fun _ => 0) := Cost.lift reads_readByte
  have h16 : Cost K (lift readU16) 1 0 (fun _ => 0) := Cost.less (Cost.lift reads_readU16) (by omega)
  have h32 : Cost K (lift readU32) 0 0 (fun _ => 0) := Cost.less (Cost.lift reads_readU32) (by omega)
  have h16' : Cost K (lift readU16) 0 0 (fun _ => 0) := Cost.less (Cost.lift reads_readU16) (by omega)
  have hg : Cost K (lift readGuid) 0 0 (fun _ => 0) := Cost.less (Cost.lift reads_readGuid) (by omega)
  have hs := (cost_mString hK).less (min' := 0) (by omega)
  have ho := (cost_mByteString hK).less (min' := 0) (by omega)
  unfold mNodeID
  refine Cost.bind (s₂ := 24) (min₂ := 1) hb (fun _ => ?_)
  refine Cost.ite (fun _ => ?_) (fun _ => Cost.ite (fun _ => ?_) (fun _ => Cost.ite (fun _ => ?_)
    (fun _ => Cost.ite (fun _ => ?_) (fun _ => Cost.ite (fun _ => ?_) (fun _ => Cost.ite (fun _ => ?_)
    (fun _ => cost_fail))))))
  · exact Cost.bind (s₂ := 24) hb (fun _ => Cost.ite (fun _ => cost_none _) (fun _ => cost_mkNode (by omega) _))
  · exact Cost.bind (s₂ := 24) hb (fun _ => Cost.bind (s₂ := 24) h16' (fun _ => cost_mkNode (by omega) _))
  · exact Cost.bind (s₂ := 24) h16 (fun _ => Cost.bind (s₂ := 24) h32 (fun _ => cost_mkNode (by omega) _))
  · exact Cost.bind (s₂ := 24) h16 (fun _ => Cost.bind (s₂ := 24) hs (fun _ =>
      Cost.ite (fun _ => cost_none _) (fun _ => cost_mkNode (by omega) _)))
  · exact Cost.bind (s₂ := 24) h16 (fun _ => Cost.bind (s₂ := 24) hg (fun _ =>
      Cost.ite (fun _ => cost_none _) (fun _ => cost_mkNode (by omega) _)))
  · exact Cost.bind (s₂ := 24) h16 (fun _ => Cost.bind (s₂ := 24) ho (fun _ =>
      Cost.ite (fun _ => cost_none _) (fun _ => cost_mkNode (by omega) _)))

theorem cost_opt {α : Type} {c : Prop} [Decidable c] {m : MDec α} {n : Nat} (h : Cost K m n 0 (fun _ => 0)) (a : α) :
    Cost K (if c then m else Pure.pure a) 0 0 (fun _ => 0) :=
  Cost.ite (fun _ => h.less (Nat.zero_le _)) (fun _ => Cost.pure a (fun _ => 0))

theorem cost_mExpandedNodeID (hK : 1 ≤ K) : Cost K mExpandedNodeID 2 24 (fun _ => 0) := by
  unfold mExpandedNodeID
  exact Cost.bind (min₁ := 1) (min₂ := 1) (s₁ := 0) (s₂ := 24) (Cost.lift reads_readByte) (fun _ =>
    Cost.bind (min₁ := 1) (min₂ := 0) (s₁ := 24) (s₂ := 0) (cost_mExpandedBody hK _) (fun _ =>
    Cost.bind (min₁ := 0) (min₂ := 0) (s₁ := 0) (s₂ := 0) (cost_opt (cost_mString hK) _) (fun _ =>
    Cost.bind (min₁ := 0) (min₂ := 0) (s₁ := 0) (s₂ := 0) (cost_opt (Cost.lift reads_readU32) _) (fun _ =>
    Cost.pure _ (fun _ => 0)))))

theorem cost_mQualifiedName (hK : 1 ≤ K) : Cost K mQualifiedName 6 0 (fun _ => 0) := by
  unfold mQualifiedName
  exact Cost.bind (min₁ := 2) (min₂ := 4) (s₁ := 0) (s₂ := 0) (Cost.lift reads_readU16) (fun _ =>
    Cost.bind (min₁ := 4) (min₂ := 0) (s₁ := 0) (s₂ := 0) (cost_mString hK) (fun _ => Cost.pure _ (fun _ => 0)))

theorem cost_mLocalizedText (hK : 1 ≤ K) : Cost K mLocalizedText 1 0 (fun _ => 0) := by
  unfold mLocalizedText
  exact Cost.bind (min₁ := 1) (min₂ := 0) (s₁ := 0) (s₂ := 0) (Cost.lift reads_readByte) (fun _ =>
    Cost.bind (min₁ := 0) (min₂ := 0) (s₁ := 0) (s₂ := 0) (cost_opt (cost_mString hK) _) (fun _ =>
    Cost.bind (min₁ := 0) (min₂ := 0) (s₁ := 0) (s₂ := 0) (cost_opt (cost_mString hK) _) (fun _ =>
    Cost.pure _ (fun _ => 0))))

theorem Cost.paid {m : MDec α} {min start : Nat} (h : Cost K m min start (fun _ => 0)) (n : Nat) :
    Cost K m min (start + n) (fun _ => n) := h.mono (Nat.le_refl _) (fun _ => by omega)

theorem cost_mLeaf (hK : 1 ≤ K) (t : LTy) :
    Cost K (mLeaf t) (leafMin t) (leafCharge t) (fun _ => pad (leafSize t)) := by
  have z : ∀ {α : Type} {m : MDec α} {f : α → Leaf} {min n : Nat}, Cost K m min 0 (fun _ => 0) →
      Cost K (f <$> m) min n (fun _ => n) := fun h =>
    (Cost.map (P := fun _ => 0) (Q := fun _ => 0) h (fun _ => Nat.le_refl 0)).mono (Nat.le_refl _) (fun _ => by omega)
  cases t with
  | bool => exact z (Cost.lift reads_readBool)
  | sbyte | byte => exact z (Cost.lift (reads_readBits 1))
  | int16 | uint16 => exact z (Cost.lift reads_readU16)
  | int32 | uint32 | float | statusCode => exact z (Cost.lift reads_readU32)
  | int64 | uint64 | double => exact z (Cost.lift reads_readU64)
  | string | xmlElement => exact z (cost_mString hK)
  | byteString => exact z (cost_mByteString hK)
  | dateTime => exact z (Cost.lift reads_readDateTime)
  | guid => exact z (Cost.lift reads_readGuid)
  | nodeID => exact Cost.map (Cost.paid (cost_mNodeID hK) 16) (fun _ => Nat.le_refl _)
  | expandedNodeID => exact Cost.map (Cost.paid (cost_mExpandedNodeID hK) 40) (fun _ => Nat.le_refl _)
  | qualifiedName => exact z (cost_mQualifiedName hK)
  | localizedText => exact z (cost_mLocalizedText hK)

theorem cost_mDiag (fuel : Nat) : Cost K (mDiag fuel) 1 0 (fun _ => 0) := by
  cases fuel with
  | zero => exact cost_crash
  | succ fuel =>
    unfold mDiag
    refine Cost.bind (min₁ := 1) (min₂ := 0) (s₁ := 0) (s₂ := 0) (Cost.lift reads_readByte) (fun b => ?_)
    have dead : ∀ {α β : Type} (m : MDec α), Cost K (m >>= fun _ => lift (Dec.crash : Dec β)) 0 0 (fun _ => 0) := by
      intro α β m s v s' ho
      exfalso
      change (bind' m _ |>.run s).out = _ at ho
      unfold bind' at ho
      dsimp only at ho
      cases h : (m.run s).out with
      | ok a => rw [h] at ho; cases ho
      | err l => rw [h] at ho; cases ho
      | panic => rw [h] at ho; cases ho
    refine Cost.ite (fun _ => dead _) (fun _ => Cost.ite (fun _ => dead _) (fun _ => Cost.ite (fun _ => dead _)
      (fun _ => Cost.ite (fun _ => dead _) (fun _ => Cost.ite (fun _ => dead _) (fun _ => Cost.ite (fun _ => dead _)
      (fun _ => Cost.ite (fun _ => dead _) (fun _ => Cost.pure _ (fun _ => 0))))))))

theorem le_pad (n : Nat) : n ≤ pad n := by unfold pad; omega

theorem cost_fields {d : Ty → MDec Val} : ∀ ts : List Ty,
    (∀ t ∈ ts, Cost K (d t) (minSize t) (charge t) (fun _ => pad (size t))) →
    Cost K (mSeq (ts.map d)) (minSizes ts) (charges ts) (fun _ => sizes ts)
  | [], _ => Cost.pure [] (fun _ => 0)
  | t :: ts, h => by
    have h1 := h t (List.mem_cons_self ..)
    have h2 := cost_fields ts (fun x hx => h x (List.mem_cons_of_mem _ hx))
    rw [List.map_cons]
    unfold mSeq minSizes charges sizes
    refine Cost.bind h1 (fun v => ?_)
    refine (Cost.bind (s₂ := pad (size t)) (min₂ := 0) h2 (fun vs => Cost.mono
      (Cost.pure (v :: vs) (fun _ => pad (size t) + sizes ts)) (Nat.le_refl 0) (fun _ => Nat.le_refl _)))

theorem cost_many {d : MDec α} {min c p sz : Nat} (hd : Cost K d min c (fun _ => p)) (hc : c + 48 ≤ K * min)
    (hp : sz ≤ p) : ∀ n, Cost K (mSeq (List.replicate n d)) 0 0 (fun vs => n * sz + 48 * vs.length)
  | 0 => (Cost.pure [] (fun vs : List α => 0 * sz + 48 * vs.length)).mono (Nat.le_refl 0)
      (fun v => by simp only [List.length_nil]; omega)
  | n + 1 => by
    have hn := cost_many hd hc hp n
    have hd' : Cost K d 0 0 (fun _ => sz + 48) := hd.mono (Nat.zero_le _) (fun _ => by omega)
    rw [List.replicate_succ]
    unfold mSeq
    refine Cost.bind (min₁ := 0) (min₂ := 0) (s₁ := 0) (s₂ := 0) hd' (fun v => ?_)
    refine (Cost.bind (min₁ := 0) (min₂ := 0) (s₁ := 0) (s₂ := sz + 48)
      (Q := fun vs : List α => (n + 1) * sz + 48 * vs.length) hn (fun vs => ?_)).mono (Nat.le_refl _)
      (fun _ => by omega)
    refine (Cost.pure (v :: vs) (fun vs : List α => (n + 1) * sz + 48 * vs.length)).mono (Nat.le_refl _) (fun _ => ?_)
    simp only [List.length_cons, Nat.add_mul]
    omega

theorem cost_mArray {d : MDec α} {min c p sz : Nat} (hd : Cost K d min c (fun _ => p)) (hc : c + 48 ≤ K * min)
    (hp : sz ≤ p) : Cost K (mArray sz d) 4 0 (fun vs => 48 * (vs.getD []).length) := by
  unfold mArray
  refine Cost.bind (min₁ := 4) (min₂ := 0) (s₁ := 0) (s₂ := 0) (Cost.lift reads_readI32) (fun n =>
    Cost.ite (fun _ => ?_) (fun _ => ?_))
  · exact Cost.pure none (fun vs : Option (List α) => 48 * (vs.getD []).length)
  · refine (Cost.bind (min₁ := 0) (min₂ := 0) (s₁ := n.toNat * sz) (s₂ := 0)
      (Q := fun vs : Option (List α) => n.toNat * sz + 48 * (vs.getD []).length)
      (Cost.alloc (n.toNat * sz)) (fun _ => ?_)).mono (Nat.le_refl _) (fun _ => by omega)
    exact Cost.map (cost_many hd hc hp n.toNat) (fun vs => by simp)

theorem splitRows_length {w : Int} (hw : 1 ≤ w) : ∀ (n : Nat) (vals : List α) {rows left},
    splitRows w n vals = .ok (rows, left) → left.length + n ≤ vals.length
  | 0, vals, rows, left, h => by
    unfold splitRows at h
    cases h
    omega
  | n + 1, vals, rows, left, h => by
    unfold splitRows at h
    by_cases hc : w < 0 ∨ vals.length < w.toNat
    · rw [if_pos hc] at h; cases h
    · rw [if_neg hc] at h
      cases hr : splitRows w n (vals.drop w.toNat) with
      | ok r =>
        obtain ⟨rs, l⟩ := r
        rw [hr] at h
        cases h
        have := splitRows_length hw n _ hr
        rw [List.length_drop] at this
        omega
      | err => rw [hr] at h; cases h
      | panic => rw [hr] at h; cases h

theorem splitCubes_cost {h w : Int} (hh : 1 ≤ h) (hw : 1 ≤ w) : ∀ (n : Nat) (vals : List α) {rows},
    splitCubes h w n vals = .ok rows → 24 * n + cubeCost h w n vals ≤ 48 * vals.length
  | 0, vals, rows, _ => by unfold cubeCost; omega
  | n + 1, vals, rows, hc => by
    unfold splitCubes at hc
    unfold cubeCost
    rw [if_neg (by omega)] at hc ⊢
    cases hr : splitRows w h.toNat vals with
    | ok r =>
      obtain ⟨rs, left⟩ := r
      rw [hr] at hc
      dsimp only at hc ⊢
      have h1 := splitRows_length hw _ _ hr
      cases hs : splitCubes h w n left with
      | ok cs =>
        have h2 := splitCubes_cost hh hw n left hs
        omega
      | err => rw [hs] at hc; cases hc
      | panic => rw [hs] at hc; cases hc
    | err => rw [hr] at hc; cases hc
    | panic => rw [hr] at hc; cases hc

theorem shapeCost_le {t : ATy} {vals : List Val} {dims : List Int} {v : Val} (h : shape t vals dims = .ok v)
    (h0 : ¬ (0 : Int) ∈ dims) : shapeCost vals dims ≤ 48 * vals.length + 24 := by
  unfold shape at h
  unfold shapeCost
  split at h
  · rename_i d0 d1
    simp only [List.mem_cons, List.not_mem_nil, or_false, not_or] at h0
    dsimp only
    by_cases hd : d0 < 0
    · rw [if_pos hd] at h; cases h
    · rw [if_neg hd] at h
      cases hr : splitRows d1 d0.toNat vals with
      | ok r =>
        obtain ⟨rs, left⟩ := r
        by_cases h1 : 1 ≤ d1
        · have := splitRows_length h1 _ _ hr
          omega
        · exfalso
          obtain ⟨n, hn⟩ : ∃ n, d0.toNat = n + 1 := ⟨d0.toNat - 1, by omega⟩
          rw [hn] at hr
          unfold splitRows at hr
          rw [if_pos (by omega)] at hr
          cases hr
      | err => rw [hr] at h; cases h
      | panic => rw [hr] at h; cases h
  · rename_i d0 d1 d2
    simp only [List.mem_cons, List.not_mem_nil, or_false, not_or] at h0
    dsimp only
    by_cases hd : d0 < 0
    · rw [if_pos hd] at h; cases h
    · rw [if_neg hd] at h
      cases hr : splitCubes d1 d2 d0.toNat vals with
      | ok r =>
        obtain ⟨n, hn⟩ : ∃ n, d0.toNat = n + 1 := ⟨d0.toNat - 1, by omega⟩
        by_cases h1 : 1 ≤ d1
        · by_cases h2 : 1 ≤ d2
          · have := splitCubes_cost h1 h2 _ _ hr
            omega
          · exfalso
            rw [hn] at hr
            unfold splitCubes at hr
            rw [if_neg (by omega)] at hr
            obtain ⟨m, hm⟩ : ∃ m, d1.toNat = m + 1 := ⟨d1.toNat - 1, by omega⟩
            rw [hm] at hr
            unfold splitRows at hr
            rw [if_pos (by omega)] at hr
            cases hr
        · exfalso
          rw [hn] at hr
          unfold splitCubes at hr
          rw [if_pos (by omega)] at hr
          cases hr
      | err => rw [hr] at h; cases h
      | panic => rw [hr] at h; cases h
  · cases h

theorem cost_mShape (t : ATy) (vals : List Val) (dims : List Int) :
    Cost K (mShape t vals dims) 0 (48 * vals.length + 24) (fun _ => 0) := by
  intro s v s' ho hp
  have he : (Dec.ofRes (shape t vals dims)).run s = .ok (v, s') := by
    rw [← erase_mShape]; exact ho
  cases hs : shape t vals dims with
  | err => rw [hs] at he; cases he
  | panic => rw [hs] at he; cases he
  | ok w =>
    rw [hs] at he
    cases he
    have h0 : ¬ (0 : Int) ∈ dims := by
      intro h0
      unfold mShape at hp
      rw [if_pos h0] at hp
      change (true && (false && ((lift (Dec.ofRes (shape t vals dims))).run s).plain)) = true at hp
      simp at hp
    have hc : ((mShape t vals dims).run s).cost = shapeCost vals dims := by
      unfold mShape
      rw [if_neg h0]
      rfl
    rw [hc]
    have := shapeCost_le hs h0
    exact ⟨0, rfl, Nat.le_refl 0, by omega⟩

theorem leafCharge_le (t : LTy) : leafCharge t ≤ 64 * leafMin t ∧ leafCharge t ≤ 64 ∧ 1 ≤ leafMin t := by
  cases t <;> decide

theorem aty_charge (hK : 136 ≤ K) (t : ATy) : charge t.ty + 48 ≤ K * minSize t.ty := by
  have h : charge t.ty ≤ 88 ∧ 1 ≤ minSize t.ty := by
    cases t with
    | leaf t =>
      have := leafCharge_le t
      unfold ATy.ty charge minSize
      omega
    | _ => decide
  have := Nat.mul_le_mul hK h.2
  omega

theorem cost_mVariant (hK : 136 ≤ K) {rec : Ty → MDec Val}
    (ih : ∀ t : ATy, Cost K (rec t.ty) (minSize t.ty) (charge t.ty) (fun _ => pad (size t.ty))) (fuel : Nat) :
    Cost K (mVariant rec fuel) 1 16 (fun _ => 16) := by
  have hz : Cost K (Pure.pure Val.vnull) 0 16 (fun _ => 16) := Cost.pure _ (fun _ => 16)
  unfold mVariant
  refine Cost.bind (min₁ := 1) (min₂ := 0) (s₁ := 0) (s₂ := 16) (Cost.lift reads_readByte) (fun b => ?_)
  dsimp only
  refine Cost.ite (fun _ => Cost.ite (fun _ => hz) (fun _ => ?_)) (fun _ => Cost.ite (fun _ => Cost.ite (fun _ => hz)
    (fun _ => ?_)) (fun _ => Cost.ite (fun _ => hz) (fun _ => ?_)))
  · cases ATy.ofCode (b &&& 0x3F) with
    | none => exact cost_fail
    | some t =>
      have iht := ih t
      cases t with
      | leaf t =>
        have hl := leafCharge_le t
        have hk : 64 * leafMin t ≤ K * leafMin t := Nat.mul_le_mul_right _ (by omega)
        refine (Cost.bind (s₂ := 16) (min₂ := 0) (Q := fun _ => 16) (cost_mLeaf (by omega) t) (fun l => ?_)).mono
          (Nat.zero_le _) (fun _ => by simp only [Nat.add_zero, Nat.mul_zero]; omega)
        refine (Cost.bind (s₂ := 16) (Cost.alloc (leafSize t)) (fun _ => Cost.pure _ (fun _ => 16))).mono
          (Nat.le_refl 0) (fun _ => ?_)
        have := le_pad (leafSize t)
        omega
      | ext =>
        refine (Cost.map (Q := fun _ => 16) iht (fun _ => Nat.le_refl _)).mono (Nat.zero_le _) (fun _ => ?_)
        change 40 + K * 0 + 16 ≤ 16 + K * 3 + 16
        omega
      | dataValue =>
        refine (Cost.bind (s₂ := 16) (min₂ := 0) (Q := fun _ => 16) iht (fun l => ?_)).mono (Nat.zero_le _) (fun _ => ?_)
        · refine (Cost.bind (s₂ := 16) (Cost.alloc (size .dataValue)) (fun _ => Cost.pure _ (fun _ => 16))).mono
            (Nat.le_refl 0) (fun _ => ?_)
          change 88 + 16 + K * 0 + 16 ≤ 16 + 88 + K * 0 + 16
          omega
        · change 88 + 16 + K * 0 + 16 ≤ 16 + K * (1 + 0) + 16
          omega
      | variant =>
        refine iht.mono (Nat.zero_le _) (fun _ => ?_)
        change 16 + K * 0 + 16 ≤ 16 + K * 1 + 16
        omega
      | diag =>
        refine (Cost.bind (s₂ := 56 + 16) (min₂ := 0) (Q := fun _ => 16) (cost_mDiag fuel) (fun l => ?_)).mono
          (Nat.zero_le _) (fun _ => ?_)
        · refine (Cost.bind (s₂ := 16) (Cost.alloc (size .diag)) (fun _ => Cost.pure _ (fun _ => 16))).mono
            (Nat.le_refl 0) (fun _ => ?_)
          change 56 + 16 + K * 0 + 16 ≤ 56 + 16 + 0 + K * 0 + 16
          omega
        · omega
  · cases ATy.ofCode (b &&& 0x3F) with
    | none => exact cost_fail
    | some t =>
      refine (Cost.bind (s₂ := 24 + 16) (min₂ := 0) (Q := fun _ => 16) (cost_mArray (ih t) (aty_charge hK t)
        (le_pad _)) (fun vs => ?_)).mono (Nat.zero_le _) (fun _ => by omega)
      exact (Cost.bind (s₂ := 16) (Cost.alloc 24) (fun _ => Cost.pure _ (fun _ => 16))).mono (Nat.le_refl 0)
        (fun _ => by omega)
  · cases ATy.ofCode (b &&& 0x3F) with
    | none => exact cost_fail
    | some t =>
      refine (Cost.bind (s₂ := 24 + 16) (min₂ := 0) (Q := fun _ => 16) (cost_mArray (ih t) (aty_charge hK t)
        (le_pad _)) (fun vs => ?_)).mono (Nat.zero_le _) (fun _ => by omega)
      have hd : Cost K (lift readI32) 4 8 (fun _ => 8) := (Cost.lift reads_readI32).mono (Nat.le_refl _) (fun _ => by omega)
      refine (Cost.bind (s₂ := 48 * (vs.getD []).length + (24 + 16)) (min₂ := 0) (Q := fun _ => 16)
        (cost_mArray (sz := 4) hd (by omega) (by omega)) (fun dims => ?_)).mono (Nat.zero_le _) (fun _ => by omega)
      exact (Cost.paid (cost_mShape t _ _) 16).mono (Nat.le_refl _) (fun _ => by omega)

theorem reads_decDVTail (b : UInt8) (v : Val) (st : BitVec 32) : Reads (decDVTail b v st) 0 := by
  have o : ∀ {α : Type} {c : Prop} [Decidable c] {d : Dec α} {n : Nat} {a : α}, Reads d n →
      Reads (if c then d else Pure.pure a) 0 := fun h => Reads.ite (fun _ => h.less (Nat.zero_le _)) (fun _ => Reads.pure _)
  unfold decDVTail
  exact Reads.bind (n := 0) (k := 0) (o reads_readU32) (fun _ => Reads.bind (n := 0) (k := 0) (o reads_readDateTime)
    (fun _ => Reads.bind (n := 0) (k := 0) (o reads_readU16) (fun _ => Reads.bind (n := 0) (k := 0)
    (o reads_readDateTime) (fun _ => Reads.bind (n := 0) (k := 0) (o reads_readU16) (fun _ => Reads.pure _)))))

theorem cost_mDataValue {rec : Ty → MDec Val} (ih : Cost K (rec .variant) 1 16 (fun _ => 16)) :
    Cost K (mDataValue rec) 1 88 (fun _ => 88) := by
  unfold mDataValue
  refine Cost.bind (min₁ := 1) (min₂ := 0) (s₁ := 0) (s₂ := 88) (Cost.lift reads_readByte) (fun b => ?_)
  refine Cost.ite (fun _ => ?_) (fun _ => ?_)
  · intro s v s' ho hp
    dsimp only at ho hp ⊢
    have ih := ih s
    cases h : ((rec .variant).run s).out with
    | panic => rw [h] at ho; cases ho
    | err l => rw [h] at hp; cases hp
    | ok a =>
      obtain ⟨a, s₀⟩ := a
      rw [h] at ho hp
      dsimp only at ho hp ⊢
      obtain ⟨u, hu, _, hc⟩ := ih a s₀ h hp
      obtain ⟨u', hu', _⟩ := reads_decDVTail b a 0 s₀ v s' ho
      dsimp only at hc
      refine ⟨u + u', by omega, Nat.zero_le _, ?_⟩
      rw [Nat.mul_add]
      omega
  · exact (Cost.lift (reads_decDVTail b _ _)).mono (Nat.le_refl 0) (fun _ => by omega)

theorem cost_mExt (hK : 136 ≤ K) {R : Reg} {rec : Ty → MDec Val}
    (ih : ∀ tag, Cost K (rec (.struct (R.fieldsOf tag))) (minSizes (R.fieldsOf tag)) (charges (R.fieldsOf tag))
      (fun _ => sizes (R.fieldsOf tag))) (hR : RegFits K R) :
    Cost K (mExt R rec) 3 40 (fun _ => 16) := by
  have hz : Cost K (Pure.pure Val.extNil) 0 16 (fun _ => 16) := Cost.pure _ (fun _ => 16)
  unfold mExt
  refine (Cost.bind (min₁ := 2) (min₂ := 1) (s₁ := 24) (s₂ := 16) (cost_mNodeID (by omega)) (fun id => ?_))
  refine (Cost.bind (min₁ := 1) (min₂ := 0) (s₁ := 0) (s₂ := 16) (Cost.lift reads_readByte) (fun b => ?_))
  refine Cost.ite (fun _ => hz) (fun _ => Cost.ite (fun _ => ?_) (fun _ => Cost.ite (fun _ => ?_) (fun _ => cost_fail)))
  · cases R.tyOf id with
    | none =>
      exact (Cost.bind (s₂ := 16) (cost_mByteArray (by omega)) (fun _ => hz)).less (Nat.zero_le _)
    | some tag =>
      dsimp only
      have hr := (hR tag).2
      refine (Cost.bind (min₁ := 4) (min₂ := minSizes (R.fieldsOf tag)) (s₁ := 0)
        (s₂ := charges (R.fieldsOf tag) + sizes (R.fieldsOf tag) + 16) (Q := fun _ => 16) (Cost.lift reads_readI32)
        (fun _ => ?_)).mono (Nat.zero_le _) (fun _ => ?_)
      · refine (Cost.bind (min₁ := 0) (min₂ := minSizes (R.fieldsOf tag)) (s₁ := 2 * sizes (R.fieldsOf tag))
          (s₂ := charges (R.fieldsOf tag) + 16) (Q := fun _ => 16 + sizes (R.fieldsOf tag))
          (Cost.alloc _) (fun _ => ?_)).mono (by omega) (fun _ => by rw [Nat.zero_add]; omega)
        refine Cost.ite (fun _ => ?_) (fun _ => cost_fail)
        refine (Cost.bind (min₂ := 0) (s₂ := 16) (Q := fun _ => 16 + sizes (R.fieldsOf tag)) (ih tag) (fun v => ?_)).mono
          (Nat.le_refl _) (fun _ => by simp only [Nat.add_zero]; omega)
        cases v <;> first
          | exact cost_fail
          | exact Cost.pure _ (fun _ => 16 + sizes (R.fieldsOf tag))
      · rw [Nat.add_comm 4]
        omega
  · exact (Cost.bind (s₂ := 16) (cost_mString (by omega)) (fun _ => hz)).less (Nat.zero_le _)

theorem allFit_mem : ∀ {ts : List Ty}, allFit K ts = true → ∀ t ∈ ts, fits K t = true
  | [], _, t, ht => by cases ht
  | x :: xs, h, t, ht => by
    unfold allFit at h
    rw [Bool.and_eq_true] at h
    cases ht with
    | head => exact h.1
    | tail _ ht => exact allFit_mem h.2 t ht

theorem sizes_pad : ∀ ts, pad (sizes ts) = sizes ts
  | [] => by decide
  | t :: ts => by
    have := sizes_pad ts
    unfold sizes
    unfold pad at this ⊢
    omega

/-- The account of the whole decoder. -/
theorem cost_mdec (hK : 136 ≤ K) {R : Reg} (hR : RegFits K R) : ∀ fuel ty, fits K ty = true →
    Cost K (mdec R fuel ty) (minSize ty) (charge ty) (fun _ => pad (size ty))
  | 0, _, _ => cost_crash
  | fuel + 1, ty, hty => by
    have ih := cost_mdec hK hR fuel
    cases ty with
    | leaf t => exact Cost.map (cost_mLeaf (by omega) t) (fun _ => Nat.le_refl _)
    | bytes =>
      exact (Cost.map (Q := fun _ => 0) (cost_mByteArray (by omega)) (fun _ => Nat.le_refl _)).mono (Nat.le_refl _)
        (fun _ => by change 0 + K * 4 + 24 ≤ 24 + K * 4 + 0; omega)
    | struct ts =>
      unfold fits at hty
      unfold mdec minSize charge size
      refine Cost.map (cost_fields ts (fun t ht => ih t (allFit_mem hty t ht))) (fun _ => ?_)
      rw [sizes_pad]
      exact Nat.le_refl _
    | ptr ts =>
      unfold fits at hty
      unfold mdec minSize charge size
      dsimp only
      refine (Cost.bind (min₁ := 0) (min₂ := minSizes ts) (s₂ := 8 + charges ts) (Q := fun _ => 8 + sizes ts)
        (Cost.alloc (sizes ts)) (fun _ => ?_)).mono
        (by omega) (fun _ => by change _ + _ + 8 ≤ _; rw [Nat.zero_add]; omega)
      exact ((Cost.map (Q := fun _ => sizes ts) (cost_fields ts (fun t ht => ih t (allFit_mem hty t ht)))
        (fun _ => Nat.le_refl _))).mono (Nat.le_refl _) (fun _ => by omega)
    | slice t =>
      unfold fits at hty
      rw [Bool.and_eq_true] at hty
      have hc : charge t + 48 ≤ K * minSize t := Nat.le_of_ble_eq_true hty.2
      have e1 : minSize (.slice t) = 4 := by unfold minSize; rfl
      have e2 : charge (.slice t) = 24 := by unfold charge; rfl
      have e3 : pad (size (.slice t)) = 24 := by unfold size; rfl
      rw [e1, e2, e3]
      unfold mdec
      dsimp only
      refine Cost.bind (min₁ := 4) (min₂ := 0) (s₁ := 0) (s₂ := 24) (Cost.lift reads_readI32) (fun n =>
        Cost.ite (fun _ => ?_) (fun _ => ?_))
      · exact Cost.pure _ (fun _ => 24)
      · have hx : Cost K (Val.slice <$> mSeq (List.replicate n.toNat (mdec R fuel t))) 0 24
            (fun _ => 24 + n.toNat * size t) :=
          (Cost.map (Q := fun _ => n.toNat * size t) (cost_many (ih t hty.1) hc (le_pad _) n.toNat)
            (fun vs => by omega)).mono (Nat.le_refl _) (fun _ => by omega)
        have ha := Cost.bind (min₁ := 0) (min₂ := 0) (s₁ := n.toNat * size t) (s₂ := 24)
          (Cost.alloc (K := K) (n.toNat * size t)) (fun _ => hx)
        exact ha.mono (min' := 0) (start' := 24) (Q := fun _ => 24) (Nat.le_refl _) (fun _ => by omega)
    | variant =>
      exact cost_mVariant hK (fun t => ih t.ty (by cases t <;> rfl)) fuel
    | dataValue => exact cost_mDataValue (ih .variant rfl)
    | ext =>
      refine cost_mExt hK (fun tag => ?_) hR
      have := ih (.struct (R.fieldsOf tag)) (hR tag).1
      unfold minSize charge size at this
      rw [sizes_pad] at this
      exact this
    | diag =>
      exact (Cost.map (Q := fun _ => 0) (cost_mDiag fuel) (fun _ => Nat.le_refl _)).mono (Nat.le_refl _)
        (fun _ => by change 0 + K * 1 + 56 ≤ 56 + K * 1 + 0; omega)

end

end Opcua.Memory
