import Verif.Props.Room
import Verif.Model.Structs

/-! C149: what is read does not depend on what follows. -/
namespace Opcua.Alone

/-! ### Specification -/

/-- Types that hold no Variant, DataValue or ExtensionObject. -/
inductive Spec.Plain : Ty → Prop
  | leaf (t : LTy) : Spec.Plain (.leaf t)
  | bytes : Spec.Plain .bytes
  | struct (tys : List Ty) (h : ∀ t ∈ tys, Spec.Plain t) : Spec.Plain (.struct tys)
  | ptr (tys : List Ty) (h : ∀ t ∈ tys, Spec.Plain t) : Spec.Plain (.ptr tys)
  | slice (t : Ty) (h : Spec.Plain t) : Spec.Plain (.slice t)
  | diag : Spec.Plain .diag

mutual
/-- How deep structures and slices are nested in a type, without looking into Variants and ExtensionObjects. -/
def Spec.height : Ty → Nat
  | .struct tys => Spec.heights tys + 1
  | .ptr tys => Spec.heights tys + 1
  | .slice t => Spec.height t + 1
  | .diag => 1
  | _ => 0

def Spec.heights : List Ty → Nat
  | [] => 0
  | t :: ts => max (Spec.height t) (Spec.heights ts)
end

/-! ### Decoders that look at nothing but what they take -/

/-- What is left is the end of what was there, and what was taken gives the same result whatever comes after it; unless
`b`, this is asked only where something was left. The same of failures. -/
def Alone (b : Bool) (d : Dec α) : Prop :=
  (∀ s v r, d.run s = .ok (v, r) → ∃ c, s = c ++ r ∧ ((b = true ∨ r ≠ []) → ∀ r', d.run (c ++ r') = .ok (v, r'))) ∧
  (∀ s l, d.run s = .err l → ∃ c, s = c ++ l ∧ (l ≠ [] → ∀ r', d.run (c ++ r') = .err r'))

theorem Alone.pure {b : Bool} {v : α} : Alone b (pure v : Dec α) :=
  ⟨fun s v' r hr => by cases hr; exact ⟨[], rfl, fun _ _ => rfl⟩, fun s l hr => by cases hr⟩
theorem Alone.fail {b : Bool} : Alone b (Dec.fail : Dec α) :=
  ⟨fun s v r hr => (by cases hr), fun s l hr => by cases hr; exact ⟨[], rfl, fun _ _ => rfl⟩⟩
theorem Alone.crash {b : Bool} : Alone b (Dec.crash : Dec α) :=
  ⟨fun s v r hr => (by cases hr), fun s l hr => by cases hr⟩

theorem ne_append {c r : Bytes} (h : r ≠ []) : c ++ r ≠ [] := by
  intro hc; exact h (List.append_eq_nil_iff.mp hc).2

theorem Alone.bind {b : Bool} {d : Dec α} {f : α → Dec β} (h1 : Alone b d) (h2 : ∀ a, Alone b (f a)) :
    Alone b (d >>= f) := by
  refine ⟨fun s v r hr => ?_, fun s l hr => ?_⟩
  · cases hd : d.run s with
    | ok p =>
      obtain ⟨a, s'⟩ := p
      simp only [Bind.bind, hd] at hr
      obtain ⟨c1, rfl, k1⟩ := h1.1 s a s' hd
      obtain ⟨c2, rfl, k2⟩ := (h2 a).1 s' v r hr
      refine ⟨c1 ++ c2, (List.append_assoc ..).symm, fun hb r' => ?_⟩
      have := k1 (hb.imp id ne_append) (c2 ++ r')
      rw [List.append_assoc]
      simp only [Bind.bind, this]
      exact k2 hb r'
    | err l => simp only [Bind.bind, hd] at hr; cases hr
    | panic => simp only [Bind.bind, hd] at hr; cases hr
  · cases hd : d.run s with
    | ok p =>
      obtain ⟨a, s'⟩ := p
      simp only [Bind.bind, hd] at hr
      obtain ⟨c1, rfl, k1⟩ := h1.1 s a s' hd
      obtain ⟨c2, rfl, k2⟩ := (h2 a).2 s' l hr
      refine ⟨c1 ++ c2, (List.append_assoc ..).symm, fun hb r' => ?_⟩
      have := k1 (.inr (ne_append hb)) (c2 ++ r')
      rw [List.append_assoc]
      simp only [Bind.bind, this]
      exact k2 hb r'
    | err l' =>
      simp only [Bind.bind, hd] at hr
      cases hr
      obtain ⟨c, hc, k⟩ := h1.2 s _ hd
      refine ⟨c, hc, fun hb r' => ?_⟩
      simp only [Bind.bind, k hb r']
    | panic => simp only [Bind.bind, hd] at hr; cases hr
theorem Alone.map {b : Bool} {d : Dec α} {f : α → β} (h : Alone b d) : Alone b (f <$> d) :=
  Alone.bind h fun _ => Alone.pure
theorem Alone.ite {b : Bool} {c : Prop} [Decidable c] {d e : Dec α} (h1 : Alone b d) (h2 : Alone b e) :
    Alone b (if c then d else e) := by split <;> assumption
theorem Alone.weak {b : Bool} {d : Dec α} (h : Alone true d) : Alone b d :=
  ⟨fun s v r hr => by obtain ⟨c, h1, h2⟩ := h.1 s v r hr; exact ⟨c, h1, fun _ => h2 (.inl rfl)⟩, h.2⟩

theorem al_readN {b : Bool} (k : Nat) : Alone b (readN k) := by
  refine ⟨fun s v r hr => ?_, fun s l hr => ?_⟩
  · simp only [readN] at hr
    split at hr
    · rename_i hk
      cases hr
      refine ⟨s.take k, (List.take_append_drop k s).symm, fun _ r' => ?_⟩
      have hl : (s.take k).length = k := by simp; omega
      simp only [readN]
      rw [if_pos (by rw [List.length_append]; omega)]
      rw [List.take_append_of_le_length (by omega), List.drop_append_of_le_length (by omega),
        List.take_of_length_le (by omega), List.drop_of_length_le (by omega), List.nil_append]
    · cases hr
  · simp only [readN] at hr
    split at hr
    · cases hr
    · cases hr; exact ⟨s, (List.append_nil s).symm, fun h => absurd rfl h⟩

theorem al_bits {b : Bool} (k : Nat) : Alone b (readBits k) := Alone.bind (al_readN k) fun _ => Alone.pure
theorem al_byte {b : Bool} : Alone b readByte := Alone.bind (al_readN 1) fun _ => by
  split
  · exact Alone.pure
  · exact Alone.fail
theorem al_u16 {b : Bool} : Alone b readU16 := al_bits 2
theorem al_u32 {b : Bool} : Alone b readU32 := al_bits 4
theorem al_u64 {b : Bool} : Alone b readU64 := al_bits 8
theorem al_bool {b : Bool} : Alone b readBool := Alone.bind al_byte fun _ => Alone.pure
theorem al_i32 {b : Bool} : Alone b readI32 := Alone.bind al_u32 fun _ => Alone.pure
theorem al_string {b : Bool} : Alone b readString := Alone.bind al_i32 fun _ => Alone.ite Alone.pure (al_readN _)
theorem al_bytestring {b : Bool} : Alone b readByteString := Alone.bind al_i32 fun _ => Alone.ite Alone.pure (al_readN _)
theorem al_bytearray {b : Bool} : Alone b readByteArray :=
  Alone.bind al_i32 fun _ => Alone.ite Alone.pure (Alone.map (al_readN _))
theorem al_datetime {b : Bool} : Alone b readDateTime := Alone.bind al_u64 fun _ => Alone.pure
theorem al_guid {b : Bool} : Alone b readGuid := by
  refine Alone.bind (al_readN 8) fun _ => ?_
  split
  · refine Alone.bind (al_readN 8) fun _ => ?_
    split
    · exact Alone.pure
    · exact Alone.fail
  · exact Alone.fail
theorem al_nodeID {b : Bool} : Alone b readNodeID := by
  refine Alone.bind al_byte fun _ => ?_
  refine Alone.ite (Alone.bind al_byte fun _ => Alone.ite Alone.pure Alone.pure) <|
    Alone.ite (Alone.bind al_byte fun _ => Alone.bind al_u16 fun _ => Alone.pure) <|
    Alone.ite (Alone.bind al_u16 fun _ => Alone.bind al_u32 fun _ => Alone.pure) <|
    Alone.ite (Alone.bind al_u16 fun _ => Alone.bind al_string fun _ => Alone.ite Alone.pure Alone.pure) <|
    Alone.ite (Alone.bind al_u16 fun _ => Alone.bind al_guid fun _ => Alone.ite Alone.pure Alone.pure) <|
    Alone.ite (Alone.bind al_u16 fun _ => Alone.bind al_bytestring fun _ => Alone.ite Alone.pure Alone.pure) Alone.fail
theorem al_expBody {b : Bool} (t : UInt8) : Alone b (readExpandedBody t) :=
  Alone.ite (Alone.bind al_byte fun _ => Alone.ite Alone.pure Alone.pure) <|
    Alone.ite (Alone.bind al_byte fun _ => Alone.bind al_u16 fun _ => Alone.pure) <|
    Alone.ite (Alone.bind al_u16 fun _ => Alone.bind al_u32 fun _ => Alone.pure) <|
    Alone.ite (Alone.bind al_u16 fun _ => Alone.bind al_string fun _ => Alone.pure) <|
    Alone.ite (Alone.bind al_u16 fun _ => Alone.bind al_guid fun _ => Alone.pure) <|
    Alone.ite (Alone.bind al_u16 fun _ => Alone.bind al_bytestring fun _ => Alone.pure) Alone.fail
theorem al_expanded {b : Bool} : Alone b readExpandedNodeID :=
  Alone.bind al_byte fun _ => Alone.bind (al_expBody _) fun _ => Alone.bind (Alone.ite al_string Alone.pure) fun _ =>
    Alone.bind (Alone.ite al_u32 Alone.pure) fun _ => Alone.pure
theorem al_qualifiedName {b : Bool} : Alone b readQualifiedName :=
  Alone.bind al_u16 fun _ => Alone.bind al_string fun _ => Alone.pure
theorem al_localizedText {b : Bool} : Alone b readLocalizedText :=
  Alone.bind al_byte fun _ => Alone.bind (Alone.ite al_string Alone.pure) fun _ =>
    Alone.bind (Alone.ite al_string Alone.pure) fun _ => Alone.pure

theorem al_leaf {b : Bool} (t : LTy) : Alone b (decLeaf t) := by
  cases t <;> rw [decLeaf] <;> apply Alone.map
  all_goals first
    | exact al_bool | exact al_bits 1 | exact al_u16 | exact al_u32 | exact al_u64 | exact al_string
    | exact al_bytestring | exact al_datetime | exact al_guid | exact al_nodeID | exact al_expanded
    | exact al_qualifiedName | exact al_localizedText

theorem al_diag {b : Bool} : ∀ f, Alone b (readDiag f)
  | 0 => Alone.crash
  | f + 1 => by
    unfold readDiag
    refine Alone.bind al_byte fun _ => ?_
    exact Alone.ite (Alone.bind al_u32 fun _ => Alone.crash) <| Alone.ite (Alone.bind al_u32 fun _ => Alone.crash) <|
      Alone.ite (Alone.bind al_u32 fun _ => Alone.crash) <| Alone.ite (Alone.bind al_u32 fun _ => Alone.crash) <|
      Alone.ite (Alone.bind al_string fun _ => Alone.crash) <| Alone.ite (Alone.bind al_u32 fun _ => Alone.crash) <|
      Alone.ite (Alone.bind (al_diag f) fun _ => Alone.crash) Alone.pure

theorem al_seq {b : Bool} : ∀ ds : List (Dec α), (∀ d ∈ ds, Alone b d) → Alone b (decSeq ds)
  | [], _ => Alone.pure
  | d :: ds, h => by
    rw [decSeq]
    exact Alone.bind (h d (List.mem_cons_self ..)) fun _ =>
      Alone.bind (al_seq ds fun x hx => h x (List.mem_cons_of_mem _ hx)) fun _ => Alone.pure

theorem al_many {b : Bool} {d : Dec α} (h : Alone b d) (n : Nat) : Alone b (decSeq (List.replicate n d)) :=
  al_seq _ fun x hx => by rw [(List.mem_replicate.mp hx).2]; exact h

theorem al_array {b : Bool} {d : Dec α} (h : Alone b d) : Alone b (decArray d) :=
  Alone.bind al_i32 fun _ => Alone.ite Alone.pure (Alone.map (al_many h _))

theorem al_variant {b : Bool} {rec : Ty → Dec Val} (ih : ∀ ty, Alone b (rec ty)) (f : Nat) : Alone b (decVariant rec f) := by
  unfold decVariant
  refine Alone.bind al_byte fun _ => Alone.ite (Alone.ite Alone.pure ?_) <| Alone.ite (Alone.ite Alone.pure ?_) <|
    Alone.ite Alone.pure ?_
  · split
    · exact Alone.map (al_leaf _)
    · exact Alone.map (ih _)
    · exact Alone.map (ih _)
    · exact ih _
    · exact Alone.map (al_diag _)
    · exact Alone.fail
  · split
    · exact Alone.map (al_array (ih _))
    · exact Alone.fail
  · split
    · refine Alone.bind (al_array (ih _)) fun vs => Alone.bind (al_array al_i32) fun ds => ?_
      cases shape _ (vs.getD []) (ds.getD []) with
      | ok v => exact Alone.pure
      | err => exact Alone.fail
      | panic => exact Alone.crash
    · exact Alone.fail

theorem al_dvTail {b : Bool} (m : UInt8) (v : Val) (st0 : BitVec 32) : Alone b (decDVTail m v st0) :=
  Alone.bind (Alone.ite al_u32 Alone.pure) fun _ => Alone.bind (Alone.ite al_datetime Alone.pure) fun _ =>
    Alone.bind (Alone.ite al_u16 Alone.pure) fun _ => Alone.bind (Alone.ite al_datetime Alone.pure) fun _ =>
    Alone.bind (Alone.ite al_u16 Alone.pure) fun _ => Alone.pure

theorem al_dataValue {rec : Ty → Dec Val} (ih : ∀ ty, Alone false (rec ty)) : Alone false (decDataValue rec) := by
  unfold decDataValue
  refine Alone.bind al_byte fun b => Alone.ite ?_ (al_dvTail _ _ _)
  refine ⟨fun s v r hr => ?_, fun s l hr => ?_⟩
  · simp only at hr
    split at hr
    · rename_i v' s' h'
      obtain ⟨c1, rfl, k1⟩ := (ih .variant).1 s v' s' h'
      obtain ⟨c2, rfl, k2⟩ := (al_dvTail b v' 0).1 s' v r hr
      refine ⟨c1 ++ c2, (List.append_assoc ..).symm, fun hb r' => ?_⟩
      simp only [List.append_assoc, k1 (hb.imp id ne_append) (c2 ++ r')]
      exact k2 hb r'
    · rename_i left h'
      obtain ⟨c1, rfl, k1⟩ := (ih .variant).2 s left h'
      obtain ⟨c2, rfl, k2⟩ := (al_dvTail b .vnull badDataTypeIDUnknown).1 left v r hr
      refine ⟨c1 ++ c2, (List.append_assoc ..).symm, fun hb r' => ?_⟩
      simp only [List.append_assoc, k1 (ne_append (by simpa using hb)) (c2 ++ r')]
      exact k2 hb r'
    · cases hr
  · simp only at hr
    split at hr
    · rename_i v' s' h'
      obtain ⟨c1, rfl, k1⟩ := (ih .variant).1 s v' s' h'
      obtain ⟨c2, rfl, k2⟩ := (al_dvTail (b := false) b v' 0).2 s' l hr
      refine ⟨c1 ++ c2, (List.append_assoc ..).symm, fun hb r' => ?_⟩
      simp only [List.append_assoc, k1 (.inr (ne_append hb)) (c2 ++ r')]
      exact k2 hb r'
    · rename_i left h'
      obtain ⟨c1, rfl, k1⟩ := (ih .variant).2 s left h'
      obtain ⟨c2, rfl, k2⟩ := (al_dvTail (b := false) b .vnull badDataTypeIDUnknown).2 left l hr
      refine ⟨c1 ++ c2, (List.append_assoc ..).symm, fun hb r' => ?_⟩
      simp only [List.append_assoc, k1 (ne_append hb) (c2 ++ r')]
      exact k2 hb r'
    · cases hr

theorem al_ext {b : Bool} (R : Reg) {rec : Ty → Dec Val} (ih : ∀ ty, Alone b (rec ty)) : Alone b (decExt R rec) := by
  unfold decExt
  refine Alone.bind al_nodeID fun id => Alone.bind al_byte fun _ => Alone.ite Alone.pure <| Alone.ite ?_ <|
    Alone.ite (Alone.bind al_string fun _ => Alone.pure) Alone.fail
  split
  · refine Alone.bind al_i32 fun _ => Alone.ite (Alone.bind (ih _) fun v => ?_) Alone.fail
    split
    · exact Alone.pure
    · exact Alone.fail
  · exact Alone.bind al_bytearray fun _ => Alone.pure

theorem al_dec (R : Reg) : ∀ f ty, Alone false (dec R f ty)
  | 0, ty => by unfold dec; exact Alone.crash
  | f + 1, ty => by
    have ih := al_dec R f
    cases ty <;> rw [dec]
    · exact Alone.map (al_leaf _)
    · exact Alone.map al_bytearray
    · exact Alone.map (al_seq _ fun d hd => by obtain ⟨t, -, rfl⟩ := List.mem_map.mp hd; exact ih t)
    · exact Alone.map (al_seq _ fun d hd => by obtain ⟨t, -, rfl⟩ := List.mem_map.mp hd; exact ih t)
    · exact Alone.bind al_i32 fun _ => Alone.ite Alone.pure (Alone.map (al_many (ih _) _))
    · exact al_variant ih f
    · exact al_dataValue ih
    · exact al_ext R ih
    · exact Alone.map (al_diag f)

theorem al_plain (R : Reg) : ∀ f ty, Spec.Plain ty → Alone true (dec R f ty)
  | 0, ty, _ => by unfold dec; exact Alone.crash
  | f + 1, ty, h => by
    have ih := al_plain R f
    cases h <;> rw [dec]
    · exact Alone.map (al_leaf _)
    · exact Alone.map al_bytearray
    · rename_i tys h
      exact Alone.map (al_seq _ fun d hd => by obtain ⟨t, ht, rfl⟩ := List.mem_map.mp hd; exact ih t (h t ht))
    · rename_i tys h
      exact Alone.map (al_seq _ fun d hd => by obtain ⟨t, ht, rfl⟩ := List.mem_map.mp hd; exact ih t (h t ht))
    · rename_i t h
      exact Alone.bind al_i32 fun _ => Alone.ite Alone.pure (Alone.map (al_many (ih t h) _))
    · exact Alone.map (al_diag f)

/-! ### The room on the stack -/

/-- With more room: the same, unless there was too little. -/
def Le (d d' : Dec α) : Prop := ∀ s, d.run s = .panic ∨ d'.run s = d.run s

theorem Le.refl {d : Dec α} : Le d d := fun _ => .inr rfl
theorem Le.bind {d d' : Dec α} {f f' : α → Dec β} (h1 : Le d d') (h2 : ∀ a, Le (f a) (f' a)) :
    Le (d >>= f) (d' >>= f') := by
  intro s
  rcases h1 s with h | h
  · left; simp only [Bind.bind, h]
  · cases hd : d.run s with
    | ok p =>
      obtain ⟨a, s'⟩ := p
      rw [hd] at h
      simp only [Bind.bind, hd, h]
      exact h2 a s'
    | err l => rw [hd] at h; right; simp only [Bind.bind, hd, h]
    | panic => left; simp only [Bind.bind, hd]
theorem Le.map {d d' : Dec α} {f : α → β} (h : Le d d') : Le (f <$> d) (f <$> d') := Le.bind h fun _ => Le.refl
theorem Le.ite {c : Prop} [Decidable c] {d d' e e' : Dec α} (h1 : Le d d') (h2 : Le e e') :
    Le (if c then d else e) (if c then d' else e') := by split <;> assumption

theorem le_diag : ∀ f, Le (readDiag f) (readDiag (f + 1))
  | 0 => fun _ => .inl rfl
  | f + 1 => by
    unfold readDiag
    exact Le.bind Le.refl fun _ => Le.ite Le.refl <| Le.ite Le.refl <| Le.ite Le.refl <| Le.ite Le.refl <|
      Le.ite Le.refl <| Le.ite Le.refl <| Le.ite (Le.bind (le_diag f) fun _ => Le.refl) Le.refl

theorem le_fields {rec rec' : Ty → Dec Val} (ih : ∀ ty, Le (rec ty) (rec' ty)) : ∀ tys : List Ty,
    Le (decSeq (tys.map rec)) (decSeq (tys.map rec'))
  | [] => Le.refl
  | t :: ts => by
    rw [List.map_cons, List.map_cons, decSeq, decSeq]
    exact Le.bind (ih t) fun _ => Le.bind (le_fields ih ts) fun _ => Le.refl

theorem le_many {rec rec' : Ty → Dec Val} (ih : ∀ ty, Le (rec ty) (rec' ty)) (ty : Ty) (n : Nat) :
    Le (decSeq (List.replicate n (rec ty))) (decSeq (List.replicate n (rec' ty))) := by
  rw [← List.map_replicate, ← List.map_replicate]; exact le_fields ih _

theorem le_array {rec rec' : Ty → Dec Val} (ih : ∀ ty, Le (rec ty) (rec' ty)) (ty : Ty) :
    Le (decArray (rec ty)) (decArray (rec' ty)) :=
  Le.bind Le.refl fun _ => Le.ite Le.refl (Le.map (le_many ih _ _))

theorem le_variant {rec rec' : Ty → Dec Val} (ih : ∀ ty, Le (rec ty) (rec' ty)) (f : Nat) :
    Le (decVariant rec f) (decVariant rec' (f + 1)) := by
  unfold decVariant
  refine Le.bind Le.refl fun b => Le.ite (Le.ite Le.refl ?_) <| Le.ite (Le.ite Le.refl ?_) <| Le.ite Le.refl ?_
  · split
    · exact Le.refl
    · exact Le.map (ih _)
    · exact Le.map (ih _)
    · exact ih _
    · exact Le.map (le_diag _)
    · exact Le.refl
  · split
    · exact Le.map (le_array ih _)
    · exact Le.refl
  · split
    · exact Le.bind (le_array ih _) fun vs => Le.refl
    · exact Le.refl

theorem le_dataValue {rec rec' : Ty → Dec Val} (ih : ∀ ty, Le (rec ty) (rec' ty)) :
    Le (decDataValue rec) (decDataValue rec') := by
  unfold decDataValue
  refine Le.bind Le.refl fun b => Le.ite ?_ Le.refl
  intro s
  rcases ih .variant s with h | h
  · left; simp only [h]
  · right; simp only [h]

theorem le_ext (R : Reg) {rec rec' : Ty → Dec Val} (ih : ∀ ty, Le (rec ty) (rec' ty)) :
    Le (decExt R rec) (decExt R rec') := by
  unfold decExt
  refine Le.bind Le.refl fun id => Le.bind Le.refl fun _ => Le.ite Le.refl <| Le.ite ?_ Le.refl
  split
  · exact Le.bind Le.refl fun _ => Le.ite (Le.bind (ih _) fun v => Le.refl) Le.refl
  · exact Le.refl

theorem le_dec (R : Reg) : ∀ f ty, Le (dec R f ty) (dec R (f + 1) ty)
  | 0, ty => fun _ => .inl (by unfold dec; rfl)
  | f + 1, ty => by
    have ih := le_dec R f
    cases ty <;> rw [dec, dec]
    · exact Le.refl
    · exact Le.refl
    · exact Le.map (le_fields ih _)
    · exact Le.map (le_fields ih _)
    · exact Le.bind Le.refl fun _ => Le.ite Le.refl (Le.map (le_many ih _ _))
    · exact le_variant ih f
    · exact le_dataValue ih
    · exact le_ext R ih
    · exact Le.map (le_diag f)

/-! How much room is enough. -/

/-- The same on inputs of at most `n` bytes. -/
def Same (n : Nat) (d d' : Dec α) : Prop := ∀ s, s.length ≤ n → d.run s = d'.run s

/-- At least `k` bytes are taken. -/
def Takes (k : Nat) (d : Dec α) : Prop := ∀ s a r, d.run s = .ok (a, r) → r.length + k ≤ s.length

theorem Same.refl {n : Nat} {d : Dec α} : Same n d d := fun _ _ => rfl
theorem Same.bind {n k : Nat} {d d' : Dec α} {f f' : α → Dec β} (h1 : Same n d d') (hk : Takes k d)
    (h2 : ∀ a, k ≤ n → Same (n - k) (f a) (f' a)) : Same n (d >>= f) (d' >>= f') := by
  intro s hs
  have := h1 s hs
  simp only [Bind.bind, ← this]
  cases hd : d.run s with
  | ok p =>
    obtain ⟨a, s'⟩ := p
    have := hk s a s' hd
    exact h2 a (by omega) s' (by omega)
  | err l => rfl
  | panic => rfl
theorem Same.map {n : Nat} {d d' : Dec α} {f : α → β} (h : Same n d d') : Same n (f <$> d) (f <$> d') := by
  intro s hs
  have := h s hs
  simp only [Functor.map, this]
theorem Same.ite {n : Nat} {c : Prop} [Decidable c] {d d' e e' : Dec α} (h1 : Same n d d') (h2 : Same n e e') :
    Same n (if c then d else e) (if c then d' else e') := by split <;> assumption

theorem takes_uses {P : α → Nat → Prop} {d : Dec α} {k : Nat} (h : Room.Uses d P) (hk : ∀ a n, P a n → k ≤ n) : Takes k d := by
  intro s a r hr
  obtain ⟨h1, h2⟩ := h.1 s a r hr
  have := hk _ _ h2
  omega
theorem takes_alone {b : Bool} {d : Dec α} (h : Alone b d) : Takes 0 d := by
  intro s a r hr
  obtain ⟨c, rfl, -⟩ := h.1 s a r hr
  simp
theorem takes_byte : Takes 1 readByte := takes_uses Room.uses_byte fun _ _ h => by omega
theorem takes_i32 : Takes 0 readI32 := takes_uses Room.uses_i32 fun _ _ h => by omega

theorem same_diag : ∀ f n, n < f → Same n (readDiag f) (readDiag (f + 1))
  | 0, n, h => absurd h (Nat.not_lt_zero n)
  | f + 1, n, h => by
    unfold readDiag
    exact Same.bind Same.refl takes_byte fun _ hn => Same.ite Same.refl <| Same.ite Same.refl <| Same.ite Same.refl <|
      Same.ite Same.refl <| Same.ite Same.refl <| Same.ite Same.refl <|
      Same.ite (Same.bind (same_diag f (n - 1) (by omega)) (takes_alone (al_diag (b := false) f)) fun _ _ => Same.refl) Same.refl

theorem same_fields {n : Nat} {rec rec' : Ty → Dec Val} : ∀ tys : List Ty, (∀ t ∈ tys, Same n (rec t) (rec' t)) →
    (∀ t, Alone false (rec t)) → Same n (decSeq (tys.map rec)) (decSeq (tys.map rec'))
  | [], _, _ => Same.refl
  | t :: ts, ih, ha => by
    rw [List.map_cons, List.map_cons, decSeq, decSeq]
    exact Same.bind (ih t (List.mem_cons_self ..)) (takes_alone (ha t)) fun _ _ =>
      Same.bind (same_fields ts (fun x hx => ih x (List.mem_cons_of_mem _ hx)) ha)
        (takes_alone (al_seq (b := false) _ fun d hd => by obtain ⟨t, -, rfl⟩ := List.mem_map.mp hd; exact ha t))
        fun _ _ => Same.refl

theorem same_many {n : Nat} {rec rec' : Ty → Dec Val} (ty : Ty) (h : Same n (rec ty) (rec' ty))
    (ha : ∀ t, Alone false (rec t)) (k : Nat) :
    Same n (decSeq (List.replicate k (rec ty))) (decSeq (List.replicate k (rec' ty))) := by
  rw [← List.map_replicate, ← List.map_replicate]
  exact same_fields _ (fun t ht => by rw [(List.mem_replicate.mp ht).2]; exact h) ha

theorem same_array {n : Nat} {rec rec' : Ty → Dec Val} (ty : Ty) (h : Same n (rec ty) (rec' ty))
    (ha : ∀ t, Alone false (rec t)) : Same n (decArray (rec ty)) (decArray (rec' ty)) :=
  Same.bind Same.refl takes_i32 fun _ _ => Same.ite Same.refl (Same.map (same_many ty h ha _))

theorem height_mem : ∀ (tys : List Ty) (t : Ty), t ∈ tys → Spec.height t ≤ Spec.heights tys
  | [], _, h => absurd h (List.not_mem_nil)
  | x :: xs, t, h => by
    rw [Spec.heights]
    rcases List.mem_cons.mp h with rfl | h
    · omega
    · have := height_mem xs t h; omega

theorem same_variant {n f : Nat} {rec rec' : Ty → Dec Val} (ha : ∀ t, Alone false (rec t))
    (ih : ∀ ty, 1 ≤ n → Spec.height ty ≤ 1 → Same (n - 1) (rec ty) (rec' ty)) (hf : 1 ≤ n → n - 1 < f) :
    Same n (decVariant rec f) (decVariant rec' (f + 1)) := by
  unfold decVariant
  have hz : ∀ t : ATy, Spec.height t.ty ≤ 1 := by intro t; cases t <;> simp [ATy.ty, Spec.height]
  refine Same.bind Same.refl takes_byte fun b hn => Same.ite (Same.ite Same.refl ?_) <|
    Same.ite (Same.ite Same.refl ?_) <| Same.ite Same.refl ?_
  · split
    · exact Same.refl
    · exact Same.map (ih _ hn (by simp [Spec.height]))
    · exact Same.map (ih _ hn (by simp [Spec.height]))
    · exact ih _ hn (by simp [Spec.height])
    · exact Same.map (same_diag _ _ (hf hn))
    · exact Same.refl
  · split
    · exact Same.map (same_array _ (ih _ hn (hz _)) ha)
    · exact Same.refl
  · split
    · exact Same.bind (same_array _ (ih _ hn (hz _)) ha) (takes_alone (al_array (ha _))) fun vs _ => Same.refl
    · exact Same.refl

theorem same_dataValue {n : Nat} {rec rec' : Ty → Dec Val} (ih : 1 ≤ n → Same (n - 1) (rec .variant) (rec' .variant)) :
    Same n (decDataValue rec) (decDataValue rec') := by
  unfold decDataValue
  refine Same.bind Same.refl takes_byte fun b hn => Same.ite ?_ Same.refl
  intro s hs
  simp only [ih hn s hs]

theorem same_ext {n : Nat} (R : Reg) {rec rec' : Ty → Dec Val} (ha : ∀ t, Alone false (rec t))
    (ih : ∀ tag, 1 ≤ n → Same (n - 1) (rec (.struct (R.fieldsOf tag))) (rec' (.struct (R.fieldsOf tag)))) :
    Same n (decExt R rec) (decExt R rec') := by
  unfold decExt
  refine Same.bind Same.refl (takes_alone (al_nodeID (b := false))) fun id _ => Same.bind Same.refl takes_byte fun _ hn =>
    Same.ite Same.refl <| Same.ite ?_ Same.refl
  split
  · refine Same.bind Same.refl takes_i32 fun _ _ => Same.ite (Same.bind (ih _ (by omega)) (takes_alone (ha _)) fun v _ => ?_) Same.refl
    exact Same.refl
  · exact Same.refl

theorem same_dec (R : Reg) (H : Nat) (hH : ∀ tag, Spec.heights (R.fieldsOf tag) ≤ H) : ∀ f n ty,
    n * (H + 2) + Spec.height ty < f → Same n (dec R f ty) (dec R (f + 1) ty)
  | 0, n, ty, h => absurd h (Nat.not_lt_zero _)
  | f + 1, n, ty, h => by
    have ih := same_dec R H hH f
    have hn : 1 ≤ n → (n - 1) * (H + 2) + (H + 2) = n * (H + 2) := fun h1 => by
      obtain ⟨m, rfl⟩ := Nat.exists_eq_add_of_le' h1
      rw [Nat.add_sub_cancel, Nat.add_mul, Nat.one_mul]
    have hm : n ≤ n * (H + 2) := Nat.le_mul_of_pos_right _ (by omega)
    cases ty <;> rw [dec, dec]
    · exact Same.refl
    · exact Same.refl
    · rename_i tys
      rw [Spec.height] at h
      exact Same.map (same_fields _ (fun t ht => ih n t (by have := height_mem tys t ht; omega)) (al_dec R f))
    · rename_i tys
      rw [Spec.height] at h
      exact Same.map (same_fields _ (fun t ht => ih n t (by have := height_mem tys t ht; omega)) (al_dec R f))
    · rename_i t
      rw [Spec.height] at h
      exact Same.bind Same.refl takes_i32 fun _ _ => Same.ite Same.refl
        (Same.map (same_many t (ih n t (by omega)) (al_dec R f) _))
    · exact same_variant (al_dec R f) (fun ty h1 h0 => ih _ _ (by have := hn h1; omega)) (by omega)
    · exact same_dataValue fun h1 => ih _ _ (by have := hn h1; simp only [Spec.height]; omega)
    · exact same_ext R (al_dec R f) fun tag h1 => ih _ _ (by have := hn h1; have := hH tag; rw [Spec.height]; omega)
    · rw [Spec.height] at h
      exact Same.map (same_diag f n (by omega))

/-! ### C149 -/

/-- The room that a decoder needs is bounded by the length of the message: beyond (H + 2) frames for each byte, with H the
nesting of structures in the types that are registered, more room changes nothing, not even a crash. -/
theorem C149_depth (R : Reg) (H : Nat) (hH : ∀ tag, Spec.heights (R.fieldsOf tag) ≤ H) (f g : Nat) (ty : Ty) (s : Bytes)
    (hf : s.length * (H + 2) + Spec.height ty < f) (hg : s.length * (H + 2) + Spec.height ty < g) :
    (dec R f ty).run s = (dec R g ty).run s := by
  have key : ∀ k f, s.length * (H + 2) + Spec.height ty < f → (dec R f ty).run s = (dec R (f + k) ty).run s := by
    intro k
    induction k with
    | zero => intro f _; rfl
    | succ k ih =>
      intro f h
      rw [ih f h]
      exact same_dec R H hH (f + k) s.length ty (by omega) s (Nat.le_refl _)
  rcases Nat.le_total f g with h | h
  · obtain ⟨k, rfl⟩ := Nat.exists_eq_add_of_le h
    exact key k f hf
  · obtain ⟨k, rfl⟩ := Nat.exists_eq_add_of_le h
    exact (key k g hg).symm

theorem heights_small : ((List.range Structs.structs.length).all fun i =>
    decide (Spec.heights (Structs.fieldTys Structs.nesting i) ≤ 13)) = true := by decide +kernel

/-- With the structures that the library registers, fifteen frames for each byte are enough. -/
theorem C149_standard (f g : Nat) (ty : Ty) (s : Bytes) (hf : 15 * s.length + Spec.height ty < f)
    (hg : 15 * s.length + Spec.height ty < g) : (dec Structs.reg f ty).run s = (dec Structs.reg g ty).run s := by
  have hH : ∀ tag, Spec.heights (Structs.reg.fieldsOf tag) ≤ 13 := by
    intro tag
    show Spec.heights (Structs.fieldTys Structs.nesting tag) ≤ 13
    by_cases h : tag < Structs.structs.length
    · have := List.all_eq_true.mp heights_small tag (List.mem_range.mpr h)
      simpa using this
    · have h0 : Structs.structs[tag]? = none := List.getElem?_eq_none (by omega)
      have : Structs.fieldTys Structs.nesting tag = [] := by
        show (Structs.fieldsOf tag).map _ = []
        rw [Structs.fieldsOf, h0]
        rfl
      rw [this, Spec.heights]
      omega
  exact C149_depth Structs.reg 13 hH f g ty s (by omega) (by omega)

/-- And one frame for a byte is needed: Variants in Variants, `n` deep, take more than `n` frames. -/
theorem C149_deep (R : Reg) (rest : Bytes) : ∀ n, (dec R n .variant).run (List.replicate n 24 ++ rest) = .panic
  | 0 => rfl
  | n + 1 => by
    have h : ∀ s, (dec R (n + 1) .variant).run (24 :: s) = (dec R n .variant).run s := fun s => rfl
    rw [List.replicate_succ, List.cons_append, h]
    exact C149_deep R rest n

example : ∀ tag, Spec.heights (SendOn.demo.fieldsOf tag) ≤ 0 := by
  intro tag
  show Spec.heights (if tag = 1 then _ else _) ≤ 0
  split <;> simp [Spec.heights, Spec.height]

/-- Nor on how deep in the stack it is read: with more room the same is read, and the same refused. -/
theorem C149_room (R : Reg) (f g : Nat) (hg : f ≤ g) (ty : Ty) (s : Bytes) (h : (dec R f ty).run s ≠ .panic) :
    (dec R g ty).run s = (dec R f ty).run s := by
  obtain ⟨k, rfl⟩ := Nat.exists_eq_add_of_le hg
  clear hg
  induction k with
  | zero => rfl
  | succ k ih =>
    rcases le_dec R (f + k) ty s with h' | h'
    · exact absurd (ih ▸ h') h
    · exact h'.trans ih

/-- A value that was read before the end of a message is the value of the bytes that were taken: it is read the same from
these bytes by themselves and before anything else, and the reader stops at their end. -/
theorem C149_alone_partial (R : Reg) (f : Nat) (ty : Ty) (s rest : Bytes) (v : Val)
    (h : (dec R f ty).run s = .ok (v, rest)) (hr : rest ≠ []) :
    ∃ c, s = c ++ rest ∧ ∀ more, (dec R f ty).run (c ++ more) = .ok (v, more) := by
  obtain ⟨c, h1, h2⟩ := (al_dec R f ty).1 s v rest h
  exact ⟨c, h1, h2 (.inr hr)⟩

/-- Bytes that are refused before the end of a message are refused whatever follows, at the same place. -/
theorem C149_refused (R : Reg) (f : Nat) (ty : Ty) (s left : Bytes) (h : (dec R f ty).run s = .err left)
    (hl : left ≠ []) : ∃ c, s = c ++ left ∧ ∀ more, (dec R f ty).run (c ++ more) = .err more := by
  obtain ⟨c, h1, h2⟩ := (al_dec R f ty).2 s left h
  exact ⟨c, h1, h2 hl⟩

/-- Types without Variants, DataValues and ExtensionObjects in them are so at the end of a message as well. -/
theorem C149_plain (R : Reg) (f : Nat) (ty : Ty) (hp : Spec.Plain ty) (s rest : Bytes) (v : Val)
    (h : (dec R f ty).run s = .ok (v, rest)) :
    ∃ c, s = c ++ rest ∧ ∀ more, (dec R f ty).run (c ++ more) = .ok (v, more) := by
  obtain ⟨c, h1, h2⟩ := (al_plain R f ty hp).1 s v rest h
  exact ⟨c, h1, h2 (.inl rfl)⟩

/-- So no part of what is accepted is accepted: if bytes are read as a value to their end, a proper beginning of them is
not, be they as the encoder writes them or not. -/
theorem C149_cut_plain (R : Reg) (f : Nat) (ty : Ty) (hp : Spec.Plain ty) (p q : Bytes) (v : Val)
    (h : (dec R f ty).run (p ++ q) = .ok (v, [])) (hq : q ≠ []) (w : Val) (r : Bytes) :
    (dec R f ty).run p ≠ .ok (w, r) := by
  intro hc
  obtain ⟨c, rfl, h2⟩ := C149_plain R f ty hp p r w hc
  have := h2 (r ++ q)
  rw [← List.append_assoc, h] at this
  injection this with this
  injection this with _ this
  exact hq (List.append_eq_nil_iff.mp this.symm).2

/-- With DataValues in it such a beginning is accepted only in that all of it is taken. -/
theorem C149_cut_partial (R : Reg) (f : Nat) (ty : Ty) (p q : Bytes) (v : Val)
    (h : (dec R f ty).run (p ++ q) = .ok (v, [])) (w : Val) (r : Bytes)
    (hc : (dec R f ty).run p = .ok (w, r)) : r = [] := by
  by_cases hr : r = []
  · exact hr
  · obtain ⟨c, rfl, h2⟩ := C149_alone_partial R f ty p r w hc hr
    have := h2 (r ++ q)
    rw [← List.append_assoc, h] at this
    injection this with this
    injection this with _ this
    exact (List.append_eq_nil_iff.mp this.symm).1

/-- Values one after the other: all but the last are read as each would be by itself. -/
theorem C149_sequence_partial (R : Reg) (f : Nat) (ty : Ty) (tys : List Ty) (s rest : Bytes) (v : Val) (vs : List Val)
    (h : (decSeq ((ty :: tys).map (dec R f))).run s = .ok (v :: vs, rest)) (hr : rest ≠ []) :
    ∃ c s', s = c ++ s' ∧ (∀ more, (dec R f ty).run (c ++ more) = .ok (v, more)) ∧
      (decSeq (tys.map (dec R f))).run s' = .ok (vs, rest) := by
  rw [List.map_cons, decSeq] at h
  cases hd : (dec R f ty).run s with
  | ok p =>
    obtain ⟨a, s'⟩ := p
    simp only [Bind.bind, hd] at h
    cases hs : (decSeq (tys.map (dec R f))).run s' with
    | ok p =>
      obtain ⟨as, s2⟩ := p
      simp only [hs] at h
      cases h
      obtain ⟨c2, h2, -⟩ := (al_seq (b := false) (tys.map (dec R f)) fun d hd => by
        obtain ⟨t, -, rfl⟩ := List.mem_map.mp hd; exact al_dec R f t).1 s' vs rest hs
      obtain ⟨c, h3, h4⟩ := C149_alone_partial R f ty s s' v hd (by rw [h2]; exact ne_append hr)
      exact ⟨c, s', h3, h4, hs⟩
    | err l => simp only [hs] at h; cases h
    | panic => simp only [hs] at h; cases h
  | err l => simp only [Bind.bind, hd] at h; cases h
  | panic => simp only [Bind.bind, hd] at h; cases h

/-! Cases that meet the hypotheses: the DataValue with a structure of C147, two bytes before the end; a type that is not
known, refused; a structure of plain fields at the end. -/

example : ∃ c, SendOn.wordy ++ [1, 2] = c ++ [1, 2] ∧ ∀ more, (dec SendOn.demo 8 .dataValue).run (c ++ more) =
    .ok (.dv (.vext 1 [.leaf (.b32 7), .leaf (.str [])]) 0x80000000 Time.zero 0 Time.zero 0, more) :=
  C149_alone_partial SendOn.demo 8 .dataValue _ [1, 2] _ rfl (by simp)
example : ∃ c, ([31, 7, 7] : Bytes) = c ++ [7, 7] ∧ ∀ more, (dec SendOn.demo 8 .variant).run (c ++ more) = .err more :=
  C149_refused SendOn.demo 8 .variant _ [7, 7] rfl (by simp)
example : Spec.Plain (.struct [.leaf .uint16, .slice (.leaf .string)]) ∧
    (dec SendOn.demo 8 (.struct [.leaf .uint16, .slice (.leaf .string)])).run [5, 0, 1, 0, 0, 0, 1, 0, 0, 0, 65] =
      .ok (.struct [.leaf (.b16 5), .slice [.leaf (.str [65])]], []) := by
  refine ⟨.struct _ fun t ht => ?_, rfl⟩
  simp only [List.mem_cons, List.not_mem_nil, or_false] at ht
  rcases ht with rfl | rfl
  · exact .leaf _
  · exact .slice _ (.leaf _)

example : (dec SendOn.demo 50 .dataValue).run SendOn.wordy = (dec SendOn.demo 8 .dataValue).run SendOn.wordy :=
  C149_room SendOn.demo 8 50 (by omega) .dataValue _ (by
    have : (dec SendOn.demo 8 .dataValue).run SendOn.wordy =
      .ok (.dv (.vext 1 [.leaf (.b32 7), .leaf (.str [])]) 0x80000000 Time.zero 0 Time.zero 0, []) := rfl
    rw [this]; simp)

/-- A string that is cut short is refused, and two DataValues are read one by one though the first has no
value that can be read. -/
example (w : Val) (r : Bytes) : (dec SendOn.demo 8 (.leaf .string)).run [1, 0, 0, 0] ≠ .ok (w, r) :=
  C149_cut_plain SendOn.demo 8 _ (.leaf _) [1, 0, 0, 0] [65] (.leaf (.str [65])) rfl (by simp) w r
example : ∃ c s', ([1, 26, 1, 3, 7, 9] : Bytes) = c ++ s' ∧
    (∀ more, (dec SendOn.demo 8 .dataValue).run (c ++ more) = .ok (Room.bad, more)) ∧
    (decSeq ([Ty.dataValue].map (dec SendOn.demo 8))).run s' =
      .ok ([.dv (.vscalar .byte (.b8 7)) 0 Time.zero 0 Time.zero 0], [9]) :=
  C149_sequence_partial SendOn.demo 8 .dataValue [.dataValue] _ [9] Room.bad _ rfl (by simp)

/-- Where the room is too little it does depend on it: nothing limits the nesting of Variants, so however large the stack
is there is a message, of as many bytes as the stack has frames, that overflows it, which in Go ends the process and
cannot be recovered from; with more room the same message is refused. -/
theorem C149_nesting_fails (R : Reg) (room : Nat) : ∃ s : Bytes, s.length = room ∧ (dec R room .variant).run s = .panic ∧
    ∀ g, room < g → (dec R g .variant).run s = .err [] := by
  refine ⟨List.replicate room 24, by simp, by simpa using C149_deep R [] room, fun g hg => ?_⟩
  have h : ∀ n, (dec R (n + 1) .variant).run (List.replicate n 24) = .err [] := by
    intro n
    induction n with
    | zero => rfl
    | succ n ih =>
      have h : ∀ s, (dec R (n + 1 + 1) .variant).run (24 :: s) = (dec R (n + 1) .variant).run s := fun s => rfl
      rw [List.replicate_succ, h, ih]
  rw [C149_room R (room + 1) g hg .variant _ (by rw [h]; simp), h]

/-- At the end of a message a DataValue depends on what follows: of the same byte, one value is read when nothing comes
after it, and another when the rest of it does. So a message that was cut is read as a shorter one. -/
theorem C149_end_fails (R : Reg) (f : Nat) :
    (dec R (f + 2) .dataValue).run [1] = .ok (.dv .vnull 0x80110000 Time.zero 0 Time.zero 0, []) ∧
    (dec R (f + 2) .dataValue).run ([1] ++ [3, 7]) = .ok (.dv (.vscalar .byte (.b8 7)) 0 Time.zero 0 Time.zero 0, []) :=
  ⟨rfl, rfl⟩

end Opcua.Alone
