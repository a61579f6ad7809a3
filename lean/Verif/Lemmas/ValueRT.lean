import Verif.Lemmas.Value

namespace Opcua

theorem isVNull_eq {v : Val} (h : v.isVNull = true) : v = .vnull := by
  cases v <;> first | rfl | simp [Val.isVNull] at h

theorem depth_pos (v : Val) : 0 < depth v := by
  unfold depth
  split <;> omega

/-- a Variant array written with the given flag byte is read back -/
theorem rt_variantArray (rec : Ty → Dec Val) (f : Nat) (t : ATy) (e : Bytes) (vs : Option (List Val))
    (h : RT e (decArray (rec t.ty)) vs) :
    RT (writeByte (t.code ||| 0x80) ++ e) (decVariant rec f) (.varray t vs) := by
  obtain ⟨-, -, h0, h1, h2, h3, -⟩ := t.code_bits
  refine RT.bind (rt_byte _) ?_
  simp only [h1, if_false, h2, if_true, h3, h0, ATy.ofCode_code]
  exact RT.map _ h

theorem rt_variantMulti (rec : Ty → Dec Val) (f : Nat) (t : ATy) (e ed : Bytes) (vs : List Val)
    (ds : List Nat) (v : Val) (h : RT e (decArray (rec t.ty)) (some vs))
    (hd : RT ed (decArray readI32) (some (ds.map Int.ofNat)))
    (hs : shape t vs (ds.map Int.ofNat) = .ok v) :
    RT (writeByte (t.code ||| 0x80 ||| 0x40) ++ (e ++ ed)) (decVariant rec f) v := by
  obtain ⟨-, -, h0, -, -, -, h1, h2, h3⟩ := t.code_bits
  refine RT.bind (rt_byte _) ?_
  simp only [h1, if_false, h2, h3, h0, ATy.ofCode_code]
  refine RT.bind h (RT.bind_nil hd ?_)
  simp only [Option.getD_some, hs]
  exact RT.pure _

theorem rt_variantScalar (rec : Ty → Dec Val) (f : Nat) (t : LTy) (l : Leaf)
    (ht : l.hasTy t) (hf : l.Fits) :
    RT (writeByte t.code ++ encLeaf l) (decVariant rec f) (mkScalar t (canonLeaf l)) := by
  obtain ⟨h1, h2, h0, -⟩ := (ATy.leaf t).code_bits
  simp only [ATy.code] at h1 h2 h0
  refine RT.bind (rt_byte _) ?_
  have := ATy.ofCode_code (.leaf t)
  simp only [ATy.code] at this
  simp only [h1, if_true, h2, h0, if_false, this]
  exact RT.map _ (rt_leaf t l ht hf)

mutual
theorem rt_val (R : Reg) : ∀ (v : Val) (ty : Ty) (f : Nat), wt R ty v → depth v ≤ f →
    ∃ e, enc R v = some e ∧ RT e (dec R f ty) (canon v)
  | v, ty, 0, _, hd => absurd hd (by have := depth_pos v; omega)
  | .leaf l, .leaf t, f + 1, h, _ => ⟨_, by rw [enc], by
      rw [wt] at h; rw [dec, canon]; exact RT.map _ (rt_leaf t l h.1 h.2)⟩
  | .bytes b, .bytes, f + 1, h, _ => ⟨_, by rw [enc], by
      rw [wt] at h; simp only [dec, canon]; exact RT.map _ (rt_bytearray b h)⟩
  | .struct fs, .struct ts, f + 1, h, hd => by
      rw [wt] at h; rw [depth] at hd
      obtain ⟨e, he, hr⟩ := rt_fields R fs ts f h (by omega)
      exact ⟨e, by rw [enc, he], by simp only [dec, canon]; exact RT.map _ hr⟩
  | .struct fs, .ptr ts, f + 1, h, hd => by
      rw [wt] at h; rw [depth] at hd
      obtain ⟨e, he, hr⟩ := rt_fields R fs ts f h (by omega)
      exact ⟨e, by rw [enc, he], by simp only [dec, canon]; exact RT.map _ hr⟩
  | .slice vs, .slice t, f + 1, h, hd => by
      rw [wt] at h; rw [depth] at hd
      obtain ⟨e, he, hr⟩ := rt_fields R vs _ f h.2 (by omega)
      refine ⟨writeI32 vs.length ++ e, by rw [enc, he]; rfl, ?_⟩
      simp only [dec, canon]
      refine RT.bind (rt_i32 _ (by omega)) ?_
      split
      · rename_i hn
        have : vs = [] := List.length_eq_zero_iff.mp (by omega)
        subst this
        rw [encList] at he
        cases he
        rw [canonList]; exact RT.pure _
      · rw [Int.toNat_natCast]
        rw [List.map_replicate] at hr
        exact RT.map _ hr
  | .vnull, .variant, f + 1, _, _ => ⟨_, by rw [enc], by
      simp only [dec, canon]
      refine RT.bind_nil (rt_byte 0) ?_
      exact RT.pure _⟩
  | .vscalar t l, .variant, f + 1, h, _ => ⟨_, by rw [enc], by
      rw [wt] at h; simp only [dec, canon]
      exact rt_variantScalar _ _ t l h.1 h.2.1⟩
  | .varray t none, .variant, f + 1, h, _ => by
      rw [wt] at h
      refine ⟨writeByte (t.code ||| 0x80) ++ writeI32 (-1), ?_, ?_⟩
      · cases t <;> first | exact absurd rfl h | rw [enc] <;> simp
      · simp only [dec, canon]
        exact rt_variantArray _ _ t _ _ RT.decArray_nil
  | .varray t (some vs), .variant, f + 1, h, hd => by
      rw [wt] at h; rw [depth] at hd
      obtain ⟨e, he, hr⟩ := rt_fields R vs _ f h.2.2 (by omega)
      refine ⟨writeByte (t.code ||| 0x80) ++ (writeI32 vs.length ++ e), ?_, ?_⟩
      · cases t <;> first | exact absurd rfl h.1 | (rw [enc, he] <;> first | rfl | simp)
      · simp only [dec, canon]
        refine rt_variantArray _ _ t _ _ (RT.decArray _ h.2.1 ?_)
        rw [List.map_replicate] at hr
        exact hr
  | .vmat t rows, .variant, f + 1, h, hd => by
      rw [wt] at h; rw [depth] at hd
      obtain ⟨hnd, hc, hl, ⟨w, hw, hrect⟩, hrows⟩ := h
      obtain ⟨e, he, hr⟩ := rt_rows R rows t.ty f hrows (by omega)
      refine ⟨writeByte (t.code ||| 0x80 ||| 0x40) ++
        ((writeI32 (countRows rows) ++ e) ++ writeDims (dims2D rows)), ?_, ?_⟩
      · rw [List.append_assoc]
        cases t <;> first | exact absurd rfl hnd | (rw [enc, he] <;> first | rfl | simp)
      · simp only [dec, canon]
        have hcr : canonRows rows = rows.map (List.map canon) := canonRows_eq_map rows
        refine rt_variantMulti _ _ t _ _ _ (dims2D rows) _ (RT.decArray _ hc hr) (rt_dims _ ?_ ?_) ?_
        · cases rows <;> simp [dims2D]
        · cases rows with
          | nil => simp [dims2D]
          | cons r rs =>
            have := hrect r (by simp)
            simp only [dims2D, List.mem_cons, List.not_mem_nil, or_false]
            intro d hd; omega
        · have : dims2D rows = dims2D (canonRows rows) := by
            rw [hcr]; cases rows <;> simp [dims2D]
          rw [this]
          refine dims2D_shape t _ w ?_
          rw [hcr]
          intro r hr
          obtain ⟨r', hr', rfl⟩ := List.mem_map.mp hr
          rw [List.length_map]; exact hrect r' hr'
  | .vcube t cs, .variant, f + 1, h, hd => by
      rw [wt] at h; rw [depth] at hd
      obtain ⟨hnd, hc, hl, ⟨h', w, h0, hh, hw, hrect1, hrect2⟩, hcs⟩ := h
      obtain ⟨e, he, hr⟩ := rt_cubes R cs t.ty f hcs (by omega)
      refine ⟨writeByte (t.code ||| 0x80 ||| 0x40) ++
        ((writeI32 (cs.map countRows).sum ++ e) ++ writeDims (dims3D cs)), ?_, ?_⟩
      · rw [List.append_assoc]
        cases t <;> first | exact absurd rfl hnd | (rw [enc, he] <;> first | rfl | simp)
      · simp only [dec, canon]
        have hcr : canonCubes cs = cs.map (List.map (List.map canon)) := canonCubes_eq_map cs
        refine rt_variantMulti _ _ t _ _ _ (dims3D cs) _ (RT.decArray _ hc hr) (rt_dims _ ?_ ?_) ?_
        · unfold dims3D; split <;> simp
        · unfold dims3D
          split
          · simp
          · simp
          · rename_i rows r rs rest
            have h1 := hrect1 (r :: rs) (by simp)
            have h2 := hrect2 (r :: rs) (by simp) r (by simp)
            simp only [List.mem_cons, List.not_mem_nil, or_false]
            intro d hd; omega
        · have : dims3D cs = dims3D (canonCubes cs) := by
            rw [hcr]
            match cs with
            | [] => rfl
            | [] :: _ => rfl
            | (r :: rs) :: _ => simp [dims3D]
          rw [this]
          refine dims3D_shape t _ h' w h0 ?_ ?_
          · rw [hcr]
            intro r hr
            obtain ⟨r', hr', rfl⟩ := List.mem_map.mp hr
            rw [List.length_map]; exact hrect1 r' hr'
          · rw [hcr]
            intro c hc r hr
            obtain ⟨c', hc', rfl⟩ := List.mem_map.mp hc
            obtain ⟨r', hr', rfl⟩ := List.mem_map.mp hr
            rw [List.length_map]; exact hrect2 c' hc' r' hr'
  | .vext tag fs, .variant, f + 1, h, hd => by
      rw [wt] at h; rw [depth] at hd
      obtain ⟨⟨id, hid, hcan, hfit, hty⟩, hsup, hfs⟩ := h
      obtain ⟨g, rfl⟩ : ∃ g, f = g + 2 := ⟨f - 2, by omega⟩
      obtain ⟨e, he, hr⟩ := rt_fields R fs _ g hfs (by omega)
      refine ⟨_, by rw [enc, hid, hsup, he]; rfl, ?_⟩
      simp only [dec, canon]
      refine RT.bind (rt_byte 22) ?_
      rw [if_pos (by decide), if_neg (by decide)]
      have : ATy.ofCode (22 &&& 0x3F) = some .ext := rfl
      simp only [this]
      refine RT.map (v := .ext tag (canonList fs)) extToVariant ?_
      refine rt_ext R _ id tag _ e hcan hfit hty hsup ?_
      exact RT.map _ hr
  | .dv value st ts tp us up, .dataValue, f + 1, h, hd => by
      rw [wt] at h; rw [depth] at hd
      obtain ⟨e, he, hr⟩ := rt_val R value .variant f h (by omega)
      simp only [dec, canon]
      by_cases hv : value.isVNull = true
      · refine ⟨_, by simp only [enc, hv, if_true]; rfl, ?_⟩
        have := isVNull_eq hv
        subst this
        rw [canon] <;> first | exact rt_dataValue_null _ st ts tp us up | simp
      · refine ⟨_, by simp only [enc, hv]; rw [he]; rfl, ?_⟩
        exact rt_dataValue _ _ e st ts tp us up hr
  | .extNil, .ext, f + 1, _, _ => ⟨_, by rw [enc], by
      simp only [dec, canon]
      refine RT.bind (rt_nodeID none (by simp)) (RT.bind_nil (rt_byte 0) ?_)
      exact RT.pure _⟩
  | .ext tag fs, .ext, f + 1, h, hd => by
      rw [wt] at h; rw [depth] at hd
      obtain ⟨⟨id, hid, hcan, hfit, hty⟩, hsup, hfs⟩ := h
      obtain ⟨g, rfl⟩ : ∃ g, f = g + 1 := ⟨f - 1, by omega⟩
      obtain ⟨e, he, hr⟩ := rt_fields R fs _ g hfs (by omega)
      refine ⟨_, by rw [enc, hid, hsup, he]; rfl, ?_⟩
      simp only [dec, canon]
      refine rt_ext R _ id tag _ e hcan hfit hty hsup ?_
      exact RT.map _ hr
  | .diag d, .diag, f + 1, h, hd => ⟨_, by rw [enc], by
      rw [wt] at h; rw [depth] at hd; subst h
      obtain ⟨g, rfl⟩ : ∃ g, f = g + 1 := ⟨f - 1, by omega⟩
      simp only [dec, canon]
      exact RT.map _ (rt_readDiag g)⟩

  | .nilPtr, ty, _ + 1, h, _ => by cases ty <;> simp [wt] at h
  | .vdv _, ty, _ + 1, h, _ => by cases ty <;> simp [wt] at h
  | .vdiag _, ty, _ + 1, h, _ => by cases ty <;> simp [wt] at h

theorem rt_fields (R : Reg) : ∀ (vs : List Val) (tys : List Ty) (f : Nat), wtFields R tys vs →
    depthList vs ≤ f →
    ∃ e, encList R vs = some e ∧ RT e (decSeq (tys.map (dec R f))) (canonList vs)
  | [], [], f, _, _ => ⟨[], by rw [encList], by rw [canonList]; exact RT.decSeq_nil⟩
  | v :: vs, t :: ts, f, h, hd => by
      rw [wtFields] at h; rw [depthList] at hd
      obtain ⟨e1, he1, hr1⟩ := rt_val R v t f h.1 (by omega)
      obtain ⟨e2, he2, hr2⟩ := rt_fields R vs ts f h.2 (by omega)
      exact ⟨e1 ++ e2, by rw [encList, he1, he2]; rfl, by
        rw [canonList, List.map_cons]; exact RT.decSeq_cons hr1 hr2⟩
  | [], _ :: _, _, h, _ => by simp [wtFields] at h
  | _ :: _, [], _, h, _ => by simp [wtFields] at h

theorem rt_rows (R : Reg) : ∀ (rows : List (List Val)) (ty : Ty) (f : Nat), wtRows R ty rows →
    depthRows rows ≤ f →
    ∃ e, encRows R rows = some e ∧
      RT e (decSeq (List.replicate (countRows rows) (dec R f ty))) (canonRows rows).flatten
  | [], ty, f, _, _ => ⟨[], by rw [encRows], by rw [canonRows]; exact RT.decSeq_nil⟩
  | r :: rs, ty, f, h, hd => by
      rw [wtRows] at h; rw [depthRows] at hd
      obtain ⟨e1, he1, hr1⟩ := rt_fields R r _ f h.1 (by omega)
      obtain ⟨e2, he2, hr2⟩ := rt_rows R rs ty f h.2 (by omega)
      refine ⟨e1 ++ e2, by rw [encRows, he1, he2]; rfl, ?_⟩
      have : countRows (r :: rs) = r.length + countRows rs := by simp [countRows]
      rw [canonRows, List.flatten_cons, this, ← List.replicate_append_replicate]
      rw [List.map_replicate] at hr1
      exact RT.decSeq_append hr1 hr2

theorem rt_cubes (R : Reg) : ∀ (cs : List (List (List Val))) (ty : Ty) (f : Nat), wtCubes R ty cs →
    depthCubes cs ≤ f →
    ∃ e, encCubes R cs = some e ∧
      RT e (decSeq (List.replicate (cs.map countRows).sum (dec R f ty)))
        ((canonCubes cs).map List.flatten).flatten
  | [], ty, f, _, _ => ⟨[], by rw [encCubes], by rw [canonCubes]; exact RT.decSeq_nil⟩
  | r :: rs, ty, f, h, hd => by
      rw [wtCubes] at h; rw [depthCubes] at hd
      obtain ⟨e1, he1, hr1⟩ := rt_rows R r ty f h.1 (by omega)
      obtain ⟨e2, he2, hr2⟩ := rt_cubes R rs ty f h.2 (by omega)
      refine ⟨e1 ++ e2, by rw [encCubes, he1, he2]; rfl, ?_⟩
      simp only [canonCubes, List.map_cons, List.flatten_cons, List.sum_cons,
        ← List.replicate_append_replicate]
      exact RT.decSeq_append hr1 hr2
end

end Opcua
