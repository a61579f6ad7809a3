import Verif.Props.Value

/-! What is known of a value that a decoder has accepted (for C147). -/
namespace Opcua

/-! ### Specification: values that stand being sent on -/

/-- At or before 9999-12-31T23:59:59. -/
def Time.Early (t : Time) : Prop := t.sec < 253402300799 ∨ t = ⟨253402300799, 0⟩

/-- A NodeID is not `i=0` in a long form. An ExpandedNodeID is that of a node or nothing at all, and has no index beside
a URI. -/
def Leaf.Keeps : Leaf → Prop
  | .time t => t.Early
  | .node n => n ≠ some (.numeric 0 0)
  | .expanded e => (e.nodeID = none → e = ⟨0, [], none⟩) ∧ e.nodeID ≠ some (.numeric 0 0) ∧
      (e.uri ≠ [] → ∀ n, e.nodeID = some n → n.ns = 0)
  | _ => True

mutual
/-- Every leaf keeps; no Variant holds a DataValue or DiagnosticInfos; no array of three dimensions has a middle one
of size zero. -/
def Val.Keeps : Val → Prop
  | .leaf l => l.Keeps
  | .struct fs => Val.AllKeep fs
  | .slice vs => Val.AllKeep vs
  | .vscalar _ l => l.Keeps
  | .varray t none => t ≠ .diag
  | .varray t (some vs) => t ≠ .diag ∧ Val.AllKeep vs
  | .vmat t rows => t ≠ .diag ∧ Val.RowsKeep rows
  | .vcube t cs => t ≠ .diag ∧ [] ∉ cs ∧ Val.CubesKeep cs
  | .vext _ fs => Val.AllKeep fs
  | .vdv _ => False
  | .vdiag _ => False
  | .dv v _ ts _ us _ => v.Keeps ∧ ts.Early ∧ us.Early
  | .ext _ fs => Val.AllKeep fs
  | _ => True

def Val.AllKeep : List Val → Prop
  | [] => True
  | v :: vs => v.Keeps ∧ Val.AllKeep vs

def Val.RowsKeep : List (List Val) → Prop
  | [] => True
  | v :: vs => Val.AllKeep v ∧ Val.RowsKeep vs

def Val.CubesKeep : List (List (List Val)) → Prop
  | [] => True
  | v :: vs => Val.RowsKeep v ∧ Val.CubesKeep vs
end

/-- Every type that is found under some id has an id of its own, under which it is found. -/
def Reg.Paired (R : Reg) : Prop := ∀ id tag, R.tyOf id = some tag →
  ∃ n, R.idOf tag = some n ∧ (∀ m, n = some m → ¬ m.IsNull ∧ m.Fits) ∧ R.tyOf n = some tag

/-! ### What holds of every result of a decoder -/

/-- Whatever the bytes, a result satisfies `P`. -/
def Post (d : Dec α) (P : α → Prop) : Prop := ∀ s v r, d.run s = .ok (v, r) → P v

theorem Post.pure {P : α → Prop} {v : α} (h : P v) : Post (pure v : Dec α) P := by
  intro s v' r hr; cases hr; exact h
theorem Post.fail {P : α → Prop} : Post (Dec.fail : Dec α) P := by intro s v r hr; cases hr
theorem Post.crash {P : α → Prop} : Post (Dec.crash : Dec α) P := by intro s v r hr; cases hr
theorem Post.bind {d : Dec α} {f : α → Dec β} {P : α → Prop} {Q : β → Prop} (h1 : Post d P)
    (h2 : ∀ a, P a → Post (f a) Q) : Post (d >>= f) Q := by
  intro s v r hr
  cases hd : d.run s with
  | ok p =>
    obtain ⟨a, s'⟩ := p
    simp only [Bind.bind, hd] at hr
    exact h2 a (h1 s a s' hd) s' v r hr
  | err l =>
    simp only [Bind.bind, hd] at hr; cases hr
  | panic =>
    simp only [Bind.bind, hd] at hr; cases hr
theorem Post.map {d : Dec α} {f : α → β} {P : α → Prop} {Q : β → Prop} (h1 : Post d P)
    (h2 : ∀ a, P a → Q (f a)) : Post (f <$> d) Q := Post.bind h1 fun a h => Post.pure (h2 a h)
theorem Post.ite {c : Prop} [Decidable c] {d e : Dec α} {P : α → Prop} (h1 : c → Post d P) (h2 : ¬ c → Post e P) :
    Post (if c then d else e) P := by split <;> simp_all
theorem Post.any {d : Dec α} : Post d fun _ => True := fun _ _ _ _ => trivial
theorem Post.mono {d : Dec α} {P Q : α → Prop} (h : Post d P) (hpq : ∀ a, P a → Q a) : Post d Q :=
  fun s v r hr => hpq v (h s v r hr)

theorem post_readN (n : Nat) : Post (readN n) fun b => b.length = n := by
  intro s v r hr
  simp only [readN] at hr
  split at hr
  · cases hr; simp; omega
  · cases hr

theorem post_i32 : Post readI32 fun n => -2 ^ 31 ≤ n ∧ n < 2 ^ 31 :=
  Post.bind Post.any fun v _ => Post.pure (by have := v.toInt_lt; have := v.le_toInt; omega)

theorem post_string : Post readString fun b => b.length < 2 ^ 31 :=
  Post.bind post_i32 fun n hn => Post.ite (fun _ => Post.pure (by simp))
    fun _ => (post_readN _).mono fun b hb => by omega

theorem post_bytestring : Post readByteString fun b => b.length < 2 ^ 31 :=
  Post.bind post_i32 fun n hn => Post.ite (fun _ => Post.pure (by simp))
    fun _ => (post_readN _).mono fun b hb => by omega

theorem post_bytearray : Post readByteArray fun b => ∀ x, b = some x → x.length < 2 ^ 31 :=
  Post.bind post_i32 fun n hn => Post.ite (fun _ => Post.pure (by simp))
    fun _ => Post.map (post_readN _) fun b hb => by intro x hx; cases hx; omega

theorem ticks_again (k : Int) (h : k < 9223372036854775808) :
    (ticksTime k).Early → ticksTime (timeTicks (ticksTime k)) = ticksTime k := by
  intro he
  obtain ⟨m, hm, h0, h1⟩ : ∃ m : Int, ticksTime k = ⟨m / 10000000 - 11644473600, ((m % 10000000) * 100).toNat⟩ ∧
      0 ≤ m ∧ m < 9223372036854775807 := by
    unfold ticksTime
    by_cases hk : k < 0
    · exact ⟨0, by simp [hk], by omega, by omega⟩
    · by_cases hx : k = 0x7FFFFFFFFFFFFFFF
      · exact ⟨2650467743990000000, by simp [hx], by omega, by omega⟩
      · exact ⟨k, by simp [hk, hx], by omega, by omega⟩
  rw [hm] at he ⊢
  have hle : m ≤ 2650467743990000000 := by
    rcases he with he | he
    · simp only at he; omega
    · simp only [Time.mk.injEq] at he; omega
  have ht : timeTicks ⟨m / 10000000 - 11644473600, ((m % 10000000) * 100).toNat⟩ =
      if m ≥ 2650467743990000000 then 0x7FFFFFFFFFFFFFFF else m := by
    unfold timeTicks
    have e : (m / 10000000 - 11644473600 + 11644473600) * 10000000 +
        ((((m % 10000000) * 100).toNat / 100 : Nat) : Int) = m := by omega
    simp only [e]
    have : wrap64 m = m := by
      unfold wrap64
      rw [Int.bmod_eq_of_le] <;> omega
    rw [this, if_neg (by omega : ¬ m < 0)]
  rw [ht]
  by_cases hc : m ≥ 2650467743990000000
  · have : m = 2650467743990000000 := by omega
    subst this
    decide
  · rw [if_neg hc]
    unfold ticksTime
    simp only [if_neg (by omega : ¬ m < 0), if_neg (by omega : ¬ m = 0x7FFFFFFFFFFFFFFF)]

theorem post_datetime : Post readDateTime fun t => t.Early → ticksTime (timeTicks t) = t :=
  Post.bind Post.any fun v _ => Post.pure (ticks_again _ (by have := v.toInt_lt; omega))

theorem post_nodeID : Post readNodeID fun n => ∀ m, n = some m → m.Fits ∧ (m ≠ .numeric 0 0 → ¬ m.IsNull) := by
  unfold readNodeID
  refine Post.bind Post.any fun b _ => ?_
  refine Post.ite (fun _ => ?_) fun _ => Post.ite (fun _ => ?_) fun _ => Post.ite (fun _ => ?_) fun _ =>
    Post.ite (fun _ => ?_) fun _ => Post.ite (fun _ => ?_) fun _ => Post.ite (fun _ => ?_) fun _ => Post.fail
  · exact Post.bind Post.any fun id _ => Post.ite (fun _ => Post.pure (by simp))
      fun _ => Post.pure (by intro m hm; cases hm; simp [NodeID.Fits, NodeID.IsNull])
  · exact Post.bind Post.any fun ns _ => Post.bind Post.any fun id _ =>
      Post.pure (by intro m hm; cases hm; simp [NodeID.Fits, NodeID.IsNull])
  · exact Post.bind Post.any fun ns _ => Post.bind Post.any fun id _ =>
      Post.pure (by intro m hm; cases hm; simp [NodeID.Fits, NodeID.IsNull])
  · exact Post.bind Post.any fun ns _ => Post.bind post_string fun id hid => Post.ite (fun _ => Post.pure (by simp))
      fun hn => Post.pure (by intro m hm; cases hm; simpa [NodeID.Fits, NodeID.IsNull, hid] using hn)
  · exact Post.bind Post.any fun ns _ => Post.bind Post.any fun id _ => Post.ite (fun _ => Post.pure (by simp))
      fun hn => Post.pure (by intro m hm; cases hm; simpa [NodeID.Fits, NodeID.IsNull] using hn)
  · exact Post.bind Post.any fun ns _ => Post.bind post_bytestring fun id hid => Post.ite (fun _ => Post.pure (by simp))
      fun hn => Post.pure (by intro m hm; cases hm; simpa [NodeID.Fits, NodeID.IsNull, hid] using hn)

theorem post_expBody (t : UInt8) : Post (readExpandedBody t) fun n => ∀ m, n = some m → m.Fits := by
  unfold readExpandedBody
  refine Post.ite (fun _ => ?_) fun _ => Post.ite (fun _ => ?_) fun _ => Post.ite (fun _ => ?_) fun _ =>
    Post.ite (fun _ => ?_) fun _ => Post.ite (fun _ => ?_) fun _ => Post.ite (fun _ => ?_) fun _ => Post.fail
  · exact Post.bind Post.any fun id _ => Post.ite (fun _ => Post.pure (by simp))
      fun _ => Post.pure (by intro m hm; cases hm; simp [NodeID.Fits])
  · exact Post.bind Post.any fun ns _ => Post.bind Post.any fun id _ =>
      Post.pure (by intro m hm; cases hm; simp [NodeID.Fits])
  · exact Post.bind Post.any fun ns _ => Post.bind Post.any fun id _ =>
      Post.pure (by intro m hm; cases hm; simp [NodeID.Fits])
  · exact Post.bind Post.any fun ns _ => Post.bind post_string fun id hid =>
      Post.pure (by intro m hm; cases hm; simpa [NodeID.Fits] using hid)
  · exact Post.bind Post.any fun ns _ => Post.bind Post.any fun id _ =>
      Post.pure (by intro m hm; cases hm; simp [NodeID.Fits])
  · exact Post.bind Post.any fun ns _ => Post.bind post_bytestring fun id hid =>
      Post.pure (by intro m hm; cases hm; simpa [NodeID.Fits] using hid)

theorem post_leaf (t : LTy) : Post (decLeaf t) fun l => l.hasTy t ∧ (l.Keeps → l.Fits ∧ canonLeaf l = l) := by
  have hstr : Post (Leaf.str <$> readString) fun l => (l.hasTy .string ∧ l.hasTy .xmlElement) ∧ (l.Keeps → l.Fits ∧ canonLeaf l = l) :=
    Post.map post_string fun b hb => ⟨⟨trivial, trivial⟩, fun _ => ⟨hb, rfl⟩⟩
  cases t
  case string => exact hstr.mono fun a h => ⟨h.1.1, h.2⟩
  case xmlElement => exact hstr.mono fun a h => ⟨h.1.2, h.2⟩
  case byteString => exact Post.map post_bytestring fun b hb => ⟨trivial, fun _ => ⟨hb, rfl⟩⟩
  case dateTime => exact Post.map post_datetime fun b hb => ⟨trivial, fun hk => ⟨trivial, by simp only [canonLeaf]; rw [hb hk]⟩⟩
  case nodeID =>
    refine Post.map post_nodeID fun n hn => ⟨trivial, fun hk => ⟨fun m hm => (hn m hm).1, ?_⟩⟩
    exact canonLeaf_exact _ fun m hm => (hn m hm).2 (by rintro rfl; exact hk hm)
  case expandedNodeID =>
    refine Post.map (P := fun e => e.uri.length < 2 ^ 31 ∧ ∀ m, e.nodeID = some m → m.Fits) ?_ ?_
    · refine Post.bind Post.any fun b _ => Post.bind (post_expBody _) fun n hn => ?_
      refine Post.bind (P := fun u : Bytes => u.length < 2 ^ 31)
        (Post.ite (fun _ => post_string) fun _ => Post.pure (by simp)) fun u hu => ?_
      exact Post.bind Post.any fun sv _ => Post.pure ⟨hu, hn⟩
    · rintro e ⟨hu, hn⟩
      refine ⟨trivial, fun hk => ⟨?_, canonLeaf_exact _ ⟨hk.2.1, hk.2.2⟩⟩⟩
      cases he : e.nodeID with
      | none => exact .inr (hk.1 he)
      | some n => exact .inl ⟨hu, n, he, hn n he⟩
  case qualifiedName =>
    exact Post.map (P := fun q => q.name.length < 2 ^ 31)
      (Post.bind Post.any fun _ _ => Post.bind post_string fun _ h => Post.pure h) fun q h => ⟨trivial, fun _ => ⟨h, rfl⟩⟩
  case localizedText =>
    refine Post.map (P := fun q => q.text.length < 2 ^ 31 ∧ q.locale.length < 2 ^ 31)
      (Post.bind Post.any fun _ _ => ?_) fun q h => ⟨trivial, fun _ => ⟨⟨h.1, h.2⟩, rfl⟩⟩
    refine Post.bind (P := fun u : Bytes => u.length < 2 ^ 31)
        (Post.ite (fun _ => post_string) fun _ => Post.pure (by simp)) fun u hu => ?_
    refine Post.bind (P := fun u : Bytes => u.length < 2 ^ 31)
        (Post.ite (fun _ => post_string) fun _ => Post.pure (by simp)) fun v hv => ?_
    exact Post.pure ⟨hv, hu⟩
  all_goals exact Post.map Post.any fun b _ => ⟨trivial, fun _ => ⟨trivial, rfl⟩⟩

/-! ### Sequences and shapes -/

theorem post_seq {d : Dec α} {P : α → Prop} (h : Post d P) : ∀ n,
    Post (decSeq (List.replicate n d)) fun vs => vs.length = n ∧ ∀ v ∈ vs, P v
  | 0 => Post.pure (by simp)
  | n + 1 => by
    rw [List.replicate_succ, decSeq]
    exact Post.bind h fun v hv => Post.bind (post_seq h n) fun vs hvs => Post.pure (by
      refine ⟨by simp [hvs.1], ?_⟩
      simp only [List.mem_cons]
      rintro w (rfl | hw)
      · exact hv
      · exact hvs.2 w hw)

theorem post_array {d : Dec α} {P : α → Prop} (h : Post d P) :
    Post (decArray d) fun vs => ∀ l, vs = some l → l.length < 2 ^ 31 ∧ ∀ v ∈ l, P v :=
  Post.bind post_i32 fun n hn => Post.ite (fun _ => Post.pure (by simp))
    fun _ => Post.map (post_seq h _) fun l hl => by
      intro l' hl'; cases hl'; exact ⟨by omega, hl.2⟩

theorem splitRows_ok (w : Int) : ∀ (n : Nat) (vals : List α) (rows : List (List α)) (left : List α),
    splitRows w n vals = .ok (rows, left) →
    rows.length = n ∧ (∀ r ∈ rows, r.length = w.toNat) ∧ vals = rows.flatten ++ left
  | 0, vals, rows, left, h => by
    simp only [splitRows, Res.ok.injEq, Prod.mk.injEq] at h
    obtain ⟨rfl, rfl⟩ := h; simp
  | n + 1, vals, rows, left, h => by
    simp only [splitRows] at h
    split at h
    · cases h
    · rename_i hc
      split at h
      · rename_i rs l hrs
        cases h
        obtain ⟨h1, h2, h3⟩ := splitRows_ok w n _ _ _ hrs
        refine ⟨by simp [h1], ?_, ?_⟩
        · simp only [List.mem_cons]
          rintro r (rfl | hr)
          · rw [List.length_take]; omega
          · exact h2 r hr
        · rw [List.flatten_cons, List.append_assoc, ← h3, List.take_append_drop]
      · cases h
      · cases h

theorem splitCubes_ok (hh w : Int) : ∀ (n : Nat) (vals : List α) (cs : List (List (List α))),
    splitCubes hh w n vals = .ok cs →
    cs.length = n ∧ (∀ c ∈ cs, c.length = hh.toNat) ∧ (∀ c ∈ cs, ∀ r ∈ c, r.length = w.toNat) ∧
      ∃ left, vals = (cs.map List.flatten).flatten ++ left
  | 0, vals, cs, h => by
    simp only [splitCubes, Res.ok.injEq] at h
    subst h; simp
  | n + 1, vals, cs, h => by
    simp only [splitCubes] at h
    split at h
    · cases h
    · split at h
      · rename_i rows left hrs
        split at h
        · rename_i cs' hcs
          cases h
          obtain ⟨h1, h2, h3⟩ := splitRows_ok w _ _ _ _ hrs
          obtain ⟨g1, g2, g3, l, g4⟩ := splitCubes_ok hh w n _ _ hcs
          refine ⟨by simp [g1], ?_, ?_, l, ?_⟩
          · simp only [List.mem_cons]
            rintro c (rfl | hc)
            · exact h1
            · exact g2 c hc
          · simp only [List.mem_cons]
            rintro c (rfl | hc)
            · exact h2
            · exact g3 c hc
          · rw [List.map_cons, List.flatten_cons, List.append_assoc, ← g4, h3]
        · cases h
        · cases h
      · cases h
      · cases h

/-! ### The values -/

/-- What is wanted of a value of type `ty` that was decoded with `f` levels. -/
def Fine (R : Reg) (ty : Ty) (f : Nat) (v : Val) : Prop := v.Keeps → wt R ty v ∧ depth v ≤ f + 1 ∧ canon v = v

theorem fine_list {R : Reg} {t : Ty} {f : Nat} : ∀ vs : List Val, (∀ v ∈ vs, Fine R t f v) → Val.AllKeep vs →
    wtFields R (List.replicate vs.length t) vs ∧ depthList vs ≤ f + 1 ∧ canonList vs = vs
  | [], _, _ => by simp [wtFields, depthList, canonList]
  | v :: vs, h, hk => by
    rw [Val.AllKeep] at hk
    obtain ⟨a1, a2, a3⟩ := h v (by simp) hk.1
    obtain ⟨b1, b2, b3⟩ := fine_list vs (fun u hu => h u (by simp [hu])) hk.2
    refine ⟨?_, ?_, by rw [canonList, a3, b3]⟩
    · rw [List.length_cons, List.replicate_succ, wtFields]; exact ⟨a1, b1⟩
    · rw [depthList]; omega

theorem fine_rows {R : Reg} {t : Ty} {f : Nat} : ∀ rows : List (List Val), (∀ v ∈ rows.flatten, Fine R t f v) →
    Val.RowsKeep rows → wtRows R t rows ∧ depthRows rows ≤ f + 1 ∧ canonRows rows = rows
  | [], _, _ => by simp [wtRows, depthRows, canonRows]
  | v :: vs, h, hk => by
    rw [Val.RowsKeep] at hk
    rw [List.flatten_cons] at h
    obtain ⟨a1, a2, a3⟩ := fine_list v (fun u hu => h u (by simp [hu])) hk.1
    obtain ⟨b1, b2, b3⟩ := fine_rows vs (fun u hu => h u (List.mem_append_right _ hu)) hk.2
    exact ⟨by rw [wtRows]; exact ⟨a1, b1⟩, by rw [depthRows]; omega, by rw [canonRows, a3, b3]⟩

theorem fine_cubes {R : Reg} {t : Ty} {f : Nat} : ∀ cs : List (List (List Val)),
    (∀ v ∈ (cs.map List.flatten).flatten, Fine R t f v) →
    Val.CubesKeep cs → wtCubes R t cs ∧ depthCubes cs ≤ f + 1 ∧ canonCubes cs = cs
  | [], _, _ => by simp [wtCubes, depthCubes, canonCubes]
  | v :: vs, h, hk => by
    rw [Val.CubesKeep] at hk
    rw [List.map_cons, List.flatten_cons] at h
    obtain ⟨a1, a2, a3⟩ := fine_rows v (fun u hu => h u (List.mem_append_left _ hu)) hk.1
    obtain ⟨b1, b2, b3⟩ := fine_cubes vs (fun u hu => h u (List.mem_append_right _ hu)) hk.2
    exact ⟨by rw [wtCubes]; exact ⟨a1, b1⟩, by rw [depthCubes]; omega, by rw [canonCubes, a3, b3]⟩

theorem cubes_count (cs : List (List (List α))) : (cs.map List.flatten).flatten.length = (cs.map countRows).sum := by
  induction cs with
  | nil => rfl
  | cons c cs ih => simp only [List.map_cons, List.flatten_cons, List.length_append, List.sum_cons, ih, countRows_flatten]

theorem fine_shape {R : Reg} {f : Nat} (t : ATy) (vals : List Val) (dims : List Int) (v : Val)
    (hv : ∀ u ∈ vals, Fine R t.ty f u) (hl : vals.length < 2 ^ 31) (hd : ∀ d ∈ dims, d < 2 ^ 31)
    (h : shape t vals dims = .ok v) : Fine R .variant (f + 1) v := by
  unfold shape at h
  split at h
  · rename_i d0 d1
    split at h
    · cases h
    · split at h
      · rename_i rows left hr
        cases h
        intro hk
        rw [Val.Keeps] at hk
        obtain ⟨h1, h2, h3⟩ := splitRows_ok _ _ _ _ _ hr
        obtain ⟨a1, a2, a3⟩ := fine_rows (R := R) (t := t.ty) (f := f) rows
          (fun u hu => hv u (by rw [h3]; exact List.mem_append_left _ hu)) hk.2
        have e0 := hd d0 (by simp)
        have e1 := hd d1 (by simp)
        have hc : countRows rows ≤ vals.length := by
          rw [← countRows_flatten, h3, List.length_append]; omega
        refine ⟨?_, by rw [depth]; omega, by rw [canon, a3]⟩
        rw [wt]
        exact ⟨hk.1, by omega, by omega, ⟨d1.toNat, by omega, h2⟩, a1⟩
      · cases h
      · cases h
  · rename_i d0 d1 d2
    split at h
    · cases h
    · split at h
      · rename_i cs hr
        cases h
        intro hk
        rw [Val.Keeps] at hk
        obtain ⟨h1, h2, h3, left, h4⟩ := splitCubes_ok _ _ _ _ _ hr
        obtain ⟨a1, a2, a3⟩ := fine_cubes (R := R) (t := t.ty) (f := f) cs
          (fun u hu => hv u (by rw [h4]; exact List.mem_append_left _ hu)) hk.2.2
        have e0 := hd d0 (by simp)
        have e1 := hd d1 (by simp)
        have e2 := hd d2 (by simp)
        have hc : (cs.map countRows).sum ≤ vals.length := by
          rw [← cubes_count, h4, List.length_append]; omega
        refine ⟨?_, by rw [depth]; omega, by rw [canon, a3]⟩
        rw [wt]
        refine ⟨hk.1, by omega, by omega, ?_, a1⟩
        cases cs with
        | nil => exact ⟨1, 0, by omega, by omega, by omega, by simp, by simp⟩
        | cons c cs =>
          have hcl := h2 c (by simp)
          have : c ≠ [] := by rintro rfl; exact hk.2.1 (by simp)
          have : 0 < c.length := List.length_pos_iff.mpr this
          exact ⟨d1.toNat, d2.toNat, by omega, by omega, by omega, h2, h3⟩
      · cases h
      · cases h
  · cases h

theorem fine_scalar {R : Reg} {f : Nat} (t : LTy) (l : Leaf) (h : l.hasTy t ∧ (l.Keeps → l.Fits ∧ canonLeaf l = l)) :
    Fine R .variant (f + 1) (mkScalar t l) := by
  unfold mkScalar
  split
  · intro _; exact ⟨by rw [wt]; trivial, by rw [depth] <;> simp, by simp [canon]⟩
  · rename_i hne
    intro hk
    rw [Val.Keeps] at hk
    obtain ⟨h1, h2⟩ := h.2 hk
    have hn : l ≠ .node none := by
      rintro rfl
      cases t <;> simp [Leaf.hasTy] at h hne
    refine ⟨by rw [wt]; exact ⟨h.1, h1, hn⟩, by rw [depth] <;> simp, ?_⟩
    rw [canon, h2, mkScalar]
    exact hne

theorem post_diag : ∀ f, Post (readDiag f) fun d => 0 < f ∧ d = Diag.empty
  | 0 => Post.crash
  | f + 1 => by
    unfold readDiag
    refine Post.bind Post.any fun b _ => ?_
    have hc : ∀ {α : Type} (d : Dec α), Post (do let _ ← d; Dec.crash) fun d => 0 < f + 1 ∧ d = Diag.empty :=
      fun d => Post.bind Post.any fun _ _ => Post.crash
    exact Post.ite (fun _ => hc _) fun _ => Post.ite (fun _ => hc _) fun _ => Post.ite (fun _ => hc _) fun _ =>
      Post.ite (fun _ => hc _) fun _ => Post.ite (fun _ => hc _) fun _ => Post.ite (fun _ => hc _) fun _ =>
      Post.ite (fun _ => hc _) fun _ => Post.pure ⟨by omega, rfl⟩

theorem post_variant {R : Reg} {f : Nat} (ih : ∀ ty, Post (dec R f ty) (Fine R ty f)) :
    Post (decVariant (dec R f) f) (Fine R .variant (f + 1)) := by
  have hnull : Fine R .variant (f + 1) .vnull := fun _ =>
    ⟨by rw [wt]; trivial, by rw [depth] <;> simp, by simp [canon]⟩
  unfold decVariant
  refine Post.bind Post.any fun b _ => ?_
  refine Post.ite (fun _ => ?_) fun _ => Post.ite (fun _ => ?_) fun _ => ?_
  · refine Post.ite (fun _ => Post.pure hnull) fun _ => ?_
    split
    · exact Post.map (post_leaf _) fun l hl => fine_scalar _ l hl
    · refine Post.map (ih .ext) fun v hv => ?_
      unfold extToVariant
      split
      · rename_i tag fs
        intro hk
        rw [Val.Keeps] at hk
        obtain ⟨h1, h2, h3⟩ := hv (by rw [Val.Keeps]; exact hk)
        rw [wt] at h1; rw [depth] at h2; rw [canon] at h3
        refine ⟨by rw [wt]; exact h1, by rw [depth]; omega, ?_⟩
        rw [canon]
        simpa using h3
      · exact hnull
    · exact Post.map (ih .dataValue) fun v _ hk => by rw [Val.Keeps] at hk; exact hk.elim
    · exact (ih .variant).mono fun v hv hk => by
        obtain ⟨h1, h2, h3⟩ := hv hk
        exact ⟨h1, by omega, h3⟩
    · exact Post.map (post_diag f) fun v _ hk => by rw [Val.Keeps] at hk; exact hk.elim
    · exact Post.fail
  · refine Post.ite (fun _ => Post.pure hnull) fun _ => ?_
    split
    · rename_i t _
      refine Post.map (post_array (ih t.ty)) fun vs hvs hk => ?_
      cases vs with
      | none => rw [Val.Keeps] at hk; exact ⟨by rw [wt]; exact hk, by rw [depth] <;> simp, by simp [canon]⟩
      | some vs =>
        rw [Val.Keeps] at hk
        obtain ⟨hl, hm⟩ := hvs vs rfl
        obtain ⟨a1, a2, a3⟩ := fine_list vs hm hk.2
        exact ⟨by rw [wt]; exact ⟨hk.1, hl, a1⟩, by rw [depth]; omega, by rw [canon, a3]⟩
    · exact Post.fail
  · refine Post.ite (fun _ => Post.pure hnull) fun _ => ?_
    split
    · rename_i t _
      refine Post.bind (post_array (ih t.ty)) fun vs hvs => Post.bind (post_array post_i32) fun ds hds => ?_
      cases hs : shape t (vs.getD []) (ds.getD []) with
      | ok v =>
        refine Post.pure (fine_shape t _ _ v ?_ ?_ ?_ hs)
        · cases vs with
          | none => simp
          | some l => exact (hvs l rfl).2
        · cases vs with
          | none => simp
          | some l => exact (hvs l rfl).1
        · cases ds with
          | none => simp
          | some l => exact fun d hd => ((hds l rfl).2 d hd).2
      | err => exact Post.fail
      | panic => exact Post.crash
    · exact Post.fail

theorem post_dvTail {R : Reg} {f : Nat} (b : UInt8) (v : Val) (st0 : BitVec 32) (hv : Fine R .variant f v) :
    Post (decDVTail b v st0) (Fine R .dataValue (f + 1)) := by
  have hz : Time.zero.Early → canonTs Time.zero = Time.zero := fun _ => rfl
  have ht : Post readDateTime fun t => t.Early → canonTs t = t := post_datetime.mono fun t h he => by
    unfold canonTs
    split
    · rename_i h0; exact h0.symm
    · exact h he
  have hopt : ∀ c : Prop, ∀ _ : Decidable c, Post (if c then readDateTime else pure Time.zero) fun t => t.Early → canonTs t = t :=
    fun c _ => Post.ite (fun _ => ht) fun _ => Post.pure hz
  unfold decDVTail
  refine Post.bind Post.any fun st _ => Post.bind (hopt _ _) fun ts hts => Post.bind Post.any fun tp _ =>
    Post.bind (hopt _ _) fun us hus => Post.bind Post.any fun up _ => Post.pure fun hk => ?_
  rw [Val.Keeps] at hk
  obtain ⟨h1, h2, h3⟩ := hv hk.1
  exact ⟨by rw [wt]; exact h1, by rw [depth]; omega, by rw [canon, h3, hts hk.2.1, hus hk.2.2]⟩

theorem post_dataValue {R : Reg} {f : Nat} (ih : ∀ ty, Post (dec R f ty) (Fine R ty f)) :
    Post (decDataValue (dec R f)) (Fine R .dataValue (f + 1)) := by
  have hnull : Fine R .variant f .vnull := fun _ =>
    ⟨by rw [wt]; trivial, by rw [depth] <;> first | omega | simp, by simp [canon]⟩
  unfold decDataValue
  refine Post.bind Post.any fun b _ => Post.ite (fun _ => ?_) fun _ => post_dvTail _ _ _ hnull
  intro s v r hr
  simp only at hr
  split at hr
  · rename_i v' s' h'
    exact post_dvTail _ _ _ (ih .variant s v' s' h') _ _ _ hr
  · exact post_dvTail _ _ _ hnull _ _ _ hr
  · cases hr

theorem post_ext {R : Reg} (hR : R.Paired) {f : Nat} (ih : ∀ ty, Post (dec R f ty) (Fine R ty f)) :
    Post (decExt R (dec R f)) (Fine R .ext (f + 1)) := by
  have hnil : Fine R .ext (f + 1) .extNil := fun _ =>
    ⟨by rw [wt]; trivial, by rw [depth] <;> simp, by simp [canon]⟩
  unfold decExt
  refine Post.bind Post.any fun id _ => Post.bind Post.any fun b _ => Post.ite (fun _ => Post.pure hnil) fun _ =>
    Post.ite (fun _ => ?_) fun _ => Post.ite (fun _ => ?_) fun _ => Post.fail
  · split
    · rename_i tag htag
      refine Post.bind Post.any fun _ _ => Post.ite (fun hs => ?_) fun _ => Post.fail
      refine Post.bind (ih _) fun v hv => ?_
      split
      · rename_i fs
        refine Post.pure fun hk => ?_
        rw [Val.Keeps] at hk
        obtain ⟨h1, h2, h3⟩ := hv (by rw [Val.Keeps]; exact hk)
        rw [wt] at h1; rw [depth] at h2; rw [canon] at h3
        obtain ⟨n, m1, m2, m3⟩ := hR id tag htag
        refine ⟨?_, by rw [depth]; omega, by rw [canon]; simpa using h3⟩
        rw [wt]
        refine ⟨⟨n, m1, ?_, fun m hm => (m2 m hm).2, m3⟩, hs, h1⟩
        cases n with
        | none => rfl
        | some m =>
          have := (m2 m rfl).1
          simp only [NodeID.IsNull, not_or] at this
          cases m <;> simp_all [canonNodeID]
      · exact Post.fail
    · exact Post.bind Post.any fun _ _ => Post.pure hnil
  · exact Post.bind Post.any fun _ _ => Post.pure hnil

theorem post_fields {R : Reg} {f : Nat} (ih : ∀ ty, Post (dec R f ty) (Fine R ty f)) : ∀ tys : List Ty,
    Post (decSeq (tys.map (dec R f))) fun vs => Val.AllKeep vs →
      wtFields R tys vs ∧ depthList vs ≤ f + 1 ∧ canonList vs = vs
  | [] => Post.pure (by simp [wtFields, depthList, canonList])
  | t :: ts => by
    rw [List.map_cons, decSeq]
    refine Post.bind (ih t) fun v hv => Post.bind (post_fields ih ts) fun vs hvs => Post.pure fun hk => ?_
    rw [Val.AllKeep] at hk
    obtain ⟨a1, a2, a3⟩ := hv hk.1
    obtain ⟨b1, b2, b3⟩ := hvs hk.2
    exact ⟨by rw [wtFields]; exact ⟨a1, b1⟩, by rw [depthList]; omega, by rw [canonList, a3, b3]⟩

theorem post_dec (R : Reg) (hR : R.Paired) : ∀ (f : Nat) (ty : Ty), Post (dec R f ty) (Fine R ty f)
  | 0, _ => Post.crash
  | f + 1, ty => by
    have ih := post_dec R hR f
    cases ty with
    | leaf t =>
      rw [dec]
      refine Post.map (post_leaf t) fun l hl hk => ?_
      rw [Val.Keeps] at hk
      obtain ⟨h1, h2⟩ := hl.2 hk
      exact ⟨by rw [wt]; exact ⟨hl.1, h1⟩, by rw [depth] <;> simp, by rw [canon, h2]⟩
    | bytes =>
      rw [dec]
      exact Post.map post_bytearray fun b hb _ => ⟨by rw [wt]; exact hb, by rw [depth] <;> simp, by simp [canon]⟩
    | struct tys =>
      rw [dec]
      refine Post.map (post_fields ih tys) fun vs hvs hk => ?_
      rw [Val.Keeps] at hk
      obtain ⟨h1, h2, h3⟩ := hvs hk
      exact ⟨by rw [wt]; exact h1, by rw [depth]; omega, by rw [canon, h3]⟩
    | ptr tys =>
      rw [dec]
      refine Post.map (post_fields ih tys) fun vs hvs hk => ?_
      rw [Val.Keeps] at hk
      obtain ⟨h1, h2, h3⟩ := hvs hk
      exact ⟨by rw [wt]; exact h1, by rw [depth]; omega, by rw [canon, h3]⟩
    | slice t =>
      rw [dec]
      refine Post.bind post_i32 fun n hn => Post.ite (fun _ => Post.pure fun _ => ?_) fun _ => ?_
      · exact ⟨by simp [wt, wtFields], by simp [depth, depthList], by simp [canon, canonList]⟩
      · refine Post.map (post_seq (ih t) _) fun vs hvs hk => ?_
        rw [Val.Keeps] at hk
        obtain ⟨a1, a2, a3⟩ := fine_list vs hvs.2 hk
        exact ⟨by rw [wt]; exact ⟨by omega, a1⟩, by rw [depth]; omega, by rw [canon, a3]⟩
    | variant => rw [dec]; exact post_variant ih
    | dataValue =>
      rw [dec]; exact post_dataValue ih
    | ext => rw [dec]; exact post_ext hR ih
    | diag =>
      rw [dec]
      refine Post.map (post_diag f) fun d hd _ => ?_
      exact ⟨by rw [wt]; exact hd.2, by rw [depth]; omega, by simp [canon]⟩

end Opcua
