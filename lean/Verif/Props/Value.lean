import Verif.Props.Scalars
import Verif.Lemmas.Fuel

/-! Properties C08–C14, C22, C74: Variants, DataValues, ExtensionObjects, structures. -/
namespace Opcua

/-! ### Specification: values the wire format can represent without loss -/

/-- Times on the 100 ns grid between 1601 and 9999. -/
def Time.OnGrid (t : Time) : Prop :=
  t.ns < 10 ^ 9 ∧ t.ns % 100 = 0 ∧ 0 ≤ exactTicks t ∧ exactTicks t < 2650467743990000000

def Leaf.Exact : Leaf → Prop
  | .time t => t.OnGrid
  | .node n => ∀ m, n = some m → ¬ m.IsNull
  | .expanded e => e.nodeID ≠ some (.numeric 0 0) ∧ (e.uri ≠ [] → ∀ n, e.nodeID = some n → n.ns = 0)
  | _ => True

mutual
/-- Every leaf is representable, every DataValue timestamp absent or representable. -/
def Val.Exact : Val → Prop
  | .leaf l => l.Exact
  | .struct fs => Val.AllExact fs
  | .slice vs => Val.AllExact vs
  | .vscalar _ l => l.Exact ∧ l ≠ .node none
  | .varray _ (some vs) => Val.AllExact vs
  | .vmat _ rows => Val.RowsExact rows
  | .vcube _ cs => Val.CubesExact cs
  | .vext _ fs => Val.AllExact fs
  | .dv v _ ts _ us _ => v.Exact ∧ (ts = Time.zero ∨ ts.OnGrid) ∧ (us = Time.zero ∨ us.OnGrid)
  | .ext _ fs => Val.AllExact fs
  | _ => True

def Val.AllExact : List Val → Prop
  | [] => True
  | v :: vs => v.Exact ∧ Val.AllExact vs

def Val.RowsExact : List (List Val) → Prop
  | [] => True
  | v :: vs => Val.AllExact v ∧ Val.RowsExact vs

def Val.CubesExact : List (List (List Val)) → Prop
  | [] => True
  | v :: vs => Val.RowsExact v ∧ Val.CubesExact vs
end

theorem canonTime_exact (t : Time) (h : t.OnGrid) : ticksTime (timeTicks t) = t := by
  have h1 := C03_in_range t h.1 h.2.2.1 h.2.2.2 []
  rw [rt_datetime t []] at h1
  simp only [DRes.ok.injEq, Prod.mk.injEq, and_true] at h1
  rw [h1]
  have : t.ns / 100 * 100 = t.ns := by have := h.2.1; omega
  rw [this]

theorem canonLeaf_exact (l : Leaf) (h : l.Exact) : canonLeaf l = l := by
  cases l with
  | time t => simp only [canonLeaf, canonTime_exact t h]
  | node n =>
    cases n with
    | none => rfl
    | some m =>
      have := h m rfl
      simp only [NodeID.IsNull, not_or] at this
      simp only [canonLeaf, Leaf.node.injEq]
      cases m <;> simp_all [canonNodeID]
  | expanded e =>
    obtain ⟨sv, uri, n⟩ := e
    simp only [Leaf.Exact] at h
    obtain ⟨h1, h2⟩ := h
    simp only [canonLeaf, Leaf.expanded.injEq, canonExpanded, ExpandedNodeID.mk.injEq, true_and]
    cases n with
    | none => rfl
    | some n =>
      simp only [Option.bind_some]
      by_cases hu : uri = []
      · simp only [hu, if_true]
        rw [if_neg (by simpa using h1)]
      · have hn := h2 hu n rfl
        have hs : n.setNs 0 = n := by cases n <;> simp_all [NodeID.ns, NodeID.setNs]
        simp only [hu, if_false, hs]
        rw [if_neg (by simpa using h1)]
  | _ => rfl

theorem canonTs_exact (t : Time) (h : t = Time.zero ∨ t.OnGrid) : canonTs t = t := by
  rcases h with rfl | h
  · rfl
  · unfold canonTs
    split
    · rename_i h0; exact h0.symm
    · exact canonTime_exact t h

mutual
theorem canon_exact : ∀ v : Val, v.Exact → canon v = v
  | .leaf l, h => by rw [canon, canonLeaf_exact l (by simpa [Val.Exact] using h)]
  | .struct fs, h => by rw [canon, canonList_exact fs (by simpa [Val.Exact] using h)]
  | .slice fs, h => by rw [canon, canonList_exact fs (by simpa [Val.Exact] using h)]
  | .vscalar t l, h => by
    simp only [Val.Exact] at h
    rw [canon, canonLeaf_exact l h.1, mkScalar]
    intro h1 h2
    exact absurd h2 h.2
  | .varray t (some vs), h => by rw [canon, canonList_exact vs (by simpa [Val.Exact] using h)]
  | .varray t none, _ => by simp [canon]
  | .vmat t rows, h => by rw [canon, canonRows_exact rows (by simpa [Val.Exact] using h)]
  | .vcube t cs, h => by rw [canon, canonCubes_exact cs (by simpa [Val.Exact] using h)]
  | .vext t fs, h => by rw [canon, canonList_exact fs (by simpa [Val.Exact] using h)]
  | .dv v st ts tp us up, h => by
    simp only [Val.Exact] at h
    rw [canon, canon_exact v h.1, canonTs_exact ts h.2.1, canonTs_exact us h.2.2]
  | .ext t fs, h => by rw [canon, canonList_exact fs (by simpa [Val.Exact] using h)]
  | .bytes _, _ => by simp [canon]
  | .nilPtr, _ => by simp [canon]
  | .vnull, _ => by simp [canon]
  | .vdv _, _ => by simp [canon]
  | .vdiag _, _ => by simp [canon]
  | .extNil, _ => by simp [canon]
  | .diag _, _ => by simp [canon]

theorem canonList_exact : ∀ vs : List Val, Val.AllExact vs → canonList vs = vs
  | [], _ => by simp [canonList]
  | v :: vs, h => by
    simp only [Val.AllExact] at h
    rw [canonList, canon_exact v h.1, canonList_exact vs h.2]

theorem canonRows_exact : ∀ vs : List (List Val), Val.RowsExact vs → canonRows vs = vs
  | [], _ => by simp [canonRows]
  | v :: vs, h => by
    simp only [Val.RowsExact] at h
    rw [canonRows, canonList_exact v h.1, canonRows_exact vs h.2]

theorem canonCubes_exact : ∀ vs : List (List (List Val)), Val.CubesExact vs → canonCubes vs = vs
  | [], _ => by simp [canonCubes]
  | v :: vs, h => by
    simp only [Val.CubesExact] at h
    rw [canonCubes, canonRows_exact v h.1, canonCubes_exact vs h.2]
end

/-! ### A registry used in the examples

Struct 1 = {uint32; string}, registered as ns=2;i=5001. Struct 2 = {guid}, registered as
ns=2;i=5002. -/
def demoReg : Reg where
  fieldsOf := fun t => if t = 1 then [.leaf .uint32, .leaf .string] else if t = 2 then [.leaf .guid] else []
  idOf := fun t => if t = 1 then some (some (.numeric 2 5001)) else
    if t = 2 then some (some (.numeric 2 5002)) else none
  tyOf := fun n => if n = some (.numeric 2 5001) then some 1 else
    if n = some (.numeric 2 5002) then some 2 else none

/-! ### C08 -/

/-- Any Variant: `f` is any stack depth that suffices for the nesting of `v`. -/
theorem C08_variant_roundtrip (R : Reg) (v : Val) (f : Nat) (h : wt R .variant v) (hd : depth v ≤ f)
    (hx : v.Exact) :
    ∃ e, enc R v = some e ∧ ∀ rest, (dec R f .variant).run (e ++ rest) = .ok (v, rest) := by
  obtain ⟨e, he, hr⟩ := rt_val R v .variant f h hd
  rw [canon_exact v hx] at hr
  exact ⟨e, he, hr⟩

/-- Without the exactness hypothesis the reader obtains the documented truncation/null
identification at the leaves and nothing else changes. -/
theorem C08_variant_roundtrip_lossy (R : Reg) (v : Val) (f : Nat) (h : wt R .variant v)
    (hd : depth v ≤ f) :
    ∃ e, enc R v = some e ∧ ∀ rest, (dec R f .variant).run (e ++ rest) = .ok (canon v, rest) :=
  rt_val R v .variant f h hd

/-- The dynamic type of a scalar is the one written: two Variants of different scalar types
never have the same encoding. -/
theorem C08_type_tag_distinguishes (R : Reg) (t t' : LTy) (l l' : Leaf)
    (h : enc R (.vscalar t l) = enc R (.vscalar t' l')) : t = t' := by
  simp only [enc, Option.some.injEq, writeByte, List.singleton_append, List.cons.injEq] at h
  have := congrArg LTy.ofCode h.1
  rw [LTy.ofCode_code, LTy.ofCode_code] at this
  exact Option.some.inj this

/-- an array of Variants holding a scalar, an array, a null and a structure -/
def demoVariant : Val :=
  .varray .variant (some [.vscalar .int32 (.b32 7), .varray (.leaf .bool) (some [.leaf (.bool true)]),
    .vnull, .vext 1 [.leaf (.b32 9), .leaf (.str [104, 105])]])

example : wt demoReg .variant demoVariant ∧ depth demoVariant ≤ 5 ∧ demoVariant.Exact := by
  refine ⟨?_, by decide, ?_⟩
  · simp [demoVariant, wt, wtFields, Leaf.hasTy, Leaf.Fits, demoReg, canonNodeID, ATy.ty, NodeID.Fits,
      Ty.allSupported, Ty.supported]
  · simp [demoVariant, Val.Exact, Val.AllExact, Leaf.Exact]

/-! ### C09 -/

theorem C09_datavalue_roundtrip (R : Reg) (v : Val) (st : BitVec 32) (ts us : Time)
    (tp up : BitVec 16) (f : Nat) (h : wt R .variant v) (hd : depth v < f) (hv : v.Exact)
    (hts : ts = Time.zero ∨ ts.OnGrid) (hus : us = Time.zero ∨ us.OnGrid) :
    ∃ e, enc R (.dv v st ts tp us up) = some e ∧
      ∀ rest, (dec R f .dataValue).run (e ++ rest) = .ok (.dv v st ts tp us up, rest) := by
  obtain ⟨e, he, hr⟩ := rt_val R (.dv v st ts tp us up) .dataValue f (by rw [wt]; exact h)
    (by rw [depth]; omega)
  rw [canon_exact _ (by simp only [Val.Exact]; exact ⟨hv, hts, hus⟩)] at hr
  exact ⟨e, he, hr⟩

/-- Timestamps off the 100 ns grid are truncated, the rest is untouched. -/
theorem C09_timestamp_truncation (R : Reg) (v : Val) (st : BitVec 32) (ts us : Time)
    (tp up : BitVec 16) (f : Nat) (h : wt R .variant v) (hd : depth v < f) (hv : v.Exact)
    (h1 : ts.ns < 10 ^ 9) (h2 : 0 ≤ exactTicks ts) (h3 : exactTicks ts < 2650467743990000000)
    (hus : us = Time.zero) :
    ∃ e, enc R (.dv v st ts tp us up) = some e ∧
      ∀ rest, (dec R f .dataValue).run (e ++ rest) =
        .ok (.dv v st ⟨ts.sec, ts.ns / 100 * 100⟩ tp us up, rest) := by
  obtain ⟨e, he, hr⟩ := rt_val R (.dv v st ts tp us up) .dataValue f (by rw [wt]; exact h)
    (by rw [depth]; omega)
  rw [canon, canon_exact v hv] at hr
  have hz : canonTs us = us := by subst hus; rfl
  have ht : canonTs ts = ⟨ts.sec, ts.ns / 100 * 100⟩ := by
    have h4 := C03_in_range ts h1 h2 h3 []
    rw [rt_datetime ts []] at h4
    simp only [DRes.ok.injEq, Prod.mk.injEq, and_true] at h4
    unfold canonTs
    split
    · rename_i h0
      subst h0
      exact absurd h2 (by decide)
    · exact h4
  rw [hz, ht] at hr
  exact ⟨e, he, hr⟩

/-- The time that Go calls zero, midnight of 1 January of the year 1, stands for a timestamp that is not there: nothing is
sent for it, and it is what a DataValue without timestamps is read as. -/
theorem C09_unset (R : Reg) (f : Nat) (rest : Bytes) :
    enc R (.dv .vnull 0 ⟨-62135596800, 0⟩ 0 ⟨-62135596800, 0⟩ 0) = some [0] ∧
      (dec R (f + 2) .dataValue).run (0 :: rest) = .ok (.dv .vnull 0 ⟨-62135596800, 0⟩ 0 ⟨-62135596800, 0⟩ 0, rest) :=
  ⟨rfl, rfl⟩

/-- The bytes of a DataValue whose Variant is a (legal) four-dimensional empty Boolean
array, followed by a status code 0x80000000. -/
def dv4d : Bytes :=
  [0x03, 0xC1, 0, 0, 0, 0, 4, 0, 0, 0, 0, 0, 0, 0, 0, 0, 0, 0, 0, 0, 0, 0, 0, 0, 0, 0, 0, 0, 0, 0x80]

/-- Alignment is lost when the Variant cannot be decoded: the reader stops before the
status code, whose four bytes are then taken for the next field. -/
theorem C09_alignment_fails :
    ∀ R f rest, (dec R (f + 2) .dataValue).run (dv4d ++ rest) =
      .ok (.dv .vnull badDataTypeIDUnknown Time.zero 0 Time.zero 0, [0, 0, 0, 0x80] ++ rest) := by
  intro R f rest
  rfl

example : wt demoReg .variant demoVariant := by
  simp [demoVariant, wt, wtFields, Leaf.hasTy, Leaf.Fits, demoReg, canonNodeID, ATy.ty, NodeID.Fits,
      Ty.allSupported, Ty.supported]
example : Time.OnGrid ⟨1700000000, 123456700⟩ := by unfold Time.OnGrid; decide

/-! ### C10 -/

/-- A rectangular two-dimensional array of any supported element type keeps its shape. -/
theorem C10_matrix_roundtrip (R : Reg) (t : ATy) (rows : List (List Val)) (w f : Nat)
    (ht : t ≠ .diag) (hc : (rows.map List.length).sum < 2 ^ 31) (hl : rows.length < 2 ^ 31)
    (hw : w < 2 ^ 31) (hrect : ∀ r ∈ rows, r.length = w)
    (hwt : ∀ r ∈ rows, ∀ x ∈ r, wt R t.ty x) (hx : ∀ r ∈ rows, ∀ x ∈ r, x.Exact)
    (hd : ∀ r ∈ rows, ∀ x ∈ r, depth x < f) (hf : 0 < f) :
    ∃ e, enc R (.vmat t rows) = some e ∧
      ∀ rest, (dec R f .variant).run (e ++ rest) = .ok (.vmat t rows, rest) := by
  have hfields : ∀ r : List Val, (∀ x ∈ r, wt R t.ty x) → wtFields R (List.replicate r.length t.ty) r := by
    intro r
    induction r with
    | nil => intro _; simp [wtFields]
    | cons x xs ih =>
      intro h
      simp only [List.length_cons, List.replicate_succ, wtFields]
      exact ⟨h x (by simp), ih fun y hy => h y (by simp [hy])⟩
  have hrows : ∀ rs : List (List Val), (∀ r ∈ rs, ∀ x ∈ r, wt R t.ty x) → wtRows R t.ty rs := by
    intro rs
    induction rs with
    | nil => intro _; simp [wtRows]
    | cons x xs ih =>
      intro h
      simp only [wtRows]
      exact ⟨hfields x (h x (by simp)), ih fun y hy => h y (by simp [hy])⟩
  have hex1 : ∀ r : List Val, (∀ x ∈ r, x.Exact) → Val.AllExact r := by
    intro r
    induction r with
    | nil => intro _; simp [Val.AllExact]
    | cons x xs ih =>
      intro h; simp only [Val.AllExact]; exact ⟨h x (by simp), ih fun y hy => h y (by simp [hy])⟩
  have hex : ∀ rs : List (List Val), (∀ r ∈ rs, ∀ x ∈ r, x.Exact) → Val.RowsExact rs := by
    intro r
    induction r with
    | nil => intro _; simp [Val.RowsExact]
    | cons x xs ih =>
      intro h; simp only [Val.RowsExact]; exact ⟨hex1 x (h x (by simp)), ih fun y hy => h y (by simp [hy])⟩
  have hd1 : ∀ r : List Val, (∀ x ∈ r, depth x < f) → depthList r < f := by
    intro r
    induction r with
    | nil => intro _; simpa [depthList] using hf
    | cons x xs ih =>
      intro h
      have h1 := h x (by simp)
      have h2 := ih fun y hy => h y (by simp [hy])
      rw [depthList]; omega
  have hd2 : ∀ rs : List (List Val), (∀ r ∈ rs, ∀ x ∈ r, depth x < f) → depthRows rs < f := by
    intro r
    induction r with
    | nil => intro _; simpa [depthRows] using hf
    | cons x xs ih =>
      intro h
      have h1 := hd1 x (h x (by simp))
      have h2 := ih fun y hy => h y (by simp [hy])
      rw [depthRows]; omega
  obtain ⟨e, he, hr⟩ := rt_val R (.vmat t rows) .variant f
    (by rw [wt]; exact ⟨ht, hc, hl, ⟨w, hw, hrect⟩, hrows rows hwt⟩)
    (by rw [depth]; have := hd2 rows hd; omega)
  rw [canon_exact _ (by simp only [Val.Exact]; exact hex rows hx)] at hr
  exact ⟨e, he, hr⟩

/-- Three dimensions: shape `n × h × w` with `h > 0` (every array with at least one
element, and the completely empty one). -/
theorem C10_cube_roundtrip_partial (R : Reg) (t : ATy) (cs : List (List (List Val))) (f : Nat)
    (h : wt R .variant (.vcube t cs)) (hx : (Val.vcube t cs).Exact)
    (hd : depth (.vcube t cs) ≤ f) :
    ∃ e, enc R (.vcube t cs) = some e ∧
      ∀ rest, (dec R f .variant).run (e ++ rest) = .ok (.vcube t cs, rest) :=
  C08_variant_roundtrip R _ f h hd hx

/-- Arrays of two and three dimensions without elements announce that every dimension is 0. -/
theorem C10_empty (R : Reg) :
    enc R (.vmat (.leaf .int32) []) = some ([0xC6, 0, 0, 0, 0, 2, 0, 0, 0] ++ List.replicate 8 0) ∧
    enc R (.vcube (.leaf .int32) []) = some ([0xC6, 0, 0, 0, 0, 3, 0, 0, 0] ++ List.replicate 12 0) := ⟨rfl, rfl⟩

/-- An array of shape 2×0×0 is read back with shape 0×0×0. -/
theorem C10_empty_rows_shape_fails (R : Reg) :
    ∃ e, enc R (.vcube (.leaf .int32) [[], []]) = some e ∧
      ∀ rest, (dec R 1 .variant).run (e ++ rest) = .ok (.vcube (.leaf .int32) [], rest) :=
  ⟨[0xC6, 0, 0, 0, 0, 3, 0, 0, 0, 0, 0, 0, 0, 0, 0, 0, 0, 0, 0, 0, 0], rfl, fun _ => rfl⟩

/-- A 17-byte Variant with dimensions [2, 1] but no elements crashes the reader. -/
theorem C10_inconsistent_dimensions_fails (R : Reg) (f : Nat) (rest : Bytes) :
    (dec R (f + 1) .variant).run ([0xC1, 0, 0, 0, 0, 2, 0, 0, 0, 2, 0, 0, 0, 1, 0, 0, 0] ++ rest) =
      .panic := rfl

/-- So does a negative dimension. -/
theorem C10_negative_dimension_fails (R : Reg) (f : Nat) (rest : Bytes) :
    (dec R (f + 1) .variant).run
      ([0xC1, 0, 0, 0, 0, 2, 0, 0, 0, 0xFF, 0xFF, 0xFF, 0xFF, 0, 0, 0, 0] ++ rest) = .panic := by
  have hb : ([0xC1, 0, 0, 0, 0, 2, 0, 0, 0, 0xFF, 0xFF, 0xFF, 0xFF, 0, 0, 0, 0] : Bytes) =
      writeByte 0xC1 ++ ((writeI32 (0 : Nat) ++ []) ++
        (writeI32 (2 : Nat) ++ (writeI32 (-1) ++ (writeI32 0 ++ [])))) := by decide
  have h1 : RT (writeI32 (0 : Nat) ++ []) (decArray (dec R f (ATy.leaf .bool).ty)) (some []) :=
    RT.decArray 0 (by omega) RT.decSeq_nil
  have h2 : RT (writeI32 (2 : Nat) ++ (writeI32 (-1) ++ (writeI32 0 ++ []))) (decArray readI32)
      (some [-1, 0]) :=
    RT.decArray 2 (by omega) (RT.decSeq_cons (rt_i32 _ (by omega))
      (RT.decSeq_cons (rt_i32 _ (by omega)) RT.decSeq_nil))
  simp only [dec, decVariant]
  rw [hb, Dec.bind_apply, List.append_assoc, rt_byte]
  dsimp only
  rw [if_neg (by decide), if_neg (by decide), if_neg (by decide)]
  have : ATy.ofCode (0xC1 &&& 0x3F) = some (.leaf .bool) := by decide
  simp only [this]
  rw [Dec.bind_apply, List.append_assoc, h1]
  simp only
  rw [Dec.bind_apply, h2]
  rfl

theorem splitRows_np (w : Int) (hw : 0 ≤ w) :
    ∀ (n : Nat) (vals : List α), (n : Int) * w ≤ vals.length →
      ∃ rows left, splitRows w n vals = .ok (rows, left) ∧ rows.length = n ∧
        (∀ r ∈ rows, (r.length : Int) = w) ∧ rows.flatten ++ left = vals := by
  intro n
  induction n with
  | zero => intro vals _; exact ⟨[], vals, rfl, rfl, by simp, by simp⟩
  | succ n ih =>
    intro vals h
    have hw' : ((w.toNat : Nat) : Int) = w := Int.toNat_of_nonneg hw
    have h1 : ((n + 1 : Nat) : Int) * w = n * w + w := by rw [Int.natCast_add, Int.add_mul]; simp
    have hn : 0 ≤ (n : Int) * w := Int.mul_nonneg (by omega) hw
    rw [h1] at h
    obtain ⟨rows, left, he, hl, hr, hf⟩ := ih (vals.drop w.toNat) (by
      rw [List.length_drop]; omega)
    refine ⟨vals.take w.toNat :: rows, left, ?_, by simp [hl], ?_, ?_⟩
    · simp only [splitRows]
      rw [if_neg (by omega), he]
    · intro r hr'
      rcases List.mem_cons.mp hr' with rfl | hr'
      · rw [List.length_take]; omega
      · exact hr r hr'
    · rw [List.flatten_cons, List.append_assoc, hf, List.take_append_drop]

/-- Two dimensions that are not negative and cover no more than the transmitted elements:
the array returned has exactly that shape and the elements in order. (Full claim: any
dimensions give such an array or an error; missing because of the two theorems above.) -/
theorem C10_consistent_dimensions_partial (t : ATy) (vals : List Val) (d0 d1 : Int)
    (h0 : 0 ≤ d0) (h1 : 0 ≤ d1) (h : d0 * d1 ≤ vals.length) :
    ∃ rows, shape t vals [d0, d1] = .ok (.vmat t rows) ∧ (rows.length : Int) = d0 ∧
      (∀ r ∈ rows, (r.length : Int) = d1) ∧ rows.flatten <+: vals := by
  have hd : ((d0.toNat : Nat) : Int) = d0 := Int.toNat_of_nonneg h0
  obtain ⟨rows, left, he, hl, hr, hf⟩ := splitRows_np d1 h1 d0.toNat vals (by rw [hd]; exact h)
  refine ⟨rows, ?_, by omega, hr, ⟨left, hf⟩⟩
  simp only [shape]
  rw [if_neg (by omega), he]

example : wt demoReg .variant (.vcube (.leaf .bool)
    [[[.leaf (.bool true), .leaf (.bool false)]], [[.leaf (.bool true), .leaf (.bool true)]]]) := by
  simp only [wt]
  refine ⟨by decide, by decide, by decide, ⟨1, 2, by decide, by decide, by decide, by decide, by decide⟩, ?_⟩
  simp [wtCubes, wtRows, wtFields, wt, ATy.ty, Leaf.hasTy, Leaf.Fits]

/-! ### C11 -/

/-- A body of an unregistered type is skipped, whatever it contains. -/
theorem C11_unknown_type_skipped (R : Reg) (id : Option NodeID) (body rest : Bytes) (f : Nat)
    (hid : ∀ m, id = some m → m.Fits) (hunk : R.tyOf (canonNodeID id) = none)
    (hb : body.length < 2 ^ 31) :
    (dec R (f + 1) .ext).run
      (writeNodeID id ++ (writeByte 1 ++ (writeI32 body.length ++ body)) ++ rest) =
      .ok (.extNil, rest) := by
  have : RT (writeNodeID id ++ (writeByte 1 ++ (writeI32 body.length ++ body))) (dec R (f + 1) .ext)
      .extNil := by
    refine RT.bind (rt_nodeID id hid) (RT.bind (rt_byte 1) ?_)
    rw [if_neg (by decide), if_pos rfl, hunk]
    exact RT.bind_nil (rt_bytearray (some body) (by intro b hb'; cases hb'; exact hb)) (RT.pure _)
  exact this rest

/-- An XML body is skipped. -/
theorem C11_xml_body_skipped (R : Reg) (id : Option NodeID) (body rest : Bytes) (f : Nat)
    (hid : ∀ m, id = some m → m.Fits) (hb : body.length < 2 ^ 31) :
    (dec R (f + 1) .ext).run (writeNodeID id ++ (writeByte 2 ++ writeString body) ++ rest) =
      .ok (.extNil, rest) := by
  have : RT (writeNodeID id ++ (writeByte 2 ++ writeString body)) (dec R (f + 1) .ext) .extNil := by
    refine RT.bind (rt_nodeID id hid) (RT.bind (rt_byte 2) ?_)
    rw [if_neg (by decide), if_neg (by decide), if_pos rfl]
    exact RT.bind_nil (rt_string body hb) (RT.pure _)
  exact this rest

/-- A registered structure is read back. -/
theorem C11_registered_roundtrip (R : Reg) (tag : Nat) (id : NodeID) (fs : List Val) (f : Nat)
    (h1 : R.idOf tag = some (some id)) (h2 : R.tyOf (some id) = some tag) (hnull : ¬ id.IsNull)
    (hfit : id.Fits) (hsup : Ty.allSupported (R.fieldsOf tag) = true)
    (hfs : wtFields R (R.fieldsOf tag) fs) (hx : (Val.ext tag fs).Exact)
    (hd : depth (.ext tag fs) ≤ f) :
    ∃ e, enc R (.ext tag fs) = some e ∧
      ∀ rest, (dec R f .ext).run (e ++ rest) = .ok (.ext tag fs, rest) := by
  have hc : canonNodeID (some id) = some id := by
    simp only [NodeID.IsNull, not_or] at hnull
    cases id <;> simp_all [canonNodeID]
  obtain ⟨e, he, hr⟩ := rt_val R (.ext tag fs) .ext f (by
    rw [wt]
    exact ⟨⟨some id, h1, hc, by intro m hm; cases hm; exact hfit, h2⟩, hsup, hfs⟩) hd
  rw [canon_exact _ hx] at hr
  exact ⟨e, he, hr⟩

/-- The wire form announces the exact number of body bytes that follow. -/
theorem C11_declared_length (R : Reg) (tag : Nat) (fs : List Val) (e : Bytes)
    (h : enc R (.ext tag fs) = some e) :
    ∃ id body, R.idOf tag = some id ∧ encList R fs = some body ∧
      e = writeNodeID id ++ [1] ++ leBytes 4 (body.length % 2 ^ 32) ++ body := by
  simp only [enc] at h
  cases hid : R.idOf tag with
  | none => rw [hid] at h; simp at h
  | some id =>
    cases hb : encList R fs with
    | none => rw [hid, hb] at h; simp at h
    | some body =>
      refine ⟨id, body, rfl, rfl, ?_⟩
      rw [hid, hb] at h
      cases hs : Ty.allSupported (R.fieldsOf tag) with
      | false => rw [hs] at h; cases h
      | true =>
        rw [hs] at h
        cases h
        simp [writeByte, writeU32, writeBits]

example : demoReg.tyOf (canonNodeID (some (.numeric 3 42))) = none := by decide
example : wtFields demoReg (demoReg.fieldsOf 1) [.leaf (.b32 9), .leaf (.str [1])] := by
  simp [wtFields, wt, demoReg, Leaf.hasTy, Leaf.Fits]

/-! ### C12 -/

/-- Structures of supported fields, with nested structures, pointers, slices, Variants,
DataValues and ExtensionObjects. -/
theorem C12_struct_roundtrip (R : Reg) (tys : List Ty) (fs : List Val) (f : Nat)
    (hsup : Ty.supported (.struct tys) = true) (h : wtFields R tys fs)
    (hd : depth (.struct fs) ≤ f) (hx : (Val.struct fs).Exact) :
    ∃ e, encode R (.struct tys) (.struct fs) = some e ∧
      ∀ rest, (decode R f (.struct tys)).run (e ++ rest) = .ok (.struct fs, rest) := by
  obtain ⟨e, he, hr⟩ := rt_val R (.struct fs) (.struct tys) f (by rw [wt]; exact h) hd
  rw [canon_exact _ hx] at hr
  refine ⟨e, by rw [encode, if_pos hsup, he], ?_⟩
  rw [decode, if_pos hsup]
  exact hr

/-- A structure with a GUID field (such as DataSetMetaDataType) cannot be encoded at all,
although a GUID is a built-in type. -/
theorem C12_guid_field_fails (R : Reg) (g : Guid) :
    encode R (.struct [.leaf .guid]) (.struct [.leaf (.guid g)]) = none := rfl

/-- Stack depth matters only for crashes: any two depths at which the decoder does not
crash give the same result. -/
theorem C12_result_independent_of_stack (R : Reg) (f g : Nat) (ty : Ty) (s : Bytes)
    (hf : (dec R f ty).run s ≠ .panic) (hg : (dec R g ty).run s ≠ .panic) :
    (dec R f ty).run s = (dec R g ty).run s := by
  rcases Nat.le_total f g with h | h
  · exact (Le.dec R f g ty h s hf).symm
  · exact Le.dec R g f ty h s hg

example : Ty.supported (.struct [.leaf .uint32, .slice (.struct [.leaf .string, .variant])]) = true := rfl
example : wtFields demoReg [.leaf .uint32, .slice (.struct [.leaf .string, .variant])]
    [.leaf (.b32 1), .slice [.struct [.leaf (.str [65]), demoVariant]]] := by
  simp [wtFields, wt, demoVariant, Leaf.hasTy, Leaf.Fits, demoReg, canonNodeID, ATy.ty, NodeID.Fits,
    Ty.allSupported, Ty.supported]

/-! ### C13 -/

/-- Every proper prefix `p` of an encoding is rejected with an error: no value, no crash.
Covers every type, as long as no DataValue occurs inside. -/
theorem C13_truncation_rejected (R : Reg) (ty : Ty) (v : Val) (f : Nat) (e p q : Bytes)
    (h : wt R ty v) (hd : depth v ≤ f) (hdv : noDV v) (he : enc R v = some e)
    (hp : e = p ++ q) (hq : q ≠ []) : ∃ left, (dec R f ty).run p = .err left :=
  tr_val R v ty f e h hd hdv he p q hp hq

theorem C13_leaf_truncation_rejected (t : LTy) (l : Leaf) (ht : l.hasTy t) (hf : l.Fits)
    (p q : Bytes) (hp : encLeaf l = p ++ q) (hq : q ≠ []) : ∃ left, (decLeaf t).run p = .err left :=
  tr_leaf t l ht hf p q hp hq

/-- Outside the claim: a truncated DataValue *is* accepted (its Variant is cut off, the
decoder reports BadDataTypeIDUnknown as the status of a successfully read DataValue). -/
theorem C13_datavalue_boundary (R : Reg) (f : Nat) :
    ∃ e p q v, enc R (.dv (.vscalar .int32 (.b32 7)) 0 Time.zero 0 Time.zero 0) = some e ∧
      e = p ++ q ∧ q ≠ [] ∧ (dec R (f + 2) .dataValue).run p = .ok (v, []) :=
  ⟨[1, 6, 7, 0, 0, 0], [1, 6, 7], [0, 0, 0],
    .dv .vnull badDataTypeIDUnknown Time.zero 0 Time.zero 0, rfl, rfl, by decide, rfl⟩

example : noDV demoVariant := by simp [demoVariant, noDV, noDVs]

/-! ### C14 -/

/-- Two values of the same type: if one encoding is a prefix of the other, they are the
same encoding of the same value. -/
theorem C14_prefix_free (R : Reg) (ty : Ty) (v1 v2 : Val) (e1 e2 t : Bytes) (h1 : wt R ty v1)
    (h2 : wt R ty v2) (x1 : v1.Exact) (x2 : v2.Exact) (he1 : enc R v1 = some e1)
    (he2 : enc R v2 = some e2) (hp : e2 = e1 ++ t) : t = [] ∧ v1 = v2 := by
  obtain ⟨e1', he1', hr1⟩ := rt_val R v1 ty (max (depth v1) (depth v2)) h1 (by omega)
  obtain ⟨e2', he2', hr2⟩ := rt_val R v2 ty (max (depth v1) (depth v2)) h2 (by omega)
  rw [he1] at he1'; cases he1'
  rw [he2] at he2'; cases he2'
  rw [canon_exact _ x1] at hr1
  rw [canon_exact _ x2] at hr2
  exact RT.prefix_free hr1 hr2 hp

/-- A sequence of values decodes to exactly that sequence. -/
theorem C14_concatenation (R : Reg) (tys : List Ty) (vs : List Val) (f : Nat)
    (h : wtFields R tys vs) (hd : depthList vs ≤ f) (hx : Val.AllExact vs) :
    ∃ e, encList R vs = some e ∧
      ∀ rest, (decSeq (tys.map (dec R f))).run (e ++ rest) = .ok (vs, rest) := by
  obtain ⟨e, he, hr⟩ := rt_fields R vs tys f h hd
  rw [canonList_exact vs hx] at hr
  exact ⟨e, he, hr⟩

example : wt demoReg (.leaf .string) (.leaf (.str [1, 2])) ∧ (Val.leaf (.str [1, 2])).Exact := by
  simp [wt, Leaf.hasTy, Leaf.Fits, Val.Exact, Leaf.Exact]

/-! ### C22 -/

/-- A DiagnosticInfo with a symbolic id crashes the reader. -/
theorem C22_symbolic_id_fails (f : Nat) (rest : Bytes) :
    (readDiag (f + 1)).run ([1, 5, 0, 0, 0] ++ rest) = .panic := rfl

/-- The writer produces such bytes for an ordinary DiagnosticInfo. -/
theorem C22_own_encoding_fails (f : Nat) (rest : Bytes) (id : BitVec 32) :
    (readDiag (f + 1)).run (writeDiag (.mk (some id) none none none none none none) ++ rest) = .panic := by
  have h : writeDiag (.mk (some id) none none none none none none) = writeByte 1 ++ writeU32 id := by
    simp [writeDiag, diagMask]
  rw [h, readDiag, Dec.bind_apply, List.append_assoc, rt_byte 1]
  show (readU32 >>= fun _ => Dec.crash).run (writeU32 id ++ rest) = .panic
  rw [Dec.bind_apply, rt_u32 id rest]
  rfl

/-- Full claim: every input gives a value or an error. It holds when the first byte
announces no field, and on the empty input. -/
theorem C22_empty_mask_partial (f : Nat) (b : UInt8) (rest : Bytes) (hb : b = 0 ∨ b = 0x80) :
    (readDiag (f + 1)).run [] = .err [] ∧ (readDiag (f + 1)).run (b :: rest) = .ok (Diag.empty, rest) := by
  refine ⟨rfl, ?_⟩
  rcases hb with rfl | rfl <;> rfl

/-- An empty DiagnosticInfo survives. -/
theorem C22_empty_roundtrip_partial (f : Nat) (rest : Bytes) :
    (readDiag (f + 1)).run (writeDiag Diag.empty ++ rest) = .ok (Diag.empty, rest) :=
  rt_readDiag f rest

example : (readDiag 1).run [0, 9] = .ok (Diag.empty, [9]) := rfl

/-! ### C74: arbitrary input never crashes the decoder -/

/-- Types made of built-in scalars, byte slices, structures and slices: on *any* input the
decoder returns a value or an error. -/
theorem C74_plain_types_never_crash_partial (R : Reg) (ty : Ty) (f : Nat) (s : Bytes)
    (hp : ty.plain = true) (hd : ty.depth ≤ f) : (dec R f ty).run s ≠ .panic :=
  np_plain R ty f hp hd s

/-- With Variants it is false: whatever the stack depth, a run of bytes `24` (a Variant in a
Variant in a …) exhausts it. -/
theorem C74_nested_variant_fails (R : Reg) (f : Nat) :
    (dec R f .variant).run (List.replicate f 24) = .panic := by
  induction f with
  | zero => rfl
  | succ f ih =>
    simp only [dec, List.replicate_succ]
    have : (decVariant (dec R f) f).run (24 :: List.replicate f 24) =
        (dec R f .variant).run (List.replicate f 24) := by
      have hb := rt_byte 24 (List.replicate f 24)
      simp only [writeByte, List.singleton_append] at hb
      rw [decVariant, Dec.bind_apply, hb]
      rfl
    rw [this]; exact ih

example : Ty.plain (.struct [.leaf .nodeID, .slice (.struct [.leaf .localizedText])]) = true := rfl

/-! ### C75: ExtensionObject bodies are delimited by their declared length -/

/-- A body of the registered struct 1 with one extra byte (as a newer peer that appended a
field would send), correctly announced as 9 bytes long: the reader stops one byte short of
the end of the body. -/
theorem C75_extended_body_fails (f : Nat) (rest : Bytes) :
    (dec demoReg (f + 3) .ext).run
      ([1, 2, 0x89, 0x13, 1, 9, 0, 0, 0, 7, 0, 0, 0, 0xFF, 0xFF, 0xFF, 0xFF, 0xAA] ++ rest) =
      .ok (.ext 1 [.leaf (.b32 7), .leaf (.str [])], 0xAA :: rest) := by
  have hb : ([1, 2, 0x89, 0x13, 1, 9, 0, 0, 0, 7, 0, 0, 0, 0xFF, 0xFF, 0xFF, 0xFF, 0xAA] : Bytes) ++ rest =
      (writeNodeID (some (.numeric 2 5001)) ++ (writeByte 1 ++ (writeU32 9 ++
        [7, 0, 0, 0, 0xFF, 0xFF, 0xFF, 0xFF]))) ++ (0xAA :: rest) := by
    have : ([1, 2, 0x89, 0x13, 1, 9, 0, 0, 0, 7, 0, 0, 0, 0xFF, 0xFF, 0xFF, 0xFF, 0xAA] : Bytes) =
      (writeNodeID (some (.numeric 2 5001)) ++ (writeByte 1 ++ (writeU32 9 ++
        [7, 0, 0, 0, 0xFF, 0xFF, 0xFF, 0xFF]))) ++ [0xAA] := by decide
    rw [this]; simp
  rw [hb]
  obtain ⟨e, he, hr⟩ := rt_fields demoReg [.leaf (.b32 7), .leaf (.str [])] (demoReg.fieldsOf 1) (f + 1)
    (by simp [wtFields, wt, demoReg, Leaf.hasTy, Leaf.Fits]) (by simp [depthList, depth])
  have he' : encList demoReg [.leaf (.b32 7), .leaf (.str [])] =
    some [7, 0, 0, 0, 0xFF, 0xFF, 0xFF, 0xFF] := rfl
  rw [he'] at he; cases he
  exact rt_ext_any_length demoReg (dec demoReg (f + 2)) (some (.numeric 2 5001)) 1 _ _ 9 rfl
    (by intro m hm; cases hm; trivial) rfl rfl (RT.map _ hr) _

/-- Holds when the declared length is that of the fields known to the reader. -/
theorem C75_exact_body_partial (R : Reg) (id : NodeID) (tag : Nat) (fs : List Val) (body : Bytes)
    (f : Nat) (hnull : ¬ id.IsNull) (hfit : id.Fits) (ht : R.tyOf (some id) = some tag)
    (hsup : Ty.allSupported (R.fieldsOf tag) = true) (hfs : wtFields R (R.fieldsOf tag) fs)
    (hx : Val.AllExact fs) (hd : 2 + depthList fs ≤ f) (hb : encList R fs = some body)
    (rest : Bytes) :
    (dec R f .ext).run (writeNodeID (some id) ++ (writeByte 1 ++ (writeU32 (BitVec.ofNat 32 body.length) ++ body))
      ++ rest) = .ok (.ext tag fs, rest) := by
  have hc : canonNodeID (some id) = some id := by
    simp only [NodeID.IsNull, not_or] at hnull
    cases id <;> simp_all [canonNodeID]
  obtain ⟨g, rfl⟩ : ∃ g, f = g + 2 := ⟨f - 2, by omega⟩
  obtain ⟨e, he, hr⟩ := rt_fields R fs _ g hfs (by omega)
  rw [hb] at he; cases he
  rw [canonList_exact fs hx] at hr
  exact rt_ext R (dec R (g + 1)) (some id) tag fs body hc (by intro m hm; cases hm; exact hfit) ht hsup
    (RT.map _ hr) rest

example : encList demoReg [.leaf (.b32 7), .leaf (.str [65])] = some [7, 0, 0, 0, 1, 0, 0, 0, 65] := rfl

end Opcua
