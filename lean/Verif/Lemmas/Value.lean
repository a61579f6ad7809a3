import Verif.Model.Value
import Verif.Lemmas.Scalars

namespace Opcua

/-! ### Leaves -/

/-- Length fields fit in 31 bits; an ExpandedNodeID has a NodeID or is entirely nil. -/
def Leaf.Fits : Leaf → Prop
  | .str s => s.length < 2 ^ 31
  | .node n => ∀ m, n = some m → m.Fits
  | .expanded e => (e.uri.length < 2 ^ 31 ∧ ∃ n, e.nodeID = some n ∧ n.Fits) ∨ e = ⟨0, [], none⟩
  | .qname q => q.name.length < 2 ^ 31
  | .ltext l => l.text.length < 2 ^ 31 ∧ l.locale.length < 2 ^ 31
  | _ => True

/-- The value a reader obtains for a leaf: times are truncated and clamped, null NodeIDs of
namespace 0 become nil, the namespace index beside a URI is dropped. -/
def canonLeaf : Leaf → Leaf
  | .time t => .time (ticksTime (timeTicks t))
  | .node n => .node (canonNodeID n)
  | .expanded e => .expanded (canonExpanded e)
  | l => l

theorem rt_expandedNil : RT (writeExpandedNodeID ⟨0, [], none⟩) readExpandedNodeID ⟨0, [], none⟩ := by
  have : writeExpandedNodeID ⟨0, [], none⟩ = writeByte 0 ++ writeByte 0 := by decide
  rw [this]
  refine RT.bind (rt_byte 0) (RT.bind_nil (v := none) ?_ ?_)
  · exact RT.bind_nil (rt_byte 0) (RT.pure _)
  · exact RT.bind_nil (RT.pure _) (RT.bind_nil (RT.pure _) (RT.pure _))

theorem rt_leaf (t : LTy) (l : Leaf) (ht : l.hasTy t) (hf : l.Fits) :
    RT (encLeaf l) (decLeaf t) (canonLeaf l) := by
  cases l with
  | bool b => cases t <;> first | exact ht.elim | exact RT.map Leaf.bool (rt_bool b)
  | b8 v => cases t <;> first | exact ht.elim | exact RT.map Leaf.b8 (rt_bits 1 v)
  | b16 v => cases t <;> first | exact ht.elim | exact RT.map Leaf.b16 (rt_u16 v)
  | b32 v => cases t <;> first | exact ht.elim | exact RT.map Leaf.b32 (rt_u32 v)
  | b64 v => cases t <;> first | exact ht.elim | exact RT.map Leaf.b64 (rt_u64 v)
  | str s =>
    cases t <;> first
      | exact ht.elim
      | exact RT.map Leaf.str (rt_string s hf)
      | exact RT.map Leaf.str (rt_bytestring s hf)
  | time s => cases t <;> first | exact ht.elim | exact RT.map Leaf.time (rt_datetime s)
  | guid g => cases t <;> first | exact ht.elim | exact RT.map Leaf.guid (rt_guid g)
  | node n => cases t <;> first | exact ht.elim | exact RT.map Leaf.node (rt_nodeID n hf)
  | expanded e =>
    cases t <;> first
      | exact ht.elim
      | skip
    refine RT.map Leaf.expanded ?_
    rcases hf with ⟨hu, n, hn, hfn⟩ | rfl
    · exact rt_expanded e hu n hn hfn
    · exact rt_expandedNil
  | qname q => cases t <;> first | exact ht.elim | exact RT.map Leaf.qname (rt_qualifiedName q hf)
  | ltext l => cases t <;> first | exact ht.elim | exact RT.map Leaf.ltext (rt_localizedText l hf.1 hf.2)

theorem local_leaf (t : LTy) : Local (decLeaf t) := by
  cases t <;> first
    | exact Local.map _ local_bool
    | exact Local.map _ (local_bits _)
    | exact Local.map _ local_u16
    | exact Local.map _ local_u32
    | exact Local.map _ local_u64
    | exact Local.map _ local_string
    | exact Local.map _ local_bytestring
    | exact Local.map _ local_datetime
    | exact Local.map _ local_guid
    | exact Local.map _ local_nodeID
    | exact Local.map _ local_expanded
    | exact Local.map _ local_qualifiedName
    | exact Local.map _ local_localizedText

/-! ### Sequences -/

theorem RT.decSeq_nil : RT [] (decSeq ([] : List (Dec α))) [] := RT.pure _

theorem RT.decSeq_cons {e1 e2 : Bytes} {d : Dec α} {ds : List (Dec α)} {v : α} {vs : List α}
    (h1 : RT e1 d v) (h2 : RT e2 (decSeq ds) vs) : RT (e1 ++ e2) (decSeq (d :: ds)) (v :: vs) :=
  RT.bind h1 (RT.bind_nil h2 (RT.pure _))

theorem decSeq_append_run (ds2 : List (Dec α)) (ds1 : List (Dec α)) (s : Bytes) :
    (decSeq (ds1 ++ ds2)).run s =
      (decSeq ds1 >>= fun vs => decSeq ds2 >>= fun ws => Pure.pure (vs ++ ws)).run s := by
  induction ds1 generalizing s with
  | nil =>
    simp only [List.nil_append, decSeq, Dec.bind_apply, Dec.pure_apply]
    cases (decSeq ds2).run s <;> rfl
  | cons d ds ih =>
    simp only [List.cons_append, decSeq, Dec.bind_apply]
    cases hd : d.run s with
    | ok p =>
      obtain ⟨a, s'⟩ := p
      simp only [ih, Dec.bind_apply]
      cases hds : (decSeq ds).run s' with
      | ok q =>
        obtain ⟨vs, s''⟩ := q
        simp only [Dec.pure_apply]
        cases (decSeq ds2).run s'' <;> simp
      | err l => rfl
      | panic => rfl
    | err l => rfl
    | panic => rfl

theorem RT.decSeq_append {e1 e2 : Bytes} {ds1 ds2 : List (Dec α)} {vs1 vs2 : List α}
    (h1 : RT e1 (decSeq ds1) vs1) (h2 : RT e2 (decSeq ds2) vs2) :
    RT (e1 ++ e2) (decSeq (ds1 ++ ds2)) (vs1 ++ vs2) := by
  intro rest
  rw [decSeq_append_run]
  exact RT.bind h1 (RT.bind_nil h2 (RT.pure (vs1 ++ vs2))) rest

theorem Local.decSeq {ds : List (Dec α)} (h : ∀ d ∈ ds, Local d) : Local (decSeq ds) := by
  induction ds with
  | nil => exact Local.pure _
  | cons d ds ih =>
    exact Local.bind (h d (by simp)) fun _ =>
      Local.bind (ih fun d hd => h d (by simp [hd])) fun _ => Local.pure _

theorem RT.decArray {d : Dec α} {e : Bytes} {vs : List α} (n : Nat) (hn : n < 2 ^ 31)
    (h : RT e (decSeq (List.replicate n d)) vs) :
    RT (writeI32 n ++ e) (decArray d) (some vs) := by
  refine RT.bind (rt_i32 n (by omega)) ?_
  rw [if_neg (by omega), Int.toNat_natCast]
  exact RT.map some h

theorem RT.decArray_nil {d : Dec α} : RT (writeI32 (-1)) (Opcua.decArray d) none := by
  refine RT.bind_nil (rt_i32 (-1) (by omega)) ?_
  rw [if_pos (by omega)]
  exact RT.pure _

theorem Local.decArray {d : Dec α} (h : Local d) : Local (decArray d) :=
  Local.bind local_i32 fun _ => Local.ite (Local.pure _) (Local.map _ (Local.decSeq (by
    intro d' hd'; rw [List.eq_of_mem_replicate hd']; exact h)))

theorem rt_dims (ds : List Nat) (hl : ds.length < 2 ^ 31) (h : ∀ d ∈ ds, d < 2 ^ 31) :
    RT (writeDims ds) (decArray readI32) (some (ds.map Int.ofNat)) := by
  refine RT.decArray ds.length hl ?_
  clear hl
  induction ds with
  | nil => exact RT.decSeq_nil
  | cons d ds ih =>
    simp only [List.flatMap_cons, List.length_cons, List.replicate_succ, List.map_cons]
    exact RT.decSeq_cons (rt_i32 d (by have := h d (by simp); omega))
      (ih fun d hd => h d (by simp [hd]))

/-! ### Shapes -/

theorem splitRows_flatten (rows : List (List α)) (left : List α) (w : Nat)
    (h : ∀ r ∈ rows, r.length = w) :
    splitRows (w : Int) rows.length (rows.flatten ++ left) = .ok (rows, left) := by
  induction rows with
  | nil => rfl
  | cons r rs ih =>
    have hr := h r (by simp)
    have ih := ih fun r hr => h r (by simp [hr])
    simp only [List.length_cons, splitRows, List.flatten_cons, Int.toNat_natCast, List.append_assoc]
    rw [if_neg (by simp; omega)]
    rw [List.drop_left' hr, ih, List.take_left' hr]

theorem splitCubes_flatten (cs : List (List (List α))) (h w : Nat)
    (hh : ∀ c ∈ cs, c.length = h) (hw : ∀ c ∈ cs, ∀ r ∈ c, r.length = w) :
    splitCubes (h : Int) (w : Int) cs.length (cs.map List.flatten).flatten = .ok cs := by
  induction cs with
  | nil => rfl
  | cons c cs ih =>
    have hc := hh c (by simp)
    have ih := ih (fun c hc => hh c (by simp [hc])) (fun c hc => hw c (by simp [hc]))
    simp only [List.length_cons, splitCubes, List.map_cons, List.flatten_cons, Int.toNat_natCast]
    rw [if_neg (by omega)]
    have := splitRows_flatten c (cs.map List.flatten).flatten w (hw c (by simp))
    rw [hc] at this
    rw [this]
    simp only [ih]

/-! ### Well-typed values -/

mutual
/-- `wt R ty v`: `v` is a value of the Go type `ty` that the codec supports: lengths fit
31 bits, struct types in ExtensionObjects are registered under a non-null id,
multi-dimensional arrays are rectangular. -/
def wt (R : Reg) : Ty → Val → Prop
  | .leaf t, .leaf l => l.hasTy t ∧ l.Fits
  | .bytes, .bytes b => ∀ x, b = some x → x.length < 2 ^ 31
  | .struct ts, .struct fs => wtFields R ts fs
  | .ptr ts, .struct fs => wtFields R ts fs
  | .slice t, .slice vs => vs.length < 2 ^ 31 ∧ wtFields R (List.replicate vs.length t) vs
  | .variant, .vnull => True
  | .variant, .vscalar t l => l.hasTy t ∧ l.Fits ∧ l ≠ .node none
  | .variant, .varray t none => t ≠ .diag
  | .variant, .varray t (some vs) =>
      t ≠ .diag ∧ vs.length < 2 ^ 31 ∧ wtFields R (List.replicate vs.length t.ty) vs
  | .variant, .vmat t rows =>
      t ≠ .diag ∧ countRows rows < 2 ^ 31 ∧ rows.length < 2 ^ 31 ∧
      (∃ w, w < 2 ^ 31 ∧ ∀ r ∈ rows, r.length = w) ∧ wtRows R t.ty rows
  | .variant, .vcube t cs =>
      t ≠ .diag ∧ (cs.map countRows).sum < 2 ^ 31 ∧ cs.length < 2 ^ 31 ∧
      (∃ h w, 0 < h ∧ h < 2 ^ 31 ∧ w < 2 ^ 31 ∧ (∀ c ∈ cs, c.length = h) ∧
        ∀ c ∈ cs, ∀ r ∈ c, r.length = w) ∧ wtCubes R t.ty cs
  | .variant, .vext tag fs =>
      (∃ id, R.idOf tag = some id ∧ canonNodeID id = id ∧ (∀ m, id = some m → m.Fits) ∧
        R.tyOf id = some tag) ∧ Ty.allSupported (R.fieldsOf tag) = true ∧
        wtFields R (R.fieldsOf tag) fs
  | .dataValue, .dv value _ _ _ _ _ => wt R .variant value
  | .ext, .extNil => True
  | .ext, .ext tag fs =>
      (∃ id, R.idOf tag = some id ∧ canonNodeID id = id ∧ (∀ m, id = some m → m.Fits) ∧
        R.tyOf id = some tag) ∧ Ty.allSupported (R.fieldsOf tag) = true ∧
        wtFields R (R.fieldsOf tag) fs
  | .diag, .diag d => d = Diag.empty
  | _, _ => False

def wtFields (R : Reg) : List Ty → List Val → Prop
  | [], [] => True
  | t :: ts, v :: vs => wt R t v ∧ wtFields R ts vs
  | _, _ => False

def wtRows (R : Reg) (t : Ty) : List (List Val) → Prop
  | [] => True
  | r :: rs => wtFields R (List.replicate r.length t) r ∧ wtRows R t rs

def wtCubes (R : Reg) (t : Ty) : List (List (List Val)) → Prop
  | [] => True
  | r :: rs => wtRows R t r ∧ wtCubes R t rs
end

mutual
/-- Recursion depth needed to decode the value. -/
def depth : Val → Nat
  | .struct fs => 1 + depthList fs
  | .slice vs => 1 + depthList vs
  | .varray _ (some vs) => 1 + depthList vs
  | .vmat _ rows => 1 + depthRows rows
  | .vcube _ cs => 1 + depthCubes cs
  | .vext _ fs => 3 + depthList fs
  | .dv v _ _ _ _ _ => 1 + depth v
  | .ext _ fs => 2 + depthList fs
  | .diag _ => 2
  | _ => 1

def depthList : List Val → Nat
  | [] => 0
  | v :: vs => max (depth v) (depthList vs)

def depthRows : List (List Val) → Nat
  | [] => 0
  | r :: rs => max (depthList r) (depthRows rs)

def depthCubes : List (List (List Val)) → Nat
  | [] => 0
  | r :: rs => max (depthRows r) (depthCubes rs)
end

/-- Timestamps of a DataValue: absent (zero) stays zero, others are truncated/clamped. -/
def canonTs (t : Time) : Time := if t = Time.zero then Time.zero else ticksTime (timeTicks t)

mutual
/-- What the reader obtains: `canonLeaf` at every leaf, nothing else. -/
def canon : Val → Val
  | .leaf l => .leaf (canonLeaf l)
  | .struct fs => .struct (canonList fs)
  | .slice vs => .slice (canonList vs)
  | .vscalar t l => mkScalar t (canonLeaf l)
  | .varray t (some vs) => .varray t (some (canonList vs))
  | .vmat t rows => .vmat t (canonRows rows)
  | .vcube t cs => .vcube t (canonCubes cs)
  | .vext tag fs => .vext tag (canonList fs)
  | .dv v st ts tp us up => .dv (canon v) st (canonTs ts) tp (canonTs us) up
  | .ext tag fs => .ext tag (canonList fs)
  | v => v

def canonList : List Val → List Val
  | [] => []
  | v :: vs => canon v :: canonList vs

def canonRows : List (List Val) → List (List Val)
  | [] => []
  | r :: rs => canonList r :: canonRows rs

def canonCubes : List (List (List Val)) → List (List (List Val))
  | [] => []
  | r :: rs => canonRows r :: canonCubes rs
end

theorem canonList_eq_map (vs : List Val) : canonList vs = vs.map canon := by
  induction vs with
  | nil => simp [canonList]
  | cons v vs ih => simp [canonList, ih]

theorem canonRows_eq_map (vs : List (List Val)) : canonRows vs = vs.map (List.map canon) := by
  induction vs with
  | nil => simp [canonRows]
  | cons v vs ih => simp [canonRows, ih, canonList_eq_map]

theorem canonCubes_eq_map (vs : List (List (List Val))) :
    canonCubes vs = vs.map (List.map (List.map canon)) := by
  induction vs with
  | nil => simp [canonCubes]
  | cons v vs ih => simp [canonCubes, ih, canonRows_eq_map]

/-! ### type codes -/

theorem LTy.ofCode_code (t : LTy) : LTy.ofCode t.code = some t := by cases t <;> rfl

theorem ATy.ofCode_code (t : ATy) : ATy.ofCode t.code = some t := by
  cases t with
  | leaf t => cases t <;> rfl
  | _ => rfl

theorem ATy.code_bits (t : ATy) :
    t.code &&& 0x80 = 0 ∧ t.code &&& 0x3F = t.code ∧ t.code ≠ 0 ∧
    (t.code ||| 0x80) &&& 0x80 ≠ 0 ∧ (t.code ||| 0x80) &&& 0x40 = 0 ∧
    (t.code ||| 0x80) &&& 0x3F = t.code ∧
    (t.code ||| 0x80 ||| 0x40) &&& 0x80 ≠ 0 ∧ (t.code ||| 0x80 ||| 0x40) &&& 0x40 ≠ 0 ∧
    (t.code ||| 0x80 ||| 0x40) &&& 0x3F = t.code := by
  cases t with
  | leaf t => cases t <;> decide
  | _ => decide

/-! ### DataValue tail -/

theorem dvMask_bits (hv : Bool) (st : BitVec 32) (ts : Time) (tp : BitVec 16) (us : Time)
    (up : BitVec 16) :
    (dvMask hv st ts tp us up &&& 1 ≠ 0 ↔ hv = true) ∧
    (dvMask hv st ts tp us up &&& 2 ≠ 0 ↔ st ≠ 0) ∧
    (dvMask hv st ts tp us up &&& 4 ≠ 0 ↔ ts ≠ Time.zero) ∧
    (dvMask hv st ts tp us up &&& 16 ≠ 0 ↔ tp ≠ 0) ∧
    (dvMask hv st ts tp us up &&& 8 ≠ 0 ↔ us ≠ Time.zero) ∧
    (dvMask hv st ts tp us up &&& 32 ≠ 0 ↔ up ≠ 0) := by
  have key : ∀ p1 p2 p3 p4 p5 p6 : Bool,
      let m : UInt8 := (if p1 then 1 else 0) ||| (if p2 then 2 else 0) ||| (if p3 then 4 else 0) |||
        (if p4 then 16 else 0) ||| (if p5 then 8 else 0) ||| (if p6 then 32 else 0)
      (m &&& 1 ≠ 0 ↔ p1 = true) ∧ (m &&& 2 ≠ 0 ↔ p2 = true) ∧ (m &&& 4 ≠ 0 ↔ p3 = true) ∧
      (m &&& 16 ≠ 0 ↔ p4 = true) ∧ (m &&& 8 ≠ 0 ↔ p5 = true) ∧ (m &&& 32 ≠ 0 ↔ p6 = true) := by
    decide
  have := key hv (decide (st ≠ 0)) (decide (ts ≠ Time.zero)) (decide (tp ≠ 0))
    (decide (us ≠ Time.zero)) (decide (up ≠ 0))
  simpa only [decide_eq_true_eq, dvMask] using this

theorem rt_opt {c : Prop} [Decidable c] {w : α → Bytes} {d : Dec α} {x0 x y : α}
    (h : c → RT (w x) d y) (h0 : ¬ c → y = x0) :
    RT (if c then w x else []) (if c then d else pure x0) y := by
  split
  · rename_i hc; exact h hc
  · rename_i hc; rw [h0 hc]; exact RT.pure _

theorem rt_dvTail (hv : Bool) (st : BitVec 32) (ts : Time) (tp : BitVec 16) (us : Time)
    (up : BitVec 16) (v : Val) :
    RT (writeDVTail (dvMask hv st ts tp us up) st ts tp us up)
      (decDVTail (dvMask hv st ts tp us up) v 0)
      (.dv v st (canonTs ts) tp (canonTs us) up) := by
  obtain ⟨-, h2, h4, h16, h8, h32⟩ := dvMask_bits hv st ts tp us up
  generalize hb : dvMask hv st ts tp us up = b at *
  simp only [writeDVTail, decDVTail, and_true]
  refine RT.bind (v := st) (rt_opt (fun _ => rt_u32 st) ?_) ?_
  · intro hc; exact Classical.byContradiction fun h' => hc (h2.mpr h')
  refine RT.bind (v := canonTs ts) (rt_opt (fun hc => ?_) ?_) ?_
  · rw [canonTs, if_neg (h4.mp hc)]; exact rt_datetime ts
  · intro hc
    have : ts = Time.zero := Classical.byContradiction fun h' => hc (h4.mpr h')
    rw [this]; rfl
  refine RT.bind (v := tp) (rt_opt (fun _ => rt_u16 tp) ?_) ?_
  · intro hc; exact Classical.byContradiction fun h' => hc (h16.mpr h')
  refine RT.bind (v := canonTs us) (rt_opt (fun hc => ?_) ?_) ?_
  · rw [canonTs, if_neg (h8.mp hc)]; exact rt_datetime us
  · intro hc
    have : us = Time.zero := Classical.byContradiction fun h' => hc (h8.mpr h')
    rw [this]; rfl
  refine RT.bind_nil (v := up) (rt_opt (fun _ => rt_u16 up) ?_) (RT.pure _)
  · intro hc; exact Classical.byContradiction fun h' => hc (h32.mpr h')

theorem rt_dataValue (rec : Ty → Dec Val) (v' : Val) (e : Bytes) (st : BitVec 32) (ts : Time)
    (tp : BitVec 16) (us : Time) (up : BitVec 16) (h : RT e (rec .variant) v') :
    RT (writeByte (dvMask true st ts tp us up) ++
        (e ++ writeDVTail (dvMask true st ts tp us up) st ts tp us up))
      (decDataValue rec) (.dv v' st (canonTs ts) tp (canonTs us) up) := by
  refine RT.bind (rt_byte _) ?_
  rw [if_pos ((dvMask_bits true st ts tp us up).1.mpr rfl)]
  intro rest
  simp only [List.append_assoc, h _]
  exact rt_dvTail true st ts tp us up v' rest

theorem rt_dataValue_null (rec : Ty → Dec Val) (st : BitVec 32) (ts : Time)
    (tp : BitVec 16) (us : Time) (up : BitVec 16) :
    RT (writeByte (dvMask false st ts tp us up) ++
        writeDVTail (dvMask false st ts tp us up) st ts tp us up)
      (decDataValue rec) (.dv .vnull st (canonTs ts) tp (canonTs us) up) := by
  refine RT.bind (rt_byte _) ?_
  rw [if_neg (by rw [(dvMask_bits false st ts tp us up).1]; decide)]
  exact rt_dvTail false st ts tp us up .vnull

/-! ### Extension objects -/

theorem rt_ext_any_length (R : Reg) (rec : Ty → Dec Val) (id : Option NodeID) (tag : Nat)
    (fs : List Val) (body : Bytes) (n : BitVec 32) (hid : canonNodeID id = id)
    (hf : ∀ m, id = some m → m.Fits)
    (ht : R.tyOf id = some tag) (hs : Ty.allSupported (R.fieldsOf tag) = true)
    (h : RT body (rec (.struct (R.fieldsOf tag))) (.struct fs)) :
    RT (writeNodeID id ++ (writeByte 1 ++ (writeU32 n ++ body)))
      (decExt R rec) (.ext tag fs) := by
  have hn := rt_nodeID id hf
  rw [hid] at hn
  refine RT.bind hn (RT.bind (rt_byte 1) ?_)
  rw [if_neg (by decide), if_pos rfl, ht]
  have hi : RT (writeU32 n) readI32 n.toInt :=
    RT.map (fun v : BitVec 32 => v.toInt) (rt_u32 _)
  simp only [hs, if_true]
  exact RT.bind hi (RT.bind_nil h (RT.pure _))

theorem rt_ext (R : Reg) (rec : Ty → Dec Val) (id : Option NodeID) (tag : Nat)
    (fs : List Val) (body : Bytes) (hid : canonNodeID id = id) (hf : ∀ m, id = some m → m.Fits)
    (ht : R.tyOf id = some tag) (hs : Ty.allSupported (R.fieldsOf tag) = true)
    (h : RT body (rec (.struct (R.fieldsOf tag))) (.struct fs)) :
    RT (writeNodeID id ++ (writeByte 1 ++ (writeU32 (BitVec.ofNat 32 body.length) ++ body)))
      (decExt R rec) (.ext tag fs) := rt_ext_any_length R rec id tag fs body _ hid hf ht hs h

theorem rt_readDiag (f : Nat) : RT (writeDiag Diag.empty) (readDiag (f + 1)) Diag.empty := by
  have : writeDiag Diag.empty = writeByte 0 := by decide
  rw [this, readDiag]
  refine RT.bind_nil (rt_byte 0) ?_
  exact RT.pure _

theorem countRows_flatten (rows : List (List α)) : rows.flatten.length = countRows rows := by
  simp [countRows, List.length_flatten]

theorem dims2D_shape (t : ATy) (rows : List (List Val)) (w : Nat) (hw : ∀ r ∈ rows, r.length = w) :
    shape t rows.flatten ((dims2D rows).map Int.ofNat) = .ok (.vmat t rows) := by
  cases rows with
  | nil => rfl
  | cons r rs =>
    have hr := hw r (by simp)
    simp only [dims2D, List.map_cons, List.map_nil, shape, Int.ofNat_eq_natCast]
    rw [if_neg (by omega), hr, Int.toNat_natCast]
    have := splitRows_flatten (r :: rs) [] w hw
    rw [List.append_nil] at this
    rw [this]

theorem dims3D_shape (t : ATy) (cs : List (List (List Val))) (h w : Nat) (h0 : 0 < h)
    (hh : ∀ c ∈ cs, c.length = h) (hw : ∀ c ∈ cs, ∀ r ∈ c, r.length = w) :
    shape t (cs.map List.flatten).flatten ((dims3D cs).map Int.ofNat) = .ok (.vcube t cs) := by
  cases cs with
  | nil => rfl
  | cons c cs =>
    have hc := hh c (by simp)
    cases c with
    | nil => simp at hc; omega
    | cons r rs =>
      have hr := hw (r :: rs) (by simp) r (by simp)
      simp only [dims3D, List.map_cons, List.map_nil, shape, Int.ofNat_eq_natCast]
      rw [if_neg (by omega), hr, hc, Int.toNat_natCast]
      have := splitCubes_flatten ((r :: rs) :: cs) h w hh hw
      simp only [List.map_cons] at this
      rw [this]

end Opcua
