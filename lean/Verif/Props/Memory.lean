import Verif.Lemmas.Memory
import Verif.Lemmas.Scalars
import Verif.Model.Structs

/-!
# C141: decoding takes memory in proportion to what was received

A decoder that reads a length and asks for that much before it has seen the bytes can be made to ask for
gigabytes with a handful of bytes. The count is that of Model/Memory.lean.
-/

namespace Opcua.Memory

open MDec

namespace Spec

/-- Memory in proportion to what has been read: `K` bytes for each byte, those of the type's number and of the
length before a structure included. -/
def Proportional (K read cost : Nat) : Prop := cost ≤ K * (read + 4)

mutual
/-- Types of which no part is chosen by the sender: no Variant, DataValue, ExtensionObject. -/
def Closed : Ty → Prop
  | .struct ts => AllClosed ts
  | .ptr ts => AllClosed ts
  | .slice t => Closed t
  | .variant | .dataValue | .ext => False
  | _ => True

def AllClosed : List Ty → Prop
  | [] => True
  | t :: ts => Closed t ∧ AllClosed ts
end

end Spec

/-! ## The library's structures -/

/-- Counting changes nothing: the decoder of the other properties is the one that is counted here. -/
theorem C141_result (R : Reg) (fuel : Nat) (ty : Ty) (s : Bytes) :
    ((mdec R fuel ty).run s).out = (dec R fuel ty).run s := by
  rw [← erase_mdec]; rfl

theorem lib_table : (List.range 284).all (fun i => allFit 136 (Structs.fieldTys Structs.nesting i) &&
    Nat.ble (charges (Structs.fieldTys Structs.nesting i) + sizes (Structs.fieldTys Structs.nesting i))
      (136 * (minSizes (Structs.fieldTys Structs.nesting i) + 4))) = true := by decide +kernel

theorem lib_length : Structs.structs.length = 284 := by decide +kernel

theorem lib_fits : RegFits 136 Structs.reg := by
  intro tag
  change allFit 136 (Structs.fieldTys Structs.nesting tag) = true ∧ _
  by_cases h : tag < 284
  · have := List.all_eq_true.1 lib_table tag (List.mem_range.2 h)
    rw [Bool.and_eq_true] at this
    exact ⟨this.1, Nat.le_of_ble_eq_true this.2⟩
  · have hn : Structs.fieldsOf tag = [] := by
      unfold Structs.fieldsOf
      rw [List.getElem?_eq_none (by rw [lib_length]; omega)]
    have he : Structs.fieldTys Structs.nesting tag = [] := by
      unfold Structs.fieldTys
      rw [hn]; rfl
    refine ⟨by rw [he]; rfl, ?_⟩
    change charges (Structs.fieldTys Structs.nesting tag) + sizes (Structs.fieldTys Structs.nesting tag) ≤ _
    rw [he]
    exact Nat.zero_le _

/-- Whatever structure of the library is decoded, and from whatever bytes: if that succeeds, no Variant of a
DataValue was given up and no multi-dimensional array had a dimension of zero, then what was asked for is in
proportion to the bytes read. Missing: decoding that fails (`C141_header_fails`, `C141_array_fails`), that gives
up a Variant (`C141_given_up_fails`), and arrays with a dimension of zero (`C141_rows_fails`,
`C141_cubes_fails`). -/
theorem C141_proportion_partial (fuel tag : Nat) (s : Bytes) (v : Val) (left : Bytes)
    (h : (dec Structs.reg fuel (.struct (Structs.reg.fieldsOf tag))).run s = .ok (v, left))
    (hp : ((mdec Structs.reg fuel (.struct (Structs.reg.fieldsOf tag))).run s).plain = true) :
    left.length ≤ s.length ∧
      Spec.Proportional 136 (s.length - left.length)
        (asked Structs.reg fuel (.struct (Structs.reg.fieldsOf tag)) s) := by
  have hf := lib_fits tag
  have hc := cost_mdec (K := 136) (by omega) lib_fits fuel (.struct (Structs.reg.fieldsOf tag))
    (by unfold fits; exact hf.1)
  rw [← C141_result] at h
  obtain ⟨u, hu, hm, hk⟩ := hc s v left h hp
  have h2 := hf.2
  unfold minSize at hm
  unfold minSize charge at hk
  dsimp only at hm hk
  refine ⟨by omega, ?_⟩
  unfold Spec.Proportional asked
  omega

/-- It applies to the writing of a value: node i=2, attribute 13, no range, a DataValue with the array of two
strings "a", "bc". 44 bytes are asked for to hold the slice of strings, its header and the texts. -/
example : (Structs.structs[197]?).map (·.name) = some "WriteValue" := by decide +kernel

def writeAB : Bytes :=
  [0, 2] ++ [13, 0, 0, 0] ++ [255, 255, 255, 255] ++ [1] ++ [0x8C] ++ [2, 0, 0, 0] ++ [1, 0, 0, 0, 97] ++ [2, 0, 0, 0, 98, 99]

example : (match ((mdec Structs.reg 9 (.struct (Structs.reg.fieldsOf 197))).run writeAB) with
    | ⟨.ok (_, left), cost, plain⟩ => (left, cost, plain)
    | _ => ([0], 0, false)) = ([], 8 + (2 * 16 + 3) + 24, true) := by decide +kernel

/-- And to a matrix of two rows with three numbers each. -/
example : (match ((mdec Structs.reg 9 .variant).run ([0xC3] ++ [6, 0, 0, 0] ++ [1, 2, 3, 4, 5, 6] ++
      [2, 0, 0, 0] ++ [2, 0, 0, 0] ++ [3, 0, 0, 0])) with
    | ⟨.ok (.vmat _ rows, left), cost, plain⟩ => (rows.map List.length, left, cost, plain)
    | _ => ([], [0], 0, false)) = ([3, 3], [], 6 + 2 * 4 + 2 * 24 + 24, true) := by decide +kernel

/-! ## Types without parts that the sender chooses -/

/-- Never odd. -/
def Steady (m : MDec α) : Prop := ∀ s, (m.run s).plain = true

theorem Steady.pure (a : α) : Steady (Pure.pure a : MDec α) := fun _ => rfl
theorem Steady.lift (d : Dec α) : Steady (lift d) := fun _ => rfl
theorem Steady.alloc (n : Nat) : Steady (alloc n) := fun _ => rfl

theorem Steady.bind {m : MDec α} {f : α → MDec β} (hm : Steady m) (hf : ∀ a, Steady (f a)) : Steady (m >>= f) := by
  intro s
  change (bind' m f |>.run s).plain = true
  have hm := hm s
  unfold bind'
  dsimp only
  split
  · rename_i a s' _
    have := hf a s'
    simp [hm, this]
  · exact hm
  · exact hm

theorem Steady.map {m : MDec α} {f : α → β} (hm : Steady m) : Steady (f <$> m) :=
  Steady.bind hm (fun _ => Steady.pure _)

theorem Steady.ite {c : Prop} [Decidable c] {a b : MDec α} (ha : Steady a) (hb : Steady b) :
    Steady (if c then a else b) := by
  split
  · exact ha
  · exact hb

theorem steady_mString : Steady mString :=
  Steady.bind (Steady.lift _) (fun _ => Steady.ite (Steady.pure _) (Steady.bind (Steady.alloc _) (fun _ => Steady.lift _)))

theorem steady_mByteString : Steady mByteString :=
  Steady.bind (Steady.lift _) (fun _ => Steady.ite (Steady.pure _) (Steady.bind (Steady.alloc _) (fun _ => Steady.lift _)))

theorem steady_mByteArray : Steady mByteArray :=
  Steady.bind (Steady.lift _) (fun _ => Steady.ite (Steady.pure _) (Steady.bind (Steady.alloc _)
    (fun _ => Steady.map (Steady.lift _))))

theorem steady_mkNode (n : Nat) (id : NodeID) : Steady (mkNode n id) :=
  Steady.bind (Steady.alloc _) (fun _ => Steady.pure _)

theorem steady_mNodeID : Steady mNodeID := by
  unfold mNodeID
  refine Steady.bind (Steady.lift _) (fun _ => ?_)
  refine Steady.ite ?_ (Steady.ite ?_ (Steady.ite ?_ (Steady.ite ?_ (Steady.ite ?_ (Steady.ite ?_ (Steady.lift _))))))
  · exact Steady.bind (Steady.lift _) (fun _ => Steady.ite (Steady.pure _) (steady_mkNode _ _))
  · exact Steady.bind (Steady.lift _) (fun _ => Steady.bind (Steady.lift _) (fun _ => steady_mkNode _ _))
  · exact Steady.bind (Steady.lift _) (fun _ => Steady.bind (Steady.lift _) (fun _ => steady_mkNode _ _))
  · exact Steady.bind (Steady.lift _) (fun _ => Steady.bind steady_mString (fun _ =>
      Steady.ite (Steady.pure _) (steady_mkNode _ _)))
  · exact Steady.bind (Steady.lift _) (fun _ => Steady.bind (Steady.lift _) (fun _ =>
      Steady.ite (Steady.pure _) (steady_mkNode _ _)))
  · exact Steady.bind (Steady.lift _) (fun _ => Steady.bind steady_mByteString (fun _ =>
      Steady.ite (Steady.pure _) (steady_mkNode _ _)))

theorem steady_mExpandedBody (t : UInt8) : Steady (mExpandedBody t) := by
  unfold mExpandedBody
  refine Steady.ite ?_ (Steady.ite ?_ (Steady.ite ?_ (Steady.ite ?_ (Steady.ite ?_ (Steady.ite ?_ (Steady.lift _))))))
  · exact Steady.bind (Steady.lift _) (fun _ => Steady.ite (Steady.pure _) (steady_mkNode _ _))
  · exact Steady.bind (Steady.lift _) (fun _ => Steady.bind (Steady.lift _) (fun _ => steady_mkNode _ _))
  · exact Steady.bind (Steady.lift _) (fun _ => Steady.bind (Steady.lift _) (fun _ => steady_mkNode _ _))
  · exact Steady.bind (Steady.lift _) (fun _ => Steady.bind steady_mString (fun _ => steady_mkNode _ _))
  · exact Steady.bind (Steady.lift _) (fun _ => Steady.bind (Steady.lift _) (fun _ => steady_mkNode _ _))
  · exact Steady.bind (Steady.lift _) (fun _ => Steady.bind steady_mByteString (fun _ => steady_mkNode _ _))

theorem steady_mLeaf (t : LTy) : Steady (mLeaf t) := by
  have l : ∀ {α : Type} {f : α → Leaf} {d : Dec α}, Steady (f <$> lift d) := Steady.map (Steady.lift _)
  cases t with
  | string | xmlElement => exact Steady.map steady_mString
  | byteString => exact Steady.map steady_mByteString
  | nodeID => exact Steady.map steady_mNodeID
  | expandedNodeID =>
    exact Steady.map (Steady.bind (Steady.lift _) (fun _ => Steady.bind (steady_mExpandedBody _) (fun _ =>
      Steady.bind (Steady.ite steady_mString (Steady.pure _)) (fun _ =>
      Steady.bind (Steady.ite (Steady.lift _) (Steady.pure _)) (fun _ => Steady.pure _)))))
  | qualifiedName =>
    exact Steady.map (Steady.bind (Steady.lift _) (fun _ => Steady.bind steady_mString (fun _ => Steady.pure _)))
  | localizedText =>
    exact Steady.map (Steady.bind (Steady.lift _) (fun _ => Steady.bind (Steady.ite steady_mString (Steady.pure _))
      (fun _ => Steady.bind (Steady.ite steady_mString (Steady.pure _)) (fun _ => Steady.pure _))))
  | _ => exact l

theorem steady_mDiag : ∀ fuel, Steady (mDiag fuel)
  | 0 => Steady.lift _
  | fuel + 1 => by
    have c : ∀ {α β : Type} {m : MDec α}, Steady m → Steady (m >>= fun _ => lift (Dec.crash : Dec β)) :=
      fun h => Steady.bind h (fun _ => Steady.lift _)
    unfold mDiag
    exact Steady.bind (Steady.lift _) (fun _ => Steady.ite (c (Steady.lift _)) (Steady.ite (c (Steady.lift _))
      (Steady.ite (c (Steady.lift _)) (Steady.ite (c (Steady.lift _)) (Steady.ite (c steady_mString)
      (Steady.ite (c (Steady.lift _)) (Steady.ite (c (steady_mDiag fuel)) (Steady.pure _))))))))

theorem steady_mSeq : ∀ ds : List (MDec α), (∀ d ∈ ds, Steady d) → Steady (mSeq ds)
  | [], _ => Steady.pure _
  | d :: ds, h => Steady.bind (h d (List.mem_cons_self ..)) (fun _ =>
      Steady.bind (steady_mSeq ds (fun x hx => h x (List.mem_cons_of_mem _ hx))) (fun _ => Steady.pure _))

theorem allClosed_mem : ∀ {ts : List Ty}, Spec.AllClosed ts → ∀ t ∈ ts, Spec.Closed t
  | [], _, t, ht => by cases ht
  | x :: xs, h, t, ht => by
    unfold Spec.AllClosed at h
    cases ht with
    | head => exact h.1
    | tail _ ht => exact allClosed_mem h.2 t ht

theorem closed_plain (R : Reg) : ∀ fuel ty, Spec.Closed ty → Steady (mdec R fuel ty)
  | 0, _, _ => Steady.lift _
  | fuel + 1, ty, h => by
    have ih := closed_plain R fuel
    cases ty with
    | leaf t => exact Steady.map (steady_mLeaf t)
    | bytes => exact Steady.map steady_mByteArray
    | struct ts =>
      unfold Spec.Closed at h
      unfold mdec
      refine Steady.map (steady_mSeq _ (fun d hd => ?_))
      obtain ⟨t, ht, rfl⟩ := List.mem_map.1 hd
      exact ih t (allClosed_mem h t ht)
    | ptr ts =>
      unfold Spec.Closed at h
      unfold mdec
      refine Steady.bind (Steady.alloc _) (fun _ => Steady.map (steady_mSeq _ (fun d hd => ?_)))
      obtain ⟨t, ht, rfl⟩ := List.mem_map.1 hd
      exact ih t (allClosed_mem h t ht)
    | slice t =>
      unfold Spec.Closed at h
      unfold mdec
      refine Steady.bind (Steady.lift _) (fun _ => Steady.ite (Steady.pure _) (Steady.bind (Steady.alloc _)
        (fun _ => Steady.map (steady_mSeq _ (fun d hd => ?_)))))
      rw [(List.mem_replicate.1 hd).2]
      exact ih t h
    | diag => exact Steady.map (steady_mDiag fuel)
    | variant => exact absurd h (by unfold Spec.Closed; exact id)
    | dataValue => exact absurd h (by unfold Spec.Closed; exact id)
    | ext => exact absurd h (by unfold Spec.Closed; exact id)

/-- A structure of the library with no Variant, DataValue or ExtensionObject in it that is decoded to the end
has asked for memory in proportion, whatever the bytes. Missing: decoding that fails. -/
theorem C141_closed_partial (fuel tag : Nat) (hc : Spec.AllClosed (Structs.reg.fieldsOf tag)) (s : Bytes) (v : Val)
    (left : Bytes) (h : (dec Structs.reg fuel (.struct (Structs.reg.fieldsOf tag))).run s = .ok (v, left)) :
    Spec.Proportional 136 (s.length - left.length)
      (asked Structs.reg fuel (.struct (Structs.reg.fieldsOf tag)) s) :=
  (C141_proportion_partial fuel tag s v left h (closed_plain _ _ _ (by unfold Spec.Closed; exact hc) s)).2

/-- It applies to a server found on the network. -/
example : (Structs.structs[84]?).map (·.name) = some "ServerOnNetwork" := by decide +kernel

example : Spec.AllClosed (Structs.reg.fieldsOf 84) ∧
    (match ((mdec Structs.reg 9 (.struct (Structs.reg.fieldsOf 84))).run
        ([7, 0, 0, 0] ++ [1, 0, 0, 0, 97] ++ [1, 0, 0, 0, 98] ++ [1, 0, 0, 0, 1, 0, 0, 0, 99])) with
      | ⟨.ok (_, left), cost, _⟩ => (left, cost)
      | _ => ([0], 0)) = ([], 1 + 1 + 16 + 1) := by
  refine ⟨?_, by decide +kernel⟩
  have : Structs.reg.fieldsOf 84 = [.leaf .uint32, .leaf .string, .leaf .string, .slice (.leaf .string)] := by rfl
  rw [this]
  simp [Spec.AllClosed, Spec.Closed]

/-! ## Where it does not hold -/

theorem run_lift {d : Dec α} {f : α → MDec β} {s : Bytes} {a : α} {s' : Bytes} (h : d.run s = .ok (a, s')) :
    (lift d >>= f).run s = (f a).run s' := by
  change (bind' (lift d) f).run s = _
  unfold bind' MDec.lift
  dsimp only
  rw [h]
  simp

theorem run_alloc {f : Unit → MDec β} {s : Bytes} {n : Nat} :
    (alloc n >>= f).run s = ⟨((f ()).run s).out, n + ((f ()).run s).cost, ((f ()).run s).plain⟩ := by
  change (bind' (alloc n) f).run s = _
  unfold bind' MDec.alloc
  simp

theorem le_bind (m : MDec α) (f : α → MDec β) (s : Bytes) : (m.run s).cost ≤ ((m >>= f).run s).cost := by
  change _ ≤ ((bind' m f).run s).cost
  unfold bind'
  dsimp only
  split <;> simp

theorem le_map (m : MDec α) (f : α → β) (s : Bytes) : (m.run s).cost ≤ ((f <$> m).run s).cost := le_bind m _ s

theorem run_i32 (n : Nat) (hn : n < 2 ^ 31) (rest : Bytes) :
    readI32.run (writeI32 n ++ rest) = .ok ((n : Int), rest) := rt_i32 n (by omega) rest

theorem drun_ok {d : Dec α} {f : α → Dec β} {s : Bytes} {a : α} {s' : Bytes} (h : d.run s = .ok (a, s')) :
    (d >>= f).run s = (f a).run s' := by
  change (match d.run s with | .ok (a, s') => (f a).run s' | .err l => .err l | .panic => .panic) = _
  rw [h]

theorem drun_err {d : Dec α} {f : α → Dec β} {s l : Bytes} (h : d.run s = .err l) : (d >>= f).run s = .err l := by
  change (match d.run s with | .ok (a, s') => (f a).run s' | .err l => .err l | .panic => .panic) = _
  rw [h]

theorem drun_map_err {d : Dec α} {f : α → β} {s l : Bytes} (h : d.run s = .err l) : (f <$> d).run s = .err l :=
  drun_err (f := Pure.pure ∘ f) h

/-- A text of which nothing has arrived. -/
theorem string_err (n : Nat) (hn : n < 2 ^ 31) (hpos : 0 < n) : readString.run (writeI32 n) = .err [] := by
  have h := run_i32 n hn []
  rw [List.append_nil] at h
  unfold readString
  rw [drun_ok h, if_neg (by omega)]
  unfold readN
  dsimp only
  rw [if_neg (by simp; omega)]

/-- A text asks for the length that stands before it. -/
theorem string_cost (n : Nat) (hn : n < 2 ^ 31) (rest : Bytes) : n ≤ (mString.run (writeI32 n ++ rest)).cost := by
  unfold mString
  rw [run_lift (run_i32 n hn rest), if_neg (by omega), run_alloc]
  change n ≤ (n : Int).toNat + _
  omega

/-- Every request of a client begins with a header, and the header with the authentication token, a NodeID. Seven
bytes - a NodeID that says it is a text of length `n`, and nothing more - make the server ask for `n` bytes, up to
two gigabytes, before anybody is authenticated. The decoding then fails; the memory has been asked for. -/
theorem C141_header_fails (R : Reg) (fuel n : Nat) (hn : n < 2 ^ 31) (hs ts : List Ty) :
    ([3, 0, 0] ++ writeI32 n).length = 7 ∧
    n ≤ asked R (fuel + 3) (.struct (.struct (.leaf .nodeID :: hs) :: ts)) ([3, 0, 0] ++ writeI32 n) ∧
    (0 < n → (dec R (fuel + 3) (.struct (.struct (.leaf .nodeID :: hs) :: ts))).run ([3, 0, 0] ++ writeI32 n)
      = .err []) := by
  have hr : readByte.run (3 :: (0 :: 0 :: writeI32 n)) = .ok (3, 0 :: 0 :: writeI32 n) := rfl
  have h16 : readU16.run (0 :: 0 :: writeI32 n) = .ok (0, writeI32 n) := rfl
  refine ⟨by rfl, ?_, fun hpos => ?_⟩
  · unfold asked mdec
    refine Nat.le_trans ?_ (le_map _ _ _)
    rw [List.map_cons]
    unfold mSeq
    refine Nat.le_trans ?_ (le_bind _ _ _)
    unfold mdec
    refine Nat.le_trans ?_ (le_map _ _ _)
    rw [List.map_cons]
    unfold mSeq
    refine Nat.le_trans ?_ (le_bind _ _ _)
    unfold mdec
    refine Nat.le_trans ?_ (le_map _ _ _)
    refine Nat.le_trans ?_ (le_map _ _ _)
    unfold mNodeID
    rw [show [3, 0, 0] ++ writeI32 n = (3 : UInt8) :: (0 :: 0 :: writeI32 n) from rfl, run_lift hr]
    rw [if_neg (by decide), if_neg (by decide), if_neg (by decide), if_pos rfl, run_lift h16]
    refine Nat.le_trans ?_ (le_bind _ _ _)
    have := string_cost n hn []
    rw [List.append_nil] at this
    exact this
  · have hnode : readNodeID.run ([3, 0, 0] ++ writeI32 n) = .err [] := by
      unfold readNodeID
      rw [show [3, 0, 0] ++ writeI32 n = (3 : UInt8) :: (0 :: 0 :: writeI32 n) from rfl, drun_ok hr]
      rw [if_neg (by decide), if_neg (by decide), if_neg (by decide), if_pos rfl, drun_ok h16]
      exact drun_err (string_err n hn hpos)
    have hleaf : (dec R (fuel + 1) (.leaf .nodeID)).run ([3, 0, 0] ++ writeI32 n) = .err [] := by
      unfold dec
      exact drun_map_err (drun_map_err hnode)
    have one : ∀ (fuel : Nat) (t : Ty) (ts : List Ty) (s : Bytes), (dec R fuel t).run s = .err [] →
        (dec R (fuel + 1) (.struct (t :: ts))).run s = .err [] := by
      intro fuel t ts s h
      unfold dec
      exact drun_map_err (drun_err h)
    exact one _ _ _ _ (one _ _ _ _ hleaf)

/-- So begins the request to open a channel, and so do the other requests. -/
example : (Structs.structs[99]?).map (·.name) = some "OpenSecureChannelRequest" ∧
    (Structs.fieldsOf 99).head? = some ("RequestHeader", .struct 77) ∧
    (Structs.fieldsOf 77).head? = some ("AuthenticationToken", .leaf .nodeID) := by decide +kernel

example : ((List.range 284).filter (fun i => (Structs.fieldsOf i).head?.map (·.2) == some (.struct 77))).length = 39 := by
  decide +kernel

/-- An array asks for as many elements as the message says there are: five bytes, 88 bytes an element for
DataValues, up to 189 gigabytes. -/
theorem C141_array_fails (R : Reg) (fuel n : Nat) (hn : n < 2 ^ 31) :
    (0x97 :: writeI32 n).length = 5 ∧ 88 * n ≤ asked R (fuel + 1) .variant (0x97 :: writeI32 n) := by
  have hr : readByte.run (0x97 :: writeI32 n) = .ok (0x97, writeI32 n) := rfl
  refine ⟨by rfl, ?_⟩
  unfold asked mdec mVariant
  rw [run_lift hr]
  dsimp only
  rw [if_neg (by decide), if_pos (by decide), if_neg (by decide),
    show ATy.ofCode (0x97 &&& 0x3F) = some .dataValue by decide]
  dsimp only
  refine Nat.le_trans ?_ (le_bind _ _ _)
  unfold mArray
  have h := run_i32 n hn []
  rw [List.append_nil] at h
  rw [run_lift h, if_neg (by omega), run_alloc]
  change 88 * n ≤ (n : Int).toNat * 88 + _
  omega

/-- A DataValue whose text is longer than the message is decoded *successfully*, without the text: six bytes ask
for `n`, and nobody is told. -/
theorem C141_given_up_fails (R : Reg) (fuel n : Nat) (hn : n < 2 ^ 31) (hpos : 0 < n) :
    (1 :: 0x0C :: writeI32 n).length = 6 ∧ n ≤ asked R (fuel + 2) .dataValue (1 :: 0x0C :: writeI32 n) ∧
    (dec R (fuel + 2) .dataValue).run (1 :: 0x0C :: writeI32 n) =
      .ok (.dv .vnull badDataTypeIDUnknown Time.zero 0 Time.zero 0, []) := by
  have hvar : (dec R (fuel + 1) .variant).run (0x0C :: writeI32 n) = .err [] := by
    have hr : readByte.run (0x0C :: writeI32 n) = .ok (0x0C, writeI32 n) := rfl
    unfold dec decVariant
    rw [drun_ok hr]
    dsimp only
    rw [if_pos (by decide), if_neg (by decide), show ATy.ofCode (0x0C &&& 0x3F) = some (.leaf .string) by decide]
    exact drun_map_err (drun_map_err (string_err n hn hpos))
  refine ⟨by rfl, ?_, ?_⟩
  · have hv : n ≤ ((mdec R (fuel + 1) .variant).run (0x0C :: writeI32 n)).cost := by
      have hr : readByte.run (0x0C :: writeI32 n) = .ok (0x0C, writeI32 n) := rfl
      unfold mdec mVariant
      rw [run_lift hr]
      dsimp only
      rw [if_pos (by decide), if_neg (by decide), show ATy.ofCode (0x0C &&& 0x3F) = some (.leaf .string) by decide]
      dsimp only
      refine Nat.le_trans ?_ (le_bind _ _ _)
      refine Nat.le_trans ?_ (le_map _ _ _)
      have := string_cost n hn []
      rw [List.append_nil] at this
      exact this
    have hr : readByte.run (1 :: 0x0C :: writeI32 n) = .ok (1, 0x0C :: writeI32 n) := rfl
    unfold asked mdec mDataValue
    rw [run_lift hr, if_pos (by decide)]
    dsimp only
    rw [show ((mdec R (fuel + 1) .variant).run (0x0C :: writeI32 n)).out = .err [] by rw [C141_result]; exact hvar]
    exact hv
  · change (match (dec R (fuel + 1) .variant).run (0x0C :: writeI32 n) with
      | .ok (v, s') => (decDVTail 1 v 0).run s'
      | .err left => (decDVTail 1 .vnull badDataTypeIDUnknown).run left
      | .panic => .panic) = _
    rw [hvar]
    rfl

theorem le_after {m : MDec α} {f : α → MDec β} {s : Bytes} {a : α} {s' : Bytes} (h : (m.run s).out = .ok (a, s')) :
    ((f a).run s').cost ≤ ((m >>= f).run s).cost := by
  change _ ≤ ((bind' m f).run s).cost
  unfold bind'
  dsimp only
  rw [h]
  dsimp only
  omega

theorem array_none (d : Dec α) (rest : Bytes) : (decArray d).run (writeI32 0 ++ rest) = .ok (some [], rest) := by
  unfold decArray
  have h : readI32.run (writeI32 0 ++ rest) = .ok (0, rest) := run_i32 0 (by omega) rest
  rw [drun_ok h, if_neg (by omega)]
  rfl

theorem drun_map {d : Dec α} {f : α → β} {s s' : Bytes} {a : α} (h : d.run s = .ok (a, s')) :
    (f <$> d).run s = .ok (f a, s') := drun_ok (f := Pure.pure ∘ f) h

theorem array_dims : ∀ (ds : List Nat), (∀ d ∈ ds, d < 2 ^ 31) → ∀ rest : Bytes,
    (decSeq (List.replicate ds.length readI32)).run (ds.flatMap (fun d : Nat => writeI32 (d : Int)) ++ rest) =
      .ok (ds.map (fun d : Nat => (d : Int)), rest)
  | [], _, rest => rfl
  | d :: ds, h, rest => by
    rw [List.length_cons, List.replicate_succ, List.flatMap_cons, List.append_assoc]
    unfold decSeq
    rw [drun_ok (run_i32 d (h d (List.mem_cons_self ..)) _),
      drun_ok (array_dims ds (fun x hx => h x (List.mem_cons_of_mem _ hx)) rest)]
    rfl

/-- A Variant with an array of no Booleans and the dimensions `ds`. -/
def shaped (ds : List Nat) : Bytes := 0xC1 :: (writeI32 0 ++ (writeI32 ds.length ++ ds.flatMap (fun d : Nat => writeI32 (d : Int))))

theorem shaped_dims (ds : List Nat) (hl : ds.length < 2 ^ 31) (h : ∀ d ∈ ds, d < 2 ^ 31) :
    (decArray readI32).run (writeI32 ds.length ++ ds.flatMap (fun d : Nat => writeI32 (d : Int))) =
      .ok (some (ds.map (fun d : Nat => (d : Int))), []) := by
  unfold decArray
  rw [drun_ok (run_i32 _ hl _), if_neg (by omega)]
  have := array_dims ds h []
  rw [List.append_nil] at this
  exact drun_map this

theorem shaped_dec (R : Reg) (fuel : Nat) (ds : List Nat) (hl : ds.length < 2 ^ 31) (h : ∀ d ∈ ds, d < 2 ^ 31)
    (v : Val) (hv : shape (.leaf .bool) [] (ds.map (fun d : Nat => (d : Int))) = .ok v) :
    (dec R (fuel + 1) .variant).run (shaped ds) = .ok (v, []) := by
  have hr : ∀ s : Bytes, readByte.run (0xC1 :: s) = .ok (0xC1, s) := fun _ => rfl
  unfold dec decVariant shaped
  rw [drun_ok (hr _)]
  dsimp only
  rw [if_neg (by decide), if_neg (by decide), if_neg (by decide),
    show ATy.ofCode (0xC1 &&& 0x3F) = some (.leaf .bool) by decide]
  dsimp only
  rw [drun_ok (array_none _ _), drun_ok (shaped_dims ds hl h)]
  change (Dec.ofRes (shape (.leaf .bool) [] (ds.map (fun d : Nat => (d : Int))))).run [] = _
  rw [hv]
  rfl

theorem shaped_cost (R : Reg) (fuel : Nat) (ds : List Nat) (hl : ds.length < 2 ^ 31) (h : ∀ d ∈ ds, d < 2 ^ 31) :
    shapeCost ([] : List Val) (ds.map (fun d : Nat => (d : Int))) ≤ asked R (fuel + 1) .variant (shaped ds) := by
  have hr : ∀ s : Bytes, readByte.run (0xC1 :: s) = .ok (0xC1, s) := fun _ => rfl
  unfold asked mdec mVariant shaped
  rw [run_lift (hr _)]
  dsimp only
  rw [if_neg (by decide), if_neg (by decide), if_neg (by decide),
    show ATy.ofCode (0xC1 &&& 0x3F) = some (.leaf .bool) by decide]
  dsimp only
  have e : ∀ {α : Type} {n : Nat} {d : MDec α} {s : Bytes}, ((mArray n d).run s).out = (decArray d.erase).run s := by
    intro α n d s
    rw [← erase_mArray n]; rfl
  refine Nat.le_trans ?_ (le_after (a := some []) (e.trans (array_none _ _)))
  refine Nat.le_trans ?_ (le_after (a := some (ds.map (fun d : Nat => (d : Int)))) (e.trans (shaped_dims ds hl h)))
  change _ ≤ ((mShape _ [] (ds.map (fun d : Nat => (d : Int)))).run []).cost
  unfold mShape
  exact le_bind (alloc _) _ []

theorem rows_of_nothing : ∀ n, splitRows 0 n ([] : List Val) = .ok (List.replicate n [], [])
  | 0 => rfl
  | n + 1 => by
    unfold splitRows
    rw [if_neg (by simp)]
    rw [List.drop_nil, rows_of_nothing n, List.take_nil]
    rfl

theorem cubes_of_nothing (m : Nat) : ∀ n, splitCubes m 0 n ([] : List Val) =
    .ok (List.replicate n (List.replicate m [])) ∧ cubeCost m 0 n ([] : List Val) = n * (24 * m)
  | 0 => by
    constructor
    · rfl
    · unfold cubeCost; omega
  | n + 1 => by
    obtain ⟨h1, h2⟩ := cubes_of_nothing m n
    have hm : ((m : Int)).toNat = m := by omega
    constructor
    · unfold splitCubes
      rw [if_neg (by omega), hm, rows_of_nothing]
      dsimp only
      rw [h1]
      rfl
    · unfold cubeCost
      rw [if_neg (by omega), hm, rows_of_nothing]
      dsimp only
      rw [h2, Nat.add_mul]
      omega

/-- Seventeen bytes say that an array with no elements has `n` rows of none, and `n` rows are made: 24 bytes each,
up to 51 gigabytes, and the decoding succeeds. -/
theorem C141_rows_fails (R : Reg) (fuel n : Nat) (hn : n < 2 ^ 31) :
    (shaped [n, 0]).length = 17 ∧ 24 * n ≤ asked R (fuel + 1) .variant (shaped [n, 0]) ∧
    (dec R (fuel + 1) .variant).run (shaped [n, 0]) = .ok (.vmat (.leaf .bool) (List.replicate n []), []) := by
  have hd : ∀ d ∈ [n, 0], d < 2 ^ 31 := by
    intro d hd
    simp only [List.mem_cons, List.not_mem_nil, or_false] at hd
    omega
  refine ⟨by rfl, ?_, ?_⟩
  · refine Nat.le_trans ?_ (shaped_cost R fuel [n, 0] (by simp) hd)
    change 24 * n ≤ 24 * (n : Int).toNat + 24
    omega
  · refine shaped_dec R fuel [n, 0] (by simp) hd _ ?_
    change (if (n : Int) < 0 then Res.panic else match splitRows 0 (n : Int).toNat ([] : List Val) with
      | .ok (rows, _) => Res.ok (Val.vmat (.leaf .bool) rows) | .err => Res.err | .panic => Res.panic) = _
    rw [if_neg (by omega), show ((n : Int)).toNat = n by omega, rows_of_nothing]

/-- With three dimensions the sender's numbers are multiplied: twenty-one bytes ask for `24 * n * m`. -/
theorem C141_cubes_fails (R : Reg) (fuel n m : Nat) (hn : n < 2 ^ 31) (hm : m < 2 ^ 31) :
    (shaped [n, m, 0]).length = 21 ∧ n * (24 * m) ≤ asked R (fuel + 1) .variant (shaped [n, m, 0]) ∧
    (dec R (fuel + 1) .variant).run (shaped [n, m, 0]) =
      .ok (.vcube (.leaf .bool) (List.replicate n (List.replicate m [])), []) := by
  have hd : ∀ d ∈ [n, m, 0], d < 2 ^ 31 := by
    intro d hd
    simp only [List.mem_cons, List.not_mem_nil, or_false] at hd
    omega
  refine ⟨by rfl, ?_, ?_⟩
  · refine Nat.le_trans ?_ (shaped_cost R fuel [n, m, 0] (by simp) hd)
    change n * (24 * m) ≤ 24 * (n : Int).toNat + cubeCost (m : Int) 0 (n : Int).toNat ([] : List Val) + 24
    rw [show ((n : Int)).toNat = n by omega, (cubes_of_nothing m n).2]
    omega
  · refine shaped_dec R fuel [n, m, 0] (by simp) hd _ ?_
    change (if (n : Int) < 0 then Res.panic else match splitCubes m 0 (n : Int).toNat ([] : List Val) with
      | .ok rows => Res.ok (Val.vcube (.leaf .bool) rows) | .err => Res.err | .panic => Res.panic) = _
    rw [if_neg (by omega), show ((n : Int)).toNat = n by omega, (cubes_of_nothing m n).1]

/-- No factor below five thousand million million suits every message: this one is twenty-one bytes long. -/
example (fuel K : Nat) (hK : K ≤ 5 * 10 ^ 18) :
    K * (shaped [2147483647, 2147483647, 0]).length < asked Structs.reg (fuel + 1) .variant
      (shaped [2147483647, 2147483647, 0]) := by
  have h := C141_cubes_fails Structs.reg fuel 2147483647 2147483647 (by omega) (by omega)
  rw [h.1]
  exact Nat.lt_of_lt_of_le (by omega) h.2.1

end Opcua.Memory
