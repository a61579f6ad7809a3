import Verif.Model.Structs
import Verif.Model.Schema
import Verif.Model.Registry
import Verif.Props.Value
import Verif.Lemmas.Lists

/-! C109 and C110: the structures of the library, compared with the schema of the OPC Foundation and
with the address space of the server. -/

namespace Opcua.Structs

set_option maxRecDepth 100000

namespace Spec
open Opcua.Schema

/-- The bytes of a name. -/
def bytes (s : String) : List Nat := s.toByteArray.data.toList.map UInt8.toNat

/-- Equality of names. -/
def same : List Nat → List Nat → Bool
  | [], [] => true
  | a :: l, b :: m => Nat.beq a b && same l m
  | _, _ => false

/-- Names are compared without regard to case and underscores: `EndpointUrl` is `EndpointURL` in Go. -/
def norm (s : String) : List Nat :=
  ((bytes s).filter (fun c => !Nat.beq c 95)).map (fun c => bif Nat.ble 65 c && Nat.ble c 90 then c + 32 else c)

/-- A type name without the prefix of its namespace. -/
def bare (l : List Nat) : List Nat := (l.dropWhile (fun c => !Nat.beq c 58)).drop 1

/-- The built-in types. -/
def builtins : List (String × F) :=
  [("opc:Boolean", .leaf .bool),
   ("opc:SByte", .leaf .sbyte),
   ("opc:Byte", .leaf .byte),
   ("opc:Int16", .leaf .int16),
   ("opc:UInt16", .leaf .uint16),
   ("opc:Int32", .leaf .int32),
   ("opc:UInt32", .leaf .uint32),
   ("opc:Int64", .leaf .int64),
   ("opc:UInt64", .leaf .uint64),
   ("opc:Float", .leaf .float),
   ("opc:Double", .leaf .double),
   ("opc:String", .leaf .string),
   ("opc:CharArray", .leaf .string),
   ("opc:DateTime", .leaf .dateTime),
   ("opc:Guid", .leaf .guid),
   ("opc:ByteString", .leaf .byteString),
   ("ua:XmlElement", .leaf .xmlElement),
   ("ua:NodeId", .leaf .nodeID),
   ("ua:ExpandedNodeId", .leaf .expandedNodeID),
   ("ua:StatusCode", .leaf .statusCode),
   ("ua:QualifiedName", .leaf .qualifiedName),
   ("ua:LocalizedText", .leaf .localizedText),
   ("ua:ExtensionObject", .ext),
   ("ua:DataValue", .dataValue),
   ("ua:Variant", .variant),
   ("ua:DiagnosticInfo", .diag)]

/-- An enumeration takes as many bits as it says. -/
def integer (bits : Nat) : F :=
  if bits = 8 then .leaf .byte else if bits = 16 then .leaf .uint16 else .leaf .int32

/-- What stands on the wire for a type of the schema; structures are numbered in the order of the
schema. -/
def wire (s : String) : F :=
  match builtins.find? (fun b => same (bytes b.1) (bytes s)) with
  | some b => b.2
  | none =>
    match enumerations.find? (fun e => same (bytes e.name) (bare (bytes s))) with
    | some e => integer e.bits
    | none => .struct (types.findIdx (fun t => same (bytes t.name) (bare (bytes s))))

/-- The fields of a structure: a field that gives the length of another is part of that array. -/
def fields (t : StructuredType) : List (String × String × Option String) :=
  t.fields.filter (fun f => !t.fields.any (fun g => g.2.2.any (fun n => same (bytes n) (bytes f.1))))

/-- What stands on the wire for a field: an array is its length and its elements. -/
def field (f : String × String × Option String) : F :=
  match f.2.2 with
  | none => wire f.2.1
  | some _ => .slice (wire f.2.1)

def layout (i : Nat) : List F :=
  match types[i]? with
  | some t => (fields t).map field
  | none => []

/-- A field with the structures in it spelt out; enumerations have become integers above. -/
def ty (tys : Nat → List Ty) : F → Ty
  | .leaf t => .leaf t
  | .variant => .variant
  | .dataValue => .dataValue
  | .ext => .ext
  | .diag => .diag
  | .enum _ => .leaf .int32
  | .struct i => .struct (tys i)
  | .slice f => .slice (ty tys f)

/-- The wire layout of structure `i` of the schema, looking at most `n` structures deep. -/
def tys : Nat → Nat → List Ty
  | 0, _ => []
  | n + 1, i => (layout i).map (ty (tys n))

/-- The address space writes `3D` for `ThreeD`. -/
def browseName : List Nat → List Nat
  | 51 :: 100 :: cs => bytes "threed" ++ cs
  | cs => cs

end Spec

open Spec

/-! ### The comparison of the tables -/

/-- A field as it stands on the wire: constants of enumerations are `int32`. -/
def F.flat : F → F
  | .enum _ => .leaf .int32
  | .slice f => .slice f.flat
  | f => f

theorem ty_flat (tys : Nat → List Ty) (f : F) : ty tys f.flat = f.ty tys := by
  induction f with
  | slice f ih => simp [F.flat, F.ty, ty, ih]
  | _ => rfl

/-- FieldMetaData -/
abbrev fieldMetaData : Nat := 24

theorem length_structs : structs.length = 284 := by decide +kernel
theorem length_types : Schema.types.length = 284 := by decide +kernel

def agree (i : Nat) : Bool := i == fieldMetaData || (fieldsOf i).map (fun f => f.2.flat) == layout i

theorem all_agree : (List.range 284).all agree = true := by decide +kernel

theorem layout_eq (i : Nat) (h : i ≠ fieldMetaData) : (fieldsOf i).map (fun f => f.2.flat) = layout i := by
  by_cases hi : i < 284
  · have := List.all_eq_true.1 all_agree i (List.mem_range.2 hi)
    simpa [agree, h] using this
  · have h1 : structs[i]? = none := List.getElem?_eq_none (by rw [length_structs]; omega)
    have h2 : Schema.types[i]? = none := List.getElem?_eq_none (by rw [length_types]; omega)
    simp [fieldsOf, layout, h1, h2]

example : structs[fieldMetaData]?.map (·.name) = some "FieldMetaData" := by decide +kernel

theorem same_iff (l m : List Nat) : same l m = true ↔ l = m := by
  induction l generalizing m with
  | nil => cases m <;> simp [same]
  | cons a l ih => cases m <;> simp [same, ih]

/-- Equality of lists of names. -/
def sameAll : List (List Nat) → List (List Nat) → Bool
  | [], [] => true
  | a :: l, b :: m => same a b && sameAll l m
  | _, _ => false

theorem sameAll_iff (l m : List (List Nat)) : sameAll l m = true ↔ l = m := by
  induction l generalizing m with
  | nil => cases m <;> simp [sameAll]
  | cons a l ih => cases m <;> simp [sameAll, ih, same_iff]

/-- Names of structures and fields. -/
def sameNames (s : Struct) (t : Schema.StructuredType) : Bool :=
  same (norm s.name) (norm t.name) && sameAll (s.fields.map (fun f => norm f.1)) ((fields t).map (fun f => norm f.1))

theorem all_names : (List.range 284).all (fun i =>
    match structs[i]?, Schema.types[i]? with
    | some s, some t => sameNames s t
    | _, _ => false) = true := by decide +kernel

/-! ## C109 -/

/-- Of every structure of the library but one the fields are those of the schema: the same names in the
same order, with types that stand in the same way on the wire. -/
theorem C109_fields_partial (i : Nat) (s : Struct) (hs : structs[i]? = some s) :
    ∃ t, Schema.types[i]? = some t ∧ norm s.name = norm t.name ∧
      s.fields.map (fun f => norm f.1) = (fields t).map (fun f => norm f.1) ∧
      (i ≠ fieldMetaData → s.fields.map (fun f => f.2.flat) = (fields t).map field) := by
  have hi : i < 284 := by
    have := (List.getElem?_eq_some_iff.1 hs).1
    rwa [length_structs] at this
  have hn := List.all_eq_true.1 all_names i (List.mem_range.2 hi)
  rw [hs] at hn
  cases ht : Schema.types[i]? with
  | none => rw [ht] at hn; simp at hn
  | some t =>
    rw [ht] at hn
    simp only [sameNames, Bool.and_eq_true, same_iff, sameAll_iff] at hn
    refine ⟨t, rfl, hn.1, hn.2, ?_⟩
    intro hne
    have := layout_eq i hne
    simpa [fieldsOf, layout, hs, ht] using this

example : structs[152]?.map (·.name) = some "BrowsePath" := by decide +kernel

/-- The schema gives the flags in FieldMetaData 16 bits, the library 32. -/
theorem C109_flags_fails : (fieldsOf fieldMetaData).map (fun f => f.2.flat) ≠ layout fieldMetaData := by decide +kernel

theorem guid_unsupported (n : Nat) : Ty.allSupported (fieldTys (n + 1) fieldMetaData) = false := by
  have : (fieldsOf fieldMetaData).any (fun f => f.2 == .leaf .guid) = true := by decide +kernel
  rw [List.any_eq_true] at this
  obtain ⟨f, hf, hg⟩ := this
  simp only [beq_iff_eq] at hg
  simp only [fieldTys]
  have key : ∀ l : List Ty, Ty.leaf .guid ∈ l → Ty.allSupported l = false := by
    intro l
    induction l with
    | nil => intro h; cases h
    | cons t l ih =>
      intro h
      rw [Ty.allSupported]
      rcases List.mem_cons.1 h with rfl | h
      · rfl
      · rw [ih h, Bool.and_false]
  apply key
  rw [List.mem_map]
  exact ⟨f, hf, by rw [hg]; rfl⟩

theorem allSupported_mem {l : List Ty} (h : Ty.allSupported l = true) {t : Ty} (ht : t ∈ l) : t.supported = true := by
  induction l with
  | nil => cases ht
  | cons a l ih =>
    rw [Ty.allSupported, Bool.and_eq_true] at h
    rcases List.mem_cons.1 ht with rfl | ht
    · exact h.1
    · exact ih h.2 ht

/-- Every structure that the codec can handle at all has the layout of the schema, with everything in
it. -/
theorem layout_deep (n : Nat) : ∀ i, Ty.allSupported (fieldTys n i) = true → fieldTys n i = tys n i := by
  induction n with
  | zero => intro i _; rfl
  | succ n ih =>
    intro i h
    have hi : i ≠ fieldMetaData := by
      intro e; subst e; rw [guid_unsupported] at h; cases h
    have hl := layout_eq i hi
    simp only [fieldTys, tys] at h ⊢
    rw [← hl, List.map_map]
    apply List.map_congr_left
    intro f hf
    have hs := allSupported_mem h (List.mem_map_of_mem (f := fun f => f.2.ty (fieldTys n)) hf)
    simp only [Function.comp_def]
    rw [ty_flat]
    clear hf h hl
    generalize f.2 = g at hs ⊢
    induction g with
    | struct j =>
      simp only [F.ty, Ty.supported] at hs ⊢
      rw [ih j hs]
    | slice g ihg =>
      simp only [F.ty, Ty.supported] at hs ⊢
      rw [ihg hs]
    | _ => rfl

/-- The structure that a field is or is an array of. -/
def F.inner : F → Option Nat
  | .struct j => some j
  | .slice f => f.inner
  | _ => none

/-- Whether structure `i` is nested at most `n` deep. -/
def within : Nat → Nat → Bool
  | 0, _ => false
  | n + 1, i => (fieldsOf i).all (fun f => f.2.inner.all (within n))

theorem all_within : (List.range 284).all (within nesting) = true := by decide +kernel

theorem within_eq (n : Nat) : ∀ m i, n ≤ m → within n i = true → fieldTys m i = fieldTys n i := by
  induction n with
  | zero => intro m i _ h; simp [within] at h
  | succ n ih =>
    intro m i hm h
    cases m with
    | zero => omega
    | succ m =>
      simp only [within, List.all_eq_true] at h
      simp only [fieldTys]
      apply List.map_congr_left
      intro f hf
      have hg := h f hf
      clear hf h
      generalize f.2 = g at hg ⊢
      induction g with
      | struct j =>
        simp only [F.inner, Option.all_some] at hg
        simp only [F.ty]
        rw [ih m j (by omega) hg]
      | slice g ihg =>
        simp only [F.inner] at hg
        simp only [F.ty]
        rw [ihg hg]
      | _ => rfl

/-- Nothing is cut off by the bound on nesting. -/
theorem deep_enough (m i : Nat) (h : nesting ≤ m) : fieldTys m i = fieldTys nesting i := by
  by_cases hi : i < 284
  · exact within_eq nesting m i h (List.all_eq_true.1 all_within i (List.mem_range.2 hi))
  · have h1 : structs[i]? = none := List.getElem?_eq_none (by rw [length_structs]; omega)
    cases m with
    | zero => simp [nesting] at h
    | succ m => simp [fieldTys, fieldsOf, h1]

/-- Every standard structure that can be written at all is written in the layout of the schema. -/
theorem C109_layout_partial (i : Nat) (h : Ty.supported (.struct (reg.fieldsOf i)) = true) (m : Nat) (hm : nesting ≤ m) :
    reg.fieldsOf i = tys m i := by
  simp only [Ty.supported, reg] at h ⊢
  rw [← deep_enough m i hm] at h ⊢
  exact layout_deep m i h

example : Ty.supported (.struct (reg.fieldsOf 152)) = true := by decide +kernel

/-- The structures that hold a Guid, directly or in a structure within; all are of PubSub. -/
abbrev withGuid : List Nat := [23, fieldMetaData, 26, 38, 42, 45, 49, 50, 52, 55]

theorem supported_iff : (List.range 284).all (fun i =>
    Ty.allSupported (fieldTys nesting i) == !withGuid.contains i) = true := by decide +kernel

/-- Whatever is put into a standard structure that holds no Guid is read back as it was. -/
theorem C109_roundtrip_partial (i : Nat) (hi : i < structs.length) (hg : i ∉ withGuid) (fs : List Val) (f : Nat)
    (h : wtFields reg (reg.fieldsOf i) fs) (hx : (Val.struct fs).Exact) (hd : Opcua.depth (.struct fs) ≤ f) :
    ∃ e, encode reg (.struct (reg.fieldsOf i)) (.struct fs) = some e ∧
      ∀ rest, (decode reg f (.struct (reg.fieldsOf i))).run (e ++ rest) = .ok (.struct fs, rest) := by
  rw [length_structs] at hi
  have hs := List.all_eq_true.1 supported_iff i (List.mem_range.2 hi)
  have : Ty.supported (.struct (reg.fieldsOf i)) = true := by
    simp only [Ty.supported, reg]
    simpa [hg] using hs
  exact C12_struct_roundtrip reg _ fs f this h hd hx

/-- ReadValueID -/
example : structs[180]?.map (·.name) = some "ReadValueID" ∧ 180 ∉ withGuid ∧
    wtFields reg (reg.fieldsOf 180)
      [.leaf (.node (some (.numeric 2 7))), .leaf (.b32 13), .leaf (.str []), .leaf (.qname ⟨0, []⟩)] := by
  have : reg.fieldsOf 180 = [.leaf .nodeID, .leaf .uint32, .leaf .string, .leaf .qualifiedName] := by rfl
  refine ⟨by decide +kernel, by decide, ?_⟩
  rw [this]
  simp [wtFields, wt, Leaf.hasTy, Leaf.Fits, NodeID.Fits]

/-- No value of a structure that holds a Guid can be sent or received. -/
theorem C109_guid_fails (i : Nat) (hi : i ∈ withGuid) (v : Val) (f : Nat) (s : Bytes) :
    encode reg (.struct (reg.fieldsOf i)) v = none ∧ (decode reg f (.struct (reg.fieldsOf i))).run s = .err s := by
  have hlt : i < 284 := by
    have : ∀ i ∈ withGuid, i < 284 := by decide
    exact this i hi
  have hs := List.all_eq_true.1 supported_iff i (List.mem_range.2 hlt)
  have : Ty.supported (.struct (reg.fieldsOf i)) = false := by
    simp only [Ty.supported, reg]
    simpa [hi] using hs
  constructor
  · simp [encode, this]
  · simp [decode, this, Dec.fail]

/-! ### Enumerations -/

/-- The constant of value `v` of enumeration `e`: the Go name begins with that of the enumeration. -/
def sameEnum (e : Enum) (t : Schema.EnumeratedType) : Bool :=
  same (norm e.name) (norm t.name) &&
    sameAll (e.values.map (fun v => v.2 :: norm v.1)) (t.values.map (fun v => v.2 :: (norm e.name ++ norm v.1)))

/-- BrokerTransportQualityOfService, which Go calls BrokerTransportQoS -/
abbrev qos : Nat := 14

theorem enum_names : (List.range 45).all (fun i =>
    match enums[i]?, Schema.enumerations[i]? with
    | some e, some t => sameEnum e (if i = qos then { t with name := "BrokerTransportQoS" } else t)
    | _, _ => false) = true := by decide +kernel

theorem length_enums : enums.length = 45 ∧ Schema.enumerations.length = 45 := by decide +kernel

/-- The constants of the enumerations are those of the schema, with the same values. -/
theorem C109_enumerations (i : Nat) (t : Schema.EnumeratedType) (ht : Schema.enumerations[i]? = some t) :
    ∃ e, enums[i]? = some e ∧ norm e.name = norm (if i = qos then "BrokerTransportQoS" else t.name) ∧
      e.values.map (fun v => (norm v.1, v.2)) = t.values.map (fun v => (norm e.name ++ norm v.1, v.2)) := by
  have hi : i < 45 := by
    have := (List.getElem?_eq_some_iff.1 ht).1
    rwa [length_enums.2] at this
  have hn := List.all_eq_true.1 enum_names i (List.mem_range.2 hi)
  rw [ht] at hn
  cases he : enums[i]? with
  | none => rw [he] at hn; simp at hn
  | some e =>
    rw [he] at hn
    simp only [sameEnum, Bool.and_eq_true, same_iff, sameAll_iff] at hn
    refine ⟨e, rfl, ?_, ?_⟩
    · rw [hn.1]; split <;> rfl
    · have h2 : e.values.map (fun v => v.2 :: norm v.1) = t.values.map (fun v => v.2 :: (norm e.name ++ norm v.1)) := by
        have := hn.2
        split at this <;> exact this
      have := congrArg (List.map (fun l : List Nat => (l.tail, l.headD 0))) h2
      simpa [List.map_map, Function.comp_def] using this

example : Schema.enumerations[18]?.map (fun t => (t.name, t.values[2]?)) = some ("NodeClass", some ("Variable", 2)) := by
  decide +kernel

/-- The enumeration of a field, or of the elements of an array. -/
def F.enumeration : F → Option Nat
  | .enum j => some j
  | .slice f => f.enumeration
  | _ => none

theorem enum_fields : (List.range 284).all (fun i =>
    match structs[i]?, Schema.types[i]? with
    | some s, some t => (s.fields.zip (fields t)).all (fun p => p.1.2.enumeration.all (fun j =>
        match Schema.enumerations[j]? with
        | some e => same (bytes e.name) (bare (bytes p.2.2.1))
        | none => false))
    | _, _ => false) = true := by decide +kernel

/-- A field with the Go type of an enumeration has that enumeration in the schema. -/
theorem C109_enumerated_fields (i k j : Nat) (s : Struct) (t : Schema.StructuredType) (f : String × F)
    (g : String × String × Option String) (hs : structs[i]? = some s) (ht : Schema.types[i]? = some t)
    (hf : s.fields[k]? = some f) (hg : (fields t)[k]? = some g) (hj : f.2.enumeration = some j) :
    ∃ e, Schema.enumerations[j]? = some e ∧ bytes e.name = bare (bytes g.2.1) := by
  have hi : i < 284 := by
    have := (List.getElem?_eq_some_iff.1 hs).1
    rwa [length_structs] at this
  have hn := List.all_eq_true.1 enum_fields i (List.mem_range.2 hi)
  rw [hs, ht] at hn
  simp only [List.all_eq_true] at hn
  have hm : (f, g) ∈ s.fields.zip (fields t) := by
    apply List.mem_of_getElem? (i := k)
    simp [List.getElem?_zip_eq_some, hf, hg]
  have := hn _ hm
  simp only [hj, Option.all_some] at this
  cases he : Schema.enumerations[j]? with
  | none => rw [he] at this; simp at this
  | some e =>
    rw [he] at this
    exact ⟨e, rfl, (same_iff _ _).1 this⟩

/-- The mode in SetMonitoringModeRequest -/
example : structs[231]?.map (fun s => (s.name, s.fields[2]?)) =
    some ("SetMonitoringModeRequest", some ("MonitoringMode", .enum 37)) := by decide +kernel

/-! ## C110 -/

/-- The id in the registry: an expanded node id of namespace 0. -/
def key (id : Nat) : ExpandedNodeID := ⟨0, [], some (.numeric 0 (BitVec.ofNat 32 id))⟩

theorem key_inj {a b : Nat} (ha : a < 2 ^ 32) (hb : b < 2 ^ 32) (h : key a = key b) : a = b := by
  simp only [key, ExpandedNodeID.mk.injEq, Option.some.injEq, NodeID.numeric.injEq, true_and] at h
  have := congrArg BitVec.toNat h
  simpa [Nat.mod_eq_of_lt ha, Nat.mod_eq_of_lt hb] using this

/-- What `init` does: it registers the structures one after the other, and ends the program at the first
panic. -/
def initAll (s : Registry.St) : List (Nat × Nat) → Option Registry.St
  | [] => some s
  | r :: rs =>
    match Registry.register s r.1 (key r.2) with
    | (s', .returned) => initAll s' rs
    | (_, .panicked) => none

theorem initAll_ok (rs : List (Nat × Nat)) : ∀ s : Registry.St,
    (rs.map (·.1)).Nodup → (rs.map (·.2)).Nodup → (∀ r ∈ rs, r.2 < 2 ^ 32) →
    (∀ r ∈ rs, s.ids r.1 = none ∧ s.types (key r.2) = none) →
    ∃ s', initAll s rs = some s' ∧
      (∀ r ∈ rs, s'.ids r.1 = some (key r.2) ∧ s'.types (key r.2) = some r.1) ∧
      (∀ i, i ∉ rs.map (·.1) → s'.ids i = s.ids i) ∧
      (∀ k, (∀ r ∈ rs, k ≠ key r.2) → s'.types k = s.types k) := by
  induction rs with
  | nil => intro s _ _ _ _; exact ⟨s, rfl, by simp, by simp, by simp⟩
  | cons r rs ih =>
    intro s h1 h2 hb hfree
    simp only [List.map_cons, List.nodup_cons] at h1 h2
    obtain ⟨hf1, hf2⟩ := hfree r (by simp)
    have hreg : Registry.register s r.1 (key r.2) =
        (⟨Registry.upd s.types (key r.2) (some r.1), Registry.upd s.ids r.1 (some (key r.2))⟩, .returned) := by
      simp [Registry.register, hf1, hf2]
    have hne : ∀ q ∈ rs, key q.2 ≠ key r.2 := by
      intro q hq he
      have := key_inj (hb q (by simp [hq])) (hb r (by simp)) he
      exact h2.1 (by rw [← this]; exact List.mem_map_of_mem hq)
    have hne' : ∀ q ∈ rs, q.1 ≠ r.1 := by
      intro q hq he
      exact h1.1 (by rw [← he]; exact List.mem_map_of_mem hq)
    obtain ⟨s', hs, hin, hi, ht⟩ := ih ⟨Registry.upd s.types (key r.2) (some r.1), Registry.upd s.ids r.1 (some (key r.2))⟩
        h1.2 h2.2 (fun q hq => hb q (by simp [hq])) (by
      intro q hq
      obtain ⟨a, b⟩ := hfree q (by simp [hq])
      simp [Registry.upd, hne' q hq, hne q hq, a, b])
    refine ⟨s', by rw [initAll, hreg]; exact hs, ?_, ?_, ?_⟩
    · intro q hq
      rcases List.mem_cons.1 hq with rfl | hq
      · rw [hi _ h1.1, ht _ (fun q' hq' he => hne q' hq' he.symm)]
        simp [Registry.upd]
      · exact hin q hq
    · intro i hi'
      simp only [List.map_cons, List.mem_cons, not_or] at hi'
      rw [hi i hi'.2]
      simp [Registry.upd, hi'.1]
    · intro k hk
      rw [ht k (fun q hq => hk q (by simp [hq]))]
      simp [Registry.upd, hk r (by simp)]

theorem registered_ok : (registered.map (·.1) == List.range 284) = true ∧
    (registered.all fun r => Nat.ble 1 r.2 && Nat.ble r.2 65535) = true := by decide +kernel

theorem ids_nodup : (registered.map (·.2)).Nodup := by decide +kernel

theorem types_eq : registered.map (·.1) = List.range 284 := by simpa using registered_ok.1

theorem ids_bound (r : Nat × Nat) (h : r ∈ registered) : 1 ≤ r.2 ∧ r.2 ≤ 65535 := by
  have := List.all_eq_true.1 registered_ok.2 r h
  simpa using this

theorem inj_of_nodup_map {α β} {f : α → β} {l : List α} (h : (l.map f).Nodup) {a b : α} (ha : a ∈ l) (hb : b ∈ l)
    (he : f a = f b) : a = b := by
  induction l with
  | nil => cases ha
  | cons x l ih =>
    simp only [List.map_cons, List.nodup_cons, List.mem_map, not_exists, not_and] at h
    rcases List.mem_cons.1 ha with rfl | ha <;> rcases List.mem_cons.1 hb with rfl | hb
    · rfl
    · exact absurd he.symm (h.1 b hb)
    · exact absurd he (h.1 a ‹a ∈ l›)
    · exact ih h.2 ha hb

theorem idOf_eq (i n : Nat) : idOf i = some n ↔ (i, n) ∈ registered := by
  simp only [idOf, Option.map_eq_some_iff]
  constructor
  · rintro ⟨r, h, rfl⟩
    have h1 := List.find?_some (p := fun r : Nat × Nat => r.1 == i) h
    have h2 := List.mem_of_find?_eq_some h
    simp only [beq_iff_eq] at h1
    rw [← h1]; exact h2
  · intro h
    have : (registered.find? (fun r => r.1 == i)).isSome := by
      rw [List.find?_isSome]; exact ⟨_, h, by simp⟩
    obtain ⟨q, hq⟩ := Option.isSome_iff_exists.1 this
    have h1 := List.find?_some (p := fun r : Nat × Nat => r.1 == i) hq
    have h2 := List.mem_of_find?_eq_some hq
    simp only [beq_iff_eq] at h1
    have hnd : (registered.map (·.1)).Nodup := by rw [types_eq]; exact List.nodup_range
    have := inj_of_nodup_map hnd h2 h h1
    exact ⟨q, hq, by rw [this]⟩

theorem ofId_eq (i n : Nat) : ofId n = some i ↔ (i, n) ∈ registered := by
  simp only [ofId, Option.map_eq_some_iff]
  constructor
  · rintro ⟨r, h, rfl⟩
    have h1 := List.find?_some (p := fun r : Nat × Nat => r.2 == n) h
    have h2 := List.mem_of_find?_eq_some h
    simp only [beq_iff_eq] at h1
    rw [← h1]; exact h2
  · intro h
    have : (registered.find? (fun r => r.2 == n)).isSome := by
      rw [List.find?_isSome]; exact ⟨_, h, by simp⟩
    obtain ⟨q, hq⟩ := Option.isSome_iff_exists.1 this
    have h1 := List.find?_some (p := fun r : Nat × Nat => r.2 == n) hq
    have h2 := List.mem_of_find?_eq_some hq
    simp only [beq_iff_eq] at h1
    have := inj_of_nodup_map ids_nodup h2 h h1
    exact ⟨q, hq, by rw [this]⟩

theorem tyOf_mem {i n : Nat} (h : (i, n) ∈ registered) :
    reg.tyOf (some (.numeric 0 (BitVec.ofNat 32 n))) = some i := by
  show ofId (BitVec.ofNat 32 n).toNat = some i
  have hb := ids_bound _ h
  rw [BitVec.toNat_ofNat, Nat.mod_eq_of_lt (by simp only at hb; omega)]
  exact (ofId_eq i n).2 h

/-- `init` ends without a panic, and leaves in the registry what `reg` says: each structure has an id of
its own. -/
theorem C110_init : ∃ s, initAll Registry.init registered = some s ∧
    (∀ i, i < structs.length → ∃ n, reg.idOf i = some (some (.numeric 0 (BitVec.ofNat 32 n))) ∧
      s.ids i = some (key n) ∧ s.types (key n) = some i ∧ reg.tyOf (some (.numeric 0 (BitVec.ofNat 32 n))) = some i) ∧
    (∀ id i, reg.tyOf (some id) = some i → s.types ⟨0, [], some id⟩ = some i) ∧
    (∀ k i, s.types k = some i → ∃ id, k = ⟨0, [], some id⟩ ∧ reg.tyOf (some id) = some i) := by
  have hnd : (registered.map (·.1)).Nodup := by rw [types_eq]; exact List.nodup_range
  obtain ⟨s, hs, hin, -, ht⟩ := initAll_ok registered Registry.init hnd ids_nodup
    (fun r hr => by have := ids_bound r hr; omega) (fun _ _ => ⟨rfl, rfl⟩)
  refine ⟨s, hs, ?_, ?_, ?_⟩
  · intro i hi
    rw [length_structs] at hi
    have : i ∈ registered.map (·.1) := by rw [types_eq]; exact List.mem_range.2 hi
    obtain ⟨r, hr, rfl⟩ := List.mem_map.1 this
    have hb := ids_bound r hr
    refine ⟨r.2, ?_, (hin r hr).1, (hin r hr).2, ?_⟩
    · simp only [reg, (idOf_eq r.1 r.2).2 hr, Option.map_some]
    · exact tyOf_mem hr
  · intro id i h
    cases id with
    | numeric ns n =>
      by_cases hns : ns = 0
      · subst hns
        simp only [reg, ofNode] at h
        have hr := (ofId_eq i n.toNat).1 h
        have := (hin _ hr).2
        simpa [key] using this
      · simp only [reg, ofNode] at h
        split at h
        · rename_i heq; simp only [Option.some.injEq, NodeID.numeric.injEq] at heq; exact absurd heq.1 hns
        · cases h
    | _ => simp [reg, ofNode] at h
  · intro k i h
    by_cases hk : ∀ r ∈ registered, k ≠ key r.2
    · rw [ht k hk] at h; simp [Registry.init] at h
    · have : ∃ r ∈ registered, k = key r.2 := by
        apply Classical.byContradiction
        intro hn
        exact hk (fun r hr he => hn ⟨r, hr, he⟩)
      obtain ⟨r, hr, rfl⟩ := this
      rw [(hin r hr).2] at h
      cases h
      have hb := ids_bound r hr
      refine ⟨_, rfl, ?_⟩
      exact tyOf_mem hr

/-- The structures of the address space that the library does not know by the id there, or not at all.
DataTypeDefinition is abstract, and no value is of it. -/
abbrev strangers : List String := ["ProgramDiagnostic2DataType", "UnsignedRationalNumber", "DataTypeDefinition"]

theorem all_encodings : (Schema.encodings.all fun e => strangers.contains e.1 ||
    (structs.zip registered).any (fun p => Nat.beq p.2.2 e.2 && same (norm p.1.name) (browseName (norm e.1)))) = true := by
  decide +kernel

/-- The address space of the server names, for each structure but those, the id under which the library
writes and finds the structure of that name. -/
theorem C110_encoding_partial (name : String) (id : Nat) (h : (name, id) ∈ Schema.encodings) (hx : name ∉ strangers) :
    ∃ i s, structs[i]? = some s ∧ norm s.name = browseName (norm name) ∧
      reg.idOf i = some (some (.numeric 0 (BitVec.ofNat 32 id))) ∧
      reg.tyOf (some (.numeric 0 (BitVec.ofNat 32 id))) = some i := by
  have := List.all_eq_true.1 all_encodings _ h
  simp only [Bool.or_eq_true, List.contains_iff_mem, List.any_eq_true, Bool.and_eq_true, same_iff, Nat.beq_eq] at this
  rcases this with h1 | ⟨p, hp, hid, hn⟩
  · exact absurd h1 hx
  · obtain ⟨k, hk⟩ := List.getElem?_of_mem hp
    rw [List.getElem?_zip_eq_some] at hk
    have hr : p.2 ∈ registered := List.mem_of_getElem? hk.2
    have hb := ids_bound _ hr
    have hki : p.2.1 = k := by
      have h2 : (registered.map (·.1))[k]? = some p.2.1 := by simp [hk.2]
      rw [types_eq, List.getElem?_range] at h2
      · simpa using h2.symm
      · have := (List.getElem?_eq_some_iff.1 hk.1).1
        rwa [length_structs] at this
    have hm : (k, id) ∈ registered := by rw [← hki, ← hid]; exact hr
    refine ⟨k, p.1, hk.1, hn, ?_, ?_⟩
    · simp only [reg, (idOf_eq k id).2 hm, Option.map_some]
    · exact tyOf_mem hm

example : ("ServerStatusDataType", 864) ∈ Schema.encodings := by decide +kernel

/-- ProgramDiagnostic2DataType has the id 24034 in the address space; the library writes 15397 and, when it
meets 24034, knows no structure. -/
theorem C110_program_fails : ("ProgramDiagnostic2DataType", 24034) ∈ Schema.encodings ∧
    structs[282]?.map (·.name) = some "ProgramDiagnostic2DataType" ∧
    reg.idOf 282 = some (some (.numeric 0 15397)) ∧ reg.tyOf (some (.numeric 0 24034)) = none := by decide +kernel

/-- UnsignedRationalNumber is in the address space but not in the library. -/
theorem C110_missing_fails : ("UnsignedRationalNumber", 24110) ∈ Schema.encodings ∧
    reg.tyOf (some (.numeric 0 24110)) = none ∧
    structs.all (fun s => !same (norm s.name) (norm "UnsignedRationalNumber")) = true := by decide +kernel

/-- A standard structure that holds no Guid, put into an ExtensionObject, begins with its id and is read
back as it was. -/
theorem C110_roundtrip_partial (i : Nat) (hi : i < structs.length) (hg : i ∉ withGuid) (fs : List Val) (f : Nat)
    (h : wtFields reg (reg.fieldsOf i) fs) (hx : (Val.ext i fs).Exact) (hd : Opcua.depth (.ext i fs) ≤ f) :
    ∃ n e, reg.idOf i = some (some (.numeric 0 (BitVec.ofNat 32 n))) ∧ enc reg (.ext i fs) = some e ∧
      writeNodeID (some (.numeric 0 (BitVec.ofNat 32 n))) <+: e ∧
      ∀ rest, (dec reg f .ext).run (e ++ rest) = .ok (.ext i fs, rest) := by
  rw [length_structs] at hi
  have hs := List.all_eq_true.1 supported_iff i (List.mem_range.2 hi)
  have hsup : Ty.allSupported (reg.fieldsOf i) = true := by
    simp only [reg]
    simpa [hg] using hs
  have : i ∈ registered.map (·.1) := by rw [types_eq]; exact List.mem_range.2 hi
  obtain ⟨r, hr, rfl⟩ := List.mem_map.1 this
  have hb := ids_bound r hr
  have h1 : reg.idOf r.1 = some (some (.numeric 0 (BitVec.ofNat 32 r.2))) := by
    simp only [reg, (idOf_eq r.1 r.2).2 hr, Option.map_some]
  have h2 : reg.tyOf (some (.numeric 0 (BitVec.ofNat 32 r.2))) = some r.1 := by
    exact tyOf_mem hr
  have hnull : ¬ NodeID.IsNull (.numeric 0 (BitVec.ofNat 32 r.2)) := by
    simp only [NodeID.IsNull, NodeID.numeric.injEq, true_and, reduceCtorEq, or_false]
    intro he
    have := congrArg BitVec.toNat he
    simp only [BitVec.toNat_ofNat] at this
    rw [Nat.mod_eq_of_lt (by omega)] at this
    simp at this
    omega
  obtain ⟨e, he, hr'⟩ := C11_registered_roundtrip reg r.1 _ fs f h1 h2 hnull (by simp [NodeID.Fits]) hsup h hx hd
  refine ⟨r.2, e, h1, he, ?_, hr'⟩
  obtain ⟨id, body, hid, -, hee⟩ := C11_declared_length reg r.1 fs e he
  rw [h1] at hid
  cases hid
  rw [hee]
  simp only [List.append_assoc]
  exact List.prefix_append _ _

/-- Argument: a name, a type, a rank, dimensions and a description -/
example : structs[70]?.map (·.name) = some "Argument" ∧ 70 ∉ withGuid ∧
    wtFields reg (reg.fieldsOf 70)
      [.leaf (.str [97]), .leaf (.node (some (.numeric 0 12))), .leaf (.b32 (-1)), .slice [], .leaf (.ltext ⟨[], []⟩)] := by
  have : reg.fieldsOf 70 = [.leaf .string, .leaf .nodeID, .leaf .int32, .slice (.leaf .uint32), .leaf .localizedText] := by rfl
  refine ⟨by decide +kernel, by decide, ?_⟩
  rw [this]
  simp [wtFields, wt, Leaf.hasTy, Leaf.Fits, NodeID.Fits]

end Opcua.Structs
