import Verif.Model.Value

/-!
# The memory a decoder asks for

The decoder of Model/Value.lean once more, this time with the bytes it asks the Go allocator for
(ua/binary_decoder.go). `mdec` gives the same results as `dec` (`erase_mdec`, Lemmas/Memory.lean); what is
added is where `make`, `reflect.New` and `reflect.MakeSlice` stand, in the order in which they are reached.

Simplifications: a value stored in an interface is always counted (Go keeps some small values without
allocating); a field of a structure is counted up to the next multiple of eight, which is never less than
what Go lays out; rounding up to size classes and the garbage collector are not modelled, so the count is of
what is asked for in one call, not of what is resident. That the allocator may refuse (which ends the
process: `fatal error: runtime: out of memory`) is not a result of the model.
-/

namespace Opcua.Memory

/-- What a run of a decoder leaves: its result, the bytes asked for, and whether it was `plain`: no Variant
of a DataValue was given up half read, and no multi-dimensional array had a dimension of zero. -/
structure Used (α : Type) where
  out : DRes α
  cost : Nat
  plain : Bool

structure MDec (α : Type) where
  run : Bytes → Used α

namespace MDec

def pure' (a : α) : MDec α := ⟨fun s => ⟨.ok (a, s), 0, true⟩⟩

def bind' (m : MDec α) (f : α → MDec β) : MDec β := ⟨fun s =>
  let u := m.run s
  match u.out with
  | .ok (a, s') =>
    let v := (f a).run s'
    ⟨v.out, u.cost + v.cost, u.plain && v.plain⟩
  | .err l => ⟨.err l, u.cost, u.plain⟩
  | .panic => ⟨.panic, u.cost, u.plain⟩⟩

instance : Monad MDec where
  pure := pure'
  bind := bind'

/-- A reader that asks for nothing. -/
def lift (d : Dec α) : MDec α := ⟨fun s => ⟨d.run s, 0, true⟩⟩

/-- `make([]T, n)` or `new(T)` of `n` bytes. -/
def alloc (n : Nat) : MDec Unit := ⟨fun s => ⟨.ok ((), s), n, true⟩⟩

/-- From here on the run is not plain. -/
def odd : MDec Unit := ⟨fun s => ⟨.ok ((), s), 0, false⟩⟩

/-- The decoder without the count. -/
def erase (m : MDec α) : Dec α := ⟨fun s => (m.run s).out⟩

end MDec

open MDec

/-- Up to the next multiple of eight. -/
def pad (n : Nat) : Nat := (n + 7) / 8 * 8

/-- Sizes of the Go types on a 64-bit machine (ua/variant.go:8-30 for the types; string and interface are two
words, `time.Time` three, `ExpandedNodeID` ua/expanded_nodeid.go:12-16, `QualifiedName`
ua/qualified_name.go:12-15, `LocalizedText` ua/localized_text.go:10-13). -/
def leafSize : LTy → Nat
  | .bool | .sbyte | .byte => 1
  | .int16 | .uint16 => 2
  | .int32 | .uint32 | .float | .statusCode => 4
  | .int64 | .uint64 | .double => 8
  | .string | .byteString | .xmlElement | .guid | .nodeID => 16
  | .dateTime | .qualifiedName => 24
  | .localizedText => 32
  | .expandedNodeID => 40

mutual
/-- The size of a variable of the type: a slice is three words, an interface two, a DataValue eleven
(ua/data_value.go:10-17), a DiagnosticInfo seven pointers (ua/diagnostic_info.go). -/
def size : Ty → Nat
  | .leaf t => leafSize t
  | .bytes => 24
  | .struct ts => sizes ts
  | .ptr _ => 8
  | .slice _ => 24
  | .variant => 16
  | .dataValue => 88
  | .ext => 16
  | .diag => 56

def sizes : List Ty → Nat
  | [] => 0
  | t :: ts => pad (size t) + sizes ts
end

/-- ReadString and ReadXMLElement, ua/binary_decoder.go:441-457, 516-523: `make([]byte, n)` for the length
that stands in the message, before a byte of the text has been read. -/
def mString : MDec Bytes := do
  let n ← lift readI32
  if n < 0 then return []
  else do
    alloc n.toNat
    lift (readN n.toNat)

/-- ReadByteString, ua/binary_decoder.go:498-513. -/
def mByteString : MDec Bytes := do
  let n ← lift readI32
  if n ≤ 0 then return []
  else do
    alloc n.toNat
    lift (readN n.toNat)

/-- ReadByteArray, ua/binary_decoder.go:2173-2188. -/
def mByteArray : MDec (Option Bytes) := do
  let n ← lift readI32
  if n < 0 then return none
  else do
    alloc n.toNat
    some <$> lift (readN n.toNat)

/-- A NodeID is an interface holding a structure (`NewNodeIDNumeric` and its kin, ua/nodeid.go:20-120): 8
bytes for a number, 24 for a text or bytes, 18 for a GUID. -/
def mkNode (n : Nat) (id : NodeID) : MDec (Option NodeID) := do
  alloc n
  return some id

/-- ReadNodeID, ua/binary_decoder.go:528-621. -/
def mNodeID : MDec (Option NodeID) := do
  let b ← lift readByte
  if b = 0x00 then do
    let id ← lift readByte
    if id = 0 then return none
    else mkNode 8 (.numeric 0 (BitVec.ofNat 32 id.toNat))
  else if b = 0x01 then do
    let ns ← lift readByte
    let id ← lift readU16
    mkNode 8 (.numeric (BitVec.ofNat 16 ns.toNat) (id.zeroExtend 32))
  else if b = 0x02 then do
    let ns ← lift readU16
    let id ← lift readU32
    mkNode 8 (.numeric ns id)
  else if b = 0x03 then do
    let ns ← lift readU16
    let id ← mString
    if ns = 0 ∧ id = [] then return none
    else mkNode 24 (.string ns id)
  else if b = 0x04 then do
    let ns ← lift readU16
    let id ← lift readGuid
    if ns = 0 ∧ id = Guid.nil then return none
    else mkNode 18 (.guid ns id)
  else if b = 0x05 then do
    let ns ← lift readU16
    let id ← mByteString
    if ns = 0 ∧ id = [] then return none
    else mkNode 24 (.opq ns id)
  else lift Dec.fail

/-- The identifier part of ReadExpandedNodeID, ua/binary_decoder.go:633-698. -/
def mExpandedBody (t : UInt8) : MDec (Option NodeID) :=
  if t = 0x00 then do
    let id ← lift readByte
    if id = 0 then return none
    else mkNode 8 (.numeric 0 (BitVec.ofNat 32 id.toNat))
  else if t = 0x01 then do
    let ns ← lift readByte
    let id ← lift readU16
    mkNode 8 (.numeric (BitVec.ofNat 16 ns.toNat) (id.zeroExtend 32))
  else if t = 0x02 then do
    let ns ← lift readU16
    let id ← lift readU32
    mkNode 8 (.numeric ns id)
  else if t = 0x03 then do
    let ns ← lift readU16
    let id ← mString
    mkNode 24 (.string ns id)
  else if t = 0x04 then do
    let ns ← lift readU16
    let id ← lift readGuid
    mkNode 18 (.guid ns id)
  else if t = 0x05 then do
    let ns ← lift readU16
    let id ← mByteString
    mkNode 24 (.opq ns id)
  else lift Dec.fail

/-- ReadExpandedNodeID, ua/binary_decoder.go:623-716. -/
def mExpandedNodeID : MDec ExpandedNodeID := do
  let b ← lift readByte
  let n ← mExpandedBody (b &&& 0x0F)
  let uri ← (if b &&& 0x80 ≠ 0 then mString else pure [])
  let svr ← (if b &&& 0x40 ≠ 0 then lift readU32 else pure 0)
  return ⟨svr, uri, n⟩

/-- ReadQualifiedName, ua/binary_decoder.go:729-742. -/
def mQualifiedName : MDec QualifiedName := do
  let ns ← lift readU16
  let name ← mString
  return ⟨ns, name⟩

/-- ReadLocalizedText, ua/binary_decoder.go:745-766. -/
def mLocalizedText : MDec LocalizedText := do
  let b ← lift readByte
  let locale ← (if b &&& 1 ≠ 0 then mString else pure [])
  let text ← (if b &&& 2 ≠ 0 then mString else pure [])
  return ⟨text, locale⟩

/-- The ReadX method for the leaf type. -/
def mLeaf : LTy → MDec Leaf
  | .bool => Leaf.bool <$> lift readBool
  | .sbyte | .byte => Leaf.b8 <$> lift (readBits 1)
  | .int16 | .uint16 => Leaf.b16 <$> lift readU16
  | .int32 | .uint32 | .float | .statusCode => Leaf.b32 <$> lift readU32
  | .int64 | .uint64 | .double => Leaf.b64 <$> lift readU64
  | .string | .xmlElement => Leaf.str <$> mString
  | .byteString => Leaf.str <$> mByteString
  | .dateTime => Leaf.time <$> lift readDateTime
  | .guid => Leaf.guid <$> lift readGuid
  | .nodeID => Leaf.node <$> mNodeID
  | .expandedNodeID => Leaf.expanded <$> mExpandedNodeID
  | .qualifiedName => Leaf.qname <$> mQualifiedName
  | .localizedText => Leaf.ltext <$> mLocalizedText

/-- ReadDiagnosticInfo, ua/binary_decoder.go:2087-2130: the fields are read through nil pointers. -/
def mDiag : Nat → MDec Diag
  | 0 => lift Dec.crash
  | fuel + 1 => do
    let b ← lift readByte
    if b &&& 1 ≠ 0 then (do let _ ← lift readU32; lift Dec.crash)
    else if b &&& 2 ≠ 0 then (do let _ ← lift readU32; lift Dec.crash)
    else if b &&& 8 ≠ 0 then (do let _ ← lift readU32; lift Dec.crash)
    else if b &&& 4 ≠ 0 then (do let _ ← lift readU32; lift Dec.crash)
    else if b &&& 16 ≠ 0 then (do let _ ← mString; lift Dec.crash)
    else if b &&& 32 ≠ 0 then (do let _ ← lift readU32; lift Dec.crash)
    else if b &&& 64 ≠ 0 then (do let _ ← mDiag fuel; lift Dec.crash)
    else return Diag.empty

/-- Decoders run one after the other. -/
def mSeq : List (MDec α) → MDec (List α)
  | [] => pure []
  | d :: ds => do
    let v ← d
    let vs ← mSeq ds
    return v :: vs

/-- ReadXArray, ua/binary_decoder.go:2133-2628: `make([]T, n)` for the length in the message, then the
elements; `size` is that of `T`. -/
def mArray (size : Nat) (d : MDec α) : MDec (Option (List α)) := do
  let n ← lift readI32
  if n < 0 then return none
  else do
    alloc (n.toNat * size)
    some <$> mSeq (List.replicate n.toNat d)

/-- `make([][]T, dims[1])` for each of the rows that are reached, 24 bytes an element
(ua/binary_decoder.go:1312-1321). -/
def cubeCost (h w : Int) : Nat → List α → Nat
  | 0, _ => 0
  | n + 1, vals =>
    if h < 0 then 0
    else 24 * h.toNat +
      match splitRows w h.toNat vals with
      | .ok (_, left) => cubeCost h w n left
      | _ => 0

/-- What shaping asks for, ua/binary_decoder.go:1301-1323: `make([][]T, dims[0])`, and more for three
dimensions; 24 bytes to store the result in the Variant. -/
def shapeCost (vals : List α) (dims : List Int) : Nat :=
  match dims with
  | [d0, _] => 24 * d0.toNat + 24
  | [d0, d1, d2] => 24 * d0.toNat + cubeCost d1 d2 d0.toNat vals + 24
  | _ => 0

/-- Shaping of a multi-dimensional array, ua/binary_decoder.go:1301-1323. -/
def mShape (t : ATy) (vals : List Val) (dims : List Int) : MDec Val := do
  alloc (shapeCost vals dims)
  if 0 ∈ dims then odd else pure ()
  lift (Dec.ofRes (shape t vals dims))

/-- ReadVariant, ua/binary_decoder.go:866-2054. What is read is stored in an interface. -/
def mVariant (rec : Ty → MDec Val) (fuel : Nat) : MDec Val := do
  let b ← lift readByte
  let c := b &&& 0x3F
  if b &&& 0x80 = 0 then
    if c = 0 then return .vnull
    else match ATy.ofCode c with
      | some (.leaf t) => do
        let l ← mLeaf t
        alloc (leafSize t)
        return mkScalar t l
      | some .ext => extToVariant <$> rec .ext
      | some .dataValue => do
        let v ← rec .dataValue
        alloc (size .dataValue)
        return Val.vdv v
      | some .variant => rec .variant
      | some .diag => do
        let d ← mDiag fuel
        alloc (size .diag)
        return Val.vdiag d
      | none => lift Dec.fail
  else if b &&& 0x40 = 0 then
    if c = 0 then return .vnull
    else match ATy.ofCode c with
      | some t => do
        let vs ← mArray (size t.ty) (rec t.ty)
        alloc 24
        return Val.varray t vs
      | none => lift Dec.fail
  else
    if c = 0 then return .vnull
    else match ATy.ofCode c with
      | some t => do
        let vals ← mArray (size t.ty) (rec t.ty)
        let dims ← mArray 4 (lift readI32)
        mShape t (vals.getD []) (dims.getD [])
      | none => lift Dec.fail

/-- ReadDataValue, ua/binary_decoder.go:816-863: an error from ReadVariant is swallowed; what the Variant had
asked for has been asked for all the same. -/
def mDataValue (rec : Ty → MDec Val) : MDec Val := do
  let b ← lift readByte
  if b &&& 1 ≠ 0 then ⟨fun s =>
    let u := (rec .variant).run s
    match u.out with
    | .ok (v, s') => ⟨(decDVTail b v 0).run s', u.cost, u.plain⟩
    | .err left => ⟨(decDVTail b .vnull badDataTypeIDUnknown).run left, u.cost, false⟩
    | .panic => ⟨.panic, u.cost, u.plain⟩⟩
  else lift (decDVTail b .vnull 0)

/-- ReadExtensionObject, ua/binary_decoder.go:769-813. `reflect.New(typ).Elem().Interface()` asks for the
structure twice: once for `New`, once for the copy in the interface. -/
def mExt (R : Reg) (rec : Ty → MDec Val) : MDec Val := do
  let id ← mNodeID
  let b ← lift readByte
  if b = 0 then return .extNil
  else if b = 1 then
    match R.tyOf id with
    | some tag => do
      let _ ← lift readI32
      alloc (2 * sizes (R.fieldsOf tag))
      if Ty.allSupported (R.fieldsOf tag) then do
        let v ← rec (.struct (R.fieldsOf tag))
        match v with
        | .struct fs => return .ext tag fs
        | _ => lift Dec.fail
      else lift Dec.fail
    | none => do
      let _ ← mByteArray
      return .extNil
  else if b = 2 then do
    let _ ← mString
    return .extNil
  else lift Dec.fail

/-- Decode, directed by the type. struct, pointer (`reflect.New` of the structure), slice
(`reflect.MakeSlice(typ, len, len)` for the length in the message): ua/binary_decoder.go:137-222. -/
def mdec (R : Reg) : Nat → Ty → MDec Val
  | 0, _ => lift Dec.crash
  | fuel + 1, ty =>
    match ty with
    | .leaf t => Val.leaf <$> mLeaf t
    | .bytes => Val.bytes <$> mByteArray
    | .struct tys => Val.struct <$> mSeq (tys.map (mdec R fuel))
    | .ptr tys => do
      alloc (sizes tys)
      Val.struct <$> mSeq (tys.map (mdec R fuel))
    | .slice t => do
      let n ← lift readI32
      if n ≤ 0 then return .slice []
      else do
        alloc (n.toNat * size t)
        Val.slice <$> mSeq (List.replicate n.toNat (mdec R fuel t))
    | .variant => mVariant (mdec R fuel) fuel
    | .dataValue => mDataValue (mdec R fuel)
    | .ext => mExt R (mdec R fuel)
    | .diag => Val.diag <$> mDiag fuel

/-- The bytes that decoding a value of type `ty` from `s` asks for. -/
def asked (R : Reg) (fuel : Nat) (ty : Ty) (s : Bytes) : Nat := ((mdec R fuel ty).run s).cost

end Opcua.Memory
