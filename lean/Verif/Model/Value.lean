import Verif.Model.Scalars

/-!
Structures, Variants, DataValues and ExtensionObjects
(ua/binary_encoder.go:64-362, 767-1711, 1713-2227;
 ua/binary_decoder.go:30-338, 769-2131, 2133-2628).

`Ty` describes a Go type the reflective codec can handle, `Val` a value.
-/
namespace Opcua

/-- The built-in leaf types, Variant type ids 1–21 (ua/variant.go:8-30). -/
inductive LTy where
  | bool | sbyte | byte | int16 | uint16 | int32 | uint32 | int64 | uint64 | float | double
  | string | dateTime | guid | byteString | xmlElement | nodeID | expandedNodeID | statusCode
  | qualifiedName | localizedText
deriving Repr, DecidableEq

/-- Variant type id, ua/variant.go:8-30. -/
def LTy.code : LTy → UInt8
  | .bool => 1 | .sbyte => 2 | .byte => 3 | .int16 => 4 | .uint16 => 5 | .int32 => 6
  | .uint32 => 7 | .int64 => 8 | .uint64 => 9 | .float => 10 | .double => 11 | .string => 12
  | .dateTime => 13 | .guid => 14 | .byteString => 15 | .xmlElement => 16 | .nodeID => 17
  | .expandedNodeID => 18 | .statusCode => 19 | .qualifiedName => 20 | .localizedText => 21

/-- The `switch b & 0x3F` of ReadVariant for ids 1–21. -/
def LTy.ofCode : UInt8 → Option LTy
  | 1 => some .bool | 2 => some .sbyte | 3 => some .byte | 4 => some .int16 | 5 => some .uint16
  | 6 => some .int32 | 7 => some .uint32 | 8 => some .int64 | 9 => some .uint64 | 10 => some .float
  | 11 => some .double | 12 => some .string | 13 => some .dateTime | 14 => some .guid
  | 15 => some .byteString | 16 => some .xmlElement | 17 => some .nodeID
  | 18 => some .expandedNodeID | 19 => some .statusCode | 20 => some .qualifiedName
  | 21 => some .localizedText | _ => none

/-- A value of a leaf type. -/
inductive Leaf where
  | bool (b : Bool)
  | b8 (v : BitVec 8)
  | b16 (v : BitVec 16)
  | b32 (v : BitVec 32)
  | b64 (v : BitVec 64)
  | str (s : Bytes)
  | time (t : Time)
  | guid (g : Guid)
  | node (n : Option NodeID)
  | expanded (n : ExpandedNodeID)
  | qname (q : QualifiedName)
  | ltext (l : LocalizedText)
deriving Repr, DecidableEq

/-- Go's static type of the leaf. -/
def Leaf.hasTy : LTy → Leaf → Prop
  | .bool, .bool _ => True
  | .sbyte, .b8 _ => True
  | .byte, .b8 _ => True
  | .int16, .b16 _ => True
  | .uint16, .b16 _ => True
  | .int32, .b32 _ => True
  | .uint32, .b32 _ => True
  | .float, .b32 _ => True
  | .statusCode, .b32 _ => True
  | .int64, .b64 _ => True
  | .uint64, .b64 _ => True
  | .double, .b64 _ => True
  | .string, .str _ => True
  | .byteString, .str _ => True
  | .xmlElement, .str _ => True
  | .dateTime, .time _ => True
  | .guid, .guid _ => True
  | .nodeID, .node _ => True
  | .expandedNodeID, .expanded _ => True
  | .qualifiedName, .qname _ => True
  | .localizedText, .ltext _ => True
  | _, _ => False

/-- The WriteX method for the leaf. -/
def encLeaf : Leaf → Bytes
  | .bool b => writeBool b
  | .b8 v => writeBits 1 v
  | .b16 v => writeU16 v
  | .b32 v => writeU32 v
  | .b64 v => writeU64 v
  | .str s => writeString s
  | .time t => writeDateTime t
  | .guid g => writeGuid g
  | .node n => writeNodeID n
  | .expanded n => writeExpandedNodeID n
  | .qname q => writeQualifiedName q
  | .ltext l => writeLocalizedText l

/-- The ReadX method for the leaf type. -/
def decLeaf : LTy → Dec Leaf
  | .bool => Leaf.bool <$> readBool
  | .sbyte | .byte => Leaf.b8 <$> readBits 1
  | .int16 | .uint16 => Leaf.b16 <$> readU16
  | .int32 | .uint32 | .float | .statusCode => Leaf.b32 <$> readU32
  | .int64 | .uint64 | .double => Leaf.b64 <$> readU64
  | .string | .xmlElement => Leaf.str <$> readString
  | .byteString => Leaf.str <$> readByteString
  | .dateTime => Leaf.time <$> readDateTime
  | .guid => Leaf.guid <$> readGuid
  | .nodeID => Leaf.node <$> readNodeID
  | .expandedNodeID => Leaf.expanded <$> readExpandedNodeID
  | .qualifiedName => Leaf.qname <$> readQualifiedName
  | .localizedText => Leaf.ltext <$> readLocalizedText

/-- `ua.DiagnosticInfo` (ua/diagnostic_info.go): every field is a pointer. -/
inductive Diag where
  | mk (symbolicID namespaceURI locale localizedText : Option (BitVec 32))
      (additionalInfo : Option Bytes) (innerStatus : Option (BitVec 32)) (inner : Option Diag)

def Diag.empty : Diag := .mk none none none none none none none

/-- mask bits of a DiagnosticInfo, ua/binary_encoder.go:1714-1735. -/
def diagMask (sym nsu loc txt : Option (BitVec 32)) (add : Option Bytes)
    (st : Option (BitVec 32)) (hasInner : Bool) : UInt8 :=
  (if sym.isSome then 1 else 0) ||| (if nsu.isSome then 2 else 0) |||
  (if loc.isSome then 8 else 0) ||| (if txt.isSome then 4 else 0) |||
  (if add.isSome then 16 else 0) ||| (if st.isSome then 32 else 0) |||
  (if hasInner then 64 else 0)

/-- WriteDiagnosticInfo, ua/binary_encoder.go:1713-1777. -/
def writeDiag : Diag → Bytes
  | .mk sym nsu loc txt add st inner =>
    writeByte (diagMask sym nsu loc txt add st inner.isSome) ++
    (sym.elim [] writeU32 ++ nsu.elim [] writeU32 ++ loc.elim [] writeU32 ++ txt.elim [] writeU32 ++
     add.elim [] writeString ++ st.elim [] writeU32 ++
     (match inner with | none => [] | some d => writeDiag d))

/-- ReadDiagnosticInfo, ua/binary_decoder.go:2087-2130. The result's pointer fields are
nil, so storing through them (`*value = …` inside ReadInt32, ReadString, …) panics once
the bytes have been read. The recursion depth is bounded by `fuel` (stack). -/
def readDiag : Nat → Dec Diag
  | 0 => Dec.crash
  | fuel + 1 => do
    let b ← readByte
    if b &&& 1 ≠ 0 then (do let _ ← readU32; Dec.crash)
    else if b &&& 2 ≠ 0 then (do let _ ← readU32; Dec.crash)
    else if b &&& 8 ≠ 0 then (do let _ ← readU32; Dec.crash)
    else if b &&& 4 ≠ 0 then (do let _ ← readU32; Dec.crash)
    else if b &&& 16 ≠ 0 then (do let _ ← readString; Dec.crash)
    else if b &&& 32 ≠ 0 then (do let _ ← readU32; Dec.crash)
    else if b &&& 64 ≠ 0 then (do let _ ← readDiag fuel; Dec.crash)
    else return Diag.empty

/-- Element types of arrays in a Variant. -/
inductive ATy where
  | leaf (t : LTy)
  | ext
  | dataValue
  | variant
  | diag
deriving Repr, DecidableEq

def ATy.code : ATy → UInt8
  | .leaf t => t.code
  | .ext => 22
  | .dataValue => 23
  | .variant => 24
  | .diag => 25

def ATy.ofCode (c : UInt8) : Option ATy :=
  if c = 22 then some .ext
  else if c = 23 then some .dataValue
  else if c = 24 then some .variant
  else if c = 25 then some .diag
  else (LTy.ofCode c).map .leaf

/-- Go types handled by `Encode`/`Decode` (getEncoder, ua/binary_encoder.go:94-163;
getDecoder, ua/binary_decoder.go:67-135). -/
inductive Ty where
  | leaf (t : LTy)
  /-- `[]byte` -/
  | bytes
  | struct (fields : List Ty)
  /-- pointer to struct -/
  | ptr (fields : List Ty)
  | slice (elem : Ty)
  | variant
  | dataValue
  | ext
  | diag

def ATy.ty : ATy → Ty
  | .leaf t => .leaf t
  | .ext => .ext
  | .dataValue => .dataValue
  | .variant => .variant
  | .diag => .diag

mutual
/-- getEncoder/getDecoder have no `case reflect.Array`, so a struct with a field of type
`uuid.UUID` (or a slice of them) has no codec ("unsupported type",
ua/binary_encoder.go:94-163, ua/binary_decoder.go:67-135). `true` = a codec can be built. -/
def Ty.supported : Ty → Bool
  | .leaf .guid => false
  | .leaf _ => true
  | .struct ts => Ty.allSupported ts
  | .ptr ts => Ty.allSupported ts
  | .slice t => t.supported
  | _ => true

def Ty.allSupported : List Ty → Bool
  | [] => true
  | t :: ts => t.supported && Ty.allSupported ts
end

/-- A Go value as seen by the codec. Variants carry their dynamic type. `vdv`/`vdiag`
(a Variant holding a single DataValue/DiagnosticInfo) can be decoded but not encoded. -/
inductive Val where
  | leaf (l : Leaf)
  | bytes (b : Option Bytes)
  | struct (fs : List Val)
  | nilPtr
  | slice (vs : List Val)
  | vnull
  | vscalar (t : LTy) (l : Leaf)
  | varray (t : ATy) (vs : Option (List Val))
  | vmat (t : ATy) (rows : List (List Val))
  | vcube (t : ATy) (rows : List (List (List Val)))
  | vext (tag : Nat) (fs : List Val)
  | vdv (d : Val)
  | vdiag (d : Diag)
  | dv (value : Val) (status : BitVec 32) (srcTs : Time) (srcPico : BitVec 16)
      (srvTs : Time) (srvPico : BitVec 16)
  | extNil
  | ext (tag : Nat) (fs : List Val)
  | diag (d : Diag)

/-- Structure types, numbered by `tag`. `fieldsOf tag` are the Go fields of the type;
`idOf tag` is `FindBinaryEncodingIDForType` followed by `ToNodeID`
(ua/binary_encoder.go:782-786; inner `none` is the nil NodeID of an unknown namespace);
`tyOf` is `ToExpandedNodeID` followed by `FindTypeForBinaryEncodingID`
(ua/binary_decoder.go:782-784). -/
structure Reg where
  fieldsOf : Nat → List Ty
  idOf : Nat → Option (Option NodeID)
  tyOf : Option NodeID → Option Nat

/-- The presence mask of WriteDataValue, ua/binary_encoder.go:828-851. -/
def dvMask (hasValue : Bool) (status : BitVec 32) (srcTs : Time) (srcPico : BitVec 16)
    (srvTs : Time) (srvPico : BitVec 16) : UInt8 :=
  (if hasValue then 1 else 0) ||| (if status ≠ 0 then 2 else 0) |||
  (if srcTs ≠ Time.zero then 4 else 0) ||| (if srcPico ≠ 0 then 16 else 0) |||
  (if srvTs ≠ Time.zero then 8 else 0) ||| (if srvPico ≠ 0 then 32 else 0)

def Val.isVNull : Val → Bool
  | .vnull => true
  | _ => false

/-- The fields of a DataValue after the value, ua/binary_encoder.go:862-890. -/
def writeDVTail (b : UInt8) (status : BitVec 32) (srcTs : Time) (srcPico : BitVec 16)
    (srvTs : Time) (srvPico : BitVec 16) : Bytes :=
  (if b &&& 2 ≠ 0 then writeU32 status else []) ++
  ((if b &&& 4 ≠ 0 then writeDateTime srcTs else []) ++
  ((if b &&& 16 ≠ 0 then writeU16 srcPico else []) ++
  ((if b &&& 8 ≠ 0 then writeDateTime srvTs else []) ++
   (if b &&& 32 ≠ 0 then writeU16 srvPico else []))))

/-- dims2D, ua/binary_encoder.go:2208-2214. -/
def dims2D (rows : List (List α)) : List Nat :=
  match rows with
  | [] => [0, 0]
  | r :: _ => [rows.length, r.length]

/-- dims3D, ua/binary_encoder.go:2217-2227. -/
def dims3D (rows : List (List (List α))) : List Nat :=
  match rows with
  | [] => [0, 0, 0]
  | [] :: _ => [0, 0, 0]
  | (r :: rs) :: _ => [rows.length, (r :: rs).length, r.length]

/-- WriteInt32Array of dimensions, ua/binary_encoder.go:1858-1871. -/
def writeDims (ds : List Nat) : Bytes := writeI32 ds.length ++ ds.flatMap fun d : Nat => writeI32 (d : Int)

/-- flatten3D up to one level, ua/binary_encoder.go:2191-2205 -/
def countRows (rows : List (List α)) : Nat := (rows.map List.length).sum

mutual
/-- Encode / WriteVariant / WriteDataValue / WriteExtensionObject, directed by the value.
`none` is BadEncodingError. []byte and its multi-dimensional forms inside a Variant are
written element by element (same bytes as WriteByteArray). The length prefix of an
ExtensionObject is back-patched in Go; here it is computed first (BufferAt path,
ua/binary_encoder.go:793-812; the fall-back for other writers is not modelled).
Sources: ua/binary_encoder.go:165-235 (struct, pointer, slice), 767-824, 827-892, 895-1710. -/
def enc (R : Reg) : Val → Option Bytes
  | .leaf l => some (encLeaf l)
  | .bytes b => some (writeByteArray b)
  | .struct fs => encList R fs
  | .nilPtr => none
  | .slice vs => do some (writeI32 vs.length ++ (← encList R vs))
  | .vnull => some (writeByte 0)
  | .vscalar t l => some (writeByte t.code ++ encLeaf l)
  | .varray .diag _ => none
  | .varray t none => some (writeByte (t.code ||| 0x80) ++ writeI32 (-1))
  | .varray t (some vs) => do
      some (writeByte (t.code ||| 0x80) ++ (writeI32 vs.length ++ (← encList R vs)))
  | .vmat .diag _ => none
  | .vmat t rows => do
      some (writeByte (t.code ||| 0x80 ||| 0x40) ++
        (writeI32 (countRows rows) ++ ((← encRows R rows) ++ writeDims (dims2D rows))))
  | .vcube .diag _ => none
  | .vcube t rows => do
      some (writeByte (t.code ||| 0x80 ||| 0x40) ++
        (writeI32 (rows.map countRows).sum ++ ((← encCubes R rows) ++ writeDims (dims3D rows))))
  | .vext tag fs => do
      let id ← R.idOf tag
      guard (Ty.allSupported (R.fieldsOf tag))
      let body ← encList R fs
      some (writeByte 22 ++ (writeNodeID id ++ (writeByte 1 ++
        (writeU32 (BitVec.ofNat 32 body.length) ++ body))))
  | .vdv _ => none
  | .vdiag _ => none
  | .dv value st ts tp us up => do
      let b := dvMask (!value.isVNull) st ts tp us up
      if value.isVNull then
        some (writeByte b ++ writeDVTail b st ts tp us up)
      else
        some (writeByte b ++ ((← enc R value) ++ writeDVTail b st ts tp us up))
  | .extNil => some (writeNodeID none ++ writeByte 0)
  | .ext tag fs => do
      let id ← R.idOf tag
      guard (Ty.allSupported (R.fieldsOf tag))
      let body ← encList R fs
      some (writeNodeID id ++ (writeByte 1 ++ (writeU32 (BitVec.ofNat 32 body.length) ++ body)))
  | .diag d => some (writeDiag d)

def encList (R : Reg) : List Val → Option Bytes
  | [] => some []
  | v :: vs => do some ((← enc R v) ++ (← encList R vs))

def encRows (R : Reg) : List (List Val) → Option Bytes
  | [] => some []
  | r :: rs => do some ((← encList R r) ++ (← encRows R rs))

def encCubes (R : Reg) : List (List (List Val)) → Option Bytes
  | [] => some []
  | r :: rs => do some ((← encRows R r) ++ (← encCubes R rs))
end

/-- Decoders run one after the other (struct fields, array elements). -/
def decSeq : List (Dec α) → Dec (List α)
  | [] => pure []
  | d :: ds => do
    let v ← d
    let vs ← decSeq ds
    return v :: vs

/-- ReadXArray: ua/binary_decoder.go:2133-2628. -/
def decArray (d : Dec α) : Dec (Option (List α)) := do
  let n ← readI32
  if n < 0 then return none else some <$> decSeq (List.replicate n.toNat d)

/-- `res[i], vals = vals[:w], vals[w:]` for `n` rows; panics when the bound is negative or
exceeds what is left. ua/binary_decoder.go:1305-1310 (bool; same text for every type). -/
def splitRows (w : Int) : Nat → List α → Res (List (List α) × List α)
  | 0, vals => .ok ([], vals)
  | n + 1, vals =>
    if w < 0 ∨ vals.length < w.toNat then .panic
    else match splitRows w n (vals.drop w.toNat) with
      | .ok (rows, left) => .ok (vals.take w.toNat :: rows, left)
      | .err => .err
      | .panic => .panic

/-- the two nested loops for three dimensions, ua/binary_decoder.go:1312-1321;
`make([][]T, dims[1])` panics for negative `h` -/
def splitCubes (h w : Int) : Nat → List α → Res (List (List (List α)))
  | 0, _ => .ok []
  | n + 1, vals =>
    if h < 0 then .panic
    else match splitRows w h.toNat vals with
      | .ok (rows, left) =>
        match splitCubes h w n left with
        | .ok cs => .ok (rows :: cs)
        | .err => .err
        | .panic => .panic
      | .err => .err
      | .panic => .panic

/-- Turn the result of pure code into a decoder. -/
def Dec.ofRes : Res α → Dec α
  | .ok a => pure a
  | .err => Dec.fail
  | .panic => Dec.crash

/-- Shaping of a multi-dimensional array from values and dimensions,
ua/binary_decoder.go:1301-1323. `make([][]T, dims[0])` panics for a negative size. -/
def shape (t : ATy) (vals : List Val) (dims : List Int) : Res Val :=
  match dims with
  | [d0, d1] =>
    if d0 < 0 then .panic
    else match splitRows d1 d0.toNat vals with
      | .ok (rows, _) => .ok (.vmat t rows)
      | .err => .err
      | .panic => .panic
  | [d0, d1, d2] =>
    if d0 < 0 then .panic
    else match splitCubes d1 d2 d0.toNat vals with
      | .ok rows => .ok (.vcube t rows)
      | .err => .err
      | .panic => .panic
  | _ => .err

/-- A typed nil NodeID stored in a Variant interface is the nil Variant. -/
def mkScalar (t : LTy) (l : Leaf) : Val :=
  match t, l with
  | .nodeID, .node none => .vnull
  | _, _ => .vscalar t l

/-- An ExtensionObject stored in a Variant. -/
def extToVariant : Val → Val
  | .ext tag fs => .vext tag fs
  | _ => .vnull

/-- ReadVariant, ua/binary_decoder.go:866-2054, given the decoder for nested types. -/
def decVariant (rec : Ty → Dec Val) (fuel : Nat) : Dec Val := do
  let b ← readByte
  let c := b &&& 0x3F
  if b &&& 0x80 = 0 then
    if c = 0 then return .vnull
    else match ATy.ofCode c with
      | some (.leaf t) => mkScalar t <$> decLeaf t
      | some .ext => extToVariant <$> rec .ext
      | some .dataValue => Val.vdv <$> rec .dataValue
      | some .variant => rec .variant
      | some .diag => Val.vdiag <$> readDiag fuel
      | none => Dec.fail
  else if b &&& 0x40 = 0 then
    if c = 0 then return .vnull
    else match ATy.ofCode c with
      | some t => Val.varray t <$> decArray (rec t.ty)
      | none => Dec.fail
  else
    if c = 0 then return .vnull
    else match ATy.ofCode c with
      | some t => do
        let vals ← decArray (rec t.ty)
        let dims ← decArray readI32
        Dec.ofRes (shape t (vals.getD []) (dims.getD []))
      | none => Dec.fail

/-- The DataValue fields after the value; `st0` is the status set when the Variant could not
be decoded (then the status field is *not* read), ua/binary_decoder.go:837-862. -/
def decDVTail (b : UInt8) (v : Val) (st0 : BitVec 32) : Dec Val := do
  let st ← (if b &&& 2 ≠ 0 ∧ st0 = 0 then readU32 else pure st0)
  let ts ← (if b &&& 4 ≠ 0 then readDateTime else pure Time.zero)
  let tp ← (if b &&& 16 ≠ 0 then readU16 else pure 0)
  let us ← (if b &&& 8 ≠ 0 then readDateTime else pure Time.zero)
  let up ← (if b &&& 32 ≠ 0 then readU16 else pure 0)
  return .dv v st ts tp us up

/-- BadDataTypeIDUnknown -/
def badDataTypeIDUnknown : BitVec 32 := 0x80110000

/-- ReadDataValue, ua/binary_decoder.go:816-863: an error from ReadVariant is swallowed and
reading goes on where the Variant decoder stopped. -/
def decDataValue (rec : Ty → Dec Val) : Dec Val := do
  let b ← readByte
  if b &&& 1 ≠ 0 then ⟨fun s =>
    match (rec .variant).run s with
    | .ok (v, s') => (decDVTail b v 0).run s'
    | .err left => (decDVTail b .vnull badDataTypeIDUnknown).run left
    | .panic => .panic⟩
  else decDVTail b .vnull 0

/-- ReadExtensionObject, ua/binary_decoder.go:769-813. For a registered type the declared
length is read and ignored. -/
def decExt (R : Reg) (rec : Ty → Dec Val) : Dec Val := do
  let id ← readNodeID
  let b ← readByte
  if b = 0 then return .extNil
  else if b = 1 then
    match R.tyOf id with
    | some tag => do
      let _ ← readI32
      if Ty.allSupported (R.fieldsOf tag) then do
        let v ← rec (.struct (R.fieldsOf tag))
        match v with
        | .struct fs => return .ext tag fs
        | _ => Dec.fail  -- not reachable: decoding a struct gives a struct
      else Dec.fail
    | none => do
      let _ ← readByteArray
      return .extNil
  else if b = 2 then do
    let _ ← readString
    return .extNil
  else Dec.fail

/-- Decode, directed by the type; `fuel` bounds the recursion depth (goroutine stack).
struct, pointer, slice: ua/binary_decoder.go:137-222. -/
def dec (R : Reg) : Nat → Ty → Dec Val
  | 0, _ => Dec.crash
  | fuel + 1, ty =>
    match ty with
    | .leaf t => Val.leaf <$> decLeaf t
    | .bytes => Val.bytes <$> readByteArray
    | .struct tys => Val.struct <$> decSeq (tys.map (dec R fuel))
    | .ptr tys => Val.struct <$> decSeq (tys.map (dec R fuel))
    | .slice t => do
      let n ← readI32
      if n ≤ 0 then return .slice []
      else Val.slice <$> decSeq (List.replicate n.toNat (dec R fuel t))
    | .variant => decVariant (dec R fuel) fuel
    | .dataValue => decDataValue (dec R fuel)
    | .ext => decExt R (dec R fuel)
    | .diag => Val.diag <$> readDiag fuel

/-- `BinaryEncoder.Encode`, ua/binary_encoder.go:65-92. -/
def encode (R : Reg) (ty : Ty) (v : Val) : Option Bytes :=
  if ty.supported then enc R v else none

/-- `BinaryDecoder.Decode`, ua/binary_decoder.go:31-65. -/
def decode (R : Reg) (fuel : Nat) (ty : Ty) : Dec Val :=
  if ty.supported then dec R fuel ty else Dec.fail

end Opcua
