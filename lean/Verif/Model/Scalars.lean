import Verif.Model.Bytes

/-!
Built-in scalar types of the UA binary encoding
(ua/binary_encoder.go:365-765, ua/binary_decoder.go:341-767).

Integers and floats are bit patterns (`BitVec`); Go strings, `ByteString` and
`XMLElement` are byte lists. Writers are modelled for an `io.Writer` that never
fails (the failing case is the bounded `Writer`, see `Model/Writer.lean`).
-/
namespace Opcua

/-- `binary.LittleEndian.PutUintXX` + `Write` for a value of `8*n` bits:
WriteSByte … WriteDouble, ua/binary_encoder.go:379-468 (floats: `math.FloatXXbits`). -/
def writeBits (n : Nat) (v : BitVec (8 * n)) : Bytes := leBytes n v.toNat

/-- ReadSByte … ReadDouble, ua/binary_decoder.go:350-438. -/
def readBits (n : Nat) : Dec (BitVec (8 * n)) := do
  let bs ← readN n
  return BitVec.ofNat (8 * n) (leVal bs)

/-- WriteByte, ua/binary_encoder.go:388-394. -/
def writeByte (b : UInt8) : Bytes := [b]

/-- ReadByte, ua/binary_decoder.go:359-365. -/
def readByte : Dec UInt8 := do
  match ← readN 1 with
  | b :: _ => return b
  | [] => Dec.fail  -- not reachable: readN 1 returns one byte

/-- WriteBoolean, ua/binary_encoder.go:365-376. -/
def writeBool (b : Bool) : Bytes := [if b then 1 else 0]

/-- ReadBoolean, ua/binary_decoder.go:341-347. -/
def readBool : Dec Bool := do
  let b ← readByte
  return b != 0

def writeU16 (v : BitVec 16) : Bytes := writeBits 2 v
def readU16 : Dec (BitVec 16) := readBits 2
def writeU32 (v : BitVec 32) : Bytes := writeBits 4 v
def readU32 : Dec (BitVec 32) := readBits 4
def writeU64 (v : BitVec 64) : Bytes := writeBits 8 v
def readU64 : Dec (BitVec 64) := readBits 8

/-- WriteInt32(int32(x)) with Go's wrap-around conversion, ua/binary_encoder.go:416-422. -/
def writeI32 (x : Int) : Bytes := writeU32 (BitVec.ofInt 32 x)

/-- ReadInt32, ua/binary_decoder.go:386-392. -/
def readI32 : Dec Int := do
  let v ← readU32
  return v.toInt

/-- WriteString / WriteByteString / WriteXMLElement,
ua/binary_encoder.go:471-488, 526-543, 546-548. -/
def writeString (s : Bytes) : Bytes :=
  if s.length = 0 then writeI32 (-1) else writeI32 s.length ++ s

/-- ReadString / ReadXMLElement, ua/binary_decoder.go:441-457, 516-523. -/
def readString : Dec Bytes := do
  let n ← readI32
  if n < 0 then return [] else readN n.toNat

/-- ReadByteString, ua/binary_decoder.go:498-513. -/
def readByteString : Dec Bytes := do
  let n ← readI32
  if n ≤ 0 then return [] else readN n.toNat

/-- WriteByteArray (nil slice = `none`), ua/binary_encoder.go:1812-1823. -/
def writeByteArray (s : Option Bytes) : Bytes :=
  match s with
  | none => writeI32 (-1)
  | some s => writeI32 s.length ++ s

/-- ReadByteArray, ua/binary_decoder.go:2173-2188. -/
def readByteArray : Dec (Option Bytes) := do
  let n ← readI32
  if n < 0 then return none else some <$> readN n.toNat

/-- `time.Time` as Unix seconds plus nanoseconds within the second
(0 ≤ ns < 10^9 for every Go time). Location and monotonic clock are not modelled. -/
structure Time where
  sec : Int
  ns : Nat
deriving Repr, DecidableEq

/-- Go's zero time, January 1, year 1 UTC. -/
def Time.zero : Time := ⟨-62135596800, 0⟩

/-- int64 wrap-around. -/
def wrap64 (x : Int) : Int := x.bmod (2 ^ 64)

/-- The int64 tick count computed by WriteDateTime, ua/binary_encoder.go:491-504. -/
def timeTicks (t : Time) : Int :=
  let ticks := wrap64 ((t.sec + 11644473600) * 10000000 + ((t.ns / 100 : Nat) : Int))
  let ticks := if ticks < 0 then 0 else ticks
  if ticks ≥ 2650467743990000000 then 0x7FFFFFFFFFFFFFFF else ticks

/-- WriteDateTime, ua/binary_encoder.go:491-504. -/
def writeDateTime (t : Time) : Bytes := writeU64 (BitVec.ofInt 64 (timeTicks t))

/-- The conversion of ticks in ReadDateTime, ua/binary_decoder.go:460-474. -/
def ticksTime (ticks : Int) : Time :=
  let ticks := if ticks < 0 then 0 else ticks
  let ticks := if ticks = 0x7FFFFFFFFFFFFFFF then 2650467743990000000 else ticks
  ⟨ticks / 10000000 - 11644473600, ((ticks % 10000000) * 100).toNat⟩

/-- ReadDateTime, ua/binary_decoder.go:460-474. -/
def readDateTime : Dec Time := do
  let v ← readU64
  return ticksTime v.toInt

/-- `uuid.UUID`, 16 bytes in textual order. -/
structure Guid where
  (b0 b1 b2 b3 b4 b5 b6 b7 b8 b9 b10 b11 b12 b13 b14 b15 : UInt8)
deriving Repr, DecidableEq

def Guid.nil : Guid := ⟨0,0,0,0,0,0,0,0,0,0,0,0,0,0,0,0⟩

/-- WriteGUID, ua/binary_encoder.go:507-523. -/
def writeGuid (g : Guid) : Bytes :=
  [g.b3, g.b2, g.b1, g.b0, g.b5, g.b4, g.b7, g.b6] ++
  [g.b8, g.b9, g.b10, g.b11, g.b12, g.b13, g.b14, g.b15]

/-- ReadGUID, ua/binary_decoder.go:477-495. -/
def readGuid : Dec Guid := do
  match ← readN 8 with
  | [c0, c1, c2, c3, c4, c5, c6, c7] =>
    match ← readN 8 with
    | [d0, d1, d2, d3, d4, d5, d6, d7] =>
      return ⟨c3, c2, c1, c0, c5, c4, c7, c6, d0, d1, d2, d3, d4, d5, d6, d7⟩
    | _ => Dec.fail  -- not reachable: readN 8 returns eight bytes
  | _ => Dec.fail    -- not reachable

/-- `ua.NodeID` implementations, ua/nodeid.go; the nil interface is `none : Option NodeID`. -/
inductive NodeID where
  | numeric (ns : BitVec 16) (id : BitVec 32)
  | string (ns : BitVec 16) (id : Bytes)
  | guid (ns : BitVec 16) (id : Guid)
  | opq (ns : BitVec 16) (id : Bytes)
deriving Repr, DecidableEq

/-- The `NamespaceIndex` field, ua/nodeid.go:21,46,71,96. -/
def NodeID.ns : NodeID → BitVec 16
  | .numeric ns _ => ns
  | .string ns _ => ns
  | .guid ns _ => ns
  | .opq ns _ => ns

/-- The numeric part shared by WriteNodeID (flags `b = 0`) and WriteExpandedNodeID,
ua/binary_encoder.go:553-582 and 630-663. -/
def writeNumeric (b : UInt8) (ns : BitVec 16) (id : BitVec 32) : Bytes :=
  if id.toNat ≤ 255 ∧ ns = 0 then
    writeByte (0x00 ||| b) ++ writeByte (UInt8.ofNat id.toNat)
  else if id.toNat ≤ 65535 ∧ ns.toNat ≤ 255 then
    writeByte (0x01 ||| b) ++ (writeByte (UInt8.ofNat ns.toNat) ++ writeU16 (id.truncate 16))
  else
    writeByte (0x02 ||| b) ++ (writeU16 ns ++ writeU32 id)

/-- WriteNodeID, ua/binary_encoder.go:551-619. -/
def writeNodeID : Option NodeID → Bytes
  | some (.numeric ns id) => writeNumeric 0 ns id
  | some (.string ns id) => writeByte 0x03 ++ (writeU16 ns ++ writeString id)
  | some (.guid ns id) => writeByte 0x04 ++ (writeU16 ns ++ writeGuid id)
  | some (.opq ns id) => writeByte 0x05 ++ (writeU16 ns ++ writeString id)
  | none => writeU16 0

/-- ReadNodeID, ua/binary_decoder.go:528-621. -/
def readNodeID : Dec (Option NodeID) := do
  let b ← readByte
  if b = 0x00 then do
    let id ← readByte
    if id = 0 then return none
    return some (.numeric 0 (BitVec.ofNat 32 id.toNat))
  else if b = 0x01 then do
    let ns ← readByte
    let id ← readU16
    return some (.numeric (BitVec.ofNat 16 ns.toNat) (id.zeroExtend 32))
  else if b = 0x02 then do
    let ns ← readU16
    let id ← readU32
    return some (.numeric ns id)
  else if b = 0x03 then do
    let ns ← readU16
    let id ← readString
    if ns = 0 ∧ id = [] then return none
    return some (.string ns id)
  else if b = 0x04 then do
    let ns ← readU16
    let id ← readGuid
    if ns = 0 ∧ id = Guid.nil then return none
    return some (.guid ns id)
  else if b = 0x05 then do
    let ns ← readU16
    let id ← readByteString
    if ns = 0 ∧ id = [] then return none
    return some (.opq ns id)
  else Dec.fail

/-- `ua.ExpandedNodeID`, ua/expanded_nodeid.go. -/
structure ExpandedNodeID where
  serverIndex : BitVec 32
  uri : Bytes
  nodeID : Option NodeID
deriving Repr, DecidableEq

/-- The flag byte, ua/binary_encoder.go:623-629. -/
def expFlags (v : ExpandedNodeID) : UInt8 :=
  (if v.serverIndex.toNat > 0 then 0x40 else 0) ||| (if v.uri.length > 0 then 0x80 else 0)

/-- WriteExpandedNodeID, ua/binary_encoder.go:622-723. -/
def writeExpandedNodeID (v : ExpandedNodeID) : Bytes :=
  let b := expFlags v
  let nsOf (ns : BitVec 16) : BitVec 16 := if b &&& 0x80 ≠ 0 then 0 else ns
  (match v.nodeID with
    | some (.numeric ns id) => writeNumeric b (nsOf ns) id
    | some (.string ns id) => writeByte (0x03 ||| b) ++ (writeU16 (nsOf ns) ++ writeString id)
    | some (.guid ns id) => writeByte (0x04 ||| b) ++ (writeU16 (nsOf ns) ++ writeGuid id)
    | some (.opq ns id) => writeByte (0x05 ||| b) ++ (writeU16 (nsOf ns) ++ writeString id)
    | none => writeU16 0) ++
  ((if b &&& 0x80 ≠ 0 then writeString v.uri else []) ++
   (if b &&& 0x40 ≠ 0 then writeU32 v.serverIndex else []))

/-- The identifier part of ReadExpandedNodeID, ua/binary_decoder.go:633-698. -/
def readExpandedBody (t : UInt8) : Dec (Option NodeID) :=
  if t = 0x00 then do
    let id ← readByte
    if id = 0 then return none
    return some (.numeric 0 (BitVec.ofNat 32 id.toNat))
  else if t = 0x01 then do
    let ns ← readByte
    let id ← readU16
    return some (.numeric (BitVec.ofNat 16 ns.toNat) (id.zeroExtend 32))
  else if t = 0x02 then do
    let ns ← readU16
    let id ← readU32
    return some (.numeric ns id)
  else if t = 0x03 then do
    let ns ← readU16
    let id ← readString
    return some (.string ns id)
  else if t = 0x04 then do
    let ns ← readU16
    let id ← readGuid
    return some (.guid ns id)
  else if t = 0x05 then do
    let ns ← readU16
    let id ← readByteString
    return some (.opq ns id)
  else Dec.fail

/-- ReadExpandedNodeID, ua/binary_decoder.go:623-716. -/
def readExpandedNodeID : Dec ExpandedNodeID := do
  let b ← readByte
  let n ← readExpandedBody (b &&& 0x0F)
  let uri ← (if b &&& 0x80 ≠ 0 then readString else pure [])
  let svr ← (if b &&& 0x40 ≠ 0 then readU32 else pure 0)
  return ⟨svr, uri, n⟩

/-- `ua.QualifiedName`. -/
structure QualifiedName where
  ns : BitVec 16
  name : Bytes
deriving Repr, DecidableEq

/-- WriteQualifiedName, ua/binary_encoder.go:734-739. -/
def writeQualifiedName (q : QualifiedName) : Bytes := writeU16 q.ns ++ writeString q.name

/-- ReadQualifiedName, ua/binary_decoder.go:729-742. -/
def readQualifiedName : Dec QualifiedName := do
  let ns ← readU16
  let name ← readString
  return ⟨ns, name⟩

/-- `ua.LocalizedText`. -/
structure LocalizedText where
  text : Bytes
  locale : Bytes
deriving Repr, DecidableEq

/-- The mask of WriteLocalizedText, ua/binary_encoder.go:743-749. -/
def ltMask (v : LocalizedText) : UInt8 :=
  (if v.locale ≠ [] then 1 else 0) ||| (if v.text ≠ [] then 2 else 0)

/-- WriteLocalizedText, ua/binary_encoder.go:742-764. -/
def writeLocalizedText (v : LocalizedText) : Bytes :=
  let b := ltMask v
  writeByte b ++
  ((if b &&& 1 ≠ 0 then writeString v.locale else []) ++
   (if b &&& 2 ≠ 0 then writeString v.text else []))

/-- ReadLocalizedText, ua/binary_decoder.go:745-766. -/
def readLocalizedText : Dec LocalizedText := do
  let b ← readByte
  let locale ← (if b &&& 1 ≠ 0 then readString else pure [])
  let text ← (if b &&& 2 ≠ 0 then readString else pure [])
  return ⟨text, locale⟩

end Opcua
