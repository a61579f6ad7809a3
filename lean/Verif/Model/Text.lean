import Verif.Model.Scalars

/-! Text forms of identifiers and names, namespace translation and status codes.
Go strings are byte lists. -/
namespace Opcua

/-! ### Library functions used by the text forms -/

/-- `strings.HasPrefix` together with slicing off the prefix. -/
def stripPrefix : Bytes → Bytes → Option Bytes
  | [], s => some s
  | _ :: _, [] => none
  | p :: ps, c :: cs => if p = c then stripPrefix ps cs else none

/-- `strings.Index(s, c)` together with `s[:pos]` and `s[pos+1:]`. -/
def cut (c : UInt8) : Bytes → Option (Bytes × Bytes)
  | [] => none
  | x :: xs => if x = c then some ([], xs) else
    match cut c xs with
    | none => none
    | some (a, b) => some (x :: a, b)

/-- `strings.Split(s, c)` for a one-byte separator. -/
def splitOn (c : UInt8) : Bytes → List Bytes
  | [] => [[]]
  | x :: xs => if x = c then [] :: splitOn c xs else
    match splitOn c xs with
    | [] => [[x]]   -- not reachable: Split never returns an empty slice
    | t :: ts => (x :: t) :: ts

/-- Result of `strconv.ParseUint`: a value, ErrSyntax (value 0) or ErrRange (value max). -/
inductive PU where
  | ok (n : Nat)
  | syntaxErr
  | rangeErr
deriving Repr, DecidableEq

/-- The digit loop of `strconv.ParseUint(s, 10, bits)` with `max = 2^bits - 1`; the errors are
detected from left to right. -/
def parseUintGo (max : Nat) (n : Nat) : Bytes → PU
  | [] => .ok n
  | c :: cs =>
    if 48 ≤ c.toNat ∧ c.toNat ≤ 57 then
      let n1 := n * 10 + (c.toNat - 48)
      if n1 > max then .rangeErr else parseUintGo max n1 cs
    else .syntaxErr

/-- `strconv.ParseUint(s, 10, bits)`. -/
def parseUint (max : Nat) (s : Bytes) : PU :=
  match s with
  | [] => .syntaxErr
  | s => parseUintGo max 0 s

/-- `fmt.Sprintf("%d", n)`. -/
def decStr (n : Nat) : Bytes :=
  if n < 10 then [UInt8.ofNat (48 + n)] else decStr (n / 10) ++ [UInt8.ofNat (48 + n % 10)]
termination_by n
decreasing_by omega

/-- lower case hexadecimal digit -/
def hexDigit (n : Nat) : UInt8 := if n < 10 then UInt8.ofNat (48 + n) else UInt8.ofNat (87 + n)

/-- `xvalues` of google/uuid: either case. -/
def hexVal (c : UInt8) : Option Nat :=
  let n := c.toNat
  if 48 ≤ n ∧ n ≤ 57 then some (n - 48)
  else if 97 ≤ n ∧ n ≤ 102 then some (n - 87)
  else if 65 ≤ n ∧ n ≤ 70 then some (n - 55)
  else none

def hexByte (b : UInt8) : Bytes := [hexDigit (b.toNat / 16), hexDigit (b.toNat % 16)]

/-- `k` hexadecimal pairs and the rest of the text. -/
def hexPairs : Nat → Bytes → Option (List UInt8 × Bytes)
  | 0, s => some ([], s)
  | k + 1, c :: d :: s =>
    match hexVal c, hexVal d with
    | some x, some y =>
      match hexPairs k s with
      | some (bs, r) => some (UInt8.ofNat (x * 16 + y) :: bs, r)
      | none => none
    | _, _ => none
  | _ + 1, _ => none

/-- `uuid.UUID.String()`. -/
def guidStr (g : Guid) : Bytes :=
  hexByte g.b0 ++ (hexByte g.b1 ++ (hexByte g.b2 ++ (hexByte g.b3 ++ (45 ::
  (hexByte g.b4 ++ (hexByte g.b5 ++ (45 :: (hexByte g.b6 ++ (hexByte g.b7 ++ (45 ::
  (hexByte g.b8 ++ (hexByte g.b9 ++ (45 ::
  (hexByte g.b10 ++ (hexByte g.b11 ++ (hexByte g.b12 ++ (hexByte g.b13 ++ (hexByte g.b14 ++
    hexByte g.b15))))))))))))))))))

/-- The dashed form inside `uuid.Parse`; bytes after the 36th are not looked at. -/
def parseDashed (s : Bytes) : Option Guid :=
  match hexPairs 4 s with
  | some ([b0, b1, b2, b3], 45 :: s) =>
    match hexPairs 2 s with
    | some ([b4, b5], 45 :: s) =>
      match hexPairs 2 s with
      | some ([b6, b7], 45 :: s) =>
        match hexPairs 2 s with
        | some ([b8, b9], 45 :: s) =>
          match hexPairs 6 s with
          | some ([b10, b11, b12, b13, b14, b15], _) =>
            some ⟨b0, b1, b2, b3, b4, b5, b6, b7, b8, b9, b10, b11, b12, b13, b14, b15⟩
          | _ => none
        | _ => none
      | _ => none
    | _ => none
  | _ => none

/-- ASCII lower case -/
def lower (c : UInt8) : UInt8 := if 65 ≤ c.toNat ∧ c.toNat ≤ 90 then c + 32 else c

/-- `uuid.Parse` (google/uuid v1.6.0): dashed, `urn:uuid:` + dashed, braced and plain form. -/
def parseGuid (s : Bytes) : Option Guid :=
  if s.length = 36 then parseDashed s
  else if s.length = 45 then
    if (s.take 9).map lower = [117, 114, 110, 58, 117, 117, 105, 100, 58] then parseDashed (s.drop 9)
    else none
  else if s.length = 38 then parseDashed (s.drop 1)
  else if s.length = 32 then
    match hexPairs 16 s with
    | some ([b0, b1, b2, b3, b4, b5, b6, b7, b8, b9, b10, b11, b12, b13, b14, b15], _) =>
      some ⟨b0, b1, b2, b3, b4, b5, b6, b7, b8, b9, b10, b11, b12, b13, b14, b15⟩
    | _ => none
  else none

/-- The alphabet of `base64.StdEncoding`. -/
def e64 (n : Nat) : UInt8 :=
  if n < 26 then UInt8.ofNat (65 + n)
  else if n < 52 then UInt8.ofNat (71 + n)
  else if n < 62 then UInt8.ofNat (n - 4)
  else if n = 62 then 43 else 47

def d64 (c : UInt8) : Option Nat :=
  let n := c.toNat
  if 65 ≤ n ∧ n ≤ 90 then some (n - 65)
  else if 97 ≤ n ∧ n ≤ 122 then some (n - 71)
  else if 48 ≤ n ∧ n ≤ 57 then some (n + 4)
  else if n = 43 then some 62
  else if n = 47 then some 63
  else none

/-- `base64.StdEncoding.EncodeToString`. -/
def b64enc : Bytes → Bytes
  | [] => []
  | [a] => [e64 (a.toNat / 4), e64 (a.toNat % 4 * 16), 61, 61]
  | [a, b] => [e64 (a.toNat / 4), e64 (a.toNat % 4 * 16 + b.toNat / 16), e64 (b.toNat % 16 * 4), 61]
  | a :: b :: c :: r =>
    e64 (a.toNat / 4) :: e64 (a.toNat % 4 * 16 + b.toNat / 16) ::
      e64 (b.toNat % 16 * 4 + c.toNat / 64) :: e64 (c.toNat % 64) :: b64enc r

/-- Decoding without line breaks: groups of four, padding only in the last one; the unused
bits of a padded group are not checked. -/
def b64decGo : Bytes → Option Bytes
  | [] => some []
  | c0 :: c1 :: c2 :: c3 :: rest =>
    match d64 c0, d64 c1 with
    | some x0, some x1 =>
      if c2 = 61 then
        if c3 = 61 ∧ rest = [] then some [UInt8.ofNat (x0 * 4 + x1 / 16)] else none
      else
        match d64 c2 with
        | none => none
        | some x2 =>
          if c3 = 61 then
            if rest = [] then some [UInt8.ofNat (x0 * 4 + x1 / 16), UInt8.ofNat (x1 % 16 * 16 + x2 / 4)]
            else none
          else
            match d64 c3 with
            | none => none
            | some x3 =>
              match b64decGo rest with
              | none => none
              | some r => some (UInt8.ofNat (x0 * 4 + x1 / 16) :: UInt8.ofNat (x1 % 16 * 16 + x2 / 4) ::
                  UInt8.ofNat (x2 % 4 * 64 + x3) :: r)
    | _, _ => none
  | _ => none

/-- `base64.StdEncoding.DecodeString`: `\r` and `\n` are ignored. -/
def b64dec (s : Bytes) : Option Bytes := b64decGo (s.filter (fun c => c ≠ 10 ∧ c ≠ 13))

/-! ### NodeID, ua/nodeid.go -/

/-- "ns=%d;" when the index is not 0, ua/nodeid.go:34-37, 60-63, 83-86, 106-109. -/
def nsStr (ns : BitVec 16) : Bytes :=
  if ns = 0 then [] else [110, 115, 61] ++ (decStr ns.toNat ++ [59])

/-- The four String methods, ua/nodeid.go:33-111. -/
def nodeIDStr : NodeID → Bytes
  | .numeric ns id => nsStr ns ++ ([105, 61] ++ decStr id.toNat)
  | .string ns id => nsStr ns ++ ([115, 61] ++ id)
  | .guid ns id => nsStr ns ++ ([103, 61] ++ guidStr id)
  | .opq ns id => nsStr ns ++ ([98, 61] ++ b64enc id)

/-- The switch of ParseNodeID, ua/nodeid.go:133-162. -/
def parseIdent (ns : Nat) (s : Bytes) : Option NodeID :=
  match stripPrefix [105, 61] s with
  | some t =>
    match parseUint 4294967295 t with
    | .ok id => if id = 0 ∧ ns = 0 then none else some (.numeric (BitVec.ofNat 16 ns) (BitVec.ofNat 32 id))
    | _ => none
  | none =>
    match stripPrefix [115, 61] s with
    | some t => some (.string (BitVec.ofNat 16 ns) t)
    | none =>
      match stripPrefix [103, 61] s with
      | some t => (parseGuid t).map (.guid (BitVec.ofNat 16 ns))
      | none =>
        match stripPrefix [98, 61] s with
        | some t => (b64dec t).map (.opq (BitVec.ofNat 16 ns))
        | none => none

/-- ParseNodeID, ua/nodeid.go:119-163. -/
def parseNodeID (s : Bytes) : Option NodeID :=
  match stripPrefix [110, 115, 61] s with
  | some _ =>
    match cut 59 s with
    | none => none
    | some (pre, rest) =>
      match parseUint 65535 (pre.drop 3) with
      | .ok ns => parseIdent ns rest
      | _ => none
  | none => parseIdent 0 s

/-! ### ExpandedNodeID, ua/expanded_nodeid.go -/

/-- The type switch of String, ua/expanded_nodeid.go:70-81. -/
def optNodeIDStr : Option NodeID → Bytes
  | some m => nodeIDStr m
  | none => [105, 61, 48]

/-- String, ua/expanded_nodeid.go:62-82. -/
def expandedStr (n : ExpandedNodeID) : Bytes :=
  (if n.serverIndex.toNat > 0 then [115, 118, 114, 61] ++ (decStr n.serverIndex.toNat ++ [59]) else []) ++
  ((if n.uri.length > 0 then [110, 115, 117, 61] ++ (n.uri ++ [59]) else []) ++
  optNodeIDStr n.nodeID)

/-- The second half of ParseExpandedNodeID, ua/expanded_nodeid.go:46-58. -/
def parseExpandedTail (svr : Nat) (s : Bytes) : ExpandedNodeID :=
  match stripPrefix [110, 115, 117, 61] s with
  | some _ =>
    match cut 59 s with
    | none => ⟨0, [], none⟩
    | some (pre, rest) => ⟨BitVec.ofNat 32 svr, pre.drop 4, parseNodeID rest⟩
  | none => ⟨BitVec.ofNat 32 svr, [], parseNodeID s⟩

/-- ParseExpandedNodeID, ua/expanded_nodeid.go:30-59. -/
def parseExpanded (s : Bytes) : ExpandedNodeID :=
  match stripPrefix [115, 118, 114, 61] s with
  | some _ =>
    match cut 59 s with
    | none => ⟨0, [], none⟩
    | some (pre, rest) =>
      match parseUint 4294967295 (pre.drop 4) with
      | .ok svr => parseExpandedTail svr rest
      | _ => ⟨0, [], none⟩
  | none => parseExpandedTail 0 s

/-! ### QualifiedName and browse paths, ua/qualified_name.go -/

/-- String, ua/qualified_name.go:53-55. -/
def qnameStr (q : QualifiedName) : Bytes := decStr q.ns.toNat ++ (58 :: q.name)

/-- ParseQualifiedName, ua/qualified_name.go:23-35; on ErrRange ParseUint returns the largest
value together with the error and that value is kept. -/
def parseQName (s : Bytes) : QualifiedName :=
  match cut 58 s with
  | none => ⟨0, s⟩
  | some (pre, rest) =>
    match parseUint 65535 pre with
    | .ok ns => ⟨BitVec.ofNat 16 ns, rest⟩
    | .syntaxErr => ⟨0, s⟩
    | .rangeErr => ⟨65535, s⟩

/-- ParseBrowsePath, ua/qualified_name.go:38-50. -/
def parseBrowsePath (s : Bytes) : List QualifiedName :=
  if s.length = 0 then [] else (splitOn 47 s).map parseQName

/-! ### Namespace translation -/

def NodeID.withNs (ns : BitVec 16) : NodeID → NodeID
  | .numeric _ id => .numeric ns id
  | .string _ id => .string ns id
  | .guid _ id => .guid ns id
  | .opq _ id => .opq ns id

/-- ToExpandedNodeID, ua/nodeid.go:168-194; `uint16(len(uris))` truncates. The four cases of
the type switch are the same code. -/
def toExpanded (n : Option NodeID) (uris : List Bytes) : ExpandedNodeID :=
  match n with
  | none => ⟨0, [], none⟩
  | some n =>
    if n.ns.toNat > 0 ∧ n.ns.toNat < uris.length % 65536 then
      match uris[n.ns.toNat]? with
      | some u => ⟨0, u, some (n.withNs 0)⟩
      | none => ⟨0, [], some n⟩   -- not reachable: the index is below len(uris)
    else ⟨0, [], some n⟩

/-- The loop of ToNodeID, ua/expanded_nodeid.go:91-97. -/
def uriIndex (u : Bytes) : List Bytes → Nat → Option Nat
  | [], _ => none
  | v :: vs, i => if v = u then some i else uriIndex u vs (i + 1)

/-- ToNodeID, ua/expanded_nodeid.go:85-113. -/
def toNodeID (n : ExpandedNodeID) (uris : List Bytes) : Option NodeID :=
  if n.uri = [] then n.nodeID
  else match uriIndex n.uri uris 0 with
    | none => none
    | some i => n.nodeID.map (·.withNs (BitVec.ofNat 16 i))

/-! ### StatusCode, ua/status_code.go -/
namespace StatusCode

/-! The masks and bits, ua/status_code.go:41-80. -/
abbrev severityMask : BitVec 32 := 0xC0000000#32
abbrev subCodeMask : BitVec 32 := 0x0FFF0000#32
abbrev structureChanged : BitVec 32 := 0x00008000#32
abbrev semanticsChanged : BitVec 32 := 0x00004000#32
abbrev infoTypeMask : BitVec 32 := 0x00000C00#32
abbrev infoTypeDataValue : BitVec 32 := 0x00000400#32
abbrev infoBitsMask : BitVec 32 := 0x000003FF#32
abbrev limitBitsMask : BitVec 32 := 0x00000300#32
abbrev limitBitsLow : BitVec 32 := 0x00000100#32
abbrev limitBitsHigh : BitVec 32 := 0x00000200#32
abbrev limitBitsConstant : BitVec 32 := 0x00000300#32
abbrev overflow : BitVec 32 := 0x00000080#32
abbrev historianBitsMask : BitVec 32 := 0x0000001F#32
abbrev historianBitsCalculated : BitVec 32 := 0x00000001#32
abbrev historianBitsInterpolated : BitVec 32 := 0x00000010#32
abbrev historianBitsPartial : BitVec 32 := 0x00000100#32

/-- IsGood, ua/status_code.go:9-11. -/
def isGood (c : BitVec 32) : Bool := c &&& 0xC0000000#32 == 0x00000000#32
/-- IsBad, ua/status_code.go:14-16. -/
def isBad (c : BitVec 32) : Bool := c &&& 0xC0000000#32 == 0x80000000#32
/-- IsUncertain, ua/status_code.go:19-21. -/
def isUncertain (c : BitVec 32) : Bool := c &&& 0xC0000000#32 == 0x40000000#32
/-- IsStructureChanged, ua/status_code.go:24-26. -/
def isStructureChanged (c : BitVec 32) : Bool := c &&& 0x8000#32 == 0x8000#32
/-- IsSemanticsChanged, ua/status_code.go:29-31. -/
def isSemanticsChanged (c : BitVec 32) : Bool := c &&& 0x4000#32 == 0x4000#32
/-- IsOverflow, ua/status_code.go:34-36. -/
def isOverflow (c : BitVec 32) : Bool :=
  (c &&& 0x0C00#32 == 0x0400#32) && (c &&& 0x0080#32 == 0x0080#32)

end StatusCode
end Opcua
