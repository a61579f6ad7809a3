import Verif.Model.Text

/-! Loading a UANodeSet file, server/namespace_manager.go:643-1379 and ua/ua_node_set.go.

`xml.Unmarshal` is outside the model: a `File` is the decoded structure. Go strings are byte
lists. Attributes that are copied unchanged (abstract, symmetric, event notifier, historizing,
minimum sampling interval) are left out. -/
namespace Opcua.NodeSet

/-! ## The file, ua/ua_node_set.go -/

/-- UAReference, ua/ua_node_set.go:65-69; `target` is the raw inner XML. -/
structure FileRef where
  type : Bytes
  isForward : Bytes
  target : Bytes
deriving Repr, DecidableEq

/-- UALocalizedText, ua/ua_node_set.go:196-200: the child elements Text and Locale, and the raw
inner XML of the element. -/
structure FileText where
  text : Bytes
  locale : Bytes
  content : Bytes
deriving Repr, DecidableEq

/-- The element name of a node, namespace_manager.go:684-786. `other` is any further element
of the file that `xml:",any"` (ua/ua_node_set.go:15) collects. -/
inductive Kind where
  | objectType | variableType | dataType | referenceType | object | variable_ | method | view
  | other
deriving Repr, DecidableEq

/-- The built-in types whose XML value is decoded by `xml.Unmarshal` itself and copied. The
payload is opaque to the loader and is a number in the model. -/
inductive Plain where
  | boolean | sbyte | byte | int16 | uint16 | int32 | uint32 | int64 | uint64 | float | double
  | string | dateTime | byteString | xmlElement
deriving Repr, DecidableEq

/-- UAArgument, ua/ua_node_set.go:218-224, without the description and the dimensions. -/
structure FileArg where
  name : Bytes
  dataType : Bytes
deriving Repr, DecidableEq

/-- UAExtensionObject, ua/ua_node_set.go:248-254: the bodies that are recognised, nil for a
body of another type. The payloads of EUInformation, Range and EnumValueType are copied field
by field and are numbers in the model. -/
structure Ext where
  argument : Option FileArg
  euInformation : Option Int
  range : Option Int
  enumValue : Option Int
deriving Repr, DecidableEq

/-- The child element of `<Value>`, UAVariant, ua/ua_node_set.go:272-318. A value has one child
in every file that follows the schema, so the struct of pointers is a sum. `list` and the
constructors after it are the ListOf... elements; ListOfVariant is left out. -/
inductive Elem where
  | plain (k : Plain) (v : Int)
  | guid (text : Bytes)
  | nodeId (text : Bytes)
  | expandedNodeId (text : Bytes)
  | qualifiedName (ns : BitVec 16) (name : Bytes)
  | localizedText (text locale : Bytes)
  | extension (o : Ext)
  | list (k : Plain) (vs : List Int)
  | guids (texts : List Bytes)
  | localizedTexts (ts : List (Bytes × Bytes))
  | qualifiedNames (qs : List (BitVec 16 × Bytes))
  | extensions (os : List Ext)
deriving Repr, DecidableEq

/-- UANode, ua/ua_node_set.go:21-57. -/
structure FileNode where
  kind : Kind
  nodeId : Bytes
  browseName : Bytes
  displayName : FileText
  refs : List FileRef
  dataType : Bytes
  rank : Int
  value : Option Elem
deriving Repr, DecidableEq

/-- UANodeSet, ua/ua_node_set.go:9-18. -/
structure File where
  uris : List Bytes
  aliases : List (Bytes × Bytes)
  nodes : List FileNode
deriving Repr, DecidableEq

/-! ## What the server holds -/

/-- ua.Reference with a local target. -/
structure Ref where
  type : Option NodeID
  isInverse : Bool
  target : Option NodeID
deriving Repr, DecidableEq

/-- A ua.Argument. -/
structure Arg where
  name : Bytes
  dataType : Option NodeID
deriving Repr, DecidableEq

/-- The value of a variable. -/
inductive Val where
  | null
  | plain (k : Plain) (v : Int)
  | guid (g : Guid)
  | nodeId (n : Option NodeID)
  | expandedNodeId (n : ExpandedNodeID)
  | qualifiedName (q : QualifiedName)
  | localizedText (text locale : Bytes)
  | range (v : Int)
  | euInformation (v : Int)
  | list (k : Plain) (vs : List Int)
  | guids (gs : List Guid)
  | localizedTexts (ts : List (Bytes × Bytes))
  | qualifiedNames (qs : List QualifiedName)
  | arguments (as : List Arg)
  | enumValues (vs : List Int)
deriving Repr, DecidableEq

/-- A node of the server. -/
structure Node where
  id : Option NodeID
  kind : Kind
  browseName : QualifiedName
  displayName : Bytes × Bytes
  refs : List Ref
  dataType : Option NodeID
  value : Val
deriving Repr, DecidableEq

/-- The map m.nodes, namespace_manager.go:29. The key is an interface and may be nil. -/
abbrev Space := Option NodeID → Option Node

/-! ## Namespaces -/

/-- "http://opcfoundation.org/UA/", namespace_manager.go:38. -/
abbrev uaUri : Bytes :=
  [104, 116, 116, 112, 58, 47, 47, 111, 112, 99, 102, 111, 117, 110, 100, 97, 116, 105, 111, 110,
   46, 111, 114, 103, 47, 85, 65, 47]

/-- Add, namespace_manager.go:46-56. -/
def addUri (table : List Bytes) (u : Bytes) : List Bytes × Nat :=
  match uriIndex u table 0 with
  | some i => (table, i % 65536)
  | none => (table ++ [u], table.length % 65536)

/-- nsMap, a `map[uint16]uint16`. -/
abbrev NsMap := Nat → Option Nat

/-- The body of the loop of namespace_manager.go:666-675 for the URI at position `i`. `ns1` is
the table as it was before the loop (line 664). -/
def mapUri (ns1 : List Bytes) (table : List Bytes) (m : NsMap) (i : Nat) (u : Bytes) :
    List Bytes × NsMap :=
  match uriIndex u ns1 0 with
  | some k => (table, fun x => if x = (i + 1) % 65536 then some (k % 65536) else m x)
  | none =>
    let (table', j) := addUri table u
    (table', fun x => if x = (i + 1) % 65536 then some j else m x)

/-- The loop of namespace_manager.go:666-675. -/
def mapUris (ns1 : List Bytes) : Nat → List Bytes → List Bytes → NsMap → List Bytes × NsMap
  | _, [], table, m => (table, m)
  | i, u :: us, table, m =>
    let (table', m') := mapUri ns1 table m i u
    mapUris ns1 (i + 1) us table' m'

/-- namespace_manager.go:663-675: the table of the server afterwards and the map. -/
def namespaces (table : List Bytes) (uris : List Bytes) : List Bytes × NsMap :=
  mapUris table 0 uris table (fun _ => none)

/-- Reading `nsMap[ns]` with the fallback to `ns`, namespace_manager.go:811-813, 881-883. -/
def translate (m : NsMap) (ns : Nat) : Nat := (m ns).getD ns

/-! ## Identifiers and names -/

/-- The map of namespace_manager.go:677-680, read as in lines 799-801: a later alias replaces an
earlier one of the same name. -/
def resolve (aliases : List (Bytes × Bytes)) (s : Bytes) : Bytes :=
  match aliases.reverse.find? (fun a => decide (a.1 = s)) with
  | some a => a.2
  | none => s

/-- The switch of toNodeID, namespace_manager.go:815-835. -/
def loadIdent (ns : Nat) (s : Bytes) : Option NodeID :=
  match stripPrefix [105, 61] s with
  | some t =>
    match parseUint 4294967295 t with
    | .ok id => some (.numeric (BitVec.ofNat 16 ns) (BitVec.ofNat 32 id))
    | _ => none
  | none =>
    match stripPrefix [115, 61] s with
    | some t => some (.string (BitVec.ofNat 16 ns) t)
    | none =>
      match stripPrefix [103, 61] s with
      | some t => (parseGuid t).map (.guid (BitVec.ofNat 16 ns))
      | none =>
        match stripPrefix [98, 61] s with
        | some t => (b64dec t).map (.opq (BitVec.ofNat 16 ns))
        | none => none

/-- namespace_manager.go:808-810: an index that does not parse is left at 0. -/
def indexOrZero (s : Bytes) : Nat :=
  match parseUint 65535 s with
  | .ok ns => ns
  | _ => 0

/-- toNodeID, namespace_manager.go:798-836, after the alias is replaced. -/
def loadText (m : NsMap) (s : Bytes) : Option NodeID :=
  match stripPrefix [110, 115, 61] s with
  | some _ =>
    match cut 59 s with
    | none => none
    | some (pre, rest) => loadIdent (translate m (indexOrZero (pre.drop 3))) rest
  | none => loadIdent 0 s

/-- toNodeID, namespace_manager.go:798-836. -/
def loadNodeID (aliases : List (Bytes × Bytes)) (m : NsMap) (s : Bytes) : Option NodeID :=
  loadText m (resolve aliases s)

/-- toBrowseName, namespace_manager.go:870-885. -/
def loadBrowseName (m : NsMap) (s : Bytes) : QualifiedName :=
  match cut 58 s with
  | none => ⟨0, s⟩
  | some (pre, rest) =>
    match parseUint 65535 pre with
    | .ok ns => ⟨BitVec.ofNat 16 (translate m ns), rest⟩
    | .syntaxErr => ⟨0, s⟩
    | .rangeErr => ⟨65535, s⟩

/-- toRefs, namespace_manager.go:855-868. -/
def loadRef (aliases : List (Bytes × Bytes)) (m : NsMap) (r : FileRef) : Ref where
  type := loadNodeID aliases m r.type
  isInverse := decide (r.isForward = [102, 97, 108, 115, 101])
  target := loadNodeID aliases m r.target

/-- toLocalizedText, namespace_manager.go:887-892. -/
def loadText' (t : FileText) : Bytes × Bytes :=
  if t.text.length > 0 then (t.text, t.locale) else (t.content, [])

/-! ## Types -/

abbrev hasSubtype : NodeID := .numeric 0 45
abbrev enumeration : NodeID := .numeric 0 29

/-- The target of the first inverse HasSubtype reference, namespace_manager.go:158-162. -/
def superType (s : Space) (id : Option NodeID) : Option (Option NodeID) :=
  match s id with
  | none => none
  | some n => (n.refs.find? (fun r => r.isInverse && decide (r.type = some hasSubtype))).map (·.target)

/-- IsSubtype, namespace_manager.go:146-169. -/
def isSubtypeLoop (s : Space) (sup : NodeID) : Nat → Option NodeID → Bool
  | 0, _ => false
  | n + 1, id =>
    match superType s id with
    | none => false
    | some t => if t = some sup then true else isSubtypeLoop s sup n t

def isSubtype (s : Space) (id : Option NodeID) (sup : NodeID) : Bool := isSubtypeLoop s sup 101 id

/-! ## Values -/

/-- The bytes strings.TrimSpace removes; the Unicode spaces are left out. -/
def isSpace (c : UInt8) : Bool := decide (c = 32 ∨ (9 ≤ c.toNat ∧ c.toNat ≤ 13))

/-- strings.TrimSpace. -/
def trim (s : Bytes) : Bytes := ((s.dropWhile isSpace).reverse.dropWhile isSpace).reverse

/-- A value, or a panic. -/
inductive Outcome (α : Type) where
  | ok (v : α)
  | crash
deriving Repr, DecidableEq

/-- The built-in type a standard data type asks for, from the cases of
namespace_manager.go:936-1019 (rank -1) and 1147-1255 (rank 1). Duration (290) is a
Double. -/
def plainOf : NodeID → Option Plain
  | .numeric 0 1 => some .boolean
  | .numeric 0 2 => some .sbyte
  | .numeric 0 3 => some .byte
  | .numeric 0 4 => some .int16
  | .numeric 0 5 => some .uint16
  | .numeric 0 6 => some .int32
  | .numeric 0 7 => some .uint32
  | .numeric 0 8 => some .int64
  | .numeric 0 9 => some .uint64
  | .numeric 0 10 => some .float
  | .numeric 0 11 => some .double
  | .numeric 0 12 => some .string
  | .numeric 0 13 => some .dateTime
  | .numeric 0 15 => some .byteString
  | .numeric 0 16 => some .xmlElement
  | .numeric 0 290 => some .double
  | _ => none

/-- The cases of Integer (27), UInteger (28), Number (26), namespace_manager.go:1030-1074. -/
def isInteger (k : Plain) : Bool := decide (k ∈ [Plain.sbyte, .int16, .int32, .int64])
def isUInteger (k : Plain) : Bool := decide (k ∈ [Plain.byte, .uint16, .uint32, .uint64])
def isNumber (k : Plain) : Bool := isInteger k || isUInteger k || decide (k ∈ [Plain.float, .double])

/-- The case BaseDataType (24) of a scalar, namespace_manager.go:1075-1121. -/
def anyScalar : Option Elem → Val
  | some (.plain k v) => .plain k v
  | some (.guid t) => match parseGuid t with | some g => .guid g | none => .null
  | some (.nodeId t) => .nodeId (parseNodeID (trim t))
  | some (.expandedNodeId t) => .expandedNodeId (parseExpanded (trim t))
  | some (.qualifiedName ns n) => .qualifiedName ⟨ns, trim n⟩
  | some (.localizedText t l) => .localizedText (trim t) (trim l)
  | _ => .null

/-- The default case of a scalar, namespace_manager.go:1137-1144: `isEnum` is
`m.IsSubtype(toNodeID(dataType), Enumeration)`. -/
def otherScalar (isEnum : Bool) : Option Elem → Val
  | some (.plain .int32 v) => if isEnum then .plain .int32 v else .null
  | _ => .null

/-- The case rank -1 of toDataValue, namespace_manager.go:935-1145. An Int32 variable without a
value gets 0 (line 956). A Range or EUInformation variable whose extension object has another
body dereferences nil. -/
def loadScalar (dt : Option NodeID) (isEnum : Bool) (e : Option Elem) : Outcome Val :=
  match dt.bind plainOf with
  | some k =>
    match e with
    | some (.plain k' v) => if k' = k then .ok (.plain k v)
        else .ok (if k = .int32 then .plain .int32 0 else .null)
    | _ => .ok (if k = .int32 then .plain .int32 0 else .null)
  | none =>
    match dt with
    | some (.numeric 0 14) =>
      match e with
      | some (.guid t) => match parseGuid t with | some g => .ok (.guid g) | none => .ok .null
      | _ => .ok .null
    | some (.numeric 0 21) =>
      match e with
      | some (.localizedText t l) => .ok (.localizedText (trim t) (trim l))
      | _ => .ok .null
    | some (.numeric 0 20) =>
      match e with
      | some (.qualifiedName ns n) => .ok (.qualifiedName ⟨ns, trim n⟩)
      | _ => .ok .null
    | some (.numeric 0 17) =>
      match e with
      | some (.nodeId t) => .ok (.nodeId (parseNodeID (trim t)))
      | _ => .ok .null
    | some (.numeric 0 18) =>
      match e with
      | some (.expandedNodeId t) => .ok (.expandedNodeId (parseExpanded (trim t)))
      | _ => .ok .null
    | some (.numeric 0 27) =>
      match e with
      | some (.plain k v) => .ok (if isInteger k then .plain k v else .null)
      | _ => .ok .null
    | some (.numeric 0 28) =>
      match e with
      | some (.plain k v) => .ok (if isUInteger k then .plain k v else .null)
      | _ => .ok .null
    | some (.numeric 0 26) =>
      match e with
      | some (.plain k v) => .ok (if isNumber k then .plain k v else .null)
      | _ => .ok .null
    | some (.numeric 0 24) => .ok (anyScalar e)
    | some (.numeric 0 884) =>
      match e with
      | some (.extension o) => match o.range with | some v => .ok (.range v) | none => .crash
      | _ => .ok .null
    | some (.numeric 0 887) =>
      match e with
      | some (.extension o) => match o.euInformation with | some v => .ok (.euInformation v) | none => .crash
      | _ => .ok .null
    | _ => .ok (otherScalar isEnum e)

/-- All of a list, or nothing. -/
def allSome {α β : Type} (f : α → Option β) : List α → Option (List β)
  | [] => some []
  | x :: xs => match f x with
    | none => none
    | some y => match allSome f xs with
      | none => none
      | some ys => some (y :: ys)

/-- namespace_manager.go:1345-1352; the description, rank and dimensions are left out. -/
def loadArg (aliases : List (Bytes × Bytes)) (m : NsMap) (a : FileArg) : Arg :=
  ⟨a.name, loadNodeID aliases m a.dataType⟩

/-- The case rank 1 of toDataValue, namespace_manager.go:1146-1373. The argument of an extension
object with another body is nil and is dereferenced. BaseDataType (ListOfVariant) is left out
and is null here. -/
def loadList (aliases : List (Bytes × Bytes)) (m : NsMap) (dt : Option NodeID) (e : Option Elem) :
    Outcome Val :=
  match dt.bind plainOf with
  | some k =>
    match e with
    | some (.list k' vs) => .ok (if k' = k then .list k vs else .null)
    | _ => .ok .null
  | none =>
    match dt with
    | some (.numeric 0 14) =>
      match e with
      | some (.guids ts) => match allSome parseGuid ts with | some gs => .ok (.guids gs) | none => .ok .null
      | _ => .ok .null
    | some (.numeric 0 21) =>
      match e with
      | some (.localizedTexts ts) => .ok (.localizedTexts (ts.map (fun t => (trim t.1, trim t.2))))
      | _ => .ok .null
    | some (.numeric 0 20) =>
      match e with
      | some (.qualifiedNames qs) => .ok (.qualifiedNames (qs.map (fun q => ⟨q.1, trim q.2⟩)))
      | _ => .ok .null
    | some (.numeric 0 296) =>
      match e with
      | some (.extensions os) =>
        match allSome (·.argument) os with
        | some as => .ok (.arguments (as.map (loadArg aliases m)))
        | none => .crash
      | _ => .ok .null
    | some (.numeric 0 7594) =>
      match e with
      | some (.extensions os) =>
        match allSome (·.enumValue) os with
        | some vs => .ok (.enumValues vs)
        | none => .crash
      | _ => .ok .null
    | _ => .ok .null

/-- toDataValue, namespace_manager.go:928-1379. The switch reads the data type with
ua.ParseNodeID, that is without translating the namespace; `s` is the address space before the
file is loaded. -/
def loadValue (s : Space) (aliases : List (Bytes × Bytes)) (m : NsMap) (n : FileNode) : Outcome Val :=
  let dt := resolve aliases n.dataType
  if n.rank = -1 then
    loadScalar (parseNodeID dt) (isSubtype s (loadNodeID aliases m dt) enumeration) n.value
  else if n.rank = 1 then loadList aliases m (parseNodeID dt) n.value
  else .ok .null

/-- The kinds that carry a value, namespace_manager.go:705, 757. -/
def hasValue (k : Kind) : Bool := decide (k = .variable_ ∨ k = .variableType)

/-- One turn of the loop of namespace_manager.go:683-787. An element of another name leaves a
nil node, which addNodes dereferences (line 349). -/
def loadNode (s : Space) (aliases : List (Bytes × Bytes)) (m : NsMap) (n : FileNode) : Outcome Node :=
  if n.kind = .other then .crash else
  match (if hasValue n.kind then loadValue s aliases m n else .ok .null) with
  | .crash => .crash
  | .ok v => .ok {
      id := loadNodeID aliases m n.nodeId
      kind := n.kind
      browseName := loadBrowseName m n.browseName
      displayName := loadText' n.displayName
      refs := n.refs.map (loadRef aliases m)
      dataType := if hasValue n.kind then loadNodeID aliases m n.dataType else none
      value := v }

/-- The loop of namespace_manager.go:682-787. -/
def loadNodes (s : Space) (aliases : List (Bytes × Bytes)) (m : NsMap) :
    List FileNode → Outcome (List Node)
  | [] => .ok []
  | n :: ns =>
    match loadNode s aliases m n with
    | .crash => .crash
    | .ok x =>
      match loadNodes s aliases m ns with
      | .crash => .crash
      | .ok xs => .ok (x :: xs)

/-- The first loop of addNodes, namespace_manager.go:348-350. The back references that the second
loop adds are the subject of Model/AddressSpace.lean and are left out here. -/
def store (s : Space) (nodes : List Node) : Space :=
  nodes.foldl (fun s n => fun id => if id = n.id then some n else s id) s

/-- The server: its namespace table and its nodes. -/
structure Server where
  table : List Bytes
  space : Space

/-- LoadNodeSetFromBuffer, namespace_manager.go:654-796. It reports no error once the XML is
decoded: addNodes always returns nil. -/
def load (sv : Server) (f : File) : Outcome Server :=
  let (table, m) := namespaces sv.table f.uris
  match loadNodes sv.space f.aliases m f.nodes with
  | .crash => .crash
  | .ok nodes => .ok ⟨table, store sv.space nodes⟩

end Opcua.NodeSet
