/-!
# Attributes

server/server_service_set.go:6062-6251 (readValue), the node files server/object_node.go, variable_node.go,
method_node.go, object_type_node.go, variable_type_node.go, reference_type_node.go, data_type_node.go, view_node.go
(the getters and IsAttributeIDValid), ua/attributeids.go.

Simplifications: what a user is allowed is given by three functions (IsUserPermitted of Model/Access.lean, and the
user versions of the access level and of Executable, which are proved right there); node ids, names, texts, role
permissions and definitions are numbers or lists of numbers; the value of a variable, whether stored or of a handler, is
what reading it with an index range gives (Model/Range.lean). The timestamps are left out.
-/

namespace Opcua.Attributes

/-- What an attribute is read as, by Go type. -/
inductive Val where
  | nodeId (n : Nat)
  | int32 (n : Int)
  | qualifiedName (n : Nat)
  | localizedText (n : Nat)
  | bool (b : Bool)
  | byte (n : Nat)
  | uint32s (l : List Nat)
  | double (x : Rat)
  | structures (l : List Nat)
  | definition (n : Nat)
  /-- what the variable holds -/
  | value (n : Nat)
  deriving DecidableEq, Repr

inductive Status where
  | badUserAccessDenied | badDataEncodingInvalid | badIndexRangeNoData | badNodeIDUnknown | badNotReadable
  | badAttributeIDInvalid
  /-- a status that comes with the value -/
  | ofValue (code : Nat)
  deriving DecidableEq, Repr

inductive Result where
  | bad (s : Status)
  | good (v : Val)
  deriving DecidableEq, Repr

/-- The node types, with the fields that only they have. -/
inductive Body where
  | object (eventNotifier : Nat)
  | variable_ (dataType : Nat) (rank : Int) (dims : List Nat) (level : Nat) (interval : Rat) (historizing : Bool)
  | method (executable : Bool)
  | objectType (isAbstract : Bool)
  | variableType (value : Option Nat) (dataType : Nat) (rank : Int) (dims : List Nat) (isAbstract : Bool)
  | referenceType (isAbstract symmetric : Bool) (inverseName : Nat)
  | dataType (isAbstract : Bool) (definition : Option Nat)
  | view (containsNoLoops : Bool) (eventNotifier : Nat)
  deriving DecidableEq, Repr

/-- The fields of every node. `rolePermissions` is a slice that may be nil. -/
structure Node where
  id : Nat
  browseName : Nat
  displayName : Nat
  description : Nat
  rolePermissions : Option (List Nat)
  body : Body
  deriving DecidableEq, Repr

/-- The node class every constructor sets, for example object_node.go:34. -/
def Body.nodeClass : Body → Int
  | .object _ => 1
  | .variable_ _ _ _ _ _ _ => 2
  | .method _ => 4
  | .objectType _ => 8
  | .variableType _ _ _ _ _ => 16
  | .referenceType _ _ _ => 32
  | .dataType _ _ => 64
  | .view _ _ => 128

/-- What a user is allowed on a node: IsUserPermitted, UserAccessLevel, UserExecutable, UserRolePermissions. -/
structure User where
  permitted : Nat → Bool
  level : Nat → Nat
  executable : Bool → Bool
  roles : Option (List Nat) → List Nat

/-- What is asked: the attribute, the index range, the name of the data encoding. -/
structure Req where
  attr : Nat
  range : String := ""
  encoding : String := ""
  deriving DecidableEq, Repr

abbrev permBrowse : Nat := 1
abbrev permReadRolePermissions : Nat := 2

/-- server_service_set.go:6083-6249, the switch over the attribute. `value` is the value of the variable under a
range. -/
def readAttr (u : User) (n : Node) (value : String → Result) (range : String) (a : Nat) : Result :=
  if a = 13 then
    match n.body with
    | .variable_ _ _ _ level _ _ =>
      if level &&& 1 = 0 then .bad .badNotReadable
      else if u.level level &&& 1 = 0 then .bad .badUserAccessDenied
      else value range
    | _ => .bad .badAttributeIDInvalid
  else if a = 1 then .good (.nodeId n.id)
  else if a = 2 then .good (.int32 n.body.nodeClass)
  else if a = 3 then .good (.qualifiedName n.browseName)
  else if a = 4 then .good (.localizedText n.displayName)
  else if a = 5 then .good (.localizedText n.description)
  else if a = 8 then
    match n.body with
    | .dataType b _ => .good (.bool b)
    | .objectType b => .good (.bool b)
    | .referenceType b _ _ => .good (.bool b)
    | .variableType _ _ _ _ b => .good (.bool b)
    | _ => .bad .badAttributeIDInvalid
  else if a = 9 then
    match n.body with
    | .referenceType _ b _ => .good (.bool b)
    | _ => .bad .badAttributeIDInvalid
  else if a = 10 then
    match n.body with
    | .referenceType _ _ t => .good (.localizedText t)
    | _ => .bad .badAttributeIDInvalid
  else if a = 11 then
    match n.body with
    | .view b _ => .good (.bool b)
    | _ => .bad .badAttributeIDInvalid
  else if a = 12 then
    match n.body with
    | .object e => .good (.byte e)
    | .view _ e => .good (.byte e)
    | _ => .bad .badAttributeIDInvalid
  else if a = 14 then
    match n.body with
    | .variable_ d _ _ _ _ _ => .good (.nodeId d)
    | .variableType _ d _ _ _ => .good (.nodeId d)
    | _ => .bad .badAttributeIDInvalid
  else if a = 15 then
    match n.body with
    | .variable_ _ r _ _ _ _ => .good (.int32 r)
    | .variableType _ _ r _ _ => .good (.int32 r)
    | _ => .bad .badAttributeIDInvalid
  else if a = 16 then
    match n.body with
    | .variable_ _ _ l _ _ _ => .good (.uint32s l)
    | .variableType _ _ _ l _ => .good (.uint32s l)
    | _ => .bad .badAttributeIDInvalid
  else if a = 17 then
    match n.body with
    | .variable_ _ _ _ level _ _ => .good (.byte level)
    | _ => .bad .badAttributeIDInvalid
  else if a = 18 then
    match n.body with
    | .variable_ _ _ _ level _ _ => .good (.byte (u.level level))
    | _ => .bad .badAttributeIDInvalid
  else if a = 19 then
    match n.body with
    | .variable_ _ _ _ _ i _ => .good (.double i)
    | _ => .bad .badAttributeIDInvalid
  else if a = 20 then
    match n.body with
    | .variable_ _ _ _ _ _ h => .good (.bool h)
    | _ => .bad .badAttributeIDInvalid
  else if a = 21 then
    match n.body with
    | .method e => .good (.bool e)
    | _ => .bad .badAttributeIDInvalid
  else if a = 22 then
    match n.body with
    | .method e => .good (.bool (u.executable e))
    | _ => .bad .badAttributeIDInvalid
  else if a = 23 then
    match n.body with
    | .dataType _ (some d) => .good (.definition d)
    | _ => .bad .badAttributeIDInvalid
  else if a = 24 then
    if u.permitted permReadRolePermissions then .good (.structures (n.rolePermissions.getD []))
    else .bad .badAttributeIDInvalid
  else if a = 25 then .good (.structures (u.roles n.rolePermissions))
  else .bad .badAttributeIDInvalid

/-- readValue, server_service_set.go:6063-6251; `session` is whether there is one, `find` is FindNode. -/
def readValue (session : Bool) (u : User) (node : Option Node) (value : String → Result) (r : Req) : Result :=
  if session = false then .bad .badUserAccessDenied
  else if r.encoding ≠ "" then .bad .badDataEncodingInvalid
  else if r.range ≠ "" ∧ r.attr ≠ 13 then .bad .badIndexRangeNoData
  else match node with
    | none => .bad .badNodeIDUnknown
    | some n =>
      if u.permitted permBrowse = false then .bad .badNodeIDUnknown
      else readAttr u n value r.range r.attr

/-- IsAttributeIDValid of the eight node types, object_node.go:142-151, variable_node.go:232-243,
method_node.go:146-155, object_type_node.go:115-124, variable_type_node.go:139-149, reference_type_node.go:127-137,
data_type_node.go:122-131, view_node.go:118-127: what can be monitored. -/
def Body.attributeValid (a : Nat) : Body → Bool
  | .object _ => a ∈ [1, 2, 3, 4, 5, 24, 25, 12]
  | .variable_ _ _ _ _ _ _ => a ∈ [1, 2, 3, 4, 5, 24, 25, 13, 14, 15, 16, 17, 18, 19, 20]
  | .method _ => a ∈ [1, 2, 3, 4, 5, 24, 25, 21, 22]
  | .objectType _ => a ∈ [1, 2, 3, 4, 5, 24, 25, 8]
  | .variableType _ _ _ _ _ => a ∈ [1, 2, 3, 4, 5, 24, 25, 8, 14, 15, 16]
  | .referenceType _ _ _ => a ∈ [1, 2, 3, 4, 5, 24, 25, 8, 9, 10]
  | .dataType _ _ => a ∈ [1, 2, 3, 4, 5, 24, 25, 8, 23]
  | .view _ _ => a ∈ [1, 2, 3, 4, 5, 24, 25, 11, 12]

end Opcua.Attributes
