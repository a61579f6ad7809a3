import Verif.Model.AddressSpace

/-!
# Roles and permissions

server/roles_provider.go (GetRoles, IsUserPermitted), server/variable_node.go and server/method_node.go
(UserRolePermissions, UserAccessLevel, UserExecutable), server/server_service_set.go: readValue, writeValue,
one item of Call and of CreateMonitoredItems, and HistoryRead.

Simplifications: a certificate is represented by its thumbprint in hexadecimal, the SHA-1 hash is not
computed; an endpoint of a rule is its URL, the only field the code looks at; the attributes other than those
that are guarded are read as themselves; value handlers of the application are left out; whether a written
value suits the variable is left to `Write`; an index range is left to `Range`.
-/

namespace Opcua.Access

open Opcua.AddressSpace (Id)

/-- The identity tokens of ua/identity.go, as the type switch of GetRoles tells them apart. -/
inductive Identity where
  | anonymous
  | userName (name : String)
  | x509 (thumbprint : String)
  | issued
  | other
  deriving DecidableEq, Repr

abbrev criteriaUserName : Nat := 1
abbrev criteriaThumbprint : Nat := 2
abbrev criteriaAnonymous : Nat := 5
abbrev criteriaAuthenticatedUser : Nat := 6

/-- ua.IdentityMappingRuleType. -/
structure Criterion where
  kind : Nat
  text : String := ""
  deriving DecidableEq, Repr

/-- IdentityMappingRule, roles_provider.go:27-39. -/
structure Rule where
  role : Id
  identities : List Criterion := []
  appsExclude : Bool := true
  apps : List String := []
  endpointsExclude : Bool := true
  endpoints : List String := []
  deriving DecidableEq, Repr

/-- The value of `ok` after the search of a list, roles_provider.go:146-152 and 156-162. -/
def listOk (exclude : Bool) (uris : List String) (uri : String) : Bool :=
  match uris.find? (fun u => u == uri) with
  | some _ => !exclude
  | none => exclude

/-- One turn of the inner loop, roles_provider.go:168-204: `none` for the default of the switch, which returns
BadUserAccessDenied. -/
def identityMatches (user : Identity) (c : Criterion) : Option Bool :=
  match user with
  | .anonymous => some (decide (c.kind = criteriaAnonymous))
  | .userName name => some (decide (c.kind = criteriaAuthenticatedUser) || (decide (c.kind = criteriaUserName) && decide (c.text = name)))
  | .x509 thumb => some (decide (c.kind = criteriaAuthenticatedUser) || (decide (c.kind = criteriaThumbprint) && decide (c.text = thumb)))
  | .issued => some (decide (c.kind = criteriaAuthenticatedUser))
  | .other => none

/-- The inner loop; `none` if it returns. -/
def identitiesLoop (user : Identity) (role : Id) : List Criterion → List Id → Option (List Id)
  | [], roles => some roles
  | c :: cs, roles =>
    match identityMatches user c with
    | none => none
    | some true => identitiesLoop user role cs (roles ++ [role])
    | some false => identitiesLoop user role cs roles

/-- The outer loop, roles_provider.go:145-207: a rule that does not allow the application or the endpoint ends
the loop. -/
def rulesLoop (user : Identity) (app endpoint : String) : List Rule → List Id → Option (List Id)
  | [], roles => some roles
  | r :: rs, roles =>
    if !listOk r.appsExclude r.apps app then some roles
    else if !listOk r.endpointsExclude r.endpoints endpoint then some roles
    else
      match identitiesLoop user r.role r.identities roles with
      | none => none
      | some roles' => rulesLoop user app endpoint rs roles'

/-- GetRoles, roles_provider.go:143-212; `none` is BadUserAccessDenied. -/
def getRoles (rules : List Rule) (user : Identity) (app endpoint : String) : Option (List Id) :=
  match rulesLoop user app endpoint rules [] with
  | none => none
  | some roles => if roles.isEmpty then none else some roles

/-- ua.RolePermissionType. -/
structure RolePerm where
  role : Id
  perms : Nat
  deriving DecidableEq, Repr

abbrev permBrowse : Nat := 1
abbrev permReadRolePermissions : Nat := 2
abbrev permWriteHistorizing : Nat := 16
abbrev permRead : Nat := 32
abbrev permWrite : Nat := 64
abbrev permReadHistory : Nat := 128
abbrev permReceiveEvents : Nat := 2048
abbrev permCall : Nat := 4096

/-- What differs between the kinds of nodes. -/
inductive Kind where
  | var (access : Nat) (value : Nat) (historizing : Bool)
  | object (notifier : Nat)
  | objectType
  | method (executable : Bool) (handler : Bool)
  | other
  deriving DecidableEq, Repr

/-- A node with its own role permissions, or those of the server if none. -/
structure Node where
  kind : Kind
  perms : Option (List RolePerm) := none
  deriving DecidableEq, Repr

/-- The part of the server that these functions look at. -/
structure Server where
  rules : List Rule
  perms : List RolePerm
  nodes : Id → Option Node
  hasHistorian : Bool := false

/-- The role permissions in force, e.g. variable_node.go:94-97. -/
def Server.permsOf (s : Server) (n : Node) : List RolePerm := n.perms.getD s.perms

/-- UserRolePermissions, variable_node.go:88-106 and its copies; the roles are asked for without application
and endpoint. -/
def userRolePermissions (s : Server) (user : Identity) (n : Node) : List RolePerm :=
  match getRoles s.rules user "" "" with
  | none => []
  | some roles => roles.flatMap (fun r => (s.permsOf n).filter (fun rp => decide (rp.role = r)))

/-- IsUserPermitted, roles_provider.go:121-128. -/
def isUserPermitted (rps : List RolePerm) (p : Nat) : Bool := rps.any (fun rp => decide (rp.perms &&& p ≠ 0))

/-- `level &^= bit` of a byte. -/
def clear (level bit : Nat) : Nat := level &&& (255 - bit)

/-- Some role has the permission, variable_node.go:171-185 and method_node.go:128-134. -/
def anyRole (s : Server) (n : Node) (roles : List Id) (p : Nat) : Bool :=
  roles.any (fun r => (s.permsOf n).any (fun rp => decide (rp.role = r) && decide (rp.perms &&& p ≠ 0)))

/-- The bits that are cleared, variable_node.go:186-195. -/
def lower (level : Nat) (read write history : Bool) : Nat :=
  let l1 := if !read then clear level 1 else level
  let l2 := if !write then clear l1 2 else l1
  if !history then clear l2 4 else l2

/-- UserAccessLevel, variable_node.go:160-196. -/
def userAccessLevel (s : Server) (user : Identity) (n : Node) (level : Nat) : Nat :=
  match getRoles s.rules user "" "" with
  | none => 0
  | some roles => lower level (anyRole s n roles permRead) (anyRole s n roles permWrite) (anyRole s n roles permReadHistory)

/-- UserExecutable, method_node.go:116-136. -/
def userExecutable (s : Server) (user : Identity) (n : Node) (executable : Bool) : Bool :=
  if !executable then false
  else
    match getRoles s.rules user "" "" with
    | none => false
    | some roles => anyRole s n roles permCall

inductive Status where
  | good | badNodeIDUnknown | badNotReadable | badNotWritable | badUserAccessDenied | badAttributeIDInvalid
  | badNodeClassInvalid | badMethodInvalid | badNotImplemented | badFilterNotAllowed | badTypeMismatch
  | badHistoryOperationUnsupported
  deriving DecidableEq, Repr

abbrev attrEventNotifier : Nat := 12
abbrev attrValue : Nat := 13
abbrev attrHistorizing : Nat := 20
abbrev attrRolePermissions : Nat := 24
abbrev attrUserRolePermissions : Nat := 25

/-- What Read answers for one item. -/
inductive ReadResult where
  | status (st : Status)
  | value (v : Nat)
  | attr (id : Nat)
  | perms (rps : List RolePerm)
  deriving DecidableEq, Repr

/-- Whether a node has one of the attributes not guarded further; server_service_set.go:6100-6229. -/
def hasAttribute (k : Kind) (a : Nat) : Bool :=
  decide (1 ≤ a ∧ a ≤ 5) ||
  (match k with
    | .var _ _ _ => [14, 15, 16, 17, 18, 19, 20].contains a
    | .object _ => decide (a = 12)
    | .objectType => decide (a = 8)
    | .method _ _ => decide (a = 21) || decide (a = 22)
    | .other => false)

/-- readValue without encoding and index range, server_service_set.go:6063-6251. -/
def readValue (s : Server) (user : Identity) (id : Id) (a : Nat) : ReadResult :=
  match s.nodes id with
  | none => .status .badNodeIDUnknown
  | some n =>
    if !isUserPermitted (userRolePermissions s user n) permBrowse then .status .badNodeIDUnknown
    else if a = attrValue then
      match n.kind with
      | .var level v _ =>
        if level &&& 1 = 0 then .status .badNotReadable
        else if userAccessLevel s user n level &&& 1 = 0 then .status .badUserAccessDenied
        else .value v
      | _ => .status .badAttributeIDInvalid
    else if a = attrRolePermissions then
      if !isUserPermitted (userRolePermissions s user n) permReadRolePermissions then .status .badAttributeIDInvalid
      else .perms (n.perms.getD [])
    else if a = attrUserRolePermissions then .perms (userRolePermissions s user n)
    else if hasAttribute n.kind a then .attr a
    else .status .badAttributeIDInvalid

/-- A value to write: a number for the Value attribute, or a Boolean. -/
inductive Written where
  | number (v : Nat)
  | bool (b : Bool)
  deriving DecidableEq, Repr

/-- Replaces a node. -/
def Server.set (s : Server) (id : Id) (n : Node) : Server :=
  { s with nodes := fun i => if i = id then some n else s.nodes i }

/-- The guards of writeValue, server_service_set.go:5569-5594 and 6031-6060, with the check of the value's type
reduced to: the variables hold numbers. -/
def writeValue (s : Server) (user : Identity) (id : Id) (a : Nat) (w : Written) : Server × Status :=
  match s.nodes id with
  | none => (s, .badNodeIDUnknown)
  | some n =>
    if !isUserPermitted (userRolePermissions s user n) permBrowse then (s, .badNodeIDUnknown)
    else if a = attrValue then
      match n.kind with
      | .var level _ h =>
        if level &&& 2 = 0 then (s, .badNotWritable)
        else if userAccessLevel s user n level &&& 2 = 0 then (s, .badUserAccessDenied)
        else
          match w with
          | .number v => (s.set id { n with kind := .var level v h }, .good)
          | .bool _ => (s, .badTypeMismatch)
      | _ => (s, .badAttributeIDInvalid)
    else if a = attrHistorizing then
      match n.kind with
      | .var level v _ =>
        if !isUserPermitted (userRolePermissions s user n) permWriteHistorizing then (s, .badUserAccessDenied)
        else
          match w with
          | .bool b => (s.set id { n with kind := .var level v b }, .good)
          | .number _ => (s, .badTypeMismatch)
      | _ => (s, .badAttributeIDInvalid)
    else (s, .badAttributeIDInvalid)

/-- What a Call does for one item: answers a status, or runs the handler of the method. -/
inductive CallResult where
  | status (st : Status)
  | runs (object method : Id)
  deriving DecidableEq, Repr

/-- The type switch of Call on the object, server_service_set.go:3632-3639. -/
def hasMethods : Kind → Bool
  | .object _ => true
  | .objectType => true
  | _ => false

/-- One item of Call, server_service_set.go:3619-3668. -/
def call (s : Server) (user : Identity) (objectID methodID : Id) : CallResult :=
  match s.nodes objectID with
  | none => .status .badNodeIDUnknown
  | some n1 =>
    if !isUserPermitted (userRolePermissions s user n1) permBrowse then .status .badNodeIDUnknown
    else if !hasMethods n1.kind then .status .badNodeClassInvalid
    else
      match s.nodes methodID with
      | none => .status .badMethodInvalid
      | some n2 =>
        if !isUserPermitted (userRolePermissions s user n2) permBrowse then .status .badMethodInvalid
        else
          match n2.kind with
          | .method executable handler =>
            if !userExecutable s user n2 executable then .status .badUserAccessDenied
            else if handler then .runs objectID methodID
            else .status .badNotImplemented
          | _ => .status .badAttributeIDInvalid

/-- The filter of a monitoring request. -/
inductive Filter where
  | none | dataChange | event
  deriving DecidableEq, Repr

/-- IsAttributeIDValid of the node kinds, e.g. variable_node.go:232-243. -/
def attributeValid (k : Kind) (a : Nat) : Bool :=
  hasAttribute k a || decide (a = 24) || decide (a = 25) ||
  (match k with
    | .var _ _ _ => decide (a = 13)
    | _ => false)

/-- One item of CreateMonitoredItems without index range and deadband, server_service_set.go:3850-3958; `good` if
the item is created. -/
def createItem (s : Server) (user : Identity) (id : Id) (a : Nat) (f : Filter) : Status :=
  match s.nodes id with
  | none => .badNodeIDUnknown
  | some n =>
    if !attributeValid n.kind a then .badAttributeIDInvalid
    else if a = attrValue then
      match n.kind with
      | .var level _ _ =>
        if level &&& 1 = 0 then .badNotReadable
        else if userAccessLevel s user n level &&& 1 = 0 then .badUserAccessDenied
        else if f = .event then .badFilterNotAllowed
        else .good
      | _ => .badAttributeIDInvalid
    else if a = attrEventNotifier then
      match n.kind with
      | .object notifier =>
        if notifier &&& 1 = 0 then .badNotReadable
        else if !isUserPermitted (userRolePermissions s user n) permReceiveEvents then .badUserAccessDenied
        else if f ≠ .event then .badFilterNotAllowed
        else .good
      | _ => .badAttributeIDInvalid
    else if !isUserPermitted (userRolePermissions s user n) permBrowse then .badAttributeIDInvalid
    else if f ≠ .none then .badFilterNotAllowed
    else .good

/-- HistoryRead, server_service_set.go:2524-2600: the historian is asked for all nodes; `none` if it is not asked. -/
def historyRead (s : Server) (_user : Identity) (ids : List Id) : Option (List Id) :=
  if !s.hasHistorian then none else some ids

end Opcua.Access
