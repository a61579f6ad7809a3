import Verif.Model.AddressSpace

/-!
# Browse and TranslateBrowsePathsToNodeIds

server/server_service_set.go:1204-1322 (one item of Browse), 1650-1700 (one item of
TranslateBrowsePathsToNodeIds), 1981-2054 (follow and target).

Simplifications: those of `AddressSpace`; a user may browse a node if the user is in its list (the roles
behind this are in `Access`); a browse name is a number and 0 the empty name, and so is a display name; pages are
in `Paging`.
-/

namespace Opcua.Browse

open Opcua.AddressSpace

abbrev classObject : Nat := 1
abbrev classVariable : Nat := 2
abbrev classReferenceType : Nat := 32

/-- UserRolePermissions and IsUserPermitted for Browse. -/
def mayBrowse (user : Nat) (n : Node) : Bool := n.users.contains user

/-- ua.BrowseDescription. Directions: 0 forward, 1 inverse, 2 both. -/
structure Description where
  node : Id
  direction : Nat := 0
  refType : Option Id := none
  subtypes : Bool := false
  classMask : Nat := 0
  resultMask : Nat := 63
  deriving DecidableEq, Repr

/-- ua.ReferenceDescription. -/
structure Described where
  refType : Option Id
  forward : Bool
  target : Id
  cls : Nat
  name : Nat
  display : Nat
  typeDef : Option Id
  deriving DecidableEq, Repr

inductive Result where
  | good (refs : List Described)
  | badBrowseDirectionInvalid
  | badNodeIDUnknown
  | badReferenceTypeIDInvalid
  deriving DecidableEq, Repr

/-- The masked description of a reference and its target, server_service_set.go:1259-1301. -/
def describe (mask : Nat) (r : Ref) (t : Node) : Described where
  refType := if mask &&& 1 ≠ 0 then some r.type else none
  forward := if mask &&& 2 ≠ 0 then !r.inverse else false
  target := r.target
  cls := if mask &&& 4 ≠ 0 then t.cls else 0
  name := if mask &&& 8 ≠ 0 then t.name else 0
  display := if mask &&& 16 ≠ 0 then t.display else 0
  typeDef :=
    if mask &&& 32 ≠ 0 then
      if t.cls = classObject ∨ t.cls = classVariable then
        (t.refs.find? (fun tr => decide (tr.type = hasTypeDefinition))).map (·.target)
      else none
    else none

/-- The reference type is nil, equal or, if asked for, a supertype, server_service_set.go:1243 and 2037. -/
def coversType (s : Space) (want : Option Id) (sub : Bool) (ty : Id) : Bool :=
  match want with
  | none => true
  | some t => decide (t = ty) || (sub && isSubtype s ty t)

/-- The reference type is nil or a node of class ReferenceType, server_service_set.go:1234-1246. -/
def typeKnown (s : Space) (want : Option Id) : Bool :=
  match want with
  | none => true
  | some t =>
    match s t with
    | none => false
    | some rt => decide (rt.cls = classReferenceType)

/-- Direction and type of a reference, server_service_set.go:1240-1245. -/
def picks (s : Space) (d : Description) (r : Ref) : Bool :=
  (decide (d.direction = 2) || r.inverse == decide (d.direction = 1)) &&
  coversType s d.refType d.subtypes r.type

/-- The loop over the references, server_service_set.go:1239-1302; `none`: a target is not in the table. -/
def browseLoop (s : Space) (user : Nat) (d : Description) : List Ref → List Described → Option (List Described)
  | [], out => some out
  | r :: refs, out =>
    if !picks s d r then browseLoop s user d refs out
    else
      match s r.target with
      | none => none
      | some t =>
        if !mayBrowse user t then browseLoop s user d refs out
        else if !(decide (d.classMask = 0) || decide (d.classMask &&& t.cls ≠ 0)) then browseLoop s user d refs out
        else browseLoop s user d refs (out ++ [describe d.resultMask r t])

/-- One item of Browse, without pages. -/
def browse (s : Space) (user : Nat) (d : Description) : Result :=
  if d.direction > 2 then .badBrowseDirectionInvalid
  else
    match s d.node with
    | none => .badNodeIDUnknown
    | some n =>
      if !mayBrowse user n then .badNodeIDUnknown
      else if !typeKnown s d.refType then .badReferenceTypeIDInvalid
      else
        match browseLoop s user d n.refs [] with
        | none => .badNodeIDUnknown
        | some out => .good out

/-! ## Paths -/

/-- ua.RelativePathElement. -/
structure Step where
  refType : Option Id := none
  inverse : Bool := false
  subtypes : Bool := false
  name : Nat
  deriving DecidableEq, Repr

inductive PathStatus where
  | good | badNothingToDo | badBrowseNameInvalid | badNodeIDUnknown | badNoMatch
  deriving DecidableEq, Repr

/-- A target and its RemainingPathIndex, `none` for math.MaxUint32. -/
abbrev Target := Id × Option Nat

/-- The condition in target, server_service_set.go:2034-2048. -/
def stepMatches (s : Space) (e : Step) (r : Ref) : Bool :=
  r.inverse == e.inverse &&
  coversType s e.refType e.subtypes r.type &&
  (match s r.target with
    | none => false
    | some n => decide (e.name = n.name))

/-- target, server_service_set.go:2022-2054. -/
def target (s : Space) (id : Id) (e : Step) : Except PathStatus (List Id) :=
  match s id with
  | none => .error .badNodeIDUnknown
  | some n =>
    let ts := (n.refs.filter (stepMatches s e)).map (·.target)
    if ts.isEmpty then .error .badNoMatch else .ok ts

/-- follow, server_service_set.go:1981-2019. -/
def follow (s : Space) : Id → List Step → Except PathStatus (List Target)
  | _, [] => .error .badNothingToDo
  | id, [e] =>
    match target s id e with
    | .error st => .error st
    | .ok ts => .ok (ts.map (fun t => (t, none)))
  | id, e :: e' :: es =>
    match target s id e with
    | .error st => .error st
    | .ok [] => .ok [(⟨0, 0⟩, some (e' :: es).length)]
    | .ok (next :: _) =>
      match s next with
      | some _ => follow s next (e' :: es)
      | none => .ok [(next, some (e' :: es).length)]

/-- One item of TranslateBrowsePathsToNodeIds, server_service_set.go:1654-1697. -/
def translate (s : Space) (id : Id) (path : List Step) : PathStatus × List Target :=
  if path.isEmpty then (.badNothingToDo, [])
  else if path.any (fun e => decide (e.name = 0)) then (.badBrowseNameInvalid, [])
  else
    match follow s id path with
    | .error st => (st, [])
    | .ok ts => if ts.isEmpty then (.badNoMatch, ts) else (.good, ts)

end Opcua.Browse
