/-!
# The address space

server/namespace_manager.go: the table of namespaces, nodes and their references.

Simplifications: a node id is a namespace index and a number, whatever its kind; targets of references
carry no namespace URI, so `ua.ToNodeID` is the identity; nodes are found by id and not by pointer. A
loop that may run for ever takes a number of rounds and gives `none` if it has not ended by then.
-/

namespace Opcua.AddressSpace

/-- ua.NodeID. -/
structure Id where
  ns : Nat
  n : Nat
  deriving DecidableEq, Repr

/-- ua.Reference. -/
structure Ref where
  type : Id
  inverse : Bool
  target : Id
  deriving DecidableEq, Repr

/-- A node: its references, node class and browse name, and the users who may browse it. -/
structure Node where
  refs : List Ref
  cls : Nat := 1
  name : Nat := 0
  users : List Nat := []
  display : Nat := 0
  deriving DecidableEq, Repr

/-- `m.nodes`, namespace_manager.go:30. -/
abbrev Space := Id → Option Node

def put (s : Space) (id : Id) (n : Option Node) : Space := fun x => if x = id then n else s x

/-! ## Well-known ids (ua/nodeids.generated.go) -/

abbrev organizes : Id := ⟨0, 35⟩
abbrev hasModellingRule : Id := ⟨0, 37⟩
abbrev hasTypeDefinition : Id := ⟨0, 40⟩
abbrev hasSubtype : Id := ⟨0, 45⟩
abbrev hasProperty : Id := ⟨0, 46⟩
abbrev hasComponent : Id := ⟨0, 47⟩
abbrev hasNotifier : Id := ⟨0, 48⟩
abbrev hasOrderedComponent : Id := ⟨0, 49⟩
abbrev serverObject : Id := ⟨0, 2253⟩

/-- References that get no inverse, namespace_manager.go:356, 423. -/
def exempt (r : Ref) : Bool := decide (r.type = hasTypeDefinition ∨ r.type = hasModellingRule)

/-- The reference back from the target, namespace_manager.go:363, 430. -/
def isBack (id : Id) (r tr : Ref) : Bool :=
  decide (tr.type = r.type ∧ tr.inverse ≠ r.inverse ∧ tr.target = id)

/-! ## Adding nodes -/

/-- One reference of an added node, namespace_manager.go:355-379. -/
def linkBack (id : Id) (s : Space) (r : Ref) : Space :=
  if exempt r then s
  else
    match s r.target with
    | none => s
    | some t =>
      if t.refs.any (isBack id r) then s
      else put s r.target (some { t with refs := t.refs ++ [⟨r.type, !r.inverse, id⟩] })

/-- namespace_manager.go:353-380 for one node. -/
def linkNode (s : Space) (id : Id) : Space :=
  match s id with
  | none => s
  | some n => n.refs.foldl (linkBack id) s

/-- addNodes, namespace_manager.go:348-382. -/
def addNodes (s : Space) (nodes : List (Id × Node)) : Space :=
  let s := nodes.foldl (fun s p => put s p.1 (some p.2)) s
  nodes.foldl (fun s p => linkNode s p.1) s

/-! ## Deleting nodes -/

/-- One reference of a node that is deleted, namespace_manager.go:422-438. -/
def unlinkBack (id : Id) (s : Space) (r : Ref) : Space :=
  if exempt r then s
  else
    match s r.target with
    | none => s
    | some t => put s r.target (some { t with refs := t.refs.filter (fun tr => !isBack id r tr) })

/-- deleteNodeandInverseReferences, namespace_manager.go:419-444, of a node with these references. -/
def deleteNode (s : Space) (id : Id) (n : Node) : Space := put (n.refs.foldl (unlinkBack id) s) id none

/-- The nodes that GetChildren visits next from a node, namespace_manager.go:588-595. -/
def kids (types : List Id) (s : Space) (id : Id) : List Id :=
  match s id with
  | none => []
  | some n => (n.refs.filter (fun r => !r.inverse && types.contains r.type && (s r.target).isSome)).map (·.target)

/-- GetChildren, namespace_manager.go:575-598, with a number of rounds. (`Visited` is never set.) -/
def childrenLoop (types : List Id) (s : Space) : Nat → List Id → List Id → Option (List Id)
  | _, [], out => some out
  | 0, _ :: _, _ => none
  | k + 1, id :: queue, out => childrenLoop types s k (queue ++ kids types s id) (out ++ kids types s id)

def getChildren (types : List Id) (s : Space) (rounds : Nat) (id : Id) : Option (List Id) :=
  childrenLoop types s rounds [id] []

/-- namespace_manager.go:22. -/
def childTypes : List Id := [hasComponent, hasProperty, hasSubtype, hasOrderedComponent]

/-- The loop of GetSubTypes, namespace_manager.go:558-572: the node itself, not the target, is put into
the queue again. -/
def subTypesLoop (s : Space) : Nat → List Id → List Id → Option (List Id)
  | _, [], out => some out
  | 0, _ :: _, _ => none
  | k + 1, id :: queue, out =>
    let again := match s id with
      | none => []
      | some n => (n.refs.filter (fun r => !r.inverse && decide (r.type = hasSubtype))).map (fun _ => id)
    subTypesLoop s k (queue ++ again) (out ++ again)

def getSubTypes (s : Space) (rounds : Nat) (id : Id) : Option (List Id) := subTypesLoop s rounds [id] []

/-- isProtectedNode, namespace_manager.go:454-492; the list of mandatory nodes is in namespace 0, too. -/
def protectedId (id : Id) : Bool := decide (id.ns = 0)

inductive Status where
  | good | badNodeIDInvalid | badNodeIDUnknown
  deriving DecidableEq, Repr

/-- DeleteNodeByID, namespace_manager.go:497-514. -/
def deleteByID (s : Space) (id : Id) : Space × Status :=
  if protectedId id then (s, .badNodeIDInvalid)
  else
    match s id with
    | none => (s, .badNodeIDUnknown)
    | some n => (deleteNode s id n, .good)

/-- The loop over the children, namespace_manager.go:536-544. A child that is no longer in the table (it
was listed twice) is deleted once more, with the references that it had; that changes nothing that
matters, and the model skips it. -/
def deleteChild (s : Space) (c : Id) : Space :=
  if protectedId c then s
  else
    match s c with
    | none => s
    | some n => deleteNode s c n

/-- DeleteNodeByIDRecursive, namespace_manager.go:519-555; `none`: still looking for children. -/
def deleteRecursive (s : Space) (rounds : Nat) (id : Id) : Option (Space × Nat × Status) :=
  if protectedId id then some (s, 0, .badNodeIDInvalid)
  else
    match s id with
    | none => some (s, 0, .badNodeIDUnknown)
    | some _ =>
      match getChildren childTypes s rounds id with
      | none => none
      | some cs =>
        let s' := cs.foldl deleteChild s
        match s' id with
        | none => some (s', cs.length + 1, .good)
        | some n => some (deleteNode s' id n, cs.length + 1, .good)

/-! ## Types -/

/-- The first inverse HasSubtype reference, namespace_manager.go:156-165, 171-180. -/
def superType (s : Space) (id : Id) : Option Id :=
  match s id with
  | none => none
  | some n => (n.refs.find? (fun r => r.inverse && decide (r.type = hasSubtype))).map (·.target)

/-- The loop of IsSubtype, namespace_manager.go:147-168, with the rounds that are left. -/
def isSubtypeLoop (s : Space) (sup : Id) : Nat → Id → Bool
  | 0, _ => false
  | k + 1, id =>
    match superType s id with
    | none => false
    | some t => if sup = t then true else isSubtypeLoop s sup k t

/-- IsSubtype: `i` counts from 0 to 100. -/
def isSubtype (s : Space) (sub sup : Id) : Bool := isSubtypeLoop s sup 101 sub

/-- The switch over data type ids, namespace_manager.go:193-275: the ids 1 to 25 of namespace 0 are the
numbers of the variant types (ua/variant.go:5-33, ua/nodeids.generated.go:9-33), Enumeration is an Int32. -/
def builtinType (id : Id) : Option Nat :=
  if id.ns = 0 ∧ 1 ≤ id.n ∧ id.n ≤ 25 then some id.n
  else if id = ⟨0, 29⟩ then some 6
  else none

/-- FindVariantType without its cache, namespace_manager.go:191-278: an unknown supertype ends with Null.
With a number of rounds. -/
def variantTypeLoop (s : Space) : Nat → Id → Option Nat
  | 0, _ => none
  | k + 1, id =>
    match builtinType id with
    | some vt => some vt
    | none =>
      match superType s id with
      | none => some 0
      | some t => variantTypeLoop s k t

/-- FindVariantType with its cache, namespace_manager.go:183-283. -/
def findVariantType (s : Space) (cache : Id → Option Nat) (rounds : Nat) (id : Id) :
    Option (Nat × (Id → Option Nat)) :=
  match cache id with
  | some vt => some (vt, cache)
  | none =>
    match variantTypeLoop s rounds id with
    | none => none
    | some vt => some (vt, fun x => if x = id then some vt else cache x)

/-! ## Events -/

inductive Raised where
  | done (reached : List Id)
  | badNodeIDUnknown (reached : List Id)
  | running (reached : List Id)
  deriving DecidableEq, Repr

/-- OnEvent, namespace_manager.go:601-621: the objects whose listeners are called, with a number of
rounds. Node class 1 is Object. -/
def onEvent (s : Space) : Nat → Id → List Id → Raised
  | 0, _, out => .running out
  | k + 1, id, out =>
    if id = serverObject then .done (out ++ [id])
    else
      let refs := match s id with
        | none => []
        | some n => n.refs
      match refs.find? (fun r => r.inverse && decide (r.type = hasNotifier)) with
      | none => .done (out ++ [id])
      | some r =>
        match s r.target with
        | some t => if t.cls = 1 then onEvent s k r.target (out ++ [id]) else .badNodeIDUnknown (out ++ [id])
        | none => .badNodeIDUnknown (out ++ [id])

/-! ## Namespaces -/

/-- Add, namespace_manager.go:46-56: the new table and the index as an uint16. -/
def addNamespace (table : List String) (uri : String) : List String × Nat :=
  match table.findIdx? (fun x => decide (x = uri)) with
  | some i => (table, i % 2 ^ 16)
  | none => (table ++ [uri], table.length % 2 ^ 16)

end Opcua.AddressSpace
