/-!
# Variables of type MultiStateValueDiscreteType

server/namespace_manager.go:101-134 (FindProperty, FindComponent), 291-345 (SetMultiStateValueDiscreteTypeBehavior and
its write handler, toEnumValues), server/server_service_set.go:6025-6030 (the call of the handler).

Simplifications: what the write service checks before it calls the handler (access, type, rank) is a parameter; a
panic is `none`, since no code recovers; times are left out. Of floats only finite ones occur, and their conversion
to int64 is exact truncation: outside of int64 Go leaves the result open.
-/

namespace Opcua.MultiState

inductive IntKind where
  | u8 | u16 | u32 | u64 | i8 | i16 | i32 | i64
  deriving DecidableEq, Repr

/-- The value of a Variant. -/
inductive V where
  | int (k : IntKind) (n : Int)
  /-- float32 and float64 -/
  | float (q : Rat)
  /-- anything else -/
  | other (tag : Nat)
  deriving DecidableEq, Repr

/-- EnumValueType: Value and DisplayName; the description is not used. -/
structure EnumValue where
  value : Int
  name : String
  deriving DecidableEq, Repr

/-- What the property EnumValues holds: a slice of ExtensionObjects, each an EnumValueType or something else, or no
such slice. -/
inductive Stored where
  | objects (l : List (Option EnumValue))
  | other
  deriving DecidableEq, Repr

/-- The variable and its two properties. -/
structure St where
  value : V
  text : String
  enums : Stored
  deriving DecidableEq, Repr

/-- `int64(v)` of a uint64: two's complement. -/
def wrap (n : Int) : Int := (BitVec.ofInt 64 n).toInt

/-- `int64(v)` of a float: toward zero. -/
def truncate (q : Rat) : Int := if 0 ≤ q then q.floor else q.ceil

/-- The type switch, namespace_manager.go:301-325; `none` is its default case. -/
def int64 : V → Option Int
  | .int .u64 n => some (wrap n)
  | .int _ n => some n
  | .float q => some (truncate q)
  | .other _ => none

/-- toEnumValues, namespace_manager.go:339-345: the assertion panics on anything else. -/
def toEnumValues : List (Option EnumValue) → Option (List EnumValue)
  | [] => some []
  | none :: _ => none
  | some e :: l => (toEnumValues l).map (e :: ·)

/-- The loop over the values, namespace_manager.go:328-334. -/
def lookup (evs : List EnumValue) (n : Int) : Option EnumValue := evs.find? (fun e => e.value == n)

/-- The write handler, namespace_manager.go:300-336; it returns the value of the request and Good whenever it
returns. -/
def handler (s : St) (v : V) : Option St :=
  match int64 v with
  | none => some s
  | some n =>
    match s.enums with
    | .other => none
    | .objects l =>
      match toEnumValues l with
      | none => none
      | some evs =>
        match lookup evs n with
        | some e => some { s with value := v, text := e.name }
        | none => some s

inductive Status where
  | good | refused
  deriving DecidableEq, Repr

/-- A write of the Value attribute, server_service_set.go:6025-6030: after a handler that returns Good the value it
returned is set. The index range is not looked at. -/
def write (accepts : V → Bool) (s : St) (v : V) (_range : Option (Nat × Nat)) : Option (St × Status) :=
  if accepts v then
    match handler s v with
    | none => none
    | some s' => some ({ s' with value := v }, .good)
  else some (s, .refused)

/-- A history of writes, one after the other; `none` once the server has crashed. -/
def run (accepts : V → Bool) (s : St) (vs : List (V × Option (Nat × Nat))) : Option St :=
  vs.foldl (fun o w => o.bind (fun s => (write accepts s w.1 w.2).map (·.1))) (some s)

/-! ### Writes that meet

The workers of the server call the handler at the same time; `SetValue` of the variable and of the text lock each node
for itself (variable_node.go:130-137). A write that has found its enumeration value is three such calls:
namespace_manager.go:330, 331 and server_service_set.go:6028. -/

inductive Call where
  | setValue (v : V)
  | setText (t : String)
  deriving DecidableEq, Repr

def calls (v : V) (e : EnumValue) : List Call := [.setValue v, .setText e.name, .setValue v]

def call (s : St) : Call → St
  | .setValue v => { s with value := v }
  | .setText t => { s with text := t }

/-- All schedules of two writes. -/
inductive Interleaves : List Call → List Call → List Call → Prop where
  | nil : Interleaves [] [] []
  | left (c l m r) : Interleaves l m r → Interleaves (c :: l) m (c :: r)
  | right (c l m r) : Interleaves l m r → Interleaves l (c :: m) (c :: r)

/-! ### Looking for properties and components -/

/-- ReferenceTypeIDHasProperty, ReferenceTypeIDHasComponent and ReferenceTypeIDHasOrderedComponent, a subtype of it -/
abbrev hasProperty : Nat := 46
abbrev hasComponent : Nat := 47
abbrev hasOrderedComponent : Nat := 49

/-- A reference of a node; the target is one of this server. -/
structure Ref where
  type : Nat
  inverse : Bool
  target : Nat
  deriving DecidableEq, Repr

/-- A node as far as the search looks at it: its browse name and whether it is a VariableNode. -/
structure Node where
  name : Nat × String
  isVariable : Bool
  deriving DecidableEq, Repr

/-- The first target of a forward reference of the type that is there and has the name. -/
def first (nodes : Nat → Option Node) (type : Nat) (name : Nat × String) : List Ref → Option (Nat × Node)
  | [] => none
  | r :: rs =>
    if !r.inverse && r.type == type then
      match nodes r.target with
      | some n => if n.name == name then some (r.target, n) else first nodes type name rs
      | none => first nodes type name rs
    else first nodes type name rs

/-- FindProperty, namespace_manager.go:101-116: the search ends at the first node of the name; `ok` is false if it is
no VariableNode. -/
def findProperty (nodes : Nat → Option Node) (refs : List Ref) (name : Nat × String) : Option Nat :=
  match first nodes hasProperty name refs with
  | some (t, n) => if n.isVariable then some t else none
  | none => none

/-- FindComponent, namespace_manager.go:118-134. -/
def findComponent (nodes : Nat → Option Node) (refs : List Ref) (name : Nat × String) : Option Nat :=
  (first nodes hasComponent name refs).map (·.1)

/-- SetMultiStateValueDiscreteTypeBehavior, namespace_manager.go:291-299: without the two properties it returns
BadNodeIDUnknown and sets no handler. -/
def setBehavior (nodes : Nat → Option Node) (refs : List Ref) : Option (Nat × Nat) :=
  match findProperty nodes refs (0, "EnumValues") with
  | none => none
  | some e =>
    match findProperty nodes refs (0, "ValueAsText") with
    | none => none
    | some t => some (e, t)

end Opcua.MultiState
