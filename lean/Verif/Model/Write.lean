import Verif.Model.Range

/-!
# Writing the Value attribute

server/server_service_set.go:5569-6060 (writeValue), server/variable_node.go:130-137 (SetValue), 211-215
(SetHistorizing).

Simplifications: the access checks are those of Model/Access.lean, here the user may write; the node has no
write handler; the variant type of the data type is a field (FindVariantType, namespace_manager.go:182-300); a
panic is `none`, since no code recovers.
-/

namespace Opcua.Write

open Opcua.Range

inductive Status where
  | good | badTypeMismatch | badOutOfRange | badIndexRangeInvalid | badIndexRangeNoData
  deriving DecidableEq, Repr

/-- ServerCapabilities, the limits of values. -/
structure Caps where
  maxString : Nat
  maxByteString : Nat
  maxArray : Nat

/-- A VariableNode, variable_node.go:15-33: the variant type of its data type, its value rank, its value,
whether it is historizing, and whether the server has a historian. -/
structure Node where
  type : Nat
  rank : Int
  value : Val
  historizing : Bool
  historian : Bool
  deriving DecidableEq, Repr

/-- `len(s)` of a string, in bytes. -/
def byteLen (s : Text) : Nat := (s.map Char.utf8Size).sum

/-- The rank test of a scalar, e.g. server_service_set.go:5612-5614. -/
def scalarRank (rank : Int) : Bool :=
  decide (rank = rankScalar) || decide (rank = rankScalarOrOne) || decide (rank = rankAny)

/-- The rank test of a slice, e.g. server_service_set.go:5771-5773. -/
def sliceRank (rank : Int) : Bool :=
  decide (rank = rankOne) || decide (rank = rankOneOrMore) || decide (rank = rankScalarOrOne) ||
    decide (rank = rankAny)

def sameType (t type : Nat) : Bool := decide (type = t) || decide (type = typeVariant)

/-- A scalar of a type. -/
def checkScalar (t type : Nat) (rank : Int) : Status :=
  if !sameType t type then .badTypeMismatch
  else if !scalarRank rank then .badTypeMismatch
  else .good

/-- A slice of a type. -/
def checkSlice (c : Caps) (t len type : Nat) (rank : Int) : Status :=
  if len > c.maxArray then .badOutOfRange
  else if !sameType t type then .badTypeMismatch
  else if !sliceRank rank then .badTypeMismatch
  else .good

abbrev typeDiagnosticInfo : Nat := 25

/-- A slice that the switch has no case for. -/
def checkOther (rank : Int) : Status := if rank = rankScalar then .badTypeMismatch else .good

/-- The type switch, server_service_set.go:5606-6018. -/
def checkValue (c : Caps) (type : Nat) (rank : Int) : Val → Status
  | .null => .good
  | .scalar t _ => checkScalar t type rank
  | .text s => if byteLen s > c.maxString then .badOutOfRange else checkScalar typeString type rank
  | .bytes b => if b.length > c.maxByteString then .badOutOfRange else checkScalar typeByteString type rank
  | .struct _ _ => checkScalar typeExtensionObject type rank
  | .array t xs => if t = typeDiagnosticInfo then checkOther rank else checkSlice c t xs.length type rank
  | .texts xs => checkSlice c typeString xs.length type rank
  | .byteStrings xs => checkSlice c typeByteString xs.length type rank
  | .matrix _ _ => checkOther rank

/-- The conversions between byte strings and byte arrays, server_service_set.go:5594-5605. -/
def convert (type : Nat) (rank : Int) (v : Val) : Val :=
  match v with
  | .bytes b => if type = typeByte ∧ rank = rankOne then .array typeByte b else v
  | .array t xs =>
    if type = typeByteString ∧ rank = rankScalar ∧ t = typeByte then .bytes xs else v
  | _ => v

/-- SetValue, variable_node.go:130-137: the historian of a historizing variable is called, if it is nil the
call panics. -/
def setValue (n : Node) (v : Val) : Option Node :=
  if n.historizing && !n.historian then none else some { n with value := v }

def ofRange : Range.Status → Status
  | .good => .good
  | .badIndexRangeInvalid => .badIndexRangeInvalid
  | .badIndexRangeNoData => .badIndexRangeNoData

/-- writeValue for the Value attribute, after the access checks. -/
def writeValue (c : Caps) (n : Node) (v : Val) (range : Text) : Option (Node × Status) :=
  let v := convert n.type n.rank v
  match checkValue c n.type n.rank v with
  | .good =>
    match writeRange n.value v range with
    | .panic => none
    | .bad st => some (n, ofRange st)
    | .ok w =>
      match setValue n w with
      | none => none
      | some n' => some (n', .good)
  | st => some (n, st)

/-- writeValue for the Historizing attribute, after the access checks, server_service_set.go:6040-6054: the
historian is not asked for. -/
def writeHistorizing (n : Node) (v : Val) : Node × Status :=
  match v with
  | .scalar 1 x => ({ n with historizing := decide (x ≠ 0) }, .good)
  | _ => (n, .badTypeMismatch)

inductive Event where
  | value (v : Val) (range : Text)
  | historizing (v : Val)

/-- One write; `none` when the server has ended. -/
def step (c : Caps) (s : Option (Node × List Status)) (e : Event) : Option (Node × List Status) :=
  match s with
  | none => none
  | some (n, sts) =>
    match e with
    | .value v range =>
      match writeValue c n v range with
      | none => none
      | some (n', st) => some (n', sts ++ [st])
    | .historizing v => some ((writeHistorizing n v).1, sts ++ [(writeHistorizing n v).2])

def run (c : Caps) (n : Node) (evs : List Event) : Option (Node × List Status) :=
  evs.foldl (step c) (some (n, []))

end Opcua.Write
