import Verif.Model.AddressSpace

/-!
# Event filters

server/event_monitored_item.go:213-280, ua/base_event.go, ua/condition.go, ua/acknowledgeable_condition.go,
ua/alarm_condition.go and ua/content_filter.go.

Simplifications: values are those that matter for `==`; numbers are integers with a variant type; browse
paths are lists of names of namespace 0. An evaluation that may recurse for ever takes a depth and is
`running` when that is used up. The queue of the item is that of `MonitoredItem` and not repeated here.
-/

namespace Opcua.EventFilter

open Opcua.AddressSpace

/-- ua.Variant as an interface value. A `time` has its instant and what else is in a time.Time (clock
reading and location); an `array` is a slice. -/
inductive Value where
  | null
  | bool (b : Bool)
  | num (type : Nat) (v : Int)
  | text (type : Nat) (s : String)
  | node (id : Id)
  | time (instant : Int) (rest : Nat)
  | array (type : Nat) (vs : List Int)
  deriving DecidableEq, Repr

/-- `a == b` on interface values: panics for two slices of the same type (`none`). -/
def goEq (a b : Value) : Option Bool :=
  match a, b with
  | .array t _, .array u _ => if t = u then none else some false
  | a, b => some (decide (a = b))

/-- ua.SimpleAttributeOperand. -/
structure Clause where
  type : Id
  path : List String
  attr : Nat := 13
  range : String := ""
  deriving DecidableEq, Repr

abbrev baseEventType : Id := ⟨0, 2041⟩
abbrev conditionType : Id := ⟨0, 2782⟩
abbrev acknowledgeableConditionType : Id := ⟨0, 2881⟩
abbrev alarmConditionType : Id := ⟨0, 2915⟩

/-- EqualSimpleAttributeOperand, ua/content_filter.go:5-24. -/
def equalOperand (a b : Clause) : Bool :=
  if a.type ≠ baseEventType ∧ a.type ≠ b.type then false
  else decide (a.path = b.path) && decide (a.attr = b.attr) && decide (a.range = b.range)

/-- AlarmConditionSelectClauses, ua/alarm_condition.go:97-114. The lists of the other kinds of events are
its first 8, 12 and 14 (base_event.go:66-76, condition.go:80-94, acknowledgeable_condition.go:88-104). -/
def selectClauses : List Clause :=
  [{ type := baseEventType, path := ["EventId"] }, { type := baseEventType, path := ["EventType"] },
   { type := baseEventType, path := ["SourceNode"] }, { type := baseEventType, path := ["SourceName"] },
   { type := baseEventType, path := ["Time"] }, { type := baseEventType, path := ["ReceiveTime"] },
   { type := baseEventType, path := ["Message"] }, { type := baseEventType, path := ["Severity"] },
   { type := conditionType, path := [], attr := 1 }, { type := conditionType, path := ["ConditionName"] },
   { type := conditionType, path := ["BranchId"] }, { type := conditionType, path := ["Retain"] },
   { type := acknowledgeableConditionType, path := ["AckedState", "Id"] },
   { type := acknowledgeableConditionType, path := ["ConfirmedState", "Id"] },
   { type := alarmConditionType, path := ["ActiveState", "Id"] }]

/-- ua/alarm_condition.go:116. -/
def activeStateName : Clause := { type := alarmConditionType, path := ["ActiveState", "EffectiveDisplayName"] }

/-- An event: its values in the order of the clauses. BaseEvent has 8 of them, Condition 12,
AcknowledgeableCondition 14 and AlarmCondition 15. -/
structure Event where
  values : List Value
  deriving DecidableEq, Repr

/-- The cases of GetAttribute, base_event.go:42-63 and so on, alarm_condition.go:52-94. -/
def attributes (e : Event) : List (Clause × Value) :=
  (selectClauses.zip e.values) ++
    (if e.values.length = 15 then
      [(activeStateName, .text 21 (if e.values[14]? = some (.bool true) then "Active" else "Inactive"))]
    else [])

/-- GetAttribute. -/
def getAttribute (e : Event) (c : Clause) : Value :=
  match (attributes e).find? (fun p => equalOperand c p.1) with
  | some p => p.2
  | none => .null

/-- attributeOperandEventType, event_monitored_item.go:222. -/
def eventTypeClause : Clause := { type := baseEventType, path := ["EventType"] }

/-- An element of FilterOperands. -/
inductive Operand where
  | literal (v : Value)
  | field (c : Clause)
  | element (i : Nat)
  | other
  deriving DecidableEq, Repr

abbrev opEquals : Nat := 0
abbrev opOfType : Nat := 14

/-- ua.ContentFilterElement. -/
structure Element where
  op : Nat
  operands : List Operand
  deriving DecidableEq, Repr

inductive Res where
  | val (v : Value)
  | panic
  | running
  deriving DecidableEq, Repr

/-- The switch over the type of an operand, event_monitored_item.go:234-243: `none` in the default case. -/
def operandValue (e : Event) (element : Nat → Res) : Operand → Option Res
  | .literal v => some (.val v)
  | .field c => some (.val (getAttribute e c))
  | .element i => some (element i)
  | .other => none

/-- Equals, event_monitored_item.go:232-254. -/
def equals (e : Event) (element : Nat → Res) (operands : List Operand) : Res :=
  match operands[0]? with
  | none => .panic
  | some a =>
    match operandValue e element a with
    | none => .val (.bool false)
    | some (.val va) =>
      match operands[1]? with
      | none => .panic
      | some b =>
        match operandValue e element b with
        | none => .val (.bool false)
        | some (.val vb) =>
          match goEq va vb with
          | none => .panic
          | some r => .val (.bool r)
        | some r => r
    | some r => r

/-- OfType, event_monitored_item.go:256-266. -/
def ofType (s : Space) (e : Event) (operands : List Operand) : Res :=
  match operands[0]? with
  | none => .panic
  | some (Operand.literal (Value.node b)) =>
    match getAttribute e eventTypeClause with
    | .node c => .val (.bool (decide (c = b) || isSubtype s c b))
    | _ => .val (.bool false)
  | some _ => .val (.bool false)

/-- whereClause, event_monitored_item.go:225-271, with a depth. -/
def whereClause (s : Space) (e : Event) (els : List Element) : Nat → Nat → Res
  | 0, _ => .running
  | k + 1, i =>
    match els[i]? with
    | none => .val (.bool true)
    | some el =>
      if el.op = opEquals then equals e (whereClause s e els k) el.operands
      else if el.op = opOfType then ofType s e el.operands
      else .val (.bool false)

/-- selectFields, event_monitored_item.go:273-280. -/
def selectFields (e : Event) (select : List Clause) : List Value := select.map (getAttribute e)

inductive Outcome where
  | queued (fields : List Value)
  | dropped
  | panic
  | running
  deriving DecidableEq, Repr

/-- OnEvent, event_monitored_item.go:213-219. -/
def onEvent (s : Space) (els : List Element) (select : List Clause) (depth : Nat) (e : Event) : Outcome :=
  match whereClause s e els depth 0 with
  | .val v => if v = .bool true then .queued (selectFields e select) else .dropped
  | .panic => .panic
  | .running => .running

/-- The type that UnmarshalFields expects in each place, alarm_condition.go:29-48. -/
inductive FieldType where
  | bytes | node | string | time | text | uint16 | bool
  deriving DecidableEq, Repr

def fieldTypes : List FieldType :=
  [.bytes, .node, .node, .string, .time, .time, .text, .uint16, .node, .string, .node, .bool, .bool, .bool, .bool]

/-- A type assertion with its default value, as in `evt.Severity, _ = eventFields[7].(uint16)`. -/
def assertType (t : FieldType) (v : Value) : Value :=
  match t, v with
  | .bytes, .text 15 s => .text 15 s
  | .bytes, _ => .text 15 ""
  | .node, .node id => .node id
  | .node, _ => .null
  | .string, .text 12 s => .text 12 s
  | .string, _ => .text 12 ""
  | .time, .time i r => .time i r
  | .time, _ => .time 0 0
  | .text, .text 21 s => .text 21 s
  | .text, _ => .text 21 ""
  | .uint16, .num 5 v => .num 5 v
  | .uint16, _ => .num 5 0
  | .bool, .bool b => .bool b
  | .bool, _ => .bool false

/-- UnmarshalFields of the kind of event with `n` fields, base_event.go:26-39 and so on; `none` is
BadUnexpectedError. -/
def unmarshalFields (n : Nat) (fields : List Value) : Option Event :=
  if fields.length ≠ n then none else some ⟨((fieldTypes.take n).zip fields).map (fun p => assertType p.1 p.2)⟩

end Opcua.EventFilter
