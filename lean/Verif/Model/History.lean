/-!
# History

server/variable_node.go:123-137 (Value, SetValue) and 203-215 (Historizing), server/server_service_set.go:2972-2975
(the timestamps of a written value), 6025-6056 (the end of writeValue), 6086-6101 (reading a value with a handler)
and 2391-2636 (handleHistoryRead), server/history_read_writer.go.

Simplifications: one variable; a value is a number, with its status and its source timestamp; the picoseconds and
the server timestamp are left out. A goroutine that writes is a phase, numbered by a natural number; those of Write
begin before the timestamp is taken, those of the application, which pass a value with its timestamp to SetValue,
after. The checks before are in Model/Write.lean and Model/Access.lean; the writes of a part of an array read the
value before (Model/Batch.lean). The historian is a list of the values it has taken; it may refuse one with an error.
-/

namespace Opcua.History

/-- ua.DataValue -/
structure Data where
  value : Nat
  status : Nat := 0
  time : Nat := 0
  deriving DecidableEq, Repr

/-- Where a goroutine is that writes the variable. -/
inductive Phase where
  /-- has not begun -/
  | idle
  /-- Write was called with this value -/
  | asked (v : Data)
  /-- about to call `n.Lock()` in SetValue with this value -/
  | calling (v : Data)
  /-- holds the lock and has stored the value; `true` if WriteValue of the historian runs -/
  | holding (v : Data) (records : Bool)
  /-- the historian has answered -/
  | recorded
  /-- SetValue has returned; Write answers Good -/
  | finished
  deriving DecidableEq, Repr

/-- The variable, its lock (the writer that holds it), the historian and the clock. `stores` (the values stored, each
with the Historizing attribute of then) and `seen` (what readers got, with the history and the stores of then) are
there for the properties. -/
structure State where
  value : Data
  historizing : Bool
  /-- the handler asked at every read, if there is one; here, what it returns at a time -/
  handler : Option (Nat → Data) := none
  lock : Option Nat := none
  writers : Nat → Phase := fun _ => .idle
  log : List Data := []
  clock : Nat := 0
  stores : List (Data × Bool) := []
  seen : List (Data × List Data × List (Data × Bool)) := []

inductive Ev where
  /-- a client writes -/
  | write (i : Nat) (v : Data)
  /-- the application calls SetValue -/
  | setValue (i : Nat) (v : Data)
  /-- writeRange takes the time -/
  | stamp (i : Nat)
  | lock (i : Nat)
  /-- WriteValue of the historian returns, with or without an error -/
  | answer (i : Nat) (ok : Bool)
  | unlock (i : Nat)
  /-- a client reads the value -/
  | read
  | setHistorizing (b : Bool)
  | tick
  deriving DecidableEq, Repr

def put (f : Nat → Phase) (i : Nat) (p : Phase) : Nat → Phase := fun j => if j = i then p else f j

/-- writeRange without a range, server_service_set.go:2974: value and status of the client, time of the server. -/
def stamped (v : Data) (now : Nat) : Data := { value := v.value, status := v.status, time := now }

/-- One step. A step that is not possible now does nothing: who needs the lock waits. -/
def step (s : State) : Ev → State
  | .write i v => if s.writers i = .idle then { s with writers := put s.writers i (.asked v) } else s
  | .setValue i v => if s.writers i = .idle then { s with writers := put s.writers i (.calling v) } else s
  | .stamp i =>
    match s.writers i with
    | .asked v => { s with writers := put s.writers i (.calling (stamped v s.clock)) }
    | _ => s
  | .lock i =>
    match s.lock, s.writers i with
    | none, .calling v =>
      { s with lock := some i, value := v, writers := put s.writers i (.holding v s.historizing),
               stores := s.stores ++ [(v, s.historizing)] }
    | _, _ => s
  | .answer i ok =>
    match s.writers i with
    | .holding v true =>
      { s with writers := put s.writers i .recorded, log := if ok then s.log ++ [v] else s.log }
    | _ => s
  | .unlock i =>
    match s.writers i with
    | .holding _ false => { s with lock := none, writers := put s.writers i .finished }
    | .recorded => { s with lock := none, writers := put s.writers i .finished }
    | _ => s
  | .read =>
    match s.handler, s.lock with
    | some f, _ => { s with seen := s.seen ++ [(f s.clock, s.log, s.stores)] }
    | none, none => { s with seen := s.seen ++ [(s.value, s.log, s.stores)] }
    | none, some _ => s
  | .setHistorizing b =>
    match s.lock with
    | none => { s with historizing := b }
    | some _ => s
  | .tick => { s with clock := s.clock + 1 }

def run (s : State) (evs : List Ev) : State := evs.foldl step s

/-! ## Reading history -/

/-- The details of a request: four kinds, or something else. -/
inductive Details where
  | event (d : Nat)
  | raw (d : Nat)
  | processed (d : Nat)
  | atTime (d : Nat)
  | other
  deriving DecidableEq, Repr

inductive Kind where
  | readEvent | readRawModified | readProcessed | readAtTime
  deriving DecidableEq, Repr

/-- A call of the historian: the method, the nodes, the details, the timestamps and whether continuation points are
released. -/
structure Call where
  kind : Kind
  nodes : List Nat
  details : Nat
  timestamps : Int
  release : Bool
  deriving DecidableEq, Repr

structure Req where
  timestamps : Int
  nodes : List Nat
  details : Details
  release : Bool
  deriving DecidableEq, Repr

inductive Answer (ρ : Type) where
  | badInvalidTimestampArgument | badNothingToDo | badTooManyOperations | badHistoryOperationUnsupported
  | badHistoryOperationInvalid
  /-- a response with what the historian returned -/
  | response (r : ρ)
  deriving DecidableEq, Repr

abbrev timestampsSource : Int := 0
abbrev timestampsBoth : Int := 2

/-- handleHistoryRead after the session checks, server_service_set.go:2454-2636. The historian is what it answers to
a call; the first component are the calls made. -/
def historyRead {ρ : Type} (limit : Nat) (h : Option (Call → ρ)) (req : Req) : List Call × Answer ρ :=
  if req.timestamps < timestampsSource ∨ req.timestamps > timestampsBoth then ([], .badInvalidTimestampArgument)
  else if req.nodes.length = 0 then ([], .badNothingToDo)
  else if req.nodes.length > limit then ([], .badTooManyOperations)
  else match h with
    | none => ([], .badHistoryOperationUnsupported)
    | some h =>
      let call (k : Kind) (d : Nat) : List Call × Answer ρ :=
        let c : Call := ⟨k, req.nodes, d, req.timestamps, req.release⟩
        ([c], .response (h c))
      match req.details with
      | .event d => call .readEvent d
      | .raw d => call .readRawModified d
      | .processed d => call .readProcessed d
      | .atTime d => call .readAtTime d
      | .other => ([], .badHistoryOperationInvalid)

end Opcua.History
