import Verif.Model.Write

/-!
# Batch services and the worker pool

server/server_service_set.go:2168-2240 (handleRead), 2314-2388 (handleWrite), 1180-1352 (handleBrowse),
3570-3687 (handleCall): each item is a task of the worker pool that stores its result at its own index; the
handler waits for all tasks and then answers.

Simplifications: a task is a program of atomic actions on the shared state, an action being what happens under
one lock; the pool is any interleaving of the actions, which includes those of a pool with few workers; the
session checks before are those of Model/Session.lean.
-/

namespace Opcua.Batch

/-- What a task does: it is done, or it acts once on the shared state and goes on with what it saw. -/
inductive Prog (σ ρ : Type) where
  | done (r : ρ)
  | act (next : σ → σ) (k : σ → Prog σ ρ)

/-- The program run alone. -/
def Prog.alone {σ ρ : Type} : Prog σ ρ → σ → σ × ρ
  | .done r, s => (s, r)
  | .act next k, s => (k s).alone (next s)

/-- The state of a batch: the shared state, the tasks that are not done, and the results
(`results := make([]T, l)`). -/
structure State (σ ρ : Type) where
  shared : σ
  tasks : List (Option (Prog σ ρ))
  results : List (Option ρ)

/-- server_service_set.go:2210-2222: every item is submitted. -/
def start {σ ρ : Type} (s : σ) (items : List (Prog σ ρ)) : State σ ρ :=
  { shared := s, tasks := items.map some, results := items.map fun _ => none }

/-- Task `i` takes one step: an action, or `results[i] = ..` and `wg.Done()`. -/
def stepTask {σ ρ : Type} (b : State σ ρ) (i : Nat) : State σ ρ :=
  match b.tasks[i]? with
  | some (some (.done r)) => { b with tasks := b.tasks.set i none, results := b.results.set i (some r) }
  | some (some (.act next k)) =>
    { b with shared := next b.shared, tasks := b.tasks.set i (some (k b.shared)) }
  | _ => b

/-- What happens while the batch runs: a task steps, or another request changes the shared state. -/
inductive Event (σ : Type) where
  | task (i : Nat)
  | other (f : σ → σ)

def step {σ ρ : Type} (b : State σ ρ) : Event σ → State σ ρ
  | .task i => stepTask b i
  | .other f => { b with shared := f b.shared }

def run {σ ρ : Type} (b : State σ ρ) (evs : List (Event σ)) : State σ ρ := evs.foldl step b

/-- `wg.Wait()` returns when every task is done. -/
def finished {σ ρ : Type} (b : State σ ρ) : Bool := b.tasks.all Option.isNone

inductive Fault where
  | badNothingToDo | badTooManyOperations
  deriving DecidableEq, Repr

/-- The checks before, server_service_set.go:2168-2208. -/
def refuse (limit n : Nat) : Option Fault :=
  if n = 0 then some .badNothingToDo else if n > limit then some .badTooManyOperations else none

/-- The service: the shared state after, and the answer. `none` while it waits. -/
def service {σ ρ : Type} (limit : Nat) (s : σ) (items : List (Prog σ ρ)) (evs : List (Event σ)) :
    σ × Option (Except Fault (List (Option ρ))) :=
  match refuse limit items.length with
  | some f => (s, some (.error f))
  | none =>
    let b := run (start s items) evs
    (b.shared, if finished b then some (.ok b.results) else none)

/-! ## Read and Write items -/

abbrev Space := Nat → Write.Node

/-- readValue for a value attribute that the user may read, server_service_set.go:6076-6095. -/
def readItem (id : Nat) (range : Range.Text) : Prog Space (Except Range.Status Range.Val) :=
  .act (fun s => s) fun s => .done (Range.readRange (s id).value range)

/-- SetValue of a node. -/
def store (s : Space) (id : Nat) (w : Range.Val) : Space :=
  fun x => if x = id then { s id with value := w } else s x

/-- writeValue for a variable that the user may write and that is not historizing,
server_service_set.go:5590-6036: the value is read, the result is computed, and then it is stored, each under
the lock of the node but not together. A result of `none` is a panic. -/
def writeItem (c : Write.Caps) (id : Nat) (v : Range.Val) (range : Range.Text) : Prog Space (Option Write.Status) :=
  .act (fun s => s) fun s =>
    let n := s id
    let v := Write.convert n.type n.rank v
    match Write.checkValue c n.type n.rank v with
    | .good =>
      match Range.writeRange n.value v range with
      | .panic => .done none
      | .bad st => .done (some (Write.ofRange st))
      | .ok w => .act (fun s => store s id w) fun _ => .done (some .good)
    | st => .done (some st)

end Opcua.Batch
