import Verif.Model.Batch

/-!
# Requests that meet at variables

handleRead and handleWrite of several clients at once (server/server_service_set.go:2057-2388), and the
application that calls SetValue (server/variable_node.go:129-137). Each item of each request is a task as in
Model/Batch.lean; the tasks of all requests are interleaved action by action.

Simplifications: those of Model/Batch.lean; every request has passed the checks of the session and of the
number of items, and every item the checks of permissions; no variable has a handler of its own or is
historizing; a call of SetValue by the application is a request with one item.
-/

namespace Opcua.Pool

open Opcua.Batch (Prog Space readItem writeItem store)

/-- What a client, or the application, asks for. -/
inductive Op where
  | read (id : Nat) (range : Range.Text)
  | write (id : Nat) (v : Range.Val) (range : Range.Text)
  | set (id : Nat) (w : Range.Val)
deriving DecidableEq, Repr

inductive Res where
  | value (r : Except Range.Status Range.Val)
  | status (r : Option Write.Status)
  | done

/-- The same program with other results. -/
def map {ρ τ : Type} (f : ρ → τ) : Prog Space ρ → Prog Space τ
  | .done r => .done (f r)
  | .act next k => .act next (fun s => map f (k s))

/-- readValue, writeValue (server_service_set.go:5569-6098) and SetValue (variable_node.go:129-137). -/
def prog (c : Write.Caps) : Op → Prog Space Res
  | .read id range => map .value (readItem id range)
  | .write id v range => map .status (writeItem c id v range)
  | .set id w => .act (fun s => store s id w) (fun _ => .done .done)

/-- A request under way: server_service_set.go:2210-2230, 2352-2372. -/
structure Req where
  items : List Op
  tasks : List (Option (Prog Space Res))
  results : List (Option Res)
  answered : Bool

/-- What can be seen from outside: requests that come and answers that go, in the order of time. -/
inductive Seen where
  | sent (r : Nat) (items : List Op)
  | answered (r : Nat) (results : List (Option Res))

structure State where
  shared : Space
  reqs : List Req
  log : List Seen

inductive Ev where
  | arrive (items : List Op)
  | task (r i : Nat)
  | answer (r : Nat)

/-- A request comes, a task takes a step, or a handler whose tasks are all done answers. -/
def step (c : Write.Caps) (s : State) : Ev → State
  | .arrive items =>
    let b := Batch.start s.shared (items.map (prog c))
    { s with
      reqs := s.reqs ++ [⟨items, b.tasks, b.results, false⟩]
      log := s.log ++ [.sent s.reqs.length items] }
  | .task r i =>
    match s.reqs[r]? with
    | none => s
    | some q =>
      let b := Batch.stepTask ⟨s.shared, q.tasks, q.results⟩ i
      { s with
        shared := b.shared
        reqs := s.reqs.set r { q with
          tasks := b.tasks
          results := b.results } }
  | .answer r =>
    match s.reqs[r]? with
    | none => s
    | some q =>
      if q.answered = false ∧ Batch.finished (σ := Space) ⟨s.shared, q.tasks, q.results⟩ = true then
        { s with
          reqs := s.reqs.set r { q with
            answered := true }
          log := s.log ++ [.answered r q.results] }
      else s

def init (s : Space) : State := ⟨s, [], []⟩

def run (c : Write.Caps) (s : Space) (evs : List Ev) : State := evs.foldl (step c) (init s)

end Opcua.Pool
