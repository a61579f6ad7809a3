/-! The queue of publish requests of a session: addPublishRequest and removePublishRequest
(server/session.go:292-346), used by the channel worker (handlePublish,
server/server_service_set.go:5262-5425), by the publishing timers of the subscriptions
(server/subscription.go:305-500) and emptied by Session.delete (server/session.go:151-172). Each
goroutine is a sequence of atomic steps, interleaved in any order. Times are milliseconds. -/
namespace Opcua.PublishQueue

/-- `publishOp`: the request with its handle, the time stamp the client put on it and its timeout
hint. -/
structure Op where
  rid : Nat
  timestamp : Nat
  hint : Nat
deriving Repr, DecidableEq

/-- How a request left the queue: handed to a subscription, which answers it with a PublishResponse,
or answered with a fault. -/
inductive Answer where
  | published
  | badTimeout
  | badTooManyPublishRequests
deriving Repr, DecidableEq

/-- Where a caller of addPublishRequest is: before the call, at the top of the loop (line 294), in
the default branch waiting to receive the oldest request (line 298), returned with or without
error. -/
inductive Phase where
  | idle
  | trying (op : Op)
  | evicting (op : Op)
  | returned (ok : Bool)
deriving Repr, DecidableEq

/-- `arrived` and `left` record the requests put into the queue and taken out of it, in order; the
code keeps no such record. `chan = none` is the nil channel of a deleted session. -/
structure State where
  now : Nat
  chan : Option (List Op)
  phase : Nat → Phase
  arrived : List Op
  left : List (Op × Answer)

/-- `make(chan *publishOp, 64)`, server/session.go:129. -/
def capacity : Nat := 64

/-- `time.Now().After(req.Timestamp.Add(req.TimeoutHint))`, server/session.go:326. -/
def overdue (now : Nat) (op : Op) : Bool := decide (now > op.timestamp + op.hint)

inductive Ev where
  | tick (d : Nat)
  | call (t : Nat) (op : Op)             -- worker t enters addPublishRequest
  | trySend (t : Nat)                    -- the select of lines 294-297
  | evict (t : Nat) (writeOk : Bool)     -- lines 298-311
  | remove                               -- one turn of the loop of removePublishRequest
  | delete                               -- Session.delete
deriving Repr, DecidableEq

def setPhase (f : Nat → Phase) (t : Nat) (p : Phase) : Nat → Phase := fun u => if u = t then p else f u

/-- One atomic step; an event that is not possible in a state leaves it unchanged. Sending to and
receiving from a nil channel blocks, so the select takes its default branch. A receiver that waits
on an empty channel is served by the next send, which here are two steps. -/
def step (s : State) : Ev → State
  | .tick d => { s with now := s.now + d }
  | .call t op =>
    match s.phase t with
    | .trying _ => s
    | .evicting _ => s
    | _ => { s with phase := setPhase s.phase t (.trying op) }
  | .trySend t =>
    match s.phase t with
    | .trying op =>
      match s.chan with
      | none => { s with phase := setPhase s.phase t (.evicting op) }
      | some q =>
        if q.length < capacity then
          { s with chan := some (q ++ [op]), arrived := s.arrived ++ [op], phase := setPhase s.phase t (.returned true) }
        else { s with phase := setPhase s.phase t (.evicting op) }
    | _ => s
  | .evict t writeOk =>
    match s.phase t, s.chan with
    | .evicting op, some (o :: q) =>
      { s with chan := some q, left := s.left ++ [(o, .badTooManyPublishRequests)],
               phase := setPhase s.phase t (if writeOk then .trying op else .returned false) }
    | _, _ => s
  | .remove =>
    match s.chan with
    | some (o :: q) =>
      { s with chan := some q, left := s.left ++ [(o, if overdue s.now o then .badTimeout else .published)] }
    | _ => s
  | .delete => { s with chan := none }

def run (s : State) (evs : List Ev) : State := evs.foldl step s

/-- A new session. -/
def init : State := ⟨0, some [], fun _ => .idle, [], []⟩

end Opcua.PublishQueue
