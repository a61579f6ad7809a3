/-!
# Subscriptions

The publishing state machine of one subscription: server/subscription.go:268-280 (`acknowledge`),
305-500 (`publish`), 502-649 (`handleLatePublishRequest`), 165-184 (`SetPublishingMode`, `Modify`) and
the part of `handleRepublish` that touches the subscription (server/server_service_set.go:5520-5549).
`C` is the type of notification data.

Every function here runs under the lock of the subscription, so each is one step. What the monitored
items have to report and whether the session has a publish request queued is part of the event.

Simplifications:
* `keepAliveCount` and `lifetimeCount` are natural numbers; as `uint32` they would wrap after 2^32
  cycles, which takes 17 years at the shortest publishing interval.
* A write that fails is taken not to reach the client.
* The diagnostic counters are left out, except `publishRequestCount`, which decides on the first
  keep-alive.
* Sending on `session.stateChanges` is taken not to block here; see Model/Locks.lean.
* `handleRepublish` reads the queue without the lock; here it is one step.
-/

namespace Opcua.Subscription

variable {C : Type}

/-- The results of acknowledgements that occur. -/
inductive AckStatus where
  | good
  | badSequenceNumberUnknown
  | badSubscriptionIDInvalid
  deriving DecidableEq, Repr

/-- A `NotificationMessage`; `body = none` is the empty message of a keep-alive. -/
structure Msg (C : Type) where
  seq : BitVec 32
  body : Option C
  deriving DecidableEq, Repr

/-- A `PublishResponse`. -/
structure Resp (C : Type) where
  avail : List (BitVec 32)
  more : Bool
  msg : Msg C
  results : List AckStatus
  deriving DecidableEq, Repr

/-- `sent`, `produced` and `statusChanges` are records that the code does not keep: the responses that
reached the client, the notification messages that were made, and the sequence numbers of the
`BadTimeout` status changes left in `session.stateChanges`. -/
structure Sub (C : Type) where
  enabled : Bool
  maxLifetime : Nat
  maxKeepAlive : Nat
  nextSeq : BitVec 32
  keepAlive : Nat
  lifetime : Nat
  pubCount : BitVec 32
  isLate : Bool
  queue : List (BitVec 32 × C)
  alive : Bool
  sent : List (Resp C)
  produced : List (BitVec 32 × C)
  statusChanges : List (BitVec 32)
  deriving DecidableEq, Repr

/-- `NewSubscription`, subscription.go:66-86. -/
def new (enabled : Bool) (maxLifetime maxKeepAlive : Nat) : Sub C :=
  { enabled, maxLifetime, maxKeepAlive, nextSeq := 1, keepAlive := 0, lifetime := 0, pubCount := 0,
    isLate := false, queue := [], alive := true, sent := [], produced := [], statusChanges := [] }

/-- `maxRetransmissionQueueLength`, subscription.go:20. -/
def maxQueue : Nat := 128

/-- The loop that makes room, subscription.go:377-380 and 567-569. `Next` of an element that was removed is nil,
so the loop runs at most once. -/
def trim (q : List (BitVec 32 × C)) : List (BitVec 32 × C) := if q.length ≥ maxQueue then q.tail else q

/-- What `sess.removePublishRequest()` returns: no request, an error, or a request with the results of
its acknowledgements, and whether the response can be written. -/
inductive Req where
  | none
  | failed
  | some (results : List AckStatus) (writeOk : Bool)
  deriving DecidableEq, Repr

/-- Sending notifications, subscription.go:371-413 and 561-605. The message is queued before it is
written. -/
def sendData (s : Sub C) (c : C) (more : Bool) (results : List AckStatus) (writeOk late : Bool) : Sub C :=
  let q := trim s.queue ++ [(s.nextSeq, c)]
  let s := { s with queue := q, produced := s.produced ++ [(s.nextSeq, c)] }
  if writeOk then
    { s with
      sent := s.sent ++ [⟨q.map (·.1), more, ⟨s.nextSeq, some c⟩, results⟩]
      pubCount := s.pubCount + 1
      nextSeq := s.nextSeq + 1
      keepAlive := 0
      lifetime := 0
      isLate := late && more }
  else s

/-- Sending a keep-alive, subscription.go:445-479 and 609-645. -/
def sendKeepAlive (s : Sub C) (results : List AckStatus) (writeOk : Bool) : Sub C :=
  if writeOk then
    { s with
      sent := s.sent ++ [⟨s.queue.map (·.1), false, ⟨s.nextSeq, none⟩, results⟩]
      pubCount := s.pubCount + 1
      keepAlive := 0
      lifetime := 0
      isLate := false }
  else s

/-- Expiry, subscription.go:418-429 and 484-495; `deleteImpl` drops the queue. -/
def expire (s : Sub C) : Sub C :=
  { s with statusChanges := s.statusChanges ++ [s.nextSeq], nextSeq := s.nextSeq + 1, alive := false, queue := [] }

/-- `publish`, subscription.go:305-500. `data`: the notifications that are available, and whether more
remain after this message. -/
def cycle (s : Sub C) (data : Option (C × Bool)) (req : Req) : Sub C :=
  if s.alive = false then s
  else
    match (if s.enabled then data else none) with
    | some (c, more) =>
      match req with
      | .failed => s
      | .some results ok => sendData s c more results ok false
      | .none =>
        let s := { s with isLate := true, lifetime := s.lifetime + 1 }
        if s.lifetime ≥ s.maxLifetime then expire s else s
    | none =>
      let s := { s with keepAlive := s.keepAlive + 1 }
      if s.keepAlive ≥ s.maxKeepAlive ∨ s.pubCount = 0 then
        match req with
        | .failed => s
        | .some results ok => sendKeepAlive s results ok
        | .none =>
          let s := { s with isLate := true, lifetime := s.lifetime + 1 }
          if s.lifetime = s.maxLifetime then expire s else s
      else s

/-- `handleLatePublishRequest`, subscription.go:502-649. The keep-alive carries as many zero status
codes as there are acknowledgements, not `results` (line 616). The second component tells whether the request was used. -/
def late (s : Sub C) (data : Option (C × Bool)) (results : List AckStatus) (writeOk : Bool) : Sub C × Bool :=
  if s.alive = false ∨ s.isLate = false then (s, false)
  else
    match (if s.enabled then data else none) with
    | some (c, more) => (sendData s c more results writeOk true, true)
    | none =>
      if s.keepAlive ≥ s.maxKeepAlive ∨ s.pubCount = 0 then
        (sendKeepAlive s (List.replicate results.length .good) writeOk, true)
      else (s, false)

/-- Removing the first message with a number. -/
def removeFirst (q : List (BitVec 32 × C)) (n : BitVec 32) : List (BitVec 32 × C) :=
  match q with
  | [] => []
  | m :: q => if m.1 = n then q else m :: removeFirst q n

/-- Whether there is a message with a number. -/
def holds (q : List (BitVec 32 × C)) (n : BitVec 32) : Bool := q.any (fun m => decide (m.1 = n))

/-- `acknowledge`, subscription.go:268-280. -/
def acknowledge (s : Sub C) (n : BitVec 32) : Sub C × Bool :=
  ({ s with queue := removeFirst s.queue n }, holds s.queue n)

/-- `handleRepublish` from line 5520 on: the message, if any, and the new state. The message is removed
once it is written. -/
def republish (s : Sub C) (n : BitVec 32) (writeOk : Bool) : Sub C × Option C :=
  let s := { s with lifetime := 0 }
  match s.queue.find? (fun m => decide (m.1 = n)) with
  | none => (s, none)
  | some m => if writeOk then ({ s with queue := removeFirst s.queue n }, some m.2) else (s, none)

inductive Ev (C : Type) where
  | cycle (data : Option (C × Bool)) (req : Req)
  | late (data : Option (C × Bool)) (results : List AckStatus) (writeOk : Bool)
  | ack (n : BitVec 32)
  | republish (n : BitVec 32) (writeOk : Bool)
  | setMode (enabled : Bool)
  | modify (maxLifetime maxKeepAlive : Nat)
  /-- a service on the monitored items sets the counter back, e.g. server_service_set.go:4295-4297 -/
  | touch
  deriving DecidableEq, Repr

/-- One step. A deleted subscription is not found by the services. `modify` carries the revised
counts, see Model/Revise.lean. -/
def step (s : Sub C) (e : Ev C) : Sub C :=
  if s.alive = false then s
  else
    match e with
    | .cycle data req => cycle s data req
    | .late data results ok => (late s data results ok).1
    | .ack n => (acknowledge s n).1
    | .republish n ok => (republish s n ok).1
    | .setMode b => { s with enabled := b, lifetime := 0 }
    | .modify l k => { s with maxLifetime := l, maxKeepAlive := k, lifetime := 0 }
    | .touch => { s with lifetime := 0 }

def run (s : Sub C) (evs : List (Ev C)) : Sub C := evs.foldl step s

end Opcua.Subscription
