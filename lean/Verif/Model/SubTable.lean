import Verif.Model.Subscription

/-!
# The table of subscriptions and the services that work on it

`SubscriptionManager` (server/subscription_manager.go:37-95) and the parts of the handlers in
server/server_service_set.go that look up a subscription and change it. `C` is the type of
notification data and `I` that of monitored items; what a service does to the items of the
subscription it found is a function in the request.

Simplifications: each service call is one step, see Model/Locks.lean for races between them; sessions
are named by their `sessionId`, and a subscription keeps the name of its session, which is also what
`sub.session == session` compares as long as the session exists; service and operation limits are
left out; the diagnostics nodes are left out.
-/

namespace Opcua.SubTable

open Opcua.Subscription

variable {C I : Type}

structure Entry (C I : Type) where
  id : BitVec 32
  owner : Nat
  sub : Subscription.Sub C
  items : List (BitVec 32 × I)

/-- `counter` is the package variable `subscriptionID` (subscription.go:24); `subs` is the map
`subscriptionsByID`. -/
structure Server (C I : Type) where
  max : Nat
  counter : BitVec 32
  subs : List (Entry C I)

/-- `Get`, subscription_manager.go:41-48. -/
def get (t : List (Entry C I)) (id : BitVec 32) : Option (Entry C I) :=
  t.find? (fun e => decide (e.id = id))

/-- Changing the subscription with an id. -/
def update (t : List (Entry C I)) (id : BitVec 32) (f : Entry C I → Entry C I) : List (Entry C I) :=
  t.map (fun e => if e.id = id then f e else e)

/-- `delete(m.subscriptionsByID, s.id)`, subscription_manager.go:68-76. -/
def erase (t : List (Entry C I)) (id : BitVec 32) : List (Entry C I) := t.filter (fun e => decide (e.id ≠ id))

/-- `Add`, subscription_manager.go:51-64. -/
def add (s : Server C I) (e : Entry C I) : Server C I × Bool :=
  if s.max > 0 ∧ s.subs.length ≥ s.max then (s, false)
  else ({ s with subs := erase s.subs e.id ++ [e] }, true)

/-- The services on the monitored items of one subscription. -/
inductive ItemService where
  | createMonitoredItems
  | modifyMonitoredItems
  | setMonitoringMode
  | setTriggering
  | deleteMonitoredItems
  deriving DecidableEq, Repr

/-- Whether the handler compares `sub.sessionId` with the session of the caller:
server_service_set.go:3762, 4048-4049, 4276, 4441, 4624. -/
def ItemService.checksOwner : ItemService → Bool
  | .modifyMonitoredItems => true
  | _ => false

inductive Ev (C I : Type) where
  | create (who : Nat) (enabled : Bool) (maxLifetime maxKeepAlive : Nat)
  | modify (who : Nat) (id : BitVec 32) (maxLifetime maxKeepAlive : Nat)
  | setPublishing (who : Nat) (enabled : Bool) (ids : List (BitVec 32))
  | delete (who : Nat) (ids : List (BitVec 32))
  | close (who : Nat)
  | items (service : ItemService) (who : Nat) (id : BitVec 32) (f : List (BitVec 32 × I) → List (BitVec 32 × I))
  | acks (who : Nat) (acks : List (BitVec 32 × BitVec 32))
  | republish (who : Nat) (id n : BitVec 32) (writeOk : Bool)
  | timer (id : BitVec 32) (data : Option (C × Bool)) (req : Req)
  | late (who : Nat) (id : BitVec 32) (data : Option (C × Bool)) (results : List AckStatus) (writeOk : Bool)

/-- One acknowledgement of a Publish request, server_service_set.go:5337-5347. The owner is not
looked at. -/
def ackOne (t : List (Entry C I)) (a : BitVec 32 × BitVec 32) : List (Entry C I) × AckStatus :=
  match get t a.1 with
  | none => (t, .badSubscriptionIDInvalid)
  | some e =>
    (update t a.1 (fun e => { e with sub := (acknowledge e.sub a.2).1 }),
      if (acknowledge e.sub a.2).2 then .good else .badSequenceNumberUnknown)

/-- The loop over the acknowledgements. -/
def ackAll (t : List (Entry C I)) : List (BitVec 32 × BitVec 32) → List (Entry C I) × List AckStatus
  | [] => (t, [])
  | a :: as =>
    let r := ackOne t a
    let rs := ackAll r.1 as
    (rs.1, r.2 :: rs.2)

/-- One id of a DeleteSubscriptions request, server_service_set.go:5206-5214. -/
def deleteOne (who : Nat) (t : List (Entry C I)) (id : BitVec 32) : List (Entry C I) :=
  match get t id with
  | none => t
  | some e => if e.owner = who then erase t id else t

/-- One id of a SetPublishingMode request, server_service_set.go:5084-5090. -/
def setPublishingOne (who : Nat) (enabled : Bool) (t : List (Entry C I)) (id : BitVec 32) : List (Entry C I) :=
  match get t id with
  | none => t
  | some e =>
    if e.owner = who then update t id (fun e => { e with sub := Subscription.step e.sub (.setMode enabled) })
    else t

/-- One step. -/
def step (s : Server C I) : Ev C I → Server C I
  -- handleCreateSubscription, server_service_set.go:4852-4876; the counter advances even if Add fails
  | .create who enabled l k =>
    (add { s with counter := s.counter + 1 } ⟨s.counter + 1, who, Subscription.new enabled l k, []⟩).1
  -- handleModifySubscription, 4968-4991
  | .modify who id l k =>
    match get s.subs id with
    | none => s
    | some e =>
      if e.owner ≠ who then s
      else { s with subs := update s.subs id (fun e => { e with sub := Subscription.step e.sub (.modify l k) }) }
  | .setPublishing who enabled ids => { s with subs := ids.foldl (setPublishingOne who enabled) s.subs }
  | .delete who ids => { s with subs := ids.foldl (deleteOne who) s.subs }
  -- handleCloseSession with DeleteSubscriptions, 933-939
  | .close who => { s with subs := s.subs.filter (fun e => decide (e.owner ≠ who)) }
  | .items service who id f =>
    match get s.subs id with
    | none => s
    | some e =>
      if service.checksOwner = true ∧ e.owner ≠ who then s
      else
        { s with subs := update s.subs id (fun e =>
            { e with sub := Subscription.step e.sub .touch, items := f e.items }) }
  | .acks _ acks => { s with subs := (ackAll s.subs acks).1 }
  -- handleRepublish, 5499-5549
  | .republish _ id n ok =>
    match get s.subs id with
    | none => s
    | some _ =>
      { s with subs := update s.subs id (fun e => { e with sub := Subscription.step e.sub (.republish n ok) }) }
  -- publish, subscription.go:305-500; an expired subscription leaves the table (427, 493)
  | .timer id data req =>
    { s with subs := (update s.subs id (fun e =>
        { e with sub := Subscription.step e.sub (.cycle data req) })).filter (fun e => e.sub.alive) }
  -- handlePublish, 5405-5418: only the subscriptions of the session are asked
  | .late who id data results ok =>
    match get s.subs id with
    | none => s
    | some e =>
      if e.owner ≠ who then s
      else { s with subs := update s.subs id (fun e => { e with sub := Subscription.step e.sub (.late data results ok) }) }

def run (s : Server C I) (evs : List (Ev C I)) : Server C I := evs.foldl step s

/-- A server without subscriptions. -/
def init (max : Nat) : Server C I := ⟨max, 0, []⟩

end Opcua.SubTable
