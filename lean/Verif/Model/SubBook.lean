import Verif.Model.Revise

/-!
# Subscriptions and what their client is told about them

The services CreateSubscription, ModifySubscription, SetPublishingMode, DeleteSubscriptions, CloseSession and the part of
Publish that tells of ended subscriptions (server/server_service_set.go), on the table of server/subscription_manager.go
and the settings and the lifetime counter of server/subscription.go, with the responses that are sent.

Simplifications: a service call is one step and its response arrives (see Model/Locks.lean for races); the authentication
token and the channel of a call are right, so that a call comes from a session, which is unknown to the server after it
was closed or has timed out; a session is named by its id; `stateChanges` never fills up (it has room for 64, Model/Locks.lean
has what happens else); diagnostics are left out; notifications are in Model/Subscription.lean and Model/PublishFlow.lean.
-/

namespace Opcua.SubBook

open Opcua.Revise (F64)

inductive Status where
  | good
  | badSessionIDInvalid
  | badTooManySubscriptions
  | badSubscriptionIDInvalid
  | badNothingToDo
  | badNoSubscription
  deriving DecidableEq, Repr

/-- What CreateSubscriptionRequest and ModifySubscriptionRequest ask for, ua/generated_types.go. -/
structure Params where
  interval : F64
  lifetime : Nat
  keepAlive : Nat
  maxNotifications : Nat
  priority : Nat
  deriving DecidableEq, Repr

/-- Subscription, server/subscription.go:28-63. `life` is lifetimeCount. -/
structure Sub where
  id : Nat
  owner : Nat
  interval : F64
  lifetime : Nat
  keepAlive : Nat
  maxNotifications : Nat
  priority : Nat
  enabled : Bool
  life : Nat
  deriving DecidableEq, Repr

/-- The number of milliseconds in a finite interval; setPublishingInterval leaves no other. -/
def rate : F64 → Rat
  | .fin q => q
  | _ => 0

/-- setPublishingInterval, setMaxKeepAliveCount, setLifetimeCount and setMaxNotificationsPerPublish in the order in which
NewSubscription and Modify call them, subscription.go:80-83, 176-179. -/
def Sub.set (u : Sub) (p : Params) : Sub :=
  let i := Revise.publishingInterval p.interval
  let k := Revise.maxKeepAliveCount (rate i) p.keepAlive
  { u with
    interval := i
    keepAlive := k
    lifetime := Revise.lifetimeCount (rate i) k p.lifetime
    maxNotifications := Revise.maxNotifications p.maxNotifications
    priority := p.priority }

/-- NewSubscription, subscription.go:66-85. -/
def newSub (id s : Nat) (p : Params) (enabled : Bool) : Sub :=
  Sub.set ⟨id, s, .fin 0, 0, 0, 0, 0, enabled, 0⟩ p

/-- Modify, subscription.go:172-185. -/
def Sub.modify (u : Sub) (p : Params) : Sub := { u.set p with life := 0 }

/-- SetPublishingMode, subscription.go:165-170. -/
def Sub.setMode (enabled : Bool) (u : Sub) : Sub := { u with enabled := enabled, life := 0 }

/-- `subs` is subscriptionsByID, `counter` the package variable subscriptionID (subscription.go:24), `changes` the queue
stateChanges of each session (the ids of the ended subscriptions), `gone` the sessions that are deleted. -/
structure Server where
  max : Nat
  counter : Nat
  subs : List Sub
  changes : Nat → List Nat
  gone : List Nat

def init (max : Nat) : Server := ⟨max, 0, [], fun _ => [], []⟩

/-- Get, subscription_manager.go:41-48. -/
def get (t : List Sub) (id : Nat) : Option Sub := t.find? (fun u => decide (u.id = id))

/-- `delete(m.subscriptionsByID, s.id)`, subscription_manager.go:71. -/
def erase (t : List Sub) (id : Nat) : List Sub := t.filter (fun u => decide (u.id ≠ id))

/-- A method that changes the subscription with this id. -/
def update (t : List Sub) (id : Nat) (f : Sub → Sub) : List Sub := t.map (fun u => if u.id = id then f u else u)

inductive Req where
  | create (p : Params) (enabled : Bool)
  | modify (id : Nat) (p : Params)
  | setMode (enabled : Bool) (ids : List Nat)
  | delete (ids : List Nat)
  | close (deleteSubs : Bool)
  | publish
  deriving DecidableEq, Repr

inductive Reply where
  | created (id : Nat) (interval : F64) (lifetime keepAlive : Nat)
  | modified (interval : F64) (lifetime keepAlive : Nat)
  | results (l : List Status)
  | closed
  /-- a PublishResponse with StatusChangeNotification BadTimeout -/
  | change (id : Nat)
  /-- the request is kept, or answered with notifications -/
  | waits
  | fault (st : Status)
  deriving DecidableEq, Repr

/-- The subscription that `sm.Get(id)` finds if `sub.sessionId == session.sessionId`. -/
def own (t : List Sub) (s id : Nat) : Option Sub :=
  match get t id with
  | none => none
  | some u => if u.owner = s then some u else none

/-- handleCreateSubscription, server_service_set.go:4852-4893, with Add, subscription_manager.go:51-64. -/
def create (sv : Server) (s : Nat) (p : Params) (enabled : Bool) : Server × Reply :=
  let id := (sv.counter + 1) % 2 ^ 32
  let u := newSub id s p enabled
  if sv.max > 0 ∧ sv.subs.length ≥ sv.max then ({ sv with counter := id }, .fault .badTooManySubscriptions)
  else ({ sv with counter := id, subs := erase sv.subs id ++ [u] }, .created u.id u.interval u.lifetime u.keepAlive)

/-- handleModifySubscription, server_service_set.go:4967-5007. -/
def modify (sv : Server) (s id : Nat) (p : Params) : Server × Reply :=
  match own sv.subs s id with
  | none => (sv, .fault .badSubscriptionIDInvalid)
  | some u => ({ sv with subs := update sv.subs id (fun u => u.modify p) },
      .modified (u.modify p).interval (u.modify p).lifetime (u.modify p).keepAlive)

/-- The loop of handleSetPublishingMode, server_service_set.go:5080-5090. -/
def setModes (s : Nat) (enabled : Bool) : List Sub → List Nat → List Sub × List Status
  | t, [] => (t, [])
  | t, id :: ids =>
    match own t s id with
    | some _ => ((setModes s enabled (update t id (Sub.setMode enabled)) ids).1,
        .good :: (setModes s enabled (update t id (Sub.setMode enabled)) ids).2)
    | none => ((setModes s enabled t ids).1, .badSubscriptionIDInvalid :: (setModes s enabled t ids).2)

/-- The loop of handleDeleteSubscriptions, server_service_set.go:5203-5214. -/
def deletes (s : Nat) : List Sub → List Nat → List Sub × List Status
  | t, [] => (t, [])
  | t, id :: ids =>
    match own t s id with
    | some _ => ((deletes s (erase t id) ids).1, .good :: (deletes s (erase t id) ids).2)
    | none => ((deletes s t ids).1, .badSubscriptionIDInvalid :: (deletes s t ids).2)

/-- handleDeleteSubscriptions, server_service_set.go:5182-5227. -/
def delete (sv : Server) (s : Nat) (ids : List Nat) : Server × Reply :=
  if ids.length = 0 then (sv, .fault .badNothingToDo)
  else ({ sv with subs := (deletes s sv.subs ids).1 }, .results (deletes s sv.subs ids).2)

/-- handleCloseSession, server_service_set.go:932-960, with GetBySession, subscription_manager.go:86-96. -/
def close (sv : Server) (s : Nat) (deleteSubs : Bool) : Server × Reply :=
  ({ sv with
      subs := if deleteSubs then sv.subs.filter (fun u => decide (u.owner ≠ s)) else sv.subs
      gone := s :: sv.gone }, .closed)

/-- handlePublish, server_service_set.go:5349-5430. -/
def publish (sv : Server) (s : Nat) : Server × Reply :=
  match sv.changes s with
  | id :: l => ({ sv with changes := fun x => if x = s then l else sv.changes x }, .change id)
  | [] => (sv, if sv.subs.length = 0 then .fault .badNoSubscription else .waits)

/-- A call of a session. -/
def call (sv : Server) (s : Nat) (r : Req) : Server × Reply :=
  if s ∈ sv.gone then (sv, .fault .badSessionIDInvalid)
  else match r with
    | .create p enabled => create sv s p enabled
    | .modify id p => modify sv s id p
    | .setMode enabled ids => ({ sv with subs := (setModes s enabled sv.subs ids).1 }, .results (setModes s enabled sv.subs ids).2)
    | .delete ids => delete sv s ids
    | .close deleteSubs => close sv s deleteSubs
    | .publish => publish sv s

/-- The publishing timer found no Publish request, subscription.go:415-429 (`data`: there are notifications) and 479-495. -/
def missed (sv : Server) (data : Bool) (u : Sub) : Server :=
  if (data = true ∧ u.life + 1 ≥ u.lifetime) ∨ (data = false ∧ u.life + 1 = u.lifetime) then
    { sv with
      subs := erase sv.subs u.id
      changes := fun x => if x = u.owner then sv.changes x ++ [u.id] else sv.changes x }
  else { sv with subs := update sv.subs u.id (fun u => { u with life := u.life + 1 }) }

inductive Ev where
  | call (s : Nat) (r : Req)
  /-- a Publish request was used for this subscription (subscription.go:410, 477, 600, 643), or another service used it
  (server_service_set.go:3783, 4070, 4297, 4462, 4645, 5521) -/
  | served (id : Nat)
  | missed (id : Nat) (data : Bool)
  /-- checkForExpiredSubscriptions, every minute, subscription_manager.go:98-119 -/
  | sweep
  /-- checkForExpiredSessions, session_manager.go:88-105 -/
  | timeout (s : Nat)
  deriving DecidableEq, Repr

/-- A step, and what was answered. -/
def step (sv : Server) : Ev → Server × Option Reply
  | .call s r => ((call sv s r).1, some (call sv s r).2)
  | .served id => ({ sv with subs := update sv.subs id (fun u => { u with life := 0 }) }, none)
  | .missed id data =>
    match get sv.subs id with
    | none => (sv, none)
    | some u => (missed sv data u, none)
  | .sweep => ({ sv with subs := sv.subs.filter (fun u => decide (u.life < u.lifetime)) }, none)
  | .timeout s => ({ sv with gone := s :: sv.gone }, none)

/-- The server, and all calls with their answers. -/
structure State where
  server : Server
  log : List (Nat × Req × Reply)

def next (st : State) (e : Ev) : State :=
  ⟨(step st.server e).1, match e, (step st.server e).2 with
    | .call s r, some a => st.log ++ [(s, r, a)]
    | _, _ => st.log⟩

def run (max : Nat) (evs : List Ev) : State := evs.foldl next ⟨init max, []⟩

end Opcua.SubBook
