import Verif.Model.Revise

/-!
# The publishing timers of subscriptions

What CreateSubscription, ModifySubscription, SetPublishingMode and DeleteSubscriptions answer after their
gate (server/server_service_set.go:4851-4892, 4973-5005, 5083-5104 and 5180-5226), and the goroutines
with a ticker that startPublishing and stopPublishing start and stop (server/subscription.go:280-303).

Simplifications: time passes in whole milliseconds, all intervals of tickers being whole milliseconds; a
service call is one step; what publish does is in Model/Subscription.lean and Model/PublishFlow.lean, here
only its turns are recorded; a goroutine that is about to run publish when its subscription is deleted is
in Model/SubCrash.lean, and so is a DeleteSubscriptions that comes between `Add` and `startPublishing`;
subscriptions whose lifetime is over are deleted by the event `expire`; ids do not wrap.
-/

namespace Opcua.PublishTimer

open Revise (F64)

/-- Where a goroutine of startPublishing is, subscription.go:284-295: before NewTicker, in the loop with the
time of the next tick and with or without a tick in `ticker.C`, which has room for one, or at its end. -/
inductive Phase where
  | starting
  | running (next : Nat) (full : Bool)
  | ended
deriving DecidableEq, Repr

/-- A goroutine of startPublishing: the subscription, the interval of the ticker, and whether its channel
`done` is closed. -/
structure Timer where
  sub : Nat
  period : Nat
  closed : Bool
  phase : Phase
deriving DecidableEq, Repr

/-- A Subscription, subscription.go:26-62. `timer` stands for `cancelPublishing`. -/
structure Sub where
  id : Nat
  owner : Nat
  interval : F64
  keepAlive : Nat
  lifetime : Nat
  enabled : Bool
  timer : Nat
deriving DecidableEq, Repr

/-- What a client is told. -/
inductive Response where
  /-- CreateSubscriptionResponse: id, interval, lifetime and keep-alive counts -/
  | created (id : Nat) (interval : F64) (lifetime keepAlive : Nat)
  /-- ModifySubscriptionResponse; the id is the one of the request -/
  | modified (id : Nat) (interval : F64) (lifetime keepAlive : Nat)
  /-- SetPublishingModeResponse and DeleteSubscriptionsResponse, `true` for Good -/
  | results (rs : List Bool)
  | badSubscriptionIdInvalid
  | badTooManySubscriptions
  | badNothingToDo
deriving DecidableEq, Repr

/-- `cycles` records the time and the goroutine of every call of publish, oldest first. -/
structure State where
  now : Nat
  next : Nat
  limit : Nat
  subs : List Sub
  timers : List Timer
  responses : List (Nat × Response)
  cycles : List (Nat × Nat)
deriving Repr

/-- `time.Duration(int64(s.publishingInterval))` in milliseconds, subscription.go:297. -/
def period (i : F64) : Nat := (Revise.toInt64 i).toNat

/-- The interval as a number; the revised interval is always one (C43). -/
def num : F64 → Rat
  | .fin q => q
  | _ => 0

/-- startPublishing, subscription.go:280-298: the goroutine has not yet run. -/
def newTimer (id : Nat) (i : F64) : Timer := ⟨id, period i, false, .starting⟩

/-- stopPublishing, subscription.go:300-303. -/
def close (timers : List Timer) (k : Nat) : List Timer := timers.modify k (fun t => { t with closed := true })

/-- Get and the comparison of the session, server_service_set.go:4974-4975, 5086-5087, 5206-5207. -/
def find (s : State) (w id : Nat) : Option Sub := s.subs.find? (fun x => decide (x.id = id ∧ x.owner = w))

/-- Storing the new state of a subscription. -/
def store (subs : List Sub) (x : Sub) : List Sub := subs.map (fun y => if y.id = x.id then x else y)

/-- handleCreateSubscription, server_service_set.go:4851-4892, and NewSubscription, subscription.go:66-86. The
id is taken from the counter before the limit is looked at (70). -/
def create (s : State) (w : Nat) (interval : F64) (lifetime keepAlive : Nat) (enabled : Bool) : State :=
  if s.limit > 0 ∧ s.subs.length ≥ s.limit then
    { s with
      next := s.next + 1
      responses := s.responses ++ [(w, .badTooManySubscriptions)] }
  else
    let i := Revise.publishingInterval interval
    let k := Revise.maxKeepAliveCount (num i) keepAlive
    let l := Revise.lifetimeCount (num i) k lifetime
    { s with
      next := s.next + 1
      subs := s.subs ++ [⟨s.next, w, i, k, l, enabled, s.timers.length⟩]
      timers := s.timers ++ [newTimer s.next i]
      responses := s.responses ++ [(w, .created s.next i l k)] }

/-- handleModifySubscription, server_service_set.go:4973-5005, and Modify, subscription.go:172-185. -/
def modify (s : State) (w id : Nat) (interval : F64) (lifetime keepAlive : Nat) : State :=
  match find s w id with
  | none => { s with responses := s.responses ++ [(w, .badSubscriptionIdInvalid)] }
  | some x =>
    let i := Revise.publishingInterval interval
    let k := Revise.maxKeepAliveCount (num i) keepAlive
    let l := Revise.lifetimeCount (num i) k lifetime
    { s with
      subs := store s.subs { x with interval := i, keepAlive := k, lifetime := l, timer := s.timers.length }
      timers := close s.timers x.timer ++ [newTimer id i]
      responses := s.responses ++ [(w, .modified id i l k)] }

/-- The loop of handleSetPublishingMode, server_service_set.go:5083-5094. -/
def setModes (s : State) (w : Nat) (enabled : Bool) : List Nat → State × List Bool
  | [] => (s, [])
  | id :: ids =>
    match find s w id with
    | some x =>
      let r := setModes { s with subs := store s.subs { x with enabled := enabled } } w enabled ids
      (r.1, true :: r.2)
    | none =>
      let r := setModes s w enabled ids
      (r.1, false :: r.2)

/-- handleSetPublishingMode; an empty list is not refused. -/
def setMode (s : State) (w : Nat) (ids : List Nat) (enabled : Bool) : State :=
  let r := setModes s w enabled ids
  { r.1 with responses := r.1.responses ++ [(w, .results r.2)] }

/-- Delete of the manager and of the subscription, subscription_manager.go:65-73, subscription.go:92-115. -/
def remove (s : State) (x : Sub) : State :=
  { s with
    subs := s.subs.filter (fun y => decide (y.id ≠ x.id))
    timers := close s.timers x.timer }

/-- The loop of handleDeleteSubscriptions, server_service_set.go:5203-5214. -/
def deletes (s : State) (w : Nat) : List Nat → State × List Bool
  | [] => (s, [])
  | id :: ids =>
    match find s w id with
    | some x =>
      let r := deletes (remove s x) w ids
      (r.1, true :: r.2)
    | none =>
      let r := deletes s w ids
      (r.1, false :: r.2)

/-- handleDeleteSubscriptions, server_service_set.go:5180-5226. -/
def delete (s : State) (w : Nat) (ids : List Nat) : State :=
  if ids.length = 0 then { s with responses := s.responses ++ [(w, .badNothingToDo)] }
  else
    let r := deletes s w ids
    { r.1 with responses := r.1.responses ++ [(w, .results r.2)] }

/-- A ticker when a millisecond has passed: the tick is lost if the last one has not been taken. -/
def Timer.pass (now : Nat) (t : Timer) : Timer :=
  match t.phase with
  | .running next full =>
    if now + 1 = next then { t with phase := .running (next + t.period) true } else { t with phase := .running next full }
  | _ => t

inductive Ev where
  /-- a millisecond passes -/
  | ms
  | create (w : Nat) (interval : F64) (lifetime keepAlive : Nat) (enabled : Bool)
  | modify (w id : Nat) (interval : F64) (lifetime keepAlive : Nat)
  | setMode (w : Nat) (ids : List Nat) (enabled : Bool)
  | delete (w : Nat) (ids : List Nat)
  /-- the end of its lifetime, subscription.go:417-427 and subscription_manager.go:97-117 -/
  | expire (id : Nat)
  /-- the goroutine `k` comes to NewTicker -/
  | start (k : Nat)
  /-- the goroutine `k` finds a tick and calls publish -/
  | turn (k : Nat)
  /-- the goroutine `k` finds `done` closed; when a tick is there as well, select takes either -/
  | stop (k : Nat)

def step (s : State) : Ev → State
  | .ms => { s with now := s.now + 1, timers := s.timers.map (Timer.pass s.now) }
  | .create w i l k e => create s w i l k e
  | .modify w id i l k => modify s w id i l k
  | .setMode w ids e => setMode s w ids e
  | .delete w ids => delete s w ids
  | .expire id =>
    match s.subs.find? (fun x => decide (x.id = id)) with
    | none => s
    | some x => remove s x
  | .start k =>
    match s.timers[k]? with
    | some t =>
      if t.phase = .starting then
        { s with timers := s.timers.set k { t with phase := .running (s.now + t.period) false } }
      else s
    | none => s
  | .turn k =>
    match s.timers[k]? with
    | some t =>
      match t.phase with
      | .running next true =>
        { s with
          timers := s.timers.set k { t with phase := .running next false }
          cycles := s.cycles ++ [(s.now, k)] }
      | _ => s
    | none => s
  | .stop k =>
    match s.timers[k]? with
    | some t =>
      match t.phase with
      | .running _ _ => if t.closed then { s with timers := s.timers.set k { t with phase := .ended } } else s
      | _ => s
    | none => s

def run (s : State) (evs : List Ev) : State := evs.foldl step s

/-- A server without subscriptions; `limit` is `maxSubscriptionCount`, 0 for none. -/
def init (limit : Nat) : State := ⟨0, 1, limit, [], [], [], []⟩

end Opcua.PublishTimer
