/-!
# Which subscription answers a Publish request, and which requests wait

The whole of handlePublish after its gate (server/server_service_set.go:5335-5425), the emptying of the
queue at the end of DeleteSubscriptions (5228-5257), the publishing timers of all subscriptions
(server/subscription.go:305-500, handleLatePublishRequest 502-649), addPublishRequest and
removePublishRequest (server/session.go:292-346) and the sweep of the manager
(server/subscription_manager.go:97-117), for several sessions at once.

Simplifications: each service call and each turn of a timer is one step, Model/PublishQueue.lean and
Model/Locks.lean have the steps inside them; a write to a channel succeeds; sessions are numbers and
are not closed; ids of subscriptions do not wrap (C50 has that); what the items have to tell is part
of the event; acknowledgements are in Model/SubTable.lean. `stateChanges` has room for 64 entries and a
timer would block when it is full, see C83; here it is unbounded.
-/

namespace Opcua.PublishFlow

/-- A Publish request: `rid` names it, `deadline` is `Timestamp + TimeoutHint` (session.go:326). -/
structure Req where
  rid : Nat
  deadline : Nat
deriving DecidableEq, Repr

/-- The fields of a Subscription that decide about requests, subscription.go:26-62. `fresh` is
`publishRequestCount == 0`. -/
structure Sub where
  id : Nat
  owner : Nat
  priority : Nat
  enabled : Bool
  maxKeepAlive : Nat
  maxLifetime : Nat
  keepAlive : Nat
  lifetime : Nat
  late : Bool
  fresh : Bool
deriving DecidableEq, Repr

/-- How a request was answered. -/
inductive Answer where
  | notification (sub : Nat)
  | keepAlive (sub : Nat)
  | statusChange (sub : Nat)
  | badNoSubscription
  | badTimeout
  | badTooManyPublishRequests
deriving DecidableEq, Repr

/-- `queue` and `changes` are the channels `publishRequests` and `stateChanges` of each session;
`answers` records session, request and answer of every response, oldest first. -/
structure State where
  now : Nat
  next : Nat
  subs : List Sub
  queue : Nat → List Req
  changes : Nat → List Nat
  answers : List (Nat × Nat × Answer)

/-- What the items of a subscription have: nothing, or notifications, with or without more than one
response can carry. -/
inductive Data where
  | nothing
  | some
  | more
deriving DecidableEq, Repr

/-- Replacing the value at one session. -/
def set {α : Type} (f : Nat → α) (w : Nat) (v : α) : Nat → α := fun u => if u = w then v else f u

/-- The answers that removePublishRequest gives to overdue requests, the request it returns and what
stays in the channel, session.go:316-346. -/
def remove (now : Nat) : List Req → List (Nat × Answer) × Option Req × List Req
  | [] => ([], none, [])
  | r :: rs =>
    if now > r.deadline then
      let x := remove now rs
      ((r.rid, .badTimeout) :: x.1, x.2.1, x.2.2)
    else ([], some r, rs)

/-- The loop that empties the channel, server_service_set.go:5228-5257; no time passes in it. -/
def drain (now : Nat) : List Req → List (Nat × Answer)
  | [] => []
  | r :: rs => (r.rid, if now > r.deadline then .badTimeout else .badNoSubscription) :: drain now rs

/-- Recording answers to requests of one session. -/
def told (w : Nat) (as : List (Nat × Answer)) : List (Nat × Nat × Answer) := as.map (fun a => (w, a.1, a.2))

/-- addPublishRequest, session.go:292-314; the channel has room for 64 (129). -/
def enqueue (w : Nat) (r : Req) (s : State) : State :=
  match s.queue w with
  | [] => { s with queue := set s.queue w [r] }
  | o :: q =>
    if (o :: q).length < 64 then { s with queue := set s.queue w (o :: q ++ [r]) }
    else
      { s with
        queue := set s.queue w (q ++ [r])
        answers := s.answers ++ told w [(o.rid, .badTooManyPublishRequests)] }

/-- GetBySession, subscription_manager.go:84-95. -/
def mine (subs : List Sub) (w : Nat) : List Sub := subs.filter (fun s => decide (s.owner = w))

/-- Inserting by falling priority; among equals the order comes from `tie`. -/
def insert (tie : Nat → Nat) (a : Sub) : List Sub → List Sub
  | [] => [a]
  | b :: bs =>
    if a.priority > b.priority ∨ (a.priority = b.priority ∧ tie a.id ≤ tie b.id) then a :: b :: bs
    else b :: insert tie a bs

/-- `sort.Slice` by priority, server_service_set.go:5404-5407. Neither the iteration over the map nor
the sort fixes the order among equals: it is the function `tie`. -/
def sort (tie : Nat → Nat) : List Sub → List Sub
  | [] => []
  | a :: as => insert tie a (sort tie as)

/-- handleLatePublishRequest, subscription.go:502-649: the answer and the new state of the
subscription, if it has use for the request. -/
def handleLate (s : Sub) (d : Data) : Option (Answer × Sub) :=
  if s.late = false then none
  else if d ≠ .nothing ∧ s.enabled = true then
    some (.notification s.id,
      { s with fresh := false, keepAlive := 0, lifetime := 0, late := decide (d = .more) })
  else if s.keepAlive ≥ s.maxKeepAlive ∨ s.fresh = true then
    some (.keepAlive s.id, { s with fresh := false, keepAlive := 0, lifetime := 0, late := false })
  else none

/-- The loop over the subscriptions, server_service_set.go:5409-5417. -/
def firstLate (data : Nat → Data) : List Sub → Option (Answer × Sub)
  | [] => none
  | s :: ss =>
    match handleLate s (data s.id) with
    | some x => some x
    | none => firstLate data ss

/-- Storing the new state of a subscription. -/
def store (subs : List Sub) (t : Sub) : List Sub := subs.map (fun s => if s.id = t.id then t else s)

/-- handlePublish, server_service_set.go:5349-5425. -/
def publish (s : State) (w : Nat) (r : Req) (tie : Nat → Nat) (data : Nat → Data) : State :=
  match s.changes w with
  | c :: cs =>
    { s with
      changes := set s.changes w cs
      answers := s.answers ++ told w [(r.rid, .statusChange c)] }
  | [] =>
    -- `sm.Len()`, 5382, counts the subscriptions of all sessions
    if s.subs.length = 0 then { s with answers := s.answers ++ told w [(r.rid, .badNoSubscription)] }
    else
      match firstLate data (sort tie (mine s.subs w)) with
      | some (a, t) =>
        { s with
          subs := store s.subs t
          answers := s.answers ++ told w [(r.rid, a)] }
      | none => enqueue w r s

/-- The end of a turn of the timer without a request, subscription.go:415-430 and 481-497: `expired` is
the comparison with `maxLifetimeCount`, `>=` in the first place and `==` in the second. -/
def starve (s : State) (t : Sub) (expired : Nat → Nat → Bool) : State :=
  let t := { t with late := true, lifetime := t.lifetime + 1 }
  if expired t.lifetime t.maxLifetime then
    { s with
      changes := set s.changes t.owner (s.changes t.owner ++ [t.id])
      subs := s.subs.filter (fun u => decide (u.id ≠ t.id)) }
  else { s with subs := store s.subs t }

/-- publish of one subscription, subscription.go:305-500. -/
def cycle (s : State) (t : Sub) (d : Data) : State :=
  let x := remove s.now (s.queue t.owner)
  let s' := { s with
    queue := set s.queue t.owner x.2.2
    answers := s.answers ++ told t.owner x.1 }
  if d ≠ .nothing ∧ t.enabled = true then
    match x.2.1 with
    | some r =>
      { s' with
        subs := store s.subs { t with fresh := false, keepAlive := 0, lifetime := 0, late := false }
        answers := s'.answers ++ told t.owner [(r.rid, .notification t.id)] }
    | none => starve s' t (fun a b => decide (a ≥ b))
  else
    let t := { t with keepAlive := t.keepAlive + 1 }
    if t.keepAlive ≥ t.maxKeepAlive ∨ t.fresh = true then
      match x.2.1 with
      | some r =>
        { s' with
          subs := store s.subs { t with fresh := false, keepAlive := 0, lifetime := 0, late := false }
          answers := s'.answers ++ told t.owner [(r.rid, .keepAlive t.id)] }
      | none => starve s' t (fun a b => decide (a = b))
    else { s with subs := store s.subs t }

/-- DeleteSubscriptions, server_service_set.go:5180-5257. An empty list is refused before (5182). -/
def delete (s : State) (w : Nat) (ids : List Nat) : State :=
  if ids.length = 0 then s
  else
    let subs := s.subs.filter (fun t => decide (¬ (t.owner = w ∧ t.id ∈ ids)))
    if (mine subs w).length = 0 then
      { s with
        subs := subs
        queue := set s.queue w []
        answers := s.answers ++ told w (drain s.now (s.queue w)) }
    else { s with subs := subs }

inductive Ev where
  | tick (d : Nat)
  /-- CreateSubscription with the revised counts -/
  | create (w : Nat) (priority : Nat) (enabled : Bool) (maxKeepAlive maxLifetime : Nat)
  /-- Modify, subscription.go:172-185 -/
  | modify (w id : Nat) (priority : Nat) (maxKeepAlive maxLifetime : Nat)
  /-- SetPublishingMode, subscription.go:165-170 -/
  | setMode (w : Nat) (ids : List Nat) (enabled : Bool)
  | delete (w : Nat) (ids : List Nat)
  | publish (w : Nat) (r : Req) (tie : Nat → Nat) (data : Nat → Data)
  | timer (id : Nat) (d : Data)
  /-- checkForExpiredSubscriptions, subscription_manager.go:97-117 -/
  | sweep

def step (s : State) : Ev → State
  | .tick d => { s with now := s.now + d }
  | .create w p e k l =>
    { s with next := s.next + 1, subs := s.subs ++ [⟨s.next, w, p, e, k, l, 0, 0, false, true⟩] }
  | .modify w id p k l =>
    { s with subs := s.subs.map (fun t =>
        if t.id = id ∧ t.owner = w then
          { t with priority := p, maxKeepAlive := k, maxLifetime := l, lifetime := 0 }
        else t) }
  | .setMode w ids e =>
    { s with subs := s.subs.map (fun t =>
        if t.id ∈ ids ∧ t.owner = w then { t with enabled := e, lifetime := 0 } else t) }
  | .delete w ids => delete s w ids
  | .publish w r tie data => publish s w r tie data
  | .timer id d =>
    match s.subs.find? (fun t => decide (t.id = id)) with
    | none => s
    | some t => cycle s t d
  | .sweep => { s with subs := s.subs.filter (fun t => decide (¬ t.lifetime ≥ t.maxLifetime)) }

def run (s : State) (evs : List Ev) : State := evs.foldl step s

/-- A server without subscriptions. -/
def init : State := ⟨0, 1, [], fun _ => [], fun _ => [], []⟩

end Opcua.PublishFlow
