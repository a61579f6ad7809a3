import Verif.Model.PublishFlow

/-!
# The end of a session

CloseSession (server/server_service_set.go:870-960), the sweep over sessions that are not used any more
(server/session_manager.go:68-104), what `delete` leaves of a Session (server/session.go:151-172), and the
services that are under way on another connection at that moment, over the subscriptions and Publish
requests of Model/PublishFlow.lean.

Each connection has one goroutine, which handles a request after the other (server.go:416-429): a
service is a step that passes the gate (server_service_set.go:5271-5332 and the like) and a step that does
the rest. Only what needs the Session afterwards is kept apart: Publish, Browse, and the services that
create and change subscriptions.

Simplifications: those of Model/PublishFlow.lean; a session is named by its authentication token, which
is random and never given again; an ActivateSession that is accepted is one step, see Model/Session.lean for
who may do that; CreateSubscription never meets its limit; of the continuation points of Browse only
their number is kept, BrowseNext is in Model/Paging.lean; after a panic nothing happens any more.
-/

namespace Opcua.SessionEnd

open PublishFlow (Req Data Answer)

/-- A Session, session.go:36-70. `chan` is `channelId`, 0 before ActivateSession; `cps` is the number of
entries of `browseCPs`, `none` when the map is nil; `inTable`: `sessionsByToken` has it. The channel
`publishRequests` is the queue of Model/PublishFlow.lean; it is nil exactly when `cps` is `none`. -/
structure Sess where
  inTable : Bool
  chan : Nat
  last : Nat
  timeout : Nat
  cps : Option Nat
deriving DecidableEq, Repr

/-- What is left to do for a service that has passed the gate. -/
inductive Op where
  | publish (r : Req)
  /-- CreateSubscription with the revised counts -/
  | create (priority : Nat) (enabled : Bool) (maxKeepAlive maxLifetime : Nat)
  | modify (id priority maxKeepAlive maxLifetime : Nat)
  | setMode (ids : List Nat) (enabled : Bool)
  | delete (ids : List Nat)
  /-- Browse of a node with more references than are asked for at once -/
  | browse
  /-- services that do not use the Session after the gate -/
  | other
deriving DecidableEq, Repr

/-- `doing c`: the session and the service that the goroutine of connection `c` is at; `stuck c`: it waits
for a nil channel. -/
structure State where
  maxCPs : Nat
  flow : PublishFlow.State
  sess : Nat → Option Sess
  doing : Nat → Option (Nat × Op)
  stuck : Nat → Bool
  panicked : Bool

/-- Get, session_manager.go:39-47: it also notes the access. -/
def get (s : State) (w : Nat) : Option Sess :=
  match s.sess w with
  | some x => if x.inTable ∧ ¬ s.flow.now - x.last > x.timeout then some { x with last := s.flow.now } else none
  | none => none

/-- `delete` of the Session, session.go:151-172, and taking it out of the table. Nobody looks at the
requests that wait. -/
def gone (s : State) (w : Nat) (x : Sess) : State :=
  { s with
    sess := PublishFlow.set s.sess w (some { x with inTable := false, chan := 0, cps := none })
    flow := { s.flow with queue := PublishFlow.set s.flow.queue w [] } }

/-- addPublishRequest would be called, server_service_set.go:5349-5420. -/
def waits (f : PublishFlow.State) (w : Nat) (tie : Nat → Nat) (data : Nat → Data) : Bool :=
  decide (f.changes w = []) && decide (f.subs.length ≠ 0) &&
    (PublishFlow.firstLate data (PublishFlow.sort tie (PublishFlow.mine f.subs w))).isNone

/-- The goroutine of connection `c` takes its next request. -/
def done (s : State) (c : Nat) : State := { s with doing := PublishFlow.set s.doing c none }

/-- What comes after the gate. -/
def act (s : State) (c w : Nat) (x : Sess) (tie : Nat → Nat) (data : Nat → Data) : Op → State
  -- sending to the nil channel `publishRequests` and receiving from it wait for ever, session.go:292-299
  | .publish r =>
    if x.cps.isNone ∧ waits s.flow w tie data = true then { s with stuck := PublishFlow.set s.stuck c true }
    else done { s with flow := PublishFlow.step s.flow (.publish w r tie data) } c
  | .create p e k l => done { s with flow := PublishFlow.step s.flow (.create w p e k l) } c
  | .modify id p k l => done { s with flow := PublishFlow.step s.flow (.modify w id p k l) } c
  | .setMode ids e => done { s with flow := PublishFlow.step s.flow (.setMode w ids e) } c
  | .delete ids => done { s with flow := PublishFlow.step s.flow (.delete w ids) } c
  -- addBrowseContinuationPoint, session.go:348-359: assigning to an entry of a nil map panics
  | .browse =>
    match x.cps with
    | none => { s with panicked := true }
    | some n =>
      if s.maxCPs > 0 ∧ n ≥ s.maxCPs then done s c
      else done { s with sess := PublishFlow.set s.sess w (some { x with cps := some (n + 1) }) } c
  | .other => done s c

inductive Ev where
  | tick (d : Nat)
  /-- CreateSession -/
  | open (w timeout : Nat)
  /-- an accepted ActivateSession on connection `c` -/
  | activate (c w : Nat)
  /-- a request on connection `c` comes to the gate -/
  | call (c w : Nat) (op : Op)
  /-- the goroutine of connection `c` goes on -/
  | act (c : Nat) (tie : Nat → Nat) (data : Nat → Data)
  /-- CloseSession on connection `c` -/
  | close (c w : Nat) (deleteSubscriptions : Bool)
  /-- checkForExpiredSessions finds session `w`, session_manager.go:88-104 -/
  | expire (w : Nat)
  /-- the publishing timer of a subscription -/
  | timer (id : Nat) (d : Data)
  /-- checkForExpiredSubscriptions -/
  | sweep

def step (s : State) (e : Ev) : State :=
  if s.panicked = true then s
  else
    match e with
    | .tick d => { s with flow := PublishFlow.step s.flow (.tick d) }
    | .open w timeout =>
      if s.sess w = none then
        { s with sess := PublishFlow.set s.sess w (some ⟨true, 0, s.flow.now, timeout, some 0⟩) }
      else s
    | .activate c w =>
      if c = 0 ∨ s.doing c ≠ none then s
      else
        match get s w with
        | none => s
        | some x => { s with sess := PublishFlow.set s.sess w (some { x with chan := c }) }
    | .call c w op =>
      if c = 0 ∨ s.doing c ≠ none then s
      else
        match get s w with
        | none => s
        | some x =>
          if x.chan = 0 then gone s w x
          else
            let s := { s with sess := PublishFlow.set s.sess w (some x) }
            if x.chan ≠ c then s else { s with doing := PublishFlow.set s.doing c (some (w, op)) }
    | .act c tie data =>
      if s.stuck c = true then s
      else
        match s.doing c with
        | none => s
        | some (w, op) =>
          match s.sess w with
          | none => s
          | some x => act s c w x tie data op
    | .close c w deleteSubs =>
      if c = 0 ∨ s.doing c ≠ none then s
      else
        match get s w with
        | none => s
        | some x =>
          if x.chan = 0 then gone s w x
          else if x.chan ≠ c then { s with sess := PublishFlow.set s.sess w (some x) }
          else
            let s := if deleteSubs then
                { s with flow := { s.flow with subs := s.flow.subs.filter (fun t => decide (t.owner ≠ w)) } }
              else s
            gone s w x
    | .expire w =>
      match s.sess w with
      | none => s
      | some x => if x.inTable ∧ s.flow.now - x.last > x.timeout then gone s w x else s
    | .timer id d => { s with flow := PublishFlow.step s.flow (.timer id d) }
    | .sweep => { s with flow := PublishFlow.step s.flow .sweep }

def run (s : State) (evs : List Ev) : State := evs.foldl step s

/-- A server without sessions; `maxCPs` is `MaxBrowseContinuationPoints`. -/
def init (maxCPs : Nat) : State := ⟨maxCPs, PublishFlow.init, fun _ => none, fun _ => none, fun _ => false, false⟩

end Opcua.SessionEnd
