/-!
# What the server keeps for its clients

Between two requests the server keeps connections, sessions with their waiting Publish requests,
continuation points and users, subscriptions with the notifications sent but not acknowledged, and
monitored items with their queues and triggering links; for the sampling of items it keeps a poll group, with
a goroutine and a ticker, for every interval. Events are the requests that change any of this, and what the
server does by itself, in any order. Content does not matter and is a number.

Simplifications: requests that are refused for reasons other than the limits are events that do not occur; the
values that were sampled since the last publishing (the `prequeue` of an item, which every publishing of a
item that is not disabled empties) are not counted; an event item is an item that has no poll group; what is
on its way through the worker pool is the concern of Model/Workers.lean, and what is being received the concern
of Model/Frame.lean. Times are in milliseconds.
-/

namespace Opcua.Kept

/-- The limits that the application sets; zero is none. server.go:28-31 (both are zero unless they are set),
session_manager.go:23, subscription_manager.go:23, session.go:132. `minSample` is MinSupportedSampleRate. -/
structure Limits where
  sessions : Nat
  subs : Nat
  cps : Nat
  minSample : Nat
  deriving DecidableEq, Repr

/-- MonitoredItem: of its parameters the interval and the size of the queue, of its state the queue and the
items that it triggers. datachange_monitored_item.go:17-40, event_monitored_item.go:15-32 -/
structure Item where
  id : Nat
  interval : Nat
  size : Nat
  discardOldest : Bool
  disabled : Bool
  event : Bool
  queue : List Nat := []
  links : List Nat := []
  deriving DecidableEq, Repr

/-- Subscription, subscription.go:28-62; `sent` is the retransmission queue. -/
structure Sub where
  id : Nat
  owner : Nat
  sent : List Nat := []
  items : List Item := []
  deriving DecidableEq, Repr

/-- Session, session.go:29-116. `active`: it has a channel; `users` is clientUserIdHistory. -/
structure Sess where
  token : Nat
  timeout : Nat
  last : Nat
  active : Bool := false
  users : List Nat := []
  waiting : List Nat := []
  cps : List (Nat × List Nat) := []
  lastCp : Nat := 0
  deriving DecidableEq, Repr

structure State where
  now : Nat := 0
  conns : List Nat := []
  sessions : List Sess := []
  subs : List Sub := []
  /-- the keys of `tickers`, scheduler.go:11 -/
  groups : List Nat := []
  nextSub : Nat := 1
  nextItem : Nat := 1
  deriving DecidableEq, Repr

def init : State := {}

inductive Ev where
  | tick (ms : Nat)
  /-- a client connects, a connection ends -/
  | connect (c : Nat) | disconnect (c : Nat)
  | createSession (t timeout : Nat) | activate (t user : Nat) | closeSession (t : Nat) (subs : Bool)
  /-- the server looks for sessions that have expired -/
  | sweep
  /-- a Publish request comes in; one is taken out, for an answer or because it timed out -/
  | publish (t r : Nat) | take (t : Nat)
  /-- a page of references is cut off `refs`; the client comes back for the next page, or lets it go -/
  | page (t : Nat) (refs : List Nat) | next (t cp max : Nat) (release : Bool)
  | createSub (t : Nat) | deleteSub (t id : Nat)
  /-- the lifetime of a subscription ends -/
  | expireSub (id : Nat)
  | notify (sub n : Nat) | acknowledge (t sub n : Nat)
  | createItem (t sub interval minNode size : Nat) (discardOldest disabled event : Bool)
  | modifyItem (t sub item interval minNode size : Nat) (discardOldest : Bool)
  | setMode (t sub item : Nat) (disabled : Bool)
  | deleteItem (t sub item : Nat)
  | value (sub item v : Nat) | drain (sub item n : Nat)
  | link (t sub trigger item : Nat) | unlink (t sub trigger item : Nat)
  deriving DecidableEq, Repr

/-- server.go:24-26, server_service_set.go:213-219 -/
def reviseTimeout (req : Nat) : Nat := min (max req 10000) 3600000

/-- SessionManager.Get: a session that has expired is not found; one that is found has been accessed.
session_manager.go:39-47, session.go:145-149 -/
def found (now t : Nat) (x : Sess) : Bool := x.token == t && decide (now - x.last ≤ x.timeout)

/-- What a handler does to its session. -/
def State.onSession (s : State) (t : Nat) (f : Sess → Sess) : State :=
  { s with sessions := s.sessions.map fun x => if found s.now t x then { f x with last := s.now } else x }

/-- How the handlers of the services of a session begin: no session, nothing; a session that was not activated
is deleted; otherwise the handler goes on. server_service_set.go:4781-4849 and the others like it. -/
def State.gated (s : State) (t : Nat) (f : State → State) : State :=
  match s.sessions.find? (found s.now t) with
  | none => s
  | some x =>
    if x.active then f (s.onSession t id)
    else { s with sessions := s.sessions.filter fun y => !found s.now t y }

/-- The subscription with this id; ids are unique. -/
def State.onSub (s : State) (id : Nat) (f : Sub → Sub) : State :=
  { s with subs := s.subs.map fun x => if x.id == id then f x else x }

/-- One item of one subscription. -/
def State.onItem (s : State) (sub item : Nat) (f : Item → Item) : State :=
  s.onSub sub fun u => { u with items := u.items.map fun i => if i.id == item then f i else i }

/-- FindItem, subscription.go:123-128 -/
def State.item? (s : State) (sub item : Nat) : Option Item :=
  ((s.subs.find? (·.id == sub)).map (·.items)).bind (·.find? (·.id == item))

/-- addPublishRequest: 64 wait at most; the oldest gives way. session.go:124, 290-312 -/
def addPublish (r : Nat) (x : Sess) : Sess :=
  { x with waiting := (if x.waiting.length < 64 then x.waiting else x.waiting.drop (x.waiting.length - 63)) ++ [r] }

/-- addBrowseContinuationPoint, session.go:348-359 -/
def addCp (L : Limits) (refs : List Nat) (x : Sess) : Sess :=
  if 0 < L.cps ∧ L.cps ≤ x.cps.length then x
  else { x with cps := x.cps ++ [(x.lastCp + 1, refs)], lastCp := x.lastCp + 1 }

/-- handleBrowseNext for one continuation point. server_service_set.go:1485-1518, session.go:361-373 -/
def nextPage (L : Limits) (cp max : Nat) (release : Bool) (x : Sess) : Sess :=
  match x.cps.find? (·.1 == cp) with
  | none => x
  | some p =>
    let x := { x with cps := x.cps.filter fun q => q.1 != cp }
    if release then x
    else if max < p.2.length then addCp L (p.2.drop max) x
    else x

/-- The queue of sent notifications: one is taken out when there are 128, and the new one comes in. After the
first has been removed there is no next element, so the loop ends. subscription.go:376-381, 566-570 -/
def addSent (n : Nat) (u : Sub) : Sub :=
  { u with sent := (if 128 ≤ u.sent.length then u.sent.drop 1 else u.sent) ++ [n] }

/-- setQueueSize, datachange_monitored_item.go:173-180; event_monitored_item.go:157-158 -/
def reviseSize (event : Bool) (req : Nat) : Nat := if event then 1024 else max (min req 1024) 1

/-- setSamplingInterval, datachange_monitored_item.go:207-235; `minNode` is the MinimumSamplingInterval of the
variable, zero for other attributes. -/
def reviseInterval (L : Limits) (req minNode : Nat) : Nat := max (min (max req L.minSample) 60000) minNode

/-- datachange_monitored_item.go:182-204, event_monitored_item.go:161-170 -/
def trim (i : Item) : Item :=
  { i with queue := if i.discardOldest then i.queue.drop (i.queue.length - i.size) else i.queue.take i.size }

/-- enqueue, datachange_monitored_item.go:300-326, event_monitored_item.go:184-204 -/
def enqueue (v : Nat) (i : Item) : Item :=
  if i.queue.length < i.size then { i with queue := i.queue ++ [v] }
  else if i.discardOldest then { i with queue := i.queue.drop (i.queue.length - (i.size - 1)) ++ [v] }
  else { i with queue := i.queue.take (i.size - 1) ++ [v] }

/-- GetPollGroup: the group of the interval, which is made if there is none. scheduler.go:24-37 -/
def State.pollGroup (L : Limits) (s : State) (interval : Nat) : State :=
  let k := max interval L.minSample
  if s.groups.contains k then s else { s with groups := s.groups ++ [k] }

/-- stopMonitoring of an item and startMonitoring with another interval: both get a poll group, the second
unless the item is disabled; an item for events gets none. datachange_monitored_item.go:246-263 -/
def State.restart (L : Limits) (s : State) (event : Bool) (old new : Nat) (disabled : Bool) : State :=
  if event then s
  else if disabled then s.pollGroup L old
  else (s.pollGroup L old).pollGroup L new

/-- handleCloseSession, server_service_set.go:929-940, session_manager.go:68-78 -/
def State.close (t : Nat) (subs : Bool) (s : State) : State :=
  { s with
    subs := if subs then s.subs.filter fun u => u.owner != t else s.subs
    sessions := s.sessions.filter fun x => !found s.now t x }

/-- handleCreateSubscription, server_service_set.go:4851-4869, subscription_manager.go:51-64. The subscription that is
refused has used up an id. -/
def State.newSub (L : Limits) (t : Nat) (s : State) : State :=
  if 0 < L.subs ∧ L.subs ≤ s.subs.length then { s with nextSub := s.nextSub + 1 }
  else { s with subs := s.subs ++ [{ id := s.nextSub, owner := t }], nextSub := s.nextSub + 1 }

def State.addItem (sub : Nat) (i : Item) (s : State) : State :=
  { s.onSub sub (fun u => { u with items := u.items ++ [i] }) with nextItem := s.nextItem + 1 }

/-- handleCreateMonitoredItems for an item that is accepted. server_service_set.go:3850-3957,
datachange_monitored_item.go:43-68, event_monitored_item.go:35-57, subscription.go:130-143. There is no limit. -/
def State.newItem (L : Limits) (sub interval minNode size : Nat) (discardOldest disabled event : Bool) (s : State) : State :=
  if s.subs.any (·.id == sub) then
    let k := reviseInterval L interval minNode
    let s := s.addItem sub ⟨s.nextItem, k, reviseSize event size, discardOldest, disabled, event, [], []⟩
    if event || disabled then s else s.pollGroup L k
  else s

/-- Modify, datachange_monitored_item.go:127-139, event_monitored_item.go:114-126 -/
def State.modify (L : Limits) (sub item interval minNode size : Nat) (discardOldest : Bool) (s : State) : State :=
  match s.item? sub item with
  | none => s
  | some i =>
    let k := reviseInterval L interval minNode
    (s.onItem sub item fun i => trim { i with
        interval := k
        size := reviseSize i.event size
        discardOldest := discardOldest }).restart L i.event i.interval k i.disabled

/-- SetMonitoringMode, datachange_monitored_item.go:155-171, event_monitored_item.go:140-155 -/
def State.mode (L : Limits) (sub item : Nat) (disabled : Bool) (s : State) : State :=
  match s.item? sub item with
  | none => s
  | some i =>
    if i.disabled = disabled then s
    else (s.onItem sub item fun i => { i with disabled := disabled, queue := if disabled then [] else i.queue }).restart L
      i.event i.interval i.interval disabled

/-- SetTriggering: a link is added, whether or not it is there; removed is one that is there. Both items have to
be there. server_service_set.go:4505-4531, datachange_monitored_item.go:276-298; the order of the links does not
matter. -/
def State.link (sub trigger item : Nat) (s : State) : State :=
  if (s.item? sub item).isSome then s.onItem sub trigger fun i => { i with links := i.links ++ [item] } else s

def State.unlink (sub trigger item : Nat) (s : State) : State :=
  if (s.item? sub item).isSome then s.onItem sub trigger fun i => { i with links := i.links.erase item } else s

/-- Delete of an item: the links of other items to it stay. subscription.go:145-159,
datachange_monitored_item.go:142-152 -/
def State.deleteItem (sub item : Nat) (s : State) : State :=
  s.onSub sub fun u => { u with items := u.items.filter fun i => i.id != item }

def step (L : Limits) (s : State) : Ev → State
  | .tick ms => { s with now := s.now + ms }
  -- server.go:354-381
  | .connect c => { s with conns := c :: s.conns.filter (· != c) }
  | .disconnect c => { s with conns := s.conns.filter (· != c) }
  -- server_service_set.go:209-248, session_manager.go:50-65
  | .createSession t timeout =>
    if 0 < L.sessions ∧ L.sessions ≤ s.sessions.length then s
    else { s with sessions := (s.sessions.filter fun x => x.token != t) ++
             [{ token := t, timeout := reviseTimeout timeout, last := s.now }] }
  -- server_service_set.go:841-846, session.go:204-224
  | .activate t user => s.onSession t fun x => { x with active := true, users := x.users ++ [user] }
  | .closeSession t subs => s.gated t (State.close t subs)
  -- session_manager.go:87-103
  | .sweep => { s with sessions := s.sessions.filter fun x => decide (s.now - x.last ≤ x.timeout) }
  -- session.go:290-346
  | .publish t r => s.gated t fun s => s.onSession t (addPublish r)
  | .take t => { s with sessions := s.sessions.map fun x => if x.token == t then { x with waiting := x.waiting.drop 1 } else x }
  | .page t refs => s.gated t fun s => s.onSession t (addCp L refs)
  | .next t cp max release => s.gated t fun s => s.onSession t (nextPage L cp max release)
  | .createSub t => s.gated t (State.newSub L t)
  -- server_service_set.go:5180-5230 and subscription.go:418-433
  | .deleteSub t id => s.gated t fun s => { s with subs := s.subs.filter fun u => u.id != id }
  | .expireSub id => { s with subs := s.subs.filter fun u => u.id != id }
  | .notify sub n => s.onSub sub (addSent n)
  -- subscription.go:268-281
  | .acknowledge t sub n => s.gated t fun s => s.onSub sub fun u => { u with sent := u.sent.erase n }
  | .createItem t sub interval minNode size discardOldest disabled event =>
    s.gated t (State.newItem L sub interval minNode size discardOldest disabled event)
  | .modifyItem t sub item interval minNode size discardOldest =>
    s.gated t (State.modify L sub item interval minNode size discardOldest)
  | .setMode t sub item disabled => s.gated t (State.mode L sub item disabled)
  | .deleteItem t sub item => s.gated t (State.deleteItem sub item)
  | .value sub item v => s.onItem sub item (enqueue v)
  -- datachange_monitored_item.go:336-352
  | .drain sub item n => s.onItem sub item fun i => { i with queue := i.queue.drop n }
  | .link t sub trigger item => s.gated t (State.link sub trigger item)
  | .unlink t sub trigger item => s.gated t (State.unlink sub trigger item)

def run (L : Limits) (s : State) (evs : List Ev) : State := evs.foldl (step L) s

/-- Without options: server.go:28-31, 103-104, ua/server_capabilites.go:18-33. -/
def defaults : Limits := ⟨0, 0, 10, 100⟩

end Opcua.Kept
