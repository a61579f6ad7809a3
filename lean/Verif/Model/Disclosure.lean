/-!
# What the server tells to whom

Every way in which a client is told the value of a variable, another attribute, or an event: Read, HistoryRead, the
notifications of its subscriptions, and Republish. Sessions have a user, which ActivateSession may change at any time.

Simplifications. The rights of users and the attributes of nodes are given and do not change (Model/Access.lean says how
they are found). Authentication is in Model/Session.lean and C94: here `activate` names the user. What a filter, a queue
that is full, a publishing timer or a limit drop or hold back is given with the event: `offer`, `discard`, `publish`. Values
are numbers. A request with several operations is as many events. TransferSubscriptions is not served
(server/server_service_set.go:5108), so a subscription stays with its session.
-/

namespace Opcua.Disclosure

inductive Status where
  | good | badNodeIDUnknown | badAttributeIDInvalid | badNotReadable | badUserAccessDenied | badMessageNotAvailable
  deriving DecidableEq, Repr

/-- What is told: the value of a variable, another attribute of a node, an event heard at an object, or a status only. -/
inductive Datum where
  | value (node v : Nat)
  | attr (node a : Nat)
  | event (node e : Nat)
  | status (s : Status)
  deriving DecidableEq, Repr

/-- The nodes, and what each user may do with them. -/
structure World where
  known : Nat → Bool
  isVariable : Nat → Bool
  isObject : Nat → Bool
  hasAttr : Nat → Nat → Bool
  /-- AccessLevel has CurrentRead -/
  readable : Nat → Bool
  /-- EventNotifier has SubscribeToEvents -/
  subscribable : Nat → Bool
  /-- PermissionTypeBrowse; the user, the node -/
  browse : Nat → Nat → Bool
  /-- UserAccessLevel has CurrentRead, variable_node.go:160-198 -/
  read : Nat → Nat → Bool
  /-- PermissionTypeReceiveEvents -/
  receive : Nat → Nat → Bool
  /-- the objects at which an event of this one is raised, namespace_manager.go:601-620 -/
  heard : Nat → List Nat

abbrev attrEventNotifier : Nat := 12
abbrev attrValue : Nat := 13

/-- readValue, server_service_set.go:6063-6098 and the cases that follow it. -/
def readValue (w : World) (vals : Nat → Nat) (user n a : Nat) : Datum :=
  if !w.known n then .status .badNodeIDUnknown
  else if !w.browse user n then .status .badNodeIDUnknown
  else if a = attrValue then
    if !w.isVariable n then .status .badAttributeIDInvalid
    else if !w.readable n then .status .badNotReadable
    else if !w.read user n then .status .badUserAccessDenied
    else .value n (vals n)
  else if !w.hasAttr n a then .status .badAttributeIDInvalid
  else .attr n a

/-- A session. -/
inductive Sess where
  | unborn
  /-- created, not yet activated -/
  | idle
  | active (user : Nat)
  | ended
  deriving DecidableEq, Repr

/-- DataChangeMonitoredItem and EventMonitoredItem; `pre` is the prequeue. Mode 0 is disabled. -/
structure Item where
  id : Nat
  node : Nat
  attr : Nat
  event : Bool
  mode : Int
  pre : List Datum := []
  queue : List Datum := []

structure Sub where
  session : Nat
  items : List Item := []
  seq : Nat := 0
  /-- the retransmission queue -/
  sent : List (Nat × List Datum) := []

/-- `told`: what was told to a session, with the user that it had then. -/
structure State where
  sessions : Nat → Sess := fun _ => .unborn
  subs : Nat → Option Sub := fun _ => none
  vals : Nat → Nat := fun _ => 0
  told : List (Nat × Nat × Datum) := []

inductive Ev where
  | openSession (s : Nat)
  | activate (s user : Nat)
  | close (s : Nat)
  | read (s n a : Nat)
  | history (s n : Nat)
  | subscribe (s k : Nat)
  | unsubscribe (k : Nat)
  | create (s k id n a : Nat) (mode : Int)
  | delete (k id : Nat)
  | setMode (k id : Nat) (mode : Int)
  | poll (k id : Nat)
  /-- the first value of the prequeue passes the filter, or not -/
  | offer (k id : Nat) (keep : Bool)
  /-- a full queue, or a smaller one, drops a value -/
  | discard (k id i : Nat)
  | raise (n e : Nat)
  | write (n v : Nat)
  /-- a Publish response; how many values of which item -/
  | publish (k : Nat) (count : Nat → Nat)
  | republish (s k seq : Nat)
  | acknowledge (k seq : Nat)

def set {α : Type} (m : Nat → α) (k : Nat) (x : α) : Nat → α := fun j => if j = k then x else m j

/-- The session gets a response. -/
def State.tell (st : State) (s user : Nat) (ds : List Datum) : State := { st with told := st.told ++ ds.map (fun d => (s, user, d)) }

/-- The item `id` of the subscription `k` changes. -/
def State.onItem (st : State) (k id : Nat) (f : Sub → Item → Item) : State :=
  { st with subs := fun j => (st.subs j).map (fun u => if j = k then { u with items := u.items.map (fun i => if i.id = id then f u i else i) } else u) }

/-- What a data item reads: with the rights of the user that the session of its subscription has now,
datachange_monitored_item.go:252, 269, 405; server_service_set.go:6064-6066. -/
def sample (w : World) (st : State) (u : Sub) (i : Item) : Datum :=
  match st.sessions u.session with
  | .active user => readValue w st.vals user i.node i.attr
  | _ => .status .badUserAccessDenied

/-- The checks of CreateMonitoredItems on the node and the user, server_service_set.go:3848-3866, 3910-3926, 3942-3946. The
user is that of the session that asks; whether the subscription is its own is not looked at. -/
def createStatus (w : World) (user n a : Nat) : Status :=
  if !w.known n then .badNodeIDUnknown
  else if !w.hasAttr n a then .badAttributeIDInvalid
  else if a = attrValue then
    if !w.isVariable n then .badAttributeIDInvalid
    else if !w.readable n then .badNotReadable
    else if !w.read user n then .badUserAccessDenied
    else .good
  else if a = attrEventNotifier then
    if !w.isObject n then .badAttributeIDInvalid
    else if !w.subscribable n then .badNotReadable
    else if !w.receive user n then .badUserAccessDenied
    else .good
  else if !w.browse user n then .badAttributeIDInvalid
  else .good

/-- startMonitoring, datachange_monitored_item.go:247-257: a data item that is not disabled reads at once. -/
def start (w : World) (st : State) (u : Sub) (i : Item) : Item :=
  if i.mode = 0 ∨ i.event = true then i else { i with pre := i.pre ++ [sample w st u i] }

/-- CreateMonitoredItems for one item. -/
def create (w : World) (st : State) (s k id n a : Nat) (mode : Int) : State :=
  match st.sessions s, st.subs k with
  | .active user, some u =>
    if createStatus w user n a = .good then
      let it := start w st u { id := id, node := n, attr := a, event := decide (a = attrEventNotifier), mode := mode }
      { st with subs := set st.subs k (some { u with items := u.items ++ [it] }) }.tell s user [.status .good]
    else st.tell s user [.status (createStatus w user n a)]
  | _, _ => st

/-- SetMonitoringMode, datachange_monitored_item.go:155-171, event_monitored_item.go:140-155. -/
def setMode (w : World) (st : State) (mode : Int) (u : Sub) (i : Item) : Item :=
  if i.mode = mode then i
  else start w st u (if mode = 0 then { i with mode := mode, queue := [] } else { i with mode := mode })

/-- Poll, datachange_monitored_item.go:266-273. -/
def poll (w : World) (st : State) (u : Sub) (i : Item) : Item := start w st u i

/-- notificationsAvailable, datachange_monitored_item.go:355-411, for one value of the prequeue. -/
def offer (keep : Bool) (i : Item) : Item :=
  match i.pre with
  | [] => i
  | d :: ds => { i with pre := ds, queue := if keep then i.queue ++ [d] else i.queue }

/-- OnEvent, event_monitored_item.go:213-219. Items that are disabled do not listen, 280-287. -/
def hear (w : World) (n e : Nat) (i : Item) : Item :=
  if i.event = true ∧ i.mode ≠ 0 ∧ i.node ∈ w.heard n then { i with queue := i.queue ++ [.event i.node e] } else i

/-- A Publish response, subscription.go:318-420: to the session of the subscription. -/
def publish (st : State) (k : Nat) (count : Nat → Nat) : State :=
  match st.subs k with
  | none => st
  | some u =>
    match st.sessions u.session with
    | .active user =>
      let ds := u.items.flatMap (fun i => i.queue.take (count i.id))
      let items := u.items.map (fun i => { i with queue := i.queue.drop (count i.id) })
      { st with subs := set st.subs k (some { u with items := items, seq := u.seq + 1, sent := u.sent ++ [(u.seq + 1, ds)] }) }.tell u.session user ds
    | _ => st

/-- handleRepublish, server_service_set.go:5499-5545: whose subscription it is does not matter. -/
def republish (st : State) (s k seq : Nat) : State :=
  match st.sessions s, st.subs k with
  | .active user, some u =>
    match u.sent.find? (fun m => m.1 == seq) with
    | some m => { st with subs := set st.subs k (some { u with sent := u.sent.filter (fun m => m.1 != seq) }) }.tell s user m.2
    | none => st.tell s user [.status .badMessageNotAvailable]
  | _, _ => st

/-- One event. -/
def step (w : World) (st : State) : Ev → State
  | .openSession s => if st.sessions s = .unborn then { st with sessions := set st.sessions s .idle } else st
  | .activate s user =>
    match st.sessions s with
    | .idle | .active _ => { st with sessions := set st.sessions s (.active user) }
    | _ => st
  | .close s => { st with sessions := set st.sessions s .ended }
  | .read s n a =>
    match st.sessions s with
    | .active user => st.tell s user [readValue w st.vals user n a]
    | _ => st
  /- handleHistoryRead, server_service_set.go:2391-2640: no right is looked at -/
  | .history s n =>
    match st.sessions s with
    | .active user => st.tell s user [.value n (st.vals n)]
    | _ => st
  | .subscribe s k =>
    match st.sessions s, st.subs k with
    | .active _, none => { st with subs := set st.subs k (some { session := s }) }
    | _, _ => st
  | .unsubscribe k => { st with subs := set st.subs k none }
  | .create s k id n a mode => create w st s k id n a mode
  | .delete k id => { st with subs := fun j => (st.subs j).map (fun u => if j = k then { u with items := u.items.filter (fun i => i.id != id) } else u) }
  | .setMode k id mode => st.onItem k id (setMode w st mode)
  | .poll k id => st.onItem k id (poll w st)
  | .offer k id keep => st.onItem k id (fun _ => offer keep)
  | .discard k id i => st.onItem k id (fun _ it => { it with queue := it.queue.eraseIdx i })
  | .raise n e => { st with subs := fun j => (st.subs j).map (fun u => { u with items := u.items.map (hear w n e) }) }
  | .write n v => { st with vals := set st.vals n v }
  | .publish k count => publish st k count
  | .republish s k seq => republish st s k seq
  | .acknowledge k seq => { st with subs := fun j => (st.subs j).map (fun u => if j = k then { u with sent := u.sent.filter (fun m => m.1 != seq) } else u) }

def run (w : World) (evs : List Ev) : State := evs.foldl (step w) {}

end Opcua.Disclosure
