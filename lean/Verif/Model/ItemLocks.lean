/-!
# Locks of monitored items and of the nodes that raise events

The locks of subscriptions (server/subscription.go:28), of monitored items
(server/datachange_monitored_item.go:20, server/event_monitored_item.go:16), of object nodes
(server/object_node.go) and of poll groups (server/scheduler.go:38), and in which order publishing, events
and the services on monitored items take them. Sampling the diagnostics of a subscription takes the lock of
that subscription (server/subscription_manager.go:158-160, server/server.go:814-815), sampling those of a
session the lock of the subscription manager (server/session_manager.go:142-145).

Simplifications: read locks are exclusive; goroutines run finite programs; the lock of the scheduler,
which is taken and given back on its own just before that of a poll group, is left out.
-/

namespace Opcua.ItemLocks

inductive Lock where
  /-- the lock of the subscription manager, server/subscription_manager.go:14 -/
  | table
  | sub (k : Nat)
  | node (n : Nat)
  | group
  | item (i : Nat)
  deriving DecidableEq, Repr

inductive Instr where
  | acquire (l : Lock)
  | release (l : Lock)
  deriving DecidableEq, Repr

structure State where
  held : Lock → Option Nat
  prog : Nat → List Instr

def set {α β : Type} [DecidableEq α] (f : α → β) (a : α) (b : β) : α → β := fun x => if x = a then b else f x

/-- One instruction of goroutine `t`, if it need not wait. -/
def step (s : State) (t : Nat) : State :=
  match s.prog t with
  | [] => s
  | .acquire l :: p => if s.held l = none then { held := set s.held l (some t), prog := set s.prog t p } else s
  | .release l :: p => { held := set s.held l none, prog := set s.prog t p }

/-- A schedule says whose turn it is. -/
def run (s : State) (schedule : List Nat) : State := schedule.foldl step s

/-- A lock taken and given back at once. -/
def once (l : Lock) : List Instr := [.acquire l, .release l]

/-- `enqueue` of an item with links: `SetTriggered` on each of them,
datachange_monitored_item.go:328-333, 117-121. -/
def trigger (links : List Nat) : List Instr := links.flatMap (fun l => once (.item l))

/-- Diagnostics that an item samples. -/
inductive Source where
  /-- of subscription `k` -/
  | sub (k : Nat)
  /-- of a session -/
  | session
  deriving DecidableEq, Repr

/-- The lock that the handler of the variable takes. -/
def Source.lock : Source → Lock
  | .sub k => .sub k
  | .session => .table

/-- `readValue` of such an item: the handlers take the locks in turn, server_service_set.go:6092-6094,
subscription_manager.go:158-160, session_manager.go:142-145, server.go:814-849. -/
def sample (src : List Source) : List Instr := src.flatMap (fun k => once k.lock)

/-- What the client and the application have set up. -/
structure Setup where
  /-- the items that an item triggers -/
  links : Nat → List Nat
  /-- the subscription of an item -/
  owner : Nat → Nat
  /-- the diagnostics that an item samples -/
  reads : Nat → List Source

/-- What the goroutines do. -/
inductive Task where
  /-- a publishing cycle of subscription `k`: for every item in turn, values are queued (`n` of them), if
  ResendData asked for it the item is sampled once more, and the values are taken out,
  subscription.go:305-366, datachange_monitored_item.go:336-411 -/
  | cycle (k : Nat) (items : List (Nat × Nat × Bool))
  /-- an event of a node with its listening items, object_node.go:117-123,
  event_monitored_item.go:213-219; whether each of them queues it -/
  | event (node : Nat) (listeners : List (Nat × Bool))
  /-- `Poll`, datachange_monitored_item.go:265-273: the item keeps its lock while it samples -/
  | poll (i : Nat)
  /-- a new item samples once and is put into its subscription, datachange_monitored_item.go:65-67, 247-257,
  subscription.go:134-147 -/
  | create (i : Nat)
  /-- SetMonitoringMode or Modify of an item that samples data: it lets go of its lock while it calls the
  poll group, datachange_monitored_item.go:124-171, 247-263 -/
  | changeData (i : Nat)
  /-- the same for an item that listens to the events of a node: it keeps its lock,
  event_monitored_item.go:115-155, 282-296 -/
  | changeEvent (i node : Nat)
  /-- DeleteItem, subscription.go:149-163, of an item that samples data -/
  | deleteData (i : Nat)
  /-- DeleteItem of an item that listens to events -/
  | deleteEvent (i node : Nat)
  /-- AddTriggeredItem or RemoveTriggeredItem, datachange_monitored_item.go:275-298; `ID` needs no lock -/
  | link (i : Nat)
  /-- Read of diagnostics, server_service_set.go:2219 -/
  | read (src : List Source)
  /-- DeleteSubscriptions of subscription `k` with items that sample data, server_service_set.go:5207-5211,
  subscription_manager.go:71-79, subscription.go:93-106 -/
  | deleteSub (k : Nat) (items : List Nat)
  /-- the check for expired subscriptions: each of them, and if it has expired the items that it deletes,
  subscription_manager.go:98-117 -/
  | expire (subs : List (Nat × Option (List Nat)))
  deriving DecidableEq, Repr

/-- `Delete` of an item that samples data: it lets go of its lock while it calls the poll group,
datachange_monitored_item.go:138-149, 259-263. -/
def deleteItem (i : Nat) : List Instr := once (.item i) ++ once .group ++ once (.item i)

/-- `Subscription.Delete`, subscription.go:93-106. -/
def dispose (k : Nat) (items : List Nat) : List Instr :=
  [.acquire (.sub k)] ++ items.flatMap deleteItem ++ [.release (.sub k)]

def Task.instrs (u : Setup) : Task → List Instr
  | .cycle k items =>
    [.acquire (.sub k)] ++ items.flatMap (fun (i, n, again) =>
      [.acquire (.item i)] ++ ((List.replicate n (trigger (u.links i))).flatten ++
        if again then sample (u.reads i) ++ trigger (u.links i) else []) ++ [.release (.item i)] ++ once (.item i)) ++
      [.release (.sub k)]
  | .event n ls =>
    [.acquire (.node n)] ++ ls.flatMap (fun (i, q) =>
      [.acquire (.item i)] ++ (if q then trigger (u.links i) else []) ++ [.release (.item i)]) ++ [.release (.node n)]
  | .poll i => [.acquire (.item i)] ++ sample (u.reads i) ++ [.release (.item i)]
  | .create i =>
    [.acquire (.item i)] ++ sample (u.reads i) ++ [.release (.item i)] ++ once .group ++ once (.item i) ++
      ([.acquire (.sub (u.owner i))] ++ once (.item i) ++ [.release (.sub (u.owner i))])
  | .changeData i =>
    once (.item i) ++ once .group ++ ([.acquire (.item i)] ++ sample (u.reads i) ++ [.release (.item i)]) ++
      once .group ++ once (.item i)
  | .changeEvent i n => [.acquire (.item i)] ++ once (.node n) ++ once (.node n) ++ [.release (.item i)]
  | .deleteData i =>
    [.acquire (.sub (u.owner i))] ++ deleteItem i ++ [.release (.sub (u.owner i))]
  | .deleteEvent i n =>
    [.acquire (.sub (u.owner i)), .acquire (.item i)] ++ once (.node n) ++ [.release (.item i), .release (.sub (u.owner i))]
  | .link i => once (.item i)
  | .read src => sample src
  | .deleteSub k items => once .table ++ dispose k items
  | .expire subs =>
    [.acquire .table] ++ subs.flatMap (fun (k, items) =>
      once (.sub k) ++ (match items with | none => [] | some items => dispose k items)) ++ [.release .table]

/-- Goroutines about to start, each with a list of tasks. -/
def start (u : Setup) (tasks : List (List Task)) : State :=
  ⟨fun _ => none, fun t => ((tasks[t]?).getD []).flatMap (Task.instrs u)⟩

end Opcua.ItemLocks
