import Verif.Model.DataChange
import Verif.Model.Delivery

/-!
# A variable, an item that watches it, and the client

`DataChangeMonitoredItem` with its samples (server/datachange_monitored_item.go:45-71, 124-171, 247-273, 354-411,
Model/DataChange.lean), its queue and what becomes of it (Model/Delivery.lean), over a variable whose value changes
(`readValue`, server/server_service_set.go:6063-6095, gives the DataValue that is stored, with its time stamps).

Simplifications: those of the models that are joined; one data change item is followed, the others of the subscription
are only queues; the clock does not go backwards; the samples that one turn takes are put into the queue before those
of other items; the item is never deleted; ResendData is left out (see C95).
-/

namespace Opcua.Watch

open Opcua
open Opcua.DataChange (DV)

/-- `item.queue` holds what a turn of sampling puts into the queue, and is empty between the turns: the queue is that of
`delivery`. `past`: what has happened to the subscription, a record that the code does not keep. -/
structure State where
  now : Nat
  value : DV
  item : DataChange.Item
  delivery : Delivery.State DV
  past : List (Delivery.Ev DV)

/-- Something happens to the subscription. -/
def tell (s : State) (e : Delivery.Ev DV) : State :=
  { s with
    delivery := Delivery.step s.delivery e
    past := s.past ++ [e] }

/-- The monitoring mode, as the model of the queues has it. -/
def queueMode : DataChange.Mode → MonitoredItem.Mode
  | .disabled => .disabled
  | .sampling => .sampling
  | .reporting => .reporting

/-- `notificationsAvailable(tn, ...)` of the item, called from subscription.go:310-314 and 508-513:
datachange_monitored_item.go:354-411, with `enqueue` for the values that pass the filter. -/
def sample (A : DataChange.Arith) (id : Nat) (s : State) : State :=
  let item := DataChange.step A s.item (.cycle s.now none)
  item.queue.foldl (fun s v => tell s (.item (.sample id v))) { s with item := { item with queue := [] } }

/-- Events that are not among the others: publishing, and what happens to the item itself. -/
def apart (id : Nat) : Delivery.Ev DV → Bool
  | .timer .. => true
  | .late .. => true
  | .item (.create k _ _ _) => decide (k = id)
  | .item (.delete k) => decide (k = id)
  | .item (.sample k _) => decide (k = id)
  | .item (.modify k _ _) => decide (k = id)
  | .item (.setMode k _) => decide (k = id)
  | .item (.publish ..) => true
  | _ => false

inductive Ev where
  /-- time passes -/
  | tick (n : Nat)
  /-- the variable gets another value -/
  | write (v : DV)
  /-- the scheduler polls the item -/
  | poll
  | timer (max : Nat) (order : List Nat) (req : Subscription.Req) (arrives : Bool)
  | late (max : Nat) (order : List Nat) (results : List Subscription.AckStatus) (writeOk arrives : Bool)
  /-- ModifyMonitoredItems -/
  | change (f : DataChange.Filter) (t : DataChange.Timestamps) (ti size : Nat) (discardOldest : Bool)
  /-- SetMonitoringMode -/
  | mode (m : DataChange.Mode)
  /-- what happens to the subscription and to other items -/
  | other (e : Delivery.Ev DV)

def step (A : DataChange.Arith) (id : Nat) (s : State) : Ev → State
  | .tick n => { s with now := s.now + n }
  | .write v => { s with value := v }
  -- datachange_monitored_item.go:266-273; a disabled item is in no poll group
  | .poll => if s.item.mode = .disabled then s else { s with item := DataChange.step A s.item (.poll s.value) }
  -- publish, subscription.go:305-500
  | .timer max order req arrives =>
    if s.delivery.sub.alive then tell (sample A id s) (.timer max order req arrives) else s
  -- handleLatePublishRequest, subscription.go:502-649
  | .late max order results ok arrives =>
    if s.delivery.sub.alive ∧ s.delivery.sub.isLate then tell (sample A id s) (.late max order results ok arrives) else s
  -- Modify, datachange_monitored_item.go:124-137
  | .change f t ti size d =>
    tell { s with item := DataChange.step A s.item (.modify f t ti s.now s.value) } (.item (.modify id size d))
  -- SetMonitoringMode, datachange_monitored_item.go:155-171
  | .mode m =>
    tell { s with item := DataChange.step A s.item (.setMode m s.now s.value) } (.item (.setMode id (queueMode m)))
  | .other e => if apart id e then s else tell s e

/-- A new subscription with a new item, NewDataChangeMonitoredItem, datachange_monitored_item.go:45-71. -/
def init (id : Nat) (enabled : Bool) (maxLifetime maxKeepAlive : Nat) (m : DataChange.Mode) (f : DataChange.Filter)
    (t : DataChange.Timestamps) (ti size : Nat) (discardOldest : Bool) (now : Nat) (v : DV) : State :=
  tell ⟨now, v, DataChange.newItem m f t ti now v, Delivery.init enabled maxLifetime maxKeepAlive, []⟩
    (.item (.create id (queueMode m) size discardOldest))

def run (A : DataChange.Arith) (id : Nat) (s : State) (evs : List Ev) : State := evs.foldl (step A id) s

end Opcua.Watch
