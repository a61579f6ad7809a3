import Verif.Model.Delivery
import Verif.Model.EventFilter

/-!
# From an event raised in the server to the client that listens

`NamespaceManager.OnEvent` (server/namespace_manager.go:601-621), `ObjectNode.OnEvent` and the listeners of an object
(server/object_node.go:116-140), `EventMonitoredItem` (server/event_monitored_item.go:33-56, 117-219, 282-296) and
what becomes of its queue (Model/Delivery.lean).

Simplifications: those of the models that are joined; the address space does not change; one subscription, whose items
are all event items; an event is delivered as one step (for the locks see Model/ItemLocks.lean); the order in which the
map of listeners is walked is that in which they were created, and no item is visited twice; a node that is not an
object has no listeners, which is the business of whoever creates the item.
-/

namespace Opcua.Alarms

open Opcua

/-- An EventMonitoredItem without its queue. `on`: it is in the map of listeners of its node. -/
structure Listener where
  id : Nat
  node : AddressSpace.Id
  els : List EventFilter.Element
  select : List EventFilter.Clause
  on : Bool
  deriving DecidableEq, Repr

abbrev Fields := List EventFilter.Value

/-- `stopped`: a call of OnEvent panicked, or never returns. `past`: what has happened to the subscription, a record
that the code does not keep. -/
structure State where
  delivery : Delivery.State Fields
  listeners : List Listener
  stopped : Bool
  past : List (Delivery.Ev Fields)

/-- Something happens to the subscription. -/
def tell (s : State) (e : Delivery.Ev Fields) : State :=
  { s with
    delivery := Delivery.step s.delivery e
    past := s.past ++ [e] }

/-- `OnEvent` of one item, event_monitored_item.go:213-219. -/
def hear (space : AddressSpace.Space) (e : EventFilter.Event) (s : State) (l : Listener) : State :=
  if s.stopped then s
  else match EventFilter.onEvent space l.els l.select (l.els.length + 1) e with
    | .queued fields => tell s (.item (.sample l.id fields))
    | .dropped => s
    | .panic => { s with stopped := true }
    | .running => { s with stopped := true }

/-- Whose OnEvent is called: the loops of object_node.go:120-122 at the objects that an event reaches. -/
def targets (listeners : List Listener) (reached : List AddressSpace.Id) : List Listener :=
  reached.flatMap (fun n => listeners.filter (fun l => l.on && decide (l.node = n)))

/-- `NamespaceManager.OnEvent`, namespace_manager.go:601-621, with a number of rounds. -/
def raise (space : AddressSpace.Space) (rounds : Nat) (s : State) (target : AddressSpace.Id) (e : EventFilter.Event) :
    State :=
  match AddressSpace.onEvent space rounds target [] with
  | .done reached => (targets s.listeners reached).foldl (hear space e) s
  | .badNodeIDUnknown reached => (targets s.listeners reached).foldl (hear space e) s
  | .running _ => { s with stopped := true }

/-- What happens in the server. -/
inductive Ev where
  | raise (target : AddressSpace.Id) (e : EventFilter.Event)
  /-- CreateMonitoredItems; `on` of the listener does not matter. The requested queue size is not used. -/
  | listen (l : Listener) (mode : MonitoredItem.Mode) (discardOldest : Bool)
  /-- ModifyMonitoredItems -/
  | change (id : Nat) (els : List EventFilter.Element) (select : List EventFilter.Clause) (discardOldest : Bool)
  /-- DeleteMonitoredItems -/
  | unlisten (id : Nat)
  /-- SetMonitoringMode -/
  | mode (id : Nat) (mode : MonitoredItem.Mode)
  /-- SetTriggering -/
  | link (trig : Nat) (rem add : List Nat)
  /-- publishing, acknowledgements and so on; what happens to items is not among it -/
  | sub (e : Delivery.Ev Fields)

def step (space : AddressSpace.Space) (rounds : Nat) (s : State) (ev : Ev) : State :=
  if s.stopped then s
  else match ev with
    | .raise target e => raise space rounds s target e
    -- NewEventMonitoredItem, event_monitored_item.go:33-56; ids come from a counter
    | .listen l m d =>
      match MonitoredItem.find s.delivery.items.items l.id with
      | some _ => s
      | none =>
        tell { s with listeners := s.listeners ++ [{ l with on := decide (m ≠ .disabled) }] }
          (.item (.create l.id m MonitoredItem.maxQueueSize d))
    -- Modify, event_monitored_item.go:117-129
    | .change id els select d =>
      tell { s with listeners := s.listeners.map (fun l => if l.id = id then { l with els := els, select := select } else l) }
        (.item (.modify id MonitoredItem.maxQueueSize d))
    -- Delete, event_monitored_item.go:131-140
    | .unlisten id =>
      tell { s with listeners := s.listeners.filter (fun l => decide (l.id ≠ id)) } (.item (.delete id))
    -- SetMonitoringMode, event_monitored_item.go:142-159
    | .mode id m =>
      tell { s with listeners := s.listeners.map (fun l => if l.id = id then { l with on := decide (m ≠ .disabled) } else l) }
        (.item (.setMode id m))
    | .link trig rem add => tell s (.item (.setTriggering trig rem add))
    | .sub (.item _) => s
    | .sub e => tell s e

def init (enabled : Bool) (maxLifetime maxKeepAlive : Nat) : State :=
  ⟨Delivery.init enabled maxLifetime maxKeepAlive, [], false, []⟩

def run (space : AddressSpace.Space) (rounds : Nat) (s : State) (evs : List Ev) : State :=
  evs.foldl (step space rounds) s

end Opcua.Alarms
