/-!
# Queues of monitored items and how publishing empties them

`DataChangeMonitoredItem` (server/datachange_monitored_item.go:173-205, 300-353), the same functions of
`EventMonitoredItem` (server/event_monitored_item.go:157-211, 297-326), and the loops of `publish` and
`handleLatePublishRequest` over the items (server/subscription.go:310-366, 509-556). `V` is the type of queued
values.

Simplifications: which samples are queued is in Model/DataChange.lean and Model/EventFilter.lean; the
overflow bit is written to a copy of a value (lines 185-187, 195-197, 309-312, 321-324), which nobody
looks at, so the functions below do not mention it; diagnostics counters
are left out; the loop over the items is one step, while an event item may queue an event between two
turns of the loop.
-/

namespace Opcua.MonitoredItem

variable {V : Type}

/-- `for q.Len() > k { q.PopFront() }`. -/
def popFrontTo (k : Nat) : List V → List V
  | [] => []
  | v :: q => if (v :: q).length > k then popFrontTo k q else v :: q

/-- `for q.Len() > k { q.PopBack() }`. -/
def popBackTo (k : Nat) (q : List V) : List V := (popFrontTo k q.reverse).reverse

inductive Mode where
  | disabled
  | sampling
  | reporting
  deriving DecidableEq, Repr

structure Item (V : Type) where
  id : Nat
  mode : Mode
  triggered : Bool
  size : Nat
  discardOldest : Bool
  queue : List V
  /-- `triggeredItems`, by id -/
  links : List Nat
  deriving DecidableEq, Repr

/-- `maxQueueSize`, server/monitored_item.go. -/
abbrev maxQueueSize : Nat := 1024

/-- `enqueue`, datachange_monitored_item.go:300-326, event_monitored_item.go:184-204, without the
triggering. -/
def enqueue (i : Item V) (v : V) : Item V :=
  if i.discardOldest then { i with queue := popFrontTo (i.size - 1) i.queue ++ [v] }
  else { i with queue := popBackTo (i.size - 1) i.queue ++ [v] }

/-- `setQueueSize`, datachange_monitored_item.go:173-205. -/
def setQueueSize (i : Item V) (req : Nat) : Item V :=
  let n := if req > maxQueueSize then maxQueueSize else req
  let n := if n < 1 then 1 else n
  if i.discardOldest then { i with size := n, queue := popFrontTo n i.queue }
  else { i with size := n, queue := popBackTo n i.queue }

/-- `NewDataChangeMonitoredItem`, datachange_monitored_item.go:44-68. -/
def newItem (id : Nat) (mode : Mode) (size : Nat) (discardOldest : Bool) : Item V :=
  setQueueSize ⟨id, mode, false, 0, discardOldest, [], []⟩ size

/-- `Modify`, datachange_monitored_item.go:125-137. -/
def modify (i : Item V) (size : Nat) (discardOldest : Bool) : Item V :=
  setQueueSize { i with discardOldest := discardOldest } size

/-- `SetMonitoringMode`, datachange_monitored_item.go:155-171. -/
def setMode (i : Item V) (m : Mode) : Item V :=
  if i.mode = m then i
  else if m = .disabled then { i with mode := m, queue := [] }
  else { i with mode := m }

/-- `notifications`, datachange_monitored_item.go:336-353. -/
def notifications (i : Item V) (max : Nat) : Item V × List V × Bool :=
  let q := i.queue.drop max
  ({ i with queue := q, triggered := i.triggered && !q.isEmpty }, i.queue.take max, !q.isEmpty)

/-- `item.MonitoringMode() == Reporting || item.Triggered()`, subscription.go:332. -/
def considered (i : Item V) : Bool := decide (i.mode = .reporting) || i.triggered

/-- The last line of `notificationsAvailable`, datachange_monitored_item.go:410 and
event_monitored_item.go:320-325. -/
def available (i : Item V) : Bool := decide (i.mode ≠ .disabled) && !i.queue.isEmpty && considered i

/-- The loop over the items, subscription.go:327-366: the items afterwards, the notifications with the
id of their item, and `more`. `maxN` becomes smaller by the number of notifications taken. -/
def collect (max : Nat) : List (Item V) → List (Item V) × List (Nat × V) × Bool
  | [] => ([], [], false)
  | i :: is =>
    if considered i then
      let r := notifications i max
      let rest := collect (max - r.2.1.length) is
      (r.1 :: rest.1, r.2.1.map (fun v => (i.id, v)) ++ rest.2.1, r.2.2 || rest.2.2)
    else
      let rest := collect max is
      (i :: rest.1, rest.2.1, rest.2.2)

/-- `AddTriggeredItem`, datachange_monitored_item.go:276-281. -/
def addLink (i : Item V) (id : Nat) : Item V := { i with links := i.links ++ [id] }

/-- The loop of `RemoveTriggeredItem`, datachange_monitored_item.go:284-298: the last link takes the
place of the one removed. -/
def removeFrom (id : Nat) : List Nat → Option (List Nat)
  | [] => none
  | a :: l =>
    if a = id then some (match l.getLast? with
      | none => []
      | some z => z :: l.dropLast)
    else (removeFrom id l).map (a :: ·)

/-- `RemoveTriggeredItem`. -/
def removeLink (i : Item V) (id : Nat) : Item V × Bool :=
  match removeFrom id i.links with
  | none => (i, false)
  | some l => ({ i with links := l }, true)

/-! ### All items of a subscription -/

def update (is : List (Item V)) (id : Nat) (f : Item V → Item V) : List (Item V) :=
  is.map (fun i => if i.id = id then f i else i)

def find (is : List (Item V)) (id : Nat) : Option (Item V) := is.find? (fun i => decide (i.id = id))

/-- `enqueue` with the triggering of lines 328-333: `SetTriggered(true)` on every linked item. -/
def enqueueAt (is : List (Item V)) (id : Nat) (v : V) : List (Item V) :=
  match find is id with
  | none => is
  | some x =>
    (update is id (enqueue · v)).map (fun i => if i.id ∈ x.links then { i with triggered := true } else i)

/-- One link to remove, server_service_set.go:4508-4519: both items must be there. -/
def removeOne (trig : Nat) (is : List (Item V)) (to : Nat) : List (Item V) × Bool :=
  match find is to, find is trig with
  | some _, some x => (update is trig (fun i => (removeLink i to).1), (removeLink x to).2)
  | _, _ => (is, false)

/-- One link to add, server_service_set.go:4522-4533. -/
def addOne (trig : Nat) (is : List (Item V)) (to : Nat) : List (Item V) × Bool :=
  match find is to with
  | some _ => (update is trig (addLink · to), true)
  | none => (is, false)

/-- A loop that applies `f` to the entries and gathers the results. -/
def gather (f : List (Item V) → Nat → List (Item V) × Bool) : List (Item V) → List Nat → List (Item V) × List Bool
  | is, [] => (is, [])
  | is, t :: ts =>
    let r := f is t
    let rest := gather f r.1 ts
    (rest.1, r.2 :: rest.2)

/-- `handleSetTriggering`, server_service_set.go:4463-4545, once the subscription is known: the items
afterwards, the results for the links to remove and to add (Good or BadMonitoredItemIDInvalid); `none`
is a fault (BadNothingToDo or BadMonitoredItemIDInvalid). -/
def setTriggering (is : List (Item V)) (trig : Nat) (rem add : List Nat) :
    Option (List (Item V) × List Bool × List Bool) :=
  if rem.isEmpty && add.isEmpty then none
  else match find is trig with
    | none => none
    | some _ =>
      let r := gather (removeOne trig) is rem
      let a := gather (addOne trig) r.1 add
      some (a.1, r.2, a.2)

/-- What happens to the items. `order`: the order in which the map of items is walked; it is used if
it lists the items that there are. -/
inductive Ev (V : Type) where
  | create (id : Nat) (mode : Mode) (size : Nat) (discardOldest : Bool)
  | delete (id : Nat)
  | sample (id : Nat) (v : V)
  | modify (id size : Nat) (discardOldest : Bool)
  | setMode (id : Nat) (mode : Mode)
  | setTriggering (trig : Nat) (rem add : List Nat)
  | publish (max : Nat) (order : List Nat)
  deriving DecidableEq, Repr

/-- `disabled`: `disabledMonitoredItemCount`. `out`: the notifications of each publish response with the
`more` flag, a record that the code does not keep. -/
structure State (V : Type) where
  items : List (Item V)
  disabled : BitVec 32
  out : List (List (Nat × V) × Bool)

/-- The items in a given order. -/
def arrange (order : List Nat) (is : List (Item V)) : List (Item V) :=
  order.flatMap (fun k => is.filter (fun i => decide (i.id = k)))

/-- Changes of `disabledMonitoredItemCount` by `SetMonitoringMode`, datachange_monitored_item.go:158-169. -/
def countMode (c : BitVec 32) (old new : Mode) : BitVec 32 :=
  if old = new then c else if new = .disabled then c + 1 else c - 1

def step (s : State V) : Ev V → State V
  -- AppendItem, subscription.go:134-147
  | .create id m n d =>
    match find s.items id with
    | some _ => s
    | none =>
      { s with items := s.items ++ [newItem id m n d]
               disabled := if m = .disabled then s.disabled + 1 else s.disabled }
  -- DeleteItem, subscription.go:149-163
  | .delete id =>
    match find s.items id with
    | none => s
    | some i =>
      { s with items := s.items.filter (fun i => decide (i.id ≠ id))
               disabled := if i.mode = .disabled then s.disabled - 1 else s.disabled }
  -- a disabled item is not sampled
  | .sample id v =>
    match find s.items id with
    | none => s
    | some i => if i.mode = .disabled then s else { s with items := enqueueAt s.items id v }
  | .modify id n d => { s with items := update s.items id (modify · n d) }
  | .setMode id m =>
    match find s.items id with
    | none => s
    | some i => { s with items := update s.items id (setMode · m), disabled := countMode s.disabled i.mode m }
  | .setTriggering trig rem add =>
    match setTriggering s.items trig rem add with
    | none => s
    | some r => { s with items := r.1 }
  -- subscription.go:309-371: a message is made only if some item has notifications
  | .publish max order =>
    let is := if order.isPerm (s.items.map (·.id)) then arrange order s.items else s.items
    if is.any available then
      let r := collect max is
      { s with items := r.1, out := s.out ++ [(r.2.1, r.2.2)] }
    else s

def run (s : State V) (evs : List (Ev V)) : State V := evs.foldl step s

def init : State V := ⟨[], 0, []⟩

end Opcua.MonitoredItem
