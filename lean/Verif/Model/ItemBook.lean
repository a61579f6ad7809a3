import Verif.Model.PollGroup
import Verif.Model.MonitoredItem

/-!
# The monitored items of a subscription, as the services set them

server/server_service_set.go:3785-3970 (CreateMonitoredItems), 4069-4190 (ModifyMonitoredItems), 4276-4360
(SetMonitoringMode), 4644-4712 (DeleteMonitoredItems); server/datachange_monitored_item.go:44-245;
server/event_monitored_item.go:35-182; server/subscription.go:117-163 (Items, FindItem, AppendItem, DeleteItem), 327-362
(the values of a response); server/server.go:903-927 (GetMonitoredItems).

Simplifications: one subscription, and only requests that reach it (who may send them is in Model/SubTable.lean);
a request is one step; which samples are queued is in Model/DataChange.lean and Model/EventFilter.lean, here any sample may
be; values are numbers that carry, for the statements only, the item that sampled them; filters are numbers; index ranges
are validated elsewhere (Model/Range.lean), a status is given; the order in which Go visits a map is given with the request.
-/

namespace Opcua.ItemBook

open Opcua.MonitoredItem (popFrontTo popBackTo maxQueueSize)
open Opcua.Revise (F64)

inductive Status where
  | good | badNodeIDUnknown | badAttributeIDInvalid | badNotReadable | badUserAccessDenied | badFilterNotAllowed
  | badMonitoredItemIDInvalid | badTimestampsToReturnInvalid | badNothingToDo | badTooManyOperations
  /-- of validateIndexRange -/
  | ofRange (n : Nat)
  deriving DecidableEq, Repr

/-- MonitoringParameters.Filter, if not nil: a DataChangeFilter, an EventFilter, or anything else. -/
inductive Filter where
  | dataChange (trigger deadband : Nat)
  | event (n : Nat)
  | foreign
  deriving DecidableEq, Repr

/-- ua.MonitoringParameters. -/
structure Params where
  handle : Nat
  interval : F64
  size : Nat
  discardOldest : Bool
  filter : Option Filter
  deriving DecidableEq, Repr

/-- What is monitored: the Value of a variable (whether it is a number, and its MinimumSamplingInterval), the events of
an object, or another attribute. -/
inductive Kind where
  | value (numeric : Bool) (nodeMin : F64)
  | events
  | other
  deriving DecidableEq, Repr

/-- A queued value: the item that sampled it, the value, the timestamps that it keeps. -/
structure Val where
  src : Nat
  v : Nat
  stamps : Int
  deriving DecidableEq, Repr

/-- DataChangeMonitoredItem and EventMonitoredItem. Modes: 0 disabled, 1 sampling, 2 reporting. -/
structure Item where
  id : Nat
  kind : Kind
  mode : Int
  stamps : Int
  handle : Nat := 0
  size : Nat := 0
  interval : F64 := .fin 0
  discardOldest : Bool := false
  filter : Filter := .foreign
  triggered : Bool := false
  queue : List Val := []
  deriving DecidableEq, Repr

/-- The items of the subscription by id, subscription.go:33, the counter `monitoredItemID` of all subscriptions, and the
publishing interval. -/
structure State where
  items : Nat → Option Item := fun _ => none
  ctr : Nat := 0
  pub : F64 := .fin 1000

def put (m : Nat → Option Item) (id : Nat) (x : Option Item) : Nat → Option Item := fun k => if k = id then x else m k

/-- setQueueSize, datachange_monitored_item.go:173-179; event_monitored_item.go:157-158. -/
def sizeOf (k : Kind) (req : Nat) : Nat :=
  match k with
  | .events => maxQueueSize
  | _ =>
    let n := if req > maxQueueSize then maxQueueSize else req
    if n < 1 then 1 else n

/-- "trim to size", datachange_monitored_item.go:181-204, event_monitored_item.go:160-169. -/
def trim (discardOldest : Bool) (n : Nat) (q : List Val) : List Val :=
  if discardOldest then popFrontTo n q else popBackTo n q

/-- setSamplingInterval, datachange_monitored_item.go:207-238, event_monitored_item.go:172-174. `rate` is
MinSupportedSampleRate. -/
def intervalOf (rate pub : F64) (k : Kind) (req : F64) : F64 :=
  match k with
  | .events => .fin 0
  | .value _ nodeMin => PollGroup.samplingInterval rate (some nodeMin) pub req
  | .other => PollGroup.samplingInterval rate none pub req

/-- setFilter, datachange_monitored_item.go:240-246, event_monitored_item.go:176-182. -/
def filterOf (k : Kind) (f : Option Filter) : Filter :=
  match k, f with
  | .events, some (.event n) => .event n
  | .events, _ => .event 0
  | _, some (.dataChange t d) => .dataChange t d
  | _, _ => .dataChange 1 0

/-- What the constructors and Modify do with the parameters, datachange_monitored_item.go:52-62 and 132-136,
event_monitored_item.go:43-51 and 119-123. -/
def Item.configure (rate pub : F64) (p : Params) (i : Item) : Item :=
  { i with
    handle := p.handle
    discardOldest := p.discardOldest
    size := sizeOf i.kind p.size
    queue := trim p.discardOldest (sizeOf i.kind p.size) i.queue
    interval := intervalOf rate pub i.kind p.interval
    filter := filterOf i.kind p.filter }

/-! ## Create -/

/-- What CreateMonitoredItems finds out about the node and the user, server_service_set.go:3848-3866, 3910-3926, 3942-3946. -/
inductive Target where
  | value (isVariable readable userReadable : Bool) (range : Option Nat) (numeric : Bool) (nodeMin : F64)
  | events (isObject subscribable permitted : Bool)
  | other (permitted : Bool)
  deriving DecidableEq, Repr

/-- One of ItemsToCreate. `target`: the node, if there is one, and whether it has the attribute. -/
structure CreateReq where
  target : Option (Bool × Target)
  mode : Int
  params : Params
  deriving DecidableEq, Repr

structure CreateResult where
  status : Status
  id : Nat := 0
  interval : F64 := .fin 0
  size : Nat := 0
  deriving DecidableEq, Repr

/-- The checks, server_service_set.go:3847-3951: the kind of the item and its parameters, or a status. -/
def admissible (c : CreateReq) : Except Status (Kind × Params) :=
  match c.target with
  | none => .error .badNodeIDUnknown
  | some (valid, t) =>
    if !valid then .error .badAttributeIDInvalid
    else
      match t with
      | .value isVariable readable userReadable range numeric nodeMin =>
        if !isVariable then .error .badAttributeIDInvalid
        else if !readable then .error .badNotReadable
        else if !userReadable then .error .badUserAccessDenied
        else
          match range with
          | some n => .error (.ofRange n)
          | none =>
            match c.params.filter.getD (.dataChange 1 0) with
            | .dataChange tr d =>
              if d ≠ 0 ∧ numeric = false then .error .badFilterNotAllowed
              else .ok (.value numeric nodeMin, { c.params with filter := some (.dataChange tr d) })
            | _ => .error .badFilterNotAllowed
      | .events isObject subscribable permitted =>
        if !isObject then .error .badAttributeIDInvalid
        else if !subscribable then .error .badNotReadable
        else if !permitted then .error .badUserAccessDenied
        else
          match c.params.filter with
          | some (.event _) => .ok (.events, c.params)
          | _ => .error .badFilterNotAllowed
      | .other permitted =>
        if !permitted then .error .badAttributeIDInvalid
        else if c.params.filter ≠ none then .error .badFilterNotAllowed
        else .ok (.other, c.params)

/-- One turn of the loop, server_service_set.go:3847-3967, with NewDataChangeMonitoredItem or NewEventMonitoredItem (the
id: `atomic.AddUint32(&monitoredItemID, 1)`) and AppendItem, subscription.go:134-147, the result of which is not looked at. -/
def create1 (rate : F64) (stamps : Int) (c : CreateReq) (s : State) : State × CreateResult :=
  match admissible c with
  | .error st => (s, { status := st })
  | .ok (k, p) =>
    let id := (s.ctr + 1) % 2 ^ 32
    let it := Item.configure rate s.pub p { id := id, kind := k, mode := c.mode, stamps := stamps }
    ({ s with ctr := id, items := if (s.items id).isSome then s.items else put s.items id (some it) },
      { status := .good, id := id, interval := it.interval, size := it.size })

def createAll (rate : F64) (stamps : Int) : List CreateReq → State → State × List CreateResult
  | [], s => (s, [])
  | c :: cs, s =>
    let r := create1 rate stamps c s
    let rest := createAll rate stamps cs r.1
    (rest.1, r.2 :: rest.2)

/-! ## Modify -/

structure ModifyResult where
  status : Status
  interval : F64 := .fin 0
  size : Nat := 0
  deriving DecidableEq, Repr

/-- The filter that Modify is called with, server_service_set.go:4124-4166, if it is allowed. -/
def modifiable (k : Kind) (f : Option Filter) : Option (Option Filter) :=
  match k with
  | .value numeric _ =>
    match f.getD (.dataChange 1 0) with
    | .dataChange tr d => if d ≠ 0 ∧ numeric = false then none else some (some (.dataChange tr d))
    | _ => none
  | .events =>
    match f.getD (.event 0) with
    | .event n => some (some (.event n))
    | _ => none
  | .other => if f = none then some none else none

/-- One turn of the loop, server_service_set.go:4120-4172, and Modify, datachange_monitored_item.go:126-138,
event_monitored_item.go:115-126. -/
def modify1 (rate : F64) (m : Nat × Params) (s : State) : State × ModifyResult :=
  match s.items m.1 with
  | none => (s, { status := .badMonitoredItemIDInvalid })
  | some it =>
    match modifiable it.kind m.2.filter with
    | none => (s, { status := .badFilterNotAllowed })
    | some f =>
      let it' := Item.configure rate s.pub { m.2 with filter := f } it
      ({ s with items := put s.items m.1 (some it') }, { status := .good, interval := it'.interval, size := it'.size })

def modifyAll (rate : F64) : List (Nat × Params) → State → State × List ModifyResult
  | [], s => (s, [])
  | m :: ms, s =>
    let r := modify1 rate m s
    let rest := modifyAll rate ms r.1
    (rest.1, r.2 :: rest.2)

/-! ## SetMonitoringMode and Delete -/

/-- SetMonitoringMode of an item, datachange_monitored_item.go:155-171, event_monitored_item.go:140-155. -/
def Item.setMode (mode : Int) (i : Item) : Item :=
  if i.mode = mode then i
  else if mode = 0 then { i with mode := mode, queue := [] }
  else { i with mode := mode }

/-- One turn of the loop, server_service_set.go:4340-4347. -/
def setMode1 (mode : Int) (id : Nat) (s : State) : State × Status :=
  match s.items id with
  | none => (s, .badMonitoredItemIDInvalid)
  | some it => ({ s with items := put s.items id (some (it.setMode mode)) }, .good)

/-- One turn of the loop, server_service_set.go:4690-4696, and DeleteItem, subscription.go:149-163. -/
def delete1 (id : Nat) (s : State) : State × Status :=
  match s.items id with
  | none => (s, .badMonitoredItemIDInvalid)
  | some _ => ({ s with items := put s.items id none }, .good)

def eachId (f : Nat → State → State × Status) : List Nat → State → State × List Status
  | [], s => (s, [])
  | id :: ids, s =>
    let r := f id s
    let rest := eachId f ids r.1
    (rest.1, r.2 :: rest.2)

/-! ## Values -/

/-- enqueue, datachange_monitored_item.go:300-326, event_monitored_item.go:184-204. -/
def Item.enqueue (v : Nat) (i : Item) : Item :=
  { i with queue := trim i.discardOldest (i.size - 1) i.queue ++ [⟨i.id, v, i.stamps⟩] }

/-- A sample of an item is queued; disabled items do not sample, datachange_monitored_item.go:249-251, 360-363. -/
def sampled (id v : Nat) (s : State) : State :=
  match s.items id with
  | none => s
  | some it => if it.mode = 0 then s else { s with items := put s.items id (some (it.enqueue v)) }

/-- SetTriggered by another item. -/
def trigger (id : Nat) (s : State) : State :=
  match s.items id with
  | none => s
  | some it => { s with items := put s.items id (some { it with triggered := true }) }

/-- What `notifications` leaves of an item: the rest of its queue, and `triggered` until that is empty,
datachange_monitored_item.go:336-353, event_monitored_item.go:297-314. -/
def drained (maxN : Nat) (it : Item) : Item :=
  { it with queue := it.queue.drop maxN, triggered := it.triggered && !(it.queue.drop maxN).isEmpty }

/-- The loop over the items in a Publish response, subscription.go:327-362; `maxN` is what is left of the limit. -/
def collect : List Nat → Nat → State → State × List (Nat × Val)
  | [], _, s => (s, [])
  | id :: order, maxN, s =>
    match s.items id with
    | none => collect order maxN s
    | some it =>
      if it.mode ≠ 2 ∧ it.triggered = false then collect order maxN s
      else
        let out := it.queue.take maxN
        let rest := collect order (maxN - out.length) { s with items := put s.items id (some (drained maxN it)) }
        (rest.1, out.map (fun v => (it.handle, v)) ++ rest.2)

/-! ## Requests -/

inductive Req where
  | create (stamps : Int) (items : List CreateReq)
  | modify (stamps : Int) (items : List (Nat × Params))
  | setMode (mode : Int) (ids : List Nat)
  | delete (ids : List Nat)
  /-- GetMonitoredItems; the order in which the map is visited -/
  | book (order : List Nat)
  /-- a Publish response is made -/
  | publish (order : List Nat) (max : Nat)
  | sampled (id v : Nat)
  | trigger (id : Nat)
  /-- items are created in other subscriptions -/
  | elsewhere (n : Nat)
  /-- ModifySubscription -/
  | interval (pub : F64)
  deriving DecidableEq, Repr

inductive Resp where
  | fault (s : Status)
  | created (rs : List CreateResult)
  | modified (rs : List ModifyResult)
  | statuses (rs : List Status)
  | handles (rs : List (Nat × Nat))
  | notified (rs : List (Nat × Val))
  | silent
  deriving DecidableEq, Repr

/-- `req.TimestampsToReturn < Source || > Neither`, server_service_set.go:3785, 4073. -/
def stampsValid (t : Int) : Bool := decide (0 ≤ t) && decide (t ≤ 3)

/-- The checks on the number of operations, server_service_set.go:3805-3841 and the others like it. -/
def counted (limit n : Nat) (s : State) (f : State → State × Resp) : State × Resp :=
  if n = 0 then (s, .fault .badNothingToDo)
  else if n > limit then (s, .fault .badTooManyOperations)
  else f s

/-- One request. `limit` is MaxMonitoredItemsPerCall. -/
def step (rate : F64) (limit : Nat) (s : State) : Req → State × Resp
  | .create stamps cs =>
    if !stampsValid stamps then (s, .fault .badTimestampsToReturnInvalid)
    else counted limit cs.length s (fun s => let r := createAll rate stamps cs s; (r.1, .created r.2))
  | .modify stamps ms =>
    if !stampsValid stamps then (s, .fault .badTimestampsToReturnInvalid)
    else counted limit ms.length s (fun s => let r := modifyAll rate ms s; (r.1, .modified r.2))
  | .setMode mode ids => counted limit ids.length s (fun s => let r := eachId (setMode1 mode) ids s; (r.1, .statuses r.2))
  | .delete ids => counted limit ids.length s (fun s => let r := eachId delete1 ids s; (r.1, .statuses r.2))
  | .book order => (s, .handles (order.filterMap (fun id => (s.items id).map (fun it => (it.id, it.handle)))))
  | .publish order max => let r := collect order max s; (r.1, .notified r.2)
  | .sampled id v => (sampled id v s, .silent)
  | .trigger id => (trigger id s, .silent)
  | .elsewhere n => ({ s with ctr := (s.ctr + n) % 2 ^ 32 }, .silent)
  | .interval pub => ({ s with pub := pub }, .silent)

/-- A history: the state at the end, and every request with its response. -/
def run (rate : F64) (limit : Nat) (reqs : List Req) : State × List (Req × Resp) :=
  reqs.foldl (fun a q => let r := step rate limit a.1 q; (r.1, a.2 ++ [(q, r.2)])) ({}, [])

end Opcua.ItemBook
