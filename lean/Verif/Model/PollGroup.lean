import Verif.Model.Revise

/-!
# Sampling of monitored items

The scheduler keeps a poll group for every interval; an item that is monitored is a listener of the
group of its sampling interval and is read at each tick of that group. The services that change an
item take it out of its group and put it back. They release the lock of the item in between, so that
services of other connections, and the goroutines of the poll groups, may come in.

server/scheduler.go:10-99; server/datachange_monitored_item.go:43-71, 123-171, 207-273;
server/subscription.go:127-163; server/server_service_set.go:3762-3960, 4135-4185, 4335-4360.

Simplifications: the times of the ticks are those of `time.Ticker`, a tick is an event here; what is
read is not kept (Model/DataChange.lean has it), only that the item was read; closing of the server,
which ends the groups, is left out; the lock of a poll group and of the scheduler makes each of their
methods one step.
-/

namespace Opcua.PollGroup
open Revise (F64 toInt64)

/-- monitored_item.go:13, milliseconds. -/
abbrev maxSamplingInterval : Rat := 60000

/-- `if samplingInterval < 0 { samplingInterval = mi.sub.publishingInterval }`, lines 210-212, 225-227. -/
def orPublishing (pub req : F64) : F64 := if req.lt (.fin 0) then pub else req

/-- Lines 213-218, 228-233; `rate` is MinSupportedSampleRate of the capabilities of the server. -/
def clamp (rate t : F64) : F64 :=
  let t := if t.lt rate then rate else t
  if F64.lt (.fin maxSamplingInterval) t then .fin maxSamplingInterval else t

/-- setSamplingInterval, datachange_monitored_item.go:207-237. `nodeMin` is the
MinimumSamplingInterval of the node if its Value is monitored and it is a variable. -/
def samplingInterval (rate : F64) (nodeMin : Option F64) (pub req : F64) : F64 :=
  let t := clamp rate (orPublishing pub req)
  match nodeMin with
  | some m => if t.lt m then m else t
  | none => t

/-- `time.Duration(f) * time.Millisecond` in nanoseconds: int64 wraps around. -/
def duration (f : F64) : Int := (toInt64 f * 1000000).bmod (2 ^ 64)

/-- The interval of the group that GetPollGroup returns, scheduler.go:24-37, for an item with the
sampling interval `t`; the least interval is set at line 19. -/
def groupOf (rate t : F64) : Int :=
  if duration t < duration rate then duration rate else duration t

inductive Mode where
  | disabled | sampling | reporting
  deriving DecidableEq, Repr

/-- `live`: `node` and `sub` are not nil; `listed`: FindItem of the subscription finds it. -/
structure Item where
  mode : Mode
  interval : F64
  nodeMin : Option F64
  live : Bool
  listed : Bool
  deriving DecidableEq, Repr

/-- What is asked for; `pub` is the publishing interval of the subscription. -/
inductive Op where
  /-- NewDataChangeMonitoredItem, lines 43-71, and AppendItem -/
  | create (mode : Mode) (nodeMin : Option F64) (pub req : F64)
  /-- Modify, lines 123-137 -/
  | modify (pub req : F64)
  /-- SetMonitoringMode, lines 154-171 -/
  | setMode (m : Mode)
  /-- DeleteItem, subscription.go:149-163, and Delete, lines 140-151 -/
  | delete
  deriving DecidableEq, Repr

/-- What a goroutine does next to the item it has found. -/
inductive Pc where
  /-- `if mi.monitoringMode == mode { return }`, lines 157-159 -/
  | compare (m : Mode)
  /-- `Unsubscribe` in stopMonitoring, lines 260-262, without the lock of the item -/
  | leave (op : Op)
  /-- what is done under the lock after stopMonitoring, up to the read in startMonitoring -/
  | change (op : Op)
  /-- `Subscribe` in startMonitoring, lines 254-256, without the lock of the item; a new item is
  appended to the subscription then -/
  | enter (fresh : Bool)
  deriving DecidableEq, Repr

structure State where
  items : Nat → Option Item
  threads : Nat → Option (Nat × Pc)
  /-- `subs` of the group of an interval -/
  groups : Int → List Nat
  /-- the listeners that the goroutine of a group has still to poll -/
  due : Int → List Nat
  /-- history, not in the code: the group and the item of each read by Poll -/
  reads : List (Int × Nat)
  panicked : Bool

def set {α β : Type} [DecidableEq α] (f : α → β) (a : α) (b : β) : α → β := fun x => if x = a then b else f x

/-- Subscribe, scheduler.go:85-89: a set. -/
def insert (i : Nat) (l : List Nat) : List Nat := if i ∈ l then l else l ++ [i]

/-- `time.NewTicker` (line 60) panics if the interval is not positive. -/
def ticker (g : Int) (s : State) : State := if 0 < g then s else { s with panicked := true }

/-- AppendItem, subscription.go:134-147, after the item has been made. -/
def append (it : Item) : Item := { it with listed := true }

/-- A service begins: it finds the item, or makes a new one. -/
def begin (rate : F64) (s : State) (t i : Nat) (op : Op) : State :=
  match op, s.items i with
  | .create m n pub req, none =>
    let it : Item := ⟨m, samplingInterval rate n pub req, n, true, false⟩
    if m = .disabled then { s with items := set s.items i (some (append it)) }
    else { s with items := set s.items i (some it), threads := set s.threads t (some (i, .enter true)) }
  | .modify pub req, some it =>
    if it.listed then { s with threads := set s.threads t (some (i, .leave (.modify pub req))) } else s
  | .setMode m, some it =>
    if it.listed then { s with threads := set s.threads t (some (i, .compare m)) } else s
  | .delete, some it =>
    if it.listed then
      { s with items := set s.items i (some { it with listed := false }),
               threads := set s.threads t (some (i, .leave .delete)) }
    else s
  | _, _ => s

/-- `if mi.monitoringMode == ua.MonitoringModeDisabled { return }` of startMonitoring, lines 248-251,
then the read with `mi.sub.session`, line 252, which panics if `sub` is nil. -/
def starting (s : State) (t i : Nat) (it : Item) : State :=
  if it.mode = .disabled then { s with items := set s.items i (some it), threads := set s.threads t none }
  else if it.live then { s with items := set s.items i (some it), threads := set s.threads t (some (i, .enter false)) }
  else { s with panicked := true }

/-- Under the lock of the item, after stopMonitoring. -/
def change (rate : F64) (s : State) (t i : Nat) (it : Item) : Op → State
  | .modify pub req =>
    -- `mi.sub.publishingInterval`
    if req.lt (.fin 0) ∧ it.live = false then { s with panicked := true }
    else starting s t i { it with interval := samplingInterval rate (if it.live then it.nodeMin else none) pub req }
  | .setMode m =>
    -- `mi.sub.disabledMonitoredItemCount`
    if it.live = false then { s with panicked := true }
    else starting s t i { it with mode := m }
  | .delete => { s with items := set s.items i (some { it with live := false }), threads := set s.threads t none }
  | .create .. => s

/-- The goroutine `t` goes on. -/
def go (rate : F64) (s : State) (t : Nat) : State :=
  match s.threads t with
  | none => s
  | some (i, pc) =>
    match s.items i with
    | none => s
    | some it =>
      match pc with
      | .compare m =>
        if it.mode = m then { s with threads := set s.threads t none }
        else { s with threads := set s.threads t (some (i, .leave (.setMode m))) }
      | .leave op =>
        ticker (groupOf rate it.interval)
          { s with groups := set s.groups (groupOf rate it.interval) ((s.groups (groupOf rate it.interval)).filter (· ≠ i)),
                   threads := set s.threads t (some (i, .change op)) }
      | .change op => change rate s t i it op
      | .enter fresh =>
        ticker (groupOf rate it.interval)
          { s with groups := set s.groups (groupOf rate it.interval) (insert i (s.groups (groupOf rate it.interval))),
                   items := set s.items i (some (if fresh then append it else it)),
                   threads := set s.threads t none }

inductive Ev where
  | begin (t i : Nat) (op : Op)
  | go (t : Nat)
  /-- `case <-ticker.C`: the listeners are copied, lines 72-80 -/
  | tick (g : Int)
  /-- `listener.Poll()`, line 82; datachange_monitored_item.go:266-273 -/
  | poll (g : Int) (i : Nat)
  deriving DecidableEq, Repr

/-- Poll reads the value if the item has not been deleted. -/
def poll (s : State) (g : Int) (i : Nat) : State :=
  if i ∈ s.due g then
    { s with due := set s.due g ((s.due g).erase i),
             reads := if (s.items i).any (·.live) then s.reads ++ [(g, i)] else s.reads }
  else s

def step (rate : F64) (s : State) (e : Ev) : State :=
  if s.panicked then s
  else match e with
    | .begin t i op => if (s.threads t).isSome then s else begin rate s t i op
    | .go t => go rate s t
    | .tick g => if s.due g = [] then { s with due := set s.due g (s.groups g) } else s
    | .poll g i => poll s g i

def init : State := ⟨fun _ => none, fun _ => none, fun _ => [], fun _ => [], [], false⟩

def run (rate : F64) (evs : List Ev) : State := evs.foldl (step rate) init

end Opcua.PollGroup
