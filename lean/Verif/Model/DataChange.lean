import Verif.Model.Revise

/-!
# Samples and filters of data change items

server/datachange_monitored_item.go: which samples are put into the queue of an item.

Simplifications: the size of the queue is left out (Model/MonitoredItem.lean has it). Finite float64 values
are rationals; the rounding of the results of arithmetic is a parameter. Values other than numbers,
such as strings and structures, are opaque tokens of a type, which `reflect.DeepEqual` compares by
content. Arrays are one-dimensional; an array has the address of its first element. Times are numbers.
The application does not change an array in place after it handed it over.
-/

namespace Opcua.DataChange

open Opcua.Revise (F64)

/-! ## Values -/

/-- Go types of numbers, and all other types by number. -/
inductive Ty where
  | int (bits : Nat)
  | uint (bits : Nat)
  | float (bits : Nat)
  | other (n : Nat)
  deriving DecidableEq, Repr

/-- A value that is not an array. `reflect.Value.Int` and `Uint` widen to 64 bits. -/
inductive Scalar where
  | int (bits : Nat) (x : BitVec 64)
  | uint (bits : Nat) (x : BitVec 64)
  | float (bits : Nat) (x : F64)
  | other (n : Nat) (content : Nat)
  deriving DecidableEq, Repr

def Scalar.type : Scalar → Ty
  | .int b _ => .int b
  | .uint b _ => .uint b
  | .float b _ => .float b
  | .other n _ => .other n

/-- The contents of a Variant. -/
inductive Val where
  | null
  | scalar (s : Scalar)
  | slice (isNil : Bool) (address : Nat) (elem : Ty) (elems : List Scalar)
  deriving DecidableEq, Repr

/-- `==` on two scalars of the same type: NaN is unequal to itself. -/
def Scalar.eq : Scalar → Scalar → Bool
  | .int b x, .int c y => decide (b = c ∧ x = y)
  | .uint b x, .uint c y => decide (b = c ∧ x = y)
  | .float b x, .float c y => decide (b = c ∧ x = y ∧ x ≠ .nan)
  | .other n x, .other m y => decide (n = m ∧ x = y)
  | _, _ => false

/-- Elementwise, stopping at the end of the shorter one. -/
def allEq (eq : Scalar → Scalar → Bool) : List Scalar → List Scalar → Bool
  | a :: as, b :: bs => eq a b && allEq eq as bs
  | _, _ => true

/-- `reflect.DeepEqual`. -/
def deepEqual : Val → Val → Bool
  | .null, .null => true
  | .scalar a, .scalar b => a.eq b
  | .slice n p e as, .slice m q f bs =>
    if e ≠ f then false
    else if n ≠ m then false
    else if as.length ≠ bs.length then false
    else if p = q then true
    else allEq Scalar.eq as bs
  | _, _ => false

/-! ## Arithmetic -/

/-- How the results of float64 operations are rounded. -/
structure Arith where
  round : Rat → F64

/-- `a - b`. -/
def Arith.sub (A : Arith) : F64 → F64 → F64
  | .nan, _ => .nan
  | _, .nan => .nan
  | .posInf, .posInf => .nan
  | .negInf, .negInf => .nan
  | .posInf, _ => .posInf
  | .negInf, _ => .negInf
  | _, .posInf => .negInf
  | _, .negInf => .posInf
  | .fin a, .fin b => A.round (a - b)

/-- `math.Abs`. -/
def abs : F64 → F64
  | .nan => .nan
  | .posInf => .posInf
  | .negInf => .posInf
  | .fin a => .fin (if a < 0 then -a else a)

/-- `a <= b`; false when one of them is NaN. -/
def le : F64 → F64 → Bool
  | .nan, _ => false
  | _, .nan => false
  | .negInf, _ => true
  | _, .posInf => true
  | .posInf, _ => false
  | _, .negInf => false
  | .fin a, .fin b => decide (a ≤ b)

/-! ## Filters -/

/-- ua.DataChangeTrigger; numbers above 2 are `other`. -/
inductive Trigger where
  | status | statusValue | statusValueTimestamp | other
  deriving DecidableEq, Repr

/-- ua.DeadbandType; numbers above 2 are `other`. -/
inductive Deadband where
  | none | absolute (d : F64) | percent | other
  deriving DecidableEq, Repr

structure Filter where
  trigger : Trigger
  deadband : Deadband
  deriving DecidableEq, Repr

/-- ua/data_value.go:9-17. -/
structure DV where
  value : Val
  status : BitVec 32
  source : Nat
  sourcePico : Nat
  server : Nat
  serverPico : Nat
  deriving DecidableEq, Repr

/-- Zero time, `time.Time{}`. -/
abbrev noTime : Nat := 0

/-- equalDeadbandAbsolute on two scalars, datachange_monitored_item.go:449-494. The elements of arrays
are passed as reflect.Value, whose kind is Struct: see `equalDeadband`. -/
def equalScalars (A : Arith) (d : F64) (c p : Scalar) : Bool :=
  if c.type ≠ p.type then false
  else
    match c, p with
    | .int _ x, .int _ y => le (abs (A.round ((x - y).toInt : Int))) d
    | .uint _ x, .uint _ y => le (abs (A.round ((x - y).toNat : Int))) d
    | .float _ x, .float _ y => le (abs (A.sub x y)) d
    | _, _ => false

/-- equalDeadbandAbsolute, datachange_monitored_item.go:449-494. For arrays the loop at 478-482 calls
itself with values of type reflect.Value, which is none of the kinds: the result is false as soon as
there is an element. -/
def equalDeadband (A : Arith) (d : F64) : Val → Val → Bool
  | .null, .null => true
  | .scalar c, .scalar p => equalScalars A d c p
  | .slice n a e cs, .slice m b f ps =>
    if e ≠ f then false
    else if n ≠ m then false
    else if cs.length ≠ ps.length then false
    else if a = b then true
    else if e = .uint 8 then decide (cs = ps)
    else allEq (fun _ _ => false) cs ps
  | _, _ => false

/-- The bits of a status code that count: datachange_monitored_item.go:417, 419, 431. -/
abbrev statusMask : BitVec 32 := 0xFFFFF000

/-- The switch on the type of deadband, datachange_monitored_item.go:422-429, 437-444. -/
def valueChange (A : Arith) (db : Deadband) (c p : Val) : Bool :=
  match db with
  | .none => !deepEqual c p
  | .absolute d => !equalDeadband A d c p
  | .percent => true
  | .other => true

/-- isDataChange, datachange_monitored_item.go:413-447. -/
def isDataChange (A : Arith) (f : Filter) (c p : DV) : Bool :=
  match f.trigger with
  | .status => decide (c.status &&& statusMask ≠ p.status &&& statusMask)
  | .statusValue =>
    if c.status &&& statusMask ≠ p.status &&& statusMask then true
    else valueChange A f.deadband c.value p.value
  | .statusValueTimestamp =>
    if c.status &&& statusMask ≠ p.status &&& statusMask then true
    else if c.source ≠ p.source then true
    else valueChange A f.deadband c.value p.value
  | .other => true

/-- ua.TimestampsToReturn. -/
inductive Timestamps where
  | source | server | both | neither
  deriving DecidableEq, Repr

/-- withTimestamps, datachange_monitored_item.go:497-508. -/
def withTimestamps (v : DV) : Timestamps → DV
  | .source => ⟨v.value, v.status, v.source, 0, noTime, 0⟩
  | .server => ⟨v.value, v.status, noTime, 0, v.server, 0⟩
  | .neither => ⟨v.value, v.status, noTime, 0, noTime, 0⟩
  | .both => v

/-- selectTimestamps for the results of Read, server_service_set.go:3473-3493. -/
def selectTimestamps (vs : List DV) (t : Timestamps) : List DV :=
  match t with
  | .source => vs.map (fun v => ⟨v.value, v.status, v.source, 0, noTime, 0⟩)
  | .server => vs.map (fun v => ⟨v.value, v.status, noTime, 0, v.server, 0⟩)
  | .neither => vs.map (fun v => ⟨v.value, v.status, noTime, 0, noTime, 0⟩)
  | .both => vs

/-! ## Sampling -/

inductive Mode where
  | disabled | sampling | reporting
  deriving DecidableEq, Repr

/-- What is recorded about an item for the theorems. -/
inductive Rec where
  /-- the filter let a sample pass -/
  | report (v : DV) (f : Filter)
  /-- a value was read again for ResendData -/
  | again (v : DV)
  /-- the item forgot its last value -/
  | reset
  deriving DecidableEq, Repr

/-- The fields of DataChangeMonitoredItem that take part, datachange_monitored_item.go:19-42. -/
structure Item where
  mode : Mode
  ti : Nat
  ts : Nat
  filter : Filter
  timestamps : Timestamps
  prequeue : List DV
  prev : DV
  queue : List DV
  /-- history, not in the code -/
  log : List Rec
  /-- the last sample that was looked at, not in the code -/
  seen : Option DV

/-- Bad_WaitingForInitialData. -/
abbrev badWaiting : BitVec 32 := 0x80320000

/-- datachange_monitored_item.go:58, 146, 164. -/
def initialValue : DV := ⟨.null, badWaiting, noTime, 0, noTime, 0⟩

/-- `if mi.isDataChange(v, mi.previousQueuedValue) {...}`, lines 389-392, 398-401. -/
def offer (A : Arith) (i : Item) (v : DV) : Item :=
  if isDataChange A i.filter v i.prev then
    { i with queue := i.queue ++ [withTimestamps v i.timestamps], prev := v, log := i.log ++ [.report v i.filter] }
  else i

/-- Lines 372-385: the samples up to `ts` are taken out; the last of them is kept. -/
def takeDue (ts : Nat) (v : DV) (seen : Option DV) : List DV → DV × Option DV × List DV
  | [] => (v, seen, [])
  | p :: rest => if p.server ≤ ts then takeDue ts p (some p) rest else (v, seen, p :: rest)

/-- Lines 370-393: `n` sampling intervals, `v` being carried along. -/
def sweep (A : Arith) : Nat → DV → Item → Item
  | 0, _, i => i
  | n + 1, v, i =>
    let (v, seen, rest) := takeDue i.ts v i.seen i.prequeue
    let i := offer A { i with prequeue := rest, seen := seen } v
    sweep A n v { i with ts := i.ts + i.ti }

/-- Lines 396-402. -/
def drain (A : Arith) (i : Item) : List DV → Item
  | [] => { i with prequeue := [] }
  | v :: rest => drain A (offer A { i with seen := some v } v) rest

/-- How often the loop of line 370 runs until `ts` is after `tn`. -/
def rounds (ti ts tn : Nat) : Nat := if ts ≤ tn then (tn - ts) / ti + 1 else 0

/-- notificationsAvailable, datachange_monitored_item.go:354-411; `resend` is the value that is read
again if ResendData was called. The result is `available`. -/
def cycle (A : Arith) (i : Item) (tn : Nat) (resend : Option DV) : Item :=
  if i.mode = .disabled then { i with ts := tn }
  else
    let i := if 0 < i.ti then sweep A (rounds i.ti i.ts tn) i.prev i else drain A i i.prequeue
    match resend with
    | some v =>
      if i.mode = .reporting ∧ i.queue = [] then
        { i with queue := [withTimestamps v i.timestamps], prev := v, log := i.log ++ [.again v], seen := some v }
      else i
    | none => i

/-- startMonitoring, lines 247-257, with the value that is read. -/
def startMonitoring (i : Item) (now : Nat) (v : DV) : Item :=
  let i := { i with ts := now }
  if i.mode = .disabled then i else { i with prequeue := i.prequeue ++ [v] }

/-- SetMonitoringMode, lines 155-171. -/
def setMode (i : Item) (m : Mode) (now : Nat) (v : DV) : Item :=
  if i.mode = m then i
  else
    let i := { i with mode := m }
    let i := if m = .disabled then { i with queue := [], prev := initialValue, log := i.log ++ [.reset], seen := none } else i
    startMonitoring i now v

/-- Modify, lines 124-137. The choice of timestamps of the request, `_t`, is checked
(server_service_set.go:4073-4094) but does not get here. -/
def modify (i : Item) (f : Filter) (_t : Timestamps) (ti now : Nat) (v : DV) : Item :=
  startMonitoring { i with filter := f, ti := ti } now v

/-- What happens to an item. -/
inductive Ev where
  /-- the scheduler polls the item, lines 266-273 -/
  | poll (v : DV)
  | cycle (tn : Nat) (resend : Option DV)
  /-- `notifications`, lines 336-352 -/
  | take (max : Nat)
  | setMode (m : Mode) (now : Nat) (v : DV)
  | modify (f : Filter) (t : Timestamps) (ti now : Nat) (v : DV)
  deriving DecidableEq, Repr

def step (A : Arith) (i : Item) : Ev → Item
  | .poll v => { i with prequeue := i.prequeue ++ [v] }
  | .cycle tn r => cycle A i tn r
  | .take n => { i with queue := i.queue.drop n }
  | .setMode m now v => setMode i m now v
  | .modify f t ti now v => modify i f t ti now v

def run (A : Arith) (i : Item) (evs : List Ev) : Item := evs.foldl (step A) i

/-- NewDataChangeMonitoredItem, lines 45-71. -/
def newItem (m : Mode) (f : Filter) (t : Timestamps) (ti now : Nat) (v : DV) : Item :=
  startMonitoring ⟨m, ti, now, f, t, [], initialValue, [], [], none⟩ now v

end Opcua.DataChange
