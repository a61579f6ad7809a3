/-!
# Services on subscriptions that meet

A service looks a subscription up in the table and then calls its methods; in between, the publishing
timer of the subscription or a service of another connection may delete it. Only what can make Go
panic is kept of a subscription: the channel that stops its timer, and whether its map of items and
its retransmission queue have been thrown away.

server/subscription.go:62-108, 150-165, 268-303, 416-430; server/subscription_manager.go:51-76,
119-125; server/server_service_set.go:933-939, 3762-3960, 4852-4876, 4968-4991, 5206-5214, 5337-5347,
5499-5549.

Simplifications: each method is one step, because it holds the lock of the subscription; a panic ends
the process, there is no `recover` in the server.
-/

namespace Opcua.SubCrash

/-- `cancelPublishing`. -/
inductive Chan where
  | nil
  | open
  | closed
  deriving DecidableEq, Repr

/-- `inTable`: the manager has it; `alive`: `items` and `retransmissionQueue` are not nil. -/
structure Sub where
  inTable : Bool
  chan : Chan
  alive : Bool
  deriving DecidableEq, Repr

/-- What a service does after it has looked up the subscription. -/
inductive Op where
  /-- `startPublishing` after `Add`, server_service_set.go:4854-4872 -/
  | start
  /-- `Modify`, subscription.go:168-181 -/
  | modify
  /-- `sm.Delete(sub)` -/
  | remove
  /-- `sub.Delete()` -/
  | delete
  /-- `acknowledge`, subscription.go:268-280 -/
  | acknowledge
  /-- `handleRepublish`, server_service_set.go:5520-5549 -/
  | republish
  /-- `AppendItem`, subscription.go:128-141 -/
  | appendItem
  /-- `SetPublishingMode`, `FindItem`, `DeleteItem`, ... -/
  | other
  deriving DecidableEq, Repr

/-- `pending t`: what goroutine `t` is about to do. -/
structure State where
  subs : Nat → Option Sub
  pending : Nat → Option (Nat × Op)
  panicked : Bool

def set {β : Type} (f : Nat → β) (a : Nat) (b : β) : Nat → β := fun x => if x = a then b else f x

def State.panic (s : State) : State := { s with panicked := true }

/-- `close(s.cancelPublishing)`: nil and closed channels make it panic. -/
def close (c : Chan) : Option Chan :=
  match c with
  | .open => some .closed
  | _ => none

/-- `deleteImpl`, subscription.go:98-115. On a subscription that is deleted already `stopPublishing`
comes first. -/
def deleteImpl (s : State) (i : Nat) (x : Sub) : State :=
  match close x.chan with
  | none => s.panic
  | some c => { s with subs := set s.subs i (some { x with chan := c, alive := false }) }

inductive Ev where
  /-- goroutine `t` creates subscription `i` and adds it to the table -/
  | add (t i : Nat)
  /-- goroutine `t` finds subscription `i` in the table -/
  | get (t i : Nat) (op : Op)
  /-- goroutine `t` does what it is about to do -/
  | act (t : Nat)
  /-- the timer of subscription `i` ends its lifetime -/
  | expire (i : Nat)
  /-- `stopPublishingAllSubscriptions` when the server closes, for subscription `i` -/
  | shutdown (i : Nat)
  deriving DecidableEq, Repr

def act (s : State) (t i : Nat) (op : Op) (x : Sub) : State :=
  let s := { s with pending := set s.pending t none }
  match op with
  | .start => { s with subs := set s.subs i (some { x with chan := .open }) }
  | .modify =>
    match close x.chan with
    | none => s.panic
    | some _ => { s with subs := set s.subs i (some { x with chan := .open }) }
  | .remove =>
    { s with subs := set s.subs i (some { x with inTable := false }), pending := set s.pending t (some (i, .delete)) }
  | .delete => deleteImpl s i x
  | .acknowledge => if x.alive then s else s.panic
  | .republish => if x.alive then s else s.panic
  | .appendItem => if x.alive then s else s.panic
  | .other => s

def step (s : State) (e : Ev) : State :=
  if s.panicked then s
  else
    match e with
    | .add t i =>
      match s.pending t, s.subs i with
      | none, none => { s with subs := set s.subs i (some ⟨true, .nil, true⟩), pending := set s.pending t (some (i, .start)) }
      | _, _ => s
    | .get t i op =>
      match s.pending t, s.subs i with
      | none, some x =>
        if x.inTable ∧ op ≠ .start ∧ op ≠ .delete then { s with pending := set s.pending t (some (i, op)) } else s
      | _, _ => s
    | .act t =>
      match s.pending t with
      | none => s
      | some (i, op) =>
        match s.subs i with
        | none => s
        | some x => act s t i op x
    | .expire i =>
      match s.subs i with
      | none => s
      | some x =>
        if x.chan = .open ∧ x.alive then deleteImpl s i { x with inTable := false } else s
    | .shutdown i =>
      match s.subs i with
      | none => s
      | some x =>
        if x.inTable then
          match close x.chan with
          | none => s.panic
          | some c => { s with subs := set s.subs i (some { x with chan := c }) }
        else s

def run (s : State) (evs : List Ev) : State := evs.foldl step s

def init : State := ⟨fun _ => none, fun _ => none, false⟩

end Opcua.SubCrash
