/-!
# Locks and queues of the subscription services

The locks of the subscription manager (server/subscription_manager.go:14) and of the subscriptions
(server/subscription.go:28), the queue `stateChanges` of a session (server/session.go:130), and in
which order the services, the publishing timers and the check for expired subscriptions take them.

Simplifications: read locks are exclusive; goroutines run finite programs; writing to a connection
returns; the locks of monitored items, of the session and of the server, which are taken and given
back inside, are left out.
-/

namespace Opcua.Locks

inductive Lock where
  /-- the lock of the manager -/
  | table
  /-- the lock of a subscription -/
  | sub (i : Nat)
  deriving DecidableEq, Repr

inductive Instr where
  | acquire (l : Lock)
  | release (l : Lock)
  /-- `session.stateChanges <- op`: waits while the queue is full -/
  | send (session : Nat)
  /-- `select { case op := <-session.stateChanges: ... default: }`: does not wait -/
  | recv (session : Nat)
  deriving DecidableEq, Repr

/-- `make(chan *stateChangeOp, 64)`, session.go:130. -/
abbrev capacity : Nat := 64

/-- Who holds each lock, how many state changes wait in each session, and what each goroutine still
has to do. -/
structure State where
  held : Lock → Option Nat
  queue : Nat → Nat
  prog : Nat → List Instr

def set {α β : Type} [DecidableEq α] (f : α → β) (a : α) (b : β) : α → β := fun x => if x = a then b else f x

/-- One instruction of goroutine `t`, if it need not wait. -/
def step (s : State) (t : Nat) : State :=
  match s.prog t with
  | [] => s
  | .acquire l :: p => if s.held l = none then { s with held := set s.held l (some t), prog := set s.prog t p } else s
  | .release l :: p => { s with held := set s.held l none, prog := set s.prog t p }
  | .send j :: p =>
    if s.queue j < capacity then { s with queue := set s.queue j (s.queue j + 1), prog := set s.prog t p } else s
  | .recv j :: p => { s with queue := set s.queue j (s.queue j - 1), prog := set s.prog t p }

/-- A schedule says whose turn it is. -/
def run (s : State) (schedule : List Nat) : State := schedule.foldl step s

/-- Goroutines about to start. -/
def init (prog : Nat → List Instr) : State := ⟨fun _ => none, fun _ => 0, prog⟩

/-- `Get`, `Len`, `Add`, `Delete` and `GetBySession`, subscription_manager.go:41-95. -/
def onTable : List Instr := [.acquire .table, .release .table]

/-- A method of a subscription, subscription.go:88-280. -/
def onSub (i : Nat) : List Instr := [.acquire (.sub i), .release (.sub i)]

/-- What the goroutines do. -/
inductive Task where
  /-- CreateSubscription, server_service_set.go:4852-4876 -/
  | create
  /-- a service that looks up one subscription and calls a method of it: ModifySubscription,
  SetPublishingMode, Republish, the services on monitored items -/
  | use (i : Nat)
  /-- DeleteSubscriptions, server_service_set.go:5206-5214 -/
  | delete (i : Nat)
  /-- Publish, server_service_set.go:5335-5425: acknowledgements of `acks`, one state change, and then
  late subscriptions among `subs` -/
  | publish (session : Nat) (acks subs : List Nat)
  /-- a publishing cycle, subscription.go:305-500 -/
  | cycle (i : Nat)
  /-- a publishing cycle in which the subscription expires, subscription.go:416-430, 483-496 -/
  | expiry (session i : Nat)
  deriving DecidableEq, Repr

def Task.instrs : Task → List Instr
  | .create => onTable
  | .use i => onTable ++ onSub i
  | .delete i => onTable ++ onTable ++ onSub i
  | .publish j acks subs =>
    acks.flatMap (fun i => onTable ++ onSub i) ++ [.recv j] ++ onTable ++ onTable ++ subs.flatMap onSub
  | .cycle i => onSub i
  | .expiry j i => [.acquire (.sub i), .send j] ++ onTable ++ [.release (.sub i)]

/-- `checkForExpiredSubscriptions`, subscription_manager.go:97-117, run every minute. -/
def sweep (subs : List Nat) : List Instr := [.acquire .table] ++ subs.flatMap onSub ++ [.release .table]

end Opcua.Locks
