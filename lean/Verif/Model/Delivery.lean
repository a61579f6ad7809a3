import Verif.Model.MonitoredItem
import Verif.Model.Subscription

/-!
# From the items of a subscription to a client that may miss responses

`publish` and `handleLatePublishRequest` as a whole (server/subscription.go:305-649): the queues of the items
(Model/MonitoredItem.lean) are emptied into messages, which are numbered, kept and sent
(Model/Subscription.lean). At the other end is a client; a response that was written may be lost on the way,
as when a connection breaks.

Simplifications: those of the two models; one session; the client has responses in the order in which they
were written; the acknowledgements of a Publish request are events before the request.
-/

namespace Opcua.Delivery

open Opcua

variable {V : Type}

/-- `got` is what the client has received, oldest first: numbers and contents of notification messages. -/
structure State (V : Type) where
  items : MonitoredItem.State V
  sub : Subscription.Sub (List (Nat × V))
  got : List (BitVec 32 × List (Nat × V))

/-- What the items have for one message, subscription.go:310-315 and 324-366, if anything. -/
def offer (items : MonitoredItem.State V) (max : Nat) (order : List Nat) : Option (List (Nat × V) × Bool) :=
  ((MonitoredItem.step items (.publish max order)).out.drop items.out.length).head?

/-- The notification messages among responses. -/
def contents (rs : List (Subscription.Resp (List (Nat × V)))) : List (BitVec 32 × List (Nat × V)) :=
  rs.filterMap (fun r => r.msg.body.map (fun c => (r.msg.seq, c)))

/-- A turn of the timer or a late request, subscription.go:305-500 and 502-649: the loop that takes notifications
from the items runs just when a message is made. -/
def publishing (s : State V) (max : Nat) (order : List Nat)
    (e : Option (List (Nat × V) × Bool) → Subscription.Ev (List (Nat × V))) (arrives : Bool) : State V :=
  let sub := Subscription.step s.sub (e (offer s.items max order))
  { items := if sub.produced.length > s.sub.produced.length then MonitoredItem.step s.items (.publish max order)
      else s.items
    sub := sub
    got := if arrives then s.got ++ contents (sub.sent.drop s.sub.sent.length) else s.got }

/-- `arrives`: whether a response that was written reaches the client. -/
inductive Ev (V : Type) where
  /-- samples and services on items; `publish` is not one of them -/
  | item (e : MonitoredItem.Ev V)
  | timer (max : Nat) (order : List Nat) (req : Subscription.Req) (arrives : Bool)
  | late (max : Nat) (order : List Nat) (results : List Subscription.AckStatus) (writeOk arrives : Bool)
  | ack (n : BitVec 32)
  | republish (n : BitVec 32) (writeOk arrives : Bool)
  | setMode (enabled : Bool)
  | modify (maxLifetime maxKeepAlive : Nat)
  | touch
deriving Repr

def step (s : State V) : Ev V → State V
  | .item (.publish _ _) => s
  | .item e => { s with items := MonitoredItem.step s.items e }
  | .timer max order req arrives => publishing s max order (.cycle · req) arrives
  | .late max order results ok arrives => publishing s max order (.late · results ok) arrives
  | .ack n => { s with sub := Subscription.step s.sub (.ack n) }
  -- handleRepublish, server_service_set.go:5520-5549
  | .republish n ok arrives =>
    { s with
      sub := Subscription.step s.sub (.republish n ok)
      got := match (if s.sub.alive then (Subscription.republish s.sub n ok).2 else none) with
        | some c => if arrives then s.got ++ [(n, c)] else s.got
        | none => s.got }
  | .setMode b => { s with sub := Subscription.step s.sub (.setMode b) }
  | .modify l k => { s with sub := Subscription.step s.sub (.modify l k) }
  | .touch => { s with sub := Subscription.step s.sub .touch }

/-- A new subscription, and a client that has nothing. -/
def init (enabled : Bool) (maxLifetime maxKeepAlive : Nat) : State V :=
  ⟨MonitoredItem.init, Subscription.new enabled maxLifetime maxKeepAlive, []⟩

def run (s : State V) (evs : List (Ev V)) : State V := evs.foldl step s

end Opcua.Delivery
