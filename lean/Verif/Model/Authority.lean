import Verif.Model.OpenChannel
import Verif.Model.Session
import Verif.Model.Access

/-!
# From a frame on the wire to an effect in the address space

The parts of a server through which a request passes before it changes something, joined: `readRequest` with its chunks and
its OPN branch (Model/OpenChannel.lean), the dispatch on the type of the request (server/server.go:416-504), the sessions
(Model/Session.lean), and Write and Call with roles and permissions (Model/Access.lean).

The decoding of bodies is a parameter, `decode`, as are the authenticator, `login`, and the cryptographic environment.
Requests are handled one at a time; requests with several items are their items one after the other (`handleWrite` and
`handleCall` hand every item to `writeValue` and to the loop body modelled in `Access.call`). Opening a channel is an event
that carries the channel as `Open` leaves it. Requests that act on nothing modelled here are `other`. The limits of
messages (C30) are left out: they refuse, and never let anything pass. So are the answers: an effect comes before its
answer, and what can go wrong with that is in Model/Answer.lean.
-/

namespace Opcua.Authority

open Opcua.Channel (World SChan Frag recvFrame renew)
open Opcua.AddressSpace (Id)
open Opcua.Access (Identity Written)

/-- The requests, as far as they matter here; `tok` is the authentication token of the header. -/
inductive Request where
  | create (timeout : Nat) (client : Option Nat)
  | activate (tok : Nat) (signedBy : Option Nat) (cred : Nat)
  | closeSession (tok : Nat)
  | write (tok : Nat) (id : Id) (a : Nat) (w : Written)
  | call (tok : Nat) (object method : Id)
  | renew (remoteNonce : Bytes)
  | closeChannel
  | other
  deriving DecidableEq, Repr

structure Setup where
  W : World
  decode : Bytes → Option Request
  /-- the authenticators of the server: which user the credentials belong to -/
  login : Nat → Option Nat
  /-- the identity of a user, as the rules of the roles see it -/
  identity : Nat → Identity

/-- A chunk that was accepted: the frame, the channel as it was then, and the part of the message in it. -/
structure Part where
  ch : SChan
  frame : Bytes
  body : Bytes

/-- A connection: its channel, the bodies of the chunks of the message that is being read, and, as a record, those chunks. -/
structure Conn where
  ch : SChan
  acc : Bytes := []
  parts : List Part := []

/-- What the services act upon: the nodes and, as a record, the methods that ran with the user for whom they ran. -/
structure Effects where
  server : Access.Server
  ran : List (Nat × Id × Id) := []

/-- A message that was read as a whole: the channel, its chunks and what it says. -/
structure Delivered where
  chan : Nat
  parts : List Part
  key : Option Nat
  request : Request

/-- `chans` by channel id, `last` the id given last (server.go:1077-1089), `log` a record of the messages. A panic ends the
process: `dead`. -/
structure State where
  chans : Nat → Option Conn
  last : Nat
  sess : Session.State Effects
  log : List Delivered
  dead : Bool

def setConn (s : State) (c : Nat) (k : Option Conn) : State :=
  { s with chans := fun i => if i = c then k else s.chans i }

/-- What ActivateSession looks at, server_service_set.go:313-339: a channel whose policy is None has no key. -/
def keyOf (ch : SChan) : Option Nat := if ch.policy = .none then none else ch.remoteKey

/-- One item of Write after the checks of the session, server_service_set.go:2243-2400. -/
def write (p : Setup) (user : Nat) (id : Id) (a : Nat) (w : Written) (e : Effects) : Effects :=
  { e with server := (Access.writeValue e.server (p.identity user) id a w).1 }

/-- One item of Call after the checks of the session, server_service_set.go:3619-3668. -/
def call (p : Setup) (user : Nat) (o m : Id) (e : Effects) : Effects :=
  match Access.call e.server (p.identity user) o m with
  | .runs o m => { e with ran := e.ran ++ [(user, o, m)] }
  | .status _ => e

/-- A service on a session: the checks, then the effect for the user of the session. -/
def service (s : Session.State Effects) (tok : Nat) (ch : Session.Channel) (f : Nat → Effects → Effects) :
    Session.State Effects :=
  match Session.gate s tok ch with
  | (s, .error _) => s
  | (s, .ok x) => { s with world := f x.user s.world }

/-- handleRequest, server/server.go:430-504. `tok` and `sid` are the random numbers of CreateSession, `nonce` that of a
renewal. -/
def handle (p : Setup) (s : State) (c : Nat) (k : Conn) (tok sid : Nat) (nonce : Bytes) : Request → State
  | .create timeout client => { s with sess := (Session.step s.sess (.create tok sid timeout client)).1 }
  | .activate t signedBy cred =>
    { s with sess := (Session.step s.sess (.activate t ⟨c, keyOf k.ch⟩ signedBy (p.login cred).isSome ((p.login cred).getD 0))).1 }
  | .closeSession t => { s with sess := (Session.step s.sess (.close t ⟨c, keyOf k.ch⟩ (fun _ e => e))).1 }
  | .write t id a w => { s with sess := service s.sess t ⟨c, keyOf k.ch⟩ (fun u => write p u id a w) }
  | .call t o m => { s with sess := service s.sess t ⟨c, keyOf k.ch⟩ (fun u => call p u o m) }
  | .renew remote =>
    -- the answer cannot be signed under the policy None (server_secure_channel.go:561), and the connection ends
    if k.ch.policy = .none ∧ k.ch.chan.mode ≠ .none then setConn s c none
    else setConn s c (some { k with ch := { k.ch with chan := renew k.ch.chan nonce remote } })
  | .closeChannel => setConn s c none
  | .other => s

/-- One frame on connection `c`, requestWorker (server/server.go:416-427) around readRequest
(server_secure_channel.go:1028-1450): an error ends the connection. -/
def frame (p : Setup) (s : State) (c : Nat) (f : Bytes) (tok sid : Nat) (nonce : Bytes) : State :=
  match s.chans c with
  | none => s
  | some k =>
    match recvFrame p.W k.ch f with
    | .panic => { s with dead := true }
    | .err _ => setConn s c none
    | .ok (ch, g) =>
      let parts := k.parts ++ [⟨ch, f, g.body⟩]
      if g.final then
        match p.decode (k.acc ++ g.body) with
        | none => setConn s c none
        | some r =>
          let k' : Conn := { ch := ch }
          let s := setConn s c (some k')
          handle p { s with log := s.log ++ [⟨c, parts, keyOf ch, r⟩] } c k' tok sid nonce r
      else setConn s c (some { ch := ch, acc := k.acc ++ g.body, parts := parts })

/-- What happens to a server: a channel was opened, a frame arrives, time passes, expired sessions are removed. -/
inductive Ev where
  | opened (ch : SChan)
  | frame (c : Nat) (f : Bytes) (tok sid : Nat) (nonce : Bytes)
  | tick (d : Nat)
  | sweep

def step (p : Setup) (s : State) (e : Ev) : State :=
  if s.dead then s
  else match e with
    | .opened ch => setConn { s with last := s.last + 1 } (s.last + 1) (some { ch := ch })
    | .frame c f tok sid nonce => frame p s c f tok sid nonce
    | .tick d => { s with sess := (Session.step s.sess (.tick d)).1 }
    | .sweep => { s with sess := (Session.step s.sess .sweep).1 }

def run (p : Setup) (s : State) (evs : List Ev) : State := evs.foldl (step p) s

/-- A server without connections. -/
def init (max : Nat) (srv : Access.Server) : State :=
  { chans := fun _ => none, last := 0, sess := Session.init max { server := srv }, log := [], dead := false }

end Opcua.Authority
