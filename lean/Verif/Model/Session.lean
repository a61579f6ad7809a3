/-! Sessions: SessionManager (server/session_manager.go:38-104), the life of a session
(handleCreateSession, handleActivateSession, handleCloseSession,
server/server_service_set.go:92-277, 280-864, 867-959) and the checks at the start of every session
service. Requests are handled one at a time here; see Model/PublishQueue.lean for the one session
structure that is used by several goroutines. Times are milliseconds. -/
namespace Opcua.Session

/-- `Session`, server/session.go:28-118, as far as access to it is concerned. `chan = 0` until the
session is activated. `client` is the key of the certificate given in CreateSession (`none`: no
certificate). -/
structure Sess where
  sid : Nat
  chan : Nat
  last : Nat
  timeout : Nat
  user : Nat
  client : Option Nat
deriving Repr, DecidableEq

/-- Status of the answer. `badActivation` stands for every refusal of ActivateSession after the
session was found (signature, identity token, authenticator). -/
inductive Status where
  | good
  | badSessionIDInvalid
  | badSessionNotActivated
  | badSecureChannelIDInvalid
  | badTooManySessions
  | badApplicationSignatureInvalid
  | badActivation
deriving Repr, DecidableEq

/-- `world` is everything the services act upon: address space, subscriptions, and so on.
`sessionsByToken` is an association list with at most one entry per token. -/
structure State (W : Type) where
  now : Nat
  max : Nat
  table : List (Nat × Sess)
  world : W

variable {W : Type}

/-- map lookup -/
def find (t : List (Nat × Sess)) (tok : Nat) : Option Sess :=
  match t with
  | [] => none
  | (k, s) :: t => if k = tok then some s else find t tok

/-- `delete(m, k)` -/
def erase (t : List (Nat × Sess)) (tok : Nat) : List (Nat × Sess) := t.filter (fun e => e.1 ≠ tok)

/-- `m[k] = s` -/
def put (t : List (Nat × Sess)) (tok : Nat) (s : Sess) : List (Nat × Sess) := erase t tok ++ [(tok, s)]

/-- IsExpired, server/session.go:145-149. -/
def expired (now : Nat) (s : Sess) : Bool := decide (now - s.last > s.timeout)

/-- Get, server/session_manager.go:39-47: the time of access is set on success. -/
def get (s : State W) (tok : Nat) : Option (Sess × State W) :=
  match find s.table tok with
  | none => none
  | some x =>
    if expired s.now x then none
    else some ({ x with last := s.now }, { s with table := put s.table tok { x with last := s.now } })

/-- Add, server/session_manager.go:50-65. -/
def add (s : State W) (tok : Nat) (x : Sess) : State W × Status :=
  if s.max > 0 ∧ s.table.length ≥ s.max then (s, .badTooManySessions)
  else ({ s with table := put s.table tok x }, .good)

/-- Delete, server/session_manager.go:68-79. -/
def del (s : State W) (tok : Nat) : State W := { s with table := erase s.table tok }

/-- checkForExpiredSessions, server/session_manager.go:88-104. -/
def sweep (s : State W) : State W := { s with table := s.table.filter (fun e => ¬ expired s.now e.2) }

/-- A secure channel as ActivateSession sees it: its id and, unless its policy is None, the public
key of the peer's certificate. -/
structure Channel where
  id : Nat
  key : Option Nat
deriving Repr, DecidableEq

/-- What happens on a server. `activate` carries the key that made the client signature and whether
the identity token and the authenticator accept the user. `service` is a request for any of the
session services, acting on the world as `body sid` once the checks are passed. -/
inductive Ev (W : Type) where
  | tick (d : Nat)
  | create (tok sid timeout : Nat) (client : Option Nat)
  | activate (tok : Nat) (ch : Channel) (signedBy : Option Nat) (accepted : Bool) (user : Nat)
  | service (tok : Nat) (ch : Channel) (body : Nat → W → W)
  | close (tok : Nat) (ch : Channel) (delSubs : Nat → W → W)
  | sweep

/-- The checks of every session service, e.g. handleRead, server_service_set.go:2057-2130 (the same
code is in all of them; the discoveryOnly check, which aborts the channel, is left out). -/
def gate (s : State W) (tok : Nat) (ch : Channel) : State W × Except Status Sess :=
  match get s tok with
  | none => (s, .error .badSessionIDInvalid)
  | some (x, s) =>
    if x.chan = 0 then (del s tok, .error .badSessionNotActivated)
    else if x.chan ≠ ch.id then (s, .error .badSecureChannelIDInvalid)
    else (s, .ok x)

/-- The client signature in ActivateSession, server_service_set.go:313-339: checked against the key
of the channel the request arrived on, not at all when the policy of that channel is None. -/
def signatureOk (ch : Channel) (signedBy : Option Nat) : Bool :=
  match ch.key with
  | none => true
  | some k => signedBy == some k

def step (s : State W) : Ev W → State W × Status
  | .tick d => ({ s with now := s.now + d }, .good)
  | .create tok sid timeout client => add s tok ⟨sid, 0, s.now, timeout, 0, client⟩
  | .activate tok ch signedBy accepted user =>
    match get s tok with
    | none => (s, .badSessionIDInvalid)
    | some (x, s) =>
      if signatureOk ch signedBy = false then (s, .badApplicationSignatureInvalid)
      else if accepted = false then (s, .badActivation)
      else ({ s with table := put s.table tok { x with chan := ch.id, user := user } }, .good)
  | .service tok ch body =>
    match gate s tok ch with
    | (s, .error e) => (s, e)
    | (s, .ok x) => ({ s with world := body x.sid s.world }, .good)
  | .close tok ch delSubs =>
    match gate s tok ch with
    | (s, .error e) => (s, e)
    | (s, .ok x) => ({ (del s tok) with world := delSubs x.sid s.world }, .good)
  | .sweep => (Session.sweep s, .good)

def run (s : State W) (evs : List (Ev W)) : State W := evs.foldl (fun s e => (step s e).1) s

/-- A fresh server. -/
def init (max : Nat) (w : W) : State W := ⟨0, max, [], w⟩

end Opcua.Session
