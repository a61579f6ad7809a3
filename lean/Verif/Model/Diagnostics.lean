/-!
# What a server publishes about its sessions, subscriptions and requests

The counters of `ServerDiagnosticsSummary`, the nodes made for each session and each subscription, the
security diagnostics of a session, and the counters of requests.

server/session_manager.go:50-104, 106-1718; server/subscription_manager.go:51-117, 127-150, 949-954;
server/session.go:198-220; server/server.go:742-855, 430-504; server/server_service_set.go (the lines
with `Count++`, 92-5560).

Simplifications: a call of a manager is one step, because it holds the lock of the manager; of a
session its name, description, times and queue length are left out; the forty nodes below the object
of a session are one, except for the array below which the nodes of its subscriptions are put; tokens
and ids are numbers.
-/

namespace Opcua.Diagnostics

/-! ## The tables, the counters and the nodes -/

/-- An entry of `sessionsByToken`. -/
structure Sess where
  token : Nat
  id : Nat
  deriving DecidableEq, Repr

/-- An entry of `subscriptionsByID`; `node` is its `diagnosticsNodeId` (subscription.go:76), `session`
the id of the session it was created in. -/
structure Sub where
  id : Nat
  node : Nat
  session : Nat
  deriving DecidableEq, Repr

/-- The diagnostics nodes in the address space: the object of a session (with what is below it from
the start) and the variable of a subscription, which is also a component of the
`SubscriptionDiagnosticsArray` of a session if that was found when it was added. -/
inductive Node where
  | session (id : Nat)
  | sub (node : Nat) (parent : Option Nat)
  deriving DecidableEq, Repr

/-- `ServerDiagnosticsSummaryDataType`, as far as it counts sessions and subscriptions. -/
structure Summary where
  cumulatedSessions : BitVec 32 := 0
  currentSessions : BitVec 32 := 0
  sessionTimeouts : BitVec 32 := 0
  cumulatedSubs : BitVec 32 := 0
  currentSubs : BitVec 32 := 0
  deriving DecidableEq, Repr

structure State where
  enabled : Bool
  maxSessions : Nat
  maxSubs : Nat
  sessions : List Sess := []
  subs : List Sub := []
  nodes : List Node := []
  summary : Summary := {}
  deriving DecidableEq, Repr

/-- What the clients see happen. -/
inductive Out where
  | created (id : Nat)
  | refused
  | closed (id : Nat)
  | timedOut (id : Nat)
  | subCreated (node session : Nat)
  | subRefused
  | subEnded (node : Nat)
  deriving DecidableEq, Repr

/-- `DeleteNode(n, true)` for the object of a session: the children go too, and the variables of the
subscriptions below its array are among them (namespace_manager.go:402-450). -/
def Node.belongs (id : Nat) : Node → Bool
  | .session i => i == id
  | .sub _ p => p == some id

def Node.isSub (node : Nat) : Node → Bool
  | .session _ => false
  | .sub n _ => n == node

def Node.isSession (id : Nat) : Node → Bool
  | .session i => i == id
  | .sub _ _ => false

/-- `SessionManager.removeDiagnosticsNode`, session_manager.go:1713-1717. -/
def removeSessionNode (nodes : List Node) (id : Nat) : List Node :=
  if nodes.any (Node.isSession id) then nodes.filter (fun n => !n.belongs id) else nodes

/-- `SubscriptionManager.removeDiagnosticsNode`, subscription_manager.go:949-954. -/
def removeSubNode (nodes : List Node) (node : Nat) : List Node := nodes.filter (fun n => !n.isSub node)

/-- `SessionManager.Add`, session_manager.go:50-65. -/
def addSession (s : State) (x : Sess) : State × List Out :=
  if s.maxSessions > 0 ∧ s.sessions.length ≥ s.maxSessions then (s, [.refused])
  else
    let t := s.sessions.filter (fun y => y.token != x.token) ++ [x]
    let s := { s with sessions := t }
    if s.enabled then
      ({ s with
          nodes := s.nodes ++ [.session x.id]
          summary := { s.summary with
            cumulatedSessions := s.summary.cumulatedSessions + 1
            currentSessions := BitVec.ofNat 32 t.length } }, [.created x.id])
    else (s, [.created x.id])

/-- `SessionManager.Delete`, session_manager.go:68-80. A handler that comes late has a session whose
token is gone (`delete`, session.go:151-172): the table stays as it is, and its node is gone too. -/
def deleteSession (s : State) (id : Nat) : State × List Out :=
  let t := s.sessions.filter (fun y => y.id != id)
  let out := (s.sessions.filter (fun y => y.id == id)).map (fun y => Out.closed y.id)
  let s := { s with sessions := t }
  if s.enabled then
    ({ s with
        nodes := removeSessionNode s.nodes id
        summary := { s.summary with currentSessions := BitVec.ofNat 32 t.length } }, out)
  else (s, out)

/-- One turn of the loop of `checkForExpiredSessions`, session_manager.go:90-103. -/
def expireSession (s : State) (x : Sess) : State :=
  let t := s.sessions.filter (fun y => y.token != x.token)
  let s := { s with sessions := t }
  if s.enabled then
    { s with
      nodes := removeSessionNode s.nodes x.id
      summary := { s.summary with
        sessionTimeouts := s.summary.sessionTimeouts + 1
        currentSessions := BitVec.ofNat 32 t.length } }
  else s

/-- `checkForExpiredSessions`, session_manager.go:89-104; `expired` are the ids of the sessions that
are found expired. -/
def expireSessions (s : State) (expired : List Nat) : State × List Out :=
  let gone := s.sessions.filter (fun x => expired.contains x.id)
  (gone.foldl expireSession s, gone.map (fun x => .timedOut x.id))

/-- `SubscriptionManager.Add`, subscription_manager.go:51-64, 127-150. -/
def addSub (s : State) (x : Sub) : State × List Out :=
  if s.maxSubs > 0 ∧ s.subs.length ≥ s.maxSubs then (s, [.subRefused])
  else
    let t := s.subs.filter (fun y => y.id != x.id) ++ [x]
    let s := { s with subs := t }
    if s.enabled then
      let parent := if s.nodes.any (Node.isSession x.session) then some x.session else none
      ({ s with
          nodes := s.nodes ++ [.sub x.node parent]
          summary := { s.summary with
            cumulatedSubs := s.summary.cumulatedSubs + 1
            currentSubs := BitVec.ofNat 32 t.length } }, [.subCreated x.node x.session])
    else (s, [.subCreated x.node x.session])

/-- `SubscriptionManager.Delete`, subscription_manager.go:67-75, and one turn of
`checkForExpiredSubscriptions` (97-117), which do the same to the table, the node and the count. -/
def deleteSub (s : State) (node : Nat) : State × List Out :=
  let t := s.subs.filter (fun y => y.node != node)
  let out := (s.subs.filter (fun y => y.node == node)).map (fun y => Out.subEnded y.node)
  let s := { s with subs := t }
  if s.enabled then
    ({ s with
        nodes := removeSubNode s.nodes node
        summary := { s.summary with currentSubs := BitVec.ofNat 32 t.length } }, out)
  else (s, out)

inductive Ev where
  | createSession (x : Sess)
  | closeSession (id : Nat)
  | expireSessions (ids : List Nat)
  | createSub (x : Sub)
  | deleteSub (node : Nat)
  deriving DecidableEq, Repr

/-- A CloseSession with DeleteSubscriptions (server_service_set.go:932-942) is a `deleteSub` for each
subscription of the session and then a `closeSession`. -/
def act (s : State) : Ev → State × List Out
  | .createSession x => addSession s x
  | .closeSession id => deleteSession s id
  | .expireSessions ids => expireSessions s ids
  | .createSub x => addSub s x
  | .deleteSub node => deleteSub s node

def step (p : State × List Out) (e : Ev) : State × List Out :=
  let q := act p.1 e
  (q.1, p.2 ++ q.2)

def run (s : State) (evs : List Ev) : State × List Out := evs.foldl step (s, [])

/-- The read handler of the variable SubscriptionDiagnosticsArray of the server, server.go:805-855. -/
def readArray (s : State) : Option (List Nat) := if s.enabled then some (s.subs.map (·.node)) else none

/-! ## Reading the map without its lock

`readArray` goes through `subscriptionsByID` without the lock of the manager (server.go:814). Go ends
the process when it notices that a map is written while it is gone through. -/

inductive Access where
  /-- `RLock` and a look into the map: `Get`, `Len`, `GetBySession` -/
  | lockedRead
  /-- `Lock` and a change: `Add`, `Delete`, `checkForExpiredSubscriptions` -/
  | lockedWrite
  /-- the read handler -/
  | bareRead
  deriving DecidableEq, Repr

/-- `busy t`: what goroutine `t` is in the middle of. -/
structure Table where
  busy : List (Nat × Access) := []
  fatal : Bool := false
  deriving DecidableEq, Repr

inductive TableEv where
  | enter (t : Nat) (a : Access)
  | leave (t : Nat)
  deriving DecidableEq, Repr

/-- Whether the lock lets an access begin beside another. -/
def Access.waits (a b : Access) : Bool :=
  match a, b with
  | .lockedRead, .lockedWrite => true
  | .lockedWrite, .lockedRead => true
  | .lockedWrite, .lockedWrite => true
  | _, _ => false

/-- Whether two accesses at the same time are what Go ends the process for. -/
def Access.conflicts (a b : Access) : Bool :=
  match a, b with
  | .lockedWrite, _ => true
  | _, .lockedWrite => true
  | _, _ => false

def Table.step (s : Table) : TableEv → Table
  | .enter t a =>
    if s.fatal ∨ s.busy.any (fun b => b.1 == t) ∨ s.busy.any (fun b => a.waits b.2) then s
    else { busy := s.busy ++ [(t, a)], fatal := s.busy.any (fun b => a.conflicts b.2) }
  | .leave t => if s.fatal then s else { s with busy := s.busy.filter (fun b => b.1 != t) }

def Table.run (evs : List TableEv) : Table := evs.foldl Table.step {}

/-! ## The security diagnostics of a session -/

inductive Mode where
  | none
  | sign
  | signAndEncrypt
  deriving DecidableEq, Repr

/-- The identities a session is activated with, ua/identity.go. -/
inductive Identity where
  | anonymous
  | userName (name : String)
  | x509 (cert : Nat)
  | issued (token : Nat)
  deriving DecidableEq, Repr

/-- `Session`, server/session.go:28-118, as far as the security diagnostics go. -/
structure Session where
  id : Nat
  user : Identity := .anonymous
  userId : String := ""
  history : List String := []
  mechanism : String := ""
  mode : Mode
  policy : String
  certificate : List UInt8
  deriving DecidableEq, Repr

/-- The names of `SetUserIdentity`, session.go:205-219. -/
def displayName : Identity → String
  | .issued _ => "<issued>"
  | .x509 _ => "<certificate>"
  | .userName n => n
  | .anonymous => "<anonymous>"

def mechanismOf : Identity → String
  | .issued _ => "Issued"
  | .x509 _ => "X509"
  | .userName _ => "UserName"
  | .anonymous => "Anonymous"

/-- `SetUserIdentity`, session.go:198-220. -/
def setUserIdentity (s : Session) (u : Identity) : Session :=
  { s with user := u, userId := displayName u, mechanism := mechanismOf u,
           history := s.history ++ [displayName u] }

/-- The fields of `SessionSecurityDiagnosticsDataType`. -/
structure Security where
  sessionId : Nat
  userId : String
  history : List String
  mechanism : String
  encoding : String
  transport : String
  mode : Mode
  policy : String
  certificate : List UInt8
  deriving DecidableEq, Repr

/-- The variables: the whole structure and one per field. -/
inductive Field where
  | whole | sessionId | userId | history | mechanism | encoding | transport | mode | policy | certificate
  deriving DecidableEq, Repr

inductive Value where
  | whole (v : Security)
  | id (v : Nat)
  | text (v : String)
  | texts (v : List String)
  | mode (v : Mode)
  | bytes (v : List UInt8)
  deriving DecidableEq, Repr

inductive Answer where
  | good (v : Value)
  | badUserAccessDenied
  | badSecurityModeInsufficient
  deriving DecidableEq, Repr

abbrev uaBinary : String := "UA Binary"
abbrev uaTcp : String := "http://opcfoundation.org/UA-Profile/Transport/uatcp-uasc-uabinary"

/-- The last lines of the ten handlers, session_manager.go:1280-1291, 1333, 1376, 1419, 1462, 1505,
1548, 1591, 1634, 1677: `s` is the session the node was made for, `session` the one that reads. -/
def securityValue (s session : Session) : Field → Value
  | .whole => .whole
      { sessionId := s.id, userId := s.userId, history := s.history, mechanism := s.mechanism,
        encoding := uaBinary, transport := uaTcp,
        mode := session.mode, policy := session.policy, certificate := session.certificate }
  | .sessionId => .id s.id
  | .userId => .text s.userId
  | .history => .texts s.history
  | .mechanism => .text s.mechanism
  | .encoding => .text uaBinary
  | .transport => .text uaTcp
  | .mode => .mode session.mode
  | .policy => .text session.policy
  | .certificate => .bytes session.certificate

/-- The handlers, session_manager.go:1260-1291 and the like. `roles` is `GetRoles` (`none`: error), and
`authenticated` the role AuthenticatedUser. -/
def readSecurity {Role : Type} [DecidableEq Role] (roles : Identity → Option (List Role)) (authenticated : Role)
    (s : Session) (session : Option Session) (f : Field) : Answer :=
  match session with
  | none => .badUserAccessDenied
  | some r =>
    match roles r.user with
    | none => .badUserAccessDenied
    | some rs =>
      if authenticated ∈ rs then
        if r.mode = .signAndEncrypt then .good (securityValue s r f) else .badSecurityModeInsufficient
      else .badUserAccessDenied

/-! ## The counters of requests -/

inductive Service where
  | closeSession | cancel | historyRead
  | browse | browseNext | translate | registerNodes | unregisterNodes | read | write | call
  | createItems | modifyItems | setMonitoringMode | setTriggering | deleteItems
  | createSub | modifySub | setPublishingMode | deleteSubs | publish | republish
  | unsupported
  deriving DecidableEq, Repr

/-- How a request ends. -/
inductive End where
  /-- the channel is for discovery only: it is aborted -/
  | discovery
  /-- BadSessionIDInvalid -/
  | noSession
  /-- BadSessionNotActivated, and the session is deleted -/
  | notActivated
  /-- BadSecureChannelIDInvalid -/
  | otherChannel
  /-- BadNothingToDo, BadTooManyOperations, BadSubscriptionIDInvalid and so on -/
  | invalid
  /-- a fault found while serving: BadNoSubscription of Publish, BadMessageNotAvailable of Republish,
  the status a historian returns -/
  | failed
  | served
  deriving DecidableEq, Repr

/-- `requestCount`, `errorCount` and the pair of each service are of one session, the others of the
server. -/
structure Counters where
  requests : BitVec 32 := 0
  errors : BitVec 32 := 0
  count : Service → BitVec 32 := fun _ => 0
  errorCount : Service → BitVec 32 := fun _ => 0
  rejected : BitVec 32 := 0
  securityRejected : BitVec 32 := 0

/-- Which handlers count in the session: those of CloseSession, Cancel and HistoryRead do not
(server_service_set.go:867-959, 962-1036, 2391-2636; 2417-2427 are comments). -/
def Service.counted : Service → Bool
  | .closeSession | .cancel | .historyRead | .unsupported => false
  | _ => true

/-- Whether the request got as far as a session. -/
def End.found : End → Bool
  | .discovery | .noSession => false
  | _ => true

def End.fault : End → Bool
  | .served => false
  | _ => true

/-- `RejectedRequestsCount++`. Missing at 1885-1899 (UnregisterNodes on a session not activated), at
5385-5400 (Publish), at 5548-5563 (Republish), after a historian has failed (2545-2615), and for what
is not supported (server.go:489-503). -/
def rejects : Service → End → Bool
  | .unsupported, _ => false
  | _, .served => false
  | _, .failed => false
  | .unregisterNodes, .notActivated => false
  | _, _ => true

/-- `SecurityRejectedRequestsCount++`: at the head of every handler. -/
def rejectsForSecurity : Service → End → Bool
  | .unsupported, _ => false
  | _, .discovery => true
  | _, _ => false

def bump (f : Service → BitVec 32) (v : Service) (b : Bool) : Service → BitVec 32 :=
  fun w => if w = v ∧ b then f w + 1 else f w

def add (n : BitVec 32) (b : Bool) : BitVec 32 := if b then n + 1 else n

/-- A request of service `v` that ends with `e`. -/
def request (c : Counters) (v : Service) (e : End) : Counters :=
  let counts := v.counted && e.found
  let fails := counts && e.fault
  { requests := add c.requests counts
    errors := add c.errors fails
    count := bump c.count v counts
    errorCount := bump c.errorCount v fails
    rejected := add c.rejected (rejects v e)
    securityRejected := add c.securityRejected (rejectsForSecurity v e) }

inductive Req where
  | request (v : Service) (e : End)
  /-- DeleteSubscriptions answers a Publish request that waits with BadNoSubscription when the last
  subscription has gone, server_service_set.go:5228-5250 -/
  | drained
  deriving DecidableEq, Repr

def Counters.step (c : Counters) : Req → Counters
  | .request v e => request c v e
  | .drained => { c with errors := c.errors + 1, errorCount := bump c.errorCount .publish true }

def Counters.run (rs : List Req) : Counters := rs.foldl Counters.step {}

/-! ## `count++` by several goroutines -/

/-- `n++` reads and then writes; `pending t` is what goroutine `t` has read. -/
structure Cell where
  value : Nat := 0
  pending : List (Nat × Nat) := []
  stores : Nat := 0
  deriving DecidableEq, Repr

inductive CellEv where
  | load (t : Nat)
  | store (t : Nat)
  deriving DecidableEq, Repr

def Cell.step (c : Cell) : CellEv → Cell
  | .load t => if c.pending.any (fun p => p.1 == t) then c else { c with pending := c.pending ++ [(t, c.value)] }
  | .store t =>
    match c.pending.find? (fun p => p.1 == t) with
    | none => c
    | some p => { value := p.2 + 1, pending := c.pending.filter (fun q => q.1 != t), stores := c.stores + 1 }

def Cell.run (evs : List CellEv) : Cell := evs.foldl Cell.step {}

end Opcua.Diagnostics
