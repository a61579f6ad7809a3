import Verif.Model.Pending

/-! How a connection ends. Server: handleConnection (server/server.go:384-412), requestWorker
(415-428), handleRequest (431-505), Abort (server/server_secure_channel.go:394-415), Close (382-391);
the sending of a response is `Channel.sendMessage`. Client: the frames of type Error and Abort in
readResponse (client/client_secure_channel.go:1391-1413, 1603-1617), responseWorker (1350-1366),
Abort (488-496); the calls in progress are those of `Model/Pending.lean`.

What a handler puts into its response is input here (`Deed`): the bytes of the body, or that the
value cannot be encoded. The order in which a publish request that waits is answered later is the
matter of C49 and C51. The sending of an OpenSecureChannel response is one whole answer. -/
namespace Opcua.Ending
open Opcua.Channel (Suite Sender SendEnd sendLoop tyError tyAbort tyChunk tyFinal tyOpen)

/-- Status codes as numbers, ua/status_code.generated.go:19-29, 51, 205. -/
abbrev good : BitVec 32 := 0
abbrev badDecodingError : BitVec 32 := 0x80070000#32
abbrev badUnknownResponse : BitVec 32 := 0x80090000#32
abbrev badSecureChannelClosed : BitVec 32 := 0x80860000#32
abbrev badSecurityPolicyRejected : BitVec 32 := 0x80550000#32

/-! ### The server -/

/-- The services for which a handler begins with the test of `discoveryOnly`,
server/server_service_set.go:94, 282, 869, 964, 1049, 1356, 1541, 1724, 1857, 2059, 2245, 2393, 3498,
3692, 3978, 4206, 4371, 4554, 4783, 4898, 5012, 5113, 5264, 5430. -/
inductive Service where
  | createSession | activateSession | closeSession | cancel | browse | browseNext | translate
  | registerNodes | unregisterNodes | read | write | historyRead | call | createItems | modifyItems
  | setMonitoringMode | setTriggering | deleteItems | createSubscription | modifySubscription
  | setPublishingMode | deleteSubscriptions | publish | republish
deriving Repr, DecidableEq

/-- The cases of the switch in handleRequest, server/server.go:432-489. -/
inductive Kind where
  | service (s : Service)
  | findServers
  | getEndpoints
  | openChannel (renew : Bool)
  | closeChannel
  | unsupported
deriving Repr, DecidableEq

/-- What a handler does when it is through: write a response or a fault (`none`: its value cannot be
encoded), keep the request for later (publish only, server_service_set.go:5418), or return an error
of its own (server_service_set.go:171, 185, 199, 596, 656, 716). -/
inductive Deed where
  | answer (body : Option Bytes)
  | park
  | giveUp
deriving Repr, DecidableEq

structure Request where
  id : BitVec 32
  kind : Kind
  deed : Deed
deriving Repr, DecidableEq

/-- What goes out on the connection, and its closing. -/
inductive Out where
  | chunk (id : BitVec 32) (final : Bool)
  | parked (id : BitVec 32)
  | error (reason : BitVec 32)
  | closed
deriving Repr, DecidableEq

/-- How a handler ends: `nil`, `nil` after Abort, an error, or never. -/
inductive Fin where
  | goOn | aborted | failed | hung
deriving Repr, DecidableEq

/-- A channel after Open. -/
structure Chan where
  S : Suite
  cfg : Sender
  discoveryOnly : Bool

/-- ch.Write, server_secure_channel.go:418-429, 619-1025. The sequence number has no influence on
what is written here, so each response begins at 0. -/
def writeResponse (ch : Chan) (id : BitVec 32) : Option Bytes → List Out × Fin
  | none => ([], .failed)
  | some body =>
    if ch.cfg.maxMessage > 0 ∧ body.length > ch.cfg.maxMessage then ([], .failed)
    else
      let r := sendLoop ch.S ch.cfg .badResponseTooLarge id 0 0 body
      (r.chunks.map fun c => .chunk c.1.requestID c.1.final,
        match r.fin with
        | .sent => .goOn
        | .failed _ => .failed
        | .stuck => .hung)

/-- A handler from the point where it knows what to do. -/
def act (ch : Chan) (id : BitVec 32) : Deed → List Out × Fin
  | .answer b => writeResponse ch id b
  | .park => ([.parked id], .goOn)
  | .giveUp => ([], .failed)

/-- handleRequest, server/server.go:431-505; handleOpenSecureChannel and handleCloseSecureChannel,
server_secure_channel.go:1469-1516 (`return ua.Good` is an error that is not nil). -/
def handleRequest (ch : Chan) (r : Request) : List Out × Fin :=
  match r.kind with
  | .service _ => if ch.discoveryOnly then ([.error badSecurityPolicyRejected], .aborted) else act ch r.id r.deed
  | .findServers => act ch r.id r.deed
  | .getEndpoints => act ch r.id r.deed
  | .openChannel true => ([.chunk r.id true], .goOn)
  | .openChannel false => ([], .failed)
  | .closeChannel => ([], .failed)
  | .unsupported => act ch r.id r.deed

/-- What readRequest returns: a request or an error. -/
inductive In where
  | request (r : Request)
  | fails
deriving Repr, DecidableEq

/-- requestWorker and the deferred conn.Close, server/server.go:385, 405-412, 415-428. When the input
ends the worker waits. After an Abort the connection is closed, so the next readRequest fails. -/
def serve (ch : Chan) : List In → List Out
  | [] => []
  | .fails :: _ => [.closed]
  | .request r :: rest =>
    match handleRequest ch r with
    | (o, .goOn) => o ++ serve ch rest
    | (o, .aborted) => o ++ [.closed]
    | (o, .failed) => o ++ [.closed]
    | (o, .hung) => o

/-- How ch.Open ends: the channel, a ua.StatusCode, or another error. -/
inductive Opened where
  | channel (ch : Chan)
  | status (c : BitVec 32)
  | other

/-- handleConnection, server/server.go:384-412. -/
def handleConnection (o : Opened) (ins : List In) : List Out :=
  match o with
  | .channel ch => serve ch ins
  | .status c => [.error c, .closed]
  | .other => [.closed]

/-- The bytes that Abort writes, server_secure_channel.go:405-408. -/
def errorFrame (reason : BitVec 32) (message : Bytes) : Bytes :=
  writeU32 tyError ++ (writeU32 (BitVec.ofNat 32 (16 + message.length)) ++ (writeU32 reason ++ writeString message))

/-! ### The client -/

/-- The first two numbers of a frame, client_secure_channel.go:1404-1411. -/
def frameHead : Dec (BitVec 32 × BitVec 32) := do
  let t ← readU32
  let n ← readU32
  return (t, n)

/-- The rest of an Error or Abort frame, client_secure_channel.go:1604-1611. -/
def errorBody : Dec (BitVec 32) := do
  let code ← readU32
  let _ ← readString
  return code

/-- What one frame means to readResponse: it is part of a message, or `(nil, code)` is returned. -/
inductive Meaning where
  | part
  | status (c : BitVec 32)
deriving Repr, DecidableEq

/-- client_secure_channel.go:1400-1417, 1603-1617: the length must be right, frames of type Error
and Abort give their number, others than chunks are unknown. Neither the mode nor the keys of the
channel are looked at in these cases. -/
def readFrame (frame : Bytes) : Meaning :=
  match frameHead.run frame with
  | .ok ((t, n), rest) =>
    if frame.length ≠ n.toNat then .status badDecodingError
    else if t = tyError ∨ t = tyAbort then
      match errorBody.run rest with
      | .ok (c, _) => .status c
      | _ => .status badDecodingError
    else if t = tyChunk ∨ t = tyFinal ∨ t = tyOpen then .part
    else .status badUnknownResponse
  | _ => .status badDecodingError

/-- The worker: it runs, it has ended, or its panic has ended the process. -/
inductive Life where
  | running | ended | crashed
deriving Repr, DecidableEq

/-- `told` is ch.statusCode, which nothing reads. -/
structure Client where
  calls : Pending.State
  life : Life
  closing : Bool
  told : BitVec 32

/-- Steps of callers and of time; what the worker reads: a complete response, a frame, or the end of
the connection; and the call of Abort or of Close by the user. -/
inductive CEv where
  | call (e : Pending.Ev)
  | response (r : Pending.Resp)
  | frame (bs : Bytes)
  | lost
  | userCloses
deriving Repr, DecidableEq

/-- responseWorker with the status that readResponse returned, lines 1350-1366. With `Good` it calls
handleResponse, and `res.Header()` on a nil interface panics (1736). -/
def workerGets (c : Client) (status : BitVec 32) : Client :=
  if status ≠ good then
    { c with calls := Pending.step c.calls .close, life := .ended, told := if c.closing then good else status }
  else { c with life := .crashed }

/-- The events of `Pending` that belong to callers and to time. -/
def callerEv : Pending.Ev → Bool
  | .receive _ => false
  | .close => false
  | _ => true

def cstep (c : Client) (e : CEv) : Client :=
  match c.life with
  | .crashed => c
  | l =>
    match e with
    | .call e => if callerEv e then { c with calls := Pending.step c.calls e } else c
    | .userCloses => { c with closing := true }
    | .response r => if l = .running then { c with calls := Pending.step c.calls (.receive r) } else c
    | .frame bs =>
      if l = .running then
        match readFrame bs with
        | .part => c
        | .status s => workerGets c s
      else c
    | .lost => if l = .running then workerGets c badSecureChannelClosed else c

def crun (c : Client) (evs : List CEv) : Client := evs.foldl cstep c

/-- The client after Open. -/
def cinit (v : BitVec 32) : Client := ⟨Pending.init v, .running, false, good⟩

/-- What Client.Close does. -/
structure Closing where
  fails : Bool
  socketClosed : Bool
deriving Repr, DecidableEq

/-- Client.Close, client/client.go:748-758, with the outcomes of its two requests, CloseSession and
CloseSecureChannel; clientSecureChannel.Close, client_secure_channel.go:473-486, closes the
connection only after its request succeeded, and its error is dropped. -/
def clientClose (session channel : Pending.Outcome) : Closing :=
  match session with
  | .response _ =>
    match channel with
    | .response _ => ⟨false, true⟩
    | _ => ⟨false, false⟩
  | _ => ⟨true, false⟩

end Opcua.Ending
