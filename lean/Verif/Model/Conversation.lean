import Verif.Model.Messages
import Verif.Model.Frame
import Verif.Model.ClientRecv

/-!
# A client and a server in conversation

The two sides of an open channel, with everything between the call of a service and its return: the header that `Request`
writes (client/client_secure_channel.go:237-267), the encoding of the message (Model/Messages.lean), the chunks
(`Channel.sendMessage`), the stream in both directions in arbitrary pieces (Model/Frame.lean), `readRequest`
(`Channel.openFrame`), the handlers, which put the handle of the request into the header of every response (all 173
places in server/ where a `ResponseHeader` is made), `readResponse` (`ClientRecv.openFrame`) and `handleResponse`
(client_secure_channel.go:1734-1747).

What a handler answers, when, and in which order, is input: the event `answer`. Bytes are lost neither in the stream nor
at its end. Renewals of the token are left out (C25, C124), as are deadlines (C35, C78), the authentication token and the
time stamp in the headers, which the caller's fields have already, and the steps inside of one send or one receipt: each
direction has one reader, and writers hold a lock.
-/

namespace Opcua.Conversation

open Opcua.Channel (Suite Mode Sender Limits nextSeq sendMessage sendLoop)
open Opcua.Frame (Conn)
open Opcua.Messages (Method methods replies clientWrites serverReads serverWrites clientReads)

/-- What the two sides have agreed on: algorithms, mode, ids, nonces, and the sizes from Hello and Acknowledge. -/
structure Setup where
  S : Suite
  kdf : Bytes → Bytes → Bytes
  R : ClientRecv.Rsa
  mode : Mode
  channelID : BitVec 32
  clientNonce : Bytes
  serverNonce : Bytes
  /-- the buffers of the client and of the server: send, receive -/
  clientSend : Nat
  clientReceive : Nat
  serverSend : Nat
  serverReceive : Nat
  /-- the limits the client keeps when it sends, and the server when it receives -/
  maxRequest : Nat
  maxRequestChunks : Nat
  requestLimits : Limits
  /-- the limits the server keeps when it sends, and the client when it receives -/
  maxResponse : Nat
  maxResponseChunks : Nat
  responseLimits : Limits
  /-- the stack of the decoders, as depth of a value -/
  fuel : Nat

/-- A request as the server has read it; `index` is its place in the order of reading. -/
structure Job where
  index : Nat
  requestID : BitVec 32
  type : Nat
  fields : List Val

/-- The state of both sides and of the stream. `calls`, `served`, `answers` and `done` are records: the requests sent, the
requests read, the answers written (with the index of the request) and the responses delivered (with the index of the
call). -/
structure State where
  clientChan : ClientRecv.Chan
  serverChan : Channel.Chan
  handle : BitVec 32
  clientSeq : BitVec 32
  serverSeq : BitVec 32
  up : Conn
  down : Conn
  pending : List (BitVec 32 × Nat)
  inbox : List Job
  calls : List (Method × List Val)
  served : List (Nat × List Val)
  answers : List (Nat × Nat × List Val)
  done : List (Nat × Nat × List Val)
  broken : Bool

/-- The header of a request is its first field, ua/request_header.go; the handle is the third field of the header. -/
def setHandle (h : BitVec 32) : List Val → Option (List Val)
  | .struct (token :: time :: .leaf (.b32 _) :: header) :: fs => some (.struct (token :: time :: .leaf (.b32 h) :: header) :: fs)
  | _ => none

def handleOf : List Val → Option (BitVec 32)
  | .struct (_ :: _ :: .leaf (.b32 h) :: _) :: _ => some h
  | _ => none

/-- The header of a response is its first field; the handle is the second field of the header. -/
def setResponseHandle (h : BitVec 32) : List Val → Option (List Val)
  | .struct (time :: .leaf (.b32 _) :: header) :: fs => some (.struct (time :: .leaf (.b32 h) :: header) :: fs)
  | _ => none

def responseHandle : List Val → Option (BitVec 32)
  | .struct (_ :: .leaf (.b32 h) :: _) :: _ => some h
  | _ => none

/-- The sender of the client, client_secure_channel.go:1200-1330: token 1 and the keys from the two nonces (1273). -/
def Setup.clientSender (p : Setup) : Sender :=
  ⟨p.mode, p.clientSend, p.channelID, 1, p.kdf p.serverNonce p.clientNonce, p.maxRequest, p.maxRequestChunks⟩

/-- The sender of the server: the current token and the current key, server_secure_channel.go:955-1010. -/
def Setup.serverSender (p : Setup) (ch : Channel.Chan) : Sender :=
  ⟨p.mode, p.serverSend, p.channelID, ch.tokenID, ch.sendKey.getD [], p.maxResponse, p.maxResponseChunks⟩

/-- Both sides after the exchange of OPN messages. -/
def init (p : Setup) : State :=
  { clientChan := ClientRecv.install (ClientRecv.fresh p.mode) p.channelID p.clientNonce p.serverNonce
    serverChan := Channel.opened p.channelID p.mode p.serverNonce p.clientNonce
    handle := 0, clientSeq := 0, serverSeq := 0, up := [], down := [], pending := [], inbox := [], calls := []
    served := [], answers := [], done := [], broken := false }

/-- Whether `Read` blocks: the frame that begins here has not arrived as a whole. -/
def stalled (cap : Nat) (conn : Conn) : Bool :=
  conn.flatten.length < 8 ||
    (leVal ((conn.flatten.drop 4).take 4) ≤ cap && conn.flatten.length < leVal ((conn.flatten.drop 4).take 4))

/-- Receiving: nothing yet, failed, or a message and the rest of the stream. -/
inductive Got (α : Type) where
  | wait
  | bad
  | got (a : α)

/-- `readRequest` on the stream, server_secure_channel.go:1048-1359: `Channel.recvLoop` with the reading of the frames. -/
def serverRecv (p : Setup) : Nat → Channel.Chan → Nat → Bytes → Conn → Got (Channel.Chan × Channel.Msg × Conn)
  | 0, _, _, _, _ => .wait
  | n + 1, ch, count, acc, conn =>
    if p.requestLimits.maxChunks.toInt > 0 ∧ (count + 1 : Int) > p.requestLimits.maxChunks.toInt then .bad
    else if stalled p.serverReceive conn then .wait
    else match Frame.readFrame p.serverReceive conn with
      | .ok (f, conn) =>
        match Channel.openFrame p.S p.kdf ch f with
        | .ok (ch, g) =>
          let acc := acc ++ g.body
          if p.requestLimits.maxMessage.toNat > 0 ∧ acc.length > p.requestLimits.maxMessage.toNat then .bad
          else if g.final then .got (ch, ⟨g.requestID, acc⟩, conn)
          else serverRecv p n ch (count + 1) acc conn
        | _ => .bad
      | _ => .bad

/-- `readResponse` on the stream, client_secure_channel.go:1391-1622: `ClientRecv.recvLoop` with the reading of the frames. -/
def clientRecv (p : Setup) : Nat → ClientRecv.Chan → Nat → Bytes → Conn → Got (ClientRecv.Chan × Bytes × Conn)
  | 0, _, _, _, _ => .wait
  | n + 1, ch, count, acc, conn =>
    if p.responseLimits.maxChunks.toNat > 0 ∧ count + 1 > p.responseLimits.maxChunks.toNat then .bad
    else if stalled p.clientReceive conn then .wait
    else match Frame.readFrame p.clientReceive conn with
      | .ok (f, conn) =>
        match ClientRecv.openFrame p.S p.kdf p.R ch f with
        | .ok (ch, g) =>
          let acc := acc ++ g.body
          if p.responseLimits.maxMessage.toNat > 0 ∧ acc.length > p.responseLimits.maxMessage.toNat then .bad
          else if g.final then .got (ch, acc, conn)
          else clientRecv p n ch (count + 1) acc conn
        | _ => .bad
      | _ => .bad

/-- The map `pendingResponses`. -/
def lookup (t : List (BitVec 32 × Nat)) (h : BitVec 32) : Option Nat := (t.find? (fun e => decide (e.1 = h))).map (·.2)
def remove (t : List (BitVec 32 × Nat)) (h : BitVec 32) : List (BitVec 32 × Nat) := t.filter (fun e => decide (e.1 ≠ h))

inductive Ev where
  /-- a caller calls a service -/
  | call (m : Method) (fields : List Val)
  /-- the request worker of the server reads a request -/
  | serve
  /-- a handler answers the `i`-th of the requests that wait, with a response of type `r` -/
  | answer (i : Nat) (r : Nat) (fields : List Val)
  /-- the response worker of the client reads a response -/
  | deliver
  /-- the network cuts the streams into other pieces -/
  | recutUp (c : Conn)
  | recutDown (c : Conn)

/-- The sequence number after `sendMessage`: the check of the size (client_secure_channel.go:1204-1206,
server_secure_channel.go:903-905) comes before the first chunk is numbered. -/
def seqAfter (S : Suite) (cfg : Sender) (tl : Channel.Status) (rid seq : BitVec 32) (body : Bytes) : BitVec 32 :=
  if cfg.maxMessage > 0 ∧ body.length > cfg.maxMessage then seq else (sendLoop S cfg tl rid 0 seq body).seq

/-- `Request` and `sendRequest`. A call that fails here returns an error; its chunks so far have been sent. -/
def call (p : Setup) (s : State) (m : Method) (fields : List Val) : State :=
  match setHandle (nextSeq s.handle) fields with
  | none => s
  | some fields =>
    match Messages.write clientWrites m.request fields with
    | none => { s with handle := nextSeq s.handle }
    | some body =>
      let sent := sendMessage p.S p.clientSender .badRequestTooLarge (nextSeq s.handle) s.clientSeq body
      let s := { s with
        handle := nextSeq s.handle
        clientSeq := seqAfter p.S p.clientSender .badRequestTooLarge (nextSeq s.handle) s.clientSeq body
        up := s.up ++ sent.1 }
      if sent.2 = .sent then
        { s with
          pending := (s.handle, s.calls.length) :: remove s.pending s.handle
          calls := s.calls ++ [(m, fields)] }
      else s

/-- `requestWorker`, server/server.go:415-428: a failure ends the connection. -/
def serve (p : Setup) (s : State) : State :=
  match serverRecv p (s.up.flatten.length + 1) s.serverChan 0 [] s.up with
  | .wait => s
  | .bad => { s with broken := true }
  | .got (ch, msg, conn) =>
    match (Messages.read serverReads p.fuel).run msg.body with
    | .ok ((t, .struct fields), _) =>
      { s with
        serverChan := ch
        up := conn
        inbox := s.inbox ++ [⟨s.served.length, msg.requestID, t, fields⟩]
        served := s.served ++ [(t, fields)] }
    | _ => { s with broken := true }

/-- A handler writes its response, or a fault; a failure ends the connection. -/
def answer (p : Setup) (s : State) (i r : Nat) (fields : List Val) : State :=
  match s.inbox[i]? with
  | none => s
  | some j =>
    if r ∈ replies j.type then
      match (handleOf j.fields).bind (fun h => setResponseHandle h fields) with
      | none => s
      | some fields =>
        match Messages.write serverWrites r fields with
        | none => { s with broken := true }
        | some body =>
          let sent := sendMessage p.S (p.serverSender s.serverChan) .badResponseTooLarge j.requestID s.serverSeq body
          let s := { s with
            serverSeq := seqAfter p.S (p.serverSender s.serverChan) .badResponseTooLarge j.requestID s.serverSeq body
            down := s.down ++ sent.1
            inbox := s.inbox.eraseIdx i }
          if sent.2 = .sent then { s with answers := s.answers ++ [(j.index, r, fields)] } else { s with broken := true }
    else s

/-- `responseWorker` and `handleResponse`, client_secure_channel.go:1350-1366, 1734-1747: a response whose handle is not
in the map is dropped. -/
def deliver (p : Setup) (s : State) : State :=
  match clientRecv p (s.down.flatten.length + 1) s.clientChan 0 [] s.down with
  | .wait => s
  | .bad => { s with broken := true }
  | .got (ch, body, conn) =>
    match (Messages.read clientReads p.fuel).run body with
    | .ok ((r, .struct fields), _) =>
      let s := { s with
        clientChan := ch
        down := conn }
      match responseHandle fields with
      | none => { s with broken := true }
      | some h =>
        match lookup s.pending h with
        | none => s
        | some n =>
          { s with
            pending := remove s.pending h
            done := s.done ++ [(n, r, fields)] }
    | _ => { s with broken := true }

def step (p : Setup) (s : State) (e : Ev) : State :=
  if s.broken then s
  else match e with
    | .call m fields => call p s m fields
    | .serve => serve p s
    | .answer i r fields => answer p s i r fields
    | .deliver => deliver p s
    | .recutUp c => if c.flatten = s.up.flatten then { s with up := c } else s
    | .recutDown c => if c.flatten = s.down.flatten then { s with down := c } else s

def run (p : Setup) (s : State) (evs : List Ev) : State := evs.foldl (step p) s

end Opcua.Conversation
