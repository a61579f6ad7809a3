import Verif.Model.Conversation

/-!
# Closing a channel

sendCloseSecureChannelRequest (client/client_secure_channel.go:744-908), the case of it in sendRequest
(528-538) and Close (472-485), on top of the conversation of Model/Conversation.lean. The frame of a close
request is like that of any request, but has its own message type and must be the only one.

Simplification: `ch.conn.Close()` is the end of what the client writes; what is under way to the server still
arrives, as it does with TCP when the client has read everything the server sent.
-/

namespace Opcua.Closing

open Opcua.Channel (Suite Mode Sender Chunk plan nextSeq payload tyClose)
open Opcua.Conversation (Setup State)

/-- The plain header, client_secure_channel.go:824-833. -/
def header (chunkSize : Nat) (channelID tokenID : BitVec 32) : Bytes :=
  writeU32 tyClose ++ (writeU32 (BitVec.ofNat 32 chunkSize) ++ (writeU32 channelID ++ writeU32 tokenID))

/-- Signing and encrypting, client_secure_channel.go:879-902. -/
def sealClose (S : Suite) (mode : Mode) (key : Bytes) (chunkSize : Nat) (c : Chunk) : Bytes :=
  let h := header chunkSize c.channelID c.tokenID
  let p := payload S mode c
  match mode with
  | .none => h ++ p
  | .sign => h ++ p ++ S.mac key (h ++ p)
  | .signAndEncrypt => h ++ S.enc key (p ++ S.mac key (h ++ p))

/-- How the sending ends: with one frame, or with an error. -/
inductive Sent where
  | frame (f : Bytes)
  | failed (s : Channel.Status)
deriving DecidableEq, Repr

/-- sendCloseSecureChannelRequest after the encoding, client_secure_channel.go:766-907. A body that does not fit
one chunk is an error before anything is written (825); a body is never empty. -/
def sendClose (S : Suite) (cfg : Sender) (rid seq : BitVec 32) (body : Bytes) : Sent :=
  if cfg.maxMessage > 0 ∧ body.length > cfg.maxMessage then .failed .badRequestTooLarge
  else
    let p := plan S cfg.mode cfg.send body.length
    if body.length > p.bodySize then .failed .badEncodingError
    else .frame (sealClose S cfg.mode cfg.key p.chunkSize
      ⟨true, cfg.channelID, cfg.tokenID, nextSeq seq, rid, body.take p.bodySize, p.paddingSize⟩)

/-- The type of CloseSecureChannelRequest. -/
abbrev closeRequest : Nat := 101

/-- Close: the request and, if it was sent, the end of the stream from the client. The second part tells whether
the client closed its connection; if the sending fails, it does not (480). -/
def close (p : Setup) (s : State) (fields : List Val) : State × Bool :=
  match Conversation.setHandle (nextSeq s.handle) fields with
  | none => (s, false)
  | some fields =>
    match Messages.write Messages.clientWrites closeRequest fields with
    | none => ({ s with handle := nextSeq s.handle }, false)
    | some body =>
      match sendClose p.S p.clientSender (nextSeq s.handle) s.clientSeq body with
      | .failed _ => ({ s with handle := nextSeq s.handle }, false)
      | .frame f =>
        ({ s with
           handle := nextSeq s.handle
           clientSeq := nextSeq s.clientSeq
           up := s.up ++ [f] }, true)

/-- What the request worker of the server does with the stream from its client: the requests it reads, until it
reads a close request, whose handler returns an error and so ends the worker (server/server.go:415-428,
server_secure_channel.go:1513-1515: `ua.Good` as an error is not nil), or until a read fails. -/
inductive End where
  | closed
  | failed
  | waiting
deriving DecidableEq, Repr

def drain (p : Setup) : Nat → Channel.Chan → Frame.Conn → List (Nat × List Val) × End
  | 0, _, _ => ([], .waiting)
  | n + 1, ch, conn =>
    match Conversation.serverRecv p (conn.flatten.length + 1) ch 0 [] conn with
    | .wait => ([], .waiting)
    | .bad => ([], .failed)
    | .got (ch, msg, conn) =>
      match (Messages.read Messages.serverReads p.fuel).run msg.body with
      | .ok ((t, .struct fields), _) =>
        if t = closeRequest then ([], .closed)
        else
          let r := drain p n ch conn
          ((t, fields) :: r.1, r.2)
      | _ => ([], .failed)

end Opcua.Closing
