import Verif.Model.OpenChannel

/-!
# Answers on a server channel

`sendServiceResponse` (server/server_secure_channel.go:619-1026) on a channel whose policy may have been changed by an OPN
frame since the keys in use were made, and the channel as requests and answers come and go.

Sizes come from `ch.securityPolicy` (lines 905-906); MAC and cipher are the objects made with the keys (lines 1098-1143), nil
before the first token is in use. No function of the server recovers from a panic, so it ends the process.

The work between a request and its answer is left out: an answer is an event with any encoded body, at any time after its
request. Writes to the connection succeed; a failure only ends the answer early.
-/

namespace Opcua.Answer

open Opcua.Channel

/-- The limits that the client gave in its Hello (lines 240-251). -/
structure Limits where
  send : Nat
  maxMessage : Nat
  maxChunks : Nat
  deriving DecidableEq, Repr

/-- Signing and encrypting one chunk, lines 999-1015. The buffer takes `send` bytes (`stream.Write` refuses a signature that
does not fit). `CryptBlocks` panics when it gets no whole number of blocks. -/
def sealAnswer (W : World) (ch : SChan) (send size : Nat) (c : Chunk) : Out Bytes :=
  let h := header c.final size c.channelID c.tokenID
  let p := payload (W.sym ch.policy) ch.chan.mode c
  match ch.chan.mode with
  | .none => .ok (h ++ p)
  | .sign =>
    match ch.chan.sendKey with
    | none => .panic
    | some k =>
      let m := (W.sym ch.keyPolicy).mac k (h ++ p)
      if (h ++ p ++ m).length > send then .err .badEncodingError else .ok (h ++ p ++ m)
  | .signAndEncrypt =>
    match ch.chan.sendKey with
    | none => .panic
    | some k =>
      let m := (W.sym ch.keyPolicy).mac k (h ++ p)
      if (h ++ p ++ m).length > send then .err .badEncodingError
      else if (p ++ m).length % (W.sym ch.keyPolicy).block ≠ 0 then .panic
      else .ok (h ++ (W.sym ch.keyPolicy).enc k (p ++ m))

/-- How an answer ends; `stuck`: the loop goes on for ever. -/
inductive Fin where
  | sent
  | failed (s : Status)
  | stuck
  | panic
  deriving DecidableEq, Repr

structure Sent where
  frames : List Bytes
  seq : BitVec 32
  fin : Fin
  deriving DecidableEq, Repr

/-- The loop over chunks, lines 908-1022. -/
def answerLoop (W : World) (ch : SChan) (lim : Limits) (rid : BitVec 32) (count : Nat) (seq : BitVec 32) (body : Bytes) : Sent :=
  if hb : body.length = 0 then ⟨[], seq, .sent⟩
  else if lim.maxChunks > 0 ∧ count + 1 > lim.maxChunks then ⟨[], seq, .failed .badResponseTooLarge⟩
  else
    let p := plan (W.sym ch.policy) ch.chan.mode lim.send body.length
    if hp : p.bodySize = 0 then ⟨[], seq, .stuck⟩
    else
      let c : Chunk := ⟨decide (¬ body.length > p.bodySize), ch.chan.channelID, ch.chan.tokenID, nextSeq seq, rid,
        body.take p.bodySize, p.paddingSize⟩
      match sealAnswer W ch lim.send p.chunkSize c with
      | .panic => ⟨[], nextSeq seq, .panic⟩
      | .err s => ⟨[], nextSeq seq, .failed s⟩
      | .ok f =>
        let r := answerLoop W ch lim rid (count + 1) (nextSeq seq) (body.drop p.bodySize)
        ⟨f :: r.frames, r.seq, r.fin⟩
termination_by body.length
decreasing_by
  rw [List.length_drop]
  exact Nat.sub_lt (Nat.pos_of_ne_zero hb) (Nat.pos_of_ne_zero hp)

/-- `sendServiceResponse` from line 899 on. -/
def answer (W : World) (ch : SChan) (lim : Limits) (rid seq : BitVec 32) (body : Bytes) : Sent :=
  if lim.maxMessage > 0 ∧ body.length > lim.maxMessage then ⟨[], seq, .failed .badResponseTooLarge⟩
  else answerLoop W ch lim rid 0 seq body

/-- The response to OpenSecureChannel in mode None, lines 491-558; `none` is BadEncodingError. -/
def plainResponse (send : Nat) (cid seq rid : BitVec 32) (uri body : Bytes) : Option Bytes :=
  let hdr := 16 + uri.length + 8
  if (body.length : Int) > (if (body.length : Int) < (send : Int) - hdr - 8 then (body.length : Int) else (send : Int) - hdr - 8)
  then none
  else some (opnHeader (hdr + 8 + body.length) cid uri none none ++ (writeU32 seq ++ (writeU32 rid ++ body)))

/-- What a message asks for: a new token, or a service. -/
inductive Ask where
  | renew (remoteNonce : Bytes)
  | service
  deriving DecidableEq, Repr

/-- What became of the process or the connection. -/
inductive Life where
  | up
  | closed
  /-- a panic while a frame was read -/
  | readPanic
  /-- a panic while an answer was made -/
  | answerPanic
  /-- an answer that never ends: it holds the channel's `sendingSemaphore` -/
  | hung
  deriving DecidableEq, Repr

/-- A channel in use: `acc` the chunks of the message that is being read, `asked` the requests without an answer, `out` the
frames that were sent. -/
structure Conn where
  ch : SChan
  acc : Bytes := []
  asked : List (BitVec 32) := []
  seq : BitVec 32 := 0
  out : List Bytes := []
  life : Life := .up
  deriving DecidableEq, Repr

structure Setup where
  W : World
  lim : Limits
  decode : Bytes → Option Ask

/-- A frame arrives; `nonce` is the random number of the server should this be a renewal. Or a worker answers the `i`-th
request that has no answer yet. -/
inductive Ev where
  | frame (f nonce : Bytes)
  | answer (i : Nat) (body : Bytes)
  deriving DecidableEq, Repr

/-- readRequest and handleRequest, server.go:416-504. A renewal under the policy None cannot be answered in a secured mode
(`RSASign`, line 561): the error ends the connection. (Its answer goes through `sendOpenSecureChannelResponse`,
Model/OpenChannel.lean, and is left out here but for its sequence number.) -/
def frame (p : Setup) (k : Conn) (f nonce : Bytes) : Conn :=
  match recvFrame p.W k.ch f with
  | .panic => { k with life := .readPanic }
  | .err _ => { k with life := .closed }
  | .ok (ch, g) =>
    if g.final then
      match p.decode (k.acc ++ g.body) with
      | none => { k with ch := ch, life := .closed }
      | some (.renew remote) =>
        if ch.policy = .none ∧ ch.chan.mode ≠ .none then { k with ch := ch, acc := [], life := .closed }
        else { k with ch := { ch with chan := renew ch.chan nonce remote }, acc := [], seq := nextSeq k.seq }
      | some .service => { k with ch := ch, acc := [], asked := k.asked ++ [g.requestID] }
    else { k with ch := ch, acc := k.acc ++ g.body }

/-- An answer; with an error the handler returns it, and the request worker ends the connection. -/
def answered (p : Setup) (k : Conn) (i : Nat) (body : Bytes) : Conn :=
  match k.asked[i]? with
  | none => k
  | some rid =>
    let r := answer p.W k.ch p.lim rid k.seq body
    { k with
      asked := k.asked.eraseIdx i
      seq := r.seq
      out := k.out ++ r.frames
      life := match r.fin with
        | .sent => .up
        | .failed _ => .closed
        | .stuck => .hung
        | .panic => .answerPanic }

def step (p : Setup) (k : Conn) (e : Ev) : Conn :=
  match k.life with
  | .up =>
    match e with
    | .frame f nonce => frame p k f nonce
    | .answer i body => answered p k i body
  | _ => k

def run (p : Setup) (k : Conn) (evs : List Ev) : Conn := evs.foldl (step p) k

end Opcua.Answer
