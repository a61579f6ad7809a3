import Verif.Model.OpenChannel

/-!
# The receiving side of the client

`readResponse` (client/client_secure_channel.go:1368-1733) up to the decoding of the body, with the state that `Open`
(437-470) and `renewToken` (1762-1788) leave behind. The arithmetic on a decrypted frame is that of the server
(`decryptFrame`, `verifyFrame`, `fragOf` and `opnBody` in Model/Channel.lean and Model/OpenChannel.lean); what differs is
the token, the limits, the frames of type OPN and those of type Error and Abort.

Simplifications: frames are whole (`Read` is in Model/Frame.lean); a last block of RSA that is too short fails to decrypt
(see `decBlocks`); `aes.NewCipher` does not fail, as the sizes of every policy are valid; a write to the body stream does
not fail.
-/

namespace Opcua.ClientRecv

open Opcua.Channel

/-- How a part of `readResponse` ends: with a value, with a status of its own, with the status that an Error or Abort
frame carries, or in a panic. -/
inductive Res (α : Type) where
  | ok (a : α)
  | err (s : Status)
  | told (code : BitVec 32)
  | panic
deriving Repr, DecidableEq

def Res.of {α : Type} : Out α → Res α
  | .ok a => .ok a
  | .err s => .err s
  | .panic => .panic

/-- The fields of `clientSecureChannel` that receiving looks at, client_secure_channel.go:55-127. `recvKey = none` is the
nil `symVerifyHMAC` and the nil `symDecryptingBlockCipher`. -/
structure Chan where
  channelID : BitVec 32
  receivingToken : BitVec 32
  mode : Mode
  recvKey : Option Bytes
  localNonce : Bytes
  remoteNonce : Bytes
deriving Repr, DecidableEq

/-- RSA on the client's side: its own key decrypts, the key of the server verifies. -/
structure Rsa where
  localSize : Nat
  remoteSize : Nat
  decB : Bytes → Option Bytes
  verify : Bytes → Bytes → Bool

/-- The channel when the worker starts, client_secure_channel.go:437-444: the nonces are nil until `Open` has its
response. -/
def fresh (mode : Mode) : Chan := ⟨0, 0, mode, none, [], []⟩

/-- What `Open` does with the response, lines 461-468. -/
def install (ch : Chan) (channelID : BitVec 32) (localNonce remoteNonce : Bytes) : Chan :=
  { ch with
    channelID := channelID
    localNonce := localNonce
    remoteNonce := remoteNonce }

/-- What `renewToken` does with the response, lines 1779-1786: the channel id is kept. -/
def renewed (ch : Chan) (localNonce remoteNonce : Bytes) : Chan :=
  { ch with
    localNonce := localNonce
    remoteNonce := remoteNonce }

/-- Lines 1433-1455: a token id that differs from that of the chunk before becomes the current one, whatever it is; in the
secured modes the keys are made anew from the nonces the channel has at this moment. -/
def switch (kdf : Bytes → Bytes → Bytes) (ch : Chan) (tok : BitVec 32) : Chan :=
  if tok = ch.receivingToken then ch
  else if ch.mode.secured then
    { ch with
      receivingToken := tok
      recvKey := some (kdf ch.localNonce ch.remoteNonce) }
  else { ch with receivingToken := tok }

/-- Decrypting, verifying and cutting out the body, lines 1457-1513. -/
def openKeyed (S : Suite) (mode : Mode) (key : Option Bytes) (final : Bool) (frame : Bytes) : Out Frag :=
  match decryptFrame S mode key frame with
  | .err s => .err s
  | .panic => .panic
  | .ok data =>
    match verifyFrame S mode key data with
    | .err s => .err s
    | .panic => .panic
    | .ok () => fragOf S mode final data

/-- A MSG chunk, lines 1418-1513. -/
def openSym (S : Suite) (kdf : Bytes → Bytes → Bytes) (ch : Chan) (final : Bool) (frame : Bytes) : Out (Chan × Frag) :=
  match u32At frame 8 with
  | none => .err .badDecodingError
  | some cid =>
    if cid ≠ ch.channelID then .err .badTCPSecureChannelUnknown
    else match u32At frame 12 with
      | none => .err .badDecodingError
      | some tok =>
        match openKeyed S ch.mode (switch kdf ch tok).recvKey final frame with
        | .err s => .err s
        | .panic => .panic
        | .ok f => .ok (switch kdf ch tok, f)

/-- The OPN frame after its header of `hdr` bytes, lines 1534-1601. -/
def openOpnBody (R : Rsa) (mode : Mode) (hdr : Nat) (frame : Bytes) : Out Frag :=
  if mode.secured then
    match decBlocks R.decB R.localSize (frame.drop hdr) with
    | none => .err .badDecodingError
    | some pl =>
      let data := frame.take hdr ++ pl
      if data.length < R.remoteSize then .panic     -- negative slice bound
      else if R.verify (data.take (data.length - R.remoteSize)) (data.drop (data.length - R.remoteSize)) then
        opnBody R.remoteSize R.localSize hdr frame.length data
      else .err .badDecodingError
  else
    match u32At frame hdr, u32At frame (hdr + 4) with
    | some _, some rid => .ok ⟨true, rid, frame.drop (hdr + 8)⟩
    | _, _ => .err .badDecodingError

/-- An OPN frame, lines 1515-1601: the channel id, the policy and the certificates in it are read and ignored. -/
def openOpn (R : Rsa) (mode : Mode) (frame : Bytes) : Out Frag :=
  match readOpnHeader.run (frame.drop 8) with
  | .err _ => .err .badDecodingError
  | .panic => .panic
  | .ok (_, rest) => openOpnBody R mode (frame.length - rest.length) frame

/-- Status and reason of an Error or Abort frame, lines 1604-1611. -/
def readError : Dec (BitVec 32) := do
  let code ← readU32
  let _ ← readString
  return code

/-- One frame, lines 1404-1617. -/
def openFrame (S : Suite) (kdf : Bytes → Bytes → Bytes) (R : Rsa) (ch : Chan) (frame : Bytes) : Res (Chan × Frag) :=
  match u32At frame 0, u32At frame 4 with
  | some ty, some len =>
    if frame.length ≠ len.toNat then .err .badDecodingError
    else if ty = tyChunk then .of (openSym S kdf ch false frame)
    else if ty = tyFinal then .of (openSym S kdf ch true frame)
    else if ty = tyOpen then
      match openOpn R ch.mode frame with
      | .err s => .err s
      | .panic => .panic
      | .ok f => .ok (ch, f)
    else if ty = tyError ∨ ty = tyAbort then
      match readError.run (frame.drop 8) with
      | .ok (code, _) => .told code
      | _ => .err .badDecodingError
    else .err .badUnknownResponse
  | _, _ => .err .badDecodingError

/-- The loop over the frames still to come, lines 1391-1622. `int(maxResponseChunkCount)` and
`int64(maxResponseMessageSize)` are never negative. -/
def recvLoop (S : Suite) (kdf : Bytes → Bytes → Bytes) (R : Rsa) (lim : Limits) (ch : Chan) (count : Nat) (acc : Bytes) :
    List Bytes → Res (Chan × Bytes × List Bytes)
  | [] =>
    if lim.maxChunks.toNat > 0 ∧ count + 1 > lim.maxChunks.toNat then .err .badResponseTooLarge
    else .err .badSecureChannelClosed
  | f :: fs =>
    if lim.maxChunks.toNat > 0 ∧ count + 1 > lim.maxChunks.toNat then .err .badResponseTooLarge
    else match openFrame S kdf R ch f with
      | .err s => .err s
      | .told c => .told c
      | .panic => .panic
      | .ok (ch, g) =>
        let acc := acc ++ g.body
        if lim.maxMessage.toNat > 0 ∧ acc.length > lim.maxMessage.toNat then .err .badResponseTooLarge
        else if g.final then .ok (ch, acc, fs)
        else recvLoop S kdf R lim ch (count + 1) acc fs

/-- `readResponse` up to the decoding of the body: the bytes of the message; the request id of its chunks is not kept. -/
def recvMessage (S : Suite) (kdf : Bytes → Bytes → Bytes) (R : Rsa) (lim : Limits) (ch : Chan) (frames : List Bytes) :
    Res (Chan × Bytes × List Bytes) :=
  recvLoop S kdf R lim ch 0 [] frames

/-! ### The life of a channel -/

/-- What happens to the receiving state: a frame arrives, `Open` has its response, a renewal has its response. -/
inductive Ev where
  | frame (bs : Bytes)
  | opened (channelID : BitVec 32) (localNonce remoteNonce : Bytes)
  | renewed (localNonce remoteNonce : Bytes)
deriving Repr, DecidableEq

/-- A frame that is refused ends the worker; the state is as it was. -/
def step (S : Suite) (kdf : Bytes → Bytes → Bytes) (R : Rsa) (ch : Chan) : Ev → Chan
  | .frame bs =>
    match openFrame S kdf R ch bs with
    | .ok (ch', _) => ch'
    | _ => ch
  | .opened cid l r => install ch cid l r
  | .renewed l r => ClientRecv.renewed ch l r

def run (S : Suite) (kdf : Bytes → Bytes → Bytes) (R : Rsa) (ch : Chan) (evs : List Ev) : Chan := evs.foldl (step S kdf R) ch

end Opcua.ClientRecv
