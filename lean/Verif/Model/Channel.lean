import Verif.Model.Scalars

/-!
Secure channel messages: planning, sealing, sending, opening and reassembling chunks.
server/server_secure_channel.go (sendServiceResponse, readRequest) and
client/client_secure_channel.go (sendServiceRequest, readResponse). The two senders and the two
receivers contain the same arithmetic; differences are noted at the definitions.
-/
namespace Opcua.Channel

/-- The status codes returned by the channel code. -/
inductive Status where
  | badDecodingError
  | badEncodingError
  | badSecurityChecksFailed
  | badSecureChannelTokenUnknown
  | badTCPSecureChannelUnknown
  | badSecureChannelClosed
  | badRequestTooLarge
  | badResponseTooLarge
  | badSecurityPolicyRejected
  | badUnknownResponse
deriving Repr, DecidableEq

/-- Result of a channel operation: value, returned status, or run-time panic. -/
inductive Out (α : Type) where
  | ok (a : α)
  | err (s : Status)
  | panic
deriving Repr, DecidableEq

/-- `ua.MessageSecurityMode`. -/
inductive Mode where
  | none
  | sign
  | signAndEncrypt
deriving Repr, DecidableEq

def Mode.secured : Mode → Bool
  | .none => false
  | _ => true

/-- The symmetric algorithms of a security policy (ua/security_policy.go): sizes, HMAC and CBC
cipher. A key block (signing key, encrypting key, initialization vector) is one byte string.
The cryptographic primitives are parameters. -/
structure Suite where
  sigSize : Nat
  block : Nat
  mac : Bytes → Bytes → Bytes
  enc : Bytes → Bytes → Bytes
  dec : Bytes → Bytes → Bytes

/-- What is assumed of the primitives: the MAC has the size the policy says; on whole blocks
encryption keeps the length and decryption inverts it. -/
structure Suite.Lawful (S : Suite) : Prop where
  block_pos : 0 < S.block
  block_le : S.block ≤ 65536
  mac_length : ∀ k d, (S.mac k d).length = S.sigSize
  enc_length : ∀ k x, x.length % S.block = 0 → (S.enc k x).length = x.length
  dec_enc : ∀ k x, x.length % S.block = 0 → S.dec k (S.enc k x) = x

/-- ua/message_types.go:6-16 -/
def tyChunk : BitVec 32 := 0x4347534D#32
def tyFinal : BitVec 32 := 0x4647534D#32
def tyClose : BitVec 32 := 0x464F4C43#32
def tyOpen : BitVec 32 := 0x464E504F#32
def tyError : BitVec 32 := 0x46525245#32
def tyAbort : BitVec 32 := 0x4147534D#32

/-! ### Sending -/

/-- `paddingHeaderSize` for a cipher block size, server_secure_channel.go:927-931. -/
def padHeader (block : Nat) : Nat := if block > 256 then 2 else 1

/-- `maxBodySize`, server_secure_channel.go:932 and 946, client_secure_channel.go:1234, 1248
(Go's `/` truncates towards zero). -/
def maxBody (S : Suite) (mode : Mode) (send : Nat) : Int :=
  match mode with
  | .signAndEncrypt =>
    (((send : Int) - 16).tdiv S.block) * S.block - 8 - padHeader S.block - S.sigSize
  | _ => (send : Int) - 16 - 8 - S.sigSize

structure Plan where
  bodySize : Nat
  paddingSize : Nat
  chunkSize : Nat
deriving Repr, DecidableEq

/-- One turn of the planning code, server_secure_channel.go:918-953. A `bodySize` that is not
positive (only possible when `maxBodySize ≤ 0`) is represented by 0. -/
def plan (S : Suite) (mode : Mode) (send : Nat) (bodyCount : Nat) : Plan :=
  let mb := maxBody S mode send
  match mode with
  | .signAndEncrypt =>
    let ph := padHeader S.block
    if (bodyCount : Int) < mb then
      let pad := (S.block - ((8 + bodyCount + ph + S.sigSize) % S.block)) % S.block
      ⟨bodyCount, pad, 16 + 8 + bodyCount + pad + ph + S.sigSize⟩
    else ⟨mb.toNat, 0, 16 + 8 + mb.toNat + 0 + ph + S.sigSize⟩
  | _ =>
    let body := if (bodyCount : Int) < mb then bodyCount else mb.toNat
    ⟨body, 0, 16 + 8 + body + 0 + 0 + S.sigSize⟩

/-- A chunk before it is secured. -/
structure Chunk where
  final : Bool
  channelID : BitVec 32
  tokenID : BitVec 32
  seq : BitVec 32
  requestID : BitVec 32
  body : Bytes
  paddingSize : Nat
deriving Repr, DecidableEq

/-- The padding bytes, server_secure_channel.go:986-997. -/
def padBytes (block padding : Nat) : Bytes :=
  let pb := UInt8.ofNat (padding % 256)
  pb :: (List.replicate padding pb ++ if padHeader block = 2 then [UInt8.ofNat (padding / 256 % 256)] else [])

/-- The plain header of 16 bytes, server_secure_channel.go:958-968. -/
def header (final : Bool) (chunkSize : Nat) (channelID tokenID : BitVec 32) : Bytes :=
  writeU32 (if final then tyFinal else tyChunk) ++ (writeU32 (BitVec.ofNat 32 chunkSize) ++
    (writeU32 channelID ++ writeU32 tokenID))

/-- Sequence header, body and padding, server_secure_channel.go:974-997. -/
def payload (S : Suite) (mode : Mode) (c : Chunk) : Bytes :=
  writeU32 c.seq ++ (writeU32 c.requestID ++ (c.body ++
    (if mode = .signAndEncrypt then padBytes S.block c.paddingSize else [])))

/-- Signing and encrypting, server_secure_channel.go:999-1015. The send buffer is at least
`chunkSize` long in every case where `bodySize` is positive, so the bounded writer loses
nothing (theorem `C23_chunk_fits`). -/
def sealChunk (S : Suite) (mode : Mode) (key : Bytes) (chunkSize : Nat) (c : Chunk) : Bytes :=
  let h := header c.final chunkSize c.channelID c.tokenID
  let p := payload S mode c
  match mode with
  | .none => h ++ p
  | .sign => h ++ p ++ S.mac key (h ++ p)
  | .signAndEncrypt => h ++ S.enc key (p ++ S.mac key (h ++ p))

/-- What a sender knows. -/
structure Sender where
  mode : Mode
  send : Nat
  channelID : BitVec 32
  tokenID : BitVec 32
  key : Bytes
  maxMessage : Nat
  maxChunks : Nat

/-- getNextSequenceNumber without contention (see Model/Counter.lean for the loop),
server_secure_channel.go:1518-1530. -/
def nextSeq (n : BitVec 32) : BitVec 32 := (if n = 0xFFFFFFFF#32 then 0 else n) + 1

inductive SendEnd where
  | sent
  | failed (s : Status)
  | stuck      -- the loop makes no progress (`bodySize ≤ 0`)
deriving Repr, DecidableEq

structure SendRes where
  chunks : List (Chunk × Nat)
  seq : BitVec 32
  fin : SendEnd

/-- The loop over chunks, server_secure_channel.go:907-1022, client_secure_channel.go:1216-1345.
Each chunk comes with its `chunkSize`. -/
def sendLoop (S : Suite) (cfg : Sender) (tooLarge : Status) (rid : BitVec 32) (count : Nat)
    (seq : BitVec 32) (body : Bytes) : SendRes :=
  if hb : body.length = 0 then ⟨[], seq, .sent⟩
  else if cfg.maxChunks > 0 ∧ count + 1 > cfg.maxChunks then ⟨[], seq, .failed tooLarge⟩
  else
    let p := plan S cfg.mode cfg.send body.length
    if hp : p.bodySize = 0 then ⟨[], seq, .stuck⟩
    else
      let c : Chunk := ⟨decide (¬ body.length > p.bodySize), cfg.channelID, cfg.tokenID, nextSeq seq, rid,
        body.take p.bodySize, p.paddingSize⟩
      let r := sendLoop S cfg tooLarge rid (count + 1) (nextSeq seq) (body.drop p.bodySize)
      ⟨(c, p.chunkSize) :: r.chunks, r.seq, r.fin⟩
termination_by body.length
decreasing_by
  rw [List.length_drop]
  exact Nat.sub_lt (Nat.pos_of_ne_zero hb) (Nat.pos_of_ne_zero hp)

/-- Sending one encoded message: size check, then the loop; the frames handed to the
transport in order. server_secure_channel.go:903-1025. -/
def sendMessage (S : Suite) (cfg : Sender) (tooLarge : Status) (rid seq : BitVec 32) (body : Bytes) :
    List Bytes × SendEnd :=
  if cfg.maxMessage > 0 ∧ body.length > cfg.maxMessage then ([], .failed tooLarge)
  else
    let r := sendLoop S cfg tooLarge rid 0 seq body
    (r.chunks.map (fun c => sealChunk S cfg.mode cfg.key c.2 c.1), r.fin)

/-! ### Receiving -/

/-- `binary.LittleEndian.Uint32` at an offset, `none` when the reader is exhausted. -/
def u32At (b : Bytes) (off : Nat) : Option (BitVec 32) :=
  if off + 4 ≤ b.length then some (BitVec.ofNat 32 (leVal ((b.drop off).take 4))) else Option.none

/-- Receiving state of a channel. `recvKey = none` is the nil HMAC / nil cipher before the first
token is installed. -/
structure Chan where
  channelID : BitVec 32
  tokenID : BitVec 32
  pendingTokenID : BitVec 32
  mode : Mode
  recvKey : Option Bytes
  sendKey : Option Bytes
  localNonce : Bytes
  remoteNonce : Bytes
  lastTokenID : BitVec 32
deriving Repr, DecidableEq

/-- Token detection, server_secure_channel.go:1090-1149. `kdf secret seed` is the key block
computed by calculatePSHA. (AES key sizes of every policy are valid, so `aes.NewCipher` does
not fail.) -/
def switchToken (kdf : Bytes → Bytes → Bytes) (ch : Chan) (tok : BitVec 32) : Out Chan :=
  if ch.tokenID = tok then .ok ch
  else if tok ≠ ch.pendingTokenID then .err .badSecureChannelTokenUnknown
  else if ch.mode.secured then
    .ok { ch with tokenID := ch.pendingTokenID
                  recvKey := some (kdf ch.localNonce ch.remoteNonce)
                  sendKey := some (kdf ch.remoteNonce ch.localNonce) }
  else .ok { ch with tokenID := ch.pendingTokenID }

/-- A received fragment of a message. -/
structure Frag where
  final : Bool
  requestID : BitVec 32
  body : Bytes
deriving Repr, DecidableEq

/-- The body part of a decrypted and verified message, server_secure_channel.go:1187-1209. -/
def bodyOf (S : Suite) (mode : Mode) (data : Bytes) : Out Bytes :=
  let len := data.length
  match mode with
  | .signAndEncrypt =>
    let ph := padHeader S.block
    if len < S.sigSize + ph then .panic    -- negative index
    else
      let pad := leVal ((data.drop (len - S.sigSize - ph)).take ph)
      if len < 16 + 8 + pad + ph + S.sigSize then .panic   -- slice bounds out of range
      else .ok ((data.drop 24).take (len - 16 - 8 - pad - ph - S.sigSize))
  | _ =>
    if len < 16 + 8 + S.sigSize then .panic
    else .ok ((data.drop 24).take (len - 16 - 8 - S.sigSize))

/-- Decrypt, server_secure_channel.go:1152-1160. -/
def decryptFrame (S : Suite) (mode : Mode) (key : Option Bytes) (frame : Bytes) : Out Bytes :=
  match mode with
  | .signAndEncrypt =>
    match key with
    | Option.none => .panic    -- nil cipher
    | some k =>
      if (frame.length - 16) % S.block ≠ 0 then .err .badDecodingError
      else .ok (frame.take 16 ++ S.dec k (frame.drop 16))
  | _ => .ok frame

/-- Verify, server_secure_channel.go:1163-1174. -/
def verifyFrame (S : Suite) (mode : Mode) (key : Option Bytes) (data : Bytes) : Out Unit :=
  match mode with
  | .none => .ok ()
  | _ =>
    match key with
    | Option.none => .panic    -- nil HMAC
    | some k =>
      if data.length < S.sigSize then .panic    -- negative slice bound
      else if S.mac k (data.take (data.length - S.sigSize)) = data.drop (data.length - S.sigSize) then .ok ()
      else .err .badSecurityChecksFailed

/-- Sequence header and body, server_secure_channel.go:1177-1210; the sequence number is read
and ignored. -/
def fragOf (S : Suite) (mode : Mode) (final : Bool) (data : Bytes) : Out Frag :=
  match u32At data 16, u32At data 20 with
  | some _, some rid =>
    match bodyOf S mode data with
    | .ok b => .ok ⟨final, rid, b⟩
    | .err s => .err s
    | .panic => .panic
  | _, _ => .err .badDecodingError

/-- One MSG or CLO chunk, server_secure_channel.go:1075-1211. -/
def openSym (S : Suite) (kdf : Bytes → Bytes → Bytes) (ch : Chan) (final : Bool) (frame : Bytes) :
    Out (Chan × Frag) :=
  match u32At frame 8 with
  | Option.none => .err .badDecodingError
  | some cid =>
    if cid ≠ ch.channelID then .err .badTCPSecureChannelUnknown
    else match u32At frame 12 with
      | Option.none => .err .badDecodingError
      | some tok =>
        match switchToken kdf ch tok with
        | .err s => .err s
        | .panic => .panic
        | .ok ch =>
          match decryptFrame S ch.mode ch.recvKey frame with
          | .err s => .err s
          | .panic => .panic
          | .ok data =>
            match verifyFrame S ch.mode ch.recvKey data with
            | .err s => .err s
            | .panic => .panic
            | .ok () =>
              match fragOf S ch.mode final data with
              | .err s => .err s
              | .panic => .panic
              | .ok f => .ok (ch, f)

/-- One frame on an open channel, without OpenSecureChannel messages (those are in
Model/OpenChannel.lean), server_secure_channel.go:1058-1211, 1352-1354. -/
def openFrame (S : Suite) (kdf : Bytes → Bytes → Bytes) (ch : Chan) (frame : Bytes) : Out (Chan × Frag) :=
  match u32At frame 0, u32At frame 4 with
  | some ty, some len =>
    if frame.length ≠ len.toNat then .err .badDecodingError
    else if ty = tyChunk then openSym S kdf ch false frame
    else if ty = tyFinal ∨ ty = tyClose then openSym S kdf ch true frame
    else .err .badUnknownResponse
  | _, _ => .err .badDecodingError

/-- A reassembled message. -/
structure Msg where
  requestID : BitVec 32
  body : Bytes
deriving Repr, DecidableEq

structure Limits where
  maxMessage : BitVec 32
  maxChunks : BitVec 32

/-- The loop of readRequest over the frames still to come, server_secure_channel.go:1048-1359.
`int32(maxRequestChunkCount)` is negative, hence no limit, from 2^31 on. -/
def recvLoop (S : Suite) (kdf : Bytes → Bytes → Bytes) (lim : Limits) (ch : Chan) (count : Nat) (acc : Bytes) :
    List Bytes → Out (Chan × Msg × List Bytes)
  | [] =>
    if lim.maxChunks.toInt > 0 ∧ (count + 1 : Int) > lim.maxChunks.toInt then .err .badRequestTooLarge
    else .err .badSecureChannelClosed
  | f :: fs =>
    if lim.maxChunks.toInt > 0 ∧ (count + 1 : Int) > lim.maxChunks.toInt then .err .badRequestTooLarge
    else match openFrame S kdf ch f with
      | .err s => .err s
      | .panic => .panic
      | .ok (ch, g) =>
        let acc := acc ++ g.body
        if lim.maxMessage.toNat > 0 ∧ acc.length > lim.maxMessage.toNat then .err .badRequestTooLarge
        else if g.final then .ok (ch, ⟨g.requestID, acc⟩, fs)
        else recvLoop S kdf lim ch (count + 1) acc fs

/-- readRequest up to the decoding of the body, server_secure_channel.go:1028-1359. -/
def recvMessage (S : Suite) (kdf : Bytes → Bytes → Bytes) (lim : Limits) (ch : Chan) (frames : List Bytes) :
    Out (Chan × Msg × List Bytes) :=
  recvLoop S kdf lim ch 0 [] frames

end Opcua.Channel

namespace Opcua.Channel

/-! ### Token history -/

/-- handleOpenSecureChannel for a renewal, server_secure_channel.go:1469-1481. -/
def renew (ch : Chan) (localNonce remoteNonce : Bytes) : Chan :=
  { ch with localNonce := if ch.mode.secured then localNonce else []
            remoteNonce := remoteNonce
            lastTokenID := nextSeq ch.lastTokenID
            pendingTokenID := nextSeq ch.lastTokenID }

/-- What happens to the tokens of a channel: a renewal, or a chunk that names a token. -/
inductive TokEv where
  | renew (localNonce remoteNonce : Bytes)
  | chunk (tok : BitVec 32)
deriving Repr, DecidableEq

/-- The channel after an event; a refused chunk leaves the token state as it was. -/
def tokStep (kdf : Bytes → Bytes → Bytes) (ch : Chan) : TokEv → Chan
  | .renew l r => renew ch l r
  | .chunk t =>
    match switchToken kdf ch t with
    | .ok ch' => ch'
    | _ => ch

def tokRun (kdf : Bytes → Bytes → Bytes) (ch : Chan) (evs : List TokEv) : Chan := evs.foldl (tokStep kdf) ch

/-- The channel at the end of Open, server_secure_channel.go:281-287, 347: token 1 is pending and
no token is installed. -/
def opened (channelID : BitVec 32) (mode : Mode) (localNonce remoteNonce : Bytes) : Chan :=
  { channelID, tokenID := 0, pendingTokenID := 1, mode, recvKey := none, sendKey := none,
    localNonce, remoteNonce, lastTokenID := 1 }

/-- A suite with a toy MAC and cipher, used in examples and counter-examples only. -/
def xorSuite (sigSize block : Nat) : Suite where
  sigSize := sigSize
  block := block
  mac k d := leBytes sigSize (leVal k + leVal d + 1)
  enc k x := x.map (fun b => b ^^^ UInt8.ofNat (leVal k))
  dec k x := x.map (fun b => b ^^^ UInt8.ofNat (leVal k))

end Opcua.Channel
