import Verif.Model.Channel

/-! OpenSecureChannel messages: sendOpenSecureChannelResponse
(server/server_secure_channel.go:432-616), sendOpenSecureChannelRequest
(client/client_secure_channel.go:549-755) and the OPN branch of readRequest
(server_secure_channel.go:1212-1338). -/
namespace Opcua.Channel

/-- Message security policies (ua/security_policy.go:17-22). -/
inductive Policy where
  | none
  | basic128Rsa15
  | basic256
  | basic256Sha256
  | aes128Sha256RsaOaep
  | aes256Sha256RsaPss
deriving Repr, DecidableEq

/-- The bytes of an ASCII string literal. -/
def ascii (s : String) : Bytes := s.toList.map (fun c => UInt8.ofNat c.toNat)

/-- ua/security_policy.go:17-22 -/
def Policy.uri : Policy → Bytes
  | .none => ascii "http://opcfoundation.org/UA/SecurityPolicy#None"
  | .basic128Rsa15 => ascii "http://opcfoundation.org/UA/SecurityPolicy#Basic128Rsa15"
  | .basic256 => ascii "http://opcfoundation.org/UA/SecurityPolicy#Basic256"
  | .basic256Sha256 => ascii "http://opcfoundation.org/UA/SecurityPolicy#Basic256Sha256"
  | .aes128Sha256RsaOaep => ascii "http://opcfoundation.org/UA/SecurityPolicy#Aes128_Sha256_RsaOaep"
  | .aes256Sha256RsaPss => ascii "http://opcfoundation.org/UA/SecurityPolicy#Aes256_Sha256_RsaPss"

/-- The switch over the policy URI, server_secure_channel.go:1230-1251. -/
def policyOf (uri : Bytes) : Option Policy :=
  if uri = Policy.uri .none then some .none
  else if uri = Policy.uri .basic128Rsa15 then some .basic128Rsa15
  else if uri = Policy.uri .basic256 then some .basic256
  else if uri = Policy.uri .basic256Sha256 then some .basic256Sha256
  else if uri = Policy.uri .aes128Sha256RsaOaep then some .aes128Sha256RsaOaep
  else if uri = Policy.uri .aes256Sha256RsaPss then some .aes256Sha256RsaPss
  else Option.none

/-- RSA with fixed keys, seen from one direction of a channel: the sender signs with its own key
and encrypts block by block for the receiver. -/
structure ASuite where
  sigSize : Nat        -- sender's key size
  cipherBlock : Nat    -- receiver's key size
  plainBlock : Nat     -- cipherBlock − RSAPaddingSize
  sign : Bytes → Bytes
  verify : Bytes → Bytes → Bool
  encB : Bytes → Bytes
  decB : Bytes → Option Bytes

/-- What is assumed of RSA: sizes, signatures verify, decryption of a block inverts encryption. -/
structure ASuite.Lawful (A : ASuite) : Prop where
  plain_pos : 0 < A.plainBlock
  plain_le : A.plainBlock ≤ A.cipherBlock
  cipher_le : A.cipherBlock ≤ 65536
  sign_length : ∀ d, (A.sign d).length = A.sigSize
  verify_sign : ∀ d, A.verify d (A.sign d) = true
  enc_length : ∀ x, x.length = A.plainBlock → (A.encB x).length = A.cipherBlock
  dec_enc : ∀ x, x.length = A.plainBlock → A.decB (A.encB x) = some x

/-- Planning of the secured OPN chunk with a plain header of `hdr` bytes,
server_secure_channel.go:471-489. -/
def asymMaxBody (A : ASuite) (hdr send : Nat) : Int :=
  (((send : Int) - hdr).tdiv A.cipherBlock) * A.plainBlock - 8 - padHeader A.cipherBlock - A.sigSize

def asymPlan (A : ASuite) (hdr send bodyCount : Nat) : Plan :=
  let mb := asymMaxBody A hdr send
  let ph := padHeader A.cipherBlock
  if (bodyCount : Int) < mb then
    let pad := (A.plainBlock - ((8 + bodyCount + ph + A.sigSize) % A.plainBlock)) % A.plainBlock
    ⟨bodyCount, pad, hdr + ((8 + bodyCount + pad + ph + A.sigSize) / A.plainBlock) * A.cipherBlock⟩
  else ⟨mb.toNat, 0, hdr + ((8 + mb.toNat + 0 + ph + A.sigSize) / A.plainBlock) * A.cipherBlock⟩

/-- The plain header of an OPN message, server_secure_channel.go:510-524. -/
def opnHeader (chunkSize : Nat) (channelID : BitVec 32) (uri : Bytes) (cert thumb : Option Bytes) : Bytes :=
  writeU32 tyOpen ++ (writeU32 (BitVec.ofNat 32 chunkSize) ++ (writeU32 channelID ++
    (writeString uri ++ (writeByteArray cert ++ writeByteArray thumb))))

/-- Encryption block by block, server_secure_channel.go:578-592. -/
def encBlocks (A : ASuite) (p : Bytes) : Bytes :=
  if h : p = [] ∨ A.plainBlock = 0 then []
  else A.encB (p.take A.plainBlock) ++ encBlocks A (p.drop A.plainBlock)
termination_by p.length
decreasing_by
  rw [List.length_drop]
  have : 0 < p.length := List.length_pos_iff.2 (fun e => h (Or.inl e))
  omega

/-- Decryption block by block, server_secure_channel.go:1276-1289. A last block that is too short is
completed with stale bytes by the code; here decryption then fails, which is what RSA decryption
does except with negligible probability. -/
def decBlocks (decB : Bytes → Option Bytes) (cipherBlock : Nat) (c : Bytes) : Option Bytes :=
  if h : c = [] ∨ cipherBlock = 0 then some []
  else if c.length < cipherBlock then Option.none
  else
    match decB (c.take cipherBlock) with
    | Option.none => Option.none
    | some p =>
      match decBlocks decB cipherBlock (c.drop cipherBlock) with
      | Option.none => Option.none
      | some q => some (p ++ q)
termination_by c.length
decreasing_by
  rw [List.length_drop]
  have : 0 < c.length := List.length_pos_iff.2 (fun e => h (Or.inl e))
  omega

/-- A secured OPN message, server_secure_channel.go:507-600; `none` is BadEncodingError when the
body does not fit one chunk (line 555). -/
def sealOpn (A : ASuite) (send : Nat) (channelID seq rid : BitVec 32) (uri cert thumb : Bytes) (body : Bytes) :
    Option Bytes :=
  let hdr := 16 + uri.length + 28 + cert.length
  let p := asymPlan A hdr send body.length
  if body.length > p.bodySize then Option.none
  else
    let h := opnHeader p.chunkSize channelID uri (some cert) (some thumb)
    let pl := writeU32 seq ++ (writeU32 rid ++ (body.take p.bodySize ++ padBytes A.cipherBlock p.paddingSize))
    some (h ++ encBlocks A (pl ++ A.sign (h ++ pl)))

/-- Extraction of the body, server_secure_channel.go:1303-1336: `data` is the decrypted message,
`hdr` its plain header size, `sig` the size of the remote key, `cb` the size of the local key. The
sequence header is read from the buffer of `count` received bytes; when decryption left fewer than
eight bytes there it is read from stale bytes, and the slice expression of the body then panics. -/
def opnBody (sig cb hdr count : Nat) (data : Bytes) : Out Frag :=
  if count < hdr + 8 then .err .badDecodingError
  else
    let len := data.length
    let ph := padHeader cb
    if len < sig + ph then .panic
    else
      let pad := leVal ((data.drop (len - sig - ph)).take ph)
      if len < hdr + 8 + pad + ph + sig then .panic
      else
        match u32At data (hdr + 4) with
        | some rid => .ok ⟨true, rid, (data.drop (hdr + 8)).take (len - hdr - 8 - pad - ph - sig)⟩
        | none => .panic

/-- Result of x509.ParseCertificates and the type assertion on the public key. -/
inductive CertParse where
  | bad
  | notRSA
  | rsa (key : Nat)
deriving Repr, DecidableEq

/-- The cryptographic environment of a server: symmetric suites and key derivation per policy,
certificate parsing, sizes of public keys, RSA with the local key and RSA verification. -/
structure World where
  sym : Policy → Suite
  kdf : Policy → Bytes → Bytes → Bytes
  parseCert : Bytes → CertParse
  keySize : Nat → Nat
  localSize : Nat
  decB : Policy → Bytes → Option Bytes
  verify : Policy → Nat → Bytes → Bytes → Bool

/-- A server channel with its policy and the peer's certificate. `policy` is the one named in the last OPN frame;
`keyPolicy` the one in force when the keys in use were made (server_secure_channel.go:1098-1143): `symVerifyHMAC` and
`symDecryptingBlockCipher` stay as they are until the next token. -/
structure SChan where
  chan : Chan
  policy : Policy
  remoteCert : Option Bytes
  remoteKey : Option Nat
  keyPolicy : Policy := policy
deriving Repr, DecidableEq

/-- The algorithms applied to a chunk of a token in use: the sizes come from `ch.securityPolicy`, MAC and cipher are the
objects made with the keys (server_secure_channel.go:1152-1209). (Line 1154 takes the block size from the cipher; that
makes a difference after a change to the policy None only, when the chunk is refused in either case.) -/
def World.mixed (W : World) (pol made : Policy) : Suite :=
  { W.sym made with
    sigSize := (W.sym pol).sigSize
    block := (W.sym pol).block }

/-- Header of an OPN message after the type and length words, server_secure_channel.go:1213-1227. -/
def readOpnHeader : Dec (BitVec 32 × Bytes × Option Bytes × Option Bytes) := do
  let cid ← readU32
  let uri ← readString
  let cert ← readByteArray
  let thumb ← readByteArray
  return (cid, uri, cert, thumb)

/-- The part of `openOpn` after the header and the certificate: the sender's key is `k`,
server_secure_channel.go:1276-1338. -/
def openOpnKey (W : World) (ch : SChan) (pol : Policy) (cert : Option Bytes) (k hdr : Nat) (frame : Bytes) :
    Out (SChan × Frag) :=
  match decBlocks (W.decB pol) W.localSize (frame.drop hdr) with
  | Option.none => .err .badSecurityChecksFailed
  | some pl =>
    let data := frame.take hdr ++ pl
    if data.length < W.keySize k then .panic
    else if W.verify pol k (data.take (data.length - W.keySize k)) (data.drop (data.length - W.keySize k)) then
      match opnBody (W.keySize k) W.localSize hdr frame.length data with
      | .err s => .err s
      | .panic => .panic
      | .ok f => .ok ({ ch with policy := pol, remoteCert := cert, remoteKey := some k }, f)
    else .err .badDecodingError

/-- The secured branch of `openOpn`: the sender's certificate, server_secure_channel.go:1262-1275.
A certificate that does not parse leaves the key of the channel in place. -/
def openOpnSecured (W : World) (ch : SChan) (pol : Policy) (cert : Option Bytes) (hdr : Nat) (frame : Bytes) :
    Out (SChan × Frag) :=
  match cert with
  | Option.none => .err .badSecurityChecksFailed
  | some c =>
    match W.parseCert c with
    | .notRSA => .panic     -- unchecked type assertion, line 1269
    | .rsa k => openOpnKey W ch pol cert k hdr frame
    | .bad =>
      match ch.remoteKey with
      | Option.none => .err .badSecurityChecksFailed
      | some k => openOpnKey W ch pol cert k hdr frame

/-- The OPN branch of readRequest on a server that has a certificate and a private key,
server_secure_channel.go:1212-1338. The channel id of the message is not looked at, and the
message type allows any service request in the body. -/
def openOpn (W : World) (ch : SChan) (frame : Bytes) : Out (SChan × Frag) :=
  match readOpnHeader.run (frame.drop 8) with
  | .err _ => .err .badDecodingError
  | .panic => .panic
  | .ok ((_, uri, cert, _), rest) =>
    let hdr := frame.length - rest.length
    match policyOf uri with
    | Option.none => .err .badSecurityPolicyRejected
    | some pol =>
      if pol = .none then
        match u32At frame hdr, u32At frame (hdr + 4) with
        | some _, some rid =>
          .ok ({ ch with policy := .none, remoteCert := cert }, ⟨true, rid, frame.drop (hdr + 8)⟩)
        | _, _ => .err .badDecodingError
      else openOpnSecured W ch pol cert hdr frame

/-- The chunk brings the pending token into use, server_secure_channel.go:1079-1094. -/
def changesToken (ch : Chan) (frame : Bytes) : Bool :=
  decide (u32At frame 8 = some ch.channelID) && decide (u32At frame 12 = some ch.pendingTokenID) &&
    decide (ch.tokenID ≠ ch.pendingTokenID)

/-- MSG and CLO chunks, server_secure_channel.go:1075-1211. Keys for a secured mode cannot be made under the policy None:
`SymHMACFactory` gives nil, whose use panics (line 1166), and `aes.NewCipher` refuses the empty key (line 1113). -/
def recvSym (W : World) (ch : SChan) (ty len : BitVec 32) (frame : Bytes) : Out (SChan × Frag) :=
  if changesToken ch.chan frame then
    if ch.policy = .none ∧ ch.chan.mode ≠ .none then
      if frame.length ≠ len.toNat then .err .badDecodingError
      else if ty ≠ tyChunk ∧ ty ≠ tyFinal ∧ ty ≠ tyClose then .err .badUnknownResponse
      else if ch.chan.mode = .sign then .panic
      else .err .badDecodingError
    else
      match openFrame (W.sym ch.policy) (W.kdf ch.policy) ch.chan frame with
      | .ok (c, g) => .ok ({ ch with chan := c, keyPolicy := ch.policy }, g)
      | .err s => .err s
      | .panic => .panic
  else
    match openFrame (W.mixed ch.policy ch.keyPolicy) (W.kdf ch.policy) ch.chan frame with
    | .ok (c, g) => .ok ({ ch with chan := c }, g)
    | .err s => .err s
    | .panic => .panic

/-- Any frame on a server channel, server_secure_channel.go:1058-1354. Error and Abort messages
end the channel with the status they carry; here they are lumped into one error. -/
def recvFrame (W : World) (ch : SChan) (frame : Bytes) : Out (SChan × Frag) :=
  match u32At frame 0, u32At frame 4 with
  | some ty, some len =>
    if ty = tyOpen then
      if frame.length ≠ len.toNat then .err .badDecodingError else openOpn W ch frame
    else recvSym W ch ty len frame
  | _, _ => .err .badDecodingError

end Opcua.Channel
