import Verif.Model.Suites
import Verif.Props.Channel
import Verif.Props.OpenChannel
import Verif.Props.Psha

/-! # C118: a security policy means the same at both ends and in the standard -/

namespace Opcua.Suites

open Opcua.Channel (Policy Suite ASuite)

namespace Spec

/-- Part 7, 6.6: the algorithms of a policy. -/
structure Profile where
  /-- AsymmetricSignatureAlgorithm and its URI -/
  signature : SignScheme
  signatureUri : Algorithm
  /-- AsymmetricEncryptionAlgorithm and its URI -/
  encryption : EncScheme
  encryptionUri : Algorithm
  /-- SymmetricSignatureAlgorithm: HMAC with this hash -/
  hmac : Hash
  /-- KeyDerivationAlgorithm: P_SHA with this hash -/
  kdf : Hash
  /-- DerivedSignatureKeyLength, in bits -/
  signatureKey : Nat
  /-- SymmetricEncryptionAlgorithm: AES in CBC mode with keys of this many bits -/
  aes : Nat
  /-- SecureChannelNonceLength, in bytes -/
  nonce : Nat
  /-- MinAsymmetricKeyLength and MaxAsymmetricKeyLength, in bits -/
  minKey : Nat
  maxKey : Nat

/-- The profiles of the five policies. -/
def profile : Policy → Option Profile
  | .none => none
  | .basic128Rsa15 => some ⟨.pkcs1 .sha1, .rsaSha1, .pkcs1, .rsaV15, .sha1, .sha1, 128, 128, 16, 1024, 2048⟩
  | .basic256 => some ⟨.pkcs1 .sha1, .rsaSha1, .oaep .sha1, .rsaOaep, .sha1, .sha1, 192, 256, 32, 1024, 2048⟩
  | .basic256Sha256 =>
    some ⟨.pkcs1 .sha256, .rsaSha256, .oaep .sha1, .rsaOaep, .sha256, .sha256, 256, 256, 32, 2048, 4096⟩
  | .aes128Sha256RsaOaep =>
    some ⟨.pkcs1 .sha256, .rsaSha256, .oaep .sha1, .rsaOaep, .sha256, .sha256, 256, 128, 32, 2048, 4096⟩
  | .aes256Sha256RsaPss =>
    some ⟨.pss .sha256, .rsaPssSha256, .oaep .sha256, .rsaOaepSha256, .sha256, .sha256, 256, 256, 32, 2048, 4096⟩

end Spec
open Spec

/-! ### The tables -/

/-- Every policy has the algorithms and sizes of its profile: the object of the policy, and the derivation of keys on
either side. -/
theorem C118_profile (p : Policy) (f : Profile) (h : profile p = some f) :
    rsaSign p = some f.signature ∧ rsaVerify p = some f.signature ∧
    rsaEncrypt p = some f.encryption ∧ rsaDecrypt p = some f.encryption ∧
    symHmac p = some f.hmac ∧ symSignatureSize p = f.hmac.size ∧
    8 * symSignatureKeySize p = f.signatureKey ∧ 8 * symEncryptionKeySize p = f.aes ∧ symEncryptionBlockSize p = 16 ∧
    nonceSize p = f.nonce ∧ rsaPaddingSize p = f.encryption.overhead ∧
    serverPshaHash p = f.kdf ∧ clientPshaHash p = f.kdf := by
  cases p <;> first | (cases h; done) | (cases h; decide)

/-- Every signature that is part of a message is made by the algorithm of the profile, says so, and is verified by it:
that of the server, that of the client and that of a user. Without one of the five policies nothing is signed and
nothing verified. -/
theorem C118_signatures (p : Option Policy) :
    (∀ f, p.bind profile = some f →
      serverSign p = some (f.signature, f.signatureUri) ∧ clientVerify p = some f.signature ∧
      clientSign p = some (f.signature, f.signatureUri) ∧ serverVerify p = some f.signature ∧
      clientUserSign p = some (f.signature, f.signatureUri) ∧ serverUserVerify p = some f.signature) ∧
    (p.bind profile = none → serverSign p = none ∧ clientVerify p = none ∧ clientSign p = none ∧ serverVerify p = none ∧
      clientUserSign p = none ∧ serverUserVerify p = none) := by
  rcases p with _ | p
  · exact ⟨fun f h => (by cases h), fun _ => by decide⟩
  · cases p <;> refine ⟨fun f h => ?_, fun h => ?_⟩ <;> first | (cases h; done) | (cases h; decide) | decide

/-- A password is encrypted with the algorithm of the profile, in blocks as large as it takes, under its name; the
server asks for that name and decrypts with that algorithm. -/
theorem C118_passwords (p : Option Policy) :
    (∀ f, p.bind profile = some f →
      clientPassword p = some ⟨f.encryption, f.encryption.overhead, f.encryptionUri⟩ ∧
      serverPassword p = some (f.encryption, f.encryptionUri)) ∧
    (p.bind profile = none → clientPassword p = none ∧ serverPassword p = none) := by
  rcases p with _ | p
  · exact ⟨fun f h => (by cases h), fun _ => by decide⟩
  · cases p <;> refine ⟨fun f h => ?_, fun h => ?_⟩ <;> first | (cases h; done) | (cases h; decide) | decide

/-- The blocks are the largest the algorithm takes: a block of the size of the key less the padding of the policy is
encrypted and comes back, one more byte is refused. -/
theorem C118_blocks (C : Crypto) (hC : C.Lawful) (p : Policy) (hp : p ≠ .none) (k : Nat) (hk : rsaPaddingSize p ≤ C.size k)
    (x : Bytes) :
    ∃ a, rsaEncrypt p = some a ∧ rsaDecrypt p = some a ∧
      (x.length = C.size k - rsaPaddingSize p →
        ∃ c, C.encrypt a k x = some c ∧ c.length = C.size k ∧ C.decrypt a k c = some x) ∧
      (x.length = C.size k - rsaPaddingSize p + 1 → C.encrypt a k x = none) := by
  have key : ∃ a, rsaEncrypt p = some a ∧ rsaDecrypt p = some a ∧ a.overhead = rsaPaddingSize p := by
    cases p <;> first | exact absurd rfl hp | exact ⟨_, rfl, rfl, rfl⟩
  obtain ⟨a, h1, h2, h3⟩ := key
  refine ⟨a, h1, h2, fun hx => hC.encrypt_fits a k x (by omega), fun hx => hC.encrypt_long a k x (by omega)⟩

/-! ### The suites -/

theorem total_ne (p : Policy) (k : Bytes) (hk : k.length = (keySizes p).total) :
    (Psha.split (keySizes p) k).sign.length = symSignatureKeySize p ∧
    (Psha.split (keySizes p) k).encrypt.length = symEncryptionKeySize p ∧
    (Psha.split (keySizes p) k).iv.length = symEncryptionBlockSize p := by
  simp only [Psha.KeySizes.total] at hk
  simp only [Psha.split, List.length_take, List.length_drop, hk, keySizes]
  omega

/-- The symmetric algorithms of every policy are a lawful suite: the signature has the size that the channel reserves
for it, the keys have sizes that AES takes, and decryption inverts encryption. -/
theorem C118_symmetric (C : Crypto) (hC : C.Lawful) (p : Policy) : (symSuite C p).Lawful where
  block_pos := by show 0 < symEncryptionBlockSize p; cases p <;> decide
  block_le := by show symEncryptionBlockSize p ≤ 65536; cases p <;> decide
  mac_length k d := by
    cases p <;> simp [symSuite, symHmac, symSignatureSize, hC.hmac_length, Hash.size]
  enc_length k x hx := by
    show (if k.length = (keySizes p).total ∧ p ≠ .none then _ else x).length = x.length
    split
    · rename_i h
      obtain ⟨_, h2, h3⟩ := total_ne p k h.1
      refine hC.cbc_length _ _ x ?_ ?_ ?_
      · rw [h2]; cases p <;> simp [symEncryptionKeySize] ; exact h.2 rfl
      · rw [h3]; cases p <;> simp [symEncryptionBlockSize] ; exact h.2 rfl
      · cases p <;> first | exact absurd rfl h.2 | exact hx
    · rfl
  dec_enc k x hx := by
    by_cases h : k.length = (keySizes p).total ∧ p ≠ .none
    · have he : (symSuite C p).enc k x =
          C.cbcEnc (Psha.split (keySizes p) k).encrypt (Psha.split (keySizes p) k).iv x := if_pos h
      have hd : ∀ y, (symSuite C p).dec k y =
          C.cbcDec (Psha.split (keySizes p) k).encrypt (Psha.split (keySizes p) k).iv y := fun y => if_pos h
      rw [hd, he]
      obtain ⟨_, h2, h3⟩ := total_ne p k h.1
      refine hC.cbc_inverse _ _ x ?_ ?_ ?_
      · rw [h2]; cases p <;> simp [symEncryptionKeySize] ; exact h.2 rfl
      · rw [h3]; cases p <;> simp [symEncryptionBlockSize] ; exact h.2 rfl
      · cases p <;> first | exact absurd rfl h.2 | exact hx
    · have he : (symSuite C p).enc k x = x := if_neg h
      have hd : ∀ y, (symSuite C p).dec k y = y := fun y => if_neg h
      rw [hd, he]

/-- RSA with the algorithms of every policy is a lawful suite, for every pair of keys that leave room for the padding
and the signature. -/
theorem C118_asymmetric (C : Crypto) (hC : C.Lawful) (p : Policy) (hp : p ≠ .none) (s r : Nat)
    (hs : 66 ≤ C.size s) (hr : rsaPaddingSize p < C.size r) (hr' : C.size r ≤ 65536) : (asymSuite C p s r).Lawful := by
  have key : ∃ a g, rsaEncrypt p = some a ∧ rsaDecrypt p = some a ∧ a.overhead = rsaPaddingSize p ∧
      rsaSign p = some g ∧ rsaVerify p = some g ∧ g.room ≤ C.size s := by
    cases p <;> first
      | exact absurd rfl hp
      | exact ⟨_, _, rfl, rfl, rfl, rfl, rfl, by simp [SignScheme.room, Hash.size]; omega⟩
  obtain ⟨a, g, h1, h2, h3, h4, h5, h6⟩ := key
  refine ⟨?_, ?_, hr', ?_, ?_, ?_, ?_⟩
  · show 0 < C.size r - rsaPaddingSize p
    omega
  · show C.size r - rsaPaddingSize p ≤ C.size r
    omega
  · intro d
    obtain ⟨w, e1, e2, _⟩ := hC.sign_length g s d h6
    show (((rsaSign p).bind (fun a => C.sign a s d)).getD []).length = C.size s
    rw [h4, Option.bind_some, e1]; exact e2
  · intro d
    obtain ⟨w, e1, _, e3⟩ := hC.sign_length g s d h6
    show (match rsaVerify p with
      | some a => C.verify a s d (((rsaSign p).bind (fun a => C.sign a s d)).getD [])
      | none => false) = true
    rw [h5, h4, Option.bind_some, e1]; exact e3
  · intro x hx
    have hx' : x.length = C.size r - rsaPaddingSize p := hx
    obtain ⟨c, e1, e2, _⟩ := hC.encrypt_fits a r x (by omega)
    show (((rsaEncrypt p).bind (fun a => C.encrypt a r x)).getD []).length = C.size r
    rw [h1, Option.bind_some, e1]; exact e2
  · intro x hx
    have hx' : x.length = C.size r - rsaPaddingSize p := hx
    obtain ⟨c, e1, _, e3⟩ := hC.encrypt_fits a r x (by omega)
    show (rsaDecrypt p).bind (fun a => C.decrypt a r (((rsaEncrypt p).bind (fun a => C.encrypt a r x)).getD [])) = some x
    rw [h1, h2, Option.bind_some, Option.bind_some, e1]; exact e3

/-! ### Whole messages -/

/-- A message between two ends whose derivations of keys agree. -/
theorem delivered (C : Crypto) (hC : C.Lawful) (p : Policy) (from_ to : Policy → Hash) (hft : from_ p = to p)
    (cfg : Channel.Sender) (hu : cfg.Usable (symSuite C p)) (nonceFrom nonceTo : Bytes) (ch : Channel.Chan)
    (hmode : cfg.mode = ch.mode) (hch : cfg.channelID = ch.channelID)
    (htok : cfg.tokenID = ch.pendingTokenID) (hnew : ch.tokenID ≠ ch.pendingTokenID)
    (hl : ch.localNonce = nonceTo) (hr : ch.remoteNonce = nonceFrom)
    (hkey : cfg.key = psha C from_ p nonceTo nonceFrom)
    (lim : Channel.Limits) (tl : Channel.Status) (rid seq : BitVec 32)
    (body : Bytes) (hb : body ≠ []) (hmax : cfg.maxMessage = 0 ∨ body.length ≤ cfg.maxMessage)
    (hcn : cfg.maxChunks = 0 ∨
      body.length ≤ cfg.maxChunks * (Channel.maxBody (symSuite C p) cfg.mode cfg.send).toNat)
    (hlm : lim.maxMessage = 0 ∨ body.length ≤ lim.maxMessage.toNat)
    (hlc : lim.maxChunks = 0 ∨
      ((Channel.sendMessage (symSuite C p) cfg tl rid seq body).1.length : Int) ≤ lim.maxChunks.toInt) (rest : List Bytes) :
    ∃ ch', Channel.recvMessage (symSuite C p) (psha C to p) lim ch
        ((Channel.sendMessage (symSuite C p) cfg tl rid seq body).1 ++ rest) = .ok (ch', ⟨rid, body⟩, rest) := by
  have hsame : ∀ a b, psha C from_ p a b = psha C to p a b := by intro a b; simp only [psha, hft]
  by_cases hm : ch.mode = .none
  · refine ⟨{ ch with tokenID := ch.pendingTokenID }, Channel.C25_round_trip (C118_symmetric C hC p) _ cfg hu ch _
      ⟨hmode, hch, ?_, fun h => absurd hm h⟩ lim tl rid seq body hb hmax hcn hlm hlc rest⟩
    rw [htok]; unfold Channel.switchToken
    rw [if_neg hnew, if_neg (by simp), hm]; rfl
  · have hsec : ch.mode.secured = true := by cases hmm : ch.mode <;> first | exact absurd hmm hm | rfl
    refine ⟨{ ch with tokenID := ch.pendingTokenID
                      recvKey := some (psha C to p ch.localNonce ch.remoteNonce)
                      sendKey := some (psha C to p ch.remoteNonce ch.localNonce) },
      Channel.C25_round_trip (C118_symmetric C hC p) _ cfg hu ch _ ⟨hmode, hch, ?_, fun _ => ?_⟩
        lim tl rid seq body hb hmax hcn hlm hlc rest⟩
    · rw [htok]; unfold Channel.switchToken
      rw [if_neg hnew, if_neg (by simp), if_pos hsec]
    · simp only [hkey, hl, hr, hsame]

/-- A request that a client sends after opening a channel with any of the six policies arrives at the server as it was
sent: with the keys that the client derives from the nonces and the algorithms of the policy. The channel of the server
has issued the token and has not seen it yet. -/
theorem C118_requests (C : Crypto) (hC : C.Lawful) (p : Policy)
    (cfg : Channel.Sender) (hu : cfg.Usable (symSuite C p)) (clientNonce serverNonce : Bytes) (ch : Channel.Chan)
    (hmode : cfg.mode = ch.mode) (hch : cfg.channelID = ch.channelID)
    (htok : cfg.tokenID = ch.pendingTokenID) (hnew : ch.tokenID ≠ ch.pendingTokenID)
    (hl : ch.localNonce = serverNonce) (hr : ch.remoteNonce = clientNonce)
    (hkey : cfg.key = psha C clientPshaHash p serverNonce clientNonce)
    (lim : Channel.Limits) (tl : Channel.Status) (rid seq : BitVec 32)
    (body : Bytes) (hb : body ≠ []) (hmax : cfg.maxMessage = 0 ∨ body.length ≤ cfg.maxMessage)
    (hcn : cfg.maxChunks = 0 ∨
      body.length ≤ cfg.maxChunks * (Channel.maxBody (symSuite C p) cfg.mode cfg.send).toNat)
    (hlm : lim.maxMessage = 0 ∨ body.length ≤ lim.maxMessage.toNat)
    (hlc : lim.maxChunks = 0 ∨
      ((Channel.sendMessage (symSuite C p) cfg tl rid seq body).1.length : Int) ≤ lim.maxChunks.toInt) (rest : List Bytes) :
    ∃ ch', Channel.recvMessage (symSuite C p) (psha C serverPshaHash p) lim ch
        ((Channel.sendMessage (symSuite C p) cfg tl rid seq body).1 ++ rest) = .ok (ch', ⟨rid, body⟩, rest) :=
  delivered C hC p _ _ (by cases p <;> rfl) cfg hu clientNonce serverNonce ch hmode hch htok hnew hl hr hkey lim tl rid seq body
    hb hmax hcn hlm hlc rest

/-- And a response of the server arrives at the client. -/
theorem C118_responses (C : Crypto) (hC : C.Lawful) (p : Policy)
    (cfg : Channel.Sender) (hu : cfg.Usable (symSuite C p)) (clientNonce serverNonce : Bytes) (ch : Channel.Chan)
    (hmode : cfg.mode = ch.mode) (hch : cfg.channelID = ch.channelID)
    (htok : cfg.tokenID = ch.pendingTokenID) (hnew : ch.tokenID ≠ ch.pendingTokenID)
    (hl : ch.localNonce = clientNonce) (hr : ch.remoteNonce = serverNonce)
    (hkey : cfg.key = psha C serverPshaHash p clientNonce serverNonce)
    (lim : Channel.Limits) (tl : Channel.Status) (rid seq : BitVec 32)
    (body : Bytes) (hb : body ≠ []) (hmax : cfg.maxMessage = 0 ∨ body.length ≤ cfg.maxMessage)
    (hcn : cfg.maxChunks = 0 ∨
      body.length ≤ cfg.maxChunks * (Channel.maxBody (symSuite C p) cfg.mode cfg.send).toNat)
    (hlm : lim.maxMessage = 0 ∨ body.length ≤ lim.maxMessage.toNat)
    (hlc : lim.maxChunks = 0 ∨
      ((Channel.sendMessage (symSuite C p) cfg tl rid seq body).1.length : Int) ≤ lim.maxChunks.toInt) (rest : List Bytes) :
    ∃ ch', Channel.recvMessage (symSuite C p) (psha C clientPshaHash p) lim ch
        ((Channel.sendMessage (symSuite C p) cfg tl rid seq body).1 ++ rest) = .ok (ch', ⟨rid, body⟩, rest) :=
  delivered C hC p _ _ (by cases p <;> rfl) cfg hu serverNonce clientNonce ch hmode hch htok hnew hl hr hkey lim tl rid seq body
    hb hmax hcn hlm hlc rest

/-- The key block has the length that the suite expects, so that the AES keys have the sizes of the profile. -/
theorem C118_key_block (C : Crypto) (hC : C.Lawful) (p : Policy) (f : Profile) (h : profile p = some f) (secret seed : Bytes) :
    (psha C serverPshaHash p secret seed).length = (keySizes p).total ∧
    8 * (Psha.split (keySizes p) (psha C serverPshaHash p secret seed)).sign.length = f.signatureKey ∧
    8 * (Psha.split (keySizes p) (psha C serverPshaHash p secret seed)).encrypt.length = f.aes ∧
    (Psha.split (keySizes p) (psha C serverPshaHash p secret seed)).iv.length = 16 := by
  have hlen : (psha C serverPshaHash p secret seed).length = (keySizes p).total :=
    Psha.C28_length _ _ (by cases p <;> decide) (fun x => hC.hmac_length _ _ x) seed _
  obtain ⟨h1, h2, h3⟩ := total_ne p _ hlen
  have hp := C118_profile p f h
  refine ⟨hlen, ?_, ?_, ?_⟩
  · rw [h1]; exact hp.2.2.2.2.2.2.1
  · rw [h2]; exact hp.2.2.2.2.2.2.2.1
  · rw [h3]; exact hp.2.2.2.2.2.2.2.2.1

/-- The primitives seen from a server with the key `own`. -/
structure Sees (C : Crypto) (W : Channel.World) (p : Policy) (own k : Nat) (cert : Bytes) : Prop where
  cert : W.parseCert cert = .rsa k
  localSize : W.localSize = C.size own
  keySize : W.keySize k = C.size k
  decrypt : W.decB p = fun c => (rsaDecrypt p).bind (fun a => C.decrypt a own c)
  verify : W.verify p k = fun d g => match rsaVerify p with | some a => C.verify a k d g | none => false

/-- The message that opens a channel arrives as it was sent, with the algorithms of any of the five policies. -/
theorem C118_opening (C : Crypto) (hC : C.Lawful) (W : Channel.World) (p : Policy) (hp : p ≠ .none) (own k : Nat)
    (cert thumb : Bytes) (hW : Sees C W p own k cert) (hk : 66 ≤ C.size k) (ho : rsaPaddingSize p < C.size own)
    (ho' : C.size own ≤ 65536) (ch : Channel.SChan) (send : Nat) (hsend : send < 2 ^ 32)
    (cid seq rid : BitVec 32) (body frame : Bytes) (hb : body ≠ []) (hct : cert.length < 2 ^ 31) (hth : thumb.length = 20)
    (hseal : Channel.sealOpn (asymSuite C p k own) send cid seq rid p.uri cert thumb body = some frame) :
    Channel.recvFrame W ch frame =
      .ok ({ ch with policy := p, remoteCert := some cert, remoteKey := some k }, ⟨true, rid, body⟩) :=
  (Channel.C24_open_message (C118_asymmetric C hC p hp k own hk ho ho') W p hp k cert thumb
    ⟨hW.cert, hW.decrypt, hW.localSize, hW.keySize, hW.verify⟩ ch send hsend cid seq rid body frame hb hct hth hseal).2.2

/-! ### What goes wrong -/

/-- The lengths of keys are not compared with the profile: a channel is opened for a client whose key has 544 bits where
at least 2048 are asked for. -/
theorem C118_key_length_fails (C : Crypto) (hC : C.Lawful) (W : Channel.World) (own k : Nat)
    (cert thumb : Bytes) (hW : Sees C W .aes256Sha256RsaPss own k cert) (hk : C.size k = 68) (ho : C.size own = 256)
    (ch : Channel.SChan) (cid seq rid : BitVec 32) (body frame : Bytes) (hb : body ≠ [])
    (hct : cert.length < 2 ^ 31) (hth : thumb.length = 20)
    (hseal : Channel.sealOpn (asymSuite C .aes256Sha256RsaPss k own) 65536 cid seq rid
      (Policy.uri .aes256Sha256RsaPss) cert thumb body = some frame) :
    (∃ f, profile .aes256Sha256RsaPss = some f ∧ 8 * C.size k < f.minKey) ∧
    Channel.recvFrame W ch frame =
      .ok ({ ch with policy := .aes256Sha256RsaPss, remoteCert := some cert, remoteKey := some k }, ⟨true, rid, body⟩) :=
  ⟨⟨_, rfl, by rw [hk]; decide⟩,
    C118_opening C hC W _ (by decide) own k cert thumb hW (by omega) (by rw [ho]; decide) (by omega) ch 65536 (by decide)
      cid seq rid body frame hb hct hth hseal⟩

/-- The length of the client's nonce is not looked at: with an empty one the keys of the server are derived with an
empty secret, so that they depend on nothing but the nonce of the server. -/
theorem C118_nonce_fails (C : Crypto) (p : Policy) (f : Profile) (h : profile p = some f) (own : Bytes) :
    (serverOpen true own []).remote.length < f.nonce ∧
    Psha.serverLocalKeys (fun s => C.hmac (serverPshaHash p) s) (serverPshaHash p).size (keySizes p)
        (serverOpen true own []) =
      Psha.split (keySizes p) (psha C serverPshaHash p [] own) := by
  refine ⟨?_, rfl⟩
  cases p <;> first | (cases h; done) | (cases h; simp [serverOpen])

/-- An issued token is encrypted by the client and never decrypted by the server: it takes the cipher text for the
token. -/
theorem C118_issued_fails (p : Policy) (f : Profile) (h : profile p = some f) :
    clientToken (some p) = some ⟨f.encryption, f.encryption.overhead, f.encryptionUri⟩ ∧ serverToken (some p) = none := by
  cases p <;> first | (cases h; done) | (cases h; decide)

/-! ### Witnesses -/

/-- Primitives that are lawful, though of no use: signatures and MACs are zeros, encryption puts the padding before. -/
def toy : Crypto where
  hmac h _ _ := List.replicate h.size 0
  cbcEnc _ _ x := x
  cbcDec _ _ x := x
  size k := k
  sign s k _ := if s.room ≤ k then some (List.replicate k 1) else none
  verify _ k _ g := g = List.replicate k 1
  encrypt s k x := if x.length + s.overhead ≤ k then
      some (List.replicate (k - x.length - 1) 0 ++ (1 :: x)) else none
  decrypt _ _ c := some ((c.dropWhile (· == 0)).drop 1)

theorem dropWhile_zeros (n : Nat) (x : Bytes) :
    ((List.replicate n 0 ++ (1 :: x) : Bytes).dropWhile (· == 0)).drop 1 = x := by
  induction n with
  | zero => rfl
  | succ n ih => rw [List.replicate_succ]; simp

theorem toy_lawful : toy.Lawful where
  hmac_length h _ _ := List.length_replicate
  cbc_length _ _ _ _ _ _ := rfl
  cbc_inverse _ _ _ _ _ _ := rfl
  sign_length s k d h := ⟨List.replicate k 1, if_pos h, List.length_replicate, by simp [toy]⟩
  encrypt_fits s k x h := by
    have h' : x.length + s.overhead ≤ k := h
    have ho : 1 ≤ s.overhead := by cases s <;> simp [EncScheme.overhead]
    refine ⟨_, if_pos h, ?_, ?_⟩
    · simp only [List.length_append, List.length_replicate, List.length_cons]
      show _ = k
      omega
    · exact congrArg some (dropWhile_zeros _ x)
  encrypt_long s k x h := by
    have h' : k < x.length + s.overhead := h
    exact if_neg (by omega)

example : ∃ C : Crypto, C.Lawful ∧ (symSuite C .basic256Sha256).sigSize = 32 := ⟨toy, toy_lawful, rfl⟩

example : ∃ f, profile .basic256 = some f ∧ f.signatureKey = 192 := ⟨_, rfl, rfl⟩

example : rsaPaddingSize .aes256Sha256RsaPss < toy.size 256 ∧ 66 ≤ toy.size 128 := by decide

example : Channel.Sender.Usable (symSuite toy .basic256Sha256)
    ⟨.signAndEncrypt, 8192, 1, 2, psha toy clientPshaHash .basic256Sha256 [1] [2], 0, 0⟩ :=
  ⟨by decide, fun h => (by cases h), by decide⟩

end Opcua.Suites
