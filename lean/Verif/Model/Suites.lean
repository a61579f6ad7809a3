import Verif.Model.OpenChannel
import Verif.Model.Psha

/-!
# Security policies

ua/security_policy.go, ua/rsa_uris.go; every switch over the policy in client/client.go (265-345, 355-680),
client/client_secure_channel.go (393-420, 1790-1800), server/server_secure_channel.go (281-287, 1555-1565) and
server/server_service_set.go (161-207, 312-335, 465-487, 563-745).

Each switch is modelled on its own, so that their agreement is a matter of proof. The primitives are parameters with a
contract (`Crypto.Lawful`, taken from RFC 2104, RFC 8017 and NIST SP 800-38A); what is modelled is which primitive is
called, with which sizes. Randomness is a part of the primitive. `none` stands for a URI that is none of the six.
-/

namespace Opcua.Suites

open Opcua.Channel (Policy Suite ASuite)
open Opcua.Psha (KeySizes Keys Nonces)

inductive Hash where
  | sha1 | sha256
  deriving DecidableEq, Repr

/-- `hash.Size()` of crypto/sha1 and crypto/sha256. -/
def Hash.size : Hash → Nat
  | .sha1 => 20
  | .sha256 => 32

/-- rsa.SignPKCS1v15 and rsa.SignPSS with a salt as long as the hash. -/
inductive SignScheme where
  | pkcs1 (h : Hash)
  | pss (h : Hash)
  deriving DecidableEq, Repr

/-- rsa.EncryptPKCS1v15 and rsa.EncryptOAEP with an empty label. -/
inductive EncScheme where
  | pkcs1
  | oaep (h : Hash)
  deriving DecidableEq, Repr

/-- ua/rsa_uris.go. -/
inductive Algorithm where
  | rsaSha1 | rsaSha256 | rsaPssSha256 | rsaV15 | rsaOaep | rsaOaepSha256
  deriving DecidableEq, Repr

/-! ### ua/security_policy.go -/

/-- RSASign, ua/security_policy.go:50, 100, 152, 204, 258, 312. -/
def rsaSign : Policy → Option SignScheme
  | .none => none
  | .basic128Rsa15 => some (.pkcs1 .sha1)
  | .basic256 => some (.pkcs1 .sha1)
  | .basic256Sha256 => some (.pkcs1 .sha256)
  | .aes128Sha256RsaOaep => some (.pkcs1 .sha256)
  | .aes256Sha256RsaPss => some (.pss .sha256)

/-- RSAVerify, ua/security_policy.go:55, 106, 158, 210, 264, 318. -/
def rsaVerify : Policy → Option SignScheme
  | .none => none
  | .basic128Rsa15 => some (.pkcs1 .sha1)
  | .basic256 => some (.pkcs1 .sha1)
  | .basic256Sha256 => some (.pkcs1 .sha256)
  | .aes128Sha256RsaOaep => some (.pkcs1 .sha256)
  | .aes256Sha256RsaPss => some (.pss .sha256)

/-- RSAEncrypt, ua/security_policy.go:60, 112, 164, 216, 270, 324. -/
def rsaEncrypt : Policy → Option EncScheme
  | .none => none
  | .basic128Rsa15 => some .pkcs1
  | .basic256 => some (.oaep .sha1)
  | .basic256Sha256 => some (.oaep .sha1)
  | .aes128Sha256RsaOaep => some (.oaep .sha1)
  | .aes256Sha256RsaPss => some (.oaep .sha256)

/-- RSADecrypt, ua/security_policy.go:65, 117, 169, 221, 275, 329. -/
def rsaDecrypt : Policy → Option EncScheme
  | .none => none
  | .basic128Rsa15 => some .pkcs1
  | .basic256 => some (.oaep .sha1)
  | .basic256Sha256 => some (.oaep .sha1)
  | .aes128Sha256RsaOaep => some (.oaep .sha1)
  | .aes256Sha256RsaPss => some (.oaep .sha256)

/-- SymHMACFactory, ua/security_policy.go:70, 122, 174, 226, 280, 334; nil for None. -/
def symHmac : Policy → Option Hash
  | .none => none
  | .basic128Rsa15 => some .sha1
  | .basic256 => some .sha1
  | .basic256Sha256 => some .sha256
  | .aes128Sha256RsaOaep => some .sha256
  | .aes256Sha256RsaPss => some .sha256

/-- RSAPaddingSize, ua/security_policy.go:75, 127, 179, 231, 285, 339. -/
def rsaPaddingSize : Policy → Nat
  | .none => 0
  | .basic128Rsa15 => 11
  | .basic256 => 42
  | .basic256Sha256 => 42
  | .aes128Sha256RsaOaep => 42
  | .aes256Sha256RsaPss => 66

/-- SymSignatureSize, ua/security_policy.go:78, 130, 182, 234, 288, 342. -/
def symSignatureSize : Policy → Nat
  | .none => 0
  | .basic128Rsa15 => 20
  | .basic256 => 20
  | .basic256Sha256 => 32
  | .aes128Sha256RsaOaep => 32
  | .aes256Sha256RsaPss => 32

/-- SymSignatureKeySize, ua/security_policy.go:81, 133, 185, 237, 291, 345. -/
def symSignatureKeySize : Policy → Nat
  | .none => 0
  | .basic128Rsa15 => 16
  | .basic256 => 24
  | .basic256Sha256 => 32
  | .aes128Sha256RsaOaep => 32
  | .aes256Sha256RsaPss => 32

/-- SymEncryptionBlockSize, ua/security_policy.go:84, 136, 188, 240, 294, 348. -/
def symEncryptionBlockSize : Policy → Nat
  | .none => 1
  | .basic128Rsa15 => 16
  | .basic256 => 16
  | .basic256Sha256 => 16
  | .aes128Sha256RsaOaep => 16
  | .aes256Sha256RsaPss => 16

/-- SymEncryptionKeySize, ua/security_policy.go:87, 139, 191, 243, 297, 351. -/
def symEncryptionKeySize : Policy → Nat
  | .none => 0
  | .basic128Rsa15 => 16
  | .basic256 => 32
  | .basic256Sha256 => 32
  | .aes128Sha256RsaOaep => 16
  | .aes256Sha256RsaPss => 32

/-- NonceSize, ua/security_policy.go:90, 142, 194, 246, 300, 354. -/
def nonceSize : Policy → Nat
  | .none => 0
  | .basic128Rsa15 => 16
  | .basic256 => 32
  | .basic256Sha256 => 32
  | .aes128Sha256RsaOaep => 32
  | .aes256Sha256RsaPss => 32

/-! ### The switches of client and server -/

/-- The hash of calculatePSHA, server_secure_channel.go:1557-1563. -/
def serverPshaHash : Policy → Hash
  | .basic128Rsa15 | .basic256 => .sha1
  | _ => .sha256

/-- The hash of calculatePSHA, client_secure_channel.go:1792-1798. -/
def clientPshaHash : Policy → Hash
  | .basic128Rsa15 | .basic256 => .sha1
  | _ => .sha256

/-- A signature in SignatureData: what made it and what it says made it. -/
abbrev Signing := Option (SignScheme × Algorithm)

/-- The signature of the server in CreateSession, server_service_set.go:163-207. -/
def serverSign : Option Policy → Signing
  | some .basic128Rsa15 | some .basic256 => some (.pkcs1 .sha1, .rsaSha1)
  | some .basic256Sha256 | some .aes128Sha256RsaOaep => some (.pkcs1 .sha256, .rsaSha256)
  | some .aes256Sha256RsaPss => some (.pss .sha256, .rsaPssSha256)
  | _ => none

/-- How the client verifies it, client.go:269-299; `none`: not at all. The name of the algorithm is not looked at. -/
def clientVerify : Option Policy → Option SignScheme
  | some .basic128Rsa15 | some .basic256 => some (.pkcs1 .sha1)
  | some .basic256Sha256 | some .aes128Sha256RsaOaep => some (.pkcs1 .sha256)
  | some .aes256Sha256RsaPss => some (.pss .sha256)
  | _ => none

/-- The signature of the client in ActivateSession, client.go:303-345. -/
def clientSign : Option Policy → Signing
  | some .basic128Rsa15 | some .basic256 => some (.pkcs1 .sha1, .rsaSha1)
  | some .basic256Sha256 | some .aes128Sha256RsaOaep => some (.pkcs1 .sha256, .rsaSha256)
  | some .aes256Sha256RsaPss => some (.pss .sha256, .rsaPssSha256)
  | _ => none

/-- How the server verifies it, server_service_set.go:314-335. The name of the algorithm is not looked at. -/
def serverVerify : Option Policy → Option SignScheme
  | some .basic128Rsa15 | some .basic256 => some (.pkcs1 .sha1)
  | some .basic256Sha256 | some .aes128Sha256RsaOaep => some (.pkcs1 .sha256)
  | some .aes256Sha256RsaPss => some (.pss .sha256)
  | _ => none

/-- The signature of a user with a certificate, client.go:492-552. -/
def clientUserSign : Option Policy → Signing
  | some .basic128Rsa15 | some .basic256 => some (.pkcs1 .sha1, .rsaSha1)
  | some .basic256Sha256 | some .aes128Sha256RsaOaep => some (.pkcs1 .sha256, .rsaSha256)
  | some .aes256Sha256RsaPss => some (.pss .sha256, .rsaPssSha256)
  | _ => none

/-- How the server verifies it, server_service_set.go:466-487. -/
def serverUserVerify : Option Policy → Option SignScheme
  | some .basic128Rsa15 | some .basic256 => some (.pkcs1 .sha1)
  | some .basic256Sha256 | some .aes128Sha256RsaOaep => some (.pkcs1 .sha256)
  | some .aes256Sha256RsaPss => some (.pss .sha256)
  | _ => none

/-- How a secret is encrypted: the scheme, the bytes a block is shorter than the key, the name of the algorithm. -/
structure Wrapping where
  scheme : EncScheme
  shorter : Nat
  algorithm : Algorithm
  deriving DecidableEq, Repr

/-- The password of a user, client.go:573-672; `none`: as it is. -/
def clientPassword : Option Policy → Option Wrapping
  | some .basic128Rsa15 => some ⟨.pkcs1, 11, .rsaV15⟩
  | some .basic256 | some .basic256Sha256 | some .aes128Sha256RsaOaep => some ⟨.oaep .sha1, 42, .rsaOaep⟩
  | some .aes256Sha256RsaPss => some ⟨.oaep .sha256, 66, .rsaOaepSha256⟩
  | _ => none

/-- An issued token, client.go:372-474. -/
def clientToken : Option Policy → Option Wrapping
  | some .basic128Rsa15 => some ⟨.pkcs1, 11, .rsaV15⟩
  | some .basic256 | some .basic256Sha256 | some .aes128Sha256RsaOaep => some ⟨.oaep .sha1, 42, .rsaOaep⟩
  | some .aes256Sha256RsaPss => some ⟨.oaep .sha256, 66, .rsaOaepSha256⟩
  | _ => none

/-- What the server asks of a password and decrypts it with, server_service_set.go:564-745. -/
def serverPassword : Option Policy → Option (EncScheme × Algorithm)
  | some .basic128Rsa15 => some (.pkcs1, .rsaV15)
  | some .basic256 | some .basic256Sha256 | some .aes128Sha256RsaOaep => some (.oaep .sha1, .rsaOaep)
  | some .aes256Sha256RsaPss => some (.oaep .sha256, .rsaOaepSha256)
  | _ => none

/-- What the server asks of an issued token: nothing, it takes the data as they are, server_service_set.go:359-390. -/
def serverToken : Option Policy → Option (EncScheme × Algorithm)
  | _ => none

/-- The nonces of the server after OpenSecureChannel, server_secure_channel.go:281-287 and 1474-1479: the length of the
client's is not looked at. `own` is what getNextNonce gives. -/
def serverOpen (secured : Bool) (own clientNonce : Bytes) : Nonces :=
  ⟨if secured then own else [], clientNonce⟩

/-! ### The primitives and the suites they make -/

/-- The primitives. RSA keys are numbers; `size` is `PublicKey.Size()`. -/
structure Crypto where
  hmac : Hash → Bytes → Bytes → Bytes
  cbcEnc : Bytes → Bytes → Bytes → Bytes
  cbcDec : Bytes → Bytes → Bytes → Bytes
  size : Nat → Nat
  sign : SignScheme → Nat → Bytes → Option Bytes
  verify : SignScheme → Nat → Bytes → Bytes → Bool
  encrypt : EncScheme → Nat → Bytes → Option Bytes
  decrypt : EncScheme → Nat → Bytes → Option Bytes

/-- The bytes a plain text must be shorter than the key (RFC 8017, 7.1.1 and 7.2.1). -/
def EncScheme.overhead : EncScheme → Nat
  | .pkcs1 => 11
  | .oaep h => 2 * h.size + 2

/-- The bytes a key must at least have to sign (RFC 8017, 9.1.1 and 9.2; the prefix of a SHA-1 DigestInfo has 15 bytes,
that of SHA-256 has 19). -/
def SignScheme.room : SignScheme → Nat
  | .pkcs1 .sha1 => 15 + 20 + 11
  | .pkcs1 .sha256 => 19 + 32 + 11
  | .pss h => 2 * h.size + 2

/-- What is assumed of the primitives. -/
structure Crypto.Lawful (C : Crypto) : Prop where
  hmac_length : ∀ h k d, (C.hmac h k d).length = h.size
  cbc_length : ∀ k iv x : Bytes, k.length = 16 ∨ k.length = 24 ∨ k.length = 32 → iv.length = 16 → x.length % 16 = 0 →
    (C.cbcEnc k iv x).length = x.length
  cbc_inverse : ∀ k iv x : Bytes, k.length = 16 ∨ k.length = 24 ∨ k.length = 32 → iv.length = 16 → x.length % 16 = 0 →
    C.cbcDec k iv (C.cbcEnc k iv x) = x
  sign_length : ∀ s k d, s.room ≤ C.size k → ∃ g, C.sign s k d = some g ∧ g.length = C.size k ∧ C.verify s k d g = true
  encrypt_fits : ∀ s k (x : Bytes), x.length + s.overhead ≤ C.size k →
    ∃ c, C.encrypt s k x = some c ∧ c.length = C.size k ∧ C.decrypt s k c = some x
  encrypt_long : ∀ s k (x : Bytes), C.size k < x.length + s.overhead → C.encrypt s k x = none

/-- The sizes of the three keys, client_secure_channel.go:417-422, server_secure_channel.go:1102-1104, 1126-1128. -/
def keySizes (p : Policy) : KeySizes := ⟨symSignatureKeySize p, symEncryptionKeySize p, symEncryptionBlockSize p⟩

/-- The symmetric algorithms of a channel of a policy, in the form of Model/Channel.lean: the key block is that of
calculatePSHA and is split as there. A block of another length does not occur (`C28_length`). -/
def symSuite (C : Crypto) (p : Policy) : Suite where
  sigSize := symSignatureSize p
  block := symEncryptionBlockSize p
  mac k d := match symHmac p with
    | some h => C.hmac h (Psha.split (keySizes p) k).sign d
    | none => []
  enc k x :=
    if k.length = (keySizes p).total ∧ p ≠ .none then
      C.cbcEnc (Psha.split (keySizes p) k).encrypt (Psha.split (keySizes p) k).iv x
    else x
  dec k x :=
    if k.length = (keySizes p).total ∧ p ≠ .none then
      C.cbcDec (Psha.split (keySizes p) k).encrypt (Psha.split (keySizes p) k).iv x
    else x

/-- RSA from the owner of key `s` to the owner of key `r`, in the form of Model/OpenChannel.lean. -/
def asymSuite (C : Crypto) (p : Policy) (s r : Nat) : ASuite where
  sigSize := C.size s
  cipherBlock := C.size r
  plainBlock := C.size r - rsaPaddingSize p
  sign d := ((rsaSign p).bind (fun a => C.sign a s d)).getD []
  verify d g := match rsaVerify p with
    | some a => C.verify a s d g
    | none => false
  encB x := ((rsaEncrypt p).bind (fun a => C.encrypt a r x)).getD []
  decB c := (rsaDecrypt p).bind (fun a => C.decrypt a r c)

/-- calculatePSHA with the hash of the server or the client. -/
def psha (C : Crypto) (hash : Policy → Hash) (p : Policy) (secret seed : Bytes) : Bytes :=
  Psha.psha (C.hmac (hash p) secret) (hash p).size seed (keySizes p).total

end Opcua.Suites
