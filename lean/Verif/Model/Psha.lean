import Verif.Model.Channel

/-! calculatePSHA (server/server_secure_channel.go:1555-1586, client/client_secure_channel.go:1790-1819),
the split of the key block, and the roles of the nonces. -/
namespace Opcua.Psha

/-- `copy(output[m:m+n], buf)` with `m + n ≤ len(output)`. -/
def copyAt (output : Bytes) (m n : Nat) (buf : Bytes) : Bytes :=
  output.take m ++ ((buf.take n) ++ output.drop (m + (buf.take n).length))

/-- The loop, from iteration `i` on, `k` iterations to go; `hmac` is keyed with the secret and
`size` is `mac.Size()`. server_secure_channel.go:1568-1583 -/
def loop (hmac : Bytes → Bytes) (size : Nat) (seed : Bytes) (sizeBytes : Nat) : Nat → Nat → Bytes → Bytes → Bytes
  | 0, _, _, output => output
  | k + 1, i, a, output =>
    let a := hmac a
    let buf2 := hmac (a ++ seed)
    let m := size * i
    let n := sizeBytes - m
    let n := if n > size then size else n
    loop hmac size seed sizeBytes k (i + 1) a (copyAt output m n buf2)

/-- calculatePSHA. -/
def psha (hmac : Bytes → Bytes) (size : Nat) (seed : Bytes) (sizeBytes : Nat) : Bytes :=
  loop hmac size seed sizeBytes ((sizeBytes + size - 1) / size) 0 seed (List.replicate sizeBytes 0)

/-- Sizes of the three parts of a key block (ua/security_policy.go). -/
structure KeySizes where
  sign : Nat
  encrypt : Nat
  iv : Nat

def KeySizes.total (z : KeySizes) : Nat := z.sign + z.encrypt + z.iv

structure Keys where
  sign : Bytes
  encrypt : Bytes
  iv : Bytes
deriving Repr, DecidableEq

/-- Splitting the block with `copy`, server_secure_channel.go:1107-1109, 1131-1133,
client_secure_channel.go:1281-1283, 1443-1445. -/
def split (z : KeySizes) (block : Bytes) : Keys :=
  ⟨block.take z.sign, (block.drop z.sign).take z.encrypt, (block.drop (z.sign + z.encrypt)).take z.iv⟩

/-- What each side knows: its own nonce and the peer's. -/
structure Nonces where
  localN : Bytes
  remote : Bytes

/-- Server, verifying and decrypting: calculatePSHA(ch.localNonce, ch.remoteNonce, …),
server_secure_channel.go:1106. `prf secret` is the HMAC keyed with the secret. -/
def serverRemoteKeys (prf : Bytes → Bytes → Bytes) (size : Nat) (z : KeySizes) (n : Nonces) : Keys :=
  split z (psha (prf n.localN) size n.remote z.total)

/-- Server, signing and encrypting: calculatePSHA(ch.remoteNonce, ch.localNonce, …),
server_secure_channel.go:1130. -/
def serverLocalKeys (prf : Bytes → Bytes → Bytes) (size : Nat) (z : KeySizes) (n : Nonces) : Keys :=
  split z (psha (prf n.remote) size n.localN z.total)

/-- Client, signing and encrypting: calculatePSHA(ch.remoteNonce, ch.localNonce, …),
client_secure_channel.go:841, 1280. -/
def clientLocalKeys (prf : Bytes → Bytes → Bytes) (size : Nat) (z : KeySizes) (n : Nonces) : Keys :=
  split z (psha (prf n.remote) size n.localN z.total)

/-- Client, verifying and decrypting: calculatePSHA(ch.localNonce, ch.remoteNonce, …),
client_secure_channel.go:1442. -/
def clientRemoteKeys (prf : Bytes → Bytes → Bytes) (size : Nat) (z : KeySizes) (n : Nonces) : Keys :=
  split z (psha (prf n.localN) size n.remote z.total)

/-- Nonces on the server after an exchange: server_secure_channel.go:282-287, 1474-1479. -/
def serverNonces (clientNonce serverNonce : Bytes) : Nonces := ⟨serverNonce, clientNonce⟩

/-- Nonces on the client after an exchange: client_secure_channel.go:466-467, 1783-1784. -/
def clientNonces (clientNonce serverNonce : Bytes) : Nonces := ⟨clientNonce, serverNonce⟩

end Opcua.Psha
