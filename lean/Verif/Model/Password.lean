import Verif.Model.OpenChannel

/-!
# User name tokens

client/client.go:555-680 builds the secret of a `UserNameIdentityToken`, and
server/server_service_set.go:558-747 takes it apart again. RSA is the abstract `ASuite` of
Model/OpenChannel.lean; of its fields only `plainBlock` (`publickey.Size()` minus the padding of the
policy), `cipherBlock` (`publickey.Size()`), `encB` and `decB` are used here.

Simplifications: the three policies with RSA differ only in the padding scheme and in the name of the
algorithm, so they are one definition with the name as a parameter; the pool buffers behind
`plainBuf` and `cipherBuf` are byte lists; the diagnostic counters are left out.
-/

namespace Opcua.Password

open Opcua Opcua.Channel

/-- The loop `for buf.Len() > 0 { buf.Read(block) ... }` with one block that is reused:
client/client.go:585-593, server_service_set.go:591-600. A last read that is shorter than the block
leaves the end of the previous block in place. -/
def blocks (size : Nat) (stale p : Bytes) : List Bytes :=
  if _h : p = [] ∨ size = 0 then []
  else
    let b := p.take size ++ stale.drop p.length
    b :: blocks size b (p.drop size)
termination_by p.length
decreasing_by
  rw [List.length_drop]
  have : 0 < p.length := List.length_pos_iff.2 (fun e => _h (Or.inl e))
  omega

/-- The secret in the clear, client/client.go:581-583. -/
def secret (pw nonce : Bytes) : Bytes :=
  leBytes 4 (pw.length + nonce.length) ++ (pw ++ nonce)

/-- The bytes of the token, client/client.go:584-596. -/
def clientToken (A : ASuite) (pw nonce : Bytes) : Bytes :=
  (blocks A.plainBlock (List.replicate A.plainBlock 0) (secret pw nonce)).flatMap A.encB

/-- Decryption of each block; the first failure ends it, server_service_set.go:591-600. -/
def decAll (decB : Bytes → Option Bytes) : List Bytes → Option Bytes
  | [] => some []
  | c :: cs =>
    match decB c with
    | none => none
    | some p =>
      match decAll decB cs with
      | none => none
      | some ps => some (p ++ ps)

/-- What handling a user name token comes to. -/
inductive Result where
  /-- The identity handed to the authenticator has this password. -/
  | password (pw : Bytes)
  /-- `BadIdentityTokenInvalid`. -/
  | invalid
  /-- `BadIdentityTokenRejected`. -/
  | rejected
  /-- `handleActivateSession` returns the error, and the request worker ends the connection. -/
  | connectionEnds
  deriving DecidableEq, Repr

/-- `plainBuf.Read(make([]byte, n))`: what is missing stays zero. -/
def readFilled (n : Nat) (p : Bytes) : Bytes :=
  p.take n ++ List.replicate (n - p.length) 0

/-- Taking the decrypted secret apart, server_service_set.go:601-623. `binary.Read` leaves the length
zero if there are fewer than four bytes. -/
def parseSecret (plain : Bytes) : Result :=
  let n := if plain.length < 4 then 0 else leVal (plain.take 4)
  if n < 32 ∨ 96 < n then .rejected
  else .password (readFilled (n - 32) (plain.drop 4))

/-- A token under one of the RSA policies, server_service_set.go:566-627. `expected` is the algorithm
of the policy and `dSize` is `len(srv.localPrivateKey.D.Bytes())`, the size of the block in which the
cipher text is read. `_issued` is `session.SessionNonce()`, the nonce the server gave out last; it is
at hand, but the code does not look at it. -/
def serverToken (A : ASuite) (dSize : Nat) (_issued expected algorithm token : Bytes) : Result :=
  if algorithm ≠ expected then .invalid
  else
    match decAll A.decB (blocks dSize (List.replicate dSize 0) token) with
    | none => .connectionEnds
    | some plain => parseSecret plain

/-- A token under any other policy: the bytes are the password, server_service_set.go:745-746. -/
def serverTokenPlain (token : Bytes) : Result := .password token

end Opcua.Password
