import Verif.Model.Endpoint

/-!
# Connecting and closing, as the client sees it

client/client.go:28-152 (`Dial`), 234-745 (`open`), 748-764 (`Close`, `Abort`);
client/client_secure_channel.go:189-193 (the key of the server), 237-267 (`Request`), 270-470 (`Open`), 473-497 (`Close`,
`Abort`), 549-600 (sizes of the OPN request); client/client_service_set.go.

Simplifications: the server is whatever answers on two connections, the first for discovery and the second for the
session; it may answer each request with any response, or not at all, or close. Endpoints are those of
Model/Endpoint.lean. The protocol version of the client is 0, so the tests for an older server (lines 354, 460) never
apply and are left out. Whether a chain of certificates is valid is `validate`; it is the subject of C96. Messages are
whole; their bytes are the subject of C23 to C35 and C76.
-/

namespace Opcua.Dial

open Opcua Opcua.Endpoint

/-- The key of a certificate: an RSA key of so many bytes, or a key of another kind. -/
inductive Key where
  | rsa (size : Nat)
  | other
  deriving DecidableEq, Repr

/-- The libraries the client uses. -/
structure Lib where
  /-- `x509.ParseCertificates`. -/
  parse : Bytes → Option (List Key)
  /-- `ua.ValidateCertificate`. -/
  validate : Bytes → Bool
  /-- `rsa.VerifyPKCS1v15` or `VerifyPSS` with the key of a certificate: data, signature. -/
  verify : Bytes → Scheme → Bytes → Bytes → Bool
  /-- `sort.Slice` at client.go:69. -/
  sort : List Desc → List Desc

/-- The value of a variable: an array of strings, or anything else (also nil). -/
inductive Value where
  | strings (ss : List String)
  | other (n : Nat)
  deriving DecidableEq, Repr

/-- The body of a response, by its Go type. -/
inductive Body where
  | openChannel
  | endpoints (es : List Desc)
  | session (certificate nonce signature : Bytes)
  | activated
  /-- Whether the status of each result is good, and its value. -/
  | read (results : List (Bool × Value))
  | sessionClosed
  | fault
  /-- Any of the other response types. -/
  | other (n : Nat)
  deriving DecidableEq, Repr

/-- A response: `ServiceResult`, whether `AdditionalHeader` has a body, and the rest. -/
structure Resp where
  result : Nat
  extended : Bool
  body : Body
  deriving DecidableEq, Repr

/-- What comes back for a request before its deadline. -/
inductive Reply where
  | response (r : Resp)
  | silent
  | closed
  deriving DecidableEq, Repr

/-- What comes back for the Hello. -/
inductive Hello where
  | ack
  | error (code : Nat)
  | garbage
  | closed
  deriving DecidableEq, Repr

/-- One connection to the server. -/
structure Conn where
  /-- `net.DialTimeout` succeeds. -/
  accepts : Bool
  hello : Hello
  /-- The answer to OpenSecureChannel. -/
  opened : Reply
  /-- The answers to the requests after it. -/
  reply : Nat → Reply
  /-- The end of the connection is seen, or sending fails, before `Close` looks for its own answer. -/
  endsEarly : Bool

structure Server where
  discovery : Conn
  session : Conn

/-- The errors that are told apart. -/
inductive Err where
  | status (code : Nat)
  | badRequestTimeout | badSecureChannelClosed | badSecurityChecksFailed | badSecurityPolicyRejected
  | badSecurityModeRejected | badDecodingError | badEncodingError | badCertificateInvalid
  | badApplicationSignatureInvalid | badIdentityTokenRejected
  | noConnection | certificate
  deriving DecidableEq, Repr

/-- How a call ends. -/
inductive Res (α : Type) where
  | ok (a : α)
  | err (e : Err)
  | panic
  | hangs
  deriving DecidableEq, Repr

/-- `Request`, client_secure_channel.go:237-267. -/
def request : Reply → Res Resp
  | .response r => if r.result = 0 then .ok r else .err (.status r.result)
  | .silent => .err .badRequestTimeout
  | .closed => .err .badSecureChannelClosed

/-- `Request` from `Open`, which holds the lock of the channel (271-272): to decode an extension object the reader asks
for the namespace table (ua/binary_decoder.go:782), which waits for the lock (209-213). -/
def requestLocked : Reply → Res Resp
  | .response r => if r.extended then .err .badRequestTimeout else request (.response r)
  | r => request r

/-- One of the methods of client_service_set.go: the type assertion on the response. -/
def service {α : Type} (as : Body → Option α) (r : Reply) : Res α :=
  match request r with
  | .ok resp =>
    match as resp.body with
    | some a => .ok a
    | none => .panic
  | .err e => .err e
  | .panic => .panic
  | .hangs => .hangs

def asOpen : Body → Option Unit
  | .openChannel => some ()
  | _ => none
def asEndpoints : Body → Option (List Desc)
  | .endpoints es => some es
  | _ => none
def asSession : Body → Option (Bytes × Bytes × Bytes)
  | .session c n s => some (c, n, s)
  | _ => none
def asActivated : Body → Option Unit
  | .activated => some ()
  | _ => none
def asRead : Body → Option (List (Bool × Value))
  | .read rs => some rs
  | _ => none
def asClosed : Body → Option Unit
  | .sessionClosed => some ()
  | _ => none

/-- The public key of the server, client_secure_channel.go:189-193: the type assertion is not checked. -/
def remoteKey (L : Lib) (cert : Bytes) : Res (Option Nat) :=
  match L.parse cert with
  | some (.rsa n :: _) => .ok (some n)
  | some (.other :: _) => .panic
  | _ => .ok none

/-- client_secure_channel.go:279-302. -/
def checkCertificate (L : Lib) (cert : Bytes) : Option Err :=
  if cert = [] then none
  else
    match L.parse cert with
    | none => some .badSecurityChecksFailed
    | some [] => some .badSecurityChecksFailed
    | some (_ :: _) => if L.validate cert then none else some .certificate

/-- RSAPaddingSize, ua/security_policy.go:75, 127, 179, 231, 285, 339. -/
def padding : Policy → Nat
  | .basic128Rsa15 => 11
  | .basic256 | .basic256Sha256 | .aes128Sha256RsaOaep => 42
  | .aes256Sha256RsaPss => 66
  | _ => 0

/-- A mode with signatures. -/
def securedMode (m : Mode) : Bool := decide (m = .sign) || decide (m = .signAndEncrypt)

/-- The keys are needed in the secured modes, client_secure_channel.go:425-435; then the size of a block of plain text
is computed at 589-602, and a division by it follows. A negative size makes the plan fail (658), and so does the
policy None, which cannot sign (668). -/
def prepareOpen (p : Policy) (m : Mode) (hasKey : Bool) (key : Option Nat) : Res Unit :=
  if !securedMode m then .ok ()
  else if !hasKey then .err .badSecurityChecksFailed
  else
    match key with
    | none => .err .badSecurityChecksFailed
    | some size =>
      if size = padding p then .panic
      else if size < padding p then .err .badEncodingError
      else if p = .none then .err .badSecurityPolicyRejected
      else .ok ()

/-- client_secure_channel.go:437-470. -/
def exchangeOpen (r : Reply) : Res Unit :=
  match requestLocked r with
  | .ok resp =>
    match asOpen resp.body with
    | some _ => .ok ()
    | none => .panic
  | .err e => .err e
  | .panic => .panic
  | .hangs => .hangs

/-- `Open` of the channel, client_secure_channel.go:270-470: how it ends, and whether the TCP connection is open. -/
def openChannel (L : Lib) (p : Policy) (m : Mode) (cert : Bytes) (hasKey : Bool) (key : Option Nat) (c : Conn) :
    Res Unit × Bool :=
  match checkCertificate L cert with
  | some e => (.err e, false)
  | none =>
    if !c.accepts then (.err .noConnection, false)
    else
      match c.hello with
      | .closed => (.err .badSecureChannelClosed, true)
      | .error code => (.err (.status code), true)
      | .garbage => (.err .badDecodingError, true)
      | .ack =>
        if !supported p then (.err .badSecurityPolicyRejected, true)
        else
          match prepareOpen p m hasKey key with
          | .ok _ => (exchangeOpen c.opened, true)
          | r => (r, true)

/-- `Close` of the channel, client_secure_channel.go:473-485: the answer is made by `sendRequest` itself; the
connection is closed only if the request succeeds. -/
def closeChannel (c : Conn) : Res Unit × Bool :=
  if c.endsEarly then (.err .badSecureChannelClosed, true) else (.ok (), false)

/-- `GetEndpoints`, client_service_set.go:82-127. If `Open` fails the connection stays as it is. -/
def getEndpoints (L : Lib) (c : Conn) : Res (List Desc) × Bool :=
  match openChannel L .none .none [] false none c with
  | (.ok _, _) =>
    match service asEndpoints (c.reply 0) with
    | .ok es =>
      match closeChannel c with
      | (.ok _, _) => (.ok es, false)
      | (.err e, _) => (.err e, false)
      | (.panic, o) => (.panic, o)
      | (.hangs, o) => (.hangs, o)
    | .err e => (.err e, false)
    | .panic => (.panic, true)
    | .hangs => (.hangs, true)
  | (.err e, o) => (.err e, o)
  | (.panic, o) => (.panic, o)
  | (.hangs, o) => (.hangs, o)

/-- What the user of the client asks for. -/
structure Config where
  options : Options
  /-- `localPrivateKey` is not nil. -/
  hasKey : Bool
  identity : Identity
  /-- The key of an X509Identity is not nil. -/
  hasUserKey : Bool
  /-- The nonce that is drawn for CreateSession. -/
  nonce : Bytes

/-- The check of the server's signature, client.go:268-302. With the nil key the library panics. -/
def checkSignature (L : Lib) (p : Policy) (cert : Bytes) (key : Option Nat) (data sig : Bytes) : Res Unit :=
  match scheme p with
  | none => .ok ()
  | some s =>
    match key with
    | none => .panic
    | some _ => if L.verify cert s data sig then .ok () else .err .badApplicationSignatureInvalid

/-- The signature of the client, client.go:304-347. With the nil key the library panics. -/
def sign (p : Policy) (hasKey : Bool) : Res Unit :=
  match scheme p with
  | none => .ok ()
  | some _ => if hasKey then .ok () else .panic

/-- Encrypting a secret, client.go:371-470 and 574-680: `make([]byte, publickey.Size()-n)` and a loop that reads into
it until nothing is left. -/
def sealOutcome (p : Policy) (key : Option Nat) : Res Unit :=
  match keyWrap p with
  | none => .ok ()
  | some _ =>
    match key with
    | none => .err .badIdentityTokenRejected
    | some size => if size < padding p then .panic else if size = padding p then .hangs else .ok ()

/-- Building the identity token, client.go:349-699. -/
def tokenOutcome (e : Desc) (key : Option Nat) (hasUserKey : Bool) : Identity → Res Unit
  | .issued _ =>
    match firstOf .issued e.tokens with
    | none => .err .badIdentityTokenRejected
    | some t => sealOutcome (effective t e.policy) key
  | .userName _ _ =>
    match firstOf .userName e.tokens with
    | none => .err .badIdentityTokenRejected
    | some t => sealOutcome (effective t e.policy) key
  | .x509 _ =>
    match firstOf .certificate e.tokens with
    | none => .err .badIdentityTokenRejected
    | some t => sign (effective t e.policy) hasUserKey
  | .anonymous =>
    match firstOf .anonymous e.tokens with
    | none => .err .badIdentityTokenRejected
    | some _ => .ok ()

/-- One of the two results of the Read, client.go:734-742: a value of another type than `[]string` panics. -/
def table (old : List String) : Bool × Value → Res (List String)
  | (false, _) => .ok old
  | (true, .strings ss) => .ok ss
  | (true, .other _) => .panic

/-- The client that `Dial` returns. -/
structure Client where
  endpoint : Desc
  namespaces : List String
  servers : List String
  deriving DecidableEq, Repr

abbrev uaURI : String := "http://opcfoundation.org/UA/"

def Res.bind {α β : Type} : Res α → (α → Res β) → Res β
  | .ok a, f => f a
  | .err e, _ => .err e
  | .panic, _ => .panic
  | .hangs, _ => .hangs

/-- client.go:733-743. -/
def tables (e : Desc) : List (Bool × Value) → Res Client
  | [a, b] =>
    (table [uaURI] a).bind fun ns => (table [] b).bind fun ss => .ok ⟨e, ns, ss⟩
  | _ => .ok ⟨e, [uaURI], []⟩

/-- `open` once the channel is open, client.go:239-745. -/
def logIn (L : Lib) (cfg : Config) (e : Desc) (key : Option Nat) (c : Conn) : Res Client :=
  (service asSession (c.reply 0)).bind fun s =>
    if e.certificate ≠ s.1 then .err .badCertificateInvalid
    else
      (checkSignature L e.policy e.certificate key (cfg.options.certificate ++ cfg.nonce) s.2.2).bind fun _ =>
        (sign e.policy cfg.hasKey).bind fun _ =>
          (tokenOutcome e key cfg.hasUserKey cfg.identity).bind fun _ =>
            (service asActivated (c.reply 1)).bind fun _ =>
              (service asRead (c.reply 2)).bind fun rs => tables e rs

/-- client.go:234-745: how it ends, and whether the connection is open. -/
def openSession (L : Lib) (cfg : Config) (e : Desc) (key : Option Nat) (c : Conn) : Res Client × Bool :=
  match openChannel L e.policy e.mode e.certificate cfg.hasKey key c with
  | (.ok _, o) => (logIn L cfg e key c, o)
  | (.err x, o) => (.err x, o)
  | (.panic, o) => (.panic, o)
  | (.hangs, o) => (.hangs, o)

/-- `Abort`, client_secure_channel.go:488-496, on the path of an error: client.go:144-147. -/
def orAbort : Res Client × Bool → Res Client × Bool
  | (.err e, _) => (.err e, false)
  | r => r

/-- `Dial`, client.go:28-152: how it ends, and whether the connections for discovery and for the session are open. -/
def dial (L : Lib) (cfg : Config) (s : Server) : Res Client × Bool × Bool :=
  match getEndpoints L s.discovery with
  | (.err e, o) => (.err e, o, false)
  | (.panic, o) => (.panic, o, false)
  | (.hangs, o) => (.hangs, o, false)
  | (.ok es, o) =>
    match select cfg.options (L.sort es) with
    | none => (.err .badSecurityModeRejected, o, false)
    | some e =>
      match remoteKey L e.certificate with
      | .err x => (.err x, o, false)
      | .panic => (.panic, o, false)
      | .hangs => (.hangs, o, false)
      | .ok key =>
        let r := orAbort (openSession L cfg e key s.session)
        (r.1, o, r.2)

/-- `Close` of the client, client.go:748-758; `n` requests were made before. If CloseSession fails nothing is closed;
the error of the channel is dropped. The second component says whether the connection is open. -/
def close (c : Conn) (n : Nat) : Res Unit × Bool :=
  match service asClosed (c.reply n) with
  | .ok _ => (.ok (), (closeChannel c).2)
  | .err e => (.err e, true)
  | .panic => (.panic, true)
  | .hangs => (.hangs, true)

end Opcua.Dial
