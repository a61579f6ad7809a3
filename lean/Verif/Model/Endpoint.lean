import Verif.Model.Password

/-!
# Endpoints and identity tokens

client/client.go:28-152 (`Dial`) asks the server for its endpoints and picks one;
client/client.go:234-745 (`open`) creates a session and builds the identity token;
server/server.go:961-1074 (`buildEndpointDescriptions`) makes the list the server hands out;
server/server_secure_channel.go:284-314 finds the endpoint of a channel, and
server/server_service_set.go:283-858 (`handleActivateSession`) takes the identity token apart and asks
the authenticator.

Simplifications: the security policy URIs are constructors, with `other n` for every URI the code does
not name and `unset` for the empty string. A token policy id is `made kind n` for the string
`fmt.Sprintf("%s_%d", kind, n)`, and `other n` for every other string. The names and URLs of an endpoint are
left out (the transport profile of every endpoint of the server is the one that is compared with).
RSA is the `ASuite` of Model/OpenChannel.lean; user certificates are checked by an abstract `verify`.
-/

namespace Opcua.Endpoint

open Opcua Opcua.Channel Opcua.Password

/-- ua/security_policy.go:19-33. -/
inductive Policy where
  /-- The empty string, `SecurityPolicyURIBestAvailable`. -/
  | unset
  | none
  | basic128Rsa15
  | basic256
  | basic256Sha256
  | aes128Sha256RsaOaep
  | aes256Sha256RsaPss
  /-- Any other string. -/
  | other (n : Nat)
  deriving DecidableEq, Repr

/-- ua/enums.generated.go, `MessageSecurityMode`. -/
inductive Mode where
  | invalid
  | none
  | sign
  | signAndEncrypt
  deriving DecidableEq, Repr

/-- ua/enums.generated.go:888-891. -/
inductive TokenType where
  | anonymous
  | userName
  | certificate
  | issued
  deriving DecidableEq, Repr

/-- The id of a token policy. -/
inductive PolicyId where
  | made (t : TokenType) (n : Nat)
  | other (n : Nat)
  deriving DecidableEq, Repr

/-- ua.UserTokenPolicy. -/
structure TokenPolicy where
  id : PolicyId
  kind : TokenType
  policy : Policy
  deriving DecidableEq, Repr

/-- ua.EndpointDescription. `certificate` is empty if there is none. -/
structure Desc where
  certificate : Bytes
  mode : Mode
  policy : Policy
  level : Nat
  tokens : List TokenPolicy
  deriving DecidableEq, Repr

/-! ## Dial -/

/-- The options that matter for the choice: client.go:30-44 and client/options.go. -/
structure Options where
  policy : Policy := .unset
  mode : Mode := .invalid
  certificate : Bytes := []
  deriving DecidableEq, Repr

/-- client.go:74-79. -/
def wanted (o : Options) : Policy × Mode :=
  if o.policy = .unset ∧ o.certificate = [] then (.none, .none) else (o.policy, o.mode)

/-- The switch at client.go:85-91. -/
def supported : Policy → Bool
  | .none | .basic128Rsa15 | .basic256 | .basic256Sha256 | .aes128Sha256RsaOaep
  | .aes256Sha256RsaPss => true
  | _ => false

/-- client.go:84-96 for one endpoint. -/
def acceptable (o : Options) (e : Desc) : Bool :=
  supported e.policy
    && (decide ((wanted o).1 = .unset) || decide (e.policy = (wanted o).1))
    && (decide ((wanted o).2 = .invalid) || decide (e.mode = (wanted o).2))

/-- What `sort.Slice` at client.go:68-71 may turn `es` into: the same endpoints, none before one with
a higher level. The order of endpoints of the same level is left open, as `sort.Slice` leaves it. -/
def Ordered (es sorted : List Desc) : Prop :=
  sorted.Perm es ∧ sorted.Pairwise fun a b => ¬ b.level > a.level

/-- The loop at client.go:82-103; `none` is `BadSecurityModeRejected`. -/
def select (o : Options) (sorted : List Desc) : Option Desc :=
  sorted.find? (acceptable o)

/-! ## The server's list -/

/-- The parts of the server's configuration that matter here: server/server.go:84-95. -/
structure Config where
  allowNone : Bool
  anonymous : Bool
  userName : Bool
  x509 : Bool
  certificate : Bytes
  deriving DecidableEq, Repr

/-- The token policies of the endpoint at position `n`: server.go:964-984, 1005-1026, 1038-1059. -/
def tokensAt (c : Config) (n : Nat) (p : Policy) : List TokenPolicy :=
  (if c.anonymous then [⟨.made .anonymous n, .anonymous, .none⟩] else [])
    ++ (if c.userName then [⟨.made .userName n, .userName, p⟩] else [])
    ++ (if c.x509 then [⟨.made .certificate n, .certificate, p⟩] else [])

/-- One turn of the loops at server.go:1004-1037 and 1038-1072: the level is the position. -/
def addEndpoint (c : Config) (m : Mode) (es : List Desc) (p : Policy) : List Desc :=
  es ++ [⟨c.certificate, m, p, es.length, tokensAt c es.length p⟩]

/-- server.go:997-1003. -/
def secured : List Policy :=
  [.basic128Rsa15, .basic256, .basic256Sha256, .aes128Sha256RsaOaep, .aes256Sha256RsaPss]

/-- server.go:961-1074. The unsecured endpoint wants passwords and user certificates under
Basic256Sha256. -/
def endpoints (c : Config) : List Desc :=
  let es := if c.allowNone then
      [⟨c.certificate, .none, .none, 0, tokensAt c 0 .basic256Sha256⟩] else []
  let es := secured.foldl (addEndpoint c .sign) es
  secured.foldl (addEndpoint c .signAndEncrypt) es

/-- What the server knows of a channel: its endpoint and whether it is for discovery only,
server_secure_channel.go:287-314. Without an endpoint `LocalEndpoint()` is the zero value, which has
no token policies; the made up endpoint of a discovery channel is never looked at, because every
session service refuses such a channel first. -/
structure Local where
  tokens : List TokenPolicy
  policy : Policy
  discoveryOnly : Bool
  deriving DecidableEq, Repr

/-- server_secure_channel.go:287-314. -/
def local_ (c : Config) (p : Policy) (m : Mode) : Local :=
  match (endpoints c).find? fun e => decide (e.policy = p) && decide (e.mode = m) with
  | some e => ⟨e.tokens, e.policy, false⟩
  | none => ⟨[], .unset, decide (p = .none) && decide (m = .none)⟩

/-! ## The client's identity token -/

/-- ua.UserNameIdentity and its like; the key of a user certificate is its signing function. -/
inductive Identity where
  | anonymous
  | userName (user password : Bytes)
  | x509 (certificate : Bytes)
  | issued (data : Bytes)
  deriving DecidableEq, Repr

/-- The tokens on the wire. `absent` is a nil or unknown token. -/
inductive Token where
  | absent
  | anonymous (id : PolicyId)
  | userName (id : PolicyId) (user password algorithm : Bytes)
  | x509 (id : PolicyId) (certificate : Bytes)
  | issued (id : PolicyId) (data algorithm : Bytes)
  deriving DecidableEq, Repr

/-- The algorithm names `RsaV15KeyWrap`, `RsaOaepKeyWrap`, `RsaOaepSha256KeyWrap`: three different
non-empty strings. -/
def rsaV15 : Bytes := [1]
/-- See `rsaV15`. -/
def rsaOaep : Bytes := [2]
/-- See `rsaV15`. -/
def rsaOaepSha256 : Bytes := [3]

/-- The key wrap algorithm of a policy; `none` for the default branches. client.go:574, 608, 642 and
server_service_set.go:565, 628, 691. -/
def keyWrap : Policy → Option Bytes
  | .basic128Rsa15 => some rsaV15
  | .basic256 | .basic256Sha256 | .aes128Sha256RsaOaep => some rsaOaep
  | .aes256Sha256RsaPss => some rsaOaepSha256
  | _ => Option.none

/-- The signature scheme of a policy: SHA-1 or SHA-256 with PKCS #1 v1.5, or PSS. -/
inductive Scheme where
  | sha1
  | sha256
  | pss
  deriving DecidableEq, Repr

/-- client.go:491, 510, 529 and server_service_set.go:457, 464, 471. -/
def scheme : Policy → Option Scheme
  | .basic128Rsa15 | .basic256 => some .sha1
  | .basic256Sha256 | .aes128Sha256RsaOaep => some .sha256
  | .aes256Sha256RsaPss => some .pss
  | _ => Option.none

/-- Keys at the client. `rsa` is nil if the endpoint came without a server certificate
(client_secure_channel.go:189-192), else encryption for that certificate under each algorithm;
`sign` signs with the key of the user's certificate. -/
structure ClientKeys where
  rsa : Option (Bytes → ASuite)
  sign : Scheme → Bytes → Bytes

/-- What `open` sends, or `BadIdentityTokenRejected`. -/
inductive Sent where
  | token (t : Token) (signature : Bytes)
  | rejected
  deriving DecidableEq, Repr

/-- The loop that looks for a token policy: client.go:356-361, 478-483, 557-562, 686-691. -/
def firstOf (k : TokenType) (ts : List TokenPolicy) : Option TokenPolicy :=
  ts.find? fun t => decide (t.kind = k)

/-- client.go:366-369. -/
def effective (t : TokenPolicy) (chan : Policy) : Policy :=
  if t.policy = .unset then chan else t.policy

/-- client.go:371-470 and 574-680: encryption of a secret under a policy. -/
def sealSecret (k : ClientKeys) (p : Policy) (secret nonce : Bytes) : Option (Bytes × Bytes) :=
  match keyWrap p with
  | Option.none => some (secret, [])
  | some alg =>
    match k.rsa with
    | Option.none => Option.none
    | some suite => some (clientToken (suite alg) secret nonce, alg)

/-- client.go:352-699. `e` is the endpoint `Dial` has chosen; `chan` is its policy. -/
def identityToken (e : Desc) (k : ClientKeys) (nonce : Bytes) : Identity → Sent
  | .issued data =>
    match firstOf .issued e.tokens with
    | Option.none => .rejected
    | some t =>
      match sealSecret k (effective t e.policy) data nonce with
      | Option.none => .rejected
      | some (d, alg) => .token (.issued t.id d alg) []
  | .x509 cert =>
    match firstOf .certificate e.tokens with
    | Option.none => .rejected
    | some t =>
      match scheme (effective t e.policy) with
      | Option.none => .token (.x509 t.id cert) []
      | some s => .token (.x509 t.id cert) (k.sign s (e.certificate ++ nonce))
  | .userName user pw =>
    match firstOf .userName e.tokens with
    | Option.none => .rejected
    | some t =>
      match sealSecret k (effective t e.policy) pw nonce with
      | Option.none => .rejected
      | some (d, alg) => .token (.userName t.id user d alg) []
  | .anonymous =>
    match firstOf .anonymous e.tokens with
    | Option.none => .rejected
    | some t => .token (.anonymous t.id) []

/-- The check of the answer to CreateSession at client.go:263-266: only the certificate of the server
is compared. `_listed` is `createSessionResponse.ServerEndpoints`, the list as it comes over the secured
channel; it is at hand, but the code does not look at it. -/
def sessionAccepted (e : Desc) (certificate : Bytes) (_listed : List Desc) : Bool :=
  decide (e.certificate = certificate)

/-! ## The server's side -/

/-- What an authenticator answers. -/
inductive Verdict where
  | ok
  /-- An error that is a status code. -/
  | status (code : Nat)
  /-- An error that is not a status code. -/
  | error
  deriving DecidableEq, Repr

/-- What activation needs of the server: server/server.go:80-95. An authenticator that is not set is
`none`. -/
structure Server where
  allowNone : Bool
  certificate : Bytes
  /-- The private key under each algorithm. -/
  rsa : Bytes → ASuite
  /-- `len(srv.localPrivateKey.D.Bytes())`. -/
  dSize : Nat
  /-- `rsa.VerifyPKCS1v15` or `VerifyPSS` with the key of a user certificate; `none` if the
  certificate cannot be parsed or has no RSA key. -/
  verify : Bytes → Option (Scheme → Bytes → Bytes → Bool)
  anonymous : Option (Identity → Verdict)
  userName : Option (Identity → Verdict)
  x509 : Option (Identity → Verdict)
  issued : Option (Identity → Verdict)

/-- The configuration the list of endpoints is made from: server.go:963, 965, 972, 979. There is no
token policy for issued tokens. -/
def Server.config (s : Server) : Config :=
  ⟨s.allowNone, s.anonymous.isSome, s.userName.isSome, s.x509.isSome, s.certificate⟩

abbrev badIdentityTokenInvalid : Nat := 0x80200000
abbrev badIdentityTokenRejected : Nat := 0x80210000

/-- What becomes of the request. -/
inductive Outcome where
  | activated (id : Identity)
  | fault (code : Nat)
  /-- The handler returns an error, and the connection ends. -/
  | connectionEnds
  | aborted
  /-- `err.(ua.StatusCode)` panics. -/
  | panic
  deriving DecidableEq, Repr

/-- The loop that looks for the token policy: server_service_set.go:362-367, 393-398, 512-517, 756-761. -/
def policyOf (l : Local) (k : TokenType) (id : PolicyId) : Option TokenPolicy :=
  l.tokens.find? fun t => decide (t.kind = k) && decide (t.id = id)

/-- server_service_set.go:786-817 for one kind. -/
def askAuthenticator (auth : Option (Identity → Verdict)) (id : Identity) : Outcome :=
  match auth with
  | Option.none => .fault badIdentityTokenRejected
  | some a =>
    match a id with
    | .ok => .activated id
    | .status c => .fault c
    | .error => .panic

/-- server_service_set.go:786-820. -/
def authenticate (s : Server) (id : Identity) : Outcome :=
  match id with
  | .anonymous => askAuthenticator s.anonymous id
  | .userName .. => askAuthenticator s.userName id
  | .x509 .. => askAuthenticator s.x509 id
  | .issued .. => askAuthenticator s.issued id

/-- server_service_set.go:564-752. -/
def openSecret (s : Server) (p : Policy) (nonce pw alg : Bytes) : Password.Result :=
  match keyWrap p with
  | some a => serverToken (s.rsa a) s.dSize nonce a alg pw
  | Option.none => serverTokenPlain pw

/-- server_service_set.go:510-752 after the token policy was found. -/
def userNameToken (s : Server) (l : Local) (nonce : Bytes) (t : TokenPolicy)
    (user pw alg : Bytes) : Outcome :=
  if user = [] then .fault badIdentityTokenInvalid
  else
    match openSecret s (effective t l.policy) nonce pw alg with
    | .password clear => authenticate s (.userName user clear)
    | .invalid => .fault badIdentityTokenInvalid
    | .rejected => .fault badIdentityTokenRejected
    | .connectionEnds => .connectionEnds

/-- server_service_set.go:418-508 after the token policy was found. For a policy without a scheme
nothing is verified. -/
def x509Token (s : Server) (chan : Policy) (nonce : Bytes) (t : TokenPolicy)
    (cert sig : Bytes) : Outcome :=
  match s.verify cert with
  | Option.none => .fault badIdentityTokenInvalid
  | some v =>
    match scheme (effective t chan) with
    | Option.none => authenticate s (.x509 cert)
    | some sch =>
      if v sch (s.certificate ++ nonce) sig then authenticate s (.x509 cert)
      else .fault badIdentityTokenRejected

/-- server_service_set.go:357-820: from the identity token to the answer, on a channel with policy
`p` and mode `m`, for a session whose last nonce is `nonce`. The checks before (session, timeout,
client signature) are in Model/Session.lean and Model/OpenChannel.lean. An issued token is looked up
among the policies for certificates. -/
def activate (s : Server) (p : Policy) (m : Mode) (nonce : Bytes) (tok : Token) (sig : Bytes) : Outcome :=
  let l := local_ s.config p m
  if l.discoveryOnly then .aborted
  else
    match tok with
    | .absent => .fault badIdentityTokenRejected
    | .anonymous id =>
      match policyOf l .anonymous id with
      | Option.none => .fault badIdentityTokenInvalid
      | some _ => authenticate s .anonymous
    | .userName id user pw alg =>
      match policyOf l .userName id with
      | Option.none => .fault badIdentityTokenInvalid
      | some t => userNameToken s l nonce t user pw alg
    | .x509 id cert =>
      match policyOf l .certificate id with
      | Option.none => .fault badIdentityTokenInvalid
      | some t => x509Token s p nonce t cert sig
    | .issued id data _ =>
      match policyOf l .certificate id with
      | Option.none => .fault badIdentityTokenInvalid
      | some _ => authenticate s (.issued data)

end Opcua.Endpoint
