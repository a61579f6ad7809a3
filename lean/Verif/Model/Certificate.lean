import Verif.Model.Endpoint

/-! Validation of the certificate of the other side, ua/certificate_helpers.go, its two callers
(server/server_secure_channel.go:316-343, client/client_secure_channel.go:279-302), and the check of the application
URI in CreateSession (server/server_service_set.go:97-160).

A certificate is a record of the fields that the code and the checks of crypto/x509 look at; keys are names, and a
signature is the name of the key that made it. `crypto/x509.Certificate.Verify` is a parameter, `Library`, whose
contract is `Library.Lawful`. Parsing of files is left out: a path is the list of what its files hold. -/

namespace Opcua.Certificate

open Opcua.Endpoint (Policy Mode)

/-- x509.Certificate. `Equal` compares encodings, which determine the fields; it is equality here. `signer` is the key
that made the signature; `crlSign` says that `CheckSignatureFrom` lets it sign revocation lists. -/
structure Cert where
  subject : String
  issuer : String
  key : Nat
  signer : Nat
  serial : Nat
  notBefore : Nat
  notAfter : Nat
  isCA : Bool
  certSign : Bool
  crlSign : Bool
  ekus : List Nat
  hosts : List String
  uris : List String
  deriving DecidableEq, Repr

/-- x509.RevocationList. -/
structure Crl where
  signer : Nat
  nextUpdate : Nat
  revoked : List Nat
  deriving DecidableEq, Repr

/-- x509.ExtKeyUsageServerAuth and ExtKeyUsageClientAuth. -/
abbrev serverAuth : Nat := 1
abbrev clientAuth : Nat := 2

/-- x509.VerifyOptions; `time` is the time at which the periods are checked. -/
structure VerifyOpts where
  roots : List Cert
  intermediates : List Cert
  usages : List Nat
  host : String
  time : Nat

/-- The errors of Verify as the switch of certificate_helpers.go:97-118 tells them apart. -/
inductive VerifyErr where
  | expired | incompatibleUsage | invalid | hostname | unknownAuthority | other
  deriving DecidableEq, Repr

/-- crypto/x509: `(*Certificate).Verify`. -/
structure Library where
  verify : VerifyOpts → Cert → Except VerifyErr (List (List Cert))

/-- A certificate says that it was issued by the other, and carries a signature of its key. -/
def Issued (c p : Cert) : Prop := c.issuer = p.subject ∧ c.signer = p.key ∧ p.isCA = true

/-- Each certificate of the list was issued by the next. -/
def Linked : List Cert → Prop
  | c :: p :: rest => Issued c p ∧ Linked (p :: rest)
  | _ => True

def ValidAt (t : Nat) (c : Cert) : Prop := c.notBefore ≤ t ∧ t ≤ c.notAfter

/-- The documented contract of Verify: the chains begin with the certificate, end with a root, are linked by
signatures, and all members are valid at the time; a host name is checked if given; and a certificate that is itself
a root, in its period, of the wanted usage, is found. -/
structure Library.Lawful (L : Library) : Prop where
  head : ∀ o c chains, L.verify o c = .ok chains → ∀ ch ∈ chains, ch.head? = some c
  nonempty : ∀ o c chains, L.verify o c = .ok chains → chains ≠ []
  linked : ∀ o c chains, L.verify o c = .ok chains → ∀ ch ∈ chains, Linked ch
  root : ∀ o c chains, L.verify o c = .ok chains → ∀ ch ∈ chains, ∃ r ∈ o.roots, ch.getLast? = some r
  time : ∀ o c chains, L.verify o c = .ok chains → ∀ ch ∈ chains, ∀ m ∈ ch, ValidAt o.time m
  host : ∀ o c chains, L.verify o c = .ok chains → o.host ≠ "" → o.host ∈ c.hosts
  found : ∀ o c, c ∈ o.roots → ValidAt o.time c → (o.host = "" ∨ o.host ∈ c.hosts) →
    (∃ u ∈ c.ekus, u ∈ o.usages) → L.verify o c = .ok [[c]]

/-- The statuses of ValidateCertificate; `raw` is an error of Verify that is handed on as it is. -/
inductive Status where
  | badCertificateInvalid | badCertificateTimeInvalid | badSecurityChecksFailed | badCertificateUseNotAllowed
  | badCertificateIssuerUseNotAllowed | badCertificateHostNameInvalid | badCertificateRevoked
  | badCertificateIssuerRevoked | badCertificateRevocationUnknown | badCertificateIssuerRevocationUnknown | raw
  deriving DecidableEq, Repr

/-- The flags WithInsecureSkipVerify sets. -/
structure Flags where
  host : Bool
  time : Bool
  chain : Bool
  revocation : Bool
  deriving DecidableEq, Repr

/-- client/option.go:178-186 -/
def skipClient : Flags := ⟨true, true, true, true⟩

/-- server/option.go:72-79 with the constant `false` of server_secure_channel.go:332. -/
def skipServer : Flags := ⟨false, true, true, true⟩

/-- The flags without the option. -/
def strict : Flags := ⟨false, false, false, false⟩

/-- What the files of a path hold; `none` is a file that cannot be read, as with the empty path. -/
abbrev Path (α : Type) := List (Option (List α))

/-- readCertificates and readRevocationLists, certificate_helpers.go:233-325: an unreadable file discards all;
blocks that do not parse are not in the lists. -/
def readAll : Path α → Option (List α)
  | [] => some []
  | none :: _ => none
  | some xs :: rest => (readAll rest).map (xs ++ ·)

/-- The paths of the configuration; `rejected` says that a directory for rejected certificates is named. -/
structure Stores where
  trusted : Path Cert
  trustedCrls : Path Crl
  issuers : Path Cert
  issuerCrls : Path Crl
  rejected : Bool

/-- isSelfSigned, certificate_helpers.go:328-330: only the names are compared. -/
def isSelfSigned (c : Cert) : Bool := decide (c.issuer = c.subject)

/-- The lists of certificates in the order they are added to the pools, certificate_helpers.go:35-66. -/
def pool (peer : List Cert) (st : Stores) : List Cert :=
  peer ++ (readAll st.issuers).getD [] ++ (readAll st.trusted).getD []

/-- certificate_helpers.go:53-55 and 68-70 -/
def crlsOf (st : Stores) : List Crl := (readAll st.issuerCrls).getD [] ++ (readAll st.trustedCrls).getD []

/-- certificate_helpers.go:57-58 and 92 -/
def trustedOf (leaf : Cert) (st : Stores) (f : Flags) : List Cert :=
  (readAll st.trusted).getD [] ++ if f.chain then [leaf] else []

/-- certificate_helpers.go:35-93 -/
def options (leaf : Cert) (peer : List Cert) (usages : List Nat) (host : String) (st : Stores) (f : Flags)
    (now : Nat) : VerifyOpts :=
  { roots := (pool peer st).filter isSelfSigned ++ if f.chain then [leaf] else []
    intermediates := (pool peer st).filter (fun c => !isSelfSigned c)
    usages := usages
    host := if f.host then "" else host
    time := if f.time then leaf.notBefore else now }

/-- The loop over the lists of checkRevocation, certificate_helpers.go:341-356: `none` if no list in force is signed
by the issuer, otherwise whether the first such list names the certificate. -/
def lookUp (cert issuer : Cert) (now : Nat) : List Crl → Option Bool
  | [] => none
  | l :: ls =>
    if now < l.nextUpdate ∧ l.signer = issuer.key ∧ issuer.crlSign = true then some (decide (cert.serial ∈ l.revoked))
    else lookUp cert issuer now ls

/-- checkRevocation, certificate_helpers.go:333-364; the chain is given from the index on. -/
def checkRevocation (isLeaf : Bool) (chain : List Cert) (crls : List Crl) (suppress : Bool) (now : Nat) :
    Option Status :=
  match chain with
  | cert :: issuer :: _ =>
    match lookUp cert issuer now crls with
    | some true => some (if isLeaf then .badCertificateRevoked else .badCertificateIssuerRevoked)
    | some false => none
    | none =>
      if suppress then none
      else some (if isLeaf then .badCertificateRevocationUnknown else .badCertificateIssuerRevocationUnknown)
  | _ => none

/-- certificate_helpers.go:202-204 -/
def mapRevoked : Status → Status
  | .badCertificateRevoked => .badSecurityChecksFailed
  | .badCertificateIssuerRevoked => .badSecurityChecksFailed
  | s => s

/-- The checks on one member of a chain, certificate_helpers.go:128-206; `whole` is the chain, `rest` the chain from
the member on. -/
def checkMember (whole : List Cert) (isLeaf : Bool) (c : Cert) (rest : List Cert) (trusted : List Cert)
    (usages : List Nat) (crls : List Crl) (suppress : Bool) (now : Nat) : Option Status :=
  if isSelfSigned c && decide (c.signer ≠ c.key) then some .badSecurityChecksFailed
  else if !whole.any (fun c2 => trusted.any (fun c3 => decide (c2 = c3))) then some .badSecurityChecksFailed
  else if isLeaf && !c.ekus.any (fun e => usages.any (fun u => decide (e = u))) then some .badCertificateUseNotAllowed
  else if !isLeaf && !c.certSign then some .badCertificateIssuerUseNotAllowed
  else (checkRevocation isLeaf rest crls suppress now).map mapRevoked

/-- The loop over the members of a chain, certificate_helpers.go:123-207. -/
def checkChain (whole : List Cert) (trusted : List Cert) (usages : List Nat) (crls : List Crl) (suppress : Bool)
    (now : Nat) : Bool → List Cert → Option Status
  | _, [] => none
  | isLeaf, c :: rest =>
    match checkMember whole isLeaf c (c :: rest) trusted usages crls suppress now with
    | some e => some e
    | none => checkChain whole trusted usages crls suppress now false rest

/-- The loop over the chains, certificate_helpers.go:121-213; the error of a chain stays until a later chain passes. -/
def checkChains (trusted : List Cert) (usages : List Nat) (crls : List Crl) (suppress : Bool) (now : Nat) :
    Option Status → List (List Cert) → Option Status
  | e, [] => e
  | _, ch :: rest =>
    match checkChain ch trusted usages crls suppress now true ch with
    | none => none
    | some e => checkChains trusted usages crls suppress now (some e) rest

/-- The switch on the error of Verify, certificate_helpers.go:97-118. -/
def mapError (L : Library) (o : VerifyOpts) (leaf : Cert) : VerifyErr → Status
  | .expired =>
    match L.verify { o with time := leaf.notBefore } leaf with
    | .ok _ => .badCertificateTimeInvalid
    | .error _ => .badSecurityChecksFailed
  | .incompatibleUsage => .badCertificateUseNotAllowed
  | .invalid => .badSecurityChecksFailed
  | .hostname => .badCertificateHostNameInvalid
  | .unknownAuthority => .badSecurityChecksFailed
  | .other => .raw

/-- certificate_helpers.go:24-26 -/
def usagesOr (usages : List Nat) : List Nat := if usages.isEmpty then [serverAuth] else usages

/-- ValidateCertificate up to the file of the rejected certificate, certificate_helpers.go:19-214; `none` is success. -/
def verdict (L : Library) (certs : List Cert) (usages : List Nat) (host : String) (st : Stores) (f : Flags)
    (now : Nat) : Option Status :=
  match certs with
  | [] => some .badCertificateInvalid
  | leaf :: peer =>
    let o := options leaf peer (usagesOr usages) host st f now
    match L.verify o leaf with
    | .error e => some (mapError L o leaf e)
    | .ok chains => checkChains (trustedOf leaf st f) (usagesOr usages) (crlsOf st) f.revocation now none chains

/-- The certificate that is written to the directory of rejected certificates, certificate_helpers.go:215-227. -/
def rejectedFile (L : Library) (certs : List Cert) (usages : List Nat) (host : String) (st : Stores) (f : Flags)
    (now : Nat) : Option Cert :=
  match certs, verdict L certs usages host st f now with
  | leaf :: _, some _ => if st.rejected then some leaf else none
  | _, _ => none

/-- Open of the server after the request was read, server_secure_channel.go:316-338: the certificate is validated
in the modes Sign and SignAndEncrypt; `certs` is what the certificate of the header parses to. -/
def serverOpens (L : Library) (mode : Mode) (certs : Option (List Cert)) (st : Stores) (f : Flags) (now : Nat) :
    Option Status :=
  if mode = .sign ∨ mode = .signAndEncrypt then
    match certs with
    | none => some .badSecurityChecksFailed
    | some cs => verdict L cs [clientAuth] "" st f now
  else none

/-- Open of the client before it connects, client_secure_channel.go:279-302; `certs` is `none` if the endpoint has no
certificate, otherwise what it parses to. -/
def clientOpens (L : Library) (certs : Option (Option (List Cert))) (host : String) (st : Stores) (f : Flags)
    (now : Nat) : Option Status :=
  match certs with
  | none => none
  | some none => some .badSecurityChecksFailed
  | some (some []) => some .badSecurityChecksFailed
  | some (some cs) => verdict L cs [serverAuth] host st f now

/-- The part of a CreateSession request that names the application; `certs` is what ClientCertificate parses to. -/
structure CreateReq where
  applicationURI : String
  certs : Option (List Cert)
  nonceLength : Nat

/-- The server's side of a channel: policy and the certificate of the OPN message. -/
structure ServerChan where
  policy : Policy
  discoveryOnly : Bool
  remote : Option Cert

inductive CreateResult where
  | aborted
  | badCertificateURIInvalid
  | badNonceInvalid
  | created (applicationURI : String)
  deriving DecidableEq, Repr

/-- server_service_set.go:109-119 -/
def uriValid (r : CreateReq) : Bool :=
  decide (r.applicationURI ≠ "") &&
  match r.certs with
  | some (c :: _) => c.uris.any (fun u => decide (u = r.applicationURI))
  | _ => false

/-- handleCreateSession up to the session manager, server_service_set.go:91-160. -/
def createSession (ch : ServerChan) (r : CreateReq) : CreateResult :=
  if ch.discoveryOnly then .aborted
  else if ch.policy = .none then .created r.applicationURI
  else if !uriValid r then .badCertificateURIInvalid
  else if r.nonceLength < 32 then .badNonceInvalid
  else .created r.applicationURI

end Opcua.Certificate
