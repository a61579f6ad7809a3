/-!
# Options of client and server

client/option.go, client/client.go:28-152 (the defaults, the loop over the options, the call of
newClientSecureChannel), client/client.go:234-260 (CreateSession), client/client_secure_channel.go:131-194, 237-247,
280-326, 447-453, 1760-1769 (where a channel uses its settings), client/client_service_set.go:82-117 (GetEndpoints);
server/option.go, server/server.go:97-152, server/server_secure_channel.go:102-121, 321-336,
server/session_manager.go:19-30, 50-56, server/subscription_manager.go:21-56, server/server_service_set.go:786-815.

Files are a parameter: what `tls.LoadX509KeyPair` gives for two paths. Private keys, authenticators, providers and
historians are numbers. An interface that holds a nil function is not nil, as in Go. Discovery and the choice of an
endpoint are Model/Dial.lean and Model/Endpoint.lean.
-/

namespace Opcua.Options

/-- What a function gives back: a value, an error, or a panic. -/
inductive Res (α : Type) where
  | ok (a : α)
  | err
  | panic
  deriving DecidableEq, Repr

/-- A private key of a file: RSA or another kind. -/
inductive FileKey where
  | rsa (n : Nat)
  | other
  deriving DecidableEq, Repr

/-- `tls.LoadX509KeyPair`: the certificates of the first file and the key of the second. -/
abbrev Load := String → String → Option (List (List UInt8) × FileKey)

/-- ua.AnonymousIdentity, UserNameIdentity, X509Identity, IssuedIdentity; `none` is a nil key. -/
inductive User where
  | anonymous
  | userName (name password : String)
  | x509 (cert : List UInt8) (key : Option Nat)
  | issued (data : List UInt8)
  deriving DecidableEq, Repr

/-! ## The client -/

/-- The settings in `Client`, client.go:155-192. -/
@[ext] structure Client where
  endpointURL : String
  securityPolicyURI : String
  securityMode : Nat
  user : User
  applicationName : String
  sessionName : String
  sessionTimeout : Rat
  localCertificate : List UInt8
  localPrivateKey : Option Nat
  trustedCertsPath : String
  trustedCRLsPath : String
  issuerCertsPath : String
  issuerCRLsPath : String
  rejectedCertsPath : String
  suppressHostNameInvalid : Bool
  suppressCertificateExpired : Bool
  suppressCertificateChainIncomplete : Bool
  suppressCertificateRevocationUnknown : Bool
  timeoutHint : Nat
  diagnosticsHint : Nat
  tokenLifetime : Nat
  connectTimeout : Int
  maxBufferSize : Nat
  maxMessageSize : Nat
  maxChunkCount : Nat
  trace : Bool
  deriving DecidableEq, Repr

/-- client_secure_channel.go:35-52. -/
abbrev defaultTimeoutHint : Nat := 15000
abbrev defaultDiagnosticsHint : Nat := 0
abbrev defaultTokenRequestedLifetime : Nat := 3600000
abbrev defaultConnectTimeout : Int := 15000
abbrev defaultSessionTimeout : Rat := 120 * 1000
abbrev defaultMaxBufferSize : Nat := 64 * 1024
abbrev defaultMaxMessageSize : Nat := 64 * 1024 * 1024
abbrev defaultMaxChunkCount : Nat := 4 * 1024

/-- client.go:30-44; fields that are not named are zero. -/
def Client.default (url : String) : Client :=
  { endpointURL := url, securityPolicyURI := "", securityMode := 0, user := .anonymous,
    applicationName := "application", sessionName := "", sessionTimeout := defaultSessionTimeout,
    localCertificate := [], localPrivateKey := none, trustedCertsPath := "", trustedCRLsPath := "",
    issuerCertsPath := "", issuerCRLsPath := "", rejectedCertsPath := "", suppressHostNameInvalid := false,
    suppressCertificateExpired := false, suppressCertificateChainIncomplete := false,
    suppressCertificateRevocationUnknown := false, timeoutHint := defaultTimeoutHint,
    diagnosticsHint := defaultDiagnosticsHint, tokenLifetime := defaultTokenRequestedLifetime,
    connectTimeout := defaultConnectTimeout, maxBufferSize := defaultMaxBufferSize,
    maxMessageSize := defaultMaxMessageSize, maxChunkCount := defaultMaxChunkCount, trace := false }

/-- The functions of client/option.go. -/
inductive Opt where
  | securityPolicyURI (uri : String) (mode : Nat)
  | userNameIdentity (name password : String)
  | x509Identity (cert : List UInt8) (key : Option Nat)
  | x509IdentityFile (certPath keyPath : String)
  | x509IdentityPaths (certPath keyPath : String)
  | issuedIdentity (data : List UInt8)
  | applicationName (value : String)
  | sessionName (value : String)
  | sessionTimeout (value : Rat)
  | clientCertificate (cert : List UInt8) (key : Option Nat)
  | clientCertificateFile (certPath keyPath : String)
  | clientCertificatePaths (certPath keyPath : String)
  | trustedCertificatesFile (path : String)
  | trustedCertificatesPaths (certPath crlPath : String)
  | issuerCertificatesPaths (certPath crlPath : String)
  | rejectedCertificatesPath (path : String)
  | insecureSkipVerify
  | timeoutHint (value : Nat)
  | diagnosticsHint (value : Nat)
  | tokenLifetime (value : Nat)
  | connectTimeout (value : Int)
  | trace
  | transportLimits (maxBufferSize maxMessageSize maxChunkCount : Nat)
  deriving DecidableEq, Repr

/-- What the option does to the client, client/option.go:17-240. `cert.PrivateKey.(*rsa.PrivateKey)` without a second
result panics for another kind of key (50, 64); with one it gives nil (113, 128). -/
def apply (load : Load) (c : Client) : Opt → Res Client
  | .securityPolicyURI u m => .ok { c with securityPolicyURI := u, securityMode := m }
  | .userNameIdentity n p => .ok { c with user := .userName n p }
  | .x509Identity cert key => .ok { c with user := .x509 cert key }
  | .x509IdentityFile cp kp =>
    match load cp kp with
    | none => .err
    | some (chain, .rsa k) => .ok { c with user := .x509 chain.flatten (some k) }
    | some (_, .other) => .panic
  | .x509IdentityPaths cp kp =>
    match load cp kp with
    | none => .err
    | some (chain, .rsa k) => .ok { c with user := .x509 chain.flatten (some k) }
    | some (_, .other) => .panic
  | .issuedIdentity d => .ok { c with user := .issued d }
  | .applicationName v => .ok { c with applicationName := v }
  | .sessionName v => .ok { c with sessionName := v }
  | .sessionTimeout v => .ok { c with sessionTimeout := v }
  | .clientCertificate cert key => .ok { c with localCertificate := cert, localPrivateKey := key }
  | .clientCertificateFile cp kp =>
    match load cp kp with
    | none => .err
    | some (chain, .rsa k) => .ok { c with localCertificate := chain.flatten, localPrivateKey := some k }
    | some (chain, .other) => .ok { c with localCertificate := chain.flatten, localPrivateKey := none }
  | .clientCertificatePaths cp kp =>
    match load cp kp with
    | none => .err
    | some (chain, .rsa k) => .ok { c with localCertificate := chain.flatten, localPrivateKey := some k }
    | some (chain, .other) => .ok { c with localCertificate := chain.flatten, localPrivateKey := none }
  | .trustedCertificatesFile p => .ok { c with trustedCertsPath := p }
  | .trustedCertificatesPaths cp rp => .ok { c with trustedCertsPath := cp, trustedCRLsPath := rp }
  | .issuerCertificatesPaths cp rp => .ok { c with issuerCertsPath := cp, issuerCRLsPath := rp }
  | .rejectedCertificatesPath p => .ok { c with rejectedCertsPath := p }
  | .insecureSkipVerify => .ok { c with
      suppressHostNameInvalid := true, suppressCertificateExpired := true,
      suppressCertificateChainIncomplete := true, suppressCertificateRevocationUnknown := true }
  | .timeoutHint v => .ok { c with timeoutHint := v }
  | .diagnosticsHint v => .ok { c with diagnosticsHint := v }
  | .tokenLifetime v => .ok { c with tokenLifetime := v }
  | .connectTimeout v => .ok { c with connectTimeout := v }
  | .trace => .ok { c with trace := true }
  | .transportLimits b m n => .ok { c with maxBufferSize := b, maxMessageSize := m, maxChunkCount := n }

/-- The loop, client.go:47-51: it ends at the first error. -/
def applyAll (load : Load) : Client → List Opt → Res Client
  | c, [] => .ok c
  | c, o :: os =>
    match apply load c o with
    | .ok c' => applyAll load c' os
    | .err => .err
    | .panic => .panic

/-- Which policy and mode are looked for, client.go:69-74. -/
def wanted (c : Client) : String × Nat :=
  if c.securityPolicyURI = "" ∧ c.localCertificate = [] then ("http://opcfoundation.org/UA/SecurityPolicy#None", 1)
  else (c.securityPolicyURI, c.securityMode)

/-- The settings in `clientSecureChannel`, client_secure_channel.go:55-95. -/
structure Channel where
  applicationName : String
  localCertificate : List UInt8
  localPrivateKey : Option Nat
  endpointURL : String
  connectTimeout : Int
  trustedCertsPath : String
  trustedCRLsPath : String
  issuerCertsPath : String
  issuerCRLsPath : String
  rejectedCertsPath : String
  suppressHostNameInvalid : Bool
  suppressCertificateExpired : Bool
  suppressCertificateChainIncomplete : Bool
  suppressCertificateRevocationUnknown : Bool
  timeoutHint : Nat
  diagnosticsHint : Nat
  tokenRequestedLifetime : Nat
  receiveBufferSize : Nat
  sendBufferSize : Nat
  maxResponseMessageSize : Nat
  maxResponseChunkCount : Nat
  bytesPool : Nat
  bufferPool : Nat
  trace : Bool
  deriving DecidableEq, Repr

/-- newClientSecureChannel, client_secure_channel.go:131-194, with its parameters in order; policy, mode and certificate
of the server are those of the endpoint. -/
def newChannel (applicationName : String) (localCertificate : List UInt8) (localPrivateKey : Option Nat)
    (endpointURL : String) (connectTimeout : Int) (trustedCertsPath trustedCRLsPath issuerCertsPath issuerCRLsPath
    rejectedCertsPath : String) (suppressHostNameInvalid suppressCertificateExpired suppressCertificateChainIncomplete
    suppressCertificateRevocationUnknown : Bool) (timeoutHint diagnosticsHint tokenLifetime maxBufferSize
    maxMessageSize maxChunkCount : Nat) (trace : Bool) : Channel :=
  { applicationName := applicationName
    endpointURL := endpointURL
    localCertificate := localCertificate
    localPrivateKey := localPrivateKey
    connectTimeout := connectTimeout
    trustedCertsPath := trustedCertsPath
    trustedCRLsPath := trustedCRLsPath
    issuerCertsPath := issuerCertsPath
    issuerCRLsPath := issuerCRLsPath
    rejectedCertsPath := rejectedCertsPath
    suppressHostNameInvalid := suppressHostNameInvalid
    suppressCertificateExpired := suppressCertificateExpired
    suppressCertificateChainIncomplete := suppressCertificateChainIncomplete
    suppressCertificateRevocationUnknown := suppressCertificateRevocationUnknown
    timeoutHint := timeoutHint
    diagnosticsHint := diagnosticsHint
    tokenRequestedLifetime := tokenLifetime
    receiveBufferSize := maxBufferSize
    sendBufferSize := maxBufferSize
    maxResponseMessageSize := maxMessageSize
    maxResponseChunkCount := maxChunkCount
    bytesPool := maxBufferSize
    bufferPool := maxBufferSize
    trace := trace }

/-- The channel for the session, client.go:119-143. -/
def sessionChannel (c : Client) : Channel :=
  newChannel c.applicationName c.localCertificate c.localPrivateKey c.endpointURL c.connectTimeout c.trustedCertsPath
    c.trustedCRLsPath c.issuerCertsPath c.issuerCRLsPath c.rejectedCertsPath c.suppressHostNameInvalid
    c.suppressCertificateExpired c.suppressCertificateChainIncomplete c.suppressCertificateRevocationUnknown
    c.timeoutHint c.diagnosticsHint c.tokenLifetime c.maxBufferSize c.maxMessageSize c.maxChunkCount c.trace

/-- The channel for discovery, client_service_set.go:83-113, which Dial opens first (client.go:54-61). -/
def discoveryChannel (c : Client) : Channel :=
  newChannel "DiscoveryClient" [] none c.endpointURL defaultConnectTimeout "" "" "" "" "" false false false false
    defaultTimeoutHint defaultDiagnosticsHint defaultTokenRequestedLifetime defaultMaxBufferSize defaultMaxMessageSize
    defaultMaxChunkCount false

/-- The parameters of `ValidateCertificate`, ua/certificate_helpers.go:19-20, by their names. -/
structure Checks where
  trustedPath : String
  trustedCRLPath : String
  issuersPath : String
  issuersCRLPath : String
  rejectedCertsPath : String
  hostNameInvalid : Bool
  timeInvalid : Bool
  chainIncomplete : Bool
  revocationUnknown : Bool
  deriving DecidableEq, Repr

/-- Its parameters in order. -/
def validateCertificate (trustedPath trustedCRLPath issuersPath issuersCRLPath rejectedCertsPath : String)
    (hostNameInvalid timeInvalid chainIncomplete revocationUnknown : Bool) : Checks :=
  { trustedPath, trustedCRLPath, issuersPath, issuersCRLPath, rejectedCertsPath, hostNameInvalid, timeInvalid,
    chainIncomplete, revocationUnknown }

/-- The call in `Open`, client_secure_channel.go:283-296. -/
def Channel.checks (ch : Channel) : Checks :=
  validateCertificate ch.trustedCertsPath ch.trustedCRLsPath ch.issuerCertsPath ch.issuerCRLsPath ch.rejectedCertsPath
    ch.suppressHostNameInvalid ch.suppressCertificateExpired ch.suppressCertificateChainIncomplete
    ch.suppressCertificateRevocationUnknown

/-- net.DialTimeout, client_secure_channel.go:303, in milliseconds. -/
def Channel.dialTimeout (ch : Channel) : Int := ch.connectTimeout

/-- The numbers of the Hello message in order, client_secure_channel.go:314-317. -/
def Channel.hello (ch : Channel) : List Nat :=
  [ch.receiveBufferSize, ch.sendBufferSize, ch.maxResponseMessageSize, ch.maxResponseChunkCount]

/-- RequestedLifetime of the first token and of renewals, client_secure_channel.go:451 and 1768. -/
def Channel.lifetimes (ch : Channel) : List Nat := [ch.tokenRequestedLifetime, ch.tokenRequestedLifetime]

/-- The header of a request, client_secure_channel.go:238-244: TimeoutHint and ReturnDiagnostics, of what the caller has
set there. -/
def Channel.header (_ : Channel) (timeoutHint returnDiagnostics : Nat) : Nat × Nat :=
  (if timeoutHint = 0 then defaultTimeoutHint else timeoutHint, returnDiagnostics)

/-- CreateSession, client.go:243-251: the name of the client, SessionName, ClientCertificate, RequestedSessionTimeout,
MaxResponseMessageSize. -/
structure CreateSession where
  clientName : String
  sessionName : String
  clientCertificate : List UInt8
  requestedSessionTimeout : Rat
  maxResponseMessageSize : Nat
  deriving DecidableEq, Repr

def createSession (c : Client) : CreateSession :=
  { clientName := c.applicationName, sessionName := c.sessionName,
    clientCertificate := (sessionChannel c).localCertificate, requestedSessionTimeout := c.sessionTimeout,
    maxResponseMessageSize := defaultMaxMessageSize }

/-! ## The server -/

/-- An interface that holds a function: nil, or a function that may be nil itself. -/
abbrev Func := Option (Option Nat)

/-- The settings in `Server`, server.go:41-94. `capabilities = none` is a nil pointer. -/
structure Server where
  maxSessionCount : Nat
  maxSubscriptionCount : Nat
  capabilities : Option Nat
  buildInfo : Nat
  trustedCertsPath : String
  trustedCRLsPath : String
  issuerCertsPath : String
  issuerCRLsPath : String
  rejectedCertsPath : String
  suppressCertificateExpired : Bool
  suppressCertificateChainIncomplete : Bool
  suppressCertificateRevocationUnknown : Bool
  maxBufferSize : Nat
  maxMessageSize : Nat
  maxChunkCount : Nat
  maxWorkerThreads : Int
  diagnostics : Bool
  trace : Bool
  allowNone : Bool
  anonymousAuth : Func
  userNameAuth : Func
  x509Auth : Func
  issuedAuth : Func
  roles : Func
  rolePermissions : Nat
  historian : Option Nat
  deriving DecidableEq, Repr

/-- server.go:98-123; 0 stands for NewServerCapabilities, DefaultRolesProvider and DefaultRolePermissions. -/
def Server.default : Server :=
  { maxSessionCount := 0, maxSubscriptionCount := 0, capabilities := some 0, buildInfo := 0, trustedCertsPath := "",
    trustedCRLsPath := "", issuerCertsPath := "", issuerCRLsPath := "", rejectedCertsPath := "",
    suppressCertificateExpired := false, suppressCertificateChainIncomplete := false,
    suppressCertificateRevocationUnknown := false, maxBufferSize := 64 * 1024, maxMessageSize := 64 * 1024 * 1024,
    maxChunkCount := 4 * 1024, maxWorkerThreads := 4, diagnostics := true, trace := false, allowNone := false,
    anonymousAuth := none, userNameAuth := none, x509Auth := none, issuedAuth := none, roles := some (some 0),
    rolePermissions := 0, historian := none }

/-- The functions of server/option.go. -/
inductive SOpt where
  | maxSessionCount (value : Nat)
  | maxSubscriptionCount (value : Nat)
  | serverCapabilities (value : Option Nat)
  | buildInfo (value : Nat)
  | trustedCertificatesPaths (certPath crlPath : String)
  | issuerCertificatesPaths (certPath crlPath : String)
  | rejectedCertificatesPath (path : String)
  | insecureSkipVerify
  | transportLimits (maxBufferSize maxMessageSize maxChunkCount : Nat)
  | maxWorkerThreads (value : Int)
  | serverDiagnostics (value : Bool)
  | trace
  | anonymousIdentity (value : Bool)
  | securityPolicyNone (value : Bool)
  | anonymousIdentityAuthenticator (a : Func)
  | authenticateAnonymousIdentityFunc (f : Option Nat)
  | userNameIdentityAuthenticator (a : Func)
  | authenticateUserNameIdentityFunc (f : Option Nat)
  | x509IdentityAuthenticator (a : Func)
  | authenticateX509IdentityFunc (f : Option Nat)
  | rolesProvider (p : Func)
  | getRolesFunc (f : Option Nat)
  | rolePermissions (value : Nat)
  | historian (h : Option Nat)
  deriving DecidableEq, Repr

/-- What the option does to the server, server/option.go:11-221. The function of WithAnonymousIdentity(true) that lets
everyone in is number 0. -/
def applyS (s : Server) : SOpt → Server
  | .maxSessionCount v => { s with maxSessionCount := v }
  | .maxSubscriptionCount v => { s with maxSubscriptionCount := v }
  | .serverCapabilities v => { s with capabilities := v }
  | .buildInfo v => { s with buildInfo := v }
  | .trustedCertificatesPaths cp rp => { s with trustedCertsPath := cp, trustedCRLsPath := rp }
  | .issuerCertificatesPaths cp rp => { s with issuerCertsPath := cp, issuerCRLsPath := rp }
  | .rejectedCertificatesPath p => { s with rejectedCertsPath := p }
  | .insecureSkipVerify => { s with
      suppressCertificateExpired := true, suppressCertificateChainIncomplete := true,
      suppressCertificateRevocationUnknown := true }
  | .transportLimits b m n => { s with maxBufferSize := b, maxMessageSize := m, maxChunkCount := n }
  | .maxWorkerThreads v => { s with maxWorkerThreads := v }
  | .serverDiagnostics v => { s with diagnostics := v }
  | .trace => { s with trace := true }
  | .anonymousIdentity v => if v then { s with anonymousAuth := some (some 0) } else { s with anonymousAuth := none }
  | .securityPolicyNone v => { s with allowNone := v }
  | .anonymousIdentityAuthenticator a => { s with anonymousAuth := a }
  | .authenticateAnonymousIdentityFunc f => { s with anonymousAuth := some f }
  | .userNameIdentityAuthenticator a => { s with userNameAuth := a }
  | .authenticateUserNameIdentityFunc f => { s with userNameAuth := some f }
  | .x509IdentityAuthenticator a => { s with x509Auth := a }
  | .authenticateX509IdentityFunc f => { s with x509Auth := some f }
  | .rolesProvider p => { s with roles := p }
  | .getRolesFunc f => { s with roles := some f }
  | .rolePermissions v => { s with rolePermissions := v }
  | .historian h => { s with historian := h }

/-- The loop, server.go:126-130; no option of the package fails. -/
def applySAll (opts : List SOpt) : Server := opts.foldl applyS Server.default

/-- `New` after the options, server.go:132-151: `initializeNamespace` reads the capabilities (607-700). -/
def newServer (opts : List SOpt) : Res Server :=
  let s := applySAll opts
  match s.capabilities with
  | none => .panic
  | some _ => .ok s

/-- The channel of a connection, server_secure_channel.go:102-121: receiveBufferSize, sendBufferSize,
maxRequestMessageSize, maxRequestChunkCount. -/
def Server.transport (s : Server) : List Nat := [s.maxBufferSize, s.maxBufferSize, s.maxMessageSize, s.maxChunkCount]

/-- The call of ValidateCertificate, server_secure_channel.go:323-336. -/
def Server.checks (s : Server) : Checks :=
  validateCertificate s.trustedCertsPath s.trustedCRLsPath s.issuerCertsPath s.issuerCRLsPath s.rejectedCertsPath
    false s.suppressCertificateExpired s.suppressCertificateChainIncomplete s.suppressCertificateRevocationUnknown

/-- `Add`, session_manager.go:54 with NewSessionManager (21-30), and subscription_manager.go:53-56: whether there is
room for another one. -/
def room (max n : Nat) : Bool := !(decide (max > 0) && decide (n ≥ max))

def Server.roomForSession (s : Server) (n : Nat) : Bool := room s.maxSessionCount n
def Server.roomForSubscription (s : Server) (n : Nat) : Bool := room s.maxSubscriptionCount n

/-- workerpool.New of gammazero/workerpool: fewer than one is one. -/
def Server.workers (s : Server) : Nat := if s.maxWorkerThreads < 1 then 1 else s.maxWorkerThreads.toNat

/-- The switch over the identity, server_service_set.go:787-815: no authenticator rejects; otherwise it is called.
`says` is what the authenticators answer. -/
def Server.authenticate (s : Server) (says : Nat → User → Bool) (u : User) : Res Bool :=
  let ask : Func → Res Bool
    | none => .ok false
    | some none => .panic
    | some (some f) => .ok (says f u)
  match u with
  | .anonymous => ask s.anonymousAuth
  | .userName _ _ => ask s.userNameAuth
  | .x509 _ _ => ask s.x509Auth
  | .issued _ => ask s.issuedAuth

/-- GetRoles, server.go:350-352. -/
def Server.askRoles (s : Server) : Res Nat :=
  match s.roles with
  | none => .panic
  | some none => .panic
  | some (some p) => .ok p

end Opcua.Options
