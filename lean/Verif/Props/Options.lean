import Verif.Model.Options

/-!
# C120: the setting the user chose is the one the library uses

Each option says what it sets. Of several options for the same setting the last one counts, and options for different
settings do not touch each other. A setting nobody chose has its documented default. What counts is what can be seen
outside: the numbers in the Hello message, the lifetime asked for a token, the fields of CreateSession, what the
validation of certificates is told, and who is let in.
-/

namespace Opcua.Options

namespace Spec

/-- The last choice in the list, or the default. -/
def last {α β : Type} (choose : β → Option α) (d : α) (opts : List β) : α := (opts.filterMap choose).getLast?.getD d

/-! What each option of the client chooses, from its documentation. -/

def policy : Opt → Option (String × Nat)
  | .securityPolicyURI u m => some (u, m)
  | _ => none

/-- The certificates of a file one after the other, and its key if it is an RSA key. -/
def pair (load : Load) (cp kp : String) : Option (List UInt8 × Option Nat) :=
  (load cp kp).map fun p => (p.1.flatten, match p.2 with | .rsa k => some k | .other => none)

def user (load : Load) : Opt → Option User
  | .userNameIdentity n p => some (.userName n p)
  | .x509Identity c k => some (.x509 c k)
  | .x509IdentityFile cp kp => (pair load cp kp).map fun p => .x509 p.1 p.2
  | .x509IdentityPaths cp kp => (pair load cp kp).map fun p => .x509 p.1 p.2
  | .issuedIdentity d => some (.issued d)
  | _ => none

def certificate (load : Load) : Opt → Option (List UInt8 × Option Nat)
  | .clientCertificate c k => some (c, k)
  | .clientCertificateFile cp kp => pair load cp kp
  | .clientCertificatePaths cp kp => pair load cp kp
  | _ => none

def applicationName : Opt → Option String
  | .applicationName v => some v
  | _ => none

def sessionName : Opt → Option String
  | .sessionName v => some v
  | _ => none

def sessionTimeout : Opt → Option Rat
  | .sessionTimeout v => some v
  | _ => none

def trustedCerts : Opt → Option String
  | .trustedCertificatesFile p => some p
  | .trustedCertificatesPaths p _ => some p
  | _ => none

def trustedCRLs : Opt → Option String
  | .trustedCertificatesPaths _ p => some p
  | _ => none

def issuerCerts : Opt → Option String
  | .issuerCertificatesPaths p _ => some p
  | _ => none

def issuerCRLs : Opt → Option String
  | .issuerCertificatesPaths _ p => some p
  | _ => none

def rejected : Opt → Option String
  | .rejectedCertificatesPath p => some p
  | _ => none

def skip : Opt → Option Bool
  | .insecureSkipVerify => some true
  | _ => none

def tokenLifetime : Opt → Option Nat
  | .tokenLifetime v => some v
  | _ => none

def connectTimeout : Opt → Option Int
  | .connectTimeout v => some v
  | _ => none

def limits : Opt → Option (Nat × Nat × Nat)
  | .transportLimits b m n => some (b, m, n)
  | _ => none

def trace : Opt → Option Bool
  | .trace => some true
  | _ => none

def timeoutHint : Opt → Option Nat
  | .timeoutHint v => some v
  | _ => none

def diagnosticsHint : Opt → Option Nat
  | .diagnosticsHint v => some v
  | _ => none

/-- The files an option reads. -/
def files : Opt → Option (String × String)
  | .x509IdentityFile cp kp => some (cp, kp)
  | .x509IdentityPaths cp kp => some (cp, kp)
  | .clientCertificateFile cp kp => some (cp, kp)
  | .clientCertificatePaths cp kp => some (cp, kp)
  | _ => none

/-- Every file the option reads can be read and holds an RSA key. -/
def good (load : Load) (o : Opt) : Prop :=
  ∀ f, files o = some f → ∃ chain k, load f.1 f.2 = some (chain, .rsa k)

/-- What an option is about. -/
inductive Topic where
  | policy | user | certificate | applicationName | sessionName | sessionTimeout | trusted | issuers | rejected
  | verify | timeoutHint | diagnosticsHint | tokenLifetime | connectTimeout | trace | limits
  deriving DecidableEq, Repr

def topic : Opt → Topic
  | .securityPolicyURI .. => .policy
  | .userNameIdentity .. => .user
  | .x509Identity .. => .user
  | .x509IdentityFile .. => .user
  | .x509IdentityPaths .. => .user
  | .issuedIdentity .. => .user
  | .applicationName .. => .applicationName
  | .sessionName .. => .sessionName
  | .sessionTimeout .. => .sessionTimeout
  | .clientCertificate .. => .certificate
  | .clientCertificateFile .. => .certificate
  | .clientCertificatePaths .. => .certificate
  | .trustedCertificatesFile .. => .trusted
  | .trustedCertificatesPaths .. => .trusted
  | .issuerCertificatesPaths .. => .issuers
  | .rejectedCertificatesPath .. => .rejected
  | .insecureSkipVerify => .verify
  | .timeoutHint .. => .timeoutHint
  | .diagnosticsHint .. => .diagnosticsHint
  | .tokenLifetime .. => .tokenLifetime
  | .connectTimeout .. => .connectTimeout
  | .trace => .trace
  | .transportLimits .. => .limits

/-! What each option of the server chooses. -/

def sLimits : SOpt → Option (Nat × Nat × Nat)
  | .transportLimits b m n => some (b, m, n)
  | _ => none

def sTrusted : SOpt → Option (String × String)
  | .trustedCertificatesPaths c r => some (c, r)
  | _ => none

def sIssuers : SOpt → Option (String × String)
  | .issuerCertificatesPaths c r => some (c, r)
  | _ => none

def sRejected : SOpt → Option String
  | .rejectedCertificatesPath p => some p
  | _ => none

def sSkip : SOpt → Option Bool
  | .insecureSkipVerify => some true
  | _ => none

def sSessions : SOpt → Option Nat
  | .maxSessionCount v => some v
  | _ => none

def sSubscriptions : SOpt → Option Nat
  | .maxSubscriptionCount v => some v
  | _ => none

def sWorkers : SOpt → Option Int
  | .maxWorkerThreads v => some v
  | _ => none

def sDiagnostics : SOpt → Option Bool
  | .serverDiagnostics v => some v
  | _ => none

def sTrace : SOpt → Option Bool
  | .trace => some true
  | _ => none

def sNone : SOpt → Option Bool
  | .securityPolicyNone v => some v
  | _ => none

def sBuild : SOpt → Option Nat
  | .buildInfo v => some v
  | _ => none

def sPermissions : SOpt → Option Nat
  | .rolePermissions v => some v
  | _ => none

def sHistorian : SOpt → Option (Option Nat)
  | .historian h => some h
  | _ => none

def sCapabilities : SOpt → Option (Option Nat)
  | .serverCapabilities v => some v
  | _ => none

/-- Who decides about anonymous users, users with a name, users with a certificate: nobody, a function that is missing,
or a function. -/
def sAnonymous : SOpt → Option Func
  | .anonymousIdentity true => some (some (some 0))
  | .anonymousIdentity false => some none
  | .anonymousIdentityAuthenticator a => some a
  | .authenticateAnonymousIdentityFunc f => some (some f)
  | _ => none

def sUserName : SOpt → Option Func
  | .userNameIdentityAuthenticator a => some a
  | .authenticateUserNameIdentityFunc f => some (some f)
  | _ => none

def sX509 : SOpt → Option Func
  | .x509IdentityAuthenticator a => some a
  | .authenticateX509IdentityFunc f => some (some f)
  | _ => none

def sRoles : SOpt → Option Func
  | .rolesProvider p => some p
  | .getRolesFunc f => some (some f)
  | _ => none

/-- Who decides about a user. -/
def decider (opts : List SOpt) : User → Func
  | .anonymous => last sAnonymous none opts
  | .userName _ _ => last sUserName none opts
  | .x509 _ _ => last sX509 none opts
  | .issued _ => none

end Spec

open Spec

/-! ## The client -/

theorem last_nil {α β : Type} (f : β → Option α) (d : α) : last f d [] = d := rfl

theorem last_cons {α β : Type} (f : β → Option α) (d : α) (o : β) (os : List β) :
    last f d (o :: os) = last f ((f o).getD d) os := by
  unfold last
  cases h : f o with
  | none => simp [h]
  | some v =>
    simp only [List.filterMap_cons, h, List.getLast?_cons, Option.getD_some]

/-- A setting that each option sets as it says is the last one chosen. -/
theorem field_last {α : Type} (load : Load) (get : Client → α) (f : Opt → Option α)
    (hf : ∀ c o c', apply load c o = .ok c' → get c' = (f o).getD (get c)) :
    ∀ (opts : List Opt) (c c' : Client), applyAll load c opts = .ok c' → get c' = last f (get c) opts
  | [], c, c', h => by
    simp only [applyAll, Res.ok.injEq] at h
    rw [last_nil, h]
  | o :: os, c, c', h => by
    rw [last_cons]
    simp only [applyAll] at h
    split at h
    · rename_i c₁ h₁
      rw [field_last load get f hf os c₁ c' h, hf c o c₁ h₁]
    · exact absurd h (by simp)
    · exact absurd h (by simp)

/-- Splits an application into the cases of the options. -/
macro "by_option" h:ident o:ident : tactic =>
  `(tactic| (cases $o:ident <;> simp only [apply] at $h:ident <;> (try split at $h:ident) <;>
      first
      | (cases $h:ident; done)
      | (simp only [Res.ok.injEq] at $h:ident; subst $h:ident; simp_all [policy, pair, user, certificate, Spec.applicationName,
          Spec.sessionName, Spec.sessionTimeout, trustedCerts, trustedCRLs, issuerCerts, issuerCRLs, rejected, skip,
          Spec.tokenLifetime, Spec.connectTimeout, limits, Spec.trace, Spec.timeoutHint, Spec.diagnosticsHint])))

theorem url_apply (load : Load) (c : Client) (o : Opt) (c' : Client) (h : apply load c o = .ok c') :
    c'.endpointURL = c.endpointURL := by
  by_option h o

/-- The options never change where the client connects to. -/
theorem url_applyAll (load : Load) : ∀ (opts : List Opt) (c c' : Client), applyAll load c opts = .ok c' →
    c'.endpointURL = c.endpointURL
  | [], c, c', h => by
    simp only [applyAll, Res.ok.injEq] at h
    rw [h]
  | o :: os, c, c', h => by
    simp only [applyAll] at h
    split at h
    · rename_i c₁ h₁
      rw [url_applyAll load os c₁ c' h, url_apply load c o c₁ h₁]
    · exact absurd h (by simp)
    · exact absurd h (by simp)

/-- **C120, the connection.** After any options in any order the Hello message carries the transport limits chosen last,
the connection is tried for as long as the connect timeout chosen last, at the URL that was given, and each token is
asked for with the lifetime chosen last; the defaults are 64 Kb, 64 Mb, 4096 chunks and 60 minutes.
Missing: the timeout of requests, the diagnostics asked for, the channel of discovery (`C120_*_fails`). -/
theorem C120_connection_partial (load : Load) (url : String) (opts : List Opt) (c : Client)
    (h : applyAll load (.default url) opts = .ok c) :
    (sessionChannel c).hello =
        [(last limits (65536, 67108864, 4096) opts).1, (last limits (65536, 67108864, 4096) opts).1,
          (last limits (65536, 67108864, 4096) opts).2.1, (last limits (65536, 67108864, 4096) opts).2.2] ∧
      (sessionChannel c).dialTimeout = last connectTimeout 15000 opts ∧
      (sessionChannel c).endpointURL = url ∧
      (∀ l ∈ (sessionChannel c).lifetimes, l = last tokenLifetime 3600000 opts) ∧
      (sessionChannel c).bytesPool = (last limits (65536, 67108864, 4096) opts).1 ∧
      (sessionChannel c).bufferPool = (last limits (65536, 67108864, 4096) opts).1 := by
  have h1 := field_last load (fun c => (c.maxBufferSize, c.maxMessageSize, c.maxChunkCount)) limits
    (by intro c o c' h; by_option h o) opts _ _ h
  have h2 := field_last load (fun c => c.connectTimeout) connectTimeout (by intro c o c' h; by_option h o) opts _ _ h
  have h3 := field_last load (fun c => c.tokenLifetime) tokenLifetime (by intro c o c' h; by_option h o) opts _ _ h
  have h4 := url_applyAll load opts _ _ h
  simp only [Client.default] at h1 h2 h3 h4
  refine ⟨?_, h2, h4, ?_, ?_, ?_⟩
  · simp only [Channel.hello, sessionChannel, newChannel]
    rw [← h1]
  · intro l hl
    simp only [Channel.lifetimes, sessionChannel, newChannel, List.mem_cons, List.not_mem_nil, or_false,
      or_self] at hl
    rw [hl]
    exact h3
  · simp only [sessionChannel, newChannel]
    rw [← h1]
  · simp only [sessionChannel, newChannel]
    rw [← h1]

/-- **C120, the session.** The session is asked for under the names, with the certificate and with the timeout chosen
last; it is activated with the identity chosen last; the key that signs is the one chosen with the certificate.
Missing: the greatest response (`C120_responseSize_fails`). -/
theorem C120_session_partial (load : Load) (url : String) (opts : List Opt) (c : Client)
    (h : applyAll load (.default url) opts = .ok c) :
    (createSession c).clientName = last applicationName "application" opts ∧
      (sessionChannel c).applicationName = last applicationName "application" opts ∧
      (createSession c).sessionName = last sessionName "" opts ∧
      (createSession c).requestedSessionTimeout = last sessionTimeout 120000 opts ∧
      ((createSession c).clientCertificate, (sessionChannel c).localPrivateKey) =
        last (certificate load) ([], none) opts ∧
      c.user = last (user load) .anonymous opts := by
  have h1 := field_last load (fun c => c.applicationName) applicationName (by intro c o c' h; by_option h o) opts _ _ h
  have h2 := field_last load (fun c => c.sessionName) sessionName (by intro c o c' h; by_option h o) opts _ _ h
  have h3 := field_last load (fun c => c.sessionTimeout) sessionTimeout (by intro c o c' h; by_option h o) opts _ _ h
  have h4 := field_last load (fun c => (c.localCertificate, c.localPrivateKey)) (certificate load)
    (by intro c o c' h; by_option h o) opts _ _ h
  have h5 := field_last load (fun c => c.user) (user load) (by intro c o c' h; by_option h o) opts _ _ h
  simp only [Client.default] at h1 h2 h3 h4 h5
  refine ⟨h1, h1, h2, ?_, h4, h5⟩
  have e : defaultSessionTimeout = 120000 := by decide +kernel
  rw [e] at h3
  exact h3

/-- **C120, the certificates.** The server's certificate is checked against the files chosen last, and a check is left
out exactly if the user asked to skip verification. -/
theorem C120_checks (load : Load) (url : String) (opts : List Opt) (c : Client)
    (h : applyAll load (.default url) opts = .ok c) :
    (sessionChannel c).checks =
      { trustedPath := last trustedCerts "" opts, trustedCRLPath := last trustedCRLs "" opts,
        issuersPath := last issuerCerts "" opts, issuersCRLPath := last issuerCRLs "" opts,
        rejectedCertsPath := last rejected "" opts, hostNameInvalid := decide (Opt.insecureSkipVerify ∈ opts),
        timeInvalid := decide (Opt.insecureSkipVerify ∈ opts),
        chainIncomplete := decide (Opt.insecureSkipVerify ∈ opts),
        revocationUnknown := decide (Opt.insecureSkipVerify ∈ opts) } := by
  have hs : ∀ opts : List Opt, last skip false opts = decide (Opt.insecureSkipVerify ∈ opts) := by
    have aux : ∀ (opts : List Opt) (b : Bool), last skip b opts = (b || decide (Opt.insecureSkipVerify ∈ opts)) := by
      intro opts
      induction opts with
      | nil => intro b; simp [last_nil]
      | cons o os ih =>
        intro b
        rw [last_cons, ih]
        cases o <;> simp [skip]
    intro opts
    rw [aux]
    simp
  have h1 := field_last load (fun c => c.trustedCertsPath) trustedCerts (by intro c o c' h; by_option h o) opts _ _ h
  have h2 := field_last load (fun c => c.trustedCRLsPath) trustedCRLs (by intro c o c' h; by_option h o) opts _ _ h
  have h3 := field_last load (fun c => c.issuerCertsPath) issuerCerts (by intro c o c' h; by_option h o) opts _ _ h
  have h4 := field_last load (fun c => c.issuerCRLsPath) issuerCRLs (by intro c o c' h; by_option h o) opts _ _ h
  have h5 := field_last load (fun c => c.rejectedCertsPath) rejected (by intro c o c' h; by_option h o) opts _ _ h
  have h6 := field_last load (fun c => c.suppressHostNameInvalid) skip (by intro c o c' h; by_option h o) opts _ _ h
  have h7 := field_last load (fun c => c.suppressCertificateExpired) skip (by intro c o c' h; by_option h o) opts _ _ h
  have h8 := field_last load (fun c => c.suppressCertificateChainIncomplete) skip
    (by intro c o c' h; by_option h o) opts _ _ h
  have h9 := field_last load (fun c => c.suppressCertificateRevocationUnknown) skip
    (by intro c o c' h; by_option h o) opts _ _ h
  simp only [Client.default, hs] at h1 h2 h3 h4 h5 h6 h7 h8 h9
  simp only [Channel.checks, validateCertificate, sessionChannel, newChannel, h1, h2, h3, h4, h5, h6, h7, h8, h9]

/-- **C120, the endpoint.** The policy and mode looked for are those chosen last; only if none is chosen and there is no
certificate is it the endpoint without security. -/
theorem C120_wanted (load : Load) (url : String) (opts : List Opt) (c : Client)
    (h : applyAll load (.default url) opts = .ok c) :
    wanted c = if (last policy ("", 0) opts).1 = "" ∧ (last (certificate load) ([], none) opts).1 = []
      then ("http://opcfoundation.org/UA/SecurityPolicy#None", 1) else last policy ("", 0) opts := by
  have h1 := field_last load (fun c => (c.securityPolicyURI, c.securityMode)) policy
    (by intro c o c' h; by_option h o) opts _ _ h
  have h2 := field_last load (fun c => (c.localCertificate, c.localPrivateKey)) (certificate load)
    (by intro c o c' h; by_option h o) opts _ _ h
  simp only [Client.default] at h1 h2
  unfold wanted
  rw [← h1, ← h2]

theorem good_apply (load : Load) (c : Client) (o : Opt) (h : good load o) : ∃ c', apply load c o = .ok c' := by
  cases o <;> simp only [apply]
  case x509IdentityFile cp kp => obtain ⟨ch, k, e⟩ := h (cp, kp) rfl; simp only at e; rw [e]; exact ⟨_, rfl⟩
  case x509IdentityPaths cp kp => obtain ⟨ch, k, e⟩ := h (cp, kp) rfl; simp only at e; rw [e]; exact ⟨_, rfl⟩
  case clientCertificateFile cp kp => obtain ⟨ch, k, e⟩ := h (cp, kp) rfl; simp only at e; rw [e]; exact ⟨_, rfl⟩
  case clientCertificatePaths cp kp => obtain ⟨ch, k, e⟩ := h (cp, kp) rfl; simp only at e; rw [e]; exact ⟨_, rfl⟩
  all_goals exact ⟨_, rfl⟩

/-- **C120, files.** Options whose files can be read and hold RSA keys are all taken. -/
theorem C120_files_taken (load : Load) : ∀ (opts : List Opt) (c : Client), (∀ o ∈ opts, good load o) →
    ∃ c', applyAll load c opts = .ok c'
  | [], c, _ => ⟨c, rfl⟩
  | o :: os, c, h => by
    obtain ⟨c₁, h₁⟩ := good_apply load c o (h o (List.mem_cons_self ..))
    obtain ⟨c₂, h₂⟩ := C120_files_taken load os c₁ (fun o ho => h o (List.mem_cons_of_mem _ ho))
    exact ⟨c₂, by simp only [applyAll, h₁, h₂]⟩

/-- **C120, files that cannot be read.** If some file cannot be read, Dial does not go on. It returns an error, unless an
option before it has panicked. -/
theorem C120_unreadable (load : Load) : ∀ (opts : List Opt) (c : Client) (o : Opt) (f : String × String), o ∈ opts →
    files o = some f → load f.1 f.2 = none → applyAll load c opts = .err ∨ applyAll load c opts = .panic
  | [], _, _, _, hm, _, _ => absurd hm (List.not_mem_nil)
  | o' :: os, c, o, f, hm, hf, hl => by
    rcases List.mem_cons.1 hm with rfl | hm
    · left
      have : apply load c o = .err := by
        cases o <;> simp [files] at hf <;> (subst hf; simp only at hl; simp [apply, hl])
      simp [applyAll, this]
    · simp only [applyAll]
      split
      · exact C120_unreadable load os _ o f hm hf hl
      · exact .inl rfl
      · exact .inr rfl

/-- A setting that belongs to one topic does not see in which order options for different topics come. -/
theorem comm_field {α : Type} (load : Load) (get : Client → α) (f : Opt → Option α) (t : Topic)
    (hf : ∀ c o c', apply load c o = .ok c' → get c' = (f o).getD (get c))
    (ht : ∀ o, topic o ≠ t → f o = none) {c c₁ c₂ c₃ c₄ : Client} {a b : Opt} (hn : topic a ≠ topic b)
    (h1 : apply load c a = .ok c₁) (h2 : apply load c b = .ok c₂) (h3 : apply load c₁ b = .ok c₃)
    (h4 : apply load c₂ a = .ok c₄) : get c₃ = get c₄ := by
  rw [hf _ _ _ h3, hf _ _ _ h4, hf _ _ _ h1, hf _ _ _ h2]
  by_cases ha : topic a = t
  · rw [ht b (fun hb => hn (ha.trans hb.symm))]
    rfl
  · rw [ht a ha]
    rfl

/-- Options for another topic leave a setting alone. -/
macro "by_topic" : tactic => `(tactic| (intro o ho; cases o <;> first | rfl | exact absurd rfl ho))

set_option maxHeartbeats 1000000 in
/-- Options for different topics may be exchanged. -/
theorem apply_comm (load : Load) (c : Client) (a b : Opt) (hn : topic a ≠ topic b) (c₁ c₂ c₃ c₄ : Client)
    (h1 : apply load c a = .ok c₁) (h2 : apply load c b = .ok c₂) (h3 : apply load c₁ b = .ok c₃)
    (h4 : apply load c₂ a = .ok c₄) : c₃ = c₄ := by
  have e1 : c₃.endpointURL = c₄.endpointURL := by
    rw [url_apply load _ _ _ h3, url_apply load _ _ _ h4, url_apply load _ _ _ h1, url_apply load _ _ _ h2]
  have e2 := comm_field load (fun c => (c.securityPolicyURI, c.securityMode)) policy .policy
    (by intro c o c' h; by_option h o) (by by_topic) hn h1 h2 h3 h4
  have e3 := comm_field load (fun c => c.user) (user load) .user
    (by intro c o c' h; by_option h o) (by by_topic) hn h1 h2 h3 h4
  have e4 := comm_field load (fun c => (c.localCertificate, c.localPrivateKey)) (certificate load) .certificate
    (by intro c o c' h; by_option h o) (by by_topic) hn h1 h2 h3 h4
  have e5 := comm_field load (fun c => c.applicationName) applicationName .applicationName
    (by intro c o c' h; by_option h o) (by by_topic) hn h1 h2 h3 h4
  have e6 := comm_field load (fun c => c.sessionName) sessionName .sessionName
    (by intro c o c' h; by_option h o) (by by_topic) hn h1 h2 h3 h4
  have e7 := comm_field load (fun c => c.sessionTimeout) sessionTimeout .sessionTimeout
    (by intro c o c' h; by_option h o) (by by_topic) hn h1 h2 h3 h4
  have e8 := comm_field load (fun c => c.trustedCertsPath) trustedCerts .trusted
    (by intro c o c' h; by_option h o) (by by_topic) hn h1 h2 h3 h4
  have e9 := comm_field load (fun c => c.trustedCRLsPath) trustedCRLs .trusted
    (by intro c o c' h; by_option h o) (by by_topic) hn h1 h2 h3 h4
  have e10 := comm_field load (fun c => c.issuerCertsPath) issuerCerts .issuers
    (by intro c o c' h; by_option h o) (by by_topic) hn h1 h2 h3 h4
  have e11 := comm_field load (fun c => c.issuerCRLsPath) issuerCRLs .issuers
    (by intro c o c' h; by_option h o) (by by_topic) hn h1 h2 h3 h4
  have e12 := comm_field load (fun c => c.rejectedCertsPath) rejected .rejected
    (by intro c o c' h; by_option h o) (by by_topic) hn h1 h2 h3 h4
  have e13 := comm_field load (fun c => c.suppressHostNameInvalid) skip .verify
    (by intro c o c' h; by_option h o) (by by_topic) hn h1 h2 h3 h4
  have e14 := comm_field load (fun c => c.suppressCertificateExpired) skip .verify
    (by intro c o c' h; by_option h o) (by by_topic) hn h1 h2 h3 h4
  have e15 := comm_field load (fun c => c.suppressCertificateChainIncomplete) skip .verify
    (by intro c o c' h; by_option h o) (by by_topic) hn h1 h2 h3 h4
  have e16 := comm_field load (fun c => c.suppressCertificateRevocationUnknown) skip .verify
    (by intro c o c' h; by_option h o) (by by_topic) hn h1 h2 h3 h4
  have e17 := comm_field load (fun c => c.timeoutHint) timeoutHint .timeoutHint
    (by intro c o c' h; by_option h o) (by by_topic) hn h1 h2 h3 h4
  have e18 := comm_field load (fun c => c.diagnosticsHint) diagnosticsHint .diagnosticsHint
    (by intro c o c' h; by_option h o) (by by_topic) hn h1 h2 h3 h4
  have e19 := comm_field load (fun c => c.tokenLifetime) tokenLifetime .tokenLifetime
    (by intro c o c' h; by_option h o) (by by_topic) hn h1 h2 h3 h4
  have e20 := comm_field load (fun c => c.connectTimeout) connectTimeout .connectTimeout
    (by intro c o c' h; by_option h o) (by by_topic) hn h1 h2 h3 h4
  have e21 := comm_field load (fun c => (c.maxBufferSize, c.maxMessageSize, c.maxChunkCount)) limits .limits
    (by intro c o c' h; by_option h o) (by by_topic) hn h1 h2 h3 h4
  have e22 := comm_field load (fun c => c.trace) Spec.trace .trace
    (by intro c o c' h; by_option h o) (by by_topic) hn h1 h2 h3 h4
  simp only [Prod.mk.injEq] at e2 e4 e21
  apply Client.ext
  · exact e1
  · exact e2.1
  · exact e2.2
  · exact e3
  · exact e5
  · exact e6
  · exact e7
  · exact e4.1
  · exact e4.2
  · exact e8
  · exact e9
  · exact e10
  · exact e11
  · exact e12
  · exact e13
  · exact e14
  · exact e15
  · exact e16
  · exact e17
  · exact e18
  · exact e19
  · exact e20
  · exact e21.1
  · exact e21.2.1
  · exact e21.2.2
  · exact e22

/-- **C120, the order.** If no two options are about the same thing, their order does not matter. -/
theorem C120_order (load : Load) (l l' : List Opt) (hp : l.Perm l') : ∀ (c : Client), (∀ o ∈ l, good load o) →
    l.Pairwise (fun a b => topic a ≠ topic b) → applyAll load c l = applyAll load c l' := by
  induction hp with
  | nil => intro c _ _; rfl
  | cons o hp ih =>
    intro c hg hw
    simp only [applyAll]
    obtain ⟨c₁, h₁⟩ := good_apply load c o (hg o (List.mem_cons_self ..))
    rw [h₁]
    exact ih c₁ (fun o ho => hg o (List.mem_cons_of_mem _ ho)) (List.pairwise_cons.1 hw).2
  | swap a b l =>
    intro c hg hw
    have ga := hg a (by simp)
    have gb := hg b (by simp)
    have hn : topic b ≠ topic a := (List.pairwise_cons.1 hw).1 a (by simp)
    obtain ⟨c₁, h₁⟩ := good_apply load c a ga
    obtain ⟨c₂, h₂⟩ := good_apply load c b gb
    obtain ⟨c₃, h₃⟩ := good_apply load c₂ a ga
    obtain ⟨c₄, h₄⟩ := good_apply load c₁ b gb
    simp only [applyAll, h₁, h₂, h₃, h₄, apply_comm load c b a hn c₂ c₁ c₃ c₄ h₂ h₁ h₃ h₄]
  | trans hp1 _ ih1 ih2 =>
    intro c hg hw
    rw [ih1 c hg hw]
    refine ih2 c (fun o ho => hg o (hp1.mem_iff.2 ho)) ?_
    exact (hp1.pairwise_iff (fun h => Ne.symm h)).1 hw

/-- **C120 fails for the timeout hint.** Whatever was chosen, a request without its own hint is sent with 15000. -/
theorem C120_timeoutHint_fails (load : Load) (url : String) (opts : List Opt) (c : Client)
    (_ : applyAll load (.default url) opts = .ok c) (hv : last timeoutHint 15000 opts ≠ 15000) :
    ((sessionChannel c).header 0 0).1 ≠ last timeoutHint 15000 opts := by
  intro e
  apply hv
  rw [← e]
  rfl

/-- **C120 fails for the diagnostics hint.** Whatever was chosen, no request asks for diagnostics unless the caller has
filled in the header. -/
theorem C120_diagnosticsHint_fails (load : Load) (url : String) (opts : List Opt) (c : Client)
    (_ : applyAll load (.default url) opts = .ok c) (hv : last diagnosticsHint 0 opts ≠ 0) :
    ((sessionChannel c).header 0 0).2 ≠ last diagnosticsHint 0 opts := by
  intro e
  apply hv
  rw [← e]
  rfl

/-- **C120 fails for the size of responses.** CreateSession always names 64 Mb, although the Hello message names what
was chosen. -/
theorem C120_responseSize_fails (load : Load) (url : String) (opts : List Opt) (c : Client)
    (_ : applyAll load (.default url) opts = .ok c) (hv : (last limits (65536, 67108864, 4096) opts).2.1 ≠ 67108864) :
    (createSession c).maxResponseMessageSize ≠ (last limits (65536, 67108864, 4096) opts).2.1 := by
  intro e
  apply hv
  rw [← e]
  rfl

/-- **C120 fails for discovery.** The first connection of Dial waits 15 seconds and announces the default limits,
whatever was chosen. -/
theorem C120_discovery_fails (load : Load) (url : String) (opts : List Opt) (c : Client)
    (_ : applyAll load (.default url) opts = .ok c) :
    (last connectTimeout 15000 opts ≠ 15000 → (discoveryChannel c).dialTimeout ≠ last connectTimeout 15000 opts) ∧
      ((last limits (65536, 67108864, 4096) opts).1 ≠ 65536 →
        (discoveryChannel c).hello.head? ≠ some (last limits (65536, 67108864, 4096) opts).1) := by
  refine ⟨fun hv e => hv ?_, fun hv e => hv ?_⟩
  · rw [← e]
    rfl
  · simp only [Channel.hello, discoveryChannel, newChannel, List.head?_cons, Option.some.injEq] at e
    rw [← e]

/-- **C120 fails for two documented defaults**: the comments of WithTimeoutHint and WithConnectTimeout say 1500 and
5000. -/
theorem C120_documented_fails (load : Load) (url : String) (c : Client) (h : applyAll load (.default url) [] = .ok c) :
    ((sessionChannel c).header 0 0).1 ≠ 1500 ∧ (sessionChannel c).dialTimeout ≠ 5000 := by
  simp only [applyAll, Res.ok.injEq] at h
  subst h
  simp [sessionChannel, newChannel, Client.default, Channel.header, Channel.dialTimeout, defaultTimeoutHint,
    defaultConnectTimeout]

/-- **C120 fails for keys that are not RSA keys.** As the key of a user such a file makes Dial panic. As the key of the
client it is taken without a word and the key is nil. -/
theorem C120_otherKey_fails (load : Load) (cp kp : String) (chain : List (List UInt8)) (c : Client) (os : List Opt)
    (hl : load cp kp = some (chain, .other)) :
    applyAll load c (.x509IdentityPaths cp kp :: os) = .panic ∧
      ∃ c', applyAll load c [.clientCertificatePaths cp kp] = .ok c' ∧ (sessionChannel c').localPrivateKey = none ∧
        (sessionChannel c').localCertificate = chain.flatten := by
  refine ⟨by simp [applyAll, apply, hl], ?_⟩
  refine ⟨_, by simp only [applyAll, apply, hl]; rfl, rfl, rfl⟩

/-- A machine with two pairs of files. -/
def sampleLoad : Load := fun cp _ =>
  if cp = "client.crt" then some ([[1, 2], [3]], .rsa 7) else if cp = "ec.crt" then some ([[9]], .other) else none

example : ∃ c, applyAll sampleLoad (.default "opc.tcp://h:4840")
    [.tokenLifetime 60000, .clientCertificatePaths "client.crt" "client.key", .transportLimits 8192 100000 16,
      .userNameIdentity "joe" "pw", .tokenLifetime 1000, .insecureSkipVerify] = .ok c ∧
      (sessionChannel c).hello = [8192, 8192, 100000, 16] ∧ (sessionChannel c).lifetimes = [1000, 1000] ∧
      (createSession c).clientCertificate = [1, 2, 3] ∧ (sessionChannel c).localPrivateKey = some 7 ∧
      c.user = .userName "joe" "pw" ∧ (sessionChannel c).checks.timeInvalid = true ∧ wanted c = ("", 0) ∧
      (createSession c).maxResponseMessageSize = 67108864 := by
  refine ⟨_, rfl, ?_⟩
  decide +kernel

example : applyAll sampleLoad (.default "") [.sessionName "a", .x509IdentityPaths "none.crt" "none.key", .trace] = .err ∧
    applyAll sampleLoad (.default "") [.x509IdentityFile "ec.crt" "ec.key"] = .panic := by
  decide +kernel

example : ∀ o ∈ [Opt.sessionName "a", .clientCertificateFile "client.crt" "k", .trace], good sampleLoad o := by
  intro o ho f hf
  simp at ho
  rcases ho with rfl | rfl | rfl <;> simp [files] at hf
  subst hf
  exact ⟨_, _, rfl⟩

example : [Opt.sessionName "a", .clientCertificateFile "client.crt" "k", .trace].Pairwise
    (fun a b => topic a ≠ topic b) := by
  decide

example : last timeoutHint 15000 [.timeoutHint 500] ≠ 15000 ∧ last diagnosticsHint 0 [.diagnosticsHint 3] ≠ 0 ∧
    (last limits (65536, 67108864, 4096) [.transportLimits 8192 100 1]).2.1 ≠ 67108864 ∧
    last connectTimeout 15000 [.connectTimeout 500] ≠ 15000 := by
  decide

/-! ## The server -/

/-- A setting that each option sets as it says is the last one chosen. -/
theorem sfield_last {α : Type} (get : Server → α) (f : SOpt → Option α)
    (hf : ∀ s o, get (applyS s o) = (f o).getD (get s)) :
    ∀ (opts : List SOpt) (s : Server), get (opts.foldl applyS s) = last f (get s) opts
  | [], s => rfl
  | o :: os, s => by rw [List.foldl_cons, sfield_last get f hf os, hf, last_cons]

/-- The cases of the options. -/
macro "by_soption" o:ident : tactic =>
  `(tactic| (cases $o:ident <;> first
      | rfl
      | (rename_i v; cases v <;> rfl)))

theorem last_skip (opts : List SOpt) : last sSkip false opts = decide (SOpt.insecureSkipVerify ∈ opts) := by
  have aux : ∀ (opts : List SOpt) (b : Bool), last sSkip b opts = (b || decide (SOpt.insecureSkipVerify ∈ opts)) := by
    intro opts
    induction opts with
    | nil => intro b; simp [last_nil]
    | cons o os ih =>
      intro b
      rw [last_cons, ih]
      cases o <;> simp [sSkip]
  rw [aux]
  simp

theorem newServer_ok (opts : List SOpt) (s : Server) (h : newServer opts = .ok s) : s = opts.foldl applyS .default := by
  simp only [newServer] at h
  split at h
  · exact absurd h (by simp)
  · simp only [Res.ok.injEq] at h
    exact h.symm

/-- **C120, the server's limits.** A connection is limited by the transport limits chosen last. There is room for another
session, and for another subscription, exactly if the number chosen last is zero or not yet reached. There are as
many workers as chosen last, and at least one. -/
theorem C120_serverLimits (opts : List SOpt) (s : Server) (h : newServer opts = .ok s) (n : Nat) :
    s.transport = [(last sLimits (65536, 67108864, 4096) opts).1, (last sLimits (65536, 67108864, 4096) opts).1,
        (last sLimits (65536, 67108864, 4096) opts).2.1, (last sLimits (65536, 67108864, 4096) opts).2.2] ∧
      (s.roomForSession n = true ↔ last sSessions 0 opts = 0 ∨ n < last sSessions 0 opts) ∧
      (s.roomForSubscription n = true ↔ last sSubscriptions 0 opts = 0 ∨ n < last sSubscriptions 0 opts) ∧
      1 ≤ s.workers ∧ (1 ≤ last sWorkers 4 opts → (s.workers : Int) = last sWorkers 4 opts) := by
  have e := newServer_ok opts s h
  have h1 := sfield_last (fun s => (s.maxBufferSize, s.maxMessageSize, s.maxChunkCount)) sLimits
    (by intro s o; by_soption o) opts .default
  have h2 := sfield_last (fun s => s.maxSessionCount) sSessions (by intro s o; by_soption o) opts .default
  have h3 := sfield_last (fun s => s.maxSubscriptionCount) sSubscriptions (by intro s o; by_soption o) opts .default
  have h4 := sfield_last (fun s => s.maxWorkerThreads) sWorkers (by intro s o; by_soption o) opts .default
  rw [← e] at h1 h2 h3 h4
  simp only [Server.default] at h1 h2 h3 h4
  refine ⟨?_, ?_, ?_, ?_, ?_⟩
  · simp only [Server.transport]
    rw [← h1]
  · simp only [Server.roomForSession, room, h2, Bool.not_eq_true', Bool.and_eq_false_iff, decide_eq_false_iff_not]
    omega
  · simp only [Server.roomForSubscription, room, h3, Bool.not_eq_true', Bool.and_eq_false_iff, decide_eq_false_iff_not]
    omega
  · simp only [Server.workers]
    split <;> omega
  · rw [← h4]
    intro hw
    simp only [Server.workers]
    split <;> omega

/-- **C120, the server's certificates.** A client's certificate is checked against the files chosen last; a check is left
out only if the user asked to skip verification. -/
theorem C120_serverChecks (opts : List SOpt) (s : Server) (h : newServer opts = .ok s) :
    s.checks =
      { trustedPath := (last sTrusted ("", "") opts).1, trustedCRLPath := (last sTrusted ("", "") opts).2,
        issuersPath := (last sIssuers ("", "") opts).1, issuersCRLPath := (last sIssuers ("", "") opts).2,
        rejectedCertsPath := last sRejected "" opts, hostNameInvalid := false,
        timeInvalid := decide (SOpt.insecureSkipVerify ∈ opts),
        chainIncomplete := decide (SOpt.insecureSkipVerify ∈ opts),
        revocationUnknown := decide (SOpt.insecureSkipVerify ∈ opts) } := by
  have e := newServer_ok opts s h
  have h1 := sfield_last (fun s => (s.trustedCertsPath, s.trustedCRLsPath)) sTrusted (by intro s o; by_soption o)
    opts .default
  have h2 := sfield_last (fun s => (s.issuerCertsPath, s.issuerCRLsPath)) sIssuers (by intro s o; by_soption o)
    opts .default
  have h3 := sfield_last (fun s => s.rejectedCertsPath) sRejected (by intro s o; by_soption o) opts .default
  have h4 := sfield_last (fun s => s.suppressCertificateExpired) sSkip (by intro s o; by_soption o) opts .default
  have h5 := sfield_last (fun s => s.suppressCertificateChainIncomplete) sSkip (by intro s o; by_soption o) opts .default
  have h6 := sfield_last (fun s => s.suppressCertificateRevocationUnknown) sSkip (by intro s o; by_soption o)
    opts .default
  rw [← e] at h1 h2 h3 h4 h5 h6
  simp only [Server.default, last_skip] at h1 h2 h3 h4 h5 h6
  simp only [Server.checks, validateCertificate, h3, h4, h5, h6]
  rw [← h1, ← h2]

/-- **C120, who is let in.** A user is let in exactly if a function was chosen last for this kind of user and says yes.
Missing: there is no option for issued identities, and a missing function is called (`C120_issued_fails`,
`C120_nilFunc_fails`). -/
theorem C120_entry_partial (opts : List SOpt) (s : Server) (h : newServer opts = .ok s) (says : Nat → User → Bool)
    (u : User) :
    s.authenticate says u = .ok true ↔ ∃ f, decider opts u = some (some f) ∧ says f u = true := by
  have e := newServer_ok opts s h
  have h1 := sfield_last (fun s => s.anonymousAuth) sAnonymous (by intro s o; by_soption o) opts .default
  have h2 := sfield_last (fun s => s.userNameAuth) sUserName (by intro s o; by_soption o) opts .default
  have h3 := sfield_last (fun s => s.x509Auth) sX509 (by intro s o; by_soption o) opts .default
  have h4 := sfield_last (fun s => s.issuedAuth) (fun _ => none) (by intro s o; by_soption o) opts .default
  have h5 : last (fun _ : SOpt => (none : Option Func)) none opts = none := by
    simp [last, List.filterMap_eq_nil_iff.2]
  rw [← e] at h1 h2 h3 h4
  simp only [Server.default, h5] at h1 h2 h3 h4
  have key : ∀ a : Func, (match a with
      | none => (Res.ok false : Res Bool)
      | some none => Res.panic
      | some (some f) => .ok (says f u)) = .ok true ↔ ∃ f, a = some (some f) ∧ says f u = true := by
    intro a
    rcases a with _ | _ | f <;> simp
  cases u with
  | anonymous => rw [show decider opts .anonymous = s.anonymousAuth from h1.symm]; exact key _
  | userName n p => rw [show decider opts (.userName n p) = s.userNameAuth from h2.symm]; exact key _
  | x509 c k => rw [show decider opts (.x509 c k) = s.x509Auth from h3.symm]; exact key _
  | issued d => rw [show decider opts (.issued d) = s.issuedAuth from h4.symm]; exact key _

/-- **C120, nobody is let in by default.** A server without any of the options for identities rejects everyone. -/
theorem C120_closed (opts : List SOpt) (s : Server) (h : newServer opts = .ok s)
    (hn : ∀ o ∈ opts, sAnonymous o = none ∧ sUserName o = none ∧ sX509 o = none) (says : Nat → User → Bool) (u : User) :
    s.authenticate says u = .ok false := by
  have e := newServer_ok opts s h
  have h1 := sfield_last (fun s => s.anonymousAuth) sAnonymous (by intro s o; by_soption o) opts .default
  have h2 := sfield_last (fun s => s.userNameAuth) sUserName (by intro s o; by_soption o) opts .default
  have h3 := sfield_last (fun s => s.x509Auth) sX509 (by intro s o; by_soption o) opts .default
  have h4 := sfield_last (fun s => s.issuedAuth) (fun _ => none) (by intro s o; by_soption o) opts .default
  have z : ∀ f : SOpt → Option Func, (∀ o ∈ opts, f o = none) → last f none opts = none := by
    intro f hf
    simp [last, List.filterMap_eq_nil_iff.2 hf]
  rw [← e] at h1 h2 h3 h4
  replace h1 := h1.trans (z _ (fun o ho => (hn o ho).1))
  replace h2 := h2.trans (z _ (fun o ho => (hn o ho).2.1))
  replace h3 := h3.trans (z _ (fun o ho => (hn o ho).2.2))
  replace h4 := h4.trans (z _ (fun _ _ => rfl))
  cases u <;> simp [Server.authenticate, h1, h2, h3, h4]

/-- **C120, the rest of the server.** Diagnostics, tracing, endpoints without security, build info, permissions,
historian, capabilities and roles are those chosen last. -/
theorem C120_serverRest (opts : List SOpt) (s : Server) (h : newServer opts = .ok s) :
    s.diagnostics = last sDiagnostics true opts ∧ s.trace = last sTrace false opts ∧
      s.allowNone = last sNone false opts ∧ s.buildInfo = last sBuild 0 opts ∧
      s.rolePermissions = last sPermissions 0 opts ∧ s.historian = last sHistorian none opts ∧
      s.capabilities = last sCapabilities (some 0) opts ∧
      (∀ p, s.askRoles = .ok p ↔ last sRoles (some (some 0)) opts = some (some p)) := by
  have e := newServer_ok opts s h
  have h1 := sfield_last (fun s => s.diagnostics) sDiagnostics (by intro s o; by_soption o) opts .default
  have h2 := sfield_last (fun s => s.trace) sTrace (by intro s o; by_soption o) opts .default
  have h3 := sfield_last (fun s => s.allowNone) sNone (by intro s o; by_soption o) opts .default
  have h4 := sfield_last (fun s => s.buildInfo) sBuild (by intro s o; by_soption o) opts .default
  have h5 := sfield_last (fun s => s.rolePermissions) sPermissions (by intro s o; by_soption o) opts .default
  have h6 := sfield_last (fun s => s.historian) sHistorian (by intro s o; by_soption o) opts .default
  have h7 := sfield_last (fun s => s.capabilities) sCapabilities (by intro s o; by_soption o) opts .default
  have h8 := sfield_last (fun s => s.roles) sRoles (by intro s o; by_soption o) opts .default
  rw [← e] at h1 h2 h3 h4 h5 h6 h7 h8
  simp only [Server.default] at h1 h2 h3 h4 h5 h6 h7 h8
  refine ⟨h1, h2, h3, h4, h5, h6, h7, fun p => ?_⟩
  rw [← h8]
  unfold Server.askRoles
  rcases s.roles with _ | _ | q <;> simp

/-- **C120, New.** It comes to a server exactly if the capabilities chosen last are not nil. -/
theorem C120_new (opts : List SOpt) :
    (∃ s, newServer opts = .ok s) ↔ last sCapabilities (some 0) opts ≠ none := by
  have h7 := sfield_last (fun s => s.capabilities) sCapabilities (by intro s o; by_soption o) opts .default
  simp only [Server.default] at h7
  rw [← h7]
  unfold newServer
  simp only [applySAll, Server.default]
  split
  · rename_i he
    simp [he]
  · rename_i he
    simp [he]

/-- **C120 fails for issued identities.** The client has WithIssuedIdentity, but no choice of options makes a server that
lets such a user in. -/
theorem C120_issued_fails (opts : List SOpt) (s : Server) (h : newServer opts = .ok s) (says : Nat → User → Bool)
    (d : List UInt8) : s.authenticate says (.issued d) ≠ .ok true := by
  intro hc
  obtain ⟨f, hf, _⟩ := (C120_entry_partial opts s h says (.issued d)).1 hc
  exact absurd hf (by simp [decider])

/-- **C120 fails for nil.** A nil authenticator rejects the user, but a nil function for the same purpose makes the
server panic when a user of this kind comes; nil capabilities make New panic; a nil provider panics when roles are
asked for. -/
theorem C120_nilFunc_fails (says : Nat → User → Bool) (n p : String) :
    (∃ s, newServer [.userNameIdentityAuthenticator none] = .ok s ∧ s.authenticate says (.userName n p) = .ok false) ∧
      (∃ s, newServer [.authenticateUserNameIdentityFunc none] = .ok s ∧
        s.authenticate says (.userName n p) = .panic) ∧
      newServer [.serverCapabilities none] = .panic ∧
      (∃ s, newServer [.rolesProvider none] = .ok s ∧ s.askRoles = .panic) :=
  ⟨⟨_, rfl, rfl⟩, ⟨_, rfl, rfl⟩, rfl, ⟨_, rfl, rfl⟩⟩

example : ∃ s, newServer [.anonymousIdentity true, .authenticateUserNameIdentityFunc (some 3), .maxSessionCount 2,
    .anonymousIdentity false, .transportLimits 8192 100 1, .maxWorkerThreads 0] = .ok s ∧
      s.authenticate (fun f u => f == 3 && u == .userName "joe" "pw") (.userName "joe" "pw") = .ok true ∧
      s.authenticate (fun _ _ => true) .anonymous = .ok false ∧ s.roomForSession 1 = true ∧
      s.roomForSession 2 = false ∧ s.roomForSubscription 1000 = true ∧ s.workers = 1 ∧
      s.transport = [8192, 8192, 100, 1] ∧ s.checks.timeInvalid = false :=
  ⟨_, rfl, by decide +kernel⟩

example : ∀ o ∈ [SOpt.maxSessionCount 3, .securityPolicyNone true],
    sAnonymous o = none ∧ sUserName o = none ∧ sX509 o = none := by
  decide

end Opcua.Options
