import Verif.Model.Dial
import Verif.Props.Endpoint

/-!
# C100, C101 and C102: connecting to a server that may do anything

Specification: which response belongs to which request, what a server has shown of itself when a client is
connected, and what a healthy server does. None of it refers to the functions of the model.
-/

namespace Opcua.Dial

open Opcua Opcua.Endpoint Opcua.Endpoint.Spec

namespace Spec

/-- The requests of connecting and closing. -/
inductive Method where
  | openChannel | getEndpoints | createSession | activateSession | read | closeSession
  deriving DecidableEq, Repr

/-- The response is of the type that belongs to the request. -/
inductive Answers : Method → Body → Prop
  | openChannel : Answers .openChannel .openChannel
  | getEndpoints (es) : Answers .getEndpoints (.endpoints es)
  | createSession (c n s) : Answers .createSession (.session c n s)
  | activateSession : Answers .activateSession .activated
  | read (rs) : Answers .read (.read rs)
  | closeSession : Answers .closeSession .sessionClosed

/-- Nothing comes back, or an error, or a response of the right type. -/
def Polite (m : Method) (r : Reply) : Prop :=
  ∀ result ext body, r = .response ⟨result, ext, body⟩ → result = 0 → Answers m body

/-- A good response. -/
def Says (r : Reply) (b : Body) : Prop := ∃ ext, r = .response ⟨0, ext, b⟩

/-- What the client can be sure of once it is connected as `cl`. -/
structure Connected (L : Lib) (cfg : Config) (s : Server) (cl : Client) : Prop where
  listed : ∃ es, Says (s.discovery.reply 0) (.endpoints es) ∧ cl.endpoint ∈ es
  channel : Says s.session.opened .openChannel
  valid : cl.endpoint.certificate ≠ [] → L.validate cl.endpoint.certificate = true
  keys : (cl.endpoint.mode = .sign ∨ cl.endpoint.mode = .signAndEncrypt) →
    cfg.hasKey = true ∧ ∃ n ks, L.parse cl.endpoint.certificate = some (.rsa n :: ks)
  session : ∃ nonce sig, Says (s.session.reply 0) (.session cl.endpoint.certificate nonce sig)
    ∧ (cl.endpoint.policy ≠ .none → ∃ sch,
        L.verify cl.endpoint.certificate sch (cfg.options.certificate ++ cfg.nonce) sig = true)
  activated : Says (s.session.reply 1) .activated

/-- A server that does everything right, and the client that should come out of it. -/
structure Healthy (L : Lib) (cfg : Config) (s : Server) (es : List Desc) (cl : Client) : Prop where
  accepts : s.discovery.accepts = true ∧ s.session.accepts = true
  hello : s.discovery.hello = .ack ∧ s.session.hello = .ack
  opened : s.discovery.opened = .response ⟨0, false, .openChannel⟩ ∧ s.session.opened = .response ⟨0, false, .openChannel⟩
  endpoints : Says (s.discovery.reply 0) (.endpoints es)
  quiet : s.discovery.endsEarly = false
  listed : cl.endpoint ∈ es
  suits : Suits cfg.options cl.endpoint
  best : ∀ e ∈ es, Suits cfg.options e → e = cl.endpoint ∨ e.level < cl.endpoint.level
  /-- an endpoint without security, or with keys that fit -/
  keys : (cl.endpoint.policy = .none ∧ cl.endpoint.mode = .none ∧ cl.endpoint.certificate = [])
    ∨ (cl.endpoint.policy ≠ .none ∧ (cl.endpoint.mode = .sign ∨ cl.endpoint.mode = .signAndEncrypt)
      ∧ cl.endpoint.certificate ≠ [] ∧ cfg.hasKey = true
      ∧ ∃ n ks, L.parse cl.endpoint.certificate = some (.rsa n :: ks) ∧ 66 < n)
  valid : cl.endpoint.certificate ≠ [] → L.validate cl.endpoint.certificate = true
  session : ∃ nonce sig, Says (s.session.reply 0) (.session cl.endpoint.certificate nonce sig)
    ∧ (cl.endpoint.policy ≠ .none → ∀ sch,
        L.verify cl.endpoint.certificate sch (cfg.options.certificate ++ cfg.nonce) sig = true)
  /-- the user may log in anonymously, or with a password on a secured endpoint -/
  identity : (cfg.identity = .anonymous ∧ ∃ t ∈ cl.endpoint.tokens, t.kind = .anonymous)
    ∨ (∃ u p, cfg.identity = .userName u p ∧ cl.endpoint.policy ≠ .none ∧ ∃ t ∈ cl.endpoint.tokens, t.kind = .userName)
    ∨ (∃ c, cfg.identity = .x509 c ∧ cfg.hasUserKey = true ∧ ∃ t ∈ cl.endpoint.tokens, t.kind = .certificate)
  activated : Says (s.session.reply 1) .activated
  tables : Says (s.session.reply 2) (.read [(true, .strings cl.namespaces), (true, .strings cl.servers)])

end Spec

open Spec

/-! ## Steps -/

theorem says_request (r : Reply) (b : Body) : Says r b ↔ ∃ resp, request r = .ok resp ∧ resp.body = b := by
  constructor
  · rintro ⟨ext, rfl⟩
    exact ⟨⟨0, ext, b⟩, by simp [request], rfl⟩
  · rintro ⟨⟨res, ext, body⟩, h, rfl⟩
    refine ⟨ext, ?_⟩
    cases r with
    | response r' =>
      simp only [request] at h
      split at h
      · rename_i h0
        injection h with h
        subst h
        simp only at h0
        subst h0
        rfl
      · cases h
    | silent => cases h
    | closed => cases h

theorem request_no (r : Reply) : request r ≠ .panic ∧ request r ≠ .hangs := by
  cases r with
  | response r => simp only [request]; split <;> simp
  | silent => simp [request]
  | closed => simp [request]

theorem service_ok {α : Type} (as : Body → Option α) (r : Reply) (a : α) (h : service as r = .ok a) :
    ∃ b, Says r b ∧ as b = some a := by
  unfold service at h
  cases hr : request r with
  | ok resp =>
    rw [hr] at h
    simp only at h
    cases ha : as resp.body with
    | none => rw [ha] at h; cases h
    | some x =>
      rw [ha] at h
      injection h with h
      subst h
      exact ⟨resp.body, (says_request r _).2 ⟨resp, hr, rfl⟩, ha⟩
  | err e => rw [hr] at h; cases h
  | panic => rw [hr] at h; cases h
  | hangs => rw [hr] at h; cases h

theorem service_says {α : Type} (as : Body → Option α) (r : Reply) (b : Body) (a : α) (h : Says r b) (ha : as b = some a) :
    service as r = .ok a := by
  obtain ⟨resp, h1, rfl⟩ := (says_request r b).1 h
  simp [service, h1, ha]

theorem service_no {α : Type} (as : Body → Option α) (m : Method) (r : Reply) (hm : ∀ b, Answers m b → as b ≠ none)
    (h : Polite m r) : service as r ≠ .panic ∧ service as r ≠ .hangs := by
  unfold service
  cases hr : request r with
  | ok resp =>
    simp only
    obtain ⟨ext, he⟩ := (says_request r resp.body).2 ⟨resp, hr, rfl⟩
    have := hm _ (h 0 ext resp.body he rfl)
    cases ha : as resp.body with
    | none => exact absurd ha this
    | some x => simp
  | err e => simp
  | panic => exact absurd hr (request_no r).1
  | hangs => exact absurd hr (request_no r).2

theorem ans_open (b : Body) (h : Answers .openChannel b) : asOpen b ≠ none := by cases h; simp [asOpen]
theorem ans_endpoints (b : Body) (h : Answers .getEndpoints b) : asEndpoints b ≠ none := by cases h; simp [asEndpoints]
theorem ans_session (b : Body) (h : Answers .createSession b) : asSession b ≠ none := by cases h; simp [asSession]
theorem ans_activated (b : Body) (h : Answers .activateSession b) : asActivated b ≠ none := by cases h; simp [asActivated]
theorem ans_read (b : Body) (h : Answers .read b) : asRead b ≠ none := by cases h; simp [asRead]
theorem ans_closed (b : Body) (h : Answers .closeSession b) : asClosed b ≠ none := by cases h; simp [asClosed]

theorem asEndpoints_some (b : Body) (es : List Desc) (h : asEndpoints b = some es) : b = .endpoints es := by
  cases b <;> simp_all [asEndpoints]
theorem asSession_some (b : Body) (x : Bytes × Bytes × Bytes) (h : asSession b = some x) : b = .session x.1 x.2.1 x.2.2 := by
  cases b <;> simp_all [asSession]
  subst h; simp
theorem asActivated_some (b : Body) (x : Unit) (h : asActivated b = some x) : b = .activated := by
  cases b <;> simp_all [asActivated]
theorem asRead_some (b : Body) (x : List (Bool × Value)) (h : asRead b = some x) : b = .read x := by
  cases b <;> simp_all [asRead]
theorem asOpen_some (b : Body) (x : Unit) (h : asOpen b = some x) : b = .openChannel := by
  cases b <;> simp_all [asOpen]

theorem exchange_ok (r : Reply) (h : exchangeOpen r = .ok ()) : r = .response ⟨0, false, .openChannel⟩ := by
  unfold exchangeOpen at h
  cases r with
  | silent => simp [requestLocked, request] at h
  | closed => simp [requestLocked, request] at h
  | response r =>
    obtain ⟨res, ext, body⟩ := r
    cases ext with
    | true => simp [requestLocked] at h
    | false =>
      simp only [requestLocked, request, Bool.false_eq_true, if_false] at h
      by_cases h0 : res = 0
      · subst h0
        rw [if_pos rfl] at h
        simp only at h
        cases ha : asOpen body with
        | none => rw [ha] at h; cases h
        | some x => rw [asOpen_some body x ha]
      · rw [if_neg h0] at h; cases h

theorem exchange_no (r : Reply) (hp : Polite .openChannel r) : exchangeOpen r ≠ .panic ∧ exchangeOpen r ≠ .hangs := by
  unfold exchangeOpen
  cases r with
  | silent => simp [requestLocked, request]
  | closed => simp [requestLocked, request]
  | response r =>
    obtain ⟨res, ext, body⟩ := r
    cases ext with
    | true => simp [requestLocked]
    | false =>
      simp only [requestLocked, request, Bool.false_eq_true, if_false]
      by_cases h0 : res = 0
      · subst h0
        rw [if_pos rfl]
        simp only
        have := ans_open body (hp 0 false body rfl rfl)
        cases ha : asOpen body with
        | none => exact absurd ha this
        | some x => simp
      · rw [if_neg h0]; simp

theorem bind_ok {α β : Type} (r : Res α) (f : α → Res β) (b : β) : r.bind f = .ok b ↔ ∃ a, r = .ok a ∧ f a = .ok b := by
  cases r <;> simp [Res.bind]

theorem bind_no {α β : Type} (r : Res α) (f : α → Res β) (hr : r ≠ .panic ∧ r ≠ .hangs)
    (hf : ∀ a, r = .ok a → f a ≠ .panic ∧ f a ≠ .hangs) : r.bind f ≠ .panic ∧ r.bind f ≠ .hangs := by
  cases r with
  | ok a => exact hf a rfl
  | err e => simp [Res.bind]
  | panic => exact absurd rfl hr.1
  | hangs => exact absurd rfl hr.2

theorem scheme_none (p : Policy) (hp : p ∈ known) : scheme p = none ↔ p = .none := by
  simp only [known, List.mem_cons, List.not_mem_nil, or_false] at hp
  rcases hp with rfl | rfl | rfl | rfl | rfl | rfl <;> simp [scheme]

theorem keyWrap_padding (p : Policy) : padding p ≤ 66 := by cases p <;> simp [padding]

theorem openChannel_ok (L : Lib) (p : Policy) (m : Mode) (cert : Bytes) (hasKey : Bool) (key : Option Nat) (c : Conn)
    (o : Bool) (h : openChannel L p m cert hasKey key c = (.ok (), o)) :
    o = true ∧ c.accepts = true ∧ c.hello = .ack ∧ c.opened = .response ⟨0, false, .openChannel⟩
    ∧ (cert ≠ [] → L.validate cert = true) ∧ prepareOpen p m hasKey key = .ok () := by
  unfold openChannel at h
  cases hc : checkCertificate L cert with
  | some e => rw [hc] at h; simp at h
  | none =>
    rw [hc] at h
    simp only at h
    cases ha : c.accepts with
    | false => rw [ha] at h; simp at h
    | true =>
      rw [ha] at h
      simp only [Bool.not_true, Bool.false_eq_true, if_false] at h
      cases hh : c.hello with
      | closed => rw [hh] at h; simp at h
      | error _ => rw [hh] at h; simp at h
      | garbage => rw [hh] at h; simp at h
      | ack =>
        rw [hh] at h
        simp only at h
        split at h
        · simp at h
        · cases hp : prepareOpen p m hasKey key with
          | err e => rw [hp] at h; simp at h
          | panic => rw [hp] at h; simp at h
          | hangs => rw [hp] at h; simp at h
          | ok x =>
            rw [hp] at h
            simp only [Prod.mk.injEq] at h
            refine ⟨h.2.symm, rfl, rfl, exchange_ok _ h.1, ?_, rfl⟩
            intro hne
            unfold checkCertificate at hc
            rw [if_neg hne] at hc
            split at hc
            · cases hc
            · cases hc
            · split at hc
              · assumption
              · cases hc

theorem prepare_ok (p : Policy) (m : Mode) (hasKey : Bool) (key : Option Nat) (h : prepareOpen p m hasKey key = .ok ())
    (hm : m = .sign ∨ m = .signAndEncrypt) : hasKey = true ∧ ∃ n, key = some n := by
  have hs : securedMode m = true := by rcases hm with rfl | rfl <;> decide
  unfold prepareOpen at h
  rw [hs] at h
  simp only [Bool.not_true, Bool.false_eq_true, if_false] at h
  cases hk : hasKey with
  | false => rw [hk] at h; simp at h
  | true =>
    cases key with
    | none => rw [hk] at h; simp at h
    | some n => exact ⟨rfl, n, rfl⟩

theorem prepare_big (p : Policy) (m : Mode) (hasKey : Bool) (n : Nat) (h : prepareOpen p m hasKey (some n) = .ok ())
    (hm : m = .sign ∨ m = .signAndEncrypt) : padding p ≤ n := by
  have hs : securedMode m = true := by rcases hm with rfl | rfl <;> decide
  unfold prepareOpen at h
  rw [hs] at h
  simp only [Bool.not_true, Bool.false_eq_true, if_false] at h
  cases hk : hasKey with
  | false => rw [hk] at h; simp at h
  | true =>
    rw [hk] at h
    simp only [Bool.not_true, Bool.false_eq_true, if_false] at h
    by_cases h1 : n = padding p
    · omega
    · by_cases h2 : n < padding p
      · rw [if_neg h1, if_pos h2] at h; cases h
      · omega

theorem prepare_no (p : Policy) (m : Mode) (hasKey : Bool) (key : Option Nat)
    (hk : ∀ n, key = some n → 66 < n ∨ n < padding p) :
    prepareOpen p m hasKey key ≠ .panic ∧ prepareOpen p m hasKey key ≠ .hangs := by
  unfold prepareOpen
  split
  · simp
  · split
    · simp
    · cases key with
      | none => simp
      | some n =>
        have h1 := hk n rfl
        have h2 := keyWrap_padding p
        simp only
        rw [if_neg (by omega)]
        split
        · simp
        · split <;> simp

theorem openChannel_no (L : Lib) (p : Policy) (m : Mode) (cert : Bytes) (hasKey : Bool) (key : Option Nat) (c : Conn)
    (hk : ∀ n, key = some n → 66 < n ∨ n < padding p) (hp : Polite .openChannel c.opened) :
    (openChannel L p m cert hasKey key c).1 ≠ .panic ∧ (openChannel L p m cert hasKey key c).1 ≠ .hangs := by
  unfold openChannel
  cases checkCertificate L cert with
  | some e => simp
  | none =>
    simp only
    split
    · simp
    · cases c.hello with
      | closed => simp
      | error _ => simp
      | garbage => simp
      | ack =>
        simp only
        split
        · simp
        · have := prepare_no p m hasKey key hk
          cases hq : prepareOpen p m hasKey key with
          | ok _ => exact exchange_no _ hp
          | err e => simp
          | panic => exact absurd hq this.1
          | hangs => exact absurd hq this.2

theorem getEndpoints_ok (L : Lib) (c : Conn) (es : List Desc) (o : Bool) (h : getEndpoints L c = (.ok es, o)) :
    o = false ∧ Says (c.reply 0) (.endpoints es) := by
  unfold getEndpoints at h
  cases hc : openChannel L .none .none [] false none c with
  | mk r o' =>
    rw [hc] at h
    cases r with
    | ok _ =>
      simp only at h
      cases hs : service asEndpoints (c.reply 0) with
      | ok es' =>
        rw [hs] at h
        obtain ⟨b, h1, h2⟩ := service_ok _ _ _ hs
        rw [asEndpoints_some b es' h2] at h1
        simp only [closeChannel] at h
        cases he : c.endsEarly <;> rw [he] at h <;> simp at h
        obtain ⟨rfl, rfl⟩ := h
        exact ⟨rfl, h1⟩
      | err e => rw [hs] at h; simp at h
      | panic => rw [hs] at h; simp at h
      | hangs => rw [hs] at h; simp at h
    | err e => simp at h
    | panic => simp at h
    | hangs => simp at h

theorem getEndpoints_no (L : Lib) (c : Conn) (h1 : Polite .openChannel c.opened) (h2 : Polite .getEndpoints (c.reply 0)) :
    (getEndpoints L c).1 ≠ .panic ∧ (getEndpoints L c).1 ≠ .hangs := by
  unfold getEndpoints
  have ho := openChannel_no L .none .none [] false none c (fun n h => by cases h) h1
  cases hc : openChannel L .none .none [] false none c with
  | mk r o' =>
    rw [hc] at ho
    cases r with
    | ok _ =>
      simp only
      have hs := service_no asEndpoints .getEndpoints (c.reply 0) ans_endpoints h2
      cases hr : service asEndpoints (c.reply 0) with
      | ok es' =>
        simp only [closeChannel]
        cases he : c.endsEarly <;> simp
      | err e => simp
      | panic => exact absurd hr hs.1
      | hangs => exact absurd hr hs.2
    | err e => simp
    | panic => exact absurd rfl ho.1
    | hangs => exact absurd rfl ho.2

theorem sign_no (p : Policy) (hasKey : Bool) (h : hasKey = true) : sign p hasKey ≠ .panic ∧ sign p hasKey ≠ .hangs := by
  subst h
  unfold sign
  cases scheme p <;> simp

theorem token_no (e : Desc) (key : Option Nat) (uk : Bool) (id : Identity) (hk : ∀ n, key = some n → 66 < n)
    (hu : (∃ c, id = .x509 c) → uk = true) : tokenOutcome e key uk id ≠ .panic ∧ tokenOutcome e key uk id ≠ .hangs := by
  have seal_no : ∀ p, sealOutcome p key ≠ .panic ∧ sealOutcome p key ≠ .hangs := by
    intro p
    unfold sealOutcome
    cases keyWrap p with
    | none => simp
    | some _ =>
      cases key with
      | none => simp
      | some n =>
        have h1 := hk n rfl
        have h2 := keyWrap_padding p
        simp only
        rw [if_neg (by omega), if_neg (by omega)]
        simp
  cases id with
  | anonymous =>
    simp only [tokenOutcome]
    split <;> simp
  | userName u p =>
    simp only [tokenOutcome]
    split
    · simp
    · exact seal_no _
  | issued d =>
    simp only [tokenOutcome]
    split
    · simp
    · exact seal_no _
  | x509 c =>
    simp only [tokenOutcome]
    split
    · simp
    · exact sign_no _ _ (hu ⟨c, rfl⟩)

/-! ## C100 -/

/-- **C100 (each call).** A call of a service ends in a panic exactly if the server's response is good and of another
type than the request asks for. -/
theorem C100_call (r : Reply) :
    (service asEndpoints r = .panic ↔ ∃ b, Says r b ∧ ¬ Answers .getEndpoints b)
    ∧ (service asSession r = .panic ↔ ∃ b, Says r b ∧ ¬ Answers .createSession b)
    ∧ (service asActivated r = .panic ↔ ∃ b, Says r b ∧ ¬ Answers .activateSession b)
    ∧ (service asRead r = .panic ↔ ∃ b, Says r b ∧ ¬ Answers .read b)
    ∧ (service asClosed r = .panic ↔ ∃ b, Says r b ∧ ¬ Answers .closeSession b) := by
  have key : ∀ {α : Type} (as : Body → Option α) (m : Method), (∀ b, as b = none ↔ ¬ Answers m b) →
      (service as r = .panic ↔ ∃ b, Says r b ∧ ¬ Answers m b) := by
    intro α as m hm
    constructor
    · intro h
      unfold service at h
      cases hr : request r with
      | ok resp =>
        rw [hr] at h
        simp only at h
        cases ha : as resp.body with
        | none => exact ⟨resp.body, (says_request r _).2 ⟨resp, hr, rfl⟩, (hm _).1 ha⟩
        | some x => rw [ha] at h; cases h
      | err e => rw [hr] at h; cases h
      | panic => exact absurd hr (request_no r).1
      | hangs => exact absurd hr (request_no r).2
    · rintro ⟨b, h1, h2⟩
      obtain ⟨resp, h3, rfl⟩ := (says_request r b).1 h1
      simp [service, h3, (hm _).2 h2]
  refine ⟨key _ _ ?_, key _ _ ?_, key _ _ ?_, key _ _ ?_, key _ _ ?_⟩ <;> intro b <;> constructor <;> intro h
  · intro h'; exact ans_endpoints b h' h
  · cases b <;> first | rfl | exact absurd (.getEndpoints _) h
  · intro h'; exact ans_session b h' h
  · cases b <;> first | rfl | exact absurd (.createSession _ _ _) h
  · intro h'; exact ans_activated b h' h
  · cases b <;> first | rfl | exact absurd .activateSession h
  · intro h'; exact ans_read b h' h
  · cases b <;> first | rfl | exact absurd (.read _) h
  · intro h'; exact ans_closed b h' h
  · cases b <;> first | rfl | exact absurd .closeSession h

/-- The bytes that a block of RSA encryption takes beyond the plain text: PKCS#1 v1.5 takes 11, OAEP two hashes and two. -/
def Spec.overhead : Policy → Nat
  | .basic128Rsa15 => 3 + 8
  | .basic256 => 2 * 20 + 2
  | .basic256Sha256 => 2 * 20 + 2
  | .aes128Sha256RsaOaep => 2 * 20 + 2
  | .aes256Sha256RsaPss => 2 * 32 + 2
  | _ => 0

theorem overhead_padding (p : Policy) : Spec.overhead p = padding p := by cases p <;> rfl

/-- **C100 (partial).** Dial returns a client or an error, whatever the server does, if: good responses are of the type
of their requests; the certificates in the list of endpoints have RSA keys of more than 66 bytes, or so small that the
padding of the policy of the endpoint does not fit (which is an error then); an endpoint with a policy has a secured mode; and the two tables, if they are good, are arrays of strings. Missing: each of these conditions
can be broken by the server, see the theorems that follow. -/
theorem C100_dial_partial (L : Lib) (cfg : Config) (s : Server) (hsort : ∀ es, (L.sort es).Perm es)
    (hd1 : Polite .openChannel s.discovery.opened) (hd2 : Polite .getEndpoints (s.discovery.reply 0))
    (hs1 : Polite .openChannel s.session.opened) (hs2 : Polite .createSession (s.session.reply 0))
    (hs3 : Polite .activateSession (s.session.reply 1)) (hs4 : Polite .read (s.session.reply 2))
    (hkey : ∀ es, Says (s.discovery.reply 0) (.endpoints es) → ∀ e ∈ es, ∀ k ks, L.parse e.certificate = some (k :: ks) →
      ∃ n, k = .rsa n ∧ (66 < n ∨ n < Spec.overhead e.policy))
    (hmode : ∀ es, Says (s.discovery.reply 0) (.endpoints es) → ∀ e ∈ es, e.policy ≠ .none →
      e.mode = .sign ∨ e.mode = .signAndEncrypt)
    (htab : ∀ rs, Says (s.session.reply 2) (.read rs) → ∀ v, (true, v) ∈ rs → ∃ ss, v = .strings ss)
    (huser : (∃ c, cfg.identity = .x509 c) → cfg.hasUserKey = true) :
    (dial L cfg s).1 ≠ .panic ∧ (dial L cfg s).1 ≠ .hangs := by
  unfold dial
  have hg := getEndpoints_no L s.discovery hd1 hd2
  cases hge : getEndpoints L s.discovery with
  | mk r o =>
    rw [hge] at hg
    cases r with
    | err e => simp
    | panic => exact absurd rfl hg.1
    | hangs => exact absurd rfl hg.2
    | ok es =>
      simp only
      obtain ⟨_, hes⟩ := getEndpoints_ok L _ _ _ hge
      cases hsel : select cfg.options (L.sort es) with
      | none => simp
      | some e =>
        simp only
        have hmem : e ∈ es := (hsort es).mem_iff.1 (List.mem_of_find?_eq_some hsel)
        have hacc : acceptable cfg.options e = true := List.find?_some (p := acceptable cfg.options) hsel
        have hkn : e.policy ∈ known := by
          rw [← supported_iff]
          unfold acceptable at hacc
          simp only [Bool.and_eq_true] at hacc
          exact hacc.1.1
        have hrk : ∃ key, remoteKey L e.certificate = .ok key ∧ ∀ n, key = some n → 66 < n ∨ n < padding e.policy := by
          unfold remoteKey
          cases hpar : L.parse e.certificate with
          | none => exact ⟨none, rfl, fun n h => by cases h⟩
          | some l =>
            cases l with
            | nil => exact ⟨none, rfl, fun n h => by cases h⟩
            | cons k ks =>
              obtain ⟨n, rfl, hn⟩ := hkey es hes e hmem k ks hpar
              rw [overhead_padding] at hn
              exact ⟨some n, rfl, fun m h => by injection h with h; omega⟩
        obtain ⟨key, hk1, hk2⟩ := hrk
        rw [hk1]
        simp only
        have hopen := openChannel_no L e.policy e.mode e.certificate cfg.hasKey key s.session hk2 hs1
        have hlog : ∀ o', openChannel L e.policy e.mode e.certificate cfg.hasKey key s.session = (.ok (), o') →
            logIn L cfg e key s.session ≠ .panic ∧ logIn L cfg e key s.session ≠ .hangs := by
          intro o' ho
          obtain ⟨_, _, _, _, _, hprep⟩ := openChannel_ok L _ _ _ _ _ _ _ ho
          have hks : e.policy ≠ .none → cfg.hasKey = true ∧ ∃ n, key = some n :=
            fun h => prepare_ok _ _ _ _ hprep (hmode es hes e hmem h)
          have hk2 : ∀ n, key = some n → 66 < n := by
            intro n hn
            by_cases hpn : e.policy = .none
            · have := hk2 n hn
              rw [hpn] at this
              simpa [padding] using this
            · subst hn
              have h1 := prepare_big _ _ _ _ hprep (hmode es hes e hmem hpn)
              have h2 := hk2 n rfl
              omega
          unfold logIn
          refine bind_no _ _ (service_no _ _ _ ans_session hs2) fun x hx => ?_
          split
          · simp
          refine bind_no _ _ ?_ fun _ _ => bind_no _ _ ?_ fun _ _ =>
            bind_no _ _ (token_no _ _ _ _ hk2 huser) fun _ _ =>
            bind_no _ _ (service_no _ _ _ ans_activated hs3) fun _ _ =>
            bind_no _ _ (service_no _ _ _ ans_read hs4) fun rs hrs => ?_
          · unfold checkSignature
            cases hsch : scheme e.policy with
            | none => simp
            | some sch =>
              have : e.policy ≠ .none := fun h => by rw [h] at hsch; cases hsch
              obtain ⟨_, n, hn⟩ := hks this
              rw [hn]
              simp only
              split <;> simp
          · by_cases hp : e.policy = .none
            · rw [hp]; simp [sign, scheme]
            · exact sign_no _ _ (hks hp).1
          · obtain ⟨b, hb1, hb2⟩ := service_ok _ _ _ hrs
            rw [asRead_some b rs hb2] at hb1
            have ht := htab rs hb1
            have tab_no : ∀ old p, p ∈ rs → table old p ≠ .panic ∧ table old p ≠ .hangs := by
              rintro old ⟨g, v⟩ hp
              cases g with
              | false => simp [table]
              | true =>
                obtain ⟨ss, rfl⟩ := ht v hp
                simp [table]
            unfold tables
            split
            · refine bind_no _ _ (tab_no _ _ (by simp)) fun _ _ => bind_no _ _ (tab_no _ _ (by simp)) fun _ _ => by simp
            · simp
        unfold orAbort openSession
        cases hop : openChannel L e.policy e.mode e.certificate cfg.hasKey key s.session with
        | mk r o' =>
          rw [hop] at hopen
          cases r with
          | err x => simp
          | panic => exact absurd rfl hopen.1
          | hangs => exact absurd rfl hopen.2
          | ok _ =>
            have := hlog o' hop
            simp only
            cases hl : logIn L cfg e key s.session with
            | ok c => simp
            | err x => simp
            | panic => exact absurd hl this.1
            | hangs => exact absurd hl this.2

/-! ## Samples -/

/-- A certificate `[1, n]` holds an RSA key of 2n bytes, `[2]` one of another kind. -/
def toyLib : Lib where
  parse
    | [1, n] => some [.rsa (2 * n.toNat)]
    | [2] => some [.other]
    | _ => none
  validate _ := true
  verify _ _ data sig := decide (sig = data)
  sort es := es

def toyDesc : Desc := ⟨[1, 128], .signAndEncrypt, .basic256Sha256, 3, [⟨.other 0, .anonymous, .none⟩, ⟨.other 1, .userName, .unset⟩]⟩
def toyPlain : Desc := ⟨[], .none, .none, 0, [⟨.other 0, .anonymous, .none⟩, ⟨.other 1, .userName, .basic256Sha256⟩]⟩

def say (b : Body) : Reply := .response ⟨0, false, b⟩

def toyConn (a b c : Body) : Conn :=
  { accepts := true, hello := .ack, opened := say .openChannel, endsEarly := false,
    reply := fun | 0 => say a | 1 => say b | 2 => say c | _ => say .sessionClosed }

def toyTables : Body := .read [(true, .strings [uaURI, "urn:x"]), (true, .strings ["urn:x"])]

def toyServer (e : Desc) : Server :=
  { discovery := toyConn (.endpoints [e, toyPlain]) .fault .fault
    session := toyConn (.session e.certificate [7] ([9] ++ [5])) .activated toyTables }

def toyConfig : Config :=
  { options := ⟨.basic256Sha256, .signAndEncrypt, [9]⟩, hasKey := true, identity := .anonymous, hasUserKey := false, nonce := [5] }

def toyUser : Config := { toyConfig with identity := .userName [1] [2] }

example : dial toyLib toyConfig (toyServer toyDesc) = (.ok ⟨toyDesc, [uaURI, "urn:x"], ["urn:x"]⟩, false, true)
    ∧ dial toyLib toyUser (toyServer toyDesc) = (.ok ⟨toyDesc, [uaURI, "urn:x"], ["urn:x"]⟩, false, true) := by
  decide +kernel

/-- A server that falls silent after CreateSession meets the conditions. -/
def toySilent : Server :=
  { toyServer toyDesc with
    session := { (toyServer toyDesc).session with
      reply := fun | 0 => say (.session [1, 128] [7] [9, 5]) | _ => .silent } }

theorem polite_say (m : Method) (b : Body) (h : Answers m b) : Polite m (say b) := by
  intro result ext body hr _
  simp only [say, Reply.response.injEq, Resp.mk.injEq] at hr
  exact hr.2.2 ▸ h

theorem says_say (b b' : Body) (h : Says (say b) b') : b' = b := by
  obtain ⟨ext, h⟩ := h
  simp only [say, Reply.response.injEq, Resp.mk.injEq] at h
  exact h.2.2.symm

theorem toySilent_endpoints (es : List Desc) (h : Says (toySilent.discovery.reply 0) (.endpoints es)) : es = [toyDesc, toyPlain] := by
  have := says_say _ _ h
  injection this

example : ((dial toyLib toyConfig toySilent).1 ≠ .panic ∧ (dial toyLib toyConfig toySilent).1 ≠ .hangs)
    ∧ dial toyLib toyConfig toySilent = (.err .badRequestTimeout, false, false) := by
  refine ⟨C100_dial_partial toyLib toyConfig toySilent (fun _ => List.Perm.refl _) (polite_say _ _ .openChannel)
    (polite_say _ _ (.getEndpoints _)) (polite_say _ _ .openChannel) (polite_say _ _ (.createSession _ _ _))
    (fun _ _ _ h => by cases h) (fun _ _ _ h => by cases h) ?_ ?_ (fun _ h => by obtain ⟨_, h⟩ := h; cases h)
    (fun h => by obtain ⟨_, h⟩ := h; cases h), by decide +kernel⟩
  · intro es hes e he k ks hp
    rw [toySilent_endpoints es hes] at he
    simp only [List.mem_cons, List.not_mem_nil, or_false] at he
    rcases he with rfl | rfl
    · simp only [toyDesc, toyLib, Option.some.injEq, List.cons.injEq] at hp
      exact ⟨256, hp.1.symm, by decide⟩
    · simp [toyPlain, toyLib] at hp
  · intro es hes e he hp
    rw [toySilent_endpoints es hes] at he
    simp only [List.mem_cons, List.not_mem_nil, or_false] at he
    rcases he with rfl | rfl
    · exact .inr rfl
    · exact absurd rfl hp

/-- **C100 fails (the key of the certificate).** An endpoint whose certificate has a key that is not RSA crashes the
client, before the certificate is validated. -/
theorem C100_key_fails : ∃ e, e.certificate = [2] ∧ (dial toyLib toyConfig (toyServer e)).1 = .panic :=
  ⟨{ toyDesc with certificate := [2] }, rfl, by decide +kernel⟩

/-- **C100 fails (the type of a response).** A good response of the wrong type crashes the client; a service fault that
says Good is one. -/
theorem C100_type_fails : ∃ s : Server, s.session = toyConn (.session [1, 128] [7] [9, 5]) .fault toyTables
    ∧ (dial toyLib toyConfig s).1 = .panic :=
  ⟨{ toyServer toyDesc with session := toyConn (.session [1, 128] [7] [9, 5]) .fault toyTables }, rfl, by decide +kernel⟩

/-- **C100 fails (the namespace table).** A namespace table that is good but not an array of strings, for instance null,
crashes the client after it has logged in. -/
theorem C100_table_fails : ∃ s : Server,
    s.session = toyConn (.session [1, 128] [7] [9, 5]) .activated (.read [(true, .other 0), (true, .strings [])])
    ∧ (dial toyLib toyConfig s).1 = .panic :=
  ⟨{ toyServer toyDesc with
      session := toyConn (.session [1, 128] [7] [9, 5]) .activated (.read [(true, .other 0), (true, .strings [])]) },
    rfl, by decide +kernel⟩

/-- **C100 fails (a policy without security).** A listed endpoint with a policy, the mode None and no certificate crashes
a client with a certificate that left the choice to the library. -/
theorem C100_mode_fails : ∃ e : Desc, e.policy = .basic256Sha256 ∧ e.mode = .none ∧ e.certificate = []
    ∧ (dial toyLib { toyConfig with options := ⟨.unset, .invalid, [9]⟩ }
        { toyServer e with discovery := toyConn (.endpoints [e]) .fault .fault }).1 = .panic :=
  ⟨{ toyDesc with mode := .none, certificate := [] }, rfl, rfl, rfl, by decide +kernel⟩

/-- **C100 fails (the size of the key).** An RSA key of exactly as many bytes as the padding takes makes the client divide
by zero. -/
theorem C100_size_fails : ∃ e : Desc, toyLib.parse e.certificate = some [.rsa 42]
    ∧ (dial toyLib toyConfig (toyServer e)).1 = .panic :=
  ⟨{ toyDesc with certificate := [1, 21] }, by decide, by decide +kernel⟩

/-- **C100 fails (a password for a small key).** On an unsecured endpoint with such a key, building the password token
never ends; with a smaller key it panics. -/
theorem C100_password_fails : ∃ e e' : Desc, e.policy = .none ∧ e'.policy = .none
    ∧ (dial toyLib { toyUser with options := ⟨.none, .none, [9]⟩ }
        { toyServer e with discovery := toyConn (.endpoints [e]) .fault .fault }).1 = .hangs
    ∧ (dial toyLib { toyUser with options := ⟨.none, .none, [9]⟩ }
        { toyServer e' with discovery := toyConn (.endpoints [e']) .fault .fault }).1 = .panic :=
  ⟨{ toyPlain with certificate := [1, 21] }, { toyPlain with certificate := [1, 20] }, rfl, rfl, by decide +kernel,
    by decide +kernel⟩

/-! ## C101 -/

/-- **C101 (sound).** When Dial returns a client, the server has listed its endpoint, its certificate was validated, the
channel was opened with the keys that the mode asks for, the server has answered CreateSession with the same certificate
and a signature over the client's certificate and nonce that verifies, and it has activated the session. -/
theorem C101_sound (L : Lib) (cfg : Config) (s : Server) (hsort : ∀ es, (L.sort es).Perm es) (cl : Client) (o1 o2 : Bool)
    (h : dial L cfg s = (.ok cl, o1, o2)) : Connected L cfg s cl := by
  unfold dial at h
  cases hge : getEndpoints L s.discovery with
  | mk r o =>
    rw [hge] at h
    cases r with
    | err e => simp at h
    | panic => simp at h
    | hangs => simp at h
    | ok es =>
      simp only at h
      obtain ⟨_, hes⟩ := getEndpoints_ok L _ _ _ hge
      cases hsel : select cfg.options (L.sort es) with
      | none => rw [hsel] at h; simp at h
      | some e =>
        rw [hsel] at h
        simp only at h
        have hmem : e ∈ es := (hsort es).mem_iff.1 (List.mem_of_find?_eq_some hsel)
        have hacc : acceptable cfg.options e = true := List.find?_some (p := acceptable cfg.options) hsel
        have hkn : e.policy ∈ known := by
          rw [← supported_iff]
          unfold acceptable at hacc
          simp only [Bool.and_eq_true] at hacc
          exact hacc.1.1
        cases hrk : remoteKey L e.certificate with
        | err x => rw [hrk] at h; simp at h
        | panic => rw [hrk] at h; simp at h
        | hangs => rw [hrk] at h; simp at h
        | ok key =>
          rw [hrk] at h
          simp only [openSession] at h
          cases hop : openChannel L e.policy e.mode e.certificate cfg.hasKey key s.session with
          | mk r o' =>
            rw [hop] at h
            cases r with
            | err x => simp [orAbort] at h
            | panic => simp [orAbort] at h
            | hangs => simp [orAbort] at h
            | ok _ =>
              simp only at h
              obtain ⟨_, _, _, hopn, hval, hprep⟩ := openChannel_ok L _ _ _ _ _ _ _ hop
              have hl : logIn L cfg e key s.session = .ok cl := by
                cases hl : logIn L cfg e key s.session with
                | ok c => rw [hl] at h; simp [orAbort] at h; rw [h.1]
                | err x => rw [hl] at h; simp [orAbort] at h
                | panic => rw [hl] at h; simp [orAbort] at h
                | hangs => rw [hl] at h; simp [orAbort] at h
              unfold logIn at hl
              obtain ⟨⟨c, n, sig⟩, hs0, hl⟩ := (bind_ok _ _ _).1 hl
              split at hl
              · cases hl
              rename_i hcert
              have hcert : e.certificate = c := Classical.byContradiction hcert
              obtain ⟨_, hsig, hl⟩ := (bind_ok _ _ _).1 hl
              obtain ⟨_, hsign, hl⟩ := (bind_ok _ _ _).1 hl
              obtain ⟨_, htok, hl⟩ := (bind_ok _ _ _).1 hl
              obtain ⟨_, hact, hl⟩ := (bind_ok _ _ _).1 hl
              obtain ⟨rs, hrd, hl⟩ := (bind_ok _ _ _).1 hl
              have hend : cl.endpoint = e := by
                unfold tables at hl
                split at hl
                · obtain ⟨_, _, hl⟩ := (bind_ok _ _ _).1 hl
                  obtain ⟨_, _, hl⟩ := (bind_ok _ _ _).1 hl
                  injection hl with hl
                  rw [← hl]
                · injection hl with hl
                  rw [← hl]
              obtain ⟨b0, hb0, hb0'⟩ := service_ok _ _ _ hs0
              rw [asSession_some _ _ hb0'] at hb0
              obtain ⟨b1, hb1, hb1'⟩ := service_ok _ _ _ hact
              rw [asActivated_some _ _ hb1'] at hb1
              rw [← hcert] at hb0
              refine ⟨⟨es, hes, hend ▸ hmem⟩, ⟨false, hopn⟩, hend ▸ hval, ?_, ⟨n, sig, hend ▸ hb0, ?_⟩, hb1⟩
              · rw [hend]
                intro hm
                obtain ⟨h1, k, h2⟩ := prepare_ok _ _ _ _ hprep hm
                refine ⟨h1, ?_⟩
                rw [h2] at hrk
                unfold remoteKey at hrk
                split at hrk
                · rename_i n' ks hpar
                  exact ⟨n', ks, hpar⟩
                · cases hrk
                · cases hrk
              · rw [hend]
                intro hp
                unfold checkSignature at hsig
                cases hsch : scheme e.policy with
                | none => exact absurd ((scheme_none _ hkn).1 hsch) hp
                | some sch =>
                  rw [hsch] at hsig
                  cases key with
                  | none => cases hsig
                  | some n' =>
                    simp only at hsig
                    split at hsig
                    · rename_i hv
                      exact ⟨sch, hv⟩
                    · cases hsig

example : ∃ cl, Connected toyLib toyConfig (toyServer toyDesc) cl ∧ cl.endpoint = toyDesc :=
  ⟨_, C101_sound toyLib toyConfig (toyServer toyDesc) (fun _ => List.Perm.refl _) ⟨toyDesc, [uaURI, "urn:x"], ["urn:x"]⟩ false true
    (by decide +kernel), rfl⟩

theorem firstOf_some (k : TokenType) (ts : List TokenPolicy) (h : ∃ t ∈ ts, t.kind = k) : ∃ t, firstOf k ts = some t := by
  obtain ⟨t, h1, h2⟩ := h
  cases hf : firstOf k ts with
  | some t => exact ⟨t, rfl⟩
  | none =>
    unfold firstOf at hf
    have := List.find?_eq_none.1 hf t h1
    simp [h2] at this

/-- **C101 (complete, partial).** With a server that does everything right, Dial returns a client that is connected with the
best endpoint and knows the namespaces and servers of the server; the connection for discovery is closed. Missing: servers
that are right in ways the code does not bear, see the theorems that follow. -/
theorem C101_complete_partial (L : Lib) (cfg : Config) (s : Server) (es : List Desc) (cl : Client)
    (hsort : Ordered es (L.sort es)) (hpar : L.parse [] = none ∨ L.parse [] = some [])
    (hm : ¬ ModeIgnored cfg.options) (h : Healthy L cfg s es cl) :
    dial L cfg s = (.ok cl, false, true) := by
  have hopenD : openChannel L .none .none [] false none s.discovery = (.ok (), true) := by
    simp [openChannel, checkCertificate, h.accepts.1, h.hello.1, h.opened.1, supported, prepareOpen, securedMode, exchangeOpen,
      requestLocked, request, asOpen]
  have hge : getEndpoints L s.discovery = (.ok es, false) := by
    unfold getEndpoints
    rw [hopenD]
    simp only
    rw [service_says asEndpoints _ _ es h.endpoints rfl]
    simp [closeChannel, h.quiet]
  have hsel : select cfg.options (L.sort es) = some cl.endpoint := by
    cases hs : select cfg.options (L.sort es) with
    | none => exact absurd h.suits ((C72_none_partial _ hm _ _ hsort).1 hs _ h.listed)
    | some e =>
      obtain ⟨h1, h2, h3⟩ := C72_best_partial _ hm _ _ hsort e hs
      rcases h.best e h1 h2 with rfl | hlt
      · rfl
      · have := h3 _ h.listed h.suits
        omega
  have hkn := h.suits.known
  obtain ⟨nonce, sig, hs0, hver⟩ := h.session
  -- the key
  obtain ⟨key, hrk, hks⟩ : ∃ key, remoteKey L cl.endpoint.certificate = .ok key
      ∧ ((cl.endpoint.policy = .none ∧ cl.endpoint.mode = .none ∧ cl.endpoint.certificate = [])
        ∨ (cl.endpoint.policy ≠ .none ∧ (cl.endpoint.mode = .sign ∨ cl.endpoint.mode = .signAndEncrypt)
          ∧ cfg.hasKey = true ∧ ∃ n, key = some n ∧ 66 < n)) := by
    rcases h.keys with ⟨h1, h2, h3⟩ | ⟨h1, h2, h3, h4, n, ks, h5, h6⟩
    · refine ⟨none, ?_, .inl ⟨h1, h2, h3⟩⟩
      unfold remoteKey
      rw [h3]
      rcases hpar with hp | hp <;> rw [hp]
    · refine ⟨some n, ?_, .inr ⟨h1, h2, h4, n, rfl, h6⟩⟩
      unfold remoteKey
      rw [h5]
  have hcheck : checkCertificate L cl.endpoint.certificate = none := by
    unfold checkCertificate
    by_cases hc : cl.endpoint.certificate = []
    · rw [if_pos hc]
    · rw [if_neg hc]
      rcases h.keys with ⟨_, _, h3⟩ | ⟨_, _, _, _, n, ks, h5, _⟩
      · exact absurd h3 hc
      · rw [h5]
        simp [h.valid hc]
  have hsup : supported cl.endpoint.policy = true := (supported_iff _).2 hkn
  have hprep : prepareOpen cl.endpoint.policy cl.endpoint.mode cfg.hasKey key = .ok () := by
    unfold prepareOpen
    rcases hks with ⟨_, h2, _⟩ | ⟨h1, h2, h3, n, rfl, hn⟩
    · rw [h2]; simp [securedMode]
    · have hsm : securedMode cl.endpoint.mode = true := by rcases h2 with h2 | h2 <;> rw [h2] <;> decide
      have := keyWrap_padding cl.endpoint.policy
      rw [hsm, h3]
      simp only [Bool.not_true, Bool.false_eq_true, if_false]
      rw [if_neg (by omega), if_neg (by omega), if_neg h1]
  have hopen : openChannel L cl.endpoint.policy cl.endpoint.mode cl.endpoint.certificate cfg.hasKey key s.session = (.ok (), true) := by
    unfold openChannel
    rw [hcheck]
    simp [h.accepts.2, h.hello.2, h.opened.2, hsup, hprep, exchangeOpen, requestLocked, request, asOpen]
  have hlog : logIn L cfg cl.endpoint key s.session = .ok cl := by
    unfold logIn
    rw [service_says asSession _ _ _ hs0 rfl]
    simp only [Res.bind, ne_eq, not_true_eq_false, if_false]
    have hsig : checkSignature L cl.endpoint.policy cl.endpoint.certificate key (cfg.options.certificate ++ cfg.nonce) sig = .ok () := by
      unfold checkSignature
      rcases hks with ⟨h1, _, _⟩ | ⟨h1, _, _, n, rfl, _⟩
      · rw [h1]; rfl
      · cases scheme cl.endpoint.policy with
        | none => rfl
        | some sch => simp [hver h1]
    have hsign : sign cl.endpoint.policy cfg.hasKey = .ok () := by
      unfold sign
      rcases hks with ⟨h1, _, _⟩ | ⟨_, _, h3, _⟩
      · rw [h1]; rfl
      · rw [h3]; cases scheme cl.endpoint.policy <;> rfl
    have htok : tokenOutcome cl.endpoint key cfg.hasUserKey cfg.identity = .ok () := by
      rcases h.identity with ⟨h1, h2⟩ | ⟨u, p, h1, h2, h3⟩ | ⟨c, h1, h2, h3⟩
      · obtain ⟨t, ht⟩ := firstOf_some _ _ h2
        rw [h1]; simp [tokenOutcome, ht]
      · obtain ⟨t, ht⟩ := firstOf_some _ _ h3
        rw [h1]
        simp only [tokenOutcome, ht]
        unfold sealOutcome
        rcases hks with ⟨h1', _, _⟩ | ⟨_, _, _, n, rfl, hn⟩
        · exact absurd h1' h2
        · have := keyWrap_padding (effective t cl.endpoint.policy)
          cases keyWrap (effective t cl.endpoint.policy) with
          | none => rfl
          | some _ =>
            simp only
            rw [if_neg (by omega), if_neg (by omega)]
      · obtain ⟨t, ht⟩ := firstOf_some _ _ h3
        rw [h1]
        simp only [tokenOutcome, ht, sign, h2, if_true]
        cases scheme (effective t cl.endpoint.policy) <;> rfl
    rw [hsig, hsign, htok]
    simp only [Res.bind]
    rw [service_says asActivated _ _ _ h.activated rfl]
    simp only [Res.bind]
    rw [service_says asRead _ _ _ h.tables rfl]
    rfl
  unfold dial
  rw [hge]
  simp only [hsel, hrk, openSession, hopen, hlog, orAbort]

example : Healthy toyLib toyConfig (toyServer toyDesc) [toyDesc, toyPlain] ⟨toyDesc, [uaURI, "urn:x"], ["urn:x"]⟩
    ∧ Healthy toyLib { toyConfig with options := {} } { toyServer toyPlain with discovery := toyConn (.endpoints [toyPlain]) .fault .fault }
        [toyPlain] ⟨toyPlain, [uaURI, "urn:x"], ["urn:x"]⟩ := by
  refine ⟨⟨⟨rfl, rfl⟩, ⟨rfl, rfl⟩, ⟨rfl, rfl⟩, ⟨false, rfl⟩, rfl, by decide,
      ⟨by decide, fun _ => rfl, fun _ => rfl, fun h => absurd h (by decide)⟩, ?_,
      .inr ⟨by decide, .inr rfl, by decide, rfl, 256, [], by decide, by decide⟩, fun _ => rfl,
      ⟨[7], [9, 5], ⟨false, rfl⟩, fun _ _ => by simp [toyLib, toyConfig]⟩, .inl ⟨rfl, _, List.mem_cons_self, rfl⟩, ⟨false, rfl⟩, ⟨false, rfl⟩⟩,
    ⟨⟨rfl, rfl⟩, ⟨rfl, rfl⟩, ⟨rfl, rfl⟩, ⟨false, rfl⟩, rfl, by decide,
      ⟨by decide, fun h => absurd rfl h, fun h => absurd rfl h, fun _ _ => ⟨rfl, rfl⟩⟩, ?_,
      .inl ⟨rfl, rfl, rfl⟩, fun h => absurd rfl h,
      ⟨[7], [9, 5], ⟨false, rfl⟩, fun h => absurd rfl h⟩, .inl ⟨rfl, _, List.mem_cons_self, rfl⟩, ⟨false, rfl⟩, ⟨false, rfl⟩⟩⟩
  · intro e he _
    simp only [List.mem_cons, List.not_mem_nil, or_false] at he
    rcases he with rfl | rfl
    · exact .inl rfl
    · exact .inr (by decide)
  · intro e he _
    simp only [List.mem_cons, List.not_mem_nil, or_false] at he
    exact .inl he

/-- **C101 fails (a race at the end of discovery).** The server closes the connection as soon as it has read
CloseSecureChannel; if the client sees that first, Dial fails although the endpoints have come. -/
theorem C101_race_fails : ∃ s : Server, s.session = (toyServer toyDesc).session
    ∧ s.discovery = { (toyServer toyDesc).discovery with endsEarly := true }
    ∧ (dial toyLib toyConfig s).1 = .err .badSecureChannelClosed :=
  ⟨{ toyServer toyDesc with discovery := { (toyServer toyDesc).discovery with endsEarly := true } }, rfl, rfl, by decide +kernel⟩

/-- **C101 fails (an additional header).** If the response to OpenSecureChannel has an additional header, the client waits
for a lock it holds itself and times out. -/
theorem C101_header_fails : ∃ s : Server, s.discovery = (toyServer toyDesc).discovery
    ∧ s.session = { (toyServer toyDesc).session with opened := .response ⟨0, true, .openChannel⟩ }
    ∧ (dial toyLib toyConfig s).1 = .err .badRequestTimeout :=
  ⟨{ toyServer toyDesc with
      session := { (toyServer toyDesc).session with opened := .response ⟨0, true, .openChannel⟩ } }, rfl, rfl, by decide +kernel⟩

/-- **C101 fails (tables that cannot be read).** If the server does not let the client read its namespace table, Dial
succeeds with a table that has only the first namespace. -/
theorem C101_tables_fails : ∃ s : Server, ∃ cl, s.discovery = (toyServer toyDesc).discovery
    ∧ Says (s.session.reply 2) (.read [(false, .other 0), (false, .other 0)])
    ∧ (dial toyLib toyConfig s).1 = .ok cl ∧ cl.namespaces = [uaURI] :=
  ⟨{ toyServer toyDesc with
      session := toyConn (.session [1, 128] [7] [9, 5]) .activated (.read [(false, .other 0), (false, .other 0)]) },
    ⟨toyDesc, [uaURI], []⟩, rfl, ⟨false, rfl⟩, by decide +kernel, rfl⟩

/-! ## C102 -/

/-- `Open` on the connection for discovery has succeeded. -/
def Spec.DiscoveryOpen (c : Conn) : Prop :=
  c.hello = .ack ∧ c.opened = .response ⟨0, false, .openChannel⟩

/-- **C102 (the session).** When Dial fails, the connection for the session is closed or was never made; when it succeeds,
only that one is open. -/
theorem C102_dial (L : Lib) (cfg : Config) (s : Server) :
    (∀ e o1 o2, dial L cfg s = (.err e, o1, o2) → o2 = false)
    ∧ (∀ cl o1 o2, dial L cfg s = (.ok cl, o1, o2) → o1 = false ∧ o2 = true) := by
  unfold dial
  cases hge : getEndpoints L s.discovery with
  | mk r o =>
    cases r with
    | err e => simp
    | panic => simp
    | hangs => simp
    | ok es =>
      obtain ⟨ho, _⟩ := getEndpoints_ok L _ _ _ hge
      simp only
      cases select cfg.options (L.sort es) with
      | none => simp
      | some e =>
        simp only
        cases hrk : remoteKey L e.certificate with
        | err x => simp
        | panic => simp
        | hangs => simp
        | ok key =>
          simp only [openSession]
          cases hop : openChannel L e.policy e.mode e.certificate cfg.hasKey key s.session with
          | mk r o' =>
            cases r with
            | err x => simp [orAbort]
            | panic => simp [orAbort]
            | hangs => simp [orAbort]
            | ok _ =>
              obtain ⟨ho', _⟩ := openChannel_ok L _ _ _ _ _ _ _ hop
              simp only
              cases logIn L cfg e key s.session with
              | err x => simp [orAbort]
              | panic => simp [orAbort]
              | hangs => simp [orAbort]
              | ok c =>
                subst ho ho'
                refine ⟨fun _ _ _ h => by simp [orAbort] at h, fun _ _ _ h => ?_⟩
                simp [orAbort] at h
                exact ⟨h.2.1, h.2.2⟩

/-- **C102 (discovery, partial).** When Dial fails, the connection for discovery is closed or was never made, if the server
has answered Hello and OpenSecureChannel on it. Missing: `C102_discovery_fails`. -/
theorem C102_discovery_partial (L : Lib) (cfg : Config) (s : Server)
    (h : s.discovery.accepts = false ∨ Spec.DiscoveryOpen s.discovery) (e : Err) (o1 o2 : Bool)
    (hd : dial L cfg s = (.err e, o1, o2)) : o1 = false := by
  have hg : ∀ r o, getEndpoints L s.discovery = (r, o) → (∃ es, r = .ok es) ∨ (∃ e, r = .err e) → o = false := by
    intro r o hg hr
    unfold getEndpoints at hg
    cases hc : openChannel L .none .none [] false none s.discovery with
    | mk r' o' =>
      rw [hc] at hg
      cases r' with
      | ok _ =>
        simp only at hg
        cases hs : service asEndpoints (s.discovery.reply 0) with
        | ok es' =>
          rw [hs] at hg
          simp only [closeChannel] at hg
          cases he : s.discovery.endsEarly <;> rw [he] at hg <;> simp at hg <;> simp [hg]
        | err e => rw [hs] at hg; simp at hg; simp [hg]
        | panic =>
          rw [hs] at hg; simp at hg
          rcases hr with ⟨_, hr⟩ | ⟨_, hr⟩ <;> rw [hr] at hg <;> simp at hg
        | hangs =>
          rw [hs] at hg; simp at hg
          rcases hr with ⟨_, hr⟩ | ⟨_, hr⟩ <;> rw [hr] at hg <;> simp at hg
      | err x =>
        simp only [Prod.mk.injEq] at hg
        rcases h with h | ⟨h1, h2⟩
        · simp [openChannel, checkCertificate, h] at hc
          rw [← hg.2]; simp [hc]
        · cases ha : s.discovery.accepts
          · simp [openChannel, checkCertificate, ha] at hc
            rw [← hg.2]; simp [hc]
          · simp [openChannel, checkCertificate, ha, h1, h2, supported, prepareOpen, securedMode, exchangeOpen,
              requestLocked, request, asOpen] at hc
      | panic =>
        simp only [Prod.mk.injEq] at hg
        rcases hr with ⟨_, hr⟩ | ⟨_, hr⟩ <;> rw [hr] at hg <;> simp at hg
      | hangs =>
        simp only [Prod.mk.injEq] at hg
        rcases hr with ⟨_, hr⟩ | ⟨_, hr⟩ <;> rw [hr] at hg <;> simp at hg
  unfold dial at hd
  cases hge : getEndpoints L s.discovery with
  | mk r o =>
    rw [hge] at hd
    cases r with
    | err x =>
      have := hg _ _ hge (.inr ⟨x, rfl⟩)
      simp at hd
      rw [← hd.2.1, this]
    | panic => simp at hd
    | hangs => simp at hd
    | ok es =>
      have := hg _ _ hge (.inl ⟨es, rfl⟩)
      subst this
      simp only at hd
      split at hd
      · simp at hd; simp [hd]
      · split at hd
        · simp at hd; simp [hd]
        · simp at hd
        · simp at hd
        · simp at hd; simp [hd]

example : ∃ s : Server, Spec.DiscoveryOpen s.discovery
    ∧ dial toyLib toyConfig s = (.err .badApplicationSignatureInvalid, false, false) :=
  ⟨{ toyServer toyDesc with session := toyConn (.session [1, 128] [7] [8]) .activated toyTables }, ⟨rfl, rfl⟩, by decide +kernel⟩

/-- **C102 fails (discovery).** If the server answers the Hello of the discovery with an error, or anything else goes wrong
there, Dial leaves the connection open, and nobody can close it. -/
theorem C102_discovery_fails (code : Nat) : ∃ s : Server, s.discovery.hello = .error code
    ∧ dial toyLib toyConfig s = (.err (.status code), true, false) :=
  ⟨{ toyServer toyDesc with discovery := { (toyServer toyDesc).discovery with hello := .error code } }, rfl, by
    simp [dial, getEndpoints, openChannel, checkCertificate, toyServer, toyConn]⟩

/-- **C102 (Close, partial).** Close ends the connection if the server answers CloseSession with a good response and the
connection has not ended before. Missing: the two theorems that follow. -/
theorem C102_close_partial (c : Conn) (n : Nat) (h : Says (c.reply n) .sessionClosed) (he : c.endsEarly = false) :
    close c n = (.ok (), false) := by
  unfold close
  rw [service_says asClosed _ _ _ h rfl]
  simp [closeChannel, he]

example : Says ((toyServer toyDesc).session.reply 3) .sessionClosed ∧ close (toyServer toyDesc).session 3 = (.ok (), false) :=
  ⟨⟨false, rfl⟩, by decide +kernel⟩

/-- **C102 fails (Close with a failing CloseSession).** If CloseSession fails, for instance since the session has timed out,
Close returns the error and the connection stays open. -/
theorem C102_closeSession_fails (code : Nat) (hc : code ≠ 0) (c : Conn) (n : Nat) (b : Body) (ext : Bool)
    (h : c.reply n = .response ⟨code, ext, b⟩) : close c n = (.err (.status code), true) := by
  simp [close, service, h, request, hc]

example : ∃ (c : Conn), c.reply 3 = .response ⟨0x80250000, false, .fault⟩ := ⟨{ toyConn .fault .fault .fault with
  reply := fun _ => .response ⟨0x80250000, false, .fault⟩ }, rfl⟩

/-- **C102 fails (Close with a failing CloseSecureChannel).** If the channel cannot be closed in good order, Close reports
success and the connection stays open. -/
theorem C102_closeChannel_fails (c : Conn) (n : Nat) (h : Says (c.reply n) .sessionClosed) (he : c.endsEarly = true) :
    close c n = (.ok (), true) := by
  unfold close
  rw [service_says asClosed _ _ _ h rfl]
  simp [closeChannel, he]

end Opcua.Dial
