import Verif.Model.Endpoint
import Verif.Props.Password

/-!
# C72, C92, C93 and C94: choosing an endpoint and logging in

Specification: which endpoints suit the options of the client, what an observer of the network can read
off an identity token, and which identities the server has had vouched for. None of it refers to the
loops and switches of the model.
-/

namespace Opcua.Endpoint

open Opcua Opcua.Channel Opcua.Password

namespace Spec

/-- The policies the client knows. -/
def known : List Policy :=
  [.none, .basic128Rsa15, .basic256, .basic256Sha256, .aes128Sha256RsaOaep, .aes256Sha256RsaPss]

/-- The endpoint is one the user of the client can have meant. -/
structure Suits (o : Options) (e : Desc) : Prop where
  known : e.policy ∈ known
  policy : o.policy ≠ .unset → e.policy = o.policy
  mode : o.mode ≠ .invalid → e.mode = o.mode
  unsecured : o.certificate = [] → o.policy = .unset → e.policy = .none ∧ e.mode = .none

/-- The password crosses the network only as the result of RSA encryption. -/
def Sealed (k : ClientKeys) (secret nonce : Bytes) : Sent → Prop
  | .token (.userName _ _ d alg) _ =>
    ∃ suite, k.rsa = some suite ∧ alg ∈ [rsaV15, rsaOaep, rsaOaepSha256]
      ∧ d = clientToken (suite alg) secret nonce
  | .token (.issued _ d alg) _ =>
    ∃ suite, k.rsa = some suite ∧ alg ∈ [rsaV15, rsaOaep, rsaOaepSha256]
      ∧ d = clientToken (suite alg) secret nonce
  | _ => False

/-- The secret is a field of the token as it is. -/
def InClear (secret : Bytes) : Sent → Prop
  | .token (.userName _ _ d alg) _ => d = secret ∧ alg = []
  | .token (.issued _ d alg) _ => d = secret ∧ alg = []
  | _ => False

/-- The messages of the channel are encrypted. -/
def Encrypted (e : Desc) : Prop := e.mode = .signAndEncrypt ∧ e.policy ∈ known ∧ e.policy ≠ .none

/-- The authenticator for this kind of identity has accepted it. -/
def Vouched (s : Server) (id : Identity) : Prop :=
  match id with
  | .anonymous => ∃ a, s.anonymous = some a ∧ a id = .ok
  | .userName .. => ∃ a, s.userName = some a ∧ a id = .ok
  | .x509 .. => ∃ a, s.x509 = some a ∧ a id = .ok
  | .issued .. => ∃ a, s.issued = some a ∧ a id = .ok

/-- The server offers this combination. -/
def Offered (c : Config) (p : Policy) (m : Mode) : Prop :=
  ∃ e ∈ endpoints c, e.policy = p ∧ e.mode = m

end Spec

open Spec

/-! ## C72 -/

theorem supported_iff (p : Policy) : supported p = true ↔ p ∈ known := by
  cases p <;> simp [supported, known]

/-- The case in which the code disregards a mode the user has asked for. -/
def ModeIgnored (o : Options) : Prop :=
  o.policy = .unset ∧ o.certificate = [] ∧ o.mode ≠ .invalid ∧ o.mode ≠ .none

theorem acceptable_iff (o : Options) (e : Desc) (h : ¬ ModeIgnored o) :
    acceptable o e = true ↔ Suits o e := by
  unfold acceptable wanted
  simp only [Bool.and_eq_true, Bool.or_eq_true, decide_eq_true_eq, supported_iff]
  by_cases hc : o.policy = .unset ∧ o.certificate = []
  · rw [if_pos hc]
    simp only [reduceCtorEq, false_or]
    constructor
    · rintro ⟨⟨h1, h2⟩, h3⟩
      exact ⟨h1, fun h' => absurd hc.1 h', fun h' => by
        by_cases h4 : o.mode = .none
        · rw [h3, h4]
        · exact absurd ⟨hc.1, hc.2, h', h4⟩ h, fun _ _ => ⟨h2, h3⟩⟩
    · intro s
      exact ⟨⟨s.known, (s.unsecured hc.2 hc.1).1⟩, (s.unsecured hc.2 hc.1).2⟩
  · rw [if_neg hc]
    constructor
    · rintro ⟨⟨h1, h2⟩, h3⟩
      exact ⟨h1, fun h' => h2.resolve_left h', fun h' => h3.resolve_left h',
        fun h4 h5 => absurd ⟨h5, h4⟩ hc⟩
    · intro s
      refine ⟨⟨s.known, ?_⟩, ?_⟩
      · by_cases h' : o.policy = .unset
        · exact .inl h'
        · exact .inr (s.policy h')
      · by_cases h' : o.mode = .invalid
        · exact .inl h'
        · exact .inr (s.mode h')

theorem select_spec (o : Options) (es sorted : List Desc) (hs : Ordered es sorted) (e : Desc)
    (h : select o sorted = some e) :
    e ∈ es ∧ acceptable o e = true ∧ ∀ e' ∈ es, acceptable o e' = true → e'.level ≤ e.level := by
  obtain ⟨hp, hw⟩ := hs
  have ha : acceptable o e = true := List.find?_some (p := acceptable o) h
  refine ⟨hp.mem_iff.1 (List.mem_of_find?_eq_some h), ha, ?_⟩
  intro e' he' ha'
  obtain ⟨_, as, bs, hsplit, hno⟩ := List.find?_eq_some_iff_append.1 h
  have hm : e' ∈ sorted := hp.mem_iff.2 he'
  rw [hsplit] at hm hw
  rcases List.mem_append.1 hm with hm | hm
  · have := hno e' hm
    simp [ha'] at this
  · rcases List.mem_cons.1 hm with rfl | hm
    · exact Nat.le_refl _
    · have := (List.pairwise_append.1 hw).2.1
      have := (List.pairwise_cons.1 this).1 e' hm
      omega

/-- **C72 (partial).** Whatever the server lists and however the sort leaves equal levels: the endpoint
Dial connects with is one of the list, it suits the options, and no endpoint of the list that suits
them has a higher level. Missing: a mode that was asked for without a policy and without a
certificate (`C72_mode_fails`). -/
theorem C72_best_partial (o : Options) (ho : ¬ ModeIgnored o) (es sorted : List Desc)
    (hs : Ordered es sorted) (e : Desc) (h : select o sorted = some e) :
    e ∈ es ∧ Suits o e ∧ ∀ e' ∈ es, Suits o e' → e'.level ≤ e.level := by
  obtain ⟨h1, h2, h3⟩ := select_spec o es sorted hs e h
  exact ⟨h1, (acceptable_iff o e ho).1 h2, fun e' he' s => h3 e' he' ((acceptable_iff o e' ho).2 s)⟩

/-- **C72 (partial).** Dial fails exactly if no endpoint of the list suits the options. -/
theorem C72_none_partial (o : Options) (ho : ¬ ModeIgnored o) (es sorted : List Desc)
    (hs : Ordered es sorted) : select o sorted = none ↔ ∀ e ∈ es, ¬ Suits o e := by
  unfold select
  rw [List.find?_eq_none]
  constructor
  · intro h e he s
    exact h e (hs.1.mem_iff.2 he) ((acceptable_iff o e ho).2 s)
  · intro h e he ha
    exact h e (hs.1.mem_iff.1 he) ((acceptable_iff o e ho).1 ha)

/-- **C72 (no certificate).** Without a certificate and without a policy that was asked for, Dial
connects with nothing but an unsecured endpoint. -/
theorem C72_noCertificate (o : Options) (hc : o.certificate = []) (hp : o.policy = .unset)
    (es sorted : List Desc) (hs : Ordered es sorted) (e : Desc) (h : select o sorted = some e) :
    e.policy = .none ∧ e.mode = .none := by
  obtain ⟨_, h2, _⟩ := select_spec o es sorted hs e h
  unfold acceptable wanted at h2
  rw [if_pos ⟨hp, hc⟩] at h2
  simp only [Bool.and_eq_true, Bool.or_eq_true, decide_eq_true_eq, reduceCtorEq, false_or] at h2
  exact ⟨h2.1.2, h2.2⟩

/-- Two endpoints of the same level and one with a policy nobody knows. -/
def sampleList : List Desc :=
  [⟨[1], .sign, .basic256, 5, []⟩, ⟨[1], .signAndEncrypt, .basic256Sha256, 5, []⟩,
   ⟨[1], .none, .none, 0, []⟩, ⟨[1], .signAndEncrypt, .other 3, 9, []⟩]

/-- The same as the sort leaves it. -/
def sampleSorted : List Desc :=
  [⟨[1], .signAndEncrypt, .other 3, 9, []⟩, ⟨[1], .sign, .basic256, 5, []⟩,
   ⟨[1], .signAndEncrypt, .basic256Sha256, 5, []⟩, ⟨[1], .none, .none, 0, []⟩]

theorem sample_ordered : Ordered sampleList sampleSorted := by
  refine ⟨by decide, by decide⟩

example : ¬ ModeIgnored ⟨.unset, .signAndEncrypt, [1]⟩
    ∧ select ⟨.unset, .signAndEncrypt, [1]⟩ sampleSorted
      = some ⟨[1], .signAndEncrypt, .basic256Sha256, 5, []⟩
    ∧ select ⟨.aes256Sha256RsaPss, .invalid, [1]⟩ sampleSorted = none
    ∧ select ⟨.unset, .invalid, []⟩ sampleSorted = some ⟨[1], .none, .none, 0, []⟩ := by
  refine ⟨fun h => absurd h.2.1 (by decide), by decide, by decide, by decide⟩

/-- **C72 fails (a mode without a policy).** A client without a certificate that asks for signed and
encrypted messages, and leaves the policy open, is connected without any security as soon as the server
lists an unsecured endpoint. -/
theorem C72_mode_fails (m : Mode) (hm : m ≠ .none) (hm' : m ≠ .invalid) :
    ∃ es sorted e, Ordered es sorted ∧ select ⟨.unset, m, []⟩ sorted = some e ∧ e.mode = .none
      ∧ ¬ Suits ⟨.unset, m, []⟩ e := by
  refine ⟨sampleList, sampleSorted, ⟨[1], .none, .none, 0, []⟩, sample_ordered, ?_, rfl, ?_⟩
  · cases m <;> decide
  · intro s
    exact hm (s.mode hm').symm

/-! ## The server's list -/

theorem endpoints_eq (c : Config) : ∃ k, k = (if c.allowNone then 1 else 0) ∧ endpoints c =
    (if c.allowNone then [⟨c.certificate, .none, .none, 0, tokensAt c 0 .basic256Sha256⟩] else [])
    ++ [⟨c.certificate, .sign, .basic128Rsa15, k, tokensAt c k .basic128Rsa15⟩,
      ⟨c.certificate, .sign, .basic256, k + 1, tokensAt c (k + 1) .basic256⟩,
      ⟨c.certificate, .sign, .basic256Sha256, k + 2, tokensAt c (k + 2) .basic256Sha256⟩,
      ⟨c.certificate, .sign, .aes128Sha256RsaOaep, k + 3, tokensAt c (k + 3) .aes128Sha256RsaOaep⟩,
      ⟨c.certificate, .sign, .aes256Sha256RsaPss, k + 4, tokensAt c (k + 4) .aes256Sha256RsaPss⟩,
      ⟨c.certificate, .signAndEncrypt, .basic128Rsa15, k + 5, tokensAt c (k + 5) .basic128Rsa15⟩,
      ⟨c.certificate, .signAndEncrypt, .basic256, k + 6, tokensAt c (k + 6) .basic256⟩,
      ⟨c.certificate, .signAndEncrypt, .basic256Sha256, k + 7, tokensAt c (k + 7) .basic256Sha256⟩,
      ⟨c.certificate, .signAndEncrypt, .aes128Sha256RsaOaep, k + 8,
        tokensAt c (k + 8) .aes128Sha256RsaOaep⟩,
      ⟨c.certificate, .signAndEncrypt, .aes256Sha256RsaPss, k + 9,
        tokensAt c (k + 9) .aes256Sha256RsaPss⟩] := by
  refine ⟨_, rfl, ?_⟩
  unfold endpoints
  cases h : c.allowNone <;> rfl

/-- The policy under which the endpoint wants passwords and user certificates. -/
def tokenPolicyOf (p : Policy) : Policy := if p = .none then .basic256Sha256 else p

theorem mem_endpoints (c : Config) (e : Desc) (h : e ∈ endpoints c) :
    e.certificate = c.certificate ∧ e.tokens = tokensAt c e.level (tokenPolicyOf e.policy)
    ∧ (e.policy = .none ∧ e.mode = .none ∧ c.allowNone = true
      ∨ e.policy ∈ secured ∧ (e.mode = .sign ∨ e.mode = .signAndEncrypt)) := by
  obtain ⟨k, _, hk⟩ := endpoints_eq c
  rw [hk] at h
  rcases List.mem_append.1 h with h | h
  · cases ha : c.allowNone with
    | false => rw [ha] at h; simp at h
    | true =>
      rw [ha, if_pos rfl, List.mem_singleton] at h
      subst h
      simp [tokenPolicyOf]
  · simp only [List.mem_cons, List.not_mem_nil, or_false] at h
    rcases h with rfl | rfl | rfl | rfl | rfl | rfl | rfl | rfl | rfl | rfl <;>
      simp [tokenPolicyOf, secured]

theorem local_of_mem (c : Config) (e : Desc) (h : e ∈ endpoints c) :
    local_ c e.policy e.mode = ⟨e.tokens, e.policy, false⟩ := by
  obtain ⟨k, _, hk⟩ := endpoints_eq c
  unfold local_
  rw [hk] at h ⊢
  cases ha : c.allowNone <;> rw [ha] at h <;>
    simp only [if_true, List.cons_append, List.nil_append, List.mem_cons, List.not_mem_nil,
      or_false, if_false, Bool.false_eq_true] at h ⊢ <;>
    rcases h with rfl | rfl | rfl | rfl | rfl | rfl | rfl | rfl | rfl | rfl | rfl <;>
    simp [List.find?]

/-- **C72 (together with the server of this library).** A client with a certificate and no further
options is connected with the strongest policy the library has, signed and encrypted. -/
theorem C72_default (c : Config) (cert : Bytes) (hc : cert ≠ []) (sorted : List Desc)
    (hs : Ordered (endpoints c) sorted) :
    ∃ e, select ⟨.unset, .invalid, cert⟩ sorted = some e ∧ e.policy = .aes256Sha256RsaPss
      ∧ e.mode = .signAndEncrypt := by
  have ho : ¬ ModeIgnored ⟨.unset, .invalid, cert⟩ := fun h => h.2.2.1 rfl
  obtain ⟨k, hk0, hk⟩ := endpoints_eq c
  have hlast : (⟨c.certificate, .signAndEncrypt, .aes256Sha256RsaPss, k + 9,
      tokensAt c (k + 9) .aes256Sha256RsaPss⟩ : Desc) ∈ endpoints c := by
    rw [hk]; simp
  have hsuits : ∀ e ∈ endpoints c, Suits ⟨.unset, .invalid, cert⟩ e := by
    intro e he
    refine ⟨?_, fun h => absurd rfl h, fun h => absurd rfl h, fun h => absurd h hc⟩
    rcases (mem_endpoints c e he).2.2 with ⟨h, _⟩ | ⟨h, _⟩
    · rw [h]; decide
    · simp only [secured, known, List.mem_cons] at h ⊢
      exact .inr h
  cases hsel : select ⟨.unset, .invalid, cert⟩ sorted with
  | none => exact absurd (hsuits _ hlast) ((C72_none_partial _ ho _ _ hs).1 hsel _ hlast)
  | some e =>
    obtain ⟨h1, _, h3⟩ := C72_best_partial _ ho _ _ hs e hsel
    have hl := h3 _ hlast (hsuits _ hlast)
    dsimp only at hl
    refine ⟨e, rfl, ?_⟩
    rw [hk] at h1
    cases ha : c.allowNone <;> rw [ha] at h1 hk0 <;>
      simp only [if_true, List.cons_append, List.nil_append, List.mem_cons, List.not_mem_nil,
        or_false, if_false, Bool.false_eq_true] at h1 hk0 <;>
      rcases h1 with rfl | rfl | rfl | rfl | rfl | rfl | rfl | rfl | rfl | rfl | rfl <;>
      simp at hl ⊢ <;> omega

/-- **C72 (together with the server of this library).** A policy and a mode that the server offers
are what the client gets when it asks for them. -/
theorem C72_offered (c : Config) (p : Policy) (m : Mode) (cert : Bytes) (hof : Offered c p m)
    (sorted : List Desc) (hs : Ordered (endpoints c) sorted) :
    ∃ e, select ⟨p, m, cert⟩ sorted = some e ∧ e ∈ endpoints c ∧ e.policy = p ∧ e.mode = m := by
  obtain ⟨e0, he0, rfl, rfl⟩ := hof
  have hm := (mem_endpoints c e0 he0).2.2
  have hp : e0.policy ≠ .unset := by
    rcases hm with ⟨h, _⟩ | ⟨h, _⟩
    · rw [h]; simp
    · intro e; rw [e] at h; simp [secured] at h
  have hmode : e0.mode ≠ .invalid := by
    rcases hm with ⟨_, h, _⟩ | ⟨_, h | h⟩ <;> rw [h] <;> simp
  have hk : e0.policy ∈ known := by
    rcases hm with ⟨h, _⟩ | ⟨h, _⟩
    · rw [h]; decide
    · simp only [secured, known, List.mem_cons] at h ⊢
      exact .inr h
  have ho : ¬ ModeIgnored ⟨e0.policy, e0.mode, cert⟩ := fun h => hp h.1
  have hsuits : Suits ⟨e0.policy, e0.mode, cert⟩ e0 :=
    ⟨hk, fun _ => rfl, fun _ => rfl, fun _ h => absurd h hp⟩
  cases hsel : select ⟨e0.policy, e0.mode, cert⟩ sorted with
  | none => exact absurd hsuits ((C72_none_partial _ ho _ _ hs).1 hsel _ he0)
  | some e =>
    obtain ⟨h1, h2, _⟩ := C72_best_partial _ ho _ _ hs e hsel
    exact ⟨e, rfl, h1, h2.policy hp, h2.mode hmode⟩

/-- The server's list sorted by decreasing level is its list reversed. -/
theorem reverse_ordered (c : Config) : Ordered (endpoints c) (endpoints c).reverse := by
  refine ⟨List.reverse_perm _, ?_⟩
  rw [List.pairwise_reverse]
  obtain ⟨k, hk0, hk⟩ := endpoints_eq c
  rw [hk]
  cases ha : c.allowNone <;> rw [ha] at hk0 <;>
    simp only [if_true, List.cons_append, List.nil_append, if_false, Bool.false_eq_true,
      List.pairwise_cons, List.mem_cons, List.not_mem_nil, or_false] at hk0 ⊢ <;>
    simp <;> omega

/-- A configuration with everything. -/
def sampleConfig : Config := ⟨true, true, true, true, [9]⟩

example : Offered sampleConfig .basic256 .sign
    ∧ Ordered (endpoints sampleConfig) (endpoints sampleConfig).reverse
    ∧ (endpoints sampleConfig).length = 11 :=
  ⟨⟨⟨[9], .sign, .basic256, 2, tokensAt sampleConfig 2 .basic256⟩, by decide, rfl, rfl⟩,
    reverse_ordered _, by decide⟩

/-! ## C92 -/

/-- **C92 (partial).** Whatever list arrives: a client that asked for a policy and a mode connects
with exactly these or not at all, and it goes on with a session only if the certificate in the answer
is the one of the endpoint it chose. Missing: clients that leave the choice open (`C92_fails`). -/
theorem C92_pinned_partial (o : Options) (hp : o.policy ≠ .unset) (hm : o.mode ≠ .invalid)
    (es sorted : List Desc) (hs : Ordered es sorted) (e : Desc) (h : select o sorted = some e)
    (cert : Bytes) (listed : List Desc) (hacc : sessionAccepted e cert listed = true) :
    e.policy = o.policy ∧ e.mode = o.mode ∧ e.certificate = cert := by
  have ho : ¬ ModeIgnored o := fun h' => hp h'.1
  obtain ⟨_, h2, _⟩ := C72_best_partial o ho es sorted hs e h
  exact ⟨h2.policy hp, h2.mode hm, of_decide_eq_true hacc⟩

example : sessionAccepted ⟨[1], .sign, .basic256, 5, []⟩ [1] sampleList = true
    ∧ select ⟨.basic256, .sign, [1]⟩ sampleSorted = some ⟨[1], .sign, .basic256, 5, []⟩ := by decide

/-- **C92 fails.** Take any server of this library that has an unsecured endpoint, and a client with a
certificate that leaves the choice to Dial. If somebody on the network strips the discovery answer down
to the unsecured endpoint, the client connects without security and accepts the session, although the
answer to CreateSession lists the endpoints that were stripped. -/
theorem C92_fails (c : Config) (hn : c.allowNone = true) (cert : Bytes) (hc : cert ≠ []) :
    ∃ tampered sorted e, tampered.Sublist (endpoints c) ∧ Ordered tampered sorted
      ∧ select ⟨.unset, .invalid, cert⟩ sorted = some e
      ∧ e.policy = .none ∧ e.mode = .none
      ∧ sessionAccepted e c.certificate (endpoints c) = true
      ∧ ∃ g ∈ endpoints c, Suits ⟨.unset, .invalid, cert⟩ g ∧ g.mode = .signAndEncrypt
        ∧ e.level < g.level := by
  obtain ⟨k, hk0, hk⟩ := endpoints_eq c
  rw [hn] at hk0 hk
  simp only [if_true, List.cons_append, List.nil_append] at hk hk0
  refine ⟨[⟨c.certificate, .none, .none, 0, tokensAt c 0 .basic256Sha256⟩], _,
    ⟨c.certificate, .none, .none, 0, tokensAt c 0 .basic256Sha256⟩, ?_, ⟨List.Perm.refl _, List.pairwise_singleton _ _⟩, ?_, rfl, rfl, by simp [sessionAccepted],
    ⟨c.certificate, .signAndEncrypt, .aes256Sha256RsaPss, k + 9, tokensAt c (k + 9) .aes256Sha256RsaPss⟩,
    ?_, ⟨by simp [known], fun h => absurd rfl h, fun h => absurd rfl h, fun h => absurd h hc⟩, rfl, ?_⟩
  · rw [hk]
    exact List.Sublist.cons_cons _ (List.nil_sublist _)
  · simp [select, acceptable, wanted, hc, supported]
  · rw [hk]; simp
  · dsimp only; omega

example : sampleConfig.allowNone = true ∧ ([7] : Bytes) ≠ [] := by decide

/-! ## C93 -/

theorem keyWrap_mem (p : Policy) (a : Bytes) (h : keyWrap p = some a) :
    a ∈ [rsaV15, rsaOaep, rsaOaepSha256] := by
  cases p <;> simp [keyWrap] at h <;> subst h <;> simp

theorem keyWrap_secured (p : Policy) (h : p ∈ secured) : ∃ a, keyWrap p = some a := by
  simp only [secured, List.mem_cons, List.not_mem_nil, or_false] at h
  rcases h with rfl | rfl | rfl | rfl | rfl <;> exact ⟨_, rfl⟩

/-- **C93 (partial).** If the endpoint that was chosen names one of the RSA policies for its password and
issued tokens, or names none and the policy of the channel is one of them, then the secret of the user
leaves the client only encrypted with the key of the server's certificate. Missing: endpoints whose
token policy is None or unknown (`C93_fails`, `C93_signed_fails`). -/
theorem C93_sealed_partial (e : Desc) (k : ClientKeys) (nonce secret : Bytes) (id : Identity)
    (hid : (∃ u, id = .userName u secret) ∨ id = .issued secret)
    (ht : ∀ t ∈ e.tokens, t.policy ∈ secured ∨ t.policy = .unset ∧ e.policy ∈ secured
      ∨ t.kind = .anonymous ∨ t.kind = .certificate) :
    identityToken e k nonce id = .rejected ∨ Sealed k secret nonce (identityToken e k nonce id) := by
  have key : ∀ kind t, kind = .userName ∨ kind = .issued → firstOf kind e.tokens = some t →
      ∃ a, keyWrap (effective t e.policy) = some a := by
    intro kind t hk hf
    have hmem := List.mem_of_find?_eq_some hf
    have hkind : t.kind = kind := by
      have := List.find?_some (p := fun t : TokenPolicy => decide (t.kind = kind)) hf
      simpa using this
    unfold effective
    rcases ht t hmem with h | ⟨h1, h2⟩ | h | h
    · rw [if_neg (by intro e; rw [e] at h; simp [secured] at h)]
      exact keyWrap_secured _ h
    · rw [if_pos h1]; exact keyWrap_secured _ h2
    · rw [hkind] at h; rw [h] at hk; simp at hk
    · rw [hkind] at h; rw [h] at hk; simp at hk
  rcases hid with ⟨u, rfl⟩ | rfl
  · unfold identityToken
    cases hf : firstOf .userName e.tokens with
    | none => exact .inl rfl
    | some t =>
      obtain ⟨a, ha⟩ := key _ t (.inl rfl) hf
      dsimp only
      unfold sealSecret
      rw [ha]
      cases hr : k.rsa with
      | none => exact .inl rfl
      | some suite => exact .inr ⟨suite, hr, keyWrap_mem _ _ ha, rfl⟩
  · unfold identityToken
    cases hf : firstOf .issued e.tokens with
    | none => exact .inl rfl
    | some t =>
      obtain ⟨a, ha⟩ := key _ t (.inr rfl) hf
      dsimp only
      unfold sealSecret
      rw [ha]
      cases hr : k.rsa with
      | none => exact .inl rfl
      | some suite => exact .inr ⟨suite, hr, keyWrap_mem _ _ ha, rfl⟩

theorem tokensAt_mem (c : Config) (n : Nat) (p : Policy) (t : TokenPolicy) (h : t ∈ tokensAt c n p) :
    t.kind = .anonymous ∧ t.policy = .none ∧ c.anonymous = true
    ∨ t.kind = .userName ∧ t.policy = p ∧ c.userName = true
    ∨ t.kind = .certificate ∧ t.policy = p ∧ c.x509 = true := by
  unfold tokensAt at h
  cases ha : c.anonymous <;> cases hu : c.userName <;> cases hx : c.x509 <;>
    simp [ha, hu, hx] at h ⊢ <;> grind

/-- **C93 (with the server of this library).** Whichever endpoint of an unaltered list the client
connects with, secured or not, a password leaves it only encrypted, or the login is refused by the
client itself. -/
theorem C93_server (c : Config) (o : Options) (sorted : List Desc) (hs : Ordered (endpoints c) sorted)
    (e : Desc) (h : select o sorted = some e) (k : ClientKeys) (nonce user pw : Bytes) :
    identityToken e k nonce (.userName user pw) = .rejected
    ∨ Sealed k pw nonce (identityToken e k nonce (.userName user pw)) := by
  obtain ⟨h1, _, _⟩ := select_spec o _ sorted hs e h
  obtain ⟨_, htok, hpol⟩ := mem_endpoints c e h1
  have hsec : tokenPolicyOf e.policy ∈ secured := by
    rcases hpol with ⟨h, _⟩ | ⟨h, _⟩
    · rw [h]; decide
    · unfold tokenPolicyOf
      split
      · decide
      · exact h
  refine C93_sealed_partial e k nonce pw _ (.inl ⟨user, rfl⟩) ?_
  intro t ht
  rw [htok] at ht
  rcases tokensAt_mem c _ _ t ht with ⟨h, _⟩ | ⟨_, h, _⟩ | ⟨_, h, _⟩
  · exact .inr (.inr (.inl h))
  · rw [h]; exact .inl hsec
  · rw [h]; exact .inl hsec

/-- **C93 (encrypted channels).** A client that asks for encryption under one of the secured policies
never sends a password over a channel that is not encrypted, whatever list arrives. -/
theorem C93_encrypted (o : Options) (hp : o.policy ∈ secured) (hm : o.mode = .signAndEncrypt)
    (es sorted : List Desc) (hs : Ordered es sorted) (e : Desc) (h : select o sorted = some e) :
    Encrypted e := by
  have hp' : o.policy ≠ .unset := by intro e; rw [e] at hp; simp [secured] at hp
  have ho : ¬ ModeIgnored o := fun h' => hp' h'.1
  obtain ⟨_, h2, _⟩ := C72_best_partial o ho es sorted hs e h
  have he := h2.policy hp'
  refine ⟨by rw [h2.mode (by rw [hm]; simp), hm], h2.known, ?_⟩
  rw [he]
  intro e'; rw [e'] at hp; simp [secured] at hp

/-- A key that encrypts, and a user key that signs with a constant. -/
def sampleKeys : ClientKeys := ⟨some fun _ => toyA, fun _ _ => [5]⟩

example : select ⟨.basic256Sha256, .signAndEncrypt, [1]⟩ sampleSorted
      = some ⟨[1], .signAndEncrypt, .basic256Sha256, 5, []⟩
    ∧ identityToken ⟨[9], .none, .none, 0, tokensAt sampleConfig 0 .basic256Sha256⟩ sampleKeys
        (List.replicate 32 7) (.userName [1] [2])
      = .token (.userName (.made .userName 0) [1] (clientToken toyA [2] (List.replicate 32 7)) rsaOaep) []
    ∧ identityToken ⟨[9], .none, .none, 0, tokensAt sampleConfig 0 .basic256Sha256⟩
        ⟨none, fun _ _ => []⟩ (List.replicate 32 7) (.userName [1] [2]) = .rejected := by decide +kernel

/-- **C93 fails (the list is believed).** A single endpoint made up by somebody on the network is
enough: the client connects without security, and sends its password as it is. -/
theorem C93_fails (cert : Bytes) (hc : cert ≠ []) (k : ClientKeys) (nonce user pw : Bytes) :
    ∃ es sorted e, Ordered es sorted ∧ select ⟨.unset, .invalid, cert⟩ sorted = some e
      ∧ ¬ Encrypted e ∧ InClear pw (identityToken e k nonce (.userName user pw)) := by
  refine ⟨[⟨[], .none, .none, 0, [⟨.other 0, .userName, .none⟩]⟩], _,
    ⟨[], .none, .none, 0, [⟨.other 0, .userName, .none⟩]⟩,
    ⟨List.Perm.refl _, List.pairwise_singleton _ _⟩, ?_, ?_, ?_⟩
  · simp [select, acceptable, wanted, hc, supported]
  · intro h
    simp [Encrypted] at h
  · simp [identityToken, firstOf, sealSecret, effective, keyWrap, InClear]

/-- **C93 fails (asking for a policy does not help).** The client asks for signed messages under
Basic256Sha256. The token policy in the list it gets says None, and the password goes out as it is on a
channel that signs and does not encrypt. -/
theorem C93_signed_fails (cert server : Bytes) (k : ClientKeys) (nonce user pw : Bytes) :
    ∃ es sorted e, Ordered es sorted ∧ select ⟨.basic256Sha256, .sign, cert⟩ sorted = some e
      ∧ e.certificate = server
      ∧ ¬ Encrypted e ∧ InClear pw (identityToken e k nonce (.userName user pw)) := by
  refine ⟨[⟨server, .sign, .basic256Sha256, 0, [⟨.other 0, .userName, .none⟩]⟩], _,
    ⟨server, .sign, .basic256Sha256, 0, [⟨.other 0, .userName, .none⟩]⟩,
    ⟨List.Perm.refl _, List.pairwise_singleton _ _⟩, ?_, rfl, ?_, ?_⟩
  · simp [select, acceptable, wanted, supported]
  · intro h
    simp [Encrypted] at h
  · simp [identityToken, firstOf, sealSecret, effective, keyWrap, InClear]

/-! ## C94 -/

theorem ask_activated (auth : Option (Identity → Verdict)) (id got : Identity)
    (h : askAuthenticator auth id = .activated got) :
    got = id ∧ ∃ a, auth = some a ∧ a id = .ok := by
  unfold askAuthenticator at h
  cases auth with
  | none => simp at h
  | some a =>
    dsimp only at h
    cases hv : a id <;> rw [hv] at h <;> simp at h
    exact ⟨h.symm, a, rfl, hv⟩

theorem authenticate_activated (s : Server) (id got : Identity)
    (h : authenticate s id = .activated got) : got = id ∧ Vouched s id := by
  cases id <;> exact ask_activated _ _ _ h

/-- What the token says, for the identities that are not secret. -/
theorem activate_cases (s : Server) (p : Policy) (m : Mode) (nonce : Bytes) (tok : Token) (sig : Bytes)
    (id : Identity) (h : activate s p m nonce tok sig = .activated id) :
    Vouched s id ∧ ∃ e ∈ endpoints s.config, e.policy = p ∧ e.mode = m ∧
      match id with
      | .anonymous => ∃ pid, tok = .anonymous pid
      | .userName user pw => ∃ pid d alg t, tok = .userName pid user d alg ∧ t ∈ e.tokens
          ∧ t.kind = .userName ∧ user ≠ [] ∧ openSecret s (effective t e.policy) nonce d alg = .password pw
      | .x509 cert => ∃ pid t v, tok = .x509 pid cert ∧ t ∈ e.tokens ∧ t.kind = .certificate
          ∧ s.verify cert = some v
          ∧ ∀ sch, scheme (effective t p) = some sch → v sch (s.certificate ++ nonce) sig = true
      | .issued data => ∃ pid alg, tok = .issued pid data alg := by
  unfold activate at h
  have hl : (local_ s.config p m).discoveryOnly = true
      ∨ (∃ e ∈ endpoints s.config, e.policy = p ∧ e.mode = m
          ∧ local_ s.config p m = ⟨e.tokens, e.policy, false⟩)
      ∨ (local_ s.config p m).tokens = [] := by
    unfold local_
    cases hf : (endpoints s.config).find? fun e => decide (e.policy = p) && decide (e.mode = m) with
    | none => exact .inr (.inr rfl)
    | some e =>
      have hp := List.find?_some (p := fun e : Desc => decide (e.policy = p) && decide (e.mode = m)) hf
      simp only [Bool.and_eq_true, decide_eq_true_eq] at hp
      exact .inr (.inl ⟨e, List.mem_of_find?_eq_some hf, hp.1, hp.2, rfl⟩)
  dsimp only at h
  rcases hl with hl | ⟨e, he, hp, hm, hl⟩ | hl
  · rw [if_pos hl] at h; cases h
  · rw [hl] at h
    simp only [Bool.false_eq_true, if_false] at h
    cases tok with
    | absent => cases h
    | anonymous pid =>
      dsimp only at h
      cases hpo : policyOf ⟨e.tokens, e.policy, false⟩ .anonymous pid with
      | none => rw [hpo] at h; cases h
      | some t =>
        rw [hpo] at h
        obtain ⟨rfl, hv⟩ := authenticate_activated s _ _ h
        exact ⟨hv, e, he, hp, hm, pid, rfl⟩
    | issued pid data alg =>
      dsimp only at h
      cases hpo : policyOf ⟨e.tokens, e.policy, false⟩ .certificate pid with
      | none => rw [hpo] at h; cases h
      | some t =>
        rw [hpo] at h
        obtain ⟨rfl, hv⟩ := authenticate_activated s _ _ h
        exact ⟨hv, e, he, hp, hm, pid, alg, rfl⟩
    | userName pid user d alg =>
      dsimp only at h
      cases hpo : policyOf ⟨e.tokens, e.policy, false⟩ .userName pid with
      | none => rw [hpo] at h; cases h
      | some t =>
        rw [hpo] at h
        dsimp only [userNameToken] at h
        have hk := List.find?_some
          (p := fun t : TokenPolicy => decide (t.kind = .userName) && decide (t.id = pid)) hpo
        simp only [Bool.and_eq_true, decide_eq_true_eq] at hk
        by_cases hu : user = []
        · rw [if_pos hu] at h; cases h
        · rw [if_neg hu] at h
          cases ho : openSecret s (effective t e.policy) nonce d alg with
          | password pw =>
            rw [ho] at h
            obtain ⟨rfl, hv⟩ := authenticate_activated s _ _ h
            exact ⟨hv, e, he, hp, hm, pid, d, alg, t, rfl, List.mem_of_find?_eq_some hpo, hk.1, hu, ho⟩
          | invalid => rw [ho] at h; cases h
          | rejected => rw [ho] at h; cases h
          | connectionEnds => rw [ho] at h; cases h
    | x509 pid cert =>
      dsimp only at h
      cases hpo : policyOf ⟨e.tokens, e.policy, false⟩ .certificate pid with
      | none => rw [hpo] at h; cases h
      | some t =>
        rw [hpo] at h
        dsimp only [x509Token] at h
        have hk := List.find?_some
          (p := fun t : TokenPolicy => decide (t.kind = .certificate) && decide (t.id = pid)) hpo
        simp only [Bool.and_eq_true, decide_eq_true_eq] at hk
        cases hve : s.verify cert with
        | none => rw [hve] at h; cases h
        | some v =>
          rw [hve] at h
          dsimp only at h
          cases hsc : scheme (effective t p) with
          | none =>
            rw [hsc] at h
            obtain ⟨rfl, hv⟩ := authenticate_activated s _ _ h
            exact ⟨hv, e, he, hp, hm, pid, t, v, rfl, List.mem_of_find?_eq_some hpo, hk.1, hve,
              fun sch h' => by rw [hsc] at h'; cases h'⟩
          | some sch =>
            rw [hsc] at h
            dsimp only at h
            split at h
            next hok =>
              obtain ⟨rfl, hv⟩ := authenticate_activated s _ _ h
              exact ⟨hv, e, he, hp, hm, pid, t, v, rfl, List.mem_of_find?_eq_some hpo, hk.1, hve,
                fun sch' h' => by rw [hsc] at h'; cases h'; exact hok⟩
            next => cases h
  · exfalso
    have hno : ∀ k pid, policyOf (local_ s.config p m) k pid = none := by
      intro k pid; unfold policyOf; rw [hl]; rfl
    split at h
    · cases h
    · cases tok <;> simp [hno] at h

/-- **C94 (vouched for).** A session is activated for an identity only if the authenticator for this
kind of identity was asked about exactly this identity and accepted it. -/
theorem C94_vouched (s : Server) (p : Policy) (m : Mode) (nonce : Bytes) (tok : Token) (sig : Bytes)
    (id : Identity) (h : activate s p m nonce tok sig = .activated id) : Vouched s id :=
  (activate_cases s p m nonce tok sig id h).1

/-- **C94 (only where offered).** On a channel with a combination of policy and mode that the server
does not offer, no session is ever activated. The server lets such channels be opened. -/
theorem C94_offered (s : Server) (p : Policy) (m : Mode) (hno : ¬ Offered s.config p m) (nonce : Bytes)
    (tok : Token) (sig : Bytes) (id : Identity) : activate s p m nonce tok sig ≠ .activated id := by
  intro h
  obtain ⟨_, e, he, hp, hm, _⟩ := activate_cases s p m nonce tok sig id h
  exact hno ⟨e, he, hp, hm⟩

theorem effective_server (c : Config) (e : Desc) (he : e ∈ endpoints c) (t : TokenPolicy)
    (ht : t ∈ e.tokens) (hk : t.kind = .userName ∨ t.kind = .certificate) (p : Policy) :
    effective t p ∈ secured := by
  obtain ⟨_, htok, hpol⟩ := mem_endpoints c e he
  have hsec : tokenPolicyOf e.policy ∈ secured := by
    rcases hpol with ⟨h, _⟩ | ⟨h, _⟩
    · rw [h]; decide
    · unfold tokenPolicyOf
      split
      · decide
      · exact h
  rw [htok] at ht
  have htp : t.policy = tokenPolicyOf e.policy := by
    rcases tokensAt_mem c _ _ t ht with ⟨h, _⟩ | ⟨_, h, _⟩ | ⟨_, h, _⟩
    · rw [h] at hk; simp at hk
    · exact h
    · exact h
  unfold effective
  rw [htp, if_neg (by intro e; rw [e] at hsec; simp [secured] at hsec)]
  exact hsec

/-- **C94 (possession of the key).** A session is activated for a user certificate only if the
signature in the request verifies, with the key of that certificate, over the server's certificate and
the nonce of the session. -/
theorem C94_possession (s : Server) (p : Policy) (m : Mode) (nonce : Bytes) (tok : Token)
    (sig cert : Bytes) (h : activate s p m nonce tok sig = .activated (.x509 cert)) :
    ∃ v sch, s.verify cert = some v ∧ v sch (s.certificate ++ nonce) sig = true := by
  obtain ⟨_, e, he, _, _, pid, t, v, _, ht, hk, hv, hall⟩ := activate_cases s p m nonce tok sig _ h
  have hsec := effective_server s.config e he t ht (.inr hk) p
  have : ∃ sch, scheme (effective t p) = some sch := by
    simp only [secured, List.mem_cons, List.not_mem_nil, or_false] at hsec
    rcases hsec with h | h | h | h | h <;> rw [h] <;> exact ⟨_, rfl⟩
  obtain ⟨sch, hs⟩ := this
  exact ⟨v, sch, hv, hall sch hs⟩

/-- **C94 (passwords).** A session is activated for a user name only if the password came encrypted
for the server's key; a password that came as it is never activates a session. -/
theorem C94_password (s : Server) (p : Policy) (m : Mode) (nonce : Bytes) (tok : Token)
    (sig user pw : Bytes) (h : activate s p m nonce tok sig = .activated (.userName user pw)) :
    ∃ pid d alg, tok = .userName pid user d alg ∧ alg ∈ [rsaV15, rsaOaep, rsaOaepSha256]
      ∧ serverToken (s.rsa alg) s.dSize nonce alg alg d = .password pw := by
  obtain ⟨_, e, he, _, _, pid, d, alg, t, htok, ht, hk, _, ho⟩ := activate_cases s p m nonce tok sig _ h
  have hsec := effective_server s.config e he t ht (.inl hk) e.policy
  obtain ⟨a, ha⟩ := keyWrap_secured _ hsec
  unfold openSecret at ho
  rw [ha] at ho
  dsimp only at ho
  by_cases hal : alg = a
  · subst hal
    exact ⟨pid, d, alg, htok, keyWrap_mem _ _ ha, ho⟩
  · rw [C42_algorithm _ _ _ _ _ _ hal] at ho
    cases ho

/-- The keys of both sides belong together: the client encrypts for the server's key, and signatures
made with the user's key verify. -/
structure KeysFit (s : Server) (k : ClientKeys) (cert : Bytes) : Prop where
  rsa : k.rsa = some s.rsa
  lawful : ∀ a, (s.rsa a).Lawful
  size : ∀ a, s.dSize = (s.rsa a).cipherBlock
  verifies : ∃ v, s.verify cert = some v ∧ ∀ sch d, v sch d (k.sign sch d) = true

theorem tokensAt_userName (c : Config) (n : Nat) (p : Policy) (h : c.userName = true) :
    firstOf .userName (tokensAt c n p) = some ⟨.made .userName n, .userName, p⟩ := by
  unfold tokensAt firstOf
  rw [h]
  cases c.anonymous <;> cases c.x509 <;> simp [List.find?]

theorem tokensAt_x509 (c : Config) (n : Nat) (p : Policy) (h : c.x509 = true) :
    firstOf .certificate (tokensAt c n p) = some ⟨.made .certificate n, .certificate, p⟩ := by
  unfold tokensAt firstOf
  rw [h]
  cases c.anonymous <;> cases c.userName <;> simp [List.find?]

theorem tokensAt_anonymous (c : Config) (n : Nat) (p : Policy) (h : c.anonymous = true) :
    firstOf .anonymous (tokensAt c n p) = some ⟨.made .anonymous n, .anonymous, .none⟩ := by
  unfold tokensAt firstOf
  rw [h]
  cases c.userName <;> cases c.x509 <;> simp [List.find?]

theorem policyOf_tokensAt (c : Config) (n : Nat) (p q : Policy) (k : TokenType) (t : TokenPolicy)
    (h : firstOf k (tokensAt c n p) = some t) (hid : t.id = .made k n) :
    policyOf ⟨tokensAt c n p, q, false⟩ k t.id = some t := by
  have hk : t.kind = k := by
    have := List.find?_some (p := fun t : TokenPolicy => decide (t.kind = k)) h
    simpa using this
  have hm := List.mem_of_find?_eq_some h
  unfold firstOf at h
  unfold policyOf
  rw [hid]
  dsimp only
  have key : ∀ t' ∈ tokensAt c n p,
      (decide (t'.kind = k) && decide (t'.id = PolicyId.made k n)) = decide (t'.kind = k) := by
    intro t' ht'
    by_cases hk' : t'.kind = k
    · unfold tokensAt at ht'
      cases ha : c.anonymous <;> cases hu : c.userName <;> cases hx : c.x509 <;>
        simp [ha, hu, hx] at ht' <;> grind
    · simp [hk']
  rw [← h]
  generalize tokensAt c n p = l at key
  clear h hm hid hk
  induction l with
  | nil => rfl
  | cons a l ih =>
    rw [List.find?_cons, List.find?_cons, key a (List.mem_cons_self ..)]
    rw [ih fun t' ht' => key t' (List.mem_cons_of_mem _ ht')]

/-- **C94 (partial: logging in works).** On every endpoint the server offers, secured or not, a client
that holds the right keys gets in with every identity that the authenticator accepts: anonymously, with
a user name and a password of at most 64 bytes, and with a user certificate. Missing: issued tokens
(`C94_issued_fails`), longer passwords (`C42_long_fails`) and private exponents that are shorter than
the modulus (`C82_short_exponent_fails`). -/
theorem C94_login_partial (s : Server) (e : Desc) (he : e ∈ endpoints s.config) (k : ClientKeys)
    (nonce : Bytes) (hn : nonce.length = 32) (id : Identity) (cert : Bytes) (hk : KeysFit s k cert)
    (hv : Vouched s id)
    (hid : id = .anonymous ∨ (∃ u pw, id = .userName u pw ∧ u ≠ [] ∧ pw.length ≤ 64) ∨ id = .x509 cert) :
    ∃ tok sig, identityToken e k nonce id = .token tok sig
      ∧ activate s e.policy e.mode nonce tok sig = .activated id := by
  have hloc := local_of_mem s.config e he
  obtain ⟨hcert, htok, hpol⟩ := mem_endpoints s.config e he
  have hsec : tokenPolicyOf e.policy ∈ secured := by
    rcases hpol with ⟨h, _⟩ | ⟨h, _⟩
    · rw [h]; decide
    · unfold tokenPolicyOf
      split
      · decide
      · exact h
  have hne : tokenPolicyOf e.policy ≠ .unset := by
    intro e; rw [e] at hsec; simp [secured] at hsec
  have hauth : authenticate s id = .activated id := by
    cases id <;> obtain ⟨a, ha, hok⟩ := hv <;> simp [authenticate, askAuthenticator, ha, hok]
  rcases hid with rfl | ⟨u, pw, rfl, hu, hpw⟩ | rfl
  · have hc : s.config.anonymous = true := by
      obtain ⟨a, ha, _⟩ := hv
      simp [Server.config, ha]
    have hf := tokensAt_anonymous s.config e.level (tokenPolicyOf e.policy) hc
    have hp := policyOf_tokensAt s.config e.level (tokenPolicyOf e.policy) e.policy _ _ hf rfl
    refine ⟨.anonymous (.made .anonymous e.level), [], ?_, ?_⟩
    · simp only [identityToken, htok, hf]
    · unfold activate
      rw [hloc, htok]
      simp only [Bool.false_eq_true, if_false]
      rw [hp]
      exact hauth
  · have hc : s.config.userName = true := by
      obtain ⟨a, ha, _⟩ := hv
      simp [Server.config, ha]
    have hf := tokensAt_userName s.config e.level (tokenPolicyOf e.policy) hc
    have hp := policyOf_tokensAt s.config e.level (tokenPolicyOf e.policy) e.policy _ _ hf rfl
    obtain ⟨a, ha⟩ := keyWrap_secured _ hsec
    refine ⟨.userName (.made .userName e.level) u (clientToken (s.rsa a) pw nonce) a, [], ?_, ?_⟩
    · simp only [identityToken, htok, hf, sealSecret, effective, if_neg hne, ha, hk.rsa]
    · unfold activate
      rw [hloc, htok]
      simp only [Bool.false_eq_true, if_false]
      rw [hp]
      dsimp only [userNameToken]
      rw [if_neg hu]
      have : openSecret s (effective ⟨.made .userName e.level, .userName, tokenPolicyOf e.policy⟩ e.policy)
          nonce (clientToken (s.rsa a) pw nonce) a = .password pw := by
        unfold effective openSecret
        rw [if_neg hne, ha]
        exact C82_full_exponent_partial (s.rsa a) (hk.lawful a) s.dSize (hk.size a) a pw nonce hn hpw
      rw [this]
      exact hauth
  · have hc : s.config.x509 = true := by
      obtain ⟨a, ha, _⟩ := hv
      simp [Server.config, ha]
    have hf := tokensAt_x509 s.config e.level (tokenPolicyOf e.policy) hc
    have hp := policyOf_tokensAt s.config e.level (tokenPolicyOf e.policy) e.policy _ _ hf rfl
    have hsch : ∃ sch, scheme (tokenPolicyOf e.policy) = some sch := by
      simp only [secured, List.mem_cons, List.not_mem_nil, or_false] at hsec
      rcases hsec with h | h | h | h | h <;> rw [h] <;> exact ⟨_, rfl⟩
    obtain ⟨sch, hs⟩ := hsch
    obtain ⟨v, hve, hver⟩ := hk.verifies
    refine ⟨.x509 (.made .certificate e.level) cert, k.sign sch (e.certificate ++ nonce), ?_, ?_⟩
    · simp only [identityToken, htok, hf, effective, if_neg hne, hs]
    · unfold activate
      rw [hloc, htok]
      simp only [Bool.false_eq_true, if_false]
      rw [hp]
      dsimp only [x509Token]
      rw [hve]
      dsimp only [effective]
      rw [if_neg hne, hs]
      dsimp only
      have hc' : e.certificate = s.certificate := hcert
      rw [hc', hver, if_pos rfl]
      exact hauth

/-- A server with every authenticator; it accepts one user name, one certificate and nobody else. -/
def sampleServer : Server where
  allowNone := true
  certificate := [9]
  rsa := fun _ => toyA
  dSize := 64
  verify := fun c => if c = [4] then some fun _ d sig => decide (sig = d) else none
  anonymous := none
  userName := some fun id => if id = .userName [1] [2] then .ok else .status 0x801F0000
  x509 := some fun id => if id = .x509 [4] then .ok else .error
  issued := some fun _ => .ok

/-- Keys that go with it. -/
def sampleUser : ClientKeys := ⟨some fun _ => toyA, fun _ d => d⟩

theorem sample_fit : KeysFit sampleServer sampleUser [4] :=
  ⟨rfl, fun _ => toyA_lawful, fun _ => rfl, ⟨_, rfl, by simp [sampleUser]⟩⟩

example : Vouched sampleServer (.userName [1] [2]) ∧ Vouched sampleServer (.x509 [4])
    ∧ (⟨[9], .none, .none, 0, tokensAt sampleServer.config 0 .basic256Sha256⟩ : Desc)
      ∈ endpoints sampleServer.config
    ∧ ¬ Offered sampleServer.config .basic256 .none :=
  ⟨⟨_, rfl, by decide⟩, ⟨_, rfl, by decide⟩, by decide, by
    rintro ⟨e, he, h1, h2⟩
    rcases (mem_endpoints _ e he).2.2 with ⟨h, _⟩ | ⟨_, h | h⟩
    · rw [h1] at h; cases h
    · rw [h2] at h; cases h
    · rw [h2] at h; cases h⟩

example : activate sampleServer .none .none (List.replicate 32 7)
      (.userName (.made .userName 0) [1] (clientToken toyA [2] (List.replicate 32 7)) rsaOaep) []
      = .activated (.userName [1] [2])
    ∧ activate sampleServer .none .none (List.replicate 32 7)
      (.userName (.made .userName 0) [1] [2] []) [] = .fault badIdentityTokenInvalid
    ∧ activate sampleServer .basic256 .sign [8] (.x509 (.made .certificate 2) [4]) [9, 8]
      = .activated (.x509 [4])
    ∧ activate sampleServer .basic256 .sign [8] (.x509 (.made .certificate 2) [4]) [9, 7]
      = .fault badIdentityTokenRejected := by decide +kernel

/-- **C94 (no crash, partial).** If no authenticator answers with an error that is not a status code,
no identity token whatever crashes the server. -/
theorem C94_noPanic_partial (s : Server)
    (hs : ∀ a id, (s.anonymous = some a ∨ s.userName = some a ∨ s.x509 = some a ∨ s.issued = some a) →
      a id ≠ .error)
    (p : Policy) (m : Mode) (nonce : Bytes) (tok : Token) (sig : Bytes) :
    activate s p m nonce tok sig ≠ .panic := by
  have ask : ∀ auth id, (∀ a, auth = some a → a id ≠ .error) → askAuthenticator auth id ≠ .panic := by
    intro auth id h e
    unfold askAuthenticator at e
    cases auth with
    | none => cases e
    | some a =>
      dsimp only at e
      have := h a rfl
      cases hv : a id <;> rw [hv] at e <;> simp_all
  have hau : ∀ id, authenticate s id ≠ .panic := by
    intro id
    cases id <;> refine ask _ _ fun a ha => hs a _ ?_ <;> simp [ha]
  unfold activate
  dsimp only
  split
  · simp
  · cases tok with
    | absent => simp
    | anonymous pid => dsimp only; split; simp; exact hau _
    | issued pid data alg => dsimp only; split; simp; exact hau _
    | userName pid user d alg =>
      dsimp only; split
      · simp
      · unfold userNameToken
        split
        · simp
        · split <;> first | exact hau _ | simp
    | x509 pid cert =>
      dsimp only; split
      · simp
      · unfold x509Token
        split
        · simp
        · split
          · exact hau _
          · split
            · exact hau _
            · simp

example : ∀ id, (fun id => if id = Identity.userName [1] [2] then Verdict.ok else .status 0x801F0000) id
    ≠ .error := by
  intro id; dsimp only; split <;> simp

/-- **C94 fails (an authenticator's own errors).** An authenticator that answers with an error of its
own, like `errors.New`, crashes the server process. -/
theorem C94_panic_fails (s : Server) (a : Identity → Verdict) (ha : s.anonymous = some a)
    (herr : a .anonymous = .error) (e : Desc) (he : e ∈ endpoints s.config) (nonce sig : Bytes) :
    activate s e.policy e.mode nonce (.anonymous (.made .anonymous e.level)) sig = .panic := by
  have hloc := local_of_mem s.config e he
  obtain ⟨_, htok, _⟩ := mem_endpoints s.config e he
  have hc : s.config.anonymous = true := by simp [Server.config, ha]
  have hf := tokensAt_anonymous s.config e.level (tokenPolicyOf e.policy) hc
  have hp := policyOf_tokensAt s.config e.level (tokenPolicyOf e.policy) e.policy _ _ hf rfl
  unfold activate
  rw [hloc, htok]
  simp only [Bool.false_eq_true, if_false]
  rw [hp]
  simp [authenticate, askAuthenticator, ha, herr]

example : activate { sampleServer with anonymous := some fun _ => .error } .none .none []
    (.anonymous (.made .anonymous 0)) [] = .panic := by decide +kernel

/-- **C94 fails (issued tokens).** The server asks an authenticator for issued tokens if it has one, but
it never lists a policy for them: on every endpoint the client gives up before it sends anything. -/
theorem C94_issued_fails (s : Server) (e : Desc) (he : e ∈ endpoints s.config) (k : ClientKeys)
    (nonce data : Bytes) : identityToken e k nonce (.issued data) = .rejected := by
  obtain ⟨_, htok, _⟩ := mem_endpoints s.config e he
  have : firstOf .issued e.tokens = none := by
    unfold firstOf
    rw [List.find?_eq_none]
    intro t ht
    rw [htok] at ht
    rcases tokensAt_mem _ _ _ t ht with ⟨h, _⟩ | ⟨h, _⟩ | ⟨h, _⟩ <;> rw [h] <;> simp
  unfold identityToken
  rw [this]

/-- **C94 fails (issued tokens under the wrong policy).** The server takes an issued token under the
id of its policy for user certificates, and hands the bytes of the token to the authenticator as they
came: nothing about them is encrypted, signed, or bound to the nonce. -/
theorem C94_issuedPolicy_fails (s : Server) (a : Identity → Verdict) (ha : s.issued = some a)
    (hx : s.x509.isSome = true) (e : Desc) (he : e ∈ endpoints s.config) (nonce sig data alg : Bytes)
    (hok : a (.issued data) = .ok) :
    activate s e.policy e.mode nonce (.issued (.made .certificate e.level) data alg) sig
      = .activated (.issued data) := by
  have hloc := local_of_mem s.config e he
  obtain ⟨_, htok, _⟩ := mem_endpoints s.config e he
  have hf := tokensAt_x509 s.config e.level (tokenPolicyOf e.policy) hx
  have hp := policyOf_tokensAt s.config e.level (tokenPolicyOf e.policy) e.policy _ _ hf rfl
  unfold activate
  rw [hloc, htok]
  simp only [Bool.false_eq_true, if_false]
  rw [hp]
  simp [authenticate, askAuthenticator, ha, hok]

example : activate sampleServer .none .none (List.replicate 32 7)
    (.issued (.made .certificate 0) [1, 2, 3] []) [] = .activated (.issued [1, 2, 3]) := by decide +kernel

end Opcua.Endpoint
