import Verif.Props.Secrecy

/-!
# C138: what is taken on a secured channel was sent by the other party

In the symbolic model of Model/Secrecy.lean.
-/

namespace Opcua.Secrecy

namespace Spec

/-- The client has got no chunk of a message before a response to its request for a token. -/
def Quiet (p : Setup) (evs : List Ev) (i : Nat) : Prop :=
  ∀ pre final c t x which post, evs = pre ++ .recv i (.msg final c t x) which :: post →
    ((run p init pre).clients i).opened = true

/-- A client with a key of its own, which talks to the server with the key of `s` on a secured channel, has sent this. -/
def SentBy (p : Setup) (evs : List Ev) (s : Agent) (b : Term) : Prop :=
  ∃ i m, b = .secret m ∧ .send i m ∈ evs ∧ (p.cfg i).peer = s ∧ (p.cfg i).mode ≠ .none ∧ ¬ p.corrupt (p.cfg i).me

/-- The server with the key of `s` has sent this. -/
def AnsweredBy (p : Setup) (evs : List Ev) (s : Agent) (b : Term) : Prop :=
  ∃ c m k, b = .reply m ∧ .reply c m ∈ evs ∧ (run p init evs).conns c = some k ∧ k.me = s

/-- A server whose connection got no OPN frame under the policy None, and never had the public key of an attacker for its
client. -/
def Undisturbed (p : Setup) (evs : List Ev) (c : Nat) : Prop :=
  (∀ x, .frame c (.plain x) ∉ evs) ∧
  ∀ pre, pre <+: evs → ∀ k a, (run p init pre).conns c = some k → k.up = true → k.key = some a → ¬ p.corrupt a

/-- Nor any public key but that of `a`. -/
def OnlyKey (p : Setup) (evs : List Ev) (c : Nat) (a : Agent) : Prop :=
  (∀ x, .frame c (.plain x) ∉ evs) ∧
  ∀ pre, pre <+: evs → ∀ k a', (run p init pre).conns c = some k → k.up = true → k.key = some a' → a' = a

end Spec

open Spec

/-! ### Terms in which everything secret is where it was put -/

/-- For whom the term was encrypted, and by whom it was signed inside. -/
structure Ctx where
  recv : Option Agent
  signer : Option Agent

abbrev bare : Ctx := ⟨none, none⟩

def isOpen : Term → Prop
  | .openReq _ _ _ => True
  | .openResp _ _ _ => True
  | _ => False

/-- `M k x`: an honest party has made the MAC of `x` under `k`. -/
def Whole (p : Setup) (v : View) (M : Term → Term → Prop) : Ctx → Term → Prop
  | c, .pair x y => Whole p v M c x ∧ Whole p v M c y
  | _, .aenc a x => Whole p v M ⟨some a, none⟩ x
  | c, .sig a x => Whole p v M ⟨c.recv, some a⟩ x ∧ (p.corrupt a ∨ ∃ h b, x = .pair h b ∧ isOpen b)
  | _, .senc _ x => Whole p v M bare x
  | _, .mac k x => Whole p v M bare x ∧ (Good p v k ∨ M k x)
  | c, .openReq _ _ x => Whole p v M bare x ∧
    (Good p v x ∨ ∃ i n, x = .cnonce i n ∧ c = ⟨some (p.cfg i).peer, some (p.cfg i).me⟩)
  | c, .openResp _ _ x => Whole p v M bare x ∧
    (Good p v x ∨ ∃ d n s a, x = .snonce d n s a ∧ c = ⟨some a, some s⟩)
  | _, _ => True

/-- What was not encrypted for anybody may be put anywhere. -/
theorem whole_any {p : Setup} {v : View} {M : Term → Term → Prop} (x : Term) : ∀ (c c' : Ctx), c.recv = none →
    Whole p v M c x → Whole p v M c' x := by
  induction x with
  | pair x y hx hy => exact fun c c' hc h => ⟨hx c c' hc h.1, hy c c' hc h.2⟩
  | sig a x hx => exact fun c c' hc h => ⟨hx ⟨c.recv, some a⟩ ⟨c'.recv, some a⟩ hc h.1, h.2⟩
  | openReq r m x =>
    intro c c' hc h
    refine ⟨h.1, ?_⟩
    rcases h.2 with h | ⟨i, n, _, h⟩
    · exact .inl h
    · rw [h] at hc; cases hc
  | openResp d t x =>
    intro c c' hc h
    refine ⟨h.1, ?_⟩
    rcases h.2 with h | ⟨d, n, s, a, _, h⟩
    · exact .inl h
    · rw [h] at hc; cases hc
  | _ => exact fun _ _ _ h => h

/-- Nonces that were encrypted for an attacker are not secret. -/
structure View.Fair (p : Setup) (v : View) : Prop where
  client : ∀ i, (p.cfg i).mode = .none ∨ p.corrupt (p.cfg i).peer → v.cn i
  server : ∀ a, p.corrupt a → v.sn a
  sec : ∀ m, v.sec m
  rep : ∀ m, v.rep m

/-- What was encrypted for an attacker may be put anywhere. -/
theorem whole_corrupt {p : Setup} {v : View} {M : Term → Term → Prop} (hv : v.Fair p) (x : Term) : ∀ (c c' : Ctx) (a : Agent),
    c.recv = some a → p.corrupt a → Whole p v M c x → Whole p v M c' x := by
  induction x with
  | pair x y hx hy => exact fun c c' a hc ha h => ⟨hx c c' a hc ha h.1, hy c c' a hc ha h.2⟩
  | sig b x hx => exact fun c c' a hc ha h => ⟨hx ⟨c.recv, some b⟩ ⟨c'.recv, some b⟩ a hc ha h.1, h.2⟩
  | openReq r m x =>
    intro c c' a hc ha h
    refine ⟨h.1, .inl ?_⟩
    rcases h.2 with h | ⟨i, n, rfl, he⟩
    · exact h
    · rw [he] at hc
      cases hc
      exact hv.client i (.inr ha)
  | openResp d t x =>
    intro c c' b hc hb h
    refine ⟨h.1, .inl ?_⟩
    rcases h.2 with h | ⟨d, n, s, a, rfl, he⟩
    · exact h
    · rw [he] at hc
      cases hc
      exact hv.server _ hb
  | _ => exact fun _ _ _ _ _ h => h

theorem whole_of_knows {p : Setup} {v : View} {M : Term → Term → Prop} (hv : v.Fair p) {net : List Term}
    (hg : ∀ x ∈ net, Good p v x) (h : ∀ x ∈ net, Whole p v M bare x) {x : Term} (hx : Knows p net x) : Whole p v M bare x := by
  induction hx with
  | seen hm => exact h _ hm
  | num _ => exact trivial
  | nil => exact trivial
  | priv hc => exact trivial
  | pair _ _ h1 h2 => exact ⟨h1, h2⟩
  | fst _ h1 => exact h1.1
  | snd _ h1 => exact h1.2
  | @aenc a x _ h1 => exact whole_any x bare ⟨some a, none⟩ rfl h1
  | adec _ hk h1 _ => exact whole_corrupt hv _ _ _ _ rfl (good_of_knows hg hk) h1
  | sig _ hk h1 _ => exact ⟨whole_any _ _ _ rfl h1, .inl (good_of_knows hg hk)⟩
  | signed _ h1 => exact whole_any _ _ _ rfl h1.1
  | senc _ _ h1 _ => exact h1
  | sdec _ _ h1 h2 => exact h1
  | mac _ hk h1 _ => exact ⟨h1, .inl (good_of_knows hg hk)⟩
  | maced _ h1 => exact h1.1
  | kdf _ _ h1 h2 => exact trivial
  | openReq hk h1 => exact ⟨h1, .inl (good_of_knows hg hk)⟩
  | asked _ h1 => exact h1.1
  | openResp hk h1 => exact ⟨h1, .inl (good_of_knows hg hk)⟩
  | answered _ h1 => exact h1.1

theorem whole_mono {p : Setup} {v : View} {M M' : Term → Term → Prop} (hM : ∀ k x, M k x → M' k x) (x : Term) :
    ∀ c, Whole p v M c x → Whole p v M' c x := by
  induction x with
  | pair x y hx hy => exact fun c h => ⟨hx c h.1, hy c h.2⟩
  | aenc a x hx => exact fun c h => hx _ h
  | sig b x hx => exact fun c h => ⟨hx _ h.1, h.2⟩
  | senc k x _ hx => exact fun c h => hx _ h
  | mac k x _ hx => exact fun c h => ⟨hx _ h.1, h.2.imp id (hM _ _)⟩
  | openReq r m x hx => exact fun c h => ⟨hx _ h.1, h.2⟩
  | openResp d t x hx => exact fun c h => ⟨hx _ h.1, h.2⟩
  | _ => exact fun _ _ => trivial

theorem whole_openMsg {p : Setup} {v : View} {M : Term → Term → Prop} {mode : Mode} {key : Option Term} {final : Bool}
    {chan tok : Nat} {x b : Term} (h : openMsg mode key final chan tok x = some b) (hx : Whole p v M bare x) :
    Whole p v M bare b ∧ (mode ≠ .none → ∃ k, key = some k ∧ (Good p v k ∨ M k (.pair (msgHeader final chan tok) b))) := by
  unfold openMsg at h
  split at h
  · cases h
    exact ⟨hx, fun h => absurd rfl h⟩
  · cases h
  · rename_i k
    split at h
    · rename_i k' hd body
      split at h
      · rename_i hc
        cases h
        obtain ⟨rfl, rfl⟩ := hc
        exact ⟨hx.1.2, fun _ => ⟨_, rfl, hx.2⟩⟩
      · cases h
    · cases h
  · rename_i k
    split at h
    · rename_i k'' k' hd body
      split at h
      · rename_i hc
        cases h
        obtain ⟨rfl, rfl, rfl⟩ := hc
        exact ⟨hx.1.2, fun _ => ⟨_, rfl, hx.2⟩⟩
      · cases h
    · cases h

theorem whole_openOpn {p : Setup} {v : View} {M : Term → Term → Prop} {me peer : Agent} {chan : Nat} {cert : Option Agent}
    {x b : Term} (h : openOpn me peer chan cert x = some b) (hx : Whole p v M bare x) :
    Whole p v M ⟨some me, some peer⟩ b ∧ (p.corrupt peer ∨ isOpen b) := by
  unfold openOpn at h
  split at h
  · split at h
    · rename_i hc
      cases h
      obtain ⟨rfl, rfl, rfl⟩ := hc
      refine ⟨hx.1.2, hx.2.imp id ?_⟩
      rintro ⟨h, b, he, ho⟩
      cases he
      exact ho
    · cases h
  · cases h

/-! ### The keys of an honest party -/

/-- The nonce of the server that client `i` has: one that is not secret, or one made for it by its server. -/
def RemoteC (p : Setup) (v : View) (i : Nat) (r : Term) : Prop :=
  Good p v r ∨ ∃ c n, r = .snonce c n (p.cfg i).peer (p.cfg i).me

/-- The nonce of a client that the server with the key of `s` has: one that is not secret, or one made for it. -/
def RemoteS (p : Setup) (v : View) (s : Agent) (r : Term) : Prop :=
  Good p v r ∨ ∃ i n, r = .cnonce i n ∧ (p.cfg i).peer = s

/-- The MACs that honest parties have made. -/
def Made (p : Setup) (v : View) (evs : List Ev) (k x : Term) : Prop :=
  (∃ i m r n ch t, .send i m ∈ evs ∧ (p.cfg i).mode ≠ .none ∧ k = .kdf r (.cnonce i n) ∧ RemoteC p v i r ∧
    x = .pair (msgHeader true ch t) (.secret m)) ∨
  (∃ c m r n s a ch t, .reply c m ∈ evs ∧ (∃ k0, (run p init evs).conns c = some k0 ∧ k0.me = s) ∧ k = .kdf r (.snonce c n s a) ∧
    RemoteS p v s r ∧ x = .pair (msgHeader true ch t) (.reply m))

structure ClientOk (p : Setup) (v : View) (i : Nat) (k : Client) : Prop where
  fed : Fed i k
  remote : RemoteC p v i k.remoteN
  key : ∀ x, k.sendKey = some x → ∃ r n, x = .kdf r (.cnonce i n) ∧ RemoteC p v i r

structure ConnOk (p : Setup) (v : View) (M : Term → Term → Prop) (c : Nat) (k : Conn) : Prop where
  remote : RemoteS p v k.me k.remoteN
  ours : k.mode ≠ .none → ∃ n a, k.localN = .snonce c n k.me a
  key : ∀ x, k.sendKey = some x → ∃ r n a, x = .kdf r (.snonce c n k.me a) ∧ RemoteS p v k.me r
  acc : ∀ b, k.acc = some b → Whole p v M bare b

/-! #### Clients -/

theorem clientOk_keyed {p : Setup} {v : View} {i : Nat} {k : Client} (h : ClientOk p v i k) :
    ClientOk p v i (keyed (p.cfg i) k) := by
  have hf := fed_keyed (g := p.cfg i) h.fed
  unfold keyed at hf ⊢
  split
  · exact h
  · rename_i hne
    rw [if_neg hne] at hf
    refine ⟨hf, h.remote, ?_⟩
    intro x hx
    obtain ⟨r, n, e⟩ := hf.key x hx
    dsimp only at hx
    split at hx
    · cases hx
    · cases hx
      injection e with e1 e2
      exact ⟨_, n, by rw [e2], h.remote⟩

theorem clientOk_send {p : Setup} {v : View} {i : Nat} {k : Client} (h : ClientOk p v i k) (m : Nat) :
    ClientOk p v i (send (p.cfg i) k m).1 := by
  rw [send_eq]
  have := clientOk_keyed h
  split
  · split
    · exact this
    · exact ⟨⟨this.fed.made, this.fed.ours, this.fed.key⟩, this.remote, this.key⟩
  · exact h

theorem clientOk_respond {p : Setup} {v : View} {i : Nat} {k : Client} (h : ClientOk p v i k) (which : Nat) (b : Term)
    (hb : ∀ c t n, b = .openResp c t n → RemoteC p v i n) : ClientOk p v i (respond k which b) := by
  have hf := fed_respond h.fed which b
  unfold respond at hf ⊢
  split
  · split
    · exact h
    · rename_i hl
      rw [hl] at hf
      exact ⟨hf, hb _ _ _ rfl, h.key⟩
  · exact ⟨hf, h.remote, h.key⟩
  · rename_i h1 h2
    exact ⟨⟨h.fed.made, h.fed.ours, h.fed.key⟩, h.remote, h.key⟩

theorem remoteC_bare {p : Setup} {v : View} {M : Term → Term → Prop} {i : Nat} {c t : Nat} {n : Term}
    (h : Whole p v M bare (.openResp c t n)) : RemoteC p v i n := by
  rcases h.2 with h | ⟨_, _, _, _, _, h⟩
  · exact .inl h
  · cases h

theorem clientOk_recv {p : Setup} {v : View} {M : Term → Term → Prop} {i : Nat} {k : Client} (h : ClientOk p v i k) (f : Frame)
    (hf : Whole p v M bare f.payload) (which : Nat) : ClientOk p v i (recv (p.cfg i) k f which) := by
  have hdown : ClientOk p v i { k with up := false } := ⟨⟨h.fed.made, h.fed.ours, h.fed.key⟩, h.remote, h.key⟩
  unfold recv
  split
  · cases f with
    | msg final c t x =>
      dsimp only
      by_cases hc : c ≠ k.chan
      · rw [if_pos hc]; exact hdown
      · rw [if_neg hc]
        have h2 : ClientOk p v i (if t = k.recvTok then k else { k with
            recvTok := t
            recvKey := if (p.cfg i).mode = .none then none else some (.kdf k.localN k.remoteN) }) := by
          split
          · exact h
          · exact ⟨⟨h.fed.made, h.fed.ours, h.fed.key⟩, h.remote, h.key⟩
        split
        · rename_i b hb
          refine clientOk_respond h2 which _ ?_
          rintro c t n rfl
          exact remoteC_bare (whole_openMsg hb hf).1
        · exact ⟨⟨h2.fed.made, h2.fed.ours, h2.fed.key⟩, h2.remote, h2.key⟩
    | opn c cert x =>
      dsimp only
      split
      · exact hdown
      · split
        · rename_i b hb
          refine clientOk_respond h which _ ?_
          rintro c t n rfl
          rcases (whole_openOpn hb hf).1.2 with h | ⟨d, n', s, a, rfl, h⟩
          · exact .inl h
          · cases h
            exact .inr ⟨d, n', rfl⟩
        · exact hdown
    | plain x =>
      dsimp only
      split
      · refine clientOk_respond h which _ ?_
        rintro c t n rfl
        exact remoteC_bare hf
      · exact hdown
  · exact h

/-! #### Servers -/

theorem issue_me (c : Nat) (k : Conn) (r : Term) : (issue c k r).1.me = k.me := by
  unfold issue
  dsimp only
  repeat' split
  all_goals rfl

theorem handle_me (p : Setup) (c : Nat) (k : Conn) (b : Term) : (handle p c k b).1.me = k.me := by
  unfold handle
  repeat' split
  all_goals first | exact issue_me _ _ _ | rfl

theorem part_me (p : Setup) (c : Nat) (k : Conn) (f : Bool) (b : Term) : (part p c k f b).1.me = k.me := by
  unfold part
  dsimp only
  split
  · exact handle_me _ _ _ _
  · rfl

theorem switch_me {k k' : Conn} (h : switch k = some k') : k'.me = k.me := by
  unfold switch at h
  split at h
  · cases h; rfl
  · split at h
    · cases h
    · cases h; rfl

theorem frame_me (p : Setup) (c : Nat) (k : Conn) (f : Frame) : (frame p c k f).1.me = k.me := by
  unfold frame
  split
  · cases f with
    | msg final ch t x =>
      dsimp only
      split
      · rfl
      · split
        · rfl
        · rename_i k' hs
          have : k'.me = k.me := by
            split at hs
            · cases hs; rfl
            · split at hs
              · exact switch_me hs
              · cases hs
          split
          · exact this
          · rw [part_me]; exact this
    | opn ch cert x =>
      dsimp only
      split
      · rfl
      · split
        · rfl
        · rw [part_me]
    | plain x => exact part_me _ _ _ _ _
  · rfl

theorem reply_me (c : Nat) (k : Conn) (m : Nat) : (reply c k m).1.me = k.me := by
  unfold reply
  split
  · split <;> rfl
  · rfl

theorem connOk_mono {p : Setup} {v : View} {M M' : Term → Term → Prop} (hM : ∀ k x, M k x → M' k x) {c : Nat} {k : Conn}
    (h : ConnOk p v M c k) : ConnOk p v M' c k :=
  ⟨h.remote, h.ours, h.key, fun b hb => whole_mono hM b _ (h.acc b hb)⟩

theorem connOk_issue {p : Setup} {v : View} {M : Term → Term → Prop} {c : Nat} {k : Conn} {r : Term}
    (hk : ∀ x, k.sendKey = some x → ∃ r n a, x = .kdf r (.snonce c n k.me a) ∧ RemoteS p v k.me r)
    (ha : ∀ b, k.acc = some b → Whole p v M bare b) (hr : RemoteS p v k.me r) (hup : (issue c k r).1.up = true) :
    ConnOk p v M c (issue c k r).1 := by
  obtain ⟨me, up, opened, mode, key, cert, plain, tok, pendTok, lastTok, localN, remoteN, sendKey, recvKey, made, acc, asked⟩ := k
  cases mode with
  | none => exact ⟨hr, fun h => absurd rfl h, hk, ha⟩
  | _ =>
    cases plain with
    | true => cases hup
    | false =>
      cases key with
      | none => cases hup
      | some a => exact ⟨hr, fun _ => ⟨_, a, rfl⟩, hk, ha⟩

theorem connOk_handle {p : Setup} {v : View} {M : Term → Term → Prop} {c : Nat} {k : Conn} {b : Term} (h : ConnOk p v M c k)
    (hb : ∀ r m n, b = .openReq r m n → RemoteS p v k.me n) (hup : (handle p c k b).1.up = true) :
    ConnOk p v M c (handle p c k b).1 := by
  cases b with
  | openReq r m n =>
    have hb := hb r m n rfl
    unfold handle at hup ⊢
    dsimp only at hup ⊢
    by_cases ho : k.opened = true
    · rw [if_pos ho] at hup ⊢
      by_cases hr : r = true
      · rw [if_pos hr] at hup ⊢
        exact connOk_issue h.key h.acc hb hup
      · rw [if_neg hr] at hup
        cases hup
    · rw [if_neg ho] at hup ⊢
      by_cases hm : m = .none
      · rw [if_pos hm] at hup ⊢
        exact connOk_issue h.key h.acc hb hup
      · rw [if_neg hm] at hup ⊢
        obtain ⟨me, up, opened, mode, key, cert, plain, tok, pendTok, lastTok, localN, remoteN, sendKey, recvKey, made, acc,
          asked⟩ := k
        cases cert with
        | none => cases hup
        | some a =>
          dsimp only at hup ⊢
          by_cases ht : p.trusted a = true
          · rw [if_pos ht] at hup ⊢
            exact connOk_issue h.key h.acc hb hup
          · rw [if_neg ht] at hup
            cases hup
  | openResp _ _ _ => cases hup
  | _ =>
    unfold handle
    dsimp only
    split
    · exact ⟨h.remote, h.ours, h.key, h.acc⟩
    · exact ⟨h.remote, h.ours, h.key, h.acc⟩

theorem remoteS_of {p : Setup} {v : View} {M : Term → Term → Prop} {s a : Agent} {r : Bool} {m : Mode} {n : Term} {c : Ctx}
    (hc : c = bare ∨ c = ⟨some s, some a⟩) (h : Whole p v M c (.openReq r m n)) : RemoteS p v s n := by
  rcases h.2 with h | ⟨i, n', rfl, he⟩
  · exact .inl h
  · rcases hc with hc | hc
    · rw [hc] at he; cases he
    · rw [hc] at he
      injection he with h1 h2
      injection h1 with h1
      exact .inr ⟨i, n', rfl, h1.symm⟩

theorem connOk_part {p : Setup} {v : View} {M : Term → Term → Prop} {c : Nat} {k : Conn} {final : Bool} {b : Term} {a : Agent}
    (h : ConnOk p v M c k) {x : Ctx} (hx : x = bare ∨ (x = ⟨some k.me, some a⟩ ∧ final = true)) (hb : Whole p v M x b)
    (hup : (part p c k final b).1.up = true) : ConnOk p v M c (part p c k final b).1 := by
  unfold part at hup ⊢
  dsimp only at hup ⊢
  cases final with
  | true =>
    rw [if_pos rfl] at hup ⊢
    refine connOk_handle ⟨h.remote, h.ours, h.key, fun _ h => (by cases h)⟩ ?_ hup
    intro r m n e
    cases ha : k.acc with
    | none =>
      rw [ha] at e
      subst e
      exact remoteS_of (hx.imp id And.left) hb
    | some b' =>
      rw [ha] at e
      have := h.acc b' ha
      have e : b' = .openReq r m n := e
      subst e
      exact remoteS_of (a := a) (.inl rfl) this
  | false =>
    refine ⟨h.remote, h.ours, h.key, ?_⟩
    intro b' hb'
    cases ha : k.acc with
    | none =>
      rw [ha] at hb'
      cases hb'
      rcases hx with rfl | ⟨_, h⟩
      · exact hb
      · cases h
    | some b'' =>
      rw [ha] at hb'
      cases hb'
      exact h.acc _ ha

theorem connOk_switch {p : Setup} {v : View} {M : Term → Term → Prop} {c : Nat} {k k' : Conn} (h : ConnOk p v M c k)
    (hs : switch k = some k') : ConnOk p v M c k' := by
  unfold switch at hs
  split at hs
  · cases hs
    exact ⟨h.remote, h.ours, h.key, h.acc⟩
  · rename_i hm
    split at hs
    · cases hs
    · cases hs
      refine ⟨h.remote, h.ours, ?_, h.acc⟩
      intro x hx
      cases hx
      obtain ⟨n, a, h1⟩ := h.ours hm
      exact ⟨_, n, a, by rw [h1], h.remote⟩

theorem connOk_frame {p : Setup} {v : View} {M : Term → Term → Prop} {c : Nat} {k : Conn} {f : Frame} (h : ConnOk p v M c k)
    (hf : Whole p v M bare f.payload) (hup : (frame p c k f).1.up = true) : ConnOk p v M c (frame p c k f).1 := by
  unfold frame at hup ⊢
  by_cases hk : k.up = true
  · rw [if_pos hk] at hup ⊢
    cases f with
    | msg final ch t x =>
      dsimp only at hup ⊢
      by_cases hch : ch ≠ c + 1
      · rw [if_pos hch] at hup; cases hup
      · rw [if_neg hch] at hup ⊢
        cases hs : (if t = k.tok then some k else if t = k.pendTok then switch k else none) with
        | none => rw [hs] at hup; cases hup
        | some k' =>
          rw [hs] at hup
          have h' : ConnOk p v M c k' := by
            split at hs
            · cases hs; exact h
            · split at hs
              · exact connOk_switch h hs
              · cases hs
          dsimp only at hup ⊢
          cases ho : openMsg k'.mode k'.recvKey final ch t x with
          | none => rw [ho] at hup; cases hup
          | some b => rw [ho] at hup; exact connOk_part (a := 0) h' (.inl rfl) (whole_openMsg ho hf).1 hup
    | opn ch cert x =>
      dsimp only at hup ⊢
      split at hup
      · cases hup
      · rename_i a ha
        cases ho : openOpn k.me a ch cert x with
        | none => rw [ho] at hup; cases hup
        | some b =>
          rw [ho] at hup
          exact connOk_part (a := a) ⟨h.remote, h.ours, h.key, h.acc⟩ (.inr ⟨rfl, rfl⟩) (whole_openOpn ho hf).1 hup
    | plain x => exact connOk_part (a := 0) ⟨h.remote, h.ours, h.key, h.acc⟩ (.inl rfl) hf hup
  · rw [if_neg hk] at hup
    exact absurd hup hk

theorem connOk_reply {p : Setup} {v : View} {M : Term → Term → Prop} {c : Nat} {k : Conn} {m : Nat} (h : ConnOk p v M c k) :
    ConnOk p v M c (reply c k m).1 := by
  unfold reply
  split
  · split
    · exact h
    · exact ⟨h.remote, h.ours, h.key, h.acc⟩
  · exact h

/-! ### What is sent -/

theorem whole_sealOpn {p : Setup} {v : View} {M : Term → Term → Prop} {sender receiver : Agent} {chan : Nat} {b : Term}
    (hb : Whole p v M ⟨some receiver, some sender⟩ b) (ho : isOpen b) :
    Whole p v M bare (sealOpn sender receiver chan b).payload :=
  ⟨⟨⟨trivial, trivial⟩, hb⟩, .inr ⟨_, _, rfl, ho⟩⟩

theorem whole_sealMsg {p : Setup} {v : View} {M : Term → Term → Prop} {mode : Mode} {key : Option Term} {chan tok : Nat} {b : Term}
    {f : Frame} (hf : sealMsg mode key chan tok b = some f) (hb : Whole p v M bare b)
    (hk : ∀ k, mode ≠ .none → key = some k → M k (.pair (msgHeader true chan tok) b)) : Whole p v M bare f.payload := by
  unfold sealMsg at hf
  split at hf
  · cases hf; exact hb
  · cases hf
  · cases hf
    exact ⟨⟨⟨trivial, trivial, trivial⟩, hb⟩, .inr (hk _ (by decide) rfl)⟩
  · cases hf
    exact ⟨⟨⟨trivial, trivial, trivial⟩, hb⟩, .inr (hk _ (by decide) rfl)⟩

theorem whole_ask {p : Setup} {v : View} {M : Term → Term → Prop} (hv : v.Fair p) (i : Nat) (k : Client) :
    ∀ x ∈ (ask (p.cfg i) i k).2, Whole p v M bare x := by
  intro x hx
  unfold ask at hx
  split at hx
  · rcases List.mem_singleton.1 hx with rfl
    split
    · rename_i hm
      exact ⟨trivial, .inl (hv.client i (.inl hm))⟩
    · exact whole_sealOpn ⟨trivial, .inr ⟨i, _, rfl, rfl⟩⟩ trivial
  · cases hx

theorem whole_send {p : Setup} {v : View} {M : Term → Term → Prop} {i : Nat} {k : Client} (h : ClientOk p v i k) (m : Nat)
    (hM : ∀ r n ch t, (p.cfg i).mode ≠ .none → RemoteC p v i r →
      M (.kdf r (.cnonce i n)) (.pair (msgHeader true ch t) (.secret m))) :
    ∀ x ∈ (send (p.cfg i) k m).2, Whole p v M bare x := by
  intro x hx
  rw [send_eq] at hx
  split at hx
  · split at hx
    · rename_i f hf
      rcases List.mem_singleton.1 hx with rfl
      refine whole_sealMsg hf trivial ?_
      intro key hm hkey
      obtain ⟨r, n, rfl, hr⟩ := (clientOk_keyed h).key key hkey
      exact hM _ _ _ _ hm hr
    · cases hx
  · cases hx

theorem whole_issue {p : Setup} {v : View} {M : Term → Term → Prop} (c : Nat) (k : Conn) (r : Term) :
    ∀ x ∈ (issue c k r).2, Whole p v M bare x := by
  intro x hx
  unfold issue at hx
  dsimp only at hx
  split at hx
  · rcases List.mem_singleton.1 hx with rfl
    exact ⟨trivial, .inl trivial⟩
  · split at hx
    · rcases List.mem_singleton.1 hx with rfl
      exact whole_sealOpn ⟨trivial, .inr ⟨_, _, _, _, rfl, rfl⟩⟩ trivial
    · cases hx

theorem whole_handle {p : Setup} {v : View} {M : Term → Term → Prop} (c : Nat) (k : Conn) (b : Term) :
    ∀ x ∈ (handle p c k b).2, Whole p v M bare x := by
  intro x hx
  unfold handle at hx
  split at hx
  · split at hx
    · split at hx
      · exact whole_issue _ _ _ x hx
      · cases hx
    · split at hx
      · exact whole_issue _ _ _ x hx
      · split at hx
        · split at hx
          · exact whole_issue _ _ _ x hx
          · cases hx
        · cases hx
  · cases hx
  · split at hx <;> cases hx

theorem whole_part {p : Setup} {v : View} {M : Term → Term → Prop} (c : Nat) (k : Conn) (f : Bool) (b : Term) :
    ∀ x ∈ (part p c k f b).2, Whole p v M bare x := by
  intro x hx
  unfold part at hx
  dsimp only at hx
  split at hx
  · exact whole_handle _ _ _ x hx
  · cases hx

theorem whole_frame {p : Setup} {v : View} {M : Term → Term → Prop} (c : Nat) (k : Conn) (f : Frame) :
    ∀ x ∈ (frame p c k f).2, Whole p v M bare x := by
  intro x hx
  unfold frame at hx
  split at hx
  · cases f with
    | msg final ch t y =>
      dsimp only at hx
      by_cases hc : ch ≠ c + 1
      · rw [if_pos hc] at hx; cases hx
      · rw [if_neg hc] at hx
        split at hx
        · cases hx
        · split at hx
          · cases hx
          · exact whole_part _ _ _ _ x hx
    | opn ch cert y =>
      dsimp only at hx
      split at hx
      · cases hx
      · split at hx
        · cases hx
        · exact whole_part _ _ _ _ x hx
    | plain y => exact whole_part _ _ _ _ x hx
  · cases hx

theorem whole_reply {p : Setup} {v : View} {M : Term → Term → Prop} {c : Nat} {k : Conn} {m : Nat}
    (h : k.up = true → ConnOk p v M c k)
    (hM : ∀ r n a ch t, RemoteS p v k.me r → M (.kdf r (.snonce c n k.me a)) (.pair (msgHeader true ch t) (.reply m))) :
    ∀ x ∈ (reply c k m).2, Whole p v M bare x := by
  intro x hx
  unfold reply at hx
  split at hx
  · rename_i hup
    have h := h (by simp only [Bool.and_eq_true] at hup; exact hup.1)
    split at hx
    · rename_i f hf
      rcases List.mem_singleton.1 hx with rfl
      refine whole_sealMsg hf trivial ?_
      intro key _ hkey
      obtain ⟨r, n, a, rfl, hr⟩ := h.key key hkey
      exact hM _ _ _ _ _ hr
    · cases hx
  · cases hx

/-! ### All histories -/

theorem good_run {p : Setup} {v : View} (hv : v.Fair p) (evs : List Ev) : ∀ x ∈ (run p init evs).net, Good p v x := by
  induction evs using snocInd with
  | nil => intro x hx; cases hx
  | append_singleton evs e ih =>
    rw [run_snoc]
    intro x hx
    unfold step at hx
    cases e with
    | ask i =>
      rcases List.mem_append.1 hx with hx | hx
      · exact ih x hx
      · exact good_ask i _ (hv.client i) x hx
    | send i m =>
      rcases List.mem_append.1 hx with hx | hx
      · exact ih x hx
      · exact good_send (fed_run p evs i) m (.inl (hv.sec m)) x hx
    | recv i f w =>
      rcases List.mem_append.1 hx with hx | hx
      · exact ih x hx
      · cases hx
    | accept c a =>
      dsimp only at hx
      split at hx
      · rcases List.mem_append.1 hx with hx | hx
        · exact ih x hx
        · cases hx
      · exact ih x hx
    | frame c f =>
      dsimp only at hx
      split at hx
      · exact ih x hx
      · rcases List.mem_append.1 hx with hx | hx
        · exact ih x hx
        · exact good_frame hv.server _ _ _ x hx
    | reply c m =>
      dsimp only at hx
      split at hx
      · exact ih x hx
      · rcases List.mem_append.1 hx with hx | hx
        · exact ih x hx
        · exact good_reply _ _ _ (.inl (hv.rep m)) x hx

theorem me_step {p : Setup} {s : State} (e : Ev) {c : Nat} {k : Conn} (h : s.conns c = some k) :
    ∃ k', (step p s e).conns c = some k' ∧ k'.me = k.me := by
  unfold step
  cases e with
  | ask i => exact ⟨k, h, rfl⟩
  | send i m => exact ⟨k, h, rfl⟩
  | recv i f w => exact ⟨k, h, rfl⟩
  | accept d a =>
    dsimp only
    split
    · rename_i hd
      dsimp only [setConn]
      by_cases e : c = d
      · subst e; rw [hd] at h; cases h
      · rw [if_neg e]; exact ⟨k, h, rfl⟩
    · exact ⟨k, h, rfl⟩
  | frame d f =>
    dsimp only
    split
    · exact ⟨k, h, rfl⟩
    · rename_i k0 hd
      dsimp only [setConn]
      by_cases e : c = d
      · subst e
        rw [h] at hd
        cases hd
        rw [if_pos rfl]
        exact ⟨_, rfl, frame_me _ _ _ _⟩
      · rw [if_neg e]; exact ⟨k, h, rfl⟩
  | reply d m =>
    dsimp only
    split
    · exact ⟨k, h, rfl⟩
    · rename_i k0 hd
      dsimp only [setConn]
      by_cases e : c = d
      · subst e
        rw [h] at hd
        cases hd
        rw [if_pos rfl]
        exact ⟨_, rfl, reply_me _ _ _⟩
      · rw [if_neg e]; exact ⟨k, h, rfl⟩

theorem made_mono {p : Setup} {v : View} {evs : List Ev} (e : Ev) : ∀ k x, Made p v evs k x → Made p v (evs ++ [e]) k x := by
  rintro k x (⟨i, m, r, n, ch, t, h, h'⟩ | ⟨c, m, r, n, s, a, ch, t, h, ⟨k0, h0, h1⟩, h'⟩)
  · exact .inl ⟨i, m, r, n, ch, t, List.mem_append_left _ h, h'⟩
  · obtain ⟨k1, h2, h3⟩ := me_step (p := p) e h0
    exact .inr ⟨c, m, r, n, s, a, ch, t, List.mem_append_left _ h, ⟨k1, by rw [run_snoc]; exact h2, h3.trans h1⟩, h'⟩

structure WholeRun (p : Setup) (v : View) (evs : List Ev) : Prop where
  net : ∀ x ∈ (run p init evs).net, Whole p v (Made p v evs) bare x
  clients : ∀ i, ClientOk p v i ((run p init evs).clients i)
  conns : ∀ c k, (run p init evs).conns c = some k → k.up = true → ConnOk p v (Made p v evs) c k

theorem possible_snoc {p : Setup} {evs : List Ev} {e : Ev} (h : Possible p (evs ++ [e])) : Possible p evs := by
  intro pre e' post he
  exact h pre e' (post ++ [e]) (by rw [he]; simp)

theorem clientOk_ask {p : Setup} {v : View} {i : Nat} {k : Client} (h : ClientOk p v i k) : ClientOk p v i (ask (p.cfg i) i k).1 := by
  have hf := fed_ask (g := p.cfg i) h.fed
  unfold ask at hf ⊢
  split
  · rename_i hu
    rw [if_pos hu] at hf
    exact ⟨hf, h.remote, h.key⟩
  · exact h

theorem whole_run {p : Setup} {v : View} (hv : v.Fair p) (evs : List Ev) (hp : Possible p evs) : WholeRun p v evs := by
  induction evs using snocInd with
  | nil =>
    refine ⟨fun _ h => (by cases h), fun i => ?_, fun _ _ h => (by cases h)⟩
    exact ⟨fed_run p [] i, .inl trivial, fun _ h => (by cases h)⟩
  | append_singleton evs e ih =>
    have ih := ih (possible_snoc hp)
    have hg := good_run hv evs
    have hpe := hp evs e [] rfl
    have hM := made_mono (p := p) (v := v) (evs := evs) e
    have hnet : ∀ x ∈ (run p init evs).net, Whole p v (Made p v (evs ++ [e])) bare x :=
      fun x hx => whole_mono hM x _ (ih.net x hx)
    have hconn : ∀ c k, (run p init evs).conns c = some k → k.up = true → ConnOk p v (Made p v (evs ++ [e])) c k :=
      fun c k hk hu => connOk_mono hM (ih.conns c k hk hu)
    cases e with
    | ask i =>
      refine ⟨?_, ?_, ?_⟩
      · rw [run_snoc]
        intro x hx
        rcases List.mem_append.1 hx with hx | hx
        · exact hnet x hx
        · exact whole_ask hv i _ x hx
      · rw [run_snoc]
        intro j
        dsimp only [step, setClient]
        split
        · rename_i hj; subst hj; exact clientOk_ask (ih.clients _)
        · exact ih.clients j
      · rw [run_snoc]
        exact hconn
    | send i m =>
      refine ⟨?_, ?_, ?_⟩
      · rw [run_snoc]
        intro x hx
        rcases List.mem_append.1 hx with hx | hx
        · exact hnet x hx
        · refine whole_send (ih.clients i) m ?_ x hx
          intro r n ch t hm hr
          exact .inl ⟨i, m, r, n, ch, t, List.mem_append_right _ (List.mem_singleton.2 rfl), hm, rfl, hr, rfl⟩
      · rw [run_snoc]
        intro j
        dsimp only [step, setClient]
        split
        · rename_i hj; subst hj; exact clientOk_send (ih.clients _) m
        · exact ih.clients j
      · rw [run_snoc]
        exact hconn
    | recv i f w =>
      have hw : Whole p v (Made p v evs) bare f.payload := whole_of_knows hv hg ih.net hpe
      refine ⟨?_, ?_, ?_⟩
      · rw [run_snoc]
        intro x hx
        rcases List.mem_append.1 hx with hx | hx
        · exact hnet x hx
        · cases hx
      · rw [run_snoc]
        intro j
        dsimp only [step, setClient]
        split
        · rename_i hj; subst hj; exact clientOk_recv (ih.clients _) f hw w
        · exact ih.clients j
      · rw [run_snoc]
        exact hconn
    | accept c a =>
      refine ⟨?_, ?_, ?_⟩
      · rw [run_snoc]
        intro x hx
        dsimp only [step] at hx
        split at hx
        · rcases List.mem_append.1 hx with hx | hx
          · exact hnet x hx
          · cases hx
        · exact hnet x hx
      · rw [run_snoc]
        intro j
        dsimp only [step]
        split <;> exact ih.clients j
      · rw [run_snoc]
        intro d k hk hu
        dsimp only [step] at hk
        split at hk
        · dsimp only [setConn] at hk
          split at hk
          · cases hk
            exact ⟨.inl trivial, fun h => absurd rfl h, fun _ h => (by cases h), fun _ h => (by cases h)⟩
          · exact hconn d k hk hu
        · exact hconn d k hk hu
    | frame c f =>
      have hw : Whole p v (Made p v (evs ++ [.frame c f])) bare f.payload :=
        whole_mono hM _ _ (whole_of_knows hv hg ih.net hpe)
      refine ⟨?_, ?_, ?_⟩
      · rw [run_snoc]
        intro x hx
        dsimp only [step] at hx
        split at hx
        · exact hnet x hx
        · rcases List.mem_append.1 hx with hx | hx
          · exact hnet x hx
          · exact whole_frame _ _ _ x hx
      · rw [run_snoc]
        intro j
        dsimp only [step]
        split <;> exact ih.clients j
      · rw [run_snoc]
        intro d k hk hu
        dsimp only [step] at hk
        split at hk
        · exact hconn d k hk hu
        · rename_i k0 h0
          dsimp only [setConn] at hk
          split at hk
          · rename_i hd
            subst hd
            cases hk
            have hk0 : k0.up = true := by
              cases h : k0.up with
              | true => rfl
              | false => rw [frame_up h] at hu; cases hu
            exact connOk_frame (hconn _ k0 h0 hk0) hw hu
          · exact hconn d k hk hu
    | reply c m =>
      refine ⟨?_, ?_, ?_⟩
      · intro x hx
        have hx' := hx
        rw [run_snoc] at hx'
        dsimp only [step] at hx'
        split at hx'
        · exact hnet x hx'
        · rename_i k h0
          rcases List.mem_append.1 hx' with hx' | hx'
          · exact hnet x hx'
          · refine whole_reply (hconn c k h0) ?_ x hx'
            intro r n a ch t hr
            obtain ⟨k1, h2, h3⟩ := me_step (p := p) (.reply c m) h0
            refine .inr ⟨c, m, r, n, k.me, a, ch, t, List.mem_append_right _ (List.mem_singleton.2 rfl),
              ⟨k1, ?_, h3⟩, rfl, hr, rfl⟩
            rw [run_snoc]
            exact h2
      · rw [run_snoc]
        intro j
        dsimp only [step]
        split <;> exact ih.clients j
      · rw [run_snoc]
        intro d k hk hu
        dsimp only [step] at hk
        split at hk
        · exact hconn d k hk hu
        · rename_i k0 h0
          dsimp only [setConn] at hk
          split at hk
          · rename_i hd
            subst hd
            cases hk
            have hk0 : k0.up = true := by
              cases h : k0.up with
              | true => rfl
              | false => rw [reply_up h] at hu; cases hu
            exact connOk_reply (hconn _ k0 h0 hk0)
          · exact hconn d k hk hu

/-! ### What a client takes -/

/-- What is true of a secured channel of a client that got no chunk before it was opened. -/
structure Own (p : Setup) (evs : List Ev) (i : Nat) (k : Client) : Prop where
  made : ∀ x ∈ k.waiting, ∃ n, x = .cnonce i n
  ours : k.opened = true → ∃ n, k.localN = .cnonce i n
  key : ∀ x, k.recvKey = some x → ∃ r n, x = .kdf (.cnonce i n) r
  got : ∀ b ∈ k.got, AnsweredBy p evs (p.cfg i).peer b

theorem answeredBy_mono {p : Setup} {evs : List Ev} (e : Ev) {s : Agent} {b : Term} (h : AnsweredBy p evs s b) :
    AnsweredBy p (evs ++ [e]) s b := by
  obtain ⟨c, m, k, rfl, h1, h2, h3⟩ := h
  obtain ⟨k1, h4, h5⟩ := me_step (p := p) e h2
  exact ⟨c, m, k1, rfl, List.mem_append_left _ h1, by rw [run_snoc]; exact h4, h5.trans h3⟩

theorem own_mono {p : Setup} {evs : List Ev} (e : Ev) {i : Nat} {k : Client} (h : Own p evs i k) : Own p (evs ++ [e]) i k :=
  ⟨h.made, h.ours, h.key, fun b hb => answeredBy_mono e (h.got b hb)⟩

theorem own_ask {p : Setup} {evs : List Ev} {i : Nat} {k : Client} (h : Own p evs i k) : Own p evs i (ask (p.cfg i) i k).1 := by
  unfold ask
  split
  · refine ⟨?_, h.ours, h.key, h.got⟩
    intro x hx
    rcases List.mem_append.1 hx with hx | hx
    · exact h.made x hx
    · exact ⟨_, List.mem_singleton.1 hx⟩
  · exact h

theorem own_send {p : Setup} {evs : List Ev} {i : Nat} {k : Client} (h : Own p evs i k) (m : Nat) :
    Own p evs i (send (p.cfg i) k m).1 := by
  have : Own p evs i (keyed (p.cfg i) k) := by
    unfold keyed
    split
    · exact h
    · exact ⟨h.made, h.ours, h.key, h.got⟩
  rw [send_eq]
  split
  · split
    · exact this
    · exact ⟨this.made, this.ours, this.key, this.got⟩
  · exact h

theorem own_respond {p : Setup} {evs : List Ev} {i : Nat} {k : Client} (h : Own p evs i k) (which : Nat) (b : Term)
    (hb : isOpen b ∨ AnsweredBy p evs (p.cfg i).peer b) : Own p evs i (respond k which b) := by
  unfold respond
  split
  · split
    · exact h
    · rename_i l hl
      refine ⟨fun x hx => h.made x (List.mem_of_mem_eraseIdx hx), fun _ => ?_, h.key, h.got⟩
      exact h.made l (List.mem_of_getElem? hl)
  · exact ⟨h.made, h.ours, h.key, h.got⟩
  · rename_i h1 h2
    refine ⟨h.made, h.ours, h.key, ?_⟩
    intro x hx
    rcases List.mem_append.1 hx with hx | hx
    · exact h.got x hx
    · rw [List.mem_singleton.1 hx]
      rcases hb with hb | hb
      · unfold isOpen at hb
        split at hb
        · exact absurd rfl (h2 _ _ _)
        · exact absurd rfl (h1 _ _ _)
        · cases hb
      · exact hb

/-- The nonces of secured channels to servers whose keys the attacker does not have are secret. -/
def clientView (p : Setup) : View :=
  ⟨fun i => (p.cfg i).mode = .none ∨ p.corrupt (p.cfg i).peer, fun _ => True, fun _ => True, fun _ => True⟩

theorem clientView_fair (p : Setup) : (clientView p).Fair p :=
  ⟨fun _ h => h, fun _ _ => trivial, fun _ => trivial, fun _ => trivial⟩

theorem own_recv {p : Setup} {evs : List Ev} {i : Nat} {k : Client} (h : Own p evs i k) (hm : (p.cfg i).mode ≠ .none)
    (hc : ¬ p.corrupt (p.cfg i).peer) (f : Frame) (which : Nat) (hq : ∀ final c t x, f = .msg final c t x → k.opened = true)
    (hf : Whole p (clientView p) (Made p (clientView p) evs) bare f.payload) : Own p evs i (recv (p.cfg i) k f which) := by
  have hsec : ¬ (clientView p).cn i := fun h => h.elim hm hc
  have hdown : Own p evs i { k with up := false } := ⟨h.made, h.ours, h.key, h.got⟩
  unfold recv
  split
  · cases f with
    | msg final c t x =>
      have ho := hq _ _ _ _ rfl
      dsimp only
      by_cases hch : c ≠ k.chan
      · rw [if_pos hch]; exact hdown
      · rw [if_neg hch]
        have h2 : Own p evs i (if t = k.recvTok then k else { k with
            recvTok := t
            recvKey := some (.kdf k.localN k.remoteN) }) := by
          split
          · exact h
          · refine ⟨h.made, h.ours, ?_, h.got⟩
            intro y hy
            cases hy
            obtain ⟨n, hn⟩ := h.ours ho
            exact ⟨_, n, by rw [hn]⟩
        split
        · rename_i b hb
          refine own_respond h2 which _ (.inr ?_)
          obtain ⟨key, hkey, hk⟩ := (whole_openMsg hb hf).2 hm
          obtain ⟨r, n, rfl⟩ := h2.key key hkey
          rcases hk with hk | hk | hk
          · exact absurd hk.1 hsec
          · obtain ⟨j, m, r', n', ch, t', _, _, hkk, hr, _⟩ := hk
            cases hkk
            rcases hr with hr | ⟨_, _, hr⟩
            · exact absurd hr hsec
            · cases hr
          · obtain ⟨d, m, r', n', s, a, ch, t', hs, ⟨k0, h0, h1⟩, hkk, hr, hx⟩ := hk
            cases hkk
            injection hx with _ hx
            subst hx
            rcases hr with hr | ⟨j, n'', hr, hs'⟩
            · exact absurd hr hsec
            · cases hr
              exact ⟨d, m, k0, rfl, hs, h0, h1.trans hs'.symm⟩
        · exact ⟨h2.made, h2.ours, h2.key, h2.got⟩
    | opn c cert x =>
      dsimp only
      split
      · rename_i b hb
        exact own_respond h which _ (.inl ((whole_openOpn hb hf).2.resolve_left hc))
      · exact hdown
    | plain x =>
      exact hdown
  · exact h

theorem quiet_snoc {p : Setup} {evs : List Ev} {e : Ev} {i : Nat} (h : Quiet p (evs ++ [e]) i) : Quiet p evs i := by
  intro pre final c t x w post he
  exact h pre final c t x w (post ++ [e]) (by rw [he]; simp)

/-- **C138 (responses, partial).** Every response that a client takes on a signed or encrypted channel was sent by the server
whose certificate it was given, if the attacker does not have the private key of that server: whatever frames the attacker
makes of what was sent, whatever other keys it has, the client's own among them. What is missing: chunks that come before
the response to the request for a token, see `C138_forged_fails`. -/
theorem C138_responses_partial (p : Setup) (evs : List Ev) (hp : Possible p evs) (i : Nat) (hm : (p.cfg i).mode ≠ .none)
    (hc : ¬ p.corrupt (p.cfg i).peer) (hq : Quiet p evs i) :
    ∀ b ∈ ((run p init evs).clients i).got, AnsweredBy p evs (p.cfg i).peer b := by
  have main : Own p evs i ((run p init evs).clients i) := by
    induction evs using snocInd with
    | nil => exact ⟨fun _ h => (by cases h), fun h => (by cases h), fun _ h => (by cases h), fun _ h => (by cases h)⟩
    | append_singleton evs e ih =>
      have ih := ih (possible_snoc hp) (quiet_snoc hq)
      have hw := whole_run (clientView_fair p) evs (possible_snoc hp)
      rw [run_snoc]
      cases e with
      | ask j =>
        dsimp only [step, setClient]
        split
        · rename_i hj; subst hj; exact own_mono _ (own_ask ih)
        · exact own_mono _ ih
      | send j m =>
        dsimp only [step, setClient]
        split
        · rename_i hj; subst hj; exact own_mono _ (own_send ih m)
        · exact own_mono _ ih
      | recv j f w =>
        dsimp only [step, setClient]
        split
        · rename_i hj
          subst hj
          refine own_mono _ (own_recv ih hm hc f w ?_ ?_)
          · rintro final c t x rfl
            exact hq evs final c t x w [] rfl
          · exact whole_of_knows (clientView_fair p) (good_run (clientView_fair p) evs) hw.net (hp evs (.recv i f w) [] rfl)
        · exact own_mono _ ih
      | accept c a => dsimp only [step]; split <;> exact own_mono _ ih
      | frame c f => dsimp only [step]; split <;> exact own_mono _ ih
      | reply c m => dsimp only [step]; split <;> exact own_mono _ ih
  exact main.got

/-! ### What a server takes -/

/-- The nonces that servers made for keys that the attacker does not have are secret. -/
def serverView (p : Setup) : View := ⟨fun _ => True, fun a => p.corrupt a, fun _ => True, fun _ => True⟩

theorem serverView_fair (p : Setup) : (serverView p).Fair p :=
  ⟨fun _ _ => trivial, fun _ h => h, fun _ => trivial, fun _ => trivial⟩

/-- What is true of the requests of a connection. -/
structure Asked (p : Setup) (evs : List Ev) (k : Conn) : Prop where
  new : k.opened = false → k.asked = []
  sent : k.mode ≠ .none → ∀ b ∈ k.asked, SentBy p evs k.me b

/-- What is true of a connection while it is up. -/
structure Kept (p : Setup) (c : Nat) (k : Conn) : Prop where
  key : ∀ x, k.recvKey = some x → ∃ r n a, x = .kdf (.snonce c n k.me a) r ∧ ¬ p.corrupt a
  acc : k.opened = true → k.mode ≠ .none → k.acc = none

theorem sentBy_mono {p : Setup} {evs : List Ev} (e : Ev) {s : Agent} {b : Term} (h : SentBy p evs s b) :
    SentBy p (evs ++ [e]) s b := by
  obtain ⟨i, m, h1, h2, h3⟩ := h
  exact ⟨i, m, h1, List.mem_append_left _ h2, h3⟩

theorem asked_mono {p : Setup} {evs : List Ev} (e : Ev) {k : Conn} (h : Asked p evs k) : Asked p (evs ++ [e]) k :=
  ⟨h.new, fun hm b hb => sentBy_mono e (h.sent hm b hb)⟩

theorem issue_same (c : Nat) (k : Conn) (r : Term) : (issue c k r).1.opened = k.opened ∧ (issue c k r).1.mode = k.mode ∧
    (issue c k r).1.asked = k.asked ∧ (issue c k r).1.acc = k.acc ∧ (issue c k r).1.recvKey = k.recvKey := by
  unfold issue
  dsimp only
  repeat' split
  all_goals exact ⟨rfl, rfl, rfl, rfl, rfl⟩

theorem handle_service {p : Setup} {c : Nat} {k : Conn} {b : Term} (ho : k.opened = true) (hb : ¬ isOpen b) :
    handle p c k b = ({ k with asked := k.asked ++ [b] }, []) := by
  unfold handle
  split
  · exact absurd trivial hb
  · exact absurd trivial hb
  · rw [if_pos ho]

theorem asked_handle {p : Setup} {evs : List Ev} {c : Nat} {k : Conn} {b : Term} (h : Asked p evs k)
    (hb : k.opened = true → k.mode ≠ .none → ¬ isOpen b → SentBy p evs k.me b) : Asked p evs (handle p c k b).1 := by
  have hi : ∀ k' r, k'.opened = true → k'.me = k.me → k'.asked = k.asked → (k.opened = true → k'.mode = k.mode) →
      Asked p evs (issue c k' r).1 := by
    intro k' r h1 h2 h3 h4
    obtain ⟨e1, e2, e3, _, _⟩ := issue_same c k' r
    refine ⟨fun h => ?_, fun hm => ?_⟩
    · rw [e1, h1] at h; cases h
    · rw [e3, h3, issue_me, h2]
      cases ho : k.opened with
      | false => rw [h.new ho]; intro b hb; cases hb
      | true => exact h.sent (by rw [← h4 ho, ← e2]; exact hm)
  cases b with
  | openReq r m n =>
    unfold handle
    dsimp only
    split
    · rename_i ho
      split
      · exact hi _ _ ho rfl rfl (fun _ => rfl)
      · exact ⟨h.new, h.sent⟩
    · rename_i ho
      split
      · exact hi _ _ rfl rfl rfl (fun h => absurd h ho)
      · split
        · split
          · exact hi _ _ rfl rfl rfl (fun h => absurd h ho)
          · exact ⟨h.new, h.sent⟩
        · exact ⟨h.new, h.sent⟩
  | openResp _ _ _ => exact ⟨h.new, h.sent⟩
  | _ =>
    unfold handle
    dsimp only
    split
    · rename_i ho
      refine ⟨fun h => ?_, fun hm => ?_⟩
      · rw [ho] at h; cases h
      · intro b hb'
        rcases List.mem_append.1 hb' with hb' | hb'
        · exact h.sent hm b hb'
        · rw [List.mem_singleton.1 hb']
          exact hb ho hm (fun h => h)
    · exact ⟨h.new, h.sent⟩

theorem handle_same (p : Setup) (c : Nat) (k : Conn) (b : Term) :
    (handle p c k b).1.acc = k.acc ∧ (handle p c k b).1.recvKey = k.recvKey := by
  unfold handle
  split
  · split
    · split
      · exact (issue_same _ _ _).2.2.2
      · exact ⟨rfl, rfl⟩
    · split
      · exact (issue_same _ _ _).2.2.2
      · split
        · split
          · exact (issue_same _ _ _).2.2.2
          · exact ⟨rfl, rfl⟩
        · exact ⟨rfl, rfl⟩
  · exact ⟨rfl, rfl⟩
  · split <;> exact ⟨rfl, rfl⟩

theorem asked_part {p : Setup} {evs : List Ev} {c : Nat} {k : Conn} {final : Bool} {b : Term} (h : Asked p evs k)
    (hk : Kept p c k) (hb : k.opened = true → k.mode ≠ .none → final = true → ¬ isOpen b → SentBy p evs k.me b) :
    Asked p evs (part p c k final b).1 := by
  unfold part
  dsimp only
  split
  · rename_i hf
    refine asked_handle ⟨h.new, h.sent⟩ ?_
    intro ho hm hn
    rw [hk.acc ho hm] at hn ⊢
    exact hb ho hm hf hn
  · exact ⟨h.new, h.sent⟩

theorem kept_part {p : Setup} {c : Nat} {k : Conn} {final : Bool} {b : Term} (hk : Kept p c k)
    (hb : k.opened = true → k.mode ≠ .none → final = true) : Kept p c (part p c k final b).1 := by
  have hme := part_me p c k final b
  unfold part at hme ⊢
  dsimp only at hme ⊢
  split
  · rename_i hf
    rw [if_pos hf] at hme
    obtain ⟨h1, h2⟩ := handle_same p c { k with acc := none } (k.acc.getD b)
    refine ⟨?_, fun _ _ => h1⟩
    rw [h2, hme]
    exact hk.key
  · rename_i hf
    exact ⟨hk.key, fun ho hm => absurd (hb ho hm) hf⟩

theorem kept_switch {p : Setup} {c : Nat} {k k' : Conn} (h : Held p c k) (hk : Kept p c k) (hs : switch k = some k') :
    Kept p c k' := by
  unfold switch at hs
  split at hs
  · cases hs
    exact ⟨hk.key, hk.acc⟩
  · rename_i hm
    split at hs
    · cases hs
    · cases hs
      refine ⟨?_, hk.acc⟩
      intro x hx
      cases hx
      have ho : k.opened = true := by
        cases ho : k.opened with
        | true => rfl
        | false => exact absurd (h.new ho) hm
      obtain ⟨n, a, h1, h2⟩ := h.ours ho hm
      exact ⟨_, n, a, by rw [h1], h2⟩

theorem switch_asked {p : Setup} {evs : List Ev} {k k' : Conn} (h : Asked p evs k) (hs : switch k = some k') : Asked p evs k' := by
  unfold switch at hs
  split at hs
  · cases hs
    exact ⟨h.new, h.sent⟩
  · split at hs
    · cases hs
    · cases hs
      exact ⟨h.new, h.sent⟩

/-- A chunk that a connection takes with its key was sent by a client. -/
theorem sent_of {p : Setup} {evs : List Ev} {c : Nat} {k : Conn} {final : Bool} {ch t : Nat} {x b : Term} (hk : Kept p c k)
    (hm : k.mode ≠ .none) (hb : openMsg k.mode k.recvKey final ch t x = some b)
    (hx : Whole p (serverView p) (Made p (serverView p) evs) bare x) : final = true ∧ SentBy p evs k.me b := by
  obtain ⟨key, hkey, h⟩ := (whole_openMsg hb hx).2 hm
  obtain ⟨r, n, a, rfl, ha⟩ := hk.key key hkey
  rcases h with h | h | h
  · exact absurd h.1 ha
  · obtain ⟨i, m, r', n', ch', t', hs, hmo, hkk, hr, hx⟩ := h
    injection hkk with h1 h2
    subst h1
    injection hx with hh hx
    subst hx
    rcases hr with hr | ⟨_, _, hr⟩
    · exact absurd hr ha
    · injection hr with _ _ h3 h4
      refine ⟨?_, i, m, rfl, hs, h3.symm, hmo, by rw [← h4]; exact ha⟩
      unfold msgHeader at hh
      cases final with
      | true => rfl
      | false => cases hh
  · obtain ⟨d, m, r', n', s, a', ch', t', _, _, hkk, hr, _⟩ := h
    injection hkk with h1 h2
    subst h1
    rcases hr with hr | ⟨_, _, hr, _⟩
    · exact absurd hr ha
    · cases hr

theorem taken_frame {p : Setup} {evs : List Ev} {c : Nat} {k : Conn} {f : Frame} (hu : k.up = true) (h : Held p c k)
    (hk : Kept p c k) (ha : Asked p evs k) (hp : ∀ x, f ≠ .plain x) (hcl : (frame p c k f).1.up = true → Clean p (frame p c k f).1)
    (hf : Whole p (serverView p) (Made p (serverView p) evs) bare f.payload) :
    Kept p c (frame p c k f).1 ∧ Asked p evs (frame p c k f).1 := by
  have hdown : Kept p c { k with up := false } ∧ Asked p evs { k with up := false } := ⟨⟨hk.key, hk.acc⟩, ⟨ha.new, ha.sent⟩⟩
  unfold frame at hcl ⊢
  rw [if_pos hu] at hcl ⊢
  cases f with
  | msg final ch t x =>
    clear hcl
    dsimp only
    by_cases hch : ch ≠ c + 1
    · rw [if_pos hch]; exact hdown
    · rw [if_neg hch]
      cases hs : (if t = k.tok then some k else if t = k.pendTok then switch k else none) with
      | none => exact hdown
      | some k' =>
        have h' : Kept p c k' ∧ Asked p evs k' := by
          split at hs
          · cases hs; exact ⟨hk, ha⟩
          · split at hs
            · exact ⟨kept_switch h hk hs, switch_asked ha hs⟩
            · cases hs
        dsimp only
        cases ho : openMsg k'.mode k'.recvKey final ch t x with
        | none => exact ⟨⟨h'.1.key, h'.1.acc⟩, ⟨h'.2.new, h'.2.sent⟩⟩
        | some b =>
          exact ⟨kept_part h'.1 (fun _ hm => (sent_of h'.1 hm ho hf).1),
            asked_part h'.2 h'.1 (fun _ hm _ _ => (sent_of h'.1 hm ho hf).2)⟩
  | opn ch cert x =>
    dsimp only at hcl ⊢
    split at hcl
    · exact ⟨⟨hk.key, hk.acc⟩, ⟨ha.new, ha.sent⟩⟩
    · rename_i a hkey
      cases ho : openOpn k.me a ch cert x with
      | none => exact ⟨⟨hk.key, hk.acc⟩, ⟨ha.new, ha.sent⟩⟩
      | some b =>
        rw [ho] at hcl
        dsimp only at hcl ⊢
        refine ⟨kept_part ⟨hk.key, hk.acc⟩ (fun _ _ => rfl), asked_part ⟨ha.new, ha.sent⟩ ⟨hk.key, hk.acc⟩ ?_⟩
        intro hop hm _ hb
        have hop : k.opened = true := hop
        have hm : k.mode ≠ .none := hm
        exfalso
        have hacc := hk.acc hop hm
        unfold part at hcl
        dsimp only at hcl
        rw [if_pos rfl, hacc] at hcl
        have hserv : ∀ k' : Conn, k'.opened = true → handle p c k' b = ({ k' with asked := k'.asked ++ [b] }, []) :=
          fun k' h' => handle_service h' hb
        change (handle p c _ b).1.up = true → Clean p (handle p c _ b).1 at hcl
        rw [hserv _ (by exact hop)] at hcl
        have := hcl hu a hkey
        exact ((whole_openOpn ho hf).2.elim this hb)
  | plain x => exact absurd rfl (hp x)

theorem undisturbed_snoc {p : Setup} {evs : List Ev} {e : Ev} {c : Nat} (h : Undisturbed p (evs ++ [e]) c) : Undisturbed p evs c :=
  ⟨fun x hx => h.1 x (List.mem_append_left _ hx), fun pre hp => h.2 pre (hp.trans (List.prefix_append _ _))⟩

theorem taken_run (p : Setup) (evs : List Ev) (hp : Possible p evs) (c : Nat) (hc : Undisturbed p evs c) :
    ∀ k, (run p init evs).conns c = some k → Asked p evs k ∧ (k.up = true → Kept p c k) := by
  induction evs using snocInd with
  | nil => intro k hk; cases hk
  | append_singleton evs e ih =>
    have ih := ih (possible_snoc hp) (undisturbed_snoc hc)
    have hw := whole_run (serverView_fair p) evs (possible_snoc hp)
    have hh := held_run p evs c (fun pre hpre k hk hu a ha => (undisturbed_snoc hc).2 pre hpre k a hk hu ha)
    have hcl := hc.2 _ (List.prefix_refl _)
    have hmono : ∀ k, (run p init evs).conns c = some k → Asked p (evs ++ [e]) k ∧ (k.up = true → Kept p c k) :=
      fun k hk => ⟨asked_mono e (ih k hk).1, (ih k hk).2⟩
    rw [run_snoc] at hcl ⊢
    intro k hk
    cases e with
    | ask i => exact hmono k hk
    | send i m => exact hmono k hk
    | recv i f w => exact hmono k hk
    | accept d a =>
      dsimp only [step] at hk
      split at hk
      · dsimp only [setConn] at hk
        split at hk
        · cases hk
          exact ⟨⟨fun _ => rfl, fun h => absurd rfl h⟩, fun _ => ⟨fun _ h => (by cases h), fun _ _ => rfl⟩⟩
        · exact hmono k hk
      · exact hmono k hk
    | frame d f =>
      dsimp only [step] at hk hcl
      split at hk
      · exact hmono k hk
      · rename_i k0 h0
        rw [h0] at hcl
        dsimp only [setConn] at hk hcl
        split at hk
        · rename_i hd
          subst hd
          rw [if_pos rfl] at hcl
          cases hk
          cases hu : k0.up with
          | false =>
            have : frame p c k0 f = (k0, []) := by unfold frame; rw [hu]; rfl
            rw [this]
            exact hmono k0 h0
          | true =>
            have hpl : ∀ x, f ≠ .plain x := by
              rintro x rfl
              exact hc.1 x (List.mem_append_right _ (List.mem_singleton.2 rfl))
            have := taken_frame hu (hh k0 h0 hu) ((ih k0 h0).2 hu) (ih k0 h0).1 hpl (fun hu' a ha => hcl _ a rfl hu' ha)
              (whole_of_knows (serverView_fair p) (good_run (serverView_fair p) evs) hw.net (hp evs (.frame c f) [] rfl))
            exact ⟨asked_mono _ this.2, fun _ => this.1⟩
        · exact hmono k hk
    | reply d m =>
      dsimp only [step] at hk
      split at hk
      · exact hmono k hk
      · rename_i k0 h0
        dsimp only [setConn] at hk
        split at hk
        · rename_i hd
          subst hd
          cases hk
          have hk0 := hmono k0 h0
          unfold reply
          split
          · rename_i hu
            simp only [Bool.and_eq_true] at hu
            split
            · exact hk0
            · exact ⟨⟨hk0.1.new, hk0.1.sent⟩, fun h => (by cases h)⟩
          · exact hk0
        · exact hmono k hk

/-- **C138 (requests, partial).** Every request that a server takes on a signed or encrypted connection was sent by a client that
holds a private key which the attacker does not have, on a signed or encrypted channel to that server. What is missing: an OPN
frame with the policy None on such a connection is taken without signature, and one with a certificate of the attacker is
taken as well, see `C138_injected_fails`. -/
theorem C138_requests_partial (p : Setup) (evs : List Ev) (hp : Possible p evs) (c : Nat) (hc : Undisturbed p evs c) (k : Conn)
    (hk : (run p init evs).conns c = some k) (hm : k.mode ≠ .none) : ∀ b ∈ k.asked, SentBy p evs k.me b :=
  (taken_run p evs hp c hc k hk).1.sent hm

/-! #### Which client it was -/

/-- All but `a` are attackers. -/
def against (p : Setup) (a : Agent) : Setup := { p with corrupt := fun a' => a' ≠ a }

theorem run_against (p : Setup) (a : Agent) (evs : List Ev) : run (against p a) init evs = run p init evs := by
  induction evs using snocInd with
  | nil => rfl
  | append_singleton evs e ih =>
    rw [run_snoc, run_snoc, ih]
    rfl

theorem knows_against {p : Setup} {a : Agent} (ha : ¬ p.corrupt a) {net : List Term} {x : Term} (h : Knows p net x) :
    Knows (against p a) net x := by
  induction h with
  | seen h => exact .seen h
  | num _ => exact .num _
  | nil => exact .nil
  | priv h => exact .priv (fun e => ha (by rw [← e]; exact h))
  | pair _ _ h1 h2 => exact .pair h1 h2
  | fst _ h1 => exact .fst h1
  | snd _ h1 => exact .snd h1
  | aenc _ h1 => exact .aenc h1
  | adec _ _ h1 h2 => exact .adec h1 h2
  | sig _ _ h1 h2 => exact .sig h1 h2
  | signed _ h1 => exact .signed h1
  | senc _ _ h1 h2 => exact .senc h1 h2
  | sdec _ _ h1 h2 => exact .sdec h1 h2
  | mac _ _ h1 h2 => exact .mac h1 h2
  | maced _ h1 => exact .maced h1
  | kdf _ _ h1 h2 => exact .kdf h1 h2
  | openReq _ h1 => exact .openReq h1
  | asked _ h1 => exact .asked h1
  | openResp _ h1 => exact .openResp h1
  | answered _ h1 => exact .answered h1

/-- **C138 (client, partial).** If the only public key that a connection ever had is one that the attacker does not hold, every
request that the server takes on it was sent by a client with that key, on a signed or encrypted channel to that server.
Missing: as for `C138_requests_partial`. -/
theorem C138_client_partial (p : Setup) (evs : List Ev) (hp : Possible p evs) (c : Nat) (a : Agent) (ha : ¬ p.corrupt a)
    (hc : OnlyKey p evs c a) (k : Conn) (hk : (run p init evs).conns c = some k) (hm : k.mode ≠ .none) :
    ∀ b ∈ k.asked, ∃ i m, b = .secret m ∧ .send i m ∈ evs ∧ p.cfg i = ⟨a, k.me, (p.cfg i).mode⟩ ∧ (p.cfg i).mode ≠ .none := by
  intro b hb
  have hp' : Possible (against p a) evs := by
    intro pre e post he
    have := hp pre e post he
    rw [run_against]
    cases e with
    | recv i f w => exact knows_against ha this
    | frame c f => exact knows_against ha this
    | _ => trivial
  have hc' : Undisturbed (against p a) evs c := by
    refine ⟨hc.1, ?_⟩
    intro pre hpre k a' hk hu hkey hne
    rw [run_against] at hk
    exact hne (hc.2 pre hpre k a' hk hu hkey)
  obtain ⟨i, m, h1, h2, h3, h4, h5⟩ := C138_requests_partial (against p a) evs hp' c hc' k (by rw [run_against]; exact hk) hm b hb
  have h5 : ¬ ((p.cfg i).me ≠ a) := h5
  have h6 : (p.cfg i).me = a := Classical.not_not.1 h5
  have h3 : (p.cfg i).peer = k.me := h3
  refine ⟨i, m, h1, h2, ?_, h4⟩
  rw [← h6, ← h3]

/-! ### An honest run -/

theorem exHonest_only : OnlyKey exSetup exHonest 0 1 := by
  refine ⟨?_, ?_⟩
  · intro x hx
    unfold exHonest at hx
    simp only [List.mem_cons, List.not_mem_nil, or_false, reduceCtorEq, Ev.frame.injEq, sealOpn, and_false] at hx
  · intro pre hpre k a hk _ ha
    rw [List.prefix_iff_eq_take] at hpre
    have hall : ∀ n < 9, ∀ o, ((run exSetup init (exHonest.take n)).conns 0).bind (·.key) = some o → o = 1 := by
      intro n hn o ho
      have : ∀ n < 9, ((run exSetup init (exHonest.take n)).conns 0).bind (·.key) = none ∨
        ((run exSetup init (exHonest.take n)).conns 0).bind (·.key) = some 1 := by decide +kernel
      rcases this n hn with h | h <;> rw [h] at ho
      · cases ho
      · cases ho; rfl
    have hlen : pre.length ≤ 8 := by
      have := congrArg List.length hpre
      rw [List.length_take] at this
      have h8 : exHonest.length = 8 := rfl
      omega
    refine hall pre.length (by omega) a ?_
    rw [← hpre, hk]
    exact ha

theorem exHonest_quiet : Quiet exSetup exHonest 0 := by
  intro pre final c t x w post he
  have hn : exHonest[pre.length]? = some (.recv 0 (.msg final c t x) w) := by
    rw [he, List.getElem?_append_right (Nat.le_refl _)]; simp
  have hp : pre = exHonest.take pre.length := by rw [he, List.take_left']; rfl
  have h7 : ∀ n, exHonest[n]? = some (.recv 0 (.msg final c t x) w) → n = 7 := by
    intro n
    match n with
    | 0 | 1 | 2 | 3 | 4 | 5 | 6 => intro h; cases h
    | 7 => intro _; rfl
    | n + 8 => intro h; cases h
  rw [hp, h7 _ hn]
  decide +kernel

theorem exHonest_possible : Possible exSetup exHonest := by
  refine possible_of ?_
  exact ⟨trivial, trivial, .seen (by decide +kernel), .seen (by decide +kernel), trivial, .seen (by decide +kernel), trivial,
    .seen (by decide +kernel), trivial⟩

/-- The response of the honest run. -/
example : AnsweredBy exSetup exHonest 2 (.reply 8) :=
  C138_responses_partial exSetup exHonest exHonest_possible 0 (by decide) (by show ¬ (2 : Nat) = 3; decide) exHonest_quiet _
    (by decide +kernel)

/-- And its request. -/
example : ∃ k, (run exSetup init exHonest).conns 0 = some k ∧ k.mode ≠ .none ∧ Term.secret 7 ∈ k.asked ∧
    Undisturbed exSetup exHonest 0 ∧ OnlyKey exSetup exHonest 0 1 := by
  refine ⟨((run exSetup init exHonest).conns 0).get (by decide +kernel), by simp, by decide +kernel, by decide +kernel,
    ⟨exHonest_only.1, ?_⟩, exHonest_only⟩
  intro pre hpre k a hk hu ha
  rw [exHonest_only.2 pre hpre k a hk hu ha]
  show ¬ (1 : Nat) = 3
  decide

/-! ### Where it fails -/

/-- **C138 fails (requests).** On an encrypted connection to a client whose key the attacker does not have, the server takes a
request that nobody but the attacker ever sent: in an OPN frame that names the policy None. -/
theorem C138_injected_fails :
    ∃ (p : Setup) (before : List Ev) (f : Frame) (k : Conn), Possible p (before ++ [.frame 0 f]) ∧
      (∀ i, Private p i ∧ ¬ p.corrupt (p.cfg i).me) ∧ (∀ a, p.trusted a = true → ¬ p.corrupt a) ∧ OnlyKey p before 0 1 ∧
      (run p init (before ++ [.frame 0 f])).conns 0 = some k ∧ k.mode = .signAndEncrypt ∧ k.up = true ∧ k.key = some 1 ∧
      ∃ b ∈ k.asked, ¬ SentBy p (before ++ [.frame 0 f]) k.me b := by
  refine ⟨exSetup, exHonest, .plain (.num 0),
    ((run exSetup init (exHonest ++ [.frame 0 (.plain (.num 0))])).conns 0).get (by decide +kernel), possible_of ?_, ?_, ?_,
    exHonest_only, by simp, by decide +kernel, by decide +kernel, by decide +kernel, .num 0, by decide +kernel, ?_⟩
  · exact ⟨trivial, trivial, .seen (by decide +kernel), .seen (by decide +kernel), trivial, .seen (by decide +kernel), trivial,
      .seen (by decide +kernel), .num _, trivial⟩
  · exact fun i => ⟨⟨rfl, by show ¬ (2 : Nat) = 3; decide⟩, by show ¬ (1 : Nat) = 3; decide⟩
  · intro a h e
    have e : a = 3 := e
    subst e
    cases h
  · rintro ⟨i, m, h, _⟩
    cases h

/-- **C138 fails (requests).** Nor is it any better with signatures: one that is signed with a key of the attacker, whom the
server does not trust, is taken as well. -/
theorem C138_stranger_fails :
    ∃ (p : Setup) (before : List Ev) (f : Frame) (k : Conn), Possible p (before ++ [.frame 0 f]) ∧
      (∀ i, Private p i ∧ ¬ p.corrupt (p.cfg i).me) ∧ (∀ a, p.trusted a = true → ¬ p.corrupt a) ∧ OnlyKey p before 0 1 ∧
      (∀ x, f ≠ .plain x) ∧ (run p init (before ++ [.frame 0 f])).conns 0 = some k ∧ k.mode = .signAndEncrypt ∧ k.up = true ∧
      ∃ b ∈ k.asked, ¬ SentBy p (before ++ [.frame 0 f]) k.me b := by
  refine ⟨exSetup, exHonest, sealOpn 3 2 0 (.num 0),
    ((run exSetup init (exHonest ++ [.frame 0 (sealOpn 3 2 0 (.num 0))])).conns 0).get (by decide +kernel), possible_of ?_, ?_, ?_,
    exHonest_only, (fun _ h => by cases h), by simp, by decide +kernel, by decide +kernel, .num 0, by decide +kernel, ?_⟩
  · exact ⟨trivial, trivial, .seen (by decide +kernel), .seen (by decide +kernel), trivial, .seen (by decide +kernel), trivial,
      .seen (by decide +kernel), .aenc (.sig (.pair (.pair (.num _) (.num _)) (.num _)) (.priv rfl)), trivial⟩
  · exact fun i => ⟨⟨rfl, by show ¬ (2 : Nat) = 3; decide⟩, by show ¬ (1 : Nat) = 3; decide⟩
  · intro a h e
    have e : a = 3 := e
    subst e
    cases h
  · rintro ⟨i, m, h, _⟩
    cases h

/-- **C138 fails (responses).** A client that has only asked for a token takes a response that nobody but the attacker sent: the
keys for a chunk that comes before the response to it are made of two empty nonces. -/
theorem C138_forged_fails :
    ∃ (p : Setup) (f : Frame), Possible p [.ask 0, .recv 0 f 0] ∧ Private p 0 ∧ ¬ p.corrupt (p.cfg 0).me ∧
      ∃ b ∈ ((run p init [.ask 0, .recv 0 f 0]).clients 0).got, ¬ AnsweredBy p [.ask 0, .recv 0 f 0] (p.cfg 0).peer b := by
  refine ⟨exSetup, .msg true 0 1 (.senc (.kdf .nil .nil) (.mac (.kdf .nil .nil) (.pair (msgHeader true 0 1) (.num 5)))),
    possible_of ?_, ⟨rfl, by show ¬ (2 : Nat) = 3; decide⟩, by show ¬ (1 : Nat) = 3; decide, .num 5, by decide +kernel, ?_⟩
  · exact ⟨trivial, .senc (.mac (.pair (.pair (.num _) (.pair (.num _) (.num _))) (.num _)) (.kdf .nil .nil)) (.kdf .nil .nil),
      trivial⟩
  · rintro ⟨c, m, k, h, _⟩
    cases h

end Opcua.Secrecy
