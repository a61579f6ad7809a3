import Verif.Model.Secrecy
import Verif.Lemmas.Lists

/-!
# C137: what travels on an encrypted channel stays between client and server
-/

namespace Opcua.Secrecy

namespace Spec

/-- A channel on which a client may send what nobody else is to know: encrypted, for a server whose key is its own. -/
def Private (p : Setup) (i : Nat) : Prop := (p.cfg i).mode = .signAndEncrypt ∧ ¬ p.corrupt (p.cfg i).peer

/-- The frames of a history are those that the attacker can make of what was sent before. -/
def Possible (p : Setup) (evs : List Ev) : Prop :=
  ∀ pre e post, evs = pre ++ e :: post →
    match e with
    | .recv _ f _ => Knows p (run p init pre).net f.payload
    | .frame _ f => Knows p (run p init pre).net f.payload
    | _ => True

/-- Whenever `m` was sent the connection was an encrypted one, and at no time before was the public key for its client that
of an attacker. -/
def KeptFor (p : Setup) (evs : List Ev) (m : Nat) : Prop :=
  ∀ pre c post, evs = pre ++ .reply c m :: post →
    (∀ k, (run p init pre).conns c = some k → k.mode = .signAndEncrypt) ∧
    (∀ pre', pre' <+: pre → ∀ k a, (run p init pre').conns c = some k → k.up = true → k.key = some a → ¬ p.corrupt a)

end Spec

open Spec

/-! ### Terms that say nothing secret -/

/-- Which atoms are not secret. -/
structure View where
  cn : Nat → Prop
  sn : Agent → Prop
  sec : Nat → Prop
  rep : Nat → Prop

def Good (p : Setup) (v : View) : Term → Prop
  | .num _ => True
  | .nil => True
  | .cnonce i _ => v.cn i
  | .snonce _ _ _ a => v.sn a
  | .secret m => v.sec m
  | .reply m => v.rep m
  | .priv a => p.corrupt a
  | .pair x y => Good p v x ∧ Good p v y
  | .aenc a x => p.corrupt a → Good p v x
  | .sig _ x => Good p v x
  | .senc k x => Good p v k → Good p v x
  | .mac _ x => Good p v x
  | .kdf x y => Good p v x ∧ Good p v y
  | .openReq _ _ x => Good p v x
  | .openResp _ _ x => Good p v x

theorem good_of_knows {p : Setup} {v : View} {net : List Term} (h : ∀ x ∈ net, Good p v x) {x : Term} (hx : Knows p net x) :
    Good p v x := by
  induction hx with
  | seen hm => exact h _ hm
  | num _ => exact trivial
  | nil => exact trivial
  | priv hc => exact hc
  | pair _ _ h1 h2 => exact ⟨h1, h2⟩
  | fst _ h1 => exact h1.1
  | snd _ h1 => exact h1.2
  | aenc _ h1 => exact fun _ => h1
  | adec _ _ h1 h2 => exact h1 h2
  | sig _ _ h1 _ => exact h1
  | signed _ h1 => exact h1
  | senc _ _ h1 _ => exact fun _ => h1
  | sdec _ _ h1 h2 => exact h1 h2
  | mac _ _ h1 _ => exact h1
  | maced _ h1 => exact h1
  | kdf _ _ h1 h2 => exact ⟨h1, h2⟩
  | openReq _ h1 => exact h1
  | asked _ h1 => exact h1
  | openResp _ h1 => exact h1
  | answered _ h1 => exact h1

/-- A chunk is good if what it says is good, or if it is encrypted under a key that is not. -/
theorem good_sealMsg {p : Setup} {v : View} {mode : Mode} {key : Option Term} {chan tok : Nat} {b : Term} {f : Frame}
    (hf : sealMsg mode key chan tok b = some f)
    (h : Good p v b ∨ (mode = .signAndEncrypt ∧ ∀ k, key = some k → ¬ Good p v k)) : Good p v f.payload := by
  unfold sealMsg at hf
  cases mode with
  | none =>
    cases hf
    rcases h with h | h
    · exact h
    · exact absurd h.1 (by decide)
  | sign =>
    cases key with
    | none => cases hf
    | some k =>
      cases hf
      rcases h with h | h
      · exact ⟨⟨trivial, trivial, trivial⟩, h⟩
      · exact absurd h.1 (by decide)
  | signAndEncrypt =>
    cases key with
    | none => cases hf
    | some k =>
      cases hf
      rcases h with h | h
      · exact fun _ => ⟨⟨trivial, trivial, trivial⟩, h⟩
      · exact fun hk => absurd hk (h.2 k rfl)

theorem good_sealOpn {p : Setup} {v : View} {a b : Agent} {chan : Nat} {x : Term} (h : p.corrupt b → Good p v x) :
    Good p v (sealOpn a b chan x).payload := fun hc => ⟨⟨trivial, trivial⟩, h hc⟩

/-! ### What a server sends -/

/-- What a server sends is good, if its nonces are good when they are made for a key of the attacker, and its responses are
good or hidden. -/
theorem good_issue {p : Setup} {v : View} (hs : ∀ a, p.corrupt a → v.sn a) (c : Nat) (k : Conn) (r : Term) :
    ∀ x ∈ (issue c k r).2, Good p v x := by
  intro x hx
  unfold issue at hx
  dsimp only at hx
  split at hx
  · rcases List.mem_singleton.1 hx with rfl
    exact trivial
  · split at hx
    · rcases List.mem_singleton.1 hx with rfl
      exact good_sealOpn (fun hc => hs _ hc)
    · cases hx

theorem good_handle {p : Setup} {v : View} (hs : ∀ a, p.corrupt a → v.sn a) (c : Nat) (k : Conn) (b : Term) :
    ∀ x ∈ (handle p c k b).2, Good p v x := by
  intro x hx
  unfold handle at hx
  repeat' split at hx
  all_goals first | exact good_issue hs _ _ _ x hx | cases hx

theorem good_part {p : Setup} {v : View} (hs : ∀ a, p.corrupt a → v.sn a) (c : Nat) (k : Conn) (final : Bool) (b : Term) :
    ∀ x ∈ (part p c k final b).2, Good p v x := by
  intro x hx
  unfold part at hx
  dsimp only at hx
  split at hx
  · exact good_handle hs _ _ _ x hx
  · cases hx

theorem good_frame {p : Setup} {v : View} (hs : ∀ a, p.corrupt a → v.sn a) (c : Nat) (k : Conn) (f : Frame) :
    ∀ x ∈ (frame p c k f).2, Good p v x := by
  intro x hx
  unfold frame at hx
  split at hx
  · cases f with
    | msg final ch t y =>
      dsimp only at hx
      by_cases hc : ch ≠ c + 1
      · rw [if_pos hc] at hx; cases hx
      · rw [if_neg hc] at hx
        split at hx
        · cases hx
        · split at hx
          · cases hx
          · exact good_part hs _ _ _ _ x hx
    | opn ch cert y =>
      dsimp only at hx
      split at hx
      · cases hx
      · split at hx
        · cases hx
        · exact good_part hs _ _ _ _ x hx
    | plain y => exact good_part hs _ _ _ _ x hx
  · cases hx

theorem good_reply {p : Setup} {v : View} (c : Nat) (k : Conn) (m : Nat)
    (h : v.rep m ∨ (k.mode = .signAndEncrypt ∧ ∀ key, k.up = true → k.sendKey = some key → ¬ Good p v key)) :
    ∀ x ∈ (reply c k m).2, Good p v x := by
  intro x hx
  unfold reply at hx
  split at hx
  · rename_i hup
    split at hx
    · rename_i f hf
      rcases List.mem_singleton.1 hx with rfl
      refine good_sealMsg hf ?_
      rcases h with h | ⟨h1, h2⟩
      · exact .inl h
      · refine .inr ⟨h1, fun key => h2 key ?_⟩
        simp only [Bool.and_eq_true] at hup
        exact hup.1
    · cases hx
  · cases hx

/-! ### What a client sends -/

theorem good_ask {p : Setup} {v : View} (i : Nat) (k : Client)
    (h : (p.cfg i).mode = .none ∨ p.corrupt (p.cfg i).peer → v.cn i) : ∀ x ∈ (ask (p.cfg i) i k).2, Good p v x := by
  intro x hx
  unfold ask at hx
  split at hx
  · rcases List.mem_singleton.1 hx with rfl
    split
    · rename_i hm
      exact h (.inl hm)
    · exact good_sealOpn (fun hc => h (.inr hc))
  · cases hx

/-- What is true of a channel of a client at any time: as soon as it has a token its nonce is one that it made, and its
key for sending is made with one. -/
structure Fed (i : Nat) (k : Client) : Prop where
  made : ∀ x ∈ k.waiting, ∃ n, x = .cnonce i n
  ours : k.tok ≠ 0 ∨ k.sendTok ≠ 0 → ∃ n, k.localN = .cnonce i n
  key : ∀ x, k.sendKey = some x → ∃ r n, x = .kdf r (.cnonce i n)

theorem fed_ask {g : Cfg} {i : Nat} {k : Client} (h : Fed i k) : Fed i (ask g i k).1 := by
  unfold ask
  split
  · refine ⟨?_, h.ours, h.key⟩
    intro x hx
    rcases List.mem_append.1 hx with hx | hx
    · exact h.made x hx
    · exact ⟨_, List.mem_singleton.1 hx⟩
  · exact h

/-- The channel when the keys for sending are made, if there is need. -/
def keyed (g : Cfg) (k : Client) : Client :=
  if k.tok = k.sendTok then k
  else { k with
    sendTok := k.tok
    sendKey := if g.mode = .none then none else some (.kdf k.remoteN k.localN) }

theorem fed_keyed {g : Cfg} {i : Nat} {k : Client} (h : Fed i k) : Fed i (keyed g k) := by
  unfold keyed
  split
  · exact h
  · rename_i hne
    have hn := h.ours (by
      by_cases ht : k.tok = 0
      · exact .inr (fun e => hne (ht.trans e.symm))
      · exact .inl ht)
    refine ⟨h.made, fun _ => hn, ?_⟩
    intro x hx
    dsimp only at hx
    split at hx
    · cases hx
    · cases hx
      obtain ⟨n, hn⟩ := hn
      exact ⟨_, n, by rw [hn]⟩

theorem send_eq (g : Cfg) (k : Client) (m : Nat) : send g k m =
    if k.up && k.opened then
      match sealMsg g.mode (keyed g k).sendKey (keyed g k).chan (keyed g k).tok (.secret m) with
      | some f => (keyed g k, [f.payload])
      | none => ({ keyed g k with up := false }, [])
    else (k, []) := rfl

theorem fed_send {g : Cfg} {i : Nat} {k : Client} (h : Fed i k) (m : Nat) : Fed i (send g k m).1 := by
  rw [send_eq]
  have := fed_keyed (g := g) h
  split
  · split
    · exact this
    · exact ⟨this.made, this.ours, this.key⟩
  · exact h

theorem fed_respond {i : Nat} {k : Client} (h : Fed i k) (which : Nat) (b : Term) : Fed i (respond k which b) := by
  unfold respond
  split
  · split
    · exact h
    · rename_i l hl
      refine ⟨fun x hx => h.made x (List.mem_of_mem_eraseIdx hx), fun _ => h.made l (List.mem_of_getElem? hl), h.key⟩
  · exact ⟨h.made, h.ours, h.key⟩
  · exact ⟨h.made, h.ours, h.key⟩

theorem fed_recv {g : Cfg} {i : Nat} {k : Client} (h : Fed i k) (f : Frame) (which : Nat) : Fed i (recv g k f which) := by
  have hdown : Fed i { k with up := false } := ⟨h.made, h.ours, h.key⟩
  unfold recv
  split
  · cases f with
    | msg final c t x =>
      dsimp only
      by_cases hc : c ≠ k.chan
      · rw [if_pos hc]; exact hdown
      · rw [if_neg hc]
        have h2 : Fed i (if t = k.recvTok then k else { k with
            recvTok := t
            recvKey := if g.mode = .none then none else some (.kdf k.localN k.remoteN) }) := by
          split
          · exact h
          · exact ⟨h.made, h.ours, h.key⟩
        split
        · exact fed_respond h2 which _
        · exact ⟨h2.made, h2.ours, h2.key⟩
    | opn c cert x =>
      dsimp only
      split
      · exact hdown
      · split
        · exact fed_respond h which _
        · exact hdown
    | plain x =>
      dsimp only
      split
      · exact fed_respond h which _
      · exact hdown
  · exact h

theorem fed_run (p : Setup) (evs : List Ev) (i : Nat) : Fed i ((run p init evs).clients i) := by
  induction evs using snocInd with
  | nil => exact ⟨fun _ h => (by cases h), fun h => (by rcases h with h | h <;> exact absurd rfl h), fun _ h => (by cases h)⟩
  | append_singleton evs e ih =>
    unfold run at ih ⊢
    rw [List.foldl_append]
    show Fed i ((step p _ e).clients i)
    unfold step
    cases e with
    | ask j =>
      dsimp only [setClient]
      split
      · rename_i hj; subst hj; exact fed_ask ih
      · exact ih
    | send j m =>
      dsimp only [setClient]
      split
      · rename_i hj; subst hj; exact fed_send ih m
      · exact ih
    | recv j f w =>
      dsimp only [setClient]
      split
      · rename_i hj; subst hj; exact fed_recv ih f w
      · exact ih
    | accept c a => dsimp only; split <;> exact ih
    | frame c f => dsimp only; split <;> exact ih
    | reply c m => dsimp only; split <;> exact ih

theorem good_send {p : Setup} {v : View} {i : Nat} {k : Client} (hk : Fed i k) (m : Nat)
    (h : v.sec m ∨ ((p.cfg i).mode = .signAndEncrypt ∧ ¬ v.cn i)) : ∀ x ∈ (send (p.cfg i) k m).2, Good p v x := by
  intro x hx
  rw [send_eq] at hx
  split at hx
  · split at hx
    · rename_i f hf
      rcases List.mem_singleton.1 hx with rfl
      refine good_sealMsg hf ?_
      rcases h with h | ⟨h1, h2⟩
      · exact .inl h
      · refine .inr ⟨h1, fun key hkey hg => ?_⟩
        obtain ⟨r, n, rfl⟩ := (fed_keyed hk).key key hkey
        exact h2 hg.2
    · cases hx
  · cases hx

/-! ### Requests -/

/-- **C137 (requests).** What a client sends on encrypted channels only, to servers whose private keys the attacker does
not have, the attacker never gets to know: whatever frames clients and servers are sent (even such as the attacker could not
make), whatever other keys it has, the client's own among them, and however the channels are opened and renewed. -/
theorem C137_requests (p : Setup) (evs : List Ev) (m : Nat) (hm : ∀ i, .send i m ∈ evs → Private p i) :
    ¬ Knows p (run p init evs).net (.secret m) := by
  let v : View := ⟨fun i => ¬ Private p i, fun _ => True, fun m' => m' ≠ m, fun _ => True⟩
  have main : ∀ x ∈ (run p init evs).net, Good p v x := by
    induction evs using snocInd with
    | nil => intro x hx; cases hx
    | append_singleton evs e ih =>
      have ih := ih (fun i hi => hm i (List.mem_append_left _ hi))
      have hrun : run p init (evs ++ [e]) = step p (run p init evs) e := by
        unfold run; rw [List.foldl_append]; rfl
      rw [hrun]
      intro x hx
      unfold step at hx
      cases e with
      | ask i =>
        rcases List.mem_append.1 hx with hx | hx
        · exact ih x hx
        · refine good_ask i _ ?_ x hx
          rintro (h | h) ⟨h1, h2⟩
          · rw [h] at h1; cases h1
          · exact h2 h
      | send i m' =>
        rcases List.mem_append.1 hx with hx | hx
        · exact ih x hx
        · refine good_send (fed_run p evs i) m' ?_ x hx
          by_cases e : m' = m
          · subst e
            have := hm i (List.mem_append_right _ (List.mem_singleton.2 rfl))
            exact .inr ⟨this.1, fun h => h this⟩
          · exact .inl e
      | recv i f w =>
        rcases List.mem_append.1 hx with hx | hx
        · exact ih x hx
        · cases hx
      | accept c a =>
        dsimp only at hx
        split at hx
        · rcases List.mem_append.1 hx with hx | hx
          · exact ih x hx
          · cases hx
        · exact ih x hx
      | frame c f =>
        dsimp only at hx
        split at hx
        · exact ih x hx
        · rcases List.mem_append.1 hx with hx | hx
          · exact ih x hx
          · exact good_frame (fun _ _ => trivial) _ _ _ x hx
      | reply c m' =>
        dsimp only at hx
        split at hx
        · exact ih x hx
        · rcases List.mem_append.1 hx with hx | hx
          · exact ih x hx
          · exact good_reply _ _ _ (.inl trivial) x hx
  intro hk
  exact good_of_knows main hk rfl

/-! ### Responses -/

/-- What is true of a connection of a server as long as it never has the public key of an attacker. -/
structure Held (p : Setup) (c : Nat) (k : Conn) : Prop where
  ours : k.opened = true → k.mode ≠ .none → ∃ n a, k.localN = .snonce c n k.me a ∧ ¬ p.corrupt a
  new : k.opened = false → k.mode = .none
  key : ∀ x, k.sendKey = some x → ∃ r n a, x = .kdf r (.snonce c n k.me a) ∧ ¬ p.corrupt a

/-- The public key of the client is not that of an attacker. -/
def Clean (p : Setup) (k : Conn) : Prop := ∀ a, k.key = some a → ¬ p.corrupt a

theorem held_issue {p : Setup} {c : Nat} {k : Conn} {r : Term} (ho : k.opened = true)
    (hk : ∀ x, k.sendKey = some x → ∃ r n a, x = .kdf r (.snonce c n k.me a) ∧ ¬ p.corrupt a)
    (hup : (issue c k r).1.up = true) (hc : Clean p (issue c k r).1) : Held p c (issue c k r).1 := by
  obtain ⟨me, up, opened, mode, key, cert, plain, tok, pendTok, lastTok, localN, remoteN, sendKey, recvKey, made, acc, asked⟩ := k
  dsimp only at ho hk
  subst ho
  cases mode with
  | none => exact ⟨fun _ h => absurd rfl h, fun h => (by cases h), hk⟩
  | _ =>
    cases plain with
    | true => cases hup
    | false =>
      cases key with
      | none => cases hup
      | some a => exact ⟨fun _ _ => ⟨_, a, rfl, hc a rfl⟩, fun h => (by cases h), hk⟩

theorem held_handle {p : Setup} {c : Nat} {k : Conn} {b : Term} (h : Held p c k)
    (hup : (handle p c k b).1.up = true) (hc : Clean p (handle p c k b).1) : Held p c (handle p c k b).1 := by
  cases b with
  | openReq r m n =>
    unfold handle at hup hc ⊢
    dsimp only at hup hc ⊢
    by_cases ho : k.opened = true
    · rw [if_pos ho] at hup hc ⊢
      by_cases hr : r = true
      · rw [if_pos hr] at hup hc ⊢
        exact held_issue ho h.key hup hc
      · rw [if_neg hr] at hup
        cases hup
    · rw [if_neg ho] at hup hc ⊢
      by_cases hm : m = .none
      · rw [if_pos hm] at hup hc ⊢
        exact held_issue rfl h.key hup hc
      · rw [if_neg hm] at hup hc ⊢
        obtain ⟨me, up, opened, mode, key, cert, plain, tok, pendTok, lastTok, localN, remoteN, sendKey, recvKey, made, acc,
          asked⟩ := k
        cases cert with
        | none => cases hup
        | some a =>
          dsimp only at hup hc ⊢
          by_cases ht : p.trusted a = true
          · rw [if_pos ht] at hup hc ⊢
            exact held_issue rfl h.key hup hc
          · rw [if_neg ht] at hup
            cases hup
  | openResp _ _ _ => cases hup
  | _ =>
    unfold handle at hup hc ⊢
    dsimp only at hup hc ⊢
    split
    · exact ⟨h.ours, h.new, h.key⟩
    · exact ⟨h.ours, h.new, h.key⟩

theorem held_part {p : Setup} {c : Nat} {k : Conn} {final : Bool} {b : Term} (h : Held p c k)
    (hup : (part p c k final b).1.up = true) (hc : Clean p (part p c k final b).1) : Held p c (part p c k final b).1 := by
  unfold part at hup hc ⊢
  dsimp only at hup hc ⊢
  cases final with
  | true =>
    rw [if_pos rfl] at hup hc ⊢
    exact held_handle ⟨h.ours, h.new, h.key⟩ hup hc
  | false => exact ⟨h.ours, h.new, h.key⟩

theorem held_switch {p : Setup} {c : Nat} {k k' : Conn} (h : Held p c k) (hs : switch k = some k') : Held p c k' := by
  unfold switch at hs
  split at hs
  · cases hs
    exact ⟨h.ours, h.new, h.key⟩
  · rename_i hm
    split at hs
    · cases hs
    · cases hs
      refine ⟨h.ours, h.new, ?_⟩
      intro x hx
      cases hx
      cases ho : k.opened with
      | false => exact absurd (h.new ho) hm
      | true =>
        obtain ⟨n, a, h1, h2⟩ := h.ours ho hm
        exact ⟨_, n, a, by rw [h1], h2⟩

theorem held_frame {p : Setup} {c : Nat} {k : Conn} {f : Frame} (h : Held p c k)
    (hup : (frame p c k f).1.up = true) (hc : Clean p (frame p c k f).1) : Held p c (frame p c k f).1 := by
  unfold frame at hup hc ⊢
  by_cases hk : k.up = true
  · rw [if_pos hk] at hup hc ⊢
    cases f with
    | msg final ch t x =>
      dsimp only at hup hc ⊢
      by_cases hch : ch ≠ c + 1
      · rw [if_pos hch] at hup; cases hup
      · rw [if_neg hch] at hup hc ⊢
        cases hs : (if t = k.tok then some k else if t = k.pendTok then switch k else none) with
        | none => rw [hs] at hup; cases hup
        | some k' =>
          rw [hs] at hup hc
          have h' : Held p c k' := by
            split at hs
            · cases hs; exact h
            · split at hs
              · exact held_switch h hs
              · cases hs
          dsimp only at hup hc ⊢
          cases ho : openMsg k'.mode k'.recvKey final ch t x with
          | none => rw [ho] at hup; cases hup
          | some b => rw [ho] at hup hc; exact held_part h' hup hc
    | opn ch cert x =>
      dsimp only at hup hc ⊢
      split at hup
      · cases hup
      · rename_i a ha
        rw [ha] at hup hc ⊢
        dsimp only at hc ⊢
        cases ho : openOpn k.me a ch cert x with
        | none => rw [ho] at hup; cases hup
        | some b => rw [ho] at hup hc; exact held_part ⟨h.ours, h.new, h.key⟩ hup hc
    | plain x => exact held_part ⟨h.ours, h.new, h.key⟩ hup hc
  · rw [if_neg hk] at hup
    exact absurd hup hk

theorem held_reply {p : Setup} {c : Nat} {k : Conn} {m : Nat} (h : Held p c k) : Held p c (reply c k m).1 := by
  unfold reply
  split
  · split
    · exact h
    · exact ⟨h.ours, h.new, h.key⟩
  · exact h

/-- A connection that is up has been up all the time. -/
theorem frame_up {p : Setup} {c : Nat} {k : Conn} {f : Frame} (h : k.up = false) : (frame p c k f).1.up = false := by
  unfold frame
  rw [if_neg (by rw [h]; decide)]
  exact h

theorem reply_up {c : Nat} {k : Conn} {m : Nat} (h : k.up = false) : (reply c k m).1.up = false := by
  unfold reply
  rw [if_neg (by rw [h, Bool.false_and]; decide)]
  exact h

theorem run_snoc (p : Setup) (evs : List Ev) (e : Ev) : run p init (evs ++ [e]) = step p (run p init evs) e := by
  unfold run; rw [List.foldl_append]; rfl

theorem held_run (p : Setup) (evs : List Ev) (c : Nat)
    (hc : ∀ pre, pre <+: evs → ∀ k, (run p init pre).conns c = some k → k.up = true → Clean p k) :
    ∀ k, (run p init evs).conns c = some k → k.up = true → Held p c k := by
  induction evs using snocInd with
  | nil => intro k hk; cases hk
  | append_singleton evs e ih =>
    have ih := ih (fun pre hp => hc pre (hp.trans (List.prefix_append _ _)))
    have hc := hc _ (List.prefix_refl _)
    rw [run_snoc] at hc ⊢
    intro k hk hup
    have hcl := hc k hk hup
    unfold step at hk
    cases e with
    | ask i => exact ih k hk hup
    | send i m => exact ih k hk hup
    | recv i f w => exact ih k hk hup
    | accept d a =>
      dsimp only at hk
      split at hk
      · dsimp only [setConn] at hk
        split at hk
        · cases hk
          exact ⟨fun h => (by cases h), fun _ => rfl, fun _ h => (by cases h)⟩
        · exact ih k hk hup
      · exact ih k hk hup
    | frame d f =>
      dsimp only at hk
      split at hk
      · exact ih k hk hup
      · rename_i k0 h0
        dsimp only [setConn] at hk
        split at hk
        · rename_i hd
          subst hd
          cases hk
          have hk0 : k0.up = true := by
            cases hu : k0.up with
            | true => rfl
            | false => rw [frame_up hu] at hup; cases hup
          exact held_frame (ih k0 h0 hk0) hup hcl
        · exact ih k hk hup
    | reply d m =>
      dsimp only at hk
      split at hk
      · exact ih k hk hup
      · rename_i k0 h0
        dsimp only [setConn] at hk
        split at hk
        · rename_i hd
          subst hd
          cases hk
          have hk0 : k0.up = true := by
            cases hu : k0.up with
            | true => rfl
            | false => rw [reply_up hu] at hup; cases hup
          exact held_reply (ih k0 h0 hk0)
        · exact ih k hk hup

theorem keptFor_snoc {p : Setup} {evs : List Ev} {e : Ev} {m : Nat} (h : KeptFor p (evs ++ [e]) m) : KeptFor p evs m := by
  intro pre c post he
  exact h pre c (post ++ [e]) (by rw [he]; simp)

/-- **C137 (responses, partial).** What a server sends in responses the attacker never gets to know, if whenever it sends them
the connection is an encrypted one and the public key that it has for its client has never been one of the attacker's.
What is missing is the part of the last condition after the channel was opened: a server takes a new public key from any
OPN frame, see `C137_hijacked_fails`. -/
theorem C137_responses_partial (p : Setup) (evs : List Ev) (m : Nat) (hm : KeptFor p evs m) :
    ¬ Knows p (run p init evs).net (.reply m) := by
  let v : View := ⟨fun _ => True, fun a => p.corrupt a, fun _ => True, fun m' => m' ≠ m⟩
  have main : ∀ x ∈ (run p init evs).net, Good p v x := by
    induction evs using snocInd with
    | nil => intro x hx; cases hx
    | append_singleton evs e ih =>
      have ih := ih (keptFor_snoc hm)
      rw [run_snoc]
      intro x hx
      unfold step at hx
      cases e with
      | ask i =>
        rcases List.mem_append.1 hx with hx | hx
        · exact ih x hx
        · exact good_ask i _ (fun _ => trivial) x hx
      | send i m' =>
        rcases List.mem_append.1 hx with hx | hx
        · exact ih x hx
        · exact good_send (fed_run p evs i) m' (.inl trivial) x hx
      | recv i f w =>
        rcases List.mem_append.1 hx with hx | hx
        · exact ih x hx
        · cases hx
      | accept c a =>
        dsimp only at hx
        split at hx
        · rcases List.mem_append.1 hx with hx | hx
          · exact ih x hx
          · cases hx
        · exact ih x hx
      | frame c f =>
        dsimp only at hx
        split at hx
        · exact ih x hx
        · rcases List.mem_append.1 hx with hx | hx
          · exact ih x hx
          · exact good_frame (fun _ h => h) _ _ _ x hx
      | reply c m' =>
        dsimp only at hx
        split at hx
        · exact ih x hx
        · rename_i k hk
          rcases List.mem_append.1 hx with hx | hx
          · exact ih x hx
          · refine good_reply _ _ _ ?_ x hx
            by_cases e : m' = m
            · subst e
              obtain ⟨h1, h2⟩ := hm evs c [] rfl
              refine .inr ⟨h1 k hk, fun key hup hkey hg => ?_⟩
              obtain ⟨r, n, a, rfl, ha⟩ := (held_run p evs c (fun pre hp k hk hu a ha => h2 pre hp k a hk hu ha) k hk hup).key key hkey
              exact ha hg.2
            · exact .inl e
  intro hk
  exact good_of_knows main hk rfl

/-! ### An honest run, and one that is not -/

/-- `Possible`, event by event. -/
def possibleFrom (p : Setup) : State → List Ev → Prop
  | _, [] => True
  | s, e :: es =>
    (match e with
      | .recv _ f _ => Knows p s.net f.payload
      | .frame _ f => Knows p s.net f.payload
      | _ => True) ∧ possibleFrom p (step p s e) es

theorem possible_of {p : Setup} {evs : List Ev} (h : possibleFrom p init evs) : Possible p evs := by
  have main : ∀ (evs : List Ev) (s : State), possibleFrom p s evs → ∀ pre e post, evs = pre ++ e :: post →
      match e with
      | .recv _ f _ => Knows p (run p s pre).net f.payload
      | .frame _ f => Knows p (run p s pre).net f.payload
      | _ => True := by
    intro evs
    induction evs with
    | nil => intro s _ pre e post he; cases pre <;> cases he
    | cons a es ih =>
      intro s hs pre e post he
      cases pre with
      | nil => cases he; exact hs.1
      | cons b pre => cases he; exact ih _ hs.2 pre e post rfl
  exact main evs init h

/-- A client (1) and a server (2) that keep their keys to themselves, and an attacker with a key (3), whom the server does
not trust. -/
def exSetup : Setup := { cfg := fun _ => ⟨1, 2, .signAndEncrypt⟩, corrupt := fun a => a = 3, trusted := fun a => a == 1 }

def exKey : Term := .kdf (.snonce 0 0 2 1) (.cnonce 0 0)

def exKey' : Term := .kdf (.cnonce 0 0) (.snonce 0 0 2 1)

/-- The client opens a channel, sends a request, gets a response. -/
def exHonest : List Ev :=
  [.ask 0, .accept 0 2, .frame 0 (sealOpn 1 2 0 (.openReq false .signAndEncrypt (.cnonce 0 0))),
    .recv 0 (sealOpn 2 1 1 (.openResp 1 1 (.snonce 0 0 2 1))) 0, .send 0 7,
    .frame 0 (.msg true 1 1 (.senc exKey (.mac exKey (.pair (msgHeader true 1 1) (.secret 7))))), .reply 0 8,
    .recv 0 (.msg true 1 1 (.senc exKey' (.mac exKey' (.pair (msgHeader true 1 1) (.reply 8))))) 0]

example : Possible exSetup exHonest ∧ ((run exSetup init exHonest).conns 0).map (·.asked) = some [.secret 7] ∧
    ((run exSetup init exHonest).clients 0).got = [.reply 8] := by
  refine ⟨possible_of ?_, by decide +kernel, by decide +kernel⟩
  exact ⟨trivial, trivial, .seen (by decide +kernel), .seen (by decide +kernel), trivial, .seen (by decide +kernel), trivial,
    .seen (by decide +kernel), trivial⟩

/-- And the attacker gets to know neither. -/
example : ¬ Knows exSetup (run exSetup init exHonest).net (.secret 7) :=
  C137_requests _ _ _ (fun _ _ => ⟨rfl, by show ¬ (2 : Nat) = 3; decide⟩)

example : KeptFor exSetup exHonest 8 := by
  intro pre c post he
  have hp : pre = exHonest.take pre.length := by rw [he, List.take_left']; rfl
  have hn : exHonest[pre.length]? = some (.reply c 8) := by rw [he, List.getElem?_append_right (Nat.le_refl _)]; simp
  have h6 : ∀ n, exHonest[n]? = some (.reply c 8) → n = 6 ∧ c = 0 := by
    intro n
    match n with
    | 0 | 1 | 2 | 3 | 4 | 5 | 7 => intro h; cases h
    | 6 => intro h; cases h; exact ⟨rfl, rfl⟩
    | n + 8 => intro h; cases h
  obtain ⟨h7, rfl⟩ := h6 _ hn
  rw [h7] at hp
  subst hp
  have key : ∀ j < 7, ((run exSetup init (exHonest.take j)).conns 0).bind (·.key) ≠ some 3 := by decide +kernel
  have mode : ((run exSetup init (exHonest.take 6)).conns 0).map (·.mode) = some .signAndEncrypt := by decide +kernel
  refine ⟨?_, ?_⟩
  · intro k hk
    rw [hk] at mode
    exact Option.some.inj mode
  · intro pre' hp' k a hk _ ha
    rw [List.prefix_iff_eq_take] at hp'
    have hle : pre'.length ≤ 6 := by
      have := congrArg List.length hp'
      simp only [List.length_take] at this
      omega
    have h := key pre'.length (by omega)
    have : pre' = exHonest.take pre'.length := by
      rw [List.take_take, Nat.min_eq_left hle] at hp'
      exact hp'
    rw [← this, hk] at h
    intro e
    have e : a = 3 := e
    subst e
    exact h ha

/-- What the attacker sends: a renewal signed with its own key, and a chunk with the key made from its own nonce. -/
def exAttack : List Ev :=
  let k := Term.kdf (.snonce 0 1 2 3) .nil
  [.frame 0 (sealOpn 3 2 0 (.openReq true .signAndEncrypt .nil)),
    .frame 0 (.msg true 1 2 (.senc k (.mac k (.pair (msgHeader true 1 2) (.num 0))))), .reply 0 9]

/-- **C137 fails (responses).** On an encrypted channel between a client and a server whose keys the attacker does not have, which
client and server opened and used with success, and though the server does not trust the certificate of the attacker, the
attacker gets to know what the server sends: it injects a renewal that is signed with its own key, gets the nonce of the
server encrypted for itself, and uses the new token once. Notifications go to whoever did this. -/
theorem C137_hijacked_fails :
    ∃ (p : Setup) (before attack : List Ev) (m : Nat), Possible p (before ++ attack) ∧
      (∀ i, Private p i ∧ ¬ p.corrupt (p.cfg i).me) ∧ (∀ a, p.trusted a = true → ¬ p.corrupt a) ∧
      (∀ e ∈ attack, (∃ f, e = .frame 0 f) ∨ e = .reply 0 m) ∧
      ((run p init before).conns 0).map (·.asked) = some [.secret 7] ∧
      ((run p init (before ++ attack)).conns 0).map (fun k => (k.up, k.mode)) = some (true, .signAndEncrypt) ∧
      Knows p (run p init (before ++ attack)).net (.reply m) := by
  refine ⟨exSetup, exHonest, exAttack, 9, possible_of ?_, ?_, ?_, ?_, by decide +kernel, by decide +kernel, ?_⟩
  · have h3 : ∀ net, Knows exSetup net (.priv 3) := fun net => .priv rfl
    have hn : ∀ net, (sealOpn 2 3 1 (.openResp 1 2 (.snonce 0 1 2 3))).payload ∈ net → Knows exSetup net (.snonce 0 1 2 3) := by
      intro net h
      exact .answered (.snd (.signed (.adec (.seen h) (h3 _))))
    refine ⟨trivial, trivial, .seen (by decide +kernel), .seen (by decide +kernel), trivial, .seen (by decide +kernel), trivial,
      .seen (by decide +kernel), ?_, ?_, trivial, trivial⟩
    · exact .aenc (.sig (.pair (.pair (.num _) (.num _)) (.openReq .nil)) (h3 _))
    · refine .senc (.mac (.pair (.pair (.num _) (.pair (.num _) (.num _))) (.num _)) ?_) ?_
      · exact .kdf (hn _ (by decide +kernel)) .nil
      · exact .kdf (hn _ (by decide +kernel)) .nil
  · exact fun i => ⟨⟨rfl, by show ¬ (2 : Nat) = 3; decide⟩, by show ¬ (1 : Nat) = 3; decide⟩
  · intro a h e
    have e : a = 3 := e
    subst e
    cases h
  · intro e he
    unfold exAttack at he
    simp only [List.mem_cons, List.not_mem_nil, or_false] at he
    rcases he with rfl | rfl | rfl
    · exact .inl ⟨_, rfl⟩
    · exact .inl ⟨_, rfl⟩
    · exact .inr rfl
  · have hn : Knows exSetup (run exSetup init (exHonest ++ exAttack)).net (.snonce 0 1 2 3) :=
      .answered (c := 1) (t := 2) (.snd (x := opnHeader 1 (some 2)) (.signed (a := 2) (.adec (a := 3) (.seen (by decide +kernel))
        (.priv rfl))))
    exact .snd (x := msgHeader true 1 2) (.maced (k := .kdf .nil (.snonce 0 1 2 3)) (.sdec (k := .kdf .nil (.snonce 0 1 2 3))
      (.seen (by decide +kernel)) (.kdf .nil hn)))

end Opcua.Secrecy
