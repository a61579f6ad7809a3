import Verif.Model.Authority
import Verif.Props.OpenChannel
import Verif.Props.Session
import Verif.Props.Access
import Verif.Lemmas.Lists

/-!
# C130: who can make a server do something

`Spec` says what it means that a chunk was made with the key of a channel, that a message arrived, that a user logged in,
and what a Write or a Call may change. Nothing in it mentions how the server reads frames, finds sessions or checks roles.
-/

namespace Opcua.Authority

open Opcua.Channel
open Opcua.AddressSpace (Id)
open Opcua.Access (Identity Written May)

namespace Spec

/-- The frame begins with "OPNF". -/
def IsOpen (f : Bytes) : Prop := f.take 4 = [0x4F, 0x50, 0x4E, 0x46]

/-- The frame as it was before encryption. -/
def plain (S : Suite) (mode : Mode) (key f : Bytes) : Bytes :=
  match mode with
  | .signAndEncrypt => f.take 16 ++ S.dec key (f.drop 16)
  | _ => f

/-- The frame ends with a MAC under the key. -/
def Sealed (S : Suite) (mode : Mode) (key f : Bytes) : Prop := ∃ x, plain S mode key f = x ++ S.mac key x

/-- The part is what stands in the frame after the headers of 24 bytes. -/
def Carries (S : Suite) (mode : Mode) (key f body : Bytes) : Prop :=
  ∃ pre post, plain S mode key f = pre ++ (body ++ post) ∧ pre.length = 24

/-- A chunk of connection `c`: it is a frame that arrived there; and on a secured channel, unless it is an OPN frame, it
is sealed with the key of the channel and the part is its content. -/
def Genuine (W : World) (evs : List Ev) (c : Nat) (q : Part) : Prop :=
  (∃ t sid nonce, Ev.frame c q.frame t sid nonce ∈ evs) ∧
  (q.ch.chan.mode ≠ .none → ¬ IsOpen q.frame → ∃ key, q.ch.chan.recvKey = some key ∧
    Sealed (W.sym q.ch.keyPolicy) q.ch.chan.mode key q.frame ∧
    Carries (W.sym q.ch.keyPolicy) q.ch.chan.mode key q.frame q.body)

/-- The owner of a channel: whoever has the key of the certificate, unless the policy is None. -/
def owner (ch : SChan) : Option Nat := if ch.policy = .none then none else ch.remoteKey

/-- The message consists of such chunks and says what it says; the owner is that of the channel at its end. -/
def Received (p : Setup) (evs : List Ev) (d : Delivered) : Prop :=
  p.decode (d.parts.flatMap (·.body)) = some d.request ∧ (∀ q ∈ d.parts, Genuine p.W evs d.chan q) ∧
    ∃ q, d.parts.getLast? = some q ∧ d.key = owner q.ch

/-- The message is an ActivateSession with credentials of user `u`, signed by the owner of the channel if it has one. -/
def LoggedIn (p : Setup) (d : Delivered) (t u : Nat) : Prop :=
  ∃ sb cred, d.request = .activate t sb cred ∧ p.login cred = some u ∧ ∀ k, d.key = some k → sb = some k

/-- The request is a Write that the user may do, and it is all that was done. -/
def Wrote (p : Setup) (u t : Nat) (r : Request) (e e' : Effects) : Prop :=
  ∃ id a w n level v hz, r = .write t id a w ∧ e.server.nodes id = some n ∧ n.kind = .var level v hz ∧
    May e.server (p.identity u) n 0 ∧
    ((a = 13 ∧ level.testBit 1 = true ∧ May e.server (p.identity u) n 6 ∧
        ∃ v', w = .number v' ∧ e'.server.nodes id = some { n with kind := .var level v' hz }) ∨
     (a = 20 ∧ May e.server (p.identity u) n 4 ∧
        ∃ b, w = .bool b ∧ e'.server.nodes id = some { n with kind := .var level v b })) ∧
    (∀ i, i ≠ id → e'.server.nodes i = e.server.nodes i) ∧ e'.server.perms = e.server.perms ∧
    e'.server.rules = e.server.rules ∧ e'.ran = e.ran

/-- The request is a Call that the user may do, and it is all that was done. -/
def Called (p : Setup) (u t : Nat) (r : Request) (e e' : Effects) : Prop :=
  ∃ o m, r = .call t o m ∧ Access.Spec.MayCall e.server (p.identity u) o m ∧ e'.ran = e.ran ++ [(u, o, m)] ∧
    e'.server = e.server

end Spec

open Spec

/-! ### Frames -/

theorem isOpen_of {f : Bytes} (h : u32At f 0 = some tyOpen) : IsOpen f := by
  unfold u32At at h
  split at h
  · rename_i hl
    simp only [List.drop_zero, Option.some.injEq] at h
    have h1 : (f.take 4).length = 4 := by rw [List.length_take]; omega
    have h2 : leVal (f.take 4) < 2 ^ 32 := by
      have := leVal_lt (f.take 4)
      rw [h1] at this
      simpa using this
    have h3 : leVal (f.take 4) = 0x464E504F := by
      have := congrArg BitVec.toNat h
      rw [BitVec.toNat_ofNat, Nat.mod_eq_of_lt h2] at this
      rw [this]
      rfl
    have h4 := leBytes_leVal (f.take 4)
    rw [h1, h3] at h4
    exact h4.symm
  · cases h

theorem recv_genuine {W : World} {ch ch' : SChan} {f : Bytes} {g : Frag} (h : recvFrame W ch f = .ok (ch', g)) :
    ch'.chan.mode = ch.chan.mode ∧
    (¬ IsOpen f → ch'.policy = ch.policy ∧ ch'.chan.mode = ch.chan.mode ∧
      ((ch'.chan.recvKey = ch.chan.recvKey ∧ ch'.keyPolicy = ch.keyPolicy) ∨
        ((ch.chan.mode ≠ .none → ch'.chan.recvKey = some (W.kdf ch.policy ch.chan.localNonce ch.chan.remoteNonce)) ∧
          ch'.keyPolicy = ch.policy)) ∧
      (ch.chan.mode ≠ .none → ∃ key, ch'.chan.recvKey = some key ∧ Sealed (W.sym ch'.keyPolicy) ch'.chan.mode key f ∧
        Carries (W.sym ch'.keyPolicy) ch'.chan.mode key f g.body)) := by
  unfold recvFrame at h
  split at h
  · rename_i ty len e0 e4
    by_cases ht : ty = tyOpen
    · rw [if_pos ht] at h
      subst ht
      refine ⟨?_, fun hno => absurd (isOpen_of e0) hno⟩
      split at h
      · cases h
      · have key : ∀ pol cert k hdr, openOpnKey W ch pol cert k hdr f = .ok (ch', g) → ch'.chan.mode = ch.chan.mode := by
          intro pol cert k hdr h
          unfold openOpnKey at h
          split at h
          · cases h
          · dsimp only at h
            split at h
            · cases h
            · split at h
              · split at h
                · cases h
                · cases h
                · cases h; rfl
              · cases h
        unfold openOpn at h
        split at h
        · cases h
        · cases h
        · dsimp only at h
          split at h
          · cases h
          · split at h
            · split at h
              · cases h; rfl
              · cases h
            · unfold openOpnSecured at h
              split at h
              · cases h
              · split at h
                · cases h
                · exact key _ _ _ _ h
                · split at h
                  · cases h
                  · exact key _ _ _ _ h
    · rw [if_neg ht] at h
      · obtain ⟨c, e, hch, hno⟩ := recvSym_ok h
        obtain ⟨ty', len', _, _, _, _, e'⟩ := openFrame_ok_iff.1 e
        obtain ⟨tok, data, h8, h12, hsw, hdec, hver, hfr⟩ := openSym_ok_iff.1 e'
        have hm := (switchToken_same hsw).2.2.2
        have hcc : ch'.chan = c := by rw [hch]
        rw [hcc]
        have hpp : ch'.policy = ch.policy := by rw [hch]
        refine ⟨hm, fun _ => ⟨hpp, hm, ?_, fun hsec => ?_⟩⟩
        · have hkp : ch'.keyPolicy = if changesToken ch.chan f then ch.policy else ch.keyPolicy := by rw [hch]
          unfold switchToken at hsw
          split at hsw
          · rename_i ht
            cases hsw
            refine .inl ⟨rfl, ?_⟩
            rw [hkp, if_neg]
            unfold changesToken
            rw [h12]
            simp only [Bool.and_eq_true, decide_eq_true_eq, Option.some.injEq]
            rintro ⟨⟨_, h1⟩, h2⟩
            exact h2 (ht ▸ h1)
          · rename_i ht
            split at hsw
            · cases hsw
            · rename_i hp
              have hct : changesToken ch.chan f = true := by
                unfold changesToken
                rw [h8, h12]
                have hp : tok = ch.chan.pendingTokenID := Classical.not_not.1 hp
                have ht' : ch.chan.tokenID ≠ ch.chan.pendingTokenID := fun e => ht (e.trans hp.symm)
                simp [hp, ht']
              refine .inr ⟨fun hsec => ?_, by rw [hkp, if_pos hct]⟩
              split at hsw
              · cases hsw; rfl
              · rename_i hs
                exact absurd (by cases hmm : ch.chan.mode <;> simp_all [Mode.secured]) hs
        · obtain ⟨key, data', k1, k2, k3, k4⟩ := C25_authentic (W.kdf ch.policy) ch.chan c f g hsec e
          have hd : data' = data := by
            rw [← hm, hdec] at k2
            cases k2; rfl
          subst hd
          have hpl : plain (W.sym ch'.keyPolicy) c.mode key f = data' := by
            rw [k1] at hdec
            unfold decryptFrame at hdec
            unfold plain
            cases hmode : c.mode with
            | none => rw [hmode] at hdec; cases hdec; rfl
            | sign => rw [hmode] at hdec; cases hdec; rfl
            | signAndEncrypt =>
              rw [hmode] at hdec
              dsimp only at hdec ⊢
              split at hdec
              · cases hdec
              · cases hdec; rfl
          refine ⟨key, k1, ⟨data'.take (data'.length - (W.sym ch.policy).sigSize), ?_⟩, ?_⟩
          · show plain (W.sym ch'.keyPolicy) c.mode key f = _
            have k4' : (W.sym ch'.keyPolicy).mac key (data'.take (data'.length - (W.sym ch.policy).sigSize)) =
                data'.drop (data'.length - (W.sym ch.policy).sigSize) := k4
            rw [k4', List.take_append_drop]
            exact hpl
          · show Carries (W.sym ch'.keyPolicy) c.mode key f g.body
            unfold fragOf at hfr
            split at hfr
            · split at hfr
              · rename_i b hb
                cases hfr
                have : ∃ n, b = (data'.drop 24).take n ∧ 24 ≤ data'.length := by
                  unfold bodyOf at hb
                  dsimp only at hb
                  split at hb
                  · split at hb
                    · cases hb
                    · split at hb
                      · cases hb
                      · cases hb; exact ⟨_, rfl, by omega⟩
                  · split at hb
                    · cases hb
                    · cases hb; exact ⟨_, rfl, by omega⟩
                obtain ⟨n, rfl, hl⟩ := this
                refine ⟨data'.take 24, (data'.drop 24).drop n, ?_, ?_⟩
                · rw [hpl]
                  show data' = _ ++ ((data'.drop 24).take n ++ _)
                  rw [List.take_append_drop, List.take_append_drop]
                · rw [List.length_take]; omega
              · cases hfr
              · cases hfr
            · cases hfr
  · cases h

/-! ### Sessions -/

/-- Every session that is bound to a channel was activated there. -/
def Bound (p : Setup) (log : List Delivered) (table : List (Nat × Session.Sess)) : Prop :=
  ∀ t x, Session.find table t = some x → x.chan ≠ 0 → ∃ d ∈ log, d.chan = x.chan ∧ LoggedIn p d t x.user

theorem bound_step {p : Setup} {log : List Delivered} (s : Session.State Effects) (hk : Session.Keys s.table)
    (hb : Bound p log s.table) (e : Session.Ev Effects)
    (ha : ∀ t ch sb u, e = .activate t ch sb true u → Session.signatureOk ch sb = true →
      ∃ d ∈ log, d.chan = ch.id ∧ LoggedIn p d t u) : Bound p log (Session.step s e).1.table := by
  intro t x hx hc
  rcases Session.origin s hk e t x hx with ⟨y, hy, h1, h2, _⟩ | ⟨_, _, _, _, _, rfl⟩ | ⟨ch, sb, u, y, he, hs, _, _, _, rfl⟩
  · obtain ⟨d, hd, h3, h4⟩ := hb t y hy (h1 ▸ hc)
    exact ⟨d, hd, h3.trans h1, h2 ▸ h4⟩
  · exact absurd rfl hc
  · exact ha t ch sb u he hs

theorem service_table (s : Session.State Effects) (t : Nat) (ch : Session.Channel) (f : Nat → Effects → Effects) :
    (service s t ch f).table = (Session.step s (.service t ch (fun _ w => w))).1.table := by
  unfold service
  simp only [Session.step]
  cases hg : Session.gate s t ch with
  | mk s' r => cases r <;> rfl

theorem service_effect (s : Session.State Effects) (t : Nat) (ch : Session.Channel) (f : Nat → Effects → Effects)
    (h : (service s t ch f).world ≠ s.world) :
    ∃ x, Session.find s.table t = some x ∧ x.chan = ch.id ∧ x.chan ≠ 0 ∧ (service s t ch f).world = f x.user s.world := by
  unfold service at h ⊢
  unfold Session.gate at h ⊢
  cases hg : Session.get s t with
  | none => rw [hg] at h; exact absurd rfl h
  | some q =>
    obtain ⟨x, s'⟩ := q
    obtain ⟨y, hy, _, hx, hs'⟩ := Session.get_some hg
    rw [hg] at h
    dsimp only at h ⊢
    by_cases h1 : x.chan = 0
    · rw [if_pos h1] at h
      exact absurd (by rw [hs']; rfl) h
    · rw [if_neg h1] at h ⊢
      by_cases h2 : x.chan ≠ ch.id
      · rw [if_pos h2] at h
        exact absurd (by rw [hs']) h
      · rw [if_neg h2] at h ⊢
        refine ⟨y, hy, ?_, ?_, ?_⟩
        · have : x.chan = y.chan := by rw [hx]
          rw [← this]; exact Classical.byContradiction h2
        · have : x.chan = y.chan := by rw [hx]
          rw [← this]; exact h1
        · have : x.user = y.user := by rw [hx]
          dsimp only
          rw [this, hs']

/-! ### The whole server -/

structure Inv (p : Setup) (evs : List Ev) (s : State) : Prop where
  conns : ∀ c k, s.chans c = some k → k.acc = k.parts.flatMap (·.body) ∧ ∀ q ∈ k.parts, Genuine p.W evs c q
  log : ∀ d ∈ s.log, Received p evs d
  keys : Session.Keys s.sess.table
  bound : Bound p s.log s.sess.table

theorem Genuine.mono {W : World} {evs : List Ev} {c : Nat} {q : Part} (e : Ev) (h : Genuine W evs c q) :
    Genuine W (evs ++ [e]) c q := by
  obtain ⟨⟨t, sid, n, hm⟩, h2⟩ := h
  exact ⟨⟨t, sid, n, List.mem_append_left _ hm⟩, h2⟩

theorem Received.mono {p : Setup} {evs : List Ev} {d : Delivered} (e : Ev) (h : Received p evs d) : Received p (evs ++ [e]) d :=
  ⟨h.1, fun q hq => Genuine.mono e (h.2.1 q hq), h.2.2⟩

theorem Inv.mono {p : Setup} {evs : List Ev} {s : State} (e : Ev) (h : Inv p evs s) : Inv p (evs ++ [e]) s :=
  ⟨fun c k hk => ⟨(h.conns c k hk).1, fun q hq => Genuine.mono e ((h.conns c k hk).2 q hq)⟩,
    fun d hd => Received.mono e (h.log d hd), h.keys, h.bound⟩

theorem Inv.setConn {p : Setup} {evs : List Ev} {s : State} (h : Inv p evs s) (c : Nat) (k : Option Conn)
    (hk : ∀ k', k = some k' → k'.acc = k'.parts.flatMap (·.body) ∧ ∀ q ∈ k'.parts, Genuine p.W evs c q) :
    Inv p evs (setConn s c k) := by
  refine ⟨fun i k' hi => ?_, h.log, h.keys, h.bound⟩
  simp only [Authority.setConn] at hi
  split at hi
  · rename_i e; subst e; exact hk k' hi
  · exact h.conns i k' hi

theorem Inv.sess {p : Setup} {evs : List Ev} {s : State} (h : Inv p evs s) (e : Session.Ev Effects)
    (ha : ∀ t ch sb u, e = .activate t ch sb true u → Session.signatureOk ch sb = true →
      ∃ d ∈ s.log, d.chan = ch.id ∧ LoggedIn p d t u) : Inv p evs { s with sess := (Session.step s.sess e).1 } :=
  ⟨h.conns, h.log, Session.keys_step _ h.keys _, bound_step _ h.keys h.bound e ha⟩

theorem Inv.service {p : Setup} {evs : List Ev} {s : State} (h : Inv p evs s) (t : Nat) (ch : Session.Channel)
    (f : Nat → Effects → Effects) : Inv p evs { s with sess := service s.sess t ch f } := by
  refine ⟨h.conns, h.log, ?_, ?_⟩
  · show Session.Keys (Authority.service s.sess t ch f).table
    rw [service_table]; exact Session.keys_step _ h.keys _
  · show Bound p s.log (Authority.service s.sess t ch f).table
    rw [service_table]
    exact bound_step _ h.keys h.bound _ (by intro _ _ _ _ e; cases e)

/-- The message and the connection after its last chunk. -/
theorem inv_handle {p : Setup} {evs : List Ev} {s : State} (h : Inv p evs s) (c : Nat) (ch : SChan) (tok sid : Nat)
    (nonce : Bytes) (r : Request)
    (hact : ∀ t sb cred, r = .activate t sb cred → ∃ d ∈ s.log, d.chan = c ∧ d.request = r ∧ d.key = keyOf ch) :
    Inv p evs (handle p s c { ch := ch } tok sid nonce r) := by
  cases r with
  | create timeout client => exact h.sess _ (by intro _ _ _ _ e; cases e)
  | activate t sb cred =>
    refine h.sess _ ?_
    intro t' ch' sb' u e hs
    injection e with e1 e2 e3 e4 e5
    subst e1; subst e2; subst e3
    obtain ⟨d, hd, h1, h2, h3⟩ := hact t sb cred rfl
    refine ⟨d, hd, h1, sb, cred, h2, ?_, ?_⟩
    · cases hl : p.login cred with
      | none => rw [hl] at e4; cases e4
      | some u' => rw [hl] at e5; rw [← e5]; rfl
    · intro k hk
      rw [h3] at hk
      unfold Session.signatureOk at hs
      rw [hk] at hs
      simpa using hs
  | closeSession t => exact h.sess _ (by intro _ _ _ _ e; cases e)
  | write t id a w => exact h.service _ _ _
  | call t o m => exact h.service _ _ _
  | renew remote =>
    unfold handle
    dsimp only
    split
    · exact h.setConn c _ (by intro k' e; cases e)
    · exact h.setConn c _ (by intro k' e; cases e; exact ⟨rfl, by intro q hq; cases hq⟩)
  | closeChannel => exact h.setConn c _ (by intro k' e; cases e)
  | other => exact h

theorem inv_frame {p : Setup} {evs : List Ev} {s : State} (h : Inv p evs s) (c : Nat) (f : Bytes) (tok sid : Nat)
    (nonce : Bytes) : Inv p (evs ++ [.frame c f tok sid nonce]) (frame p s c f tok sid nonce) := by
  have h' := h.mono (.frame c f tok sid nonce)
  unfold frame
  cases hc : s.chans c with
  | none => exact h'
  | some k =>
    dsimp only
    cases hr : recvFrame p.W k.ch f with
    | panic => exact ⟨h'.conns, h'.log, h'.keys, h'.bound⟩
    | err st => exact h'.setConn c none (by intro k' e; cases e)
    | ok r =>
      obtain ⟨ch, g⟩ := r
      dsimp only
      obtain ⟨hm, hg⟩ := recv_genuine hr
      have hq : Genuine p.W (evs ++ [.frame c f tok sid nonce]) c ⟨ch, f, g.body⟩ := by
        refine ⟨⟨tok, sid, nonce, by simp⟩, fun hsec hno => ?_⟩
        exact (hg hno).2.2.2 (hm ▸ hsec)
      obtain ⟨ha, hp⟩ := h'.conns c k hc
      have hparts : ∀ q ∈ k.parts ++ [⟨ch, f, g.body⟩], Genuine p.W (evs ++ [.frame c f tok sid nonce]) c q := by
        intro q hq'
        rcases List.mem_append.1 hq' with hq' | hq'
        · exact hp q hq'
        · rw [List.mem_singleton.1 hq']; exact hq
      have hacc : k.acc ++ g.body = (k.parts ++ [(⟨ch, f, g.body⟩ : Part)]).flatMap (·.body) := by
        rw [List.flatMap_append, ← ha]; simp
      split
      · cases hd : p.decode (k.acc ++ g.body) with
        | none => exact h'.setConn c none (by intro k' e; cases e)
        | some r =>
          dsimp only
          have h1 := h'.setConn c (some { ch := ch }) (by intro k' e; cases e; exact ⟨rfl, by intro q hq; cases hq⟩)
          refine inv_handle ?_ c ch tok sid nonce r ?_
          · refine ⟨h1.conns, ?_, h1.keys, ?_⟩
            · intro d hd'
              rcases List.mem_append.1 hd' with hd' | hd'
              · exact h1.log d hd'
              · rw [List.mem_singleton.1 hd']
                exact ⟨by rw [← hacc]; exact hd, hparts, _, List.getLast?_concat, rfl⟩
            · intro t x hx hx0
              obtain ⟨d, hd', h2⟩ := h1.bound t x hx hx0
              exact ⟨d, List.mem_append_left _ hd', h2⟩
          · intro t sb cred _
            exact ⟨_, List.mem_append_right _ (List.mem_singleton_self _), rfl, rfl, rfl⟩
      · refine h'.setConn c _ ?_
        intro k' e
        cases e
        exact ⟨hacc, hparts⟩

theorem inv_run (p : Setup) (max : Nat) (srv : Access.Server) (evs : List Ev) : Inv p evs (run p (init max srv) evs) := by
  induction evs using snocInd with
  | nil =>
    refine ⟨fun c k h => ?_, fun d h => ?_, ?_, fun t x h => ?_⟩
    · cases h
    · cases h
    · exact List.nodup_nil
    · cases h
  | append_singleton evs e ih =>
    have : run p (init max srv) (evs ++ [e]) = step p (run p (init max srv) evs) e := by simp [run, List.foldl_append]
    rw [this]
    unfold step
    split
    · exact ih.mono e
    · cases e with
      | opened ch =>
        have := (ih.mono (.opened ch)).setConn ((run p (init max srv) evs).last + 1) (some { ch := ch })
          (by intro k' e; cases e; exact ⟨rfl, by intro q hq; cases hq⟩)
        exact ⟨this.conns, this.log, this.keys, this.bound⟩
      | frame c f tok sid nonce => exact inv_frame ih c f tok sid nonce
      | tick d => exact (ih.mono _).sess (.tick d) (by intro _ _ _ _ e; cases e)
      | sweep => exact (ih.mono _).sess .sweep (by intro _ _ _ _ e; cases e)

theorem handle_last (p : Setup) (s : State) (c : Nat) (k : Conn) (tok sid : Nat) (nonce : Bytes) (r : Request) (h : c ≤ s.last)
    (hs : ∀ i, s.last < i → s.chans i = none) :
    ∀ i, (handle p s c k tok sid nonce r).last < i → (handle p s c k tok sid nonce r).chans i = none := by
  have hset : ∀ k, ∀ i, s.last < i → (setConn s c k).chans i = none := by
    intro k i hi
    simp only [setConn]; rw [if_neg (by omega)]; exact hs i hi
  cases r with
  | renew =>
    unfold handle
    dsimp only
    split
    · exact hset _
    · exact hset _
  | closeChannel => exact hset _
  | _ => exact hs

/-- No id above the last has been given to a channel. -/
theorem above_run (p : Setup) (max : Nat) (srv : Access.Server) (evs : List Ev) :
    ∀ i, (run p (init max srv) evs).last < i → (run p (init max srv) evs).chans i = none := by
  induction evs using snocInd with
  | nil => intro i _; rfl
  | append_singleton evs e ih =>
    have : run p (init max srv) (evs ++ [e]) = step p (run p (init max srv) evs) e := by simp [run, List.foldl_append]
    rw [this]
    generalize run p (init max srv) evs = s at *
    have hset : ∀ c k, c ≤ s.last → ∀ i, s.last < i → (setConn s c k).chans i = none := by
      intro c k hc i hi
      simp only [setConn]; rw [if_neg (by omega)]; exact ih i hi
    unfold step
    split
    · exact ih
    · cases e with
      | opened ch =>
        intro i hi
        have hi : s.last + 1 < i := hi
        simp only [setConn]; rw [if_neg (by omega)]; exact ih i (by omega)
      | tick d => exact ih
      | sweep => exact ih
      | frame c f tok sid nonce =>
        dsimp only
        unfold frame
        cases hc : s.chans c with
        | none => exact ih
        | some k =>
          have hcl : c ≤ s.last := Nat.le_of_not_lt (fun h => by rw [ih c h] at hc; cases hc)
          dsimp only
          split
          · exact ih
          · exact hset c _ hcl
          · split
            · split
              · exact hset c _ hcl
              · rename_i r _
                refine handle_last p _ c _ tok sid nonce r ?_ ?_
                · exact hcl
                · exact hset c _ hcl
            · exact hset c _ hcl

/-- **C130 (apart).** A new channel gets an id that no open channel has: opening it changes none of them. -/
theorem C130_apart (p : Setup) (max : Nat) (srv : Access.Server) (evs : List Ev) (ch : SChan) (c : Nat) (k : Conn)
    (h : (run p (init max srv) evs).chans c = some k) :
    (run p (init max srv) (evs ++ [.opened ch])).chans c = some k := by
  have hr : run p (init max srv) (evs ++ [.opened ch]) = step p (run p (init max srv) evs) (.opened ch) := by simp [run, List.foldl_append]
  rw [hr]
  have ha := above_run p max srv evs
  generalize run p (init max srv) evs = s at *
  unfold step
  split
  · exact h
  · have : c ≠ s.last + 1 := by
      intro e
      rw [ha c (by omega)] at h; cases h
    simp only [setConn]; rw [if_neg this]; exact h

/-- What changes something: a Write or a Call that has arrived as a whole. -/
theorem frame_effect {p : Setup} {s : State} {c : Nat} {f : Bytes} {tok sid : Nat} {nonce : Bytes}
    (h : (frame p s c f tok sid nonce).sess.world ≠ s.sess.world) :
    ∃ (k : Conn) (ch : SChan) (g : Frag) (t : Nat) (r : Request) (F : Nat → Effects → Effects), s.chans c = some k ∧
      recvFrame p.W k.ch f = .ok (ch, g) ∧
      (frame p s c f tok sid nonce).log = s.log ++ [⟨c, k.parts ++ [⟨ch, f, g.body⟩], keyOf ch, r⟩] ∧
      (frame p s c f tok sid nonce).sess = service s.sess t ⟨c, keyOf ch⟩ F ∧
      ((∃ id a w, r = .write t id a w ∧ F = fun u => write p u id a w) ∨ (∃ o m, r = .call t o m ∧ F = fun u => call p u o m)) := by
  unfold frame at h ⊢
  cases hc : s.chans c with
  | none => rw [hc] at h; exact absurd rfl h
  | some k =>
    rw [hc] at h
    dsimp only at h ⊢
    cases hr : recvFrame p.W k.ch f with
    | panic => rw [hr] at h; exact absurd rfl h
    | err st => rw [hr] at h; exact absurd rfl h
    | ok q =>
      obtain ⟨ch, g⟩ := q
      rw [hr] at h
      dsimp only at h ⊢
      split at h
      · rename_i hf
        rw [if_pos hf]
        cases hd : p.decode (k.acc ++ g.body) with
        | none => rw [hd] at h; exact absurd rfl h
        | some r =>
          rw [hd] at h
          dsimp only at h ⊢
          have quiet : ∀ (st : Session.State Effects) (e : Session.Ev Effects), (∀ t ch b, e ≠ .service t ch b) →
              (∀ t ch b, e = .close t ch b → b = fun _ w => w) → (Session.step st e).1.world = st.world := by
            intro st e h1 h2
            refine Classical.byContradiction fun hne => ?_
            rcases Session.C36_other_events st e hne with ⟨t, ch, b, rfl⟩ | ⟨t, ch, b, rfl⟩
            · exact h1 _ _ _ rfl
            · obtain ⟨x, _, _, _, _, hw⟩ := Session.C36_close_no_effect st t ch b hne
              rw [h2 _ _ _ rfl] at hne hw
              exact hne hw
          cases r with
          | create timeout client =>
            exact absurd (quiet _ _ (by intro _ _ _ e; cases e) (by intro _ _ _ e; cases e)) h
          | activate t sb cred =>
            exact absurd (quiet _ _ (by intro _ _ _ e; cases e) (by intro _ _ _ e; cases e)) h
          | closeSession t =>
            exact absurd (quiet _ _ (by intro _ _ _ e; cases e) (by intro _ _ _ e; cases e; rfl)) h
          | write t id a w => exact ⟨k, ch, g, t, _, _, rfl, hr, rfl, rfl, .inl ⟨id, a, w, rfl, rfl⟩⟩
          | call t o m => exact ⟨k, ch, g, t, _, _, rfl, hr, rfl, rfl, .inr ⟨o, m, rfl, rfl⟩⟩
          | renew remote =>
            refine absurd ?_ h
            unfold handle
            dsimp only
            split <;> rfl
          | closeChannel => exact absurd rfl h
          | other => exact absurd rfl h
      · exact absurd rfl h

theorem wrote_of {p : Setup} {u t : Nat} {id : Id} {a : Nat} {w : Written} {e : Effects} (h : write p u id a w e ≠ e) :
    Wrote p u t (.write t id a w) e (write p u id a w e) := by
  rcases Access.writeValue_cases e.server (p.identity u) id a w with ⟨st, _, h1⟩ |
    ⟨n, level, v, hz, v', ha, hn, hk, hw, h0, hl, h6, h1⟩ | ⟨n, level, v, hz, b, ha, hn, hk, hw, h0, h4, h1⟩
  · exact absurd (by unfold write; rw [h1]) h
  · refine ⟨id, a, w, n, level, v, hz, rfl, hn, hk, h0, .inl ⟨ha, ?_, h6, v', hw, ?_⟩, ?_, ?_, ?_, rfl⟩
    · simpa using (Access.bit_iff level 1).1 (by simpa using hl)
    · simp [write, h1, Access.Server.set]
    · intro i hi
      simp [write, h1, Access.Server.set, hi]
    · simp [write, h1, Access.Server.set]
    · simp [write, h1, Access.Server.set]
  · refine ⟨id, a, w, n, level, v, hz, rfl, hn, hk, h0, .inr ⟨ha, h4, b, hw, ?_⟩, ?_, ?_, ?_, rfl⟩
    · simp [write, h1, Access.Server.set]
    · intro i hi
      simp [write, h1, Access.Server.set, hi]
    · simp [write, h1, Access.Server.set]
    · simp [write, h1, Access.Server.set]

theorem called_of {p : Setup} {u t : Nat} {o m : Id} {e : Effects} (h : call p u o m e ≠ e) :
    Called p u t (.call t o m) e (call p u o m e) := by
  unfold call at h ⊢
  cases hc : Access.call e.server (p.identity u) o m with
  | status st => rw [hc] at h; exact absurd rfl h
  | runs o' m' =>
    obtain ⟨ho, hm, _⟩ := Access.C66_call _ _ _ _ _ _ hc
    subst ho; subst hm
    exact ⟨_, _, rfl, (Access.C66_callExact _ _ _ _).1 ⟨_, _, hc⟩, rfl, rfl⟩

/-- **C130.** Whatever frames arrive on whatever connections, in any order: a value changes, or a method runs, only when a
Write or a Call has arrived as a whole on a connection on which before that an ActivateSession had arrived with the
credentials of a user who may do this, signed by the owner of the channel; and on a secured channel every chunk of
both messages is sealed with the key of the channel, or else is an OPN frame. Nothing else is changed. What is missing:
the exception of OPN frames (`C130_injected_fails`), and that a message counts once (`C130_replay_fails`). -/
theorem C130_authority_partial (p : Setup) (max : Nat) (srv : Access.Server) (evs : List Ev) (e : Ev)
    (h : (step p (run p (init max srv) evs) e).sess.world ≠ (run p (init max srv) evs).sess.world) :
    ∃ order login t u, (step p (run p (init max srv) evs) e).log = (run p (init max srv) evs).log ++ [order] ∧
      login ∈ (run p (init max srv) evs).log ∧ login.chan = order.chan ∧
      Received p (evs ++ [e]) order ∧ Received p evs login ∧ LoggedIn p login t u ∧
      (Wrote p u t order.request (run p (init max srv) evs).sess.world (step p (run p (init max srv) evs) e).sess.world ∨
       Called p u t order.request (run p (init max srv) evs).sess.world (step p (run p (init max srv) evs) e).sess.world) := by
  have hinv := inv_run p max srv evs
  have hinv' := inv_run p max srv (evs ++ [e])
  have hrun : run p (init max srv) (evs ++ [e]) = step p (run p (init max srv) evs) e := by simp [run, List.foldl_append]
  rw [hrun] at hinv'
  generalize run p (init max srv) evs = s at *
  have hs : step p s e = if s.dead then s else step p s e := by unfold step; split <;> rfl
  by_cases hdead : s.dead = true
  · rw [hs, if_pos hdead] at h; exact absurd rfl h
  cases e with
  | opened ch => simp [step, hdead, setConn] at h
  | tick d => simp [step, hdead, Session.step] at h
  | sweep => simp [step, hdead, Session.step, Session.sweep] at h
  | frame c f tok sid nonce =>
    have he : step p s (.frame c f tok sid nonce) = frame p s c f tok sid nonce := by simp [step, hdead]
    rw [he] at h hinv' ⊢
    obtain ⟨k, ch, g, t, r, F, hc, hr, hlog, hsess, hF⟩ := frame_effect h
    rw [hsess] at h
    obtain ⟨x, hx, hxc, hx0, hw⟩ := service_effect _ _ _ _ h
    obtain ⟨d, hd, hdc, hlogin⟩ := hinv.bound t x hx hx0
    refine ⟨_, d, t, x.user, hlog, hd, hdc.trans hxc, hinv'.log _ (by rw [hlog]; simp), hinv.log d hd, hlogin, ?_⟩
    rw [hsess, hw]
    rw [hw] at h
    rcases hF with ⟨id, a, w, rfl, rfl⟩ | ⟨o, m, rfl, rfl⟩
    · exact .inl (wrote_of h)
    · exact .inr (called_of h)

/-- **C130 (noise).** On a secured channel a frame that is no OPN frame and is sealed neither with the key in use nor with
the one agreed on last, each with the algorithms of its policy, has no effect: values, sessions, methods and other connections stay as they are, and no request
is read. -/
theorem C130_noise (p : Setup) (s : State) (c : Nat) (k : Conn) (f : Bytes) (tok sid : Nat) (nonce : Bytes)
    (hc : s.chans c = some k) (hsec : k.ch.chan.mode ≠ .none) (hno : ¬ IsOpen f)
    (hold : ∀ key, k.ch.chan.recvKey = some key → ¬ Sealed (p.W.sym k.ch.keyPolicy) k.ch.chan.mode key f)
    (hnew : ¬ Sealed (p.W.sym k.ch.policy) k.ch.chan.mode
      (p.W.kdf k.ch.policy k.ch.chan.localNonce k.ch.chan.remoteNonce) f) :
    (step p s (.frame c f tok sid nonce)).sess = s.sess ∧ (step p s (.frame c f tok sid nonce)).log = s.log ∧
      ∀ i, i ≠ c → (step p s (.frame c f tok sid nonce)).chans i = s.chans i := by
  unfold step
  split
  · exact ⟨rfl, rfl, fun _ _ => rfl⟩
  · dsimp only
    unfold frame
    rw [hc]
    dsimp only
    cases hr : recvFrame p.W k.ch f with
    | panic => exact ⟨rfl, rfl, fun _ _ => rfl⟩
    | err st => exact ⟨rfl, rfl, fun i hi => by simp [setConn, hi]⟩
    | ok q =>
      obtain ⟨ch, g⟩ := q
      obtain ⟨h1, h2, h3, h4⟩ := (recv_genuine hr).2 hno
      obtain ⟨key, k1, k2, _⟩ := h4 hsec
      rw [h2] at k2
      rcases h3 with ⟨h3, h5⟩ | ⟨h3, h5⟩
      · rw [h5] at k2
        exact absurd k2 (hold key (h3 ▸ k1))
      · rw [h5] at k2
        rw [h3 hsec] at k1
        cases k1
        exact absurd k2 hnew

/-! ### What an outsider can do -/

theorem service_ok {s : Session.State Effects} {t : Nat} {ch : Session.Channel} {x : Session.Sess} (F : Nat → Effects → Effects)
    (hx : Session.find s.table t = some x) (hl : s.now ≤ x.last + x.timeout) (hc : x.chan = ch.id) (h0 : ch.id ≠ 0) :
    (service s t ch F).world = F x.user s.world := by
  have he : Session.expired s.now x = false := by
    simp only [Session.expired, decide_eq_false_iff_not]; omega
  unfold service Session.gate Session.get
  rw [hx]
  simp only [he, Bool.false_eq_true, if_false, hc, h0]
  simp

/-- The session, and that its user may write the variable. -/
structure Victim (p : Setup) (s : State) (c tok : Nat) (id : Id) (n : Access.Node) (level v : Nat) (hz : Bool) : Prop where
  alive : s.dead = false
  session : ∃ x, Session.find s.sess.table tok = some x ∧ s.sess.now ≤ x.last + x.timeout ∧ x.chan = c ∧ c ≠ 0 ∧
    May s.sess.world.server (p.identity x.user) n 0 ∧ May s.sess.world.server (p.identity x.user) n 6
  node : s.sess.world.server.nodes id = some n
  kind : n.kind = .var level v hz
  level : level.testBit 1 = true

theorem write_done {p : Setup} {s : State} {c tok : Nat} {id : Id} {n : Access.Node} {level v : Nat} {hz : Bool}
    (hv : Victim p s c tok id n level v hz) (key : Option Nat) (v' : Nat) :
    (service s.sess tok ⟨c, key⟩ (fun u => write p u id 13 (.number v'))).world.server.nodes id =
      some { n with kind := .var level v' hz } := by
  obtain ⟨x, hx, hl, hc, h0, hb, hw⟩ := hv.session
  rw [service_ok _ hx hl hc h0]
  simp only [write]
  rw [Access.C66_written _ _ id n level v v' hz hv.node hv.kind hb hw hv.level]
  simp [Access.Server.set]

/-- **C130 fails (injected).** For every Write request there is a frame, made of the request and constants alone, that is
obeyed on every connection, also one in mode SignAndEncrypt: whoever can insert bytes into the connection of a client
and has seen the token of its session, which mode Sign does not hide, writes as the user of that session. (In mode
SignAndEncrypt the answer to this request then ends the process, `C136_policy_fails`.) -/
theorem C130_injected_fails (body : Bytes) (hb : body.length < 2 ^ 31) :
    ∃ f, ∀ (p : Setup) (s : State) (c : Nat) (k : Conn) (tok : Nat) (id : Id) (n : Access.Node) (level v v' : Nat) (hz : Bool)
      (tk sid : Nat) (nonce : Bytes), s.chans c = some k → k.acc = [] → p.decode body = some (.write tok id 13 (.number v')) →
      Victim p s c tok id n level v hz →
      (step p s (.frame c f tk sid nonce)).sess.world.server.nodes id = some { n with kind := .var level v' hz } := by
  refine ⟨plainOpn 0 0 0 body, ?_⟩
  intro p s c k tok id n level v v' hz tk sid nonce hc ha hd hv
  unfold step
  rw [if_neg (by rw [hv.alive]; decide)]
  dsimp only
  unfold frame
  rw [hc]
  dsimp only
  rw [plainOpn_accepted p.W k.ch 0 0 0 body hb]
  dsimp only
  rw [if_pos rfl, ha, List.nil_append, hd]
  exact write_done hv _ v'

/-- **C130 fails (replay).** A chunk that was obeyed once as a Write is obeyed again whenever it is sent again before the
token changes: whoever has recorded it can restore the old value at will. -/
theorem C130_replay_fails (p : Setup) (ch ch' : SChan) (f : Bytes) (g : Frag) (tok : Nat) (id : Id) (v' : Nat)
    (hno : u32At f 0 ≠ some tyOpen) (hr : recvFrame p.W ch f = .ok (ch', g)) (hf : g.final = true)
    (hd : p.decode g.body = some (.write tok id 13 (.number v')))
    (s : State) (c : Nat) (k : Conn) (n : Access.Node) (level v : Nat) (hz : Bool) (tk sid : Nat) (nonce : Bytes)
    (hc : s.chans c = some k) (ha : k.acc = []) (hk : k.ch = ch') (hv : Victim p s c tok id n level v hz) :
    (step p s (.frame c f tk sid nonce)).sess.world.server.nodes id = some { n with kind := .var level v' hz } := by
  have again : recvFrame p.W ch' f = .ok (ch', g) := by
    unfold recvFrame at hr ⊢
    split at hr
    · rename_i ty len e0 e4
      have ht : ty ≠ tyOpen := fun e => hno (e ▸ e0)
      rw [if_neg ht] at hr ⊢
      obtain ⟨c', e, hch, hn⟩ := recvSym_ok hr
      obtain ⟨_, _, _, _, _, _, e'⟩ := openFrame_ok_iff.1 e
      obtain ⟨t, _, h8, h12, hsw, _⟩ := openSym_ok_iff.1 e'
      have hs := switchToken_same hsw
      have hct : changesToken c' f = false := by
        unfold changesToken
        rw [h12]
        simp only [Bool.and_eq_false_iff, decide_eq_false_iff_not]
        by_cases h : t = c'.pendingTokenID
        · refine .inr (fun h' => h' ?_)
          rw [← h]; exact hs.1
        · exact .inl (.inr (by simpa using h))
      have hc' : ch'.chan = c' := by rw [hch]
      have hp' : ch'.policy = ch.policy := by rw [hch]
      have := C32_replay_fails _ _ _ _ _ _ e
      unfold recvSym
      rw [hc', hct, hp', this]
      dsimp only
      rw [if_neg (by decide)]
      rw [hch]
    · cases hr
  unfold step
  rw [if_neg (by rw [hv.alive]; decide)]
  dsimp only
  unfold frame
  rw [hc]
  dsimp only
  rw [hk, again]
  dsimp only
  rw [if_pos hf, ha, List.nil_append, hd]
  exact write_done hv _ v'

/-- A chunk of the token in use, or one that brings the pending token into use. -/
theorem recvFrame_of {W : World} {ch : SChan} {f : Bytes} {c : Chan} {g : Frag}
    (h : openFrame (W.sym ch.policy) (W.kdf ch.policy) ch.chan f = .ok (c, g))
    (hk : ch.keyPolicy = ch.policy ∨ changesToken ch.chan f = true) (hp : ch.policy ≠ .none ∨ ch.chan.mode = .none) :
    recvFrame W ch f = .ok ({ ch with
      chan := c
      keyPolicy := ch.policy }, g) := by
  obtain ⟨ty, len, e0, e4, _, ht, _⟩ := openFrame_ok_iff.1 h
  have hno : ty ≠ tyOpen := by rcases ht with rfl | rfl | rfl <;> decide
  unfold recvFrame
  rw [e0, e4]
  dsimp only
  rw [if_neg hno]
  unfold recvSym
  by_cases hc : changesToken ch.chan f = true
  · rw [if_pos hc, if_neg (fun e => hp.elim (fun h => h e.1) e.2), h]
  · rw [if_neg hc]
    rcases hk with hk | hk
    · have h' : openFrame (W.mixed ch.policy ch.keyPolicy) (W.kdf ch.policy) ch.chan f = .ok (c, g) := by
        rw [hk]; exact h
      rw [h']
      dsimp only
      rw [← hk]
    · exact absurd hk hc

/-- The ids in the plain header of a sealed chunk. -/
theorem sealChunk_ids {S : Suite} {m : Mode} {key : Bytes} {size : Nat} {x : Chunk} :
    u32At (sealChunk S m key size x) 8 = some x.channelID ∧ u32At (sealChunk S m key size x) 12 = some x.tokenID := by
  obtain ⟨t, ht⟩ := seal_header S m key size x
  constructor
  · rw [ht]; unfold header; rw [List.append_assoc, List.append_assoc, List.append_assoc, ← List.append_assoc]
    exact u32At_append _ (by simp [writeU32_length])
  · rw [ht]; unfold header
    rw [List.append_assoc, List.append_assoc, List.append_assoc, ← List.append_assoc, ← List.append_assoc]
    exact u32At_append _ (by simp [writeU32_length])

/-- **C130 fails (keys).** Whoever has any RSA key and a certificate for it, which no one need trust, takes over a secured
channel of another: after one OPN frame with a renewal request, signed with this key, the server takes the sender for
its peer, so that its nonce is encrypted for that key, and the keys of the next token come from this nonce and the one
in the request. A chunk sealed with them is obeyed as the user of a session on the channel. -/
theorem C130_hijacked_fails {A : ASuite} (hA : A.Lawful) (p : Setup) (pol : Policy) (hpol : pol ≠ .none)
    (hS : (p.W.sym pol).Lawful) (attacker own : Nat) (cert thumb : Bytes) (hW : p.W.Has pol attacker cert A)
    (s : State) (c : Nat) (k : Conn) (hc : s.chans c = some k) (ha : k.acc = []) (_ : k.ch.remoteKey = some own)
    (_ : own ≠ attacker) (hsec : k.ch.chan.mode ≠ .none) (htok : k.ch.chan.tokenID ≠ nextSeq k.ch.chan.lastTokenID)
    (send : Nat) (hsend : send < 2 ^ 32) (cid seq rid : BitVec 32) (body frame remote : Bytes) (hb : body ≠ [])
    (hct : cert.length < 2 ^ 31) (hth : thumb.length = 20)
    (hseal : sealOpn A send cid seq rid pol.uri cert thumb body = some frame) (hd : p.decode body = some (.renew remote))
    (tok : Nat) (id : Id) (n : Access.Node) (level v v' : Nat) (hz : Bool) (hv : Victim p s c tok id n level v hz)
    (x : Chunk) (size : Nat) (hx : x.Fits (p.W.sym pol) k.ch.chan.mode size) (hxc : x.channelID = k.ch.chan.channelID)
    (hxt : x.tokenID = nextSeq k.ch.chan.lastTokenID) (hxf : x.final = true)
    (hxd : p.decode x.body = some (.write tok id 13 (.number v'))) (t1 s1 t2 s2 : Nat) (nonce n2 : Bytes) :
    (∃ k', (step p s (.frame c frame t1 s1 nonce)).chans c = some k' ∧ k'.ch.policy = pol ∧
      k'.ch.remoteKey = some attacker ∧ k'.ch.chan.localNonce = nonce ∧ k'.ch.chan.remoteNonce = remote ∧
      k'.ch.chan.pendingTokenID = nextSeq k.ch.chan.lastTokenID) ∧
    (run p s [.frame c frame t1 s1 nonce,
      .frame c (sealChunk (p.W.sym pol) k.ch.chan.mode (p.W.kdf pol nonce remote) size x) t2 s2 n2]).sess.world.server.nodes id =
      some { n with kind := .var level v' hz } := by
  have hms : k.ch.chan.mode.secured = true := by
    cases hm : k.ch.chan.mode
    · exact absurd hm hsec
    · rfl
    · rfl
  have h1 : (step p s (.frame c frame t1 s1 nonce)).chans c = some { ch :=
        { k.ch with
          policy := pol
          remoteCert := some cert
          remoteKey := some attacker
          chan := renew k.ch.chan nonce remote } } ∧
      (step p s (.frame c frame t1 s1 nonce)).sess = s.sess ∧ (step p s (.frame c frame t1 s1 nonce)).dead = false := by
    have hr := (C24_open_message hA p.W pol hpol attacker cert thumb hW k.ch send hsend cid seq rid body frame hb hct hth
      hseal).2.2
    unfold step
    rw [if_neg (by rw [hv.alive]; decide)]
    dsimp only
    unfold Authority.frame
    rw [hc]
    dsimp only
    rw [hr]
    dsimp only
    rw [if_pos rfl, ha, List.nil_append, hd]
    dsimp only
    unfold handle
    dsimp only
    rw [if_neg (fun e => hpol e.1)]
    exact ⟨if_pos rfl, rfl, hv.alive⟩
  obtain ⟨h1, h2, h3⟩ := h1
  refine ⟨⟨_, h1, rfl, rfl, by simp [renew, hms], rfl, rfl⟩, ?_⟩
  have hsw : switchToken (p.W.kdf pol) (renew k.ch.chan nonce remote) x.tokenID =
      .ok { renew k.ch.chan nonce remote with
        tokenID := nextSeq k.ch.chan.lastTokenID
        recvKey := some (p.W.kdf pol nonce remote)
        sendKey := some (p.W.kdf pol remote nonce) } := by
    unfold switchToken
    rw [hxt, if_neg (show ¬ (renew k.ch.chan nonce remote).tokenID = _ from htok), if_neg (by simp [renew])]
    simp [renew, hms]
  have hop := openFrame_seal hS (p.W.kdf pol) (renew k.ch.chan nonce remote) _ (p.W.kdf pol nonce remote) size x hx
    hxc hsw (fun _ => rfl)
  have hids := sealChunk_ids (S := p.W.sym pol) (m := k.ch.chan.mode) (key := p.W.kdf pol nonce remote) (size := size) (x := x)
  have hct : changesToken (renew k.ch.chan nonce remote)
      (sealChunk (p.W.sym pol) k.ch.chan.mode (p.W.kdf pol nonce remote) size x) = true := by
    unfold changesToken
    rw [hids.1, hids.2, hxc, hxt]
    simp [renew, htok]
  have hr := recvFrame_of (W := p.W) (ch := { k.ch with
      policy := pol
      remoteCert := some cert
      remoteKey := some attacker
      chan := renew k.ch.chan nonce remote }) hop (.inr hct) (.inl hpol)
  have hrun : run p s [.frame c frame t1 s1 nonce,
      .frame c (sealChunk (p.W.sym pol) k.ch.chan.mode (p.W.kdf pol nonce remote) size x) t2 s2 n2] =
      step p (step p s (.frame c frame t1 s1 nonce))
        (.frame c (sealChunk (p.W.sym pol) k.ch.chan.mode (p.W.kdf pol nonce remote) size x) t2 s2 n2) := rfl
  rw [hrun]
  generalize step p s (.frame c frame t1 s1 nonce) = s' at h1 h2 h3 ⊢
  unfold step
  rw [if_neg (by rw [h3]; decide)]
  dsimp only
  unfold Authority.frame
  rw [h1]
  dsimp only
  rw [show (renew k.ch.chan nonce remote).mode = k.ch.chan.mode from rfl] at hr
  rw [hr]
  dsimp only
  rw [if_pos hxf, List.nil_append, hxd]
  exact write_done (s := s') ⟨h3, by rw [h2]; exact hv.session, by rw [h2]; exact hv.node, hv.kind, hv.level⟩ _ v'

/-! ### What an authorised client can do -/

/-- The chunks of a message, as they arrive on connection `c`. -/
def arrive (c tok sid : Nat) (nonce : Bytes) (fs : List Bytes) : List Ev := fs.map fun f => .frame c f tok sid nonce

/-- All chunks of a message lead to its handler. -/
theorem heard (p : Setup) (c tok sid : Nat) (nonce : Bytes) (r : Request) (pol : Policy) (cert : Option Bytes) (rk : Option Nat)
    (hS : (p.W.sym pol).Lawful) (key : Bytes) (rid tk cid : BitVec 32) :
    ∀ (cs : List (Chunk × Nat)) (s : State) (ch ch' : Chan) (acc : Bytes) (parts : List Part), s.dead = false →
      s.chans c = some ⟨⟨ch, pol, cert, rk, pol⟩, acc, parts⟩ →
      (∀ x ∈ cs, x.1.Fits (p.W.sym pol) ch.mode x.2) →
      (∀ x ∈ cs, x.1.channelID = cid ∧ x.1.tokenID = tk ∧ x.1.requestID = rid) →
      (pol ≠ .none ∨ ch.mode = .none) →
      cid = ch.channelID → switchToken (p.W.kdf pol) ch tk = .ok ch' → (ch.mode ≠ .none → ch'.recvKey = some key) →
      (∃ l, cs.map (fun x => x.1.final) = List.replicate l false ++ [true]) →
      p.decode (acc ++ (cs.map (fun x => x.1.body)).flatten) = some r →
      ∃ s', s'.sess = s.sess ∧ s'.dead = false ∧ s'.chans c = some { ch := ⟨ch', pol, cert, rk, pol⟩ } ∧
        run p s (arrive c tok sid nonce (cs.map (fun x => sealChunk (p.W.sym pol) ch.mode key x.2 x.1))) =
          handle p s' c { ch := ⟨ch', pol, cert, rk, pol⟩ } tok sid nonce r := by
  intro cs
  induction cs with
  | nil => intro s ch ch' acc parts _ _ _ _ _ _ _ _ ⟨l, hl⟩; simp at hl
  | cons x cs ih =>
    intro s ch ch' acc parts hdead hc hfit hids hpm hcid hsw hk hfin hdec
    have hx := hids x (by simp)
    have hop := openFrame_seal hS (p.W.kdf pol) ch ch' key x.2 x.1 (hfit x (by simp)) (hx.1.trans hcid)
      (by rw [hx.2.1]; exact hsw) hk
    have hrf := recvFrame_of (W := p.W) (ch := ⟨ch, pol, cert, rk, pol⟩) hop (.inl rfl) hpm
    obtain ⟨ht, hsame, hcid', hmode'⟩ := switchToken_same hsw
    have hstep : run p s (arrive c tok sid nonce ((x :: cs).map (fun x => sealChunk (p.W.sym pol) ch.mode key x.2 x.1))) =
        run p (frame p s c (sealChunk (p.W.sym pol) ch.mode key x.2 x.1) tok sid nonce)
          (arrive c tok sid nonce (cs.map (fun x => sealChunk (p.W.sym pol) ch.mode key x.2 x.1))) := by
      simp [run, arrive, step, hdead]
    rw [hstep]
    generalize sealChunk (p.W.sym pol) ch.mode key x.2 x.1 = F at hrf
    have hfr : frame p s c F tok sid nonce =
        if x.1.final then
          match p.decode (acc ++ x.1.body) with
          | none => setConn s c none
          | some r => handle p { setConn s c (some { ch := ⟨ch', pol, cert, rk, pol⟩ }) with
              log := s.log ++ [⟨c, parts ++ [⟨⟨ch', pol, cert, rk, pol⟩, F, x.1.body⟩], keyOf ⟨ch', pol, cert, rk, pol⟩, r⟩] } c
              { ch := ⟨ch', pol, cert, rk, pol⟩ } tok sid nonce r
        else setConn s c (some ⟨⟨ch', pol, cert, rk, pol⟩, acc ++ x.1.body, parts ++ [⟨⟨ch', pol, cert, rk, pol⟩, F, x.1.body⟩]⟩) := by
      unfold frame
      rw [hc]
      dsimp only
      rw [hrf]
      rfl
    rw [hfr]
    obtain ⟨l, hl⟩ := hfin
    cases l with
    | zero =>
      simp only [List.replicate_zero, List.nil_append, List.map_cons, List.cons.injEq] at hl
      have hcs : cs = [] := by simpa using hl.2
      subst hcs
      have hdec' : p.decode (acc ++ x.1.body) = some r := by simpa using hdec
      rw [if_pos hl.1, hdec']
      refine ⟨_, ?_, ?_, ?_, rfl⟩
      · rfl
      · exact hdead
      · exact if_pos rfl
    | succ l =>
      simp only [List.replicate_succ, List.cons_append, List.map_cons, List.cons.injEq] at hl
      rw [if_neg (by simp [hl.1])]
      obtain ⟨s', h1, h2, h3, h4⟩ := ih (setConn s c (some ⟨⟨ch', pol, cert, rk, pol⟩, acc ++ x.1.body,
          parts ++ [⟨⟨ch', pol, cert, rk, pol⟩, F, x.1.body⟩]⟩)) ch' ch' (acc ++ x.1.body) _ hdead (by simp [setConn]; rfl)
        (fun d hd => by rw [hmode']; exact hfit d (by simp [hd])) (fun d hd => hids d (by simp [hd]))
        (by rw [hmode']; exact hpm) (hcid.trans hcid'.symm) hsame (by rw [hmode']; exact hk) ⟨l, hl.2⟩ (by simpa using hdec)
      rw [hmode'] at h4
      exact ⟨s', h1, h2, h3, h4⟩

/-- The body is within the limits of the sender. -/
def Allowed (S : Suite) (cfg : Sender) (body : Bytes) : Prop :=
  (cfg.maxMessage = 0 ∨ body.length ≤ cfg.maxMessage) ∧
  (cfg.maxChunks = 0 ∨ body.length ≤ cfg.maxChunks * (maxBody S cfg.mode cfg.send).toNat)

theorem message_heard (p : Setup) (c tok sid : Nat) (nonce : Bytes) (r : Request) (pol : Policy) (cert : Option Bytes)
    (rk : Option Nat) (hS : (p.W.sym pol).Lawful) (s : State) (ch ch' : Chan) (cfg : Sender) (hu : cfg.Usable (p.W.sym pol))
    (hp : Paired (p.W.kdf pol) cfg ch ch') (tl : Status) (rid seq : BitVec 32) (body : Bytes) (hb : body ≠ [])
    (hf : Allowed (p.W.sym pol) cfg body) (hpm : pol ≠ .none ∨ ch.mode = .none) (hdead : s.dead = false)
    (hcon : s.chans c = some { ch := ⟨ch, pol, cert, rk, pol⟩ }) (hdec : p.decode body = some r) :
    ∃ s', s'.sess = s.sess ∧ s'.dead = false ∧ s'.chans c = some { ch := ⟨ch', pol, cert, rk, pol⟩ } ∧
      run p s (arrive c tok sid nonce (sendMessage (p.W.sym pol) cfg tl rid seq body).1) =
        handle p s' c { ch := ⟨ch', pol, cert, rk, pol⟩ } tok sid nonce r := by
  have hl := sendLoop_ok hS cfg tl rid hu.room hu.none_sig hu.buffer 0 seq body (by simpa using hf.2)
  have hsm : (sendMessage (p.W.sym pol) cfg tl rid seq body).1 =
      (sendLoop (p.W.sym pol) cfg tl rid 0 seq body).chunks.map (fun x => sealChunk (p.W.sym pol) cfg.mode cfg.key x.2 x.1) := by
    unfold sendMessage; rw [if_neg (by have := hf.1; omega)]
  rw [hsm, hp.mode]
  generalize sendLoop (p.W.sym pol) cfg tl rid 0 seq body = q at hl ⊢
  exact heard p c tok sid nonce r pol cert rk hS cfg.key rid cfg.tokenID cfg.channelID q.chunks s ch ch' [] [] hdead hcon
    (by rw [← hp.mode]; exact hl.fits) hl.ids hpm hp.channel hp.token hp.key (hl.finals hb)
    (by rw [List.nil_append, hl.bodies]; exact hdec)

/-- **C130 (obeyed).** Three messages of the owner of a channel, in as many chunks as its buffer needs: CreateSession,
ActivateSession with credentials of a user, and a Write that this user may do. The variable has the value. -/
theorem C130_obeyed (p : Setup) (s : State) (c tok sid : Nat) (nonce : Bytes) (pol : Policy) (cert : Option Bytes)
    (rk : Option Nat) (hS : (p.W.sym pol).Lawful) (ch ch' : Chan) (cfg : Sender) (hu : cfg.Usable (p.W.sym pol))
    (hp : Paired (p.W.kdf pol) cfg ch ch') (tl : Status) (rid seq rid2 seq2 rid3 seq3 : BitVec 32)
    (hpm : pol ≠ .none ∨ ch.mode = .none) (hdead : s.dead = false) (hc0 : c ≠ 0)
    (hcon : s.chans c = some { ch := ⟨ch, pol, cert, rk, pol⟩ }) (hroom : s.sess.max = 0 ∨ s.sess.table.length < s.sess.max)
    (b1 b2 b3 : Bytes) (hb1 : b1 ≠ []) (hb2 : b2 ≠ []) (hb3 : b3 ≠ []) (ha1 : Allowed (p.W.sym pol) cfg b1)
    (ha2 : Allowed (p.W.sym pol) cfg b2) (ha3 : Allowed (p.W.sym pol) cfg b3) (timeout cred u : Nat) (client : Option Nat)
    (id : Id) (n : Access.Node) (level v v' : Nat) (hz : Bool)
    (d1 : p.decode b1 = some (.create timeout client)) (d2 : p.decode b2 = some (.activate tok rk cred))
    (d3 : p.decode b3 = some (.write tok id 13 (.number v'))) (hlog : p.login cred = some u)
    (hn : s.sess.world.server.nodes id = some n) (hk : n.kind = .var level v hz) (hl : level.testBit 1 = true)
    (h0 : May s.sess.world.server (p.identity u) n 0) (h6 : May s.sess.world.server (p.identity u) n 6) :
    (run p s (arrive c tok sid nonce (sendMessage (p.W.sym pol) cfg tl rid seq b1).1 ++
      (arrive c tok sid nonce (sendMessage (p.W.sym pol) cfg tl rid2 seq2 b2).1 ++
        arrive c tok sid nonce (sendMessage (p.W.sym pol) cfg tl rid3 seq3 b3).1))).sess.world.server.nodes id =
      some { n with kind := .var level v' hz } := by
  have happ : ∀ s a b, run p s (a ++ b) = run p (run p s a) b := by intro s a b; simp [run, List.foldl_append]
  have hp' : Paired (p.W.kdf pol) cfg ch' ch' := by
    obtain ⟨_, hsame, h3, h4⟩ := switchToken_same hp.token
    exact ⟨hp.mode.trans h4.symm, hp.channel.trans h3.symm, hsame, by rw [h4]; exact hp.key⟩
  have hpm' : pol ≠ .none ∨ ch'.mode = .none := by rw [(switchToken_same hp.token).2.2.2]; exact hpm
  rw [happ, happ]
  obtain ⟨s1, e1, e2, e3, e4⟩ := message_heard p c tok sid nonce _ pol cert rk hS s ch ch' cfg hu hp tl rid seq b1 hb1 ha1
    hpm hdead hcon d1
  rw [e4]
  have f1 : handle p s1 c { ch := ⟨ch', pol, cert, rk, pol⟩ } tok sid nonce (.create timeout client) =
      { s1 with sess := { s.sess with table := Session.put s.sess.table tok ⟨sid, 0, s.sess.now, timeout, 0, client⟩ } } := by
    simp only [handle, Session.step, Session.add, e1]
    rw [if_neg (by omega)]
  rw [f1]
  obtain ⟨s2, g1, g2, g3, g4⟩ := message_heard p c tok sid nonce _ pol cert rk hS
    { s1 with sess := { s.sess with table := Session.put s.sess.table tok ⟨sid, 0, s.sess.now, timeout, 0, client⟩ } }
    ch' ch' cfg hu hp' tl rid2 seq2 b2 hb2 ha2 hpm' e2 e3 d2
  rw [g4]
  have hsig : Session.signatureOk ⟨c, keyOf ⟨ch', pol, cert, rk, pol⟩⟩ rk = true := by
    unfold Session.signatureOk keyOf
    dsimp only
    split
    · rfl
    · rename_i q hq
      split at hq
      · cases hq
      · rw [hq]; simp
  have f2 : ∃ x, Session.find (handle p s2 c { ch := ⟨ch', pol, cert, rk, pol⟩ } tok sid nonce (.activate tok rk cred)).sess.table tok = some x ∧
      x.chan = c ∧ x.user = u ∧ s.sess.now ≤ x.last + x.timeout := by
    refine ⟨⟨sid, c, s.sess.now, timeout, u, client⟩, ?_, rfl, rfl, Nat.le_add_right _ _⟩
    simp only [handle, Session.step, g1, Session.get, Session.find_put, if_true, Session.expired, hlog, hsig]
    rw [if_neg (by simp)]
    simp [Session.find_put]
  have f3 : (handle p s2 c { ch := ⟨ch', pol, cert, rk, pol⟩ } tok sid nonce (.activate tok rk cred)).sess.world = s.sess.world ∧
      (handle p s2 c { ch := ⟨ch', pol, cert, rk, pol⟩ } tok sid nonce (.activate tok rk cred)).sess.now = s.sess.now := by
    simp only [handle, Session.step, g1, Session.get, Session.find_put, if_true, Session.expired, hlog, hsig]
    rw [if_neg (by simp)]
    simp
  have f4 : (handle p s2 c { ch := ⟨ch', pol, cert, rk, pol⟩ } tok sid nonce (.activate tok rk cred)).chans = s2.chans ∧
      (handle p s2 c { ch := ⟨ch', pol, cert, rk, pol⟩ } tok sid nonce (.activate tok rk cred)).dead = s2.dead := ⟨rfl, rfl⟩
  generalize handle p s2 c { ch := ⟨ch', pol, cert, rk, pol⟩ } tok sid nonce (.activate tok rk cred) = s3 at f2 f3 f4 ⊢
  obtain ⟨s4, k1, k2, k3, k4⟩ := message_heard p c tok sid nonce _ pol cert rk hS s3 ch' ch' cfg hu hp' tl rid3 seq3 b3 hb3 ha3
    hpm' (f4.2.trans g2) (by rw [f4.1]; exact g3) d3
  rw [k4]
  obtain ⟨x, x1, x2, x3, x4⟩ := f2
  refine write_done (p := p) (s := s4) (c := c) (v := v) ⟨k2, ⟨x, ?_, ?_, x2, hc0, ?_, ?_⟩, ?_, hk, hl⟩ _ v'
  · rw [k1]; exact x1
  · rw [k1, f3.2]; exact x4
  · rw [k1, f3.1, x3]; exact h0
  · rw [k1, f3.1, x3]; exact h6
  · rw [k1, f3.1]; exact hn

/-! ### Examples -/

/-- Anna logs in with the credentials 1; bodies of one byte stand for the requests. -/
def plantSetup : Setup where
  W := toyW
  decode
    | [1] => some (.create 1000 (some 5))
    | [2] => some (.activate 77 (some 5) 1)
    | [3] => some (.write 77 ⟨1, 1⟩ 13 (.number 7))
    | [4] => some (.call 77 ⟨1, 3⟩ ⟨1, 4⟩)
    | [5] => some (.activate 77 none 1)
    | [6] => some (.renew [0])
    | [7] => some (.activate 77 (some 6) 1)
    | [8, 9] => some (.write 77 ⟨1, 1⟩ 13 (.number 8))
    | _ => none
  login c := if c = 1 then some 4 else none
  identity u := if u = 4 then Access.anna else .anonymous

/-- A channel in mode Sign of the owner of key 5. -/
def signedChan : SChan := ⟨opened 1 .sign [1] [2], .basic256Sha256, some [9], some 5, .basic256Sha256⟩

/-- The chunk with this body that the owner of the channel makes. -/
def good (final : Bool) (body : Bytes) : Ev :=
  .frame 1 (sealChunk (xorSuite 20 16) .sign [1, 2] (44 + body.length) ⟨final, 1, 1, 1, 9, body, 0⟩) 77 3 []

/-- And with a wrong key. -/
def forged (body : Bytes) : Ev :=
  .frame 1 (sealChunk (xorSuite 20 16) .sign [1, 3] (44 + body.length) ⟨true, 1, 1, 1, 9, body, 0⟩) 77 3 []

def injected (body : Bytes) : Ev := .frame 1 (plainOpn 0 0 0 body) 77 3 []

def valueAfter (evs : List Ev) : Access.ReadResult :=
  Access.readValue (run plantSetup (init 10 Access.plant) (.opened signedChan :: evs)).sess.world.server Access.anna ⟨1, 1⟩ 13

def ranAfter (evs : List Ev) : List (Nat × Id × Id) :=
  (run plantSetup (init 10 Access.plant) (.opened signedChan :: evs)).sess.world.ran

example : valueAfter [good true [1], good true [2]] = .value 10 ∧ valueAfter [good true [1], good true [2], good true [3]] = .value 7 ∧
    valueAfter [good true [1], good true [2], good false [8], good true [9]] = .value 8 ∧
    ranAfter [good true [1], good true [2], good true [4]] = [(4, ⟨1, 3⟩, ⟨1, 4⟩)] := by decide +kernel
example : valueAfter [good true [1], good true [5], good true [3]] = .value 10 ∧ valueAfter [good true [1], good true [3]] = .value 10 ∧
    valueAfter [good true [1], good true [2], forged [3], good true [3]] = .value 10 := by decide +kernel
/-- The attacks: an inserted frame, also after a session that was activated properly; a replayed one. -/
example : valueAfter [good true [1], good true [2], injected [3]] = .value 7 ∧
    valueAfter [good true [1], good true [2], good true [3], good false [8], good true [9], good true [3]] = .value 7 := by
  decide +kernel
/-- A renewal under the policy None is not answered: the connection ends. -/
example : ((run plantSetup (init 10 Access.plant) [.opened signedChan, injected [6]]).chans 1).isNone := by decide +kernel
/-- A channel of the owner of key 6 is taken over by the owner of key 5. -/
example : (sealOpn toyA 400 0 0 9 (Policy.uri .basic256Sha256) [9] (List.replicate 20 1) [6]).map (fun f =>
    let s := run plantSetup (init 10 Access.plant) [.opened { signedChan with remoteKey := some 6 }, good true [1], good true [7],
      .frame 1 f 77 3 [4, 4],
      .frame 1 (sealChunk (xorSuite 20 16) .sign [4, 4, 0] 45 ⟨true, 1, 2, 1, 9, [3], 0⟩) 77 3 []]
    (Access.readValue s.sess.world.server Access.anna ⟨1, 1⟩ 13, (s.chans 1).map (·.ch.remoteKey))) =
    some (.value 7, some (some 5)) := by decide +kernel
example : ¬ IsOpen (sealChunk (xorSuite 20 16) .sign [1, 3] 45 ⟨true, 1, 1, 1, 9, [3], 0⟩) ∧
    ((run plantSetup (init 10 Access.plant) [.opened signedChan]).chans 1).map (fun k => k.ch.chan.mode) = some .sign := by
  unfold IsOpen; decide +kernel

/-- The channel, the sender and the bodies of the examples meet what `C130_obeyed` asks for. -/
example : ∃ (cfg : Sender) (ch' : Chan), cfg.Usable (toyW.sym .basic256Sha256) ∧
    Paired (toyW.kdf .basic256Sha256) cfg signedChan.chan ch' ∧ (∀ b : Bytes, b.length ≤ 20 → Allowed (toyW.sym .basic256Sha256) cfg b) ∧
    (run plantSetup (init 10 Access.plant) [.opened signedChan]).chans 1 = some { ch := signedChan } ∧
    plantSetup.decode [2] = some (.activate 77 signedChan.remoteKey 1) ∧ plantSetup.login 1 = some 4 :=
  ⟨⟨.sign, 64, 1, 1, [1, 2], 20, 5⟩, _, ⟨by decide, by decide, by decide⟩, ⟨rfl, rfl, rfl, fun _ => rfl⟩,
    fun _ h => ⟨.inr h, .inr (Nat.le_trans h (by decide))⟩, rfl, rfl, rfl⟩

/-- Two channels, with ids of their own. -/
example : ((run plantSetup (init 10 Access.plant) [.opened signedChan, .opened signedChan]).chans 1).isSome ∧
    ((run plantSetup (init 10 Access.plant) [.opened signedChan, .opened signedChan]).chans 2).isSome := by decide +kernel

end Opcua.Authority
