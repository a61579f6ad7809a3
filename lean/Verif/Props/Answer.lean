import Verif.Model.Answer
import Verif.Props.OpenChannel
import Verif.Props.Authority

/-!
# C136: answering a request neither ends the server nor goes on for ever
-/

namespace Opcua.Answer

open Opcua.Channel
open Opcua.Authority.Spec (IsOpen)
open Opcua.Authority (isOpen_of)

namespace Spec

/-- OPN frames keep to their purpose: each carries a request for a new token under the policy that the channel has. -/
def Orderly (p : Setup) (k : Conn) : List Ev → Prop
  | [] => True
  | e :: es =>
    (match e with
      | .frame f _ => k.life = .up → IsOpen f → ∀ ch g, recvFrame p.W k.ch f = .ok (ch, g) →
          ch.policy = k.ch.policy ∧ ∃ r, p.decode (k.acc ++ g.body) = some (.renew r)
      | .answer _ _ => True) ∧ Orderly p (step p k e) es

/-- The channel as `Open` leaves it. -/
def fresh (cid : BitVec 32) (mode : Mode) (l r : Bytes) (pol : Policy) (cert : Option Bytes) (rk : Option Nat) : Conn :=
  { ch := ⟨opened cid mode l r, pol, cert, rk, pol⟩ }

end Spec

open Spec

/-! ### Progress -/

theorem room_of {S : Suite} (h0 : 0 < S.block) (h1 : S.block ≤ 16) (h2 : S.sigSize ≤ 32) (mode : Mode) {send : Nat} (h : 80 ≤ send) :
    0 < maxBody S mode send := by
  unfold maxBody
  cases mode with
  | none => dsimp only; omega
  | sign => dsimp only; omega
  | signAndEncrypt =>
    dsimp only
    have e : ((send : Int) - 16).tdiv S.block = (((send - 16) / S.block : Nat) : Int) := by
      have : ((send : Int) - 16) = ((send - 16 : Nat) : Int) := by omega
      rw [this]; exact (Int.ofNat_tdiv _ _).symm
    have hp : padHeader S.block = 1 := by unfold padHeader; rw [if_neg (by omega)]
    rw [e, hp]
    have h3 := Nat.mod_lt (send - 16) h0
    have h4 := Nat.div_add_mod (send - 16) S.block
    rw [Nat.mul_comm] at h4
    have h5 : (((send - 16) / S.block : Nat) : Int) * (S.block : Int) = (((send - 16) / S.block * S.block : Nat) : Int) := by
      push_cast; rfl
    rw [h5]
    omega

theorem loop_ends {W : World} {ch : SChan} {lim : Limits} (h : 0 < maxBody (W.sym ch.policy) ch.chan.mode lim.send) (rid : BitVec 32) :
    ∀ (n : Nat) (body : Bytes) (count : Nat) (seq : BitVec 32), body.length = n →
      (answerLoop W ch lim rid count seq body).fin ≠ .stuck := by
  intro n
  induction n using Nat.strongRecOn with
  | ind n ih =>
    intro body count seq hn
    rw [answerLoop]
    by_cases hb : body.length = 0
    · rw [dif_pos hb]; intro h; cases h
    · rw [dif_neg hb]
      split
      · intro h; cases h
      · have hps := plan_bodySize (W.sym ch.policy) ch.chan.mode lim.send body.length
        dsimp only
        rw [dif_neg (by omega)]
        split
        · intro h; cases h
        · intro h; cases h
        · exact ih _ (by rw [List.length_drop]; omega) _ _ _ rfl

theorem answer_ends {W : World} {ch : SChan} {lim : Limits} (h : 0 < maxBody (W.sym ch.policy) ch.chan.mode lim.send)
    (rid seq : BitVec 32) (body : Bytes) : (answer W ch lim rid seq body).fin ≠ .stuck := by
  unfold answer
  split
  · intro h; cases h
  · exact loop_ends h rid _ body 0 seq rfl

/-- **C136 (progress).** No answer goes on for ever, whatever frames arrived before and whatever its size: the response to
the first request, which names the policy, fitted the buffer of the client, and so there is room for a chunk under every
policy (`hlong`: blocks of at most 16 bytes and signatures of at most 32, as all policies have). -/
theorem C136_progress (p : Setup) (h80 : 80 ≤ p.lim.send)
    (hsuite : ∀ pol, 0 < (p.W.sym pol).block ∧ (p.W.sym pol).block ≤ 16 ∧ (p.W.sym pol).sigSize ≤ 32) (k : Conn)
    (hk : k.life ≠ .hung) (evs : List Ev) : (run p k evs).life ≠ .hung := by
  induction evs generalizing k with
  | nil => exact hk
  | cons e es ih =>
    refine ih (step p k e) ?_
    unfold step
    cases hl : k.life with
    | up =>
      dsimp only
      cases e with
      | frame f nonce =>
        dsimp only
        unfold frame
        repeat' split
        all_goals first | (intro h; cases h; done) | (dsimp only; rw [hl]; intro h; cases h)
      | answer i body =>
        dsimp only
        unfold answered
        split
        · rw [hl]; intro h; cases h
        · rename_i rid _
          have := answer_ends (W := p.W) (ch := k.ch) (lim := p.lim)
            (room_of (hsuite _).1 (hsuite _).2.1 (hsuite _).2.2 _ h80) rid k.seq body
          dsimp only
          split
          · intro h; cases h
          · intro h; cases h
          · rename_i hf; exact absurd hf this
          · intro h; cases h
    | hung => exact absurd hl hk
    | _ => dsimp only; rw [hl]; intro h; cases h

/-- **C136 (room).** `C136_progress` asks for a buffer of 80 bytes; every channel that was opened has it, be the mode a
secured one or None. -/
theorem C136_room {A : ASuite} (hA : A.Lawful) (pol : Policy) (send : Nat) (cid seq rid : BitVec 32)
    (cert thumb body frame : Bytes) (hb : body ≠ [])
    (h : sealOpn A send cid seq rid pol.uri cert thumb body = some frame ∨ plainResponse send cid seq rid pol.uri body = some frame) :
    80 ≤ send := by
  have hu : 47 ≤ pol.uri.length := by cases pol <;> decide +kernel
  have hn : 0 < body.length := List.length_pos_iff.2 hb
  rcases h with h | h
  · unfold sealOpn at h
    dsimp only at h
    split at h
    · cases h
    · rename_i hf
      obtain ⟨_, _, h3, j, _, h5⟩ := asymPlan_ok hA (16 + pol.uri.length + 28 + cert.length) send body.length hn (by omega)
      omega
  · unfold plainResponse at h
    dsimp only at h
    by_cases hf : (body.length : Int) > (if (body.length : Int) < (send : Int) - (16 + pol.uri.length + 8 : Nat) - 8
        then (body.length : Int) else (send : Int) - (16 + pol.uri.length + 8 : Nat) - 8)
    · rw [if_pos hf] at h; cases h
    · by_cases h1 : (body.length : Int) < (send : Int) - (16 + pol.uri.length + 8 : Nat) - 8
      · omega
      · rw [if_neg h1] at hf; omega

/-! ### Orderly channels -/

/-- What holds of a channel that is up: policy and mode stay, keys are of that policy, both directions have keys or none,
and who waits for an answer was heard under a key. -/
structure Inv (pol : Policy) (mode : Mode) (k : Conn) : Prop where
  policy : k.ch.policy = pol
  made : k.ch.keyPolicy = pol
  kept : k.ch.chan.mode = mode
  keys : k.ch.chan.recvKey.isSome = k.ch.chan.sendKey.isSome
  heard : k.asked ≠ [] → mode ≠ .none → k.ch.chan.sendKey.isSome = true

theorem switch_keys {kdf : Bytes → Bytes → Bytes} {ch ch' : Chan} {t : BitVec 32} (h : switchToken kdf ch t = .ok ch')
    (hk : ch.recvKey.isSome = ch.sendKey.isSome) :
    ch'.recvKey.isSome = ch'.sendKey.isSome ∧ (ch.sendKey.isSome = true → ch'.sendKey.isSome = true) := by
  unfold switchToken at h
  repeat' split at h
  all_goals cases h
  · exact ⟨hk, id⟩
  · exact ⟨rfl, fun _ => rfl⟩
  · exact ⟨hk, id⟩

/-- An OPN frame changes policy, certificate and key of the peer at most. -/
theorem openOpn_chan {W : World} {ch ch' : SChan} {f : Bytes} {g : Frag} (h : openOpn W ch f = .ok (ch', g)) :
    ch'.chan = ch.chan ∧ ch'.keyPolicy = ch.keyPolicy := by
  have key : ∀ pol cert k hdr, openOpnKey W ch pol cert k hdr f = .ok (ch', g) → ch'.chan = ch.chan ∧ ch'.keyPolicy = ch.keyPolicy := by
    intro pol cert k hdr h
    unfold openOpnKey at h
    dsimp only at h
    repeat' split at h
    all_goals cases h
    exact ⟨rfl, rfl⟩
  unfold openOpn at h
  split at h
  · cases h
  · cases h
  · dsimp only at h
    split at h
    · cases h
    · split at h
      · split at h
        · cases h; exact ⟨rfl, rfl⟩
        · cases h
      · unfold openOpnSecured at h
        split at h
        · cases h
        · split at h
          · cases h
          · exact key _ _ _ _ h
          · split at h
            · cases h
            · exact key _ _ _ _ h

theorem inv_recv {p : Setup} {pol : Policy} {mode : Mode} {k : Conn} (h : Inv pol mode k) {f : Bytes} {ch : SChan} {g : Frag}
    (hr : recvFrame p.W k.ch f = .ok (ch, g)) (hpol : IsOpen f → ch.policy = k.ch.policy) :
    ch.policy = pol ∧ ch.keyPolicy = pol ∧ ch.chan.mode = mode ∧ ch.chan.recvKey.isSome = ch.chan.sendKey.isSome ∧
      (k.ch.chan.sendKey.isSome = true → ch.chan.sendKey.isSome = true) ∧
      (¬ IsOpen f → mode ≠ .none → ch.chan.sendKey.isSome = true) := by
  unfold recvFrame at hr
  split at hr
  · rename_i ty len e0 e4
    by_cases ht : ty = tyOpen
    · rw [if_pos ht] at hr
      subst ht
      split at hr
      · cases hr
      · obtain ⟨h1, h2⟩ := openOpn_chan hr
        rw [h1, h2]
        exact ⟨(hpol (isOpen_of e0)).trans h.policy, h.made, h.kept, h.keys, id, fun hno => absurd (isOpen_of e0) hno⟩
    · rw [if_neg ht] at hr
      obtain ⟨c, e, hch, _⟩ := recvSym_ok hr
      obtain ⟨_, _, _, _, _, _, e'⟩ := openFrame_ok_iff.1 e
      obtain ⟨tok, data, _, _, hsw, hdec, hver, _⟩ := openSym_ok_iff.1 e'
      obtain ⟨k1, k2⟩ := switch_keys hsw h.keys
      have hm := (switchToken_same hsw).2.2.2
      have c1 : ch.chan = c := by rw [hch]
      have c2 : ch.policy = pol := by rw [hch]; exact h.policy
      have c3 : ch.keyPolicy = pol := by
        rw [hch]
        dsimp only
        split
        · exact h.policy
        · exact h.made
      rw [c1]
      refine ⟨c2, c3, hm.trans h.kept, k1, k2, fun _ hsec => ?_⟩
      rw [← k1]
      rw [hm, h.kept] at hver
      unfold verifyFrame at hver
      cases mode with
      | none => exact absurd rfl hsec
      | _ =>
        dsimp only at hver
        split at hver
        · cases hver
        · rename_i hk; rw [hk]; rfl
  · cases hr

/-- The chunk can be signed and encrypted. -/
theorem seal_ok {W : World} {ch : SChan} {send : Nat} (hS : (W.sym ch.policy).Lawful) (hmade : ch.keyPolicy = ch.policy)
    (key : Bytes) (hk : ch.chan.mode ≠ .none → ch.chan.sendKey = some key) (size : Nat) (c : Chunk)
    (hsize : size = 24 + c.body.length + padLen (W.sym ch.policy) ch.chan.mode c.paddingSize + sigLen (W.sym ch.policy) ch.chan.mode)
    (hfit : size ≤ send) (hblk : ch.chan.mode = .signAndEncrypt → (size - 16) % (W.sym ch.policy).block = 0) :
    sealAnswer W ch send size c = .ok (sealChunk (W.sym ch.policy) ch.chan.mode key size c) := by
  have hp := payload_length (W.sym ch.policy) ch.chan.mode c
  unfold sealAnswer sealChunk
  rw [hmade]
  dsimp only
  cases hm : ch.chan.mode with
  | none => rfl
  | sign =>
    rw [hm] at hp hsize hk
    rw [hk (by decide)]
    dsimp only
    rw [if_neg]
    simp only [List.length_append, header_length, hS.mac_length, hp]
    simp only [sigLen, reduceCtorEq, if_false] at hsize
    omega
  | signAndEncrypt =>
    rw [hm] at hp hsize hk hblk
    rw [hk (by decide)]
    dsimp only
    simp only [sigLen, reduceCtorEq, if_false] at hsize
    rw [if_neg, if_neg]
    · simp only [List.length_append, header_length, hS.mac_length, hp]
      have := hblk rfl
      have e : size - 16 = 8 + c.body.length + padLen (W.sym ch.policy) .signAndEncrypt c.paddingSize + (W.sym ch.policy).sigSize := by
        omega
      rw [e] at this
      omega
    · simp only [List.length_append, header_length, hS.mac_length, hp]
      omega

theorem loop_calm {W : World} {ch : SChan} {lim : Limits} (hS : (W.sym ch.policy).Lawful) (hmade : ch.keyPolicy = ch.policy)
    (hk : ch.chan.mode ≠ .none → ch.chan.sendKey.isSome = true)
    (hroom : 0 < maxBody (W.sym ch.policy) ch.chan.mode lim.send) (rid : BitVec 32) :
    ∀ (n : Nat) (body : Bytes) (count : Nat) (seq : BitVec 32), body.length = n →
      (answerLoop W ch lim rid count seq body).fin ≠ .panic := by
  intro n
  induction n using Nat.strongRecOn with
  | ind n ih =>
    intro body count seq hn
    rw [answerLoop]
    by_cases hb : body.length = 0
    · rw [dif_pos hb]; intro h; cases h
    · rw [dif_neg hb]
      split
      · intro h; cases h
      · have hps := plan_bodySize (W.sym ch.policy) ch.chan.mode lim.send body.length
        dsimp only
        rw [dif_neg (by omega)]
        split
        · rename_i hseal
          refine absurd hseal ?_
          by_cases hm : ch.chan.mode = .none
          · unfold sealAnswer; rw [hm]; intro h; cases h
          · have hpl := plan_ok hS ch.chan.mode lim.send body.length (by omega) hroom (fun e => absurd e hm)
            obtain ⟨key, hkey⟩ := Option.isSome_iff_exists.1 (hk hm)
            rw [seal_ok hS hmade key (fun _ => hkey) _ _ _ hpl.fits hpl.blocks]
            · intro h; cases h
            · dsimp only
              rw [List.length_take, Nat.min_eq_left hpl.le]
              exact hpl.size
        · intro h; cases h
        · exact ih _ (by rw [List.length_drop]; omega) _ _ _ rfl

theorem answer_calm {W : World} {ch : SChan} {lim : Limits} (hS : (W.sym ch.policy).Lawful) (hmade : ch.keyPolicy = ch.policy)
    (hk : ch.chan.mode ≠ .none → ch.chan.sendKey.isSome = true)
    (hroom : 0 < maxBody (W.sym ch.policy) ch.chan.mode lim.send) (rid seq : BitVec 32) (body : Bytes) :
    (answer W ch lim rid seq body).fin ≠ .panic := by
  unfold answer
  split
  · intro h; cases h
  · exact loop_calm hS hmade hk hroom rid _ body 0 seq rfl

theorem inv_step {p : Setup} {pol : Policy} {mode : Mode} {k : Conn} (h : Inv pol mode k) (e : Ev)
    (hup : k.life = .up)
    (ho : match e with
      | .frame f _ => k.life = .up → IsOpen f → ∀ ch g, recvFrame p.W k.ch f = .ok (ch, g) →
          ch.policy = k.ch.policy ∧ ∃ r, p.decode (k.acc ++ g.body) = some (.renew r)
      | .answer _ _ => True) : (step p k e).life = .up → Inv pol mode (step p k e) := by
  unfold step
  rw [hup]
  dsimp only
  cases e with
  | frame f nonce =>
    dsimp only at ho ⊢
    unfold frame
    cases hr : recvFrame p.W k.ch f with
    | panic => intro h; cases h
    | err s => intro h; cases h
    | ok q =>
      obtain ⟨ch, g⟩ := q
      have hopen := fun hf => ho hup hf ch g hr
      obtain ⟨h1, h2, h3, h4, h5, h6⟩ := inv_recv h hr (fun hf => (hopen hf).1)
      dsimp only
      split
      · split
        · intro h; cases h
        · split
          · intro h; cases h
          · intro _
            exact ⟨h1, h2, h3, h4, fun ha hm => h5 (h.heard ha hm)⟩
        · rename_i hd
          intro _
          refine ⟨h1, h2, h3, h4, fun _ hm => h6 (fun hf => ?_) hm⟩
          obtain ⟨r, hr⟩ := (hopen hf).2
          rw [hd] at hr
          cases hr
      · intro _
        exact ⟨h1, h2, h3, h4, fun ha hm => h5 (h.heard ha hm)⟩
  | answer i body =>
    dsimp only
    unfold answered
    split
    · exact fun _ => h
    · rename_i rid hi
      intro _
      refine ⟨h.policy, h.made, h.kept, h.keys, fun _ hm => h.heard ?_ hm⟩
      intro e
      rw [e] at hi
      cases hi

/-- **C136 (partial).** On a channel whose OPN frames only ask for new tokens under the policy of the channel no answer ends
the server, whatever chunks arrive in what order, how often the token is renewed, and whenever and however large the
answers are. What is missing is that nothing enforces this of OPN frames: see `C136_first_fails`, `C136_policy_fails` and
`C136_renewal_fails`. (`pol ≠ none` or mode None: another channel cannot be opened, `RSASign` fails.) -/
theorem C136_answers_partial (p : Setup) (cid : BitVec 32) (mode : Mode) (l r : Bytes) (pol : Policy) (cert : Option Bytes)
    (rk : Option Nat) (hS : (p.W.sym pol).Lawful) (hroom : 0 < maxBody (p.W.sym pol) mode p.lim.send) (evs : List Ev)
    (ho : Orderly p (fresh cid mode l r pol cert rk) evs) :
    (run p (fresh cid mode l r pol cert rk) evs).life ≠ .answerPanic := by
  have main : ∀ (evs : List Ev) (k : Conn), k.life ≠ .answerPanic → (k.life = .up → Inv pol mode k) → Orderly p k evs →
      (run p k evs).life ≠ .answerPanic := by
    intro evs
    induction evs with
    | nil => exact fun k h _ _ => h
    | cons e es ih =>
      intro k hk hi ho
      by_cases hup : k.life = .up
      · refine ih _ ?_ (inv_step (hi hup) e hup ho.1) ho.2
        unfold step
        rw [hup]
        dsimp only
        cases e with
        | frame f nonce =>
          dsimp only
          unfold frame
          repeat' split
          all_goals first | (intro h; cases h; done) | (dsimp only; rw [hup]; intro h; cases h)
        | answer i body =>
          dsimp only
          unfold answered
          split
          · exact hk
          · rename_i rid hrid
            have hinv := hi hup
            have := answer_calm (W := p.W) (ch := k.ch) (lim := p.lim) (by rw [hinv.policy]; exact hS)
              (hinv.made.trans hinv.policy.symm)
              (fun hm => hinv.heard (fun e => by rw [e] at hrid; cases hrid) (by rw [← hinv.kept]; exact hm))
              (by rw [hinv.policy, hinv.kept]; exact hroom) rid k.seq body
            dsimp only
            split
            · intro h; cases h
            · intro h; cases h
            · intro h; cases h
            · rename_i hf; exact absurd hf this
      · have hs : step p k e = k := by
          unfold step
          cases hl : k.life <;> first | exact absurd hl hup | rfl
        have := ih (step p k e) (by rw [hs]; exact hk) (by rw [hs]; exact fun h => absurd h hup) ho.2
        exact this
  refine main evs _ (by intro h; cases h) (fun _ => ⟨rfl, rfl, rfl, rfl, fun h => absurd rfl h⟩) ho

/-! ### What an answer is -/

/-- How `sendMessage` ends, as an end of an answer. -/
def finOf : SendEnd → Fin
  | .sent => .sent
  | .failed s => .failed s
  | .stuck => .stuck

theorem loop_eq {W : World} {ch : SChan} {lim : Limits} (hS : (W.sym ch.policy).Lawful) (hmade : ch.keyPolicy = ch.policy)
    (key : Bytes) (hk : ch.chan.mode ≠ .none → ch.chan.sendKey = some key)
    (hnone : ch.chan.mode = .none → (W.sym ch.policy).sigSize = 0)
    (hroom : 0 < maxBody (W.sym ch.policy) ch.chan.mode lim.send) (rid : BitVec 32) :
    ∀ (n : Nat) (body : Bytes) (count : Nat) (seq : BitVec 32), body.length = n →
      answerLoop W ch lim rid count seq body =
        (let r := sendLoop (W.sym ch.policy) ⟨ch.chan.mode, lim.send, ch.chan.channelID, ch.chan.tokenID, key, lim.maxMessage,
          lim.maxChunks⟩ .badResponseTooLarge rid count seq body
        ⟨r.chunks.map (fun c => sealChunk (W.sym ch.policy) ch.chan.mode key c.2 c.1), r.seq, finOf r.fin⟩) := by
  intro n
  induction n using Nat.strongRecOn with
  | ind n ih =>
    intro body count seq hn
    rw [answerLoop, sendLoop]
    by_cases hb : body.length = 0
    · rw [dif_pos hb, dif_pos hb]; rfl
    · rw [dif_neg hb, dif_neg hb]
      dsimp only
      by_cases hc : lim.maxChunks > 0 ∧ count + 1 > lim.maxChunks
      · rw [if_pos hc, if_pos hc]; rfl
      · rw [if_neg hc, if_neg hc]
        have hps := plan_bodySize (W.sym ch.policy) ch.chan.mode lim.send body.length
        have hpl := plan_ok hS ch.chan.mode lim.send body.length (by omega) hroom hnone
        rw [dif_neg (by omega), dif_neg (by omega)]
        rw [seal_ok hS hmade key hk _ _ (by
          dsimp only
          rw [List.length_take, Nat.min_eq_left hpl.le]
          exact hpl.size) hpl.fits hpl.blocks]
        dsimp only
        rw [ih _ (by rw [List.length_drop]; omega) _ _ _ rfl]
        rfl

/-- **C136 (answers).** And then the answer is the message of C23 and C24, sealed with the key of the token in use: what
`C23_chunking`, `C25_round_trip` and `C124_round_trip` say of it holds for answers. -/
theorem C136_as_sent (W : World) (ch : SChan) (lim : Limits) (hS : (W.sym ch.policy).Lawful) (hmade : ch.keyPolicy = ch.policy)
    (key : Bytes) (hk : ch.chan.mode ≠ .none → ch.chan.sendKey = some key)
    (hnone : ch.chan.mode = .none → (W.sym ch.policy).sigSize = 0)
    (hroom : 0 < maxBody (W.sym ch.policy) ch.chan.mode lim.send) (rid seq : BitVec 32) (body : Bytes) :
    ((answer W ch lim rid seq body).frames, (answer W ch lim rid seq body).fin) =
      (let m := sendMessage (W.sym ch.policy) ⟨ch.chan.mode, lim.send, ch.chan.channelID, ch.chan.tokenID, key, lim.maxMessage,
        lim.maxChunks⟩ .badResponseTooLarge rid seq body
      (m.1, finOf m.2)) := by
  unfold answer sendMessage
  dsimp only
  split
  · rfl
  · rw [loop_eq hS hmade key hk hnone hroom rid _ body 0 seq rfl]

/-- `n` sequence numbers further. -/
def onward : Nat → BitVec 32 → BitVec 32
  | 0, q => q
  | n + 1, q => onward n (nextSeq q)

theorem onward_add (a b : Nat) (q : BitVec 32) : onward (a + b) q = onward b (onward a q) := by
  induction a generalizing q with
  | zero => rw [Nat.zero_add]; rfl
  | succ a ih => rw [Nat.succ_add]; exact ih (nextSeq q)

theorem loop_numbers (W : World) (ch : SChan) (lim : Limits) (rid : BitVec 32) (n : Nat) :
    ∀ (body : Bytes) (count : Nat) (seq : BitVec 32), body.length = n →
      (answerLoop W ch lim rid count seq body).fin = .sent →
      (answerLoop W ch lim rid count seq body).seq = onward (answerLoop W ch lim rid count seq body).frames.length seq := by
  induction n using Nat.strongRecOn with
  | _ n ih =>
    intro body count seq hn h
    rw [answerLoop] at h ⊢
    split
    · rfl
    · rename_i hb
      rw [dif_neg hb] at h
      split
      · rename_i hc
        rw [if_pos hc] at h; cases h
      · rename_i hc
        rw [if_neg hc] at h
        dsimp only at h ⊢
        split
        · rename_i hp
          rw [dif_pos hp] at h; cases h
        · rename_i hp
          rw [dif_neg hp] at h
          split
          · rename_i hs; rw [hs] at h; cases h
          · rename_i hs; rw [hs] at h; cases h
          · rename_i f hs
            rw [hs] at h
            dsimp only at h ⊢
            refine ih _ ?_ _ _ _ rfl h
            rw [List.length_drop]; omega

theorem answer_numbers (W : World) (ch : SChan) (lim : Limits) (rid seq : BitVec 32) (body : Bytes)
    (h : (answer W ch lim rid seq body).fin = .sent) :
    (answer W ch lim rid seq body).seq = onward (answer W ch lim rid seq body).frames.length seq := by
  unfold answer at h ⊢
  split
  · rename_i hc
    rw [if_pos hc] at h; cases h
  · rename_i hc
    rw [if_neg hc] at h
    exact loop_numbers W ch lim rid _ body 0 seq rfl h

/-- The numbers go on from answer to answer: a channel that is up has used one for each frame that it sent, and besides at
most one for each frame that it took (the answer to a renewal). -/
theorem C136_numbers (p : Setup) (evs : List Ev) : ∀ (k : Conn), (run p k evs).life = .up →
    ∃ n m, n ≤ evs.countP (fun e => match e with | .frame _ _ => true | .answer _ _ => false) ∧
      (run p k evs).out.length = k.out.length + m ∧ (run p k evs).seq = onward (m + n) k.seq := by
  induction evs with
  | nil => intro k _; exact ⟨0, 0, Nat.le_refl _, rfl, rfl⟩
  | cons e es ih =>
    intro k h
    obtain ⟨n, m, hn, hm, hs⟩ := ih (step p k e) h
    have hup : ∀ (es : List Ev) (k : Conn), (run p k es).life = .up → k.life = .up := by
      intro es
      induction es with
      | nil => intro k h; exact h
      | cons e es ih =>
        intro k h
        have h1 := ih _ h
        cases hl : k.life with
        | up => rfl
        | _ =>
          unfold step at h1
          rw [hl] at h1
          dsimp only at h1
          rw [hl] at h1
          cases h1
    have h1 := hup es _ h
    have h0 := hup (e :: es) k h
    change ∃ n m, _ ∧ (run p (step p k e) es).out.length = _ ∧ (run p (step p k e) es).seq = _
    rw [hm, hs]
    cases e with
    | frame f nonce =>
      have key : (step p k (.frame f nonce)).out = k.out ∧
          ((step p k (.frame f nonce)).seq = k.seq ∨ (step p k (.frame f nonce)).seq = nextSeq k.seq) := by
        unfold step
        rw [h0]
        dsimp only
        unfold frame
        split
        · exact ⟨rfl, .inl rfl⟩
        · exact ⟨rfl, .inl rfl⟩
        · split
          · split
            · exact ⟨rfl, .inl rfl⟩
            · split
              · exact ⟨rfl, .inl rfl⟩
              · exact ⟨rfl, .inr rfl⟩
            · exact ⟨rfl, .inl rfl⟩
          · exact ⟨rfl, .inl rfl⟩
      rw [key.1]
      rcases key.2 with hq | hq
      · exact ⟨n, m, by rw [List.countP_cons]; omega, rfl, by rw [hq]⟩
      · refine ⟨n + 1, m, by rw [List.countP_cons_of_pos (by rfl)]; omega, rfl, ?_⟩
        rw [hq]; rfl
    | answer i body =>
      have hst : step p k (.answer i body) = answered p k i body := by unfold step; rw [h0]
      rw [hst] at h1 ⊢
      unfold answered at h1 ⊢
      cases ha : k.asked[i]? with
      | none =>
        exact ⟨n, m, by rw [List.countP_cons]; omega, rfl, rfl⟩
      | some rid =>
        rw [ha] at h1
        dsimp only at h1 ⊢
        have hf : (answer p.W k.ch p.lim rid k.seq body).fin = .sent := by
          cases hfin : (answer p.W k.ch p.lim rid k.seq body).fin with
          | sent => rfl
          | _ => rw [hfin] at h1; cases h1
        refine ⟨n, (answer p.W k.ch p.lim rid k.seq body).frames.length + m, by rw [List.countP_cons]; omega, ?_, ?_⟩
        · rw [List.length_append]; omega
        · rw [answer_numbers p.W k.ch p.lim rid k.seq body hf, ← onward_add, Nat.add_assoc]

/-! ### How it fails -/

/-- One frame that is a whole message with a request. -/
theorem step_service {p : Setup} {k : Conn} {f nonce : Bytes} {ch : SChan} {g : Frag} (hup : k.life = .up) (ha : k.acc = [])
    (hr : recvFrame p.W k.ch f = .ok (ch, g)) (hf : g.final = true) (hd : p.decode g.body = some .service) :
    step p k (.frame f nonce) = { k with
      ch := ch
      acc := []
      asked := k.asked ++ [g.requestID] } := by
  unfold step
  rw [hup]
  dsimp only
  unfold frame
  rw [hr]
  dsimp only
  rw [if_pos hf, ha, List.nil_append, hd]
  dsimp only
  rw [hup]

theorem run_two (p : Setup) (k : Conn) (a b : Ev) : run p k [a, b] = step p (step p k a) b := rfl

/-- The only chunk of a short answer. -/
theorem answer_panics {W : World} {ch : SChan} {lim : Limits} {rid seq : BitVec 32} {body : Bytes} (hb : body ≠ [])
    (hroom : 0 < maxBody (W.sym ch.policy) ch.chan.mode lim.send) (hmax : lim.maxMessage = 0 ∨ body.length ≤ lim.maxMessage)
    (hp : ∀ c : Chunk, c.body = body.take (plan (W.sym ch.policy) ch.chan.mode lim.send body.length).bodySize →
      c.paddingSize = (plan (W.sym ch.policy) ch.chan.mode lim.send body.length).paddingSize →
      sealAnswer W ch lim.send (plan (W.sym ch.policy) ch.chan.mode lim.send body.length).chunkSize c = .panic) :
    (answer W ch lim rid seq body).fin = .panic := by
  have hn : 0 < body.length := List.length_pos_iff.2 hb
  have hps := plan_bodySize (W.sym ch.policy) ch.chan.mode lim.send body.length
  unfold answer
  rw [if_neg (by omega), answerLoop, dif_neg (by omega), if_neg (by omega)]
  dsimp only
  rw [dif_neg (by omega), hp _ rfl rfl]

/-- **C136 fails (first request).** On every secured channel that was just opened one frame, made of a request and constants
alone, ends the process: the request comes in an OPN frame, before any chunk brought a token into use, so there is no
key to sign the answer with. -/
theorem C136_first_fails (b : Bytes) (hlen : b.length < 2 ^ 31) :
    ∃ f, ∀ (p : Setup) (cid : BitVec 32) (mode : Mode) (l r : Bytes) (pol : Policy) (cert : Option Bytes) (rk : Option Nat)
      (body nonce : Bytes), mode ≠ .none → p.decode b = some .service → body ≠ [] →
      0 < maxBody (p.W.sym .none) mode p.lim.send → (p.lim.maxMessage = 0 ∨ body.length ≤ p.lim.maxMessage) →
      (run p (fresh cid mode l r pol cert rk) [.frame f nonce, .answer 0 body]).life = .answerPanic := by
  refine ⟨plainOpn 0 0 0 b, ?_⟩
  intro p cid mode l r pol cert rk body nonce hm hd hb hroom hmax
  have hr := plainOpn_accepted p.W (fresh cid mode l r pol cert rk).ch 0 0 0 b hlen
  have h1 := step_service (p := p) (k := fresh cid mode l r pol cert rk) (nonce := nonce) rfl rfl hr rfl hd
  rw [run_two, h1]
  have := answer_panics (W := p.W) (ch := { (fresh cid mode l r pol cert rk).ch with
      policy := .none
      remoteCert := none }) (lim := p.lim) (rid := 0) (seq := 0) hb hroom hmax (by
    intro c _ _
    unfold sealAnswer
    cases mode with
    | none => exact absurd rfl hm
    | sign => rfl
    | signAndEncrypt => rfl)
  show (match (answer p.W _ p.lim 0 0 body).fin with
    | .sent => Life.up
    | .failed _ => .closed
    | .stuck => .hung
    | .panic => .answerPanic) = _
  rw [this]

/-- **C136 fails (policy).** The same frame ends the process on every channel in mode SignAndEncrypt that is in use, as soon
as the request is answered with an even number of bytes (a WriteResponse is one): the sizes are then those of the
policy None, and what is signed with the key of the token fills no whole number of blocks. -/
theorem C136_policy_fails (b : Bytes) (hlen : b.length < 2 ^ 31) :
    ∃ f, ∀ (p : Setup) (k : Conn) (key body nonce : Bytes), k.life = .up → k.acc = [] → k.asked = [] →
      k.ch.chan.mode = .signAndEncrypt → k.ch.chan.sendKey = some key → (p.W.sym k.ch.keyPolicy).Lawful →
      (p.W.sym k.ch.keyPolicy).block % 2 = 0 → (p.W.sym k.ch.keyPolicy).sigSize % 2 = 0 →
      (p.W.sym .none).block = 1 → (p.W.sym .none).sigSize = 0 → p.decode b = some .service →
      body ≠ [] → body.length % 2 = 0 → 25 + body.length + (p.W.sym k.ch.keyPolicy).sigSize ≤ p.lim.send →
      (p.lim.maxMessage = 0 ∨ body.length ≤ p.lim.maxMessage) →
      (run p k [.frame f nonce, .answer 0 body]).life = .answerPanic := by
  refine ⟨plainOpn 0 0 0 b, ?_⟩
  intro p k key body nonce hup hacc hask hm hk hS hb2 hs2 hnb hns hd hb heven hfit hmax
  have hr := plainOpn_accepted p.W k.ch 0 0 0 b hlen
  have h1 := step_service (p := p) (k := k) (nonce := nonce) hup hacc hr rfl hd
  have hn : 0 < body.length := List.length_pos_iff.2 hb
  rw [run_two, h1]
  have hmb : maxBody (p.W.sym .none) .signAndEncrypt p.lim.send = (p.lim.send : Int) - 25 := by
    unfold maxBody
    dsimp only
    rw [hnb, hns]
    have : padHeader 1 = 1 := rfl
    rw [this]
    simp only [Int.ofNat_one, Int.tdiv_one, Int.mul_one]
    omega
  have hpl := plan_bodySize (p.W.sym .none) .signAndEncrypt p.lim.send body.length
  have hpad : (plan (p.W.sym .none) .signAndEncrypt p.lim.send body.length).paddingSize = 0 := by
    unfold plan
    dsimp only
    split
    · dsimp only; rw [hnb]; omega
    · rfl
  have := answer_panics (W := p.W) (ch := { k.ch with
      policy := .none
      remoteCert := none }) (lim := p.lim) (rid := 0) (seq := k.seq) hb (by dsimp only; rw [hm, hmb]; omega) hmax (by
    intro c hc1 hc2
    dsimp only at hc1 hc2 ⊢
    rw [hm] at hc1 hc2 ⊢
    have hc1 : c.body.length = body.length := by rw [hc1, List.length_take, hpl, hmb]; omega
    have hpay : (payload (p.W.sym .none) .signAndEncrypt c).length = 9 + body.length := by
      rw [payload_length, hc1]
      unfold padLen
      rw [if_pos rfl, hc2, hpad, hnb]
      show 8 + body.length + (0 + 1) = _
      omega
    unfold sealAnswer
    dsimp only
    rw [hm, hk]
    dsimp only
    rw [if_neg, if_pos]
    · simp only [List.length_append, hpay, hS.mac_length]
      intro h
      have h3 : (9 + body.length + (p.W.sym k.ch.keyPolicy).sigSize) % 2 = 0 := by
        obtain ⟨q, hq⟩ := Nat.dvd_of_mod_eq_zero h
        obtain ⟨q2, hq2⟩ := Nat.dvd_of_mod_eq_zero hb2
        rw [hq, hq2, Nat.mul_assoc, Nat.mul_mod_right]
      omega
    · simp only [List.length_append, header_length, hpay, hS.mac_length]
      omega)
  unfold step
  dsimp only
  rw [hup]
  dsimp only
  unfold answered
  dsimp only
  rw [hask]
  show (match (answer p.W _ p.lim 0 k.seq body).fin with
    | .sent => Life.up
    | .failed _ => .closed
    | .stuck => .hung
    | .panic => .answerPanic) = _
  rw [this]

/-- **C136 fails (renewal).** A renewal under another policy ends the process with the next answer, if the signatures of the
two policies differ in size (by no multiple of a block: 20 bytes and 32): the sizes are those of the new policy, the
signature is still that of the old one. The frame may be signed by the client itself or by anyone else. -/
theorem C136_renewal_fails {A : ASuite} (hA : A.Lawful) (p : Setup) (pol : Policy) (hpol : pol ≠ .none) (peer : Nat)
    (cert thumb : Bytes) (hW : p.W.Has pol peer cert A) (k : Conn) (hup : k.life = .up) (hacc : k.acc = []) (rid0 : BitVec 32)
    (hask : k.asked = [rid0]) (hm : k.ch.chan.mode = .signAndEncrypt) (key : Bytes) (hk : k.ch.chan.sendKey = some key)
    (hS : (p.W.sym k.ch.keyPolicy).Lawful) (hS2 : (p.W.sym pol).Lawful)
    (hblk : (p.W.sym pol).block = (p.W.sym k.ch.keyPolicy).block) (hsmall : (p.W.sym pol).block ≤ 256)
    (hsig : (p.W.sym k.ch.keyPolicy).sigSize % (p.W.sym pol).block ≠ (p.W.sym pol).sigSize % (p.W.sym pol).block)
    (send : Nat) (hsend : send < 2 ^ 32) (cid seq rid : BitVec 32) (b frame remote : Bytes) (hb0 : b ≠ [])
    (hct : cert.length < 2 ^ 31) (hth : thumb.length = 20)
    (hseal : sealOpn A send cid seq rid pol.uri cert thumb b = some frame) (hd : p.decode b = some (.renew remote))
    (body nonce : Bytes) (hb : body ≠ [])
    (hfit : 25 + body.length + (p.W.sym pol).block + (p.W.sym pol).sigSize ≤ p.lim.send)
    (hfit2 : 25 + body.length + (p.W.sym pol).block + (p.W.sym k.ch.keyPolicy).sigSize ≤ p.lim.send)
    (hmax : p.lim.maxMessage = 0 ∨ body.length ≤ p.lim.maxMessage) :
    (run p k [.frame frame nonce, .answer 0 body]).life = .answerPanic := by
  have hr := (C24_open_message hA p.W pol hpol peer cert thumb hW k.ch send hsend cid seq rid b frame hb0 hct hth hseal).2.2
  have hn : 0 < body.length := List.length_pos_iff.2 hb
  have h1 : step p k (.frame frame nonce) = { k with
      ch := { k.ch with
        policy := pol
        remoteCert := some cert
        remoteKey := some peer
        chan := renew k.ch.chan nonce remote }
      acc := []
      seq := nextSeq k.seq } := by
    unfold step
    rw [hup]
    dsimp only
    unfold Answer.frame
    rw [hr]
    dsimp only
    rw [if_pos rfl, hacc, List.nil_append, hd]
    dsimp only
    rw [if_neg (fun e => hpol e.1), hup]
  rw [run_two, h1]
  have hph : padHeader (p.W.sym pol).block = 1 := by unfold padHeader; rw [if_neg (by omega)]
  have hbp := hS2.block_pos
  have hmb : (body.length : Int) < maxBody (p.W.sym pol) .signAndEncrypt p.lim.send := by
    unfold maxBody
    dsimp only
    have e : ((p.lim.send : Int) - 16).tdiv (p.W.sym pol).block = (((p.lim.send - 16) / (p.W.sym pol).block : Nat) : Int) := by
      have : ((p.lim.send : Int) - 16) = ((p.lim.send - 16 : Nat) : Int) := by omega
      rw [this]; exact (Int.ofNat_tdiv _ _).symm
    rw [e, hph]
    have h3 := Nat.mod_lt (p.lim.send - 16) hbp
    have h4 := Nat.div_add_mod (p.lim.send - 16) (p.W.sym pol).block
    rw [Nat.mul_comm] at h4
    have h5 : (((p.lim.send - 16) / (p.W.sym pol).block : Nat) : Int) * ((p.W.sym pol).block : Int) =
        (((p.lim.send - 16) / (p.W.sym pol).block * (p.W.sym pol).block : Nat) : Int) := by
      push_cast; rfl
    rw [h5]
    omega
  have hplan : plan (p.W.sym pol) .signAndEncrypt p.lim.send body.length =
      ⟨body.length, ((p.W.sym pol).block - ((8 + body.length + 1 + (p.W.sym pol).sigSize) % (p.W.sym pol).block)) % (p.W.sym pol).block,
        16 + 8 + body.length + ((p.W.sym pol).block - ((8 + body.length + 1 + (p.W.sym pol).sigSize) % (p.W.sym pol).block)) %
          (p.W.sym pol).block + 1 + (p.W.sym pol).sigSize⟩ := by
    unfold plan
    dsimp only
    rw [if_pos hmb, hph]
  obtain ⟨hround, hpad⟩ := pad_round (p.W.sym pol).block (8 + body.length + 1 + (p.W.sym pol).sigSize) hbp
  have := answer_panics (W := p.W) (ch := { k.ch with
        policy := pol
        remoteCert := some cert
        remoteKey := some peer
        chan := renew k.ch.chan nonce remote }) (lim := p.lim) (rid := rid0) (seq := nextSeq k.seq) hb (by
      show 0 < maxBody (p.W.sym pol) k.ch.chan.mode p.lim.send
      rw [hm]; omega) hmax (by
    intro c hc1 hc2
    have hmode : (renew k.ch.chan nonce remote).mode = .signAndEncrypt := hm
    have hkey : (renew k.ch.chan nonce remote).sendKey = some key := hk
    dsimp only at hc1 hc2 ⊢
    rw [hmode, hplan] at hc1 hc2 ⊢
    dsimp only at hc1 hc2 ⊢
    generalize ((p.W.sym pol).block - ((8 + body.length + 1 + (p.W.sym pol).sigSize) % (p.W.sym pol).block)) % (p.W.sym pol).block = P at *
    have hpay : (payload (p.W.sym pol) .signAndEncrypt c).length = 9 + body.length + P := by
      rw [payload_length, hc1, List.length_take, Nat.min_self]
      unfold padLen
      rw [if_pos rfl, hc2, hph]
      omega
    unfold sealAnswer
    dsimp only
    rw [hmode, hkey]
    dsimp only
    rw [if_neg, if_pos]
    · simp only [List.length_append, hpay, hS.mac_length]
      rw [← hblk]
      intro h
      refine hsig ?_
      have h5 : (9 + body.length + P + (p.W.sym pol).sigSize) % (p.W.sym pol).block = 0 := by rw [← hround]; congr 1; omega
      have h6 : (9 + body.length + P + (p.W.sym k.ch.keyPolicy).sigSize) % (p.W.sym pol).block = 0 := h
      generalize 9 + body.length + P = X at h5 h6
      generalize (p.W.sym pol).sigSize = s2 at h5 ⊢
      generalize (p.W.sym k.ch.keyPolicy).sigSize = s1 at h6 ⊢
      generalize (p.W.sym pol).block = B at *
      obtain ⟨q1, e1⟩ := Nat.dvd_of_mod_eq_zero h5
      obtain ⟨q2, e2⟩ := Nat.dvd_of_mod_eq_zero h6
      have : s1 + B * q1 = s2 + B * q2 := by omega
      have h7 : (s1 + B * q1) % B = (s2 + B * q2) % B := by rw [this]
      rwa [Nat.add_mul_mod_self_left, Nat.add_mul_mod_self_left] at h7
    · simp only [List.length_append, header_length, hpay, hS.mac_length]
      omega)
  unfold step
  dsimp only
  rw [hup]
  dsimp only
  unfold answered
  dsimp only
  rw [hask]
  show (match (answer p.W _ p.lim rid0 (nextSeq k.seq) body).fin with
    | .sent => Life.up
    | .failed _ => .closed
    | .stuck => .hung
    | .panic => .answerPanic) = _
  rw [this]

/-! ### Examples -/

/-- Policies with the sizes of the real ones: no signature and blocks of one byte under None, 20 bytes under Basic128Rsa15, 32
under the others. -/
def exW : World := { toyW with
  sym := fun pol => match pol with
    | .none => xorSuite 0 1
    | .basic128Rsa15 => xorSuite 20 16
    | .basic256 => xorSuite 20 16
    | _ => xorSuite 32 16 }

def exSetup : Setup where
  W := exW
  lim := ⟨8192, 0, 0⟩
  decode
    | [1] => some .service
    | [2] => some (.renew [3])
    | _ => none

def exFresh (mode : Mode) : Conn := fresh 1 mode [1] [2] .basic256Sha256 (some [9]) (some 5)

/-- A chunk with a request under the first token. -/
def exChunk (mode : Mode) : Bytes :=
  sealChunk (xorSuite 32 16) mode [1, 2] (if mode = .signAndEncrypt then 64 else 57) ⟨true, 1, 1, 1, 7, [1], 6⟩

def exOut (mode : Mode) (evs : List Ev) : Life × List Nat :=
  let k := run exSetup (exFresh mode) evs
  (k.life, k.out.map List.length)

/-- A request in a chunk is answered, in either mode, in several chunks if need be. -/
example : exOut .signAndEncrypt [.frame (exChunk .signAndEncrypt) [], .answer 0 (List.replicate 36 7)] = (.up, [96]) ∧
    exOut .sign [.frame (exChunk .sign) [], .answer 0 (List.replicate 36 7)] = (.up, [92]) ∧
    (run { exSetup with lim := ⟨128, 0, 0⟩ } (exFresh .signAndEncrypt) [.frame (exChunk .signAndEncrypt) [],
      .answer 0 (List.replicate 200 7)]).out.map List.length = [128, 128, 128] := by decide +kernel

/-- The numbers of two answers, the first of three chunks. -/
example : (run { exSetup with lim := ⟨128, 0, 0⟩ } (exFresh .signAndEncrypt) [.frame (exChunk .signAndEncrypt) [],
    .frame (exChunk .signAndEncrypt) [], .answer 0 (List.replicate 200 7), .answer 0 [1]]).seq = 4 := by decide +kernel

/-- And then the channel is still up: it takes a second request. -/
example : exOut .signAndEncrypt [.frame (exChunk .signAndEncrypt) [], .frame (exChunk .signAndEncrypt) [],
    .answer 1 (List.replicate 35 7), .answer 0 [1], .answer 0 [1]] = (.up, [96, 64]) := by decide +kernel

/-- The failures. In mode Sign the answer goes out after a change of policy, but with a length that is not its own. -/
example : (exOut .sign [.frame (plainOpn 0 0 0 [1]) [], .answer 0 [1]]).1 = .answerPanic ∧
    (exOut .signAndEncrypt [.frame (exChunk .signAndEncrypt) [], .answer 0 [1], .frame (plainOpn 0 0 0 [1]) [],
      .answer 0 (List.replicate 36 7)]) = (.answerPanic, [64]) ∧
    (exOut .sign [.frame (exChunk .sign) [], .answer 0 [1], .frame (plainOpn 0 0 0 [1]) [],
      .answer 0 (List.replicate 36 7)]) = (.up, [57, 92]) := by decide +kernel
example : (sealOpn toyA 400 0 0 9 (Policy.uri .basic128Rsa15) [9] (List.replicate 20 1) [2]).map (fun f =>
    exOut .signAndEncrypt [.frame (exChunk .signAndEncrypt) [], .frame f [4], .answer 0 (List.replicate 36 7)]) =
    some (.answerPanic, []) := by decide +kernel
/-- Under the same policy a renewal does no harm. -/
example : (sealOpn toyA 400 0 0 9 (Policy.uri .basic256Sha256) [9] (List.replicate 20 1) [2]).map (fun f =>
    exOut .signAndEncrypt [.frame (exChunk .signAndEncrypt) [], .frame f [4], .answer 0 (List.replicate 36 7)]) =
    some (.up, [96]) := by decide +kernel

/-- The sizes meet what the theorems ask for. -/
example : (∀ pol, 0 < (exW.sym pol).block ∧ (exW.sym pol).block ≤ 16 ∧ (exW.sym pol).sigSize ≤ 32) ∧
    (∀ pol, (exW.sym pol).Lawful) ∧ 0 < maxBody (exW.sym .basic256Sha256) .signAndEncrypt 8192 ∧
    (exW.sym .basic256Sha256).sigSize % 16 ≠ (exW.sym .basic128Rsa15).sigSize % 16 := by
  refine ⟨?_, ?_, by decide, by decide⟩
  · intro pol; cases pol <;> decide
  · intro pol; cases pol <;> exact xorSuite_lawful _ _ (by decide) (by decide)

/-- An orderly history with a request, its answer and a renewal. -/
example : ∃ f, sealOpn toyA 400 0 0 9 (Policy.uri .basic256Sha256) [9] (List.replicate 20 1) [2] = some f ∧
    Orderly exSetup (exFresh .sign) [.frame (exChunk .sign) [], .answer 0 [1], .frame f [4]] := by
  have hex : ∃ f, sealOpn toyA 400 0 0 9 (Policy.uri .basic256Sha256) [9] (List.replicate 20 1) [2] = some f := by
    unfold sealOpn
    dsimp only
    rw [if_neg (by decide)]
    exact ⟨_, rfl⟩
  obtain ⟨f, hf⟩ := hex
  refine ⟨f, hf, ⟨fun _ ho => absurd ho (by unfold IsOpen; decide +kernel), trivial, ?_, trivial⟩⟩
  intro _ _ ch g hr
  have h1 : (step exSetup (step exSetup (exFresh .sign) (.frame (exChunk .sign) [])) (.answer 0 [1])).acc = [] := by decide +kernel
  have h2 : (step exSetup (step exSetup (exFresh .sign) (.frame (exChunk .sign) [])) (.answer 0 [1])).ch.policy =
      .basic256Sha256 := by decide +kernel
  rw [(C24_open_message toyA_lawful exSetup.W .basic256Sha256 (by decide) 5 [9] (List.replicate 20 1) ⟨rfl, rfl, rfl, rfl, rfl⟩ _ 400
    (by decide) 0 0 9 [2] f (by decide) (by decide) rfl hf).2.2] at hr
  cases hr
  exact ⟨h2.symm, [3], by rw [h1]; rfl⟩

end Opcua.Answer
