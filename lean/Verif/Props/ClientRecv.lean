import Verif.Model.ClientRecv
import Verif.Lemmas.Channel
import Verif.Lemmas.Lists
import Verif.Lemmas.Trunc
import Verif.Props.Channel
import Verif.Props.OpenChannel

/-! C124: the client takes as a response only what its server has made. -/

namespace Opcua.ClientRecv

open Opcua.Channel (Suite Mode Limits Chunk Sender Status Out Frag sealChunk header tyChunk tyFinal tyOpen tyError tyAbort
  u32At decryptFrame verifyFrame fragOf xorSuite maxBody ASuite Policy sealOpn asymPlan asymPlan_ok padHeader block_lt_pow
  opnHeader padBytes padBytes_length writeU32_length writeString_length writeByteArray_length encBlocks encBlocks_spec
  opn_read opnBody_spec uri_length)

/-! ### Specification -/

namespace Spec

/-- The decrypted frame `data` carries the MAC, under `key`, of everything before it, and `g` is a part of what the MAC
covers. -/
def Macced (S : Suite) (key data : Bytes) (g : Frag) : Prop :=
  S.sigSize ≤ data.length ∧
  S.mac key (data.take (data.length - S.sigSize)) = data.drop (data.length - S.sigSize) ∧
  ∃ suf, data.take (data.length - S.sigSize) = data.take 24 ++ (g.body ++ suf)

/-- The decrypted frame `data` carries a signature of everything before it that verifies under the key of the server. -/
def Signed (R : Rsa) (data : Bytes) : Prop :=
  R.remoteSize ≤ data.length ∧
  R.verify (data.take (data.length - R.remoteSize)) (data.drop (data.length - R.remoteSize)) = true

/-- The pairs of nonces that a channel has had in a history, the pair it starts with included. -/
def pairs (l r : Bytes) : List Ev → List (Bytes × Bytes)
  | [] => [(l, r)]
  | .frame _ :: evs => pairs l r evs
  | .opened _ l' r' :: evs => (l, r) :: pairs l' r' evs
  | .renewed l' r' :: evs => (l, r) :: pairs l' r' evs

/-- The pairs of nonces that were exchanged with the server. -/
def exchanged : List Ev → List (Bytes × Bytes)
  | [] => []
  | .frame _ :: evs => exchanged evs
  | .opened _ l r :: evs => (l, r) :: exchanged evs
  | .renewed l r :: evs => (l, r) :: exchanged evs

/-- The frames before the first response to OpenSecureChannel are of type OPN, Error or Abort. -/
def quiet : List Ev → Prop
  | [] => True
  | .frame bs :: evs => u32At bs 0 ≠ some tyChunk ∧ u32At bs 0 ≠ some tyFinal ∧ quiet evs
  | _ :: _ => True

end Spec

open Spec

/-! ### One frame -/

theorem switch_fields (kdf : Bytes → Bytes → Bytes) (ch : Chan) (t : BitVec 32) :
    (switch kdf ch t).channelID = ch.channelID ∧ (switch kdf ch t).mode = ch.mode ∧
    (switch kdf ch t).receivingToken = t ∧ (switch kdf ch t).localNonce = ch.localNonce ∧
    (switch kdf ch t).remoteNonce = ch.remoteNonce ∧ switch kdf (switch kdf ch t) t = switch kdf ch t := by
  unfold switch
  by_cases h : t = ch.receivingToken
  · simp [h]
  · rw [if_neg h]
    split <;> simp

theorem openSym_ok_iff {S : Suite} {kdf : Bytes → Bytes → Bytes} {ch ch' : Chan} {fin : Bool} {frame : Bytes} {g : Frag} :
    openSym S kdf ch fin frame = .ok (ch', g) ↔
    ∃ tok data, u32At frame 8 = some ch.channelID ∧ u32At frame 12 = some tok ∧ ch' = switch kdf ch tok ∧
      decryptFrame S ch.mode ch'.recvKey frame = .ok data ∧ verifyFrame S ch.mode ch'.recvKey data = .ok () ∧
      fragOf S ch.mode fin data = .ok g := by
  constructor
  · intro h
    unfold openSym at h
    split at h
    · cases h
    rename_i cid h8
    split at h
    · cases h
    rename_i hc
    split at h
    · cases h
    rename_i tok h12
    split at h
    · cases h
    · cases h
    rename_i f hf
    cases h
    unfold openKeyed at hf
    split at hf
    · cases hf
    · cases hf
    rename_i data hd
    split at hf
    · cases hf
    · cases hf
    rename_i hv
    exact ⟨tok, data, by rw [h8, Decidable.not_not.1 hc], h12, rfl, hd, hv, hf⟩
  · rintro ⟨tok, data, h8, h12, rfl, hd, hv, hf⟩
    unfold openSym
    rw [h8]; dsimp only
    rw [if_neg (by simp), h12]; dsimp only
    unfold openKeyed
    rw [hd]; dsimp only
    rw [hv]; dsimp only
    rw [hf]

theorem of_ok {α : Type} {o : Out α} {a : α} : Res.of o = .ok a ↔ o = .ok a := by
  cases o <;> simp [Res.of]

theorem of_panic {α : Type} {o : Out α} : Res.of o = .panic ↔ o = .panic := by
  cases o <;> simp [Res.of]

theorem openFrame_ok_iff {S : Suite} {kdf : Bytes → Bytes → Bytes} {R : Rsa} {ch ch' : Chan} {frame : Bytes} {g : Frag} :
    openFrame S kdf R ch frame = .ok (ch', g) ↔
    ∃ ty len, u32At frame 0 = some ty ∧ u32At frame 4 = some len ∧ frame.length = len.toNat ∧
      ((ty = tyChunk ∧ openSym S kdf ch false frame = .ok (ch', g)) ∨
       (ty = tyFinal ∧ openSym S kdf ch true frame = .ok (ch', g)) ∨
       (ty = tyOpen ∧ ch' = ch ∧ openOpn R ch.mode frame = .ok g)) := by
  constructor
  · intro h
    unfold openFrame at h
    split at h
    · rename_i ty len h0 h4
      split at h
      · cases h
      rename_i hl
      refine ⟨ty, len, h0, h4, Decidable.not_not.1 hl, ?_⟩
      split at h
      · rename_i ht
        exact .inl ⟨ht, of_ok.1 h⟩
      split at h
      · rename_i ht
        exact .inr (.inl ⟨ht, of_ok.1 h⟩)
      split at h
      · rename_i ht
        split at h
        · cases h
        · cases h
        · rename_i f hf
          cases h
          exact .inr (.inr ⟨ht, rfl, hf⟩)
      split at h
      · split at h <;> cases h
      · cases h
    · cases h
  · rintro ⟨ty, len, h0, h4, hl, h⟩
    unfold openFrame
    rw [h0, h4]; dsimp only
    rw [if_neg (by simp [hl])]
    rcases h with ⟨rfl, h⟩ | ⟨rfl, h⟩ | ⟨rfl, rfl, h⟩
    · rw [if_pos rfl, h]; rfl
    · rw [if_neg (by decide), if_pos rfl, h]; rfl
    · rw [if_neg (by decide), if_neg (by decide), if_pos rfl, h]

/-- The header words of a sealed chunk. -/
theorem seal_words (S : Suite) (mode : Mode) (key : Bytes) (n : Nat) (c : Chunk) :
    u32At (sealChunk S mode key n c) 0 = some (if c.final then tyFinal else tyChunk) ∧
    u32At (sealChunk S mode key n c) 4 = some (BitVec.ofNat 32 n) ∧
    u32At (sealChunk S mode key n c) 8 = some c.channelID ∧
    u32At (sealChunk S mode key n c) 12 = some c.tokenID := by
  obtain ⟨t, ht⟩ := Channel.seal_header S mode key n c
  refine ⟨?_, ?_, ?_, ?_⟩
  · rw [ht]; simpa [header] using Channel.u32At_append (pre := []) (n := 0) (if c.final then tyFinal else tyChunk) rfl
  · rw [ht]; unfold header; rw [List.append_assoc, List.append_assoc]
    exact Channel.u32At_append _ (Channel.writeU32_length _)
  · rw [ht]; unfold header; rw [List.append_assoc, List.append_assoc, List.append_assoc, ← List.append_assoc]
    exact Channel.u32At_append _ (by simp [Channel.writeU32_length])
  · rw [ht]; unfold header
    rw [List.append_assoc, List.append_assoc, List.append_assoc, ← List.append_assoc, ← List.append_assoc]
    exact Channel.u32At_append _ (by simp [Channel.writeU32_length])

theorem openKeyed_seal {S : Suite} (hS : S.Lawful) (mode : Mode) (ko : Option Bytes) (key : Bytes) (n : Nat) (c : Chunk)
    (hf : c.Fits S mode n) (hk : mode ≠ .none → ko = some key) :
    openKeyed S mode ko c.final (sealChunk S mode key n c) = .ok ⟨c.final, c.requestID, c.body⟩ ∧
    (sealChunk S mode key n c).length = n := by
  have hdiv : mode = .signAndEncrypt →
      (8 + c.body.length + c.paddingSize + Channel.padHeader S.block + S.sigSize) % S.block = 0 := by
    intro he
    have h1 := hf.blocks he
    have h2 := hf.size
    rw [he] at h2
    simp only [Channel.padLen, Channel.sigLen, if_true] at h2
    rw [← h1]; congr 1
    rw [h2]; simp only [reduceCtorEq, if_false]; omega
  refine ⟨?_, by rw [Channel.sealChunk_length hS _ _ _ _ hdiv, hf.size]⟩
  unfold openKeyed
  rw [Channel.decrypt_seal hS mode key n c _ hk hdiv]; dsimp only
  rw [Channel.verify_clear hS mode key n c _ hk]; dsimp only
  obtain ⟨u, hu, _⟩ := Channel.clear_shape S mode key n c
  have hh := Channel.header_length c.final n c.channelID c.tokenID
  unfold fragOf
  have e16 : u32At (Channel.clear S mode key n c) 16 = some c.seq := by
    rw [hu]; exact Channel.u32At_append _ hh
  have e20 : u32At (Channel.clear S mode key n c) 20 = some c.requestID := by
    rw [hu, ← List.append_assoc]; exact Channel.u32At_append _ (by simp [hh, Channel.writeU32_length])
  rw [e16, e20]; dsimp only
  rw [Channel.bodyOf_clear hS mode key n c hf.none_sig hf.pad_lt]

theorem openFrame_seal {S : Suite} (hS : S.Lawful) (kdf : Bytes → Bytes → Bytes) (R : Rsa) (ch : Chan)
    (key : Bytes) (n : Nat) (c : Chunk) (hf : c.Fits S ch.mode n) (hid : c.channelID = ch.channelID)
    (hk : ch.mode ≠ .none → (switch kdf ch c.tokenID).recvKey = some key) :
    openFrame S kdf R ch (sealChunk S ch.mode key n c) =
      .ok (switch kdf ch c.tokenID, ⟨c.final, c.requestID, c.body⟩) := by
  obtain ⟨e0, e4, e8, e12⟩ := seal_words S ch.mode key n c
  obtain ⟨hok, hlen⟩ := openKeyed_seal hS ch.mode _ key n c hf hk
  have hsym : openSym S kdf ch c.final (sealChunk S ch.mode key n c) =
      .ok (switch kdf ch c.tokenID, ⟨c.final, c.requestID, c.body⟩) := by
    unfold openSym
    rw [e8]; dsimp only
    rw [if_neg (by simp [hid]), e12]; dsimp only
    rw [hok]
  refine openFrame_ok_iff.2 ⟨_, _, e0, e4, ?_, ?_⟩
  · rw [hlen, BitVec.toNat_ofNat, Nat.mod_eq_of_lt hf.small]
  · cases hfin : c.final with
    | false => left; rw [hfin] at hsym; exact ⟨rfl, hsym⟩
    | true => right; left; rw [hfin] at hsym; exact ⟨rfl, hsym⟩

theorem recvLoop_chunks {S : Suite} (hS : S.Lawful) (kdf : Bytes → Bytes → Bytes) (R : Rsa) (lim : Limits) (key : Bytes)
    (tok cid : BitVec 32) (rest : List Bytes) :
    ∀ (cs : List (Chunk × Nat)) (ch : Chan) (count : Nat) (acc : Bytes),
      (∀ c ∈ cs, c.1.Fits S ch.mode c.2) →
      (∀ c ∈ cs, c.1.channelID = cid ∧ c.1.tokenID = tok) →
      cid = ch.channelID → (ch.mode ≠ .none → (switch kdf ch tok).recvKey = some key) →
      (∃ l, cs.map (fun c => c.1.final) = List.replicate l false ++ [true]) →
      (lim.maxChunks.toNat = 0 ∨ count + cs.length ≤ lim.maxChunks.toNat) →
      (lim.maxMessage.toNat = 0 ∨ acc.length + ((cs.map (fun c => c.1.body)).flatten).length ≤ lim.maxMessage.toNat) →
      recvLoop S kdf R lim ch count acc (cs.map (fun c => sealChunk S ch.mode key c.2 c.1) ++ rest)
        = .ok (switch kdf ch tok, acc ++ (cs.map (fun c => c.1.body)).flatten, rest) := by
  intro cs
  induction cs with
  | nil => intro ch count acc _ _ _ _ ⟨l, hl⟩; simp at hl
  | cons c cs ih =>
    intro ch count acc hfit hids hcid hk hfin hlc hlm
    have hc := hids c (by simp)
    have hop := openFrame_seal hS kdf R ch key c.2 c.1 (hfit c (by simp)) (hc.1.trans hcid)
      (by rw [hc.2]; exact hk)
    obtain ⟨hcid', hmode', _, _, _, hsame⟩ := switch_fields kdf ch tok
    simp only [List.map_cons, List.cons_append]
    rw [recvLoop]
    simp only [List.length_cons] at hlc
    rw [if_neg (by omega), hop]
    dsimp only
    simp only [List.map_cons, List.flatten_cons, List.length_append] at hlm
    rw [if_neg (by rw [List.length_append]; omega)]
    obtain ⟨l, hl⟩ := hfin
    cases l with
    | zero =>
      simp only [List.replicate_zero, List.nil_append, List.map_cons, List.cons.injEq] at hl
      have hcs : cs = [] := by simpa using hl.2
      subst hcs
      rw [if_pos hl.1]
      simp [hc.2]
    | succ l =>
      simp only [List.replicate_succ, List.cons_append, List.map_cons, List.cons.injEq] at hl
      rw [if_neg (by simp [hl.1])]
      have := ih (switch kdf ch tok) (count + 1) (acc ++ c.1.body) (fun d hd => by rw [hmode']; exact hfit d (by simp [hd]))
        (fun d hd => hids d (by simp [hd])) (hcid.trans hcid'.symm) (by rw [hmode', hsame]; exact hk)
        ⟨l, hl.2⟩ (by omega) (by rw [List.length_append]; omega)
      rw [hmode', hsame] at this
      rw [hc.2, this]
      simp

/-! ### C124 -/

/-- What a server that sends and a client that receives share: channel, mode, and the key of the token. -/
structure Paired (kdf : Bytes → Bytes → Bytes) (cfg : Sender) (ch : Chan) : Prop where
  mode : cfg.mode = ch.mode
  channel : cfg.channelID = ch.channelID
  key : ch.mode ≠ .none → (switch kdf ch cfg.tokenID).recvKey = some cfg.key

/-- A response sent by a server arrives as exactly the same bytes, and frames that follow are untouched. -/
theorem C124_round_trip {S : Suite} (hS : S.Lawful) (kdf : Bytes → Bytes → Bytes) (R : Rsa) (cfg : Sender)
    (h : cfg.Usable S) (ch : Chan) (hpair : Paired kdf cfg ch) (lim : Limits) (tl : Status) (rid seq : BitVec 32)
    (body : Bytes) (hb : body ≠ []) (hmax : cfg.maxMessage = 0 ∨ body.length ≤ cfg.maxMessage)
    (hch : cfg.maxChunks = 0 ∨ body.length ≤ cfg.maxChunks * (maxBody S cfg.mode cfg.send).toNat)
    (hlm : lim.maxMessage = 0 ∨ body.length ≤ lim.maxMessage.toNat)
    (hlc : lim.maxChunks = 0 ∨ (Channel.sendMessage S cfg tl rid seq body).1.length ≤ lim.maxChunks.toNat)
    (rest : List Bytes) :
    recvMessage S kdf R lim ch ((Channel.sendMessage S cfg tl rid seq body).1 ++ rest) =
      .ok (switch kdf ch cfg.tokenID, body, rest) := by
  have hl := Channel.sendLoop_ok hS cfg tl rid h.room h.none_sig h.buffer 0 seq body (by simpa using hch)
  have hsm : Channel.sendMessage S cfg tl rid seq body =
      ((Channel.sendLoop S cfg tl rid 0 seq body).chunks.map (fun c => sealChunk S cfg.mode cfg.key c.2 c.1),
        (Channel.sendLoop S cfg tl rid 0 seq body).fin) := by
    unfold Channel.sendMessage; rw [if_neg (by omega)]
  rw [hsm] at hlc ⊢
  dsimp only at hlc ⊢
  generalize Channel.sendLoop S cfg tl rid 0 seq body = r at hl hlc ⊢
  have hm := hpair.mode
  unfold recvMessage
  have := recvLoop_chunks hS kdf R lim cfg.key cfg.tokenID cfg.channelID rest r.chunks ch 0 []
    (by rw [← hm]; exact hl.fits) (fun c hc => ⟨(hl.ids c hc).1, (hl.ids c hc).2.1⟩) hpair.channel hpair.key
    (hl.finals hb)
    (by rcases hlc with h0 | h0
        · left; rw [h0]; rfl
        · right; simp only [List.length_map] at h0; omega)
    (by rw [hl.bodies]
        rcases hlm with h0 | h0
        · left; rw [h0]; rfl
        · right; simpa using h0)
  rw [hl.bodies, ← hm] at this
  simpa using this

/-- A client after Open that receives the first response under token 1. -/
example : let S := xorSuite 32 16
    let kdf : Bytes → Bytes → Bytes := fun a b => a ++ b
    let ch := install (fresh .signAndEncrypt) 7 [1] [2]
    let cfg : Sender := ⟨.signAndEncrypt, 64, 7, 1, kdf [1] [2], 0, 0⟩
    cfg.Usable S ∧ Paired kdf cfg ch ∧ (switch kdf ch 1).receivingToken = 1 :=
  ⟨⟨by decide, by decide, by decide⟩, ⟨rfl, rfl, fun _ => rfl⟩, rfl⟩

/-- The keys of a client fit the RSA of a server that sends to it. -/
structure Rsa.Has (R : Rsa) (A : ASuite) : Prop where
  dec : R.decB = A.decB
  localSize : R.localSize = A.cipherBlock
  remoteSize : R.remoteSize = A.sigSize
  verify : R.verify = A.verify

/-- In the secured modes the client recovers the body of an OPN frame of the server, for every size of the two keys. -/
theorem C124_open_message {A : ASuite} (hA : A.Lawful) (S : Suite) (kdf : Bytes → Bytes → Bytes) (R : Rsa) (hR : R.Has A)
    (ch : Chan) (hsec : ch.mode ≠ .none) (pol : Policy) (cert thumb : Bytes) (send : Nat) (hsend : send < 2 ^ 32)
    (cid seq rid : BitVec 32) (body frame : Bytes) (hb : body ≠ []) (hct : cert.length < 2 ^ 31) (hth : thumb.length = 20)
    (hseal : sealOpn A send cid seq rid pol.uri cert thumb body = some frame) :
    openFrame S kdf R ch frame = .ok (ch, ⟨true, rid, body⟩) := by
  have hms : ch.mode.secured = true := by cases hm : ch.mode <;> simp_all [Mode.secured]
  have hn : 0 < body.length := List.length_pos_iff.2 hb
  have hul := uri_length pol
  generalize pol.uri = uri at *
  unfold sealOpn at hseal
  dsimp only at hseal
  by_cases hfit : body.length > (asymPlan A (16 + uri.length + 28 + cert.length) send body.length).bodySize
  · rw [if_pos hfit] at hseal; cases hseal
  rw [if_neg hfit] at hseal
  obtain ⟨p1, p2, p3, j, p4, p5⟩ := asymPlan_ok hA (16 + uri.length + 28 + cert.length) send body.length hn (by omega)
  generalize hP : asymPlan A (16 + uri.length + 28 + cert.length) send body.length = p at *
  rw [p1, List.take_of_length_le (Nat.le_refl _)] at hseal
  have hpad : p.paddingSize < 256 ^ padHeader A.cipherBlock := by
    have := block_lt_pow A.cipherBlock hA.cipher_le
    have := hA.plain_le
    omega
  generalize hh : opnHeader p.chunkSize cid uri (some cert) (some thumb) = h at hseal
  generalize hpl : writeU32 seq ++ (writeU32 rid ++ (body ++ padBytes A.cipherBlock p.paddingSize)) = pl at hseal
  have hhl : h.length = 16 + uri.length + 28 + cert.length := by
    rw [← hh]; unfold opnHeader
    simp only [List.length_append, writeU32_length, writeString_length, writeByteArray_length, hth]; omega
  have hpll : (pl ++ A.sign (h ++ pl)).length = j * A.plainBlock := by
    rw [List.length_append, hA.sign_length, ← hpl]
    simp only [List.length_append, writeU32_length, padBytes_length]
    omega
  obtain ⟨b1, b2⟩ := encBlocks_spec hA j _ hpll
  cases hseal
  have hlen : (h ++ encBlocks A (pl ++ A.sign (h ++ pl))).length = p.chunkSize := by
    rw [List.length_append, hhl, b1, p5]
  have hcount : h.length + 8 ≤ p.chunkSize := by
    have : j * A.plainBlock ≤ j * A.cipherBlock := Nat.mul_le_mul_left _ hA.plain_le
    omega
  generalize hE : encBlocks A (pl ++ A.sign (h ++ pl)) = E at *
  obtain ⟨e0, e4, hrd⟩ := opn_read p.chunkSize cid uri (some cert) (some thumb) E hul (by rintro b ⟨⟩; exact hct) (by rintro b ⟨⟩; omega)
  rw [hh] at e0 e4 hrd
  have hhd : (h ++ E).length - E.length = h.length := by rw [List.length_append]; omega
  have hdr : (h ++ E).drop h.length = E := List.drop_left
  have htk : (h ++ E).take h.length = h := List.take_left
  have hkl : R.remoteSize = A.sigSize := hR.remoteSize
  have hdata : (h ++ (pl ++ A.sign (h ++ pl))).length = (h ++ pl).length + A.sigSize := by
    simp only [List.length_append, hA.sign_length]; omega
  have hver : R.verify ((h ++ (pl ++ A.sign (h ++ pl))).take ((h ++ (pl ++ A.sign (h ++ pl))).length - R.remoteSize))
      ((h ++ (pl ++ A.sign (h ++ pl))).drop ((h ++ (pl ++ A.sign (h ++ pl))).length - R.remoteSize)) = true := by
    rw [hkl, hdata, Nat.add_sub_cancel, hR.verify, ← List.append_assoc, List.take_left, List.drop_left]
    exact hA.verify_sign _
  have hbody := opnBody_spec (A := A) h pl seq rid body p.paddingSize (A.sign (h ++ pl)) hpl.symm hpad (hA.sign_length _) p.chunkSize hcount
  have hopn : openOpn R ch.mode (h ++ E) = .ok ⟨true, rid, body⟩ := by
    unfold openOpn
    rw [hrd]
    dsimp only
    rw [hhd]
    unfold openOpnBody
    rw [if_pos hms, hdr, htk, hR.dec, hR.localSize, b2]
    dsimp only
    rw [if_neg (by rw [hdata, hkl]; omega), if_pos hver, hkl, hlen, hbody]
  exact openFrame_ok_iff.2 ⟨_, _, e0, e4, by rw [hlen, BitVec.toNat_ofNat, Nat.mod_eq_of_lt (by omega)],
    .inr (.inr ⟨rfl, rfl, hopn⟩)⟩

example : (⟨64, 4, Channel.toyA.decB, Channel.toyA.verify⟩ : Rsa).Has Channel.toyA ∧
    ∃ frame, sealOpn Channel.toyA 400 1 2 3 (Policy.uri .basic256Sha256) [9] (List.replicate 20 1) (List.replicate 60 7) =
      some frame := by
  refine ⟨⟨rfl, rfl, rfl, rfl⟩, ?_⟩
  unfold sealOpn
  dsimp only
  rw [if_neg (by decide)]
  exact ⟨_, rfl⟩

/-- In mode None too: it recovers the body of an OPN frame of the policy None. -/
theorem C124_open_plain (S : Suite) (kdf : Bytes → Bytes → Bytes) (R : Rsa) (ch : Chan) (hm : ch.mode = .none)
    (cid seq rid : BitVec 32) (body : Bytes) (hb : body.length < 2 ^ 31) :
    openFrame S kdf R ch (Channel.plainOpn cid seq rid body) = .ok (ch, ⟨true, rid, body⟩) := by
  have hul0 : (Policy.uri .none).length < 100 := by decide
  have hul := uri_length .none
  unfold Channel.plainOpn
  generalize Policy.uri .none = uri at *
  generalize hc : 4 + uri.length + 28 + body.length = cs
  have hl0 : (writeByteArray none).length = 4 := rfl
  generalize hh : opnHeader cs cid uri none none = h
  have hhl : h.length = 24 + uri.length := by
    rw [← hh]; unfold opnHeader
    simp only [List.length_append, writeU32_length, writeString_length, hl0]; omega
  generalize hE : writeU32 seq ++ (writeU32 rid ++ body) = E
  have hEl : E.length = 8 + body.length := by
    rw [← hE]; simp only [List.length_append, writeU32_length]; omega
  have hlen : (h ++ E).length = cs := by rw [List.length_append]; omega
  obtain ⟨e0, e4, hrd⟩ := opn_read cs cid uri none none E hul (by rintro b ⟨⟩) (by rintro b ⟨⟩)
  rw [hh] at e0 e4 hrd
  have hhd : (h ++ E).length - E.length = h.length := by rw [List.length_append]; omega
  have s1 : u32At (h ++ E) h.length = some seq := by rw [← hE]; exact Channel.u32At_append _ rfl
  have s2 : u32At (h ++ E) (h.length + 4) = some rid := by
    rw [← hE, ← List.append_assoc]; exact Channel.u32At_append _ (by simp [writeU32_length])
  have hd : (h ++ E).drop (h.length + 8) = body := by
    rw [← hE, ← List.append_assoc, ← List.append_assoc, List.drop_append, List.drop_eq_nil_of_le (by simp [writeU32_length])]
    simp [writeU32_length]
  refine openFrame_ok_iff.2 ⟨_, _, e0, e4, by rw [hlen, BitVec.toNat_ofNat, Nat.mod_eq_of_lt (by omega)], .inr (.inr ⟨rfl, rfl, ?_⟩)⟩
  unfold openOpn
  rw [hrd]
  dsimp only
  rw [hhd]
  unfold openOpnBody
  rw [hm, if_neg (by decide), s1, s2]
  dsimp only
  rw [hd]

/-- On a secured channel a frame is taken only if it is authenticated: a MSG chunk by the MAC under the receiving key,
which is the one the channel had if the chunk names the current token and else is made from the current nonces; an OPN
frame by a signature that verifies under the key of the server. -/
theorem C124_authentic {S : Suite} (kdf : Bytes → Bytes → Bytes) (R : Rsa) (ch ch' : Chan) (frame : Bytes) (g : Frag)
    (hsec : ch.mode ≠ .none) (h : openFrame S kdf R ch frame = .ok (ch', g)) :
    (∃ key data, decryptFrame S ch.mode (some key) frame = .ok data ∧ Macced S key data g ∧ ch'.recvKey = some key ∧
      ((ch' = ch ∧ u32At frame 12 = some ch.receivingToken) ∨ key = kdf ch.localNonce ch.remoteNonce)) ∨
    (u32At frame 0 = some tyOpen ∧ ch' = ch ∧ ∃ hdr pl,
      Channel.decBlocks R.decB R.localSize (frame.drop hdr) = some pl ∧ Signed R (frame.take hdr ++ pl) ∧
      ∃ rest, (frame.take hdr ++ pl).drop (hdr + 8) = g.body ++ rest) := by
  have hms : ch.mode.secured = true := by cases hm : ch.mode <;> simp_all [Mode.secured]
  have sym : ∀ fin, openSym S kdf ch fin frame = .ok (ch', g) →
      ∃ key data, decryptFrame S ch.mode (some key) frame = .ok data ∧ Macced S key data g ∧ ch'.recvKey = some key ∧
      ((ch' = ch ∧ u32At frame 12 = some ch.receivingToken) ∨ key = kdf ch.localNonce ch.remoteNonce) := by
    intro fin h
    obtain ⟨tok, data, _, h12, rfl, hd, hv, hf⟩ := openSym_ok_iff.1 h
    have hv' := hv
    unfold verifyFrame at hv'
    split at hv'
    · rename_i hmn; exact absurd hmn hsec
    split at hv'
    · cases hv'
    rename_i k hk
    split at hv'
    · cases hv'
    rename_i h1
    split at hv'
    · rename_i h2
      refine ⟨k, data, by rw [← hk]; exact hd, ⟨by omega, h2, ?_⟩, hk, ?_⟩
      · unfold fragOf at hf
        split at hf
        · split at hf
          · rename_i b hb
            cases hf
            exact Channel.bodyOf_inside hb
          · cases hf
          · cases hf
        · cases hf
      · by_cases ht : tok = ch.receivingToken
        · left
          exact ⟨by simp [switch, ht], by rw [h12, ht]⟩
        · right
          rw [switch, if_neg ht, if_pos hms] at hk
          exact (Option.some.inj hk).symm
    · cases hv'
  obtain ⟨ty, len, h0, _, _, h⟩ := openFrame_ok_iff.1 h
  rcases h with ⟨rfl, h⟩ | ⟨rfl, h⟩ | ⟨rfl, rfl, h⟩
  · exact .inl (sym _ h)
  · exact .inl (sym _ h)
  · right
    refine ⟨h0, rfl, ?_⟩
    unfold openOpn at h
    split at h
    · cases h
    · cases h
    rename_i x rest _
    generalize frame.length - rest.length = hdr at h
    unfold openOpnBody at h
    rw [if_pos hms] at h
    split at h
    · cases h
    rename_i pl hpl
    dsimp only at h
    split at h
    · cases h
    rename_i hl
    split at h
    · rename_i hv
      refine ⟨hdr, pl, hpl, ⟨by omega, hv⟩, ?_⟩
      unfold Channel.opnBody at h
      dsimp only at h
      repeat' split at h
      all_goals cases h
      exact ⟨_, (List.take_append_drop _ _).symm⟩
    · cases h

/-- A signed response is taken; with its last byte changed it is refused. -/
example : let S := xorSuite 2 16
    let R : Rsa := ⟨4, 4, fun _ => none, fun _ _ => false⟩
    let ch := install (fresh .sign) 7 [1] [2]
    let f := sealChunk S .sign [1, 2] 29 ⟨true, 7, 1, 1, 9, [1, 2, 3], 0⟩
    openFrame S (fun a b => a ++ b) R ch f = .ok (switch (fun a b => a ++ b) ch 1, ⟨true, 9, [1, 2, 3]⟩) ∧
    openFrame S (fun a b => a ++ b) R ch (f.dropLast ++ [0]) = .err .badSecurityChecksFailed := by
  decide

/-! ### Keys in a history -/

theorem step_fields (S : Suite) (kdf : Bytes → Bytes → Bytes) (R : Rsa) (ch : Chan) (e : Ev) :
    (step S kdf R ch e).mode = ch.mode ∧
    ((∀ bs, e ≠ .frame bs) → (step S kdf R ch e).recvKey = ch.recvKey) ∧
    (∀ bs, e = .frame bs → (step S kdf R ch e).localNonce = ch.localNonce ∧ (step S kdf R ch e).remoteNonce = ch.remoteNonce ∧
      ((step S kdf R ch e).recvKey = ch.recvKey ∨
        ((step S kdf R ch e).recvKey = some (kdf ch.localNonce ch.remoteNonce) ∧
          (u32At bs 0 = some tyChunk ∨ u32At bs 0 = some tyFinal)))) := by
  cases e with
  | opened c l r => exact ⟨rfl, fun _ => rfl, fun bs h => by cases h⟩
  | renewed l r => exact ⟨rfl, fun _ => rfl, fun bs h => by cases h⟩
  | frame b =>
    have key : ∀ tok, (switch kdf ch tok).recvKey = ch.recvKey ∨
        (switch kdf ch tok).recvKey = some (kdf ch.localNonce ch.remoteNonce) := by
      intro tok
      unfold switch
      split
      · exact .inl rfl
      · split
        · exact .inr rfl
        · exact .inl rfl
    have main : ∀ ch' g, openFrame S kdf R ch b = .ok (ch', g) → ch'.mode = ch.mode ∧ ch'.localNonce = ch.localNonce ∧
        ch'.remoteNonce = ch.remoteNonce ∧ (ch'.recvKey = ch.recvKey ∨
          (ch'.recvKey = some (kdf ch.localNonce ch.remoteNonce) ∧ (u32At b 0 = some tyChunk ∨ u32At b 0 = some tyFinal))) := by
      intro ch' g h
      obtain ⟨ty, len, h0, _, _, h⟩ := openFrame_ok_iff.1 h
      rcases h with ⟨rfl, h⟩ | ⟨rfl, h⟩ | ⟨rfl, rfl, h⟩
      · obtain ⟨tok, _, _, _, rfl, _⟩ := openSym_ok_iff.1 h
        obtain ⟨_, f2, _, f4, f5, _⟩ := switch_fields kdf ch tok
        exact ⟨f2, f4, f5, (key tok).imp id (fun h => ⟨h, .inl h0⟩)⟩
      · obtain ⟨tok, _, _, _, rfl, _⟩ := openSym_ok_iff.1 h
        obtain ⟨_, f2, _, f4, f5, _⟩ := switch_fields kdf ch tok
        exact ⟨f2, f4, f5, (key tok).imp id (fun h => ⟨h, .inr h0⟩)⟩
      · exact ⟨rfl, rfl, rfl, .inl rfl⟩
    refine ⟨?_, fun h => absurd rfl (h b), ?_⟩
    · simp only [step]
      split
      · rename_i ch' g h; exact (main _ _ h).1
      · rfl
    · intro bs hb
      cases hb
      simp only [step]
      split
      · rename_i ch' g h; exact (main _ _ h).2
      · exact ⟨rfl, rfl, .inl rfl⟩

theorem keys_from (S : Suite) (kdf : Bytes → Bytes → Bytes) (R : Rsa) (evs : List Ev) : ∀ (ch : Chan) (k : Bytes),
    (run S kdf R ch evs).recvKey = some k →
    ch.recvKey = some k ∨ ∃ p ∈ pairs ch.localNonce ch.remoteNonce evs, k = kdf p.1 p.2 := by
  induction evs with
  | nil => intro ch k h; exact .inl h
  | cons e evs ih =>
    intro ch k h
    obtain ⟨_, hother, hframe⟩ := step_fields S kdf R ch e
    have h : (run S kdf R (step S kdf R ch e) evs).recvKey = some k := h
    have := ih _ k h
    cases e with
    | opened c l r =>
      rcases this with h | ⟨p, hp, e⟩
      · exact .inl (by rw [← h]; rfl)
      · exact .inr ⟨p, by simp only [pairs, List.mem_cons]; exact .inr hp, e⟩
    | renewed l r =>
      rcases this with h | ⟨p, hp, e⟩
      · exact .inl (by rw [← h]; rfl)
      · exact .inr ⟨p, by simp only [pairs, List.mem_cons]; exact .inr hp, e⟩
    | frame bs =>
      obtain ⟨f1, f2, f3⟩ := hframe bs rfl
      rw [f1, f2] at this
      have hmem : ∀ evs l r, (l, r) ∈ pairs l r evs := by
        intro evs
        induction evs with
        | nil => intro l r; simp [pairs]
        | cons e evs ih => intro l r; cases e <;> simp [pairs, ih]
      rcases this with h | ⟨p, hp, e⟩
      · rcases f3 with f3 | ⟨f3, _⟩
        · exact .inl (by rw [← f3]; exact h)
        · rw [f3] at h
          exact .inr ⟨_, hmem _ _ _, (Option.some.inj h).symm⟩
      · exact .inr ⟨p, hp, e⟩

theorem pairs_exchanged (evs : List Ev) : ∀ l r, pairs l r evs = (l, r) :: exchanged evs := by
  induction evs with
  | nil => intro l r; rfl
  | cons e evs ih => intro l r; cases e <;> simp [pairs, exchanged, ih]

/-- Missing for the claim: without a MSG chunk before the first response to OpenSecureChannel, every key under which
the client ever takes a chunk is made from a pair of nonces that was exchanged with the server. -/
theorem C124_keys_partial (S : Suite) (kdf : Bytes → Bytes → Bytes) (R : Rsa) (mode : Mode) (evs : List Ev)
    (hq : quiet evs) (k : Bytes) (h : (run S kdf R (fresh mode) evs).recvKey = some k) :
    ∃ p ∈ exchanged evs, k = kdf p.1 p.2 := by
  have gen : ∀ (evs : List Ev) (ch : Chan), quiet evs → ch.recvKey = none → (run S kdf R ch evs).recvKey = some k →
      ∃ p ∈ exchanged evs, k = kdf p.1 p.2 := by
    intro evs
    induction evs with
    | nil => intro ch _ hn h; rw [show run S kdf R ch [] = ch from rfl, hn] at h; cases h
    | cons e evs ih =>
      intro ch hq hn h
      have h : (run S kdf R (step S kdf R ch e) evs).recvKey = some k := h
      cases e with
      | opened c l r =>
        rcases keys_from S kdf R evs _ k h with h | ⟨p, hp, e⟩
        · rw [show (step S kdf R ch (.opened c l r)).recvKey = ch.recvKey from rfl, hn] at h; cases h
        · rw [pairs_exchanged] at hp
          exact ⟨p, hp, e⟩
      | renewed l r =>
        rcases keys_from S kdf R evs _ k h with h | ⟨p, hp, e⟩
        · rw [show (step S kdf R ch (.renewed l r)).recvKey = ch.recvKey from rfl, hn] at h; cases h
        · rw [pairs_exchanged] at hp
          exact ⟨p, hp, e⟩
      | frame bs =>
        simp only [quiet] at hq
        obtain ⟨_, _, f3⟩ := (step_fields S kdf R ch (.frame bs)).2.2 bs rfl
        refine ih _ hq.2.2 ?_ h
        rcases f3 with f3 | ⟨_, f3 | f3⟩
        · rw [f3, hn]
        · exact absurd f3 hq.1
        · exact absurd f3 hq.2.1
  exact gen evs _ hq rfl h

example : let S := xorSuite 2 16
    let R : Rsa := ⟨4, 4, fun _ => none, fun _ _ => false⟩
    let kdf : Bytes → Bytes → Bytes := fun a b => a ++ b
    let f := sealChunk S .sign [1, 2] 29 ⟨true, 7, 1, 1, 9, [1, 2, 3], 0⟩
    let evs := [Ev.opened 7 [1] [2], .frame f, .renewed [3] [4]]
    quiet evs ∧ (run S kdf R (fresh .sign) evs).recvKey = some [1, 2] := ⟨trivial, by decide⟩

/-- The claim fails while `Open` waits for its response: a chunk under any token but 0 is then taken if its MAC is made
with the key of two empty nonces, which everybody can compute; and this key stays: after `Open` has taken what it was sent as
the response, whatever the nonces, chunks of that token made with the same key are taken as well. -/
theorem C124_forged_fails {S : Suite} (hS : S.Lawful) (kdf : Bytes → Bytes → Bytes) (R : Rsa) (mode : Mode)
    (hsec : mode ≠ .none) (tok : BitVec 32) (htok : tok ≠ 0) (n n' : Nat) (c c' : Chunk) (hf : c.Fits S mode n)
    (hf' : c'.Fits S mode n') (hc : c.channelID = 0 ∧ c.tokenID = tok) (hc' : c'.tokenID = tok) (l r : Bytes) :
    let known := kdf [] []
    let ch := step S kdf R (fresh mode) (.frame (sealChunk S mode known n c))
    openFrame S kdf R (fresh mode) (sealChunk S mode known n c) = .ok (ch, ⟨c.final, c.requestID, c.body⟩) ∧
    openFrame S kdf R (install ch c'.channelID l r) (sealChunk S mode known n' c') =
      .ok (install ch c'.channelID l r, ⟨c'.final, c'.requestID, c'.body⟩) := by
  intro known ch
  have hms : mode.secured = true := by cases mode <;> simp_all [Mode.secured]
  have hsw : switch kdf (fresh mode) tok = { fresh mode with receivingToken := tok, recvKey := some known } := by
    unfold switch
    rw [if_neg (show tok ≠ (fresh mode).receivingToken from htok),
      if_pos (show (fresh mode).mode.secured = true from hms)]
    rfl
  have h1 := openFrame_seal hS kdf R (fresh mode) known n c hf hc.1 (fun _ => by rw [hc.2, hsw])
  rw [hc.2] at h1
  have hch : ch = switch kdf (fresh mode) tok := by
    show step S kdf R (fresh mode) (.frame (sealChunk S mode known n c)) = _
    have h1' : openFrame S kdf R (fresh mode) (sealChunk S mode known n c) = _ := h1
    simp only [step, h1']
  refine ⟨by rw [hch]; exact h1, ?_⟩
  have hm : (install ch c'.channelID l r).mode = mode := by rw [hch]; exact (switch_fields _ _ _).2.1
  have hsw2 : switch kdf (install ch c'.channelID l r) c'.tokenID = install ch c'.channelID l r := by
    unfold switch
    rw [if_pos]
    rw [hc', hch]
    exact (switch_fields kdf (fresh mode) tok).2.2.1.symm
  have h2 := openFrame_seal hS kdf R (install ch c'.channelID l r) known n' c' (by rw [hm]; exact hf') rfl
    (fun _ => by rw [hsw2, hch, hsw]; rfl)
  rw [hsw2, hm] at h2
  exact h2

/-- Two forged responses on a channel of mode Sign. -/
example : let S := xorSuite 2 16
    let c : Chunk := ⟨true, 0, 5, 1, 1, [1, 2, 3], 0⟩
    let c' : Chunk := ⟨true, 9, 5, 2, 2, [4, 5], 0⟩
    c.Fits S .sign 29 ∧ c'.Fits S .sign 28 :=
  ⟨⟨by decide, by decide, by decide, by decide, by decide⟩, ⟨by decide, by decide, by decide, by decide, by decide⟩⟩

/-- Nor is it looked at whether the server has issued the token that a chunk names: at any time any number does, and the
keys are made from the current nonces. -/
theorem C124_any_token_fails {S : Suite} (hS : S.Lawful) (kdf : Bytes → Bytes → Bytes) (R : Rsa) (ch : Chan) (tok : BitVec 32)
    (htok : tok ≠ ch.receivingToken) (n : Nat) (c : Chunk) (hf : c.Fits S ch.mode n)
    (hc : c.channelID = ch.channelID ∧ c.tokenID = tok) :
    openFrame S kdf R ch (sealChunk S ch.mode (kdf ch.localNonce ch.remoteNonce) n c) =
      .ok (switch kdf ch tok, ⟨c.final, c.requestID, c.body⟩) := by
  have := openFrame_seal hS kdf R ch (kdf ch.localNonce ch.remoteNonce) n c hf hc.1 (by
    intro hm
    have hms : ch.mode.secured = true := by cases h : ch.mode <;> simp_all [Mode.secured]
    rw [hc.2]
    unfold switch
    rw [if_neg htok, if_pos hms])
  rw [hc.2] at this
  exact this

example : let ch : Chan := ⟨7, 1, .sign, some [1, 2], [1], [2]⟩
    let c : Chunk := ⟨true, 7, 4000000000#32, 1, 1, [1, 2, 3], 0⟩
    c.Fits (xorSuite 2 16) ch.mode 29 ∧ c.tokenID ≠ ch.receivingToken :=
  ⟨⟨by decide, by decide, by decide, by decide, by decide⟩, by decide⟩

/-- A chunk that was taken is taken again. -/
theorem C124_replay_fails (S : Suite) (kdf : Bytes → Bytes → Bytes) (R : Rsa) (ch ch' : Chan) (frame : Bytes) (g : Frag)
    (h : openFrame S kdf R ch frame = .ok (ch', g)) : openFrame S kdf R ch' frame = .ok (ch', g) := by
  obtain ⟨ty, len, h0, h4, hl, h⟩ := openFrame_ok_iff.1 h
  have sym : ∀ fin, openSym S kdf ch fin frame = .ok (ch', g) → openSym S kdf ch' fin frame = .ok (ch', g) := by
    intro fin h
    obtain ⟨tok, data, h8, h12, rfl, hd, hv, hf⟩ := openSym_ok_iff.1 h
    obtain ⟨f1, f2, _, _, _, f6⟩ := switch_fields kdf ch tok
    exact openSym_ok_iff.2 ⟨tok, data, by rw [f1]; exact h8, h12, f6.symm, by rw [f2]; exact hd, by rw [f2]; exact hv,
      by rw [f2]; exact hf⟩
  refine openFrame_ok_iff.2 ⟨ty, len, h0, h4, hl, ?_⟩
  rcases h with ⟨h1, h⟩ | ⟨h1, h⟩ | ⟨h1, rfl, h⟩
  · exact .inl ⟨h1, sym _ h⟩
  · exact .inr (.inl ⟨h1, sym _ h⟩)
  · exact .inr (.inr ⟨h1, rfl, h⟩)

example : let S := xorSuite 2 16
    let R : Rsa := ⟨4, 4, fun _ => none, fun _ _ => false⟩
    let ch : Chan := ⟨7, 1, .sign, some [1, 2], [1], [2]⟩
    let f := sealChunk S .sign [1, 2] 29 ⟨true, 7, 1, 1, 9, [1, 2, 3], 0⟩
    recvMessage S (fun a b => a ++ b) R ⟨0, 0⟩ ch [f, f] = .ok (ch, [1, 2, 3], [f]) := by decide

/-- Nor are request ids and sequence numbers looked at: a chunk of one response and the last chunk of another, in any
order of sequence numbers, make one message. -/
theorem C124_mixed_fails {S : Suite} (hS : S.Lawful) (kdf : Bytes → Bytes → Bytes) (R : Rsa) (ch : Chan) (key : Bytes)
    (n n' : Nat) (c c' : Chunk) (hf : c.Fits S ch.mode n) (hf' : c'.Fits S ch.mode n')
    (hc : c.channelID = ch.channelID ∧ c.tokenID = ch.receivingToken ∧ c.final = false)
    (hc' : c'.channelID = ch.channelID ∧ c'.tokenID = ch.receivingToken ∧ c'.final = true)
    (hk : ch.mode ≠ .none → ch.recvKey = some key) :
    recvMessage S kdf R ⟨0, 0⟩ ch [sealChunk S ch.mode key n c, sealChunk S ch.mode key n' c'] =
      .ok (ch, c.body ++ c'.body, []) := by
  have hs : switch kdf ch ch.receivingToken = ch := by simp [switch]
  have h1 := openFrame_seal hS kdf R ch key n c hf hc.1 (by rw [hc.2.1, hs]; exact hk)
  have h2 := openFrame_seal hS kdf R ch key n' c' hf' hc'.1 (by rw [hc'.2.1, hs]; exact hk)
  rw [hc.2.1, hs, hc.2.2] at h1
  rw [hc'.2.1, hs, hc'.2.2] at h2
  unfold recvMessage
  rw [recvLoop, if_neg (by simp), h1]
  dsimp only
  rw [if_neg (by simp), if_neg (by simp), recvLoop, if_neg (by simp), h2]
  dsimp only
  rw [if_neg (by simp), if_pos rfl]
  simp

example : let ch : Chan := ⟨7, 1, .sign, some [1, 2], [1], [2]⟩
    let c : Chunk := ⟨false, 7, 1, 99, 4, [1, 2, 3], 0⟩
    let c' : Chunk := ⟨true, 7, 1, 3, 5, [4], 0⟩
    c.Fits (xorSuite 2 16) ch.mode 29 ∧ c'.Fits (xorSuite 2 16) ch.mode 27 ∧ c.requestID ≠ c'.requestID ∧ c'.seq < c.seq :=
  ⟨⟨by decide, by decide, by decide, by decide, by decide⟩, ⟨by decide, by decide, by decide, by decide, by decide⟩,
    by decide, by decide⟩

/-- Chunks for another channel are refused before anything else is done with them. -/
theorem C124_channel (S : Suite) (kdf : Bytes → Bytes → Bytes) (R : Rsa) (ch : Chan) (frame : Bytes) (ty cid : BitVec 32)
    (h0 : u32At frame 0 = some ty) (hty : ty = tyChunk ∨ ty = tyFinal)
    (h4 : u32At frame 4 = some (BitVec.ofNat 32 frame.length)) (hsmall : frame.length < 2 ^ 32)
    (h8 : u32At frame 8 = some cid) (hcid : cid ≠ ch.channelID) :
    openFrame S kdf R ch frame = .err .badTCPSecureChannelUnknown := by
  have sym : ∀ fin, openSym S kdf ch fin frame = .err .badTCPSecureChannelUnknown := by
    intro fin
    unfold openSym
    rw [h8]; dsimp only
    rw [if_pos hcid]
  unfold openFrame
  rw [h0, h4]; dsimp only
  rw [if_neg (by rw [BitVec.toNat_ofNat, Nat.mod_eq_of_lt hsmall]; simp)]
  rcases hty with rfl | rfl
  · rw [if_pos rfl, sym]; rfl
  · rw [if_neg (by decide), if_pos rfl, sym]; rfl

example : let f := sealChunk (xorSuite 2 16) .sign [1, 2] 29 ⟨true, 8, 1, 1, 9, [1, 2, 3], 0⟩
    u32At f 0 = some tyFinal ∧ u32At f 4 = some (BitVec.ofNat 32 f.length) ∧ u32At f 8 = some 8 := by decide

/-- A response respects the limits that the client has told the server: the frames it took and its size. -/
theorem C124_limits (S : Suite) (kdf : Bytes → Bytes → Bytes) (R : Rsa) (lim : Limits) (ch ch' : Chan)
    (frames rest : List Bytes) (body : Bytes) (h : recvMessage S kdf R lim ch frames = .ok (ch', body, rest)) :
    (lim.maxMessage = 0 ∨ body.length ≤ lim.maxMessage.toNat) ∧
    (lim.maxChunks = 0 ∨ frames.length - rest.length ≤ lim.maxChunks.toNat) ∧ rest.length < frames.length := by
  have zero : ∀ b : BitVec 32, b = 0 ∨ 0 < b.toNat := by
    intro b
    rcases Nat.eq_zero_or_pos b.toNat with e | e
    · exact .inl (BitVec.eq_of_toNat_eq e)
    · exact .inr e
  have main : ∀ (fs : List Bytes) (ch : Chan) (count : Nat) (acc : Bytes),
      recvLoop S kdf R lim ch count acc fs = .ok (ch', body, rest) →
      (lim.maxMessage = 0 ∨ body.length ≤ lim.maxMessage.toNat) ∧
      (lim.maxChunks = 0 ∨ count + (fs.length - rest.length) ≤ lim.maxChunks.toNat) ∧ rest.length < fs.length := by
    intro fs
    induction fs with
    | nil => intro ch count acc h; rw [recvLoop] at h; split at h <;> cases h
    | cons f fs ih =>
      intro ch count acc h
      rw [recvLoop] at h
      split at h
      · cases h
      rename_i hc
      split at h
      · cases h
      · cases h
      · cases h
      rename_i ch1 g hop
      dsimp only at h
      split at h
      · cases h
      rename_i hm
      split at h
      · cases h
        refine ⟨?_, ?_, by simp⟩
        · rcases zero lim.maxMessage with e | e
          · exact .inl e
          · right; omega
        · rcases zero lim.maxChunks with e | e
          · exact .inl e
          · right; simp only [List.length_cons]; omega
      · obtain ⟨g1, g2, g3⟩ := ih ch1 (count + 1) _ h
        refine ⟨g1, g2.imp id (fun g2 => ?_), by simp only [List.length_cons]; omega⟩
        simp only [List.length_cons]
        omega
  simpa using main frames ch 0 [] h

example : let S := xorSuite 0 16
    let R : Rsa := ⟨4, 4, fun _ => none, fun _ _ => false⟩
    let ch : Chan := ⟨7, 1, .none, none, [], []⟩
    let f := sealChunk S .none [] 27 ⟨false, 7, 1, 1, 9, [1, 2, 3], 0⟩
    let g := sealChunk S .none [] 27 ⟨true, 7, 1, 2, 9, [4, 5, 6], 0⟩
    recvMessage S (fun a b => a ++ b) R ⟨6, 2⟩ ch [f, g] = .ok (ch, [1, 2, 3, 4, 5, 6], []) ∧
    recvMessage S (fun a b => a ++ b) R ⟨5, 2⟩ ch [f, g] = .err .badResponseTooLarge ∧
    recvMessage S (fun a b => a ++ b) R ⟨6, 1⟩ ch [f, g] = .err .badResponseTooLarge := by decide

theorem keyless (S : Suite) (kdf : Bytes → Bytes → Bytes) (R : Rsa) (ch : Chan) (hsec : ch.mode ≠ .none)
    (hk : ch.recvKey = none) (f : Bytes) (hsmall : f.length < 2 ^ 32) (e0 : u32At f 0 = some tyFinal)
    (e4 : u32At f 4 = some (BitVec.ofNat 32 f.length)) (e8 : u32At f 8 = some ch.channelID)
    (e12 : u32At f 12 = some ch.receivingToken) : openFrame S kdf R ch f = .panic := by
  have hs : switch kdf ch ch.receivingToken = ch := by unfold switch; rw [if_pos rfl]
  have hsym : openSym S kdf ch true f = .panic := by
    unfold openSym
    rw [e8]; dsimp only
    rw [if_neg (fun h => h rfl), e12]; dsimp only
    rw [hs, hk]
    unfold openKeyed
    cases hm : ch.mode with
    | none => exact absurd hm hsec
    | sign => simp only [decryptFrame, verifyFrame]
    | signAndEncrypt => simp only [decryptFrame]
  unfold openFrame
  rw [e0, e4]; dsimp only
  rw [if_neg (by rw [BitVec.toNat_ofNat, Nat.mod_eq_of_lt hsmall]; exact fun h => h rfl),
    if_neg (show tyFinal ≠ tyChunk by decide), if_pos rfl, hsym]
  rfl

/-- Before `Open` has its response a chunk for channel 0 under token 0 ends the process of the client in the secured modes,
whatever follows its header: there is no cipher and no MAC yet. -/
theorem C124_crash_fails (S : Suite) (kdf : Bytes → Bytes → Bytes) (R : Rsa) (mode : Mode) (hsec : mode ≠ .none)
    (rest : Bytes) (hsmall : 16 + rest.length < 2 ^ 32) :
    openFrame S kdf R (fresh mode) (header true (16 + rest.length) 0#32 0#32 ++ rest) = .panic := by
  have hlen : (header true (16 + rest.length) 0#32 0#32 ++ rest).length = 16 + rest.length := by
    rw [List.length_append, Channel.header_length]
  have words : ∀ (n : Nat) (c t : BitVec 32), u32At (header true n c t ++ rest) 0 = some tyFinal ∧
      u32At (header true n c t ++ rest) 4 = some (BitVec.ofNat 32 n) ∧ u32At (header true n c t ++ rest) 8 = some c ∧
      u32At (header true n c t ++ rest) 12 = some t := by
    intro n c t
    unfold header
    rw [if_pos rfl]
    refine ⟨?_, ?_, ?_, ?_⟩
    · rw [List.append_assoc]
      exact Channel.u32At_zero tyFinal _
    · rw [List.append_assoc, List.append_assoc]
      exact Channel.u32At_append _ (Channel.writeU32_length _)
    · rw [List.append_assoc, List.append_assoc, List.append_assoc, ← List.append_assoc]
      exact Channel.u32At_append _ (by rw [List.length_append, Channel.writeU32_length, Channel.writeU32_length])
    · rw [List.append_assoc, List.append_assoc, List.append_assoc, ← List.append_assoc, ← List.append_assoc]
      exact Channel.u32At_append _ (by
        rw [List.length_append, List.length_append, Channel.writeU32_length, Channel.writeU32_length,
          Channel.writeU32_length])
  obtain ⟨e0, e4, e8, e12⟩ := words (16 + rest.length) 0#32 0#32
  refine keyless S kdf R (fresh mode) hsec rfl _ (by rw [hlen]; exact hsmall) e0 ?_ e8 e12
  rw [hlen, e4]

example : openFrame (xorSuite 2 16) (fun a b => a ++ b) ⟨4, 4, fun _ => none, fun _ _ => false⟩ (fresh .signAndEncrypt)
    (header true 20 0 0 ++ [1, 2, 3, 4]) = .panic := by decide

theorem np_opnHeader : NoPanic Channel.readOpnHeader :=
  NoPanic.bind np_u32 fun _ => NoPanic.bind np_string fun _ => NoPanic.bind np_bytearray fun _ =>
    NoPanic.bind np_bytearray fun _ => NoPanic.pure _

/-- In mode None no frame does. -/
theorem C124_none_partial (S : Suite) (kdf : Bytes → Bytes → Bytes) (R : Rsa) (ch : Chan) (hm : ch.mode = .none)
    (hs : S.sigSize = 0) (frame : Bytes) : openFrame S kdf R ch frame ≠ .panic := by
  have sym : ∀ fin, openSym S kdf ch fin frame ≠ .panic := by
    intro fin e
    unfold openSym at e
    split at e
    · cases e
    split at e
    · cases e
    split at e
    · cases e
    split at e
    · cases e
    · rename_i hp
      rw [hm] at hp
      simp only [openKeyed, decryptFrame, verifyFrame] at hp
      unfold fragOf at hp
      split at hp
      · rename_i s r h16 h20
        have := Channel.u32At_isSome h20
        unfold Channel.bodyOf at hp
        dsimp only at hp
        rw [hs, if_neg (by omega)] at hp
        cases hp
      · cases hp
    · cases e
  intro e
  unfold openFrame at e
  split at e
  · split at e
    · cases e
    split at e
    · exact sym _ (of_panic.1 e)
    split at e
    · exact sym _ (of_panic.1 e)
    split at e
    · split at e
      · cases e
      · rename_i hp
        unfold openOpn at hp
        split at hp
        · cases hp
        · rename_i hr
          exact np_opnHeader _ hr
        · unfold openOpnBody at hp
          rw [hm] at hp
          simp only [Mode.secured, Bool.false_eq_true, if_false] at hp
          split at hp <;> cases hp
      · cases e
    split at e
    · split at e <;> cases e
    · cases e
  · cases e

example : let ch : Chan := ⟨7, 1, .none, none, [], []⟩
    ch.mode = .none ∧ (xorSuite 0 16).sigSize = 0 ∧
    openFrame (xorSuite 0 16) (fun a b => a ++ b) ⟨4, 4, fun _ => none, fun _ _ => false⟩ ch [1, 2, 3] =
      .err .badDecodingError := by decide

/-- An Error frame ends the channel with the status in it, on a secured channel as well: nothing is verified. -/
theorem C124_error_fails (S : Suite) (kdf : Bytes → Bytes → Bytes) (R : Rsa) (lim : Limits) (ch : Chan) (code : BitVec 32)
    (msg : Bytes) (hl : msg.length < 2 ^ 31) (rest : List Bytes) :
    recvMessage S kdf R lim ch ((writeU32 tyError ++ (writeU32 (BitVec.ofNat 32 (16 + msg.length)) ++
      (writeU32 code ++ writeString msg))) :: rest) = .told code := by
  have hr : readError.run (writeU32 code ++ writeString msg) = .ok (code, []) := by
    have : RT (writeU32 code ++ writeString msg) readError code :=
      RT.bind (rt_u32 code) (RT.bind_nil (rt_string msg hl) (RT.pure _))
    have := this []
    rw [List.append_nil] at this
    exact this
  have key : ∀ f : Bytes, f.length = 16 + msg.length → u32At f 0 = some tyError →
      u32At f 4 = some (BitVec.ofNat 32 (16 + msg.length)) → f.drop 8 = writeU32 code ++ writeString msg →
      openFrame S kdf R ch f = .told code := by
    intro f hlen e0 e4 hd
    unfold openFrame
    rw [e0, e4]; dsimp only
    rw [if_neg (by rw [hlen, BitVec.toNat_ofNat, Nat.mod_eq_of_lt (by omega)]; simp),
      if_neg (show tyError ≠ tyChunk by decide), if_neg (show tyError ≠ tyFinal by decide),
      if_neg (show tyError ≠ tyOpen by decide), if_pos (show tyError = tyError ∨ tyError = tyAbort from Or.inl rfl), hd, hr]
  unfold recvMessage
  rw [recvLoop, if_neg (by rintro ⟨h1, h2⟩; omega), key]
  · rw [List.length_append, List.length_append, List.length_append, Channel.writeU32_length, Channel.writeU32_length,
      Channel.writeU32_length, Channel.writeString_length]
    omega
  · exact Channel.u32At_zero tyError _
  · exact Channel.u32At_append _ (Channel.writeU32_length _)
  · rw [← List.append_assoc, List.drop_left' (by rw [List.length_append, Channel.writeU32_length, Channel.writeU32_length])]

example : recvMessage (xorSuite 2 16) (fun a b => a ++ b) ⟨4, 4, fun _ => none, fun _ _ => false⟩ ⟨0, 0⟩
    ⟨7, 1, .signAndEncrypt, some [1, 2], [1], [2]⟩
    [writeU32 tyError ++ (writeU32 19#32 ++ (writeU32 0x80130000#32 ++ writeString [110, 111, 33]))] =
      .told 0x80130000#32 := by decide

end Opcua.ClientRecv
