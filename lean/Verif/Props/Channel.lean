import Verif.Lemmas.Lists
import Verif.Lemmas.Channel

/-! Properties C23, C24 (symmetric part), C25, C27, C30, C32, C76: secure channel messages. -/
namespace Opcua.Channel

theorem xorSuite_lawful (sigSize block : Nat) (h : 0 < block) (h2 : block ≤ 65536) : (xorSuite sigSize block).Lawful where
  block_pos := h
  block_le := h2
  mac_length k d := by simp [xorSuite]
  enc_length k x _ := by simp [xorSuite]
  dec_enc k x _ := by
    simp only [xorSuite, List.map_map]
    conv => rhs; rw [← List.map_id x]
    apply List.map_congr_left
    intro a _
    simp [UInt8.xor_assoc]

/-! ### C23 -/

/-- The frames of a message as a receiver sees them: type word, length word. -/
def frameType (f : Bytes) : Option (BitVec 32) := u32At f 0
def frameLen (f : Bytes) : Option (BitVec 32) := u32At f 4

/-- Precondition of sending: the negotiated buffer has room for one body byte; policy None goes
with mode None. -/
structure Sender.Usable (S : Suite) (cfg : Sender) : Prop where
  room : 0 < maxBody S cfg.mode cfg.send
  none_sig : cfg.mode = .none → S.sigSize = 0
  buffer : cfg.send < 2 ^ 32

theorem seal_len {S : Suite} (hS : S.Lawful) {mode : Mode} {key : Bytes} {n : Nat} {c : Chunk}
    (hf : c.Fits S mode n) : (sealChunk S mode key n c).length = n := by
  rw [sealChunk_length hS, hf.size]
  intro he
  have h1 := hf.blocks he
  have h2 := hf.size
  rw [he] at h2
  simp only [padLen, sigLen, if_true] at h2
  rw [← h1]; congr 1
  rw [h2]; simp only [reduceCtorEq, if_false]; omega

/-- Chunking is lossless, every frame fits the negotiated buffer and declares its exact length,
all frames but the last are of type MSGC and the last is MSGF. -/
theorem C23_chunking {S : Suite} (hS : S.Lawful) (cfg : Sender) (h : cfg.Usable S) (tl : Status)
    (rid seq : BitVec 32) (body : Bytes) (hmax : cfg.maxMessage = 0 ∨ body.length ≤ cfg.maxMessage)
    (hch : cfg.maxChunks = 0 ∨ body.length ≤ cfg.maxChunks * (maxBody S cfg.mode cfg.send).toNat) :
    ∃ bodies : List Bytes,
      (sendMessage S cfg tl rid seq body).2 = .sent ∧
      bodies.flatten = body ∧
      (sendMessage S cfg tl rid seq body).1.length = bodies.length ∧
      (∀ f ∈ (sendMessage S cfg tl rid seq body).1,
        f.length ≤ cfg.send ∧ frameLen f = some (BitVec.ofNat 32 f.length)) ∧
      (body ≠ [] → ∃ k, (sendMessage S cfg tl rid seq body).1.map frameType
          = List.replicate k (some tyChunk) ++ [some tyFinal]) ∧
      (body = [] → (sendMessage S cfg tl rid seq body).1 = []) := by
  have hl := sendLoop_ok hS cfg tl rid h.room h.none_sig h.buffer 0 seq body (by simpa using hch)
  unfold sendMessage
  rw [if_neg (by omega)]
  dsimp only
  generalize sendLoop S cfg tl rid 0 seq body = r at hl
  refine ⟨r.chunks.map (fun c => c.1.body), hl.sent, hl.bodies, by simp, ?_, ?_, ?_⟩
  · intro f hf
    obtain ⟨c, hc, rfl⟩ := List.mem_map.1 hf
    have hlen := seal_len hS (key := cfg.key) (hl.fits c hc)
    refine ⟨by rw [hlen]; exact hl.size c hc, ?_⟩
    rw [hlen]
    obtain ⟨t, ht⟩ := seal_header S cfg.mode cfg.key c.2 c.1
    unfold frameLen
    rw [ht]; unfold header; rw [List.append_assoc, List.append_assoc]
    exact u32At_append _ (writeU32_length _)
  · intro hne
    obtain ⟨k, hk⟩ := hl.finals hne
    refine ⟨k, ?_⟩
    have : r.chunks.map (fun c => frameType (sealChunk S cfg.mode cfg.key c.2 c.1))
        = (r.chunks.map (fun c => c.1.final)).map (fun b => some (if b then tyFinal else tyChunk)) := by
      rw [List.map_map]
      apply List.map_congr_left
      intro c _
      obtain ⟨t, ht⟩ := seal_header S cfg.mode cfg.key c.2 c.1
      unfold frameType
      rw [ht]
      simpa [header] using u32At_append (pre := []) (n := 0) (if c.1.final then tyFinal else tyChunk) rfl
    rw [List.map_map]
    show r.chunks.map (fun c => frameType (sealChunk S cfg.mode cfg.key c.2 c.1)) = _
    rw [this, hk]
    simp
  · intro he
    rw [hl.empty he]; rfl

/-- The chunks of one message carry the channel, the token and the request id of the message, and
consecutive sequence numbers. -/
theorem C23_numbering {S : Suite} (hS : S.Lawful) (cfg : Sender) (h : cfg.Usable S) (tl : Status)
    (rid seq : BitVec 32) (body : Bytes) (hch : cfg.maxChunks = 0 ∨ body.length ≤ cfg.maxChunks * (maxBody S cfg.mode cfg.send).toNat) :
    let r := sendLoop S cfg tl rid 0 seq body
    (∀ c ∈ r.chunks, c.1.channelID = cfg.channelID ∧ c.1.tokenID = cfg.tokenID ∧ c.1.requestID = rid) ∧
    r.chunks.map (fun c => c.1.seq) = seqFrom seq r.chunks.length := by
  have hl := sendLoop_ok hS cfg tl rid h.room h.none_sig h.buffer 0 seq body (by simpa using hch)
  exact ⟨hl.ids, hl.seqs⟩

/-- Chunk bodies are never empty, so a message of n bytes takes at most n chunks; and with a
buffer too small for one byte the sender makes no progress and sends nothing. -/
theorem C23_no_room (S : Suite) (cfg : Sender) (tl : Status) (rid seq : BitVec 32) (body : Bytes)
    (hb : body ≠ []) (hroom : maxBody S cfg.mode cfg.send ≤ 0) (hch : cfg.maxChunks = 0)
    (hmax : cfg.maxMessage = 0) :
    sendMessage S cfg tl rid seq body = ([], .stuck) := by
  have hlen : 0 < body.length := List.length_pos_iff.2 hb
  have hp : (plan S cfg.mode cfg.send body.length).bodySize = 0 := by
    unfold plan
    dsimp only
    cases hm : cfg.mode <;> rw [hm] at hroom <;> dsimp only
    · rw [if_neg (by omega)]; omega
    · rw [if_neg (by omega)]; omega
    · rw [if_neg (by omega)]; dsimp only; omega
  unfold sendMessage
  rw [if_neg (by omega), sendLoop, dif_neg (by omega), if_neg (by omega)]
  dsimp only
  rw [dif_pos hp]
  rfl

/-- No more chunks are used than are needed: a message takes the least number of chunks that hold it. -/
theorem C23_count (S : Suite) (cfg : Sender) (tl : Status) (rid : BitVec 32) (count : Nat) (seq : BitVec 32) (body : Bytes)
    (hsent : (sendLoop S cfg tl rid count seq body).fin = .sent) :
    let n := (sendLoop S cfg tl rid count seq body).chunks.length
    body.length ≤ n * (maxBody S cfg.mode cfg.send).toNat ∧
    (n = 0 ∨ (n - 1) * (maxBody S cfg.mode cfg.send).toNat < body.length) := by
  revert hsent
  rw [sendLoop]
  have hps := plan_bodySize S cfg.mode cfg.send body.length
  split
  · rename_i h; exact fun _ => ⟨by simp [List.eq_nil_of_length_eq_zero h], Or.inl rfl⟩
  · split
    · exact fun h => by cases h
    · dsimp only
      split
      · exact fun h => by cases h
      · intro hs
        have ih := C23_count S cfg tl rid (count + 1) (nextSeq seq)
          (body.drop (plan S cfg.mode cfg.send body.length).bodySize) hs
        dsimp only at ih
        rw [List.length_drop, hps] at ih
        rw [hps]
        simp only [List.length_cons]
        generalize (sendLoop S cfg tl rid (count + 1) (nextSeq seq)
          (body.drop (min body.length (maxBody S cfg.mode cfg.send).toNat))).chunks.length = n at ih ⊢
        generalize (maxBody S cfg.mode cfg.send).toNat = mb at ih hps ⊢
        refine ⟨?_, Or.inr ?_⟩
        · rw [Nat.add_mul, Nat.one_mul]; omega
        · rw [Nat.add_sub_cancel]
          rcases ih.2 with h0 | h0
          · rw [h0]; omega
          · cases n with
            | zero => omega
            | succ n =>
              rw [Nat.add_sub_cancel] at h0
              rw [Nat.add_mul, Nat.one_mul]
              omega
termination_by body.length
decreasing_by
  rw [List.length_drop]
  rename_i h3
  exact Nat.sub_lt (by omega) (Nat.pos_of_ne_zero h3)

/-- 100 bytes through a buffer of 64 with a 32-byte MAC and 16-byte blocks take 15 chunks. -/
example : let cfg : Sender := ⟨.signAndEncrypt, 64, 7, 1, [1, 2, 3], 0, 0⟩
    let r := sendMessage (xorSuite 32 16) cfg .badResponseTooLarge 9 5 (List.replicate 100 0xAA)
    cfg.Usable (xorSuite 32 16) ∧ r.1.length = 15 ∧ r.2 = .sent := by
  refine ⟨⟨by decide, by decide, by decide⟩, ?_, ?_⟩ <;> simp [sendMessage, sendLoop, plan, maxBody, xorSuite, padHeader]

/-! ### C24, symmetric messages -/

/-- In SignAndEncrypt the encrypted part of every frame is a whole number of cipher blocks. -/
theorem C24_blocks {S : Suite} (hS : S.Lawful) (cfg : Sender) (h : cfg.Usable S) (he : cfg.mode = .signAndEncrypt)
    (tl : Status) (rid seq : BitVec 32) (body : Bytes)
    (hch : cfg.maxChunks = 0 ∨ body.length ≤ cfg.maxChunks * (maxBody S cfg.mode cfg.send).toNat) :
    ∀ f ∈ (sendMessage S cfg tl rid seq body).1, 16 < f.length ∧ (f.length - 16) % S.block = 0 := by
  have hl := sendLoop_ok hS cfg tl rid h.room h.none_sig h.buffer 0 seq body (by simpa using hch)
  intro f hf
  unfold sendMessage at hf
  split at hf
  · simp at hf
  · obtain ⟨c, hc, rfl⟩ := List.mem_map.1 hf
    have hfit := hl.fits c hc
    rw [seal_len hS hfit]
    exact ⟨by have := hfit.size; omega, hfit.blocks he⟩

/-- The receiver takes exactly the body of the chunk out of every sealed chunk, whatever the
padding: one chunk planned for `n` remaining bytes, sealed and opened. -/
theorem C24_unpad {S : Suite} (hS : S.Lawful) (kdf : Bytes → Bytes → Bytes) (ch : Chan) (key : Bytes)
    (hnone : ch.mode = .none → S.sigSize = 0) (hk : ch.mode ≠ .none → ch.recvKey = some key)
    (send : Nat) (hsend : send < 2 ^ 32) (hroom : 0 < maxBody S ch.mode send)
    (fin : Bool) (seq rid : BitVec 32) (body : Bytes) (hb : body ≠ []) :
    let p := plan S ch.mode send body.length
    openFrame S kdf ch (sealChunk S ch.mode key p.chunkSize
        ⟨fin, ch.channelID, ch.tokenID, seq, rid, body.take p.bodySize, p.paddingSize⟩)
      = .ok (ch, ⟨fin, rid, body.take p.bodySize⟩) := by
  have hp := plan_ok hS ch.mode send body.length (List.length_pos_iff.2 hb) hroom hnone
  dsimp only
  generalize plan S ch.mode send body.length = p at hp
  have hsw : switchToken kdf ch ch.tokenID = .ok ch := by unfold switchToken; rw [if_pos rfl]
  refine openFrame_seal hS kdf ch ch key _ _ ⟨?_, ?_, hnone, hp.blocks, fun he => ?_⟩ rfl hsw hk
  · dsimp only; rw [hp.size, List.length_take, Nat.min_eq_left hp.le]
  · have := hp.fits; omega
  · have := hp.pad he; have := block_lt_pow S.block hS.block_le; dsimp only; omega

/-- Every padding size occurs: with 16-byte blocks and 32-byte MAC, 5 bytes need 2 bytes of
padding and 7 bytes need none. -/
example : (plan (xorSuite 32 16) .signAndEncrypt 8192 5).paddingSize = 2 ∧
    (plan (xorSuite 32 16) .signAndEncrypt 8192 7).paddingSize = 0 ∧
    0 < maxBody (xorSuite 32 16) .signAndEncrypt 8192 := by decide

/-! ### C25 -/

/-- What a sender and a receiver share: channel, token and key. -/
structure Paired (kdf : Bytes → Bytes → Bytes) (cfg : Sender) (ch ch' : Chan) : Prop where
  mode : cfg.mode = ch.mode
  channel : cfg.channelID = ch.channelID
  token : switchToken kdf ch cfg.tokenID = .ok ch'
  key : ch.mode ≠ .none → ch'.recvKey = some cfg.key

/-- A message sent by one side is reassembled by the other side as exactly the same bytes with
the same request id; frames that follow are untouched. -/
theorem C25_round_trip {S : Suite} (hS : S.Lawful) (kdf : Bytes → Bytes → Bytes) (cfg : Sender) (h : cfg.Usable S)
    (ch ch' : Chan) (hpair : Paired kdf cfg ch ch') (lim : Limits) (tl : Status) (rid seq : BitVec 32)
    (body : Bytes) (hb : body ≠ []) (hmax : cfg.maxMessage = 0 ∨ body.length ≤ cfg.maxMessage)
    (hch : cfg.maxChunks = 0 ∨ body.length ≤ cfg.maxChunks * (maxBody S cfg.mode cfg.send).toNat)
    (hlm : lim.maxMessage = 0 ∨ body.length ≤ lim.maxMessage.toNat)
    (hlc : lim.maxChunks = 0 ∨ ((sendMessage S cfg tl rid seq body).1.length : Int) ≤ lim.maxChunks.toInt)
    (rest : List Bytes) :
    recvMessage S kdf lim ch ((sendMessage S cfg tl rid seq body).1 ++ rest) = .ok (ch', ⟨rid, body⟩, rest) := by
  have hl := sendLoop_ok hS cfg tl rid h.room h.none_sig h.buffer 0 seq body (by simpa using hch)
  have hsm : sendMessage S cfg tl rid seq body =
      ((sendLoop S cfg tl rid 0 seq body).chunks.map (fun c => sealChunk S cfg.mode cfg.key c.2 c.1),
        (sendLoop S cfg tl rid 0 seq body).fin) := by
    unfold sendMessage; rw [if_neg (by omega)]
  rw [hsm] at hlc ⊢
  dsimp only at hlc ⊢
  generalize sendLoop S cfg tl rid 0 seq body = r at hl hlc ⊢
  have hm := hpair.mode
  unfold recvMessage
  have := recvLoop_chunks hS kdf lim cfg.key rid cfg.tokenID cfg.channelID rest r.chunks ch ch' 0 []
    (by rw [← hm]; exact hl.fits) hl.ids hpair.channel hpair.token hpair.key (hl.finals hb)
    (by rcases hlc with h0 | h0
        · left; rw [h0]; decide
        · right; simp only [List.length_map] at h0; simpa using h0)
    (by rw [hl.bodies]
        rcases hlm with h0 | h0
        · left; rw [h0]; rfl
        · right; simpa using h0)
  rw [hl.bodies, ← hm] at this
  simpa using this

/-- A receiving channel after a first message under a new token, and a second message. -/
example : let S := xorSuite 32 16
    let kdf : Bytes → Bytes → Bytes := fun a b => a ++ b
    let ch := opened 7 .signAndEncrypt [1] [2]
    let cfg : Sender := ⟨.signAndEncrypt, 64, 7, 1, kdf [1] [2], 0, 0⟩
    cfg.Usable S ∧ ∃ ch', Paired kdf cfg ch ch' ∧ ch'.tokenID = 1 :=
  ⟨⟨by decide, by decide, by decide⟩, _, ⟨rfl, rfl, rfl, fun _ => rfl⟩, rfl⟩

/-- A frame is accepted only if the decrypted bytes end with the MAC, under the receiving key, of
all bytes before it. -/
theorem C25_authentic {S : Suite} (kdf : Bytes → Bytes → Bytes) (ch ch' : Chan) (frame : Bytes) (g : Frag)
    (hsec : ch.mode ≠ .none) (h : openFrame S kdf ch frame = .ok (ch', g)) :
    ∃ key data, ch'.recvKey = some key ∧
      decryptFrame S ch.mode ch'.recvKey frame = .ok data ∧ S.sigSize ≤ data.length ∧
      S.mac key (data.take (data.length - S.sigSize)) = data.drop (data.length - S.sigSize) := by
  obtain ⟨ty, len, _, _, _, _, h⟩ := openFrame_ok_iff.1 h
  obtain ⟨tok, data, _, _, hsw, hdec, hver, _⟩ := openSym_ok_iff.1 h
  rw [(switchToken_same hsw).2.2.2] at hver hdec
  unfold verifyFrame at hver
  split at hver
  · rename_i hmn; exact absurd hmn hsec
  · split at hver
    · cases hver
    · rename_i k hk
      split at hver
      · cases hver
      · split at hver
        · rename_i h1 h2; exact ⟨k, data, hk, hdec, by omega, h2⟩
        · cases hver

/-- A frame with valid header, channel and token whose decrypted bytes do not carry their MAC is
refused with BadSecurityChecksFailed, and the message it belongs to is not delivered. -/
theorem C25_tampered {S : Suite} (kdf : Bytes → Bytes → Bytes) (lim : Limits) (ch ch' : Chan) (count : Nat)
    (acc : Bytes) (frame data : Bytes) (frames : List Bytes) (key : Bytes) (ty tok : BitVec 32)
    (hty : u32At frame 0 = some ty) (htyp : ty = tyChunk ∨ ty = tyFinal ∨ ty = tyClose)
    (hlen : u32At frame 4 = some (BitVec.ofNat 32 frame.length)) (hsmall : frame.length < 2 ^ 32)
    (hcid : u32At frame 8 = some ch.channelID) (htok : u32At frame 12 = some tok)
    (hsw : switchToken kdf ch tok = .ok ch') (hsec : ch.mode ≠ .none) (hk : ch'.recvKey = some key)
    (hdec : decryptFrame S ch.mode (some key) frame = .ok data) (hsig : S.sigSize ≤ data.length)
    (hbad : S.mac key (data.take (data.length - S.sigSize)) ≠ data.drop (data.length - S.sigSize))
    (hcount : lim.maxChunks.toInt ≤ 0 ∨ (count + 1 : Int) ≤ lim.maxChunks.toInt) :
    openFrame S kdf ch frame = .err .badSecurityChecksFailed ∧
    recvLoop S kdf lim ch count acc (frame :: frames) = .err .badSecurityChecksFailed := by
  have hm := (switchToken_same hsw).2.2.2
  have hver : verifyFrame S ch.mode (some key) data = .err .badSecurityChecksFailed := by
    unfold verifyFrame
    split
    · rename_i h; exact absurd h hsec
    · dsimp only; rw [if_neg (by omega), if_neg hbad]
  have hsym : ∀ fin, openSym S kdf ch fin frame = .err .badSecurityChecksFailed := by
    intro fin
    unfold openSym
    rw [hcid]; dsimp only
    rw [if_neg (by simp), htok]; dsimp only
    rw [hsw]; dsimp only
    rw [hm, hk, hdec]; dsimp only
    rw [hver]
  have hopen : openFrame S kdf ch frame = .err .badSecurityChecksFailed := by
    unfold openFrame
    rw [hty, hlen]; dsimp only
    rw [if_neg (by rw [BitVec.toNat_ofNat, Nat.mod_eq_of_lt hsmall]; simp)]
    by_cases h1 : ty = tyChunk
    · rw [if_pos h1, hsym]
    · rw [if_neg h1, if_pos (by rcases htyp with h | h | h <;> simp_all), hsym]
  refine ⟨hopen, ?_⟩
  rw [recvLoop, if_neg (by omega), hopen]

/-- A signed frame with its last byte changed. -/
example : let S := xorSuite 2 16
    let ch : Chan := { opened 7 .sign [1] [2] with tokenID := 1, recvKey := some [5] }
    let f := sealChunk S .sign [5] 29 ⟨true, 7, 1, 1, 9, [1, 2, 3], 0⟩
    openFrame S (fun a b => a ++ b) ch f = .ok (ch, ⟨true, 9, [1, 2, 3]⟩) ∧
    openFrame S (fun a b => a ++ b) ch (f.dropLast ++ [0]) = .err .badSecurityChecksFailed := by
  decide

theorem bodyOf_inside {S : Suite} {mode : Mode} {data b : Bytes} (h : bodyOf S mode data = .ok b) :
    ∃ suf, data.take (data.length - S.sigSize) = data.take 24 ++ (b ++ suf) := by
  have key : ∀ k, 24 + k ≤ data.length - S.sigSize →
      ∃ suf, data.take (data.length - S.sigSize) = data.take 24 ++ ((data.drop 24).take k ++ suf) := by
    intro k hk
    refine ⟨((data.drop 24).drop k).take (data.length - S.sigSize - 24 - k), ?_⟩
    have e : data.length - S.sigSize = 24 + (k + (data.length - S.sigSize - 24 - k)) := by omega
    conv => lhs; rw [e, List.take_add, List.take_add]
  unfold bodyOf at h
  cases mode with
  | signAndEncrypt =>
    dsimp only at h
    split at h
    · cases h
    · split at h
      · cases h
      · cases h; exact key _ (by omega)
  | none =>
    dsimp only at h
    split at h
    · cases h
    · cases h; exact key _ (by omega)
  | sign =>
    dsimp only at h
    split at h
    · cases h
    · cases h; exact key _ (by omega)

/-- What is delivered from a frame lies inside the bytes covered by the MAC. -/
theorem C25_delivers_authenticated {S : Suite} (kdf : Bytes → Bytes → Bytes) (ch ch' : Chan) (frame : Bytes) (g : Frag)
    (h : openFrame S kdf ch frame = .ok (ch', g)) :
    ∃ data suf, decryptFrame S ch.mode ch'.recvKey frame = .ok data ∧
      data.take (data.length - S.sigSize) = data.take 24 ++ (g.body ++ suf) ∧
      u32At data 20 = some g.requestID := by
  obtain ⟨ty, len, _, _, _, _, h⟩ := openFrame_ok_iff.1 h
  obtain ⟨tok, data, _, _, hsw, hdec, _, hfr⟩ := openSym_ok_iff.1 h
  rw [(switchToken_same hsw).2.2.2] at hdec hfr
  unfold fragOf at hfr
  split at hfr
  · rename_i s r e16 e20
    split at hfr
    · rename_i b hb
      cases hfr
      obtain ⟨suf, hs⟩ := bodyOf_inside hb
      exact ⟨data, suf, hdec, hs, e20⟩
    · cases hfr
    · cases hfr
  · cases hfr

/-! ### C27 -/

/-- The next token id, as long as the counter has not wrapped. -/
theorem nextSeq_toNat {n : BitVec 32} (h : n.toNat < 2 ^ 32 - 1) : (nextSeq n).toNat = n.toNat + 1 := by
  unfold nextSeq
  have hne : n ≠ 0xFFFFFFFF#32 := by
    intro e; rw [e] at h; exact absurd h (by decide)
  rw [if_neg hne, BitVec.toNat_add]
  have : BitVec.toNat (1 : BitVec 32) = 1 := rfl
  omega

/-- A chunk is processed under a token exactly when the token is the current or the pending one;
any other is refused with BadSecureChannelTokenUnknown. -/
theorem C27_current_or_pending (kdf : Bytes → Bytes → Bytes) (ch : Chan) (t : BitVec 32) :
    ((∃ ch', switchToken kdf ch t = .ok ch') ↔ (t = ch.tokenID ∨ t = ch.pendingTokenID)) ∧
    (t ≠ ch.tokenID → t ≠ ch.pendingTokenID → switchToken kdf ch t = .err .badSecureChannelTokenUnknown) := by
  unfold switchToken
  constructor
  · constructor
    · rintro ⟨ch', h⟩
      split at h
      · rename_i e; exact Or.inl e.symm
      · split at h
        · cases h
        · rename_i e; exact Or.inr (Decidable.not_not.1 e)
    · rintro (h | h)
      · exact ⟨ch, by rw [if_pos h.symm]⟩
      · by_cases h1 : ch.tokenID = t
        · exact ⟨ch, by rw [if_pos h1]⟩
        · rw [if_neg h1, if_neg (by simp [h])]
          split <;> exact ⟨_, rfl⟩
  · intro h1 h2
    rw [if_neg (fun e => h1 e.symm), if_pos h2]

/-- A frame that names neither token is refused with BadSecureChannelTokenUnknown. -/
theorem C27_frame_refused (S : Suite) (kdf : Bytes → Bytes → Bytes) (ch : Chan) (frame : Bytes) (ty t : BitVec 32)
    (hty : u32At frame 0 = some ty) (htyp : ty = tyChunk ∨ ty = tyFinal ∨ ty = tyClose)
    (hlen : u32At frame 4 = some (BitVec.ofNat 32 frame.length)) (hsmall : frame.length < 2 ^ 32)
    (hcid : u32At frame 8 = some ch.channelID) (htok : u32At frame 12 = some t)
    (h1 : t ≠ ch.tokenID) (h2 : t ≠ ch.pendingTokenID) :
    openFrame S kdf ch frame = .err .badSecureChannelTokenUnknown := by
  have hsym : ∀ fin, openSym S kdf ch fin frame = .err .badSecureChannelTokenUnknown := by
    intro fin
    unfold openSym
    rw [hcid]; dsimp only
    rw [if_neg (by simp), htok]; dsimp only
    rw [(C27_current_or_pending kdf ch t).2 h1 h2]
  unfold openFrame
  rw [hty, hlen]; dsimp only
  rw [if_neg (by rw [BitVec.toNat_ofNat, Nat.mod_eq_of_lt hsmall]; simp)]
  by_cases h3 : ty = tyChunk
  · rw [if_pos h3, hsym]
  · rw [if_neg h3, if_pos (by rcases htyp with h | h | h <;> simp_all), hsym]

/-- Token ids of a reachable channel, before the counter wraps. -/
structure TokOk (ch : Chan) : Prop where
  cur : ch.tokenID.toNat ≤ ch.pendingTokenID.toNat
  pend : ch.pendingTokenID = ch.lastTokenID

def renewals (evs : List TokEv) : Nat := (evs.filter (fun e => match e with | .renew .. => true | _ => false)).length

theorem tokStep_mono (kdf : Bytes → Bytes → Bytes) (ch : Chan) (e : TokEv) (h : TokOk ch)
    (hw : ch.lastTokenID.toNat + renewals [e] < 2 ^ 32) :
    TokOk (tokStep kdf ch e) ∧ ch.tokenID.toNat ≤ (tokStep kdf ch e).tokenID.toNat ∧
    (tokStep kdf ch e).lastTokenID.toNat = ch.lastTokenID.toNat + renewals [e] := by
  cases e with
  | renew l r =>
    have hr : renewals [TokEv.renew l r] = 1 := rfl
    rw [hr] at hw ⊢
    have hn : (nextSeq ch.lastTokenID).toNat = ch.lastTokenID.toNat + 1 := nextSeq_toNat (by omega)
    refine ⟨⟨?_, rfl⟩, Nat.le_refl _, ?_⟩
    · show ch.tokenID.toNat ≤ (nextSeq ch.lastTokenID).toNat
      have := h.cur; rw [h.pend] at this; omega
    · exact hn
  | chunk t =>
    have hr : renewals [TokEv.chunk t] = 0 := rfl
    rw [hr]
    unfold tokStep
    dsimp only
    unfold switchToken
    have := h.cur
    by_cases h1 : ch.tokenID = t
    · rw [if_pos h1]; exact ⟨h, Nat.le_refl _, rfl⟩
    · rw [if_neg h1]
      by_cases h2 : t = ch.pendingTokenID
      · rw [if_neg (by simp [h2])]
        by_cases h3 : ch.mode.secured = true
        · rw [if_pos h3]; exact ⟨⟨Nat.le_refl _, h.pend⟩, this, rfl⟩
        · rw [if_neg h3]; exact ⟨⟨Nat.le_refl _, h.pend⟩, this, rfl⟩
      · rw [if_pos h2]; exact ⟨h, Nat.le_refl _, rfl⟩

theorem tokRun_mono (kdf : Bytes → Bytes → Bytes) (evs : List TokEv) : ∀ (ch : Chan), TokOk ch →
    ch.lastTokenID.toNat + renewals evs < 2 ^ 32 →
    TokOk (tokRun kdf ch evs) ∧ ch.tokenID.toNat ≤ (tokRun kdf ch evs).tokenID.toNat ∧
    (tokRun kdf ch evs).lastTokenID.toNat = ch.lastTokenID.toNat + renewals evs := by
  induction evs with
  | nil => intro ch h _; exact ⟨h, Nat.le_refl _, rfl⟩
  | cons e evs ih =>
    intro ch h hw
    have hsplit : renewals (e :: evs) = renewals [e] + renewals evs := by
      unfold renewals
      rw [← List.length_append, ← List.filter_append]; rfl
    rw [hsplit] at hw ⊢
    obtain ⟨h1, h2, h3⟩ := tokStep_mono kdf ch e h (by omega)
    obtain ⟨g1, g2, g3⟩ := ih (tokStep kdf ch e) h1 (by omega)
    exact ⟨g1, by show _ ≤ (tokRun kdf (tokStep kdf ch e) evs).tokenID.toNat; omega, by
      show (tokRun kdf (tokStep kdf ch e) evs).lastTokenID.toNat = _; omega⟩

/-- Once a chunk under the pending token has made it current, the old token is refused for ever:
after every history of renewals and chunks (up to the 2^32 − 1 renewals after which ids repeat). -/
theorem C27_old_token_dead (kdf : Bytes → Bytes → Bytes) (ch : Chan) (h : TokOk ch)
    (hnew : ch.tokenID ≠ ch.pendingTokenID) (evs : List TokEv)
    (hw : ch.lastTokenID.toNat + renewals evs < 2 ^ 32) :
    switchToken kdf (tokRun kdf ch (.chunk ch.pendingTokenID :: evs)) ch.tokenID
      = .err .badSecureChannelTokenUnknown := by
  have hcur : (tokStep kdf ch (.chunk ch.pendingTokenID)).tokenID = ch.pendingTokenID ∧
      (tokStep kdf ch (.chunk ch.pendingTokenID)).lastTokenID = ch.lastTokenID := by
    unfold tokStep switchToken; dsimp only
    rw [if_neg hnew, if_neg (by simp)]
    by_cases h3 : ch.mode.secured = true
    · rw [if_pos h3]; exact ⟨rfl, rfl⟩
    · rw [if_neg h3]; exact ⟨rfl, rfl⟩
  have h1 := tokStep_mono kdf ch (.chunk ch.pendingTokenID) h (by
    have : renewals [TokEv.chunk ch.pendingTokenID] = 0 := rfl
    omega)
  obtain ⟨g1, g2, _⟩ := tokRun_mono kdf evs _ h1.1 (by rw [hcur.2]; exact hw)
  have hlt : ch.tokenID.toNat < ch.pendingTokenID.toNat := by
    have := h.cur
    have : ch.tokenID.toNat ≠ ch.pendingTokenID.toNat := fun e => hnew (BitVec.eq_of_toNat_eq e)
    omega
  rw [hcur.1] at g2
  have g2' : ch.pendingTokenID.toNat ≤ (tokRun kdf ch (.chunk ch.pendingTokenID :: evs)).tokenID.toNat := g2
  have g1' : TokOk (tokRun kdf ch (.chunk ch.pendingTokenID :: evs)) := g1
  refine (C27_current_or_pending kdf _ _).2 ?_ ?_
  · intro e; rw [← e] at g2'; omega
  · intro e
    have := g1'.cur
    rw [← e] at this; omega

/-- Every channel reached from Open satisfies `TokOk`, so the theorem above applies to it. -/
theorem C27_reachable (kdf : Bytes → Bytes → Bytes) (cid : BitVec 32) (mode : Mode) (l r : Bytes) (evs : List TokEv)
    (hw : renewals evs < 2 ^ 32 - 1) : TokOk (tokRun kdf (opened cid mode l r) evs) :=
  (tokRun_mono kdf evs _ ⟨Nat.zero_le _, rfl⟩ (by
    show 1 + _ < _
    omega)).1

example : let ch := renew { opened 7 .sign [1] [2] with tokenID := 1 } [3] [4]
    TokOk ch ∧ ch.tokenID = 1 ∧ ch.pendingTokenID = 2 ∧
    switchToken (fun a b => a ++ b) (tokRun (fun a b => a ++ b) ch [.chunk 2, .renew [5] [6], .chunk 3]) 1
      = .err .badSecureChannelTokenUnknown := by
  exact ⟨⟨by decide, rfl⟩, rfl, rfl, rfl⟩

/-- The nonces of the key exchanges of a channel, in order: that of Open and those of the renewals. -/
def exchanges (l r : Bytes) (evs : List TokEv) : List (Bytes × Bytes) :=
  (l, r) :: evs.filterMap (fun | .renew l r => some (l, r) | .chunk _ => none)

theorem exchanges_length (l r : Bytes) (evs : List TokEv) : (exchanges l r evs).length = 1 + renewals evs := by
  have : ∀ evs : List TokEv, (evs.filterMap (fun | .renew l r => some (l, r) | .chunk _ => none)).length = renewals evs := by
    intro evs
    induction evs with
    | nil => rfl
    | cons e evs ih => cases e <;> simp_all [renewals]
  simp only [exchanges, List.length_cons, this]
  omega

/-- In every history of a secured channel, the keys in use under token number n are derived from the
nonces of the n-th key exchange: received chunks with the own nonce as secret and the peer's as
seed, sent chunks the other way round. -/
theorem C27_keys_of_token (kdf : Bytes → Bytes → Bytes) (cid : BitVec 32) (mode : Mode) (hm : mode.secured = true)
    (l r : Bytes) (evs : List TokEv) (hw : renewals evs < 2 ^ 32 - 1) :
    let ch := tokRun kdf (opened cid mode l r) evs
    ch.tokenID ≠ 0 → ∃ x, (exchanges l r evs)[ch.tokenID.toNat - 1]? = some x ∧
      ch.recvKey = some (kdf x.1 x.2) ∧ ch.sendKey = some (kdf x.2 x.1) := by
  have key : ∀ evs : List TokEv, renewals evs < 2 ^ 32 - 1 →
      let ch := tokRun kdf (opened cid mode l r) evs
      ch.mode = mode ∧ ch.pendingTokenID = ch.lastTokenID ∧ ch.pendingTokenID.toNat = 1 + renewals evs ∧
      (exchanges l r evs)[renewals evs]? = some (ch.localNonce, ch.remoteNonce) ∧
      (ch.tokenID ≠ 0 → ∃ x, (exchanges l r evs)[ch.tokenID.toNat - 1]? = some x ∧
        ch.recvKey = some (kdf x.1 x.2) ∧ ch.sendKey = some (kdf x.2 x.1)) := by
    intro evs
    induction evs using snocInd with
    | nil =>
      intro _
      exact ⟨rfl, rfl, rfl, rfl, fun h => absurd rfl h⟩
    | append_singleton evs e ih =>
      intro hw
      have hr : renewals (evs ++ [e]) = renewals evs + renewals [e] := by
        unfold renewals
        rw [← List.length_append, ← List.filter_append]
      have hstep : tokRun kdf (opened cid mode l r) (evs ++ [e]) = tokStep kdf (tokRun kdf (opened cid mode l r) evs) e := by
        simp [tokRun]
      have ih := ih (by omega)
      dsimp only at ih ⊢
      rw [hstep]
      generalize tokRun kdf (opened cid mode l r) evs = ch at ih ⊢
      obtain ⟨h1, h2, h3, h4, h5⟩ := ih
      cases e with
      | renew a b =>
        have he : exchanges l r (evs ++ [.renew a b]) = exchanges l r evs ++ [(a, b)] := by simp [exchanges]
        have hr1 : renewals (evs ++ [.renew a b]) = renewals evs + 1 := hr
        have hlen := exchanges_length l r evs
        rw [he]
        refine ⟨h1, rfl, ?_, ?_, ?_⟩
        · show (nextSeq ch.lastTokenID).toNat = _
          rw [nextSeq_toNat (by rw [← h2]; omega), ← h2]
          omega
        · rw [hr1, show renewals evs + 1 = (exchanges l r evs).length by omega]
          simp [tokStep, renew, h1, hm]
        · intro hne
          obtain ⟨x, hx, hk⟩ := h5 hne
          refine ⟨x, ?_, hk⟩
          show (exchanges l r evs ++ [(a, b)])[ch.tokenID.toNat - 1]? = _
          rw [List.getElem?_append_left (List.getElem?_eq_some_iff.1 hx).1]
          exact hx
      | chunk t =>
        have he : exchanges l r (evs ++ [.chunk t]) = exchanges l r evs := by simp [exchanges]
        have hr1 : renewals (evs ++ [.chunk t]) = renewals evs := hr
        rw [he, hr1]
        unfold tokStep switchToken
        dsimp only
        by_cases ht : ch.tokenID = t
        · rw [if_pos ht]; exact ⟨h1, h2, h3, h4, h5⟩
        · rw [if_neg ht]
          by_cases hp : t ≠ ch.pendingTokenID
          · rw [if_pos hp]; exact ⟨h1, h2, h3, h4, h5⟩
          · rw [if_neg hp, if_pos (by rw [h1]; exact hm)]
            refine ⟨h1, h2, h3, h4, fun _ => ⟨(ch.localNonce, ch.remoteNonce), ?_, rfl, rfl⟩⟩
            show (exchanges l r evs)[ch.pendingTokenID.toNat - 1]? = _
            rw [h3, show 1 + renewals evs - 1 = renewals evs by omega]
            exact h4
  exact (key evs hw).2.2.2.2

example : let ch := tokRun (fun a b => a ++ b) (opened 7 .sign [1] [2]) [.chunk 1, .renew [3] [4], .chunk 2, .renew [5] [6], .chunk 1]
    ch.tokenID = 2 ∧ ch.recvKey = some [3, 4] ∧ ch.sendKey = some [4, 3] := by
  exact ⟨rfl, rfl, rfl⟩

/-- The claim that only issued tokens are accepted does not hold between Open and the first chunk:
the current token id is still zero, a chunk that names token 0 gets past the token check, and in
the secured modes it reaches the nil verifier and crashes the server process. -/
theorem C27_token_zero_fails :
    ∃ (S : Suite) (frame : Bytes), S.Lawful ∧ frame.length = 16 ∧
      (∀ kdf l r, switchToken kdf (opened 7 .sign l r) 0 = .ok (opened 7 .sign l r)) ∧
      (∀ kdf l r, openFrame S kdf (opened 7 .sign l r) frame = .panic) := by
  refine ⟨xorSuite 32 16, header true 16 7 0, xorSuite_lawful 32 16 (by decide) (by decide), rfl, ?_, ?_⟩
  · intro kdf l r; rfl
  · intro kdf l r; rfl

/-! ### C30 -/

/-- A delivered request respects both limits of the channel: the frames it took and its size. -/
theorem C30_receive_limits (S : Suite) (kdf : Bytes → Bytes → Bytes) (lim : Limits) (ch ch' : Chan) (frames rest : List Bytes)
    (m : Msg) (h : recvMessage S kdf lim ch frames = .ok (ch', m, rest)) :
    (lim.maxMessage = 0 ∨ m.body.length ≤ lim.maxMessage.toNat) ∧
    (0 < lim.maxChunks.toInt → ((frames.length - rest.length : Nat) : Int) ≤ lim.maxChunks.toInt) ∧
    rest.length < frames.length := by
  have main : ∀ (fs : List Bytes) (ch : Chan) (count : Nat) (acc : Bytes),
      recvLoop S kdf lim ch count acc fs = .ok (ch', m, rest) →
      (lim.maxMessage = 0 ∨ m.body.length ≤ lim.maxMessage.toNat) ∧
      (0 < lim.maxChunks.toInt → ((count + (fs.length - rest.length) : Nat) : Int) ≤ lim.maxChunks.toInt) ∧
      rest.length < fs.length := by
    intro fs
    induction fs with
    | nil => intro ch count acc h; rw [recvLoop] at h; split at h <;> cases h
    | cons f fs ih =>
      intro ch count acc h
      rw [recvLoop] at h
      split at h
      · cases h
      · rename_i hc
        split at h
        · cases h
        · cases h
        · rename_i ch1 g hop
          dsimp only at h
          split at h
          · cases h
          · rename_i hm
            split at h
            · cases h
              refine ⟨?_, fun hp => ?_, by simp⟩
              · by_cases h0 : lim.maxMessage = 0
                · exact Or.inl h0
                · right
                  have : 0 < lim.maxMessage.toNat := by
                    rcases Nat.eq_zero_or_pos lim.maxMessage.toNat with e | e
                    · exact absurd (BitVec.eq_of_toNat_eq e) h0
                    · exact e
                  dsimp only
                  omega
              · simp only [List.length_cons]; omega
            · obtain ⟨g1, g2, g3⟩ := ih ch1 (count + 1) _ h
              refine ⟨g1, fun hp => ?_, by simp only [List.length_cons]; omega⟩
              have := g2 hp
              simp only [List.length_cons]
              omega
  simpa using main frames ch 0 [] h

/-- A request that exceeds the chunk limit is refused with BadRequestTooLarge: no more than the
allowed number of frames is read. -/
theorem C30_too_many_chunks (S : Suite) (kdf : Bytes → Bytes → Bytes) (lim : Limits) (ch : Chan) (count : Nat) (acc : Bytes)
    (frames : List Bytes) (hp : 0 < lim.maxChunks.toInt) (hc : lim.maxChunks.toInt ≤ count) :
    recvLoop S kdf lim ch count acc frames = .err .badRequestTooLarge := by
  cases frames <;> rw [recvLoop, if_pos (by omega)]

/-- On the sending side, a message above the peer's size limit produces no frame at all. -/
theorem C30_send_size_partial (S : Suite) (cfg : Sender) (tl : Status) (rid seq : BitVec 32) (body : Bytes)
    (h0 : 0 < cfg.maxMessage) (h : cfg.maxMessage < body.length) :
    sendMessage S cfg tl rid seq body = ([], .failed tl) := by
  unfold sendMessage; rw [if_pos ⟨h0, h⟩]

/-- And never more frames than the peer's chunk limit. -/
theorem C30_send_count_partial (S : Suite) (cfg : Sender) (tl : Status) (rid : BitVec 32) (h0 : 0 < cfg.maxChunks)
    (count : Nat) (hcount : count ≤ cfg.maxChunks) (seq : BitVec 32) (body : Bytes) :
    count + (sendLoop S cfg tl rid count seq body).chunks.length ≤ cfg.maxChunks := by
  rw [sendLoop]
  split
  · simpa using hcount
  · split
    · simpa using hcount
    · dsimp only
      split
      · simpa using hcount
      · rename_i h1 h2 h3
        have := C30_send_count_partial S cfg tl rid h0 (count + 1) (by omega) (nextSeq seq)
          (body.drop (plan S cfg.mode cfg.send body.length).bodySize)
        simp only [List.length_cons]
        omega
termination_by body.length
decreasing_by
  rw [List.length_drop]
  rename_i h3
  exact Nat.sub_lt (by omega) (Nat.pos_of_ne_zero h3)

/-- But a response that needs more chunks than the client allows is delivered in part: the chunk
limit is only noticed after the allowed number of chunks has been written. -/
theorem C30_partial_response_fails :
    ∃ (S : Suite) (cfg : Sender) (body : Bytes), S.Lawful ∧ cfg.Usable S ∧ cfg.maxChunks = 1 ∧
      (sendMessage S cfg .badResponseTooLarge 9 5 body).1.length = 1 ∧
      (sendMessage S cfg .badResponseTooLarge 9 5 body).2 = .failed .badResponseTooLarge := by
  refine ⟨xorSuite 0 1, ⟨.none, 32, 7, 1, [], 0, 1⟩, List.replicate 20 1, xorSuite_lawful 0 1 (by decide) (by decide),
    ⟨by decide, by decide, by decide⟩, rfl, ?_, ?_⟩ <;>
    simp [sendMessage, sendLoop, plan, maxBody, xorSuite]

/-- This is so on every channel with a limit: a message that needs more chunks leaves exactly the
allowed number of frames on the wire, none of them the last of a message, and the sender then has an
error. -/
theorem C30_in_part_fails (S : Suite) (cfg : Sender) (h : cfg.Usable S) (tl : Status) (rid seq : BitVec 32) (body : Bytes)
    (h0 : 0 < cfg.maxChunks) (hmax : cfg.maxMessage = 0 ∨ body.length ≤ cfg.maxMessage)
    (hover : cfg.maxChunks * (maxBody S cfg.mode cfg.send).toNat < body.length) :
    (sendMessage S cfg tl rid seq body).2 = .failed tl ∧
    (sendMessage S cfg tl rid seq body).1.map frameType = List.replicate cfg.maxChunks (some tyChunk) := by
  obtain ⟨h1, h2⟩ := sendLoop_over S cfg tl rid h.room 0 seq body h0 (Nat.zero_le _) (by omega)
  unfold sendMessage
  rw [if_neg (by omega)]
  refine ⟨h1, ?_⟩
  dsimp only
  rw [List.map_map]
  generalize (sendLoop S cfg tl rid 0 seq body).chunks = cs at h2
  have h3 : cs.map (fun c => c.1.final) = List.replicate cfg.maxChunks false := by
    have := congrArg (List.map Prod.snd) h2
    rw [List.map_map, List.map_replicate] at this
    exact this
  have h4 : cs.map (frameType ∘ fun c => sealChunk S cfg.mode cfg.key c.2 c.1)
      = (cs.map (fun c => c.1.final)).map (fun b => some (if b then tyFinal else tyChunk)) := by
    rw [List.map_map]
    apply List.map_congr_left
    intro c _
    obtain ⟨t, ht⟩ := seal_header S cfg.mode cfg.key c.2 c.1
    show frameType (sealChunk S cfg.mode cfg.key c.2 c.1) = _
    unfold frameType
    rw [ht]
    simpa [header] using u32At_append (pre := []) (n := 0) (if c.1.final then tyFinal else tyChunk) rfl
  rw [h4, h3, List.map_replicate]
  rfl

example : (⟨.none, 32, 7, 1, [], 0, 2⟩ : Sender).Usable (xorSuite 0 1) ∧
    2 * (maxBody (xorSuite 0 1) .none 32).toNat < (List.replicate 20 (1 : UInt8)).length :=
  ⟨⟨by decide, by decide, by decide⟩, by decide⟩

/-! ### C32 -/

/-- Replay is not detected: every frame that was accepted is accepted again right away, with the
same content. The sequence number is read and ignored. -/
theorem C32_replay_fails (S : Suite) (kdf : Bytes → Bytes → Bytes) (ch ch' : Chan) (frame : Bytes) (g : Frag)
    (h : openFrame S kdf ch frame = .ok (ch', g)) : openFrame S kdf ch' frame = .ok (ch', g) := by
  obtain ⟨ty, len, h0, h4, hl, ht, h⟩ := openFrame_ok_iff.1 h
  obtain ⟨tok, data, h8, h12, hsw, hdec, hver, hfr⟩ := openSym_ok_iff.1 h
  obtain ⟨_, h2, h3, _⟩ := switchToken_same hsw
  exact openFrame_ok_iff.2 ⟨ty, len, h0, h4, hl, ht,
    openSym_ok_iff.2 ⟨tok, data, by rw [h3]; exact h8, h12, h2, hdec, hver, hfr⟩⟩

/-- A replay is refused only once the token has been replaced: with any token change after its
acceptance the frame is not accepted again. -/
theorem C32_old_token_partial (S : Suite) (kdf : Bytes → Bytes → Bytes) (ch ch1 : Chan) (frame : Bytes) (g : Frag)
    (h : openFrame S kdf ch frame = .ok (ch1, g)) (hok : TokOk ch1) (hnew : ch1.tokenID ≠ ch1.pendingTokenID)
    (evs : List TokEv) (hw : ch1.lastTokenID.toNat + renewals evs < 2 ^ 32) (ch2 : Chan) (g2 : Frag) :
    openFrame S kdf (tokRun kdf ch1 (.chunk ch1.pendingTokenID :: evs)) frame ≠ .ok (ch2, g2) := by
  obtain ⟨_, _, _, _, _, _, h⟩ := openFrame_ok_iff.1 h
  obtain ⟨tok, _, _, h12, hsw, _⟩ := openSym_ok_iff.1 h
  have hdead := C27_old_token_dead kdf ch1 hok hnew evs hw
  intro e
  obtain ⟨_, _, _, _, _, _, e⟩ := openFrame_ok_iff.1 e
  obtain ⟨tok2, _, _, e12, esw, _⟩ := openSym_ok_iff.1 e
  rw [h12] at e12
  cases e12
  rw [(switchToken_same hsw).1] at hdead
  rw [hdead] at esw
  cases esw

/-- A signed request accepted three times in a row. -/
example : let S := xorSuite 2 16
    let ch : Chan := { opened 7 .sign [1] [2] with tokenID := 1, recvKey := some [5] }
    let f := sealChunk S .sign [5] 29 ⟨true, 7, 1, 1, 9, [1, 2, 3], 0⟩
    recvMessage S (fun a b => a ++ b) ⟨0, 0⟩ ch [f, f, f] = .ok (ch, ⟨9, [1, 2, 3]⟩, [f, f]) := by
  decide

/-! ### C76 -/

/-- In mode None no byte string whatsoever crashes the receiver. -/
theorem C76_mode_none (S : Suite) (kdf : Bytes → Bytes → Bytes) (ch : Chan) (hm : ch.mode = .none) (hs : S.sigSize = 0)
    (frame : Bytes) : openFrame S kdf ch frame ≠ .panic := by
  have hsym : ∀ fin, openSym S kdf ch fin frame ≠ .panic := by
    intro fin e
    unfold openSym at e
    split at e
    · cases e
    · split at e
      · cases e
      · split at e
        · cases e
        · rename_i tok _
          split at e
          · cases e
          · rename_i hsw
            unfold switchToken at hsw
            repeat' split at hsw
            all_goals cases hsw
          · rename_i ch1 hsw
            have hm1 := (switchToken_same hsw).2.2.2.trans hm
            rw [hm1] at e
            simp only [decryptFrame, verifyFrame] at e
            split at e
            · cases e
            · rename_i hfr
              unfold fragOf at hfr
              split at hfr
              · rename_i s r h16 h20
                have := u32At_isSome h20
                unfold bodyOf at hfr
                dsimp only at hfr
                rw [hs, if_neg (by omega)] at hfr
                cases hfr
              · cases hfr
            · cases e
  intro e
  unfold openFrame at e
  split at e
  · split at e
    · cases e
    · split at e
      · exact hsym _ e
      · split at e
        · exact hsym _ e
        · cases e
  · cases e

/-- In mode Sign with keys installed, a frame with room for the headers and the signature never
crashes the receiver, whatever its content. -/
theorem C76_sign_partial (S : Suite) (kdf : Bytes → Bytes → Bytes) (ch : Chan) (hm : ch.mode = .sign) (hk : ch.recvKey ≠ none)
    (frame : Bytes) (hlen : 24 + S.sigSize ≤ frame.length) : openFrame S kdf ch frame ≠ .panic := by
  have hsym : ∀ fin, openSym S kdf ch fin frame ≠ .panic := by
    intro fin e
    unfold openSym at e
    split at e
    · cases e
    · split at e
      · cases e
      · split at e
        · cases e
        · rename_i tok _
          split at e
          · cases e
          · rename_i hsw
            unfold switchToken at hsw
            repeat' split at hsw
            all_goals cases hsw
          · rename_i ch1 hsw
            have hm1 := (switchToken_same hsw).2.2.2.trans hm
            have hk1 : ∃ k, ch1.recvKey = some k := by
              unfold switchToken at hsw
              repeat' split at hsw
              all_goals cases hsw
              · exact Option.ne_none_iff_exists'.1 hk
              · exact ⟨_, rfl⟩
              · exact Option.ne_none_iff_exists'.1 hk
            obtain ⟨k, hk1⟩ := hk1
            rw [hm1, hk1] at e
            simp only [decryptFrame, verifyFrame] at e
            rw [if_neg (by omega)] at e
            split at e
            · cases e
            · rename_i hv
              split at hv <;> cases hv
            · split at e
              · cases e
              · rename_i hfr
                unfold fragOf at hfr
                split at hfr
                · unfold bodyOf at hfr
                  dsimp only at hfr
                  rw [if_neg (by omega)] at hfr
                  cases hfr
                · cases hfr
              · cases e
  intro e
  unfold openFrame at e
  split at e
  · split at e
    · cases e
    · split at e
      · exact hsym _ e
      · split at e
        · exact hsym _ e
        · cases e
  · cases e

/-- But in the secured modes a frame that is shorter than the signature crashes the server
process: anyone who can inject bytes into the connection needs only the channel id and the
token id, no key. -/
theorem C76_short_frame_fails (S : Suite) (kdf : Bytes → Bytes → Bytes) (ch : Chan) (hsec : ch.mode ≠ .none)
    (hsig : 16 < S.sigSize) (hdec : ∀ k, S.dec k [] = []) :
    openFrame S kdf ch (header true 16 ch.channelID ch.tokenID) = .panic := by
  have hh := header_length true 16 ch.channelID ch.tokenID
  have e0 : u32At (header true 16 ch.channelID ch.tokenID) 0 = some tyFinal := by
    simpa [header] using u32At_append (pre := []) (n := 0) tyFinal rfl
  have e4 : u32At (header true 16 ch.channelID ch.tokenID) 4 = some 16#32 := by
    unfold header; exact u32At_append _ (writeU32_length _)
  have e8 : u32At (header true 16 ch.channelID ch.tokenID) 8 = some ch.channelID := by
    unfold header; rw [← List.append_assoc]
    exact u32At_append _ (by simp [writeU32_length])
  have e12 : u32At (header true 16 ch.channelID ch.tokenID) 12 = some ch.tokenID := by
    unfold header; rw [← List.append_assoc, ← List.append_assoc]
    have := u32At_append (pre := writeU32 (if true = true then tyFinal else tyChunk) ++ writeU32 (BitVec.ofNat 32 16) ++ writeU32 ch.channelID)
      (post := []) (n := 12) ch.tokenID (by simp [writeU32_length])
    simpa using this
  have hsw : switchToken kdf ch ch.tokenID = .ok ch := by unfold switchToken; rw [if_pos rfl]
  have hd : (header true 16 ch.channelID ch.tokenID).drop 16 = [] := List.drop_eq_nil_of_le (by omega)
  have ht : (header true 16 ch.channelID ch.tokenID).take 16 = header true 16 ch.channelID ch.tokenID :=
    List.take_of_length_le (by omega)
  unfold openFrame
  rw [e0, e4]; dsimp only
  rw [if_neg (by rw [hh]; decide), if_neg (by decide), if_pos (by decide)]
  unfold openSym
  rw [e8]; dsimp only
  rw [if_neg (by simp), e12]; dsimp only
  rw [hsw]; dsimp only
  cases hm : ch.mode with
  | none => exact absurd hm hsec
  | sign =>
    simp only [decryptFrame, verifyFrame]
    cases ch.recvKey with
    | none => rfl
    | some k => dsimp only; rw [if_pos (by omega)]
  | signAndEncrypt =>
    cases hk : ch.recvKey with
    | none => simp only [decryptFrame]
    | some k =>
      simp only [decryptFrame, hh, Nat.sub_self, Nat.zero_mod, hd, ht, hdec, List.append_nil,
        ne_eq, not_true_eq_false, if_false, verifyFrame]
      rw [if_pos (by omega)]

example : let S := xorSuite 32 16
    let ch : Chan := { opened 7 .signAndEncrypt [1] [2] with tokenID := 1, recvKey := some [5] }
    openFrame S (fun a b => a ++ b) ch (header true 16 7 1) = .panic := rfl

end Opcua.Channel
