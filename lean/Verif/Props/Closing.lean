import Verif.Model.Closing
import Verif.Props.Conversation

/-! C127: closing a channel. -/
namespace Opcua.Closing

open Opcua.Channel
open Opcua.Conversation (Setup State)
open Opcua.Conversation.Spec

/-! ### One close frame -/

theorem header_length (n : Nat) (c t : BitVec 32) : (header n c t).length = 16 := by
  simp [header, Channel.writeU32_length]

/-- The clear text of a close frame. -/
def clear (S : Suite) (mode : Mode) (key : Bytes) (n : Nat) (c : Chunk) : Bytes :=
  let h := header n c.channelID c.tokenID
  let p := payload S mode c
  if mode = .none then h ++ p else h ++ p ++ S.mac key (h ++ p)

theorem seal_length {S : Suite} (hS : S.Lawful) (mode : Mode) (key : Bytes) (n : Nat) (c : Chunk)
    (hdiv : mode = .signAndEncrypt →
      (8 + c.body.length + c.paddingSize + padHeader S.block + S.sigSize) % S.block = 0) :
    (sealClose S mode key n c).length = 24 + c.body.length + padLen S mode c.paddingSize + sigLen S mode := by
  have hp := payload_length S mode c
  cases mode with
  | none => simp [sealClose, header_length, hp, sigLen]; omega
  | sign => simp [sealClose, header_length, hp, sigLen, hS.mac_length]; omega
  | signAndEncrypt =>
    have hdiv := hdiv rfl
    have hpl : padLen S .signAndEncrypt c.paddingSize = c.paddingSize + padHeader S.block := by simp [padLen]
    simp only [sealClose, List.length_append, header_length]
    rw [hS.enc_length]
    · rw [List.length_append, hp, hS.mac_length]
      simp [sigLen]; omega
    · rw [List.length_append, hp, hS.mac_length, hpl, ← hdiv]
      congr 1; omega

theorem decrypt_seal {S : Suite} (hS : S.Lawful) (mode : Mode) (key : Bytes) (n : Nat) (c : Chunk)
    (ko : Option Bytes) (hk : mode ≠ .none → ko = some key)
    (hdiv : mode = .signAndEncrypt →
      (8 + c.body.length + c.paddingSize + padHeader S.block + S.sigSize) % S.block = 0) :
    decryptFrame S mode ko (sealClose S mode key n c) = .ok (clear S mode key n c) := by
  cases mode with
  | none => simp [decryptFrame, sealClose, clear]
  | sign => simp [decryptFrame, sealClose, clear]
  | signAndEncrypt =>
    have hd := hdiv rfl
    have hl := seal_length hS .signAndEncrypt key n c hdiv
    rw [hk (by simp)]
    have hpl : padLen S .signAndEncrypt c.paddingSize = c.paddingSize + padHeader S.block := by simp [padLen]
    have hsl : sigLen S .signAndEncrypt = S.sigSize := by simp [sigLen]
    unfold decryptFrame
    dsimp only
    have e1 : (sealClose S .signAndEncrypt key n c).length - 16 =
        8 + c.body.length + c.paddingSize + padHeader S.block + S.sigSize := by omega
    rw [if_neg (by rw [e1, hd]; simp)]
    have hh := header_length n c.channelID c.tokenID
    have hpm : (payload S .signAndEncrypt c ++ S.mac key (header n c.channelID c.tokenID ++ payload S .signAndEncrypt c)).length % S.block = 0 := by
      rw [List.length_append, payload_length, hS.mac_length, hpl, ← hd]; congr 1; omega
    simp only [sealClose, clear]
    rw [List.take_append_of_le_length (by omega), List.take_of_length_le (by omega),
      List.drop_append, List.drop_eq_nil_of_le (by omega), hh]
    simp only [Nat.sub_self, List.drop_zero, List.nil_append]
    rw [hS.dec_enc _ _ hpm]
    simp

theorem verify_clear {S : Suite} (hS : S.Lawful) (mode : Mode) (key : Bytes) (n : Nat) (c : Chunk)
    (ko : Option Bytes) (hk : mode ≠ .none → ko = some key) :
    verifyFrame S mode ko (clear S mode key n c) = .ok () := by
  by_cases hm : mode = .none
  · subst hm; rfl
  · rw [hk hm]
    have hv : ∀ d, verifyFrame S mode (some key) d = if d.length < S.sigSize then .panic
        else if S.mac key (d.take (d.length - S.sigSize)) = d.drop (d.length - S.sigSize) then .ok ()
        else .err .badSecurityChecksFailed := by
      intro d; cases mode <;> first | exact absurd rfl hm | rfl
    have hc : clear S mode key n c = (header n c.channelID c.tokenID ++ payload S mode c) ++
        S.mac key (header n c.channelID c.tokenID ++ payload S mode c) := by simp [clear, hm]
    rw [hv, hc]
    generalize header n c.channelID c.tokenID ++ payload S mode c = x
    have hml := hS.mac_length key x
    have e : (x ++ S.mac key x).length - S.sigSize = x.length := by rw [List.length_append]; omega
    rw [e, if_neg (by rw [List.length_append]; omega), List.take_left, List.drop_left, if_pos rfl]

theorem clear_tail (S : Suite) (mode : Mode) (key : Bytes) (n : Nat) (c : Chunk) :
    ∃ t t' , clear S mode key n c = header n c.channelID c.tokenID ++ (payload S mode c ++ t) ∧
      Channel.clear S mode key n c = Channel.header c.final n c.channelID c.tokenID ++ (payload S mode c ++ t') ∧
      (S.Lawful → t.length = t'.length ∧ t.length = sigLen S mode) := by
  by_cases h : mode = .none
  · exact ⟨[], [], by simp [clear, h], by simp [Channel.clear, h], fun _ => by simp [sigLen, h]⟩
  · exact ⟨_, _, by simp only [clear, h, if_false, List.append_assoc]; rfl,
      by simp only [Channel.clear, h, if_false, List.append_assoc]; rfl,
      fun hS => by simp [hS.mac_length, sigLen, h]⟩

/-- The body of a close frame is found where that of any frame is. -/
theorem bodyOf_clear {S : Suite} (hS : S.Lawful) (mode : Mode) (key : Bytes) (n : Nat) (c : Chunk)
    (hnone : mode = .none → S.sigSize = 0)
    (hp : mode = .signAndEncrypt → c.paddingSize < 256 ^ padHeader S.block) :
    bodyOf S mode (clear S mode key n c) = .ok c.body := by
  have key' := Channel.bodyOf_clear hS mode key n c hnone hp
  obtain ⟨t, t', h1, h2, h3⟩ := clear_tail S mode key n c
  obtain ⟨h3, h4⟩ := h3 hS
  have a1 := header_length n c.channelID c.tokenID
  have a2 := Channel.header_length c.final n c.channelID c.tokenID
  have hpay := payload_length S mode c
  rw [h2] at key'
  rw [h1]
  generalize header n c.channelID c.tokenID = h at *
  generalize Channel.header c.final n c.channelID c.tokenID = h' at *
  generalize hP : payload S mode c = P at *
  have hlen : (h ++ (P ++ t)).length = (h' ++ (P ++ t')).length := by simp [a1, a2, h3]
  have hdrop : ∀ k m, 16 ≤ k → k + m ≤ 16 + P.length →
      ((h ++ (P ++ t)).drop k).take m = ((h' ++ (P ++ t')).drop k).take m := by
    intro k m hk hm
    have g : ∀ (a b : Bytes), a.length = 16 →
        ((a ++ (P ++ b)).drop k).take m = (P.drop (k - 16)).take m := by
      intro a b ha
      rw [List.drop_append, List.drop_eq_nil_of_le (by omega), ha, List.nil_append,
        List.drop_append_of_le_length (by omega), List.take_append_of_le_length (by rw [List.length_drop]; omega)]
    rw [g h t a1, g h' t' a2]
  have hsig : mode = .none ∨ sigLen S mode = S.sigSize := by
    by_cases hm : mode = .none
    · exact Or.inl hm
    · exact Or.inr (by simp [sigLen, hm])
  have hsig : sigLen S mode = S.sigSize := by
    rcases hsig with h | h
    · simp [sigLen, h, hnone h]
    · exact h
  have hfull : (h' ++ (P ++ t')).length = 16 + P.length + S.sigSize := by
    simp [a2, ← h3, h4, hsig]; omega
  unfold bodyOf at key' ⊢
  by_cases he : mode = .signAndEncrypt
  · subst he
    have hpl : padLen S .signAndEncrypt c.paddingSize = c.paddingSize + padHeader S.block := by simp [padLen]
    dsimp only at key' ⊢
    rw [hlen, hdrop _ _ (by omega) (by omega)]
    split at key'
    · cases key'
    · rename_i q1
      rw [if_neg q1]
      split at key'
      · cases key'
      · rename_i q2
        rw [if_neg q2, hdrop _ _ (by omega) (by omega)]
        exact key'
  · have hb : ∀ d : Bytes, bodyOf S mode d = if d.length < 16 + 8 + S.sigSize then .panic
        else .ok ((d.drop 24).take (d.length - 16 - 8 - S.sigSize)) := by
      intro d; cases mode <;> first | rfl | exact absurd rfl he
    have k2 : bodyOf S mode (h' ++ (P ++ t')) = .ok c.body := key'
    show bodyOf S mode (h ++ (P ++ t)) = .ok c.body
    rw [hb] at k2 ⊢
    rw [hlen]
    split at k2
    · cases k2
    · rename_i q
      rw [if_neg q, hdrop _ _ (by omega) (by omega)]
      exact k2

theorem words (ty a b c : BitVec 32) (t : Bytes) :
    u32At (writeU32 ty ++ (writeU32 a ++ (writeU32 b ++ writeU32 c)) ++ t) 0 = some ty ∧
    u32At (writeU32 ty ++ (writeU32 a ++ (writeU32 b ++ writeU32 c)) ++ t) 4 = some a ∧
    u32At (writeU32 ty ++ (writeU32 a ++ (writeU32 b ++ writeU32 c)) ++ t) 8 = some b ∧
    u32At (writeU32 ty ++ (writeU32 a ++ (writeU32 b ++ writeU32 c)) ++ t) 12 = some c := by
  refine ⟨?_, ?_, ?_, ?_⟩
  · simpa using u32At_append (pre := []) (n := 0) ty rfl
  · rw [List.append_assoc, List.append_assoc]
    exact u32At_append _ (Channel.writeU32_length _)
  · rw [List.append_assoc, List.append_assoc, List.append_assoc, ← List.append_assoc]
    exact u32At_append _ (by simp [Channel.writeU32_length])
  · rw [List.append_assoc, List.append_assoc, List.append_assoc, ← List.append_assoc, ← List.append_assoc]
    exact u32At_append _ (by simp [Channel.writeU32_length])

theorem seal_words (S : Suite) (mode : Mode) (key : Bytes) (n : Nat) (c : Chunk) :
    u32At (sealClose S mode key n c) 0 = some tyClose ∧
    u32At (sealClose S mode key n c) 4 = some (BitVec.ofNat 32 n) ∧
    u32At (sealClose S mode key n c) 8 = some c.channelID ∧ u32At (sealClose S mode key n c) 12 = some c.tokenID := by
  obtain ⟨t, ht⟩ : ∃ t, sealClose S mode key n c = header n c.channelID c.tokenID ++ t := by
    cases mode <;> exact ⟨_, by simp only [sealClose, List.append_assoc]; rfl⟩
  rw [ht]; exact words _ _ _ _ t

theorem openFrame_close {S : Suite} (hS : S.Lawful) (kdf : Bytes → Bytes → Bytes) (ch ch' : Chan)
    (key : Bytes) (n : Nat) (c : Chunk) (hf : c.Fits S ch.mode n)
    (hid : c.channelID = ch.channelID) (hsw : switchToken kdf ch c.tokenID = .ok ch')
    (hk : ch.mode ≠ .none → ch'.recvKey = some key) :
    (sealClose S ch.mode key n c).length = n ∧ u32At (sealClose S ch.mode key n c) 4 = some (BitVec.ofNat 32 n) ∧
    openFrame S kdf ch (sealClose S ch.mode key n c) = .ok (ch', ⟨true, c.requestID, c.body⟩) := by
  have hmode := (switchToken_same hsw).2.2.2
  have hdiv : ch.mode = .signAndEncrypt →
      (8 + c.body.length + c.paddingSize + padHeader S.block + S.sigSize) % S.block = 0 := by
    intro he
    have h1 := hf.blocks he
    have h2 := hf.size
    rw [he] at h2
    simp only [padLen, sigLen, if_true] at h2
    rw [← h1]; congr 1
    rw [h2]; simp only [reduceCtorEq, if_false]; omega
  have hlen : (sealClose S ch.mode key n c).length = n := by
    rw [seal_length hS _ _ _ _ hdiv, hf.size]
  obtain ⟨e0, e4, e8, e12⟩ := seal_words S ch.mode key n c
  refine ⟨hlen, e4, openFrame_ok_iff.2 ⟨tyClose, BitVec.ofNat 32 n, e0, e4, ?_, Or.inr (Or.inr rfl), ?_⟩⟩
  · rw [hlen, BitVec.toNat_ofNat, Nat.mod_eq_of_lt hf.small]
  · rw [show (decide (tyClose ≠ tyChunk)) = true by decide]
    refine openSym_ok_iff.2 ⟨c.tokenID, clear S ch.mode key n c, by rw [e8, hid], e12, hsw, ?_, ?_, ?_⟩
    · rw [hmode]; exact decrypt_seal hS ch.mode key n c _ hk hdiv
    · rw [hmode]; exact verify_clear hS ch.mode key n c _ hk
    · rw [hmode]
      obtain ⟨t, _, hu, -⟩ := clear_tail S ch.mode key n c
      have hh := header_length n c.channelID c.tokenID
      unfold fragOf
      have e16 : u32At (clear S ch.mode key n c) 16 = some c.seq := by
        rw [hu]; unfold payload; rw [List.append_assoc]; exact u32At_append _ hh
      have e20 : u32At (clear S ch.mode key n c) 20 = some c.requestID := by
        rw [hu]; unfold payload; rw [List.append_assoc, List.append_assoc, ← List.append_assoc]
        exact u32At_append _ (by simp [hh, Channel.writeU32_length])
      rw [e16, e20]; dsimp only
      rw [bodyOf_clear hS ch.mode key n c hf.none_sig hf.pad_lt]


/-! ### Closing a conversation -/

namespace Spec

/-- A close request of `n` bytes fits one chunk, and is within the limits of both sides. -/
structure FitsClose (p : Setup) (n : Nat) : Prop where
  size : p.maxRequest = 0 ∨ n ≤ p.maxRequest
  chunk : n ≤ (maxBody p.S p.mode p.clientSend).toNat
  size' : p.requestLimits.maxMessage = 0 ∨ n ≤ p.requestLimits.maxMessage.toNat

/-- A proper close request that fits. -/
def GoodClose (p : Setup) (fs : List Val) : Prop :=
  Conversation.Spec.Proper p closeRequest fs ∧
    ∀ e, Messages.write Messages.clientWrites closeRequest fs = some e → FitsClose p e.length

end Spec

open Spec

theorem frame_plan {p : Setup} (h : Conversation.Spec.Sound p) (rid seq : BitVec 32) (body : Bytes) (hb : body ≠ [])
    (hf : FitsClose p body.length) :
    let q := plan p.S p.mode p.clientSend body.length
    let c : Chunk := ⟨true, p.channelID, 1, nextSeq seq, rid, body, q.paddingSize⟩
    sendClose p.S p.clientSender rid seq body =
      .frame (sealClose p.S p.mode (p.kdf p.serverNonce p.clientNonce) q.chunkSize c) ∧
    c.Fits p.S p.mode q.chunkSize ∧ q.chunkSize ≤ p.clientSend := by
  intro q c
  have hpos : 0 < body.length := List.length_pos_iff.2 hb
  have hq := plan_ok h.lawful p.mode p.clientSend body.length hpos h.upRoom h.none_sig
  have hbs := plan_bodySize p.S p.mode p.clientSend body.length
  have hch := hf.chunk
  have he : (plan p.S p.mode p.clientSend body.length).bodySize = body.length := by omega
  refine ⟨?_, ?_, ?_⟩
  · have hsz := hf.size
    unfold sendClose
    rw [if_neg (show ¬ (p.clientSender.maxMessage > 0 ∧ body.length > p.clientSender.maxMessage) by
      show ¬ (p.maxRequest > 0 ∧ body.length > p.maxRequest); omega)]
    dsimp only
    show (if body.length > (plan p.S p.mode p.clientSend body.length).bodySize then _ else _) = _
    rw [if_neg (by omega)]
    show Sent.frame (sealClose p.S p.mode _ _ ⟨true, p.channelID, 1, nextSeq seq, rid,
      body.take (plan p.S p.mode p.clientSend body.length).bodySize, _⟩) = _
    rw [he, List.take_of_length_le (Nat.le_refl _)]
    rfl
  · constructor
    · rw [hq.size, he]
    · exact Nat.lt_of_le_of_lt hq.fits h.upSmall
    · exact h.none_sig
    · exact hq.blocks
    · intro hm
      exact Nat.lt_of_lt_of_le (hq.pad hm) (block_lt_pow _ h.lawful.block_le)
  · exact hq.fits

/-- The server accepts the frame, whatever came before it: same request id, same body, the end of a message. -/
theorem close_received {p : Setup} (h : Conversation.Spec.Sound p) (rid seq : BitVec 32) (body : Bytes) (hb : body ≠ [])
    (hf : FitsClose p body.length) (ch : Chan) (hch : ch = Conversation.chan0 p ∨ ch = Conversation.chan1 p) :
    ∃ f, sendClose p.S p.clientSender rid seq body = .frame f ∧ Conversation.Framed p.serverReceive f ∧
      ∀ (conn : Frame.Conn) (w : Bytes), conn.flatten = f ++ w →
        ∃ c, Conversation.serverRecv p (conn.flatten.length + 1) ch 0 [] conn = .got (Conversation.chan1 p, ⟨rid, body⟩, c) ∧
          c.flatten = w := by
  obtain ⟨h1, h2, h3⟩ := frame_plan h rid seq body hb hf
  have hp : Paired p.kdf p.clientSender ch (Conversation.chan1 p) := by
    rcases hch with rfl | rfl
    · exact Conversation.pair0 p
    · exact Conversation.pair1 p
  have hm : p.mode = ch.mode := hp.mode
  generalize plan p.S p.mode p.clientSend body.length = q at h1 h2 h3
  rw [hm] at h1 h2
  obtain ⟨e1, e2, e3⟩ := openFrame_close h.lawful p.kdf ch (Conversation.chan1 p) (p.kdf p.serverNonce p.clientNonce)
    q.chunkSize _ h2 hp.channel hp.token hp.key
  generalize sealClose p.S ch.mode (p.kdf p.serverNonce p.clientNonce) q.chunkSize _ = F at h1 e1 e2 e3
  refine ⟨_, h1, ?_, ?_⟩
  · have h4 := h.upBuffer
    refine ⟨by rw [e1]; omega, ?_, by rw [e1]; exact h2.small⟩
    rw [e1]; exact e2
  · intro conn w hc
    refine Conversation.serverRecv_frames p w [F] _ ch (Conversation.chan1 p) 0 [] conn ⟨rid, body⟩ ?_ ?_ ?_ ?_
    rotate_left
    · intro f hf'
      rw [List.mem_singleton] at hf'
      subst hf'
      have h4 := h.upBuffer
      refine ⟨by rw [e1]; omega, ?_, by rw [e1]; exact h2.small⟩
      rw [e1]; exact e2
    · simpa using hc
    · rw [recvLoop]
      have hsz := hf.size'
      rw [if_neg (by omega)]
      rw [e3]
      simp only [List.nil_append, if_true]
      rw [if_neg]
      intro hh
      rcases hsz with hz | hz
      · rw [hz] at hh; simp at hh
      · omega
    · simp

theorem close_passes : Messages.passes Messages.clientWrites Messages.serverReads closeRequest = true := by decide +kernel
theorem close_header : Conversation.startsRequest (Structs.reg.fieldsOf closeRequest) = true := by decide +kernel
theorem others : (Messages.methods.all fun m => !Nat.beq m.request closeRequest) = true := by decide +kernel

theorem close_sendable {p : Setup} {fs : List Val} (hg : GoodClose p fs) (h : BitVec 32) :
    ∃ fs' body, Conversation.setHandle h fs = some fs' ∧
      Messages.write Messages.clientWrites closeRequest fs' = some body ∧ body ≠ [] ∧ FitsClose p body.length ∧
      (Messages.read Messages.serverReads p.fuel).run body = .ok ((closeRequest, .struct fs'), []) := by
  obtain ⟨hp, hsz⟩ := hg
  obtain ⟨a, b, x, hd, rest, rfl⟩ := Conversation.request_shape close_header hp.typed
  have hp' : Conversation.Spec.Proper p closeRequest (.struct (a :: b :: .leaf (.b32 h) :: hd) :: rest) :=
    Conversation.handle_request hp
  obtain ⟨e, he, hr⟩ := Messages.passes_roundtrip close_passes _ p.fuel hp'.typed hp'.exact hp'.flat
  have hr0 := hr []
  rw [List.append_nil] at hr0
  refine ⟨_, e, rfl, he, ?_, ?_, hr0⟩
  · rintro rfl
    exact Conversation.read_nil _ _ _ _ hr0
  · have hl := Conversation.write_request_len (table := Messages.clientWrites) (t := closeRequest) a b x h hd rest
    rw [he] at hl
    cases hx : Messages.write Messages.clientWrites closeRequest (.struct (a :: b :: .leaf (.b32 x) :: hd) :: rest) with
    | none => rw [hx] at hl; simp at hl
    | some e0 =>
      rw [hx] at hl
      simp only [Option.map_some, Option.some.injEq] at hl
      rw [← hl]
      exact hsz _ hx

/-- The server reads the requests under way, one after the other, and then whatever follows them. -/
theorem drain_requests {p : Setup} (h : Conversation.Spec.Sound p) (w : Bytes) : ∀ (us : List Conversation.Up) (n : Nat)
    (ch : Chan) (conn : Frame.Conn), (∀ u ∈ us, u.Ok p ∧ u.type ≠ closeRequest) →
    (ch = Conversation.chan0 p ∨ ch = Conversation.chan1 p) → conn.flatten = (us.map (Conversation.Up.bytes p)).flatten ++ w →
    ∃ (ch' : Chan) (conn' : Frame.Conn), (ch' = Conversation.chan0 p ∨ ch' = Conversation.chan1 p) ∧ conn'.flatten = w ∧
      drain p (us.length + n) ch conn =
        (us.map (fun u => (u.type, u.fields)) ++ (drain p n ch' conn').1, (drain p n ch' conn').2) := by
  intro us
  induction us with
  | nil =>
    intro n ch conn _ hch hc
    exact ⟨ch, conn, hch, by simpa using hc, by simp⟩
  | cons u us ih =>
    intro n ch conn hu hch hc
    obtain ⟨hok, hne⟩ := hu u List.mem_cons_self
    obtain ⟨c, h1, h2⟩ := Conversation.up_received h u.rid u.seq u.body hok.ne hok.fits ch hch conn
      ((us.map (Conversation.Up.bytes p)).flatten ++ w) (by rw [hc]; simp [Conversation.Up.bytes])
    obtain ⟨ch', conn', k1, k2, k3⟩ := ih n _ c (fun v hv => hu v (List.mem_cons_of_mem _ hv)) (Or.inr rfl) h2
    refine ⟨ch', conn', k1, k2, ?_⟩
    rw [List.length_cons, show us.length + 1 + n = (us.length + n) + 1 by omega, drain, h1]
    simp only [hok.read, hne, if_false, k3, List.map_cons, List.cons_append]

theorem under_way {p : Setup} {N : Nat} {s : State} (I : Conversation.Inv p N s) :
    ∃ us : List Conversation.Up, (∀ u ∈ us, u.Ok p ∧ u.type ≠ closeRequest) ∧
      s.up.flatten = (us.map (Conversation.Up.bytes p)).flatten ∧ us.length ≤ s.calls.length ∧
      s.calls.map (fun c => (c.1.request, c.2)) = s.served ++ us.map (fun u => (u.type, u.fields)) := by
  obtain ⟨us, u1, u2, u3⟩ := I.up
  refine ⟨us, fun u hu => ⟨u1 u hu, ?_⟩, u2, ?_, u3⟩
  · have hmem : (u.type, u.fields) ∈ s.calls.map Conversation.seen := by
      rw [u3]; exact List.mem_append_right _ (List.mem_map.2 ⟨u, hu, rfl⟩)
    obtain ⟨c, hc, he⟩ := List.mem_map.1 hmem
    have hm := List.all_eq_true.1 others c.1 (I.known c hc)
    have ht : c.1.request = u.type := congrArg Prod.fst he
    intro hcl
    rw [ht, hcl] at hm
    revert hm; decide
  · have := congrArg List.length u3
    simp only [List.length_map, List.length_append] at this
    omega

/-! ## C127 -/

/-- After any conversation, closing the channel succeeds; the server then reads every request that was called and that
it had not read, in the order of the calls, and after them the close request, which ends its worker. In whatever pieces
the bytes arrive. -/
theorem C127_close {p : Setup} (hs : Conversation.Spec.Sound p) (evs : List Conversation.Ev)
    (hg : ∀ e ∈ evs, Conversation.Spec.Good p e) (hN : evs.countP Conversation.Ev.isCall ≤ 2 ^ 32 - 1) (fs : List Val)
    (hc : GoodClose p fs) :
    let s := Conversation.run p (Conversation.init p) evs
    (close p s fs).2 = true ∧
    ∀ (conn : Frame.Conn) (n : Nat), conn.flatten = (close p s fs).1.up.flatten → s.calls.length < n →
      s.served ++ (drain p n s.serverChan conn).1 = s.calls.map (fun c => (c.1.request, c.2)) ∧
      (drain p n s.serverChan conn).2 = .closed := by
  intro s
  have I := Conversation.inv_run hs evs hg hN
  obtain ⟨fs', body, h1, h2, h3, h4, h5⟩ := close_sendable hc (nextSeq s.handle)
  obtain ⟨f, k1, -, -⟩ := close_received hs (nextSeq s.handle) s.clientSeq body h3 h4 _ (Or.inl rfl)
  have hclose : close p s fs = ({ s with
           handle := nextSeq s.handle
           clientSeq := nextSeq s.clientSeq
           up := s.up ++ [f] }, true) := by
    unfold close; simp only [h1, h2, k1]
  rw [hclose]
  refine ⟨rfl, ?_⟩
  intro conn n hconn hn
  obtain ⟨us, u1, u2, u3, u4⟩ := under_way I
  obtain ⟨ch', conn', g1, g2, g3⟩ := drain_requests hs f us (n - us.length) s.serverChan conn u1 I.srv
    (by rw [hconn]; show (s.up ++ [f]).flatten = _; rw [List.flatten_append, u2]; simp)
  have e : us.length + (n - us.length) = n := by
    have : us.length ≤ s.calls.length := u3
    omega
  rw [e] at g3
  obtain ⟨f', k1', -, k2'⟩ := close_received hs (nextSeq s.handle) s.clientSeq body h3 h4 ch' g1
  rw [k1] at k1'
  cases k1'
  obtain ⟨c, r1, -⟩ := k2' conn' [] (by rw [g2]; simp)
  have hd : drain p (n - us.length) ch' conn' = ([], .closed) := by
    have : n - us.length = (n - us.length - 1) + 1 := by
      have : us.length ≤ s.calls.length := u3
      omega
    rw [this, drain, r1]
    simp only [h5, if_true]
  rw [g3, hd]
  refine ⟨?_, rfl⟩
  rw [List.append_nil]
  exact u4.symm

/-- Without a close request the worker of the server goes on: it reads what was called, and waits for more. -/
theorem C127_stays_open {p : Setup} (hs : Conversation.Spec.Sound p) (evs : List Conversation.Ev)
    (hg : ∀ e ∈ evs, Conversation.Spec.Good p e) (hN : evs.countP Conversation.Ev.isCall ≤ 2 ^ 32 - 1) :
    let s := Conversation.run p (Conversation.init p) evs
    ∀ (conn : Frame.Conn) (n : Nat), conn.flatten = s.up.flatten → s.calls.length ≤ n →
      s.served ++ (drain p n s.serverChan conn).1 = s.calls.map (fun c => (c.1.request, c.2)) ∧
      (drain p n s.serverChan conn).2 = .waiting := by
  intro s conn n hconn hn
  have I := Conversation.inv_run hs evs hg hN
  obtain ⟨us, u1, u2, u3, u4⟩ := under_way I
  obtain ⟨ch', conn', g1, g2, g3⟩ := drain_requests hs [] us (n - us.length) s.serverChan conn u1 I.srv
    (by rw [hconn, List.append_nil]; exact u2)
  have e : us.length + (n - us.length) = n := by
    have : us.length ≤ s.calls.length := u3
    omega
  rw [e] at g3
  have hd : drain p (n - us.length) ch' conn' = ([], .waiting) := by
    cases n - us.length with
    | zero => rfl
    | succ k =>
      rw [drain, g2]
      simp only [List.length_nil, Conversation.serverRecv, Conversation.stalled, g2]
      rw [if_neg (by omega)]
      simp
  rw [g3, hd]
  refine ⟨?_, rfl⟩
  rw [List.append_nil]
  exact u4.symm

/-- A close request that does not fit one chunk, or is over the limit for messages, is not sent at all; `Close` returns
an error and does not close the connection. -/
theorem C127_too_big (p : Setup) (s : State) (fs fs' : List Val) (body : Bytes)
    (h1 : Conversation.setHandle (nextSeq s.handle) fs = some fs')
    (h2 : Messages.write Messages.clientWrites closeRequest fs' = some body) :
    ((p.maxRequest ≠ 0 ∧ p.maxRequest < body.length ∨ (maxBody p.S p.mode p.clientSend).toNat < body.length) ↔
      (close p s fs).2 = false) ∧
    ((close p s fs).2 = false → (close p s fs).1.up = s.up ∧ (close p s fs).1.clientSeq = s.clientSeq) := by
  have hbs : (plan p.S p.clientSender.mode p.clientSender.send body.length).bodySize =
    min body.length (maxBody p.S p.mode p.clientSend).toNat := plan_bodySize _ _ _ _
  have hm : p.clientSender.maxMessage = p.maxRequest := rfl
  unfold close
  simp only [h1, h2]
  unfold sendClose
  by_cases hA : p.clientSender.maxMessage > 0 ∧ body.length > p.clientSender.maxMessage
  · rw [if_pos hA]
    exact ⟨⟨fun _ => rfl, fun _ => Or.inl ⟨by omega, by omega⟩⟩, fun _ => ⟨rfl, rfl⟩⟩
  · rw [if_neg hA]
    dsimp only
    by_cases hB : body.length > (plan p.S p.clientSender.mode p.clientSender.send body.length).bodySize
    · rw [if_pos hB]
      exact ⟨⟨fun _ => rfl, fun _ => Or.inr (by omega)⟩, fun _ => ⟨rfl, rfl⟩⟩
    · rw [if_neg hB]
      refine ⟨⟨fun h => ?_, fun h => by cases h⟩, fun h => by cases h⟩
      omega

/-- Whatever the fields: `Close` closes the connection exactly if it has written the close request. -/
theorem C127_both_or_neither (p : Setup) (s : State) (fs : List Val) :
    ((close p s fs).2 = true ∧ ∃ f, (close p s fs).1.up = s.up ++ [f]) ∨ ((close p s fs).2 = false ∧ (close p s fs).1.up = s.up) := by
  unfold close
  split
  · exact .inr ⟨rfl, rfl⟩
  · split
    · exact .inr ⟨rfl, rfl⟩
    · split
      · exact .inr ⟨rfl, rfl⟩
      · exact .inl ⟨rfl, _, rfl⟩

/-! ### A conversation that is closed -/

/-- A close request as the client makes it. -/
def closing : List Val :=
  [.struct [.leaf (.node none), .leaf (.time ⟨1700000000, 123456700⟩), .leaf (.b32 0), .leaf (.b32 0), .leaf (.str []), .leaf (.b32 15000), .extNil]]

open Opcua.Conversation (toy)

theorem closing_length : (Messages.write Messages.clientWrites closeRequest closing).map List.length = some 33 := by
  decide +kernel

theorem closing_good : GoodClose toy closing := by
  refine ⟨⟨?_, ?_, by decide⟩, ?_⟩
  · have : Structs.reg.fieldsOf closeRequest = [.struct [.leaf .nodeID, .leaf .dateTime, .leaf .uint32, .leaf .uint32,
      .leaf .string, .leaf .uint32, .ext]] := by rfl
    rw [this]
    simp [wtFields, wt, Leaf.hasTy, Leaf.Fits, closing]
  · simp only [closing, Val.Exact, Val.AllExact, Leaf.Exact, Time.OnGrid, reduceCtorEq, false_implies, implies_true]; decide
  · intro e he
    have hl := closing_length
    rw [he] at hl
    simp only [Option.map_some, Option.some.injEq] at hl
    rw [hl]
    exact ⟨by decide, by decide, by decide⟩

/-- Two calls, of which the server has read one when the client closes. -/
def last : State := Conversation.run toy (Conversation.init toy) [Conversation.cancel, Conversation.cancel, .serve]

example : (close toy last closing).2 = true ∧
    (drain toy 5 last.serverChan (close toy last closing).1.up).1.map (·.1) = [116] ∧
    (drain toy 5 last.serverChan (close toy last closing).1.up).2 = .closed ∧
    (drain toy 5 last.serverChan last.up).2 = .waiting := by decide +kernel

/-- A buffer that is too small for the close request, though other requests are sent in several chunks. -/
def tiny : Setup := { toy with
  clientSend := 48 }

example : (close tiny (Conversation.init tiny) closing).2 = false ∧
    (Conversation.run tiny (Conversation.init tiny) [Conversation.cancel]).calls.length = 1 := by decide +kernel

end Opcua.Closing
