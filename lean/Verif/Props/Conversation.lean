import Verif.Model.Conversation
import Verif.Lemmas.Lists
import Verif.Props.Messages
import Verif.Props.Frame
import Verif.Props.Channel
import Verif.Props.ClientRecv
import Verif.Props.Counter

/-! C125: a call gets the answer that a handler of the server gave to it. -/

namespace Opcua.Conversation

open Opcua.Channel (Suite Mode Sender Limits nextSeq seqFrom sendMessage sendLoop frameLen maxBody u32At)
open Opcua.Counter (after seqFrom_snoc after_succ C26_distinct seqFrom_length)
open Opcua.Frame (Conn specFrame)
open Opcua.Messages (Method methods replies clientWrites serverReads serverWrites clientReads)
open Structs (reg)

/-! ### Frames in a stream -/

/-- A frame that fits the buffer and announces its length. -/
structure Framed (cap : Nat) (f : Bytes) : Prop where
  fits : f.length ≤ cap
  len : frameLen f = some (BitVec.ofNat 32 f.length)
  small : f.length < 2 ^ 32

theorem Framed.word {cap : Nat} {f : Bytes} (h : Framed cap f) (w : Bytes) :
    8 ≤ f.length ∧ leVal (((f ++ w).drop 4).take 4) = f.length := by
  have h8 := Channel.u32At_isSome h.len
  have hl := h.len
  unfold frameLen u32At at hl
  rw [if_pos (by omega)] at hl
  have hl := congrArg BitVec.toNat (Option.some.inj hl)
  simp only [BitVec.toNat_ofNat] at hl
  have hlt := leVal_lt ((f.drop 4).take 4)
  have h4 : ((f.drop 4).take 4).length = 4 := by simp; omega
  rw [h4] at hlt
  rw [Nat.mod_eq_of_lt (by simpa using hlt), Nat.mod_eq_of_lt h.small] at hl
  refine ⟨by omega, ?_⟩
  rw [List.drop_append_of_le_length (by omega), List.take_append_of_le_length (by simp; omega)]
  exact hl

theorem Framed.read {cap : Nat} {f : Bytes} (h : Framed cap f) (conn : Conn) (w : Bytes) (hc : conn.flatten = f ++ w) :
    stalled cap conn = false ∧ ∃ c, Frame.readFrame cap conn = .ok (f, c) ∧ c.flatten = w := by
  obtain ⟨h8, hw⟩ := h.word w
  have hf := h.fits
  constructor
  · unfold stalled
    rw [hc, hw]
    simp only [List.length_append, Bool.or_eq_false_iff, decide_eq_false_iff_not, Bool.and_eq_false_iff]
    exact ⟨by omega, Or.inr (by omega)⟩
  · refine (Frame.C29_frame cap (by omega) conn).1 f w ?_
    unfold specFrame
    rw [hc, hw]
    rw [if_neg (by simp; omega)]
    dsimp only
    rw [show max 8 f.length = f.length by omega, if_neg (by simp; omega)]
    simp

/-- What `recvLoop` makes of whole frames is what comes out of the stream, however it is cut. -/
theorem serverRecv_frames (p : Setup) (w : Bytes) : ∀ (fs : List Bytes) (n : Nat) (ch ch' : Channel.Chan) (count : Nat)
    (acc : Bytes) (conn : Conn) (m : Channel.Msg), fs.length ≤ n → (∀ f ∈ fs, Framed p.serverReceive f) →
    conn.flatten = fs.flatten ++ w →
    Channel.recvLoop p.S p.kdf p.requestLimits ch count acc fs = .ok (ch', m, []) →
    ∃ c, serverRecv p n ch count acc conn = .got (ch', m, c) ∧ c.flatten = w
  | [], n, ch, ch', count, acc, conn, m, _, _, _, h => by
    rw [Channel.recvLoop] at h
    split at h <;> cases h
  | f :: fs, 0, _, _, _, _, _, _, hn, _, _, _ => by simp at hn
  | f :: fs, n + 1, ch, ch', count, acc, conn, m, hn, hf, hc, h => by
    rw [Channel.recvLoop] at h
    rw [serverRecv]
    split at h
    · cases h
    · rename_i hlim
      rw [if_neg hlim]
      obtain ⟨h1, c, h2, h3⟩ := (hf f List.mem_cons_self).read conn (fs.flatten ++ w) (by simpa using hc)
      rw [h1, h2]
      simp only [Bool.false_eq_true, if_false]
      cases ho : Channel.openFrame p.S p.kdf ch f with
      | err s => rw [ho] at h; cases h
      | panic => rw [ho] at h; cases h
      | ok r =>
        obtain ⟨ch1, g⟩ := r
        rw [ho] at h
        simp only at h ⊢
        split at h
        · cases h
        · rename_i hbig
          rw [if_neg hbig]
          split at h
          · rename_i hfin
            rw [if_pos hfin]
            cases h
            exact ⟨c, rfl, by simpa using h3⟩
          · rename_i hfin
            rw [if_neg hfin]
            exact serverRecv_frames p w fs n ch1 ch' (count + 1) (acc ++ g.body) c m (by simpa using hn)
              (fun x hx => hf x (List.mem_cons_of_mem _ hx)) h3 h

theorem clientRecv_frames (p : Setup) (w : Bytes) : ∀ (fs : List Bytes) (n : Nat) (ch ch' : ClientRecv.Chan) (count : Nat)
    (acc : Bytes) (conn : Conn) (m : Bytes), fs.length ≤ n → (∀ f ∈ fs, Framed p.clientReceive f) →
    conn.flatten = fs.flatten ++ w →
    ClientRecv.recvLoop p.S p.kdf p.R p.responseLimits ch count acc fs = .ok (ch', m, []) →
    ∃ c, clientRecv p n ch count acc conn = .got (ch', m, c) ∧ c.flatten = w
  | [], n, ch, ch', count, acc, conn, m, _, _, _, h => by
    rw [ClientRecv.recvLoop] at h
    split at h <;> cases h
  | f :: fs, 0, _, _, _, _, _, _, hn, _, _, _ => by simp at hn
  | f :: fs, n + 1, ch, ch', count, acc, conn, m, hn, hf, hc, h => by
    rw [ClientRecv.recvLoop] at h
    rw [clientRecv]
    split at h
    · cases h
    · rename_i hlim
      rw [if_neg hlim]
      obtain ⟨h1, c, h2, h3⟩ := (hf f List.mem_cons_self).read conn (fs.flatten ++ w) (by simpa using hc)
      rw [h1, h2]
      simp only [Bool.false_eq_true, if_false]
      cases ho : ClientRecv.openFrame p.S p.kdf p.R ch f with
      | err s => rw [ho] at h; cases h
      | told s => rw [ho] at h; cases h
      | panic => rw [ho] at h; cases h
      | ok r =>
        obtain ⟨ch1, g⟩ := r
        rw [ho] at h
        simp only at h ⊢
        split at h
        · cases h
        · rename_i hbig
          rw [if_neg hbig]
          split at h
          · rename_i hfin
            rw [if_pos hfin]
            cases h
            exact ⟨c, rfl, by simpa using h3⟩
          · rename_i hfin
            rw [if_neg hfin]
            exact clientRecv_frames p w fs n ch1 ch' (count + 1) (acc ++ g.body) c m (by simpa using hn)
              (fun x hx => hf x (List.mem_cons_of_mem _ hx)) h3 h

/-! ### What the two sides can do -/

namespace Spec

/-- Sizes: a buffer holds at least one byte of a body in each direction, and what one side sends fits the buffer of the
other (Hello and Acknowledge see to that, C33). -/
structure Sound (p : Setup) : Prop where
  lawful : p.S.Lawful
  none_sig : p.mode = .none → p.S.sigSize = 0
  upRoom : 0 < maxBody p.S p.mode p.clientSend
  downRoom : 0 < maxBody p.S p.mode p.serverSend
  upBuffer : p.clientSend ≤ p.serverReceive
  downBuffer : p.serverSend ≤ p.clientReceive
  upSmall : p.clientSend < 2 ^ 32
  downSmall : p.serverSend < 2 ^ 32

/-- A request of `n` bytes is within the limits of both sides. -/
structure FitsUp (p : Setup) (n : Nat) : Prop where
  size : p.maxRequest = 0 ∨ n ≤ p.maxRequest
  chunks : p.maxRequestChunks = 0 ∨ n ≤ p.maxRequestChunks * (maxBody p.S p.mode p.clientSend).toNat
  size' : p.requestLimits.maxMessage = 0 ∨ n ≤ p.requestLimits.maxMessage.toNat
  chunks' : p.requestLimits.maxChunks = 0 ∨
    n ≤ p.requestLimits.maxChunks.toInt.toNat * (maxBody p.S p.mode p.clientSend).toNat

/-- A response of `n` bytes is within the limits of both sides. -/
structure FitsDown (p : Setup) (n : Nat) : Prop where
  size : p.maxResponse = 0 ∨ n ≤ p.maxResponse
  chunks : p.maxResponseChunks = 0 ∨ n ≤ p.maxResponseChunks * (maxBody p.S p.mode p.serverSend).toNat
  size' : p.responseLimits.maxMessage = 0 ∨ n ≤ p.responseLimits.maxMessage.toNat
  chunks' : p.responseLimits.maxChunks = 0 ∨
    n ≤ p.responseLimits.maxChunks.toNat * (maxBody p.S p.mode p.serverSend).toNat

/-- A value of a message type that is read back as what it is, and is not nested too deep. -/
structure Proper (p : Setup) (t : Nat) (fs : List Val) : Prop where
  typed : wtFields reg (reg.fieldsOf t) fs
  exact : (Val.struct fs).Exact
  flat : Opcua.depth (.struct fs) ≤ p.fuel

/-- What callers and handlers are asked for: services of the client, proper values, sizes within the limits. -/
def Good (p : Setup) : Ev → Prop
  | .call m fs => m ∈ methods ∧ Proper p m.request fs ∧ ∀ e, Messages.write clientWrites m.request fs = some e → FitsUp p e.length
  | .answer _ r fs => Proper p r fs ∧ ∀ e, Messages.write serverWrites r fs = some e → FitsDown p e.length
  | _ => True

end Spec

open Spec

theorem chunk_bound {c n L b : Nat} (h : c = 0 ∨ (c - 1) * b < n) (hn : n ≤ L * b) : c ≤ L := by
  rcases h with h | h
  · omega
  · have : (c - 1) * b < L * b := by omega
    have := Nat.lt_of_mul_lt_mul_right this
    omega

theorem framed_of (p : Setup) {cfg : Sender} (hS : p.S.Lawful) (h : cfg.Usable p.S) {cap : Nat} (hc : cfg.send ≤ cap)
    (tl : Channel.Status) (rid seq : BitVec 32) (body : Bytes) (hmax : cfg.maxMessage = 0 ∨ body.length ≤ cfg.maxMessage)
    (hch : cfg.maxChunks = 0 ∨ body.length ≤ cfg.maxChunks * (maxBody p.S cfg.mode cfg.send).toNat) :
    (sendMessage p.S cfg tl rid seq body).2 = .sent ∧
      (∀ f ∈ (sendMessage p.S cfg tl rid seq body).1, Framed cap f) := by
  obtain ⟨_, h1, -, -, h2, -⟩ := Channel.C23_chunking hS cfg h tl rid seq body hmax hch
  refine ⟨h1, fun f hf => ?_⟩
  obtain ⟨a, b⟩ := h2 f hf
  have := h.buffer
  exact ⟨by omega, b, by omega⟩

theorem sent_count (p : Setup) {cfg : Sender} (tl : Channel.Status) (rid seq : BitVec 32) (body : Bytes)
    (hmax : cfg.maxMessage = 0 ∨ body.length ≤ cfg.maxMessage) (hs : (sendMessage p.S cfg tl rid seq body).2 = .sent) :
    (sendMessage p.S cfg tl rid seq body).1.length = 0 ∨
      ((sendMessage p.S cfg tl rid seq body).1.length - 1) * (maxBody p.S cfg.mode cfg.send).toNat < body.length := by
  have hsm : sendMessage p.S cfg tl rid seq body =
      ((sendLoop p.S cfg tl rid 0 seq body).chunks.map (fun c => Channel.sealChunk p.S cfg.mode cfg.key c.2 c.1),
        (sendLoop p.S cfg tl rid 0 seq body).fin) := by
    unfold sendMessage; rw [if_neg (by omega)]
  rw [hsm] at hs ⊢
  have := (Channel.C23_count p.S cfg tl rid 0 seq body hs).2
  simpa using this

/-! ### One message, from one side to the other -/

/-- The channel of the server before and after the first request. -/
def chan0 (p : Setup) : Channel.Chan := Channel.opened p.channelID p.mode p.serverNonce p.clientNonce
def chan1 (p : Setup) : Channel.Chan :=
  if p.mode.secured then
    { chan0 p with
      tokenID := 1
      recvKey := some (p.kdf p.serverNonce p.clientNonce)
      sendKey := some (p.kdf p.clientNonce p.serverNonce) }
  else { chan0 p with tokenID := 1 }

/-- The channel of the client before and after the first response. -/
def cli0 (p : Setup) : ClientRecv.Chan :=
  ClientRecv.install (ClientRecv.fresh p.mode) p.channelID p.clientNonce p.serverNonce
def cli1 (p : Setup) : ClientRecv.Chan := ClientRecv.switch p.kdf (cli0 p) 1

theorem secured_of {m : Mode} (h : m ≠ .none) : m.secured = true := by cases m <;> simp_all [Channel.Mode.secured]

theorem pair0 (p : Setup) : Channel.Paired p.kdf p.clientSender (chan0 p) (chan1 p) where
  mode := rfl
  channel := rfl
  token := by
    have h01 : ¬ (chan0 p).tokenID = p.clientSender.tokenID := by show ¬ (0 : BitVec 32) = 1; decide
    rw [Channel.switchToken, if_neg h01, if_neg (fun h => h rfl), chan1]
    show (if p.mode.secured then _ else _) = _
    cases hm : p.mode.secured
    · rw [if_neg (by decide), if_neg (by decide)]; rfl
    · rw [if_pos rfl, if_pos rfl]; rfl
  key := by
    intro h
    simp only [chan1]
    rw [if_pos (secured_of (by simpa [chan0, Channel.opened] using h))]
    rfl

theorem chan1_token (p : Setup) : (chan1 p).tokenID = 1 := by unfold chan1; split <;> rfl
theorem chan1_mode (p : Setup) : (chan1 p).mode = p.mode := by unfold chan1; split <;> rfl
theorem chan1_channel (p : Setup) : (chan1 p).channelID = p.channelID := by unfold chan1; split <;> rfl

theorem pair1 (p : Setup) : Channel.Paired p.kdf p.clientSender (chan1 p) (chan1 p) where
  mode := (chan1_mode p).symm
  channel := (chan1_channel p).symm
  token := by
    rw [Channel.switchToken, if_pos (by rw [chan1_token]; rfl)]
  key := by
    intro h
    rw [chan1_mode] at h
    unfold chan1
    rw [if_pos (secured_of h)]
    rfl

theorem cli_pair (p : Setup) (ch : ClientRecv.Chan) (h : ch = cli0 p ∨ ch = cli1 p) :
    ClientRecv.Paired p.kdf (p.serverSender (chan1 p)) ch ∧ ClientRecv.switch p.kdf ch 1 = cli1 p := by
  have hk : p.mode ≠ .none → (p.serverSender (chan1 p)).key = p.kdf p.clientNonce p.serverNonce := by
    intro hm
    unfold Setup.serverSender chan1
    rw [if_pos (secured_of hm)]
    rfl
  have ht : (p.serverSender (chan1 p)).tokenID = 1 := chan1_token p
  have h01 : cli1 p = if p.mode.secured then
      { cli0 p with
        receivingToken := 1
        recvKey := some (p.kdf p.clientNonce p.serverNonce) } else { cli0 p with receivingToken := 1 } := by
    unfold cli1 ClientRecv.switch
    rw [if_neg (show ¬ (1 : BitVec 32) = (cli0 p).receivingToken by show ¬ (1 : BitVec 32) = 0; decide)]
    rfl
  have h11 : ClientRecv.switch p.kdf (cli1 p) 1 = cli1 p := by
    rw [ClientRecv.switch, if_pos]
    rw [h01]; split <;> rfl
  have hkey : p.mode ≠ .none → (cli1 p).recvKey = some (p.kdf p.clientNonce p.serverNonce) := by
    intro hm; rw [h01, if_pos (secured_of hm)]
  rcases h with rfl | rfl
  · refine ⟨⟨rfl, rfl, ?_⟩, rfl⟩
    intro hm
    rw [ht, hk hm]
    exact hkey hm
  · have e1 : (cli1 p).mode = p.mode := by rw [h01]; split <;> rfl
    have e2 : (cli1 p).channelID = p.channelID := by rw [h01]; split <;> rfl
    refine ⟨⟨e1.symm, e2.symm, ?_⟩, h11⟩
    intro hm
    rw [e1] at hm
    rw [ht, hk hm, h11]
    exact hkey hm

theorem framed_length {cap : Nat} : ∀ (fs : List Bytes), (∀ f ∈ fs, Framed cap f) → fs.length ≤ fs.flatten.length
  | [], _ => Nat.le_refl _
  | f :: fs, h => by
    have := framed_length fs (fun x hx => h x (List.mem_cons_of_mem _ hx))
    have := ((h f List.mem_cons_self).word []).1
    simp only [List.length_cons, List.flatten_cons, List.length_append]
    omega

theorem usableUp {p : Setup} (h : Sound p) : p.clientSender.Usable p.S := ⟨h.upRoom, h.none_sig, h.upSmall⟩
theorem usableDown {p : Setup} (h : Sound p) (ch : Channel.Chan) : (p.serverSender ch).Usable p.S :=
  ⟨h.downRoom, h.none_sig, h.downSmall⟩

/-- The chunks of a request. -/
def upFrames (p : Setup) (rid seq : BitVec 32) (body : Bytes) : List Bytes :=
  (sendMessage p.S p.clientSender .badRequestTooLarge rid seq body).1
def downFrames (p : Setup) (rid seq : BitVec 32) (body : Bytes) : List Bytes :=
  (sendMessage p.S (p.serverSender (chan1 p)) .badResponseTooLarge rid seq body).1

theorem up_sent {p : Setup} (h : Sound p) (rid seq : BitVec 32) (body : Bytes) (hf : FitsUp p body.length) :
    (sendMessage p.S p.clientSender .badRequestTooLarge rid seq body).2 = .sent :=
  (framed_of p h.lawful (usableUp h) h.upBuffer _ rid seq body hf.size hf.chunks).1

theorem down_sent {p : Setup} (h : Sound p) (rid seq : BitVec 32) (body : Bytes) (hf : FitsDown p body.length) :
    (sendMessage p.S (p.serverSender (chan1 p)) .badResponseTooLarge rid seq body).2 = .sent :=
  (framed_of p h.lawful (usableDown h (chan1 p)) h.downBuffer _ rid seq body hf.size hf.chunks).1

theorem up_received {p : Setup} (h : Sound p) (rid seq : BitVec 32) (body : Bytes) (hb : body ≠ [])
    (hf : FitsUp p body.length) (ch : Channel.Chan) (hch : ch = chan0 p ∨ ch = chan1 p) (conn : Conn) (w : Bytes)
    (hc : conn.flatten = (upFrames p rid seq body).flatten ++ w) :
    ∃ c, serverRecv p (conn.flatten.length + 1) ch 0 [] conn = .got (chan1 p, ⟨rid, body⟩, c) ∧ c.flatten = w := by
  obtain ⟨h1, h2⟩ := framed_of p h.lawful (usableUp h) h.upBuffer .badRequestTooLarge rid seq body hf.size hf.chunks
  have hcount := sent_count p .badRequestTooLarge rid seq body (cfg := p.clientSender) hf.size h1
  have hlc : p.requestLimits.maxChunks = 0 ∨
      ((upFrames p rid seq body).length : Int) ≤ p.requestLimits.maxChunks.toInt := by
    rcases hf.chunks' with h0 | h0
    · exact Or.inl h0
    · refine Or.inr ?_
      have := chunk_bound hcount h0
      have hpos : 0 < body.length := List.length_pos_iff.2 hb
      have hL : 0 < p.requestLimits.maxChunks.toInt.toNat := by
        rcases Nat.eq_zero_or_pos p.requestLimits.maxChunks.toInt.toNat with hz | hz
        · rw [hz] at h0; omega
        · exact hz
      show ((sendMessage p.S p.clientSender .badRequestTooLarge rid seq body).1.length : Int) ≤ _
      omega
  have hrt : Channel.recvMessage p.S p.kdf p.requestLimits ch (upFrames p rid seq body ++ []) =
      .ok (chan1 p, ⟨rid, body⟩, []) := by
    rcases hch with rfl | rfl
    · exact Channel.C25_round_trip h.lawful p.kdf p.clientSender (usableUp h) _ _ (pair0 p) p.requestLimits _ rid seq body hb
        hf.size hf.chunks hf.size' hlc []
    · exact Channel.C25_round_trip h.lawful p.kdf p.clientSender (usableUp h) _ _ (pair1 p) p.requestLimits _ rid seq body hb
        hf.size hf.chunks hf.size' hlc []
  rw [List.append_nil] at hrt
  refine serverRecv_frames p w (upFrames p rid seq body) _ ch (chan1 p) 0 [] conn ⟨rid, body⟩ ?_ h2 hc hrt
  have := framed_length _ h2
  rw [hc, List.length_append]
  show (sendMessage p.S p.clientSender .badRequestTooLarge rid seq body).1.length ≤ _
  unfold upFrames
  omega

theorem down_received {p : Setup} (h : Sound p) (rid seq : BitVec 32) (body : Bytes) (hb : body ≠ [])
    (hf : FitsDown p body.length) (ch : ClientRecv.Chan) (hch : ch = cli0 p ∨ ch = cli1 p) (conn : Conn) (w : Bytes)
    (hc : conn.flatten = (downFrames p rid seq body).flatten ++ w) :
    ∃ c, clientRecv p (conn.flatten.length + 1) ch 0 [] conn = .got (cli1 p, body, c) ∧ c.flatten = w := by
  obtain ⟨h1, h2⟩ := framed_of p h.lawful (usableDown h (chan1 p)) h.downBuffer .badResponseTooLarge rid seq body hf.size
    hf.chunks
  have hcount := sent_count p .badResponseTooLarge rid seq body (cfg := p.serverSender (chan1 p)) hf.size h1
  have hlc : p.responseLimits.maxChunks = 0 ∨
      (downFrames p rid seq body).length ≤ p.responseLimits.maxChunks.toNat := by
    rcases hf.chunks' with h0 | h0
    · exact Or.inl h0
    · exact Or.inr (chunk_bound hcount h0)
  obtain ⟨hp, hsw⟩ := cli_pair p ch hch
  have hrt : ClientRecv.recvMessage p.S p.kdf p.R p.responseLimits ch (downFrames p rid seq body ++ []) =
      .ok (ClientRecv.switch p.kdf ch (p.serverSender (chan1 p)).tokenID, body, []) :=
    ClientRecv.C124_round_trip h.lawful p.kdf p.R (p.serverSender (chan1 p)) (usableDown h _) ch hp p.responseLimits _ rid seq
      body hb hf.size hf.chunks hf.size' hlc []
  rw [show (p.serverSender (chan1 p)).tokenID = 1 from chan1_token p, hsw, List.append_nil] at hrt
  refine clientRecv_frames p w (downFrames p rid seq body) _ ch (cli1 p) 0 [] conn body ?_ h2 hc hrt
  have := framed_length _ h2
  rw [hc, List.length_append]
  show (sendMessage p.S (p.serverSender (chan1 p)) .badResponseTooLarge rid seq body).1.length ≤ _
  unfold downFrames
  omega

/-! ### Headers -/

def startsRequest : List Ty → Bool
  | .struct (_ :: _ :: .leaf .uint32 :: _) :: _ => true
  | _ => false

def startsResponse : List Ty → Bool
  | .struct (_ :: .leaf .uint32 :: _) :: _ => true
  | _ => false

theorem request_headers : (methods.all fun m => startsRequest (reg.fieldsOf m.request)) = true := by decide +kernel
theorem response_headers : (methods.all fun m => (replies m.request).all fun r => startsResponse (reg.fieldsOf r)) = true := by
  decide +kernel

theorem leaf_uint32 {v : Val} (h : wt reg (.leaf .uint32) v) : ∃ x, v = .leaf (.b32 x) := by
  cases v with
  | leaf l => cases l <;> simp [wt, Leaf.hasTy] at h ⊢
  | _ => simp [wt] at h

/-- A request of the right type has a header, and the header a handle. -/
theorem request_shape {ts : List Ty} (hs : startsRequest ts = true) {fs : List Val} (h : wtFields reg ts fs) :
    ∃ a b x hd rest, fs = .struct (a :: b :: .leaf (.b32 x) :: hd) :: rest := by
  unfold startsRequest at hs
  split at hs
  · rename_i t1 t2 ts' us
    match fs, h with
    | v :: rest, h =>
      simp only [wtFields] at h
      obtain ⟨hv, -⟩ := h
      match v, hv with
      | .struct (a :: b :: c :: hd), hv =>
        simp only [wt, wtFields] at hv
        obtain ⟨x, rfl⟩ := leaf_uint32 hv.2.2.1
        exact ⟨a, b, x, hd, rest, rfl⟩
      | .struct [], hv => simp [wt, wtFields] at hv
      | .struct [_], hv => simp [wt, wtFields] at hv
      | .struct [_, _], hv => simp [wt, wtFields] at hv
  · cases hs

theorem response_shape {ts : List Ty} (hs : startsResponse ts = true) {fs : List Val} (h : wtFields reg ts fs) :
    ∃ a x hd rest, fs = .struct (a :: .leaf (.b32 x) :: hd) :: rest := by
  unfold startsResponse at hs
  split at hs
  · rename_i t1 ts' us
    match fs, h with
    | v :: rest, h =>
      simp only [wtFields] at h
      obtain ⟨hv, -⟩ := h
      match v, hv with
      | .struct (a :: c :: hd), hv =>
        simp only [wt, wtFields] at hv
        obtain ⟨x, rfl⟩ := leaf_uint32 hv.2.1
        exact ⟨a, x, hd, rest, rfl⟩
      | .struct [], hv => simp [wt, wtFields] at hv
      | .struct [_], hv => simp [wt, wtFields] at hv
  · cases hs

theorem wt_b32 {t : Ty} {x y : BitVec 32} (h : wt reg t (.leaf (.b32 x))) : wt reg t (.leaf (.b32 y)) := by
  cases t with
  | leaf l => cases l <;> simp_all [wt, Leaf.hasTy, Leaf.Fits]
  | _ => simp [wt] at h

/-- The handle has no influence on type and size of a request. -/
theorem handle_request {p : Setup} {t : Nat} {a b : Val} {x y : BitVec 32} {hd rest : List Val}
    (h : Proper p t (.struct (a :: b :: .leaf (.b32 x) :: hd) :: rest)) :
    Proper p t (.struct (a :: b :: .leaf (.b32 y) :: hd) :: rest) := by
  obtain ⟨h1, h2, h3⟩ := h
  refine ⟨?_, ?_, ?_⟩
  · generalize reg.fieldsOf t = ts at h1
    match ts, h1 with
    | t0 :: ts, h1 =>
      simp only [wtFields] at h1 ⊢
      refine ⟨?_, h1.2⟩
      have h0 := h1.1
      cases t0 with
      | struct us =>
        match us, h0 with
        | u1 :: u2 :: u3 :: us, h0 =>
          simp only [wt, wtFields] at h0
          show wtFields reg (u1 :: u2 :: u3 :: us) _
          simp only [wtFields]
          exact ⟨h0.1, h0.2.1, wt_b32 h0.2.2.1, h0.2.2.2⟩
        | [], h0 => simp [wt, wtFields] at h0
        | [_], h0 => simp [wt, wtFields] at h0
        | [_, _], h0 => simp [wt, wtFields] at h0
      | ptr us =>
        match us, h0 with
        | u1 :: u2 :: u3 :: us, h0 =>
          simp only [wt, wtFields] at h0
          show wtFields reg (u1 :: u2 :: u3 :: us) _
          simp only [wtFields]
          exact ⟨h0.1, h0.2.1, wt_b32 h0.2.2.1, h0.2.2.2⟩
        | [], h0 => simp [wt, wtFields] at h0
        | [_], h0 => simp [wt, wtFields] at h0
        | [_, _], h0 => simp [wt, wtFields] at h0
      | _ => simp [wt] at h0
  · simpa [Val.Exact, Val.AllExact, Leaf.Exact] using h2
  · simpa [Opcua.depth, depthList] using h3

theorem handle_response {p : Setup} {t : Nat} {a : Val} {x y : BitVec 32} {hd rest : List Val}
    (h : Proper p t (.struct (a :: .leaf (.b32 x) :: hd) :: rest)) :
    Proper p t (.struct (a :: .leaf (.b32 y) :: hd) :: rest) := by
  obtain ⟨h1, h2, h3⟩ := h
  refine ⟨?_, ?_, ?_⟩
  · generalize reg.fieldsOf t = ts at h1
    match ts, h1 with
    | t0 :: ts, h1 =>
      simp only [wtFields] at h1 ⊢
      refine ⟨?_, h1.2⟩
      have h0 := h1.1
      cases t0 with
      | struct us =>
        match us, h0 with
        | u1 :: u2 :: us, h0 =>
          simp only [wt, wtFields] at h0
          show wtFields reg (u1 :: u2 :: us) _
          simp only [wtFields]
          exact ⟨h0.1, wt_b32 h0.2.1, h0.2.2⟩
        | [], h0 => simp [wt, wtFields] at h0
        | [_], h0 => simp [wt, wtFields] at h0
      | ptr us =>
        match us, h0 with
        | u1 :: u2 :: us, h0 =>
          simp only [wt, wtFields] at h0
          show wtFields reg (u1 :: u2 :: us) _
          simp only [wtFields]
          exact ⟨h0.1, wt_b32 h0.2.1, h0.2.2⟩
        | [], h0 => simp [wt, wtFields] at h0
        | [_], h0 => simp [wt, wtFields] at h0
      | _ => simp [wt] at h0
  · simpa [Val.Exact, Val.AllExact, Leaf.Exact] using h2
  · simpa [Opcua.depth, depthList] using h3

theorem encList_cons_len {v v' : Val} {vs vs' : List Val} (h1 : (enc reg v).map List.length = (enc reg v').map List.length)
    (h2 : (encList reg vs).map List.length = (encList reg vs').map List.length) :
    (encList reg (v :: vs)).map List.length = (encList reg (v' :: vs')).map List.length := by
  simp only [encList]
  cases ha : enc reg v <;> cases hb : enc reg v' <;> rw [ha, hb] at h1 <;> simp at h1 ⊢
  cases hc : encList reg vs <;> cases hd : encList reg vs' <;> rw [hc, hd] at h2 <;> simp at h2 ⊢
  omega

theorem b32_len (x y : BitVec 32) : (enc reg (.leaf (.b32 x))).map List.length = (enc reg (.leaf (.b32 y))).map List.length := by
  simp [enc, encLeaf, Channel.writeU32_length]

theorem write_len {table : List (Nat × Nat)} {t : Nat} {fs fs' : List Val}
    (h : (encList reg fs).map List.length = (encList reg fs').map List.length) :
    (Messages.write table t fs).map List.length = (Messages.write table t fs').map List.length := by
  unfold Messages.write
  cases Messages.idFor table t with
  | none => rfl
  | some id =>
    simp only [encode, enc]
    by_cases hs : (Ty.struct (reg.fieldsOf t)).supported = true
    · simp only [hs, if_true]
      cases ha : encList reg fs <;> cases hb : encList reg fs' <;> rw [ha, hb] at h <;> simp at h ⊢
      omega
    · simp only [hs]; rfl

theorem write_request_len {table : List (Nat × Nat)} {t : Nat} (a b : Val) (x y : BitVec 32) (hd rest : List Val) :
    (Messages.write table t (.struct (a :: b :: .leaf (.b32 x) :: hd) :: rest)).map List.length =
      (Messages.write table t (.struct (a :: b :: .leaf (.b32 y) :: hd) :: rest)).map List.length := by
  apply write_len
  apply encList_cons_len _ rfl
  simp only [enc]
  exact encList_cons_len rfl (encList_cons_len rfl (encList_cons_len (b32_len x y) rfl))

theorem write_response_len {table : List (Nat × Nat)} {t : Nat} (a : Val) (x y : BitVec 32) (hd rest : List Val) :
    (Messages.write table t (.struct (a :: .leaf (.b32 x) :: hd) :: rest)).map List.length =
      (Messages.write table t (.struct (a :: .leaf (.b32 y) :: hd) :: rest)).map List.length := by
  apply write_len
  apply encList_cons_len _ rfl
  simp only [enc]
  exact encList_cons_len rfl (encList_cons_len (b32_len x y) rfl)

theorem read_nil (table : List (Nat × Nat)) (f : Nat) (r : Nat × Val) (rest : Bytes) :
    (Messages.read table f).run [] ≠ .ok (r, rest) := by
  rw [Messages.read, Dec.bind_apply]
  have : readNodeID.run [] = .err [] := by rfl
  simp [this]

/-! ### The invariant -/

/-- A request under way. -/
structure Up where
  rid : BitVec 32
  seq : BitVec 32
  type : Nat
  fields : List Val
  body : Bytes

structure Up.Ok (p : Setup) (u : Up) : Prop where
  ne : u.body ≠ []
  fits : FitsUp p u.body.length
  read : (Messages.read serverReads p.fuel).run u.body = .ok ((u.type, .struct u.fields), [])

/-- An answer under way. -/
structure Down where
  rid : BitVec 32
  seq : BitVec 32
  index : Nat
  type : Nat
  fields : List Val
  body : Bytes

structure Down.Ok (p : Setup) (u : Down) : Prop where
  ne : u.body ≠ []
  fits : FitsDown p u.body.length
  read : (Messages.read clientReads p.fuel).run u.body = .ok ((u.type, .struct u.fields), [])

def Up.bytes (p : Setup) (u : Up) : Bytes := (upFrames p u.rid u.seq u.body).flatten
def Down.bytes (p : Setup) (u : Down) : Bytes := (downFrames p u.rid u.seq u.body).flatten

theorem request_sendable {p : Setup} {m : Method} {fs : List Val} (hg : Good p (.call m fs)) (h : BitVec 32) :
    ∃ fs' body, setHandle h fs = some fs' ∧ handleOf fs' = some h ∧
      Messages.write clientWrites m.request fs' = some body ∧ body ≠ [] ∧ FitsUp p body.length ∧
      (Messages.read serverReads p.fuel).run body = .ok ((m.request, .struct fs'), []) := by
  obtain ⟨hm, hp, hsz⟩ := hg
  obtain ⟨a, b, x, hd, rest, rfl⟩ := request_shape (List.all_eq_true.1 request_headers m hm) hp.typed
  have hp' : Proper p m.request (.struct (a :: b :: .leaf (.b32 h) :: hd) :: rest) := handle_request hp
  obtain ⟨e, he, hr⟩ := Messages.C111_request m hm _ p.fuel hp'.typed hp'.exact hp'.flat
  have hr0 := hr []
  rw [List.append_nil] at hr0
  refine ⟨_, e, rfl, rfl, he, ?_, ?_, hr0⟩
  · rintro rfl
    exact read_nil _ _ _ _ hr0
  · have hl := write_request_len (table := clientWrites) (t := m.request) a b x h hd rest
    rw [he] at hl
    cases hx : Messages.write clientWrites m.request (.struct (a :: b :: .leaf (.b32 x) :: hd) :: rest) with
    | none => rw [hx] at hl; simp at hl
    | some e0 =>
      rw [hx] at hl
      simp only [Option.map_some, Option.some.injEq] at hl
      rw [← hl]
      exact hsz _ hx

theorem response_sendable {p : Setup} {m : Method} (hm : m ∈ methods) {i r : Nat} (hr : r ∈ replies m.request) {fs : List Val}
    (hg : Good p (.answer i r fs)) (h : BitVec 32) :
    ∃ fs' body, setResponseHandle h fs = some fs' ∧ responseHandle fs' = some h ∧
      Messages.write serverWrites r fs' = some body ∧ body ≠ [] ∧ FitsDown p body.length ∧
      (Messages.read clientReads p.fuel).run body = .ok ((r, .struct fs'), []) := by
  obtain ⟨hp, hsz⟩ := hg
  obtain ⟨a, x, hd, rest, rfl⟩ := response_shape
    (List.all_eq_true.1 (List.all_eq_true.1 response_headers m hm) r hr) hp.typed
  have hp' : Proper p r (.struct (a :: .leaf (.b32 h) :: hd) :: rest) := handle_response hp
  obtain ⟨-, e, he, hrd⟩ := Messages.C111_response m hm r hr _ p.fuel hp'.typed hp'.exact hp'.flat
  have hr0 := hrd []
  rw [List.append_nil] at hr0
  refine ⟨_, e, rfl, rfl, he, ?_, ?_, hr0⟩
  · rintro rfl
    exact read_nil _ _ _ _ hr0
  · have hl := write_response_len (table := serverWrites) (t := r) a x h hd rest
    rw [he] at hl
    cases hx : Messages.write serverWrites r (.struct (a :: .leaf (.b32 x) :: hd) :: rest) with
    | none => rw [hx] at hl; simp at hl
    | some e0 =>
      rw [hx] at hl
      simp only [Option.map_some, Option.some.injEq] at hl
      rw [← hl]
      exact hsz _ hx

/-- A request as the server sees it. -/
def seen (c : Method × List Val) : Nat × List Val := (c.1.request, c.2)

structure Inv (p : Setup) (N : Nat) (s : State) : Prop where
  unbroken : s.broken = false
  cli : s.clientChan = cli0 p ∨ s.clientChan = cli1 p
  srv : s.serverChan = chan0 p ∨ s.serverChan = chan1 p
  srv1 : s.served ≠ [] → s.serverChan = chan1 p
  known : ∀ c ∈ s.calls, c.1 ∈ methods
  bound : s.calls.length ≤ N
  handles : s.calls.map (fun c => handleOf c.2) = (seqFrom 0 s.calls.length).map some
  handle : s.handle = after 0 s.calls.length
  up : ∃ us : List Up, (∀ u ∈ us, u.Ok p) ∧ s.up.flatten = (us.map (Up.bytes p)).flatten ∧
    s.calls.map seen = s.served ++ us.map (fun u => (u.type, u.fields))
  jobs : ∀ j ∈ s.inbox, s.served[j.index]? = some (j.type, j.fields)
  perm : (s.inbox.map (·.index) ++ s.answers.map (·.1)).Perm (List.range s.served.length)
  ans : ∀ a ∈ s.answers, ∃ c, s.calls[a.1]? = some c ∧ a.2.1 ∈ replies c.1.request ∧ responseHandle a.2.2 = handleOf c.2
  down : ∃ ds : List Down, (∀ u ∈ ds, u.Ok p) ∧ s.down.flatten = (ds.map (Down.bytes p)).flatten ∧
    s.answers = s.done ++ ds.map (fun u => (u.index, u.type, u.fields))
  pend : ∀ n c h, s.calls[n]? = some c → handleOf c.2 = some h → n ∉ s.done.map (·.1) → lookup s.pending h = some n

theorem inv_init (p : Setup) : Inv p 0 (init p) where
  unbroken := rfl
  cli := Or.inl rfl
  srv := Or.inl rfl
  srv1 := fun h => absurd rfl h
  known := by simp [init]
  bound := Nat.le_refl _
  handles := by simp [init, seqFrom]
  handle := rfl
  up := ⟨[], by simp, by simp [init], by simp [init]⟩
  jobs := by simp [init]
  perm := by simp [init]
  ans := by simp [init]
  down := ⟨[], by simp, by simp [init], by simp [init]⟩
  pend := by simp [init]

theorem lookup_put (t : List (BitVec 32 × Nat)) (h h' : BitVec 32) (n : Nat) :
    lookup ((h, n) :: remove t h) h' = if h' = h then some n else lookup t h' := by
  unfold lookup remove
  rw [List.find?_cons]
  by_cases he : h' = h
  · subst he; simp
  · have he' : ¬ h = h' := fun e => he e.symm
    simp only [he', decide_false, he, if_false]
    congr 1
    induction t with
    | nil => rfl
    | cons e t ih =>
      rw [List.filter_cons]
      by_cases h1 : e.1 = h
      · simp only [h1, ne_eq, not_true, decide_false, Bool.false_eq_true, if_false, List.find?_cons, he']
        exact ih
      · simp only [h1, ne_eq, not_false_iff, decide_true, if_true, List.find?_cons]
        rw [ih]

theorem lookup_remove (t : List (BitVec 32 × Nat)) (h h' : BitVec 32) (hne : h' ≠ h) :
    lookup (remove t h) h' = lookup t h' := by
  have := lookup_put t h h' 0
  rw [if_neg hne] at this
  rw [← this]
  unfold lookup
  rw [List.find?_cons]
  have : ¬ h = h' := fun e => hne e.symm
  simp only [this, decide_false]

theorem Inv.handle_at {p N s} (I : Inv p N s) {n : Nat} {c : Method × List Val} (h : s.calls[n]? = some c) :
    handleOf c.2 = (seqFrom 0 s.calls.length)[n]? := by
  have h1 := congrArg (fun l => l[n]?) I.handles
  simp only [List.getElem?_map, h, Option.map_some] at h1
  cases hq : (seqFrom 0 s.calls.length)[n]? with
  | none => rw [hq] at h1; simp at h1
  | some x => rw [hq] at h1; simpa using h1

theorem nodup_getElem? {α : Type} {l : List α} (h : l.Nodup) {i j : Nat} {a : α} (hi : l[i]? = some a) (hj : l[j]? = some a) :
    i = j := by
  obtain ⟨hi', e1⟩ := List.getElem?_eq_some_iff.1 hi
  obtain ⟨hj', e2⟩ := List.getElem?_eq_some_iff.1 hj
  rw [List.Nodup, List.pairwise_iff_getElem] at h
  rcases Nat.lt_trichotomy i j with hl | hl | hl
  · exact absurd (e1.trans e2.symm) (h i j hi' hj' hl)
  · exact hl
  · exact absurd (e2.trans e1.symm) (h j i hj' hi' hl)

theorem Inv.handle_inj {p N s} (I : Inv p N s) (hN : N ≤ 2 ^ 32 - 1) {n m : Nat} {c d : Method × List Val} {h : BitVec 32}
    (hn : s.calls[n]? = some c) (hm : s.calls[m]? = some d) (h1 : handleOf c.2 = some h) (h2 : handleOf d.2 = some h) :
    n = m := by
  rw [I.handle_at hn] at h1
  rw [I.handle_at hm] at h2
  exact nodup_getElem? (C26_distinct 0 _ (by have := I.bound; omega)) h1 h2

theorem inv_call {p N s} (hs : Sound p) (I : Inv p N s) (hN : N + 1 ≤ 2 ^ 32 - 1) {m : Method} {fs : List Val}
    (hg : Good p (.call m fs)) : Inv p (N + 1) (call p s m fs) := by
  obtain ⟨fs', body, h1, h2, h3, h4, h5, h6⟩ := request_sendable hg (nextSeq s.handle)
  have hsent := up_sent hs (nextSeq s.handle) s.clientSeq body h5
  unfold call
  simp only [h1, h3, hsent, if_true]
  have hb := I.bound
  have hhandles : (s.calls ++ [(m, fs')]).map (fun c => handleOf c.2) =
      (seqFrom 0 (s.calls ++ [(m, fs')]).length).map some := by
    rw [List.length_append, List.length_singleton, seqFrom_snoc, List.map_append, List.map_append, I.handles]
    simp only [List.map_cons, List.map_nil, h2, I.handle]
  have hdist : (seqFrom 0 (s.calls ++ [(m, fs')]).length).Nodup := C26_distinct 0 _ (by simp; omega)
  constructor
  case unbroken => exact I.unbroken
  case cli => exact I.cli
  case srv => exact I.srv
  case srv1 => exact I.srv1
  case known =>
    intro c hc
    rcases List.mem_append.1 hc with hc | hc
    · exact I.known c hc
    · simp at hc; subst hc; exact hg.1
  case bound => simp; omega
  case handles => exact hhandles
  case handle =>
    show nextSeq s.handle = after 0 (s.calls ++ [(m, fs')]).length
    rw [List.length_append, List.length_singleton, after_succ, I.handle]
  case up =>
    obtain ⟨us, u1, u2, u3⟩ := I.up
    refine ⟨us ++ [⟨nextSeq s.handle, s.clientSeq, m.request, fs', body⟩], ?_, ?_, ?_⟩
    · intro u hu
      rcases List.mem_append.1 hu with hu | hu
      · exact u1 u hu
      · simp at hu; subst hu; exact ⟨h4, h5, h6⟩
    · show (s.up ++ _).flatten = _
      rw [List.flatten_append, u2, List.map_append, List.flatten_append]
      simp [Up.bytes, upFrames]
    · show (s.calls ++ [(m, fs')]).map seen = s.served ++ _
      rw [List.map_append, u3, List.map_append, List.append_assoc]
      rfl
  case jobs => exact I.jobs
  case perm => exact I.perm
  case ans =>
    intro a ha
    obtain ⟨c, hc, hr⟩ := I.ans a ha
    refine ⟨c, ?_, hr⟩
    show (s.calls ++ _)[a.1]? = some c
    rw [List.getElem?_append_left (List.getElem?_eq_some_iff.1 hc).1]
    exact hc
  case down => exact I.down
  case pend =>
    intro n c h hn hh hd
    show lookup ((nextSeq s.handle, s.calls.length) :: remove s.pending (nextSeq s.handle)) h = some n
    rw [lookup_put]
    have hat : (seqFrom 0 (s.calls ++ [(m, fs')]).length)[n]? = some h := by
      have hq := congrArg (fun l => l[n]?) hhandles
      simp only [List.getElem?_map] at hq
      change (s.calls ++ [(m, fs')])[n]? = some c at hn
      rw [hn] at hq
      simp only [Option.map_some, hh] at hq
      cases hx : (seqFrom 0 (s.calls ++ [(m, fs')]).length)[n]? with
      | none => rw [hx] at hq; simp at hq
      | some x => rw [hx] at hq; simp at hq; rw [hq]
    have hlast : (seqFrom 0 (s.calls ++ [(m, fs')]).length)[s.calls.length]? = some (nextSeq s.handle) := by
      rw [List.length_append, List.length_singleton, seqFrom_snoc, List.getElem?_append_right (by rw [seqFrom_length]; omega),
        seqFrom_length, I.handle]
      simp
    by_cases he : h = nextSeq s.handle
    · rw [if_pos he]
      subst he
      rw [nodup_getElem? hdist hat hlast]
    · rw [if_neg he]
      have hlt : n < s.calls.length := by
        have hnl := (List.getElem?_eq_some_iff.1 hn).1
        have hnl' : n < (s.calls ++ [(m, fs')]).length := hnl
        rw [List.length_append, List.length_singleton] at hnl'
        rcases Nat.lt_or_ge n s.calls.length with hl | hl
        · exact hl
        · have : n = s.calls.length := by omega
          subst this
          rw [hlast] at hat
          exact absurd (Option.some.inj hat).symm he
      change (s.calls ++ [(m, fs')])[n]? = some c at hn
      rw [List.getElem?_append_left hlt] at hn
      exact I.pend n c h hn hh hd

theorem Inv.served_calls {p N s} (I : Inv p N s) {n : Nat} {t : Nat} {fs : List Val} (h : s.served[n]? = some (t, fs)) :
    ∃ c, s.calls[n]? = some c ∧ c.1.request = t ∧ c.2 = fs := by
  obtain ⟨us, -, -, u3⟩ := I.up
  have hl := (List.getElem?_eq_some_iff.1 h).1
  have hq := congrArg (fun l => l[n]?) u3
  simp only [List.getElem?_map] at hq
  rw [List.getElem?_append_left hl, h] at hq
  cases hc : s.calls[n]? with
  | none => rw [hc] at hq; simp at hq
  | some c =>
    rw [hc] at hq
    simp only [Option.map_some, Option.some.injEq, seen, Prod.mk.injEq] at hq
    exact ⟨c, rfl, hq.1, hq.2⟩

theorem inv_recutUp {p N s} (I : Inv p N s) {c : Conn} (hc : c.flatten = s.up.flatten) : Inv p N { s with up := c } :=
  { I with up := let ⟨us, u1, u2, u3⟩ := I.up; ⟨us, u1, hc.trans u2, u3⟩ }

theorem inv_recutDown {p N s} (I : Inv p N s) {c : Conn} (hc : c.flatten = s.down.flatten) : Inv p N { s with down := c } :=
  { I with down := let ⟨us, u1, u2, u3⟩ := I.down; ⟨us, u1, hc.trans u2, u3⟩ }

theorem up_bytes_pos {p : Setup} (hs : Sound p) {u : Up} (hu : u.Ok p) : 0 < (u.bytes p).length := by
  obtain ⟨c, h1, h2⟩ := up_received hs u.rid u.seq u.body hu.ne hu.fits (chan0 p) (Or.inl rfl) (upFrames p u.rid u.seq u.body) []
    (by simp)
  cases hf : upFrames p u.rid u.seq u.body with
  | nil =>
    rw [hf] at h1
    simp only [List.flatten_nil, List.length_nil, serverRecv] at h1
    split at h1
    · cases h1
    · simp [stalled] at h1
  | cons f fs =>
    have hfr := (framed_of p hs.lawful (usableUp hs) hs.upBuffer .badRequestTooLarge u.rid u.seq u.body hu.fits.size hu.fits.chunks).2
    have h8 := ((hfr f (by show f ∈ upFrames p u.rid u.seq u.body; rw [hf]; exact List.mem_cons_self)).word []).1
    unfold Up.bytes
    rw [hf]
    simp only [List.flatten_cons, List.length_append]
    omega

theorem down_bytes_pos {p : Setup} (hs : Sound p) {u : Down} (hu : u.Ok p) : 0 < (u.bytes p).length := by
  obtain ⟨c, h1, h2⟩ := down_received hs u.rid u.seq u.body hu.ne hu.fits (cli0 p) (Or.inl rfl)
    (downFrames p u.rid u.seq u.body) [] (by simp)
  cases hf : downFrames p u.rid u.seq u.body with
  | nil =>
    rw [hf] at h1
    simp only [List.flatten_nil, List.length_nil, clientRecv] at h1
    split at h1
    · cases h1
    · simp [stalled] at h1
  | cons f fs =>
    have hfr := (framed_of p hs.lawful (usableDown hs (chan1 p)) hs.downBuffer .badResponseTooLarge u.rid u.seq u.body
      hu.fits.size hu.fits.chunks).2
    have h8 := ((hfr f (by show f ∈ downFrames p u.rid u.seq u.body; rw [hf]; exact List.mem_cons_self)).word []).1
    unfold Down.bytes
    rw [hf]
    simp only [List.flatten_cons, List.length_append]
    omega

/-- The server reads: it waits if nothing is under way, otherwise it gets the request that was sent first of those. -/
theorem serve_spec {p N s} (hs : Sound p) (I : Inv p N s) :
    (s.up.flatten = [] ∧ serve p s = s) ∨
    ∃ u us c, (∀ v ∈ u :: us, Up.Ok p v) ∧ s.calls.map seen = s.served ++ (u :: us).map (fun u => (u.type, u.fields)) ∧
      c.flatten = (us.map (Up.bytes p)).flatten ∧
      serve p s = { s with
        serverChan := chan1 p
        up := c
        inbox := s.inbox ++ [⟨s.served.length, u.rid, u.type, u.fields⟩]
        served := s.served ++ [(u.type, u.fields)] } := by
  obtain ⟨us, u1, u2, u3⟩ := I.up
  cases us with
  | nil =>
    refine Or.inl ⟨by simpa using u2, ?_⟩
    have he : s.up.flatten = [] := by simpa using u2
    unfold serve
    rw [he]
    simp only [List.length_nil, serverRecv, stalled, he]
    rw [if_neg]
    · simp
    · have := p.requestLimits.maxChunks.toInt
      simp only [gt_iff_lt, not_and]
      omega
  | cons u us =>
    refine Or.inr ⟨u, us, ?_⟩
    have hu := u1 u List.mem_cons_self
    obtain ⟨c, h1, h2⟩ := up_received hs u.rid u.seq u.body hu.ne hu.fits s.serverChan I.srv s.up
      ((us.map (Up.bytes p)).flatten) (by rw [u2]; rfl)
    refine ⟨c, u1, u3, h2, ?_⟩
    unfold serve
    rw [h1]
    simp only [hu.read]

theorem inv_serve {p N s} (hs : Sound p) (I : Inv p N s) : Inv p N (serve p s) := by
  rcases serve_spec hs I with ⟨-, h⟩ | ⟨u, us, c, u1, u3, hc, h⟩
  · rw [h]; exact I
  · rw [h]
    constructor
    case unbroken => exact I.unbroken
    case cli => exact I.cli
    case srv => exact Or.inr rfl
    case srv1 => exact fun _ => rfl
    case known => exact I.known
    case bound => exact I.bound
    case handles => exact I.handles
    case handle => exact I.handle
    case up =>
      refine ⟨us, fun v hv => u1 v (List.mem_cons_of_mem _ hv), hc, ?_⟩
      rw [u3]
      simp
    case jobs =>
      intro j hj
      show (s.served ++ [(u.type, u.fields)])[j.index]? = _
      rcases List.mem_append.1 hj with hj | hj
      · have := I.jobs j hj
        rw [List.getElem?_append_left (List.getElem?_eq_some_iff.1 this).1]
        exact this
      · simp only [List.mem_singleton] at hj
        subst hj
        simp
    case perm =>
      show ((s.inbox ++ [_]).map (fun j : Job => j.index) ++ s.answers.map (·.1)).Perm (List.range (s.served ++ [(u.type, u.fields)]).length)
      rw [List.length_append, List.length_singleton, List.range_succ, List.map_append]
      refine List.Perm.trans ?_ (List.Perm.append_right _ I.perm)
      simp only [List.map_cons, List.map_nil, List.append_assoc]
      exact List.Perm.append_left _ List.perm_append_comm
    case ans => exact I.ans
    case down => exact I.down
    case pend => exact I.pend

/-- A handler answers: its answer goes to the request it was made for, and is sent. -/
theorem answer_spec {p N s} (hs : Sound p) (I : Inv p N s) {i r : Nat} {fs : List Val} (hg : Good p (.answer i r fs)) :
    answer p s i r fs = s ∨
    ∃ j c h fs' body, s.inbox[i]? = some j ∧ s.calls[j.index]? = some c ∧ handleOf c.2 = some h ∧ r ∈ replies c.1.request ∧
      setResponseHandle h fs = some fs' ∧ responseHandle fs' = some h ∧ body ≠ [] ∧ FitsDown p body.length ∧
      (Messages.read clientReads p.fuel).run body = .ok ((r, .struct fs'), []) ∧
      answer p s i r fs = { s with
        serverSeq := seqAfter p.S (p.serverSender s.serverChan) .badResponseTooLarge j.requestID s.serverSeq body
        down := s.down ++ downFrames p j.requestID s.serverSeq body
        inbox := s.inbox.eraseIdx i
        answers := s.answers ++ [(j.index, r, fs')] } := by
  unfold answer
  cases hj : s.inbox[i]? with
  | none => exact Or.inl rfl
  | some j =>
    simp only
    by_cases hr : r ∈ replies j.type
    · rw [if_pos hr]
      refine Or.inr ?_
      have hserved := I.jobs j (List.mem_of_getElem? hj)
      obtain ⟨c, hc, ht, hf⟩ := I.served_calls hserved
      have hne : s.served ≠ [] := by intro e; rw [e] at hserved; simp at hserved
      have hch := I.srv1 hne
      have hm := I.known c (List.mem_of_getElem? hc)
      have hha := I.handle_at hc
      have hlt := (List.getElem?_eq_some_iff.1 hc).1
      rw [List.getElem?_eq_getElem (by rw [seqFrom_length]; exact hlt)] at hha
      obtain ⟨fs', body, h1, h2, h3, h4, h5, h6⟩ :=
        response_sendable (i := i) hm (r := r) (by rw [ht]; exact hr) hg
          ((seqFrom 0 s.calls.length)[j.index]'(by rw [seqFrom_length]; exact hlt))
      have hsent := down_sent hs j.requestID s.serverSeq body h5
      refine ⟨j, c, _, fs', body, rfl, hc, hha, by rw [ht]; exact hr, h1, h2, h4, h5, h6, ?_⟩
      simp only [← hf, hha, Option.bind_some, h1, h3, hch, hsent, if_true, downFrames]
    · rw [if_neg hr]
      exact Or.inl rfl

theorem perm_erase_index {l : List Job} {i : Nat} {j : Job} (h : l[i]? = some j) :
    (l.map (·.index)).Perm (j.index :: (l.eraseIdx i).map (·.index)) := by
  induction l generalizing i with
  | nil => simp at h
  | cons a l ih =>
    cases i with
    | zero => simp at h; subst h; simp
    | succ i =>
      simp only [List.getElem?_cons_succ] at h
      simp only [List.map_cons, List.eraseIdx_cons_succ]
      exact ((ih h).cons a.index).trans (List.Perm.swap _ _ _)

theorem inv_answer {p N s} (hs : Sound p) (I : Inv p N s) {i r : Nat} {fs : List Val} (hg : Good p (.answer i r fs)) :
    Inv p N (answer p s i r fs) := by
  rcases answer_spec hs I hg with h | ⟨j, c, hd, fs', body, h1, h2, h3, h4, h5, h6, h7, h8, h9, h⟩
  · rw [h]; exact I
  · rw [h]
    constructor
    case unbroken => exact I.unbroken
    case cli => exact I.cli
    case srv => exact I.srv
    case srv1 => exact I.srv1
    case known => exact I.known
    case bound => exact I.bound
    case handles => exact I.handles
    case handle => exact I.handle
    case up => exact I.up
    case jobs =>
      intro k hk
      exact I.jobs k (List.mem_of_mem_eraseIdx hk)
    case perm =>
      refine List.Perm.trans ?_ I.perm
      show ((s.inbox.eraseIdx i).map (·.index) ++ (s.answers ++ [(j.index, r, fs')]).map (·.1)).Perm _
      refine List.Perm.trans ?_ (List.Perm.append_right _ (perm_erase_index h1)).symm
      rw [List.map_append, ← List.append_assoc]
      simp only [List.map_cons, List.map_nil]
      exact (List.perm_append_singleton _ _)
    case ans =>
      intro a ha
      rcases List.mem_append.1 ha with ha | ha
      · exact I.ans a ha
      · simp only [List.mem_singleton] at ha
        subst ha
        exact ⟨c, h2, h4, h6.trans h3.symm⟩
    case down =>
      obtain ⟨ds, d1, d2, d3⟩ := I.down
      refine ⟨ds ++ [⟨j.requestID, s.serverSeq, j.index, r, fs', body⟩], ?_, ?_, ?_⟩
      · intro u hu
        rcases List.mem_append.1 hu with hu | hu
        · exact d1 u hu
        · simp only [List.mem_singleton] at hu; subst hu; exact ⟨h7, h8, h9⟩
      · show (s.down ++ _).flatten = _
        rw [List.flatten_append, d2, List.map_append, List.flatten_append]
        simp [Down.bytes]
      · show s.answers ++ _ = s.done ++ _
        rw [d3, List.map_append, List.append_assoc]
        rfl
    case pend => exact I.pend

/-- The client reads: it waits if nothing is under way, otherwise the call gets the answer that was sent first of those. -/
theorem deliver_spec {p N s} (hs : Sound p) (I : Inv p N s) :
    (s.down.flatten = [] ∧ deliver p s = s) ∨
    ∃ u ds c cl h, (∀ v ∈ u :: ds, Down.Ok p v) ∧
      s.answers = s.done ++ (u :: ds).map (fun u => (u.index, u.type, u.fields)) ∧
      c.flatten = (ds.map (Down.bytes p)).flatten ∧ s.calls[u.index]? = some cl ∧ handleOf cl.2 = some h ∧
      deliver p s = { s with
        clientChan := cli1 p
        down := c
        pending := remove s.pending h
        done := s.done ++ [(u.index, u.type, u.fields)] } := by
  obtain ⟨ds, d1, d2, d3⟩ := I.down
  cases ds with
  | nil =>
    refine Or.inl ⟨by simpa using d2, ?_⟩
    have he : s.down.flatten = [] := by simpa using d2
    unfold deliver
    rw [he]
    simp only [List.length_nil, clientRecv, stalled, he]
    rw [if_neg]
    · simp
    · omega
  | cons u ds =>
    refine Or.inr ⟨u, ds, ?_⟩
    have hu := d1 u List.mem_cons_self
    obtain ⟨c, h1, h2⟩ := down_received hs u.rid u.seq u.body hu.ne hu.fits s.clientChan I.cli s.down
      ((ds.map (Down.bytes p)).flatten) (by rw [d2]; rfl)
    obtain ⟨cl, hc, -, hh⟩ := I.ans (u.index, u.type, u.fields) (by rw [d3]; simp)
    have hha := I.handle_at hc
    have hlt := (List.getElem?_eq_some_iff.1 hc).1
    rw [List.getElem?_eq_getElem (by rw [seqFrom_length]; exact hlt)] at hha
    refine ⟨c, cl, _, d1, d3, h2, hc, hha, ?_⟩
    have hnd : (s.answers.map (·.1)).Nodup :=
      (List.nodup_append.1 (I.perm.nodup_iff.2 List.nodup_range)).2.1
    have hnot : u.index ∉ s.done.map (·.1) := by
      rw [d3, List.map_append] at hnd
      intro hm
      exact (List.nodup_append.1 hnd).2.2 _ hm u.index (by simp) rfl
    have hl := I.pend u.index cl _ hc hha hnot
    simp only at hh
    rw [hha] at hh
    unfold deliver
    rw [h1]
    simp only [hu.read, hh, hl]

theorem inv_deliver {p N s} (hs : Sound p) (I : Inv p N s) (hN : N ≤ 2 ^ 32 - 1) : Inv p N (deliver p s) := by
  rcases deliver_spec hs I with ⟨-, h⟩ | ⟨u, ds, c, cl, hd, d1, d3, h2, h4, h5, h⟩
  · rw [h]; exact I
  · rw [h]
    exact { I with
      cli := Or.inr rfl
      down := ⟨ds, fun v hv => d1 v (List.mem_cons_of_mem _ hv), h2, by rw [d3]; simp⟩
      pend := by
        intro n c' h' hn hh hd'
        show lookup (remove s.pending hd) h' = some n
        simp only [List.map_append, List.mem_append, not_or, List.map_cons, List.map_nil, List.mem_singleton] at hd'
        rw [lookup_remove]
        · exact I.pend n c' h' hn hh hd'.1
        · rintro rfl
          exact hd'.2 (I.handle_inj hN hn h4 hh h5) }

/-- The number of calls among the events. -/
def Ev.isCall : Ev → Bool
  | .call _ _ => true
  | _ => false

theorem inv_step {p N s} (hs : Sound p) (I : Inv p N s) {e : Ev} (hg : Good p e) (hN : N + e.isCall.toNat ≤ 2 ^ 32 - 1) :
    Inv p (N + e.isCall.toNat) (step p s e) := by
  unfold step
  rw [if_neg (by rw [I.unbroken]; decide)]
  cases e with
  | call m fs => exact inv_call hs I hN hg
  | serve => exact inv_serve hs I
  | answer i r fs => exact inv_answer hs I hg
  | deliver => exact inv_deliver hs I hN
  | recutUp c =>
    simp only
    split
    · rename_i hc; exact inv_recutUp I hc
    · exact I
  | recutDown c =>
    simp only
    split
    · rename_i hc; exact inv_recutDown I hc
    · exact I

theorem inv_run {p : Setup} (hs : Sound p) (evs : List Ev) (hg : ∀ e ∈ evs, Good p e)
    (hN : evs.countP Ev.isCall ≤ 2 ^ 32 - 1) : Inv p (evs.countP Ev.isCall) (run p (init p) evs) := by
  induction evs using snocInd with
  | nil => exact inv_init p
  | append_singleton evs e ih =>
    rw [List.countP_append] at hN ⊢
    have he : [e].countP Ev.isCall = e.isCall.toNat := by
      simp only [List.countP_cons, List.countP_nil]
      cases e.isCall <;> rfl
    rw [he] at hN ⊢
    have := ih (fun x hx => hg x (List.mem_append_left _ hx)) (by omega)
    unfold run
    rw [List.foldl_append]
    exact inv_step hs this (hg e (by simp)) hN

/-! ### A conversation -/

/-- Buffers so small that each message takes several chunks. -/
def toy : Setup where
  S := Channel.xorSuite 4 16
  kdf a b := a ++ b
  R := ⟨0, 0, fun _ => none, fun _ _ => false⟩
  mode := .signAndEncrypt
  channelID := 7
  clientNonce := [1]
  serverNonce := [2]
  clientSend := 64
  clientReceive := 64
  serverSend := 64
  serverReceive := 64
  maxRequest := 0
  maxRequestChunks := 5
  requestLimits := ⟨0, 5⟩
  maxResponse := 1000
  maxResponseChunks := 0
  responseLimits := ⟨1000, 0⟩
  fuel := 10

/-- A Cancel request, and its response. -/
def cancel : Ev :=
  .call ⟨"Cancel", 116, 117⟩ [.struct [.leaf (.node none), .leaf (.time ⟨1700000000, 123456700⟩), .leaf (.b32 0), .leaf (.b32 0), .leaf (.str []),
    .leaf (.b32 15000), .extNil], .leaf (.b32 3)]
def cancelled (i : Nat) (n : BitVec 32) : Ev :=
  .answer i 117 [.struct [.leaf (.time ⟨1700000000, 123456700⟩), .leaf (.b32 0), .leaf (.b32 0), .diag Diag.empty, .slice [], .extNil],
    .leaf (.b32 n)]

theorem toy_sound : Sound toy where
  lawful := by
    refine ⟨by decide, by decide, ?_, ?_, ?_⟩
    · intro k d; simp [toy, Channel.xorSuite, leBytes_length]
    · intro k x _; simp [toy, Channel.xorSuite]
    · intro k x _
      simp only [toy, Channel.xorSuite, List.map_map]
      conv => rhs; rw [← List.map_id x]
      apply List.map_congr_left
      intro b _
      simp [UInt8.xor_assoc]
  none_sig := by intro h; cases h
  upRoom := by decide
  downRoom := by decide
  upBuffer := by decide
  downBuffer := by decide
  upSmall := by decide
  downSmall := by decide

theorem cancel_good : Good toy cancel := by
  refine ⟨by decide +kernel, ⟨?_, ?_, by decide⟩, ?_⟩
  · have : reg.fieldsOf 116 = [.struct [.leaf .nodeID, .leaf .dateTime, .leaf .uint32, .leaf .uint32, .leaf .string, .leaf .uint32,
      .ext], .leaf .uint32] := by rfl
    rw [this]
    simp [wtFields, wt, Leaf.hasTy, Leaf.Fits]
  · simp only [Val.Exact, Val.AllExact, Leaf.Exact, Time.OnGrid, reduceCtorEq, false_implies, implies_true]; decide
  · intro e he
    have hl : (Messages.write clientWrites 116 [.struct [.leaf (.node none), .leaf (.time ⟨1700000000, 123456700⟩), .leaf (.b32 0), .leaf (.b32 0),
      .leaf (.str []), .leaf (.b32 15000), .extNil], .leaf (.b32 3)]).map List.length = some 37 := by decide +kernel
    rw [he] at hl
    simp only [Option.map_some, Option.some.injEq] at hl
    rw [hl]
    exact ⟨by decide, by decide, by decide, by decide⟩

theorem cancelled_good (i : Nat) (n : BitVec 32) : Good toy (cancelled i n) := by
  refine ⟨⟨?_, ?_, ?_⟩, ?_⟩
  · have : reg.fieldsOf 117 = [.struct [.leaf .dateTime, .leaf .uint32, .leaf .statusCode, .diag, .slice (.leaf .string), .ext],
      .leaf .uint32] := by rfl
    rw [this]
    simp [wtFields, wt, Leaf.hasTy, Leaf.Fits]
  · simp only [Val.Exact, Val.AllExact, Leaf.Exact, Time.OnGrid]; decide
  · simp [Opcua.depth, depthList, toy]
  · intro e he
    have hl : (Messages.write serverWrites 117 [.struct [.leaf (.time ⟨1700000000, 123456700⟩), .leaf (.b32 0), .leaf (.b32 0), .diag Diag.empty,
      .slice [], .extNil], .leaf (.b32 0)]).map List.length = some 32 := by decide +kernel
    have hl' : (Messages.write serverWrites 117 [.struct [.leaf (.time ⟨1700000000, 123456700⟩), .leaf (.b32 0), .leaf (.b32 0), .diag Diag.empty,
      .slice [], .extNil], .leaf (.b32 n)]).map List.length = some 32 := by
      rw [← hl]
      exact write_len (encList_cons_len rfl (encList_cons_len (b32_len _ _) rfl))
    rw [he] at hl'
    simp only [Option.map_some, Option.some.injEq] at hl'
    rw [hl']
    exact ⟨by decide, by decide, by decide, by decide⟩

/-- Two calls of the same service under way at once, in several chunks each; the second is answered first. -/
def talk : List Ev := [cancel, cancel, .serve, .serve, cancelled 1 55, cancelled 0 66]

example : (run toy (init toy) [cancel]).up.length = 2 := by decide +kernel
example : (run toy (init toy) talk).up.flatten = [] ∧ (run toy (init toy) talk).down.flatten ≠ [] ∧
    (run toy (init toy) (talk ++ [.deliver])).done.map (·.1) = [1] ∧
    (run toy (init toy) (talk ++ [.deliver, .deliver])).done.map (·.1) = [1, 0] := by decide +kernel

/-! ## C125 -/

/-- Nothing goes wrong on the way: whatever is called, answered and in whatever pieces it arrives, neither side fails to
read what the other sent. -/
theorem C125_unbroken {p : Setup} (hs : Sound p) (evs : List Ev) (hg : ∀ e ∈ evs, Good p e)
    (hN : evs.countP Ev.isCall ≤ 2 ^ 32 - 1) : (run p (init p) evs).broken = false :=
  (inv_run hs evs hg hN).unbroken

/-- The handlers see the requests that were called, each once, in the order of the calls, with type and fields. -/
theorem C125_in_order {p : Setup} (hs : Sound p) (evs : List Ev) (hg : ∀ e ∈ evs, Good p e)
    (hN : evs.countP Ev.isCall ≤ 2 ^ 32 - 1) :
    (run p (init p) evs).served <+: (run p (init p) evs).calls.map (fun c => (c.1.request, c.2)) := by
  obtain ⟨us, -, -, h⟩ := (inv_run hs evs hg hN).up
  exact ⟨_, h.symm⟩

/-- A call returns exactly the answer that a handler gave to exactly this call: the type is that of the response which the
service awaits, or a fault. -/
theorem C125_own_answer {p : Setup} (hs : Sound p) (evs : List Ev) (hg : ∀ e ∈ evs, Good p e)
    (hN : evs.countP Ev.isCall ≤ 2 ^ 32 - 1) (n r : Nat) (fs : List Val) (hd : (n, r, fs) ∈ (run p (init p) evs).done) :
    (n, r, fs) ∈ (run p (init p) evs).answers ∧
    ∃ c, (run p (init p) evs).calls[n]? = some c ∧
      (run p (init p) evs).served[n]? = some (c.1.request, c.2) ∧ (r = c.1.response ∨ r = Messages.fault) := by
  have I := inv_run hs evs hg hN
  obtain ⟨ds, -, -, h⟩ := I.down
  have ha : (n, r, fs) ∈ (run p (init p) evs).answers := by rw [h]; exact List.mem_append_left _ hd
  obtain ⟨c, hc, hr, -⟩ := I.ans _ ha
  refine ⟨ha, c, hc, ?_, ?_⟩
  · have hn : n ∈ List.range (run p (init p) evs).served.length :=
      I.perm.mem_iff.1 (List.mem_append_right _ (List.mem_map.2 ⟨_, ha, rfl⟩))
    rw [List.mem_range] at hn
    obtain ⟨c', hc', h1, h2⟩ := I.served_calls (t := ((run p (init p) evs).served[n]).1)
      (fs := ((run p (init p) evs).served[n]).2) (List.getElem?_eq_getElem hn)
    rw [hc] at hc'
    cases hc'
    rw [List.getElem?_eq_getElem hn, h1, h2]
  · have hm := I.known c (List.mem_of_getElem? hc)
    have := List.all_eq_true.1 Messages.methods_pass c.1 hm
    simp only [Bool.and_eq_true, List.all_eq_true, Bool.or_eq_true, Nat.beq_eq] at this
    exact (this.2 r hr).1

/-- No call gets two answers, and no request is answered twice; the client gets the answers in the order in which the
server sent them. -/
theorem C125_once {p : Setup} (hs : Sound p) (evs : List Ev) (hg : ∀ e ∈ evs, Good p e)
    (hN : evs.countP Ev.isCall ≤ 2 ^ 32 - 1) :
    ((run p (init p) evs).answers.map (·.1)).Nodup ∧ (run p (init p) evs).done <+: (run p (init p) evs).answers := by
  have I := inv_run hs evs hg hN
  obtain ⟨ds, -, -, h⟩ := I.down
  exact ⟨(List.nodup_append.1 (I.perm.nodup_iff.2 List.nodup_range)).2.1, ⟨_, h.symm⟩⟩

/-- When the streams are empty and no request waits for its handler, every call has its answer. -/
theorem C125_complete {p : Setup} (hs : Sound p) (evs : List Ev) (hg : ∀ e ∈ evs, Good p e)
    (hN : evs.countP Ev.isCall ≤ 2 ^ 32 - 1) (hup : (run p (init p) evs).up.flatten = [])
    (hdown : (run p (init p) evs).down.flatten = []) (hin : (run p (init p) evs).inbox = []) (n : Nat)
    (hn : n < (run p (init p) evs).calls.length) : ∃ r fs, (n, r, fs) ∈ (run p (init p) evs).done := by
  have I := inv_run hs evs hg hN
  obtain ⟨us, u1, u2, u3⟩ := I.up
  have hus : us = [] := by
    cases us with
    | nil => rfl
    | cons u us =>
      have h0 := up_bytes_pos hs (u1 u List.mem_cons_self)
      rw [hup] at u2
      have := congrArg List.length u2
      simp only [List.map_cons, List.flatten_cons, List.length_append, List.length_nil] at this
      omega
  obtain ⟨ds, d1, d2, d3⟩ := I.down
  have hds : ds = [] := by
    cases ds with
    | nil => rfl
    | cons u us =>
      have h0 := down_bytes_pos hs (d1 u List.mem_cons_self)
      rw [hdown] at d2
      have := congrArg List.length d2
      simp only [List.map_cons, List.flatten_cons, List.length_append, List.length_nil] at this
      omega
  rw [hus, List.map_nil, List.append_nil] at u3
  rw [hds, List.map_nil, List.append_nil] at d3
  have hlen := congrArg List.length u3
  rw [List.length_map] at hlen
  have hmem : n ∈ (run p (init p) evs).inbox.map (·.index) ++ (run p (init p) evs).answers.map (·.1) :=
    I.perm.mem_iff.2 (by rw [List.mem_range]; omega)
  rw [hin, List.map_nil, List.nil_append, d3] at hmem
  obtain ⟨⟨n', r, fs⟩, ha, rfl⟩ := List.mem_map.1 hmem
  exact ⟨r, fs, ha⟩

/-- Neither side gets stuck: as long as bytes are under way, one step of the reader at their end brings one message to its
handler or its caller. -/
theorem C125_progress {p : Setup} (hs : Sound p) (evs : List Ev) (hg : ∀ e ∈ evs, Good p e)
    (hN : evs.countP Ev.isCall ≤ 2 ^ 32 - 1) :
    ((run p (init p) evs).up.flatten ≠ [] → (run p (init p) (evs ++ [.serve])).served.length =
      (run p (init p) evs).served.length + 1) ∧
    ((run p (init p) evs).down.flatten ≠ [] → (run p (init p) (evs ++ [.deliver])).done.length =
      (run p (init p) evs).done.length + 1) := by
  have I := inv_run hs evs hg hN
  have hrun : ∀ e, run p (init p) (evs ++ [e]) = step p (run p (init p) evs) e := by
    intro e; unfold run; rw [List.foldl_append]; rfl
  rw [hrun, hrun]
  generalize run p (init p) evs = s at I
  constructor
  · intro hne
    rcases serve_spec hs I with ⟨h, -⟩ | ⟨u, us, c, -, -, -, h⟩
    · exact absurd h hne
    · rw [step, if_neg (by rw [I.unbroken]; decide)]
      simp only [h, List.length_append, List.length_singleton]
  · intro hne
    rcases deliver_spec hs I with ⟨h, -⟩ | ⟨u, us, c, cl, hd, -, -, -, -, -, h⟩
    · exact absurd h hne
    · rw [step, if_neg (by rw [I.unbroken]; decide)]
      simp only [h, List.length_append, List.length_singleton]

/-- All of this holds for the conversation above, which is complete. -/
example : (run toy (init toy) (talk ++ [.deliver, .deliver])).broken = false ∧
    ∀ n, n < 2 → ∃ r fs, (n, r, fs) ∈ (run toy (init toy) (talk ++ [.deliver, .deliver])).done := by
  have hg : ∀ e ∈ talk ++ [Ev.deliver, Ev.deliver], Good toy e := by
    simp only [talk, List.cons_append, List.nil_append, List.mem_cons, List.not_mem_nil, or_false, forall_eq_or_imp, forall_eq]
    exact ⟨cancel_good, cancel_good, trivial, trivial, cancelled_good _ _, cancelled_good _ _, trivial, trivial⟩
  have hN : (talk ++ [Ev.deliver, Ev.deliver]).countP Ev.isCall ≤ 2 ^ 32 - 1 := by decide
  have hc : (run toy (init toy) (talk ++ [.deliver, .deliver])).calls.length = 2 ∧
      (run toy (init toy) (talk ++ [.deliver, .deliver])).up.flatten = [] ∧
      (run toy (init toy) (talk ++ [.deliver, .deliver])).down.flatten = [] ∧
      (run toy (init toy) (talk ++ [.deliver, .deliver])).inbox.length = 0 := by decide +kernel
  exact ⟨C125_unbroken toy_sound _ hg hN, fun n hn => C125_complete toy_sound _ hg hN hc.2.1 hc.2.2.1
    (List.eq_nil_of_length_eq_zero hc.2.2.2) n (by rw [hc.1]; exact hn)⟩

/-! ### Any state, any traffic -/

namespace Spec

/-- The stream consists of whole frames and then of a part of a frame, or of nothing: a reader has to wait. -/
inductive Incomplete (cap : Nat) : Bytes → Prop where
  | short (b : Bytes) (h : b.length < 8) : Incomplete cap b
  | part (b : Bytes) (h : leVal ((b.drop 4).take 4) ≤ cap) (h' : b.length < leVal ((b.drop 4).take 4)) : Incomplete cap b
  | frame (f b : Bytes) (h : 8 ≤ f.length) (hb : Incomplete cap b) : Incomplete cap (f ++ b)

/-- The connection is at its end: nothing changes any more, whatever happens. -/
def AtEnd (p : Setup) (s : State) : Prop := ∀ evs, run p s evs = s

end Spec

theorem atEnd_of (p : Setup) {s : State} (h : s.broken = true) : AtEnd p s := by
  intro evs
  induction evs with
  | nil => rfl
  | cons e evs ih =>
    show run p (step p s e) evs = s
    rw [show step p s e = s by unfold step; rw [if_pos h]]
    exact ih

theorem stalled_incomplete {cap : Nat} {conn : Conn} (h : stalled cap conn = true) : Incomplete cap conn.flatten := by
  unfold stalled at h
  simp only [Bool.or_eq_true, decide_eq_true_eq, Bool.and_eq_true] at h
  rcases h with h | ⟨h, h'⟩
  · exact .short _ h
  · exact .part _ h h'

theorem readFrame_split {cap : Nat} {conn c : Conn} {f : Bytes} (h : Frame.readFrame cap conn = .ok (f, c)) :
    conn.flatten = f ++ c.flatten ∧ 8 ≤ f.length := by
  have hcap : 8 ≤ cap := by
    unfold Frame.readFrame at h
    split at h
    · cases h
    · omega
  obtain ⟨h1, h2⟩ := Frame.C29_frame cap hcap conn
  cases hs : specFrame cap conn.flatten with
  | none => rw [h2 hs] at h; cases h
  | some q =>
    obtain ⟨c', e1, e2⟩ := h1 q.1 q.2 hs
    rw [h] at e1
    injection e1 with e1
    injection e1 with ef ec
    subst ef ec
    rw [e2]
    unfold specFrame at hs
    split at hs
    · cases hs
    · dsimp only at hs
      split at hs
      · cases hs
      · cases hs
        simp only [List.take_append_drop, List.length_take, true_and]
        omega

theorem serverRecv_wait (p : Setup) : ∀ (n : Nat) (ch : Channel.Chan) (count : Nat) (acc : Bytes) (conn : Conn),
    conn.flatten.length < n → serverRecv p n ch count acc conn = .wait → Incomplete p.serverReceive conn.flatten := by
  intro n
  induction n with
  | zero => intro ch count acc conn h; omega
  | succ n ih =>
    intro ch count acc conn hl h
    rw [serverRecv] at h
    split at h
    · cases h
    split at h
    · rename_i hs; exact stalled_incomplete hs
    split at h
    · rename_i f c hf
      obtain ⟨e, h8⟩ := readFrame_split hf
      split at h
      · dsimp only at h
        split at h
        · cases h
        split at h
        · cases h
        rw [e] at hl ⊢
        rw [List.length_append] at hl
        exact .frame f _ h8 (ih _ _ _ _ (by omega) h)
      · cases h
    · cases h

theorem clientRecv_wait (p : Setup) : ∀ (n : Nat) (ch : ClientRecv.Chan) (count : Nat) (acc : Bytes) (conn : Conn),
    conn.flatten.length < n → clientRecv p n ch count acc conn = .wait → Incomplete p.clientReceive conn.flatten := by
  intro n
  induction n with
  | zero => intro ch count acc conn h; omega
  | succ n ih =>
    intro ch count acc conn hl h
    rw [clientRecv] at h
    split at h
    · cases h
    split at h
    · rename_i hs; exact stalled_incomplete hs
    split at h
    · rename_i f c hf
      obtain ⟨e, h8⟩ := readFrame_split hf
      split at h
      · dsimp only at h
        split at h
        · cases h
        split at h
        · cases h
        rw [e] at hl ⊢
        rw [List.length_append] at hl
        exact .frame f _ h8 (ih _ _ _ _ (by omega) h)
      · cases h
    · cases h

/-- In any state and whatever arrived, the server waits because a message is not complete, or gets one request, or ends the
connection: it does not go on behind something it could not read. -/
theorem C125_server_reads (p : Setup) (s : State) (hs : s.broken = false) :
    (step p s .serve = s ∧ Incomplete p.serverReceive s.up.flatten) ∨
    (∃ q, (step p s .serve).served = s.served ++ [q]) ∨
    AtEnd p (step p s .serve) := by
  rw [step, if_neg (by rw [hs]; decide)]
  show (serve p s = s ∧ _) ∨ (∃ q, (serve p s).served = _) ∨ AtEnd p (serve p s)
  unfold serve
  split
  · rename_i h
    exact Or.inl ⟨rfl, serverRecv_wait p _ _ _ _ _ (by omega) h⟩
  · exact Or.inr (Or.inr (atEnd_of p rfl))
  · split
    · exact Or.inr (Or.inl ⟨_, rfl⟩)
    · exact Or.inr (Or.inr (atEnd_of p rfl))

/-- So does the client; a response that nobody waits for is passed over. -/
theorem C125_client_reads (p : Setup) (s : State) (hs : s.broken = false) :
    (step p s .deliver = s ∧ Incomplete p.clientReceive s.down.flatten) ∨
    (∃ q, (step p s .deliver).done = s.done ++ [q]) ∨
    (∃ ch c h, step p s .deliver = { s with clientChan := ch, down := c } ∧ ∀ n, (h, n) ∉ s.pending) ∨
    AtEnd p (step p s .deliver) := by
  rw [step, if_neg (by rw [hs]; decide)]
  show (deliver p s = s ∧ _) ∨ (∃ q, (deliver p s).done = _) ∨ (∃ ch c h, deliver p s = _ ∧ _) ∨ AtEnd p (deliver p s)
  unfold deliver
  split
  · rename_i h
    exact Or.inl ⟨rfl, clientRecv_wait p _ _ _ _ _ (by omega) h⟩
  · exact Or.inr (Or.inr (Or.inr (atEnd_of p rfl)))
  · split
    · dsimp only
      split
      · exact Or.inr (Or.inr (Or.inr (atEnd_of p rfl)))
      · rename_i h _
        split
        · rename_i hl
          refine Or.inr (Or.inr (Or.inl ⟨_, _, h, rfl, ?_⟩))
          intro n hn
          unfold lookup at hl
          simp only [Option.map_eq_none_iff, List.find?_eq_none, decide_eq_true_eq] at hl
          exact hl _ hn rfl
        · exact Or.inr (Or.inl ⟨_, rfl⟩)
    · exact Or.inr (Or.inr (Or.inr (atEnd_of p rfl)))

/-- A handler that answers a waiting request with a response of the right type sends it, or the connection ends: no request
loses its answer while the connection goes on. -/
theorem C125_answers (p : Setup) (s : State) (hs : s.broken = false) (i r : Nat) (fs fs' : List Val) (j : Job) (h : BitVec 32)
    (hj : s.inbox[i]? = some j) (hr : r ∈ replies j.type) (hh : handleOf j.fields = some h)
    (hf : setResponseHandle h fs = some fs') :
    (step p s (.answer i r fs)).answers = s.answers ++ [(j.index, r, fs')] ∨ AtEnd p (step p s (.answer i r fs)) := by
  rw [step, if_neg (by rw [hs]; decide)]
  show (answer p s i r fs).answers = _ ∨ AtEnd p (answer p s i r fs)
  unfold answer
  simp only [hj, if_pos hr, hh, Option.bind_some, hf]
  split
  · exact Or.inr (atEnd_of p rfl)
  · split
    · exact Or.inl rfl
    · exact Or.inr (atEnd_of p rfl)

theorem sendLoop_seq (S : Suite) (cfg : Sender) (tl : Channel.Status) (rid : BitVec 32) (count : Nat) (seq : BitVec 32) (body : Bytes) :
    (sendLoop S cfg tl rid count seq body).seq = after seq (sendLoop S cfg tl rid count seq body).chunks.length := by
  rw [sendLoop]
  split
  · rfl
  · split
    · rfl
    · dsimp only
      split
      · rfl
      · simp only [List.length_cons]
        exact sendLoop_seq S cfg tl rid (count + 1) (nextSeq seq) _
termination_by body.length
decreasing_by
  rw [List.length_drop]
  rename_i h3
  exact Nat.sub_lt (by omega) (Nat.pos_of_ne_zero h3)

theorem seqAfter_eq (S : Suite) (cfg : Sender) (tl : Channel.Status) (rid seq : BitVec 32) (body : Bytes) :
    seqAfter S cfg tl rid seq body = after seq (sendMessage S cfg tl rid seq body).1.length := by
  unfold seqAfter sendMessage
  split
  · rfl
  · simp only [List.length_map]
    exact sendLoop_seq S cfg tl rid 0 seq body

/-- The numbers of the two sides go on by one with each chunk that is sent, whether the message was sent as a whole or not:
the next message begins where the last one ended. -/
theorem C125_numbering (p : Setup) (s : State) (e : Ev) :
    (∀ m fs, e = .call m fs → ∃ sent, (step p s e).up = s.up ++ sent ∧ (step p s e).clientSeq = after s.clientSeq sent.length) ∧
    (∀ i r fs, e = .answer i r fs →
      ∃ sent, (step p s e).down = s.down ++ sent ∧ (step p s e).serverSeq = after s.serverSeq sent.length) ∧
    ((∀ m fs, e ≠ .call m fs) → (step p s e).clientSeq = s.clientSeq) ∧
    ((∀ i r fs, e ≠ .answer i r fs) → (step p s e).serverSeq = s.serverSeq) := by
  refine ⟨?_, ?_, ?_, ?_⟩
  · rintro m fs rfl
    unfold step
    split
    · exact ⟨[], by simp, rfl⟩
    dsimp only
    unfold call
    split
    · exact ⟨[], by simp, rfl⟩
    split
    · exact ⟨[], by simp, rfl⟩
    dsimp only
    split <;> exact ⟨_, rfl, seqAfter_eq _ _ _ _ _ _⟩
  · rintro i r fs rfl
    unfold step
    split
    · exact ⟨[], by simp, rfl⟩
    dsimp only
    unfold answer
    split
    · exact ⟨[], by simp, rfl⟩
    split
    · split
      · exact ⟨[], by simp, rfl⟩
      split
      · exact ⟨[], by simp, rfl⟩
      dsimp only
      split <;> exact ⟨_, rfl, seqAfter_eq _ _ _ _ _ _⟩
    · exact ⟨[], by simp, rfl⟩
  · intro h
    unfold step
    split
    · rfl
    cases e with
    | call m fs => exact absurd rfl (h m fs)
    | serve => unfold serve; dsimp only; split <;> try rfl
               split <;> rfl
    | answer i r fs =>
      unfold answer
      dsimp only
      split
      · rfl
      split
      · split
        · rfl
        split
        · rfl
        split <;> rfl
      · rfl
    | deliver =>
      unfold deliver
      dsimp only
      split
      · rfl
      · rfl
      · split
        · split
          · rfl
          · split <;> rfl
        · rfl
    | recutUp c => dsimp only; split <;> rfl
    | recutDown c => dsimp only; split <;> rfl
  · intro h
    unfold step
    split
    · rfl
    cases e with
    | answer i r fs => exact absurd rfl (h i r fs)
    | serve => unfold serve; dsimp only; split <;> try rfl
               split <;> rfl
    | call m fs =>
      unfold call
      dsimp only
      split
      · rfl
      split
      · rfl
      split <;> rfl
    | deliver =>
      unfold deliver
      dsimp only
      split
      · rfl
      · rfl
      · split
        · split
          · rfl
          · split <;> rfl
        · rfl
    | recutUp c => dsimp only; split <;> rfl
    | recutDown c => dsimp only; split <;> rfl

/-- A server whose responses are limited to 10 bytes ends the connection over the answer; a frame of 1 MB ends it, too. -/
example : AtEnd toy (run { toy with maxResponse := 10 } (init toy) [cancel, .serve, cancelled 0 66]) :=
  atEnd_of _ (by decide +kernel)
example : (step toy { init toy with up := [[77, 83, 71, 70, 0, 0, 16, 0]] } .serve).broken = true := by decide +kernel
example : Incomplete 64 [77, 83, 71, 70, 40, 0, 0, 0, 1] := .part _ (by decide) (by decide)

end Opcua.Conversation
