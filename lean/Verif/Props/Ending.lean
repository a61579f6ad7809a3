import Verif.Model.Ending
import Verif.Props.Channel
import Verif.Props.Pending
import Verif.Lemmas.Scalars

/-! Property C121: how requests are answered until a connection ends, and how it ends. -/
namespace Opcua.Ending
open Opcua.Channel (Suite Sender SendEnd sendLoop sendLoop_ok sendLoop_over maxBody tyError)

namespace Spec

/-- The requests that are answered, by the last chunks of the answers. -/
def answered : List Out → List (BitVec 32)
  | [] => []
  | .chunk id true :: os => id :: answered os
  | _ :: os => answered os

/-- The requests that came in. -/
def asked : List In → List (BitVec 32)
  | [] => []
  | .request r :: is => r.id :: asked is
  | .fails :: is => asked is

/-- A body that the client is willing to take. -/
def Fits (ch : Chan) (body : Bytes) : Prop :=
  body ≠ [] ∧ (ch.cfg.maxMessage = 0 ∨ body.length ≤ ch.cfg.maxMessage) ∧
  (ch.cfg.maxChunks = 0 ∨ body.length ≤ ch.cfg.maxChunks * (maxBody ch.S ch.cfg.mode ch.cfg.send).toNat)

/-- A request that does not end the connection: it does not ask for that, it is allowed on the
channel, and the answer to it fits. -/
def Ordinary (ch : Chan) (r : Request) : Prop :=
  r.kind ≠ .closeChannel ∧ r.kind ≠ .openChannel false ∧
  ((∃ s, r.kind = .service s) → ch.discoveryOnly = false) ∧
  (r.kind = .openChannel true ∨ ∃ body, r.deed = .answer (some body) ∧ Fits ch body)

/-- A channel on which something can be sent. -/
structure Usable (ch : Chan) : Prop where
  lawful : ch.S.Lawful
  usable : ch.cfg.Usable ch.S

end Spec
open Spec

theorem answered_append (a b : List Out) : answered (a ++ b) = answered a ++ answered b := by
  induction a with
  | nil => rfl
  | cons o a ih =>
    cases o with
    | chunk id f => cases f <;> simp [answered, ih]
    | _ => simp [answered, ih]

theorem answered_chunks (id : BitVec 32) : ∀ (cs : List (Channel.Chunk × Nat)) (k : Nat),
    (∀ c ∈ cs, c.1.requestID = id) → cs.map (fun c => c.1.final) = List.replicate k false ++ [true] →
    answered (cs.map fun c => Out.chunk c.1.requestID c.1.final) = [id]
  | [], k, _, h => by cases k <;> cases h
  | c :: cs, 0, hi, h => by
    simp only [List.map_cons, List.replicate_zero, List.nil_append, List.cons.injEq, List.map_eq_nil_iff] at h
    rw [h.2]
    simp [h.1, answered, hi c List.mem_cons_self]
  | c :: cs, k + 1, hi, h => by
    simp only [List.map_cons, List.replicate_succ, List.cons_append, List.cons.injEq] at h
    rw [List.map_cons, h.1]
    exact answered_chunks id cs k (fun x hx => hi x (List.mem_cons_of_mem _ hx)) h.2

/-- A fitting response is written as one message. -/
theorem writeResponse_fits {ch : Chan} (hu : Usable ch) (id : BitVec 32) (body : Bytes) (hf : Fits ch body) :
    (writeResponse ch id (some body)).2 = .goOn ∧ answered (writeResponse ch id (some body)).1 = [id] := by
  have hl := sendLoop_ok hu.lawful ch.cfg .badResponseTooLarge id hu.usable.room hu.usable.none_sig hu.usable.buffer 0 0 body
    (by have := hf.2.2; omega)
  unfold writeResponse
  dsimp only
  rw [if_neg (by have := hf.2.1; omega)]
  dsimp only
  rw [hl.sent]
  obtain ⟨k, hk⟩ := hl.finals hf.1
  exact ⟨rfl, answered_chunks id _ k (fun c hc => (hl.ids c hc).2.2) hk⟩

theorem writeResponse_outs (ch : Chan) (id : BitVec 32) (b : Option Bytes) :
    ∀ o ∈ (writeResponse ch id b).1, ∃ i f, o = .chunk i f := by
  intro o ho
  cases b with
  | none => cases ho
  | some body =>
    unfold writeResponse at ho
    dsimp only at ho
    split at ho
    · cases ho
    · obtain ⟨c, _, rfl⟩ := List.mem_map.1 ho
      exact ⟨_, _, rfl⟩

theorem handle_ordinary {ch : Chan} (hu : Usable ch) (r : Request) (ho : Ordinary ch r) :
    (handleRequest ch r).2 = .goOn ∧ answered (handleRequest ch r).1 = [r.id] ∧
    ∀ o ∈ (handleRequest ch r).1, ∃ i f, o = .chunk i f := by
  obtain ⟨h1, h2, h3, h4⟩ := ho
  unfold handleRequest
  rcases h4 with h4 | ⟨body, h4, hf⟩
  · rw [h4]
    exact ⟨rfl, rfl, fun o ho => ⟨_, _, List.mem_singleton.1 ho⟩⟩
  · have hw := writeResponse_fits hu r.id body hf
    have hact : act ch r.id r.deed = writeResponse ch r.id (some body) := by rw [h4]; rfl
    have hall : (act ch r.id r.deed).2 = .goOn ∧ answered (act ch r.id r.deed).1 = [r.id] ∧
        ∀ o ∈ (act ch r.id r.deed).1, ∃ i f, o = .chunk i f := by
      rw [hact]; exact ⟨hw.1, hw.2, writeResponse_outs ch r.id _⟩
    split
    · rename_i s hk
      rw [h3 ⟨s, hk⟩]
      exact hall
    · exact hall
    · exact hall
    · exact ⟨rfl, rfl, fun o ho => ⟨_, _, List.mem_singleton.1 ho⟩⟩
    · rename_i hk; exact absurd hk h2
    · rename_i hk; exact absurd hk h1
    · exact hall

/-- As long as only ordinary requests come in, each of them is answered exactly once, in the order in
which they came, and the connection stays open; whatever comes afterwards. -/
theorem C121_answered_partial (ch : Chan) (hu : Usable ch) (rs : List Request) (hrs : ∀ r ∈ rs, Ordinary ch r)
    (rest : List In) :
    ∃ pre, serve ch (rs.map .request ++ rest) = pre ++ serve ch rest ∧ answered pre = rs.map (·.id) ∧
      ∀ o ∈ pre, ∃ i f, o = .chunk i f := by
  induction rs with
  | nil => exact ⟨[], rfl, rfl, fun o ho => by cases ho⟩
  | cons r rs ih =>
    obtain ⟨pre, h1, h2, h3⟩ := ih (fun x hx => hrs x (List.mem_cons_of_mem _ hx))
    obtain ⟨g1, g2, g3⟩ := handle_ordinary hu r (hrs r List.mem_cons_self)
    refine ⟨(handleRequest ch r).1 ++ pre, ?_, ?_, ?_⟩
    · rw [List.map_cons, List.cons_append, serve]
      generalize handleRequest ch r = p at g1 ⊢
      obtain ⟨o, f⟩ := p
      cases g1
      dsimp only
      rw [h1, List.append_assoc]
    · rw [answered_append, g2, h2]; rfl
    · intro o ho
      rcases List.mem_append.1 ho with ho | ho
      · exact g3 o ho
      · exact h3 o ho

/-- A channel in mode None with a buffer of 32 bytes, limits of 20 bytes and 3 chunks. -/
def small : Chan := ⟨Channel.xorSuite 0 1, ⟨.none, 32, 7, 1, [], 20, 3⟩, false⟩

theorem small_usable : Usable small :=
  ⟨Channel.xorSuite_lawful 0 1 (by decide) (by decide), ⟨by decide, by decide, by decide⟩⟩

/-- A read with an answer of 20 bytes in three chunks, then an unsupported service. -/
example : Ordinary small ⟨5, .service .read, .answer (some (List.replicate 20 1))⟩ ∧
    Ordinary small ⟨6, .unsupported, .answer (some [1, 2])⟩ ∧
    serve small [.request ⟨5, .service .read, .answer (some (List.replicate 20 1))⟩,
      .request ⟨6, .unsupported, .answer (some [1, 2])⟩] =
      [.chunk 5 false, .chunk 5 false, .chunk 5 true, .chunk 6 true] := by
  refine ⟨⟨by simp, by simp, fun _ => rfl, Or.inr ⟨_, rfl, by decide, by decide, by decide⟩⟩,
    ⟨by simp, by simp, fun _ => rfl, Or.inr ⟨_, rfl, by decide, by decide, by decide⟩⟩, by decide +kernel⟩

theorem chunks_one (S : Suite) (cfg : Sender) (tl : Channel.Status) (rid : BitVec 32) (count : Nat) (seq : BitVec 32) (body : Bytes) :
    let r := sendLoop S cfg tl rid count seq body
    (∀ c ∈ r.chunks, c.1.requestID = rid) ∧
    (answered (r.chunks.map fun c => Out.chunk c.1.requestID c.1.final)).Sublist [rid] ∧
    (r.fin ≠ .sent → answered (r.chunks.map fun c => Out.chunk c.1.requestID c.1.final) = []) := by
  rw [sendLoop]
  split
  · exact ⟨fun c hc => (by cases hc), by simp [answered], fun h => absurd rfl h⟩
  · split
    · exact ⟨fun c hc => (by cases hc), by simp [answered], fun _ => rfl⟩
    · dsimp only
      split
      · exact ⟨fun c hc => (by cases hc), by simp [answered], fun _ => rfl⟩
      · have ih := chunks_one S cfg tl rid (count + 1) (Channel.nextSeq seq)
          (body.drop (Channel.plan S cfg.mode cfg.send body.length).bodySize)
        dsimp only at ih
        by_cases hfin : body.length > (Channel.plan S cfg.mode cfg.send body.length).bodySize
        · have hd : decide (¬ body.length > (Channel.plan S cfg.mode cfg.send body.length).bodySize) = false := by simp; omega
          refine ⟨?_, ?_, ?_⟩
          · intro c hc
            rcases List.mem_cons.1 hc with rfl | hc
            · rfl
            · exact ih.1 c hc
          · rw [List.map_cons]; dsimp only; rw [hd]; exact ih.2.1
          · intro h; rw [List.map_cons]; dsimp only; rw [hd]; exact ih.2.2 h
        · have hd : decide (¬ body.length > (Channel.plan S cfg.mode cfg.send body.length).bodySize) = true := by simp; omega
          have hnil : sendLoop S cfg tl rid (count + 1) (Channel.nextSeq seq)
              (body.drop (Channel.plan S cfg.mode cfg.send body.length).bodySize) = ⟨[], Channel.nextSeq seq, .sent⟩ := by
            rw [sendLoop, dif_pos (by rw [List.length_drop]; omega)]
          rw [hnil]
          refine ⟨?_, ?_, fun h => absurd rfl h⟩
          · intro c hc
            rcases List.mem_cons.1 hc with rfl | hc
            · rfl
            · cases hc
          · rw [List.map_cons]; dsimp only; rw [hd]; simp [answered]
termination_by body.length
decreasing_by
  rw [List.length_drop]
  rename_i h3
  exact Nat.sub_lt (by omega) (Nat.pos_of_ne_zero h3)

theorem act_one (ch : Chan) (id : BitVec 32) (d : Deed) : (answered (act ch id d).1).Sublist [id] ∧
    ((act ch id d).2 ≠ .goOn → answered (act ch id d).1 = []) := by
  cases d with
  | park => exact ⟨by simp [act, answered], fun h => absurd rfl h⟩
  | giveUp => exact ⟨by simp [act, answered], fun _ => rfl⟩
  | answer b =>
    cases b with
    | none => exact ⟨by simp [act, writeResponse, answered], fun _ => rfl⟩
    | some body =>
      unfold act writeResponse
      dsimp only
      split
      · exact ⟨by simp [answered], fun _ => rfl⟩
      · have := chunks_one ch.S ch.cfg .badResponseTooLarge id 0 0 body
        dsimp only at this ⊢
        refine ⟨this.2.1, fun h => this.2.2 fun e => h ?_⟩
        rw [e]

theorem handle_one (ch : Chan) (r : Request) : (answered (handleRequest ch r).1).Sublist [r.id] ∧
    ((handleRequest ch r).2 ≠ .goOn → answered (handleRequest ch r).1 = []) := by
  unfold handleRequest
  split
  · split
    · exact ⟨by simp [answered], fun _ => rfl⟩
    · exact act_one ch r.id r.deed
  · exact act_one ch r.id r.deed
  · exact act_one ch r.id r.deed
  · exact ⟨by simp [answered], fun h => absurd rfl h⟩
  · exact ⟨by simp [answered], fun _ => rfl⟩
  · exact ⟨by simp [answered], fun _ => rfl⟩
  · exact act_one ch r.id r.deed

/-- Whatever comes in, nothing is answered twice, nothing is answered that was not asked, and the
answers have the order of the requests. (Publish requests that wait are answered elsewhere.) -/
theorem C121_order (ch : Chan) (ins : List In) : (answered (serve ch ins)).Sublist (asked ins) := by
  induction ins with
  | nil => exact List.Sublist.refl _
  | cons i ins ih =>
    cases i with
    | fails => exact List.nil_sublist _
    | request r =>
      obtain ⟨h1, h2⟩ := handle_one ch r
      rw [serve, asked]
      generalize handleRequest ch r = p at h1 h2 ⊢
      obtain ⟨o, f⟩ := p
      have hcat : ∀ t : List Out, answered t = [] → (answered (o ++ t)).Sublist (r.id :: asked ins) := by
        intro t ht
        rw [answered_append, ht, List.append_nil]
        exact h1.trans (List.cons_sublist_cons.2 (List.nil_sublist _))
      cases f with
      | goOn => dsimp only; rw [answered_append]; exact List.Sublist.append h1 ih
      | aborted => exact hcat _ rfl
      | failed => exact hcat _ rfl
      | hung =>
        have := hcat [] rfl
        rw [List.append_nil] at this
        exact this

theorem handle_outs (ch : Chan) (r : Request) : Out.closed ∉ (handleRequest ch r).1 ∧
    (ch.discoveryOnly = false → ∀ c, Out.error c ∉ (handleRequest ch r).1) ∧
    ∀ c, Out.error c ∈ (handleRequest ch r).1 → c = badSecurityPolicyRejected ∧ (handleRequest ch r).2 = .aborted := by
  have hact : ∀ d, Out.closed ∉ (act ch r.id d).1 ∧ ∀ c, Out.error c ∉ (act ch r.id d).1 := by
    intro d
    cases d with
    | park => simp [act]
    | giveUp => simp [act]
    | answer b =>
      refine ⟨fun h => ?_, fun c h => ?_⟩ <;> obtain ⟨_, _, e⟩ := writeResponse_outs ch r.id b _ h <;> cases e
  have hd := hact r.deed
  have key : Out.closed ∉ (act ch r.id r.deed).1 ∧ (ch.discoveryOnly = false → ∀ c, Out.error c ∉ (act ch r.id r.deed).1) ∧
      ∀ c, Out.error c ∈ (act ch r.id r.deed).1 → c = badSecurityPolicyRejected ∧ (act ch r.id r.deed).2 = .aborted :=
    ⟨hd.1, fun _ => hd.2, fun c hc => absurd hc (hd.2 c)⟩
  unfold handleRequest
  split
  · split
    · rename_i h
      exact ⟨by simp, fun h' => absurd h' (by simp [h]), fun c hc => ⟨by simpa using hc, rfl⟩⟩
    · exact key
  · exact key
  · exact key
  · exact ⟨by simp, fun _ c => by simp, fun c hc => by simp at hc⟩
  · exact ⟨by simp, fun _ c => by simp, fun c hc => by simp at hc⟩
  · exact ⟨by simp, fun _ c => by simp, fun c hc => by simp at hc⟩
  · exact key

/-- Nothing is written after the connection is closed. -/
theorem C121_last (ch : Chan) (ins : List In) : Out.closed ∉ serve ch ins ∨
    ∃ pre, serve ch ins = pre ++ [.closed] ∧ Out.closed ∉ pre := by
  induction ins with
  | nil => exact Or.inl (by simp [serve])
  | cons i ins ih =>
    cases i with
    | fails => exact Or.inr ⟨[], rfl, by simp⟩
    | request r =>
      have h := (handle_outs ch r).1
      rw [serve]
      generalize handleRequest ch r = p at h ⊢
      obtain ⟨o, f⟩ := p
      cases f with
      | goOn =>
        dsimp only
        rcases ih with ih | ⟨pre, e, hp⟩
        · exact Or.inl (by simpa using ⟨h, ih⟩)
        · exact Or.inr ⟨o ++ pre, by rw [e, List.append_assoc], by simpa using ⟨h, hp⟩⟩
      | aborted => exact Or.inr ⟨o, rfl, h⟩
      | failed => exact Or.inr ⟨o, rfl, h⟩
      | hung => exact Or.inl h

/-- A connection that could not be opened for a reason that has a status code ends with an Error
message that carries it. -/
theorem C121_openTold (c : BitVec 32) (ins : List In) : handleConnection (.status c) ins = [.error c, .closed] := rfl

/-- The client reads the reason out of the message, whatever text goes with it. -/
theorem C121_frame (reason : BitVec 32) (message : Bytes) (h : message.length < 2 ^ 31 - 16) :
    readFrame (errorFrame reason message) = .status reason := by
  have hlen : (errorFrame reason message).length = 16 + message.length := by
    simp only [errorFrame, List.length_append, Channel.writeU32_length]
    unfold writeString
    split
    · rename_i h0; rw [h0, writeI32, Channel.writeU32_length]
    · simp [writeI32, Channel.writeU32_length]; omega
  have hhead : RT (writeU32 tyError ++ writeU32 (BitVec.ofNat 32 (16 + message.length))) frameHead
      (tyError, BitVec.ofNat 32 (16 + message.length)) :=
    RT.bind (rt_u32 _) (RT.bind_nil (rt_u32 _) (RT.pure _))
  have hbody : RT (writeU32 reason ++ writeString message) errorBody reason :=
    RT.bind (rt_u32 _) (RT.bind_nil (rt_string message (by omega)) (RT.pure _))
  have hrun := hhead (writeU32 reason ++ writeString message)
  have hrun2 := hbody []
  rw [List.append_nil] at hrun2
  have he : errorFrame reason message = (writeU32 tyError ++ writeU32 (BitVec.ofNat 32 (16 + message.length))) ++
      (writeU32 reason ++ writeString message) := by
    simp [errorFrame]
  unfold readFrame
  rw [hlen, he, hrun]
  dsimp only
  rw [if_neg (by rw [BitVec.toNat_ofNat]; omega), if_pos (Or.inl rfl), hrun2]

/-- The bytes of such a message. -/
example : errorFrame 0x80130000#32 [] =
    [69, 82, 82, 70, 16, 0, 0, 0, 0, 0, 0x13, 0x80, 255, 255, 255, 255] := by decide

/-- Also a session service on a channel that is for discovery only is answered with an Error message,
and nothing else is written. -/
theorem C121_discoveryTold (ch : Chan) (hd : ch.discoveryOnly = true) (r : Request) (s : Service) (hk : r.kind = .service s)
    (rest : List In) : serve ch (.request r :: rest) = [.error badSecurityPolicyRejected, .closed] := by
  have : handleRequest ch r = ([.error badSecurityPolicyRejected], .aborted) := by
    unfold handleRequest
    rw [hk]
    simp [hd]
  rw [serve, this]
  rfl

/-- On every other channel the server never gives a reason: once the channel is open no Error message
is sent, for whatever cause the connection is closed. -/
theorem C121_untold_fails (ch : Chan) (hd : ch.discoveryOnly = false) (ins : List In) (c : BitVec 32) :
    Out.error c ∉ serve ch ins := by
  induction ins with
  | nil => simp [serve]
  | cons i ins ih =>
    cases i with
    | fails => simp [serve]
    | request r =>
      have h := (handle_outs ch r).2.1 hd c
      rw [serve]
      generalize handleRequest ch r = p at h ⊢
      obtain ⟨o, f⟩ := p
      cases f <;> simp [h, ih]

/-- A response that is too large for the client, or that cannot be encoded, is not replaced by a
fault: the request has no answer, and the connection is closed under all the others. -/
theorem C121_tooLarge_fails (ch : Chan) (id : BitVec 32) (body : Option Bytes)
    (hbad : ∀ b, body = some b → 0 < ch.cfg.maxMessage ∧ ch.cfg.maxMessage < b.length)
    (hd : ch.discoveryOnly = false) (s : Service) (rest : List In) :
    serve ch (.request ⟨id, .service s, .answer body⟩ :: rest) = [.closed] := by
  have : handleRequest ch ⟨id, .service s, .answer body⟩ = ([], .failed) := by
    unfold handleRequest act
    rw [hd]
    cases body with
    | none => rfl
    | some b =>
      obtain ⟨h1, h2⟩ := hbad b rfl
      show writeResponse ch id (some b) = _
      unfold writeResponse
      dsimp only
      rw [if_pos ⟨h1, h2⟩]
  rw [serve, this]
  rfl

example : serve small [.request ⟨5, .service .browse, .answer (some (List.replicate 21 1))⟩,
    .request ⟨6, .service .read, .answer (some [1])⟩] = [.closed] := by decide +kernel

/-- With too many chunks the client has even got the beginning of an answer. -/
theorem C121_inPart_fails (ch : Chan) (hu : Usable ch) (id : BitVec 32) (body : Bytes)
    (h0 : 0 < ch.cfg.maxChunks) (hm : ch.cfg.maxMessage = 0 ∨ body.length ≤ ch.cfg.maxMessage)
    (hover : ch.cfg.maxChunks * (maxBody ch.S ch.cfg.mode ch.cfg.send).toNat < body.length)
    (hd : ch.discoveryOnly = false) (s : Service) (rest : List In) :
    serve ch (.request ⟨id, .service s, .answer (some body)⟩ :: rest) =
      List.replicate ch.cfg.maxChunks (.chunk id false) ++ [.closed] := by
  obtain ⟨h1, h2⟩ := sendLoop_over ch.S ch.cfg .badResponseTooLarge id hu.usable.room 0 0 body h0 (Nat.zero_le _) (by omega)
  have : handleRequest ch ⟨id, .service s, .answer (some body)⟩ =
      (List.replicate ch.cfg.maxChunks (.chunk id false), .failed) := by
    unfold handleRequest act
    rw [hd]
    show writeResponse ch id (some body) = _
    unfold writeResponse
    dsimp only
    rw [if_neg (by omega), h1]
    have h3 := congrArg (List.map fun p : BitVec 32 × Bool => Out.chunk p.1 p.2) h2
    rw [List.map_map, List.map_replicate] at h3
    exact congrArg (·, Fin.failed) h3
  rw [serve, this]

example : serve { small with cfg := { small.cfg with maxMessage := 0 } }
    [.request ⟨5, .service .browse, .answer (some (List.replicate 25 1))⟩] =
    [.chunk 5 false, .chunk 5 false, .chunk 5 false, .closed] := by decide +kernel

/-- A second OpenSecureChannel that does not renew, and any request that a handler gives up, end the
connection with no answer and no reason as well. -/
theorem C121_silent_fails (ch : Chan) (id : BitVec 32) (d : Deed) (hd : ch.discoveryOnly = false) (s : Service) (rest : List In) :
    serve ch (.request ⟨id, .openChannel false, d⟩ :: rest) = [.closed] ∧
    serve ch (.request ⟨id, .service s, .giveUp⟩ :: rest) = [.closed] := by
  refine ⟨rfl, ?_⟩
  have : handleRequest ch ⟨id, .service s, .giveUp⟩ = ([], .failed) := by
    unfold handleRequest act
    rw [hd]
    rfl
  rw [serve, this]
  rfl

/-! ### The client -/

theorem cstep_crashed (c : Client) (h : c.life = .crashed) (e : CEv) : cstep c e = c := by
  unfold cstep
  rw [h]

theorem crun_append (c : Client) (a b : List CEv) : crun c (a ++ b) = crun (crun c a) b := List.foldl_append

/-- An Error message with the code Good, from anyone who can write into the connection, ends the
process of the client: 16 bytes suffice, in every security mode, since these frames are not secured. -/
theorem C121_crash_fails (c : Client) (hr : c.life = .running) (message : Bytes) (hm : message.length < 2 ^ 31 - 16)
    (evs : List CEv) : (crun c (.frame (errorFrame good message) :: evs)).life = .crashed := by
  have h1 : cstep c (.frame (errorFrame good message)) = { c with life := .crashed } := by
    unfold cstep
    rw [hr]
    simp only [C121_frame good message hm, workerGets]
    rfl
  have h2 : ∀ (evs : List CEv) (c : Client), c.life = .crashed → (crun c evs).life = .crashed := by
    intro evs
    induction evs with
    | nil => exact fun c h => h
    | cons e evs ih =>
      intro c h
      show (crun (cstep c e) evs).life = _
      rw [cstep_crashed c h]
      exact ih c h
  show (crun (cstep c _) evs).life = _
  rw [h1]
  exact h2 evs _ rfl

/-- The 16 bytes. -/
example : (crun (cinit 0) [.frame [69, 82, 82, 70, 16, 0, 0, 0, 0, 0, 0, 0, 255, 255, 255, 255]]).life = .crashed := by
  decide

/-- That is the only way: while no frame carries the code Good the client lives. -/
theorem C121_noCrash_partial (c : Client) (h0 : c.life ≠ .crashed) (evs : List CEv)
    (hev : ∀ bs, CEv.frame bs ∈ evs → readFrame bs ≠ .status good) : (crun c evs).life ≠ .crashed := by
  induction evs using snocInd with
  | nil => exact h0
  | append_singleton evs e ih =>
    have ih := ih (fun bs hb => hev bs (List.mem_append_left _ hb))
    rw [crun_append]
    show (cstep (crun c evs) e).life ≠ _
    generalize crun c evs = s at ih
    have hw : ∀ st, st ≠ good → (workerGets s st).life ≠ .crashed := by
      intro st hs
      unfold workerGets
      rw [if_pos hs]
      simp
    unfold cstep
    split
    · rename_i h; exact absurd h ih
    · split
      · split <;> exact ih
      · exact ih
      · split <;> exact ih
      · rename_i bs
        split
        · split
          · exact ih
          · rename_i st hst
            exact hw st (fun e => hev bs (by simp) (by rw [hst, e]))
        · exact ih
      · split
        · exact hw _ (by decide)
        · exact ih

/-- An Error message with a real reason, and the loss of the connection, end the waiting of all
callers: each of them can return, with BadSecureChannelClosed. -/
theorem C121_ended_partial (c : Client) (hr : c.life = .running) (e : CEv)
    (he : e = .lost ∨ ∃ bs st, e = .frame bs ∧ readFrame bs = .status st ∧ st ≠ good) :
    (cstep c e).life = .ended ∧ ∀ k h d, c.calls.phase k = .waiting h d →
      (cstep (cstep c e) (.call (.closedExit k))).calls.phase k = .done .badSecureChannelClosed := by
  have key : ∃ st, st ≠ good ∧ cstep c e = workerGets c st := by
    rcases he with rfl | ⟨bs, st, rfl, hb, hs⟩
    · exact ⟨badSecureChannelClosed, by decide, by unfold cstep; rw [hr]; rfl⟩
    · refine ⟨st, hs, ?_⟩
      unfold cstep
      rw [hr]
      simp only [hb]
      rfl
  obtain ⟨st, hs, hk⟩ := key
  rw [hk]
  unfold workerGets
  rw [if_pos hs]
  refine ⟨rfl, fun k h d hw => ?_⟩
  simp only [cstep, callerEv, Pending.step, hw, if_true, Pending.setAt_same]

example : (crun (cinit 0) [.call (.start 3 100), .call (.enqueue 3), .call (.sent 3), .lost,
    .call (.closedExit 3)]).calls.phase 3 = .done .badSecureChannelClosed := by decide

/-- The reason is read and kept, and no caller learns it: with any two reasons everything callers can
see is the same, whatever happens before and after. -/
theorem C121_reason_fails (c : Client) (r1 r2 : BitVec 32) (h1 : r1 ≠ good) (h2 : r2 ≠ good) (m1 m2 : Bytes)
    (hm1 : m1.length < 2 ^ 31 - 16) (hm2 : m2.length < 2 ^ 31 - 16) (pre post : List CEv) :
    (crun c (pre ++ .frame (errorFrame r1 m1) :: post)).calls = (crun c (pre ++ .frame (errorFrame r2 m2) :: post)).calls ∧
    (crun c (pre ++ .frame (errorFrame r1 m1) :: post)).life = (crun c (pre ++ .frame (errorFrame r2 m2) :: post)).life := by
  have sim : ∀ (post : List CEv) (a b : Client), a.calls = b.calls → a.life = b.life → a.closing = b.closing →
      (crun a post).calls = (crun b post).calls ∧ (crun a post).life = (crun b post).life := by
    intro post
    induction post with
    | nil => exact fun a b ha hb _ => ⟨ha, hb⟩
    | cons e post ih =>
      intro a b ha hb hc
      obtain ⟨ac, al, acl, at'⟩ := a
      obtain ⟨bc, bl, bcl, bt⟩ := b
      cases ha; cases hb; cases hc
      show (crun (cstep _ e) post).calls = (crun (cstep _ e) post).calls ∧ (crun (cstep _ e) post).life = (crun (cstep _ e) post).life
      have hw : ∀ st, (workerGets ⟨ac, al, acl, at'⟩ st).calls = (workerGets ⟨ac, al, acl, bt⟩ st).calls ∧
          (workerGets ⟨ac, al, acl, at'⟩ st).life = (workerGets ⟨ac, al, acl, bt⟩ st).life ∧
          (workerGets ⟨ac, al, acl, at'⟩ st).closing = (workerGets ⟨ac, al, acl, bt⟩ st).closing := by
        intro st
        unfold workerGets
        split <;> exact ⟨rfl, rfl, rfl⟩
      refine ih _ _ ?_ ?_ ?_ <;> unfold cstep <;> cases al <;> dsimp only <;> cases e <;> dsimp only <;>
        (repeat' split) <;> first | rfl | exact (hw _).1 | exact (hw _).2.1 | exact (hw _).2.2
  rw [crun_append, crun_append]
  generalize crun c pre = s
  show (crun (cstep s _) post).calls = (crun (cstep s _) post).calls ∧ (crun (cstep s _) post).life = (crun (cstep s _) post).life
  cases hl : s.life with
  | crashed => rw [cstep_crashed s hl, cstep_crashed s hl]; exact ⟨rfl, rfl⟩
  | ended =>
    have : ∀ bs, cstep s (.frame bs) = s := by
      intro bs; unfold cstep; rw [hl]; rfl
    rw [this, this]; exact ⟨rfl, rfl⟩
  | running =>
    have : ∀ (r : BitVec 32) (m : Bytes), r ≠ good → m.length < 2 ^ 31 - 16 → cstep s (.frame (errorFrame r m)) =
        { s with calls := Pending.step s.calls .close, life := .ended, told := if s.closing then good else r } := by
      intro r m hr hm
      unfold cstep
      rw [hl]
      simp only [C121_frame r m hm, workerGets, if_pos hr]
      rfl
    rw [this r1 m1 h1 hm1, this r2 m2 h2 hm2]
    exact sim post _ _ rfl rfl rfl

/-- After the end nothing is delivered any more, and the worker does not come back. -/
theorem C121_silence (c : Client) (he : c.life = .ended) (evs : List CEv) :
    (crun c evs).life = .ended ∧ (crun c evs).calls.log = c.calls.log ∧ (crun c evs).calls.closed = c.calls.closed := by
  induction evs using snocInd with
  | nil => exact ⟨he, rfl, rfl⟩
  | append_singleton evs e ih =>
    rw [crun_append]
    show (cstep (crun c evs) e).life = _ ∧ (cstep (crun c evs) e).calls.log = _ ∧ (cstep (crun c evs) e).calls.closed = _
    generalize crun c evs = s at ih
    obtain ⟨h1, h2, h3⟩ := ih
    unfold cstep
    rw [h1]
    dsimp only
    cases e with
    | call e =>
      dsimp only
      split
      · rename_i hcall
        refine ⟨rfl, ?_, ?_⟩
        · rw [← h2]
          cases e <;> simp only [callerEv, Bool.false_eq_true] at hcall <;> dsimp only [Pending.step] <;> (repeat' split) <;> rfl
        · rw [← h3]
          cases e <;> simp only [callerEv, Bool.false_eq_true] at hcall <;> dsimp only [Pending.step] <;> (repeat' split) <;> rfl
      · exact ⟨h1, h2, h3⟩
    | userCloses => exact ⟨rfl, h2, h3⟩
    | response r => exact ⟨h1, h2, h3⟩
    | frame bs => exact ⟨h1, h2, h3⟩
    | lost => exact ⟨h1, h2, h3⟩

/-- A call made after the end can fail at once, as long as there is room in the queue of calls, which
nobody empties any more. -/
theorem C121_later_partial (c : Client) (he : c.life = .ended) (hc : c.calls.closed = true) (k hint : Nat)
    (hi : c.calls.phase k = .idle) (hq : c.calls.queue.length < Pending.queueCap) :
    let c' := crun c [.call (.start k hint), .call (.enqueue k), .call (.sent k), .call (.closedExit k)]
    c'.calls.phase k = .done .badSecureChannelClosed ∧ c'.calls.queue.length = c.calls.queue.length + 1 ∧
      ∀ j, j ≠ k → c'.calls.phase j = c.calls.phase j := by
  obtain ⟨s, l, cl, t⟩ := c
  cases he
  have hstep : ∀ (s : Pending.State) (e : Pending.Ev), callerEv e = true →
      cstep ⟨s, .ended, cl, t⟩ (.call e) = ⟨Pending.step s e, .ended, cl, t⟩ := by
    intro s e h
    unfold cstep
    simp only [h, if_true]
  simp only [crun, List.foldl_cons, List.foldl_nil]
  rw [hstep _ _ rfl, hstep _ _ rfl, hstep _ _ rfl, hstep _ _ rfl]
  simp only at hc hi hq
  have e1 : Pending.step s (.start k hint) =
      { s with
        val := Channel.nextSeq s.val
        phase := Pending.setAt s.phase k (.drawn (Channel.nextSeq s.val) (s.now + hint))
        starts := s.starts ++ [(k, Channel.nextSeq s.val)] } := by
    simp only [Pending.step, hi]
  have e2 : Pending.step (Pending.step s (.start k hint)) (.enqueue k) =
      { Pending.step s (.start k hint) with
        queue := s.queue ++ [(Channel.nextSeq s.val, k)]
        phase := Pending.setAt (Pending.step s (.start k hint)).phase k (.sending (Channel.nextSeq s.val) (s.now + hint))
        enq := s.enq ++ [k] } := by
    rw [e1]
    simp only [Pending.step, Pending.setAt_same, hq, if_true]
  have e3 : Pending.step (Pending.step (Pending.step s (.start k hint)) (.enqueue k)) (.sent k) =
      { Pending.step (Pending.step s (.start k hint)) (.enqueue k) with
        phase := Pending.setAt (Pending.step (Pending.step s (.start k hint)) (.enqueue k)).phase k
          (.waiting (Channel.nextSeq s.val) (s.now + hint)) } := by
    rw [e2]
    simp only [Pending.step, Pending.setAt_same]
  have e4 : Pending.step (Pending.step (Pending.step (Pending.step s (.start k hint)) (.enqueue k)) (.sent k)) (.closedExit k) =
      { Pending.step (Pending.step (Pending.step s (.start k hint)) (.enqueue k)) (.sent k) with
        phase := Pending.setAt (Pending.step (Pending.step (Pending.step s (.start k hint)) (.enqueue k)) (.sent k)).phase k
          (.done .badSecureChannelClosed) } := by
    rw [e3, e2, e1]
    simp only [Pending.step, Pending.setAt_same, hc, if_true]
  rw [e4]
  refine ⟨Pending.setAt_same _ _ _, ?_, ?_⟩
  · rw [e3, e2]; simp
  · intro j hj
    dsimp only
    rw [Pending.setAt_other _ _ hj, e3]
    dsimp only
    rw [Pending.setAt_other _ _ hj, e2]
    dsimp only
    rw [Pending.setAt_other _ _ hj, e1]
    dsimp only
    rw [Pending.setAt_other _ _ hj]

/-- When the queue is full a call made after the end never returns, whatever happens and however long
its timeout is over. -/
theorem C121_hang_fails (c : Client) (he : c.life = .ended) (k : Nat) (h : BitVec 32) (d : Nat)
    (hp : c.calls.phase k = .drawn h d) (hq : c.calls.queue.length = Pending.queueCap) (evs : List CEv) :
    (crun c evs).calls.phase k = .drawn h d := by
  have key : ∀ (evs : List CEv) (c : Client), c.life = .ended → ∃ es : List Pending.Ev, (∀ e ∈ es, Pending.quiet e = true) ∧
      (crun c evs).calls = Pending.run c.calls es := by
    intro evs
    induction evs with
    | nil => exact fun c _ => ⟨[], by simp, rfl⟩
    | cons e evs ih =>
      intro c he
      have hend : (cstep c e).life = .ended := (C121_silence c he [e]).1
      obtain ⟨es, h1, h2⟩ := ih _ hend
      have hcs : (cstep c e).calls = c.calls ∨ ∃ p, callerEv p = true ∧ (cstep c e).calls = Pending.step c.calls p := by
        unfold cstep
        rw [he]
        dsimp only
        cases e with
        | call p =>
          dsimp only
          split
          · rename_i hc; exact Or.inr ⟨p, hc, rfl⟩
          · exact Or.inl rfl
        | _ => exact Or.inl rfl
      rcases hcs with hcs | ⟨p, hpc, hcs⟩
      · exact ⟨es, h1, by show (crun (cstep c e) evs).calls = _; rw [h2, hcs]⟩
      · refine ⟨p :: es, ?_, ?_⟩
        · intro x hx
          rcases List.mem_cons.1 hx with rfl | hx
          · cases x <;> first | rfl | cases hpc
          · exact h1 x hx
        · show (crun (cstep c e) evs).calls = _
          rw [h2, hcs]; rfl
  obtain ⟨es, h1, h2⟩ := key evs c he
  rw [h2]
  exact Pending.C78_blocked_fails c.calls k h d hq hp es h1

/-- Calls one after the other are enough: the connection is lost, 32 calls fail, the next one hangs. -/
theorem C121_oneByOne_fails :
    let call := fun k => [CEv.call (.start k 10), .call (.enqueue k), .call (.sent k), .call (.closedExit k)]
    let c := crun (cinit 0) (.lost :: (List.range 33).flatMap call)
    c.life = .ended ∧ c.calls.queue.length = Pending.queueCap ∧ c.calls.phase 31 = .done .badSecureChannelClosed ∧
      c.calls.phase 32 = .drawn 33 10 := by decide +kernel

/-- Every call after the end fails: none gets a response. -/
theorem C121_noResponse (c : Client) (he : c.life = .ended) (k : Nat) (hi : c.calls.phase k = .idle)
    (hb : c.calls.box k = none) (evs : List CEv) (r : Pending.Resp) :
    (crun c evs).calls.phase k ≠ .done (.response r) := by
  suffices h : (crun c evs).life = .ended ∧ (crun c evs).calls.box k = none ∧
      ∀ r, (crun c evs).calls.phase k ≠ .done (.response r) from h.2.2 r
  induction evs using snocInd with
  | nil => exact ⟨he, hb, fun r => by rw [show crun c [] = c from rfl, hi]; simp⟩
  | append_singleton evs e ih =>
    have hend := (C121_silence c he (evs ++ [e])).1
    refine ⟨hend, ?_⟩
    rw [crun_append]
    show (cstep (crun c evs) e).calls.box k = none ∧ ∀ r, (cstep (crun c evs) e).calls.phase k ≠ .done (.response r)
    generalize crun c evs = s at ih
    obtain ⟨h1, h2, h3⟩ := ih
    unfold cstep
    rw [h1]
    dsimp only
    cases e with
    | call e =>
      dsimp only
      split
      · rename_i hcall
        have hset : ∀ (j : Nat) (p : Pending.Phase), (∀ r, p ≠ .done (.response r)) →
            ∀ r, Pending.setAt s.calls.phase j p k ≠ .done (.response r) := by
          intro j p hp r
          by_cases hjk : k = j
          · subst hjk; rw [Pending.setAt_same]; exact hp r
          · rw [Pending.setAt_other _ _ hjk]; exact h3 r
        cases e with
        | receive r => cases hcall
        | close => cases hcall
        | tick n => exact ⟨h2, h3⟩
        | start j n =>
          dsimp only [Pending.step]
          split
          · exact ⟨h2, hset j _ (by simp)⟩
          · exact ⟨h2, h3⟩
        | enqueue j =>
          dsimp only [Pending.step]
          split
          · split
            · exact ⟨h2, hset j _ (by simp)⟩
            · exact ⟨h2, h3⟩
          · exact ⟨h2, h3⟩
        | sent j =>
          dsimp only [Pending.step]
          split
          · exact ⟨h2, hset j _ (by simp)⟩
          · exact ⟨h2, h3⟩
        | take j =>
          dsimp only [Pending.step]
          split
          · rename_i r' _ hbox
            have hjk : k ≠ j := by
              rintro rfl
              rw [h2] at hbox
              cases hbox
            refine ⟨?_, ?_⟩
            · dsimp only; rw [Pending.setAt_other _ _ hjk]; exact h2
            · intro r; dsimp only; rw [Pending.setAt_other _ _ hjk]; exact h3 r
          · exact ⟨h2, h3⟩
        | expire j =>
          dsimp only [Pending.step]
          split
          · split
            · exact ⟨h2, hset j _ (by simp)⟩
            · exact ⟨h2, h3⟩
          · exact ⟨h2, h3⟩
        | closedExit j =>
          dsimp only [Pending.step]
          split
          · split
            · exact ⟨h2, hset j _ (by simp)⟩
            · exact ⟨h2, h3⟩
          · exact ⟨h2, h3⟩
      · exact ⟨h2, h3⟩
    | userCloses => exact ⟨h2, h3⟩
    | response r => exact ⟨h2, h3⟩
    | frame bs => exact ⟨h2, h3⟩
    | lost => exact ⟨h2, h3⟩

/-- And so Client.Close after the end never closes the connection of the client: it asks for the end
of the session first and returns when that fails. -/
theorem C121_socket_fails (c : Client) (he : c.life = .ended) (k : Nat) (hi : c.calls.phase k = .idle)
    (hb : c.calls.box k = none) (evs : List CEv) (o : Pending.Outcome)
    (ho : (crun c evs).calls.phase k = .done o) (second : Pending.Outcome) : (clientClose o second).socketClosed = false := by
  cases o with
  | response r => exact absurd ho (C121_noResponse c he k hi hb evs r)
  | badRequestTimeout => rfl
  | badSecureChannelClosed => rfl

/-- Close reports an error exactly when the end of the session was not answered, and closes the connection exactly when both
requests were answered: when only the second fails it says nothing and leaves the connection open. -/
theorem C121_close (session channel : Pending.Outcome) :
    ((clientClose session channel).fails = true ↔ ∀ r, session ≠ .response r) ∧
    ((clientClose session channel).socketClosed = true ↔ (∃ r, session = .response r) ∧ ∃ r, channel = .response r) := by
  cases session <;> cases channel <;> simp [clientClose]

/-- A client that is not at its end closes it. -/
example : (clientClose (.response ⟨1, 0⟩) (.response ⟨2, 0⟩)).socketClosed = true := rfl

end Opcua.Ending
