import Verif.Model.OpenChannel
import Verif.Lemmas.Scalars
import Verif.Props.Channel

/-! Properties C24 (asymmetric part) and C31: OpenSecureChannel messages. -/
namespace Opcua.Channel

theorem u32At_zero (v : BitVec 32) (post : Bytes) : u32At (writeU32 v ++ post) 0 = some v := by
  have := u32At_append (pre := []) (post := post) (n := 0) v rfl
  rwa [List.nil_append] at this

theorem encBlocks_spec {A : ASuite} (hA : A.Lawful) (k : Nat) : ∀ (p : Bytes), p.length = k * A.plainBlock →
    (encBlocks A p).length = k * A.cipherBlock ∧ decBlocks A.decB A.cipherBlock (encBlocks A p) = some p := by
  have hp := hA.plain_pos
  have hc : 0 < A.cipherBlock := Nat.lt_of_lt_of_le hp hA.plain_le
  induction k with
  | zero =>
    intro p h
    have : p = [] := List.eq_nil_of_length_eq_zero (by simpa using h)
    subst this
    rw [encBlocks, dif_pos (Or.inl rfl), decBlocks, dif_pos (Or.inl rfl)]
    exact ⟨by simp, rfl⟩
  | succ k ih =>
    intro p h
    rw [Nat.succ_mul] at h
    have hne : p ≠ [] := fun e => by rw [e] at h; simp at h; omega
    obtain ⟨h1, h2⟩ := ih (p.drop A.plainBlock) (by rw [List.length_drop]; omega)
    have htl : (p.take A.plainBlock).length = A.plainBlock := by rw [List.length_take]; omega
    have hel := hA.enc_length _ htl
    rw [encBlocks, dif_neg (by rintro (e | e); exact hne e; omega)]
    refine ⟨by rw [List.length_append, hel, h1, Nat.succ_mul]; omega, ?_⟩
    rw [decBlocks, dif_neg (by
      rintro (e | e)
      · have := congrArg List.length e; rw [List.length_append, hel] at this; simp at this; omega
      · omega)]
    rw [if_neg (by rw [List.length_append, hel]; omega)]
    rw [List.take_append_of_le_length (by omega), List.take_of_length_le (by omega),
      hA.dec_enc _ htl]
    dsimp only
    rw [List.drop_append, List.drop_eq_nil_of_le (by omega), hel]
    simp only [Nat.sub_self, List.drop_zero, List.nil_append]
    rw [h2]
    simp

theorem writeString_length (s : Bytes) : (writeString s).length = 4 + s.length := by
  unfold writeString writeI32
  split
  · rename_i h; simp [writeU32_length, h]
  · simp [writeU32_length]

theorem writeByteArray_length (s : Bytes) : (writeByteArray (some s)).length = 4 + s.length := by
  simp [writeByteArray, writeI32, writeU32_length]

/-- What the planner of the OPN message guarantees when the body fits one chunk. -/
theorem asymPlan_ok {A : ASuite} (hA : A.Lawful) (hdr send n : Nat) (hn : 0 < n)
    (hfit : n ≤ (asymPlan A hdr send n).bodySize) :
    let p := asymPlan A hdr send n
    p.bodySize = n ∧ p.paddingSize < A.plainBlock ∧ p.chunkSize ≤ send ∧
    ∃ k, 8 + n + p.paddingSize + padHeader A.cipherBlock + A.sigSize = k * A.plainBlock ∧
      p.chunkSize = hdr + k * A.cipherBlock := by
  have hp := hA.plain_pos
  have hc : 0 < A.cipherBlock := Nat.lt_of_lt_of_le hp hA.plain_le
  have hpos : 0 < asymMaxBody A hdr send := by
    unfold asymPlan at hfit
    dsimp only at hfit
    split at hfit
    · omega
    · dsimp only at hfit; omega
  have hge : hdr ≤ send := by
    refine Decidable.byContradiction fun hlt => ?_
    unfold asymMaxBody at hpos
    have h1 : ((send : Int) - hdr).tdiv A.cipherBlock ≤ 0 := by
      have e : ((send : Int) - hdr) = -((hdr - send : Nat) : Int) := by omega
      rw [e, Int.neg_tdiv]
      have := Int.tdiv_nonneg (Int.natCast_nonneg (hdr - send)) (Int.natCast_nonneg A.cipherBlock)
      omega
    have h2 : ((send : Int) - hdr).tdiv A.cipherBlock * (A.plainBlock : Int) ≤ 0 :=
      Int.mul_nonpos_of_nonpos_of_nonneg h1 (Int.natCast_nonneg _)
    omega
  have hmb : asymMaxBody A hdr send = (((send - hdr) / A.cipherBlock * A.plainBlock : Nat) : Int) - 8 -
      padHeader A.cipherBlock - A.sigSize := by
    have e : ((send : Int) - hdr).tdiv A.cipherBlock = (((send - hdr) / A.cipherBlock : Nat) : Int) := by
      have : ((send : Int) - hdr) = ((send - hdr : Nat) : Int) := by omega
      rw [this]; exact (Int.ofNat_tdiv _ _).symm
    unfold asymMaxBody; rw [e]; push_cast; rfl
  have hdm := Nat.div_mul_le_self (send - hdr) A.cipherBlock
  generalize hq : (send - hdr) / A.cipherBlock = q at *
  unfold asymPlan at hfit ⊢
  dsimp only at hfit ⊢
  by_cases hlt : (n : Int) < asymMaxBody A hdr send
  · rw [if_pos hlt] at hfit ⊢
    obtain ⟨hr, hpad⟩ := pad_round A.plainBlock (8 + n + padHeader A.cipherBlock + A.sigSize) hp
    generalize hP : (A.plainBlock - (8 + n + padHeader A.cipherBlock + A.sigSize) % A.plainBlock) % A.plainBlock = P at *
    obtain ⟨k, hk⟩ := Nat.dvd_of_mod_eq_zero hr
    have hk' : 8 + n + P + padHeader A.cipherBlock + A.sigSize = k * A.plainBlock := by rw [Nat.mul_comm]; omega
    have hkq : k ≤ q := by
      have h1 : A.plainBlock * k < A.plainBlock * (q + 1) := by
        rw [Nat.mul_add, Nat.mul_one, Nat.mul_comm A.plainBlock q]; omega
      have := Nat.lt_of_mul_lt_mul_left h1
      omega
    have hkc : k * A.cipherBlock ≤ q * A.cipherBlock := Nat.mul_le_mul_right _ hkq
    dsimp only
    rw [hk', Nat.mul_div_cancel _ hp]
    exact ⟨rfl, hpad, by omega, k, rfl, rfl⟩
  · rw [if_neg hlt] at hfit ⊢
    dsimp only at hfit ⊢
    have e : (asymMaxBody A hdr send).toNat = n := by omega
    rw [e]
    have hk' : 8 + n + 0 + padHeader A.cipherBlock + A.sigSize = q * A.plainBlock := by omega
    rw [hk', Nat.mul_div_cancel _ hp]
    exact ⟨rfl, hp, by omega, q, rfl, rfl⟩

theorem policyOf_uri (p : Policy) : policyOf p.uri = some p := by
  cases p <;> decide

theorem uri_length (p : Policy) : p.uri.length < 2 ^ 31 := by
  cases p <;> decide

theorem rt_opnHeader (cid : BitVec 32) (uri : Bytes) (cert thumb : Option Bytes) (hu : uri.length < 2 ^ 31)
    (hc : ∀ b, cert = some b → b.length < 2 ^ 31) (ht : ∀ b, thumb = some b → b.length < 2 ^ 31) :
    RT (writeU32 cid ++ (writeString uri ++ (writeByteArray cert ++ writeByteArray thumb))) readOpnHeader
      (cid, uri, cert, thumb) := by
  unfold readOpnHeader
  refine RT.bind (rt_u32 cid) ?_
  refine RT.bind (rt_string uri hu) ?_
  refine RT.bind (rt_bytearray cert hc) ?_
  exact RT.bind_nil (rt_bytearray thumb ht) (RT.pure _)

/-- The receiver's view of an OPN frame: type, length and header fields. -/
theorem opn_read (cs : Nat) (cid : BitVec 32) (uri : Bytes) (cert thumb : Option Bytes) (E : Bytes) (hu : uri.length < 2 ^ 31)
    (hc : ∀ b, cert = some b → b.length < 2 ^ 31) (ht : ∀ b, thumb = some b → b.length < 2 ^ 31) :
    u32At (opnHeader cs cid uri cert thumb ++ E) 0 = some tyOpen ∧
    u32At (opnHeader cs cid uri cert thumb ++ E) 4 = some (BitVec.ofNat 32 cs) ∧
    readOpnHeader.run ((opnHeader cs cid uri cert thumb ++ E).drop 8) = .ok ((cid, uri, cert, thumb), E) := by
  refine ⟨?_, ?_, ?_⟩
  · unfold opnHeader
    rw [List.append_assoc]
    exact u32At_zero tyOpen _
  · unfold opnHeader
    rw [List.append_assoc, List.append_assoc]
    exact u32At_append _ (writeU32_length _)
  · have : (opnHeader cs cid uri cert thumb ++ E).drop 8 = (writeU32 cid ++ (writeString uri ++ (writeByteArray cert ++ writeByteArray thumb))) ++ E := by
      unfold opnHeader
      rw [List.append_assoc, List.append_assoc, ← List.append_assoc, List.drop_append, List.drop_eq_nil_of_le (by simp [writeU32_length])]
      simp [writeU32_length]
    rw [this]
    exact rt_opnHeader cid uri cert thumb hu hc ht E

/-- A world that agrees with the RSA suite of one direction for a policy and a peer key. -/
structure World.Has (W : World) (pol : Policy) (k : Nat) (cert : Bytes) (A : ASuite) : Prop where
  cert : W.parseCert cert = .rsa k
  dec : W.decB pol = A.decB
  localSize : W.localSize = A.cipherBlock
  keySize : W.keySize k = A.sigSize
  verify : W.verify pol k = A.verify

theorem opnBody_spec {A : ASuite} (h pl : Bytes) (seq rid : BitVec 32) (body : Bytes) (pad : Nat) (sig : Bytes)
    (hpl : pl = writeU32 seq ++ (writeU32 rid ++ (body ++ padBytes A.cipherBlock pad)))
    (hpad : pad < 256 ^ padHeader A.cipherBlock) (hsig : sig.length = A.sigSize) (count : Nat) (hc : h.length + 8 ≤ count) :
    opnBody A.sigSize A.cipherBlock h.length count (h ++ (pl ++ sig)) = .ok ⟨true, rid, body⟩ := by
  obtain ⟨u, hu, hul⟩ := padBytes_tail A.cipherBlock pad hpad
  have hs1 := writeU32_length seq
  have hs2 := writeU32_length rid
  have hshape : h ++ (pl ++ sig) = h ++ (writeU32 seq ++ (writeU32 rid ++ (body ++ (u ++ (leBytes (padHeader A.cipherBlock) pad ++ sig))))) := by
    rw [hpl, hu]; simp only [List.append_assoc]
  rw [hshape]
  have e1 : u32At (h ++ (writeU32 seq ++ (writeU32 rid ++ (body ++ (u ++ (leBytes (padHeader A.cipherBlock) pad ++ sig)))))) h.length = some seq :=
    u32At_append _ rfl
  have e2 : u32At (h ++ (writeU32 seq ++ (writeU32 rid ++ (body ++ (u ++ (leBytes (padHeader A.cipherBlock) pad ++ sig)))))) (h.length + 4) = some rid := by
    rw [← List.append_assoc]; exact u32At_append _ (by simp [hs1])
  have hlen : (h ++ (writeU32 seq ++ (writeU32 rid ++ (body ++ (u ++ (leBytes (padHeader A.cipherBlock) pad ++ sig)))))).length
      = h.length + 8 + body.length + pad + padHeader A.cipherBlock + A.sigSize := by
    simp only [List.length_append, hs1, hs2, leBytes_length, hul, hsig]; omega
  have hdrop : (h ++ (writeU32 seq ++ (writeU32 rid ++ (body ++ (u ++ (leBytes (padHeader A.cipherBlock) pad ++ sig)))))).drop (h.length + 8)
      = body ++ (u ++ (leBytes (padHeader A.cipherBlock) pad ++ sig)) := by
    rw [← List.append_assoc, ← List.append_assoc, List.drop_append, List.drop_eq_nil_of_le (by simp [hs1, hs2])]
    have : h.length + 8 - (h ++ writeU32 seq ++ writeU32 rid).length = 0 := by simp [hs1, hs2]
    rw [this, List.drop_zero, List.nil_append]
  generalize h ++ (writeU32 seq ++ (writeU32 rid ++ (body ++ (u ++ (leBytes (padHeader A.cipherBlock) pad ++ sig))))) = data at *
  unfold opnBody
  dsimp only
  rw [if_neg (by omega), if_neg (by omega)]
  have hd2 : data.drop (data.length - A.sigSize - padHeader A.cipherBlock) = leBytes (padHeader A.cipherBlock) pad ++ sig := by
    have e : data.length - A.sigSize - padHeader A.cipherBlock = (h.length + 8) + (body.length + u.length) := by omega
    rw [e, ← List.drop_drop, hdrop, ← List.append_assoc, List.drop_append, List.drop_eq_nil_of_le (by simp)]
    simp
  have hv : leVal ((data.drop (data.length - A.sigSize - padHeader A.cipherBlock)).take (padHeader A.cipherBlock)) = pad := by
    rw [hd2, List.take_append_of_le_length (by simp), List.take_of_length_le (by simp), leVal_leBytes, Nat.mod_eq_of_lt hpad]
  have ht : (body ++ (u ++ (leBytes (padHeader A.cipherBlock) pad ++ sig))).take
      (data.length - h.length - 8 - pad - padHeader A.cipherBlock - A.sigSize) = body := by
    rw [List.take_append_of_le_length (by omega), List.take_of_length_le (by omega)]
  rw [hv, if_neg (by omega), hdrop, ht, e2]

/-- OpenSecureChannel messages: when the sender produces a message it fits the send buffer, its
encrypted part is a whole number of RSA blocks, and the receiver recovers exactly the body, for
every key size on either side (one or two padding size bytes). -/
theorem C24_open_message {A : ASuite} (hA : A.Lawful) (W : World) (pol : Policy) (hpol : pol ≠ .none) (k : Nat)
    (cert thumb : Bytes) (hW : W.Has pol k cert A) (ch : SChan) (send : Nat) (hsend : send < 2 ^ 32)
    (cid seq rid : BitVec 32) (body frame : Bytes) (hb : body ≠ []) (hct : cert.length < 2 ^ 31) (hth : thumb.length = 20)
    (hseal : sealOpn A send cid seq rid pol.uri cert thumb body = some frame) :
    frame.length ≤ send ∧
    (∃ j, frame.length = 16 + pol.uri.length + 28 + cert.length + j * A.cipherBlock) ∧
    recvFrame W ch frame = .ok ({ ch with policy := pol, remoteCert := some cert, remoteKey := some k }, ⟨true, rid, body⟩) := by
  have hn : 0 < body.length := List.length_pos_iff.2 hb
  have hul := uri_length pol
  have hpo := policyOf_uri pol
  generalize pol.uri = uri at *
  unfold sealOpn at hseal
  dsimp only at hseal
  by_cases hfit : body.length > (asymPlan A (16 + uri.length + 28 + cert.length) send body.length).bodySize
  · rw [if_pos hfit] at hseal; cases hseal
  rw [if_neg hfit] at hseal
  obtain ⟨p1, p2, p3, j, p4, p5⟩ := asymPlan_ok hA (16 + uri.length + 28 + cert.length) send body.length hn (by omega)
  generalize hP : asymPlan A (16 + uri.length + 28 + cert.length) send body.length = p at *
  rw [p1, List.take_of_length_le (Nat.le_refl _)] at hseal
  have hpad : p.paddingSize < 256 ^ padHeader A.cipherBlock := by
    have := block_lt_pow A.cipherBlock hA.cipher_le
    have := hA.plain_le
    omega
  generalize hh : opnHeader p.chunkSize cid uri (some cert) (some thumb) = h at hseal
  generalize hpl : writeU32 seq ++ (writeU32 rid ++ (body ++ padBytes A.cipherBlock p.paddingSize)) = pl at hseal
  have hhl : h.length = 16 + uri.length + 28 + cert.length := by
    rw [← hh]; unfold opnHeader
    simp only [List.length_append, writeU32_length, writeString_length, writeByteArray_length, hth]; omega
  have hpll : (pl ++ A.sign (h ++ pl)).length = j * A.plainBlock := by
    rw [List.length_append, hA.sign_length, ← hpl]
    simp only [List.length_append, writeU32_length, padBytes_length]
    omega
  obtain ⟨b1, b2⟩ := encBlocks_spec hA j _ hpll
  cases hseal
  have hlen : (h ++ encBlocks A (pl ++ A.sign (h ++ pl))).length = p.chunkSize := by
    rw [List.length_append, hhl, b1, p5]
  refine ⟨by omega, ⟨j, by rw [hlen, p5]⟩, ?_⟩
  have hcount : h.length + 8 ≤ p.chunkSize := by
    have : j * A.plainBlock ≤ j * A.cipherBlock := Nat.mul_le_mul_left _ hA.plain_le
    omega
  generalize hE : encBlocks A (pl ++ A.sign (h ++ pl)) = E at *
  obtain ⟨e0, e4, hrd⟩ := opn_read p.chunkSize cid uri (some cert) (some thumb) E hul (by rintro b ⟨⟩; exact hct) (by rintro b ⟨⟩; omega)
  rw [hh] at e0 e4 hrd
  have hhd : (h ++ E).length - E.length = h.length := by rw [List.length_append]; omega
  have hdr : (h ++ E).drop h.length = E := List.drop_left
  have htk : (h ++ E).take h.length = h := List.take_left
  have hkl : W.keySize k = A.sigSize := hW.keySize
  have hdata : (h ++ (pl ++ A.sign (h ++ pl))).length = (h ++ pl).length + A.sigSize := by
    simp only [List.length_append, hA.sign_length]; omega
  have hver : W.verify pol k ((h ++ (pl ++ A.sign (h ++ pl))).take ((h ++ (pl ++ A.sign (h ++ pl))).length - W.keySize k))
      ((h ++ (pl ++ A.sign (h ++ pl))).drop ((h ++ (pl ++ A.sign (h ++ pl))).length - W.keySize k)) = true := by
    rw [hkl, hdata, Nat.add_sub_cancel, hW.verify, ← List.append_assoc, List.take_left, List.drop_left]
    exact hA.verify_sign _
  have hbody := opnBody_spec (A := A) h pl seq rid body p.paddingSize (A.sign (h ++ pl)) hpl.symm hpad (hA.sign_length _) p.chunkSize hcount
  unfold recvFrame
  rw [e0, e4]
  dsimp only
  rw [if_pos (rfl : tyOpen = tyOpen), if_neg (by rw [hlen, BitVec.toNat_ofNat, Nat.mod_eq_of_lt (by omega)]; simp)]
  unfold openOpn
  rw [hrd]
  dsimp only
  rw [hhd, hpo]
  dsimp only
  rw [if_neg hpol]
  unfold openOpnSecured
  dsimp only
  rw [hW.cert]
  dsimp only
  unfold openOpnKey
  rw [hdr, htk, hW.dec, hW.localSize, b2]
  dsimp only
  rw [if_neg (by rw [hdata, hkl]; omega), if_pos hver, hkl, hlen, hbody]

/-- A lawful RSA-like suite, to show that the hypotheses can be met. -/
def toyA : ASuite where
  sigSize := 4
  cipherBlock := 64
  plainBlock := 53
  sign d := leBytes 4 (leVal d)
  verify d s := s == leBytes 4 (leVal d)
  encB x := x ++ List.replicate 11 0
  decB c := some (c.take 53)

theorem toyA_lawful : toyA.Lawful where
  plain_pos := by decide
  plain_le := by decide
  cipher_le := by decide
  sign_length d := leBytes_length _ _
  verify_sign d := by simp [toyA]
  enc_length x h := by
    show (x ++ List.replicate 11 0).length = 64
    have : x.length = 53 := h
    simp [this]
  dec_enc x h := by
    have : x.length = 53 := h
    show some ((x ++ List.replicate 11 0).take 53) = some x
    rw [List.take_append_of_le_length (by omega), List.take_of_length_le (by omega)]

/-- A world in which the certificate `[9]` carries the key 5 of `toyA`, and `[7]` a key that is not
an RSA key. -/
def toyW : World where
  sym _ := xorSuite 20 16
  kdf _ a b := a ++ b
  parseCert c := if c = [9] then .rsa 5 else if c = [7] then .notRSA else .bad
  keySize _ := 4
  localSize := 64
  decB _ := toyA.decB
  verify _ _ := toyA.verify

example : toyW.Has .basic256Sha256 5 [9] toyA := ⟨rfl, rfl, rfl, rfl, rfl⟩

example : ∃ frame, sealOpn toyA 400 1 2 3 (Policy.uri .basic256Sha256) [9] (List.replicate 20 1) (List.replicate 60 7) = some frame := by
  unfold sealOpn
  dsimp only
  rw [if_neg (by decide)]
  exact ⟨_, rfl⟩

/-! ### C31 -/

/-- The frame of a policy-None OPN message around any body. -/
def plainOpn (cid seq rid : BitVec 32) (body : Bytes) : Bytes :=
  opnHeader (4 + (Policy.uri .none).length + 28 + body.length) cid (Policy.uri .none) none none ++
    (writeU32 seq ++ (writeU32 rid ++ body))

theorem plainOpn_accepted (W : World) (ch : SChan) (cid seq rid : BitVec 32) (body : Bytes) (hb : body.length < 2 ^ 31) :
    recvFrame W ch (plainOpn cid seq rid body) =
      .ok ({ ch with policy := .none, remoteCert := none }, ⟨true, rid, body⟩) := by
  have hul0 : (Policy.uri .none).length < 100 := by decide
  have hul := uri_length .none
  have hpo := policyOf_uri .none
  unfold plainOpn
  generalize Policy.uri .none = uri at *
  generalize hc : 4 + uri.length + 28 + body.length = cs
  have hl0 : (writeByteArray none).length = 4 := rfl
  generalize hh : opnHeader cs cid uri none none = h
  have hhl : h.length = 24 + uri.length := by
    rw [← hh]; unfold opnHeader
    simp only [List.length_append, writeU32_length, writeString_length, hl0]; omega
  generalize hE : writeU32 seq ++ (writeU32 rid ++ body) = E
  have hEl : E.length = 8 + body.length := by
    rw [← hE]; simp only [List.length_append, writeU32_length]; omega
  have hlen : (h ++ E).length = cs := by rw [List.length_append]; omega
  obtain ⟨e0, e4, hrd⟩ := opn_read cs cid uri none none E hul (by rintro b ⟨⟩) (by rintro b ⟨⟩)
  rw [hh] at e0 e4 hrd
  have hhd : (h ++ E).length - E.length = h.length := by rw [List.length_append]; omega
  have s1 : u32At (h ++ E) h.length = some seq := by rw [← hE]; exact u32At_append _ rfl
  have s2 : u32At (h ++ E) (h.length + 4) = some rid := by
    rw [← hE, ← List.append_assoc]; exact u32At_append _ (by simp [writeU32_length])
  have hd : (h ++ E).drop (h.length + 8) = body := by
    rw [← hE, ← List.append_assoc, ← List.append_assoc, List.drop_append, List.drop_eq_nil_of_le (by simp [writeU32_length])]
    simp [writeU32_length]
  unfold recvFrame
  rw [e0, e4]
  dsimp only
  rw [if_pos (rfl : tyOpen = tyOpen), if_neg (by rw [hlen, BitVec.toNat_ofNat, Nat.mod_eq_of_lt (by omega)]; simp)]
  unfold openOpn
  rw [hrd]
  dsimp only
  rw [hhd, hpo]
  dsimp only
  rw [if_pos (rfl : Policy.none = Policy.none), s1, s2]
  dsimp only
  rw [hd]

/-- The claim is false: on a channel in any state and any mode, also SignAndEncrypt, a frame of the
OPN type that names the policy None is accepted with whatever body it carries. Building it needs no
key, no token and no channel id; the body may be any service request. -/
theorem C31_plain_request_fails (W : World) (chan : Chan) (pol : Policy) (cert : Bytes) (key : Nat)
    (body : Bytes) (rid : BitVec 32) (hb : body.length < 2 ^ 31) :
    ∃ frame ch', recvFrame W ⟨{ chan with mode := .signAndEncrypt }, pol, some cert, some key, pol⟩ frame =
      .ok (ch', ⟨true, rid, body⟩) :=
  ⟨_, _, plainOpn_accepted W _ 0 0 rid body hb⟩

/-- Nor is the certificate of the channel compared: a frame signed with any other RSA key is
accepted when it carries the certificate of that key, which then replaces the one of the channel. -/
theorem C31_foreign_certificate_fails {A : ASuite} (hA : A.Lawful) (W : World) (pol : Policy) (hpol : pol ≠ .none)
    (attacker : Nat) (cert thumb : Bytes) (hW : W.Has pol attacker cert A) (ch : SChan) (own : Nat)
    (_ : ch.remoteKey = some own) (_ : own ≠ attacker) (send : Nat) (hsend : send < 2 ^ 32) (rid : BitVec 32)
    (body frame : Bytes) (hb : body ≠ []) (hct : cert.length < 2 ^ 31) (hth : thumb.length = 20)
    (hseal : sealOpn A send 0 0 rid pol.uri cert thumb body = some frame) :
    ∃ ch', recvFrame W ch frame = .ok (ch', ⟨true, rid, body⟩) ∧ ch'.remoteKey = some attacker :=
  ⟨_, (C24_open_message hA W pol hpol attacker cert thumb hW ch send hsend 0 0 rid body frame hb hct hth hseal).2.2, rfl⟩

/-- A delivered chunk: nothing changed but the keys, which belong to the policy in force. -/
theorem recvSym_ok {W : World} {ch ch' : SChan} {ty len : BitVec 32} {frame : Bytes} {g : Frag}
    (h : recvSym W ch ty len frame = .ok (ch', g)) :
    ∃ c, openFrame (W.mixed ch.policy ch'.keyPolicy) (W.kdf ch.policy) ch.chan frame = .ok (c, g) ∧
      ch' = { ch with
        chan := c
        keyPolicy := if changesToken ch.chan frame then ch.policy else ch.keyPolicy } ∧
      (changesToken ch.chan frame = true → ¬ (ch.policy = .none ∧ ch.chan.mode ≠ .none)) := by
  unfold recvSym at h
  by_cases hc : changesToken ch.chan frame = true
  · rw [if_pos hc] at h
    by_cases hn : ch.policy = .none ∧ ch.chan.mode ≠ .none
    · rw [if_pos hn] at h
      repeat' split at h
      all_goals cases h
    · rw [if_neg hn] at h
      split at h
      · rename_i c f e
        cases h
        exact ⟨c, e, by rw [if_pos hc], fun _ => hn⟩
      · cases h
      · cases h
  · rw [if_neg hc] at h
    split at h
    · rename_i c f e
      cases h
      exact ⟨c, e, by rw [if_neg hc], fun h => absurd h hc⟩
    · cases h
    · cases h

/-- What holds: on a secured channel, a delivered fragment whose message type is not OPN carries a
valid MAC under the receiving key of the channel. -/
theorem C31_symmetric_partial (W : World) (ch ch' : SChan) (frame : Bytes) (g : Frag) (hsec : ch.chan.mode ≠ .none)
    (hty : u32At frame 0 ≠ some tyOpen) (h : recvFrame W ch frame = .ok (ch', g)) :
    ∃ key data, ch'.chan.recvKey = some key ∧
      decryptFrame (W.mixed ch.policy ch'.keyPolicy) ch.chan.mode (some key) frame = .ok data ∧
      (W.sym ch.policy).sigSize ≤ data.length ∧
      (W.sym ch'.keyPolicy).mac key (data.take (data.length - (W.sym ch.policy).sigSize)) =
        data.drop (data.length - (W.sym ch.policy).sigSize) := by
  unfold recvFrame at h
  split at h
  · rename_i ty len e0 e4
    by_cases ht : ty = tyOpen
    · subst ht; exact absurd e0 hty
    rw [if_neg ht] at h
    obtain ⟨c, e, hch, _⟩ := recvSym_ok h
    obtain ⟨key, data, k1, k2, k3⟩ := C25_authentic (W.kdf ch.policy) ch.chan c frame g hsec e
    rw [k1] at k2
    refine ⟨key, data, ?_, k2, k3⟩
    rw [hch]
    exact k1
  · cases h

/-- And a delivered OPN fragment of a policy other than None is cut out of the decrypted frame, which
carries a signature that verifies under a key it names itself or, if its certificate does not parse,
the key of the channel. -/
theorem C31_open_partial (W : World) (ch ch' : SChan) (frame : Bytes) (g : Frag)
    (h : openOpn W ch frame = .ok (ch', g)) :
    ch'.policy = .none ∨
    ∃ (cert : Bytes) (key hdr : Nat) (pl data : Bytes), ch'.remoteCert = some cert ∧ ch'.remoteKey = some key ∧
      (W.parseCert cert = .rsa key ∨ (W.parseCert cert = .bad ∧ ch.remoteKey = some key)) ∧
      decBlocks (W.decB ch'.policy) W.localSize (frame.drop hdr) = some pl ∧ data = frame.take hdr ++ pl ∧
      W.keySize key ≤ data.length ∧
      W.verify ch'.policy key (data.take (data.length - W.keySize key)) (data.drop (data.length - W.keySize key)) = true ∧
      ∃ rest, data.drop (hdr + 8) = g.body ++ rest := by
  have hkey : ∀ pol cert k hdr, openOpnKey W ch pol cert k hdr frame = .ok (ch', g) →
      ch'.policy = pol ∧ ch'.remoteCert = cert ∧ ch'.remoteKey = some k ∧ ∃ pl data : Bytes,
      decBlocks (W.decB pol) W.localSize (frame.drop hdr) = some pl ∧ data = frame.take hdr ++ pl ∧ W.keySize k ≤ data.length ∧
      W.verify pol k (data.take (data.length - W.keySize k)) (data.drop (data.length - W.keySize k)) = true ∧
      ∃ rest, data.drop (hdr + 8) = g.body ++ rest := by
    intro pol cert k hdr h
    unfold openOpnKey at h
    split at h
    · cases h
    · rename_i pl hpl
      dsimp only at h
      by_cases h1 : (frame.take hdr ++ pl).length < W.keySize k
      · rw [if_pos h1] at h; cases h
      rw [if_neg h1] at h
      split at h
      · rename_i hv
        split at h
        · cases h
        · cases h
        · rename_i f hf
          cases h
          refine ⟨rfl, rfl, rfl, pl, _, hpl, rfl, by omega, hv, ?_⟩
          unfold opnBody at hf
          dsimp only at hf
          repeat' split at hf
          all_goals cases hf
          exact ⟨_, (List.take_append_drop _ _).symm⟩
      · cases h
  unfold openOpn at h
  split at h
  · cases h
  · cases h
  · rename_i cid uri cert thumb rest _
    dsimp only at h
    split at h
    · cases h
    · rename_i pol _
      by_cases hp : pol = .none
      · rw [if_pos hp] at h
        split at h
        · cases h; exact Or.inl rfl
        · cases h
      · rw [if_neg hp] at h
        unfold openOpnSecured at h
        split at h
        · cases h
        · split at h
          · cases h
          · rename_i k hk
            obtain ⟨k1, k2, k3, pl, data, k4, k5⟩ := hkey _ _ _ _ h
            subst k1
            exact Or.inr ⟨_, k, _, pl, data, k2, k3, Or.inl hk, k4, k5⟩
          · rename_i hk
            split at h
            · cases h
            · rename_i k hk2
              obtain ⟨k1, k2, k3, pl, data, k4, k5⟩ := hkey _ _ _ _ h
              subst k1
              exact Or.inr ⟨_, k, _, pl, data, k2, k3, Or.inr ⟨hk, hk2⟩, k4, k5⟩

/-! ### C76, OPN frames -/

/-- An OPN frame with the certificate of a non-RSA key crashes the server, in any channel state:
the type assertion is unchecked and nothing has been authenticated before it. -/
theorem C76_non_rsa_fails (W : World) (ch : SChan) (pol : Policy) (hpol : pol ≠ .none) (c rest : Bytes)
    (hc : W.parseCert c = .notRSA) (hcl : c.length < 2 ^ 30) (hr : rest.length < 2 ^ 30) :
    ∃ frame, recvFrame W ch frame = .panic := by
  have hul : pol.uri.length < 100 := by cases pol <;> decide
  have hpo := policyOf_uri pol
  generalize pol.uri = uri at *
  obtain ⟨cid, _⟩ : ∃ x : BitVec 32, x = 0 := ⟨_, rfl⟩
  refine ⟨opnHeader (24 + uri.length + c.length + rest.length) cid uri (some c) none ++ rest, ?_⟩
  generalize hcs : 24 + uri.length + c.length + rest.length = cs
  have hl0 : (writeByteArray none).length = 4 := rfl
  generalize hh : opnHeader cs cid uri (some c) none = h
  have hhl : h.length = 24 + uri.length + c.length := by
    rw [← hh]; unfold opnHeader
    simp only [List.length_append, writeU32_length, writeString_length, writeByteArray_length, hl0]; omega
  have hlen : (h ++ rest).length = cs := by rw [List.length_append]; omega
  obtain ⟨e0, e4, hrd⟩ := opn_read cs cid uri (some c) none rest (by omega) (by rintro b ⟨⟩; omega) (by rintro b ⟨⟩)
  rw [hh] at e0 e4 hrd
  unfold recvFrame
  rw [e0, e4]
  dsimp only
  rw [if_pos (rfl : tyOpen = tyOpen), if_neg (by rw [hlen, BitVec.toNat_ofNat, Nat.mod_eq_of_lt (by omega)]; simp)]
  unfold openOpn
  rw [hrd]
  dsimp only
  rw [hpo]
  dsimp only
  rw [if_neg hpol]
  unfold openOpnSecured
  dsimp only
  rw [hc]

example : toyW.parseCert [7] = .notRSA := rfl

/-- Nor does a valid signature protect the server: a peer that signs with its own key a payload
whose padding size exceeds the payload crashes it. `pl` is the plain text before the signature. -/
theorem C76_padding_fails {A : ASuite} (hA : A.Lawful) (W : World) (pol : Policy) (hpol : pol ≠ .none) (k : Nat)
    (cert thumb : Bytes) (hW : W.Has pol k cert A) (ch : SChan) (pl u : Bytes) (pad j : Nat)
    (hct : cert.length < 2 ^ 30) (hth : thumb.length = 20)
    (hu : pl = u ++ leBytes (padHeader A.cipherBlock) pad) (hpad : pad < 256 ^ padHeader A.cipherBlock)
    (hj : pl.length + A.sigSize = j * A.plainBlock) (hjs : j * A.cipherBlock < 2 ^ 30) (hbig : u.length < 8 + pad)
    (h8 : 8 ≤ pl.length) :
    ∃ frame, recvFrame W ch frame = .panic := by
  have hul : pol.uri.length < 100 := by cases pol <;> decide
  have hpo := policyOf_uri pol
  generalize pol.uri = uri at *
  generalize hcs : 44 + uri.length + cert.length + j * A.cipherBlock = cs
  obtain ⟨cid, _⟩ : ∃ x : BitVec 32, x = 0 := ⟨_, rfl⟩
  generalize hh : opnHeader cs cid uri (some cert) (some thumb) = h
  have hhl : h.length = 44 + uri.length + cert.length := by
    rw [← hh]; unfold opnHeader
    simp only [List.length_append, writeU32_length, writeString_length, writeByteArray_length, hth]; omega
  have hpll : (pl ++ A.sign (h ++ pl)).length = j * A.plainBlock := by
    rw [List.length_append, hA.sign_length]; exact hj
  obtain ⟨b1, b2⟩ := encBlocks_spec hA j _ hpll
  refine ⟨h ++ encBlocks A (pl ++ A.sign (h ++ pl)), ?_⟩
  have hlen : (h ++ encBlocks A (pl ++ A.sign (h ++ pl))).length = cs := by rw [List.length_append, b1]; omega
  have hcount : h.length + 8 ≤ cs := by
    have : j * A.plainBlock ≤ j * A.cipherBlock := Nat.mul_le_mul_left _ hA.plain_le
    omega
  generalize hE : encBlocks A (pl ++ A.sign (h ++ pl)) = E at *
  obtain ⟨e0, e4, hrd⟩ := opn_read cs cid uri (some cert) (some thumb) E (by omega) (by rintro b ⟨⟩; omega) (by rintro b ⟨⟩; omega)
  rw [hh] at e0 e4 hrd
  have hhd : (h ++ E).length - E.length = h.length := by rw [List.length_append]; omega
  have hdr : (h ++ E).drop h.length = E := List.drop_left
  have htk : (h ++ E).take h.length = h := List.take_left
  have hkl : W.keySize k = A.sigSize := hW.keySize
  have hdata : (h ++ (pl ++ A.sign (h ++ pl))).length = (h ++ pl).length + A.sigSize := by
    simp only [List.length_append, hA.sign_length]; omega
  have hver : W.verify pol k ((h ++ (pl ++ A.sign (h ++ pl))).take ((h ++ (pl ++ A.sign (h ++ pl))).length - W.keySize k))
      ((h ++ (pl ++ A.sign (h ++ pl))).drop ((h ++ (pl ++ A.sign (h ++ pl))).length - W.keySize k)) = true := by
    rw [hkl, hdata, Nat.add_sub_cancel, hW.verify, ← List.append_assoc, List.take_left, List.drop_left]
    exact hA.verify_sign _
  have hpl2 : (h ++ pl).length = h.length + u.length + padHeader A.cipherBlock := by
    rw [hu]; simp only [List.length_append, leBytes_length]; omega
  have hbody : opnBody A.sigSize A.cipherBlock h.length cs (h ++ (pl ++ A.sign (h ++ pl))) = .panic := by
    have hd2 : (h ++ (pl ++ A.sign (h ++ pl))).drop ((h ++ (pl ++ A.sign (h ++ pl))).length - A.sigSize - padHeader A.cipherBlock)
        = leBytes (padHeader A.cipherBlock) pad ++ A.sign (h ++ pl) := by
      have e : (h ++ (pl ++ A.sign (h ++ pl))).length - A.sigSize - padHeader A.cipherBlock = (h ++ u).length := by
        rw [hdata, hpl2, List.length_append]; omega
      have e2 : h ++ (pl ++ A.sign (h ++ pl)) = (h ++ u) ++ (leBytes (padHeader A.cipherBlock) pad ++ A.sign (h ++ pl)) := by
        generalize A.sign (h ++ pl) = sg
        rw [hu]; simp only [List.append_assoc]
      rw [e]; conv => lhs; rw [e2]
      exact List.drop_left
    unfold opnBody
    dsimp only
    rw [if_neg (by omega), if_neg (by rw [hdata, hpl2]; omega), hd2,
      List.take_append_of_le_length (by simp), List.take_of_length_le (by simp), leVal_leBytes, Nat.mod_eq_of_lt hpad,
      if_pos (by rw [hdata, hpl2]; omega)]
  unfold recvFrame
  rw [e0, e4]
  dsimp only
  rw [if_pos (rfl : tyOpen = tyOpen), if_neg (by rw [hlen, BitVec.toNat_ofNat, Nat.mod_eq_of_lt (by omega)]; simp)]
  unfold openOpn
  rw [hrd]
  dsimp only
  rw [hhd, hpo]
  dsimp only
  rw [if_neg hpol]
  unfold openOpnSecured
  dsimp only
  rw [hW.cert]
  dsimp only
  unfold openOpnKey
  rw [hdr, htk, hW.dec, hW.localSize, b2]
  dsimp only
  rw [if_neg (by rw [hdata, hkl]; omega), if_pos hver, hkl, hlen, hbody]

example : ∃ pl u : Bytes, pl = u ++ leBytes (padHeader toyA.cipherBlock) 255 ∧ pl.length + toyA.sigSize = 1 * toyA.plainBlock ∧
    u.length < 8 + 255 ∧ 8 ≤ pl.length :=
  ⟨List.replicate 48 0 ++ leBytes 1 255, List.replicate 48 0, rfl, rfl, by decide, by decide⟩

/-- In mode Sign a frame of anybody's that names the policy None, while a token is pending (as it is when a channel has just been
opened or renewed), makes the next chunk with that token end the process: there is no MAC under that policy. -/
theorem C76_policy_fails (W : World) (ch : SChan) (hm : ch.chan.mode = .sign) (ht : ch.chan.tokenID ≠ ch.chan.pendingTokenID)
    (body : Bytes) (hb : body.length < 2 ^ 31) :
    ∃ f ch', recvFrame W ch f = .ok (ch', ⟨true, 0, body⟩) ∧
      recvFrame W ch' (writeU32 tyFinal ++ (writeU32 16 ++ (writeU32 ch.chan.channelID ++ writeU32 ch.chan.pendingTokenID))) =
        .panic := by
  refine ⟨_, _, plainOpn_accepted W ch 0 0 0 body hb, ?_⟩
  generalize hfr : writeU32 tyFinal ++ (writeU32 16 ++ (writeU32 ch.chan.channelID ++ writeU32 ch.chan.pendingTokenID)) = fr
  have e0 : u32At fr 0 = some tyFinal := by rw [← hfr]; exact u32At_zero _ _
  have e4 : u32At fr 4 = some 16 := by rw [← hfr]; exact u32At_append _ rfl
  have e8 : u32At fr 8 = some ch.chan.channelID := by
    rw [← hfr, ← List.append_assoc]; exact u32At_append _ (by simp [writeU32_length])
  have e12 : u32At fr 12 = some ch.chan.pendingTokenID := by
    have := u32At_append (pre := writeU32 tyFinal ++ (writeU32 16 ++ writeU32 ch.chan.channelID)) (post := []) (n := 12)
      ch.chan.pendingTokenID (by simp [writeU32_length])
    rw [← hfr]
    simpa [List.append_assoc] using this
  have hl : fr.length = 16 := by rw [← hfr]; simp [writeU32_length]
  unfold recvFrame
  rw [e0, e4]
  dsimp only
  rw [if_neg (by decide)]
  unfold recvSym changesToken
  dsimp only
  rw [e8, e12]
  rw [if_pos (by simp [ht]), if_pos (by simp [hm]), if_neg (by rw [hl]; decide), if_neg (by simp), if_pos hm]

/-- A channel that has just been opened in mode Sign. -/
example : ∃ ch : SChan, ch.chan.mode = .sign ∧ ch.chan.tokenID ≠ ch.chan.pendingTokenID ∧ ch.policy = .basic256Sha256 :=
  ⟨⟨⟨1, 0, 1, .sign, none, none, [1], [2], 1⟩, .basic256Sha256, some [9], some 5, .basic256Sha256⟩, rfl, by decide, rfl⟩

end Opcua.Channel
