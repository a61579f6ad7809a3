import Verif.Model.Channel
import Verif.Lemmas.Bytes

namespace Opcua.Channel

theorem writeU32_length (v : BitVec 32) : (writeU32 v).length = 4 := by
  simp [writeU32, writeBits]

theorem u32At_append {pre post : Bytes} {n : Nat} (v : BitVec 32) (h : pre.length = n) :
    u32At (pre ++ (writeU32 v ++ post)) n = some v := by
  subst h
  have hl := writeU32_length v
  unfold u32At
  rw [if_pos (by simp [hl]), List.drop_left]
  rw [List.take_append_of_le_length (by omega), List.take_of_length_le (by omega)]
  unfold writeU32 writeBits
  rw [leVal_leBytes]
  congr 1
  apply BitVec.eq_of_toNat_eq
  rw [BitVec.toNat_ofNat]
  have := v.isLt
  omega

theorem u32At_isSome {b : Bytes} {n : Nat} {v : BitVec 32} (h : u32At b n = some v) : n + 4 ≤ b.length := by
  unfold u32At at h
  split at h
  · assumption
  · cases h

theorem header_length (f : Bool) (n : Nat) (c t : BitVec 32) : (header f n c t).length = 16 := by
  simp [header, writeU32_length]

theorem padBytes_length (b p : Nat) : (padBytes b p).length = p + padHeader b := by
  unfold padBytes padHeader
  by_cases h : b > 256 <;> simp [h]

/-- Overhead of a chunk: padding, padding header. -/
def padLen (S : Suite) (mode : Mode) (pad : Nat) : Nat :=
  if mode = .signAndEncrypt then pad + padHeader S.block else 0

theorem payload_length (S : Suite) (mode : Mode) (c : Chunk) :
    (payload S mode c).length = 8 + c.body.length + padLen S mode c.paddingSize := by
  unfold payload padLen
  by_cases h : mode = .signAndEncrypt <;> simp [h, writeU32_length, padBytes_length] <;> omega

/-- The signature size in effect (no signature in mode None). -/
def sigLen (S : Suite) (mode : Mode) : Nat := if mode = .none then 0 else S.sigSize

theorem sealChunk_length {S : Suite} (hS : S.Lawful) (mode : Mode) (key : Bytes) (n : Nat) (c : Chunk)
    (hdiv : mode = .signAndEncrypt →
      (8 + c.body.length + c.paddingSize + padHeader S.block + S.sigSize) % S.block = 0) :
    (sealChunk S mode key n c).length = 24 + c.body.length + padLen S mode c.paddingSize + sigLen S mode := by
  have hp := payload_length S mode c
  cases mode with
  | none => simp [sealChunk, header_length, hp, sigLen]; omega
  | sign => simp [sealChunk, header_length, hp, sigLen, hS.mac_length]; omega
  | signAndEncrypt =>
    have hdiv := hdiv rfl
    have hpl : padLen S .signAndEncrypt c.paddingSize = c.paddingSize + padHeader S.block := by simp [padLen]
    simp only [sealChunk, List.length_append, header_length]
    rw [hS.enc_length]
    · rw [List.length_append, hp, hS.mac_length]
      simp [sigLen]; omega
    · rw [List.length_append, hp, hS.mac_length, hpl, ← hdiv]
      congr 1; omega

/-- The clear text of a sealed chunk: what the receiver has after decryption. -/
def clear (S : Suite) (mode : Mode) (key : Bytes) (n : Nat) (c : Chunk) : Bytes :=
  let h := header c.final n c.channelID c.tokenID
  let p := payload S mode c
  if mode = .none then h ++ p else h ++ p ++ S.mac key (h ++ p)

theorem decrypt_seal {S : Suite} (hS : S.Lawful) (mode : Mode) (key : Bytes) (n : Nat) (c : Chunk)
    (ko : Option Bytes) (hk : mode ≠ .none → ko = some key)
    (hdiv : mode = .signAndEncrypt →
      (8 + c.body.length + c.paddingSize + padHeader S.block + S.sigSize) % S.block = 0) :
    decryptFrame S mode ko (sealChunk S mode key n c) = .ok (clear S mode key n c) := by
  cases mode with
  | none => simp [decryptFrame, sealChunk, clear]
  | sign => simp [decryptFrame, sealChunk, clear]
  | signAndEncrypt =>
    have hd := hdiv rfl
    have hl := sealChunk_length hS .signAndEncrypt key n c hdiv
    rw [hk (by simp)]
    have hpl : padLen S .signAndEncrypt c.paddingSize = c.paddingSize + padHeader S.block := by simp [padLen]
    have hsl : sigLen S .signAndEncrypt = S.sigSize := by simp [sigLen]
    unfold decryptFrame
    dsimp only
    have e1 : (sealChunk S .signAndEncrypt key n c).length - 16 =
        8 + c.body.length + c.paddingSize + padHeader S.block + S.sigSize := by omega
    rw [if_neg (by rw [e1, hd]; simp)]
    have hh := header_length c.final n c.channelID c.tokenID
    have hpm : (payload S .signAndEncrypt c ++ S.mac key (header c.final n c.channelID c.tokenID ++ payload S .signAndEncrypt c)).length % S.block = 0 := by
      rw [List.length_append, payload_length, hS.mac_length, hpl, ← hd]; congr 1; omega
    simp only [sealChunk, clear]
    rw [List.take_append_of_le_length (by omega), List.take_of_length_le (by omega),
      List.drop_append, List.drop_eq_nil_of_le (by omega), hh]
    simp only [Nat.sub_self, List.drop_zero, List.nil_append]
    rw [hS.dec_enc _ _ hpm]
    simp

theorem verify_clear {S : Suite} (hS : S.Lawful) (mode : Mode) (key : Bytes) (n : Nat) (c : Chunk)
    (ko : Option Bytes) (hk : mode ≠ .none → ko = some key) :
    verifyFrame S mode ko (clear S mode key n c) = .ok () := by
  cases mode with
  | none => rfl
  | sign =>
    rw [hk (by simp)]
    simp [verifyFrame, clear, hS.mac_length]
    rw [show ∀ a b c : Nat, a + (b + c) - c = a + b by omega]
    rw [← List.append_assoc, List.take_append_of_le_length (by simp), List.take_of_length_le (by simp),
      List.drop_append, List.drop_eq_nil_of_le (by simp)]
    simp
    omega
  | signAndEncrypt =>
    rw [hk (by simp)]
    simp [verifyFrame, clear, hS.mac_length]
    rw [show ∀ a b c : Nat, a + (b + c) - c = a + b by omega]
    rw [← List.append_assoc, List.take_append_of_le_length (by simp), List.take_of_length_le (by simp),
      List.drop_append, List.drop_eq_nil_of_le (by simp)]
    simp
    omega

theorem clear_length {S : Suite} (hS : S.Lawful) (mode : Mode) (key : Bytes) (n : Nat) (c : Chunk) :
    (clear S mode key n c).length = 24 + c.body.length + padLen S mode c.paddingSize + sigLen S mode := by
  unfold clear
  have := payload_length S mode c
  by_cases h : mode = .none
  · simp [h, header_length, sigLen]; rw [← h]; omega
  · simp [h, header_length, sigLen, hS.mac_length]; omega

/-- The clear text, seen from the body on. -/
theorem clear_shape (S : Suite) (mode : Mode) (key : Bytes) (n : Nat) (c : Chunk) :
    ∃ t, clear S mode key n c =
      header c.final n c.channelID c.tokenID ++ (writeU32 c.seq ++ (writeU32 c.requestID ++ (c.body ++
        ((if mode = .signAndEncrypt then padBytes S.block c.paddingSize else []) ++ t)))) ∧
      (S.Lawful → t.length = sigLen S mode) := by
  by_cases h : mode = .none
  · exact ⟨[], by simp [clear, h, payload], fun _ => by simp [sigLen, h]⟩
  · refine ⟨S.mac key (header c.final n c.channelID c.tokenID ++ payload S mode c), ?_, fun hS => ?_⟩
    · simp [clear, h, payload]
    · simp [sigLen, h, hS.mac_length]

/-- The last `padHeader` bytes of the padding encode the padding size. -/
theorem padBytes_tail (b p : Nat) (hp : p < 256 ^ padHeader b) :
    ∃ u, padBytes b p = u ++ leBytes (padHeader b) p ∧ u.length = p := by
  unfold padHeader at *
  by_cases h : b > 256
  · simp only [h, if_true] at hp ⊢
    refine ⟨List.replicate p (UInt8.ofNat (p % 256)), ?_, by simp⟩
    simp only [padBytes, padHeader, h, if_true]
    rw [← List.cons_append, ← List.replicate_succ, List.replicate_succ']
    simp [leBytes]
  · simp only [h, if_false] at hp ⊢
    refine ⟨List.replicate p (UInt8.ofNat (p % 256)), ?_, by simp⟩
    have hne : ¬ (256 < b) := h
    simp only [padBytes, padHeader, h, if_false]
    rw [if_neg (by simp)]
    rw [List.append_nil, ← List.replicate_succ, List.replicate_succ']
    simp [leBytes]

theorem bodyOf_clear {S : Suite} (hS : S.Lawful) (mode : Mode) (key : Bytes) (n : Nat) (c : Chunk)
    (hnone : mode = .none → S.sigSize = 0)
    (hp : mode = .signAndEncrypt → c.paddingSize < 256 ^ padHeader S.block) :
    bodyOf S mode (clear S mode key n c) = .ok c.body := by
  have hl := clear_length hS mode key n c
  obtain ⟨t, ht, htl⟩ := clear_shape S mode key n c
  have htl := htl hS
  have hh := header_length c.final n c.channelID c.tokenID
  have hs1 := writeU32_length c.seq
  have hs2 := writeU32_length c.requestID
  have hdrop : (clear S mode key n c).drop 24 = c.body ++
        ((if mode = .signAndEncrypt then padBytes S.block c.paddingSize else []) ++ t) := by
    rw [ht, ← List.append_assoc, ← List.append_assoc]
    rw [List.drop_append, List.drop_eq_nil_of_le (by simp [hh, hs1, hs2])]
    simp [hh, hs1, hs2]
  by_cases he : mode = .signAndEncrypt
  · subst he
    obtain ⟨u, hu, hul⟩ := padBytes_tail S.block c.paddingSize (hp rfl)
    have hpl : padLen S .signAndEncrypt c.paddingSize = c.paddingSize + padHeader S.block := by simp [padLen]
    have hsl : sigLen S .signAndEncrypt = S.sigSize := by simp [sigLen]
    simp only [if_true] at hdrop
    unfold bodyOf
    dsimp only
    rw [if_neg (by omega)]
    have hd2 : (clear S .signAndEncrypt key n c).drop ((clear S .signAndEncrypt key n c).length - S.sigSize - padHeader S.block)
        = leBytes (padHeader S.block) c.paddingSize ++ t := by
      have e : (clear S .signAndEncrypt key n c).length - S.sigSize - padHeader S.block = 24 + (c.body.length + u.length) := by omega
      rw [e, ← List.drop_drop, hdrop, hu]
      rw [← List.append_assoc, ← List.append_assoc, List.append_assoc, List.drop_append, List.drop_eq_nil_of_le (by simp)]
      simp
    have hv : leVal (((clear S .signAndEncrypt key n c).drop ((clear S .signAndEncrypt key n c).length - S.sigSize - padHeader S.block)).take (padHeader S.block)) = c.paddingSize := by
      rw [hd2, List.take_append_of_le_length (by simp), List.take_of_length_le (by simp), leVal_leBytes,
        Nat.mod_eq_of_lt (hp rfl)]
    rw [hv, if_neg (by omega), hdrop]
    congr 1
    rw [List.take_append_of_le_length (by omega), List.take_of_length_le (by omega)]
  · have hpl : padLen S mode c.paddingSize = 0 := by simp [padLen, he]
    have hsl : sigLen S mode = S.sigSize := by
      unfold sigLen
      by_cases h : mode = .none
      · simp [h, hnone h]
      · simp [h]
    simp only [he, if_false] at hdrop
    have : bodyOf S mode (clear S mode key n c) = if (clear S mode key n c).length < 16 + 8 + S.sigSize then .panic
        else .ok (((clear S mode key n c).drop 24).take ((clear S mode key n c).length - 16 - 8 - S.sigSize)) := by
      cases mode <;> first | rfl | exact absurd rfl he
    rw [this, if_neg (by omega), hdrop]
    congr 1
    rw [List.take_append_of_le_length (by omega), List.take_of_length_le (by omega)]

/-- A chunk is well-formed for a suite and mode: what the planner guarantees. -/
structure Chunk.Fits (S : Suite) (mode : Mode) (c : Chunk) (n : Nat) : Prop where
  size : n = 24 + c.body.length + padLen S mode c.paddingSize + sigLen S mode
  small : n < 2 ^ 32
  none_sig : mode = .none → S.sigSize = 0
  blocks : mode = .signAndEncrypt → (n - 16) % S.block = 0
  pad_lt : mode = .signAndEncrypt → c.paddingSize < 256 ^ padHeader S.block

theorem seal_header (S : Suite) (mode : Mode) (key : Bytes) (n : Nat) (c : Chunk) :
    ∃ t, sealChunk S mode key n c = header c.final n c.channelID c.tokenID ++ t := by
  cases mode <;> exact ⟨_, by simp only [sealChunk, List.append_assoc]; rfl⟩

theorem openFrame_seal {S : Suite} (hS : S.Lawful) (kdf : Bytes → Bytes → Bytes) (ch ch' : Chan)
    (key : Bytes) (n : Nat) (c : Chunk) (hf : c.Fits S ch.mode n)
    (hid : c.channelID = ch.channelID) (hsw : switchToken kdf ch c.tokenID = .ok ch')
    (hk : ch.mode ≠ .none → ch'.recvKey = some key) :
    openFrame S kdf ch (sealChunk S ch.mode key n c) = .ok (ch', ⟨c.final, c.requestID, c.body⟩) := by
  have hmode : ch'.mode = ch.mode := by
    unfold switchToken at hsw
    split at hsw
    · cases hsw; rfl
    · split at hsw
      · cases hsw
      · split at hsw <;> cases hsw <;> rfl
  have hdiv : ch.mode = .signAndEncrypt →
      (8 + c.body.length + c.paddingSize + padHeader S.block + S.sigSize) % S.block = 0 := by
    intro he
    have h1 := hf.blocks he
    have h2 := hf.size
    rw [he] at h2
    simp only [padLen, sigLen, if_true] at h2
    rw [← h1]; congr 1
    rw [h2]; simp only [reduceCtorEq, if_false]; omega
  have hlen : (sealChunk S ch.mode key n c).length = n := by
    rw [sealChunk_length hS _ _ _ _ hdiv, hf.size]
  obtain ⟨t, ht⟩ := seal_header S ch.mode key n c
  have e0 : u32At (sealChunk S ch.mode key n c) 0 = some (if c.final then tyFinal else tyChunk) := by
    rw [ht]; simpa [header] using u32At_append (pre := []) (n := 0) (if c.final then tyFinal else tyChunk) rfl
  have e4 : u32At (sealChunk S ch.mode key n c) 4 = some (BitVec.ofNat 32 n) := by
    rw [ht]; unfold header; rw [List.append_assoc, List.append_assoc]
    exact u32At_append _ (writeU32_length _)
  have e8 : u32At (sealChunk S ch.mode key n c) 8 = some c.channelID := by
    rw [ht]; unfold header; rw [List.append_assoc, List.append_assoc, List.append_assoc, ← List.append_assoc]
    exact u32At_append _ (by simp [writeU32_length])
  have e12 : u32At (sealChunk S ch.mode key n c) 12 = some c.tokenID := by
    rw [ht]; unfold header; rw [List.append_assoc, List.append_assoc, List.append_assoc, ← List.append_assoc, ← List.append_assoc]
    exact u32At_append _ (by simp [writeU32_length])
  have hsym : openSym S kdf ch c.final (sealChunk S ch.mode key n c) = .ok (ch', ⟨c.final, c.requestID, c.body⟩) := by
    unfold openSym
    rw [e8]; dsimp only
    rw [if_neg (by simp [hid]), e12]; dsimp only
    rw [hsw]; dsimp only
    rw [hmode, decrypt_seal hS ch.mode key n c _ hk hdiv]; dsimp only
    rw [verify_clear hS ch.mode key n c _ hk]; dsimp only
    obtain ⟨u, hu, _⟩ := clear_shape S ch.mode key n c
    have hh := header_length c.final n c.channelID c.tokenID
    unfold fragOf
    have e16 : u32At (clear S ch.mode key n c) 16 = some c.seq := by
      rw [hu]; exact u32At_append _ hh
    have e20 : u32At (clear S ch.mode key n c) 20 = some c.requestID := by
      rw [hu, ← List.append_assoc]; exact u32At_append _ (by simp [hh, writeU32_length])
    rw [e16, e20]; dsimp only
    rw [bodyOf_clear hS ch.mode key n c hf.none_sig hf.pad_lt]
  unfold openFrame
  rw [e0, e4]; dsimp only
  rw [if_neg (by rw [hlen, BitVec.toNat_ofNat, Nat.mod_eq_of_lt hf.small]; simp)]
  cases hfin : c.final with
  | false =>
    simp only [Bool.false_eq_true, if_false, if_true]
    rw [hfin] at hsym; exact hsym
  | true =>
    simp only [if_true]
    rw [if_neg (by decide), if_pos (by decide)]
    rw [hfin] at hsym; exact hsym

end Opcua.Channel

namespace Opcua.Channel

theorem padHeader_pos (b : Nat) : 1 ≤ padHeader b ∧ padHeader b ≤ 2 := by
  unfold padHeader; split <;> omega

theorem pad_round (b x : Nat) (hb : 0 < b) : (x + (b - x % b) % b) % b = 0 ∧ (b - x % b) % b < b := by
  have hlt := Nat.mod_lt x hb
  refine ⟨?_, Nat.mod_lt _ hb⟩
  by_cases h : x % b = 0
  · simp [h]
  · rw [Nat.mod_eq_of_lt (show b - x % b < b by omega)]
    have h1 := Nat.div_add_mod x b
    have e : x + (b - x % b) = b * (x / b + 1) := by
      rw [Nat.mul_add, Nat.mul_one]; omega
    rw [e, Nat.mul_mod_right]

theorem block_lt_pow (b : Nat) (h : b ≤ 65536) : b ≤ 256 ^ padHeader b := by
  unfold padHeader; split <;> omega

/-- The room for a body in `SignAndEncrypt`, in natural numbers. -/
theorem maxBody_enc {S : Suite} (hS : S.Lawful) {send : Nat} (h : 0 < maxBody S .signAndEncrypt send) :
    16 ≤ send ∧ (maxBody S .signAndEncrypt send).toNat + 8 + padHeader S.block + S.sigSize
      = ((send - 16) / S.block) * S.block ∧
    maxBody S .signAndEncrypt send = ((maxBody S .signAndEncrypt send).toNat : Int) := by
  have hb := hS.block_pos
  have h16 : 16 ≤ send := by
    refine Decidable.byContradiction fun hlt => ?_
    unfold maxBody at h
    dsimp only at h
    have h1 : ((send : Int) - 16).tdiv S.block ≤ 0 := by
      rcases Nat.lt_or_ge send 16 with hl | hl
      · have e : ((send : Int) - 16) = -((16 - send : Nat) : Int) := by omega
        rw [e, Int.neg_tdiv]
        have := Int.tdiv_nonneg (Int.natCast_nonneg (16 - send)) (Int.natCast_nonneg S.block)
        omega
      · omega
    have h2 : ((send : Int) - 16).tdiv S.block * (S.block : Int) ≤ 0 :=
      Int.mul_nonpos_of_nonpos_of_nonneg h1 (Int.natCast_nonneg _)
    omega
  refine ⟨h16, ?_, by omega⟩
  have e : ((send : Int) - 16).tdiv S.block = (((send - 16) / S.block : Nat) : Int) := by
    have : ((send : Int) - 16) = ((send - 16 : Nat) : Int) := by omega
    rw [this]; exact (Int.ofNat_tdiv _ _).symm
  have e2 : maxBody S .signAndEncrypt send =
      (((send - 16) / S.block * S.block : Nat) : Int) - 8 - padHeader S.block - S.sigSize := by
    unfold maxBody; dsimp only; rw [e]; push_cast; rfl
  rw [e2] at h ⊢
  omega

structure PlanOk (S : Suite) (mode : Mode) (send n : Nat) (p : Plan) : Prop where
  pos : 0 < p.bodySize
  le : p.bodySize ≤ n
  size : p.chunkSize = 24 + p.bodySize + padLen S mode p.paddingSize + sigLen S mode
  fits : p.chunkSize ≤ send
  blocks : mode = .signAndEncrypt → (p.chunkSize - 16) % S.block = 0
  pad : mode = .signAndEncrypt → p.paddingSize < S.block

theorem plan_ok {S : Suite} (hS : S.Lawful) (mode : Mode) (send n : Nat) (hn : 0 < n)
    (hm : 0 < maxBody S mode send) (hnone : mode = .none → S.sigSize = 0) :
    PlanOk S mode send n (plan S mode send n) := by
  have hb := hS.block_pos
  by_cases he : mode = .signAndEncrypt
  · subst he
    obtain ⟨h16, hmb, hcast⟩ := maxBody_enc hS hm
    have hpl : ∀ x, padLen S .signAndEncrypt x = x + padHeader S.block := fun x => by simp [padLen]
    have hsl : sigLen S .signAndEncrypt = S.sigSize := by simp [sigLen]
    have hdm := Nat.div_mul_le_self (send - 16) S.block
    unfold plan
    dsimp only
    by_cases hlt : (n : Int) < maxBody S .signAndEncrypt send
    · rw [if_pos hlt]
      obtain ⟨hr, hpad⟩ := pad_round S.block (8 + n + padHeader S.block + S.sigSize) hb
      refine ⟨hn, Nat.le_refl _, ?_, ?_, fun _ => ?_, fun _ => hpad⟩
      · dsimp only; rw [hpl, hsl]; omega
      · dsimp only
        -- rounding up stays within the rounded-down buffer
        generalize hP : (S.block - (8 + n + padHeader S.block + S.sigSize) % S.block) % S.block = P at *
        generalize hX : 8 + n + padHeader S.block + S.sigSize = X at *
        have hXle : X ≤ (send - 16) / S.block * S.block := by omega
        have hXP : X + P ≤ (send - 16) / S.block * S.block := by
          obtain ⟨k, hk⟩ := Nat.dvd_of_mod_eq_zero hr
          have h1 : S.block * k < S.block * ((send - 16) / S.block + 1) := by
            rw [Nat.mul_add, Nat.mul_one, Nat.mul_comm S.block (_ / _)]; omega
          have h2 : k < (send - 16) / S.block + 1 := Nat.lt_of_mul_lt_mul_left h1
          have h3 : S.block * k ≤ S.block * ((send - 16) / S.block) := Nat.mul_le_mul_left _ (by omega)
          rw [Nat.mul_comm S.block (_ / _)] at h3
          omega
        omega
      · dsimp only
        rw [← hr]; congr 1; omega
    · rw [if_neg hlt]
      refine ⟨?_, ?_, ?_, ?_, fun _ => ?_, fun _ => hb⟩
      · dsimp only; omega
      · dsimp only; omega
      · dsimp only; rw [hpl, hsl]; omega
      · dsimp only; omega
      · dsimp only
        have : 16 + 8 + (maxBody S .signAndEncrypt send).toNat + 0 + padHeader S.block + S.sigSize - 16
            = (send - 16) / S.block * S.block := by omega
        rw [this, Nat.mul_mod_left]
  · have hmb : maxBody S mode send = (send : Int) - 16 - 8 - S.sigSize := by
      cases mode <;> first | rfl | exact absurd rfl he
    have hpe : plan S mode send n = ⟨if (n : Int) < maxBody S mode send then n else (maxBody S mode send).toNat, 0,
        16 + 8 + (if (n : Int) < maxBody S mode send then n else (maxBody S mode send).toNat) + 0 + 0 + S.sigSize⟩ := by
      cases mode <;> first | rfl | exact absurd rfl he
    have hpl : padLen S mode 0 = 0 := by simp [padLen, he]
    have hsl : sigLen S mode = S.sigSize := by
      unfold sigLen
      by_cases h : mode = .none
      · simp [h, hnone h]
      · simp [h]
    rw [hpe]
    refine ⟨?_, ?_, ?_, ?_, fun h => absurd h he, fun h => absurd h he⟩ <;> dsimp only <;> split <;> omega

/-- A chunk takes as much as there is, up to what a chunk can hold. -/
theorem plan_bodySize (S : Suite) (mode : Mode) (send n : Nat) :
    (plan S mode send n).bodySize = min n (maxBody S mode send).toNat := by
  unfold plan
  dsimp only
  split <;> split <;> dsimp only <;> omega

/-- Sequence numbers of consecutive draws. -/
def seqFrom (s : BitVec 32) : Nat → List (BitVec 32)
  | 0 => []
  | n + 1 => nextSeq s :: seqFrom (nextSeq s) n

/-- Everything the receiver relies on about a run of the send loop. -/
structure LoopOk (S : Suite) (cfg : Sender) (rid seq : BitVec 32) (body : Bytes) (r : SendRes) : Prop where
  sent : r.fin = .sent
  bodies : (r.chunks.map (fun c => c.1.body)).flatten = body
  fits : ∀ c ∈ r.chunks, c.1.Fits S cfg.mode c.2
  size : ∀ c ∈ r.chunks, c.2 ≤ cfg.send
  ids : ∀ c ∈ r.chunks, c.1.channelID = cfg.channelID ∧ c.1.tokenID = cfg.tokenID ∧ c.1.requestID = rid
  seqs : r.chunks.map (fun c => c.1.seq) = seqFrom seq r.chunks.length
  finals : body ≠ [] → ∃ l, r.chunks.map (fun c => c.1.final) = List.replicate l false ++ [true]
  empty : body = [] → r.chunks = []
  nonempty : ∀ c ∈ r.chunks, c.1.body ≠ []

theorem sendLoop_ok {S : Suite} (hS : S.Lawful) (cfg : Sender) (tl : Status) (rid : BitVec 32)
    (hm : 0 < maxBody S cfg.mode cfg.send) (hnone : cfg.mode = .none → S.sigSize = 0)
    (hsend : cfg.send < 2 ^ 32) (count : Nat) (seq : BitVec 32) (body : Bytes)
    (hlim : cfg.maxChunks = 0 ∨ body.length + count * (maxBody S cfg.mode cfg.send).toNat
      ≤ cfg.maxChunks * (maxBody S cfg.mode cfg.send).toNat) :
    LoopOk S cfg rid seq body (sendLoop S cfg tl rid count seq body) := by
  rw [sendLoop]
  by_cases hb : body.length = 0
  · have hb' : body = [] := List.eq_nil_of_length_eq_zero hb
    rw [dif_pos hb]
    exact ⟨rfl, by simp [hb'], by simp, by simp, by simp, rfl, fun h => absurd hb' h, fun _ => rfl, by simp⟩
  · have hlt : cfg.maxChunks = 0 ∨ count < cfg.maxChunks := by
      rcases hlim with h0 | h0
      · exact Or.inl h0
      · exact Or.inr (Nat.lt_of_mul_lt_mul_right (a := (maxBody S cfg.mode cfg.send).toNat) (by omega))
    rw [dif_neg hb, if_neg (by omega)]
    have hp := plan_ok hS cfg.mode cfg.send body.length (by omega) hm hnone
    have hps := plan_bodySize S cfg.mode cfg.send body.length
    dsimp only
    rw [dif_neg (by have := hp.pos; omega)]
    have hbp := block_lt_pow S.block hS.block_le
    have htl : (body.take (plan S cfg.mode cfg.send body.length).bodySize).length = (plan S cfg.mode cfg.send body.length).bodySize := by
      rw [List.length_take]; have := hp.le; omega
    have ih := sendLoop_ok hS cfg tl rid hm hnone hsend (count + 1) (nextSeq seq)
      (body.drop (plan S cfg.mode cfg.send body.length).bodySize)
      (by
        rcases hlim with h0 | h0
        · exact Or.inl h0
        · rcases hlt with h1 | h1
          · exact Or.inl h1
          · right
            have h2 : (count + 1) * (maxBody S cfg.mode cfg.send).toNat ≤ cfg.maxChunks * (maxBody S cfg.mode cfg.send).toNat :=
              Nat.mul_le_mul_right _ h1
            rw [List.length_drop, hps]
            rw [Nat.add_mul, Nat.one_mul] at h2 ⊢
            omega)
    generalize hP : plan S cfg.mode cfg.send body.length = p at *
    generalize hR : sendLoop S cfg tl rid (count + 1) (nextSeq seq) (body.drop p.bodySize) = r at *
    refine ⟨ih.sent, ?_, ?_, ?_, ?_, ?_, ?_, fun h => absurd (by simp [h]) hb, ?_⟩
    · simp only [List.map_cons, List.flatten_cons, ih.bodies, List.take_append_drop]
    · intro c hc
      rcases List.mem_cons.1 hc with rfl | hc
      · refine ⟨?_, ?_, hnone, hp.blocks, fun he => ?_⟩
        · dsimp only; rw [hp.size, htl]
        · have := hp.fits; dsimp only; omega
        · have := hp.pad he; dsimp only; omega
      · exact ih.fits c hc
    · intro c hc
      rcases List.mem_cons.1 hc with rfl | hc
      · exact hp.fits
      · exact ih.size c hc
    · intro c hc
      rcases List.mem_cons.1 hc with rfl | hc
      · exact ⟨rfl, rfl, rfl⟩
      · exact ih.ids c hc
    · simp only [List.map_cons, ih.seqs, List.length_cons, seqFrom]
    · intro _
      by_cases hd : body.drop p.bodySize = []
      · refine ⟨0, ?_⟩
        have := ih.empty hd
        have hlen : (body.drop p.bodySize).length = 0 := by rw [hd]; rfl
        rw [List.length_drop] at hlen
        simp [this]; omega
      · obtain ⟨l, hl⟩ := ih.finals hd
        refine ⟨l + 1, ?_⟩
        have hlen : 0 < (body.drop p.bodySize).length := List.length_pos_iff.2 hd
        rw [List.length_drop] at hlen
        simp only [List.map_cons, hl, List.replicate_succ, List.cons_append]
        congr 1
        simp; omega
    · intro c hc
      rcases List.mem_cons.1 hc with rfl | hc
      · dsimp only
        intro h0
        have := hp.pos
        rw [h0] at htl
        simp at htl; omega
      · exact ih.nonempty c hc
termination_by body.length
decreasing_by
  rw [List.length_drop]
  have := (plan_ok hS cfg.mode cfg.send body.length (by omega) hm hnone).pos
  omega

/-- The other outcome of the loop: the body needs more chunks than are allowed. All the allowed
chunks are on the wire by then, none of them final. -/
theorem sendLoop_over (S : Suite) (cfg : Sender) (tl : Status) (rid : BitVec 32)
    (hm : 0 < maxBody S cfg.mode cfg.send) (count : Nat) (seq : BitVec 32) (body : Bytes)
    (h0 : 0 < cfg.maxChunks) (hc : count ≤ cfg.maxChunks)
    (hlim : cfg.maxChunks * (maxBody S cfg.mode cfg.send).toNat
      < body.length + count * (maxBody S cfg.mode cfg.send).toNat) :
    (sendLoop S cfg tl rid count seq body).fin = .failed tl ∧
    (sendLoop S cfg tl rid count seq body).chunks.map (fun c => (c.1.requestID, c.1.final)) =
      List.replicate (cfg.maxChunks - count) (rid, false) := by
  have hbpos : 0 < body.length := by
    have := Nat.mul_le_mul_right (maxBody S cfg.mode cfg.send).toNat hc
    omega
  rw [sendLoop, dif_neg (by omega)]
  by_cases hcc : count = cfg.maxChunks
  · rw [if_pos (by omega)]
    subst hcc
    exact ⟨rfl, by simp⟩
  · rw [if_neg (by omega)]
    have hps := plan_bodySize S cfg.mode cfg.send body.length
    have hlong : (maxBody S cfg.mode cfg.send).toNat < body.length := by
      have := Nat.mul_le_mul_right (maxBody S cfg.mode cfg.send).toNat (show count + 1 ≤ cfg.maxChunks by omega)
      rw [Nat.add_mul, Nat.one_mul] at this
      omega
    dsimp only
    rw [dif_neg (by omega)]
    have ih := sendLoop_over S cfg tl rid hm (count + 1) (nextSeq seq)
      (body.drop (plan S cfg.mode cfg.send body.length).bodySize) h0 (by omega)
      (by
        rw [List.length_drop, hps, Nat.add_mul, Nat.one_mul]
        omega)
    generalize plan S cfg.mode cfg.send body.length = p at *
    generalize sendLoop S cfg tl rid (count + 1) (nextSeq seq) (body.drop p.bodySize) = r at *
    refine ⟨ih.1, ?_⟩
    rw [List.map_cons, ih.2, show cfg.maxChunks - count = (cfg.maxChunks - (count + 1)) + 1 by omega, List.replicate_succ]
    congr 1
    dsimp only
    congr 1
    simp; omega
termination_by body.length
decreasing_by
  rw [List.length_drop]
  have := plan_bodySize S cfg.mode cfg.send body.length
  omega

theorem switchToken_same {kdf : Bytes → Bytes → Bytes} {ch ch' : Chan} {t : BitVec 32} (h : switchToken kdf ch t = .ok ch') :
    ch'.tokenID = t ∧ switchToken kdf ch' t = .ok ch' ∧ ch'.channelID = ch.channelID ∧ ch'.mode = ch.mode := by
  unfold switchToken at h
  split at h
  · rename_i e
    cases h
    exact ⟨e, by unfold switchToken; rw [if_pos e], rfl, rfl⟩
  · split at h
    · cases h
    · rename_i e
      have e : t = ch.pendingTokenID := Decidable.not_not.1 e
      split at h <;> cases h <;> exact ⟨e.symm, by unfold switchToken; rw [if_pos e.symm], rfl, rfl⟩

/-- The receive loop over the frames of a run of the send loop. -/
theorem recvLoop_chunks {S : Suite} (hS : S.Lawful) (kdf : Bytes → Bytes → Bytes) (lim : Limits) (key : Bytes)
    (rid : BitVec 32) (tok cid : BitVec 32) (rest : List Bytes) :
    ∀ (cs : List (Chunk × Nat)) (ch ch' : Chan) (count : Nat) (acc : Bytes),
      (∀ c ∈ cs, c.1.Fits S ch.mode c.2) →
      (∀ c ∈ cs, c.1.channelID = cid ∧ c.1.tokenID = tok ∧ c.1.requestID = rid) →
      cid = ch.channelID → switchToken kdf ch tok = .ok ch' → (ch.mode ≠ .none → ch'.recvKey = some key) →
      (∃ l, cs.map (fun c => c.1.final) = List.replicate l false ++ [true]) →
      (lim.maxChunks.toInt ≤ 0 ∨ (count + cs.length : Int) ≤ lim.maxChunks.toInt) →
      (lim.maxMessage.toNat = 0 ∨ acc.length + ((cs.map (fun c => c.1.body)).flatten).length ≤ lim.maxMessage.toNat) →
      recvLoop S kdf lim ch count acc (cs.map (fun c => sealChunk S ch.mode key c.2 c.1) ++ rest)
        = .ok (ch', ⟨rid, acc ++ (cs.map (fun c => c.1.body)).flatten⟩, rest) := by
  intro cs
  induction cs with
  | nil => intro ch ch' count acc _ _ _ _ _ ⟨l, hl⟩; simp at hl
  | cons c cs ih =>
    intro ch ch' count acc hfit hids hcid hsw hk hfin hlc hlm
    have hc := hids c (by simp)
    have hop := openFrame_seal hS kdf ch ch' key c.2 c.1 (hfit c (by simp)) (hc.1.trans hcid)
      (by rw [hc.2.1]; exact hsw) hk
    obtain ⟨ht, hsame, hcid', hmode'⟩ := switchToken_same hsw
    simp only [List.map_cons, List.cons_append]
    rw [recvLoop]
    simp only [List.length_cons] at hlc
    rw [if_neg (by omega), hop]
    dsimp only
    simp only [List.map_cons, List.flatten_cons, List.length_append] at hlm
    rw [if_neg (by rw [List.length_append]; omega)]
    obtain ⟨l, hl⟩ := hfin
    cases l with
    | zero =>
      simp only [List.replicate_zero, List.nil_append, List.map_cons, List.cons.injEq] at hl
      have hcs : cs = [] := by simpa using hl.2
      subst hcs
      rw [if_pos hl.1]
      simp [hc.2.2]
    | succ l =>
      simp only [List.replicate_succ, List.cons_append, List.map_cons, List.cons.injEq] at hl
      rw [if_neg (by simp [hl.1])]
      have := ih ch' ch' (count + 1) (acc ++ c.1.body) (fun d hd => by rw [hmode']; exact hfit d (by simp [hd]))
        (fun d hd => hids d (by simp [hd])) (hcid.trans hcid'.symm) hsame (by rw [hmode']; exact hk)
        ⟨l, hl.2⟩ (by push_cast; omega) (by rw [List.length_append]; omega)
      rw [hmode'] at this
      rw [this]
      simp

end Opcua.Channel

namespace Opcua.Channel

theorem openSym_ok_iff {S : Suite} {kdf : Bytes → Bytes → Bytes} {ch ch' : Chan} {fin : Bool} {frame : Bytes} {g : Frag} :
    openSym S kdf ch fin frame = .ok (ch', g) ↔
    ∃ tok data, u32At frame 8 = some ch.channelID ∧ u32At frame 12 = some tok ∧
      switchToken kdf ch tok = .ok ch' ∧ decryptFrame S ch'.mode ch'.recvKey frame = .ok data ∧
      verifyFrame S ch'.mode ch'.recvKey data = .ok () ∧ fragOf S ch'.mode fin data = .ok g := by
  constructor
  · intro h
    unfold openSym at h
    split at h
    · cases h
    · rename_i cid h8
      split at h
      · cases h
      · rename_i hc
        split at h
        · cases h
        · rename_i tok h12
          split at h
          · cases h
          · cases h
          · rename_i ch1 hsw
            split at h
            · cases h
            · cases h
            · rename_i data hdec
              split at h
              · cases h
              · cases h
              · rename_i hver
                split at h
                · cases h
                · cases h
                · rename_i f hfr
                  cases h
                  exact ⟨tok, data, by rw [h8, Decidable.not_not.1 hc], h12, hsw, hdec, hver, hfr⟩
  · rintro ⟨tok, data, h8, h12, hsw, hdec, hver, hfr⟩
    unfold openSym
    rw [h8]; dsimp only
    rw [if_neg (by simp), h12]; dsimp only
    rw [hsw]; dsimp only
    rw [hdec]; dsimp only
    rw [hver]; dsimp only
    rw [hfr]

theorem openFrame_ok_iff {S : Suite} {kdf : Bytes → Bytes → Bytes} {ch ch' : Chan} {frame : Bytes} {g : Frag} :
    openFrame S kdf ch frame = .ok (ch', g) ↔
    ∃ ty len, u32At frame 0 = some ty ∧ u32At frame 4 = some len ∧ frame.length = len.toNat ∧
      (ty = tyChunk ∨ ty = tyFinal ∨ ty = tyClose) ∧
      openSym S kdf ch (decide (ty ≠ tyChunk)) frame = .ok (ch', g) := by
  constructor
  · intro h
    unfold openFrame at h
    split at h
    · rename_i ty len h0 h4
      split at h
      · cases h
      · rename_i hl
        split at h
        · rename_i ht
          exact ⟨ty, len, h0, h4, Decidable.not_not.1 hl, Or.inl ht, by rw [decide_eq_false (by simp [ht])]; exact h⟩
        · rename_i ht
          split at h
          · rename_i ht2
            exact ⟨ty, len, h0, h4, Decidable.not_not.1 hl, Or.inr ht2, by rw [decide_eq_true ht]; exact h⟩
          · cases h
    · cases h
  · rintro ⟨ty, len, h0, h4, hl, ht, h⟩
    unfold openFrame
    rw [h0, h4]; dsimp only
    rw [if_neg (by simp [hl])]
    by_cases h1 : ty = tyChunk
    · rw [if_pos h1]; rw [decide_eq_false (by simp [h1])] at h; exact h
    · rw [if_neg h1, if_pos (by rcases ht with e | e; exact absurd e h1; exact e)]
      rw [decide_eq_true h1] at h; exact h

end Opcua.Channel
