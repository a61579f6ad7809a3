import Verif.Model.Password
import Verif.Lemmas.Bytes
import Verif.Props.OpenChannel

/-!
# C42, C82: user name tokens
-/

namespace Opcua.Password

open Opcua Opcua.Channel

theorem blocks_nil (size : Nat) (stale : Bytes) : blocks size stale [] = [] := by
  rw [blocks]; simp

theorem blocks_cons {size : Nat} (hs : 0 < size) (stale p : Bytes) (hp : p ≠ []) :
    blocks size stale p
      = (p.take size ++ stale.drop p.length)
        :: blocks size (p.take size ++ stale.drop p.length) (p.drop size) := by
  rw [blocks]
  have : ¬ (p = [] ∨ size = 0) := by
    rintro (h | h)
    · exact hp h
    · omega
  rw [dif_neg this]

theorem block_length {size : Nat} (stale p : Bytes) (hst : stale.length = size) :
    (p.take size ++ stale.drop p.length).length = size := by
  simp only [List.length_append, List.length_take, List.length_drop]; omega

theorem blocks_length (size : Nat) (hs : 0 < size) (n : Nat) : ∀ (stale p : Bytes), p.length ≤ n →
    stale.length = size → ∀ b ∈ blocks size stale p, b.length = size := by
  induction n with
  | zero =>
    intro stale p h _ b hb
    have : p = [] := List.length_eq_zero_iff.1 (by omega)
    rw [this, blocks_nil] at hb
    cases hb
  | succ n ih =>
    intro stale p h hst b hb
    by_cases hp : p = []
    · rw [hp, blocks_nil] at hb; cases hb
    · rw [blocks_cons hs stale p hp] at hb
      have hp' : 0 < p.length := List.length_pos_iff.2 hp
      rcases List.mem_cons.1 hb with e | hb
      · rw [e]; exact block_length stale p hst
      · refine ih _ _ ?_ (block_length stale p hst) b hb
        rw [List.length_drop]; omega

/-- The blocks carry the text, then possibly some more bytes. -/
theorem blocks_flatten (size : Nat) (hs : 0 < size) (n : Nat) : ∀ (stale p : Bytes), p.length ≤ n →
    stale.length = size → ∃ t, (blocks size stale p).flatten = p ++ t := by
  induction n with
  | zero =>
    intro stale p h _
    have : p = [] := List.length_eq_zero_iff.1 (by omega)
    exact ⟨[], by rw [this, blocks_nil]; rfl⟩
  | succ n ih =>
    intro stale p h hst
    by_cases hp : p = []
    · exact ⟨[], by rw [hp, blocks_nil]; rfl⟩
    · have hp' : 0 < p.length := List.length_pos_iff.2 hp
      have hbl := block_length stale p hst
      rw [blocks_cons hs stale p hp, List.flatten_cons]
      by_cases hl : p.length ≤ size
      · refine ⟨stale.drop p.length, ?_⟩
        rw [List.drop_eq_nil_of_le hl, blocks_nil, List.take_of_length_le hl]
        simp
      · obtain ⟨t, ht⟩ := ih _ (p.drop size) (by rw [List.length_drop]; omega) hbl
        refine ⟨t, ?_⟩
        have e : stale.drop p.length = [] := List.drop_eq_nil_of_le (by omega)
        rw [ht, e, List.append_nil, ← List.append_assoc, List.take_append_drop]

/-- Whole blocks are read back as they were written. -/
theorem blocks_of_flatten (size : Nat) (hs : 0 < size) (bs : List Bytes) :
    ∀ stale : Bytes, stale.length = size → (∀ b ∈ bs, b.length = size) →
      blocks size stale bs.flatten = bs := by
  induction bs with
  | nil => intro stale _ _; exact blocks_nil _ _
  | cons b bs ih =>
    intro stale hst hb
    have hbl : b.length = size := hb b (by simp)
    have hne : (b :: bs).flatten ≠ [] := by
      intro e
      have := congrArg List.length e
      simp only [List.flatten_cons, List.length_append, List.length_nil] at this
      omega
    rw [blocks_cons hs stale _ hne]
    have e1 : (b :: bs).flatten.take size ++ stale.drop (b :: bs).flatten.length = b := by
      rw [List.flatten_cons, List.take_append_of_le_length (by omega),
        List.take_of_length_le (by omega), List.drop_eq_nil_of_le (by rw [List.length_append]; omega),
        List.append_nil]
    have e2 : (b :: bs).flatten.drop size = bs.flatten := by
      rw [List.flatten_cons, ← hbl, List.drop_left]
    rw [e1, e2, ih b hbl (fun c hc => hb c (List.mem_cons_of_mem _ hc))]

theorem decAll_enc (A : ASuite) (hA : A.Lawful) (bs : List Bytes)
    (h : ∀ b ∈ bs, b.length = A.plainBlock) : decAll A.decB (bs.map A.encB) = some bs.flatten := by
  induction bs with
  | nil => rfl
  | cons b bs ih =>
    rw [List.map_cons, decAll, hA.dec_enc b (h b (by simp))]
    dsimp only
    rw [ih (fun c hc => h c (List.mem_cons_of_mem _ hc))]
    rfl

/-- What the server decrypts starts with what the client encrypted. -/
theorem decrypt_client (A : ASuite) (hA : A.Lawful) (pw nonce : Bytes) :
    ∃ t, decAll A.decB (blocks A.cipherBlock (List.replicate A.cipherBlock 0) (clientToken A pw nonce))
      = some (secret pw nonce ++ t) := by
  have hp := hA.plain_pos
  have hc : 0 < A.cipherBlock := Nat.lt_of_lt_of_le hp hA.plain_le
  have hl := blocks_length A.plainBlock hp _ (List.replicate A.plainBlock 0) (secret pw nonce)
    (Nat.le_refl _) (by simp)
  obtain ⟨t, ht⟩ := blocks_flatten A.plainBlock hp _ (List.replicate A.plainBlock 0) (secret pw nonce)
    (Nat.le_refl _) (by simp)
  refine ⟨t, ?_⟩
  unfold clientToken
  rw [List.flatMap_def, blocks_of_flatten A.cipherBlock hc _ _ (by simp)]
  · rw [decAll_enc A hA _ hl, ht]
  · intro b hb
    obtain ⟨x, hx, rfl⟩ := List.mem_map.1 hb
    exact hA.enc_length x (hl x hx)

/-- Reading back a secret. -/
theorem parseSecret_secret (pw nonce t : Bytes) (hn : nonce.length = 32) (hpw : pw.length ≤ 64) :
    parseSecret (secret pw nonce ++ t) = .password pw := by
  unfold parseSecret secret
  have e1 : ¬ (leBytes 4 (pw.length + nonce.length) ++ (pw ++ nonce) ++ t).length < 4 := by
    simp only [List.length_append, leBytes_length]; omega
  have e2 : (leBytes 4 (pw.length + nonce.length) ++ (pw ++ nonce) ++ t).take 4
      = leBytes 4 (pw.length + nonce.length) := by
    rw [List.append_assoc, List.take_append_of_le_length (by rw [leBytes_length]; omega),
      List.take_of_length_le (by rw [leBytes_length]; omega)]
  have e3 : (leBytes 4 (pw.length + nonce.length) ++ (pw ++ nonce) ++ t).drop 4 = pw ++ (nonce ++ t) := by
    rw [List.append_assoc, List.append_assoc]
    exact List.drop_left' (leBytes_length _ _)
  rw [if_neg e1, e2, e3, leVal_leBytes, Nat.mod_eq_of_lt (by omega), hn]
  dsimp only
  rw [if_neg (by omega), Nat.add_sub_cancel]
  unfold readFilled
  have : pw.length - (pw ++ (nonce ++ t)).length = 0 := by rw [List.length_append]; omega
  rw [List.take_left, this]
  simp

/-- **C42 (the honest client).** With a server key whose private exponent is as long as its modulus,
a password of at most 64 bytes reaches the authenticator unchanged. -/
theorem C42_roundtrip_partial (A : ASuite) (hA : A.Lawful) (alg pw nonce : Bytes)
    (hn : nonce.length = 32) (hpw : pw.length ≤ 64) :
    serverToken A A.cipherBlock nonce alg alg (clientToken A pw nonce) = .password pw := by
  obtain ⟨t, ht⟩ := decrypt_client A hA pw nonce
  unfold serverToken
  rw [if_neg (by simp), ht]
  exact parseSecret_secret pw nonce t hn hpw

/-- The hypotheses can be met by a secret that takes two blocks. -/
example : toyA.Lawful ∧ (List.replicate 32 (7 : UInt8)).length = 32
    ∧ (List.replicate 64 (65 : UInt8)).length ≤ 64
    ∧ (blocks 53 (List.replicate 53 0) (secret (List.replicate 64 65) (List.replicate 32 7))).length = 2 :=
  ⟨toyA_lawful, by decide, by decide, by decide +kernel⟩

/-- The number in the first four bytes of a string, little end first. -/
def lengthField (plain : Bytes) : Option Nat :=
  match plain with
  | a :: b :: c :: d :: _ => some (a.toNat + 256 * (b.toNat + 256 * (c.toNat + 256 * d.toNat)))
  | _ => none

theorem parseSecret_eq (plain : Bytes) :
    parseSecret plain =
      match lengthField plain with
      | none => .rejected
      | some n => if 32 ≤ n ∧ n ≤ 96 then .password (readFilled (n - 32) (plain.drop 4)) else .rejected := by
  unfold parseSecret lengthField
  rcases plain with _ | ⟨a, _ | ⟨b, _ | ⟨c, _ | ⟨d, r⟩⟩⟩⟩
  · rfl
  · rfl
  · rfl
  · rfl
  · have e : leVal (List.take 4 (a :: b :: c :: d :: r))
        = a.toNat + 256 * (b.toNat + 256 * (c.toNat + 256 * d.toNat)) := by
      simp [leVal]
    have e0 : ¬ (a :: b :: c :: d :: r).length < 4 := by simp
    simp only [if_neg e0, e]
    generalize a.toNat + 256 * (b.toNat + 256 * (c.toNat + 256 * d.toNat)) = n
    by_cases h : n < 32 ∨ 96 < n
    · rw [if_pos h, if_neg (by omega)]
    · rw [if_neg h, if_pos (by omega)]

/-- **C42 (malformed length fields).** A secret is refused exactly if its length field is missing, is
shorter than a nonce, or is longer than a nonce and a password of 64 bytes. -/
theorem C42_malformed (plain : Bytes) :
    parseSecret plain = .rejected ↔
      ∀ n, lengthField plain = some n → n < 32 ∨ 96 < n := by
  rw [parseSecret_eq]
  cases h : lengthField plain with
  | none => simp
  | some n =>
    dsimp only
    by_cases hn : 32 ≤ n ∧ n ≤ 96
    · rw [if_pos hn]
      constructor
      · intro h; cases h
      · intro h; have := h n rfl; omega
    · rw [if_neg hn]
      constructor
      · intro _ m hm; cases hm; omega
      · intro _; rfl

example : parseSecret [97, 0, 0, 0, 1] = .rejected ∧ parseSecret [31, 0, 0, 0] = .rejected
    ∧ parseSecret [32, 0, 0] = .rejected ∧ parseSecret [33, 0, 0, 0, 5] = .password [5] := by decide

/-- **C42 (the password).** If the length field counts a password and a nonce of 32 bytes, then the
password handed on is exactly what stands between the length field and the nonce. -/
theorem C42_password_partial (A : ASuite) (dSize : Nat) (issued expected algorithm token : Bytes)
    (f pw nonce rest : Bytes) (n : Nat)
    (hd : decAll A.decB (blocks dSize (List.replicate dSize 0) token) = some (f ++ (pw ++ (nonce ++ rest))))
    (hf : f.length = 4) (hl : lengthField f = some n) (hn : nonce.length = 32)
    (hlen : n = pw.length + nonce.length) (got : Bytes)
    (h : serverToken A dSize issued expected algorithm token = .password got) : got = pw := by
  unfold serverToken at h
  by_cases ha : algorithm ≠ expected
  · rw [if_pos ha] at h; cases h
  rw [if_neg ha, hd] at h
  dsimp only at h
  rw [parseSecret_eq] at h
  have hl' : lengthField (f ++ (pw ++ (nonce ++ rest))) = some n := by
    rcases f with _ | ⟨a, _ | ⟨b, _ | ⟨c, _ | ⟨d, r⟩⟩⟩⟩ <;> simp_all [lengthField]
  rw [hl'] at h
  dsimp only at h
  by_cases hr : 32 ≤ n ∧ n ≤ 96
  · rw [if_pos hr] at h
    have e : (f ++ (pw ++ (nonce ++ rest))).drop 4 = pw ++ (nonce ++ rest) := List.drop_left' hf
    rw [e, show n - 32 = pw.length by omega] at h
    unfold readFilled at h
    have e2 : pw.length - (pw ++ (nonce ++ rest)).length = 0 := by rw [List.length_append]; omega
    rw [List.take_left, e2] at h
    injection h with h
    simpa using h.symm
  · rw [if_neg hr] at h; cases h

example : decAll toyA.decB (blocks 64 (List.replicate 64 0) (clientToken toyA [1, 2, 3] (List.replicate 32 9)))
    = some ([35, 0, 0, 0] ++ ([1, 2, 3] ++ (List.replicate 32 9 ++ List.replicate 14 0)))
    ∧ lengthField [35, 0, 0, 0] = some 35
    ∧ serverToken toyA 64 [] [1] [1] (clientToken toyA [1, 2, 3] (List.replicate 32 9)) = .password [1, 2, 3] := by
  decide +kernel

/-- **C42 (the algorithm).** Under a policy that encrypts, a token that names another algorithm never
reaches the authenticator. -/
theorem C42_algorithm (A : ASuite) (dSize : Nat) (issued expected algorithm token : Bytes)
    (h : algorithm ≠ expected) : serverToken A dSize issued expected algorithm token = .invalid := by
  unfold serverToken; rw [if_pos h]

example : serverToken toyA 64 [] [1] [] [104, 105] = .invalid := C42_algorithm _ _ _ _ _ _ (by decide)

/-- **C42 fails (the nonce).** A token that was made for any nonce at all is accepted whatever nonce
the server has issued: an observed token can be replayed. -/
theorem C42_replay_fails (A : ASuite) (hA : A.Lawful) (alg pw nonce issued : Bytes)
    (hn : nonce.length = 32) (hpw : pw.length ≤ 64) :
    serverToken A A.cipherBlock issued alg alg (clientToken A pw nonce) = .password pw := by
  obtain ⟨t, ht⟩ := decrypt_client A hA pw nonce
  unfold serverToken
  rw [if_neg (by simp), ht]
  exact parseSecret_secret pw nonce t hn hpw

example : serverToken toyA 64 (List.replicate 32 1) [1] [1] (clientToken toyA [115] (List.replicate 32 2))
    = .password [115] ∧ List.replicate 32 (1 : UInt8) ≠ List.replicate 32 2 := by decide +kernel

/-- **C42 fails (bytes that were not sent).** A secret that stops after its length field is accepted,
with zero bytes for the password. -/
theorem C42_zero_fill_fails (k : Nat) (hk : k ≤ 64) :
    parseSecret (leBytes 4 (32 + k)) = .password (List.replicate k 0) := by
  rw [parseSecret]
  have e : ¬ (leBytes 4 (32 + k)).length < 4 := by rw [leBytes_length]; omega
  have e2 : (leBytes 4 (32 + k)).take 4 = leBytes 4 (32 + k) :=
    List.take_of_length_le (by rw [leBytes_length]; omega)
  have e3 : (leBytes 4 (32 + k)).drop 4 = [] := List.drop_eq_nil_of_le (by rw [leBytes_length]; omega)
  rw [if_neg e, e2, e3, leVal_leBytes, Nat.mod_eq_of_lt (by omega)]
  rw [if_neg (by omega), Nat.add_sub_cancel_left]
  simp [readFilled]

example : parseSecret [40, 0, 0, 0] = .password [0, 0, 0, 0, 0, 0, 0, 0] := by decide

/-- **C42 fails (long passwords).** The honest token of a password longer than 64 bytes is refused,
though the client sends it. -/
theorem C42_long_fails (A : ASuite) (hA : A.Lawful) (alg pw nonce : Bytes) (hn : nonce.length = 32)
    (hpw : 64 < pw.length) (hpw' : pw.length + 32 < 2 ^ 32) :
    serverToken A A.cipherBlock nonce alg alg (clientToken A pw nonce) = .rejected := by
  obtain ⟨t, ht⟩ := decrypt_client A hA pw nonce
  unfold serverToken
  rw [if_neg (by simp), ht]
  dsimp only
  rw [parseSecret]
  have e1 : ¬ (secret pw nonce ++ t).length < 4 := by
    simp only [secret, List.length_append, leBytes_length]; omega
  have e2 : (secret pw nonce ++ t).take 4 = leBytes 4 (pw.length + nonce.length) := by
    unfold secret
    rw [List.append_assoc, List.take_append_of_le_length (by rw [leBytes_length]; omega),
      List.take_of_length_le (by rw [leBytes_length]; omega)]
  rw [if_neg e1, e2, leVal_leBytes, Nat.mod_eq_of_lt (by omega), hn]
  rw [if_pos (by omega)]

example : serverToken toyA 64 (List.replicate 32 1) [1] [1]
    (clientToken toyA (List.replicate 65 115) (List.replicate 32 1)) = .rejected := by decide +kernel

/-- **C82 (keys).** A password login works with every server key whose private exponent is as long as
its modulus, whatever the sizes are. -/
theorem C82_full_exponent_partial (A : ASuite) (hA : A.Lawful) (dSize : Nat) (hd : dSize = A.cipherBlock)
    (alg pw nonce : Bytes) (hn : nonce.length = 32) (hpw : pw.length ≤ 64) :
    serverToken A dSize nonce alg alg (clientToken A pw nonce) = .password pw := by
  rw [hd]; exact C42_roundtrip_partial A hA alg pw nonce hn hpw

/-- **C82 fails.** If the private exponent is shorter than the modulus, the cipher text is read in
blocks that are too short. With a cipher that refuses such blocks every encrypted password login ends
the connection, although the key is in order and the channel works with it. -/
theorem C82_short_exponent_fails (A : ASuite) (hA : A.Lawful)
    (hlen : ∀ c, c.length ≠ A.cipherBlock → A.decB c = none)
    (dSize : Nat) (hd0 : 0 < dSize) (hd : dSize < A.cipherBlock) (alg pw nonce : Bytes) :
    serverToken A dSize nonce alg alg (clientToken A pw nonce) = .connectionEnds := by
  have hp := hA.plain_pos
  have hsec : secret pw nonce ≠ [] := by
    intro e
    have := congrArg List.length e
    simp only [secret, List.length_append, leBytes_length, List.length_nil] at this
    omega
  have htok : clientToken A pw nonce ≠ [] := by
    intro e
    unfold clientToken at e
    rw [blocks_cons hp _ _ hsec, List.flatMap_cons] at e
    have := congrArg List.length e
    rw [List.length_append, hA.enc_length _ (block_length _ _ (by simp))] at this
    simp only [List.length_nil] at this
    omega
  unfold serverToken
  rw [if_neg (by simp), blocks_cons hd0 _ _ htok, decAll, hlen]
  rw [block_length _ _ (by simp)]
  omega

/-- A lawful suite that refuses blocks of another length. -/
def strictA : ASuite := { toyA with decB := fun c => if c.length = 64 then some (c.take 53) else none }

theorem strictA_lawful : strictA.Lawful :=
  { toyA_lawful with
    dec_enc := by
      intro x h
      have h53 : x.length = 53 := h
      show (if (toyA.encB x).length = 64 then some ((toyA.encB x).take 53) else none) = some x
      rw [if_pos (show (toyA.encB x).length = 64 from toyA_lawful.enc_length x h)]
      exact toyA_lawful.dec_enc x h }

example : (∀ c, c.length ≠ strictA.cipherBlock → strictA.decB c = none)
    ∧ serverToken strictA 63 [] [1] [1] (clientToken strictA [115] (List.replicate 32 2)) = .connectionEnds
    ∧ serverToken strictA 64 [] [1] [1] (clientToken strictA [115] (List.replicate 32 2)) = .password [115] :=
  ⟨fun c h => if_neg h, by decide +kernel, by decide +kernel⟩

end Opcua.Password
