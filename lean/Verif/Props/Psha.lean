import Verif.Model.Psha
import Verif.Lemmas.Bytes

/-! Property C28: key derivation. -/
namespace Opcua.Psha

/-- P_hash of RFC 5246 section 5, written from the RFC: A(0) = seed, A(i) = HMAC(A(i-1)), the
output is HMAC(A(1) ‖ seed) ‖ HMAC(A(2) ‖ seed) ‖ … -/
def specA (hmac : Bytes → Bytes) (seed : Bytes) : Nat → Bytes
  | 0 => seed
  | i + 1 => hmac (specA hmac seed i)

def specStream (hmac : Bytes → Bytes) (seed : Bytes) : Nat → Bytes
  | 0 => []
  | k + 1 => specStream hmac seed k ++ hmac (specA hmac seed (k + 1) ++ seed)

theorem specStream_length (hmac : Bytes → Bytes) (size : Nat) (h : ∀ x, (hmac x).length = size) (seed : Bytes) (k : Nat) :
    (specStream hmac seed k).length = size * k := by
  induction k with
  | zero => rfl
  | succ k ih => rw [specStream, List.length_append, ih, h, Nat.mul_succ]

theorem specStream_prefix (hmac : Bytes → Bytes) (seed : Bytes) (k j : Nat) (h : k ≤ j) :
    ∃ t, specStream hmac seed j = specStream hmac seed k ++ t := by
  induction j with
  | zero => exact ⟨[], by rw [Nat.le_zero.1 h]; rfl⟩
  | succ j ih =>
    rcases Nat.lt_or_ge j k with hlt | hge
    · have : k = j + 1 := by omega
      exact ⟨[], by rw [this]; simp⟩
    · obtain ⟨t, ht⟩ := ih hge
      exact ⟨t ++ hmac (specA hmac seed (j + 1) ++ seed), by rw [specStream, ht, List.append_assoc]⟩

theorem loop_spec (hmac : Bytes → Bytes) (size : Nat) (hs : 0 < size) (h : ∀ x, (hmac x).length = size) (seed : Bytes) (n : Nat) :
    ∀ (k i : Nat) (output : Bytes), size * (i + k) < n + size → (k = 0 ∨ size * (i + k - 1) < n) → output.length = n →
      output.take (min (size * i) n) = (specStream hmac seed i).take n →
      (loop hmac size seed n k i (specA hmac seed i) output).length = n ∧
      (loop hmac size seed n k i (specA hmac seed i) output).take (min (size * (i + k)) n) = (specStream hmac seed (i + k)).take n := by
  intro k
  induction k with
  | zero => intro i output _ _ hl ht; exact ⟨hl, ht⟩
  | succ k ih =>
    intro i output hb hlt hl ht
    rw [loop]
    have hA : hmac (specA hmac seed i) = specA hmac seed (i + 1) := rfl
    rw [hA]
    have hm : size * i < n := by
      rcases hlt with h0 | h0
      · omega
      · have : size * i ≤ size * (i + (k + 1) - 1) := Nat.mul_le_mul_left _ (by omega)
        omega
    have hst := specStream_length hmac size h seed i
    have hst' := specStream_length hmac size h seed (i + 1)
    have hsucc : size * (i + 1) = size * i + size := Nat.mul_succ _ _
    generalize hw : (if n - size * i > size then size else n - size * i) = w
    have hwle : w ≤ size ∧ w ≤ n - size * i ∧ (w = size ∨ w = n - size * i) := by
      rw [← hw]; split <;> omega
    have hbl : (List.take w (hmac (specA hmac seed (i + 1) ++ seed))).length = w := by
      rw [List.length_take, h]; omega
    have hprev : output.take (size * i) = specStream hmac seed i := by
      rw [Nat.min_eq_left (by omega)] at ht
      rw [ht, List.take_of_length_le (by omega)]
    have hlen2 : (copyAt output (size * i) w (hmac (specA hmac seed (i + 1) ++ seed))).length = n := by
      unfold copyAt
      simp only [List.length_append, List.length_take, List.length_drop, h]
      omega
    have htake2 : (copyAt output (size * i) w (hmac (specA hmac seed (i + 1) ++ seed))).take (min (size * (i + 1)) n)
        = (specStream hmac seed (i + 1)).take n := by
      unfold copyAt
      rw [hprev, specStream]
      have e1 : min (size * (i + 1)) n = (specStream hmac seed i ++ List.take w (hmac (specA hmac seed (i + 1) ++ seed))).length := by
        rw [List.length_append, hst, hbl]
        omega
      rw [← List.append_assoc, e1, List.take_left]
      rcases hwle.2.2 with hw1 | hw1
      · rw [List.take_of_length_le (i := w) (by rw [h]; omega)]
        rw [List.take_of_length_le]
        rw [List.length_append, hst, h]; omega
      · rw [List.take_append, hst, List.take_of_length_le (i := n) (l := specStream hmac seed i) (by omega), hw1]
    have hb2 : size * (i + 1 + k) < n + size := by
      have : i + 1 + k = i + (k + 1) := by omega
      rw [this]; exact hb
    have := ih (i + 1) _ hb2 (by
      rcases hlt with h0 | h0
      · omega
      · rcases Nat.eq_zero_or_pos k with hk | hk
        · exact Or.inl hk
        · right
          have : i + 1 + k - 1 = i + (k + 1) - 1 := by omega
          rw [this]; exact h0) hlen2 htake2
    have e : i + (k + 1) = i + 1 + k := by omega
    rw [e]
    exact this

theorem iterations_bounds (n size : Nat) (hs : 0 < size) :
    size * ((n + size - 1) / size) < n + size ∧ n ≤ size * ((n + size - 1) / size) ∧
    ((n + size - 1) / size = 0 ∨ size * ((n + size - 1) / size - 1) < n) := by
  have h1 := Nat.div_add_mod (n + size - 1) size
  have h2 := Nat.mod_lt (n + size - 1) hs
  generalize hq : (n + size - 1) / size = q at *
  refine ⟨by omega, by omega, ?_⟩
  rcases Nat.eq_zero_or_pos q with h | h
  · exact Or.inl h
  · right
    have : size * q = size * (q - 1) + size := by
      conv => lhs; rw [show q = (q - 1) + 1 by omega, Nat.mul_succ]
    omega

/-- calculatePSHA computes the first `sizeBytes` bytes of P_hash. -/
theorem C28_is_p_hash (hmac : Bytes → Bytes) (size : Nat) (hs : 0 < size) (h : ∀ x, (hmac x).length = size) (seed : Bytes)
    (n k : Nat) (hk : n ≤ size * k) :
    psha hmac size seed n = (specStream hmac seed k).take n := by
  obtain ⟨b1, b2, b3⟩ := iterations_bounds n size hs
  have := loop_spec hmac size hs h seed n ((n + size - 1) / size) 0 (List.replicate n 0)
    (by simpa using b1) (by simpa using b3) (by simp) (by simp [specStream])
  unfold psha
  obtain ⟨hl, ht⟩ := this
  simp only [Nat.zero_add] at ht hl
  have hfull : specA hmac seed 0 = seed := rfl
  rw [hfull] at ht hl
  rw [Nat.min_eq_right b2, List.take_of_length_le (by omega)] at ht
  rw [ht]
  have hlq := specStream_length hmac size h seed ((n + size - 1) / size)
  have hlk := specStream_length hmac size h seed k
  rcases Nat.le_total ((n + size - 1) / size) k with hle | hle
  · obtain ⟨t, e⟩ := specStream_prefix hmac seed _ _ hle
    rw [e, List.take_append_of_le_length (by omega)]
  · obtain ⟨t, e⟩ := specStream_prefix hmac seed _ _ hle
    rw [e, List.take_append_of_le_length (by omega)]

/-- The block has exactly the requested length. -/
theorem C28_length (hmac : Bytes → Bytes) (size : Nat) (hs : 0 < size) (h : ∀ x, (hmac x).length = size) (seed : Bytes) (n : Nat) :
    (psha hmac size seed n).length = n := by
  rw [C28_is_p_hash hmac size hs h seed n n (by have := Nat.mul_le_mul_right n hs; omega), List.length_take,
    specStream_length hmac size h]
  have := Nat.mul_le_mul_right n hs
  omega

/-- Asking for more bytes only extends the block. -/
theorem C28_prefix (hmac : Bytes → Bytes) (size : Nat) (hs : 0 < size) (h : ∀ x, (hmac x).length = size) (seed : Bytes) (n m : Nat)
    (hnm : n ≤ m) : (psha hmac size seed m).take n = psha hmac size seed n := by
  have hm := Nat.mul_le_mul_right m hs
  rw [C28_is_p_hash hmac size hs h seed m m (by omega), C28_is_p_hash hmac size hs h seed n m (by omega), List.take_take,
    Nat.min_eq_left hnm]

/-- After an exchange of nonces the client's sending keys are the server's receiving keys and the
server's sending keys are the client's receiving keys. -/
theorem C28_agreement (prf : Bytes → Bytes → Bytes) (size : Nat) (z : KeySizes) (clientNonce serverNonce : Bytes) :
    clientLocalKeys prf size z (clientNonces clientNonce serverNonce)
      = serverRemoteKeys prf size z (serverNonces clientNonce serverNonce) ∧
    serverLocalKeys prf size z (serverNonces clientNonce serverNonce)
      = clientRemoteKeys prf size z (clientNonces clientNonce serverNonce) := ⟨rfl, rfl⟩

/-- The keys of the client-to-server direction are P_hash keyed with the server nonce over the
client nonce, and the other direction has the roles exchanged (OPC UA part 6, 6.7.5). The three
parts are consecutive slices of the block, with the sizes of the policy. -/
theorem C28_roles (prf : Bytes → Bytes → Bytes) (size : Nat) (hs : 0 < size) (h : ∀ k x, (prf k x).length = size) (z : KeySizes)
    (cn sn : Bytes) :
    let c2s := clientLocalKeys prf size z (clientNonces cn sn)
    let s2c := serverLocalKeys prf size z (serverNonces cn sn)
    c2s.sign ++ (c2s.encrypt ++ c2s.iv) = (specStream (prf sn) cn z.total).take z.total ∧
    s2c.sign ++ (s2c.encrypt ++ s2c.iv) = (specStream (prf cn) sn z.total).take z.total ∧
    c2s.sign.length = z.sign ∧ c2s.encrypt.length = z.encrypt ∧ c2s.iv.length = z.iv := by
  have hsplit : ∀ b : Bytes, b.length = z.total →
      (split z b).sign ++ ((split z b).encrypt ++ (split z b).iv) = b ∧
      (split z b).sign.length = z.sign ∧ (split z b).encrypt.length = z.encrypt ∧ (split z b).iv.length = z.iv := by
    intro b hb
    unfold KeySizes.total at hb
    refine ⟨?_, ?_, ?_, ?_⟩
    · simp only [split]
      rw [List.take_of_length_le (l := b.drop (z.sign + z.encrypt)) (by rw [List.length_drop]; omega)]
      rw [← List.drop_drop, List.take_append_drop, List.take_append_drop]
    · simp only [split, List.length_take]; omega
    · simp only [split, List.length_take, List.length_drop]; omega
    · simp only [split, List.length_take, List.length_drop]; omega
  have hz := Nat.mul_le_mul_right z.total hs
  have e1 := hsplit (psha (prf sn) size cn z.total) (C28_length _ size hs (h sn) cn z.total)
  have e2 := hsplit (psha (prf cn) size sn z.total) (C28_length _ size hs (h cn) sn z.total)
  refine ⟨?_, ?_, e1.2.1, e1.2.2.1, e1.2.2.2⟩
  · rw [← C28_is_p_hash _ size hs (h sn) cn z.total z.total (by omega)]; exact e1.1
  · rw [← C28_is_p_hash _ size hs (h cn) sn z.total z.total (by omega)]; exact e2.1

/-- A toy PRF with 3-byte output and a 7-byte block: the last block is cut. -/
example : let prf : Bytes → Bytes → Bytes := fun k x => leBytes 3 (leVal k + 7 * leVal x + 1)
    (∀ k x, (prf k x).length = 3) ∧ psha (prf [1]) 3 [2] 7 = (specStream (prf [1]) [2] 3).take 7 ∧
    (psha (prf [1]) 3 [2] 7).length = 7 ∧ psha (prf [1]) 3 [2] 7 ≠ psha (prf [2]) 3 [1] 7 :=
  ⟨fun _ _ => by simp, by decide, by decide, by decide⟩

end Opcua.Psha
