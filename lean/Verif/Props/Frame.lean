import Verif.Model.Frame
import Verif.Lemmas.Channel

/-! Properties C29 (framing), C33 (Hello) and C34 (token lifetime). -/
namespace Opcua.Frame
open Opcua.Channel (Out Status)

/-! ### C29 -/

/-- Framing of a byte stream without any reference to how it arrives: a frame is the 8-byte
header and what its length word announces. -/
def specFrame (cap : Nat) (s : Bytes) : Option (Bytes × Bytes) :=
  if s.length < 8 then none
  else
    let n := max 8 (leVal ((s.drop 4).take 4))
    if n > cap ∨ s.length < n then none else some (s.take n, s.drop n)

def specFrames (cap : Nat) : Nat → Bytes → List Bytes × Bool
  | 0, _ => ([], true)
  | n + 1, s =>
    match specFrame cap s with
    | some (f, s) => let r := specFrames cap n s; (f :: r.1, r.2)
    | none => ([], false)

theorem readLoop_spec (conn : Conn) : ∀ (k : Nat) (acc : Bytes),
    (conn.flatten.length < k → readLoop k acc conn = .err .badSecureChannelClosed) ∧
    (k ≤ conn.flatten.length → ∃ c, readLoop k acc conn = .ok (acc ++ conn.flatten.take k, c) ∧ c.flatten = conn.flatten.drop k) := by
  induction conn with
  | nil =>
    intro k acc
    constructor
    · intro h; simp at h; rw [readLoop, if_neg (by omega)]
    · intro h; simp at h; subst h; exact ⟨[], by simp [readLoop], by simp⟩
  | cons seg rest ih =>
    intro k acc
    simp only [List.flatten_cons, List.length_append]
    rw [readLoop]
    by_cases hk : k = 0
    · subst hk
      rw [if_pos rfl]
      exact ⟨fun h => by omega, fun _ => ⟨seg :: rest, by simp, by simp⟩⟩
    · rw [if_neg hk]
      by_cases hle : seg.length ≤ k
      · rw [if_pos hle]
        obtain ⟨h1, h2⟩ := ih (k - seg.length) (acc ++ seg)
        refine ⟨fun h => h1 (by omega), fun h => ?_⟩
        obtain ⟨c, e1, e2⟩ := h2 (by omega)
        refine ⟨c, ?_, ?_⟩
        · rw [e1, List.take_append, List.take_of_length_le hle, List.append_assoc]
        · rw [e2, List.drop_append, List.drop_eq_nil_of_le hle]; simp
      · rw [if_neg hle]
        refine ⟨fun h => by omega, fun _ => ⟨seg.drop k :: rest, ?_, ?_⟩⟩
        · rw [List.take_append_of_le_length (by omega)]
        · rw [List.drop_append_of_le_length (by omega)]; simp

/-- Reading one frame gives exactly the first frame of the byte stream and leaves exactly the rest
of the stream, whatever the fragmentation; otherwise it is refused. -/
theorem C29_frame (cap : Nat) (hcap : 8 ≤ cap) (conn : Conn) :
    (∀ f s, specFrame cap conn.flatten = some (f, s) → ∃ c, readFrame cap conn = .ok (f, c) ∧ c.flatten = s) ∧
    (specFrame cap conn.flatten = none → readFrame cap conn = .err .badSecureChannelClosed) := by
  obtain ⟨h1, h2⟩ := readLoop_spec conn 8 []
  unfold specFrame readFrame
  rw [if_neg (show ¬ cap < 8 by omega)]
  by_cases h8 : conn.flatten.length < 8
  · rw [if_pos h8, h1 h8]
    exact ⟨fun f s e => (by cases e), fun _ => rfl⟩
  · rw [if_neg h8]
    obtain ⟨c, e1, e2⟩ := h2 (by omega)
    rw [e1]
    dsimp only
    have hhd : leVal (((([] : Bytes) ++ List.take 8 conn.flatten).drop 4).take 4) = leVal ((conn.flatten.drop 4).take 4) := by
      congr 1
      rw [List.nil_append, List.drop_take]
      rw [List.take_take]
      rfl
    rw [hhd]
    generalize leVal ((conn.flatten.drop 4).take 4) = n
    have hcl : c.flatten.length = conn.flatten.length - 8 := by rw [e2, List.length_drop]
    obtain ⟨g1, g2⟩ := readLoop_spec c (n - 8) ([] ++ List.take 8 conn.flatten)
    by_cases hc : n > cap
    · rw [if_pos hc, if_pos (Or.inl (by omega))]
      exact ⟨fun f s e => (by cases e), fun _ => rfl⟩
    · rw [if_neg hc]
      by_cases hs : conn.flatten.length < max 8 n
      · rw [if_pos (Or.inr hs), g1 (by omega)]
        exact ⟨fun f s e => (by cases e), fun _ => rfl⟩
      · rw [if_neg (by omega)]
        refine ⟨fun f s e => ?_, fun e => by cases e⟩
        cases e
        obtain ⟨d, e3, e4⟩ := g2 (by omega)
        refine ⟨d, ?_, ?_⟩
        · rw [e3, e2]
          congr 2
          rw [List.nil_append, show max 8 n = 8 + (n - 8) by omega, List.take_add]
        · rw [e4, e2, List.drop_drop]
          congr 1
          omega

/-- The sequence of frames delivered is a function of the byte stream alone. -/
theorem C29_fragmentation (cap : Nat) (hcap : 8 ≤ cap) (n : Nat) (conn : Conn) :
    readFrames cap n conn = specFrames cap n conn.flatten := by
  induction n generalizing conn with
  | zero => rfl
  | succ n ih =>
    obtain ⟨h1, h2⟩ := C29_frame cap hcap conn
    rw [readFrames, specFrames]
    cases hs : specFrame cap conn.flatten with
    | none => rw [h2 hs]
    | some fs =>
      obtain ⟨f, s⟩ := fs
      obtain ⟨c, e1, e2⟩ := h1 f s hs
      rw [e1]
      dsimp only
      rw [ih, e2]

/-- Two fragmentations of the same bytes deliver the same frames. -/
theorem C29_two_fragmentations (cap : Nat) (hcap : 8 ≤ cap) (n : Nat) (c1 c2 : Conn) (h : c1.flatten = c2.flatten) :
    readFrames cap n c1 = readFrames cap n c2 := by
  rw [C29_fragmentation cap hcap, C29_fragmentation cap hcap, h]

/-- A frame that announces more than the receive buffer holds is refused, and a stream that ends
inside a frame does not deliver it. -/
theorem C29_refused (cap : Nat) (hcap : 8 ≤ cap) (conn : Conn) (hlen : 8 ≤ conn.flatten.length)
    (h : leVal ((conn.flatten.drop 4).take 4) > cap ∨ conn.flatten.length < leVal ((conn.flatten.drop 4).take 4)) :
    readFrame cap conn = .err .badSecureChannelClosed := by
  refine (C29_frame cap hcap conn).2 ?_
  unfold specFrame
  rw [if_neg (by omega)]
  dsimp only
  rw [if_pos (by omega)]

example : readFrames 64 3 [[0x4D, 0x53], [0x47, 0x46, 10, 0, 0], [0, 1, 2, 0x4D, 0x53, 0x47, 0x46, 9], [0, 0, 0, 7]]
    = ([[0x4D, 0x53, 0x47, 0x46, 10, 0, 0, 0, 1, 2], [0x4D, 0x53, 0x47, 0x46, 9, 0, 0, 0, 7]], false) := by decide

/-! ### C33 -/

/-- The negotiated buffers are the smaller of what the two sides announced. -/
theorem C33_minimum (srv : BitVec 32) (h : Hello) :
    (negotiate srv h).receive.toNat = min srv.toNat h.send.toNat ∧
    (negotiate srv h).send.toNat = min srv.toNat h.receive.toNat ∧
    (negotiate srv h).maxResponseMessage = h.maxMessage ∧ (negotiate srv h).maxResponseChunks = h.maxChunks := by
  unfold negotiate
  refine ⟨?_, ?_, rfl, rfl⟩ <;> dsimp only <;> split <;> rename_i hh <;>
    simp only [GT.gt, BitVec.lt_def] at hh <;> omega

/-- With an announced size of at least 8 the receiver never crashes on a read: it delivers a frame
or refuses. -/
theorem C33_read_partial (srv : BitVec 32) (h : Hello) (hs : 8 ≤ srv.toNat) (hc : 8 ≤ h.send.toNat) (conn : Conn) :
    readFrame (negotiate srv h).receive.toNat conn ≠ .panic := by
  have hcap : 8 ≤ (negotiate srv h).receive.toNat := by rw [(C33_minimum srv h).1]; omega
  obtain ⟨h1, h2⟩ := C29_frame _ hcap conn
  cases e : specFrame (negotiate srv h).receive.toNat conn.flatten with
  | none => rw [h2 e]; simp
  | some fs => obtain ⟨c, e1, _⟩ := h1 fs.1 fs.2 e; rw [e1]; simp

/-- But a client that announces a send buffer below 8 bytes crashes the server with the first read
after the Acknowledge: `receiveBuffer[0:8]` is out of range. -/
theorem C33_tiny_buffer_fails (srv : BitVec 32) (h : Hello) (hc : h.send.toNat < 8) (conn : Conn) :
    readFrame (negotiate srv h).receive.toNat conn = .panic := by
  have : (negotiate srv h).receive.toNat < 8 := by rw [(C33_minimum srv h).1]; omega
  unfold readFrame
  rw [if_pos this]

example : readFrame (negotiate 65535 ⟨65535, 7, 0, 0⟩).receive.toNat [[1, 2, 3]] = .panic := by decide

/-! ### C34 -/

/-- The revised lifetime is within the limits of the server and is the requested one when that is
within the limits. -/
theorem C34_revised (r : BitVec 32) :
    minTokenLifetime.toNat ≤ (reviseLifetime r).toNat ∧ (reviseLifetime r).toNat ≤ maxTokenLifetime.toNat ∧
    (minTokenLifetime.toNat ≤ r.toNat → r.toNat ≤ maxTokenLifetime.toNat → reviseLifetime r = r) ∧
    (r.toNat < minTokenLifetime.toNat → reviseLifetime r = minTokenLifetime) ∧
    (maxTokenLifetime.toNat < r.toNat → reviseLifetime r = maxTokenLifetime) := by
  have e1 : minTokenLifetime.toNat = 300000 := rfl
  have e2 : maxTokenLifetime.toNat = 3600000 := rfl
  unfold reviseLifetime
  dsimp only
  by_cases h1 : r > maxTokenLifetime
  · rw [if_pos h1, if_neg (by decide)]
    have h1' : maxTokenLifetime.toNat < r.toNat := by simpa [GT.gt, BitVec.lt_def] using h1
    exact ⟨by decide, by decide, by omega, by omega, fun _ => rfl⟩
  · rw [if_neg h1]
    have h1' : ¬ maxTokenLifetime.toNat < r.toNat := by simpa [GT.gt, BitVec.lt_def] using h1
    by_cases h2 : r < minTokenLifetime
    · rw [if_pos h2]
      have h2' : r.toNat < minTokenLifetime.toNat := by simpa [BitVec.lt_def] using h2
      exact ⟨by decide, by decide, by omega, fun _ => rfl, by omega⟩
    · rw [if_neg h2]
      have h2' : ¬ r.toNat < minTokenLifetime.toNat := by simpa [BitVec.lt_def] using h2
      exact ⟨by omega, by omega, fun _ _ => rfl, by omega, by omega⟩

/-- As long as the product fits 32 bits, renewal is scheduled at 75 percent of the lifetime,
strictly before the token expires. -/
theorem C34_renewal_partial (r : BitVec 32) (h0 : 0 < r.toNat) (h : r.toNat * 75 < 2 ^ 32) :
    (renewalDelay r).toNat = r.toNat * 75 / 100 ∧ (renewalDelay r).toNat < r.toNat := by
  have e : (renewalDelay r).toNat = r.toNat * 75 / 100 := by
    unfold renewalDelay
    have e75 : (75#32).toNat = 75 := rfl
    rw [BitVec.toNat_udiv, BitVec.toNat_mul, e75, Nat.mod_eq_of_lt h]
    rfl
  exact ⟨e, by omega⟩

/-- In particular for every lifetime this server can return. -/
theorem C34_own_server (r : BitVec 32) :
    (renewalDelay (reviseLifetime r)).toNat = (reviseLifetime r).toNat * 75 / 100 ∧
    (renewalDelay (reviseLifetime r)).toNat < (reviseLifetime r).toNat := by
  have e1 : minTokenLifetime.toNat = 300000 := rfl
  have e2 : maxTokenLifetime.toNat = 3600000 := rfl
  obtain ⟨h1, h2, _⟩ := C34_revised r
  exact C34_renewal_partial _ (by omega) (by omega)

/-- Above 57266230 ms the 32-bit product wraps and renewal is scheduled much too early: a server
that grants 16 hours (57600000 ms) makes the client renew after about 4 minutes instead of 12
hours. -/
theorem C34_wrap_fails : (renewalDelay 57600000#32).toNat = 250327 ∧ 57600000 * 75 / 100 = 43200000 := by
  decide

example : reviseLifetime 3600001#32 = 3600000#32 ∧ reviseLifetime 0#32 = 300000#32 ∧
    reviseLifetime 600000#32 = 600000#32 := by decide

end Opcua.Frame
