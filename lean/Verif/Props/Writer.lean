import Verif.Model.Writer

/-! Property C16: the chunk writer never writes outside its buffer. -/
namespace Opcua.Writer

theorem copyAt_length (s : Bytes) (a : Nat) (p : Bytes) (h : a ≤ s.length) :
    (copyAt s a p).1.length = s.length ∧ (copyAt s a p).2 = min (s.length - a) p.length := by
  simp only [copyAt, List.length_append, List.length_take, List.length_drop, and_true]
  omega

/-- The index stays inside the buffer and the buffer keeps its size. -/
def Inv (size : Nat) (w : St) : Prop := w.s.length = size ∧ w.i ≤ size

theorem step_inv (size : Nat) (w : St) (o : Op) (h : Inv size w) : Inv size (step w o).1 := by
  obtain ⟨h1, h2⟩ := h
  cases o with
  | write p =>
    simp only [step, write]
    split
    · exact ⟨h1, h2⟩
    · have := copyAt_length w.s w.i p (by omega)
      refine ⟨by simp only [this.1, h1], ?_⟩
      simp only [this.2]; omega
  | writeAt p o =>
    simp only [step, writeAt]
    split
    · exact ⟨h1, h2⟩
    · have := copyAt_length w.s o p (by omega)
      exact ⟨by simp only [this.1, h1], h2⟩

/-- After any sequence of writes the length never exceeds the buffer, and the buffer is
neither grown nor shrunk. -/
theorem C16_never_exceeds_buffer (b : Bytes) (ops : List Op) :
    len (run (new b) ops) ≤ b.length ∧ (run (new b) ops).s.length = b.length ∧
    (bytes (run (new b) ops)).length = len (run (new b) ops) := by
  have key : ∀ (ops : List Op) (w : St), Inv b.length w → Inv b.length (run w ops) := by
    intro ops
    induction ops with
    | nil => intro w h; exact h
    | cons o os ih => intro w h; exact ih _ (step_inv _ w o h)
  have h := key ops (new b) ⟨rfl, by simp [new]⟩
  refine ⟨h.2, h.1, ?_⟩
  have h1 := h.1
  have h2 := h.2
  simp only [bytes, len, List.length_take]
  omega

/-- Specification of one `Write` on a writer of capacity `size` holding `content`:
as many bytes as fit are kept; the count is reported; an error is reported when some did
not fit (or nothing more can ever fit). -/
theorem C16_write_spec (w : St) (size : Nat) (p : Bytes) (h : Inv size w) :
    bytes (write w p).1 = bytes w ++ p.take (size - len w) ∧
    (write w p).2.1 = min (size - len w) p.length ∧
    ((write w p).2.2 = true ↔ (size - len w < p.length ∨ len w = size)) := by
  obtain ⟨h1, h2⟩ := h
  simp only [write, bytes, len]
  split
  · rename_i hge
    have : size - w.i = 0 := by omega
    simp only [this, List.take_zero, List.append_nil, Nat.zero_min, true_and, true_iff]
    omega
  · rename_i hlt
    simp only [copyAt]
    refine ⟨?_, by rw [h1], ?_⟩
    · rw [List.append_assoc, List.take_append, List.take_append]
      have hl : (w.s.take w.i).length = w.i := by simp; omega
      rw [List.take_of_length_le (by omega : (w.s.take w.i).length ≤ _), hl]
      congr 1
      rw [h1]
      have hp : (p.take (min (size - w.i) p.length)).length = min (size - w.i) p.length := by simp
      rw [hp]
      have : w.i + min (size - w.i) p.length - w.i - min (size - w.i) p.length = 0 := by omega
      rw [this, List.take_zero, List.append_nil, List.take_take]
      by_cases hs : size - w.i ≤ p.length
      · congr 1; omega
      · rw [List.take_of_length_le (by omega), List.take_of_length_le (by omega)]
    · show decide (min (w.s.length - w.i) p.length < p.length) = true ↔ _
      rw [decide_eq_true_eq]; omega

/-- Running only `Write`s from an empty writer: the content is the concatenation of the
kept parts, i.e. the first `size` bytes of everything written. -/
theorem C16_content_is_concatenation (b : Bytes) (ps : List Bytes) :
    bytes (run (new b) (ps.map .write)) = (ps.flatten).take b.length := by
  have key : ∀ (ps : List Bytes) (w : St), Inv b.length w →
      bytes (run w (ps.map .write)) = bytes w ++ (ps.flatten).take (b.length - len w) := by
    intro ps
    induction ps with
    | nil => intro w _; simp [run]
    | cons p ps ih =>
      intro w h
      have hw := C16_write_spec w b.length p h
      have hi := step_inv b.length w (.write p) h
      simp only [step] at hi
      simp only [List.map_cons, run, step]
      rw [ih _ hi, hw.1, List.flatten_cons, List.append_assoc, List.take_append]
      congr 2
      have hlen : len (write w p).1 = len w + min (b.length - len w) p.length := by
        have h2 := hw.2.1
        have h1 := h.1
        have h3 := h.2
        simp only [len, write] at h2 ⊢
        split at h2
        · rename_i hge; simp only [hge, if_true]; simp only at h2; omega
        · rename_i hge; simp only [hge, if_false]; simp only at h2; omega
      congr 1
      rw [hlen]; omega
  have := key ps (new b) ⟨rfl, by simp [new]⟩
  simpa [new, bytes, len] using this

/-- `WriteAt` at or after the end of the written part is refused and changes nothing, not even the
unused part of the buffer. -/
theorem C16_writeAt_refused (w : St) (p : Bytes) (o : Nat) (h : len w ≤ o) : writeAt w p o = (w, 0, true) := by
  unfold writeAt
  exact if_pos h

example : writeAt (run (new [0, 0, 0, 0]) [.write [1, 2]]) [9] 2 = (run (new [0, 0, 0, 0]) [.write [1, 2]], 0, true) :=
  C16_writeAt_refused _ _ _ (by decide)

/-- `WriteAt` inside the written part replaces bytes and never changes the length. -/
theorem C16_writeAt_spec (w : St) (size : Nat) (p : Bytes) (o : Nat) (h : Inv size w)
    (hin : o + p.length ≤ len w) (hp : p ≠ []) :
    bytes (writeAt w p o).1 = (bytes w).take o ++ p ++ (bytes w).drop (o + p.length) ∧
    (writeAt w p o).2 = (p.length, false) ∧ len (writeAt w p o).1 = len w := by
  obtain ⟨h1, h2⟩ := h
  have hpl : 0 < p.length := List.length_pos_iff.mpr hp
  simp only [len] at hin
  simp only [writeAt, bytes, len]
  rw [if_neg (by omega)]
  have hn : min (w.s.length - o) p.length = p.length := by omega
  simp only [copyAt, hn, Nat.lt_irrefl, decide_false, and_self, and_true]
  rw [List.take_append, List.take_append, List.take_take, List.take_take, List.drop_take]
  have hl : (w.s.take o).length = o := by simp; omega
  simp only [hl, List.take_length, List.length_append]
  have e1 : min w.i o = o := by omega
  have e2 : min o w.i = o := by omega
  have e3 : min (w.i - o) p.length = p.length := by omega
  rw [e3, List.take_take, e2, e1, List.take_length]

example : bytes (run (new [0, 0, 0, 0]) [.write [1, 2], .write [3, 4, 5], .writeAt [9] 1]) = [1, 9, 3, 4] := by
  decide
example : (write ⟨[1, 2, 0, 0], 2⟩ [3, 4, 5]).2 = (2, true) := by decide
example : Inv 4 ⟨[1, 2, 0, 0], 2⟩ := by simp [Inv]

end Opcua.Writer
