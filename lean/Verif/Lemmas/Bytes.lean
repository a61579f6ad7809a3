import Verif.Model.Bytes

namespace Opcua

@[simp] theorem Dec.pure_apply (a : α) (s : Bytes) : (pure a : Dec α).run s = .ok (a, s) := rfl

theorem Dec.bind_apply (d : Dec α) (f : α → Dec β) (s : Bytes) :
    (d >>= f).run s = match d.run s with
      | .ok (a, s') => (f a).run s'
      | .err l => .err l
      | .panic => .panic := rfl

@[simp] theorem Dec.fail_apply (s : Bytes) : (Dec.fail : Dec α).run s = .err s := rfl
@[simp] theorem Dec.crash_apply (s : Bytes) : (Dec.crash : Dec α).run s = .panic := rfl

@[simp] theorem leBytes_length (n v : Nat) : (leBytes n v).length = n := by
  induction n generalizing v with
  | zero => rfl
  | succ n ih => simp [leBytes, ih]

theorem leVal_leBytes (n v : Nat) : leVal (leBytes n v) = v % 256 ^ n := by
  induction n generalizing v with
  | zero => simp [leBytes, leVal, Nat.mod_one]
  | succ n ih =>
    simp only [leBytes, leVal, ih, UInt8.toNat_ofNat']
    rw [Nat.pow_succ (n := 256), Nat.mul_comm (256 ^ n) 256, Nat.mod_mul]
    simp

theorem leVal_lt (bs : Bytes) : leVal bs < 256 ^ bs.length := by
  induction bs with
  | nil => simp [leVal]
  | cons b bs ih =>
    simp only [leVal, List.length_cons, Nat.pow_succ]
    have := b.toNat_lt
    omega

theorem leBytes_leVal (bs : Bytes) : leBytes bs.length (leVal bs) = bs := by
  induction bs with
  | nil => rfl
  | cons b bs ih =>
    simp only [leVal, List.length_cons, leBytes]
    have hb := b.toNat_lt
    have h1 : (b.toNat + 256 * leVal bs) % 256 = b.toNat := by omega
    have h2 : (b.toNat + 256 * leVal bs) / 256 = leVal bs := by omega
    rw [h1, h2, ih]
    simp

theorem readN_append (bs rest : Bytes) : (readN bs.length).run (bs ++ rest) = .ok (bs, rest) := by
  simp [readN]

theorem readN_append' (n : Nat) (bs rest : Bytes) (h : bs.length = n) :
    (readN n).run (bs ++ rest) = .ok (bs, rest) := by subst h; exact readN_append bs rest

/-- `e` is an encoding that `d` reads back as `v`, whatever follows. -/
def RT (e : Bytes) (d : Dec α) (v : α) : Prop := ∀ rest, d.run (e ++ rest) = .ok (v, rest)

theorem RT.pure (v : α) : RT [] (pure v : Dec α) v := fun _ => rfl

theorem RT.bind {e1 e2 : Bytes} {d : Dec α} {f : α → Dec β} {v : α} {w : β}
    (h1 : RT e1 d v) (h2 : RT e2 (f v) w) : RT (e1 ++ e2) (d >>= f) w := by
  intro rest
  rw [Dec.bind_apply, List.append_assoc, h1]
  exact h2 rest

theorem RT.bind_nil {e1 : Bytes} {d : Dec α} {f : α → Dec β} {v : α} {w : β}
    (h1 : RT e1 d v) (h2 : RT [] (f v) w) : RT e1 (d >>= f) w := by
  have := RT.bind h1 h2
  simpa using this

theorem RT.map {e : Bytes} {d : Dec α} {v : α} (f : α → β) (h : RT e d v) :
    RT e (f <$> d) (f v) := by
  intro rest
  show (d >>= fun a => Pure.pure (f a)).run (e ++ rest) = _
  rw [Dec.bind_apply, h]
  rfl

/-- A decoder is *local* when its result depends only on the bytes it consumes. -/
def Local (d : Dec α) : Prop :=
  ∀ s v r, d.run s = .ok (v, r) → ∃ c, s = c ++ r ∧ ∀ r', d.run (c ++ r') = .ok (v, r')

theorem Local.pure (v : α) : Local (pure v : Dec α) := by
  intro s w r h
  simp only [Dec.pure_apply, DRes.ok.injEq, Prod.mk.injEq] at h
  refine ⟨[], by simp [h.2], fun r' => by simp [h.1]⟩

theorem Local.fail : Local (Dec.fail : Dec α) := by
  intro s w r h; simp at h

theorem Local.crash : Local (Dec.crash : Dec α) := by
  intro s w r h; simp at h

theorem Local.bind {d : Dec α} {f : α → Dec β} (h1 : Local d) (h2 : ∀ a, Local (f a)) :
    Local (d >>= f) := by
  intro s w r h
  rw [Dec.bind_apply] at h
  split at h
  · rename_i a s' hd
    obtain ⟨c1, hc1, hf1⟩ := h1 _ _ _ hd
    obtain ⟨c2, hc2, hf2⟩ := h2 a _ _ _ h
    refine ⟨c1 ++ c2, by simp [hc1, hc2], fun r' => ?_⟩
    rw [Dec.bind_apply, List.append_assoc, hf1]
    exact hf2 r'
  · simp at h
  · simp at h

theorem Local.map {d : Dec α} (f : α → β) (h : Local d) : Local (f <$> d) :=
  Local.bind h fun a => Local.pure (f a)

theorem Local.ite {p : Prop} [Decidable p] {d e : Dec α} (h1 : Local d) (h2 : Local e) :
    Local (if p then d else e) := by
  split <;> assumption

theorem Local.readN (n : Nat) : Local (readN n) := by
  intro s v r h
  simp only [Opcua.readN] at h
  split at h
  · rename_i hn
    simp only [DRes.ok.injEq, Prod.mk.injEq] at h
    obtain ⟨h1, h2⟩ := h
    refine ⟨v, ?_, fun r' => ?_⟩
    · rw [← h1, ← h2, List.take_append_drop]
    · have hl : v.length = n := by rw [← h1]; simp [hn]
      exact readN_append' n v r' hl
  · simp at h

/-- A local decoder never succeeds on a proper prefix of an encoding it reads back. -/
theorem Local.truncated {d : Dec α} {e : Bytes} {v : α} (hl : Local d) (hrt : RT e d v)
    (p q : Bytes) (he : e = p ++ q) (hq : q ≠ []) : ∀ w r, d.run p ≠ .ok (w, r) := by
  intro w r h
  obtain ⟨c, hc, hf⟩ := hl _ _ _ h
  have h1 := hf (r ++ q)
  have h2 := hrt []
  rw [List.append_nil, he, hc, List.append_assoc, h1] at h2
  simp only [DRes.ok.injEq, Prod.mk.injEq, List.append_eq_nil_iff] at h2
  exact hq h2.2.2

/-- Encodings read back by a common decoder are prefix-free. -/
theorem RT.prefix_free {d : Dec α} {e1 e2 t : Bytes} {v1 v2 : α}
    (h1 : RT e1 d v1) (h2 : RT e2 d v2) (h : e2 = e1 ++ t) : t = [] ∧ v1 = v2 := by
  have a := h1 t
  have b := h2 []
  rw [List.append_nil, h, a] at b
  simp only [DRes.ok.injEq, Prod.mk.injEq] at b
  exact ⟨b.2, b.1⟩

end Opcua
