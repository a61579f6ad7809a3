import Verif.Model.Revise

/-! C41: the session timeout; C43: subscription parameters. -/
namespace Opcua.Revise

/-! ### C41 -/

/-- The revised timeout is within the limits, and is the requested one if that is; for every request
that is a number, infinities included. -/
theorem C41_revised_partial (req : F64) (h : req ≠ .nan) :
    ∃ q, sessionTimeout req = .fin q ∧ 10000 ≤ q ∧ q ≤ 3600000 ∧
      (∀ r, req = .fin r → 10000 ≤ r → r ≤ 3600000 → q = r) := by
  cases req with
  | nan => exact absurd rfl h
  | negInf => exact ⟨10000, by decide +kernel, by decide +kernel, by decide +kernel, by simp⟩
  | posInf => exact ⟨3600000, by decide +kernel, by decide +kernel, by decide +kernel, by simp⟩
  | fin r =>
    simp only [sessionTimeout]
    by_cases h1 : r < 10000
    · have e1 : (F64.fin r).lt (.fin minSessionTimeout) = true := decide_eq_true h1
      rw [if_pos e1]
      refine ⟨10000, by decide +kernel, by decide +kernel, by decide +kernel, ?_⟩
      intro r' hr h2
      simp only [F64.fin.injEq] at hr
      subst hr
      grind
    · have e1 : ¬ (F64.fin r).lt (.fin minSessionTimeout) = true := fun h => h1 (of_decide_eq_true h)
      rw [if_neg e1]
      by_cases h2 : 3600000 < r
      · have e2 : F64.lt (.fin maxSessionTimeout) (.fin r) = true := decide_eq_true h2
        rw [if_pos e2]
        refine ⟨3600000, rfl, by decide +kernel, by decide +kernel, ?_⟩
        intro r' hr _ h3
        simp only [F64.fin.injEq] at hr
        subst hr
        grind
      · have e2 : ¬ F64.lt (.fin maxSessionTimeout) (.fin r) = true := fun h => h2 (of_decide_eq_true h)
        rw [if_neg e2]
        refine ⟨r, rfl, by grind, by grind, ?_⟩
        intro r' hr _ _
        simpa using hr

/-- A request of NaN is granted as NaN, and the session then counts as expired at once: the very
first request of the client is refused. -/
theorem C41_nan_fails : sessionTimeout .nan = .nan ∧ ∀ idle, isExpired idle (sessionTimeout .nan) = true := by
  have h : sessionTimeout .nan = .nan := by decide
  refine ⟨h, ?_⟩
  intro idle
  rw [h]
  exact decide_eq_true (show (idle : Int) > -(2 ^ 63) by omega)

/-- With a number, a session is expired exactly after more than the revised timeout, counted in
whole milliseconds. -/
theorem C41_expiry_partial (req : F64) (h : req ≠ .nan) (idle : Nat) :
    ∃ q, sessionTimeout req = .fin q ∧ (isExpired idle (sessionTimeout req) = true ↔ q < (idle : Rat) + (q - q.floor)) := by
  obtain ⟨q, h1, h2, h3, _⟩ := C41_revised_partial req h
  refine ⟨q, h1, ?_⟩
  rw [h1]
  have h0 : (0 : Rat) ≤ q := by grind
  have hr : -(2 : Rat) ^ 63 ≤ q ∧ q < (2 : Rat) ^ 63 := by
    have : (2 : Rat) ^ 63 = 9223372036854775808 := by decide +kernel
    rw [this]
    grind
  simp only [isExpired, toInt64, if_pos hr, if_pos h0, decide_eq_true_eq, gt_iff_lt]
  have : q.floor < (idle : Int) ↔ ((q.floor : Int) : Rat) < ((idle : Int) : Rat) := by
    rw [Rat.intCast_lt_intCast]
  rw [this]
  have hc : ((idle : Int) : Rat) = (idle : Rat) := rfl
  rw [hc]
  grind

example : sessionTimeout (.fin 12345) = .fin 12345 ∧ sessionTimeout (.fin 5) = .fin 10000 ∧
    sessionTimeout .posInf = .fin 3600000 ∧ isExpired 12345 (.fin 12345) = false ∧ isExpired 12346 (.fin 12345) = true := by
  decide +kernel

/-! ### C43 -/

/-- The publishing interval is within the limits, and is the requested one if that is. -/
theorem C43_interval (req : F64) :
    ∃ q, publishingInterval req = .fin q ∧ 125 ≤ q ∧ q ≤ 60000 ∧
      (∀ r, req = .fin r → 125 ≤ r → r ≤ 60000 → q = r) := by
  cases req with
  | nan => exact ⟨125, by decide +kernel, by decide +kernel, by decide +kernel, by simp⟩
  | negInf => exact ⟨125, by decide +kernel, by decide +kernel, by decide +kernel, by simp⟩
  | posInf => exact ⟨60000, by decide +kernel, by decide +kernel, by decide +kernel, by simp⟩
  | fin r =>
    simp only [publishingInterval, reduceCtorEq, if_false]
    by_cases h1 : r < 125
    · have e1 : (F64.fin r).lt (.fin minPublishingInterval) = true := decide_eq_true h1
      rw [if_pos e1]
      refine ⟨125, by decide +kernel, by decide +kernel, by decide +kernel, ?_⟩
      intro r' hr h2
      simp only [F64.fin.injEq] at hr
      subst hr
      grind
    · have e1 : ¬ (F64.fin r).lt (.fin minPublishingInterval) = true := fun h => h1 (of_decide_eq_true h)
      rw [if_neg e1]
      by_cases h2 : 60000 < r
      · have e2 : F64.lt (.fin maxPublishingInterval) (.fin r) = true := decide_eq_true h2
        rw [if_pos e2]
        refine ⟨60000, rfl, by decide +kernel, by decide +kernel, ?_⟩
        intro r' hr _ h3
        simp only [F64.fin.injEq] at hr
        subst hr
        grind
      · have e2 : ¬ F64.lt (.fin maxPublishingInterval) (.fin r) = true := fun h => h2 (of_decide_eq_true h)
        rw [if_neg e2]
        refine ⟨r, rfl, by grind, by grind, ?_⟩
        intro r' hr _ _
        simpa using hr

/-- `countFor a i` is the least count whose time is at least `a`. -/
theorem countFor_spec (a i : Rat) (ha : 0 < a) (hi : 0 < i) :
    a ≤ (countFor a i : Rat) * i ∧ (countFor a i : Rat) * i < a + i ∧ 0 < countFor a i := by
  have h1 := Rat.floor_le (a / i)
  have h2 := Rat.lt_floor_add_one (a / i)
  have hne : i ≠ 0 := by grind
  have hdiv : a / i * i = a := Rat.div_mul_cancel hne
  have hpos : 0 ≤ (a / i).floor := by
    rw [Rat.le_floor_iff]
    have : ¬ (a / i < 0) := by
      rw [Rat.div_lt_iff hi]
      grind
    grind
  have hcast : (((a / i).floor.toNat : Nat) : Rat) = ((a / i).floor : Rat) := by
    have : (((a / i).floor.toNat : Nat) : Int) = (a / i).floor := Int.toNat_of_nonneg hpos
    calc (((a / i).floor.toNat : Nat) : Rat) = ((((a / i).floor.toNat : Nat) : Int) : Rat) := rfl
      _ = _ := by rw [this]
  have g1 := Rat.mul_le_mul_of_nonneg_right h1 (Rat.le_of_lt hi)
  have g2 := Rat.mul_lt_mul_of_pos_right h2 hi
  rw [hdiv] at g1 g2
  have hone : (((a / i).floor + 1 : Int) : Rat) = ((a / i).floor : Rat) + 1 := by
    rw [Rat.intCast_add]; rfl
  rw [hone] at g2
  have hsucc : (((a / i).floor.toNat + 1 : Nat) : Rat) = ((a / i).floor : Rat) + 1 := by
    rw [← hcast]; exact Rat.natCast_add _ 1
  unfold countFor
  dsimp only
  by_cases h : (((a / i).floor.toNat : Nat) : Rat) * i ≠ a
  · rw [if_pos h, hsucc]
    rw [hcast] at h
    refine ⟨by grind, ?_, by omega⟩
    grind
  · rw [if_neg h]
    have h : (((a / i).floor.toNat : Nat) : Rat) * i = a := Decidable.not_not.1 h
    rw [h]
    refine ⟨Rat.le_refl, by grind, ?_⟩
    rcases Nat.eq_zero_or_pos (a / i).floor.toNat with h0 | h0
    · rw [h0] at h
      have : ((0 : Nat) : Rat) = 0 := rfl
      rw [this] at h
      grind
    · exact h0

theorem natCast_mul_lt {n m : Nat} {i : Rat} (hi : 0 < i) (h : (n : Rat) * i < (m : Rat) * i) : n < m := by
  have := Rat.lt_of_mul_lt_mul_right h (Rat.le_of_lt hi)
  exact Rat.natCast_lt_natCast.1 this

theorem natCast_mul_le {n m : Nat} {i : Rat} (hi : 0 < i) (h : n ≤ m) : (n : Rat) * i ≤ (m : Rat) * i :=
  Rat.mul_le_mul_of_nonneg_right (Rat.natCast_le_natCast.2 h) (Rat.le_of_lt hi)

/-- The keep-alive count is at least 1, keep-alive messages are less than one interval later than
the maximum publishing interval, a count that is within it is kept, and 0 means 3. -/
theorem C43_keep_alive (i : Rat) (h1 : 125 ≤ i) (req : Nat) :
    1 ≤ maxKeepAliveCount i req ∧ (maxKeepAliveCount i req : Rat) * i < 60000 + i ∧
    (req ≠ 0 → (req : Rat) * i ≤ 60000 → maxKeepAliveCount i req = req) ∧
    (3 * i ≤ 60000 → maxKeepAliveCount i 0 = 3) := by
  have hi : (0 : Rat) < i := by grind
  obtain ⟨a1, a2, a3⟩ := countFor_spec 3600000 i (by decide +kernel) hi
  obtain ⟨b1, b2, b3⟩ := countFor_spec 60000 i (by decide +kernel) hi
  unfold maxKeepAliveCount
  simp only [maxLifetime, maxPublishingInterval]
  refine ⟨?_, ?_, ?_, ?_⟩
  · repeat' split
    all_goals omega
  · generalize (if (((if req = 0 then 3 else req : Nat) : Rat) * i > 3600000) then countFor 3600000 i
      else if req = 0 then 3 else req) = n
    by_cases hn : (n : Rat) * i > 60000
    · rw [if_pos hn]; exact b2
    · rw [if_neg hn]; grind
  · intro h0 hle
    rw [if_neg h0, if_neg (by grind), if_neg (by grind)]
  · intro h3
    have e : ((3 : Nat) : Rat) = 3 := rfl
    simp only [if_true, e]
    have e1 : ¬ (3600000 : Rat) < 3 * i := by grind
    have e2 : ¬ (60000 : Rat) < 3 * i := by grind
    simp only [e1, if_false, e, e2]

/-- The lifetime count is at least three times the keep-alive count and the lifetime at least 10 s;
the lifetime exceeds one hour by less than one interval unless the keep-alive count asks for it;
the count is a 32-bit number, and a requested count within all these limits is kept. -/
theorem C43_lifetime (i : Rat) (h1 : 125 ≤ i) (h2 : i ≤ 60000) (ka req : Nat) (hka : 1 ≤ ka) (hk : (ka : Rat) * i < 60000 + i) :
    3 * ka ≤ lifetimeCount i ka req ∧ 10000 ≤ (lifetimeCount i ka req : Rat) * i ∧
    (lifetimeCount i ka req : Rat) * i < 3600000 + i ∧ lifetimeCount i ka req < 2 ^ 32 ∧
    (3 * ka ≤ req → 10000 ≤ (req : Rat) * i → (req : Rat) * i ≤ 3600000 → lifetimeCount i ka req = req) := by
  have hi : (0 : Rat) < i := by grind
  obtain ⟨a1, a2, a3⟩ := countFor_spec 3600000 i (by decide +kernel) hi
  obtain ⟨b1, b2, b3⟩ := countFor_spec 10000 i (by decide +kernel) hi
  have hkas : ka < (2 ^ 32 - 1) / 3 := by
    have : (ka : Rat) * i < (1431655765 : Nat) * i := by
      have e : ((1431655765 : Nat) : Rat) = 1431655765 := rfl
      rw [e]; grind
    have := natCast_mul_lt hi this
    omega
  have hka3 : ((ka * 3 : Nat) : Rat) * i < 180000 + 3 * i := by
    have : ((ka * 3 : Nat) : Rat) = (ka : Rat) * 3 := Rat.natCast_mul ka 3
    rw [this]; grind
  have bound : ∀ n : Nat, (n : Rat) * i < 3600000 + i → n < 2 ^ 32 := by
    intro n hn
    have e : ((4294967296 : Nat) : Rat) = 4294967296 := rfl
    have : (n : Rat) * i < (4294967296 : Nat) * i := by rw [e]; grind
    exact natCast_mul_lt hi this
  have hcap : ((if (req : Rat) * i > maxLifetime then countFor maxLifetime i else req : Nat) : Rat) * i < 3600000 + i ∧
      ((req : Rat) * i ≤ 3600000 → (if (req : Rat) * i > maxLifetime then countFor maxLifetime i else req) = req) := by
    simp only [maxLifetime]
    refine ⟨?_, ?_⟩
    · split
      · exact a2
      · grind
    · intro h; rw [if_neg (by grind)]
  unfold lifetimeCount
  dsimp only
  rw [if_pos hkas]
  generalize (if (req : Rat) * i > maxLifetime then countFor maxLifetime i else req) = n at hcap
  obtain ⟨c1, c2⟩ := hcap
  have hm : 3 * ka ≤ (if ka * 3 > n then ka * 3 else n) ∧ ((if ka * 3 > n then ka * 3 else n : Nat) : Rat) * i < 3600000 + i ∧
      (3 * ka ≤ n → (if ka * 3 > n then ka * 3 else n) = n) := by
    refine ⟨by split <;> omega, ?_, ?_⟩
    · split
      · grind
      · exact c1
    · intro h; rw [if_neg (by omega)]
  generalize (if ka * 3 > n then ka * 3 else n) = m at hm
  obtain ⟨m1, m2, m3⟩ := hm
  simp only [minLifetime]
  by_cases hmin : (10000 : Rat) > i ∧ (10000 : Rat) > (m : Rat) * i
  · rw [if_pos hmin]
    have hlt : m < countFor 10000 i := natCast_mul_lt hi (by grind)
    refine ⟨by omega, b1, by grind, bound _ (by grind), ?_⟩
    intro g1 g2 g3
    rw [c2 g3] at m3
    rw [m3 g1] at hmin
    grind
  · rw [if_neg hmin]
    refine ⟨m1, ?_, m2, bound _ m2, ?_⟩
    · by_cases h10 : (10000 : Rat) > i
      · grind
      · have : ((1 : Nat) : Rat) * i ≤ (m : Rat) * i := natCast_mul_le hi (by omega)
        have e : ((1 : Nat) : Rat) = 1 := rfl
        rw [e] at this
        grind
    · intro g1 g2 g3
      rw [c2 g3] at m3
      exact m3 g1

/-- Everything together, as CreateSubscription and ModifySubscription apply it. -/
theorem C43_revised (p : F64) (ka lt : Nat) :
    ∃ i, publishingInterval p = .fin i ∧ 125 ≤ i ∧ i ≤ 60000 ∧ 1 ≤ maxKeepAliveCount i ka ∧
      3 * maxKeepAliveCount i ka ≤ lifetimeCount i (maxKeepAliveCount i ka) lt ∧
      (maxKeepAliveCount i ka : Rat) * i < 60000 + i ∧
      10000 ≤ (lifetimeCount i (maxKeepAliveCount i ka) lt : Rat) * i := by
  obtain ⟨i, h1, h2, h3, _⟩ := C43_interval p
  obtain ⟨k1, k2, _⟩ := C43_keep_alive i h2 ka
  obtain ⟨l1, l2, _⟩ := C43_lifetime i h2 h3 _ lt k1 k2
  exact ⟨i, h1, h2, h3, k1, l1, k2, l2⟩

/-- Zero notifications per publish means (practically) no limit; any other number is kept. -/
theorem C43_notifications (req : Nat) : 0 < maxNotifications req ∧ (req ≠ 0 → maxNotifications req = req) := by
  unfold maxNotifications
  split <;> omega

example : publishingInterval (.fin 1000) = .fin 1000 ∧ maxKeepAliveCount 1000 10 = 10 ∧ lifetimeCount 1000 10 100 = 100 ∧
    maxKeepAliveCount 7000 1000 = 9 ∧ lifetimeCount 7000 9 1 = 27 ∧ lifetimeCount 130 1 1 = 77 := by
  decide +kernel

end Opcua.Revise
