import Verif.Model.Session
import Verif.Lemmas.Lists

/-! Sessions: C36, C37 and C81. -/
namespace Opcua.Session
variable {W : Type}

/-! ### Maps -/

theorem find_append (a b : List (Nat × Sess)) (k : Nat) :
    find (a ++ b) k = match find a k with | some x => some x | none => find b k := by
  induction a with
  | nil => simp [find]
  | cons e a ih =>
    obtain ⟨k', x⟩ := e
    simp only [List.cons_append, find]
    split
    · rfl
    · exact ih

theorem find_erase (t : List (Nat × Sess)) (a k : Nat) :
    find (erase t a) k = if k = a then none else find t k := by
  induction t with
  | nil => simp [erase, find]
  | cons e t ih =>
    obtain ⟨k', x⟩ := e
    unfold erase at ih ⊢
    simp only [List.filter_cons]
    split
    · simp only [find, ih]
      grind
    · simp only [find, ih]
      grind

theorem find_put (t : List (Nat × Sess)) (a k : Nat) (x : Sess) :
    find (put t a x) k = if k = a then some x else find t k := by
  unfold put
  rw [find_append, find_erase]
  by_cases h : k = a
  · simp [h, find]
  · simp only [h, if_false, find]
    split <;> simp_all <;> omega

theorem mem_of_find {t : List (Nat × Sess)} {k : Nat} {x : Sess} (h : find t k = some x) : (k, x) ∈ t := by
  induction t with
  | nil => simp [find] at h
  | cons e t ih =>
    obtain ⟨k', y⟩ := e
    simp only [find] at h
    split at h
    · simp_all
    · exact List.mem_cons_of_mem _ (ih h)

/-- The keys are pairwise distinct: the list is a map. -/
def Keys (t : List (Nat × Sess)) : Prop := (t.map (·.1)).Nodup

theorem find_of_mem {t : List (Nat × Sess)} (hk : Keys t) {k : Nat} {x : Sess} (h : (k, x) ∈ t) : find t k = some x := by
  induction t with
  | nil => simp at h
  | cons e t ih =>
    obtain ⟨k', y⟩ := e
    unfold Keys at hk ih
    simp only [List.map_cons, List.nodup_cons, List.mem_map] at hk
    simp only [List.mem_cons, Prod.mk.injEq] at h
    simp only [find]
    rcases h with ⟨rfl, rfl⟩ | h
    · simp
    · rw [if_neg]
      · exact ih hk.2 h
      · intro e
        exact hk.1 ⟨(k, x), h, e.symm⟩

theorem Keys.filter {t : List (Nat × Sess)} (h : Keys t) (p : Nat × Sess → Bool) : Keys (t.filter p) :=
  List.Nodup.sublist (List.Sublist.map _ List.filter_sublist) h

theorem Keys.put {t : List (Nat × Sess)} (h : Keys t) (k : Nat) (x : Sess) : Keys (put t k x) := by
  unfold Keys Session.put
  rw [List.map_append, List.nodup_append]
  refine ⟨h.filter _, by simp, ?_⟩
  intro a ha b hb
  simp only [erase, List.mem_map, List.mem_filter, List.map_cons, List.map_nil, List.mem_singleton] at ha hb
  obtain ⟨e, ⟨_, he⟩, rfl⟩ := ha
  simp at he
  omega

theorem erase_length_le (t : List (Nat × Sess)) (k : Nat) : (erase t k).length ≤ t.length :=
  List.length_filter_le _ _

theorem put_length_le (t : List (Nat × Sess)) (k : Nat) (x : Sess) : (put t k x).length ≤ t.length + 1 := by
  unfold put
  have := erase_length_le t k
  simp only [List.length_append, List.length_cons, List.length_nil]
  omega

theorem put_length_of_find {t : List (Nat × Sess)} {k : Nat} {y : Sess} (h : find t k = some y) (x : Sess) :
    (put t k x).length ≤ t.length := by
  have : (erase t k).length < t.length := by
    unfold erase
    exact List.length_filter_lt_length_iff_exists.2 ⟨_, mem_of_find h, by simp⟩
  unfold put
  simp only [List.length_append, List.length_cons, List.length_nil]
  omega

/-! ### One step -/

theorem get_some {s s' : State W} {tok : Nat} {x : Sess} (h : get s tok = some (x, s')) :
    ∃ y, find s.table tok = some y ∧ s.now - y.last ≤ y.timeout ∧ x = { y with last := s.now } ∧
      s' = { s with table := put s.table tok x } := by
  unfold get at h
  split at h
  · simp at h
  · rename_i y hy
    split at h
    · simp at h
    · rename_i he
      simp only [Option.some.injEq, Prod.mk.injEq] at h
      refine ⟨y, hy, ?_, h.1.symm, ?_⟩
      · simpa [expired] using he
      · rw [← h.2, ← h.1]

theorem get_none {s : State W} {tok : Nat} (h : get s tok = none) :
    ∀ y, find s.table tok = some y → s.now - y.last > y.timeout := by
  intro y hy
  unfold get at h
  rw [hy] at h
  simp only [] at h
  split at h
  · rename_i he
    simpa [expired] using he
  · simp at h

/-- Events that name a session. -/
def names (tok : Nat) : Ev W → Prop
  | .create t _ _ _ => t = tok
  | .activate t _ _ _ _ => t = tok
  | .service t _ _ => t = tok
  | .close t _ _ => t = tok
  | _ => False

/-- Events that, when they succeed, change which channel a session belongs to. -/
def rebinds (tok : Nat) : Ev W → Prop
  | .create t _ _ _ => t = tok
  | .activate t _ _ _ _ => t = tok
  | .close t _ _ => t = tok
  | _ => False

/-- Where the entry of `tok` after an event comes from. -/
theorem origin (s : State W) (hk : Keys s.table) (e : Ev W) (tok : Nat) (x' : Sess) (h : find (step s e).1.table tok = some x') :
    (∃ x, find s.table tok = some x ∧ x.chan = x'.chan ∧ x.user = x'.user ∧ x.sid = x'.sid ∧ x.timeout = x'.timeout ∧
      x.client = x'.client ∧ (rebinds tok e → (step s e).2 ≠ .good) ∧
      ((x'.last = x.last ∧ (names tok e → (step s e).2 = .badSessionIDInvalid ∨ (step s e).2 = .badTooManySessions)) ∨
       (x'.last = s.now ∧ names tok e ∧ (step s e).2 ≠ .badSessionIDInvalid ∧ (step s e).2 ≠ .badTooManySessions))) ∨
    (∃ sid timeout client, e = .create tok sid timeout client ∧ (step s e).2 = .good ∧
      x' = ⟨sid, 0, s.now, timeout, 0, client⟩) ∨
    (∃ ch sb u x, e = .activate tok ch sb true u ∧ signatureOk ch sb = true ∧ (step s e).2 = .good ∧
      find s.table tok = some x ∧ s.now - x.last ≤ x.timeout ∧
      x' = { x with last := s.now, chan := ch.id, user := u }) := by
  cases e with
  | tick d => exact Or.inl ⟨x', by simpa [step] using h, rfl, rfl, rfl, rfl, rfl, by simp [rebinds], Or.inl ⟨rfl, by simp [names]⟩⟩
  | create t sid timeout client =>
    simp only [step, add] at h ⊢
    split at h
    · rename_i hm
      simp only [hm]
      exact Or.inl ⟨x', h, rfl, rfl, rfl, rfl, rfl, by simp, Or.inl ⟨rfl, by simp⟩⟩
    · rename_i hm
      simp only [hm]
      rw [find_put] at h
      split at h
      · rename_i ht
        subst ht
        right; left
        exact ⟨sid, timeout, client, rfl, by simp, by simpa using h.symm⟩
      · rename_i ht
        left
        refine ⟨x', h, rfl, rfl, rfl, rfl, rfl, ?_, Or.inl ⟨rfl, ?_⟩⟩ <;> simp [rebinds, names] <;> omega
  | activate t ch sb acc u =>
    simp only [step] at h ⊢
    cases hg : get s t with
    | none =>
      rw [hg] at h
      exact Or.inl ⟨x', h, rfl, rfl, rfl, rfl, rfl, by simp, Or.inl ⟨rfl, by simp⟩⟩
    | some p =>
      obtain ⟨x, s'⟩ := p
      obtain ⟨y, hy, hexp, hx, hs'⟩ := get_some hg
      rw [hg] at h
      dsimp only at h ⊢
      by_cases ht : tok = t
      · subst ht
        by_cases h1 : signatureOk ch sb = false
        · rw [if_pos h1] at h
          rw [if_pos h1, hs'] 
          rw [hs'] at h
          simp only [find_put, if_true, Option.some.injEq] at h
          subst h
          exact Or.inl ⟨y, hy, by simp [hx], by simp [hx], by simp [hx], by simp [hx], by simp [hx], by simp, Or.inr ⟨by simp [hx], by simp [names], by simp, by simp⟩⟩
        · rw [if_neg h1] at h ⊢
          by_cases h2 : acc = false
          · rw [if_pos h2] at h
            rw [if_pos h2]
            rw [hs'] at h
            simp only [find_put, if_true, Option.some.injEq] at h
            subst h
            exact Or.inl ⟨y, hy, by simp [hx], by simp [hx], by simp [hx], by simp [hx], by simp [hx], by simp, Or.inr ⟨by simp [hx], by simp [names], by simp, by simp⟩⟩
          · rw [if_neg h2] at h ⊢
            simp only [find_put, if_true, Option.some.injEq] at h
            right; right
            simp only [Bool.not_eq_false] at h1 h2
            subst h2
            exact ⟨ch, sb, u, y, rfl, h1, rfl, hy, hexp, by rw [← h, hx]⟩
      · have key : ∀ (o : State W × Status), find o.1.table tok = find s.table tok → find o.1.table tok = some x' →
            (∃ x, find s.table tok = some x ∧ x.chan = x'.chan ∧ x.user = x'.user ∧ x.sid = x'.sid ∧ x.timeout = x'.timeout ∧
              x.client = x'.client ∧ (rebinds tok (Ev.activate t ch sb acc u : Ev W) → o.2 ≠ .good) ∧
              ((x'.last = x.last ∧ (names tok (Ev.activate t ch sb acc u : Ev W) → o.2 = .badSessionIDInvalid ∨ o.2 = .badTooManySessions)) ∨
               (x'.last = s.now ∧ names tok (Ev.activate t ch sb acc u : Ev W) ∧ o.2 ≠ .badSessionIDInvalid ∧ o.2 ≠ .badTooManySessions))) := by
          intro o h1 h2
          refine ⟨x', h1 ▸ h2, rfl, rfl, rfl, rfl, rfl, ?_, Or.inl ⟨rfl, ?_⟩⟩ <;> simp [rebinds, names] <;> omega
        left
        refine key _ ?_ h
        rw [hs']
        split
        · simp [find_put, ht]
        · split <;> simp [find_put, ht]
  | service t ch body =>
    simp only [step, gate] at h ⊢
    cases hg : get s t with
    | none =>
      rw [hg] at h
      exact Or.inl ⟨x', h, rfl, rfl, rfl, rfl, rfl, by simp, Or.inl ⟨rfl, by simp⟩⟩
    | some p =>
      obtain ⟨x, s'⟩ := p
      obtain ⟨y, hy, hexp, hx, hs'⟩ := get_some hg
      rw [hg] at h
      dsimp only at h ⊢
      left
      by_cases h1 : x.chan = 0
      · rw [if_pos h1] at h ⊢
        simp only [del, hs', find_erase] at h
        split at h
        · simp at h
        · rename_i ht
          rw [find_put, if_neg ht] at h
          refine ⟨x', h, rfl, rfl, rfl, rfl, rfl, by simp, Or.inl ⟨rfl, ?_⟩⟩
          simp [names]; omega
      · rw [if_neg h1] at h ⊢
        by_cases h2 : x.chan ≠ ch.id
        · rw [if_pos h2] at h ⊢
          simp only [hs', find_put] at h
          split at h
          · rename_i ht
            simp only [Option.some.injEq] at h
            subst h
            subst ht
            exact ⟨y, hy, by simp [hx], by simp [hx], by simp [hx], by simp [hx], by simp [hx], by simp, Or.inr ⟨by simp [hx], by simp [names], by simp, by simp⟩⟩
          · rename_i ht
            refine ⟨x', h, rfl, rfl, rfl, rfl, rfl, by simp, Or.inl ⟨rfl, ?_⟩⟩
            simp [names]; omega
        · rw [if_neg h2] at h ⊢
          simp only [hs', find_put] at h
          split at h
          · rename_i ht
            simp only [Option.some.injEq] at h
            subst h
            subst ht
            exact ⟨y, hy, by simp [hx], by simp [hx], by simp [hx], by simp [hx], by simp [hx], by simp [rebinds], Or.inr ⟨by simp [hx], by simp [names], by simp, by simp⟩⟩
          · rename_i ht
            refine ⟨x', h, rfl, rfl, rfl, rfl, rfl, by simp [rebinds], Or.inl ⟨rfl, ?_⟩⟩
            simp [names]; omega
  | close t ch body =>
    simp only [step, gate] at h ⊢
    cases hg : get s t with
    | none =>
      rw [hg] at h
      exact Or.inl ⟨x', h, rfl, rfl, rfl, rfl, rfl, by simp, Or.inl ⟨rfl, by simp⟩⟩
    | some p =>
      obtain ⟨x, s'⟩ := p
      obtain ⟨y, hy, hexp, hx, hs'⟩ := get_some hg
      rw [hg] at h
      dsimp only at h ⊢
      left
      by_cases h1 : x.chan = 0
      · rw [if_pos h1] at h ⊢
        simp only [del, hs', find_erase] at h
        split at h
        · simp at h
        · rename_i ht
          rw [find_put, if_neg ht] at h
          refine ⟨x', h, rfl, rfl, rfl, rfl, rfl, by simp, Or.inl ⟨rfl, ?_⟩⟩
          simp [names]; omega
      · rw [if_neg h1] at h ⊢
        by_cases h2 : x.chan ≠ ch.id
        · rw [if_pos h2] at h ⊢
          simp only [hs', find_put] at h
          split at h
          · rename_i ht
            simp only [Option.some.injEq] at h
            subst h
            subst ht
            exact ⟨y, hy, by simp [hx], by simp [hx], by simp [hx], by simp [hx], by simp [hx], by simp, Or.inr ⟨by simp [hx], by simp [names], by simp, by simp⟩⟩
          · rename_i ht
            refine ⟨x', h, rfl, rfl, rfl, rfl, rfl, by simp, Or.inl ⟨rfl, ?_⟩⟩
            simp [names]; omega
        · rw [if_neg h2] at h ⊢
          simp only [del, hs', find_erase, find_put] at h
          split at h
          · simp at h
          · rename_i ht
            refine ⟨x', h, rfl, rfl, rfl, rfl, rfl, ?_, Or.inl ⟨rfl, ?_⟩⟩ <;> simp [names, rebinds] <;> omega
  | sweep =>
    have hm : (tok, x') ∈ s.table := (List.mem_filter.1 (mem_of_find h)).1
    exact Or.inl ⟨x', find_of_mem hk hm, rfl, rfl, rfl, rfl, rfl, by simp [rebinds], Or.inl ⟨rfl, by simp [names]⟩⟩

theorem run_snoc (s : State W) (evs : List (Ev W)) (e : Ev W) : run s (evs ++ [e]) = (step (run s evs) e).1 := by
  simp [run]

theorem run_append (s : State W) (a b : List (Ev W)) : run s (a ++ b) = run (run s a) b := by
  simp [run]

theorem keys_get {s s' : State W} {tok : Nat} {x : Sess} (hk : Keys s.table) (h : get s tok = some (x, s')) :
    Keys s'.table := by
  obtain ⟨_, _, _, _, rfl⟩ := get_some h
  exact hk.put _ _

theorem keys_gate {s : State W} (tok : Nat) (ch : Channel) (hk : Keys s.table) : Keys (gate s tok ch).1.table := by
  unfold gate
  cases hg : get s tok with
  | none => exact hk
  | some p =>
    have := keys_get hk hg
    dsimp only
    split
    · exact this.filter _
    · split <;> exact this

theorem keys_step (s : State W) (hk : Keys s.table) (e : Ev W) : Keys (step s e).1.table := by
  cases e with
  | tick d => exact hk
  | create t sid timeout client =>
    simp only [step, add]
    split
    · exact hk
    · exact hk.put _ _
  | activate t ch sb acc u =>
    simp only [step]
    cases hg : get s t with
    | none => exact hk
    | some p =>
      have := keys_get hk hg
      dsimp only
      split
      · exact this
      · split
        · exact this
        · exact this.put _ _
  | service t ch body =>
    have := keys_gate t ch hk
    simp only [step]
    cases hg : gate s t ch with
    | mk s' r =>
      rw [hg] at this
      cases r <;> exact this
  | close t ch body =>
    have := keys_gate t ch hk
    simp only [step]
    cases hg : gate s t ch with
    | mk s' r =>
      rw [hg] at this
      cases r
      · exact this
      · exact this.filter _
  | sweep => exact hk.filter _

theorem keys_run (max : Nat) (w : W) (evs : List (Ev W)) : Keys (run (init max w) evs).table := by
  induction evs using snocInd with
  | nil => simp [run, init, Keys]
  | append_singleton evs e ih => rw [run_snoc]; exact keys_step _ ih e

/-! ### C36 -/

/-- In any state: the services act only for a live session that belongs to the channel. -/
theorem C36_no_effect (s : State W) (tok : Nat) (ch : Channel) (body : Nat → W → W)
    (h : (step s (.service tok ch body)).1.world ≠ s.world) :
    ∃ x, find s.table tok = some x ∧ s.now ≤ x.last + x.timeout ∧ x.chan = ch.id ∧ x.chan ≠ 0 ∧
      (step s (.service tok ch body)).1.world = body x.sid s.world := by
  simp only [step, gate] at h ⊢
  cases hg : get s tok with
  | none => rw [hg] at h; exact absurd rfl h
  | some p =>
    obtain ⟨x, s'⟩ := p
    obtain ⟨y, hy, hexp, hx, hs'⟩ := get_some hg
    rw [hg] at h
    dsimp only at h ⊢
    split at h
    · rename_i h1
      split at h1
      · simp only [Prod.mk.injEq] at h1; exact absurd (by simp [← h1.1, del, hs']) h
      · split at h1
        · simp only [Prod.mk.injEq] at h1; exact absurd (by simp [← h1.1, hs']) h
        · simp at h1
    · rename_i h1
      split at h1
      · simp at h1
      · rename_i h2
        split at h1
        · simp at h1
        · rename_i h3
          refine ⟨y, hy, by omega, ?_, ?_, ?_⟩
          · simpa [hx] using h3
          · simpa [hx] using h2
          · simp only [Prod.mk.injEq, Except.ok.injEq] at h1
            simp [← h1.1, ← h1.2, hs', hx]

/-- The same for CloseSession (deleting the subscriptions of the session). -/
theorem C36_close_no_effect (s : State W) (tok : Nat) (ch : Channel) (body : Nat → W → W)
    (h : (step s (.close tok ch body)).1.world ≠ s.world) :
    ∃ x, find s.table tok = some x ∧ s.now ≤ x.last + x.timeout ∧ x.chan = ch.id ∧ x.chan ≠ 0 ∧
      (step s (.close tok ch body)).1.world = body x.sid s.world := by
  simp only [step, gate] at h ⊢
  cases hg : get s tok with
  | none => rw [hg] at h; exact absurd rfl h
  | some p =>
    obtain ⟨x, s'⟩ := p
    obtain ⟨y, hy, hexp, hx, hs'⟩ := get_some hg
    rw [hg] at h
    dsimp only at h ⊢
    split at h
    · rename_i h1
      split at h1
      · simp only [Prod.mk.injEq] at h1; exact absurd (by simp [← h1.1, del, hs']) h
      · split at h1
        · simp only [Prod.mk.injEq] at h1; exact absurd (by simp [← h1.1, hs']) h
        · simp at h1
    · rename_i h1
      split at h1
      · simp at h1
      · rename_i h2
        split at h1
        · simp at h1
        · rename_i h3
          refine ⟨y, hy, by omega, ?_, ?_, ?_⟩
          · simpa [hx] using h3
          · simpa [hx] using h2
          · simp only [Prod.mk.injEq, Except.ok.injEq] at h1
            simp [← h1.1, ← h1.2, hs', hx]

/-- CreateSession, ActivateSession, the sweep and the passing of time do not act on the world. -/
theorem C36_other_events (s : State W) (e : Ev W) (h : (step s e).1.world ≠ s.world) :
    (∃ tok ch body, e = .service tok ch body) ∨ (∃ tok ch body, e = .close tok ch body) := by
  cases e with
  | tick d => simp [step] at h
  | create t sid timeout client =>
    simp only [step, add] at h
    split at h <;> simp at h
  | activate t ch sb acc u =>
    simp only [step] at h
    cases hg : get s t with
    | none => rw [hg] at h; simp at h
    | some p =>
      obtain ⟨x, s'⟩ := p
      obtain ⟨_, _, _, _, hs'⟩ := get_some hg
      rw [hg] at h
      dsimp only at h
      split at h
      · simp [hs'] at h
      · split at h <;> simp [hs'] at h
  | service t ch body => exact Or.inl ⟨_, _, _, rfl⟩
  | close t ch body => exact Or.inr ⟨_, _, _, rfl⟩
  | sweep => simp [step, Session.sweep] at h

/-- Which status the checks give, in any state. -/
theorem C36_status (s : State W) (tok : Nat) (ch : Channel) (body : Nat → W → W) :
    (step s (.service tok ch body)).2 =
      match find s.table tok with
      | none => .badSessionIDInvalid
      | some x =>
        if x.last + x.timeout < s.now then .badSessionIDInvalid
        else if x.chan = 0 then .badSessionNotActivated
        else if x.chan = ch.id then .good
        else .badSecureChannelIDInvalid := by
  simp only [step, gate, get]
  cases hf : find s.table tok with
  | none => rfl
  | some x =>
    dsimp only
    by_cases he : expired s.now x = true
    · rw [if_pos he, if_pos]
      simp only [expired, decide_eq_true_eq] at he; omega
    · rw [if_neg he, if_neg]
      · dsimp only
        by_cases h1 : x.chan = 0
        · simp [h1]
        · by_cases h2 : x.chan = ch.id
          · rw [h2] at h1
            simp [h1, h2]
          · simp [h1, h2]
      · simp only [expired, decide_eq_true_eq] at he; omega

/-- "Activated on the very channel": over the whole history. A session that is bound to a channel
was activated on it by a request that succeeded, as the stored user, and no later request created,
activated or closed it successfully. -/
theorem C36_activated (max : Nat) (w : W) (evs : List (Ev W)) (tok : Nat) (x : Sess)
    (h : find (run (init max w) evs).table tok = some x) (hc : x.chan ≠ 0) :
    ∃ pre ch sb u post, evs = pre ++ (.activate tok ch sb true u :: post) ∧
      (step (run (init max w) pre) (.activate tok ch sb true u)).2 = .good ∧
      x.chan = ch.id ∧ x.user = u ∧ signatureOk ch sb = true ∧
      ∀ p e q, post = p ++ (e :: q) → rebinds tok e →
        (step (run (init max w) (pre ++ (.activate tok ch sb true u :: p))) e).2 ≠ .good := by
  induction evs using snocInd generalizing x with
  | nil => simp [run, init, find] at h
  | append_singleton evs e ih =>
    rw [run_snoc] at h
    rcases origin _ (keys_run max w evs) e tok x h with ⟨y, hy, h1, h2, _, _, _, h3, _⟩ | ⟨_, _, _, _, _, hx⟩ | ⟨ch, sb, u, y, rfl, hsig, h1, _, _, hx⟩
    · obtain ⟨pre, ch, sb, u, post, he, hg, hch, hu, hsig, hpost⟩ := ih y hy (h1 ▸ hc)
      refine ⟨pre, ch, sb, u, post ++ [e], by simp [he], hg, h1 ▸ hch, h2 ▸ hu, hsig, ?_⟩
      intro p e' q hp hr
      rcases List.eq_nil_or_concat q with rfl | ⟨q', z, rfl⟩
      · have : post = p ∧ e = e' := by
          have := List.append_inj' hp rfl
          simpa using this
        obtain ⟨rfl, rfl⟩ := this
        rw [← he]
        exact h3 hr
      · have : post = p ++ (e' :: q') := by
          have : post ++ [e] = (p ++ (e' :: q')) ++ [z] := by simpa using hp
          exact (List.append_inj' this rfl).1
        exact hpost p e' q' this hr
    · rw [hx] at hc; simp at hc
    · exact ⟨evs, ch, sb, u, [], by simp, h1, by rw [hx], by rw [hx], hsig, by simp⟩

/-- Put together: whatever happened before, a service acts on the world only if its token names a
session activated on this channel and not closed since. -/
theorem C36_gated (max : Nat) (w : W) (evs : List (Ev W)) (tok : Nat) (ch : Channel) (body : Nat → W → W)
    (h : (step (run (init max w) evs) (.service tok ch body)).1.world ≠ (run (init max w) evs).world) :
    ∃ pre ch' sb u post, evs = pre ++ (.activate tok ch' sb true u :: post) ∧ ch'.id = ch.id ∧
      (step (run (init max w) pre) (.activate tok ch' sb true u)).2 = .good ∧
      ∀ p e q, post = p ++ (e :: q) → rebinds tok e →
        (step (run (init max w) (pre ++ (.activate tok ch' sb true u :: p))) e).2 ≠ .good := by
  obtain ⟨x, hx, _, hc, h0, _⟩ := C36_no_effect _ tok ch body h
  obtain ⟨pre, ch', sb, u, post, he, hg, hch, _, _, hpost⟩ := C36_activated max w evs tok x hx h0
  exact ⟨pre, ch', sb, u, post, he, by omega, hg, hpost⟩

/-- A refused request changes no session but the one it names; that one keeps everything but its
time of last access, unless it was never activated. -/
theorem C36_refused_partial (s : State W) (tok : Nat) (ch : Channel) (body : Nat → W → W)
    (h : (step s (.service tok ch body)).2 ≠ .good) :
    (step s (.service tok ch body)).1.world = s.world ∧
    (∀ k, k ≠ tok → find (step s (.service tok ch body)).1.table k = find s.table k) ∧
    (∀ x, find s.table tok = some x → x.chan ≠ 0 →
      ∃ x', find (step s (.service tok ch body)).1.table tok = some x' ∧ { x' with last := x.last } = x) := by
  simp only [step, gate] at h ⊢
  cases hg : get s tok with
  | none => exact ⟨rfl, fun _ _ => rfl, fun x hx _ => ⟨x, hx, rfl⟩⟩
  | some p =>
    obtain ⟨x, s'⟩ := p
    obtain ⟨y, hy, hexp, hx, hs'⟩ := get_some hg
    rw [hg] at h
    dsimp only at h ⊢
    by_cases h1 : x.chan = 0
    · rw [if_pos h1]
      refine ⟨by simp [del, hs'], ?_, ?_⟩
      · intro k hk
        simp [del, hs', find_erase, find_put, hk]
      · intro z hz hz0
        rw [hy] at hz
        cases hz
        rw [hx] at h1
        exact absurd h1 hz0
    · rw [if_neg h1] at h ⊢
      by_cases h2 : x.chan ≠ ch.id
      · rw [if_pos h2]
        refine ⟨by simp [hs'], ?_, ?_⟩
        · intro k hk
          simp [hs', find_put, hk]
        · intro z hz hz0
          rw [hy] at hz
          cases hz
          exact ⟨x, by simp [hs', find_put], by rw [hx]⟩
      · rw [if_neg h2] at h
        simp at h

/-- A service request that names a session not yet activated deletes the session, whatever channel
it comes from. -/
theorem C36_unactivated_deleted_fails :
    let s := run (init 10 ()) [.create 7 70 10000 none]
    find s.table 7 ≠ none ∧
    (step s (.service 7 ⟨5, none⟩ (fun _ w => w))).2 = .badSessionNotActivated ∧
    find (step s (.service 7 ⟨5, none⟩ (fun _ w => w))).1.table 7 = none := by
  decide

/-- A request refused because it came over a foreign channel extends the life of the session: after
9 s of silence the session would have expired one second later, but it is still served. -/
theorem C36_foreign_refresh_fails :
    let s := run (init 10 ()) [.create 7 70 10000 none, .activate 7 ⟨5, none⟩ none true 1, .tick 9000]
    let s1 := run s [.tick 2000]
    let s2 := run s [.service 7 ⟨6, none⟩ (fun _ w => w), .tick 2000]
    (step s (.service 7 ⟨6, none⟩ (fun _ w => w))).2 = .badSecureChannelIDInvalid ∧
    (step s1 (.service 7 ⟨5, none⟩ (fun _ w => w))).2 = .badSessionIDInvalid ∧
    (step s2 (.service 7 ⟨5, none⟩ (fun _ w => w))).2 = .good := by
  decide

/-- The hypotheses of `C36_gated` are met by an ordinary session. -/
example :
    let evs : List (Ev Nat) := [.create 7 70 10000 none, .activate 7 ⟨5, none⟩ none true 1, .tick 100]
    (step (run (init 10 0) evs) (.service 7 ⟨5, none⟩ (fun sid w => w + sid))).1.world ≠ (run (init 10 0) evs).world := by
  decide

/-! ### C37 -/

theorem get_length {s s' : State W} {tok : Nat} {x : Sess} (h : get s tok = some (x, s')) :
    s'.table.length ≤ s.table.length ∧ s'.max = s.max := by
  obtain ⟨y, hy, _, _, rfl⟩ := get_some h
  exact ⟨put_length_of_find hy _, rfl⟩

theorem gate_length (s : State W) (tok : Nat) (ch : Channel) :
    (gate s tok ch).1.table.length ≤ s.table.length ∧ (gate s tok ch).1.max = s.max := by
  unfold gate
  cases hg : get s tok with
  | none => simp
  | some p =>
    have := get_length hg
    dsimp only
    split
    · refine ⟨Nat.le_trans (erase_length_le _ _) this.1, this.2⟩
    · split <;> exact this

theorem limit_step (s : State W) (e : Ev W) (h0 : 0 < s.max) (h : s.table.length ≤ s.max) :
    (step s e).1.table.length ≤ s.max ∧ (step s e).1.max = s.max := by
  cases e with
  | tick d => exact ⟨h, rfl⟩
  | create t sid timeout client =>
    simp only [step, add]
    split
    · exact ⟨h, rfl⟩
    · have := put_length_le s.table t ⟨sid, 0, s.now, timeout, 0, client⟩
      refine ⟨?_, rfl⟩
      dsimp only
      omega
  | activate t ch sb acc u =>
    simp only [step]
    cases hg : get s t with
    | none => exact ⟨h, rfl⟩
    | some p =>
      obtain ⟨x, s'⟩ := p
      have h1 := get_length hg
      obtain ⟨y, _, _, _, hs'⟩ := get_some hg
      dsimp only
      split
      · exact ⟨by dsimp only; omega, h1.2⟩
      · split
        · exact ⟨by dsimp only; omega, h1.2⟩
        · refine ⟨?_, h1.2⟩
          have hf : find s'.table t = some x := by simp [hs', find_put]
          have := put_length_of_find hf { x with chan := ch.id, user := u }
          dsimp only
          omega
  | service t ch body =>
    have := gate_length s t ch
    simp only [step]
    cases hg : gate s t ch with
    | mk s' r =>
      rw [hg] at this
      cases r <;> exact ⟨by dsimp only at this ⊢; omega, this.2⟩
  | close t ch body =>
    have := gate_length s t ch
    simp only [step]
    cases hg : gate s t ch with
    | mk s' r =>
      rw [hg] at this
      cases r
      · exact ⟨by dsimp only at this ⊢; omega, this.2⟩
      · refine ⟨?_, this.2⟩
        have h2 := erase_length_le s'.table t
        dsimp only [del] at this ⊢
        omega
  | sweep => exact ⟨Nat.le_trans (List.length_filter_le _ _) h, rfl⟩

/-- With a configured maximum the number of sessions never exceeds it. -/
theorem C37_limit (max : Nat) (w : W) (hm : 0 < max) (evs : List (Ev W)) :
    (run (init max w) evs).table.length ≤ max := by
  have : (run (init max w) evs).table.length ≤ max ∧ (run (init max w) evs).max = max := by
    induction evs using snocInd with
    | nil => simp [run, init]
    | append_singleton evs e ih =>
      rw [run_snoc]
      have := limit_step (run (init max w) evs) e (by omega) (by omega)
      omega
  exact this.1

/-- A request that creates a session beyond the maximum is refused and changes nothing. -/
theorem C37_refused (s : State W) (tok sid timeout : Nat) (client : Option Nat) (h : 0 < s.max)
    (hf : s.max ≤ s.table.length) :
    step s (.create tok sid timeout client) = (s, .badTooManySessions) := by
  simp only [step, add]
  rw [if_pos ⟨h, hf⟩]

/-- The clock of the server. -/
def clock : List (Ev W) → Nat
  | [] => 0
  | .tick d :: evs => d + clock evs
  | _ :: evs => clock evs

theorem clock_append (a b : List (Ev W)) : clock (a ++ b) = clock a + clock b := by
  induction a with
  | nil => simp [clock]
  | cons e a ih => cases e <;> simp [clock, ih] <;> omega

theorem gate_now (s : State W) (tok : Nat) (ch : Channel) : (gate s tok ch).1.now = s.now := by
  unfold gate
  cases hg : get s tok with
  | none => rfl
  | some p =>
    obtain ⟨x, s'⟩ := p
    obtain ⟨_, _, _, _, hs'⟩ := get_some hg
    dsimp only
    split
    · simp [del, hs']
    · split <;> simp [hs']

theorem now_step (s : State W) (e : Ev W) : (step s e).1.now = s.now + clock [e] := by
  cases e with
  | tick d => simp [step, clock]
  | create t sid timeout client => simp only [step, add]; split <;> simp [clock]
  | activate t ch sb acc u =>
    simp only [step]
    cases hg : get s t with
    | none => simp [clock]
    | some p =>
      obtain ⟨x, s'⟩ := p
      obtain ⟨_, _, _, _, hs'⟩ := get_some hg
      dsimp only
      split
      · simp [clock, hs']
      · split <;> simp [clock, hs']
  | service t ch body =>
    have := gate_now s t ch
    simp only [step]
    cases hg : gate s t ch with
    | mk s' r => rw [hg] at this; cases r <;> simpa [clock] using this
  | close t ch body =>
    have := gate_now s t ch
    simp only [step]
    cases hg : gate s t ch with
    | mk s' r => rw [hg] at this; cases r <;> simpa [clock, del] using this
  | sweep => simp [step, Session.sweep, clock]

theorem now_run (max : Nat) (w : W) (evs : List (Ev W)) : (run (init max w) evs).now = clock evs := by
  induction evs using snocInd with
  | nil => simp [run, init, clock]
  | append_singleton evs e ih => rw [run_snoc, now_step, ih, clock_append]

/-- A request for the session that found it: it was answered with something other than "no such
session". -/
def uses (s : State W) (tok : Nat) (e : Ev W) : Prop :=
  names tok e ∧ (step s e).2 ≠ .badSessionIDInvalid ∧ (step s e).2 ≠ .badTooManySessions

/-- The time of last access is the time of the last request that found the session. -/
theorem last_use (max : Nat) (w : W) (evs : List (Ev W)) (tok : Nat) (x : Sess)
    (h : find (run (init max w) evs).table tok = some x) :
    ∃ pre e post, evs = pre ++ (e :: post) ∧ uses (run (init max w) pre) tok e ∧ x.last = clock pre ∧
      ∀ p e' q, post = p ++ (e' :: q) → ¬ uses (run (init max w) (pre ++ (e :: p))) tok e' := by
  induction evs using snocInd generalizing x with
  | nil => simp [run, init, find] at h
  | append_singleton evs e ih =>
    rw [run_snoc] at h
    rcases origin _ (keys_run max w evs) e tok x h with ⟨y, hy, _, _, _, _, _, _, h3⟩ | ⟨_, _, _, he, hst, hx⟩ | ⟨ch, sb, u, y, he, _, hst, _, _, hx⟩
    · rcases h3 with ⟨hl, hn⟩ | ⟨hl, hn⟩
      · obtain ⟨pre, e0, post, heq, hu, hlast, hpost⟩ := ih y hy
        refine ⟨pre, e0, post ++ [e], by simp [heq], hu, by omega, ?_⟩
        intro p e' q hp
        rcases List.eq_nil_or_concat q with rfl | ⟨q', z, rfl⟩
        · have : post = p ∧ e = e' := by
            have := List.append_inj' hp rfl
            simpa using this
          obtain ⟨rfl, rfl⟩ := this
          rw [← heq]
          intro hu'
          rcases hn hu'.1 with h | h
          · exact hu'.2.1 h
          · exact hu'.2.2 h
        · have : post = p ++ (e' :: q') := by
            have : post ++ [e] = (p ++ (e' :: q')) ++ [z] := by simpa using hp
            exact (List.append_inj' this rfl).1
          exact hpost p e' q' this
      · exact ⟨evs, e, [], by simp, ⟨hn.1, hn.2⟩, by rw [hl, now_run], by simp⟩
    · exact ⟨evs, e, [], rfl, ⟨by rw [he]; simp [names], by rw [hst]; simp, by rw [hst]; simp⟩, by rw [hx, now_run], by simp⟩
    · exact ⟨evs, e, [], rfl, ⟨by rw [he]; simp [names], by rw [hst]; simp, by rw [hst]; simp⟩, by rw [hx, now_run], by simp⟩

/-- A session idle for longer than its timeout is never handed to a service: when a request for it
succeeds, an earlier request for it was answered at most `timeout` ago. -/
theorem C37_idle_not_served (max : Nat) (w : W) (evs : List (Ev W)) (tok : Nat) (ch : Channel) (body : Nat → W → W)
    (h : (step (run (init max w) evs) (.service tok ch body)).2 = .good) :
    ∃ x pre e post, find (run (init max w) evs).table tok = some x ∧ evs = pre ++ (e :: post) ∧
      uses (run (init max w) pre) tok e ∧ clock evs ≤ clock pre + x.timeout := by
  rw [C36_status] at h
  cases hf : find (run (init max w) evs).table tok with
  | none => rw [hf] at h; simp at h
  | some x =>
    rw [hf] at h
    dsimp only at h
    split at h
    · simp at h
    · rename_i hexp
      obtain ⟨pre, e, post, heq, hu, hl, _⟩ := last_use max w evs tok x hf
      refine ⟨x, pre, e, post, rfl, heq, hu, ?_⟩
      rw [now_run] at hexp
      omega

/-- The sweep never removes a session that was used within its timeout, and changes no session. -/
theorem C37_sweep_keeps (max : Nat) (w : W) (evs : List (Ev W)) (tok : Nat) (x : Sess)
    (h : find (run (init max w) evs).table tok = some x)
    (pre post : List (Ev W)) (e : Ev W) (heq : evs = pre ++ (e :: post)) (hu : uses (run (init max w) pre) tok e)
    (hin : clock evs ≤ clock pre + x.timeout) :
    find (run (init max w) (evs ++ [.sweep])).table tok = some x := by
  obtain ⟨pre', e', post', heq', hu', hl, hpost⟩ := last_use max w evs tok x h
  -- the last use is not before the given one
  have hle : clock pre ≤ clock pre' := by
    rcases Nat.lt_or_ge pre'.length pre.length with hlt | hge
    · exfalso
      -- `e` occurs in `post'`
      have h1 : pre' ++ (e' :: post') = pre ++ (e :: post) := by rw [← heq', heq]
      rw [List.append_eq_append_iff] at h1
      rcases h1 with ⟨m, hm1, hm2⟩ | ⟨m, hm1, _⟩
      · cases m with
        | nil => rw [hm1] at hlt; simp at hlt
        | cons z m =>
          simp only [List.cons_append, List.cons.injEq] at hm2
          refine hpost m e post hm2.2 ?_
          rw [hm2.1, ← hm1]
          exact hu
      · rw [hm1, List.length_append] at hlt; omega
    · have h1 : pre ++ (e :: post) = pre' ++ (e' :: post') := by rw [← heq', heq]
      rw [List.append_eq_append_iff] at h1
      rcases h1 with ⟨m, hm1, hm2⟩ | ⟨m, hm1, hm2⟩
      · rw [hm1, clock_append]; omega
      · have : m = [] := by
          rw [hm1, List.length_append] at hge
          exact List.eq_nil_of_length_eq_zero (by omega)
        subst this
        simp at hm1
        rw [hm1]; exact Nat.le_refl _
  rw [run_snoc]
  refine find_of_mem ((keys_run max w evs).filter _) (List.mem_filter.2 ⟨mem_of_find h, ?_⟩)
  rw [now_run]
  simp [expired]
  omega

/-- The sweep does remove every session that is over its timeout. -/
theorem C37_sweep_removes (s : State W) (tok : Nat) (x : Sess) (h : (tok, x) ∈ (step s .sweep).1.table) :
    s.now ≤ x.last + x.timeout := by
  have := (List.mem_filter.1 h).2
  simp [expired] at this
  omega

/-- Tokens of live sessions are unique; their session ids are unique when the random ids drawn are
distinct. -/
theorem C37_unique (max : Nat) (w : W) (evs : List (Ev W))
    (hd : ∀ p t1 s1 o1 c1 q t2 s2 o2 c2 r, evs = p ++ (.create t1 s1 o1 c1 :: (q ++ (.create t2 s2 o2 c2 :: r))) → s1 ≠ s2) :
    Keys (run (init max w) evs).table ∧
    ∀ k1 k2 x1 x2, find (run (init max w) evs).table k1 = some x1 → find (run (init max w) evs).table k2 = some x2 →
      x1.sid = x2.sid → k1 = k2 := by
  refine ⟨keys_run max w evs, ?_⟩
  -- every session stems from a create event with its token and id
  have key : ∀ evs : List (Ev W), ∀ k x, find (run (init max w) evs).table k = some x →
      ∃ p o c q, evs = p ++ (.create k x.sid o c :: q) := by
    intro evs
    induction evs using snocInd with
    | nil => intro k x h; simp [run, init, find] at h
    | append_singleton evs e ih =>
      intro k x h
      rw [run_snoc] at h
      rcases origin _ (keys_run max w evs) e k x h with ⟨y, hy, _, _, h1, _⟩ | ⟨sid, o, c, he, _, hx⟩ | ⟨ch, sb, u, y, he, _, _, hy, _, hx⟩
      · obtain ⟨p, o, c, q, rfl⟩ := ih k y hy
        exact ⟨p, o, c, q ++ [e], by simp [h1]⟩
      · exact ⟨evs, o, c, [], by rw [he, hx]⟩
      · obtain ⟨p, o, c, q, rfl⟩ := ih k y hy
        exact ⟨p, o, c, q ++ [e], by simp [hx]⟩
  intro k1 k2 x1 x2 h1 h2 hs
  obtain ⟨p1, o1, c1, q1, e1⟩ := key evs k1 x1 h1
  obtain ⟨p2, o2, c2, q2, e2⟩ := key evs k2 x2 h2
  have h3 := e1.symm.trans e2
  rw [List.append_eq_append_iff] at h3
  rcases h3 with ⟨m, hm1, hm2⟩ | ⟨m, hm1, hm2⟩
  · cases m with
    | nil => simp at hm2; exact hm2.1.1
    | cons z m =>
      simp only [List.cons_append, List.cons.injEq] at hm2
      exfalso
      refine hd p1 k1 x1.sid o1 c1 m k2 x2.sid o2 c2 q2 ?_ hs
      rw [e1, hm2.2]
  · cases m with
    | nil => simp at hm2; exact hm2.1.1.symm
    | cons z m =>
      simp only [List.cons_append, List.cons.injEq] at hm2
      exfalso
      refine hd p2 k2 x2.sid o2 c2 m k1 x1.sid o1 c1 q1 ?_ hs.symm
      rw [e2, hm2.2]

/-- A concrete history for the theorems above. -/
example :
    let evs : List (Ev Nat) := [.create 7 70 10000 none, .create 8 80 20000 none, .create 9 90 20000 none,
      .activate 7 ⟨5, none⟩ none true 1, .tick 15000]
    (run (init 2 0) evs).table.length = 2 ∧
    (step (run (init 2 0) evs) (.service 7 ⟨5, none⟩ (fun _ w => w))).2 = .badSessionIDInvalid ∧
    find (run (init 2 0) (evs ++ [.sweep])).table 7 = none ∧
    find (run (init 2 0) (evs ++ [.sweep])).table 8 = some ⟨80, 0, 0, 20000, 0, none⟩ := by
  decide

/-! ### C81 -/

/-- An application holding another certificate takes over a session created by a client with
certificate 1, by signing with its own key: the session is then bound to its channel. It needs the
authentication token; the client certificate of the session is not looked at. -/
theorem C81_takeover_fails :
    let s := run (init 10 ()) [.create 7 70 10000 (some 1), .activate 7 ⟨5, some 1⟩ (some 1) true 1]
    let r := step s (.activate 7 ⟨6, some 2⟩ (some 2) true 9)
    r.2 = .good ∧
    find r.1.table 7 = some ⟨70, 6, 0, 10000, 9, some 1⟩ ∧
    (step r.1 (.service 7 ⟨6, some 2⟩ (fun _ w => w))).2 = .good ∧
    (step r.1 (.service 7 ⟨5, some 1⟩ (fun _ w => w))).2 = .badSecureChannelIDInvalid := by
  decide

/-- Over a channel without security no signature at all is needed. -/
theorem C81_unsecured_fails :
    let s := run (init 10 ()) [.create 7 70 10000 (some 1), .activate 7 ⟨5, some 1⟩ (some 1) true 1]
    (step s (.activate 7 ⟨6, none⟩ none true 9)).2 = .good := by
  decide

/-- What does hold: over a channel with a security policy ActivateSession needs a signature made
with the private key of that channel's peer. -/
theorem C81_channel_key_partial (s : State W) (tok : Nat) (ch : Channel) (sb : Option Nat) (acc : Bool) (u k : Nat)
    (hk : ch.key = some k) (h : (step s (.activate tok ch sb acc u)).2 = .good) : sb = some k := by
  simp only [step] at h
  cases hg : get s tok with
  | none => rw [hg] at h; simp at h
  | some p =>
    rw [hg] at h
    dsimp only at h
    split at h
    · simp at h
    · rename_i h1
      simpa [signatureOk, hk] using h1

example : (step (run (init 10 ()) [.create 7 70 10000 (some 1)]) (.activate 7 ⟨5, some 1⟩ (some 1) true 1)).2 = .good := by
  decide

end Opcua.Session
