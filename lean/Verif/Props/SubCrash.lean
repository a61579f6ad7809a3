import Verif.Model.SubCrash
import Verif.Lemmas.Lists

/-!
# C84: services that meet do not crash the server
-/

namespace Opcua.SubCrash

theorem run_snoc (s : State) (a : List Ev) (e : Ev) : run s (a ++ [e]) = step (run s a) e := by simp [run]

/-- An event that does not meet another one on the same subscription, and is not the end of the
server. -/
def Alone (s : State) : Ev → Prop
  | .get _ i _ => ∀ u op, s.pending u ≠ some (i, op)
  | .expire i => ∀ u op, s.pending u ≠ some (i, op)
  | .shutdown _ => False
  | _ => True

/-- A history in which services and timers do not meet. -/
def Orderly (evs : List Ev) : Prop := ∀ a e b, evs = a ++ e :: b → Alone (run init a) e

structure Inv (s : State) : Prop where
  ok : s.panicked = false
  live : ∀ i x, s.subs i = some x → x.inTable = true → x.alive = true ∧ (x.chan = .open ∨ ∃ u, s.pending u = some (i, .start))
  mine : ∀ u i op, s.pending u = some (i, op) → ∃ x, s.subs i = some x ∧ x.alive = true
    ∧ (op ≠ .start → x.chan = .open) ∧ (op ≠ .delete → x.inTable = true) ∧ (op = .delete → x.inTable = false)
  one : ∀ u v i op op', s.pending u = some (i, op) → s.pending v = some (i, op') → u = v

theorem inv_init : Inv init := by
  refine ⟨rfl, ?_, ?_, ?_⟩ <;> simp [init]

theorem inv_step (s : State) (e : Ev) (hs : Inv s) (ha : Alone s e) : Inv (step s e) := by
  unfold step
  rw [if_neg (by simp [hs.ok])]
  cases e with
  | add t i =>
    dsimp only
    split
    · next hp hi =>
      have hfree : ∀ u op, s.pending u ≠ some (i, op) := by
        intro u op h
        obtain ⟨x, hx, _⟩ := hs.mine u i op h
        rw [hi] at hx; cases hx
      refine ⟨hs.ok, ?_, ?_, ?_⟩
      · intro k x hk hx
        by_cases h : k = i
        · subst h
          simp [set] at hk
          subst hk
          exact ⟨rfl, .inr ⟨t, by simp [set]⟩⟩
        · simp [set, h] at hk
          obtain ⟨h1, h2⟩ := hs.live k x hk hx
          refine ⟨h1, h2.imp id ?_⟩
          rintro ⟨u, hu⟩
          refine ⟨u, ?_⟩
          have : u ≠ t := by intro e; subst e; rw [hp] at hu; cases hu
          simpa [set, this] using hu
      · intro u k op hu
        by_cases h : u = t
        · subst h
          simp [set] at hu
          obtain ⟨rfl, rfl⟩ := hu
          exact ⟨⟨true, .nil, true⟩, by simp [set]⟩
        · simp [set, h] at hu
          have hk : k ≠ i := by intro e; subst e; exact hfree u op hu
          simpa [set, hk] using hs.mine u k op hu
      · intro u v k op op' hu hv
        by_cases h : u = t <;> by_cases h' : v = t
        · rw [h, h']
        · subst h
          simp [set] at hu; simp [set, h'] at hv
          obtain ⟨rfl, rfl⟩ := hu
          exact absurd hv (hfree v op')
        · subst h'
          simp [set] at hv; simp [set, h] at hu
          obtain ⟨rfl, rfl⟩ := hv
          exact absurd hu (hfree u op)
        · simp [set, h] at hu; simp [set, h'] at hv
          exact hs.one u v k op op' hu hv
    · exact hs
  | get t i op =>
    dsimp only
    split
    · next x hp hi =>
      split
      · next hc =>
        obtain ⟨hin, hns, hnd⟩ := hc
        refine ⟨hs.ok, ?_, ?_, ?_⟩
        · intro k y hk hy
          obtain ⟨h1, h2⟩ := hs.live k y hk hy
          refine ⟨h1, h2.imp id ?_⟩
          rintro ⟨u, hu⟩
          refine ⟨u, ?_⟩
          have : u ≠ t := by intro e; subst e; rw [hp] at hu; cases hu
          simpa [set, this] using hu
        · intro u k op' hu
          by_cases h : u = t
          · subst h
            simp [set] at hu
            obtain ⟨rfl, rfl⟩ := hu
            obtain ⟨h1, h2⟩ := hs.live i x hi hin
            refine ⟨x, hi, h1, fun _ => ?_, fun _ => hin, fun e => absurd e hnd⟩
            rcases h2 with h2 | ⟨v, hv⟩
            · exact h2
            · exact absurd hv (ha v _)
          · simp [set, h] at hu
            exact hs.mine u k op' hu
        · intro u v k op1 op2 hu hv
          by_cases h : u = t <;> by_cases h' : v = t
          · rw [h, h']
          · subst h
            simp [set] at hu; simp [set, h'] at hv
            obtain ⟨rfl, rfl⟩ := hu
            exact absurd hv (ha v op2)
          · subst h'
            simp [set] at hv; simp [set, h] at hu
            obtain ⟨rfl, rfl⟩ := hv
            exact absurd hu (ha u op1)
          · simp [set, h] at hu; simp [set, h'] at hv
            exact hs.one u v k op1 op2 hu hv
      · exact hs
    · exact hs
  | act t =>
    dsimp only
    split
    · exact hs
    · next i op hp =>
      split
      · exact hs
      · next x hi =>
        obtain ⟨x', hx', hal, hop, hin, hout⟩ := hs.mine t i op hp
        rw [hi] at hx'
        cases hx'
        -- the state of `i` becomes `y`, and `t` goes on with `q`, which is nothing or the deletion
        have key : ∀ (y : Sub) (q : Option (Nat × Op)),
            (y.inTable = true → y.alive = true ∧ y.chan = .open) →
            (q = none ∨ (q = some (i, .delete) ∧ y.alive = true ∧ y.chan = .open ∧ y.inTable = false)) →
            Inv { s with subs := set s.subs i (some y), pending := set s.pending t q } := by
          intro y q hy hq
          refine ⟨hs.ok, ?_, ?_, ?_⟩
          · intro k z hk hz
            by_cases h : k = i
            · subst h
              simp [set] at hk
              subst hk
              exact ⟨(hy hz).1, .inl (hy hz).2⟩
            · simp [set, h] at hk
              obtain ⟨h1, h2⟩ := hs.live k z hk hz
              refine ⟨h1, h2.imp id ?_⟩
              rintro ⟨u, hu⟩
              refine ⟨u, ?_⟩
              have : u ≠ t := by
                intro e; subst e; rw [hp] at hu
                simp at hu; exact h hu.1.symm
              simpa [set, this] using hu
          · intro u k op' hu
            by_cases h : u = t
            · subst h
              simp [set] at hu
              rcases hq with hq | ⟨hq, h1, h2, h3⟩
              · rw [hq] at hu; cases hu
              · rw [hq] at hu
                simp at hu
                obtain ⟨rfl, rfl⟩ := hu
                exact ⟨y, by simp [set], h1, fun _ => h2, fun e => absurd rfl e, fun _ => h3⟩
            · simp [set, h] at hu
              have hk : k ≠ i := by
                intro e; subst e; exact h (hs.one u t k op' op hu hp)
              simpa [set, hk] using hs.mine u k op' hu
          · intro u v k op1 op2 hu hv
            have hq' : ∀ k op', q = some (k, op') → k = i := by
              intro k op' e
              rcases hq with hq | ⟨hq, _⟩ <;> rw [hq] at e <;> simp at e
              exact e.1.symm
            by_cases h : u = t <;> by_cases h' : v = t
            · rw [h, h']
            · subst h
              simp [set] at hu; simp [set, h'] at hv
              have := hq' _ _ hu
              subst this
              exact absurd (hs.one v u k op2 op hv hp) h'
            · subst h'
              simp [set] at hv; simp [set, h] at hu
              have := hq' _ _ hv
              subst this
              exact absurd (hs.one u v k op1 op hu hp) h
            · simp [set, h] at hu; simp [set, h'] at hv
              exact hs.one u v k op1 op2 hu hv
        have same : set s.subs i (some x) = s.subs := by
          funext k; by_cases h : k = i <;> simp [set, h]; rw [hi]
        have keep : op ≠ .start → op ≠ .delete → Inv { s with pending := set s.pending t none } := by
          intro h1 h2
          have := key x none (fun _ => ⟨hal, hop h1⟩) (.inl rfl)
          rwa [same] at this
        unfold act
        cases op with
        | start => exact key _ _ (fun _ => ⟨hal, rfl⟩) (.inl rfl)
        | modify =>
          have := hop (by simp)
          dsimp only
          rw [this]
          exact key _ _ (fun _ => ⟨hal, rfl⟩) (.inl rfl)
        | remove =>
          have hset : set (set s.pending t none) t (some (i, Op.delete)) = set s.pending t (some (i, .delete)) := by
            funext k; by_cases h : k = t <;> simp [set, h]
          dsimp only
          rw [hset]
          exact key _ _ (fun e => (by simp at e)) (.inr ⟨rfl, hal, hop (by simp), rfl⟩)
        | delete =>
          have h1 := hop (by simp)
          have h2 := hout rfl
          dsimp only [deleteImpl]
          rw [h1]
          exact key _ _ (fun e => (by simp [h2] at e)) (.inl rfl)
        | acknowledge => dsimp only; rw [if_pos hal]; exact keep (by simp) (by simp)
        | republish => dsimp only; rw [if_pos hal]; exact keep (by simp) (by simp)
        | appendItem => dsimp only; rw [if_pos hal]; exact keep (by simp) (by simp)
        | other => exact keep (by simp) (by simp)
  | expire i =>
    dsimp only
    split
    · exact hs
    · next x hi =>
      split
      · next hc =>
        dsimp only [deleteImpl]
        rw [hc.1]
        show Inv { s with subs := set s.subs i (some ⟨false, .closed, false⟩) }
        refine ⟨hs.ok, ?_, ?_, ?_⟩
        · intro k z hk hz
          by_cases h : k = i
          · subst h
            simp [set] at hk
            subst hk
            simp at hz
          · simp [set, h] at hk
            exact hs.live k z hk hz
        · intro u k op hu
          have hk : k ≠ i := by intro e; subst e; exact ha u op hu
          simpa [set, hk] using hs.mine u k op hu
        · exact hs.one
      · exact hs
  | shutdown i => exact absurd ha (by simp [Alone])

/-- **C84 (partial).** If services and timers do not meet on one subscription, and the server is not
closed, nothing panics. -/
theorem C84_orderly_partial (evs : List Ev) (h : Orderly evs) : (run init evs).panicked = false := by
  suffices hi : Inv (run init evs) from hi.ok
  induction evs using snocInd with
  | nil => exact inv_init
  | append_singleton evs e ih =>
    rw [run_snoc]
    refine inv_step _ e (ih ?_) (h evs e [] rfl)
    intro a e' b hab
    exact h a e' (b ++ [e]) (by rw [hab]; simp)

/-- A subscription is created, modified, used and deleted; another one expires meanwhile. -/
def day : List Ev :=
  [.add 1 0, .act 1, .add 2 1, .get 1 0 .modify, .act 2, .act 1, .get 1 0 .acknowledge, .get 2 1 .appendItem, .act 1, .act 2,
   .get 1 0 .remove, .expire 1, .act 1, .act 1]

/-- Decides `Alone`, for goroutines below 3. -/
def alone (s : State) (e : Ev) : Bool :=
  match e with
  | .get _ i _ => (List.range 3).all (fun u => match s.pending u with | some (k, _) => decide (k ≠ i) | none => true)
  | .expire i => (List.range 3).all (fun u => match s.pending u with | some (k, _) => decide (k ≠ i) | none => true)
  | .shutdown _ => false
  | _ => true

example : (List.range day.length).all (fun n => alone (run init (day.take n)) (day.getD n (.act 0))) = true
    ∧ ((run init day).subs 0, (run init day).subs 1)
      = (some ⟨false, .closed, false⟩, some ⟨false, .closed, false⟩) := by decide

/-- **C84 fails.** A subscription whose lifetime ends just after ModifySubscription,
DeleteSubscriptions, Republish, CreateMonitoredItems or an acknowledgement found it ends the process. -/
theorem C84_race_fails (op : Op) (h : op ∈ [Op.modify, .remove, .acknowledge, .republish, .appendItem]) :
    (run init [.add 1 0, .act 1, .get 1 0 op, .expire 0, .act 1, .act 1]).panicked = true := by
  revert op; decide

/-- **C84 fails.** An acknowledgement by another session that meets DeleteSubscriptions ends the
process. -/
theorem C84_foreign_fails :
    (run init [.add 1 0, .act 1, .get 2 0 .acknowledge, .get 1 0 .remove, .act 1, .act 1, .act 2]).panicked = true := by
  decide

/-- **C84 fails.** Closing the server panics if a subscription is being created, and so does a request
to delete or modify a subscription that comes after it. -/
theorem C84_shutdown_fails :
    (run init [.add 1 0, .shutdown 0]).panicked = true
    ∧ (run init [.add 1 0, .act 1, .shutdown 0, .get 1 0 .remove, .act 1, .act 1]).panicked = true
    ∧ (run init [.add 1 0, .act 1, .shutdown 0, .get 1 0 .modify, .act 1]).panicked = true := by decide

end Opcua.SubCrash
