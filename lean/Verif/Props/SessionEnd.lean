import Verif.Model.SessionEnd
import Verif.Props.PublishFlow

/-! C134: what a session leaves behind. -/
namespace Opcua.SessionEnd

open PublishFlow (Req Data Answer)
open PublishFlow.Spec (answered actor)

namespace Spec

/-- The session has ended: it has existed, and no request can name it any more. -/
def Ended (s : State) (w : Nat) : Prop := ∃ x, s.sess w = some x ∧ x.inTable = false

/-- No service of the session is under way, save those that wait for a nil channel. -/
def Idle (s : State) (w : Nat) : Prop := ∀ c op, s.doing c = some (w, op) → s.stuck c = true

/-- The answers to Publish requests of the session. -/
def answersOf (s : State) (w : Nat) : List Nat := answered s.flow w

/-- The requests of the session that wait. -/
def waiting (s : State) (w : Nat) : List Nat := (s.flow.queue w).map (·.rid)

/-- The subscriptions of the session. -/
def subsOf (s : State) (w : Nat) : List PublishFlow.Sub := s.flow.subs.filter (fun t => decide (t.owner = w))

/-- How often the publishing timer of a subscription fired. -/
def turns (id : Nat) (evs : List Ev) : Nat :=
  evs.countP (fun | .timer i _ => decide (i = id) | _ => false)

/-- Subscriptions are created with a lifetime of at least one turn (C43). -/
def Proper : Ev → Prop
  | .call _ _ (.create _ _ _ l) => 0 < l
  | .call _ _ (.modify _ _ _ l) => 0 < l
  | _ => True

/-- No session ends while a service of it is under way. -/
def Orderly (maxCPs : Nat) (evs : List Ev) : Prop :=
  ∀ p e q, evs = p ++ e :: q → ∀ c w op, (run (init maxCPs) p).doing c = some (w, op) →
    ¬ Ended (run (init maxCPs) (p ++ [e])) w

end Spec

open Spec

theorem run_snoc (s : State) (evs : List Ev) (e : Ev) : run s (evs ++ [e]) = step (run s evs) e := by simp [run]
theorem run_append (s : State) (a b : List Ev) : run s (a ++ b) = run (run s a) b := by simp [run]

theorem set_eq {α : Type} (f : Nat → α) (w : Nat) (v : α) (u : Nat) : PublishFlow.set f w v u = if u = w then v else f u := rfl

/-! ### A session that has ended hears nothing -/

theorem quiet_starve (w : Nat) (as : List Nat) (s : PublishFlow.State) (t : PublishFlow.Sub) (f : Nat → Nat → Bool)
    (hq : s.queue w = []) (ha : answered s w = as) :
    (PublishFlow.starve s t f).queue w = [] ∧ answered (PublishFlow.starve s t f) w = as := by
  obtain ⟨h1, h2⟩ := PublishFlow.starve_answers s t f
  exact ⟨by rw [h2]; exact hq, by rw [← ha]; unfold answered; rw [h1]⟩

theorem quiet_enqueue (w u : Nat) (as : List Nat) (s : PublishFlow.State) (r : Req) (hu : u ≠ w)
    (hq : s.queue w = []) (ha : answered s w = as) :
    (PublishFlow.enqueue u r s).queue w = [] ∧ answered (PublishFlow.enqueue u r s) w = as := by
  unfold PublishFlow.enqueue
  split
  · exact ⟨(PublishFlow.set_other _ _ _ _ (Ne.symm hu)).trans hq, ha⟩
  · split
    · exact ⟨(PublishFlow.set_other _ _ _ _ (Ne.symm hu)).trans hq, ha⟩
    · exact ⟨(PublishFlow.set_other _ _ _ _ (Ne.symm hu)).trans hq, (PublishFlow.answered_other s _ w u _ hu rfl).trans ha⟩

theorem quiet_cycle (w : Nat) (as : List Nat) (s : PublishFlow.State) (t : PublishFlow.Sub) (d : Data)
    (hq : s.queue w = []) (ha : answered s w = as) :
    (PublishFlow.cycle s t d).queue w = [] ∧ answered (PublishFlow.cycle s t d) w = as := by
  by_cases ho : t.owner = w
  · subst ho
    unfold PublishFlow.cycle
    dsimp only
    rw [hq]
    simp only [PublishFlow.remove, PublishFlow.told, List.map_nil, List.append_nil]
    have h0 : PublishFlow.set s.queue t.owner [] t.owner = [] := PublishFlow.set_same _ _ _
    split
    · exact quiet_starve _ _ _ _ _ h0 ha
    · split
      · exact quiet_starve _ _ _ _ _ h0 ha
      · exact ⟨hq, ha⟩
  · have h1 : PublishFlow.set s.queue t.owner (PublishFlow.remove s.now (s.queue t.owner)).2.2 w = [] :=
      (PublishFlow.set_other _ _ _ _ (Ne.symm ho)).trans hq
    have h2 : answered { s with
        queue := PublishFlow.set s.queue t.owner (PublishFlow.remove s.now (s.queue t.owner)).2.2
        answers := s.answers ++ PublishFlow.told t.owner (PublishFlow.remove s.now (s.queue t.owner)).1 } w = as :=
      (PublishFlow.answered_other s _ w _ _ ho rfl).trans ha
    unfold PublishFlow.cycle
    dsimp only
    repeat' split
    · exact ⟨h1, (PublishFlow.answered_other _ _ w _ _ ho rfl).trans h2⟩
    · exact quiet_starve _ _ _ _ _ h1 h2
    · exact ⟨h1, (PublishFlow.answered_other _ _ w _ _ ho rfl).trans h2⟩
    · exact quiet_starve _ _ _ _ _ h1 h2
    · exact ⟨hq, ha⟩

/-- Whatever others do, an empty queue stays empty and nothing is answered. -/
theorem quiet_step (w : Nat) (as : List Nat) (s : PublishFlow.State) (e : PublishFlow.Ev) (he : actor e ≠ some w)
    (hq : s.queue w = []) (ha : answered s w = as) :
    (PublishFlow.step s e).queue w = [] ∧ answered (PublishFlow.step s e) w = as := by
  cases e with
  | tick d => exact ⟨hq, ha⟩
  | create u p b k l => exact ⟨hq, ha⟩
  | modify u id p k l => exact ⟨hq, ha⟩
  | setMode u ids b => exact ⟨hq, ha⟩
  | sweep => exact ⟨hq, ha⟩
  | delete u ids =>
    have hu : u ≠ w := fun h0 => he (congrArg some h0)
    simp only [PublishFlow.step, PublishFlow.delete]
    split
    · exact ⟨hq, ha⟩
    · split
      · exact ⟨(PublishFlow.set_other _ _ _ _ (Ne.symm hu)).trans hq, (PublishFlow.answered_other s _ w u _ hu rfl).trans ha⟩
      · exact ⟨hq, ha⟩
  | publish u r tie data =>
    have hu : u ≠ w := fun h0 => he (congrArg some h0)
    simp only [PublishFlow.step, PublishFlow.publish]
    split
    · exact ⟨hq, (PublishFlow.answered_other s _ w u _ hu rfl).trans ha⟩
    · split
      · exact ⟨hq, (PublishFlow.answered_other s _ w u _ hu rfl).trans ha⟩
      · split
        · exact ⟨hq, (PublishFlow.answered_other s _ w u _ hu rfl).trans ha⟩
        · exact quiet_enqueue w u as s r hu hq ha
  | timer id d =>
    simp only [PublishFlow.step]
    split
    · exact ⟨hq, ha⟩
    · exact quiet_cycle w as s _ d hq ha

/-- A session that has ended, as later steps see it. -/
structure Gone (w : Nat) (s : State) : Prop where
  ended : Ended s w
  idle : Idle s w
  queue : s.flow.queue w = []

theorem get_table {s : State} {w : Nat} {x : Sess} (h : get s w = some x) :
    ∃ y, s.sess w = some y ∧ y.inTable = true ∧ x = { y with last := s.flow.now } ∧ ¬ s.flow.now - y.last > y.timeout := by
  unfold get at h
  split at h
  · rename_i y hy
    split at h
    · rename_i h1
      exact ⟨y, hy, h1.1, (Option.some.inj h).symm, h1.2⟩
    · cases h
  · cases h

theorem ended_get {s : State} {w : Nat} (h : Ended s w) : get s w = none := by
  obtain ⟨x, hx, hf⟩ := h
  simp [get, hx, hf]

theorem ended_set {s : State} {w u : Nat} {x : Sess} (h : Ended s w) (hu : u ≠ w) (s' : State)
    (hs : s'.sess = PublishFlow.set s.sess u (some x)) : Ended s' w := by
  obtain ⟨y, hy, hf⟩ := h
  exact ⟨y, by rw [hs, set_eq, if_neg (Ne.symm hu)]; exact hy, hf⟩

/-- The part of a step that works on subscriptions and requests. -/
inductive Flow (s : State) (e : Ev) : PublishFlow.State → Prop where
  | same : Flow s e s.flow
  | tick (d : Nat) : Flow s e (PublishFlow.step s.flow (.tick d))
  | timer (id : Nat) (d : Data) : e = .timer id d → Flow s e (PublishFlow.step s.flow (.timer id d))
  | sweep : Flow s e (PublishFlow.step s.flow .sweep)
  | op (c w : Nat) (op : Op) (ev : PublishFlow.Ev) : s.doing c = some (w, op) → s.stuck c = false → actor ev = some w →
      (∀ u p b k l, ev = .create u p b k l → op = .create p b k l) → (∀ u i p k l, ev = .modify u i p k l → op = .modify i p k l) →
      Flow s e (PublishFlow.step s.flow ev)
  | gone (w : Nat) (x : Sess) : s.sess w = some x → x.inTable = true →
      Flow s e { s.flow with queue := PublishFlow.set s.flow.queue w [] }
  | deleted (w : Nat) (x : Sess) : s.sess w = some x → x.inTable = true →
      Flow s e { s.flow with
        subs := s.flow.subs.filter (fun t => decide (t.owner ≠ w))
        queue := PublishFlow.set s.flow.queue w [] }

theorem act_flow (s : State) (c w : Nat) (x : Sess) (tie : Nat → Nat) (data : Nat → Data) (op : Op)
    (ev : Ev) (hd : s.doing c = some (w, op)) (hs : s.stuck c = false) : Flow s ev (act s c w x tie data op).flow := by
  cases op with
  | publish r =>
    simp only [act]
    split
    · exact .same
    · refine .op c w _ (.publish w r tie data) hd hs rfl ?_ ?_ <;> (intros; rename_i h; cases h)
  | create p e k l =>
    refine .op c w _ (.create w p e k l) hd hs rfl ?_ ?_
    · intro _ _ _ _ _ h
      injection h with h1 h2 h3 h4 h5
      subst h2 h3 h4 h5; rfl
    · intros; rename_i h; cases h
  | modify i p k l =>
    refine .op c w _ (.modify w i p k l) hd hs rfl ?_ ?_
    · intros; rename_i h; cases h
    · intro _ _ _ _ _ h
      injection h with h1 h2 h3 h4 h5
      subst h2 h3 h4 h5; rfl
  | setMode ids e => refine .op c w _ (.setMode w ids e) hd hs rfl ?_ ?_ <;> (intros; rename_i h; cases h)
  | delete ids => refine .op c w _ (.delete w ids) hd hs rfl ?_ ?_ <;> (intros; rename_i h; cases h)
  | browse =>
    simp only [act]
    split
    · exact .same
    · split <;> exact .same
  | other => exact .same

theorem step_flow (s : State) (e : Ev) : Flow s e (step s e).flow := by
  unfold step
  split
  · exact .same
  · cases e with
    | tick d => exact .tick d
    | «open» w timeout => dsimp only; split <;> exact .same
    | activate c w => dsimp only; repeat' split
                      all_goals exact .same
    | call c w op =>
      dsimp only
      split
      · exact .same
      · split
        · exact .same
        · rename_i x hg
          obtain ⟨y, hy, hin, _⟩ := get_table hg
          split
          · exact .gone w y hy hin
          · split <;> exact .same
    | act c tie data =>
      dsimp only
      split
      · exact .same
      · rename_i hs
        split
        · exact .same
        · rename_i w op hd
          split
          · exact .same
          · exact act_flow s c w _ tie data op _ hd (by simpa using hs)
    | close c w del =>
      dsimp only
      split
      · exact .same
      · split
        · exact .same
        · rename_i x hg
          obtain ⟨y, hy, hin, _⟩ := get_table hg
          split
          · exact .gone w y hy hin
          · split
            · exact .same
            · cases del
              · exact .gone w y hy hin
              · exact .deleted w y hy hin
    | expire w =>
      dsimp only
      split
      · exact .same
      · rename_i x hx
        split
        · rename_i h
          exact .gone w x hx h.1
        · exact .same
    | timer id d => exact .timer id d rfl
    | sweep => exact .sweep

/-- What a step does to the sessions and to the services under way. -/
theorem gone_table (w : Nat) (s : State) (e : Ev) (hE : Ended s w) (hI : Idle s w) :
    Ended (step s e) w ∧ Idle (step s e) w := by
  have hg := ended_get hE
  have hne : ∀ {u x}, get s u = some x → u ≠ w := by
    intro u x h hu
    rw [hu, hg] at h; cases h
  have hgone : ∀ (s' : State) (u : Nat) (x : Sess), u ≠ w → s'.sess = s.sess → s'.doing = s.doing → s'.stuck = s.stuck →
      Ended (gone s' u x) w ∧ Idle (gone s' u x) w := by
    intro s' u x hu h1 h2 h3
    refine ⟨?_, ?_⟩
    · obtain ⟨y, hy, hf⟩ := hE
      exact ⟨y, by show PublishFlow.set s'.sess u _ w = _; rw [set_eq, if_neg (Ne.symm hu), h1]; exact hy, hf⟩
    · intro c op
      show s'.doing c = _ → s'.stuck c = true
      rw [h2, h3]; exact hI c op
  unfold step
  split
  · exact ⟨hE, hI⟩
  · cases e with
    | tick d => exact ⟨hE, hI⟩
    | timer id d => exact ⟨hE, hI⟩
    | sweep => exact ⟨hE, hI⟩
    | «open» u timeout =>
      dsimp only
      split
      · rename_i hn
        have hu : u ≠ w := by
          intro h0; subst h0
          obtain ⟨x, hx, _⟩ := hE
          rw [hn] at hx; cases hx
        exact ⟨ended_set hE hu _ rfl, hI⟩
      · exact ⟨hE, hI⟩
    | activate c u =>
      dsimp only
      split
      · exact ⟨hE, hI⟩
      · split
        · exact ⟨hE, hI⟩
        · rename_i x hx
          exact ⟨ended_set hE (hne hx) _ rfl, hI⟩
    | call c u op =>
      dsimp only
      split
      · exact ⟨hE, hI⟩
      · split
        · exact ⟨hE, hI⟩
        · rename_i x hx
          have hu := hne hx
          split
          · exact hgone s u x hu rfl rfl rfl
          · split
            · exact ⟨ended_set hE hu _ rfl, hI⟩
            · refine ⟨ended_set hE hu _ rfl, ?_⟩
              intro c' op'
              show PublishFlow.set s.doing c _ c' = _ → _
              rw [set_eq]
              split
              · intro h; injection h with h; injection h with h _; exact absurd h hu
              · exact hI c' op'
    | act c tie data =>
      dsimp only
      split
      · exact ⟨hE, hI⟩
      · rename_i hst
        split
        · exact ⟨hE, hI⟩
        · rename_i u op hd
          have hu : u ≠ w := by
            intro h0; subst h0; exact hst (hI c op hd)
          have hdone : ∀ s' : State, s'.doing = s.doing → s'.stuck = s.stuck → Ended s' w → Ended (done s' c) w ∧ Idle (done s' c) w := by
            intro s' h1 h3 h2
            refine ⟨h2, ?_⟩
            intro c' op'
            show PublishFlow.set s'.doing c none c' = _ → s'.stuck c' = true
            rw [set_eq]
            split
            · intro h; cases h
            · rw [h1, h3]; exact hI c' op'
          split
          · exact ⟨hE, hI⟩
          · rename_i x hx
            cases op with
            | publish r =>
              simp only [act]
              split
              · refine ⟨hE, ?_⟩
                intro c' op' h
                show PublishFlow.set s.stuck c true c' = true
                rw [set_eq]
                split
                · rfl
                · exact hI c' op' h
              · exact hdone _ rfl rfl hE
            | create p e k l => exact hdone _ rfl rfl hE
            | modify i p k l => exact hdone _ rfl rfl hE
            | setMode ids e => exact hdone _ rfl rfl hE
            | delete ids => exact hdone _ rfl rfl hE
            | browse =>
              simp only [act]
              split
              · exact ⟨hE, hI⟩
              · split
                · exact hdone _ rfl rfl hE
                · exact hdone _ rfl rfl (ended_set hE hu _ rfl)
            | other => exact hdone _ rfl rfl hE
    | close c u del =>
      dsimp only
      split
      · exact ⟨hE, hI⟩
      · split
        · exact ⟨hE, hI⟩
        · rename_i x hx
          have hu := hne hx
          split
          · exact hgone s u x hu rfl rfl rfl
          · split
            · exact ⟨ended_set hE hu _ rfl, hI⟩
            · cases del
              · exact hgone s u x hu rfl rfl rfl
              · exact hgone _ u x hu rfl rfl rfl
    | expire u =>
      dsimp only
      split
      · exact ⟨hE, hI⟩
      · rename_i x hx
        split
        · rename_i h
          have hu : u ≠ w := by
            intro h0; subst h0
            obtain ⟨y, hy, hf⟩ := hE
            rw [hx] at hy; injection hy with hy; subst hy
            rw [hf] at h; exact absurd h.1 (by decide)
          exact hgone s u x hu rfl rfl rfl
        · exact ⟨hE, hI⟩

theorem gone_step (w : Nat) (as : List Nat) (s : State) (e : Ev) (h : Gone w s) (ha : answersOf s w = as) :
    Gone w (step s e) ∧ answersOf (step s e) w = as := by
  obtain ⟨h1, h2⟩ := gone_table w s e h.ended h.idle
  have hf := step_flow s e
  have hx : (step s e).flow.queue w = [] ∧ answered (step s e).flow w = as := by
    have hother : ∀ u x, s.sess u = some x → x.inTable = true → u ≠ w := by
      intro u x hx hin h0; subst h0
      obtain ⟨y, hy, hff⟩ := h.ended
      rw [hx] at hy; injection hy with hy; subst hy
      rw [hin] at hff; cases hff
    generalize (step s e).flow = f at hf
    cases hf with
    | same => exact ⟨h.queue, ha⟩
    | tick d => exact quiet_step w as s.flow _ (by simp [actor]) h.queue ha
    | timer id d => exact quiet_step w as s.flow _ (by simp [actor]) h.queue ha
    | sweep => exact quiet_step w as s.flow _ (by simp [actor]) h.queue ha
    | op c u op e hd hst hact _ _ =>
      refine quiet_step w as s.flow _ ?_ h.queue ha
      rw [hact]
      intro h0; injection h0 with h0; subst h0; rw [h.idle c op hd] at hst; cases hst
    | gone u x hx hin => exact ⟨by show PublishFlow.set _ _ _ _ = _; rw [set_eq]; split; rfl; exact h.queue, ha⟩
    | deleted u x hx hin => exact ⟨by show PublishFlow.set _ _ _ _ = _; rw [set_eq]; split; rfl; exact h.queue, ha⟩
  exact ⟨⟨h1, h2, hx.1⟩, hx.2⟩

/-- A Session outside the table has lost its map and its channel, one in the table has both. -/
def Tidy (s : State) : Prop :=
  ∀ w x, s.sess w = some x → (x.cps = none ↔ x.inTable = false) ∧ (x.inTable = false → s.flow.queue w = [])

theorem tidy_same {s s' : State} (h : Tidy s) (h1 : s'.sess = s.sess)
    (h2 : ∀ w x, s.sess w = some x → x.inTable = false → s'.flow.queue w = []) : Tidy s' := by
  intro w x hx
  rw [h1] at hx
  exact ⟨(h w x hx).1, h2 w x hx⟩

theorem tidy_set {s s' : State} (h : Tidy s) (u : Nat) (y : Sess) (h1 : s'.sess = PublishFlow.set s.sess u (some y))
    (h2 : s'.flow.queue = s.flow.queue) (h3 : y.inTable = true) (h4 : y.cps ≠ none) : Tidy s' := by
  intro w x hx
  rw [h1, set_eq] at hx
  split at hx
  · injection hx with hx; subst hx
    exact ⟨⟨fun h => absurd h h4, fun h => by rw [h3] at h; cases h⟩, fun h => by rw [h3] at h; cases h⟩
  · rw [h2]; exact h w x hx

theorem tidy_gone {s s' : State} (h : Tidy s) (u : Nat) (y : Sess)
    (h1 : s'.sess = s.sess) (h2 : s'.flow.queue = s.flow.queue) : Tidy (gone s' u y) := by
  intro w x hx
  have hx : PublishFlow.set s'.sess u (some { y with inTable := false, chan := 0, cps := none }) w = some x := hx
  rw [set_eq] at hx
  show _ ∧ (_ → PublishFlow.set s'.flow.queue u [] w = [])
  rw [set_eq]
  split at hx
  · rename_i hw
    injection hx with hx; subst hx
    exact ⟨⟨fun _ => rfl, fun _ => rfl⟩, fun _ => by rw [if_pos hw]⟩
  · rename_i hw
    rw [h1] at hx
    rw [if_neg hw, h2]; exact h w x hx

/-- A request that a subscription wants, or that a status change waits for, is not put into the queue. -/
theorem publish_queue (f : PublishFlow.State) (w : Nat) (r : Req) (tie : Nat → Nat) (data : Nat → Data)
    (h : waits f w tie data = false) : (PublishFlow.step f (.publish w r tie data)).queue = f.queue := by
  simp only [PublishFlow.step, PublishFlow.publish]
  split
  · rfl
  · rename_i hc
    split
    · rfl
    · rename_i hl
      split
      · rfl
      · rename_i hf
        simp [waits, hc, hl, hf] at h

theorem tidy_step (s : State) (e : Ev) (h : Tidy s) : Tidy (step s e) := by
  have hq : ∀ (e : PublishFlow.Ev), (∀ w x, s.sess w = some x → x.inTable = false → actor e ≠ some w) →
      ∀ w x, s.sess w = some x → x.inTable = false → (PublishFlow.step s.flow e).queue w = [] := by
    intro e he w x hx hf
    exact (quiet_step w _ s.flow e (he w x hx hf) ((h w x hx).2 hf) rfl).1
  have hget : ∀ {u x}, get s u = some x → x.inTable = true ∧ x.cps ≠ none := by
    intro u x hg
    obtain ⟨y, hy, hin, rfl, _⟩ := get_table hg
    refine ⟨hin, fun h0 => ?_⟩
    have := (h u y hy).1.1 h0
    rw [hin] at this; cases this
  unfold step
  split
  · exact h
  · cases e with
    | tick d => exact tidy_same (s' := { s with flow := PublishFlow.step s.flow (.tick d) }) h rfl (hq (.tick d) (fun _ _ _ _ => by simp [actor]))
    | timer id d => exact tidy_same (s' := { s with flow := PublishFlow.step s.flow (.timer id d) }) h rfl (hq (.timer id d) (fun _ _ _ _ => by simp [actor]))
    | sweep => exact tidy_same (s' := { s with flow := PublishFlow.step s.flow .sweep }) h rfl (hq .sweep (fun _ _ _ _ => by simp [actor]))
    | «open» u timeout =>
      dsimp only
      split
      · exact tidy_set h u _ rfl rfl rfl (by simp)
      · exact h
    | activate c u =>
      dsimp only
      split
      · exact h
      · split
        · exact h
        · rename_i x hx
          exact tidy_set h u _ rfl rfl (hget hx).1 (hget hx).2
    | call c u op =>
      dsimp only
      split
      · exact h
      · split
        · exact h
        · rename_i x hx
          split
          · exact tidy_gone h u x rfl rfl
          · split
            · exact tidy_set h u _ rfl rfl (hget hx).1 (hget hx).2
            · exact tidy_set h u _ rfl rfl (hget hx).1 (hget hx).2
    | act c tie data =>
      dsimp only
      split
      · exact h
      · split
        · exact h
        · rename_i u op hd
          split
          · exact h
          · rename_i x hx
            -- the other sessions are left alone, and so is this one if the queue stays as it is
            have hop : ∀ e : PublishFlow.Ev, actor e = some u → (x.inTable = false → (PublishFlow.step s.flow e).queue u = []) →
                Tidy (done { s with flow := PublishFlow.step s.flow e } c) := by
              intro e hact he
              refine tidy_same h rfl ?_
              intro w y hy hf
              by_cases hw : w = u
              · subst hw
                rw [hx] at hy; injection hy with hy; subst hy
                exact he hf
              · refine (quiet_step w _ s.flow e ?_ ((h w y hy).2 hf) rfl).1
                rw [hact]; intro h0; injection h0 with h0; exact hw h0.symm
            cases op with
            | publish r =>
              simp only [act]
              split
              · exact h
              · rename_i hn
                refine hop _ rfl ?_
                intro hf
                have hc := (h u x hx).1.2 hf
                have : waits s.flow u tie data = false := by
                  cases hw : waits s.flow u tie data
                  · rfl
                  · exact absurd ⟨by rw [hc]; rfl, hw⟩ hn
                rw [publish_queue _ _ _ _ _ this]
                exact (h u x hx).2 hf
            | create p e k l => exact hop (.create u p e k l) rfl (fun hf => (h u x hx).2 hf)
            | modify i p k l => exact hop (.modify u i p k l) rfl (fun hf => (h u x hx).2 hf)
            | setMode ids e => exact hop (.setMode u ids e) rfl (fun hf => (h u x hx).2 hf)
            | delete ids =>
              refine hop (.delete u ids) rfl (fun hf => ?_)
              have h0 := (h u x hx).2 hf
              simp only [PublishFlow.step, PublishFlow.delete]
              split
              · exact h0
              · split
                · exact PublishFlow.set_same _ _ _
                · exact h0
            | browse =>
              simp only [act]
              split
              · exact h
              · rename_i n hn
                split
                · exact h
                · refine tidy_set h u _ rfl rfl ?_ (by simp)
                  cases hin : x.inTable with
                  | true => rfl
                  | false =>
                    have := (h u x hx).1.2 hin
                    rw [hn] at this; cases this
            | other => exact h
    | close c u del =>
      dsimp only
      split
      · exact h
      · split
        · exact h
        · rename_i x hx
          split
          · exact tidy_gone h u x rfl rfl
          · split
            · exact tidy_set h u _ rfl rfl (hget hx).1 (hget hx).2
            · cases del
              · exact tidy_gone h u x rfl rfl
              · exact tidy_gone h u x rfl rfl
    | expire u =>
      dsimp only
      split
      · exact h
      · rename_i x hx
        split
        · exact tidy_gone h u x rfl rfl
        · exact h

theorem tidy_run (maxCPs : Nat) (evs : List Ev) : Tidy (run (init maxCPs) evs) := by
  induction evs using snocInd with
  | nil => intro w x hx; cases hx
  | append_singleton evs e ih => rw [run_snoc]; exact tidy_step _ e ih

theorem gone_run (w : Nat) (s : State) (h : Gone w s) (later : List Ev) :
    Gone w (run s later) ∧ answersOf (run s later) w = answersOf s w := by
  induction later using snocInd with
  | nil => exact ⟨h, rfl⟩
  | append_singleton later e ih => rw [run_snoc]; exact gone_step w _ _ e ih.1 ih.2

/-- **C134 (silence).** When a session has ended and none of its services is under way, nothing is sent to its client any
more as an answer to a Publish request, whatever its subscriptions have to tell. -/
theorem C134_silent (maxCPs : Nat) (evs later : List Ev) (w : Nat) (hE : Ended (run (init maxCPs) evs) w)
    (hI : Idle (run (init maxCPs) evs) w) :
    answersOf (run (init maxCPs) (evs ++ later)) w = answersOf (run (init maxCPs) evs) w ∧
      Ended (run (init maxCPs) (evs ++ later)) w := by
  obtain ⟨x, hx, hf⟩ := hE
  have hg : Gone w (run (init maxCPs) evs) := ⟨⟨x, hx, hf⟩, hI, (tidy_run maxCPs evs w x hx).2 hf⟩
  rw [run_append]
  have := gone_run w _ hg later
  exact ⟨this.2, this.1.ended⟩

/-! ### The requests that wait are forgotten -/

theorem stuck_mono (s : State) (e : Ev) (c : Nat) (h : s.stuck c = true) : (step s e).stuck c = true := by
  unfold step
  split
  · exact h
  · cases e with
    | tick d => exact h
    | timer id d => exact h
    | sweep => exact h
    | «open» u timeout => dsimp only; split <;> exact h
    | activate c' u => dsimp only; repeat' split
                       all_goals exact h
    | call c' u op => dsimp only; repeat' split
                      all_goals exact h
    | act c' tie data =>
      dsimp only
      split
      · exact h
      · split
        · exact h
        · rename_i u op _
          split
          · exact h
          · cases op with
            | publish r =>
              simp only [act]
              split
              · show PublishFlow.set s.stuck c' true c = true
                rw [set_eq]; split
                · rfl
                · exact h
              · exact h
            | browse => simp only [act]; repeat' split
                        all_goals exact h
            | _ => exact h
    | close c' u del => dsimp only; repeat' split
                        all_goals exact h
    | expire u => dsimp only; repeat' split
                  all_goals exact h

theorem ending (s : State) (e : Ev) (w : Nat) (h0 : ¬ Ended s w) (h1 : Ended (step s e) w) :
    (step s e).doing = s.doing ∧ (step s e).flow.answers = s.flow.answers := by
  have hgone : ∀ (s' : State) (u : Nat) (x : Sess), s'.doing = s.doing → s'.flow.answers = s.flow.answers →
      (gone s' u x).doing = s.doing ∧ (gone s' u x).flow.answers = s.flow.answers := fun s' u x a b => ⟨a, b⟩
  -- a step that leaves all other sessions alone and puts this one into the table ends nothing
  have hset : ∀ (s' : State) (u : Nat) (x : Sess), s'.sess = PublishFlow.set s.sess u (some x) → x.inTable = true → ¬ Ended s' w := by
    intro s' u x h2 hin h3
    obtain ⟨y, hy, hf⟩ := h3
    rw [h2, set_eq] at hy
    split at hy
    · injection hy with hy; subst hy; rw [hin] at hf; cases hf
    · exact h0 ⟨y, hy, hf⟩
  have hin : ∀ {u x}, get s u = some x → x.inTable = true := by
    intro u x hg
    obtain ⟨y, hy, hin, rfl, _⟩ := get_table hg
    exact hin
  unfold step at h1 ⊢
  split at h1
  · exact absurd h1 h0
  · rename_i hp
    rw [if_neg hp]
    cases e with
    | tick d => exact absurd h1 h0
    | timer id d => exact absurd h1 h0
    | sweep => exact absurd h1 h0
    | «open» u timeout =>
      dsimp only at h1 ⊢
      split at h1
      · exact absurd h1 (hset _ u _ rfl rfl)
      · exact absurd h1 h0
    | activate c u =>
      dsimp only at h1 ⊢
      split at h1
      · exact absurd h1 h0
      · split at h1
        · exact absurd h1 h0
        · rename_i x hx
          exact absurd h1 (hset _ u { x with chan := c } rfl (show x.inTable = true from hin hx))
    | call c u op =>
      dsimp only at h1 ⊢
      split at h1
      · exact absurd h1 h0
      · rename_i hc
        rw [if_neg hc]
        split at h1
        · exact absurd h1 h0
        · rename_i x hx
          split at h1
          · rename_i hz
            simp only [if_pos hz]; exact ⟨rfl, rfl⟩
          · split at h1
            · exact absurd h1 (hset _ u _ rfl (hin hx))
            · exact absurd h1 (hset _ u _ rfl (hin hx))
    | act c tie data =>
      dsimp only at h1 ⊢
      split at h1
      · exact absurd h1 h0
      · split at h1
        · exact absurd h1 h0
        · rename_i u op hd
          split at h1
          · exact absurd h1 h0
          · rename_i x hx
            exfalso
            cases op with
            | publish r =>
              simp only [act] at h1
              split at h1 <;> exact h0 h1
            | create p e k l => exact h0 h1
            | modify i p k l => exact h0 h1
            | setMode ids e => exact h0 h1
            | delete ids => exact h0 h1
            | browse =>
              simp only [act] at h1
              split at h1
              · exact h0 h1
              · split at h1
                · exact h0 h1
                · obtain ⟨y, hy, hf⟩ := h1
                  have hy : PublishFlow.set s.sess u _ w = some y := hy
                  rw [set_eq] at hy
                  split at hy
                  · rename_i hw
                    injection hy with hy; subst hy
                    exact h0 ⟨x, by rw [hw]; exact hx, hf⟩
                  · exact h0 ⟨y, hy, hf⟩
            | other => exact h0 h1
    | close c u del =>
      dsimp only at h1 ⊢
      split at h1
      · exact absurd h1 h0
      · rename_i hc
        rw [if_neg hc]
        split at h1
        · exact absurd h1 h0
        · rename_i x hx
          split at h1
          · rename_i hz
            simp only [if_pos hz]; exact ⟨rfl, rfl⟩
          · rename_i hz
            split at h1
            · exact absurd h1 (hset _ u _ rfl (hin hx))
            · rename_i hz2
              simp only [if_neg hz, if_neg hz2]
              cases del <;> exact ⟨rfl, rfl⟩
    | expire u =>
      dsimp only at h1 ⊢
      split at h1
      · exact absurd h1 h0
      · rename_i x hx
        split at h1
        · rename_i hz
          simp only [if_pos hz]; exact ⟨rfl, rfl⟩
        · exact absurd h1 h0

/-- **C134 (forgotten).** The end of a session answers none of its Publish requests, and afterwards none is answered. -/
theorem C134_forgotten (maxCPs : Nat) (evs later : List Ev) (e : Ev) (w : Nat) (hI : Idle (run (init maxCPs) evs) w)
    (h0 : ¬ Ended (run (init maxCPs) evs) w) (h1 : Ended (run (init maxCPs) (evs ++ [e])) w) :
    answersOf (run (init maxCPs) (evs ++ e :: later)) w = answersOf (run (init maxCPs) evs) w := by
  have h2 := ending (run (init maxCPs) evs) e w h0 (by rw [← run_snoc]; exact h1)
  have hi : Idle (run (init maxCPs) (evs ++ [e])) w := by
    intro c op h
    rw [run_snoc, h2.1] at h
    rw [run_snoc]; exact stuck_mono _ e c (hI c op h)
  have := (C134_silent maxCPs (evs ++ [e]) later w h1 hi).1
  rw [List.append_assoc] at this
  refine this.trans ?_
  rw [run_snoc]
  unfold answersOf answered
  rw [h2.2]


/-- The connection whose goroutine works. -/
def conn : Ev → Option Nat
  | .call c _ _ => some c
  | .act c _ _ => some c
  | _ => none

theorem doing_other (c : Nat) (s : State) (e : Ev) (h : conn e ≠ some c) : (step s e).doing c = s.doing c := by
  unfold step
  split
  · rfl
  · cases e with
    | tick d => rfl
    | timer id d => rfl
    | sweep => rfl
    | «open» u timeout => dsimp only; split <;> rfl
    | activate c' u => dsimp only; repeat' split
                       all_goals rfl
    | call c' u op =>
      have hc : c ≠ c' := fun h0 => h (by rw [h0]; rfl)
      dsimp only
      split
      · rfl
      · split
        · rfl
        · split
          · rfl
          · split
            · rfl
            · exact PublishFlow.set_other _ _ _ _ hc
    | act c' tie data =>
      have hc : c ≠ c' := fun h0 => h (by rw [h0]; rfl)
      have hd : ∀ s' : State, s'.doing = s.doing → (done s' c').doing c = s.doing c := by
        intro s' h1
        show PublishFlow.set s'.doing c' none c = _
        rw [PublishFlow.set_other _ _ _ _ hc, h1]
      dsimp only
      split
      · rfl
      · split
        · rfl
        · rename_i u op _
          split
          · rfl
          · cases op with
            | publish r => simp only [act]; split; rfl; exact hd _ rfl
            | create p e k l => exact hd _ rfl
            | modify i p k l => exact hd _ rfl
            | setMode ids e => exact hd _ rfl
            | delete ids => exact hd _ rfl
            | browse =>
              simp only [act]
              split
              · rfl
              · split <;> exact hd _ rfl
            | other => exact hd _ rfl
    | close c' u del => dsimp only; repeat' split
                        all_goals rfl
    | expire u => dsimp only; repeat' split
                  all_goals rfl

theorem doing_run (c : Nat) (s : State) (evs : List Ev) (h : ∀ e ∈ evs, conn e ≠ some c) : (run s evs).doing c = s.doing c := by
  induction evs using snocInd with
  | nil => rfl
  | append_singleton evs e ih =>
    rw [run_snoc, doing_other c _ e (h e (by simp))]
    exact ih (fun e he => h e (List.mem_append_left _ he))

/-- **C134 fails (waiting requests).** The client closes its session while a Publish request waits: it never gets an
answer, not even when its time is up. -/
theorem C134_waiting_fails : ∃ (evs : List Ev) (w rid : Nat), rid ∈ waiting (run (init 10) evs) w ∧
    ∀ later, rid ∉ answersOf (run (init 10) (evs ++ .close 5 w true :: later)) w := by
  refine ⟨[.open 1 60000, .activate 5 1, .call 5 1 (.create 0 true 10 30), .act 5 id (fun _ => .nothing),
    .call 5 1 (.publish ⟨7, 1000⟩), .act 5 id (fun _ => .nothing)], 1, 7, by decide, ?_⟩
  intro later
  rw [C134_forgotten]
  · decide
  · intro c op h
    have : (run (init 10) [.open 1 60000, .activate 5 1, .call 5 1 (.create 0 true 10 30), .act 5 id (fun _ => .nothing),
      .call 5 1 (.publish ⟨7, 1000⟩), .act 5 id (fun _ => .nothing)]).doing c = none := by
      by_cases hc : c = 5
      · subst hc; rfl
      · rw [doing_run c _ _ (by simp [conn]; exact Ne.symm hc)]; rfl
    rw [this] at h; cases h
  · rintro ⟨x, hx, hf⟩
    have : (run (init 10) [.open 1 60000, .activate 5 1, .call 5 1 (.create 0 true 10 30), .act 5 id (fun _ => .nothing),
      .call 5 1 (.publish ⟨7, 1000⟩), .act 5 id (fun _ => .nothing)]).sess 1 = some ⟨true, 5, 0, 60000, some 0⟩ := by decide
    rw [this] at hx; injection hx with hx; subst hx; cases hf
  · exact ⟨⟨false, 0, 0, 60000, none⟩, by decide, rfl⟩

/-! ### The subscriptions -/

theorem cut_gone (w : Nat) (s : State) (e : Ev) (hE : Ended s w) (hI : Idle s w)
    (h : ∀ t ∈ s.flow.subs, t.owner ≠ w) : ∀ t ∈ (step s e).flow.subs, t.owner ≠ w := by
  have hf := step_flow s e
  generalize (step s e).flow = f at hf
  cases hf with
  | same => exact h
  | tick d => exact h
  | timer id d => exact (PublishFlow.cut_step w _ _ s.flow ⟨h, rfl, rfl⟩ (.timer id d) (by simp [actor])).none
  | sweep => exact (PublishFlow.cut_step w _ _ s.flow ⟨h, rfl, rfl⟩ .sweep (by simp [actor])).none
  | op c u op e hd hst hact _ _ =>
    refine (PublishFlow.cut_step w _ _ s.flow ⟨h, rfl, rfl⟩ e ?_).none
    rw [hact]
    intro h0; injection h0 with h0; subst h0; rw [hI c op hd] at hst; cases hst
  | gone u x hx hin => exact h
  | deleted u x hx hin => exact fun t ht => h t (List.mem_filter.1 ht).1

/-- **C134 (deleted).** CloseSession with DeleteSubscriptions, accepted while no other service of the session is under way:
from then on the session is gone and has no subscription. -/
theorem C134_deleted (maxCPs : Nat) (evs later : List Ev) (c w : Nat) (x : Sess) (hp : (run (init maxCPs) evs).panicked = false)
    (hx : (run (init maxCPs) evs).sess w = some x) (hin : x.inTable = true) (hc : x.chan = c) (hc0 : c ≠ 0)
    (ht : (run (init maxCPs) evs).flow.now ≤ x.last + x.timeout) (hI : Idle (run (init maxCPs) evs) w)
    (hd : (run (init maxCPs) evs).doing c = none) :
    let s := run (init maxCPs) (evs ++ .close c w true :: later)
    Ended s w ∧ subsOf s w = [] := by
  have hstep : Ended (step (run (init maxCPs) evs) (.close c w true)) w ∧ Idle (step (run (init maxCPs) evs) (.close c w true)) w ∧
      ∀ t ∈ (step (run (init maxCPs) evs) (.close c w true)).flow.subs, t.owner ≠ w := by
    generalize run (init maxCPs) evs = s at *
    have hg : get s w = some { x with last := s.flow.now } := by
      unfold get
      rw [hx]; dsimp only
      rw [if_pos ⟨hin, by omega⟩]
    have : step s (.close c w true) =
        gone { s with flow := { s.flow with subs := s.flow.subs.filter (fun t => decide (t.owner ≠ w)) } } w
          { x with last := s.flow.now } := by
      unfold step
      rw [if_neg (by rw [hp]; decide)]
      dsimp only
      rw [if_neg (by rintro (h | h); exact hc0 h; exact h hd), hg]
      dsimp only
      rw [if_neg (by rw [hc]; exact hc0), if_neg (by rw [hc]; exact fun h => h rfl)]
      rfl
    rw [this]
    refine ⟨⟨_, PublishFlow.set_same _ _ _, rfl⟩, hI, ?_⟩
    intro t ht
    simpa using (List.mem_filter.1 ht).2
  have key : ∀ later, Ended (run (init maxCPs) (evs ++ [.close c w true] ++ later)) w ∧
      Idle (run (init maxCPs) (evs ++ [.close c w true] ++ later)) w ∧
      ∀ t ∈ (run (init maxCPs) (evs ++ [.close c w true] ++ later)).flow.subs, t.owner ≠ w := by
    intro later
    induction later using snocInd with
    | nil => rw [List.append_nil, run_snoc]; exact hstep
    | append_singleton later e ih =>
      rw [← List.append_assoc, run_snoc]
      obtain ⟨h1, h2, h3⟩ := ih
      exact ⟨(gone_table w _ e h1 h2).1, (gone_table w _ e h1 h2).2, cut_gone w _ e h1 h2 h3⟩
  have := key later
  rw [List.append_assoc] at this
  refine ⟨this.1, ?_⟩
  unfold subsOf
  rw [List.filter_eq_nil_iff]
  intro t ht
  simpa using this.2.2 t ht

/-- A subscription with id `i` belongs to `w` and has at most `n` turns to live. -/
def Doomed (w i n : Nat) (f : PublishFlow.State) : Prop :=
  i < f.next ∧ ∀ t ∈ f.subs, t.id = i → t.owner = w ∧ t.lifetime < t.maxLifetime ∧
    (t.maxKeepAlive - t.keepAlive) + (t.maxLifetime - t.lifetime) ≤ n

theorem doomed_store {w i n m : Nat} {f : PublishFlow.State} (h : Doomed w i n f) (_ : m ≤ n) (t : PublishFlow.Sub)
    (ht : t.id = i → t.owner = w ∧ t.lifetime < t.maxLifetime ∧ (t.maxKeepAlive - t.keepAlive) + (t.maxLifetime - t.lifetime) ≤ m)
    (hn : t.id ≠ i → m = n) (f' : PublishFlow.State) (h1 : f'.next = f.next) (h2 : f'.subs = PublishFlow.store f.subs t) :
    Doomed w i m f' := by
  refine ⟨by rw [h1]; exact h.1, ?_⟩
  intro u hu hi
  rw [h2] at hu
  obtain ⟨v, hv, rfl⟩ := List.mem_map.1 hu
  by_cases hvt : v.id = t.id
  · rw [if_pos hvt] at hi ⊢
    exact ht hi
  · rw [if_neg hvt] at hi ⊢
    have := h.2 v hv hi
    rw [hn (fun h0 => hvt (by rw [h0, hi]))]; exact this

theorem doomed_filter {w i n m : Nat} {f : PublishFlow.State} (h : Doomed w i n f) (hm : m ≤ n) (p : PublishFlow.Sub → Bool)
    (f' : PublishFlow.State) (h1 : f'.next = f.next) (h2 : f'.subs = f.subs.filter p)
    (hp : m < n → ∀ t, t.id = i → p t = false) : Doomed w i m f' := by
  refine ⟨by rw [h1]; exact h.1, ?_⟩
  intro u hu hi
  rw [h2] at hu
  obtain ⟨hu, hpu⟩ := List.mem_filter.1 hu
  have := h.2 u hu hi
  by_cases hlt : m < n
  · rw [hp hlt u hi] at hpu; cases hpu
  · have : m = n := by omega
    subst this; assumption

/-- A turn without a request brings the subscription nearer to its end. -/
theorem doomed_starve {w i n m : Nat} {f : PublishFlow.State} (h : Doomed w i n f) (hm : m ≤ n) (s : PublishFlow.State)
    (h1 : s.next = f.next) (h2 : s.subs = f.subs) (t : PublishFlow.Sub) (g : Nat → Nat → Bool)
    (hg : ∀ a b, b ≤ a → a ≤ b → g a b = true) (hn : t.id ≠ i → m = n)
    (ht : t.id = i → t.owner = w ∧ t.lifetime < t.maxLifetime ∧
      (t.maxKeepAlive - t.keepAlive) + (t.maxLifetime - t.lifetime) ≤ m + 1) :
    Doomed w i m (PublishFlow.starve s t g) := by
  unfold PublishFlow.starve
  dsimp only
  split
  · refine doomed_filter h hm _ _ h1 (by rw [h2]) ?_
    intro hlt u hu
    by_cases hti : t.id = i
    · simp [hu, hti]
    · exact absurd (hn hti) (by omega)
  · rename_i hg0
    refine doomed_store h hm { t with late := true, lifetime := t.lifetime + 1 } ?_ (fun h0 => hn h0) _ h1 (by rw [h2])
    intro hi
    obtain ⟨h3, h4, h5⟩ := ht hi
    have : ¬ (t.maxLifetime ≤ t.lifetime + 1) := fun h0 => hg0 (hg _ _ h0 (by omega))
    exact ⟨h3, by show t.lifetime + 1 < t.maxLifetime; omega,
      by show t.maxKeepAlive - t.keepAlive + (t.maxLifetime - (t.lifetime + 1)) ≤ m; omega⟩

theorem doomed_cycle {w i n m : Nat} {f : PublishFlow.State} (h : Doomed w i n f) (hq : f.queue w = []) (t : PublishFlow.Sub)
    (ht : t ∈ f.subs) (d : Data) (hm : t.id = i → m + 1 = n) (hn : t.id ≠ i → m = n) :
    Doomed w i m (PublishFlow.cycle f t d) := by
  have hle : m ≤ n := by
    by_cases hi : t.id = i
    · have := hm hi; omega
    · exact Nat.le_of_eq (hn hi)
  by_cases hi : t.id = i
  · obtain ⟨h1, h2, h3⟩ := h.2 t ht hi
    have hm := hm hi
    have hr : PublishFlow.remove f.now (f.queue t.owner) = ([], none, []) := by rw [h1, hq]; rfl
    unfold PublishFlow.cycle
    rw [hr]
    dsimp only
    by_cases hd : d ≠ .nothing ∧ t.enabled = true
    · rw [if_pos hd]
      exact doomed_starve h hle _ (by rfl) (by rfl) t _ (fun a b h _ => by simpa using h) hn (fun _ => ⟨h1, h2, by omega⟩)
    · rw [if_neg hd]
      by_cases hk : t.keepAlive + 1 ≥ t.maxKeepAlive ∨ t.fresh = true
      · rw [if_pos hk]
        refine doomed_starve h hle _ (by rfl) (by rfl) { t with keepAlive := t.keepAlive + 1 } _
          (fun a b h h' => by simpa using Nat.le_antisymm h' h) hn (fun _ => ⟨h1, h2, ?_⟩)
        show t.maxKeepAlive - (t.keepAlive + 1) + (t.maxLifetime - t.lifetime) ≤ _
        omega
      · rw [if_neg hk]
        refine doomed_store h hle { t with keepAlive := t.keepAlive + 1 } (fun _ => ⟨h1, h2, ?_⟩) hn _ (by rfl) (by rfl)
        show t.maxKeepAlive - (t.keepAlive + 1) + (t.maxLifetime - t.lifetime) ≤ _
        omega
  · have hm := hn hi
    subst hm
    unfold PublishFlow.cycle
    dsimp only
    split
    · split
      · exact doomed_store h hle { t with fresh := false, keepAlive := 0, lifetime := 0, late := false } (fun h0 => absurd h0 hi)
          (fun _ => rfl) _ (by rfl) (by rfl)
      · exact doomed_starve h hle _ (by rfl) (by rfl) t _ (fun a b h _ => by simpa using h) (fun _ => rfl) (fun h0 => absurd h0 hi)
    · split
      · split
        · exact doomed_store h hle { t with fresh := false, keepAlive := 0, lifetime := 0, late := false } (fun h0 => absurd h0 hi)
            (fun _ => rfl) _ (by rfl) (by rfl)
        · exact doomed_starve h hle _ (by rfl) (by rfl) { t with keepAlive := t.keepAlive + 1 } _
            (fun a b h h' => by simpa using Nat.le_antisymm h' h) (fun _ => rfl) (fun h0 => absurd h0 hi)
      · exact doomed_store h hle { t with keepAlive := t.keepAlive + 1 } (fun h0 => absurd h0 hi) (fun _ => rfl) _ (by rfl) (by rfl)

theorem enqueue_next (u : Nat) (r : Req) (f : PublishFlow.State) : (PublishFlow.enqueue u r f).next = f.next := by
  unfold PublishFlow.enqueue
  split
  · rfl
  · split <;> rfl

theorem doomed_other {w i n : Nat} {f : PublishFlow.State} (h : Doomed w i n f) (e : PublishFlow.Ev)
    (ht : ∀ j d, e ≠ .timer j d) (he : actor e ≠ some w) : Doomed w i n (PublishFlow.step f e) := by
  cases e with
  | tick d => exact h
  | timer j d => exact absurd rfl (ht j d)
  | sweep => exact doomed_filter h (Nat.le_refl _) _ _ (by rfl) (by rfl) (fun h0 => absurd h0 (Nat.lt_irrefl _))
  | create u p b k l =>
    refine ⟨Nat.lt_succ_of_lt h.1, ?_⟩
    intro t ht hi
    rcases List.mem_append.1 ht with ht | ht
    · exact h.2 t ht hi
    · rw [List.mem_singleton.1 ht] at hi
      have hi : f.next = i := hi
      exact absurd h.1 (by omega)
  | modify u j p k l =>
    have hu : u ≠ w := fun h0 => he (congrArg some h0)
    refine ⟨h.1, ?_⟩
    intro t ht hi
    obtain ⟨v, hv, rfl⟩ := List.mem_map.1 ht
    by_cases hc : v.id = j ∧ v.owner = u
    · rw [if_pos hc] at hi ⊢
      have := h.2 v hv hi
      exact absurd (hc.2.symm.trans this.1) hu
    · rw [if_neg hc] at hi ⊢
      exact h.2 v hv hi
  | setMode u ids b =>
    have hu : u ≠ w := fun h0 => he (congrArg some h0)
    refine ⟨h.1, ?_⟩
    intro t ht hi
    obtain ⟨v, hv, rfl⟩ := List.mem_map.1 ht
    by_cases hc : v.id ∈ ids ∧ v.owner = u
    · rw [if_pos hc] at hi ⊢
      have := h.2 v hv hi
      exact absurd (hc.2.symm.trans this.1) hu
    · rw [if_neg hc] at hi ⊢
      exact h.2 v hv hi
  | delete u ids =>
    simp only [PublishFlow.step, PublishFlow.delete]
    split
    · exact h
    · split <;> exact doomed_filter h (Nat.le_refl _) _ _ (by rfl) (by rfl) (fun h0 => absurd h0 (Nat.lt_irrefl _))
  | publish u r tie data =>
    have hu : u ≠ w := fun h0 => he (congrArg some h0)
    simp only [PublishFlow.step, PublishFlow.publish]
    split
    · exact h
    · split
      · exact h
      · split
        · rename_i a v hf
          obtain ⟨t, ht, h1⟩ := PublishFlow.firstLate_mem hf
          obtain ⟨ht, ho⟩ := PublishFlow.mem_mine.1 ((PublishFlow.mem_sort _ _ _).1 ht)
          refine doomed_store h (Nat.le_refl _) v (fun h0 => ?_) (fun _ => rfl) _ (by rfl) (by rfl)
          have hid := (PublishFlow.handleLate_answer h1).2.1
          have := (h.2 t ht (by rw [← hid]; exact h0)).1
          exact absurd (ho.symm.trans this) hu
        · exact ⟨by rw [enqueue_next]; exact h.1, by rw [PublishFlow.enqueue_subs]; exact h.2⟩

/-- While a subscription lives its lifetime is not over, and its id has been given. -/
def Below (f : PublishFlow.State) : Prop := ∀ t ∈ f.subs, t.id < f.next ∧ t.lifetime < t.maxLifetime

theorem below_store {f f' : PublishFlow.State} (h : Below f) (t : PublishFlow.Sub) (ht : t.id < f.next ∧ t.lifetime < t.maxLifetime)
    (h1 : f'.next = f.next) (h2 : f'.subs = PublishFlow.store f.subs t) : Below f' := by
  intro u hu
  rw [h2] at hu
  rw [h1]
  exact PublishFlow.forall_store (P := fun u => u.id < f.next ∧ u.lifetime < u.maxLifetime) h ht u hu

theorem below_filter {f f' : PublishFlow.State} (h : Below f) (p : PublishFlow.Sub → Bool)
    (h1 : f'.next = f.next) (h2 : f'.subs = f.subs.filter p) : Below f' := by
  intro u hu
  rw [h2] at hu
  rw [h1]
  exact h u (List.mem_filter.1 hu).1

theorem below_starve {f : PublishFlow.State} (h : Below f) (s : PublishFlow.State) (h1 : s.next = f.next) (h2 : s.subs = f.subs)
    (t : PublishFlow.Sub) (g : Nat → Nat → Bool) (hg : ∀ a b, b ≤ a → a ≤ b → g a b = true)
    (ht : t.id < f.next ∧ t.lifetime < t.maxLifetime) : Below (PublishFlow.starve s t g) := by
  unfold PublishFlow.starve
  dsimp only
  split
  · exact below_filter h _ h1 (by rw [h2])
  · rename_i hg0
    refine below_store h { t with late := true, lifetime := t.lifetime + 1 } ⟨ht.1, ?_⟩ h1 (by rw [h2])
    have : ¬ (t.maxLifetime ≤ t.lifetime + 1) := fun h0 => hg0 (hg _ _ h0 (by omega))
    show t.lifetime + 1 < t.maxLifetime
    omega

theorem below_step {f : PublishFlow.State} (h : Below f) (e : PublishFlow.Ev)
    (h1 : ∀ u p b k l, e = .create u p b k l → 0 < l) (h2 : ∀ u i p k l, e = .modify u i p k l → 0 < l) :
    Below (PublishFlow.step f e) := by
  cases e with
  | tick d => exact h
  | sweep => exact below_filter h _ (by rfl) (by rfl)
  | create u p b k l =>
    intro t ht
    show t.id < f.next + 1 ∧ _
    rcases List.mem_append.1 ht with ht | ht
    · have := h t ht; omega
    · rw [List.mem_singleton.1 ht]
      exact ⟨Nat.lt_succ_self _, h1 u p b k l rfl⟩
  | modify u j p k l =>
    intro t ht
    obtain ⟨v, hv, rfl⟩ := List.mem_map.1 ht
    show _ < f.next ∧ _
    split
    · exact ⟨(h v hv).1, h2 u j p k l rfl⟩
    · exact h v hv
  | setMode u ids b =>
    intro t ht
    obtain ⟨v, hv, rfl⟩ := List.mem_map.1 ht
    show _ < f.next ∧ _
    split
    · exact ⟨(h v hv).1, Nat.lt_of_le_of_lt (Nat.zero_le _) (h v hv).2⟩
    · exact h v hv
  | delete u ids =>
    simp only [PublishFlow.step, PublishFlow.delete]
    split
    · exact h
    · split <;> exact below_filter h _ (by rfl) (by rfl)
  | publish u r tie data =>
    simp only [PublishFlow.step, PublishFlow.publish]
    split
    · exact h
    · split
      · exact h
      · split
        · rename_i a v hf
          obtain ⟨t, ht, h3⟩ := PublishFlow.firstLate_mem hf
          have hb := h t (PublishFlow.mem_mine.1 ((PublishFlow.mem_sort _ _ _).1 ht)).1
          obtain ⟨_, h5, h6⟩ := PublishFlow.handleLate_keeps h3
          refine below_store h v ⟨by rw [(PublishFlow.handleLate_answer h3).2.1]; exact hb.1, ?_⟩ (by rfl) (by rfl)
          rw [h5, h6]; omega
        · intro t ht
          rw [PublishFlow.enqueue_subs] at ht
          rw [enqueue_next]; exact h t ht
  | timer i d =>
    simp only [PublishFlow.step]
    split
    · exact h
    · rename_i t hf
      have hb := h t (List.mem_of_find?_eq_some hf)
      unfold PublishFlow.cycle
      dsimp only
      split
      · split
        · exact below_store h { t with fresh := false, keepAlive := 0, lifetime := 0, late := false } ⟨hb.1, by show 0 < t.maxLifetime; omega⟩
            (by rfl) (by rfl)
        · exact below_starve h _ (by rfl) (by rfl) t _ (fun a b h _ => by simpa using h) hb
      · split
        · split
          · exact below_store h { t with fresh := false, keepAlive := 0, lifetime := 0, late := false }
              ⟨hb.1, by show 0 < t.maxLifetime; omega⟩ (by rfl) (by rfl)
          · exact below_starve h _ (by rfl) (by rfl) { t with keepAlive := t.keepAlive + 1 } _
              (fun a b h h' => by simpa using Nat.le_antisymm h' h) hb
        · exact below_store h { t with keepAlive := t.keepAlive + 1 } hb (by rfl) (by rfl)

/-- What is under way was asked for. -/
theorem doing_called (maxCPs : Nat) (evs : List Ev) (c w : Nat) (op : Op) (h : (run (init maxCPs) evs).doing c = some (w, op)) :
    Ev.call c w op ∈ evs := by
  induction evs using snocInd with
  | nil => cases h
  | append_singleton evs e ih =>
    rw [run_snoc] at h
    have hprev : (run (init maxCPs) evs).doing c = some (w, op) → Ev.call c w op ∈ evs ++ [e] :=
      fun h0 => List.mem_append_left _ (ih h0)
    by_cases hc : conn e = some c
    · cases e with
      | call c' u op' =>
        injection hc with hc; subst hc
        unfold step at h
        split at h
        · exact hprev h
        · dsimp only at h
          split at h
          · exact hprev h
          · split at h
            · exact hprev h
            · split at h
              · exact hprev h
              · split at h
                · exact hprev h
                · have h : PublishFlow.set _ c' _ c' = some (w, op) := h
                  rw [PublishFlow.set_same] at h
                  injection h with h; injection h with h1 h2
                  subst h1 h2
                  simp
      | act c' tie data =>
        injection hc with hc; subst hc
        unfold step at h
        split at h
        · exact hprev h
        · dsimp only at h
          have hd : ∀ s' : State, (done s' c').doing c' = none := fun s' => PublishFlow.set_same _ _ _
          split at h
          · exact hprev h
          · split at h
            · exact hprev h
            · rename_i u op' _
              split at h
              · exact hprev h
              · cases op' with
                | publish r =>
                  simp only [act] at h
                  split at h
                  · exact hprev h
                  · rw [hd] at h; cases h
                | create p e k l => simp only [act] at h; rw [hd] at h; cases h
                | modify i p k l => simp only [act] at h; rw [hd] at h; cases h
                | setMode ids e => simp only [act] at h; rw [hd] at h; cases h
                | delete ids => simp only [act] at h; rw [hd] at h; cases h
                | browse =>
                  simp only [act] at h
                  split at h
                  · exact hprev h
                  · split at h <;> (rw [hd] at h; cases h)
                | other => simp only [act] at h; rw [hd] at h; cases h
      | _ => cases hc
    · rw [doing_other c _ e hc] at h
      exact hprev h

theorem below_run (maxCPs : Nat) (evs : List Ev) (h : ∀ e ∈ evs, Proper e) : Below (run (init maxCPs) evs).flow := by
  induction evs using snocInd with
  | nil => intro t ht; cases ht
  | append_singleton evs e ih =>
    have hb := ih (fun e he => h e (List.mem_append_left _ he))
    have hc := doing_called maxCPs evs
    rw [run_snoc]
    have hf := step_flow (run (init maxCPs) evs) e
    generalize (step (run (init maxCPs) evs) e).flow = f at hf
    cases hf with
    | same => exact hb
    | tick d => exact hb
    | timer i d => exact below_step hb _ (fun _ _ _ _ _ h => by cases h) (fun _ _ _ _ _ h => by cases h)
    | sweep => exact below_step hb _ (fun _ _ _ _ _ h => by cases h) (fun _ _ _ _ _ h => by cases h)
    | op c w op e hd hst hact h1 h2 =>
      have hp := h _ (List.mem_append_left _ (hc c w op hd))
      refine below_step hb e ?_ ?_
      · intro u p b k l he
        rw [h1 u p b k l he] at hp; exact hp
      · intro u i p k l he
        rw [h2 u i p k l he] at hp; exact hp
    | gone u x hx hin => exact hb
    | deleted u x hx hin => exact below_filter hb _ (by rfl) (by rfl)

theorem doomed_step {w i n m : Nat} (s : State) (e : Ev) (h : Doomed w i n s.flow) (hg : Gone w s) (hp : s.panicked = false)
    (hm : turns i [e] = 1 → n = m + 1 ∨ n = 0) (hn : turns i [e] = 0 → m = n) (hmn : m ≤ n) : Doomed w i m (step s e).flow := by
  have hf := step_flow s e
  have htimer : ∀ j d, (∀ t ∈ s.flow.subs, t.id = j → j = i → n = m + 1 ∨ n = 0) → (j ≠ i → m = n) →
      Doomed w i m (PublishFlow.step s.flow (.timer j d)) := by
    intro j d h1 h2
    simp only [PublishFlow.step]
    split
    · rename_i hf
      by_cases hj : j = i
      · refine ⟨h.1, ?_⟩
        intro t ht hi
        have := List.find?_eq_none.1 hf t ht
        simp [hi, hj] at this
      · rw [h2 hj]; exact h
    · rename_i t hf
      have hmem := List.mem_of_find?_eq_some hf
      have hid : t.id = j := by simpa using List.find?_some hf
      refine doomed_cycle h hg.queue t hmem d ?_ ?_
      · intro hi
        have hl := h.2 t hmem hi
        rcases h1 t hmem hid (by omega) with h0 | h0 <;> omega
      · intro hi; exact h2 (by omega)
  cases e with
  | timer j d =>
    have : step s (.timer j d) = { s with flow := PublishFlow.step s.flow (.timer j d) } := by
      unfold step; rw [if_neg (by rw [hp]; decide)]
    rw [this]
    refine htimer j d ?_ ?_
    · intro t _ _ hj
      exact hm (by simp [turns, hj])
    · intro hj
      exact hn (by simp [turns, hj])
  | _ =>
    all_goals
      have hmn' := hn (by simp [turns])
      subst hmn'
      generalize hf' : State.flow _ = f at hf
      cases hf with
      | same => exact h
      | tick d => exact doomed_other h (.tick d) (fun _ _ h => by cases h) (by simp [actor])
      | timer j d he => cases he
      | sweep => exact doomed_other h .sweep (fun _ _ h => by cases h) (by simp [actor])
      | op c u op e hd hst hact _ _ =>
        refine doomed_other h e ?_ ?_
        · intro j d he; subst he; cases hact
        · rw [hact]; intro h0; injection h0 with h0; subst h0
          rw [hg.idle c op hd] at hst; cases hst
      | gone u x hx hin => exact h
      | deleted u x hx hin => exact doomed_filter h (Nat.le_refl _) _ _ (by rfl) (by rfl) (fun h0 => absurd h0 (Nat.lt_irrefl _))

/-- The ids of subscriptions. -/
def ids (f : PublishFlow.State) : List Nat := f.subs.map (·.id)

theorem ids_store (l : List PublishFlow.Sub) (t : PublishFlow.Sub) : (PublishFlow.store l t).map (·.id) = l.map (·.id) := by
  unfold PublishFlow.store
  rw [List.map_map]
  apply List.map_congr_left
  intro u _
  show (if _ then _ else _ : PublishFlow.Sub).id = u.id
  split
  · rename_i h; exact h.symm
  · rfl

theorem ids_starve (s : PublishFlow.State) (t : PublishFlow.Sub) (g : Nat → Nat → Bool) :
    (PublishFlow.starve s t g).next = s.next ∧ (ids (PublishFlow.starve s t g)).Sublist (ids s) := by
  unfold PublishFlow.starve
  dsimp only
  split
  · exact ⟨rfl, List.Sublist.map _ List.filter_sublist⟩
  · exact ⟨rfl, by unfold ids; dsimp only; rw [ids_store]; exact List.Sublist.refl _⟩

theorem ids_step (f : PublishFlow.State) (e : PublishFlow.Ev) :
    ((PublishFlow.step f e).next = f.next ∧ (ids (PublishFlow.step f e)).Sublist (ids f)) ∨
      ((PublishFlow.step f e).next = f.next + 1 ∧ ids (PublishFlow.step f e) = ids f ++ [f.next]) := by
  have hst : ∀ (f' : PublishFlow.State) (t : PublishFlow.Sub), f'.next = f.next → f'.subs = PublishFlow.store f.subs t →
      f'.next = f.next ∧ (ids f').Sublist (ids f) := by
    intro f' t h1 h2
    exact ⟨h1, by unfold ids; rw [h2, ids_store]; exact List.Sublist.refl _⟩
  have hfl : ∀ (f' : PublishFlow.State) (q : PublishFlow.Sub → Bool), f'.next = f.next → f'.subs = f.subs.filter q →
      f'.next = f.next ∧ (ids f').Sublist (ids f) := by
    intro f' q h1 h2
    exact ⟨h1, by unfold ids; rw [h2]; exact List.Sublist.map _ List.filter_sublist⟩
  have hid : ∀ (f' : PublishFlow.State), f'.next = f.next → f'.subs = f.subs → f'.next = f.next ∧ (ids f').Sublist (ids f) :=
    fun f' h1 h2 => ⟨h1, by unfold ids; rw [h2]; exact List.Sublist.refl _⟩
  cases e with
  | tick d => exact .inl (hid _ rfl rfl)
  | sweep => exact .inl (hfl _ _ rfl rfl)
  | create u p b k l => exact .inr ⟨rfl, by show List.map _ (_ ++ [_]) = _; rw [List.map_append]; rfl⟩
  | modify u j p k l =>
    refine .inl ⟨rfl, ?_⟩
    have : ids (PublishFlow.step f (.modify u j p k l)) = ids f := by
      show List.map _ (List.map _ _) = List.map _ _
      rw [List.map_map]
      apply List.map_congr_left
      intro v _
      show (if _ then _ else _ : PublishFlow.Sub).id = v.id
      split <;> rfl
    rw [this]; exact List.Sublist.refl _
  | setMode u js b =>
    refine .inl ⟨rfl, ?_⟩
    have : ids (PublishFlow.step f (.setMode u js b)) = ids f := by
      show List.map _ (List.map _ _) = List.map _ _
      rw [List.map_map]
      apply List.map_congr_left
      intro v _
      show (if _ then _ else _ : PublishFlow.Sub).id = v.id
      split <;> rfl
    rw [this]; exact List.Sublist.refl _
  | delete u js =>
    simp only [PublishFlow.step, PublishFlow.delete]
    left
    split
    · exact hid _ rfl rfl
    · split
      · exact hfl _ _ rfl rfl
      · exact hfl _ _ rfl rfl
  | publish u r tie data =>
    simp only [PublishFlow.step, PublishFlow.publish]
    left
    split
    · exact hid _ rfl rfl
    · split
      · exact hid _ rfl rfl
      · split
        · exact hst _ _ rfl rfl
        · exact hid _ (enqueue_next _ _ _) (PublishFlow.enqueue_subs _ _ _)
  | timer i d =>
    simp only [PublishFlow.step]
    left
    split
    · exact hid _ rfl rfl
    · unfold PublishFlow.cycle
      dsimp only
      split
      · split
        · exact hst _ _ rfl rfl
        · exact ids_starve _ _ _
      · split
        · split
          · exact hst _ _ rfl rfl
          · exact ids_starve _ _ _
        · exact hst _ _ rfl rfl

theorem unique_step {f f' : PublishFlow.State} (h1 : (ids f).Nodup) (h2 : ∀ i ∈ ids f, i < f.next)
    (h : (f'.next = f.next ∧ (ids f').Sublist (ids f)) ∨ (f'.next = f.next + 1 ∧ ids f' = ids f ++ [f.next])) :
    (ids f').Nodup ∧ ∀ i ∈ ids f', i < f'.next := by
  rcases h with ⟨h3, h4⟩ | ⟨h3, h4⟩
  · exact ⟨h4.nodup h1, fun i hi => by rw [h3]; exact h2 i (h4.subset hi)⟩
  · rw [h3, h4]
    refine ⟨?_, ?_⟩
    · rw [List.nodup_append]
      refine ⟨h1, by simp, ?_⟩
      intro a ha b hb
      rw [List.mem_singleton.1 hb]
      have := h2 a ha
      omega
    · intro i hi
      rcases List.mem_append.1 hi with hi | hi
      · have := h2 i hi; omega
      · rw [List.mem_singleton.1 hi]; omega

theorem unique_run (maxCPs : Nat) (evs : List Ev) :
    (ids (run (init maxCPs) evs).flow).Nodup ∧ ∀ i ∈ ids (run (init maxCPs) evs).flow, i < (run (init maxCPs) evs).flow.next := by
  induction evs using snocInd with
  | nil => exact ⟨List.nodup_nil, fun i hi => by cases hi⟩
  | append_singleton evs e ih =>
    rw [run_snoc]
    have hf := step_flow (run (init maxCPs) evs) e
    generalize (step (run (init maxCPs) evs) e).flow = f at hf
    cases hf with
    | same => exact ih
    | tick d => exact ih
    | timer i d _ => exact unique_step ih.1 ih.2 (ids_step _ _)
    | sweep => exact unique_step ih.1 ih.2 (ids_step _ _)
    | op c w op e hd hst hact h1 h2 => exact unique_step ih.1 ih.2 (ids_step _ _)
    | gone u x hx hin => exact ih
    | deleted u x hx hin => exact unique_step ih.1 ih.2 (.inl ⟨rfl, List.Sublist.map _ List.filter_sublist⟩)

theorem same_id {l : List PublishFlow.Sub} (h : (l.map (·.id)).Nodup) {t u : PublishFlow.Sub} (ht : t ∈ l) (hu : u ∈ l)
    (hid : u.id = t.id) : u = t := by
  induction l with
  | nil => cases ht
  | cons a l ih =>
    rw [List.map_cons, List.nodup_cons] at h
    rcases List.mem_cons.1 ht with h1 | h1
    · rcases List.mem_cons.1 hu with h2 | h2
      · rw [h1, h2]
      · exact absurd (List.mem_map.2 ⟨u, h2, by rw [hid, h1]⟩) h.1
    · rcases List.mem_cons.1 hu with h2 | h2
      · exact absurd (List.mem_map.2 ⟨t, h1, by rw [← hid, h2]⟩) h.1
      · exact ih h.2 h1 h2

theorem panicked_mono (s : State) (e : Ev) (h : s.panicked = true) : (step s e).panicked = true := by
  unfold step
  rw [if_pos h]; exact h

theorem turns_snoc (i : Nat) (evs : List Ev) (e : Ev) : turns i (evs ++ [e]) = turns i evs + turns i [e] := by
  unfold turns; rw [List.countP_append]

theorem turns_one (i : Nat) (e : Ev) : turns i [e] ≤ 1 := by
  unfold turns; exact List.countP_le_length

theorem doomed_run {w i n : Nat} (s : State) (h : Doomed w i n s.flow) (hg : Gone w s) (later : List Ev)
    (hp : (run s later).panicked = false) : Doomed w i (n - turns i later) (run s later).flow := by
  induction later using snocInd with
  | nil => exact h
  | append_singleton later e ih =>
    rw [run_snoc] at hp ⊢
    have hp' : (run s later).panicked = false := by
      cases hq : (run s later).panicked with
      | false => rfl
      | true => rw [panicked_mono _ e hq] at hp; cases hp
    rw [turns_snoc]
    have h1 := turns_one i e
    refine doomed_step _ e (ih hp') (gone_run w s hg later).1 hp' ?_ ?_ ?_
    · intro h; omega
    · intro h; omega
    · omega

/-- **C134 (orphans).** A subscription whose session has ended is gone after as many turns of its publishing timer as
its keep-alive and its lifetime count have together: nobody keeps it alive. -/
theorem C134_orphans (maxCPs : Nat) (evs later : List Ev) (w : Nat) (t : PublishFlow.Sub) (hP : ∀ e ∈ evs, Proper e)
    (hE : Ended (run (init maxCPs) evs) w) (hI : Idle (run (init maxCPs) evs) w) (ht : t ∈ subsOf (run (init maxCPs) evs) w)
    (hp : (run (init maxCPs) (evs ++ later)).panicked = false) (hn : t.maxKeepAlive + t.maxLifetime ≤ turns t.id later) :
    ∀ u ∈ (run (init maxCPs) (evs ++ later)).flow.subs, u.id ≠ t.id := by
  obtain ⟨ht, ho⟩ := List.mem_filter.1 ht
  have ho : t.owner = w := by simpa using ho
  have hb := below_run maxCPs evs hP
  obtain ⟨x, hx, hf⟩ := hE
  have hg : Gone w (run (init maxCPs) evs) := ⟨⟨x, hx, hf⟩, hI, (tidy_run maxCPs evs w x hx).2 hf⟩
  have hd : Doomed w t.id (t.maxKeepAlive + t.maxLifetime) (run (init maxCPs) evs).flow := by
    refine ⟨(hb t ht).1, ?_⟩
    intro u hu hid
    have := same_id (unique_run maxCPs evs).1 ht hu hid
    subst this
    exact ⟨ho, (hb _ ht).2, by omega⟩
  rw [run_append] at hp ⊢
  have := doomed_run _ hd hg later hp
  intro u hu hid
  have := this.2 u hu hid
  omega

/-! ### The services under way -/

/-- The session of a service under way exists. -/
theorem known_step (s : State) (e : Ev) (w : Nat) (h : s.sess w ≠ none) : (step s e).sess w ≠ none := by
  have hs : ∀ (u : Nat) (x : Sess), PublishFlow.set s.sess u (some x) w ≠ none := by
    intro u x
    rw [set_eq]; split
    · intro h; cases h
    · exact h
  unfold step
  split
  · exact h
  · cases e with
    | tick d => exact h
    | timer id d => exact h
    | sweep => exact h
    | «open» u timeout => dsimp only; split
                          · exact hs _ _
                          · exact h
    | activate c' u => dsimp only; repeat' split
                       all_goals first | exact h | exact hs _ _
    | call c' u op => dsimp only; repeat' split
                      all_goals first | exact h | exact hs _ _
    | act c' tie data =>
      dsimp only
      split
      · exact h
      · split
        · exact h
        · rename_i u op _
          split
          · exact h
          · cases op with
            | publish r => simp only [act]; split <;> exact h
            | browse => simp only [act]; repeat' split
                        all_goals first | exact h | exact hs _ _
            | _ => exact h
    | close c' u del => dsimp only; repeat' split
                        all_goals first | exact h | exact hs _ _
    | expire u => dsimp only; repeat' split
                  all_goals first | exact h | exact hs _ _

theorem doing_step (s : State) (e : Ev) (c w : Nat) (op : Op) (h : (step s e).doing c = some (w, op)) :
    s.doing c = some (w, op) ∨ ∃ x, (step s e).sess w = some x ∧ x.inTable = true := by
  by_cases hc : conn e = some c
  · cases e with
    | call c' u op' =>
      injection hc with hc; subst hc
      unfold step at h ⊢
      split at h
      · exact .inl h
      · rename_i hp
        rw [if_neg hp]
        dsimp only at h ⊢
        split at h
        · exact .inl h
        · rename_i hd
          rw [if_neg hd]
          split at h
          · exact .inl h
          · rename_i x hx
            obtain ⟨y, hy, hin, rfl, _⟩ := get_table hx
            split at h
            · exact .inl h
            · rename_i h1
              split at h
              · exact .inl h
              · rename_i h2
                have h : PublishFlow.set _ c' _ c' = some (w, op) := h
                rw [PublishFlow.set_same] at h
                injection h with h; injection h with h3 h4
                subst h3
                right
                simp only [if_neg h1, if_neg h2]
                exact ⟨_, PublishFlow.set_same _ _ _, hin⟩
    | act c' tie data =>
      injection hc with hc; subst hc
      left
      have hd : ∀ s' : State, (done s' c').doing c' = none := fun s' => PublishFlow.set_same _ _ _
      unfold step at h
      split at h
      · exact h
      · dsimp only at h
        split at h
        · exact h
        · split at h
          · exact h
          · rename_i u op' _
            split at h
            · exact h
            · cases op' with
              | publish r =>
                simp only [act] at h
                split at h
                · exact h
                · rw [hd] at h; cases h
              | browse =>
                simp only [act] at h
                split at h
                · exact h
                · split at h <;> (rw [hd] at h; cases h)
              | _ => simp only [act] at h; rw [hd] at h; cases h
    | _ => cases hc
  · rw [doing_other c _ e hc] at h
    exact .inl h

theorem doing_known (maxCPs : Nat) (evs : List Ev) (c w : Nat) (op : Op) (h : (run (init maxCPs) evs).doing c = some (w, op)) :
    (run (init maxCPs) evs).sess w ≠ none := by
  induction evs using snocInd with
  | nil => cases h
  | append_singleton evs e ih =>
    rw [run_snoc] at h ⊢
    rcases doing_step _ e c w op h with h | ⟨x, hx, _⟩
    · exact known_step _ e w (ih h)
    · rw [hx]; intro h; cases h

theorem orderly_prefix {maxCPs : Nat} {a b : List Ev} (h : Orderly maxCPs (a ++ b)) : Orderly maxCPs a := by
  intro p e q hpq
  exact h p e (q ++ b) (by rw [hpq]; simp)

theorem orderly_table (maxCPs : Nat) (evs : List Ev) (h : Orderly maxCPs evs) (c w : Nat) (op : Op)
    (hd : (run (init maxCPs) evs).doing c = some (w, op)) : ∃ x, (run (init maxCPs) evs).sess w = some x ∧ x.inTable = true := by
  rcases List.eq_nil_or_concat evs with rfl | ⟨p, e, rfl⟩
  · cases hd
  · rw [List.concat_eq_append] at *
    have hk := doing_known maxCPs _ c w op hd
    have h1 := h p e [] rfl
    rw [run_snoc] at hd hk ⊢
    rcases doing_step _ e c w op hd with hd' | hx
    · have h2 := h1 c w op hd'
      rw [run_snoc] at h2
      cases hx : (step (run (init maxCPs) p) e).sess w with
      | none => exact absurd hx hk
      | some x =>
        refine ⟨x, rfl, ?_⟩
        cases hin : x.inTable with
        | true => rfl
        | false => exact absurd ⟨x, hx, hin⟩ h2
    · exact hx

theorem act_ends (s : State) (c w : Nat) (x : Sess) (tie : Nat → Nat) (data : Nat → Data) (op : Op) (n : Nat) (hx : x.cps = some n) :
    (act s c w x tie data op).doing c = none ∧ (act s c w x tie data op).panicked = s.panicked ∧
      (act s c w x tie data op).stuck = s.stuck := by
  have hd : ∀ s' : State, (done s' c).doing c = none := fun s' => PublishFlow.set_same _ _ _
  cases op with
  | publish r =>
    simp only [act]
    rw [if_neg (by rw [hx]; intro h; cases h.1)]
    exact ⟨hd _, rfl, rfl⟩
  | browse =>
    simp only [act]
    rw [hx]
    dsimp only
    split <;> exact ⟨hd _, rfl, rfl⟩
  | _ => exact ⟨hd _, rfl, rfl⟩

theorem calm_step (s : State) (e : Ev) (hp : s.panicked = false) (hst : ∀ c, s.stuck c = false) (ht : Tidy s)
    (h : ∀ c w op, s.doing c = some (w, op) → ∃ x, s.sess w = some x ∧ x.inTable = true) :
    (step s e).panicked = false ∧ ∀ c, (step s e).stuck c = false := by
  unfold step
  rw [if_neg (by rw [hp]; decide)]
  cases e with
  | tick d => exact ⟨hp, hst⟩
  | timer id d => exact ⟨hp, hst⟩
  | sweep => exact ⟨hp, hst⟩
  | «open» u timeout => dsimp only; split <;> exact ⟨hp, hst⟩
  | activate c' u => dsimp only; repeat' split
                     all_goals exact ⟨hp, hst⟩
  | call c' u op => dsimp only; repeat' split
                    all_goals exact ⟨hp, hst⟩
  | act c' tie data =>
    dsimp only
    split
    · exact ⟨hp, hst⟩
    · split
      · exact ⟨hp, hst⟩
      · rename_i u op hd
        split
        · exact ⟨hp, hst⟩
        · rename_i x hx
          obtain ⟨y, hy, hin⟩ := h c' u op hd
          rw [hx] at hy; injection hy with hy; subst hy
          cases hcp : x.cps with
          | none => rw [((ht u x hx).1.1 hcp)] at hin; cases hin
          | some n =>
            obtain ⟨_, h2, h3⟩ := act_ends s c' u x tie data op n hcp
            rw [h2, h3]; exact ⟨hp, hst⟩
  | close c' u del => dsimp only; repeat' split
                      all_goals exact ⟨hp, hst⟩
  | expire u => dsimp only; repeat' split
                all_goals exact ⟨hp, hst⟩

/-- **C134, in part (services under way).** If no session ends while a service of it is under way, the server never
crashes and every service under way ends with its next step. -/
theorem C134_safe_partial (maxCPs : Nat) (evs : List Ev) (h : Orderly maxCPs evs) :
    let s := run (init maxCPs) evs
    s.panicked = false ∧ ∀ c tie data, (step s (.act c tie data)).doing c = none := by
  have hcalm : (run (init maxCPs) evs).panicked = false ∧ ∀ c, (run (init maxCPs) evs).stuck c = false := by
    induction evs using snocInd with
    | nil => exact ⟨rfl, fun _ => rfl⟩
    | append_singleton evs e ih =>
      have ho := orderly_prefix h
      obtain ⟨h1, h2⟩ := ih ho
      rw [run_snoc]
      exact calm_step _ e h1 h2 (tidy_run maxCPs evs) (orderly_table maxCPs evs ho)
  refine ⟨hcalm.1, ?_⟩
  intro c tie data
  have ht := orderly_table maxCPs evs h c
  have hti := tidy_run maxCPs evs
  generalize run (init maxCPs) evs = s at *
  unfold step
  rw [if_neg (by rw [hcalm.1]; decide)]
  dsimp only
  rw [if_neg (by rw [hcalm.2 c]; decide)]
  cases hd : s.doing c with
  | none => exact hd
  | some p =>
    obtain ⟨w, op⟩ := p
    obtain ⟨x, hx, hin⟩ := ht w op hd
    dsimp only
    rw [hx]
    dsimp only
    cases hcp : x.cps with
    | none => rw [((hti w x hx).1.1 hcp)] at hin; cases hin
    | some n => exact (act_ends s c w x tie data op n hcp).1

/-- A session that is used on one connection and closed on another. -/
def crossed (op : Op) : List Ev :=
  [.open 1 60000, .activate 5 1, .call 5 1 (.create 0 true 10 30), .act 5 id (fun _ => .nothing),
    .call 5 1 op, .activate 6 1, .close 6 1 false, .act 5 id (fun _ => .nothing)]

/-- **C134 fails (crash).** A client closes its session on one connection while the server is at a Browse of it on
another: the server stops. -/
theorem C134_crash_fails : ∃ evs : List Ev, (run (init 10) evs).panicked = true :=
  ⟨crossed .browse, by decide⟩

theorem stuck_stays (s : State) (e : Ev) (c w : Nat) (op : Op) (h : s.stuck c = true) (hd : s.doing c = some (w, op)) :
    (step s e).doing c = some (w, op) := by
  by_cases hc : conn e = some c
  · cases e with
    | call c' u op' =>
      injection hc with hc; subst hc
      unfold step
      split
      · exact hd
      · dsimp only
        rw [if_pos (.inr (by rw [hd]; intro h; cases h))]
        exact hd
    | act c' tie data =>
      injection hc with hc; subst hc
      unfold step
      split
      · exact hd
      · dsimp only
        rw [if_pos h]
        exact hd
    | _ => cases hc
  · rw [doing_other c s e hc]; exact hd

/-- **C134 fails (hang).** In the same way a Publish never ends: it gets no answer, and the connection it came on is
served no more. -/
theorem C134_hang_fails : ∃ (evs : List Ev) (c w : Nat) (r : Req), ∀ later,
    let s := run (init 10) (evs ++ later)
    s.doing c = some (w, .publish r) ∧ r.rid ∉ answersOf s w := by
  refine ⟨crossed (.publish ⟨7, 1000⟩), 5, 1, ⟨7, 1000⟩, ?_⟩
  intro later
  have h0 : (run (init 10) (crossed (.publish ⟨7, 1000⟩))).stuck 5 = true := by decide
  have h1 : (run (init 10) (crossed (.publish ⟨7, 1000⟩))).doing 5 = some (1, .publish ⟨7, 1000⟩) := by decide
  have hE : Ended (run (init 10) (crossed (.publish ⟨7, 1000⟩))) 1 := ⟨⟨false, 0, 0, 60000, none⟩, by decide, rfl⟩
  have hI : Idle (run (init 10) (crossed (.publish ⟨7, 1000⟩))) 1 := by
    intro c op h
    by_cases hc : c = 5
    · rw [hc]; exact h0
    · rw [doing_run c _ _ (by simp [crossed, conn]; exact Ne.symm hc)] at h
      cases h
  refine ⟨?_, ?_⟩
  · rw [run_append]
    have : (run (run (init 10) (crossed (.publish ⟨7, 1000⟩))) later).stuck 5 = true ∧
        (run (run (init 10) (crossed (.publish ⟨7, 1000⟩))) later).doing 5 = some (1, .publish ⟨7, 1000⟩) := by
      induction later using snocInd with
      | nil => exact ⟨h0, h1⟩
      | append_singleton later e ih =>
        rw [run_snoc]
        exact ⟨stuck_mono _ e 5 ih.1, stuck_stays _ e 5 1 _ ih.1 ih.2⟩
    exact this.2
  · rw [(C134_silent 10 _ later 1 hE hI).1]
    decide

/-! ### When a session ends -/

namespace Spec

/-- How much time passes. -/
def ticks (evs : List Ev) : Nat :=
  (evs.map (fun | .tick d => d | _ => 0)).sum

/-- The session does not close itself, and while no request of it comes to the gate of the server no more than `T` passes;
`g`: how much has passed already. A connection that is still busy takes no request. -/
def InTime (T w : Nat) : Nat → State → List Ev → Prop
  | _, _, [] => True
  | g, s, e :: evs =>
    match e with
    | .tick d => g + d ≤ T ∧ InTime T w (g + d) (step s e) evs
    | .activate c u => InTime T w (if u = w ∧ c ≠ 0 ∧ s.doing c = none then 0 else g) (step s e) evs
    | .call c u _ => InTime T w (if u = w ∧ c ≠ 0 ∧ s.doing c = none then 0 else g) (step s e) evs
    | .close _ u _ => u ≠ w ∧ InTime T w g (step s e) evs
    | _ => InTime T w g (step s e) evs

/-- Whose session an event names. -/
def names : Ev → Option Nat
  | .open w _ => some w
  | .activate _ w => some w
  | .call _ w _ => some w
  | .close _ w _ => some w
  | .expire w => some w
  | _ => none

end Spec

theorem flow_now (f : PublishFlow.State) (e : PublishFlow.Ev) (he : ∀ d, e ≠ .tick d) : (PublishFlow.step f e).now = f.now := by
  cases e with
  | tick d => exact absurd rfl (he d)
  | delete u ids => simp only [PublishFlow.step, PublishFlow.delete]; repeat' split
                    all_goals rfl
  | publish u r tie data =>
    simp only [PublishFlow.step, PublishFlow.publish]
    repeat' split
    all_goals try rfl
    unfold PublishFlow.enqueue
    repeat' split
    all_goals rfl
  | timer id d =>
    have hst : ∀ (s : PublishFlow.State) t g, (PublishFlow.starve s t g).now = s.now := by
      intro s t g; unfold PublishFlow.starve; dsimp only; split <;> rfl
    simp only [PublishFlow.step]
    split
    · rfl
    · unfold PublishFlow.cycle
      dsimp only
      repeat' split
      all_goals first | rfl | exact hst _ _ _
  | _ => rfl

/-- What a step does to a session. -/
inductive Hop (s : State) (e : Ev) (w : Nat) (s' : State) : Prop where
  | same (h : s'.sess w = s.sess w)
      (hu : ∀ x, s.sess w = some x → x.inTable = true → s.panicked = false → s.flow.now ≤ x.last + x.timeout →
        (∀ c, e = .activate c w → c = 0 ∨ s.doing c ≠ none) ∧ ∀ c op, e = .call c w op → c = 0 ∨ s.doing c ≠ none)
      (hx : ∀ x, s.sess w = some x → x.inTable = true → s.panicked = false → e = .expire w → s.flow.now ≤ x.last + x.timeout)
      (hn : ∀ T, e = .open w T → s.panicked = false → s.sess w ≠ none)
  | fresh (T : Nat) (he : e = .open w T) (hn : s.sess w = none) (h : s'.sess w = some ⟨true, 0, s.flow.now, T, some 0⟩)
  | used (x : Sess) (c : Nat) (hx : s.sess w = some x) (hin : x.inTable = true) (ht : s.flow.now ≤ x.last + x.timeout)
      (he : e = .activate c w ∧ c ≠ 0 ∨ c = x.chan ∧ c ≠ 0) (hw : names e = some w) (h : s'.sess w = some { x with last := s.flow.now, chan := c })
  | point (x : Sess) (n : Nat) (hx : s.sess w = some x) (hc : x.cps = some n) (hm : s.maxCPs > 0 → n < s.maxCPs)
      (he : names e = none) (h : s'.sess w = some { x with cps := some (n + 1) })
  | ended (x : Sess) (hx : s.sess w = some x) (hin : x.inTable = true)
      (he : (∃ c del, e = .close c w del ∧ s.flow.now ≤ x.last + x.timeout) ∨
        (e = .expire w ∧ x.last + x.timeout < s.flow.now) ∨
        (x.chan = 0 ∧ ∃ c op, e = .call c w op))
      (h : ∃ la, (la = x.last ∨ la = s.flow.now) ∧ s'.sess w = some ⟨false, 0, la, x.timeout, none⟩)

theorem hop (s : State) (e : Ev) (w : Nat) : Hop s e w (step s e) := by
  have hget : ∀ {u x}, get s u = some x → ∃ y, s.sess u = some y ∧ y.inTable = true ∧ x = { y with last := s.flow.now } ∧
      s.flow.now ≤ y.last + y.timeout := by
    intro u x hg
    obtain ⟨y, h1, h2, h3, h4⟩ := get_table hg
    exact ⟨y, h1, h2, h3, by omega⟩
  have hno : ∀ {u x}, s.sess u = some x → x.inTable = true → s.flow.now ≤ x.last + x.timeout → get s u ≠ none := by
    intro u x h1 h2 h3 h4
    unfold get at h4
    rw [h1] at h4
    dsimp only at h4
    rw [if_pos ⟨h2, by omega⟩] at h4
    cases h4
  unfold step
  by_cases hp : s.panicked = true
  · rw [if_pos hp]
    exact .same rfl (fun _ _ _ h => by rw [hp] at h; cases h) (fun _ _ _ h => by rw [hp] at h; cases h)
      (fun _ _ h => by rw [hp] at h; cases h)
  · rw [if_neg hp]
    have same : ∀ {s' : State}, s'.sess w = s.sess w → names e ≠ some w → Hop s e w s' := by
      intro s' h hn
      refine .same h (fun x _ _ _ _ => ⟨?_, ?_⟩) (fun x _ _ _ h => ?_) (fun T h _ => ?_)
      · intro c h; subst h; exact absurd rfl hn
      · intro c op h; subst h; exact absurd rfl hn
      · subst h; exact absurd rfl hn
      · subst h; exact absurd rfl hn
    cases e with
    | tick d => exact same rfl (fun h => by cases h)
    | timer id d => exact same rfl (fun h => by cases h)
    | sweep => exact same rfl (fun h => by cases h)
    | «open» u T =>
      dsimp only
      by_cases hu : u = w
      · subst hu
        by_cases hn : s.sess u = none
        · rw [if_pos hn]
          exact .fresh T rfl hn (PublishFlow.set_same _ _ _)
        · rw [if_neg hn]
          exact .same rfl (fun x _ _ _ _ => ⟨fun c h => (by cases h), fun c op h => by cases h⟩) (fun x _ _ _ h => by cases h)
            (fun _ _ _ => hn)
      · refine same ?_ (fun h => hu (Option.some.inj h))
        split
        · exact PublishFlow.set_other _ _ _ _ (Ne.symm hu)
        · rfl
    | activate c u =>
      dsimp only
      by_cases hu : u = w
      · subst hu
        by_cases hc : c = 0 ∨ s.doing c ≠ none
        · rw [if_pos hc]
          refine .same rfl (fun x _ _ _ _ => ⟨fun c' h => ?_, fun c op h => by cases h⟩) (fun x _ _ _ h => by cases h) (fun _ h => by cases h)
          cases h; exact hc
        · rw [if_neg hc]
          cases hg : get s u with
          | none =>
            refine .same rfl (fun x h1 h2 _ h3 => absurd hg (hno h1 h2 h3)) (fun x _ _ _ h => by cases h) (fun _ h => by cases h)
          | some x =>
            obtain ⟨y, h1, h2, h3, h4⟩ := hget hg
            subst h3
            exact .used y c h1 h2 h4 (.inl ⟨rfl, fun h => hc (.inl h)⟩) rfl (PublishFlow.set_same _ _ _)
      · refine same ?_ (fun h => hu (Option.some.inj h))
        repeat' split
        all_goals first | rfl | exact PublishFlow.set_other _ _ _ _ (Ne.symm hu)
    | call c u op =>
      dsimp only
      by_cases hu : u = w
      · subst hu
        by_cases hc : c = 0 ∨ s.doing c ≠ none
        · rw [if_pos hc]
          refine .same rfl (fun x _ _ _ _ => ⟨fun c h => (by cases h), fun c' op' h => ?_⟩) (fun x _ _ _ h => by cases h) (fun _ h => by cases h)
          cases h; exact hc
        · rw [if_neg hc]
          cases hg : get s u with
          | none =>
            refine .same rfl (fun x h1 h2 _ h3 => absurd hg (hno h1 h2 h3)) (fun x _ _ _ h => by cases h) (fun _ h => by cases h)
          | some x =>
            obtain ⟨y, h1, h2, h3, h4⟩ := hget hg
            subst h3
            dsimp only
            by_cases h0 : y.chan = 0
            · rw [if_pos h0]
              exact .ended y h1 h2 (.inr (.inr ⟨h0, c, op, rfl⟩)) ⟨_, .inr rfl, PublishFlow.set_same _ _ _⟩
            · rw [if_neg h0]
              refine .used y y.chan h1 h2 h4 (.inr ⟨rfl, h0⟩) rfl ?_
              split <;> exact PublishFlow.set_same _ _ _
      · refine same ?_ (fun h => hu (Option.some.inj h))
        repeat' split
        all_goals first | rfl | exact PublishFlow.set_other _ _ _ _ (Ne.symm hu)
    | act c tie data =>
      dsimp only
      split
      · exact same rfl (fun h => by cases h)
      · split
        · exact same rfl (fun h => by cases h)
        · rename_i u op hd
          split
          · exact same rfl (fun h => by cases h)
          · rename_i x hx
            cases op with
            | publish r => simp only [act]; split <;> exact same rfl (fun h => by cases h)
            | browse =>
              simp only [act]
              split
              · exact same rfl (fun h => by cases h)
              · rename_i n hn
                split
                · exact same rfl (fun h => by cases h)
                · rename_i hm
                  by_cases hu : u = w
                  · subst hu
                    exact .point x n hx hn (fun h => by omega) rfl (PublishFlow.set_same _ _ _)
                  · exact same (PublishFlow.set_other _ _ _ _ (Ne.symm hu)) (fun h => by cases h)
            | _ => exact same rfl (fun h => by cases h)
    | close c u del =>
      dsimp only
      by_cases hu : u = w
      · subst hu
        have keep : Hop s (.close c u del) u s := .same rfl (fun x _ _ _ _ => ⟨fun c h => (by cases h), fun c op h => by cases h⟩)
          (fun x _ _ _ h => by cases h) (fun _ h => by cases h)
        by_cases hc : c = 0 ∨ s.doing c ≠ none
        · rw [if_pos hc]; exact keep
        · rw [if_neg hc]
          cases hg : get s u with
          | none => exact keep
          | some x =>
            obtain ⟨y, h1, h2, h3, h4⟩ := hget hg
            subst h3
            dsimp only
            by_cases h0 : y.chan = 0
            · rw [if_pos h0]
              exact .ended y h1 h2 (.inl ⟨c, del, rfl, h4⟩) ⟨_, .inr rfl, PublishFlow.set_same _ _ _⟩
            · rw [if_neg h0]
              by_cases h5 : y.chan ≠ c
              · rw [if_pos h5]
                exact .used y y.chan h1 h2 h4 (.inr ⟨rfl, h0⟩) rfl (PublishFlow.set_same _ _ _)
              · rw [if_neg h5]
                refine .ended y h1 h2 (.inl ⟨c, del, rfl, h4⟩) ⟨_, .inr rfl, PublishFlow.set_same _ _ _⟩
      · refine same ?_ (fun h => hu (Option.some.inj h))
        repeat' split
        all_goals first | rfl | exact PublishFlow.set_other _ _ _ _ (Ne.symm hu)
    | expire u =>
      dsimp only
      by_cases hu : u = w
      · subst hu
        cases hs : s.sess u with
        | none => exact .same rfl (fun x h => by rw [hs] at h; cases h) (fun x h => by rw [hs] at h; cases h) (fun _ h => by cases h)
        | some x =>
          dsimp only
          by_cases hx : x.inTable = true ∧ s.flow.now - x.last > x.timeout
          · rw [if_pos hx]
            exact .ended x hs hx.1 (.inr (.inl ⟨rfl, by omega⟩)) ⟨_, .inl rfl, PublishFlow.set_same _ _ _⟩
          · rw [if_neg hx]
            refine .same rfl (fun x _ _ _ _ => ⟨fun c h => (by cases h), fun c op h => by cases h⟩) (fun y h1 h2 _ _ => ?_) (fun _ h => by cases h)
            rw [hs] at h1; injection h1 with h1; subst h1
            have : ¬ s.flow.now - x.last > x.timeout := fun h => hx ⟨h2, h⟩
            omega
      · refine same ?_ (fun h => hu (Option.some.inj h))
        repeat' split
        all_goals first | rfl | exact PublishFlow.set_other _ _ _ _ (Ne.symm hu)

theorem step_now (s : State) (e : Ev) : (step s e).flow.now = s.flow.now + (if s.panicked = true then 0 else ticks [e]) := by
  unfold step
  split
  · rfl
  · cases e with
    | tick d => simp [ticks, PublishFlow.step]
    | timer id d => exact flow_now _ _ (fun d h => by cases h)
    | sweep => exact flow_now _ _ (fun d h => by cases h)
    | act c tie data =>
      simp only [ticks, List.map_cons, List.map_nil, List.sum_cons, List.sum_nil, Nat.add_zero]
      split
      · rfl
      · split
        · rfl
        · split
          · rfl
          · rename_i u op _ _ x _
            cases op with
            | publish r =>
              simp only [act]
              split
              · rfl
              · exact flow_now _ _ (fun d h => by cases h)
            | browse => simp only [act]; repeat' split
                        all_goals rfl
            | other => rfl
            | _ => exact flow_now _ _ (fun d h => by cases h)
    | _ =>
      simp only [ticks, List.map_cons, List.map_nil, List.sum_cons, List.sum_nil, Nat.add_zero]
      repeat' split
      all_goals rfl

theorem panic_stays (s : State) (later : List Ev) (h : s.panicked = true) : run s later = s := by
  induction later with
  | nil => rfl
  | cons a later ih =>
    have : step s a = s := by unfold step; rw [if_pos h]
    show run (step s a) later = s
    rw [this]; exact ih

theorem lives (T w : Nat) (later : List Ev) : ∀ (g : Nat) (s : State) (x : Sess), s.sess w = some x → x.inTable = true → x.chan ≠ 0 →
    x.timeout = T → s.flow.now ≤ x.last + g → InTime T w g s later → g ≤ T → ¬ Ended (run s later) w := by
  induction later with
  | nil =>
    intro g s x hx hin _ _ _ _ _ h
    obtain ⟨y, hy, hf⟩ := h
    rw [show run s [] = s from rfl, hx] at hy
    injection hy with hy; subst hy; rw [hin] at hf; cases hf
  | cons e later ih =>
    intro g s x hx hin hch hT hg hI hgT
    have hnow := step_now s e
    have hh := hop s e w
    show ¬ Ended (run (step s e) later) w
    -- the gap after the event
    have hgap : ∃ g', InTime T w g' (step s e) later ∧ g' ≤ T ∧
        ((g' = 0 ∧ ((∃ c, e = .activate c w ∧ c ≠ 0 ∧ s.doing c = none) ∨ ∃ c op, e = .call c w op ∧ c ≠ 0 ∧ s.doing c = none)) ∨
          g' = g + ticks [e]) ∧ ∀ c del, e ≠ .close c w del := by
      cases e with
      | tick d => exact ⟨g + d, hI.2, hI.1, .inr rfl, fun _ _ h => by cases h⟩
      | activate c u =>
        have hI : InTime T w (if u = w ∧ c ≠ 0 ∧ s.doing c = none then 0 else g) (step s (.activate c u)) later := hI
        by_cases h : u = w ∧ c ≠ 0 ∧ s.doing c = none
        · rw [if_pos h] at hI
          exact ⟨0, hI, Nat.zero_le _, .inl ⟨rfl, .inl ⟨c, by rw [h.1], h.2⟩⟩, fun _ _ h => by cases h⟩
        · rw [if_neg h] at hI
          exact ⟨g, hI, hgT, .inr rfl, fun _ _ h => by cases h⟩
      | call c u op =>
        have hI : InTime T w (if u = w ∧ c ≠ 0 ∧ s.doing c = none then 0 else g) (step s (.call c u op)) later := hI
        by_cases h : u = w ∧ c ≠ 0 ∧ s.doing c = none
        · rw [if_pos h] at hI
          exact ⟨0, hI, Nat.zero_le _, .inl ⟨rfl, .inr ⟨c, op, by rw [h.1], h.2⟩⟩, fun _ _ h => by cases h⟩
        · rw [if_neg h] at hI
          exact ⟨g, hI, hgT, .inr rfl, fun _ _ h => by cases h⟩
      | close c u del => exact ⟨g, hI.2, hgT, .inr rfl, fun _ _ h => by cases h; exact hI.1 rfl⟩
      | «open» u T' => exact ⟨g, hI, hgT, .inr rfl, fun _ _ h => by cases h⟩
      | act c tie data => exact ⟨g, hI, hgT, .inr rfl, fun _ _ h => by cases h⟩
      | expire u => exact ⟨g, hI, hgT, .inr rfl, fun _ _ h => by cases h⟩
      | timer id d => exact ⟨g, hI, hgT, .inr rfl, fun _ _ h => by cases h⟩
      | sweep => exact ⟨g, hI, hgT, .inr rfl, fun _ _ h => by cases h⟩
    obtain ⟨g', hI', hgT', hcase, hclose⟩ := hgap
    have hle : s.flow.now ≤ x.last + x.timeout := by omega
    have htick : (step s e).flow.now ≤ s.flow.now + ticks [e] := by rw [hnow]; split <;> omega
    by_cases hp : s.panicked = true
    · -- nothing happens any more
      have he : step s e = s := by unfold step; rw [if_pos hp]
      rw [he, panic_stays s later hp]
      rintro ⟨y, hy, hf⟩
      rw [hx] at hy; injection hy with hy; subst hy; rw [hin] at hf; cases hf
    have hp : s.panicked = false := by simpa using hp
    have hzero : ((∃ c, e = Ev.activate c w ∧ c ≠ 0 ∧ s.doing c = none) ∨ ∃ c op, e = .call c w op ∧ c ≠ 0 ∧ s.doing c = none) →
        ticks [e] = 0 := by
      rintro (⟨c, rfl, _⟩ | ⟨c, op, rfl, _⟩) <;> rfl
    cases hh with
    | same h hu hx' hn =>
      refine ih g' (step s e) x (by rw [h]; exact hx) hin hch hT ?_ hI' hgT'
      rcases hcase with ⟨_, hc⟩ | hc
      · exfalso
        obtain ⟨h1, h2⟩ := hu x hx hin hp hle
        rcases hc with ⟨c, he, h3, h4⟩ | ⟨c, op, he, h3, h4⟩
        · rcases h1 c he with h5 | h5
          · exact h3 h5
          · exact h5 h4
        · rcases h2 c op he with h5 | h5
          · exact h3 h5
          · exact h5 h4
      · omega
    | fresh T' he hn h => rw [hx] at hn; cases hn
    | used y c hy hyin ht he _ h =>
      rw [hx] at hy; injection hy with hy; subst hy
      refine ih g' (step s e) _ h hin ?_ hT ?_ hI' hgT'
      · rcases he with he | he
        · exact he.2
        · exact he.2
      · show (step s e).flow.now ≤ s.flow.now + g'
        rcases hcase with ⟨_, hc⟩ | hc
        · have := hzero hc; omega
        · omega
    | point y n hy hc hm he h =>
      rw [hx] at hy; injection hy with hy; subst hy
      refine ih g' (step s e) _ h hin hch hT ?_ hI' hgT'
      rcases hcase with ⟨_, hc⟩ | hc
      · rcases hc with ⟨c, he', _⟩ | ⟨c, op, he', _⟩ <;> (rw [he'] at he; cases he)
      · show (step s e).flow.now ≤ x.last + g'
        omega
    | ended y hy hyin he h =>
      rw [hx] at hy; injection hy with hy; subst hy
      rcases he with ⟨c, del, he, _⟩ | ⟨_, hlt⟩ | ⟨h0, _⟩
      · exact absurd he (hclose c del)
      · omega
      · exact absurd h0 hch

/-- **C134 (lives).** A session that is created and activated, and then never lets more time pass than its timeout between its
requests, is not ended by the server until it is closed. -/
theorem C134_lives (maxCPs : Nat) (evs later : List Ev) (w T c : Nat) (hp : (run (init maxCPs) evs).panicked = false)
    (hn : (run (init maxCPs) evs).sess w = none) (hc : c ≠ 0) (hd : (run (init maxCPs) evs).doing c = none)
    (hI : InTime T w 0 (run (init maxCPs) (evs ++ [.open w T, .activate c w])) later) :
    ¬ Ended (run (init maxCPs) (evs ++ .open w T :: .activate c w :: later)) w := by
  have e1 : run (init maxCPs) (evs ++ .open w T :: .activate c w :: later) =
      run (run (init maxCPs) (evs ++ [.open w T, .activate c w])) later := by
    rw [← run_append, List.append_assoc]; rfl
  rw [e1]
  rw [run_append] at hI ⊢
  generalize run (init maxCPs) evs = s at *
  have h1 : step s (.open w T) = { s with sess := PublishFlow.set s.sess w (some ⟨true, 0, s.flow.now, T, some 0⟩) } := by
    unfold step
    rw [if_neg (by rw [hp]; exact Bool.false_ne_true)]
    dsimp only
    rw [if_pos hn]
  have h2 : get (step s (.open w T)) w = some ⟨true, 0, s.flow.now, T, some 0⟩ := by
    rw [h1]
    unfold get
    dsimp only
    rw [set_eq, if_pos rfl]
    dsimp only
    rw [if_pos ⟨rfl, by omega⟩]
  have h3 : (run s [.open w T, .activate c w]).sess w = some ⟨true, c, s.flow.now, T, some 0⟩ ∧
      (run s [.open w T, .activate c w]).flow.now = s.flow.now := by
    show (step (step s (.open w T)) (.activate c w)).sess w = _ ∧ (step (step s (.open w T)) (.activate c w)).flow.now = _
    have hp' : (step s (.open w T)).panicked = false := by rw [h1]; exact hp
    have hd' : ¬ (c = 0 ∨ (step s (.open w T)).doing c ≠ none) := by
      rw [h1]; rintro (h | h)
      · exact hc h
      · exact h hd
    generalize hs1 : step s (.open w T) = s1 at *
    unfold step
    rw [if_neg (by rw [hp']; exact Bool.false_ne_true)]
    dsimp only
    rw [if_neg hd', h2]
    dsimp only
    rw [set_eq, if_pos rfl, h1]
    exact ⟨rfl, rfl⟩
  exact lives T w later 0 _ _ h3.1 rfl hc rfl (by rw [h3.2]; exact Nat.le_refl _) hI (Nat.zero_le _)

theorem last_run (maxCPs : Nat) (evs : List Ev) : ∀ w x, (run (init maxCPs) evs).sess w = some x →
    x.last ≤ (run (init maxCPs) evs).flow.now ∧ (maxCPs > 0 → ∀ n, x.cps = some n → n ≤ maxCPs) := by
  have hmax : ∀ evs, (run (init maxCPs) evs).maxCPs = maxCPs := by
    intro evs
    induction evs using snocInd with
    | nil => rfl
    | append_singleton evs e ih =>
      rw [run_snoc]
      refine Eq.trans ?_ ih
      generalize run (init maxCPs) evs = s
      unfold step
      split
      · rfl
      · cases e with
        | act c tie data =>
          dsimp only
          split
          · rfl
          · split
            · rfl
            · split
              · rfl
              · rename_i op _ _ x _
                cases op <;> simp only [act] <;> repeat' split
                all_goals rfl
        | _ => dsimp only; repeat' split
               all_goals rfl
  induction evs using snocInd with
  | nil => intro w x h; cases h
  | append_singleton evs e ih =>
    intro w x hx
    have hm := hmax evs
    rw [run_snoc] at hx ⊢
    have hnow := step_now (run (init maxCPs) evs) e
    have hh := hop (run (init maxCPs) evs) e w
    generalize run (init maxCPs) evs = s at *
    have hle : s.flow.now ≤ (step s e).flow.now := by rw [hnow]; exact Nat.le_add_right _ _
    cases hh with
    | same h _ _ _ =>
      rw [h] at hx
      exact ⟨Nat.le_trans (ih w x hx).1 hle, (ih w x hx).2⟩
    | fresh T he hn h =>
      rw [hx] at h; injection h with h; subst h
      exact ⟨hle, fun h0 n hn => by injection hn with hn; omega⟩
    | used y c hy hin ht he _ h =>
      rw [hx] at h; injection h with h; subst h
      exact ⟨hle, (ih w y hy).2⟩
    | point y n hy hc hlt he h =>
      rw [hx] at h; injection h with h; subst h
      refine ⟨Nat.le_trans (ih w y hy).1 hle, fun h0 k hk => ?_⟩
      injection hk with hk
      rw [hm] at hlt
      have := hlt h0
      omega
    | ended y hy hin he h =>
      obtain ⟨la, hla, h⟩ := h
      rw [hx] at h; injection h with h; subst h
      refine ⟨?_, fun _ n hn => by cases hn⟩
      have := (ih w y hy).1
      dsimp only
      omega

/-- **C134 (points).** A session never has more continuation points of Browse than the server allows, if it sets a limit. -/
theorem C134_points (maxCPs : Nat) (evs : List Ev) (w : Nat) (x : Sess) (n : Nat) (h0 : 0 < maxCPs)
    (hx : (run (init maxCPs) evs).sess w = some x) (hn : x.cps = some n) : n ≤ maxCPs :=
  (last_run maxCPs evs w x hx).2 h0 n hn

/-- **C134 (expires).** A session that lets more time pass than its timeout without a request is ended when the server next
looks for such sessions. -/
theorem C134_expires (maxCPs : Nat) (evs later : List Ev) (w : Nat) (x : Sess) (hx : (run (init maxCPs) evs).sess w = some x)
    (hl : ∀ e ∈ later, names e ≠ some w) (ht : x.timeout < ticks later)
    (hp : (run (init maxCPs) (evs ++ later)).panicked = false) :
    Ended (run (init maxCPs) (evs ++ later ++ [.expire w])) w := by
  have key : ∃ y, (run (init maxCPs) (evs ++ later)).sess w = some y ∧ y.last = x.last ∧ y.timeout = x.timeout ∧
      (run (init maxCPs) (evs ++ later)).flow.now = (run (init maxCPs) evs).flow.now + ticks later := by
    clear ht
    induction later using snocInd with
    | nil => rw [List.append_nil]; exact ⟨x, hx, rfl, rfl, rfl⟩
    | append_singleton later e ih =>
      rw [← List.append_assoc, run_snoc] at hp ⊢
      have hp' : (run (init maxCPs) (evs ++ later)).panicked = false := by
        cases hb : (run (init maxCPs) (evs ++ later)).panicked with
        | false => rfl
        | true => rw [show step (run (init maxCPs) (evs ++ later)) e = _ from panic_stays _ [e] hb, hb] at hp; cases hp
      obtain ⟨y, h1, h2, h3, h4⟩ := ih (fun e he => hl e (List.mem_append_left _ he)) hp'
      have hne := hl e (List.mem_append_right _ (List.mem_singleton.2 rfl))
      have hnow := step_now (run (init maxCPs) (evs ++ later)) e
      have hh := hop (run (init maxCPs) (evs ++ later)) e w
      generalize run (init maxCPs) (evs ++ later) = s at *
      have hnow' : (step s e).flow.now = (run (init maxCPs) evs).flow.now + ticks (later ++ [e]) := by
        rw [hnow, hp', h4]
        simp [ticks, Nat.add_assoc]
      cases hh with
      | same h _ _ _ => exact ⟨y, by rw [h]; exact h1, h2, h3, hnow'⟩
      | fresh T he hn h => subst he; exact absurd rfl hne
      | used z c hz hin ht he hw h => exact absurd hw hne
      | point z n hz hc hlt he h =>
        rw [h1] at hz; injection hz with hz; subst hz
        exact ⟨_, h, h2, h3, hnow'⟩
      | ended z hz hin he h =>
        rcases he with ⟨c, del, he, _⟩ | ⟨he, _⟩ | ⟨_, c, op, he⟩ <;> (subst he; exact absurd rfl hne)
  obtain ⟨y, h1, h2, h3, h4⟩ := key
  have h5 := (last_run maxCPs evs w x hx).1
  rw [run_snoc]
  generalize run (init maxCPs) (evs ++ later) = s at *
  cases hin : y.inTable with
  | false =>
    have hh := hop s (.expire w) w
    cases hh with
    | same h _ _ _ => exact ⟨y, by rw [h]; exact h1, hin⟩
    | fresh T he hn h => cases he
    | used z c hz hin' ht' he _ h => rw [h1] at hz; injection hz with hz; subst hz; rw [hin] at hin'; cases hin'
    | point z n hz hc hlt he h => cases he
    | ended z hz hin' he h => rw [h1] at hz; injection hz with hz; subst hz; rw [hin] at hin'; cases hin'
  | true =>
    have hh := hop s (.expire w) w
    cases hh with
    | same h _ hx' _ => have := hx' y h1 hin hp rfl; omega
    | fresh T he hn h => cases he
    | used z c hz hin' ht' he _ h => rw [h1] at hz; injection hz with hz; subst hz; omega
    | point z n hz hc hlt he h => cases he
    | ended z hz hin' he h => obtain ⟨la, _, h⟩ := h; exact ⟨_, h, rfl⟩

/-! ### Concrete cases -/

/-- A session with a subscription and a Publish request that waits. -/
def used : List Ev :=
  [.open 1 60000, .activate 5 1, .call 5 1 (.create 0 true 2 3), .act 5 id (fun _ => .nothing),
    .call 5 1 (.publish ⟨7, 1000⟩), .act 5 id (fun _ => .nothing)]

theorem used_idle (e : Ev) (he : conn e = none) : Idle (run (init 10) (used ++ [e])) 1 := by
  intro c op h
  by_cases hc : c = 5
  · subst hc
    rw [run_snoc, doing_other 5 _ e (by rw [he]; intro h; cases h)] at h
    have : (run (init 10) used).doing 5 = none := by decide
    rw [this] at h; cases h
  · rw [run_snoc, doing_other c _ e (by rw [he]; intro h; cases h), doing_run c _ _ (by simp [used, conn]; exact Ne.symm hc)] at h
    cases h

-- the session is closed and its subscription stays: the hypotheses of C134_silent and C134_orphans are met
example : Ended (run (init 10) (used ++ [.close 5 1 false])) 1 ∧ Idle (run (init 10) (used ++ [.close 5 1 false])) 1 ∧
    (∀ e ∈ used ++ [.close 5 1 false], Proper e) ∧
    (subsOf (run (init 10) (used ++ [.close 5 1 false])) 1).map (fun t => (t.id, t.maxKeepAlive, t.maxLifetime)) = [(1, 2, 3)] := by
  refine ⟨⟨⟨false, 0, 0, 60000, none⟩, by decide, rfl⟩, used_idle _ rfl, ?_, by decide⟩
  simp [used, Proper]

-- and five turns later it is gone; its first turn would have sent a keep-alive had somebody asked for one
example : ((run (init 10) (used ++ .close 5 1 false :: List.replicate 2 (.timer 1 .nothing))).flow.subs.map (·.id),
    (run (init 10) (used ++ .close 5 1 false :: List.replicate 5 (.timer 1 .nothing))).flow.subs.map (·.id)) = ([1], []) := by decide

-- C134_lives: a session with a timeout of 100 that calls every 100 outlives the sweeps of the server
example : ¬ Ended (run (init 10) ([] ++ .open 1 100 :: .activate 5 1 :: [.tick 100, .expire 1, .call 5 1 .other,
    .act 5 id (fun _ => .nothing), .tick 100, .expire 1])) 1 := by
  refine C134_lives 10 [] _ 1 100 5 rfl rfl (by decide) rfl ?_
  refine ⟨by decide, ?_⟩
  show InTime 100 1 (if _ then 0 else _) _ _
  rw [if_pos ⟨rfl, by decide, by decide⟩]
  exact ⟨by decide, trivial⟩

-- C134_expires: another that is silent for 101 does not
example : Ended (run (init 10) ([.open 1 100, .activate 5 1, .open 2 50] ++ [.tick 60, .sweep, .activate 6 2, .tick 41] ++ [.expire 1])) 1 :=
  C134_expires 10 _ _ 1 ⟨true, 5, 0, 100, some 0⟩ (by decide) (by simp [names]) (by decide) (by decide)

-- C134_points: the second Browse of a server that allows one continuation point gets none
example : ((run (init 1) [.open 1 100, .activate 5 1, .call 5 1 .browse, .act 5 id (fun _ => .nothing), .call 5 1 .browse,
    .act 5 id (fun _ => .nothing)]).sess 1).map (·.cps) = some (some 1) := by decide

-- a pending change of status is told at once, also if the session ends while the Publish request is under way
example : let s := run (init 10) [.open 1 60000, .activate 5 1, .call 5 1 (.create 0 true 1 1), .act 5 id (fun _ => .nothing),
      .timer 1 .nothing, .call 5 1 (.create 0 true 9 9), .act 5 id (fun _ => .nothing), .call 5 1 (.publish ⟨7, 1000⟩),
      .activate 6 1, .close 6 1 false, .act 5 id (fun _ => .nothing)]
    (s.stuck 5, (s.doing 5).isNone, answersOf s 1) = (false, true, [7]) := by decide

-- C134_forgotten: the session has not ended before, has ended after, and request 7 waited
example : ¬ Ended (run (init 10) used) 1 ∧ Ended (run (init 10) (used ++ [.tick 60001, .expire 1])) 1 ∧
    waiting (run (init 10) used) 1 = [7] ∧ waiting (run (init 10) (used ++ [.tick 60001, .expire 1])) 1 = [] := by
  refine ⟨?_, ⟨⟨false, 0, 0, 60000, none⟩, by decide, rfl⟩, by decide, by decide⟩
  rintro ⟨x, hx, hf⟩
  have : (run (init 10) used).sess 1 = some ⟨true, 5, 0, 60000, some 0⟩ := by decide
  rw [this] at hx; injection hx with hx; subst hx; cases hf

-- C134_deleted: the session is in use on connection 5, which has nothing else to do
example : (run (init 10) used).panicked = false ∧ (run (init 10) used).sess 1 = some ⟨true, 5, 0, 60000, some 0⟩ ∧
    (run (init 10) used).doing 5 = none ∧ (subsOf (run (init 10) used) 1).length = 1 ∧
    (subsOf (run (init 10) (used ++ [.close 5 1 true])) 1).length = 0 := by decide

/-- C134_safe_partial: a Browse ends before its session does. -/
example : Orderly 10 [.open 1 60000, .activate 5 1, .call 5 1 .browse, .act 5 id (fun _ => .nothing), .close 5 1 true] := by
  intro p e q h c w op hd
  have hc : c = 5 := by
    by_cases hc : c = 5
    · exact hc
    · rw [doing_run c _ p ?_] at hd
      · cases hd
      · intro e' he'
        have : e' ∈ [Ev.open 1 60000, .activate 5 1, .call 5 1 .browse, .act 5 id (fun _ => .nothing), .close 5 1 true] := by
          rw [h]; exact List.mem_append_left _ he'
        simp at this
        rcases this with rfl | rfl | rfl | rfl | rfl <;> simp [conn] <;> omega
  subst hc
  rcases p with _ | ⟨a, _ | ⟨b, _ | ⟨d, _ | ⟨f, _ | ⟨g, p⟩⟩⟩⟩⟩
  · cases hd
  · injection h with h1 h; subst h1; cases hd
  · injection h with h1 h; injection h with h2 h; subst h1 h2; cases hd
  · injection h with h1 h; injection h with h2 h; injection h with h3 h; injection h with h4 h
    subst h1 h2 h3 h4
    have : (run (init 10) [Ev.open 1 60000, .activate 5 1, .call 5 1 .browse]).doing 5 = some (1, .browse) := by decide
    rw [this] at hd; injection hd with hd; injection hd with hd _; subst hd
    rintro ⟨x, hx, hf⟩
    have : (run (init 10) ([Ev.open 1 60000, .activate 5 1, .call 5 1 .browse] ++ [.act 5 id (fun _ => .nothing)])).sess 1 =
      some ⟨true, 5, 0, 60000, some 1⟩ := by decide
    rw [this] at hx; injection hx with hx; subst hx; cases hf
  · injection h with h1 h; injection h with h2 h; injection h with h3 h; injection h with h4 h
    subst h1 h2 h3 h4
    have : (run (init 10) [Ev.open 1 60000, .activate 5 1, .call 5 1 .browse, .act 5 id (fun _ => .nothing)]).doing 5 = none := by
      decide
    rw [this] at hd; cases hd
  · simp at h

end Opcua.SessionEnd
