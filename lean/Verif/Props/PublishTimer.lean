import Verif.Model.PublishTimer
import Verif.Props.Revise
import Verif.Lemmas.Lists

/-! C133: a subscription is published at the interval that the server confirmed. -/
namespace Opcua.PublishTimer

open Revise (F64)

namespace Spec

/-- The interval and the counts, of lifetime and keep-alives, that a response confirms for a subscription. -/
def tells (id : Nat) : Response → Option (F64 × Nat × Nat)
  | .created i v l k => if i = id then some (v, l, k) else none
  | .modified i v l k => if i = id then some (v, l, k) else none
  | _ => none

/-- What was confirmed last. -/
def confirmed (rs : List (Nat × Response)) (id : Nat) : Option (F64 × Nat × Nat) := rs.reverse.findSome? (fun r => tells id r.2)

/-- The goroutine `k` works for the subscription. -/
def worksFor (s : State) (id k : Nat) : Bool := (s.timers[k]?).any (fun t => decide (t.sub = id))

/-- How often the subscription has been published. -/
def turns (s : State) (id : Nat) : Nat := (s.cycles.filter (fun c => worksFor s id c.2)).length

/-- The goroutines of the subscription that were told to end have ended. -/
def Settled (s : State) (id : Nat) : Prop :=
  ∀ (k : Nat) (t : Timer), s.timers[k]? = some t → t.sub = id → t.closed = true → t.phase = .ended

/-- No event changes the subscription. -/
def Unmodified (id : Nat) (evs : List Ev) : Prop := ∀ w i l k, Ev.modify w id i l k ∉ evs

/-- A goroutine of the subscription has a tick that it has not taken. -/
def Pending (s : State) (id : Nat) : Prop :=
  ∃ (k : Nat) (t : Timer) (n : Nat), s.timers[k]? = some t ∧ t.sub = id ∧ t.phase = .running n true

/-- The goroutine of the subscription has come to its loop. -/
def Started (s : State) (id : Nat) : Prop :=
  ∀ (k : Nat) (t : Timer), s.timers[k]? = some t → t.sub = id → t.phase ≠ .starting

/-- The goroutines of the subscription take every tick within a millisecond. -/
def Prompt (s : State) (id : Nat) (evs : List Ev) : Prop :=
  (∀ a b, evs = a ++ .ms :: b → ¬ Pending (run s a) id) ∧ ¬ Pending (run s evs) id

/-- Whether publishing of a subscription is enabled after an event, if it was `old` before. -/
def newMode (owner id : Nat) (old : Bool) : Ev → Bool
  | .setMode w ids b => if owner = w ∧ id ∈ ids then b else old
  | _ => old

end Spec

open Spec

theorem run_snoc (s : State) (evs : List Ev) (e : Ev) : run s (evs ++ [e]) = step (run s evs) e := by simp [run]
theorem run_append (s : State) (a b : List Ev) : run s (a ++ b) = run (run s a) b := by simp [run]

/-! ### What the steps do to the goroutines -/

theorem close_get (ts : List Timer) (j k : Nat) (t : Timer) (h : ts[k]? = some t) :
    (close ts j)[k]? = some { t with closed := if j = k then true else t.closed } := by
  unfold close
  rw [List.getElem?_modify, h]
  by_cases hk : j = k <;> simp [hk]

theorem close_length (ts : List Timer) (j : Nat) : (close ts j).length = ts.length := by simp [close]

/-- A list of goroutines in which some more are told to end. -/
def Closes (ts us : List Timer) : Prop :=
  us.length = ts.length ∧ ∀ (k : Nat) (t : Timer), ts[k]? = some t → ∃ c : Bool, (t.closed = true → c = true) ∧ us[k]? = some { t with closed := c }

theorem Closes.refl (ts : List Timer) : Closes ts ts := ⟨rfl, fun _ t h => ⟨t.closed, fun h => h, h⟩⟩

theorem Closes.trans {ts us vs : List Timer} (h1 : Closes ts us) (h2 : Closes us vs) : Closes ts vs := by
  refine ⟨h2.1.trans h1.1, fun k t h => ?_⟩
  obtain ⟨c, hc, hu⟩ := h1.2 k t h
  obtain ⟨d, hd, hv⟩ := h2.2 k _ hu
  exact ⟨d, fun h => hd (hc h), hv⟩

theorem closes_close (ts : List Timer) (j : Nat) : Closes ts (close ts j) := by
  refine ⟨close_length ts j, fun k t h => ⟨_, ?_, close_get ts j k t h⟩⟩
  intro hc; split
  · rfl
  · exact hc

theorem setModes_keeps (s : State) (w : Nat) (e : Bool) (ids : List Nat) :
    (setModes s w e ids).1.timers = s.timers ∧ (setModes s w e ids).1.cycles = s.cycles ∧
      (setModes s w e ids).1.now = s.now ∧ (setModes s w e ids).1.next = s.next ∧
      (setModes s w e ids).1.responses = s.responses := by
  induction ids generalizing s with
  | nil => exact ⟨rfl, rfl, rfl, rfl, rfl⟩
  | cons id ids ih =>
    unfold setModes
    split
    · exact ih _
    · exact ih _

theorem deletes_keeps (s : State) (w : Nat) (ids : List Nat) :
    Closes s.timers (deletes s w ids).1.timers ∧ (deletes s w ids).1.cycles = s.cycles ∧
      (deletes s w ids).1.now = s.now ∧ (deletes s w ids).1.next = s.next ∧
      (deletes s w ids).1.responses = s.responses := by
  induction ids generalizing s with
  | nil => exact ⟨Closes.refl _, rfl, rfl, rfl, rfl⟩
  | cons id ids ih =>
    unfold deletes
    split
    · rename_i x _
      obtain ⟨h1, h2⟩ := ih (remove s x)
      exact ⟨(closes_close _ _).trans h1, h2⟩
    · exact ih _

/-- Where the goroutine `k` is after an event. -/
def phaseAfter (now : Nat) (k : Nat) (t : Timer) : Ev → Phase
  | .ms => (t.pass now).phase
  | .start j => if j = k ∧ t.phase = .starting then .running (now + t.period) false else t.phase
  | .turn j =>
    match t.phase with
    | .running n true => if j = k then .running n false else t.phase
    | _ => t.phase
  | .stop j =>
    match t.phase with
    | .running _ _ => if j = k ∧ t.closed = true then .ended else t.phase
    | _ => t.phase
  | _ => t.phase

theorem pass_keeps (now : Nat) (t : Timer) :
    (t.pass now).sub = t.sub ∧ (t.pass now).period = t.period ∧ (t.pass now).closed = t.closed := by
  unfold Timer.pass
  split
  · split <;> exact ⟨rfl, rfl, rfl⟩
  · exact ⟨rfl, rfl, rfl⟩

theorem closes_step {ts us : List Timer} (h : Closes ts us) (k : Nat) (t : Timer) (ht : ts[k]? = some t) :
    ∃ t', us[k]? = some t' ∧ t'.sub = t.sub ∧ t'.period = t.period ∧ (t.closed = true → t'.closed = true) ∧
      t'.phase = t.phase := by
  obtain ⟨c, hc, hu⟩ := h.2 k t ht
  exact ⟨_, hu, rfl, rfl, hc, rfl⟩

theorem append_get {ts : List Timer} {k : Nat} {t : Timer} (u : Timer) (h : ts[k]? = some t) : (ts ++ [u])[k]? = some t := by
  have hk : k < ts.length := (List.getElem?_eq_some_iff.1 h).1
  rw [List.getElem?_append_left hk, h]

theorem step_timer (s : State) (e : Ev) (k : Nat) (t : Timer) (h : s.timers[k]? = some t) :
    ∃ t', (step s e).timers[k]? = some t' ∧ t'.sub = t.sub ∧ t'.period = t.period ∧
      (t.closed = true → t'.closed = true) ∧ t'.phase = phaseAfter s.now k t e := by
  have hkl : k < s.timers.length := (List.getElem?_eq_some_iff.1 h).1
  cases e with
  | ms =>
    obtain ⟨h1, h2, h3⟩ := pass_keeps s.now t
    refine ⟨t.pass s.now, ?_, h1, h2, fun h => h3.trans h, rfl⟩
    simp [step, h]
  | create w i l q e =>
    simp only [step, create]
    split
    · exact ⟨t, h, rfl, rfl, fun h => h, rfl⟩
    · exact ⟨t, append_get _ h, rfl, rfl, fun h => h, rfl⟩
  | modify w id i l q =>
    simp only [step, modify]
    split
    · exact ⟨t, h, rfl, rfl, fun h => h, rfl⟩
    · rename_i x _
      obtain ⟨t', h1, h2⟩ := closes_step (closes_close s.timers x.timer) k t h
      exact ⟨t', append_get _ h1, h2⟩
  | setMode w ids e =>
    simp only [step, setMode]
    refine ⟨t, ?_, rfl, rfl, fun h => h, rfl⟩
    rw [(setModes_keeps s w e ids).1]; exact h
  | delete w ids =>
    simp only [step, delete]
    split
    · exact ⟨t, h, rfl, rfl, fun h => h, rfl⟩
    · exact closes_step (deletes_keeps s w ids).1 k t h
  | expire id =>
    simp only [step]
    split
    · exact ⟨t, h, rfl, rfl, fun h => h, rfl⟩
    · rename_i x _
      exact closes_step (closes_close s.timers x.timer) k t h
  | start j =>
    simp only [step, phaseAfter]
    split
    · rename_i u hu
      by_cases hj : j = k
      · subst hj
        rw [h] at hu; cases hu
        by_cases hp : t.phase = .starting
        · rw [if_pos hp, if_pos ⟨rfl, hp⟩]
          exact ⟨_, List.getElem?_set_self hkl, rfl, rfl, fun h => h, rfl⟩
        · rw [if_neg hp, if_neg (fun h => hp h.2)]
          exact ⟨t, h, rfl, rfl, fun h => h, rfl⟩
      · have hn : ¬ (j = k ∧ t.phase = .starting) := fun h => hj h.1
        rw [if_neg hn]
        split
        · exact ⟨t, by rw [List.getElem?_set_ne hj]; exact h, rfl, rfl, fun h => h, rfl⟩
        · exact ⟨t, h, rfl, rfl, fun h => h, rfl⟩
    · rename_i hn
      have hj : j ≠ k := by intro hj; subst hj; rw [h] at hn; cases hn
      rw [if_neg (fun h => hj h.1)]
      exact ⟨t, h, rfl, rfl, fun h => h, rfl⟩
  | turn j =>
    by_cases hj : j = k
    · subst hj
      rcases hq : t.phase with _ | ⟨n, _ | _⟩ | _ <;> simp only [step, h, phaseAfter, hq, if_true]
      · exact ⟨t, rfl, rfl, rfl, fun h => h, hq⟩
      · exact ⟨t, rfl, rfl, rfl, fun h => h, hq⟩
      · exact ⟨_, List.getElem?_set_self hkl, rfl, rfl, fun h => h, rfl⟩
      · exact ⟨t, rfl, rfl, rfl, fun h => h, hq⟩
    · have hp : phaseAfter s.now k t (.turn j) = t.phase := by
        simp only [phaseAfter]
        split
        · rename_i hq; rw [if_neg hj, hq]
        · rfl
      rw [hp]
      simp only [step]
      split
      · split
        · exact ⟨t, by rw [List.getElem?_set_ne hj]; exact h, rfl, rfl, fun h => h, rfl⟩
        · exact ⟨t, h, rfl, rfl, fun h => h, rfl⟩
      · exact ⟨t, h, rfl, rfl, fun h => h, rfl⟩
  | stop j =>
    by_cases hj : j = k
    · subst hj
      rcases hq : t.phase with _ | ⟨n, f⟩ | _ <;> simp only [step, h, phaseAfter, hq, true_and]
      · exact ⟨t, rfl, rfl, rfl, fun h => h, hq⟩
      · by_cases hc : t.closed = true
        · rw [if_pos hc, if_pos hc]
          exact ⟨_, List.getElem?_set_self hkl, rfl, rfl, fun h => h, rfl⟩
        · rw [if_neg hc, if_neg hc]
          exact ⟨t, h, rfl, rfl, fun h => h, hq⟩
      · exact ⟨t, rfl, rfl, rfl, fun h => h, hq⟩
    · have hp : phaseAfter s.now k t (.stop j) = t.phase := by
        simp only [phaseAfter]
        split
        · rename_i hq; rw [if_neg (fun h => hj h.1), hq]
        · rfl
      rw [hp]
      simp only [step]
      split
      · split
        · split
          · exact ⟨t, by rw [List.getElem?_set_ne hj]; exact h, rfl, rfl, fun h => h, rfl⟩
          · exact ⟨t, h, rfl, rfl, fun h => h, rfl⟩
        · exact ⟨t, h, rfl, rfl, fun h => h, rfl⟩
      · exact ⟨t, h, rfl, rfl, fun h => h, rfl⟩

/-- The calls of publish that an event makes. -/
def made (s : State) : Ev → List (Nat × Nat)
  | .turn j =>
    match s.timers[j]? with
    | some t =>
      match t.phase with
      | .running _ true => [(s.now, j)]
      | _ => []
    | none => []
  | _ => []

theorem step_cycles (s : State) (e : Ev) : (step s e).cycles = s.cycles ++ made s e := by
  cases e with
  | ms => simp [step, made]
  | create => simp only [step, create, made]; split <;> simp
  | modify => simp only [step, modify, made]; split <;> simp
  | setMode w ids e => simp only [step, setMode, made, (setModes_keeps s w e ids).2.1]; simp
  | delete w ids =>
    simp only [step, delete, made]
    split
    · simp
    · rw [(deletes_keeps s w ids).2.1]; simp
  | expire => simp only [step, made]; split <;> simp [remove]
  | start => simp only [step, made]; split <;> (try split) <;> simp
  | stop => simp only [step, made]; repeat' split
            all_goals simp
  | turn j =>
    simp only [step, made]
    cases h : s.timers[j]? with
    | none => simp
    | some t => rcases hq : t.phase with _ | ⟨n, _ | _⟩ | _ <;> simp [hq]

/-- The time after an event. -/
def nowAfter (now : Nat) : Ev → Nat
  | .ms => now + 1
  | _ => now

theorem step_now (s : State) (e : Ev) : (step s e).now = nowAfter s.now e := by
  cases e with
  | ms => rfl
  | create => simp only [step, create]; split <;> rfl
  | modify => simp only [step, modify]; split <;> rfl
  | setMode w ids e => exact (setModes_keeps s w e ids).2.2.1
  | delete w ids =>
    simp only [step, delete]
    split
    · rfl
    · exact (deletes_keeps s w ids).2.2.1
  | expire => simp only [step]; split <;> rfl
  | start => simp only [step, nowAfter]; repeat' split
             all_goals rfl
  | stop => simp only [step, nowAfter]; repeat' split
            all_goals rfl
  | turn => simp only [step, nowAfter]; repeat' split
            all_goals rfl

/-- A goroutine that an event adds: that of a new subscription or that of a modified one. -/
theorem step_new (s : State) (e : Ev) (k : Nat) (t : Timer) (hk : s.timers.length ≤ k)
    (h : (step s e).timers[k]? = some t) :
    k = s.timers.length ∧ t.phase = .starting ∧ t.closed = false ∧
      ((t.sub = s.next ∧ (∃ w i l q b, e = .create w i l q b)) ∨ ∃ w i l q, e = .modify w t.sub i l q) := by
  have hl := (List.getElem?_eq_some_iff.1 h).1
  have old : ∀ us : List Timer, us.length = s.timers.length → us[k]? = some t → False := by
    intro us hu h0
    have := (List.getElem?_eq_some_iff.1 h0).1
    omega
  have new : ∀ (us : List Timer) (u : Timer), us.length = s.timers.length → (us ++ [u])[k]? = some t →
      k = s.timers.length ∧ t = u := by
    intro us u hu h0
    have := (List.getElem?_eq_some_iff.1 h0).1
    rw [List.length_append, List.length_singleton] at this
    have hk' : k = us.length := by omega
    subst hk'
    rw [List.getElem?_concat_length] at h0
    cases h0
    exact ⟨hu, rfl⟩
  cases e with
  | ms => exact (old (s.timers.map (Timer.pass s.now)) (List.length_map _) h).elim
  | create w i l q b =>
    simp only [step, create] at h
    split at h
    · exact (old _ rfl h).elim
    · obtain ⟨h1, rfl⟩ := new _ _ rfl h
      exact ⟨h1, rfl, rfl, Or.inl ⟨rfl, w, i, l, q, b, rfl⟩⟩
  | modify w id i l q =>
    simp only [step, modify] at h
    split at h
    · exact (old _ rfl h).elim
    · obtain ⟨h1, rfl⟩ := new _ _ (close_length _ _) h
      exact ⟨h1, rfl, rfl, Or.inr ⟨w, i, l, q, rfl⟩⟩
  | setMode w ids e =>
    simp only [step, setMode, (setModes_keeps s w e ids).1] at h
    exact (old _ rfl h).elim
  | delete w ids =>
    simp only [step, delete] at h
    split at h
    · exact (old _ rfl h).elim
    · exact (old _ (deletes_keeps s w ids).1.1 h).elim
  | expire id =>
    simp only [step] at h
    split at h
    · exact (old _ rfl h).elim
    · exact (old _ (close_length _ _) h).elim
  | start j =>
    simp only [step] at h
    repeat' split at h
    all_goals exact (old _ (by simp) h).elim
  | turn j =>
    simp only [step] at h
    repeat' split at h
    all_goals exact (old _ (by simp) h).elim
  | stop j =>
    simp only [step] at h
    repeat' split at h
    all_goals exact (old _ (by simp) h).elim

/-! ### One goroutine for every subscription -/

theorem confirmed_snoc (rs : List (Nat × Response)) (r : Nat × Response) (id : Nat) :
    confirmed (rs ++ [r]) id = (tells id r.2).or (confirmed rs id) := by
  unfold confirmed
  rw [List.reverse_append, List.reverse_singleton, List.singleton_append, List.findSome?_cons]
  cases tells id r.2 <;> rfl

/-- Every subscription has one goroutine that is not told to end, at the confirmed interval, and no other
goroutine goes on. -/
structure Inv (s : State) : Prop where
  below : ∀ x ∈ s.subs, x.id < s.next
  uniq : ∀ x ∈ s.subs, ∀ y ∈ s.subs, x.id = y.id → x = y
  own : ∀ x ∈ s.subs, ∃ t, s.timers[x.timer]? = some t ∧ t.sub = x.id ∧ t.closed = false ∧ t.period = period x.interval
  only : ∀ (k : Nat) (t : Timer), s.timers[k]? = some t → t.closed = false → ∃ x ∈ s.subs, x.timer = k ∧ x.id = t.sub
  said : ∀ x ∈ s.subs, confirmed s.responses x.id = some (x.interval, x.lifetime, x.keepAlive)
  fair : ∀ x ∈ s.subs, ∃ q : Rat, x.interval = .fin q ∧ 125 ≤ q ∧ q ≤ 60000
  young : ∀ (k : Nat) (t : Timer), s.timers[k]? = some t → t.sub < s.next
  long : ∀ (k : Nat) (t : Timer), s.timers[k]? = some t → 125 ≤ t.period
  due : ∀ (k : Nat) (t : Timer) (n : Nat) (f : Bool), s.timers[k]? = some t → t.phase = .running n f →
    s.now < n ∧ n ≤ s.now + t.period

theorem find_some {s : State} {w id : Nat} {x : Sub} (h : find s w id = some x) : x ∈ s.subs ∧ x.id = id ∧ x.owner = w := by
  unfold find at h
  have h1 := List.mem_of_find?_eq_some h
  have h2 := List.find?_some h
  simp only [decide_eq_true_eq] at h2
  exact ⟨h1, h2⟩

theorem mem_store {subs : List Sub} {x y : Sub} (h : y ∈ store subs x) :
    y = x ∨ (y ∈ subs ∧ y.id ≠ x.id) := by
  obtain ⟨z, hz, rfl⟩ := List.mem_map.1 h
  by_cases he : z.id = x.id
  · rw [if_pos he]; exact Or.inl rfl
  · rw [if_neg he]; exact Or.inr ⟨hz, he⟩

theorem store_mem {subs : List Sub} {x y : Sub} (hy : y ∈ subs) : (y.id = x.id → x ∈ store subs x) ∧
    (y.id ≠ x.id → y ∈ store subs x) := by
  refine ⟨fun h => List.mem_map.2 ⟨y, hy, if_pos h⟩, fun h => List.mem_map.2 ⟨y, hy, if_neg h⟩⟩

theorem period_spec (q : Rat) (h1 : 125 ≤ q) (h2 : q ≤ 60000) :
    125 ≤ period (.fin q) ∧ (period (.fin q) : Rat) ≤ q ∧ q < (period (.fin q) : Rat) + 1 := by
  have hr : -(2 : Rat) ^ 63 ≤ q ∧ q < (2 : Rat) ^ 63 := by
    have : (2 : Rat) ^ 63 = 9223372036854775808 := by decide +kernel
    rw [this]; constructor <;> grind
  have h0 : (0 : Rat) ≤ q := by grind
  have hp : period (.fin q) = q.floor.toNat := by simp [period, Revise.toInt64, hr, h0]
  have hf : (125 : Int) ≤ q.floor := Rat.le_floor_iff.2 (by exact_mod_cast h1)
  have hc : ((q.floor.toNat : Nat) : Rat) = ((q.floor : Int) : Rat) := by
    have : ((q.floor.toNat : Nat) : Int) = q.floor := Int.toNat_of_nonneg (by omega)
    rw [← this]; rfl
  rw [hp, hc]
  refine ⟨by omega, Rat.floor_le q, ?_⟩
  have := Rat.lt_floor_add_one (a := q)
  grind

theorem inv_init (limit : Nat) : Inv (init limit) := by
  constructor <;> simp [init]

/-- Events that leave subscriptions, responses and `done` channels alone. -/
theorem inv_phase {s s' : State} (hi : Inv s) (h1 : s'.subs = s.subs) (h2 : s'.responses = s.responses) (h3 : s'.next = s.next)
    (hl : s'.timers.length = s.timers.length)
    (ht : ∀ (k : Nat) (t : Timer), s.timers[k]? = some t → ∃ t', s'.timers[k]? = some t' ∧ t'.sub = t.sub ∧
      t'.period = t.period ∧ t'.closed = t.closed)
    (hd : ∀ (k : Nat) (t : Timer) (n : Nat) (f : Bool), s'.timers[k]? = some t → t.phase = .running n f →
      s'.now < n ∧ n ≤ s'.now + t.period) : Inv s' := by
  have back : ∀ (k : Nat) (t' : Timer), s'.timers[k]? = some t' → ∃ t, s.timers[k]? = some t ∧ t'.sub = t.sub ∧
      t'.period = t.period ∧ t'.closed = t.closed := by
    intro k t' h
    have hk := (List.getElem?_eq_some_iff.1 h).1
    rw [hl] at hk
    obtain ⟨t2, g1, g2⟩ := ht k s.timers[k] (List.getElem?_eq_getElem hk)
    rw [h] at g1; cases g1
    exact ⟨_, List.getElem?_eq_getElem hk, g2⟩
  constructor
  · rw [h1, h3]; exact hi.below
  · rw [h1]; exact hi.uniq
  · rw [h1]; intro x hx
    obtain ⟨t, a, b, c, d⟩ := hi.own x hx
    obtain ⟨t', a', b', c', d'⟩ := ht _ _ a
    exact ⟨t', a', b'.trans b, d'.trans c, c'.trans d⟩
  · rw [h1]; intro k t' h hc
    obtain ⟨t, a, b, c, d⟩ := back k t' h
    obtain ⟨x, hx, e1, e2⟩ := hi.only k t a (d ▸ hc)
    exact ⟨x, hx, e1, e2.trans b.symm⟩
  · rw [h1, h2]; exact hi.said
  · rw [h1]; exact hi.fair
  · rw [h3]; intro k t' h
    obtain ⟨t, a, b, _⟩ := back k t' h
    rw [b]; exact hi.young k t a
  · intro k t' h
    obtain ⟨t, a, _, c, _⟩ := back k t' h
    rw [c]; exact hi.long k t a
  · exact hd

theorem inv_said {s : State} (hi : Inv s) (w : Nat) (r : Response) (hr : ∀ id, tells id r = none) :
    Inv { s with responses := s.responses ++ [(w, r)] } := by
  refine { hi with said := ?_ }
  intro x hx
  rw [confirmed_snoc, hr]
  exact hi.said x hx

theorem inv_remove {s : State} (hi : Inv s) {x : Sub} (hx : x ∈ s.subs) : Inv (remove s x) := by
  have hm : ∀ y, y ∈ (remove s x).subs ↔ y ∈ s.subs ∧ y.id ≠ x.id := by intro y; simp [remove]
  have tm : ∀ (k : Nat) (t' : Timer), (remove s x).timers[k]? = some t' → ∃ t, s.timers[k]? = some t ∧
      t' = { t with closed := if x.timer = k then true else t.closed } := by
    intro k t' h
    have hk := (List.getElem?_eq_some_iff.1 h).1
    simp only [remove, close_length] at hk
    have hg : s.timers[k]? = some s.timers[k] := List.getElem?_eq_getElem hk
    have := close_get s.timers x.timer k _ hg
    simp only [remove] at h
    rw [this] at h; cases h
    exact ⟨_, hg, rfl⟩
  constructor
  · intro y hy; exact hi.below y ((hm y).1 hy).1
  · intro y hy z hz; exact hi.uniq y ((hm y).1 hy).1 z ((hm z).1 hz).1
  · intro y hy
    obtain ⟨hy1, hy2⟩ := (hm y).1 hy
    obtain ⟨t, a, b, c, d⟩ := hi.own y hy1
    have hne : x.timer ≠ y.timer := by
      intro he
      obtain ⟨u, a', b', _⟩ := hi.own x hx
      rw [he, a] at a'; cases a'
      exact hy2 (b.symm.trans b')
    refine ⟨_, close_get s.timers x.timer _ _ a, b, ?_, d⟩
    simp only [if_neg hne]; exact c
  · intro k t' h hc
    obtain ⟨t, a, rfl⟩ := tm k t' h
    by_cases hk : x.timer = k
    · simp [hk] at hc
    · simp only [if_neg hk] at hc
      obtain ⟨y, hy, e1, e2⟩ := hi.only k t a hc
      refine ⟨y, (hm y).2 ⟨hy, ?_⟩, e1, e2⟩
      intro he
      exact hk (by rw [← hi.uniq y hy x hx he]; exact e1)
  · intro y hy; exact hi.said y ((hm y).1 hy).1
  · intro y hy; exact hi.fair y ((hm y).1 hy).1
  · intro k t' h
    obtain ⟨t, a, rfl⟩ := tm k t' h
    exact hi.young k t a
  · intro k t' h
    obtain ⟨t, a, rfl⟩ := tm k t' h
    exact hi.long k t a
  · intro k t' n f h hp
    obtain ⟨t, a, rfl⟩ := tm k t' h
    exact hi.due k t n f a hp

theorem inv_deletes {s : State} (hi : Inv s) (w : Nat) (ids : List Nat) : Inv (deletes s w ids).1 := by
  induction ids generalizing s with
  | nil => exact hi
  | cons id ids ih =>
    unfold deletes
    split
    · rename_i x hx
      exact ih (inv_remove hi (find_some hx).1)
    · exact ih hi

theorem inv_enable {s : State} (hi : Inv s) {x : Sub} (hx : x ∈ s.subs) (e : Bool) :
    Inv { s with subs := store s.subs { x with enabled := e } } := by
  have hm : ∀ y ∈ store s.subs { x with enabled := e }, y = { x with enabled := e } ∨ (y ∈ s.subs ∧ y.id ≠ x.id) :=
    fun y hy => mem_store hy
  constructor
  · intro y hy
    rcases hm y hy with rfl | ⟨h, _⟩
    · exact hi.below x hx
    · exact hi.below y h
  · intro y hy z hz he
    rcases hm y hy with rfl | ⟨h, h'⟩ <;> rcases hm z hz with rfl | ⟨g, g'⟩
    · rfl
    · exact absurd he.symm g'
    · exact absurd he h'
    · exact hi.uniq y h z g he
  · intro y hy
    rcases hm y hy with rfl | ⟨h, _⟩
    · exact hi.own x hx
    · exact hi.own y h
  · intro k t h hc
    obtain ⟨y, hy, e1, e2⟩ := hi.only k t h hc
    by_cases he : y.id = x.id
    · have := hi.uniq y hy x hx he
      subst this
      exact ⟨_, (store_mem (x := { y with enabled := e }) hy).1 rfl, e1, e2⟩
    · exact ⟨y, (store_mem (x := { x with enabled := e }) hy).2 he, e1, e2⟩
  · intro y hy
    rcases hm y hy with rfl | ⟨h, _⟩
    · exact hi.said x hx
    · exact hi.said y h
  · intro y hy
    rcases hm y hy with rfl | ⟨h, _⟩
    · exact hi.fair x hx
    · exact hi.fair y h
  · exact hi.young
  · exact hi.long
  · exact hi.due

theorem inv_setModes {s : State} (hi : Inv s) (w : Nat) (e : Bool) (ids : List Nat) : Inv (setModes s w e ids).1 := by
  induction ids generalizing s with
  | nil => exact hi
  | cons id ids ih =>
    unfold setModes
    split
    · rename_i x hx
      exact ih (inv_enable hi (find_some hx).1 e)
    · exact ih hi

theorem concat_get {ts : List Timer} {u t : Timer} {k : Nat} (h : (ts ++ [u])[k]? = some t) :
    ts[k]? = some t ∨ (k = ts.length ∧ t = u) := by
  by_cases hk : k < ts.length
  · rw [List.getElem?_append_left hk] at h; exact Or.inl h
  · have hl := (List.getElem?_eq_some_iff.1 h).1
    rw [List.length_append, List.length_singleton] at hl
    have : k = ts.length := by omega
    subst this
    rw [List.getElem?_concat_length] at h
    cases h
    exact Or.inr ⟨rfl, rfl⟩

theorem inv_create {s : State} (hi : Inv s) (w : Nat) (i : F64) (l q : Nat) (e : Bool) : Inv (create s w i l q e) := by
  obtain ⟨v, hv, hv1, hv2, _⟩ := Revise.C43_interval i
  have hp := period_spec v hv1 hv2
  unfold create
  split
  · refine inv_said (s := { s with next := s.next + 1 }) ?_ w _ (fun _ => rfl)
    exact { hi with below := fun x hx => Nat.lt_succ_of_lt (hi.below x hx), young := fun k t h => Nat.lt_succ_of_lt (hi.young k t h) }
  · have hm : ∀ {y : Sub} {a : Sub}, y ∈ s.subs ++ [a] → y ∈ s.subs ∨ y = a := by
      intro y a h; simpa using h
    dsimp only
    constructor
    · intro y hy
      rcases hm hy with h | rfl
      · exact Nat.lt_succ_of_lt (hi.below y h)
      · exact Nat.lt_succ_self _
    · intro y hy z hz he
      rcases hm hy with h | rfl <;> rcases hm hz with g | rfl
      · exact hi.uniq y h z g he
      · exact absurd he (Nat.ne_of_lt (hi.below y h))
      · exact absurd he.symm (Nat.ne_of_lt (hi.below z g))
      · rfl
    · intro y hy
      rcases hm hy with h | rfl
      · obtain ⟨t, a, b⟩ := hi.own y h
        exact ⟨t, append_get _ a, b⟩
      · exact ⟨_, List.getElem?_concat_length, rfl, rfl, rfl⟩
    · intro k t h hc
      rcases concat_get h with h | ⟨rfl, rfl⟩
      · obtain ⟨y, hy, e⟩ := hi.only k t h hc
        exact ⟨y, List.mem_append_left _ hy, e⟩
      · exact ⟨_, List.mem_append_right _ List.mem_cons_self, rfl, rfl⟩
    · intro y hy
      rw [confirmed_snoc]
      rcases hm hy with h | rfl
      · have : s.next ≠ y.id := Nat.ne_of_gt (hi.below y h)
        simp only [tells, if_neg this]
        exact hi.said y h
      · simp [tells]
    · intro y hy
      rcases hm hy with h | rfl
      · exact hi.fair y h
      · exact ⟨v, hv, hv1, hv2⟩
    · intro k t h
      rcases concat_get h with h | ⟨rfl, rfl⟩
      · exact Nat.lt_succ_of_lt (hi.young k t h)
      · exact Nat.lt_succ_self _
    · intro k t h
      rcases concat_get h with h | ⟨rfl, rfl⟩
      · exact hi.long k t h
      · simp only [newTimer, hv]; exact hp.1
    · intro k t n f h hp
      rcases concat_get h with h | ⟨rfl, rfl⟩
      · exact hi.due k t n f h hp
      · cases hp

theorem inv_modify {s : State} (hi : Inv s) (w id : Nat) (i : F64) (l q : Nat) : Inv (modify s w id i l q) := by
  obtain ⟨v, hv, hv1, hv2, _⟩ := Revise.C43_interval i
  have hp := period_spec v hv1 hv2
  unfold modify
  split
  · exact inv_said hi w _ (fun _ => rfl)
  · rename_i x hf
    obtain ⟨hx, rfl, _⟩ := find_some hf
    dsimp only
    generalize hxx : ({ x with interval := Revise.publishingInterval i, keepAlive := Revise.maxKeepAliveCount (num (Revise.publishingInterval i)) q, lifetime := Revise.lifetimeCount (num (Revise.publishingInterval i)) (Revise.maxKeepAliveCount (num (Revise.publishingInterval i)) q) l, timer := s.timers.length } : Sub) = x'
    have hxid : x'.id = x.id := by rw [← hxx]
    have hxi : x'.interval = Revise.publishingInterval i := by rw [← hxx]
    have hxt : x'.timer = s.timers.length := by rw [← hxx]
    have hm : ∀ y ∈ store s.subs x', y = x' ∨ (y ∈ s.subs ∧ y.id ≠ x.id) := by
      intro y hy
      rw [← hxid]
      exact mem_store hy
    have tm : ∀ (k : Nat) (t' : Timer), (close s.timers x.timer)[k]? = some t' → ∃ t, s.timers[k]? = some t ∧
        t' = { t with closed := if x.timer = k then true else t.closed } := by
      intro k t' h
      have hk := (List.getElem?_eq_some_iff.1 h).1
      rw [close_length] at hk
      have hg : s.timers[k]? = some s.timers[k] := List.getElem?_eq_getElem hk
      rw [close_get s.timers x.timer k _ hg] at h; cases h
      exact ⟨_, hg, rfl⟩
    constructor
    · intro y hy
      rcases hm y hy with rfl | ⟨h, _⟩
      · rw [hxid]; exact hi.below x hx
      · exact hi.below y h
    · intro y hy z hz he
      rcases hm y hy with rfl | ⟨h, h'⟩ <;> rcases hm z hz with rfl | ⟨g, g'⟩
      · rfl
      · exact absurd (he.symm.trans hxid) g'
      · exact absurd (he.trans hxid) h'
      · exact hi.uniq y h z g he
    · intro y hy
      rcases hm y hy with rfl | ⟨h, hne⟩
      · refine ⟨newTimer x.id (Revise.publishingInterval i), ?_, by rw [hxid]; rfl, rfl, by rw [hxi]; rfl⟩
        rw [hxt, ← close_length s.timers x.timer]
        exact List.getElem?_concat_length
      · obtain ⟨t, a, b, c, d⟩ := hi.own y h
        have hne' : x.timer ≠ y.timer := by
          intro he
          obtain ⟨u, a', b', _⟩ := hi.own x hx
          rw [he, a] at a'; cases a'
          exact hne (b.symm.trans b')
        refine ⟨_, append_get _ (close_get s.timers x.timer _ _ a), b, ?_, d⟩
        simp only [if_neg hne']; exact c
    · intro k t' h hc
      rcases concat_get h with h | ⟨rfl, rfl⟩
      · obtain ⟨t, a, rfl⟩ := tm k t' h
        by_cases hk : x.timer = k
        · simp [hk] at hc
        · simp only [if_neg hk] at hc
          obtain ⟨y, hy, e1, e2⟩ := hi.only k t a hc
          refine ⟨y, (store_mem hy).2 ?_, e1, e2⟩
          rw [hxid]
          intro he
          exact hk (by rw [← hi.uniq y hy x hx he]; exact e1)
      · exact ⟨x', (store_mem hx).1 hxid.symm, by rw [hxt, close_length], hxid⟩
    · intro y hy
      rw [confirmed_snoc]
      rcases hm y hy with rfl | ⟨h, hne⟩
      · simp only [tells, if_pos hxid.symm]; rw [← hxx]; rfl
      · simp only [tells, if_neg (Ne.symm hne)]
        exact hi.said y h
    · intro y hy
      rcases hm y hy with rfl | ⟨h, _⟩
      · exact ⟨v, by rw [hxi]; exact hv, hv1, hv2⟩
      · exact hi.fair y h
    · intro k t' h
      rcases concat_get h with h | ⟨rfl, rfl⟩
      · obtain ⟨t, a, rfl⟩ := tm k t' h
        exact hi.young k t a
      · exact hi.below x hx
    · intro k t' h
      rcases concat_get h with h | ⟨rfl, rfl⟩
      · obtain ⟨t, a, rfl⟩ := tm k t' h
        exact hi.long k t a
      · simp only [newTimer, hv]; exact hp.1
    · intro k t' n f h hp
      rcases concat_get h with h | ⟨rfl, rfl⟩
      · obtain ⟨t, a, rfl⟩ := tm k t' h
        exact hi.due k t n f a hp
      · cases hp

theorem set_get {ts : List Timer} {k j : Nat} {t u v : Timer} (hk : ts[k]? = some t) (h : (ts.set k u)[j]? = some v) :
    (j = k ∧ v = u) ∨ (j ≠ k ∧ ts[j]? = some v) := by
  by_cases hj : j = k
  · subst hj
    rw [List.getElem?_set_self (List.getElem?_eq_some_iff.1 hk).1] at h
    cases h
    exact Or.inl ⟨rfl, rfl⟩
  · rw [List.getElem?_set_ne (Ne.symm hj)] at h
    exact Or.inr ⟨hj, h⟩

theorem set_keeps {ts : List Timer} {k : Nat} {t : Timer} (p : Phase) (hk : ts[k]? = some t) (j : Nat) (v : Timer)
    (hj : ts[j]? = some v) : ∃ t', (ts.set k { t with phase := p })[j]? = some t' ∧ t'.sub = v.sub ∧ t'.period = v.period ∧
      t'.closed = v.closed := by
  by_cases h : k = j
  · subst h
    rw [hk] at hj; cases hj
    exact ⟨_, List.getElem?_set_self (List.getElem?_eq_some_iff.1 hk).1, rfl, rfl, rfl⟩
  · exact ⟨v, by rw [List.getElem?_set_ne h]; exact hj, rfl, rfl, rfl⟩

theorem inv_step {s : State} (hi : Inv s) (e : Ev) : Inv (step s e) := by
  cases e with
  | create w i l q e => exact inv_create hi w i l q e
  | modify w id i l q => exact inv_modify hi w id i l q
  | setMode w ids e =>
    exact inv_said (inv_setModes hi w e ids) w _ (fun _ => rfl)
  | delete w ids =>
    simp only [step, delete]
    split
    · exact inv_said hi w _ (fun _ => rfl)
    · exact inv_said (inv_deletes hi w ids) w _ (fun _ => rfl)
  | expire id =>
    simp only [step]
    split
    · exact hi
    · rename_i x hx
      exact inv_remove hi (List.mem_of_find?_eq_some hx)
  | ms =>
    refine inv_phase hi rfl rfl rfl (by simp [step]) ?_ ?_
    · intro k t h
      obtain ⟨h1, h2, h3⟩ := pass_keeps s.now t
      exact ⟨t.pass s.now, by simp [step, h], h1, h2, h3⟩
    · intro k t n f h hp
      simp only [step, List.getElem?_map, Option.map_eq_some_iff] at h
      obtain ⟨u, hu, rfl⟩ := h
      have hl := hi.long k u hu
      rw [(pass_keeps s.now u).2.1]
      show s.now + 1 < n ∧ n ≤ s.now + 1 + u.period
      unfold Timer.pass at hp
      cases hq : u.phase with
      | starting => simp only [hq] at hp; cases hp
      | ended => simp only [hq] at hp; cases hp
      | running m g =>
        obtain ⟨d1, d2⟩ := hi.due k u m g hu hq
        simp only [hq] at hp
        split at hp
        · injection hp with e1 e2; omega
        · injection hp with e1 e2; omega
  | start j =>
    simp only [step]
    split
    · rename_i t ht
      split
      · refine inv_phase hi rfl rfl rfl (by simp) (set_keeps _ ht) ?_
        intro k v n f h hp
        rcases set_get ht h with ⟨rfl, rfl⟩ | ⟨_, h⟩
        · injection hp with e1 e2
          have := hi.long _ t ht
          subst e1
          show s.now < s.now + t.period ∧ s.now + t.period ≤ s.now + t.period
          omega
        · exact hi.due k v n f h hp
      · exact hi
    · exact hi
  | turn j =>
    simp only [step]
    split
    · rename_i t ht
      split
      · rename_i m hq
        refine inv_phase hi rfl rfl rfl (by simp) (set_keeps _ ht) ?_
        intro k v n f h hp
        rcases set_get ht h with ⟨rfl, rfl⟩ | ⟨_, h⟩
        · injection hp with e1 e2
          subst e1
          exact hi.due _ t _ _ ht hq
        · exact hi.due k v n f h hp
      · exact hi
    · exact hi
  | stop j =>
    simp only [step]
    split
    · rename_i t ht
      split
      · split
        · refine inv_phase hi rfl rfl rfl (by simp) (set_keeps _ ht) ?_
          intro k v n f h hp
          rcases set_get ht h with ⟨rfl, rfl⟩ | ⟨_, h⟩
          · cases hp
          · exact hi.due k v n f h hp
        · exact hi
      · exact hi
    · exact hi

theorem inv_run {s : State} (hi : Inv s) (evs : List Ev) : Inv (run s evs) := by
  induction evs using snocInd with
  | nil => exact hi
  | append_singleton evs e ih => rw [run_snoc]; exact inv_step ih e

/-- Every subscription has exactly one goroutine that was not told to end. Its ticker has the interval that
the server confirmed last for this subscription, in whole milliseconds, and the counts of the subscription
are the confirmed ones. -/
theorem C133_timer (limit : Nat) (evs : List Ev) (x : Sub) (hx : x ∈ (run (init limit) evs).subs) :
    ∃ (k : Nat) (t : Timer) (q : Rat), (run (init limit) evs).timers[k]? = some t ∧ t.sub = x.id ∧ t.closed = false ∧
      (∀ (j : Nat) (u : Timer), (run (init limit) evs).timers[j]? = some u → u.sub = x.id → u.closed = false → j = k) ∧
      confirmed (run (init limit) evs).responses x.id = some (.fin q, x.lifetime, x.keepAlive) ∧ 125 ≤ q ∧ q ≤ 60000 ∧
      (t.period : Rat) ≤ q ∧ q < t.period + 1 := by
  have hi := inv_run (inv_init limit) evs
  obtain ⟨t, a, b, c, d⟩ := hi.own x hx
  obtain ⟨q, e1, e2, e3⟩ := hi.fair x hx
  obtain ⟨_, p2, p3⟩ := period_spec q e2 e3
  refine ⟨x.timer, t, q, a, b, c, ?_, by rw [hi.said x hx, e1], e2, e3, by rw [d, e1]; exact p2, by rw [d, e1]; exact p3⟩
  intro j u h1 h2 h3
  obtain ⟨y, hy, g1, g2⟩ := hi.only j u h1 h3
  rw [← g1, hi.uniq y hy x hx (g2.trans h2)]

/-- A goroutine that was not told to end works for a subscription that exists. -/
theorem C133_gone (limit : Nat) (evs : List Ev) (k : Nat) (t : Timer) (h : (run (init limit) evs).timers[k]? = some t)
    (hc : t.closed = false) : ∃ x ∈ (run (init limit) evs).subs, x.id = t.sub := by
  obtain ⟨x, hx, _, h2⟩ := (inv_run (inv_init limit) evs).only k t h hc
  exact ⟨x, hx, h2⟩

/-! ### How often one goroutine calls publish -/

/-- The calls of publish by the goroutine `k`. -/
def calls (s : State) (k : Nat) : Nat := (s.cycles.filter (fun c => decide (c.2 = k))).length

theorem setModes_modes {s : State} (w : Nat) (b : Bool) (ids : List Nat) : ∀ x ∈ (setModes s w b ids).1.subs,
    ∃ y ∈ s.subs, y.id = x.id ∧ y.owner = x.owner ∧ x.enabled = if x.owner = w ∧ x.id ∈ ids then b else y.enabled := by
  induction ids generalizing s with
  | nil => intro x hx; exact ⟨x, hx, rfl, rfl, by simp⟩
  | cons id ids ih =>
    unfold setModes
    intro x hx
    split at hx
    · rename_i z hz
      obtain ⟨h1, h2, h3⟩ := find_some hz
      obtain ⟨y, hy, e1, e2, e3⟩ := ih x hx
      rcases mem_store hy with rfl | ⟨g, g'⟩
      · refine ⟨z, h1, e1, e2, ?_⟩
        have e1 : z.id = x.id := e1
        have e2 : z.owner = x.owner := e2
        rw [if_pos ⟨by omega, by rw [← e1, h2]; simp⟩, e3]
        split <;> rfl
      · refine ⟨y, g, e1, e2, ?_⟩
        have g' : y.id ≠ z.id := g'
        have : x.id ≠ id := by omega
        rw [e3]
        simp [this]
    · rename_i hz
      obtain ⟨y, hy, e1, e2, e3⟩ := ih x hx
      refine ⟨y, hy, e1, e2, ?_⟩
      have hn := List.find?_eq_none.1 hz y hy
      simp only [decide_eq_true_eq] at hn
      rw [e3]
      by_cases ho : x.owner = w
      · have : x.id ≠ id := fun h0 => hn ⟨by omega, by omega⟩
        simp [this]
      · simp [ho]

theorem deletes_subs {s : State} (w : Nat) (ids : List Nat) : ∀ x ∈ (deletes s w ids).1.subs, x ∈ s.subs := by
  induction ids generalizing s with
  | nil => intro x hx; exact hx
  | cons id ids ih =>
    unfold deletes
    intro x hx
    split at hx
    · exact (List.mem_filter.1 (ih x hx)).1
    · exact ih x hx

theorem step_modes (s : State) (e : Ev) : ∀ x ∈ (step s e).subs,
    (∃ y ∈ s.subs, y.id = x.id ∧ y.owner = x.owner ∧ x.enabled = newMode x.owner x.id y.enabled e) ∨
      (x.id = s.next ∧ ∃ i l k, e = .create x.owner i l k x.enabled) := by
  have hsame : ∀ x ∈ s.subs, (∀ w ids b, e ≠ .setMode w ids b) →
      (∃ y ∈ s.subs, y.id = x.id ∧ y.owner = x.owner ∧ x.enabled = newMode x.owner x.id y.enabled e) := by
    intro x hx he
    refine ⟨x, hx, rfl, rfl, ?_⟩
    cases e <;> first | rfl | exact absurd rfl (he _ _ _)
  intro x hx
  cases e with
  | create w i l k b =>
    simp only [step, create] at hx
    split at hx
    · exact .inl (hsame x hx (by intros; simp))
    · rcases List.mem_append.1 hx with hx | hx
      · exact .inl (hsame x hx (by intros; simp))
      · rw [List.mem_singleton.1 hx]
        exact .inr ⟨rfl, i, l, k, rfl⟩
  | modify w id i l k =>
    simp only [step, modify] at hx
    split at hx
    · exact .inl (hsame x hx (by intros; simp))
    · rename_i z hz
      rcases mem_store hx with rfl | ⟨h, _⟩
      · exact .inl ⟨z, (find_some hz).1, rfl, rfl, rfl⟩
      · exact .inl (hsame x h (by intros; simp))
  | setMode w ids b => exact .inl (setModes_modes w b ids x hx)
  | delete w ids =>
    simp only [step, delete] at hx
    split at hx
    · exact .inl (hsame x hx (by intros; simp))
    · exact .inl (hsame x (deletes_subs w ids x hx) (by intros; simp))
  | expire id =>
    simp only [step] at hx
    split at hx
    · exact .inl (hsame x hx (by intros; simp))
    · exact .inl (hsame x (List.mem_filter.1 hx).1 (by intros; simp))
  | ms => exact .inl (hsame x hx (by intros; simp))
  | start k =>
    simp only [step] at hx
    refine .inl (hsame x ?_ (by intros; simp))
    repeat' split at hx
    all_goals exact hx
  | turn k =>
    simp only [step] at hx
    refine .inl (hsame x ?_ (by intros; simp))
    repeat' split at hx
    all_goals exact hx
  | stop k =>
    simp only [step] at hx
    refine .inl (hsame x ?_ (by intros; simp))
    repeat' split at hx
    all_goals exact hx

/-- **C133 (enabled).** Publishing of a subscription is enabled or not as its owner last said, in CreateSubscription or
in SetPublishingMode, whatever others do, and the subscription keeps its owner. -/
theorem C133_enabled (limit : Nat) (evs : List Ev) (e : Ev) (x : Sub) (hx : x ∈ (run (init limit) (evs ++ [e])).subs) :
    (∀ y ∈ (run (init limit) evs).subs, y.id = x.id →
      x.owner = y.owner ∧ x.enabled = newMode y.owner y.id y.enabled e) ∧
    ((∀ y ∈ (run (init limit) evs).subs, y.id ≠ x.id) → ∃ i l k, e = .create x.owner i l k x.enabled) := by
  have hi : Inv (run (init limit) evs) := inv_run (inv_init limit) evs
  rw [run_snoc] at hx
  rcases step_modes _ e x hx with ⟨z, hz, e1, e2, e3⟩ | ⟨h1, h2⟩
  · refine ⟨?_, fun h => absurd e1 (h z hz)⟩
    intro y hy hid
    have := hi.uniq y hy z hz (by omega)
    subst this
    exact ⟨e2.symm, by rw [e3, e1, e2]⟩
  · refine ⟨?_, fun _ => h2⟩
    intro y hy hid
    have := hi.below y hy
    omega

-- the owner disables one of two; another session disables nothing
example : (run (init 0) [.create 7 (.fin 200) 100 10 true, .create 7 (.fin 200) 100 10 true, .create 8 (.fin 200) 100 10 false,
      .setMode 7 [2, 3] false, .setMode 8 [1, 3] true]).subs.map (fun x => (x.id, x.owner, x.enabled)) =
    [(1, 7, true), (2, 7, false), (3, 8, true)] := by decide +kernel

theorem calls_step (s : State) (e : Ev) (k : Nat) :
    calls (step s e) k = calls s k + ((made s e).filter (fun c => decide (c.2 = k))).length := by
  unfold calls
  rw [step_cycles, List.filter_append, List.length_append]

/-- What an event adds to the calls of the goroutine `k`. -/
theorem made_calls (s : State) (e : Ev) (k : Nat) (t : Timer) (h : s.timers[k]? = some t) :
    ((made s e).filter (fun c => decide (c.2 = k))).length = match e, t.phase with
      | .turn j, .running _ true => if j = k then 1 else 0
      | _, _ => 0 := by
  cases e with
  | turn j =>
    by_cases hj : j = k
    · subst hj
      simp only [made, h]
      rcases t.phase with _ | ⟨n, _ | _⟩ | _ <;> simp
    · have h0 : (made s (.turn j)).filter (fun c => decide (c.2 = k)) = [] := by
        simp only [made]
        repeat' split
        all_goals simp [hj]
      rw [h0]
      rcases t.phase with _ | ⟨n, _ | _⟩ | _ <;> simp [hj]
  | _ => simp [made]

/-- The bound on the calls of a goroutine since a time when there had been `c0` of them. -/
def Bound (p c0 now0 : Nat) (s : State) (k : Nat) : Prop :=
  ∃ t, s.timers[k]? = some t ∧ t.period = p ∧
    match t.phase with
    | .starting => calls s k * p + now0 ≤ c0 * p + s.now
    | .running n f => (calls s k + f.toNat) * p + now0 < (c0 + 1) * p + n
    | .ended => calls s k * p + now0 < (c0 + 2) * p + s.now

theorem bound_step {p c0 now0 : Nat} {s : State} {k : Nat} (hp : 0 < p) (hi : Inv s) (h : Bound p c0 now0 s k) (e : Ev) :
    Bound p c0 now0 (step s e) k := by
  obtain ⟨t, h1, h2, h3⟩ := h
  obtain ⟨t', g1, _, g3, _, g5⟩ := step_timer s e k t h1
  refine ⟨t', g1, g3.trans h2, ?_⟩
  have hcalls := calls_step s e k
  rw [made_calls s e k t h1] at hcalls
  have hnow : s.now ≤ (step s e).now := by rw [step_now]; unfold nowAfter; split <;> omega
  rw [g5]
  cases hq : t.phase with
  | starting =>
    simp only [hq] at h3 hcalls
    have hc : calls (step s e) k = calls s k := hcalls
    rw [hc]
    cases e with
    | start j =>
      simp only [phaseAfter, hq, and_true]
      have hn : (step s (.start j)).now = s.now := step_now s _
      by_cases hj : j = k
      · rw [if_pos hj]
        show (calls s k + 0) * p + now0 < (c0 + 1) * p + (s.now + t.period)
        rw [h2, Nat.add_zero, Nat.add_mul]; omega
      · rw [if_neg hj]
        show calls s k * p + now0 ≤ c0 * p + _
        omega
    | ms =>
      simp only [phaseAfter, Timer.pass, hq]
      omega
    | _ => simp only [phaseAfter, hq]; omega
  | ended =>
    simp only [hq] at h3 hcalls
    have hc : calls (step s e) k = calls s k := hcalls
    rw [hc]
    have hp' : phaseAfter s.now k t e = .ended := by
      cases e <;> simp [phaseAfter, hq, Timer.pass]
    rw [hp']
    show calls s k * p + now0 < (c0 + 2) * p + _
    omega
  | running n f =>
    obtain ⟨d1, d2⟩ := hi.due k t n f h1 hq
    rw [h2] at d2
    simp only [hq] at h3 hcalls
    cases e with
    | ms =>
      simp only [phaseAfter, Timer.pass, hq]
      rw [hcalls]
      by_cases hn : s.now + 1 = n
      · rw [if_pos hn]
        show (calls s k + 0 + 1) * p + now0 < (c0 + 1) * p + (n + t.period)
        rw [h2]
        have : (calls s k + f.toNat) * p = calls s k * p + f.toNat * p := Nat.add_mul _ _ _
        have h4 : (calls s k + 0 + 1) * p = calls s k * p + p := by rw [Nat.add_zero, Nat.add_mul, Nat.one_mul]
        rw [h4]
        have : 0 ≤ f.toNat * p := Nat.zero_le _
        omega
      · rw [if_neg hn]
        show (calls s k + 0 + f.toNat) * p + now0 < (c0 + 1) * p + n
        exact h3
    | turn j =>
      cases f with
      | false =>
        simp only [phaseAfter, hq]
        simp only [Nat.add_zero] at hcalls
        rw [hcalls]; exact h3
      | true =>
        simp only [phaseAfter, hq]
        by_cases hj : j = k
        · simp only [if_pos hj] at hcalls ⊢
          rw [hcalls]; exact h3
        · simp only [if_neg hj] at hcalls ⊢
          rw [hcalls]; exact h3
    | stop j =>
      simp only [phaseAfter, hq]
      simp only [Nat.add_zero] at hcalls
      rw [hcalls]
      by_cases hj : j = k ∧ t.closed = true
      · rw [if_pos hj]
        show calls s k * p + now0 < (c0 + 2) * p + _
        have h4 : (calls s k + f.toNat) * p = calls s k * p + f.toNat * p := Nat.add_mul _ _ _
        have h5 : (c0 + 2) * p = (c0 + 1) * p + p := by rw [show c0 + 2 = (c0 + 1) + 1 from rfl, Nat.add_mul, Nat.one_mul]
        rw [h5]
        have : (step s (.stop j)).now = s.now := step_now s _
        have : 0 ≤ f.toNat * p := Nat.zero_le _
        omega
      · rw [if_neg hj]
        exact h3
    | start j =>
      have hf : phaseAfter s.now k t (.start j) = .running n f := by simp [phaseAfter, hq]
      rw [hf, hcalls]; exact h3
    | _ => simp only [phaseAfter, hq]; rw [hcalls]; exact h3

theorem bound_run {p c0 now0 : Nat} {s : State} {k : Nat} (hp : 0 < p) (hi : Inv s) (h : Bound p c0 now0 s k) (evs : List Ev) :
    Bound p c0 now0 (run s evs) k := by
  induction evs using snocInd with
  | nil => exact h
  | append_singleton evs e ih => rw [run_snoc]; exact bound_step hp (inv_run hi evs) ih e

theorem bound_now {s : State} {k : Nat} {t : Timer} (hi : Inv s) (h : s.timers[k]? = some t) :
    Bound t.period (calls s k) s.now s k := by
  refine ⟨t, h, rfl, ?_⟩
  have hl := hi.long k t h
  cases hq : t.phase with
  | starting => exact Nat.le_refl _
  | ended =>
    show calls s k * t.period + s.now < (calls s k + 2) * t.period + s.now
    rw [Nat.add_mul]; omega
  | running n f =>
    obtain ⟨d1, d2⟩ := hi.due k t n f h hq
    show (calls s k + f.toNat) * t.period + s.now < (calls s k + 1) * t.period + n
    have : f.toNat * t.period ≤ 1 * t.period := Nat.mul_le_mul_right _ (by cases f <;> decide)
    rw [Nat.add_mul, Nat.add_mul]; omega

theorem bound_end {p c0 now0 : Nat} {s : State} {k : Nat} (hi : Inv s) (h : Bound p c0 now0 s k) :
    calls s k * p + now0 < (c0 + 2) * p + s.now := by
  obtain ⟨t, h1, h2, h3⟩ := h
  have hl := hi.long k t h1
  rw [h2] at hl
  have h5 : (c0 + 2) * p = c0 * p + p + p := by rw [Nat.add_mul, Nat.two_mul, Nat.add_assoc]
  have h6 : (c0 + 1) * p = c0 * p + p := by rw [Nat.add_mul, Nat.one_mul]
  cases hq : t.phase with
  | starting => simp only [hq] at h3; omega
  | ended => simp only [hq] at h3; exact h3
  | running n f =>
    obtain ⟨d1, d2⟩ := hi.due k t n f h1 hq
    simp only [hq] at h3
    rw [Nat.add_mul] at h3
    have : 0 ≤ f.toNat * p := Nat.zero_le _
    omega

/-! ### The turns of a subscription -/

/-- All goroutines of the subscription but `k` have ended. -/
def Lone (id k : Nat) (s : State) : Prop :=
  (∃ t, s.timers[k]? = some t ∧ t.sub = id) ∧ id < s.next ∧
  ∀ (j : Nat) (t : Timer), s.timers[j]? = some t → t.sub = id → j ≠ k → t.phase = .ended

theorem step_next (s : State) (e : Ev) : s.next ≤ (step s e).next := by
  cases e with
  | ms => exact Nat.le_refl _
  | create => simp only [step, create]; split <;> exact Nat.le_succ _
  | modify => simp only [step, modify]; split <;> exact Nat.le_refl _
  | setMode w ids e => exact Nat.le_of_eq (setModes_keeps s w e ids).2.2.2.1.symm
  | delete w ids =>
    simp only [step, delete]
    split
    · exact Nat.le_refl _
    · exact Nat.le_of_eq (deletes_keeps s w ids).2.2.2.1.symm
  | expire => simp only [step]; split <;> exact Nat.le_refl _
  | start => simp only [step]; repeat' split
             all_goals exact Nat.le_refl _
  | stop => simp only [step]; repeat' split
            all_goals exact Nat.le_refl _
  | turn => simp only [step]; repeat' split
            all_goals exact Nat.le_refl _

theorem lone_step {id k : Nat} {s : State} (h : Lone id k s) (e : Ev) (he : ∀ w i l q, e ≠ .modify w id i l q) :
    Lone id k (step s e) := by
  obtain ⟨⟨t, h1, h2⟩, h3, h4⟩ := h
  obtain ⟨t', g1, g2, _⟩ := step_timer s e k t h1
  refine ⟨⟨t', g1, g2.trans h2⟩, Nat.lt_of_lt_of_le h3 (step_next s e), ?_⟩
  intro j u hu hus hj
  by_cases hl : j < s.timers.length
  · obtain ⟨u', a1, a2, _, _, a5⟩ := step_timer s e j _ (List.getElem?_eq_getElem hl)
    rw [hu] at a1; cases a1
    have hq := h4 j _ (List.getElem?_eq_getElem hl) (a2.symm.trans hus) hj
    rw [a5]
    cases e <;> simp [phaseAfter, hq, Timer.pass]
  · obtain ⟨_, _, _, b4⟩ := step_new s e j u (Nat.le_of_not_lt hl) hu
    rcases b4 with ⟨b4, _⟩ | ⟨w, i, l, q, b4⟩
    · omega
    · rw [hus] at b4; exact absurd b4 (he w i l q)

theorem worksFor_step (s : State) (e : Ev) (id j : Nat) (hj : j < s.timers.length) :
    worksFor (step s e) id j = worksFor s id j := by
  obtain ⟨u, a1, a2, _⟩ := step_timer s e j _ (List.getElem?_eq_getElem hj)
  unfold worksFor
  rw [a1, List.getElem?_eq_getElem hj]
  simp [a2]

/-- Only goroutines that exist have called publish. -/
theorem made_below (s : State) (e : Ev) : ∀ c ∈ made s e, c.2 < s.timers.length := by
  cases e with
  | turn j =>
    intro c hc
    simp only [made] at hc
    cases h : s.timers[j]? with
    | none => simp [h] at hc
    | some t =>
      rw [h] at hc
      have hl := (List.getElem?_eq_some_iff.1 h).1
      rcases hq : t.phase with _ | ⟨n, _ | _⟩ | _ <;> simp [hq] at hc
      rw [hc]; exact hl
  | _ => intro c hc; cases hc

theorem step_length (s : State) (e : Ev) : s.timers.length ≤ (step s e).timers.length := by
  by_cases h : s.timers.length = 0
  · omega
  · obtain ⟨u, a, _⟩ := step_timer s e (s.timers.length - 1) _ (List.getElem?_eq_getElem (by omega))
    have := (List.getElem?_eq_some_iff.1 a).1
    omega

theorem cycles_below (limit : Nat) (evs : List Ev) :
    ∀ c ∈ (run (init limit) evs).cycles, c.2 < (run (init limit) evs).timers.length := by
  induction evs using snocInd with
  | nil => intro c hc; cases hc
  | append_singleton evs e ih =>
    rw [run_snoc, step_cycles]
    intro c hc
    refine Nat.lt_of_lt_of_le ?_ (step_length _ e)
    rcases List.mem_append.1 hc with h | h
    · exact ih c h
    · exact made_below _ e c h

theorem turns_step (s : State) (e : Ev) (id : Nat) (hb : ∀ c ∈ s.cycles, c.2 < s.timers.length) :
    turns (step s e) id = turns s id + ((made s e).filter (fun c => worksFor s id c.2)).length := by
  unfold turns
  rw [step_cycles, List.filter_append, List.length_append]
  congr 1
  · congr 1
    exact List.filter_congr (fun c hc => worksFor_step s e id c.2 (hb c hc))
  · congr 1
    exact List.filter_congr (fun c hc => worksFor_step s e id c.2 (made_below s e c hc))

/-- With one goroutine, the turns of the subscription are the calls of that goroutine. -/
theorem lone_turns {id k : Nat} {s : State} (h : Lone id k s) (e : Ev) (hb : ∀ c ∈ s.cycles, c.2 < s.timers.length) :
    turns (step s e) id + calls s k = turns s id + calls (step s e) k := by
  rw [turns_step s e id hb, calls_step]
  have : (made s e).filter (fun c => worksFor s id c.2) = (made s e).filter (fun c => decide (c.2 = k)) := by
    refine List.filter_congr (fun c hc => ?_)
    cases e with
    | turn j =>
      simp only [made] at hc
      cases hj : s.timers[j]? with
      | none => simp [hj] at hc
      | some t =>
        rw [hj] at hc
        rcases hq : t.phase with _ | ⟨n, _ | _⟩ | _ <;> simp [hq] at hc
        subst hc
        simp only [worksFor, hj]
        by_cases hk : j = k
        · subst hk
          obtain ⟨⟨u, h1, h2⟩, _⟩ := h
          rw [hj] at h1; cases h1
          simp [h2]
        · have : t.sub ≠ id := by
            intro hs
            have := h.2.2 j t hj hs hk
            rw [hq] at this; cases this
          simp [this, hk]
    | _ => cases hc
  rw [this]; omega

theorem lone_run {id k : Nat} {s : State} (h : Lone id k s) (hb : ∀ c ∈ s.cycles, c.2 < s.timers.length) (evs : List Ev)
    (he : Unmodified id evs) :
    Lone id k (run s evs) ∧ (∀ c ∈ (run s evs).cycles, c.2 < (run s evs).timers.length) ∧
      turns (run s evs) id + calls s k = turns s id + calls (run s evs) k := by
  induction evs using snocInd with
  | nil => exact ⟨h, hb, rfl⟩
  | append_singleton evs e ih =>
    obtain ⟨i1, i2, i3⟩ := ih (fun w i l q hm => he w i l q (List.mem_append_left _ hm))
    rw [run_snoc]
    refine ⟨lone_step i1 e (fun w i l q hm => he w i l q (by simp [hm])), ?_, ?_⟩
    · rw [step_cycles]
      intro c hc
      refine Nat.lt_of_lt_of_le ?_ (step_length _ e)
      rcases List.mem_append.1 hc with h | h
      · exact i2 c h
      · exact made_below _ e c h
    · have := lone_turns i1 e i2
      omega

theorem lone_of_settled {s : State} (hi : Inv s) {x : Sub} (hx : x ∈ s.subs) (hs : Settled s x.id) : Lone x.id x.timer s := by
  obtain ⟨t, a, b, c, d⟩ := hi.own x hx
  refine ⟨⟨t, a, b⟩, hi.below x hx, ?_⟩
  intro j u hu hus hj
  apply hs j u hu hus
  cases hc : u.closed with
  | true => rfl
  | false =>
    obtain ⟨y, hy, e1, e2⟩ := hi.only j u hu hc
    exact absurd (by rw [← e1, hi.uniq y hy x hx (e2.trans hus)]) hj

/-- No more often than confirmed: once the goroutines of earlier intervals have ended, and while nobody
modifies the subscription, it is published less than two times more than its interval, in whole
milliseconds, fits into the time that passes. -/
theorem C133_often_partial (limit : Nat) (evs later : List Ev) (x : Sub) (q : Rat)
    (hx : x ∈ (run (init limit) evs).subs) (hq : (confirmed (run (init limit) evs).responses x.id).map (·.1) = some (.fin q))
    (hs : Settled (run (init limit) evs) x.id) (hu : Unmodified x.id later) :
    ∃ n, turns (run (init limit) (evs ++ later)) x.id = turns (run (init limit) evs) x.id + n ∧
      (n : Int) * q.floor < (run (init limit) (evs ++ later)).now - (run (init limit) evs).now + 2 * q.floor := by
  rw [run_append]
  have hi := inv_run (inv_init limit) evs
  have hb := cycles_below limit evs
  generalize run (init limit) evs = s at *
  obtain ⟨t, a, b, c, d⟩ := hi.own x hx
  obtain ⟨q', e1, e2, e3⟩ := hi.fair x hx
  have hqq : q' = q := by
    have := hi.said x hx
    rw [this, e1] at hq
    injection hq with hq; injection hq
  subst hqq
  obtain ⟨l1, l2, l3⟩ := lone_run (lone_of_settled hi hx hs) hb later hu
  have hl := hi.long _ t a
  have hbd := bound_end (inv_run hi later) (bound_run (by omega) hi (bound_now hi a) later)
  have hpf : (t.period : Int) = q'.floor := by
    have := period_spec q' e2 e3
    rw [d, e1]
    have h1 : ((period (.fin q') : Nat) : Int) ≤ q'.floor := Rat.le_floor_iff.2 (by exact_mod_cast this.2.1)
    have h2 : q'.floor < ((period (.fin q') : Nat) : Int) + 1 := Rat.floor_lt_iff.2 (by exact_mod_cast this.2.2)
    omega
  have hmono : calls s x.timer ≤ calls (run s later) x.timer := by
    have : ∀ evs, calls s x.timer ≤ calls (run s evs) x.timer := by
      intro evs
      induction evs using snocInd with
      | nil => exact Nat.le_refl _
      | append_singleton evs e ih => rw [run_snoc, calls_step]; omega
    exact this later
  obtain ⟨n, hn⟩ := Nat.exists_eq_add_of_le hmono
  refine ⟨n, by omega, ?_⟩
  rw [← hpf]
  rw [hn, Nat.add_mul, Nat.add_mul] at hbd
  have : (n : Int) * (t.period : Int) = ((n * t.period : Nat) : Int) := by simp
  rw [this]
  omega

/-! ### No less often -/

/-- The goroutine `k` has kept up since a time when it had made `c0` calls. -/
def Kept (p c0 now0 : Nat) (s : State) (k : Nat) : Prop :=
  ∃ t n f, s.timers[k]? = some t ∧ t.period = p ∧ t.phase = .running n f ∧ n + c0 * p ≤ (calls s k + f.toNat + 1) * p + now0

theorem kept_step {p c0 now0 : Nat} {s : State} {k : Nat} (h : Kept p c0 now0 s k) (e : Ev)
    (hc : ∀ t', (step s e).timers[k]? = some t' → t'.closed = false)
    (hm : e = .ms → ∀ (t : Timer) (n : Nat), s.timers[k]? = some t → t.phase ≠ .running n true) :
    Kept p c0 now0 (step s e) k := by
  obtain ⟨t, n, f, h1, h2, h3, h4⟩ := h
  obtain ⟨t', g1, _, g3, g4, g5⟩ := step_timer s e k t h1
  have hcalls := calls_step s e k
  rw [made_calls s e k t h1] at hcalls
  have hcl : t.closed = false := by
    cases hh : t.closed with
    | false => rfl
    | true => exact absurd (g4 hh) (by rw [hc t' g1]; decide)
  simp only [h3] at hcalls
  cases e with
  | ms =>
    have hf : f = false := by
      cases f with
      | false => rfl
      | true => exact absurd h3 (hm rfl t n h1)
    subst hf
    simp only [phaseAfter, Timer.pass, h3] at g5
    have hcalls : calls (step s .ms) k = calls s k := hcalls
    by_cases hn : s.now + 1 = n
    · rw [if_pos hn] at g5
      refine ⟨t', _, _, g1, g3.trans h2, g5, ?_⟩
      rw [hcalls, h2]
      have h4 : n + c0 * p ≤ (calls s k + 0 + 1) * p + now0 := h4
      show n + p + c0 * p ≤ (calls s k + 1 + 1) * p + now0
      have : (calls s k + 1 + 1) * p = (calls s k + 0 + 1) * p + p := by
        rw [Nat.add_zero, Nat.add_mul (calls s k + 1) 1, Nat.one_mul]
      omega
    · rw [if_neg hn] at g5
      exact ⟨t', _, _, g1, g3.trans h2, g5, by rw [hcalls]; exact h4⟩
  | turn j =>
    cases f with
    | false =>
      simp only [phaseAfter, h3] at g5
      exact ⟨t', _, _, g1, g3.trans h2, g5, by rw [hcalls]; exact h4⟩
    | true =>
      simp only [phaseAfter, h3] at g5
      by_cases hj : j = k
      · simp only [if_pos hj] at hcalls g5
        exact ⟨t', _, _, g1, g3.trans h2, g5, by rw [hcalls]; exact h4⟩
      · simp only [if_neg hj] at hcalls g5
        exact ⟨t', _, _, g1, g3.trans h2, g5, by rw [hcalls]; exact h4⟩
  | stop j =>
    simp only [phaseAfter, h3, hcl] at g5
    have hcalls : calls (step s (.stop j)) k = calls s k := hcalls
    exact ⟨t', _, _, g1, g3.trans h2, g5.trans (if_neg (by simp)), by rw [hcalls]; exact h4⟩
  | start j =>
    have g5 : t'.phase = .running n f := by rw [g5]; simp [phaseAfter, h3]
    have hcalls : calls (step s (.start j)) k = calls s k := hcalls
    exact ⟨t', _, _, g1, g3.trans h2, g5, by rw [hcalls]; exact h4⟩
  | _ =>
    have g5 : t'.phase = .running n f := by rw [g5]; exact h3
    have hcalls := hcalls
    exact ⟨t', _, _, g1, g3.trans h2, g5, by rw [hcalls]; exact h4⟩

theorem closed_run {s : State} {k : Nat} {t : Timer} (h : s.timers[k]? = some t) (hc : t.closed = true) (evs : List Ev) :
    ∃ t', (run s evs).timers[k]? = some t' ∧ t'.closed = true := by
  induction evs using snocInd with
  | nil => exact ⟨t, h, hc⟩
  | append_singleton evs e ih =>
    rw [run_snoc]
    obtain ⟨t', a, b⟩ := ih
    obtain ⟨u, a', _, _, b', _⟩ := step_timer _ e k t' a
    exact ⟨u, a', b' b⟩

theorem kept_run {p c0 now0 : Nat} {s : State} {k id : Nat} (h : Kept p c0 now0 s k) (evs : List Ev)
    (hid : ∃ t, s.timers[k]? = some t ∧ t.sub = id)
    (hc : ∀ t', (run s evs).timers[k]? = some t' → t'.closed = false) (hp : Prompt s id evs) :
    Kept p c0 now0 (run s evs) k := by
  have hsub : ∀ a, ∃ t, (run s a).timers[k]? = some t ∧ t.sub = id := by
    intro a
    induction a using snocInd with
    | nil => exact hid
    | append_singleton a e ih =>
      obtain ⟨t, h1, h2⟩ := ih
      obtain ⟨u, g1, g2, _⟩ := step_timer _ e k t h1
      exact ⟨u, by rw [run_snoc]; exact g1, g2.trans h2⟩
  have hprom := hp.1
  clear hp
  induction evs using snocInd with
  | nil => exact h
  | append_singleton evs e ih =>
    have hopen : ∀ (a b : List Ev), evs ++ [e] = a ++ b → ∀ t', (run s a).timers[k]? = some t' → t'.closed = false := by
      intro a b hab t' ht'
      cases hcc : t'.closed with
      | false => rfl
      | true =>
        obtain ⟨u, u1, u2⟩ := closed_run ht' hcc b
        rw [← run_append, ← hab] at u1
        rw [hc u u1] at u2; cases u2
    have ih := ih (hopen evs [e] rfl) (fun a b hab => hprom a (b ++ [e]) (by rw [hab]; simp))
    rw [run_snoc]
    refine kept_step ih e ?_ ?_
    · intro t' ht'
      exact hc t' (by rw [run_snoc]; exact ht')
    · intro he t n ht hph
      subst he
      obtain ⟨u, u1, u2⟩ := hsub evs
      rw [ht] at u1; cases u1
      exact hprom evs [] rfl ⟨k, t, n, ht, u2, hph⟩

theorem phaseAfter_ended {now k : Nat} {t : Timer} {e : Ev} (hc : t.closed = false) (h : phaseAfter now k t e = .ended) :
    t.phase = .ended := by
  cases hv : t.phase with
  | ended => rfl
  | starting => cases e <;> simp [phaseAfter, hv, Timer.pass] at h <;> split at h <;> simp_all
  | running n f =>
    cases e with
    | ms =>
      simp only [phaseAfter, Timer.pass, hv] at h
      split at h <;> cases h
    | turn j =>
      cases f with
      | false => simp [phaseAfter, hv] at h
      | true =>
        simp only [phaseAfter, hv] at h
        by_cases hj : j = k
        · rw [if_pos hj] at h; cases h
        · rw [if_neg hj] at h; cases h
    | _ => simp [phaseAfter, hv, hc] at h

/-- A goroutine that is not told to end does not end. -/
theorem ended_closed (limit : Nat) (evs : List Ev) :
    ∀ (k : Nat) (t : Timer), (run (init limit) evs).timers[k]? = some t → t.phase = .ended → t.closed = true := by
  induction evs using snocInd with
  | nil => intro k t h; cases h
  | append_singleton evs e ih =>
    intro k t h hp
    rw [run_snoc] at h
    by_cases hl : k < (run (init limit) evs).timers.length
    · obtain ⟨u, a1, _, _, a4, a5⟩ := step_timer _ e k _ (List.getElem?_eq_getElem hl)
      rw [h] at a1; cases a1
      apply a4
      rw [a5] at hp
      cases hc0 : (run (init limit) evs).timers[k].closed with
      | true => rfl
      | false =>
        have := ih k _ (List.getElem?_eq_getElem hl) (phaseAfter_ended hc0 hp)
        rw [hc0] at this; exact this
    · obtain ⟨_, b2, _⟩ := step_new _ e k t (Nat.le_of_not_lt hl) h
      rw [b2] at hp; cases hp

/-- No less often than confirmed: a subscription that lives on unmodified, and whose goroutine takes every
tick within a millisecond, is published at least as often as its interval fits into the time that passes. -/
theorem C133_seldom (limit : Nat) (evs later : List Ev) (x : Sub) (q : Rat)
    (hx : x ∈ (run (init limit) evs).subs) (hq : (confirmed (run (init limit) evs).responses x.id).map (·.1) = some (.fin q))
    (hs : Settled (run (init limit) evs) x.id) (hst : Started (run (init limit) evs) x.id) (hu : Unmodified x.id later)
    (hlive : ∃ y ∈ (run (init limit) (evs ++ later)).subs, y.id = x.id) (hp : Prompt (run (init limit) evs) x.id later) :
    ∃ n, turns (run (init limit) (evs ++ later)) x.id = turns (run (init limit) evs) x.id + n ∧
      ((run (init limit) (evs ++ later)).now : Rat) - (run (init limit) evs).now < (n + 1) * q := by
  rw [run_append] at hlive ⊢
  have hi := inv_run (inv_init limit) evs
  have hend := ended_closed limit evs
  have hb := cycles_below limit evs
  generalize run (init limit) evs = s at *
  obtain ⟨t, a, b, c, d⟩ := hi.own x hx
  obtain ⟨q', e1, e2, e3⟩ := hi.fair x hx
  have hqq : q' = q := by
    have := hi.said x hx
    rw [this, e1] at hq
    injection hq with hq; injection hq
  subst hqq
  obtain ⟨l1, l2, l3⟩ := lone_run (lone_of_settled hi hx hs) hb later hu
  have hi' := inv_run hi later
  have hclosed : ∀ t', (run s later).timers[x.timer]? = some t' → t'.closed = false := by
    obtain ⟨y, hy, hyx⟩ := hlive
    obtain ⟨u, u1, u2, u3, _⟩ := hi'.own y hy
    intro t' ht'
    have : y.timer = x.timer := by
      apply Classical.byContradiction
      intro hne
      have := l1.2.2 y.timer u u1 (u2.trans hyx) hne
      -- the goroutine of `y` was there from the beginning, and it has not ended
      obtain ⟨v, v1, v2⟩ : ∃ v, s.timers[y.timer]? = some v ∧ v.sub = x.id := by
        have hin : ∀ evs, Unmodified x.id evs → ∀ (j : Nat) (u : Timer), (run s evs).timers[j]? = some u → u.sub = x.id →
            ∃ v, s.timers[j]? = some v ∧ v.sub = x.id := by
          intro evs
          induction evs using snocInd with
          | nil => intro _ j u h1 h2; exact ⟨u, h1, h2⟩
          | append_singleton evs e ih =>
            intro hun j u h1 h2
            have hun' : Unmodified x.id evs := fun w i l q hm => hun w i l q (List.mem_append_left _ hm)
            rw [run_snoc] at h1
            by_cases hl : j < (run s evs).timers.length
            · obtain ⟨u', a1, a2, _⟩ := step_timer _ e j _ (List.getElem?_eq_getElem hl)
              rw [h1] at a1; cases a1
              exact ih hun' j _ (List.getElem?_eq_getElem hl) (a2.symm.trans h2)
            · obtain ⟨_, _, _, b4⟩ := step_new _ e j u (Nat.le_of_not_lt hl) h1
              rcases b4 with ⟨b4, _⟩ | ⟨w, i, l, q, b4⟩
              · have hbelow : x.id < (run s evs).next := by
                  have : ∀ evs, s.next ≤ (run s evs).next := by
                    intro evs
                    induction evs using snocInd with
                    | nil => exact Nat.le_refl _
                    | append_singleton evs e ih => rw [run_snoc]; exact Nat.le_trans ih (step_next _ e)
                  exact Nat.lt_of_lt_of_le (hi.below x hx) (this evs)
                omega
              · rw [h2] at b4
                exact absurd (by simp [b4]) (hun w i l q)
        exact hin later hu y.timer u u1 (u2.trans hyx)
      cases hvc : v.closed with
      | true =>
        obtain ⟨z, z1, z2⟩ := closed_run v1 hvc later
        rw [u1] at z1; cases z1
        rw [u3] at z2; cases z2
      | false =>
        obtain ⟨z, hz, z1, z2⟩ := hi.only _ v v1 hvc
        exact hne (by rw [← z1, hi.uniq z hz x hx (z2.trans v2)])
    rw [← this, u1] at ht'
    cases ht'; exact u3
  have hkept0 : Kept t.period (calls s x.timer) s.now s x.timer := by
    cases hph : t.phase with
    | starting => exact absurd hph (hst _ t a b)
    | ended =>
      exfalso
      have := hend _ t a hph
      rw [c] at this; cases this
    | running n f =>
      obtain ⟨d1, d2⟩ := hi.due _ t n f a hph
      refine ⟨t, n, f, a, rfl, hph, ?_⟩
      have : (calls s x.timer + f.toNat + 1) * t.period = calls s x.timer * t.period + f.toNat * t.period + t.period := by
        rw [Nat.add_mul, Nat.add_mul, Nat.one_mul]
      have : 0 ≤ f.toNat * t.period := Nat.zero_le _
      omega
  have hk := kept_run hkept0 later ⟨t, a, b⟩ hclosed hp
  obtain ⟨t', n', f', k1, k2, k3, k4⟩ := hk
  have hf' : f' = false := by
    cases f' with
    | false => rfl
    | true =>
      obtain ⟨u, u1, u2⟩ := l1.1
      rw [k1] at u1; cases u1
      exact absurd ⟨x.timer, t', n', k1, u2, k3⟩ hp.2
  subst hf'
  obtain ⟨d1, d2⟩ := hi'.due _ t' n' false k1 k3
  have hmono : calls s x.timer ≤ calls (run s later) x.timer := by
    have : ∀ evs, calls s x.timer ≤ calls (run s evs) x.timer := by
      intro evs
      induction evs using snocInd with
      | nil => exact Nat.le_refl _
      | append_singleton evs e ih => rw [run_snoc, calls_step]; omega
    exact this later
  obtain ⟨n, hn⟩ := Nat.exists_eq_add_of_le hmono
  refine ⟨n, by omega, ?_⟩
  have hmain : (run s later).now < s.now + (n + 1) * t.period := by
    have k4 : n' + calls s x.timer * t.period ≤ (calls (run s later) x.timer + 0 + 1) * t.period + s.now := k4
    rw [hn, Nat.add_zero, Nat.add_assoc, Nat.add_mul] at k4
    omega
  have hpq : (t.period : Rat) ≤ q' := by
    rw [d, e1]; exact (period_spec q' e2 e3).2.1
  have h1 : ((run s later).now : Rat) < (s.now : Rat) + ((n : Rat) + 1) * (t.period : Rat) := by exact_mod_cast hmain
  have h2 : ((n : Rat) + 1) * (t.period : Rat) ≤ ((n : Rat) + 1) * q' := by
    apply Rat.mul_le_mul_of_nonneg_left hpq
    have : (0 : Rat) ≤ (n : Rat) := by exact_mod_cast Nat.zero_le n
    grind
  grind

/-! ### Where it fails -/

/-- What `m` milliseconds do when the first goroutine has its next tick later and the others have not begun. -/
theorem run_wait (m : Nat) (s : State) (t : Timer) (us : List Timer) (n : Nat) (f : Bool) (hs : s.timers = t :: us)
    (ht : t.phase = .running n f) (hu : ∀ u ∈ us, u.phase = .starting) (hm : s.now + m < n) :
    run s (List.replicate m .ms) = { s with now := s.now + m } := by
  induction m generalizing s with
  | zero => rfl
  | succ m ih =>
    have h1 : step s .ms = { s with now := s.now + 1 } := by
      have ht' : t.pass s.now = t := by
        unfold Timer.pass
        rw [ht]
        dsimp only
        rw [if_neg (by omega)]
        cases t; cases ht; rfl
      have hu' : us.map (Timer.pass s.now) = us := by
        conv => rhs; rw [← List.map_id us]
        refine List.map_congr_left (fun u h => ?_)
        unfold Timer.pass
        rw [hu u h]; rfl
      simp only [step]
      rw [hs, List.map_cons, ht', hu', ← hs]
    rw [List.replicate_succ]
    show run (step s .ms) (List.replicate m .ms) = _
    rw [h1, ih { s with now := s.now + 1 } hs (by show s.now + 1 + m < n; omega)]
    show { s with now := s.now + 1 + m } = _
    rw [Nat.add_right_comm, Nat.add_assoc]

/-- A period in which the first goroutine calls publish once. -/
def round (p : Nat) : List Ev := List.replicate (p - 1) .ms ++ [.ms, .turn 0]

theorem run_round (s : State) (id p : Nat) (c : Bool) (us : List Timer) (hp : 0 < p)
    (hs : s.timers = ⟨id, p, c, .running (s.now + p) false⟩ :: us) (hu : ∀ u ∈ us, u.phase = .starting) :
    run s (round p) = { s with
      now := s.now + p
      timers := ⟨id, p, c, .running (s.now + p + p) false⟩ :: us
      cycles := s.cycles ++ [(s.now + p, 0)] } := by
  unfold round
  rw [run_append, run_wait (p - 1) s _ us _ _ hs rfl hu (by omega)]
  have hu' : ∀ a, us.map (Timer.pass a) = us := by
    intro a
    conv => rhs; rw [← List.map_id us]
    refine List.map_congr_left (fun u h => ?_)
    unfold Timer.pass
    rw [hu u h]; rfl
  have h1 : s.now + (p - 1) + 1 = s.now + p := by omega
  simp only [run, List.foldl_cons, List.foldl_nil, step, hs, List.map_cons, hu', h1]
  simp [Timer.pass, h1]

/-- `n` periods. -/
def rounds (p : Nat) : Nat → List Ev
  | 0 => []
  | n + 1 => round p ++ rounds p n

theorem run_rounds (n : Nat) (s : State) (id p : Nat) (c : Bool) (us : List Timer) (hp : 0 < p)
    (hs : s.timers = ⟨id, p, c, .running (s.now + p) false⟩ :: us) (hu : ∀ u ∈ us, u.phase = .starting) :
    (run s (rounds p n)).now = s.now + n * p ∧
      (run s (rounds p n)).timers = ⟨id, p, c, .running (s.now + n * p + p) false⟩ :: us ∧
      turns (run s (rounds p n)) id = turns s id + n ∧ (run s (rounds p n)).subs = s.subs ∧
      (run s (rounds p n)).responses = s.responses := by
  induction n generalizing s with
  | zero => simp [rounds, run, hs]
  | succ n ih =>
    have hr := run_round s id p c us hp hs hu
    obtain ⟨a1, a2, a3, a4, a5⟩ := ih (run s (round p)) (by rw [hr])
    have e1 : (n + 1) * p = n * p + p := by rw [Nat.add_mul, Nat.one_mul]
    rw [rounds, run_append]
    refine ⟨?_, ?_, ?_, ?_, ?_⟩
    · rw [a1, hr, e1]; show s.now + p + n * p = _; omega
    · rw [a2, hr, e1]
      show (⟨id, p, c, .running (s.now + p + n * p + p) false⟩ : Timer) :: us = _
      rw [show s.now + p + n * p + p = s.now + (n * p + p) + p by omega]
    · rw [a3]
      have ht : turns (run s (round p)) id = turns s id + 1 := by
        have hw : ∀ k, worksFor (run s (round p)) id k = worksFor s id k := by
          intro k
          rw [hr]
          unfold worksFor
          cases k with
          | zero => simp [hs]
          | succ k => simp [hs]
        unfold turns
        rw [show (fun c : Nat × Nat => worksFor (run s (round p)) id c.2) = (fun c => worksFor s id c.2) from
          funext (fun c => hw c.2)]
        rw [hr]
        simp [List.filter_append, worksFor, hs]
      omega
    · rw [a4, hr]
    · rw [a5, hr]

theorem unmodified_rounds (id p n : Nat) : Unmodified id (rounds p n) := by
  intro w i l k hm
  induction n with
  | zero => cases hm
  | succ n ih =>
    rcases List.mem_append.1 hm with h | h
    · simp [round, List.mem_replicate] at h
    · exact ih h

/-- **C133 fails for intervals that are not whole milliseconds**: the server confirms 125.5 ms and publishes
every 125 ms, so that over a long time there are any number of turns too many. -/
theorem C133_fraction_fails (n : Nat) : ∃ (evs later : List Ev) (x : Sub), x ∈ (run (init 0) evs).subs ∧
    (confirmed (run (init 0) evs).responses x.id).map (·.1) = some (.fin (251 / 2)) ∧ Settled (run (init 0) evs) x.id ∧
    Unmodified x.id later ∧
    turns (run (init 0) (evs ++ later)) x.id = turns (run (init 0) evs) x.id + n ∧
    (run (init 0) (evs ++ later)).now = (run (init 0) evs).now + n * 125 := by
  refine ⟨[.create 1 (.fin (251 / 2)) 100 10 true, .start 0], rounds 125 n, ⟨1, 1, .fin (251 / 2), 10, 100, true, 0⟩,
    by decide +kernel, by decide +kernel, ?_, unmodified_rounds _ _ _, ?_⟩
  · have ht : (run (init 0) [.create 1 (.fin (251 / 2)) 100 10 true, .start 0]).timers = [⟨1, 125, false, .running 125 false⟩] := by
      decide +kernel
    intro k t h _ hc
    rw [ht] at h
    cases k with
    | zero => cases h; cases hc
    | succ k => cases h
  · rw [run_append]
    have h := run_rounds n (run (init 0) [.create 1 (.fin (251 / 2)) 100 10 true, .start 0]) 1 125 false [] (by decide)
      (by decide +kernel) (by simp)
    exact ⟨h.2.2.1, h.1⟩

/-- **C133 fails after ModifySubscription**: the old goroutine may go on. When a tick and the closed channel
are both there, select takes either, so that no number of turns at the old interval is impossible: here the
server has confirmed 60 seconds, and publishes `n` times every 125 ms. -/
theorem C133_stale_fails (n : Nat) : ∃ (evs later : List Ev) (x : Sub), x ∈ (run (init 0) evs).subs ∧
    (confirmed (run (init 0) evs).responses x.id).map (·.1) = some (.fin 60000) ∧ Unmodified x.id later ∧
    turns (run (init 0) (evs ++ later)) x.id = turns (run (init 0) evs) x.id + n ∧
    (run (init 0) (evs ++ later)).now = (run (init 0) evs).now + n * 125 := by
  refine ⟨[.create 1 (.fin 125) 100 10 true, .start 0, .modify 1 1 (.fin 60000) 100 10], rounds 125 n,
    ⟨1, 1, .fin 60000, 1, 60, true, 1⟩, by decide +kernel, by decide +kernel, unmodified_rounds _ _ _, ?_⟩
  rw [run_append]
  have h := run_rounds n (run (init 0) [.create 1 (.fin 125) 100 10 true, .start 0, .modify 1 1 (.fin 60000) 100 10])
    1 125 true [⟨1, 60000, false, .starting⟩] (by decide) (by decide +kernel) (by simp)
  exact ⟨h.2.2.1, h.1⟩

/-! ### A concrete case -/

/-- A subscription at 200 ms, modified to 150 ms; the old goroutine ends. -/
def day : List Ev :=
  [.create 7 (.fin 200) 100 10 true, .start 0, .modify 7 1 (.fin 150) 50 5, .start 1, .stop 0]

def week : List Ev := List.replicate 150 .ms ++ [.turn 1] ++ List.replicate 150 .ms ++ [.turn 1] ++ List.replicate 100 .ms

-- two turns in 400 ms, both of the goroutine at 150 ms
example : (run (init 0) day).subs = [⟨1, 7, .fin 150, 5, 67, true, 1⟩] ∧
    confirmed (run (init 0) day).responses 1 = some (.fin 150, 67, 5) ∧
    (run (init 0) (day ++ week)).cycles = [(150, 1), (300, 1)] ∧ turns (run (init 0) (day ++ week)) 1 = 2 := by
  decide +kernel

-- the hypotheses of C133_often_partial and C133_seldom hold there
example : Settled (run (init 0) day) 1 ∧ Started (run (init 0) day) 1 ∧ Unmodified 1 week := by
  have ht : (run (init 0) day).timers = [⟨1, 200, true, .ended⟩, ⟨1, 150, false, .running 150 false⟩] := by decide +kernel
  refine ⟨?_, ?_, ?_⟩
  · intro k t h _ hc
    rw [ht] at h
    match k with
    | 0 => cases h; rfl
    | 1 => cases h; cases hc
    | k + 2 => cases h
  · intro k t h _
    rw [ht] at h
    match k with
    | 0 => cases h; decide
    | 1 => cases h; decide
    | k + 2 => cases h
  · intro w i l k h
    simp only [week, List.mem_append, List.mem_replicate, List.mem_singleton] at h
    rcases h with (((h | h) | h) | h) | h <;> simp at h

-- a hundred milliseconds in which no tick comes are prompt
example : Prompt (run (init 0) [.create 7 (.fin 200) 100 10 true, .start 0]) 1 (List.replicate 100 .ms) := by
  have key : ∀ m, m ≤ 100 → ¬ Pending (run (run (init 0) [.create 7 (.fin 200) 100 10 true, .start 0]) (List.replicate m .ms)) 1 := by
    intro m hm
    have hs : (run (init 0) [.create 7 (.fin 200) 100 10 true, .start 0]).timers = [⟨1, 200, false, .running 200 false⟩] := by
      decide +kernel
    have hn : (run (init 0) [.create 7 (.fin 200) 100 10 true, .start 0]).now = 0 := by decide +kernel
    rw [run_wait m _ _ [] 200 false hs rfl (by simp) (by omega)]
    rintro ⟨k, t, n, h1, _, h3⟩
    simp only [hs] at h1
    cases k with
    | zero => cases h1; cases h3
    | succ k => cases h1
  refine ⟨fun a b h => ?_, key 100 (Nat.le_refl _)⟩
  have ha : a = List.replicate a.length .ms := by
    rw [List.eq_replicate_iff]
    refine ⟨rfl, fun e he => ?_⟩
    have : e ∈ List.replicate 100 Ev.ms := by rw [h]; exact List.mem_append_left _ he
    exact (List.mem_replicate.1 this).2
  have hl : a.length ≤ 100 := by
    have := congrArg List.length h
    rw [List.length_replicate, List.length_append] at this
    omega
  rw [ha]
  exact key _ hl

-- only the owner modifies; a refused one changes nothing
example : (run (init 1) [.create 7 (.fin 200) 100 10 true, .modify 8 1 (.fin 150) 50 5, .create 7 (.fin 200) 100 10 true,
      .setMode 7 [1, 2] false, .delete 7 [1, 1], .delete 7 []]).responses =
    [(7, .created 1 (.fin 200) 100 10), (8, .badSubscriptionIdInvalid), (7, .badTooManySubscriptions),
      (7, .results [true, false]), (7, .results [true, false]), (7, .badNothingToDo)] := by decide +kernel

end Opcua.PublishTimer
