import Verif.Model.Watch
import Verif.Props.Sampling
import Verif.Props.Delivery

/-! C132: a client that watches a variable ends up with its last value. -/

namespace Opcua.Watch

open DataChange (DV Arith isDataChange withTimestamps initialValue takeDue sweep drain rounds)
open Delivery.Spec (Careful assembled numbers waiting)

namespace Spec

/-- The client has every message that was made. -/
def HasAll (s : State) : Prop :=
  ∀ i < s.delivery.sub.produced.length, BitVec.ofNat 32 (i + 1) ∈ numbers s.delivery.got

/-- The last value of the item that the client has, going through its messages in order. -/
def lastKnown (id : Nat) (s : State) : Option DV := (assembled id s.delivery.got s.delivery.sub.produced.length).getLast?

/-- No value is dated ahead of the clock when it is written. -/
def Dated (A : Arith) (id : Nat) : State → List Ev → Prop
  | _, [] => True
  | s, e :: evs => (∀ v, e = .write v → v.server ≤ s.now) ∧ Dated A id (step A id s e) evs

/-- When the item is modified, its queue fits into the new size, or the oldest values are the ones to go. -/
def Kept (A : Arith) (id : Nat) : State → List Ev → Prop
  | _, [] => True
  | s, e :: evs => (∀ f t ti n d, e = .change f t ti n d → d = true ∨ (waiting id s.delivery).length ≤ max 1 (min n 1024)) ∧
      Kept A id (step A id s e) evs

/-- The variable keeps its value, and the item is left as it is. -/
def quiet : Ev → Bool
  | .write _ => false
  | .change .. => false
  | .mode _ => false
  | _ => true

/-- The values that a variable had. -/
def writes (evs : List Ev) : List DV :=
  evs.filterMap (fun
    | .write v => some v
    | _ => none)

end Spec

open Spec

/-! ### What the items have told -/

/-- The values of an item that were published or wait. -/
def told (id : Nat) (st : MonitoredItem.State DV) : List DV :=
  MonitoredItem.deliveredOf id st.out ++ MonitoredItem.queued (MonitoredItem.find st.items id)

theorem told_step (id : Nat) (st : MonitoredItem.State DV) (h : (st.items.map (·.id)).Nodup) (e : MonitoredItem.Ev DV)
    (h1 : ∀ v, e ≠ .sample id v) (h2 : e ≠ .delete id) (h3 : ∀ n d, e ≠ .modify id n d) (h4 : ∀ m, e ≠ .setMode id m) :
    told id (MonitoredItem.step st e) = told id st := by
  have hc := MonitoredItem.step_change st h id e
  have ho := MonitoredItem.step_out st e
  unfold told
  generalize MonitoredItem.find st.items id = a at *
  generalize MonitoredItem.find (MonitoredItem.step st e).items id = b at *
  have keep : (∀ max order, e ≠ .publish max order) → (MonitoredItem.step st e).out = st.out := by
    intro h
    rcases ho with h1 | ⟨max, order, r, more, he, _⟩
    · exact h1
    · exact absurd he (h max order)
  cases hc with
  | same o hp hns =>
    rcases ho with h1 | ⟨max, order, r, more, he, h2⟩
    · rw [h1]
    · rw [h2, MonitoredItem.deliveredOf_snoc, hp max order he r more h2, List.append_nil]
  | made m n d he =>
    subst he
    rw [keep (by intro _ _ h; cases h)]
    have : (MonitoredItem.newItem id m n d : MonitoredItem.Item DV).queue = [] := by
      have := (MonitoredItem.setQueueSize_spec (⟨id, m, false, 0, d, [], []⟩ : MonitoredItem.Item DV) n).2
      simpa [MonitoredItem.newItem] using this
    simp only [MonitoredItem.queued, this]
  | gone o he => exact absurd he h2
  | sampled x v he hm => exact absurd he (h1 v)
  | trig x y j v he hj hy hm hl => subst he; rw [keep (by intro _ _ h; cases h)]; rfl
  | modified x n d he => exact absurd he (h3 n d)
  | moded x m he => exact absurd he (h4 m)
  | linked x y r a he hs =>
    subst he
    rw [keep (by intro _ _ h; cases h)]
    simp only [MonitoredItem.queued, hs.queue]
  | published x y mx order r more he hq hout hyx hcx ht =>
    rw [hout, MonitoredItem.deliveredOf_snoc, List.append_assoc]
    simp only [MonitoredItem.queued]
    rw [hq]

/-- The mode of the item, if it is there. -/
def modeOf (id : Nat) (st : MonitoredItem.State DV) : Option MonitoredItem.Mode :=
  (MonitoredItem.find st.items id).map (·.mode)

theorem mode_step (id : Nat) (st : MonitoredItem.State DV) (h : (st.items.map (·.id)).Nodup) (e : MonitoredItem.Ev DV)
    (h1 : ∀ m n d, e ≠ .create id m n d) (h2 : e ≠ .delete id) (h4 : ∀ m, e ≠ .setMode id m) :
    modeOf id (MonitoredItem.step st e) = modeOf id st := by
  have hc := MonitoredItem.step_change st h id e
  unfold modeOf
  generalize MonitoredItem.find st.items id = a at *
  generalize MonitoredItem.find (MonitoredItem.step st e).items id = b at *
  cases hc with
  | same o hp hns => rfl
  | made m n d he => exact absurd he (h1 m n d)
  | gone o he => exact absurd he h2
  | sampled x v he hm =>
    simp only [Option.map_some, Option.some.injEq]
    unfold MonitoredItem.enqueue
    split <;> rfl
  | trig x y j v he hj hy hm hl => rfl
  | modified x n d he =>
    simp only [Option.map_some, Option.some.injEq]
    unfold MonitoredItem.modify MonitoredItem.setQueueSize
    dsimp only
    repeat' split
    all_goals rfl
  | moded x m he => exact absurd he (h4 m)
  | linked x y r a he hs => simp only [Option.map_some, Option.some.injEq]; exact hs.mode
  | published x y mx order r more he hq hout hyx hcx ht => rw [hyx]; rfl

theorem told_sample (id : Nat) (st : MonitoredItem.State DV) (h : (st.items.map (·.id)).Nodup) (v : DV) {m : MonitoredItem.Mode}
    (hm : modeOf id st = some m) (hd : m ≠ .disabled) :
    (told id (MonitoredItem.step st (.sample id v))).getLast? = some v := by
  have hc := MonitoredItem.step_change st h id (.sample id v)
  unfold modeOf at hm
  unfold told
  generalize MonitoredItem.find st.items id = a at *
  generalize MonitoredItem.find (MonitoredItem.step st (.sample id v)).items id = b at *
  cases hc with
  | same o hp hns =>
    cases a with
    | none => cases hm
    | some x => cases hm; exact absurd (hns v rfl x rfl) hd
  | made m n d he => cases he
  | gone o he => cases he
  | sampled x v' he hm =>
    cases he
    simp [MonitoredItem.queued, MonitoredItem.enqueue_queue]
  | trig x y j v he hj hy hm hl => cases he; exact absurd rfl hj
  | modified x n d he => cases he
  | moded x m he => cases he
  | linked x y r a he hs => cases he
  | published x y mx order r more he hq hout hyx hcx ht => cases he

theorem last_suffix {α : Type} (l m : List α) (n : Nat) (hn : 0 < n) :
    (l ++ m.drop (m.length - n)).getLast? = (l ++ m).getLast? := by
  rcases List.eq_nil_or_concat m with rfl | ⟨m', x, rfl⟩
  · simp
  · rw [List.concat_eq_append, List.drop_append_of_le_length (by simp; omega)]
    simp [← List.append_assoc]

theorem told_modify (id : Nat) (st : MonitoredItem.State DV) (h : (st.items.map (·.id)).Nodup) (n : Nat) (d : Bool)
    (hk : d = true ∨ (MonitoredItem.queued (MonitoredItem.find st.items id)).length ≤ max 1 (min n 1024)) :
    (told id (MonitoredItem.step st (.modify id n d))).getLast? = (told id st).getLast? := by
  have hc := MonitoredItem.step_change st h id (.modify id n d)
  have ho : (MonitoredItem.step st (.modify id n d)).out = st.out := rfl
  unfold told
  rw [ho]
  generalize MonitoredItem.find st.items id = a at *
  generalize MonitoredItem.find (MonitoredItem.step st (.modify id n d)).items id = b at *
  cases hc with
  | same o hp hns => rfl
  | made m n d he => cases he
  | gone o he => cases he
  | sampled x v' he hm => cases he
  | trig x y j v he hj hy hm hl => cases he
  | modified x n d he =>
    cases he
    have h2 := (MonitoredItem.setQueueSize_spec { x with discardOldest := d } n).2
    simp only [MonitoredItem.queued] at hk ⊢
    unfold MonitoredItem.modify
    rw [h2]
    cases d with
    | true => exact last_suffix _ _ _ (by omega)
    | false =>
      rcases hk with hk | hk
      · cases hk
      · rw [if_neg (by simp), List.take_of_length_le hk]
  | moded x m he => cases he
  | linked x y r a he hs => cases he
  | published x y mx order r more he hq hout hyx hcx ht => cases he

theorem told_mode (id : Nat) (st : MonitoredItem.State DV) (h : (st.items.map (·.id)).Nodup) (m : MonitoredItem.Mode) :
    ((m ≠ .disabled ∨ modeOf id st = some m) → told id (MonitoredItem.step st (.setMode id m)) = told id st) ∧
    (modeOf id st ≠ none → modeOf id (MonitoredItem.step st (.setMode id m)) = some m) := by
  have hc := MonitoredItem.step_change st h id (.setMode id m)
  have ho : (MonitoredItem.step st (.setMode id m)).out = st.out := by
    have := MonitoredItem.step_out st (.setMode id m)
    rcases this with h1 | ⟨_, _, _, _, he, _⟩
    · exact h1
    · cases he
  unfold told modeOf
  rw [ho]
  have key : MonitoredItem.find st.items id ≠ none →
      MonitoredItem.find (MonitoredItem.step st (.setMode id m)).items id =
        (MonitoredItem.find st.items id).map (MonitoredItem.setMode · m) := by
    intro hne
    dsimp only [MonitoredItem.step]
    split
    next h => exact absurd h hne
    next i hi =>
      rw [MonitoredItem.find_update_self _ _ _ (fun i => by unfold MonitoredItem.setMode; split <;> (try split) <;> rfl)]
  cases hf : MonitoredItem.find st.items id with
  | none =>
    refine ⟨fun _ => ?_, fun h => absurd rfl h⟩
    dsimp only [MonitoredItem.step]
    rw [hf]
    dsimp only
    rw [hf]
  | some x =>
    rw [key (by rw [hf]; exact fun h => by cases h), hf]
    simp only [Option.map_some, MonitoredItem.queued, Option.some.injEq]
    unfold MonitoredItem.setMode
    refine ⟨?_, fun _ => ?_⟩
    · rintro (hm | hm)
      · rw [if_neg hm]
        split <;> rfl
      · rw [if_pos hm]
    · split
      · assumption
      · split <;> rfl

/-! ### What sampling does -/

/-- The value last put into the queue is the one that the filter compares with. -/
def Ends (p : DV) (i : DataChange.Item) : Prop :=
  (i.queue = [] ∧ i.prev = p) ∨ i.queue.getLast? = some (withTimestamps i.prev i.timestamps)

theorem ends_offer (A : Arith) {p : DV} {i : DataChange.Item} (h : Ends p i) (v : DV) : Ends p (DataChange.offer A i v) := by
  unfold DataChange.offer
  split
  · exact .inr (by simp)
  · exact h

theorem ends_sweep (A : Arith) {p : DV} (n : Nat) : ∀ {v : DV} {i : DataChange.Item}, Ends p i → Ends p (sweep A n v i) := by
  induction n with
  | zero => intro v i h; exact h
  | succ n ih =>
    intro v i h
    rw [DataChange.sweep_succ]
    generalize takeDue i.ts v i.seen i.prequeue = T
    have h1 := ends_offer A (i := { i with prequeue := T.2.2, seen := T.2.1 }) h T.1
    generalize DataChange.offer A { i with prequeue := T.2.2, seen := T.2.1 } T.1 = o at h1
    exact ih (i := { o with ts := o.ts + o.ti }) h1

theorem ends_drain (A : Arith) {p : DV} (vs : List DV) : ∀ {i : DataChange.Item}, Ends p i → Ends p (drain A i vs) := by
  induction vs with
  | nil => intro i h; exact h
  | cons v vs ih => intro i h; exact ih (ends_offer A (i := { i with seen := some v }) h v)

theorem ends_cycle (A : Arith) {p : DV} {i : DataChange.Item} (h : Ends p i) (tn : Nat) : Ends p (DataChange.cycle A i tn none) := by
  unfold DataChange.cycle
  split
  · exact h
  · dsimp only
    split
    · exact ends_sweep A _ h
    · exact ends_drain A _ h

/-- A value was reported last, or it would not be reported now. -/
def Aware (A : Arith) (v : DV) (i : DataChange.Item) : Prop := i.prev = v ∨ isDataChange A i.filter v i.prev = false

theorem aware_self (A : Arith) (v : DV) (i : DataChange.Item) : Aware A v (DataChange.offer A i v) := by
  unfold DataChange.offer
  split
  · exact .inl rfl
  next h => exact .inr (by simpa using h)

theorem aware_prev (A : Arith) {v : DV} {i : DataChange.Item} (h : Aware A v i) : Aware A v (DataChange.offer A i i.prev) := by
  unfold DataChange.offer
  split
  · exact h
  · exact h

/-- The item knows of `v`, and nothing else is to come. -/
def Settled (A : Arith) (v : DV) (i : DataChange.Item) : Prop := Aware A v i ∧ ∀ p ∈ i.prequeue, p = v

/-- The item knows of `v` or will look at it last. -/
def Ready (A : Arith) (v : DV) (i : DataChange.Item) : Prop := Settled A v i ∨ i.prequeue.getLast? = some v

theorem takeDue_last (ts : Nat) (l : List DV) : ∀ (w : DV) (s : Option DV),
    ∃ due, l = due ++ (takeDue ts w s l).2.2 ∧ (takeDue ts w s l).1 = due.getLastD w := by
  induction l with
  | nil => intro w s; exact ⟨[], rfl, rfl⟩
  | cons a l ih =>
    intro w s
    unfold takeDue
    split
    · obtain ⟨due, h1, h2⟩ := ih a (some a)
      refine ⟨a :: due, by rw [List.cons_append, ← h1], ?_⟩
      rw [h2]
      cases due <;> rfl
    · exact ⟨[], rfl, rfl⟩

theorem settled_sweep (A : Arith) (v : DV) (n : Nat) : ∀ (w : DV) (i : DataChange.Item), Settled A v i → (w = v ∨ w = i.prev) →
    Settled A v (sweep A n w i) := by
  induction n with
  | zero => intro w i h _; exact h
  | succ n ih =>
    intro w i h hw
    rw [DataChange.sweep_succ]
    obtain ⟨due, h1, h2⟩ := takeDue_last i.ts i.prequeue w i.seen
    generalize takeDue i.ts w i.seen i.prequeue = T at h1 h2
    have hall := h.2
    rw [h1] at hall
    have hT : T.1 = v ∨ T.1 = i.prev := by
      rw [h2]
      cases due with
      | nil => exact hw
      | cons a due =>
        left
        refine hall _ (List.mem_append_left _ ?_)
        rw [List.getLastD_eq_getLast?]
        cases hg : (a :: due).getLast? with
        | none => simp at hg
        | some z => exact List.mem_of_getLast? hg
    obtain ⟨-, -, e1, -, -, -, -, e3⟩ := DataChange.offer_fields A { i with prequeue := T.2.2, seen := T.2.1 } T.1
    have key : Aware A v (DataChange.offer A { i with prequeue := T.2.2, seen := T.2.1 } T.1) := by
      rcases hT with hT | hT
      · rw [hT]; exact aware_self A v _
      · rw [hT]; exact aware_prev A (i := { i with prequeue := T.2.2, seen := T.2.1 }) h.1
    generalize DataChange.offer A { i with prequeue := T.2.2, seen := T.2.1 } T.1 = o at *
    refine ih _ _ ⟨key, ?_⟩ ?_
    · intro p hp
      have hp' : p ∈ o.prequeue := hp
      rw [e1] at hp'
      exact hall p (List.mem_append_right _ hp')
    · rcases hT with hT | hT
      · exact .inl hT
      · right
        show T.1 = o.prev
        rcases e3 with e | e
        · rw [e]; exact hT
        · exact e.symm

theorem ready_sweep (A : Arith) (v : DV) (n : Nat) : ∀ (w : DV) (i : DataChange.Item), i.prequeue.getLast? = some v →
    Ready A v (sweep A n w i) := by
  induction n with
  | zero => intro w i h; exact .inr h
  | succ n ih =>
    intro w i h
    rw [DataChange.sweep_succ]
    obtain ⟨due, h1, h2⟩ := takeDue_last i.ts i.prequeue w i.seen
    generalize takeDue i.ts w i.seen i.prequeue = T at h1 h2
    obtain ⟨-, -, e1, -, -, -, -, e3⟩ := DataChange.offer_fields A { i with prequeue := T.2.2, seen := T.2.1 } T.1
    have e1 : _ = T.2.2 := e1
    rw [h1] at h
    cases hr : T.2.2 with
    | nil =>
      rw [hr, List.append_nil] at h
      have hT : T.1 = v := by rw [h2, List.getLastD_eq_getLast?, h]; rfl
      rw [hr] at e1
      have key : Aware A v (DataChange.offer A { i with prequeue := T.2.2, seen := T.2.1 } T.1) := by rw [hT]; exact aware_self A v _
      rw [hr] at key
      generalize DataChange.offer A { i with prequeue := [], seen := T.2.1 } T.1 = o at *
      refine .inl (settled_sweep A v n _ _ ⟨key, ?_⟩ (.inl hT))
      intro p hp
      have hp' : p ∈ o.prequeue := hp
      rw [e1] at hp'
      cases hp'
    | cons a rest =>
      refine ih _ _ ?_
      show (DataChange.offer A _ T.1).prequeue.getLast? = some v
      rw [← hr, e1, hr]
      rw [hr] at h
      simpa [List.getLast?_append] using h

theorem settled_drain (A : Arith) (v : DV) (vs : List DV) : ∀ (i : DataChange.Item),
    ((Aware A v i ∧ ∀ p ∈ vs, p = v) ∨ vs.getLast? = some v) → Settled A v (drain A i vs) := by
  induction vs with
  | nil =>
    rintro i (h | h)
    · exact ⟨h.1, by intro p hp; cases hp⟩
    · cases h
  | cons a vs ih =>
    rintro i (h | h)
    · have := h.2 a (by simp)
      subst this
      exact ih _ (.inl ⟨aware_self A a _, fun p hp => h.2 p (List.mem_cons_of_mem _ hp)⟩)
    · cases vs with
      | nil =>
        cases h
        exact ih _ (.inl ⟨aware_self A a _, by intro p hp; cases hp⟩)
      | cons b vs => exact ih _ (.inr (by simpa using h))

theorem cycle_settled (A : Arith) (v : DV) (i : DataChange.Item) (tn : Nat) (h : Settled A v i) :
    Settled A v (DataChange.cycle A i tn none) := by
  unfold DataChange.cycle
  split
  · exact h
  · dsimp only
    split
    · exact settled_sweep A v _ _ _ h (.inr rfl)
    · exact settled_drain A v _ _ (.inl h)

theorem cycle_ready (A : Arith) (v : DV) (i : DataChange.Item) (tn : Nat) (h : Ready A v i) :
    Ready A v (DataChange.cycle A i tn none) := by
  rcases h with h | h
  · exact .inl (cycle_settled A v i tn h)
  · unfold DataChange.cycle
    split
    · exact .inr h
    · dsimp only
      split
      · exact ready_sweep A v _ _ _ h
      · exact .inl (settled_drain A v _ _ (.inr h))

/-- What holds after a poll at `t0` that found `v`. -/
structure Phase (A : Arith) (t0 : Nat) (v : DV) (i : DataChange.Item) : Prop where
  dated : ∀ p ∈ i.prequeue, p.server ≤ t0
  ready : Ready A v i
  due : i.ti = 0 ∨ i.ts ≤ t0 + i.ti ∨ Settled A v i

theorem ready_empty {A : Arith} {v : DV} {i : DataChange.Item} (h : Ready A v i) (he : i.prequeue = []) : Settled A v i := by
  rcases h with h | h
  · exact h
  · rw [he] at h; cases h

theorem sweep_filter (A : Arith) (n : Nat) : ∀ (v : DV) (i : DataChange.Item), (sweep A n v i).filter = i.filter := by
  induction n with
  | zero => intro v i; rfl
  | succ n ih =>
    intro v i
    rw [DataChange.sweep_succ]
    dsimp only
    rw [ih]
    exact (DataChange.offer_fields A _ _).1

theorem drain_fields (A : Arith) (vs : List DV) : ∀ (i : DataChange.Item), (drain A i vs).filter = i.filter ∧
    (drain A i vs).ti = i.ti ∧ (drain A i vs).ts = i.ts ∧ (drain A i vs).prequeue = [] := by
  induction vs with
  | nil => intro i; exact ⟨rfl, rfl, rfl, rfl⟩
  | cons v vs ih =>
    intro i
    obtain ⟨h1, -, -, h2, h3, -⟩ := DataChange.offer_fields A { i with seen := some v } v
    obtain ⟨k1, k2, k3, k4⟩ := ih (DataChange.offer A { i with seen := some v } v)
    exact ⟨k1.trans h1, k2.trans h2, k3.trans h3, k4⟩

theorem cycle_fields (A : Arith) (i : DataChange.Item) (tn : Nat) : (DataChange.cycle A i tn none).ti = i.ti ∧
    (DataChange.cycle A i tn none).mode = i.mode ∧ (DataChange.cycle A i tn none).timestamps = i.timestamps ∧
    (DataChange.cycle A i tn none).filter = i.filter ∧
    (i.ts ≤ tn + i.ti → (DataChange.cycle A i tn none).ts ≤ tn + i.ti) ∧
    (∀ p ∈ (DataChange.cycle A i tn none).prequeue, p ∈ i.prequeue) := by
  unfold DataChange.cycle
  split
  · exact ⟨rfl, rfl, rfl, rfl, fun _ => Nat.le_add_right _ _, fun _ h => h⟩
  · dsimp only
    split
    next ht =>
      obtain ⟨h1, h2, h3, h4⟩ := DataChange.sweep_mode A (rounds i.ti i.ts tn) i.prev i
      obtain ⟨due, h5, -, -⟩ := DataChange.sweep_rest A (rounds i.ti i.ts tn) i.prev i
      refine ⟨h3, h1, h2, sweep_filter A _ _ _, fun hts => ?_, fun p hp => ?_⟩
      · rw [h4]
        by_cases hle : i.ts ≤ tn
        · exact (DataChange.rounds_bound i.ti i.ts tn ht hle).2.1
        · unfold DataChange.rounds
          rw [if_neg hle]
          omega
      · rw [h5]; exact List.mem_append_right _ hp
    next ht =>
      obtain ⟨h1, h2⟩ := DataChange.drain_mode A i.prequeue i
      obtain ⟨k1, k2, k3, k4⟩ := drain_fields A i.prequeue i
      refine ⟨k2, h1, h2, k1, fun h => ?_, fun p hp => ?_⟩
      · rw [k3]; exact h
      · rw [k4] at hp; cases hp

theorem phase_cycle {A : Arith} {t0 : Nat} {v : DV} {i : DataChange.Item} (h : Phase A t0 v i) (hm : i.mode ≠ .disabled) (tn : Nat) :
    Phase A t0 v (DataChange.cycle A i tn none) ∧ (t0 + i.ti ≤ tn → Settled A v (DataChange.cycle A i tn none)) := by
  obtain ⟨d0, d1⟩ := DataChange.C55_due A i tn hm
  have hr := cycle_ready A v i tn h.ready
  obtain ⟨e1, -, -, -, -, e6⟩ := cycle_fields A i tn
  by_cases hs : Settled A v i
  · have hs' := cycle_settled A v i tn hs
    exact ⟨⟨fun p hp => h.dated p (e6 p hp), hr, .inr (.inr hs')⟩, fun _ => hs'⟩
  · by_cases ht : i.ti = 0
    · have := d0 ht
      exact ⟨⟨by rw [this]; simp, hr, .inl (e1.trans ht)⟩, fun _ => ready_empty hr this⟩
    · have hts : i.ts ≤ t0 + i.ti := by
        rcases h.due with h | h | h
        · exact absurd h ht
        · exact h
        · exact absurd h hs
      by_cases hle : i.ts ≤ tn
      · obtain ⟨due, k1, k2, k3, k4, k5⟩ := d1 (by omega) hle
        have hdated : ∀ p ∈ (DataChange.cycle A i tn none).prequeue, p.server ≤ t0 := by
          intro p hp
          exact h.dated p (by rw [k1]; exact List.mem_append_right _ hp)
        have hempty : t0 + i.ti ≤ (DataChange.cycle A i tn none).ts → (DataChange.cycle A i tn none).prequeue = [] := by
          intro hge
          cases hq : (DataChange.cycle A i tn none).prequeue with
          | nil => rfl
          | cons p rest =>
            have := k5 p rest hq
            have := hdated p (by rw [hq]; simp)
            omega
        refine ⟨⟨hdated, hr, ?_⟩, fun hge => ready_empty hr (hempty (by omega))⟩
        rw [e1]
        by_cases hc : (DataChange.cycle A i tn none).ts ≤ t0 + i.ti
        · exact .inr (.inl hc)
        · exact .inr (.inr (ready_empty hr (hempty (by omega))))
      · have := (DataChange.C55_interval A i tn hm (by omega)).1 (by omega)
        rw [this]
        exact ⟨h, fun hge => by omega⟩

/-! ### The queue of the item -/

/-- What always holds between the item and its queue. -/
structure Keeps (id : Nat) (s : State) : Prop where
  nodup : (s.delivery.items.items.map (·.id)).Nodup
  mode : modeOf id s.delivery.items = some (queueMode s.item.mode)
  empty : s.item.queue = []
  last : s.item.prev = initialValue ∨
    (told id s.delivery.items).getLast? = some (withTimestamps s.item.prev s.item.timestamps)

theorem step_items (d : Delivery.State DV) (e : Delivery.Ev DV) :
    (Delivery.step d e).items = d.items ∨ ∃ ie, (Delivery.step d e).items = MonitoredItem.step d.items ie ∧
      (e = .item ie ∨ ∃ max order, ie = .publish max order) := by
  cases e with
  | item ie =>
    cases ie with
    | publish max order => exact .inl rfl
    | _ => exact .inr ⟨_, rfl, .inl rfl⟩
  | timer max order req arrives =>
    simp only [Delivery.step, Delivery.publishing]
    split
    · exact .inr ⟨_, rfl, .inr ⟨_, _, rfl⟩⟩
    · exact .inl rfl
  | late max order results ok arrives =>
    simp only [Delivery.step, Delivery.publishing]
    split
    · exact .inr ⟨_, rfl, .inr ⟨_, _, rfl⟩⟩
    · exact .inl rfl
  | _ => exact .inl rfl

theorem keeps_other {id : Nat} {s : State} (h : Keeps id s) (e : Delivery.Ev DV)
    (he : apart id e = false ∨ ∀ ie, e ≠ .item ie) : Keeps id (tell s e) := by
  rcases step_items s.delivery e with h1 | ⟨ie, h1, h2⟩
  · refine ⟨?_, ?_, h.empty, ?_⟩ <;> simp only [tell, h1]
    · exact h.nodup
    · exact h.mode
    · exact h.last
  · have hne : (∀ v, ie ≠ .sample id v) ∧ ie ≠ .delete id ∧ (∀ n d, ie ≠ .modify id n d) ∧ (∀ m, ie ≠ .setMode id m) ∧
        ∀ m n d, ie ≠ .create id m n d := by
      rcases h2 with h2 | ⟨max, order, h2⟩
      · rcases he with he | he
        · subst h2
          refine ⟨?_, ?_, ?_, ?_, ?_⟩ <;> intros <;> intro hh <;> rw [hh] at he <;> simp [apart] at he
        · exact absurd h2 (he ie)
      · subst h2
        refine ⟨?_, ?_, ?_, ?_, ?_⟩ <;> intros <;> intro hh <;> cases hh
    refine ⟨?_, ?_, h.empty, ?_⟩ <;> simp only [tell, h1]
    · exact MonitoredItem.step_nodup _ _ h.nodup
    · rw [mode_step id _ h.nodup ie hne.2.2.2.2 hne.2.1 hne.2.2.2.1]; exact h.mode
    · rw [told_step id _ h.nodup ie hne.1 hne.2.1 hne.2.2.1 hne.2.2.2.1]; exact h.last

/-- Samples put into the queue one after the other. -/
def feed (id : Nat) (s : State) (vs : List DV) : State := vs.foldl (fun s v => tell s (.item (.sample id v))) s

theorem feed_fields (id : Nat) (vs : List DV) : ∀ s : State, (feed id s vs).item = s.item ∧ (feed id s vs).now = s.now ∧
    (feed id s vs).value = s.value ∧ (feed id s vs).delivery.sub = s.delivery.sub := by
  induction vs with
  | nil => intro s; exact ⟨rfl, rfl, rfl, rfl⟩
  | cons v vs ih => intro s; exact ih (tell s (.item (.sample id v)))

theorem feed_told (id : Nat) (vs : List DV) : ∀ s : State, (s.delivery.items.items.map (·.id)).Nodup →
    modeOf id s.delivery.items = some (queueMode s.item.mode) → s.item.mode ≠ .disabled →
    ((feed id s vs).delivery.items.items.map (·.id)).Nodup ∧
    modeOf id (feed id s vs).delivery.items = some (queueMode s.item.mode) ∧
    (told id (feed id s vs).delivery.items).getLast? = if vs = [] then (told id s.delivery.items).getLast? else vs.getLast? := by
  induction vs with
  | nil => intro s h1 h2 _; exact ⟨h1, h2, by simp [feed]⟩
  | cons v vs ih =>
    intro s h1 h2 h3
    have e1 : (tell s (.item (.sample id v))).delivery.items = MonitoredItem.step s.delivery.items (.sample id v) := rfl
    have hd : queueMode s.item.mode ≠ .disabled := by
      cases hm : s.item.mode with
      | disabled => exact absurd hm h3
      | sampling => intro h; cases h
      | reporting => intro h; cases h
    have k1 : modeOf id (tell s (.item (.sample id v))).delivery.items = some (queueMode s.item.mode) := by
      rw [e1, mode_step id _ h1 _ (by intro _ _ _ h; cases h) (by intro h; cases h) (by intro _ h; cases h)]
      exact h2
    obtain ⟨g1, g2, g3⟩ := ih (tell s (.item (.sample id v))) (by rw [e1]; exact MonitoredItem.step_nodup _ _ h1) k1 h3
    refine ⟨g1, g2, ?_⟩
    show (told id (feed id (tell s (.item (.sample id v))) vs).delivery.items).getLast? = _
    rw [g3, e1, told_sample id _ h1 v h2 hd]
    cases vs with
    | nil => rfl
    | cons a vs => simp

theorem sample_eq (A : Arith) (id : Nat) (s : State) : sample A id s =
    feed id { s with item := { DataChange.cycle A s.item s.now none with queue := [] } } (DataChange.cycle A s.item s.now none).queue := rfl

theorem disabled_queue (A : Arith) (i : DataChange.Item) (hm : i.mode = .disabled) (tn : Nat) :
    DataChange.cycle A i tn none = { i with ts := tn } := by
  unfold DataChange.cycle; rw [if_pos hm]

theorem keeps_sample {A : Arith} {id : Nat} {s : State} (h : Keeps id s) : Keeps id (sample A id s) := by
  rw [sample_eq]
  by_cases hm : s.item.mode = .disabled
  · rw [disabled_queue A _ hm]
    simp only [h.empty]
    exact ⟨h.nodup, h.mode, rfl, h.last⟩
  · obtain ⟨-, c2, c3, -⟩ := cycle_fields A s.item s.now
    have he := ends_cycle A (p := s.item.prev) (i := s.item) (.inl ⟨h.empty, rfl⟩) s.now
    generalize DataChange.cycle A s.item s.now none = i at *
    obtain ⟨f1, -⟩ := feed_fields id i.queue { s with item := { i with queue := [] } }
    obtain ⟨g1, g2, g3⟩ := feed_told id i.queue { s with item := { i with queue := [] } } h.nodup
      (by show _ = some (queueMode i.mode); rw [c2]; exact h.mode) (by show i.mode ≠ _; rw [c2]; exact hm)
    refine ⟨g1, by rw [g2, f1], by rw [f1], ?_⟩
    rw [f1, g3]
    show i.prev = initialValue ∨ _ = some (withTimestamps i.prev i.timestamps)
    rcases he with ⟨e1, e2⟩ | e
    · rw [if_pos e1, e2, c3]; exact h.last
    · right
      rw [if_neg (by intro hq; rw [hq] at e; cases e)]
      exact e

theorem waiting_queued (id : Nat) (d : Delivery.State DV) :
    waiting id d = MonitoredItem.queued (MonitoredItem.find d.items.items id) := by
  unfold Delivery.Spec.waiting MonitoredItem.queued
  cases MonitoredItem.find d.items.items id <;> rfl

theorem start_fields (i : DataChange.Item) (now : Nat) (v : DV) : (DataChange.startMonitoring i now v).mode = i.mode ∧
    (DataChange.startMonitoring i now v).queue = i.queue ∧ (DataChange.startMonitoring i now v).prev = i.prev ∧
    (DataChange.startMonitoring i now v).timestamps = i.timestamps ∧ (DataChange.startMonitoring i now v).filter = i.filter ∧
    (DataChange.startMonitoring i now v).ti = i.ti ∧ (DataChange.startMonitoring i now v).ts = now ∧
    (∀ p ∈ (DataChange.startMonitoring i now v).prequeue, p ∈ i.prequeue ∨ p = v) := by
  unfold DataChange.startMonitoring
  dsimp only
  split
  · exact ⟨rfl, rfl, rfl, rfl, rfl, rfl, rfl, fun p hp => .inl hp⟩
  · refine ⟨rfl, rfl, rfl, rfl, rfl, rfl, rfl, fun p hp => ?_⟩
    rcases List.mem_append.1 hp with h | h
    · exact .inl h
    · exact .inr (List.mem_singleton.1 h)

theorem keeps_step {A : Arith} {id : Nat} {s : State} (h : Keeps id s) (e : Ev)
    (hk : ∀ f t ti n d, e = .change f t ti n d → d = true ∨ (waiting id s.delivery).length ≤ max 1 (min n 1024)) :
    Keeps id (step A id s e) := by
  cases e with
  | tick n => exact ⟨h.nodup, h.mode, h.empty, h.last⟩
  | write v => exact ⟨h.nodup, h.mode, h.empty, h.last⟩
  | poll =>
    simp only [step]
    split
    · exact h
    · exact ⟨h.nodup, h.mode, h.empty, h.last⟩
  | timer max order req arrives =>
    simp only [step]
    split
    · exact keeps_other (keeps_sample h) _ (.inr (by intro _ h; cases h))
    · exact h
  | late max order results ok arrives =>
    simp only [step]
    split
    · exact keeps_other (keeps_sample h) _ (.inr (by intro _ h; cases h))
    · exact h
  | change f t ti n d =>
    have hk := hk f t ti n d rfl
    rw [waiting_queued] at hk
    have e1 : (step A id s (.change f t ti n d)).delivery.items = MonitoredItem.step s.delivery.items (.modify id n d) := rfl
    have e2 : (step A id s (.change f t ti n d)).item =
      DataChange.startMonitoring { s.item with filter := f, ti := ti } s.now s.value := rfl
    obtain ⟨s1, s2, s3, s4, -⟩ := start_fields { s.item with filter := f, ti := ti } s.now s.value
    refine ⟨?_, ?_, ?_, ?_⟩
    · rw [e1]; exact MonitoredItem.step_nodup _ _ h.nodup
    · rw [e1, e2, s1, mode_step id _ h.nodup _ (by intro _ _ _ h; cases h) (by intro h; cases h) (by intro _ h; cases h)]
      exact h.mode
    · rw [e2, s2]; exact h.empty
    · rw [e1, e2, s3, s4, told_modify id _ h.nodup n d hk]; exact h.last
  | mode m =>
    have e1 : (step A id s (.mode m)).delivery.items = MonitoredItem.step s.delivery.items (.setMode id (queueMode m)) := rfl
    have e2 : (step A id s (.mode m)).item = DataChange.setMode s.item m s.now s.value := rfl
    obtain ⟨t1, t2⟩ := told_mode id s.delivery.items h.nodup (queueMode m)
    have hmode := t2 (by rw [h.mode]; intro h; cases h)
    have hqm : queueMode m = .disabled → m = .disabled := by cases m <;> simp [queueMode]
    have key : (DataChange.setMode s.item m s.now s.value).mode = m ∧ (DataChange.setMode s.item m s.now s.value).queue = [] ∧
        ((s.item.mode = m ∨ m ≠ .disabled) → (DataChange.setMode s.item m s.now s.value).prev = s.item.prev) ∧
        ((s.item.mode ≠ m ∧ m = .disabled) → (DataChange.setMode s.item m s.now s.value).prev = initialValue) ∧
        (DataChange.setMode s.item m s.now s.value).timestamps = s.item.timestamps := by
      unfold DataChange.setMode
      split
      next hm => exact ⟨hm, h.empty, fun _ => rfl, fun hh => absurd hm hh.1, rfl⟩
      next hm =>
        dsimp only
        split
        next hd =>
          obtain ⟨s1, s2, s3, s4, -⟩ := start_fields { s.item with
            mode := m
            queue := []
            prev := initialValue
            log := s.item.log ++ [.reset]
            seen := none } s.now s.value
          exact ⟨s1, s2, fun hh => by rcases hh with hh | hh <;> contradiction, fun _ => s3, s4⟩
        next hd =>
          obtain ⟨s1, s2, s3, s4, -⟩ := start_fields { s.item with mode := m } s.now s.value
          exact ⟨s1, s2.trans h.empty, fun _ => s3, fun hh => absurd hh.2 hd, s4⟩
    obtain ⟨k1, k2, k3, k4, k5⟩ := key
    refine ⟨?_, ?_, ?_, ?_⟩
    · rw [e1]; exact MonitoredItem.step_nodup _ _ h.nodup
    · rw [e1, e2, k1]; exact hmode
    · rw [e2]; exact k2
    · rw [e1, e2, k5]
      by_cases hc : s.item.mode ≠ m ∧ m = .disabled
      · exact .inl (k4 hc)
      · have hc' : s.item.mode = m ∨ m ≠ .disabled := by
          by_cases hm : s.item.mode = m
          · exact .inl hm
          · exact .inr (fun hd => hc ⟨hm, hd⟩)
        rw [k3 hc', t1 ?_]
        · exact h.last
        · rcases hc' with hm | hm
          · right; rw [h.mode, hm]
          · left; exact fun hd => hm (hqm hd)
  | other e =>
    simp only [step]
    split
    · exact h
    next he => exact keeps_other h e (.inl (by simpa using he))

/-! ### Time -/

theorem run_snoc (A : Arith) (id : Nat) (s : State) (evs : List Ev) (e : Ev) :
    run A id s (evs ++ [e]) = step A id (run A id s evs) e := by
  simp [run]

theorem run_append (A : Arith) (id : Nat) (s : State) (a b : List Ev) : run A id s (a ++ b) = run A id (run A id s a) b := by
  simp [run]

theorem dated_append (A : Arith) (id : Nat) (a b : List Ev) : ∀ s, Dated A id s (a ++ b) ↔
    Dated A id s a ∧ Dated A id (run A id s a) b := by
  induction a with
  | nil => intro s; simp [Dated, run]
  | cons e a ih => intro s; simp only [List.cons_append, Dated, ih, and_assoc]; rfl

/-- Nothing is dated ahead, and the next sample is not far away. -/
structure Timed (s : State) : Prop where
  value : s.value.server ≤ s.now
  dated : ∀ p ∈ s.item.prequeue, p.server ≤ s.now
  ts : s.item.ts ≤ s.now + s.item.ti

theorem sample_fields (A : Arith) (id : Nat) (s : State) :
    (sample A id s).item = { DataChange.cycle A s.item s.now none with queue := [] } ∧ (sample A id s).now = s.now ∧
    (sample A id s).value = s.value ∧ (sample A id s).delivery.sub = s.delivery.sub := by
  rw [sample_eq]
  exact feed_fields id _ _

theorem timed_sample {A : Arith} {id : Nat} {s : State} (h : Timed s) : Timed (sample A id s) := by
  obtain ⟨f1, f2, f3, -⟩ := sample_fields A id s
  obtain ⟨c1, -, -, -, c5, c6⟩ := cycle_fields A s.item s.now
  refine ⟨by rw [f2, f3]; exact h.value, ?_, ?_⟩
  · rw [f1, f2]
    intro p hp
    exact h.dated p (c6 p hp)
  · rw [f1, f2]
    show (DataChange.cycle A s.item s.now none).ts ≤ s.now + (DataChange.cycle A s.item s.now none).ti
    rw [c1]
    exact c5 h.ts

theorem timed_start {s : State} (h : Timed s) (i : DataChange.Item) (hp : i.prequeue = s.item.prequeue) :
    (∀ p ∈ (DataChange.startMonitoring i s.now s.value).prequeue, p.server ≤ s.now) ∧
    (DataChange.startMonitoring i s.now s.value).ts ≤ s.now + (DataChange.startMonitoring i s.now s.value).ti := by
  obtain ⟨-, -, -, -, -, -, s7, s8⟩ := start_fields i s.now s.value
  refine ⟨?_, by rw [s7]; exact Nat.le_add_right _ _⟩
  intro p hq
  rcases s8 p hq with hh | hh
  · exact h.dated p (hp ▸ hh)
  · rw [hh]; exact h.value

theorem timed_step {A : Arith} {id : Nat} {s : State} (h : Timed s) (e : Ev) (hd : ∀ v, e = .write v → v.server ≤ s.now) :
    Timed (step A id s e) := by
  cases e with
  | tick n =>
    refine ⟨Nat.le_trans h.value (Nat.le_add_right _ _), fun p hp => Nat.le_trans (h.dated p hp) (Nat.le_add_right _ _), ?_⟩
    have := h.ts
    show s.item.ts ≤ s.now + n + s.item.ti
    omega
  | write v => exact ⟨hd v rfl, h.dated, h.ts⟩
  | poll =>
    simp only [step]
    split
    · exact h
    · refine ⟨h.value, ?_, h.ts⟩
      intro p hp
      rcases List.mem_append.1 hp with hp | hp
      · exact h.dated p hp
      · rw [List.mem_singleton.1 hp]; exact h.value
  | timer max order req arrives =>
    simp only [step]
    split
    · have := timed_sample (A := A) (id := id) h
      exact ⟨this.value, this.dated, this.ts⟩
    · exact h
  | late max order results ok arrives =>
    simp only [step]
    split
    · have := timed_sample (A := A) (id := id) h
      exact ⟨this.value, this.dated, this.ts⟩
    · exact h
  | change f t ti n d =>
    obtain ⟨h1, h2⟩ := timed_start h { s.item with filter := f, ti := ti } rfl
    exact ⟨h.value, h1, h2⟩
  | mode m =>
    have key : (∀ p ∈ (DataChange.setMode s.item m s.now s.value).prequeue, p.server ≤ s.now) ∧
        (DataChange.setMode s.item m s.now s.value).ts ≤ s.now + (DataChange.setMode s.item m s.now s.value).ti := by
      unfold DataChange.setMode
      split
      · exact ⟨h.dated, h.ts⟩
      · dsimp only
        refine timed_start h _ ?_
        split <;> rfl
    exact ⟨h.value, key.1, key.2⟩
  | other e =>
    simp only [step]
    split
    · exact h
    · exact ⟨h.value, h.dated, h.ts⟩

theorem timed_run {A : Arith} {id : Nat} (evs : List Ev) : ∀ {s : State}, Timed s → Dated A id s evs → Timed (run A id s evs) := by
  induction evs with
  | nil => intro s h _; exact h
  | cons e evs ih => intro s h hd; exact ih (timed_step h e hd.1) hd.2

theorem keeps_run {A : Arith} {id : Nat} (evs : List Ev) : ∀ {s : State}, Keeps id s → Kept A id s evs → Keeps id (run A id s evs) := by
  induction evs with
  | nil => intro s h _; exact h
  | cons e evs ih => intro s h hk; exact ih (keeps_step h e hk.1) hk.2

/-! ### After the last change -/

theorem sub_alive {C : Type} (s : Subscription.Sub C) (e : Subscription.Ev C) (h : (Subscription.step s e).alive = true) :
    s.alive = true := by
  unfold Subscription.step at h
  cases ha : s.alive with
  | true => rfl
  | false => rw [if_pos ha, ha] at h; exact h

theorem delivery_alive (d : Delivery.State DV) (e : Delivery.Ev DV) (h : (Delivery.step d e).sub.alive = true) :
    d.sub.alive = true := by
  cases e with
  | item ie => cases ie <;> exact h
  | timer max order req arrives => exact sub_alive _ _ h
  | late max order results ok arrives => exact sub_alive _ _ h
  | ack n => exact sub_alive _ _ h
  | republish n ok arrives => exact sub_alive _ _ h
  | setMode b => exact sub_alive _ _ h
  | modify l k => exact sub_alive _ _ h
  | touch => exact sub_alive _ _ h

theorem step_alive (A : Arith) (id : Nat) (s : State) (e : Ev) (h : (step A id s e).delivery.sub.alive = true) :
    s.delivery.sub.alive = true := by
  cases e with
  | tick n => exact h
  | write v => exact h
  | poll => simp only [step] at h; split at h <;> exact h
  | timer max order req arrives =>
    simp only [step] at h
    split at h
    · assumption
    · exact h
  | late max order results ok arrives =>
    simp only [step] at h
    split at h
    next hh => exact hh.1
    · exact h
  | change f t ti n d => exact delivery_alive _ _ h
  | mode m => exact delivery_alive _ _ h
  | other e =>
    simp only [step] at h
    split at h
    · exact h
    · exact delivery_alive _ _ h

theorem run_alive (A : Arith) (id : Nat) (evs : List Ev) : ∀ s : State, (run A id s evs).delivery.sub.alive = true →
    s.delivery.sub.alive = true := by
  induction evs with
  | nil => intro s h; exact h
  | cons e evs ih => intro s h; exact step_alive A id s e (ih _ h)

/-- What stays as it is. -/
structure Same (s s' : State) : Prop where
  value : s'.value = s.value
  mode : s'.item.mode = s.item.mode
  ti : s'.item.ti = s.item.ti
  filter : s'.item.filter = s.item.filter
  stamps : s'.item.timestamps = s.item.timestamps

theorem Same.rfl' (s : State) : Same s s := ⟨rfl, rfl, rfl, rfl, rfl⟩

theorem Same.trans {a b c : State} (h : Same a b) (h' : Same b c) : Same a c :=
  ⟨h'.value.trans h.value, h'.mode.trans h.mode, h'.ti.trans h.ti, h'.filter.trans h.filter, h'.stamps.trans h.stamps⟩

theorem same_sample (A : Arith) (id : Nat) (s : State) : Same s (sample A id s) := by
  obtain ⟨f1, f2, f3, -⟩ := sample_fields A id s
  obtain ⟨c1, c2, c3, c4, -⟩ := cycle_fields A s.item s.now
  exact ⟨f3, by rw [f1]; exact c2, by rw [f1]; exact c1, by rw [f1]; exact c4, by rw [f1]; exact c3⟩

theorem phase_sample {A : Arith} {id t0 : Nat} {s : State} (h : Phase A t0 s.value s.item) (hm : s.item.mode ≠ .disabled) :
    Phase A t0 s.value (sample A id s).item ∧ (t0 + s.item.ti ≤ s.now → Settled A s.value (sample A id s).item) ∧
    (Settled A s.value s.item → Settled A s.value (sample A id s).item) := by
  obtain ⟨f1, -⟩ := sample_fields A id s
  obtain ⟨h1, h2⟩ := phase_cycle h hm s.now
  rw [f1]
  exact ⟨⟨h1.dated, h1.ready, h1.due⟩, h2, fun hs => cycle_settled A _ _ _ hs⟩

theorem quiet_step {A : Arith} {id t0 : Nat} {s : State} (e : Ev) (hq : quiet e = true) (hm : s.item.mode ≠ .disabled)
    (h : Phase A t0 s.value s.item) (hv : s.value.server ≤ t0) :
    Same s (step A id s e) ∧ Phase A t0 s.value (step A id s e).item ∧
    (Settled A s.value s.item → Settled A s.value (step A id s e).item) := by
  cases e with
  | tick n => exact ⟨⟨rfl, rfl, rfl, rfl, rfl⟩, h, fun hh => hh⟩
  | write v => cases hq
  | poll =>
    simp only [step]
    rw [if_neg hm]
    refine ⟨⟨rfl, rfl, rfl, rfl, rfl⟩, ⟨?_, .inr ?_, ?_⟩, ?_⟩
    · intro p hp
      rcases List.mem_append.1 hp with hp | hp
      · exact h.dated p hp
      · rw [List.mem_singleton.1 hp]; exact hv
    · show (s.item.prequeue ++ [s.value]).getLast? = _
      simp
    · rcases h.due with hh | hh | hh
      · exact .inl hh
      · exact .inr (.inl hh)
      · refine .inr (.inr ⟨hh.1, ?_⟩)
        intro p hp
        rcases List.mem_append.1 hp with hp | hp
        · exact hh.2 p hp
        · exact List.mem_singleton.1 hp
    · intro hh
      refine ⟨hh.1, ?_⟩
      intro p hp
      rcases List.mem_append.1 hp with hp | hp
      · exact hh.2 p hp
      · exact List.mem_singleton.1 hp
  | timer max order req arrives =>
    simp only [step]
    split
    · have := phase_sample (id := id) h hm
      have hs := same_sample A id s
      exact ⟨⟨hs.value, hs.mode, hs.ti, hs.filter, hs.stamps⟩, this.1, this.2.2⟩
    · exact ⟨Same.rfl' s, h, fun hh => hh⟩
  | late max order results ok arrives =>
    simp only [step]
    split
    · have := phase_sample (id := id) h hm
      have hs := same_sample A id s
      exact ⟨⟨hs.value, hs.mode, hs.ti, hs.filter, hs.stamps⟩, this.1, this.2.2⟩
    · exact ⟨Same.rfl' s, h, fun hh => hh⟩
  | change f t ti n d => cases hq
  | mode m => cases hq
  | other e =>
    simp only [step]
    split
    · exact ⟨Same.rfl' s, h, fun hh => hh⟩
    · exact ⟨⟨rfl, rfl, rfl, rfl, rfl⟩, h, fun hh => hh⟩

theorem quiet_run {A : Arith} {id t0 : Nat} (evs : List Ev) : ∀ {s : State}, (∀ e ∈ evs, quiet e = true) →
    s.item.mode ≠ .disabled → Phase A t0 s.value s.item → s.value.server ≤ t0 →
    Same s (run A id s evs) ∧ Phase A t0 s.value (run A id s evs).item ∧
    (Settled A s.value s.item → Settled A s.value (run A id s evs).item) := by
  induction evs with
  | nil => intro s _ _ h _; exact ⟨Same.rfl' s, h, fun hh => hh⟩
  | cons e evs ih =>
    intro s hq hm h hv
    obtain ⟨h1, h2, h3⟩ := quiet_step (A := A) (id := id) e (hq e (by simp)) hm h hv
    have := ih (s := step A id s e) (fun x hx => hq x (List.mem_cons_of_mem _ hx)) (by rw [h1.mode]; exact hm)
      (by rw [h1.value]; exact h2) (by rw [h1.value]; exact hv)
    rw [h1.value] at this
    obtain ⟨g1, g2, g3⟩ := this
    exact ⟨h1.trans g1, g2, fun hs => g3 (h3 hs)⟩

/-- Once a value was polled and the sampling interval has passed, a turn of the timer makes the item aware of it, for as
long as it stays. -/
theorem settled_run {A : Arith} {id : Nat} {s : State} (ht : Timed s) (hm : s.item.mode ≠ .disabled) (a b : List Ev)
    (max : Nat) (order : List Nat) (req : Subscription.Req) (arrives : Bool)
    (hqa : ∀ e ∈ a, quiet e = true) (hqb : ∀ e ∈ b, quiet e = true)
    (hlive : (run A id s (.poll :: a ++ .timer max order req arrives :: b)).delivery.sub.alive = true)
    (htime : s.now + s.item.ti ≤ (run A id s (.poll :: a)).now) :
    Same s (run A id s (.poll :: a ++ .timer max order req arrives :: b)) ∧
    Settled A s.value (run A id s (.poll :: a ++ .timer max order req arrives :: b)).item := by
  have hp : Phase A s.now s.value (step A id s .poll).item ∧ Same s (step A id s .poll) := by
    simp only [step]
    rw [if_neg hm]
    refine ⟨⟨?_, .inr ?_, .inr (.inl ht.ts)⟩, rfl, rfl, rfl, rfl, rfl⟩
    · intro p hp
      rcases List.mem_append.1 hp with hp | hp
      · exact ht.dated p hp
      · rw [List.mem_singleton.1 hp]; exact ht.value
    · show (s.item.prequeue ++ [s.value]).getLast? = _
      simp
  rw [run_append] at hlive ⊢
  have e1 : run A id s (.poll :: a) = run A id (step A id s .poll) a := rfl
  rw [e1] at hlive htime ⊢
  obtain ⟨q1, q2, q3⟩ := quiet_run (A := A) (id := id) (t0 := s.now) a (s := step A id s .poll) hqa (by rw [hp.2.mode]; exact hm)
    (by rw [hp.2.value]; exact hp.1) (by rw [hp.2.value]; exact ht.value)
  have hs1 := hp.2.trans q1
  rw [hp.2.value] at q2
  generalize run A id (step A id s .poll) a = s1 at *
  have e2 : run A id s1 (.timer max order req arrives :: b) = run A id (step A id s1 (.timer max order req arrives)) b := rfl
  rw [e2] at hlive ⊢
  have halive := step_alive A id _ _ (run_alive A id b _ hlive)
  have hm1 : s1.item.mode ≠ .disabled := by rw [hs1.mode]; exact hm
  have key : Same s1 (step A id s1 (.timer max order req arrives)) ∧
      Phase A s.now s.value (step A id s1 (.timer max order req arrives)).item ∧
      Settled A s.value (step A id s1 (.timer max order req arrives)).item := by
    simp only [step]
    rw [if_pos halive]
    have hss := same_sample A id s1
    have := phase_sample (id := id) (t0 := s.now) (A := A) (s := s1) (by rw [hs1.value]; exact q2) hm1
    rw [hs1.value, hs1.ti] at this
    exact ⟨⟨hss.value, hss.mode, hss.ti, hss.filter, hss.stamps⟩, this.1, this.2.1 htime⟩
  have hs2 := hs1.trans key.1
  obtain ⟨r1, r2, r3⟩ := quiet_run (A := A) (id := id) (t0 := s.now) b (s := step A id s1 (.timer max order req arrives)) hqb
    (by rw [hs2.mode]; exact hm) (by rw [hs2.value]; exact key.2.1) (by rw [hs2.value]; exact ht.value)
  rw [hs2.value] at r3
  exact ⟨hs2.trans r1, r3 key.2.2⟩

/-! ### What the client has -/

theorem feed_past (id : Nat) (d0 : Delivery.State DV) (vs : List DV) : ∀ s : State, s.delivery = Delivery.run d0 s.past →
    (feed id s vs).delivery = Delivery.run d0 (feed id s vs).past := by
  induction vs with
  | nil => intro s h; exact h
  | cons v vs ih =>
    intro s h
    refine ih (tell s _) ?_
    simp only [tell]
    rw [Delivery.run_snoc, ← h]

theorem past_tell {d0 : Delivery.State DV} {s : State} (h : s.delivery = Delivery.run d0 s.past) (e : Delivery.Ev DV) :
    (tell s e).delivery = Delivery.run d0 (tell s e).past := by
  simp only [tell]
  rw [Delivery.run_snoc, ← h]

theorem past_step {A : Arith} {id : Nat} {d0 : Delivery.State DV} {s : State} (h : s.delivery = Delivery.run d0 s.past) (e : Ev) :
    (step A id s e).delivery = Delivery.run d0 (step A id s e).past := by
  have hs : (sample A id s).delivery = Delivery.run d0 (sample A id s).past := feed_past id d0 _ _ h
  cases e with
  | tick n => exact h
  | write v => exact h
  | poll => simp only [step]; split <;> exact h
  | timer max order req arrives =>
    simp only [step]
    split
    · exact past_tell hs _
    · exact h
  | late max order results ok arrives =>
    simp only [step]
    split
    · exact past_tell hs _
    · exact h
  | change f t ti n d => exact past_tell (s := { s with item := _ }) h _
  | mode m => exact past_tell (s := { s with item := _ }) h _
  | other e =>
    simp only [step]
    split
    · exact h
    · exact past_tell h _

theorem past_run {A : Arith} {id : Nat} {d0 : Delivery.State DV} (evs : List Ev) : ∀ {s : State}, s.delivery = Delivery.run d0 s.past →
    (run A id s evs).delivery = Delivery.run d0 (run A id s evs).past := by
  induction evs with
  | nil => intro s h; exact h
  | cons e evs ih => intro s h; exact ih (past_step h e)

theorem known_told {id : Nat} {en : Bool} {l k : Nat} {s : State} (hp : s.delivery = Delivery.run (Delivery.init en l k) s.past)
    (hc : Careful (Delivery.init en l k) s.past) (hn : s.delivery.sub.produced.length < 2 ^ 32) (hall : HasAll s)
    (hw : waiting id s.delivery = []) : lastKnown id s = (told id s.delivery.items).getLast? := by
  have I := Delivery.inv_run en l k s.past hc (by rw [← hp]; exact hn)
  rw [← hp] at I
  unfold lastKnown told
  rw [Delivery.assembled_eq I hn id _ (Nat.le_refl _) hall, Delivery.delivered_eq I id, List.take_length, ← waiting_queued, hw,
    List.append_nil]

/-! ### Values that were written -/

theorem holds_run {A : Arith} {id : Nat} (P : DV → Prop) (hi : P initialValue) (evs : List Ev) : ∀ {s : State},
    DataChange.Holds P s.item → P s.value → (∀ v ∈ writes evs, P v) →
    DataChange.Holds P (run A id s evs).item := by
  induction evs with
  | nil => intro s h _ _; exact h
  | cons e evs ih =>
    intro s h hv hw
    have hs : DataChange.Holds P (sample A id s).item := by
      rw [(sample_fields A id s).1]
      have := (DataChange.holds_step A P hi s.item (.cycle s.now none) h (by intro v hv; cases hv)).1
      exact this
    have hrest : ∀ v ∈ writes evs, P v := by
      intro v hv
      refine hw v ?_
      unfold writes at hv ⊢
      rw [List.filterMap_cons]
      split
      · exact hv
      · exact List.mem_cons_of_mem _ hv
    have key : DataChange.Holds P (step A id s e).item ∧ P (step A id s e).value := by
      cases e with
      | tick n => exact ⟨h, hv⟩
      | write v => exact ⟨h, hw v (by simp [writes])⟩
      | poll =>
        simp only [step]
        split
        · exact ⟨h, hv⟩
        · exact ⟨(DataChange.holds_step A P hi s.item (.poll s.value) h (by intro v h; rw [List.mem_singleton.1 h]; exact hv)).1, hv⟩
      | timer max order req arrives =>
        simp only [step]
        split
        · exact ⟨hs, by show P (sample A id s).value; rw [(sample_fields A id s).2.2.1]; exact hv⟩
        · exact ⟨h, hv⟩
      | late max order results ok arrives =>
        simp only [step]
        split
        · exact ⟨hs, by show P (sample A id s).value; rw [(sample_fields A id s).2.2.1]; exact hv⟩
        · exact ⟨h, hv⟩
      | change f t ti n d =>
        exact ⟨(DataChange.holds_step A P hi s.item (.modify f t ti s.now s.value) h
          (by intro v h; rw [List.mem_singleton.1 h]; exact hv)).1, hv⟩
      | mode m =>
        exact ⟨(DataChange.holds_step A P hi s.item (.setMode m s.now s.value) h
          (by intro v h; rw [List.mem_singleton.1 h]; exact hv)).1, hv⟩
      | other e =>
        simp only [step]
        split <;> exact ⟨h, hv⟩
    exact ih key.1 key.2 hrest

/-! ### The new item -/

theorem init_keeps (id : Nat) (en : Bool) (l k : Nat) (m : DataChange.Mode) (f : DataChange.Filter) (t : DataChange.Timestamps)
    (ti size : Nat) (d : Bool) (now : Nat) (v : DV) : Keeps id (init id en l k m f t ti size d now v) := by
  obtain ⟨s1, s2, s3, s4, -⟩ := start_fields ⟨m, ti, now, f, t, [], initialValue, [], [], none⟩ now v
  have e1 : (init id en l k m f t ti size d now v).item = DataChange.startMonitoring ⟨m, ti, now, f, t, [], initialValue, [], [], none⟩ now v := rfl
  have e2 : (init id en l k m f t ti size d now v).delivery.items =
    ⟨[MonitoredItem.newItem id (queueMode m) size d], if queueMode m = .disabled then 0 + 1 else 0, []⟩ := rfl
  refine ⟨by rw [e2]; simp, ?_, by rw [e1, s2], .inl (by rw [e1, s3])⟩
  rw [e2, e1, s1]
  have hid : (MonitoredItem.newItem id (queueMode m) size d : MonitoredItem.Item DV).id = id ∧
      (MonitoredItem.newItem id (queueMode m) size d : MonitoredItem.Item DV).mode = queueMode m := by
    unfold MonitoredItem.newItem MonitoredItem.setQueueSize
    dsimp only
    repeat' split
    all_goals exact ⟨rfl, rfl⟩
  simp [modeOf, MonitoredItem.find, hid.1, hid.2]

theorem init_timed (id : Nat) (en : Bool) (l k : Nat) (m : DataChange.Mode) (f : DataChange.Filter) (t : DataChange.Timestamps)
    (ti size : Nat) (d : Bool) (now : Nat) (v : DV) (hv : v.server ≤ now) : Timed (init id en l k m f t ti size d now v) := by
  obtain ⟨-, -, -, -, -, -, s7, s8⟩ := start_fields ⟨m, ti, now, f, t, [], initialValue, [], [], none⟩ now v
  refine ⟨hv, ?_, ?_⟩
  · intro p hp
    rcases s8 p hp with h | h
    · cases h
    · rw [h]; exact hv
  · show (DataChange.startMonitoring _ _ _).ts ≤ now + _
    rw [s7]
    exact Nat.le_add_right _ _

theorem init_holds (id : Nat) (en : Bool) (l k : Nat) (m : DataChange.Mode) (f : DataChange.Filter) (t : DataChange.Timestamps)
    (ti size : Nat) (d : Bool) (now : Nat) (v : DV) (P : DV → Prop) (hi : P initialValue) (hv : P v) :
    DataChange.Holds P (init id en l k m f t ti size d now v).item :=
  DataChange.holds_start P _ now v ⟨(by intro x h; cases h), hi, (by intro s h; cases h)⟩ hv

/-! ### Values that are not reported -/

theorem scalar_sound (a b : DataChange.Scalar) (h : a.eq b = true) : a = b := by
  cases a <;> cases b <;> simp [DataChange.Scalar.eq] at h ⊢ <;> grind

theorem all_sound (as : List DataChange.Scalar) : ∀ bs : List DataChange.Scalar, as.length = bs.length →
    DataChange.allEq DataChange.Scalar.eq as bs = true → as = bs := by
  induction as with
  | nil => intro bs hl _; cases bs with
    | nil => rfl
    | cons b bs => simp at hl
  | cons a as ih =>
    intro bs hl h
    cases bs with
    | nil => simp at hl
    | cons b bs =>
      simp only [DataChange.allEq, Bool.and_eq_true] at h
      rw [scalar_sound a b h.1, ih bs (by simpa using hl) h.2]

theorem deep_sound (a b : DataChange.Val) (hc : DataChange.Coherent a b) (h : DataChange.deepEqual a b = true) :
    DataChange.content a = DataChange.content b := by
  cases a with
  | null => cases b <;> simp [DataChange.deepEqual, DataChange.content] at h ⊢
  | scalar s =>
    cases b with
    | scalar s' => simp only [DataChange.deepEqual] at h; rw [scalar_sound s s' h]
    | null => simp [DataChange.deepEqual] at h
    | slice n p e as => simp [DataChange.deepEqual] at h
  | slice n p e as =>
    cases b with
    | null => simp [DataChange.deepEqual] at h
    | scalar s => simp [DataChange.deepEqual] at h
    | slice m q f bs =>
      simp only [DataChange.deepEqual] at h
      iterate 3 (split at h; cases h)
      rename_i h1 h2 h3
      have h1 : e = f := by simpa using h1
      have h2 : n = m := by simpa using h2
      have h3 : as.length = bs.length := by simpa using h3
      have : as = bs := by
        split at h
        next hp => exact hc hp h1 h2 h3
        · exact all_sound as bs h3 h
      rw [DataChange.content, DataChange.content, h1, h2, this]

theorem stamps_keep (v : DV) (t : DataChange.Timestamps) : (withTimestamps v t).value = v.value ∧ (withTimestamps v t).status = v.status := by
  cases t <;> exact ⟨rfl, rfl⟩

theorem aware_same {A : Arith} {v : DV} {i : DataChange.Item} (h : Aware A v i) (hf : i.filter = ⟨.statusValue, .none⟩)
    (hc : DataChange.Coherent v.value i.prev.value) :
    DataChange.content i.prev.value = DataChange.content v.value ∧ i.prev.status.toNat / 2 ^ 12 = v.status.toNat / 2 ^ 12 := by
  rcases h with h | h
  · rw [h]; exact ⟨rfl, rfl⟩
  · rw [hf] at h
    simp only [isDataChange, DataChange.valueChange] at h
    split at h
    · cases h
    next hs =>
      refine ⟨(deep_sound _ _ hc (by simpa using h)).symm, ?_⟩
      have := fun hd => hs ((DataChange.status_differs v.status i.prev.status).2 hd)
      unfold DataChange.StatusDiffers at this
      exact (Classical.not_not.1 this).symm

/-! ### The theorems -/

/-- What a client knows that has all messages, once nothing waits: the last value put into the queue. -/
theorem known_last {A : Arith} {id : Nat} {en : Bool} {l k : Nat} {m : DataChange.Mode} {f : DataChange.Filter}
    {t : DataChange.Timestamps} {ti size : Nat} {d : Bool} {now : Nat} {v0 : DV} {evs : List Ev} {s : State}
    (hs : s = run A id (init id en l k m f t ti size d now v0) evs) (hk : Kept A id (init id en l k m f t ti size d now v0) evs)
    (hc : Careful (Delivery.init en l k) s.past) (hn : s.delivery.sub.produced.length < 2 ^ 32) (hall : HasAll s)
    (hw : waiting id s.delivery = []) (hne : s.item.prev ≠ initialValue) :
    lastKnown id s = some (withTimestamps s.item.prev s.item.timestamps) := by
  have K := keeps_run evs (init_keeps id en l k m f t ti size d now v0) hk
  have hp : s.delivery = Delivery.run (Delivery.init en l k) s.past := by
    rw [hs]
    refine past_run evs ?_
    rfl
  rw [← hs] at K
  rw [known_told hp hc hn hall hw]
  exact K.last.resolve_left hne

/-- **C132 (partial).** Whatever happened before: if the variable keeps its value from a poll on, the sampling interval
passes, the timer of the subscription comes round once more, and the queue of the item is empty in the end, then a careful
client that has all messages knows the value of the variable, and its status but for the flags in the lower bits.
(Nothing is assumed of values before, except that none is dated ahead of the clock and no array is changed in place.) -/
theorem C132_last_partial (A : Arith) (id : Nat) (en : Bool) (l k : Nat) (m : DataChange.Mode) (f : DataChange.Filter)
    (t : DataChange.Timestamps) (ti size : Nat) (d : Bool) (now : Nat) (v0 : DV) (pre a b evs : List Ev)
    (max : Nat) (order : List Nat) (req : Subscription.Req) (arrives : Bool) (s0 p s : State)
    (hs0 : s0 = init id en l k m f t ti size d now v0) (hp : p = run A id s0 pre)
    (hevs : evs = pre ++ (.poll :: a ++ .timer max order req arrives :: b)) (hs : s = run A id s0 evs)
    (hv0 : v0.server ≤ now) (hd : Dated A id s0 evs) (hk : Kept A id s0 evs)
    (hqa : ∀ e ∈ a, quiet e = true) (hqb : ∀ e ∈ b, quiet e = true)
    (hm : p.item.mode ≠ .disabled) (hf : p.item.filter = ⟨.statusValue, .none⟩)
    (htime : p.now + p.item.ti ≤ (run A id p (.poll :: a)).now)
    (hcoh : ∀ w ∈ v0 :: writes evs, DataChange.Coherent s.value.value w.value)
    (hbw : s.value.status.toNat / 2 ^ 12 ≠ 0x80320)
    (hc : Careful (Delivery.init en l k) s.past) (hn : s.delivery.sub.produced.length < 2 ^ 32)
    (hlive : s.delivery.sub.alive = true) (hall : HasAll s) (hw : waiting id s.delivery = []) :
    ∃ u, lastKnown id s = some u ∧ DataChange.content u.value = DataChange.content s.value.value ∧
      u.status.toNat / 2 ^ 12 = s.value.status.toNat / 2 ^ 12 := by
  have hsp : s = run A id p (.poll :: a ++ .timer max order req arrives :: b) := by rw [hs, hevs, hp, run_append]
  have ht : Timed p := by
    rw [hp]
    refine timed_run pre (by rw [hs0]; exact init_timed id en l k m f t ti size d now v0 hv0) ?_
    rw [hevs, dated_append] at hd
    exact hd.1
  obtain ⟨h1, h2⟩ := settled_run (A := A) (id := id) ht hm a b max order req arrives hqa hqb (by rw [← hsp]; exact hlive) htime
  rw [← hsp] at h1 h2
  rw [← h1.value] at h2
  have H := holds_run (A := A) (id := id) (fun w => DataChange.Coherent s.value.value w.value)
    (by show DataChange.Coherent s.value.value .null; cases s.value.value <;> exact trivial) evs (s := s0)
    (by
      rw [hs0]
      refine init_holds id en l k m f t ti size d now v0 _ ?_ (hcoh v0 (by simp))
      show DataChange.Coherent s.value.value .null
      cases s.value.value <;> exact trivial)
    (by rw [hs0]; exact hcoh v0 (by simp))
    (fun w hw => hcoh w (List.mem_cons_of_mem _ hw))
  rw [← hs] at H
  have hsame := aware_same h2.1 (h1.filter.trans hf) H.2.1
  have hne : s.item.prev ≠ initialValue := by
    intro h
    rw [h] at hsame
    exact hbw hsame.2.symm
  have hkn := known_last (A := A) (hs0 ▸ hs) (hs0 ▸ hk) hc hn hall hw hne
  refine ⟨_, hkn, ?_, ?_⟩
  · rw [(stamps_keep _ _).1]; exact hsame.1
  · rw [(stamps_keep _ _).2]; exact hsame.2

theorem aware_band {A : Arith} (hA : A.Lawful) {v : DV} {i : DataChange.Item} {dd : Rat} {b : Nat} {x y : BitVec 64} (h : Aware A v i)
    (hf : i.filter = ⟨.statusValue, .absolute (.fin dd)⟩) (hv : v.value = .scalar (.int b x)) (hp : i.prev.value = .scalar (.int b y))
    (hb : b ≤ 32) (hx : DataChange.fits b x) (hy : DataChange.fits b y) :
    (y = x ∨ DataChange.dist (x.toInt : Int) (y.toInt : Int) ≤ dd) ∧ i.prev.status.toNat / 2 ^ 12 = v.status.toNat / 2 ^ 12 := by
  rcases h with h | h
  · rw [h] at hp ⊢
    rw [hv] at hp
    cases hp
    exact ⟨.inl rfl, rfl⟩
  · rw [hf] at h
    simp only [isDataChange, hv, hp] at h
    split at h
    · cases h
    next hs =>
      have hrep : DataChange.reported A dd (.int b x) (.int b y) = false := by
        simpa [DataChange.reported, isDataChange] using h
      have hiff := DataChange.C54_signed_partial A hA dd b x y (.inl ⟨hx, hy, hb⟩)
      refine ⟨.inr ?_, ?_⟩
      · have : ¬ dd < DataChange.dist (x.toInt : Int) (y.toInt : Int) := fun hh => by rw [hiff.2 hh] at hrep; cases hrep
        grind
      · have := fun hd => hs ((DataChange.status_differs v.status i.prev.status).2 hd)
        unfold DataChange.StatusDiffers at this
        exact (Classical.not_not.1 this).symm

/-- **C132 (deadband, partial).** With an absolute deadband, for a variable that holds signed numbers of up to 32 bits:
what the client knows in the end is within the deadband of the value of the variable. -/
theorem C132_band_partial (A : Arith) (hA : A.Lawful) (id : Nat) (en : Bool) (l k : Nat) (m : DataChange.Mode) (f : DataChange.Filter)
    (t : DataChange.Timestamps) (ti size : Nat) (d : Bool) (now : Nat) (v0 : DV) (pre a b evs : List Ev)
    (max : Nat) (order : List Nat) (req : Subscription.Req) (arrives : Bool) (s0 p s : State)
    (hs0 : s0 = init id en l k m f t ti size d now v0) (hp : p = run A id s0 pre)
    (hevs : evs = pre ++ (.poll :: a ++ .timer max order req arrives :: b)) (hs : s = run A id s0 evs)
    (hv0 : v0.server ≤ now) (hd : Dated A id s0 evs) (hk : Kept A id s0 evs)
    (hqa : ∀ e ∈ a, quiet e = true) (hqb : ∀ e ∈ b, quiet e = true) (dd : Rat)
    (hm : p.item.mode ≠ .disabled) (hf : p.item.filter = ⟨.statusValue, .absolute (.fin dd)⟩)
    (htime : p.now + p.item.ti ≤ (run A id p (.poll :: a)).now) (bits : Nat) (hbits : bits ≤ 32)
    (hnum : ∀ w ∈ s.value :: v0 :: writes evs, ∃ x, w.value = .scalar (.int bits x) ∧ DataChange.fits bits x ∧
      w.status.toNat / 2 ^ 12 ≠ 0x80320)
    (hc : Careful (Delivery.init en l k) s.past) (hn : s.delivery.sub.produced.length < 2 ^ 32)
    (hlive : s.delivery.sub.alive = true) (hall : HasAll s) (hw : waiting id s.delivery = []) :
    ∃ u x y, lastKnown id s = some u ∧ s.value.value = .scalar (.int bits x) ∧ u.value = .scalar (.int bits y) ∧
      (y = x ∨ DataChange.dist (x.toInt : Int) (y.toInt : Int) ≤ dd) ∧
      u.status.toNat / 2 ^ 12 = s.value.status.toNat / 2 ^ 12 := by
  have hsp : s = run A id p (.poll :: a ++ .timer max order req arrives :: b) := by rw [hs, hevs, hp, run_append]
  have ht : Timed p := by
    rw [hp]
    refine timed_run pre (by rw [hs0]; exact init_timed id en l k m f t ti size d now v0 hv0) ?_
    rw [hevs, dated_append] at hd
    exact hd.1
  obtain ⟨h1, h2⟩ := settled_run (A := A) (id := id) ht hm a b max order req arrives hqa hqb (by rw [← hsp]; exact hlive) htime
  rw [← hsp] at h1 h2
  rw [← h1.value] at h2
  let P : DV → Prop := fun w => w = initialValue ∨ ∃ x, w.value = .scalar (.int bits x) ∧ DataChange.fits bits x ∧
      w.status.toNat / 2 ^ 12 ≠ 0x80320
  have H := holds_run (A := A) (id := id) P (.inl rfl) evs (s := s0)
    (by
      rw [hs0]
      exact init_holds id en l k m f t ti size d now v0 P (.inl rfl) (.inr (hnum v0 (by simp))))
    (by rw [hs0]; exact .inr (hnum v0 (by simp)))
    (fun w hw => .inr (hnum w (by simp [hw])))
  rw [← hs] at H
  obtain ⟨x, hx1, hx2, hx3⟩ := hnum s.value (by simp)
  have hne : s.item.prev ≠ initialValue := by
    intro h
    rcases h2.1 with hh | hh
    · rw [h] at hh
      rw [← hh] at hx1
      cases hx1
    · rw [h1.filter.trans hf, h] at hh
      simp only [isDataChange] at hh
      split at hh
      · cases hh
      · rw [hx1] at hh
        cases hh
  rcases H.2.1 with hh | ⟨y, hy1, hy2, hy3⟩
  · exact absurd hh hne
  · have hb := aware_band hA h2.1 (h1.filter.trans hf) hx1 hy1 hbits hx2 hy2
    refine ⟨_, x, y, known_last (A := A) (hs0 ▸ hs) (hs0 ▸ hk) hc hn hall hw hne, hx1, ?_, hb.1, ?_⟩
    · rw [(stamps_keep _ _).1]; exact hy1
    · rw [(stamps_keep _ _).2]; exact hb.2

/-! ### Asking again, and how soon -/

/-- The client asks again for the messages 1 to `n`. -/
def askAgain (n : Nat) : List Ev := (Delivery.askAgain n).map Ev.other

theorem run_asks (A : Arith) (id : Nat) (n : Nat) (s : State) : run A id s (askAgain n) =
    { s with
      delivery := Delivery.run s.delivery (Delivery.askAgain n)
      past := s.past ++ Delivery.askAgain n } := by
  unfold askAgain Delivery.askAgain
  generalize List.range n = ns
  induction ns generalizing s with
  | nil => simp [run, Delivery.run]
  | cons i ns ih =>
    have := ih (tell s (.republish (BitVec.ofNat 32 (i + 1)) true true))
    simp only [List.map_cons, tell, List.append_assoc, List.singleton_append] at this ⊢
    exact this

theorem asks_quiet (n : Nat) : ∀ e ∈ askAgain n, quiet e = true := by
  intro e he
  obtain ⟨x, -, rfl⟩ := List.mem_map.1 he
  rfl

theorem kept_append (A : Arith) (id : Nat) (a b : List Ev) : ∀ s, Kept A id s (a ++ b) ↔
    Kept A id s a ∧ Kept A id (run A id s a) b := by
  induction a with
  | nil => intro s; simp [Kept, run]
  | cons e a ih => intro s; simp only [List.cons_append, Kept, ih, and_assoc]; rfl

theorem dated_quiet (A : Arith) (id : Nat) (a : List Ev) : ∀ s, (∀ e ∈ a, quiet e = true) → Dated A id s a ∧ Kept A id s a ∧ writes a = [] := by
  induction a with
  | nil => intro s _; exact ⟨trivial, trivial, rfl⟩
  | cons e a ih =>
    intro s h
    obtain ⟨h1, h2, h3⟩ := ih (step A id s e) (fun x hx => h x (List.mem_cons_of_mem _ hx))
    have he := h e (by simp)
    refine ⟨⟨?_, h1⟩, ⟨?_, h2⟩, ?_⟩
    · intro v hv; rw [hv] at he; cases he
    · intro f t ti n d hv; rw [hv] at he; cases he
    · unfold writes at h3 ⊢
      rw [List.filterMap_cons]
      cases e with
      | write v => cases he
      | _ => exact h3

/-- **C132 (asking again, partial).** The same of a client that lost responses on the way, once it has asked again for
the messages. -/
theorem C132_asked_partial (A : Arith) (id : Nat) (en : Bool) (l k : Nat) (m : DataChange.Mode) (f : DataChange.Filter)
    (t : DataChange.Timestamps) (ti size : Nat) (d : Bool) (now : Nat) (v0 : DV) (pre a b evs : List Ev)
    (max : Nat) (order : List Nat) (req : Subscription.Req) (arrives : Bool) (s0 p s : State)
    (hs0 : s0 = init id en l k m f t ti size d now v0) (hp : p = run A id s0 pre)
    (hevs : evs = pre ++ (.poll :: a ++ .timer max order req arrives :: b)) (hs : s = run A id s0 evs)
    (hv0 : v0.server ≤ now) (hd : Dated A id s0 evs) (hk : Kept A id s0 evs)
    (hqa : ∀ e ∈ a, quiet e = true) (hqb : ∀ e ∈ b, quiet e = true)
    (hm : p.item.mode ≠ .disabled) (hf : p.item.filter = ⟨.statusValue, .none⟩)
    (htime : p.now + p.item.ti ≤ (run A id p (.poll :: a)).now)
    (hcoh : ∀ w ∈ v0 :: writes evs, DataChange.Coherent s.value.value w.value)
    (hbw : s.value.status.toNat / 2 ^ 12 ≠ 0x80320)
    (hc : Careful (Delivery.init en l k) s.past) (hn : s.delivery.sub.produced.length < 2 ^ 32)
    (hlive : s.delivery.sub.alive = true) (hw : waiting id s.delivery = []) :
    ∃ u, lastKnown id (run A id s (askAgain s.delivery.sub.produced.length)) = some u ∧
      DataChange.content u.value = DataChange.content s.value.value ∧
      u.status.toNat / 2 ^ 12 = s.value.status.toNat / 2 ^ 12 := by
  have hpast : s.delivery = Delivery.run (Delivery.init en l k) s.past := by
    rw [hs, hs0]
    exact past_run evs rfl
  obtain ⟨g1, g2, g3, g4, g5⟩ := Delivery.asked hc (by rw [← hpast]; exact hn) (by rw [← hpast]; exact hlive)
    s.delivery.sub.produced.length (by rw [← hpast]; exact Nat.le_refl _)
  rw [Delivery.run_append, ← hpast] at g2 g3 g4 g5
  have hr := run_asks A id s.delivery.sub.produced.length s
  have hq := asks_quiet s.delivery.sub.produced.length
  obtain ⟨x1, x2, x3⟩ := dated_quiet A id (askAgain s.delivery.sub.produced.length) s hq
  have hval : (run A id s (askAgain s.delivery.sub.produced.length)).value = s.value := by rw [hr]
  rw [← hval]
  refine C132_last_partial A id en l k m f t ti size d now v0 pre a (b ++ askAgain s.delivery.sub.produced.length)
    (evs ++ askAgain s.delivery.sub.produced.length) max order req arrives s0 p _ hs0 hp (by rw [hevs]; simp)
    (by rw [run_append, ← hs]) hv0 ((dated_append ..).2 ⟨hd, by rw [← hs]; exact x1⟩)
    ((kept_append ..).2 ⟨hk, by rw [← hs]; exact x2⟩) hqa ?_ hm hf htime ?_ ?_ ?_ ?_ ?_ ?_ ?_
  · intro e he
    rcases List.mem_append.1 he with he | he
    · exact hqb e he
    · exact hq e he
  · rw [hval]
    intro w hw
    refine hcoh w ?_
    have : writes (evs ++ askAgain s.delivery.sub.produced.length) = writes evs := by
      have : ∀ x y, writes (x ++ y) = writes x ++ writes y := fun x y => by simp [writes]
      rw [this, x3, List.append_nil]
    rw [this] at hw
    exact hw
  · rw [hval]; exact hbw
  · rw [hr]; exact g1
  · rw [hr]; simp only [g2]; exact hn
  · rw [hr]; exact g3
  · rw [hr]
    unfold HasAll
    simp only [g2]
    exact g5
  · rw [hr]
    unfold Delivery.Spec.waiting at hw ⊢
    simp only [g4]
    exact hw

/-- The places in the queues of all items of the subscription. -/
def places (s : State) : Nat := (s.delivery.items.items.map (·.size)).sum

theorem sample_sizes (id : Nat) (st : MonitoredItem.State DV) (v : DV) :
    (MonitoredItem.step st (.sample id v)).items.map (·.size) = st.items.map (·.size) := by
  dsimp only [MonitoredItem.step]
  split
  · rfl
  · split
    · rfl
    · unfold MonitoredItem.enqueueAt
      split
      · rfl
      · unfold MonitoredItem.update
        rw [List.map_map, List.map_map]
        refine List.map_congr_left fun x _ => ?_
        simp only [Function.comp]
        split <;> split <;> first | rfl | exact MonitoredItem.enqueue_size _ _

theorem places_feed (id : Nat) (vs : List DV) : ∀ s : State, places (feed id s vs) = places s := by
  induction vs with
  | nil => intro s; rfl
  | cons v vs ih =>
    intro s
    refine (ih (tell s (.item (.sample id v)))).trans ?_
    unfold places
    exact congrArg List.sum (sample_sizes id s.delivery.items v)

theorem sum_le {α : Type} (f g : α → Nat) (l : List α) (h : ∀ x ∈ l, f x ≤ g x) : (l.map f).sum ≤ (l.map g).sum := by
  induction l with
  | nil => exact Nat.le_refl _
  | cons a l ih =>
    simp only [List.map_cons, List.sum_cons]
    exact Nat.add_le_add (h a (by simp)) (ih fun x hx => h x (List.mem_cons_of_mem _ hx))

theorem collect_empties (is : List (MonitoredItem.Item DV)) : ∀ (max : Nat), (is.map (·.queue.length)).sum ≤ max →
    ∀ y ∈ (MonitoredItem.collect max is).1, y.mode = .reporting → y.queue = [] := by
  induction is with
  | nil => intro max _ y hy; cases hy
  | cons i is ih =>
    intro max h y hy hm
    simp only [List.map_cons, List.sum_cons] at h
    unfold MonitoredItem.collect at hy
    split at hy
    · dsimp only [MonitoredItem.notifications] at hy
      rcases List.mem_cons.1 hy with rfl | hy
      · exact List.drop_eq_nil_of_le (by omega)
      · refine ih _ ?_ y hy hm
        rw [List.length_take]
        omega
    next hc =>
      dsimp only at hy
      rcases List.mem_cons.1 hy with rfl | hy
      · exact absurd (by unfold MonitoredItem.considered; rw [hm]; rfl) hc
      · exact ih _ (by omega) y hy hm

theorem publish_empties (st : MonitoredItem.State DV) (hn : (st.items.map (·.id)).Nodup) (max : Nat) (order : List Nat)
    (hle : (st.items.map (·.queue.length)).sum ≤ max) :
    ∀ y ∈ (MonitoredItem.step st (.publish max order)).items, y.mode = .reporting → y.queue = [] := by
  rw [MonitoredItem.step_publish]
  have hperm := MonitoredItem.walk_perm (order := order) hn
  split
  next ha =>
    refine collect_empties _ max ?_
    rw [(hperm.map (·.queue.length)).sum_nat]
    exact hle
  next ha =>
    intro y hy hm
    have hy' := hperm.mem_iff.2 hy
    cases hq : y.queue with
    | nil => rfl
    | cons z zs =>
      refine absurd (List.any_eq_true.2 ⟨y, hy', ?_⟩) ha
      simp [MonitoredItem.available, MonitoredItem.considered, hm, hq]

theorem timer_items (d : Delivery.State DV) (max : Nat) (order : List Nat) (results : List Subscription.AckStatus) (ok arrives : Bool)
    (ha : d.sub.alive = true) (he : d.sub.enabled = true) :
    (Delivery.step d (.timer max order (.some results ok) arrives)).items = MonitoredItem.step d.items (.publish max order) ∧
    (Delivery.step d (.timer max order (.some results ok) arrives)).sub.alive = true := by
  have hsub : ∀ (x : Subscription.Sub (List (Nat × DV))) c more r b l, (Subscription.sendData x c more r b l).alive = x.alive := by
    intro x c more r b l; unfold Subscription.sendData; dsimp only; split <;> rfl
  have hkeep : ∀ (x : Subscription.Sub (List (Nat × DV))) r b, (Subscription.sendKeepAlive x r b).alive = x.alive ∧
      (Subscription.sendKeepAlive x r b).produced = x.produced := by
    intro x r b; unfold Subscription.sendKeepAlive; split <;> exact ⟨rfl, rfl⟩
  simp only [Delivery.step, Delivery.publishing]
  cases ho : Delivery.offer d.items max order with
  | some cm =>
    obtain ⟨c, more⟩ := cm
    have : Subscription.step d.sub (.cycle (some (c, more)) (.some results ok)) = Subscription.sendData d.sub c more results ok false := by
      simp [Subscription.step, Subscription.cycle, ha, he]
    rw [this, Delivery.sendData_produced, hsub]
    exact ⟨by simp, ha⟩
  | none =>
    have hst : MonitoredItem.step d.items (.publish max order) = d.items := by
      unfold Delivery.offer at ho
      rw [MonitoredItem.step_publish] at ho ⊢
      split
      next hany => rw [if_pos hany] at ho; simp at ho
      · rfl
    have : (Subscription.step d.sub (.cycle none (.some results ok))).produced = d.sub.produced ∧
        (Subscription.step d.sub (.cycle none (.some results ok))).alive = true := by
      simp only [Subscription.step, Subscription.cycle, ha, Bool.true_eq_false, if_false, ite_self]
      split
      · exact ⟨(hkeep _ _ _).2, (hkeep _ _ _).1⟩
      · exact ⟨rfl, rfl⟩
    rw [this.1, hst]
    exact ⟨by simp, this.2⟩

theorem timer_empties {id : Nat} {d : Delivery.State DV} (hn : (d.items.items.map (·.id)).Nodup) (hm : modeOf id d.items = some .reporting)
    (ha : d.sub.alive = true) (he : d.sub.enabled = true) (max : Nat) (order : List Nat) (results : List Subscription.AckStatus)
    (ok arrives : Bool) (hle : (d.items.items.map (·.queue.length)).sum ≤ max) :
    waiting id (Delivery.step d (.timer max order (.some results ok) arrives)) = [] := by
  have h1 := (timer_items d max order results ok arrives ha he).1
  have h2 := publish_empties d.items hn max order hle
  have h3 := mode_step id d.items hn (.publish max order) (by intro _ _ _ h; cases h) (by intro h; cases h) (by intro _ h; cases h)
  rw [hm] at h3
  unfold Delivery.Spec.waiting
  rw [h1]
  unfold modeOf at h3
  cases hf : MonitoredItem.find (MonitoredItem.step d.items (.publish max order)).items id with
  | none => rfl
  | some x =>
    rw [hf] at h3
    exact h2 x (List.mem_of_find?_eq_some hf) (by simpa using h3)

/-- **C132 (how soon, partial).** A value that a poll has found and that stays is known to a careful client of an enabled
subscription with a reporting item after one turn of the timer that comes when the sampling interval has passed since
the poll, if a Publish request is there and a message may hold as many values as the queues of the items; at the latest
when the client has asked again for the messages. -/
theorem C132_soon_partial (A : Arith) (id : Nat) (en : Bool) (l k : Nat) (m : DataChange.Mode) (f : DataChange.Filter)
    (t : DataChange.Timestamps) (ti size : Nat) (d : Bool) (now : Nat) (v0 : DV) (pre a evs : List Ev)
    (max : Nat) (order : List Nat) (results : List Subscription.AckStatus) (arrives : Bool) (s0 p q s : State)
    (hs0 : s0 = init id en l k m f t ti size d now v0) (hp : p = run A id s0 pre) (hq : q = run A id p (.poll :: a))
    (hevs : evs = pre ++ (.poll :: a ++ [.timer max order (.some results true) arrives])) (hs : s = run A id s0 evs)
    (hv0 : v0.server ≤ now) (hd : Dated A id s0 evs) (hk : Kept A id s0 evs)
    (hqa : ∀ e ∈ a, quiet e = true)
    (hm : p.item.mode = .reporting) (hf : p.item.filter = ⟨.statusValue, .none⟩)
    (htime : p.now + p.item.ti ≤ q.now) (hmax : places q ≤ max)
    (hlive : q.delivery.sub.alive = true) (hen : q.delivery.sub.enabled = true)
    (hcoh : ∀ w ∈ v0 :: writes evs, DataChange.Coherent s.value.value w.value)
    (hbw : s.value.status.toNat / 2 ^ 12 ≠ 0x80320)
    (hc : Careful (Delivery.init en l k) s.past) (hn : s.delivery.sub.produced.length < 2 ^ 32) :
    ∃ u, lastKnown id (run A id s (askAgain s.delivery.sub.produced.length)) = some u ∧
      DataChange.content u.value = DataChange.content s.value.value ∧
      u.status.toNat / 2 ^ 12 = s.value.status.toNat / 2 ^ 12 := by
  have hqs0 : q = run A id s0 (pre ++ .poll :: a) := by rw [hq, hp, run_append]
  have hsq : s = step A id q (.timer max order (.some results true) arrives) := by
    rw [hs, hevs, ← List.append_assoc, run_snoc, ← hqs0]
  have hstep : s = tell (sample A id q) (.timer max order (.some results true) arrives) := by
    rw [hsq]
    simp only [step]
    rw [if_pos hlive]
  have hkq : Kept A id s0 (pre ++ .poll :: a) := by
    rw [hevs, ← List.append_assoc, kept_append] at hk
    exact hk.1
  have K : Keeps id q := by
    rw [hqs0, hs0]
    exact keeps_run _ (init_keeps id en l k m f t ti size d now v0) (hs0 ▸ hkq)
  have K1 := keeps_sample (A := A) K
  have ht : Timed p := by
    rw [hp]
    refine timed_run pre (by rw [hs0]; exact init_timed id en l k m f t ti size d now v0 hv0) ?_
    rw [hevs, dated_append] at hd
    exact hd.1
  have hmq : q.item.mode = .reporting := by
    have hpoll : Phase A p.now p.value (step A id p .poll).item ∧ Same p (step A id p .poll) := by
      simp only [step]
      rw [if_neg (by rw [hm]; intro h; cases h)]
      refine ⟨⟨?_, .inr ?_, .inr (.inl ht.ts)⟩, rfl, rfl, rfl, rfl, rfl⟩
      · intro x hx
        rcases List.mem_append.1 hx with hx | hx
        · exact ht.dated x hx
        · rw [List.mem_singleton.1 hx]; exact ht.value
      · show (p.item.prequeue ++ [p.value]).getLast? = _
        simp
    have := (quiet_run (A := A) (id := id) (t0 := p.now) a (s := step A id p .poll) hqa
      (by rw [hpoll.2.mode, hm]; intro h; cases h) (by rw [hpoll.2.value]; exact hpoll.1)
      (by rw [hpoll.2.value]; exact ht.value)).1
    rw [hq]
    exact (hpoll.2.trans this).mode.trans hm
  have hsub := (sample_fields A id q).2.2.2
  have hmode : modeOf id (sample A id q).delivery.items = some .reporting := by
    rw [K1.mode, (same_sample A id q).mode, hmq]
    rfl
  -- the queues of the items are within their sizes
  have hpast : (sample A id q).delivery = Delivery.run (Delivery.init en l k) (sample A id q).past := by
    refine feed_past id _ _ _ ?_
    show q.delivery = Delivery.run (Delivery.init en l k) q.past
    rw [hqs0, hs0]
    exact past_run _ rfl
  have hcq : Careful (Delivery.init en l k) (sample A id q).past := by
    rw [hstep] at hc
    exact ((Delivery.careful_snoc _ _ _).1 hc).1
  have hnq : (sample A id q).delivery.sub.produced.length < 2 ^ 32 := by
    refine Nat.lt_of_le_of_lt ?_ hn
    rw [hstep]
    exact Delivery.produced_mono _ _
  have I := Delivery.inv_run en l k _ hcq (by rw [← hpast]; exact hnq)
  rw [← hpast] at I
  obtain ⟨ievs, hi1, -⟩ := I.itemRun
  have hle : ((sample A id q).delivery.items.items.map (·.queue.length)).sum ≤ max := by
    refine Nat.le_trans (sum_le _ (·.size) _ ?_) (Nat.le_trans (Nat.le_of_eq ?_) hmax)
    · intro x hx
      rw [hi1] at hx
      exact (MonitoredItem.C51_bound ievs x hx).2.2
    · rw [sample_eq]
      exact places_feed id _ _
  have hw : waiting id s.delivery = [] := by
    rw [hstep]
    exact timer_empties K1.nodup hmode (by rw [hsub]; exact hlive) (by rw [hsub]; exact hen) max order results true arrives hle
  have hls : s.delivery.sub.alive = true := by
    rw [hstep]
    exact (timer_items _ max order results true arrives (by rw [hsub]; exact hlive) (by rw [hsub]; exact hen)).2
  exact C132_asked_partial A id en l k m f t ti size d now v0 pre a [] evs max order (.some results true) arrives s0 p s hs0 hp
    hevs hs hv0 hd hk hqa (by intro e h; cases h) (by rw [hm]; intro h; cases h) hf (by rw [← hq]; exact htime) hcoh hbw hc hn hls hw

/-! ### Witnesses -/

section Examples

/-- A number with the time of its writing. -/
def number (x : BitVec 64) (at_ : Nat) : DV := ⟨.scalar (.int 32 x), 0, at_, 0, at_, 0⟩

/-- An item with room for three values, sampled every ten ticks, of a variable that is 1 at the time 5. -/
def exStart : State := init 7 true 30 10 .reporting ⟨.statusValue, .none⟩ .both 10 3 false 5 (number 1 5)

def served : Subscription.Req := .some [] true

/-- The first value is published; the variable becomes 2; the response that tells of it is lost. -/
def exPre : List Ev := [.timer 10 [7] served true, .tick 20, .write (number 2 25)]

def exAll : List Ev := exPre ++ (.poll :: [.tick 10] ++ [.timer 10 [7] served false])

example : ∃ u, lastKnown 7 (run DataChange.exactly 7 (run DataChange.exactly 7 exStart exAll) (askAgain 2)) = some u ∧
    DataChange.content u.value = .scalar (.int 32 2) ∧ u.status.toNat / 2 ^ 12 = 0 := by
  refine C132_soon_partial DataChange.exactly 7 true 30 10 .reporting ⟨.statusValue, .none⟩ .both 10 3 false 5 (number 1 5) exPre
    [.tick 10] exAll 10 [7] [] false exStart _ _ _ rfl rfl rfl rfl rfl (by decide) ?_ ?_ (by decide) rfl rfl (by decide +kernel)
    (by decide +kernel) (by decide +kernel) (by decide +kernel) ?_ (by decide +kernel) ?_ (by decide +kernel)
  · exact ⟨by simp, by simp, by intro v h; cases h; decide +kernel, by simp, by simp, by simp, trivial⟩
  · exact ⟨by simp, by simp, by simp, by simp, by simp, by simp, trivial⟩
  · intro w _
    trivial
  · refine ⟨trivial, trivial, ⟨rfl, by decide +kernel⟩, trivial, ⟨rfl, by decide +kernel⟩, trivial⟩

example : lastKnown 7 (run DataChange.exactly 7 exStart exPre) = some (number 1 5) ∧
    (run DataChange.exactly 7 exStart exAll).delivery.got.length = 1 ∧
    lastKnown 7 (run DataChange.exactly 7 (run DataChange.exactly 7 exStart exAll) (askAgain 2)) = some (number 2 25) := by
  decide +kernel

/-- The same with a deadband of 2: the variable goes from 1 to 3, of which the client is not told, and to 6, of which it is. -/
def exBand : State := init 7 true 30 10 .reporting ⟨.statusValue, .absolute (.fin 2)⟩ .both 10 3 false 5 (number 1 5)

example : ∃ u x y, lastKnown 7 (run DataChange.exactly 7 exBand [.timer 10 [7] served true, .tick 20, .write (number 3 25), .poll,
      .tick 10, .timer 10 [7] served true]) = some u ∧ DataChange.Val.scalar (.int 32 3) = .scalar (.int 32 x) ∧ u.value = .scalar (.int 32 y) ∧
    (y = x ∨ DataChange.dist (x.toInt : Int) (y.toInt : Int) ≤ 2) ∧ u.status.toNat / 2 ^ 12 = 0 := by
  refine C132_band_partial DataChange.exactly DataChange.exactly_lawful 7 true 30 10 .reporting ⟨.statusValue, .absolute (.fin 2)⟩
    .both 10 3 false 5 (number 1 5) [.timer 10 [7] served true, .tick 20, .write (number 3 25)] [.tick 10] [] _ 10 [7] served true
    exBand _ _ rfl rfl rfl rfl (by decide) ?_ ?_ (by decide) (by decide) 2 (by decide +kernel) rfl (by decide +kernel) 32 (by decide)
    ?_ ?_ (by decide +kernel) (by decide +kernel) ?_ (by decide +kernel)
  · exact ⟨by simp, by simp, by intro v h; cases h; decide +kernel, by simp, by simp, by simp, trivial⟩
  · exact ⟨by simp, by simp, by simp, by simp, by simp, by simp, trivial⟩
  · have h : ∀ w ∈ [number 3 25, number 1 5, number 3 25], ∃ x, w.value = .scalar (.int 32 x) ∧ DataChange.fits 32 x ∧
        w.status.toNat / 2 ^ 12 ≠ 0x80320 := by
      intro w hw
      simp only [List.mem_cons, List.not_mem_nil, or_false] at hw
      rcases hw with rfl | rfl | rfl <;> exact ⟨_, rfl, by unfold DataChange.fits; decide, by decide⟩
    exact h
  · exact ⟨trivial, trivial, ⟨rfl, by decide +kernel⟩, ⟨rfl, by decide +kernel⟩, trivial⟩
  · show ∀ i < 1, _
    decide +kernel

example : lastKnown 7 (run DataChange.exactly 7 exBand [.timer 10 [7] served true, .tick 20, .write (number 3 25), .poll,
      .tick 10, .timer 10 [7] served true]) = some (number 1 5) ∧
    lastKnown 7 (run DataChange.exactly 7 exBand [.timer 10 [7] served true, .tick 20, .write (number 6 25), .poll,
      .tick 10, .timer 10 [7] served true]) = some (number 6 25) := by decide +kernel

-- an item that only samples tells the client nothing, until it is told to report
example : lastKnown 7 (run DataChange.exactly 7 (init 7 true 30 10 .sampling ⟨.statusValue, .none⟩ .both 10 3 false 5 (number 1 5))
      [.timer 10 [7] served true, .tick 20, .write (number 2 25), .poll, .tick 10, .timer 10 [7] served true]) = none ∧
    lastKnown 7 (run DataChange.exactly 7 (init 7 true 30 10 .sampling ⟨.statusValue, .none⟩ .both 10 3 false 5 (number 1 5))
      [.timer 10 [7] served true, .tick 20, .write (number 2 25), .poll, .tick 10, .timer 10 [7] served true, .mode .reporting,
        .timer 10 [7] served true]) = some (number 2 25) := by decide +kernel

/-- Some more rounds: time passes, the item is polled, the timer comes round. -/
def moreRounds (n : Nat) : List Ev := (List.replicate n [.tick 10, .poll, .timer 10 [7] served true]).flatten

/-- **C132 fails (smaller queue).** The values 1, 2 and 3 wait; the client makes the queue smaller and wants the oldest
values. The newest ones are thrown away, yet the item takes 3 for reported: the client has 1, nothing waits, and though
the item was polled five times since, 3 does not come. -/
theorem C132_shrunk_fails :
    let evs : List Ev := [.timer 10 [7] .none true, .tick 10, .write (number 2 15), .poll, .tick 10, .timer 10 [7] .none true,
      .write (number 3 25), .poll, .tick 10, .timer 10 [7] .none true, .change ⟨.statusValue, .none⟩ .both 10 1 false]
    let s := run DataChange.exactly 7 exStart (evs ++ moreRounds 5)
    s.value = number 3 25 ∧ s.delivery.sub.alive = true ∧ waiting 7 s.delivery = [] ∧
      s.delivery.got = [(1, [(7, number 1 5)])] ∧ lastKnown 7 s = some (number 1 5) := by
  decide +kernel

/-- **C132 fails (dated ahead).** A value dated ahead of the clock (here by the application) holds back itself and all
values after it: at the time 85 the variable has been 3 for 60 ticks and was polled every ten, but the client has 1. -/
theorem C132_ahead_fails :
    let evs : List Ev := [.timer 10 [7] served true, .tick 10, .write (number 2 1000), .poll, .tick 10, .write (number 3 25)]
    let s := run DataChange.exactly 7 exStart (evs ++ moreRounds 6)
    s.now = 85 ∧ s.value = number 3 25 ∧ waiting 7 s.delivery = [] ∧ lastKnown 7 s = some (number 1 5) := by
  decide +kernel

end Examples

end Opcua.Watch
