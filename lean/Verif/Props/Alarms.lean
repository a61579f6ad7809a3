import Verif.Model.Alarms
import Verif.Props.Delivery
import Verif.Props.EventFilter

/-!
# C131: an event reaches every client that listens, once, in order and with the fields it asked for
-/

namespace Opcua.Alarms

namespace Spec

/-- The fields that a client has selected of an event. -/
def Chosen (space : AddressSpace.Space) (e : EventFilter.Event) (select : List EventFilter.Clause) (F : Fields) : Prop :=
  F.length = select.length ∧ ∀ (i : Nat) (c : EventFilter.Clause), select[i]? = some c →
    ∃ v, F[i]? = some v ∧ EventFilter.Selected space e c v

/-- What a listener should get: `Wanted space l b₀ evs b W` says that a listener that is enabled or not (`b₀`) should get
`W` from the events `evs`, and is enabled or not (`b`) after them. It should get each event that is raised while it is
enabled, if its node is the target or a notifier of it and the event passes its filter; and no other. -/
inductive Wanted (space : AddressSpace.Space) (l : Listener) (b₀ : Bool) : List Ev → Bool → List Fields → Prop
  | none : Wanted space l b₀ [] b₀ []
  | got {evs W} (t e F) : Wanted space l b₀ evs true W → AddressSpace.Hears space t l.node →
      EventFilter.Passes space e l.els → Chosen space e l.select F → Wanted space l b₀ (evs ++ [.raise t e]) true (W ++ [F])
  | far {evs W} (b t e) : Wanted space l b₀ evs b W → ¬ AddressSpace.Hears space t l.node →
      Wanted space l b₀ (evs ++ [.raise t e]) b W
  | barred {evs W} (b t e) : Wanted space l b₀ evs b W → ¬ EventFilter.Passes space e l.els →
      Wanted space l b₀ (evs ++ [.raise t e]) b W
  | off {evs W} (t e) : Wanted space l b₀ evs false W → Wanted space l b₀ (evs ++ [.raise t e]) false W
  | mode {evs W} (b m) : Wanted space l b₀ evs b W → Wanted space l b₀ (evs ++ [.mode l.id m]) (decide (m ≠ .disabled)) W
  | other {evs W} (b ev) : Wanted space l b₀ evs b W → (∀ t e, ev ≠ .raise t e) → (∀ m, ev ≠ .mode l.id m) →
      Wanted space l b₀ (evs ++ [ev]) b W

/-- The item is not deleted and its filter is not changed. -/
def Steady (l : Listener) : Ev → Prop
  | .change id _ _ _ => id ≠ l.id
  | .unlisten id => id ≠ l.id
  | _ => True

/-- Events that the code deals with well: the delivery ends at the Server object or where there is no notifier, and the
filter uses what is implemented. -/
def Fine (space : AddressSpace.Space) (rounds : Nat) (l : Listener) : Ev → Prop
  | .raise t e => (∃ L, AddressSpace.onEvent space rounds t [] = .done L) ∧ EventFilter.Shallow space e ∧
      EventFilter.FilterOk space e l.els ∧ ∀ c ∈ l.select, EventFilter.Plain space e c
  | _ => True

/-- No service has to do with the item. -/
def fresh (id : Nat) : Ev → Prop
  | .listen l _ _ => l.id ≠ id
  | .change k _ _ _ => k ≠ id
  | .unlisten k => k ≠ id
  | .mode k _ => k ≠ id
  | _ => True

/-- The item is not disabled. -/
def enabling (id : Nat) : Ev → Prop
  | .mode k m => k = id → m ≠ .disabled
  | _ => True

/-- There is room in the queue of the item whenever an event is raised. -/
def Roomy (space : AddressSpace.Space) (rounds : Nat) (id : Nat) : State → List Ev → Prop
  | _, [] => True
  | s, ev :: evs => (∀ t e, ev = .raise t e → (Delivery.Spec.waiting id s.delivery).length < 1024) ∧
      Roomy space rounds id (step space rounds s ev) evs

end Spec

open Spec
open Delivery.Spec (samples waiting Gentle gentle assembled Careful numbers)

variable {space : AddressSpace.Space} {rounds : Nat}

theorem run_snoc (s : State) (evs : List Ev) (e : Ev) :
    run space rounds s (evs ++ [e]) = step space rounds (run space rounds s evs) e := by
  simp [run]

theorem run_append (s : State) (a b : List Ev) : run space rounds s (a ++ b) = run space rounds (run space rounds s a) b := by
  simp [run]

/-! ## One event -/

/-- What the listener `l` makes of an event. -/
def sampleOf (space : AddressSpace.Space) (e : EventFilter.Event) (l : Listener) : Option (Delivery.Ev Fields) :=
  match EventFilter.onEvent space l.els l.select (l.els.length + 1) e with
  | .queued fields => some (.item (.sample l.id fields))
  | _ => none

theorem hear_stopped {e : EventFilter.Event} (ts : List Listener) : ∀ (s : State), s.stopped = true → ts.foldl (hear space e) s = s := by
  induction ts with
  | nil => intro s _; rfl
  | cons l ts ih =>
    intro s h
    have : hear space e s l = s := by simp [hear, h]
    rw [List.foldl_cons, this]
    exact ih s h

theorem hear_all {e : EventFilter.Event} (ts : List Listener) : ∀ (s : State), s.stopped = false →
    (ts.foldl (hear space e) s).stopped = false →
    (ts.foldl (hear space e) s).listeners = s.listeners ∧
    (ts.foldl (hear space e) s).past = s.past ++ ts.filterMap (sampleOf space e) ∧
    (ts.foldl (hear space e) s).delivery = Delivery.run s.delivery (ts.filterMap (sampleOf space e)) := by
  induction ts with
  | nil => intro s h _; simp [Delivery.run]
  | cons l ts ih =>
    intro s h h2
    rw [List.foldl_cons] at h2 ⊢
    cases ho : EventFilter.onEvent space l.els l.select (l.els.length + 1) e with
    | queued fields =>
      have he : hear space e s l = tell s (.item (.sample l.id fields)) := by simp [hear, h, ho]
      have hs : sampleOf space e l = some (.item (.sample l.id fields)) := by simp [sampleOf, ho]
      rw [he] at h2 ⊢
      obtain ⟨h3, h4, h5⟩ := ih (tell s (.item (.sample l.id fields))) h h2
      rw [h3, h4, h5, List.filterMap_cons, hs]
      refine ⟨rfl, ?_, rfl⟩
      simp [tell]
    | dropped =>
      have he : hear space e s l = s := by simp [hear, ho]
      have hs : sampleOf space e l = none := by simp [sampleOf, ho]
      rw [he] at h2 ⊢
      rw [List.filterMap_cons, hs]
      exact ih s h h2
    | panic =>
      have he : hear space e s l = { s with stopped := true } := by simp [hear, h, ho]
      rw [he, hear_stopped ts _ rfl] at h2
      cases h2
    | running =>
      have he : hear space e s l = { s with stopped := true } := by simp [hear, h, ho]
      rw [he, hear_stopped ts _ rfl] at h2
      cases h2

theorem hear_keeps {e : EventFilter.Event} (ts : List Listener) : ∀ (s : State),
    (ts.foldl (hear space e) s).listeners = s.listeners ∧ ∃ k, (ts.foldl (hear space e) s).past = s.past ++ (ts.take k).filterMap (sampleOf space e) ∧
    (ts.foldl (hear space e) s).delivery = Delivery.run s.delivery ((ts.take k).filterMap (sampleOf space e)) := by
  induction ts with
  | nil => intro s; exact ⟨rfl, 0, by simp [Delivery.run]⟩
  | cons l ts ih =>
    intro s
    rw [List.foldl_cons]
    have stop : ∀ s' : State, s'.listeners = s.listeners → s'.past = s.past → s'.delivery = s.delivery → s'.stopped = true →
        (ts.foldl (hear space e) s').listeners = s.listeners ∧ ∃ k, (ts.foldl (hear space e) s').past = s.past ++ ((l :: ts).take k).filterMap (sampleOf space e) ∧
        (ts.foldl (hear space e) s').delivery = Delivery.run s.delivery (((l :: ts).take k).filterMap (sampleOf space e)) := by
      intro s' h1 h2 h3 h4
      rw [hear_stopped ts _ h4]
      exact ⟨h1, 0, by simp [h2], by simp [h3, Delivery.run]⟩
    by_cases hst : s.stopped = true
    · have he : hear space e s l = s := by simp [hear, hst]
      rw [he]
      exact stop s rfl rfl rfl hst
    · have hst : s.stopped = false := by simpa using hst
      cases ho : EventFilter.onEvent space l.els l.select (l.els.length + 1) e with
      | queued fields =>
        have he : hear space e s l = tell s (.item (.sample l.id fields)) := by simp [hear, hst, ho]
        have hs : sampleOf space e l = some (.item (.sample l.id fields)) := by simp [sampleOf, ho]
        rw [he]
        obtain ⟨h3, k, h4, h5⟩ := ih (tell s (.item (.sample l.id fields)))
        refine ⟨h3, k + 1, ?_, ?_⟩
        · rw [h4, List.take_succ_cons, List.filterMap_cons, hs]
          simp [tell]
        · rw [h5, List.take_succ_cons, List.filterMap_cons, hs]
          rfl
      | dropped =>
        have he : hear space e s l = s := by simp [hear, ho]
        have hs : sampleOf space e l = none := by simp [sampleOf, ho]
        rw [he]
        obtain ⟨h3, k, h4, h5⟩ := ih s
        refine ⟨h3, k + 1, ?_, ?_⟩
        · rw [h4, List.take_succ_cons, List.filterMap_cons, hs]
        · rw [h5, List.take_succ_cons, List.filterMap_cons, hs]
      | panic =>
        have he : hear space e s l = { s with stopped := true } := by simp [hear, hst, ho]
        rw [he]
        exact stop _ rfl rfl rfl rfl
      | running =>
        have he : hear space e s l = { s with stopped := true } := by simp [hear, hst, ho]
        rw [he]
        exact stop _ rfl rfl rfl rfl

/-- Nobody is called twice. -/
theorem targets_nodup {ls : List Listener} (h : (ls.map (·.id)).Nodup) {L : List AddressSpace.Id} (hL : L.Nodup) :
    ((targets ls L).map (·.id)).Nodup := by
  unfold targets
  rw [List.map_flatMap]
  rw [List.nodup_iff_pairwise_ne, List.pairwise_flatMap]
  refine ⟨fun n _ => ?_, hL.imp fun {a b} hab x hx y hy hxy => ?_⟩
  · exact (List.filter_sublist.map _).nodup h
  · obtain ⟨l1, h1, rfl⟩ := List.mem_map.1 hx
    obtain ⟨l2, h2, h3⟩ := List.mem_map.1 hy
    simp only [List.mem_filter, Bool.and_eq_true, decide_eq_true_eq] at h1 h2
    have : l1 = l2 := by
      have h := List.nodup_iff_pairwise_ne.1 h
      rw [List.pairwise_map] at h
      refine Classical.byContradiction fun hne => ?_
      have h1' := List.mem_iff_getElem.1 h1.1
      have h2' := List.mem_iff_getElem.1 h2.1
      obtain ⟨i, hi, rfl⟩ := h1'
      obtain ⟨j, hj, rfl⟩ := h2'
      have hp := List.pairwise_iff_getElem.1 h
      rcases Nat.lt_trichotomy i j with hij | hij | hij
      · exact hp i j hi hj hij (hxy.trans h3.symm)
      · subst hij; exact hne rfl
      · exact hp j i hj hi hij (h3.trans hxy.symm)
    subst this
    exact hab (h1.2.2.symm.trans h2.2.2)

theorem mem_targets {ls : List Listener} {L : List AddressSpace.Id} {l : Listener} :
    l ∈ targets ls L ↔ l ∈ ls ∧ l.on = true ∧ l.node ∈ L := by
  unfold targets
  simp only [List.mem_flatMap, List.mem_filter, Bool.and_eq_true, decide_eq_true_eq]
  constructor
  · rintro ⟨n, h1, h2, h3, rfl⟩; exact ⟨h2, h3, h1⟩
  · rintro ⟨h2, h3, h1⟩; exact ⟨_, h1, h2, h3, rfl⟩

/-- The samples of an item among those of an event. -/
theorem samples_of {e : EventFilter.Event} (l : Listener) (ts : List Listener) (h : (ts.map (·.id)).Nodup) :
    (l ∈ ts → samples l.id (ts.filterMap (sampleOf space e)) = samples l.id (sampleOf space e l).toList) ∧
    ((∀ x ∈ ts, x.id ≠ l.id) → samples l.id (ts.filterMap (sampleOf space e)) = []) := by
  have hoth : ∀ ts : List Listener, (∀ x ∈ ts, x.id ≠ l.id) → samples l.id (ts.filterMap (sampleOf space e)) = [] := by
    intro ts h
    induction ts with
    | nil => rfl
    | cons x ts ih =>
      have hx := h x (by simp)
      have ih := ih (fun y hy => h y (by simp [hy]))
      rw [List.filterMap_cons]
      split
      · exact ih
      next ev hev =>
        unfold sampleOf at hev
        split at hev
        · cases hev
          show samples l.id ([_] ++ _) = _
          rw [samples, List.filterMap_append, ← samples, ← samples, ih]
          simp [samples, hx]
        · cases hev
  refine ⟨?_, hoth ts⟩
  induction ts with
  | nil => intro h; cases h
  | cons x ts ih =>
    intro hm
    rw [List.map_cons, List.nodup_cons] at h
    have happ : samples l.id ((x :: ts).filterMap (sampleOf space e)) =
        samples l.id (sampleOf space e x).toList ++ samples l.id (ts.filterMap (sampleOf space e)) := by
      rw [List.filterMap_cons]
      split
      next hn => rw [hn]; rfl
      next ev hev =>
        rw [hev]
        show samples l.id ([_] ++ _) = _
        rw [samples, List.filterMap_append]
        rfl
    rw [happ]
    by_cases hx : x = l
    · subst hx
      rw [hoth ts (fun y hy hyx => h.1 (List.mem_map.2 ⟨y, hy, hyx⟩)), List.append_nil]
    · have hm : l ∈ ts := by
        cases hm with
        | head => exact absurd rfl hx
        | tail _ hm => exact hm
      rw [ih h.2 hm]
      have : samples l.id (sampleOf space e x).toList = [] := by
        have hid : x.id ≠ l.id := fun hid => h.1 (List.mem_map.2 ⟨l, hm, hid.symm⟩)
        unfold sampleOf
        split
        · simp [samples, hid]
        · rfl
      rw [this, List.nil_append]

/-! ## The items of the subscription -/

theorem step_items (d : Delivery.State Fields) (e : Delivery.Ev Fields) :
    (Delivery.step d e).items = d.items ∨ ∃ ie, (Delivery.step d e).items = MonitoredItem.step d.items ie ∧
      (e = .item ie ∨ ∃ max order, ie = .publish max order) := by
  cases e with
  | item ie =>
    cases ie with
    | publish max order => exact .inl rfl
    | _ => exact .inr ⟨_, rfl, .inl rfl⟩
  | timer max order req arrives =>
    show (Delivery.publishing _ _ _ _ _).items = _ ∨ _
    unfold Delivery.publishing
    dsimp only
    split
    · next hlt => exact .inr ⟨.publish max order, by simp [Delivery.step, Delivery.publishing, hlt], .inr ⟨_, _, rfl⟩⟩
    · exact .inl rfl
  | late max order results ok arrives =>
    show (Delivery.publishing _ _ _ _ _).items = _ ∨ _
    unfold Delivery.publishing
    dsimp only
    split
    · next hlt => exact .inr ⟨.publish max order, by simp [Delivery.step, Delivery.publishing, hlt], .inr ⟨_, _, rfl⟩⟩
    · exact .inl rfl
  | _ => exact .inl rfl

/-- The ids of items are distinct. -/
def Distinct (d : Delivery.State Fields) : Prop := (d.items.items.map (·.id)).Nodup

theorem distinct_step {d : Delivery.State Fields} (h : Distinct d) (e : Delivery.Ev Fields) : Distinct (Delivery.step d e) := by
  unfold Distinct
  rcases step_items d e with h1 | ⟨ie, h1, _⟩
  · rw [h1]; exact h
  · rw [h1]; exact MonitoredItem.step_nodup _ _ h

theorem distinct_run {d : Delivery.State Fields} (h : Distinct d) (es : List (Delivery.Ev Fields)) : Distinct (Delivery.run d es) := by
  induction es generalizing d with
  | nil => exact h
  | cons e es ih => exact ih (distinct_step h e)

theorem here_step {d : Delivery.State Fields} (h : Distinct d) (e : Delivery.Ev Fields) (id : Nat) (he : e ≠ .item (.delete id))
    (hx : MonitoredItem.find d.items.items id ≠ none) : MonitoredItem.find (Delivery.step d e).items.items id ≠ none := by
  rcases step_items d e with h1 | ⟨ie, h1, h2⟩
  · rw [h1]; exact hx
  · rw [h1]
    have hc := MonitoredItem.step_change d.items h id ie
    generalize MonitoredItem.find d.items.items id = a at *
    generalize MonitoredItem.find (MonitoredItem.step d.items ie).items id = b at *
    cases hc with
    | same => exact hx
    | gone _ hd =>
      subst hd
      rcases h2 with h2 | ⟨_, _, h2⟩
      · exact absurd h2 he
      · cases h2
    | made => exact fun h => by cases h
    | sampled => exact fun h => by cases h
    | trig => exact fun h => by cases h
    | modified => exact fun h => by cases h
    | moded => exact fun h => by cases h
    | linked => exact fun h => by cases h
    | published => exact fun h => by cases h

theorem here_run {d : Delivery.State Fields} (h : Distinct d) (es : List (Delivery.Ev Fields)) (id : Nat)
    (he : Delivery.Ev.item (.delete id) ∉ es) (hx : MonitoredItem.find d.items.items id ≠ none) :
    MonitoredItem.find (Delivery.run d es).items.items id ≠ none := by
  induction es generalizing d with
  | nil => exact hx
  | cons e es ih =>
    simp only [List.mem_cons, not_or] at he
    exact ih (distinct_step h e) he.2 (here_step h e id (fun h => he.1 h.symm) hx)

/-- The item is there, with the full queue size, and enabled or not. -/
def Live (d : Delivery.State Fields) (id : Nat) (on : Bool) : Prop :=
  ∃ x, MonitoredItem.find d.items.items id = some x ∧ (on = true ↔ x.mode ≠ .disabled) ∧ x.size = 1024

/-- Events that leave mode and size of an item as they are. -/
def Leaves (id : Nat) : Delivery.Ev Fields → Prop
  | .item (.delete k) => k ≠ id
  | .item (.modify k _ _) => k ≠ id
  | .item (.setMode k _) => k ≠ id
  | _ => True

theorem live_step {d : Delivery.State Fields} (h : Distinct d) (e : Delivery.Ev Fields) (id : Nat) (on : Bool) (he : Leaves id e)
    (hx : Live d id on) : Live (Delivery.step d e) id on := by
  obtain ⟨x, h1, h2, h3⟩ := hx
  unfold Live
  rcases step_items d e with h4 | ⟨ie, h4, h5⟩
  · rw [h4]; exact ⟨x, h1, h2, h3⟩
  · rw [h4]
    have hc := MonitoredItem.step_change d.items h id ie
    rw [h1] at hc
    generalize MonitoredItem.find (MonitoredItem.step d.items ie).items id = b at *
    cases hc with
    | same => exact ⟨x, rfl, h2, h3⟩
    | gone _ hd =>
      subst hd
      rcases h5 with rfl | ⟨_, _, h5⟩
      · exact absurd rfl he
      · cases h5
    | sampled _ v hd hm =>
      refine ⟨_, rfl, ?_, ?_⟩
      · dsimp only; rw [MonitoredItem.enqueue_mode]; exact h2
      · dsimp only; rw [MonitoredItem.enqueue_size]; exact h3
    | trig => exact ⟨_, rfl, h2, h3⟩
    | modified _ n dd hd =>
      subst hd
      rcases h5 with rfl | ⟨_, _, h5⟩
      · exact absurd rfl he
      · cases h5
    | moded _ m hd =>
      subst hd
      rcases h5 with rfl | ⟨_, _, h5⟩
      · exact absurd rfl he
      · cases h5
    | linked _ y r a hd hy =>
      have e1 : y.mode = x.mode := (congrArg MonitoredItem.Item.mode hy :)
      have e2 : y.size = x.size := (congrArg MonitoredItem.Item.size hy :)
      exact ⟨y, rfl, by rw [e1]; exact h2, by rw [e2]; exact h3⟩
    | published _ y max order r more hd hq ho hy hcc ht =>
      refine ⟨y, rfl, ?_, ?_⟩
      · rw [hy]; exact h2
      · rw [hy]; exact h3

theorem live_run {d : Delivery.State Fields} (h : Distinct d) (es : List (Delivery.Ev Fields)) (id : Nat) (on : Bool)
    (he : ∀ e ∈ es, Leaves id e) (hx : Live d id on) : Live (Delivery.run d es) id on := by
  induction es generalizing d with
  | nil => exact hx
  | cons e es ih =>
    exact ih (distinct_step h e) (fun a ha => he a (List.mem_cons_of_mem _ ha)) (live_step h e id on (he e (by simp)) hx)

/-! ## All states -/

structure Base (s : State) : Prop where
  ids : (s.listeners.map (·.id)).Nodup
  known : ∀ x ∈ s.listeners, MonitoredItem.find s.delivery.items.items x.id ≠ none
  distinct : Distinct s.delivery

theorem base_init (en : Bool) (a b : Nat) : Base (init en a b) :=
  ⟨List.nodup_nil, (fun x hx => by cases hx), List.nodup_nil⟩

theorem sampleOf_form {e : EventFilter.Event} {l : Listener} {ev : Delivery.Ev Fields} (h : sampleOf space e l = some ev) :
    ∃ F, ev = .item (.sample l.id F) := by
  unfold sampleOf at h
  split at h
  · cases h; exact ⟨_, rfl⟩
  · cases h

theorem samples_only {e : EventFilter.Event} {ts : List Listener} {ev : Delivery.Ev Fields} (h : ev ∈ ts.filterMap (sampleOf space e)) :
    ∃ k F, ev = .item (.sample k F) := by
  obtain ⟨l, _, h2⟩ := List.mem_filterMap.1 h
  obtain ⟨F, h3⟩ := sampleOf_form h2
  exact ⟨_, F, h3⟩

/-- What a step does, apart from the listeners. -/
theorem step_told (s : State) (ev : Ev) : ∃ es, (step space rounds s ev).past = s.past ++ es ∧
    (step space rounds s ev).delivery = Delivery.run s.delivery es := by
  have nothing : ∀ s' : State, s'.past = s.past → s'.delivery = s.delivery → ∃ es, s'.past = s.past ++ es ∧
      s'.delivery = Delivery.run s.delivery es := fun s' h1 h2 => ⟨[], by simp [h1], by simp [h2, Delivery.run]⟩
  unfold step
  split
  · exact nothing s rfl rfl
  · cases ev with
    | raise t e =>
      dsimp only [raise]
      split
      · obtain ⟨_, k, h1, h2⟩ := hear_keeps (space := space) (e := e) (targets s.listeners _) s
        exact ⟨_, h1, h2⟩
      · obtain ⟨_, k, h1, h2⟩ := hear_keeps (space := space) (e := e) (targets s.listeners _) s
        exact ⟨_, h1, h2⟩
      · exact nothing _ rfl rfl
    | listen l m d =>
      dsimp only
      split
      · exact nothing s rfl rfl
      · exact ⟨[_], rfl, rfl⟩
    | change => exact ⟨[_], rfl, rfl⟩
    | unlisten => exact ⟨[_], rfl, rfl⟩
    | mode => exact ⟨[_], rfl, rfl⟩
    | link => exact ⟨[_], rfl, rfl⟩
    | sub e =>
      cases e with
      | item => exact nothing s rfl rfl
      | _ => exact ⟨[_], rfl, rfl⟩

/-- The record is right. -/
theorem run_past (en : Bool) (a b : Nat) (evs : List Ev) :
    (run space rounds (init en a b) evs).delivery = Delivery.run (Delivery.init en a b) (run space rounds (init en a b) evs).past := by
  induction evs using snocInd with
  | nil => rfl
  | append_singleton evs e ih =>
    rw [run_snoc]
    obtain ⟨es, h1, h2⟩ := step_told (space := space) (rounds := rounds) (run space rounds (init en a b) evs) e
    rw [h1, h2, ih]
    simp [Delivery.run]

theorem map_ids (ls : List Listener) (f : Listener → Listener) (h : ∀ l, (f l).id = l.id) :
    (ls.map f).map (·.id) = ls.map (·.id) := by
  rw [List.map_map]
  exact List.map_congr_left fun l _ => h l

theorem base_step {s : State} (h : Base s) (ev : Ev) : Base (step space rounds s ev) := by
  have one : ∀ (ls : List Listener) (e : Delivery.Ev Fields), (ls.map (·.id)).Nodup →
      (∀ x ∈ ls, MonitoredItem.find s.delivery.items.items x.id ≠ none ∧ e ≠ .item (.delete x.id)) →
      Base (tell { s with listeners := ls } e) := fun ls e h1 h2 =>
    ⟨h1, fun x hx => here_step h.distinct e x.id (h2 x hx).2 (h2 x hx).1, distinct_step h.distinct e⟩
  unfold step
  split
  · exact h
  · cases ev with
    | raise t e =>
      have many : ∀ L, Base ((targets s.listeners L).foldl (hear space e) s) := by
        intro L
        obtain ⟨h1, k, h2, h3⟩ := hear_keeps (space := space) (e := e) (targets s.listeners L) s
        refine ⟨by rw [h1]; exact h.ids, fun x hx => ?_, by rw [h3]; exact distinct_run h.distinct _⟩
        rw [h3]
        refine here_run h.distinct _ x.id (fun hd => ?_) (h.known x (h1 ▸ hx))
        obtain ⟨_, _, h4⟩ := samples_only hd
        cases h4
      dsimp only [raise]
      split
      · exact many _
      · exact many _
      · exact ⟨h.ids, h.known, h.distinct⟩
    | listen l m d =>
      dsimp only
      split
      · exact h
      next hn =>
        refine ⟨?_, ?_, distinct_step h.distinct _⟩
        · show ((s.listeners ++ [_]).map _).Nodup
          rw [List.map_append, List.nodup_append]
          refine ⟨h.ids, by simp, fun a ha c hc => ?_⟩
          obtain ⟨x, hx, rfl⟩ := List.mem_map.1 ha
          simp only [List.map_cons, List.map_nil, List.mem_singleton] at hc
          subst hc
          intro hxl
          exact h.known x hx (by rw [hxl]; exact hn)
        · intro x hx
          rcases List.mem_append.1 hx with hx | hx
          · exact here_step h.distinct _ x.id (fun h => by cases h) (h.known x hx)
          · simp only [List.mem_singleton] at hx
            subst hx
            show MonitoredItem.find (MonitoredItem.step s.delivery.items (.create l.id m MonitoredItem.maxQueueSize d)).items l.id ≠ none
            simp only [MonitoredItem.step, hn]
            rw [MonitoredItem.find_append, hn]
            simp [MonitoredItem.find, MonitoredItem.newItem]
    | change id els select d =>
      refine one _ _ ?_ fun x hx => ?_
      · rw [map_ids _ _ (fun l => by split <;> rfl)]; exact h.ids
      · obtain ⟨y, hy, rfl⟩ := List.mem_map.1 hx
        refine ⟨?_, fun h => by cases h⟩
        have := h.known y hy
        split <;> exact this
    | unlisten id =>
      refine one _ _ ((List.filter_sublist.map _).nodup h.ids) fun x hx => ?_
      simp only [List.mem_filter, decide_eq_true_eq] at hx
      exact ⟨h.known x hx.1, fun he => hx.2 (by cases he; rfl)⟩
    | mode id m =>
      refine one _ _ ?_ fun x hx => ?_
      · rw [map_ids _ _ (fun l => by split <;> rfl)]; exact h.ids
      · obtain ⟨y, hy, rfl⟩ := List.mem_map.1 hx
        refine ⟨?_, fun h => by cases h⟩
        have := h.known y hy
        split <;> exact this
    | link trig rem add => exact one s.listeners _ h.ids fun x hx => ⟨h.known x hx, fun h => by cases h⟩
    | sub e =>
      cases e with
      | item => exact h
      | _ => exact one s.listeners _ h.ids fun x hx => ⟨h.known x hx, fun h => by cases h⟩

theorem base_run {s : State} (h : Base s) (evs : List Ev) : Base (run space rounds s evs) := by
  induction evs using snocInd with
  | nil => exact h
  | append_singleton evs e ih => rw [run_snoc]; exact base_step ih e

theorem stopped_run {s : State} (h : s.stopped = true) (evs : List Ev) : (run space rounds s evs).stopped = true := by
  induction evs using snocInd with
  | nil => exact h
  | append_singleton evs e ih => rw [run_snoc]; unfold step; rw [if_pos ih]; exact ih

theorem before {s : State} {a b : List Ev} (h : (run space rounds s (a ++ b)).stopped = false) :
    (run space rounds s a).stopped = false := by
  rw [run_append] at h
  cases hs : (run space rounds s a).stopped with
  | false => rfl
  | true => rw [stopped_run hs] at h; cases h

theorem unique {ls : List Listener} (h : (ls.map (·.id)).Nodup) {x y : Listener} (hx : x ∈ ls) (hy : y ∈ ls) (hid : x.id = y.id) :
    x = y := by
  have h := List.nodup_iff_pairwise_ne.1 h
  rw [List.pairwise_map] at h
  obtain ⟨i, hi, rfl⟩ := List.mem_iff_getElem.1 hx
  obtain ⟨j, hj, rfl⟩ := List.mem_iff_getElem.1 hy
  have hp := List.pairwise_iff_getElem.1 h
  rcases Nat.lt_trichotomy i j with hij | hij | hij
  · exact absurd hid (hp i j hi hj hij)
  · subst hij; rfl
  · exact absurd hid.symm (hp j i hj hi hij)

/-! ## A listener from its creation -/

structure Good (l : Listener) (on : Bool) (s : State) : Prop where
  base : Base s
  mem : { l with on := on } ∈ s.listeners
  live : Live s.delivery l.id on

theorem good_listen {s : State} (h : Base s) (hs : s.stopped = false) (l : Listener) (m : MonitoredItem.Mode) (d : Bool)
    (hn : MonitoredItem.find s.delivery.items.items l.id = none) :
    Good l (decide (m ≠ .disabled)) (step space rounds s (.listen l m d)) ∧
    (step space rounds s (.listen l m d)).past = s.past ++ [.item (.create l.id m 1024 d)] := by
  refine ⟨⟨base_step h _, ?_, ?_⟩, ?_⟩
  · simp [step, hs, hn, tell]
  · refine ⟨MonitoredItem.newItem l.id m 1024 d, ?_, ?_, ?_⟩
    · simp only [step, hs, hn]
      show MonitoredItem.find (MonitoredItem.step s.delivery.items (.create l.id m MonitoredItem.maxQueueSize d)).items l.id = _
      simp only [MonitoredItem.step, hn]
      rw [MonitoredItem.find_append, hn]
      simp [MonitoredItem.find, MonitoredItem.newItem]
    · simp [MonitoredItem.newItem]
    · rw [MonitoredItem.newItem, (MonitoredItem.setQueueSize_spec _ _).1]; rfl
  · simp [step, hs, hn, tell]

/-- The other events. -/
def Other (l : Listener) (ev : Ev) : Prop := (∀ t e, ev ≠ .raise t e) ∧ ∀ m, ev ≠ .mode l.id m

theorem good_other {l : Listener} {on : Bool} {s : State} (h : Good l on s) (ev : Ev) (hs : Steady l ev) (ho : Other l ev) :
    Good l on (step space rounds s ev) ∧ ∃ es, (step space rounds s ev).past = s.past ++ es ∧ samples l.id es = [] ∧
      (∀ e ∈ es, ∀ d, gentle l.id d e) := by
  have one : ∀ (ls : List Listener) (e : Delivery.Ev Fields), { l with on := on } ∈ ls → Leaves l.id e →
      Base (tell { s with listeners := ls } e) → Good l on (tell { s with listeners := ls } e) := fun ls e h1 h2 h3 =>
    ⟨h3, h1, live_step h.base.distinct e l.id on h2 h.live⟩
  have hb := base_step (space := space) (rounds := rounds) h.base ev
  have none' : ∃ es, s.past = s.past ++ es ∧ samples l.id es = [] ∧ (∀ e ∈ es, ∀ d, gentle l.id d e) :=
    ⟨[], by simp, rfl, fun e he => by cases he⟩
  unfold step at hb ⊢
  split at hb
  next hst => rw [if_pos hst]; exact ⟨h, none'⟩
  next hst =>
    rw [if_neg hst]
    cases ev with
    | raise t e => exact absurd rfl (ho.1 t e)
    | listen l' m d =>
      dsimp only at hb ⊢
      split at hb
      next hf => exact ⟨h, none'⟩
      next hf =>
        exact ⟨one _ _ (List.mem_append_left _ h.mem) trivial hb, [_], rfl, rfl, fun e he d => by
          simp only [List.mem_singleton] at he; subst he; trivial⟩
    | change id els select d =>
      have hid : l.id ≠ id := fun h => hs h.symm
      refine ⟨one _ _ (List.mem_map.2 ⟨_, h.mem, if_neg hid⟩) hs hb, [_], rfl, rfl, fun e he d => ?_⟩
      simp only [List.mem_singleton] at he; subst he; exact hs
    | unlisten id =>
      have hid : l.id ≠ id := fun h => hs h.symm
      refine ⟨one _ _ (List.mem_filter.2 ⟨h.mem, by simpa using hid⟩) hs hb, [_], rfl, rfl, fun e he d => ?_⟩
      simp only [List.mem_singleton] at he; subst he; exact hs
    | mode id m =>
      have hid : id ≠ l.id := fun hh => ho.2 m (by rw [hh])
      have hid' : l.id ≠ id := fun h => hid h.symm
      refine ⟨one _ _ (List.mem_map.2 ⟨_, h.mem, if_neg hid'⟩) hid hb, [_], rfl, rfl, fun e he d => ?_⟩
      simp only [List.mem_singleton] at he; subst he; exact .inl hid
    | link trig rem add =>
      exact ⟨one s.listeners _ h.mem trivial hb, [_], rfl, rfl, fun e he d => by
        simp only [List.mem_singleton] at he; subst he; trivial⟩
    | sub e =>
      cases e with
      | item => exact ⟨h, none'⟩
      | _ =>
        exact ⟨one s.listeners _ h.mem trivial hb, [_], rfl, rfl, fun e he d => by
          simp only [List.mem_singleton] at he; subst he; trivial⟩

theorem good_mode {l : Listener} {on : Bool} {s : State} (h : Good l on s) (hst : s.stopped = false) (m : MonitoredItem.Mode) :
    Good l (decide (m ≠ .disabled)) (step space rounds s (.mode l.id m)) ∧
      (step space rounds s (.mode l.id m)).past = s.past ++ [.item (.setMode l.id m)] := by
  have hb := base_step (space := space) (rounds := rounds) h.base (.mode l.id m)
  refine ⟨⟨hb, ?_, ?_⟩, by simp [step, hst, tell]⟩
  · simp only [step, hst, tell]
    exact List.mem_map.2 ⟨_, h.mem, if_pos rfl⟩
  · obtain ⟨x, h1, h2, h3⟩ := h.live
    refine ⟨MonitoredItem.setMode x m, ?_, ?_, ?_⟩
    · simp only [step, hst]
      show MonitoredItem.find (MonitoredItem.step s.delivery.items (.setMode l.id m)).items l.id = _
      simp only [MonitoredItem.step, h1]
      rw [MonitoredItem.find_update_self _ _ _ (fun i => MonitoredItem.setMode_id i m), h1]
      rfl
    · rw [MonitoredItem.setMode_mode]; simp
    · unfold MonitoredItem.setMode
      split
      · exact h3
      · split <;> exact h3

/-- What a listener that is on makes of an event. -/
theorem sampleOf_wanted (hsi : AddressSpace.SingleInheritance space) {l : Listener} {e : EventFilter.Event}
    (hd : EventFilter.Shallow space e) (hf : EventFilter.FilterOk space e l.els)
    (hp : ∀ c ∈ l.select, EventFilter.Plain space e c) (on : Bool) :
    (∃ F, EventFilter.Passes space e l.els ∧ Chosen space e l.select F ∧
      samples l.id (sampleOf space e { l with on := on }).toList = [F]) ∨
    (¬ EventFilter.Passes space e l.els ∧ samples l.id (sampleOf space e { l with on := on }).toList = []) := by
  rcases EventFilter.C58_where_partial space hsi e hd l.els hf l.select (l.els.length + 1) (by omega) with ⟨h1, F, h2⟩ | ⟨h1, h2⟩
  · refine .inl ⟨F, h1, ?_, ?_⟩
    · obtain ⟨h3, h4⟩ := EventFilter.C58_fields_partial space l.els l.select _ e F h2
      refine ⟨h3, fun i c hc => ?_⟩
      obtain ⟨v, h5, h6, _⟩ := h4 i c hc (hp c (List.mem_of_getElem? hc))
      exact ⟨v, h5, h6⟩
    · simp [sampleOf, h2, samples]
  · exact .inr ⟨h1, by simp [sampleOf, h2, samples]⟩

theorem good_raise (hsi : AddressSpace.SingleInheritance space) (hon : AddressSpace.OneNotifier space) {l : Listener} {on : Bool} {s : State}
    (h : Good l on s) (hst : s.stopped = false) (t : AddressSpace.Id) (e : EventFilter.Event)
    (hf : Fine space rounds l (.raise t e)) (hr : (step space rounds s (.raise t e)).stopped = false) :
    Good l on (step space rounds s (.raise t e)) ∧
    ∃ ts : List Listener, (ts.map (·.id)).Nodup ∧ (step space rounds s (.raise t e)).past = s.past ++ ts.filterMap (sampleOf space e) ∧
      (∀ x ∈ ts, x.id = l.id → on = true) ∧
      ∃ W', samples l.id (ts.filterMap (sampleOf space e)) = W' ∧
        ∀ b₀ post W, Wanted space l b₀ post on W → Wanted space l b₀ (post ++ [.raise t e]) on (W ++ W') := by
  obtain ⟨⟨L, hL⟩, hd, hfo, hp⟩ := hf
  have hstep : step space rounds s (.raise t e) = (targets s.listeners L).foldl (hear space e) s := by
    simp [step, hst, raise, hL]
  rw [hstep] at hr ⊢
  obtain ⟨h1, h2, h3⟩ := hear_all (targets s.listeners L) s hst hr
  have hb := base_step (space := space) (rounds := rounds) h.base (.raise t e)
  rw [hstep] at hb
  have hnd := targets_nodup h.base.ids (AddressSpace.C89_once space t rounds L hL)
  refine ⟨⟨hb, by rw [h1]; exact h.mem, ?_⟩, targets s.listeners L, hnd, h2, ?_, ?_⟩
  · rw [h3]
    refine live_run h.base.distinct _ l.id on (fun ev hev => ?_) h.live
    obtain ⟨k, F, rfl⟩ := samples_only hev
    trivial
  · intro x hx hxl
    obtain ⟨h4, h5, _⟩ := mem_targets.1 hx
    have := unique h.base.ids h4 h.mem hxl
    rw [this] at h5
    exact h5
  · have hso := samples_of (space := space) (e := e) { l with on := on } (targets s.listeners L) hnd
    have hhears : l.node ∈ L ↔ AddressSpace.Hears space t l.node := by
      constructor
      · intro hm
        refine AddressSpace.C89_heard space t rounds l.node ?_
        rw [hL]; exact hm
      · exact AddressSpace.C89_all_partial space hon t rounds L hL l.node
    by_cases hin : on = true ∧ l.node ∈ L
    · have hmem : { l with on := on } ∈ targets s.listeners L := mem_targets.2 ⟨h.mem, hin.1, hin.2⟩
      have heq := hso.1 hmem
      have hon := hin.1
      subst hon
      rcases sampleOf_wanted hsi hd hfo hp true with ⟨F, h5, h6, h7⟩ | ⟨h5, h7⟩
      · refine ⟨[F], heq.trans h7, fun b₀ post W hW => .got t e F hW (hhears.1 hin.2) h5 h6⟩
      · refine ⟨[], heq.trans h7, fun b₀ post W hW => ?_⟩
        rw [List.append_nil]
        exact .barred _ t e hW h5
    · refine ⟨[], hso.2 fun x hx hxl => hin ?_, fun b₀ post W hW => ?_⟩
      · obtain ⟨h4, h5, h6⟩ := mem_targets.1 hx
        have := unique h.base.ids h4 h.mem hxl
        rw [this] at h5 h6
        exact ⟨h5, h6⟩
      · rw [List.append_nil]
        cases on with
        | false => exact .off t e hW
        | true => exact .far _ t e hW fun hh => hin ⟨rfl, hhears.2 hh⟩

/-! ## Before its creation -/

theorem absent_step {d : Delivery.State Fields} (h : Distinct d) (e : Delivery.Ev Fields) (id : Nat)
    (he : ∀ m n b, e ≠ .item (.create id m n b))
    (hx : MonitoredItem.find d.items.items id = none) : MonitoredItem.find (Delivery.step d e).items.items id = none := by
  rcases step_items d e with h1 | ⟨ie, h1, h2⟩
  · rw [h1]; exact hx
  · rw [h1]
    have hc := MonitoredItem.step_change d.items h id ie
    rw [hx] at hc
    generalize MonitoredItem.find (MonitoredItem.step d.items ie).items id = b at *
    cases hc with
    | same => rfl
    | gone => rfl
    | made m n b hd =>
      subst hd
      rcases h2 with h2 | ⟨_, _, h2⟩
      · exact absurd h2 (he m n b)
      · cases h2

theorem absent_run {d : Delivery.State Fields} (h : Distinct d) (es : List (Delivery.Ev Fields)) (id : Nat)
    (he : ∀ e ∈ es, ∀ m n b, e ≠ .item (.create id m n b))
    (hx : MonitoredItem.find d.items.items id = none) : MonitoredItem.find (Delivery.run d es).items.items id = none := by
  induction es generalizing d with
  | nil => exact hx
  | cons e es ih =>
    exact ih (distinct_step h e) (fun a ha => he a (List.mem_cons_of_mem _ ha)) (absent_step h e id (he e (by simp)) hx)

theorem gentle_append (id : Nat) (a b : List (Delivery.Ev Fields)) : ∀ d,
    Gentle id d (a ++ b) ↔ Gentle id d a ∧ Gentle id (Delivery.run d a) b := by
  induction a with
  | nil => intro d; simp [Gentle, Delivery.run]
  | cons e a ih => intro d; simp only [List.cons_append, Gentle, ih, and_assoc]; rfl

theorem gentle_all (id : Nat) (es : List (Delivery.Ev Fields)) (h : ∀ e ∈ es, ∀ d, gentle id d e) : ∀ d, Gentle id d es := by
  induction es with
  | nil => intro d; trivial
  | cons e es ih => intro d; exact ⟨h e (by simp) d, ih (fun a ha => h a (List.mem_cons_of_mem _ ha)) _⟩

theorem samples_append (id : Nat) (a b : List (Delivery.Ev Fields)) : samples id (a ++ b) = samples id a ++ samples id b := by
  simp [samples]

theorem samples_none (id : Nat) (es : List (Delivery.Ev Fields)) (h : ∀ e ∈ es, ∀ F, e ≠ .item (.sample id F)) : samples id es = [] := by
  unfold samples
  rw [List.filterMap_eq_nil_iff]
  intro e he
  have := h e he
  split
  · split
    next hk => subst hk; exact absurd rfl (this _)
    next => rfl
  · rfl

/-- An event that has nothing to do with an item that is not there. -/
theorem step_fresh {s : State} (h : Base s) (id : Nat) (hn : MonitoredItem.find s.delivery.items.items id = none) (ev : Ev)
    (hf : fresh id ev) : ∃ es, (step space rounds s ev).past = s.past ++ es ∧
    (step space rounds s ev).delivery = Delivery.run s.delivery es ∧
    ∀ e ∈ es, (∀ d, gentle id d e) ∧ (∀ F, e ≠ .item (.sample id F)) ∧ ∀ m n b, e ≠ .item (.create id m n b) := by
  have nothing : ∀ s' : State, s'.past = s.past → s'.delivery = s.delivery → ∃ es, s'.past = s.past ++ es ∧
      s'.delivery = Delivery.run s.delivery es ∧ ∀ e ∈ es, (∀ d, gentle id d e) ∧ (∀ F, e ≠ .item (.sample id F)) ∧
        ∀ m n b, e ≠ .item (.create id m n b) :=
    fun s' h1 h2 => ⟨[], by simp [h1], by simp [h2, Delivery.run], fun e he => by cases he⟩
  have one : ∀ ls e, (∀ d, gentle id d e) → (∀ F, e ≠ .item (.sample id F)) → (∀ m n b, e ≠ .item (.create id m n b)) →
      ∃ es, (tell { s with listeners := ls } e).past = s.past ++ es ∧ (tell { s with listeners := ls } e).delivery = Delivery.run s.delivery es ∧
        ∀ e ∈ es, (∀ d, gentle id d e) ∧ (∀ F, e ≠ .item (.sample id F)) ∧ ∀ m n b, e ≠ .item (.create id m n b) := by
    intro ls e h1 h2 h3
    refine ⟨[e], rfl, rfl, fun a ha => ?_⟩
    simp only [List.mem_singleton] at ha
    subst ha
    exact ⟨h1, h2, h3⟩
  unfold step
  split
  · exact nothing s rfl rfl
  · cases ev with
    | raise t e =>
      have many : ∀ L, ∃ es, ((targets s.listeners L).foldl (hear space e) s).past = s.past ++ es ∧
          ((targets s.listeners L).foldl (hear space e) s).delivery = Delivery.run s.delivery es ∧
          ∀ e ∈ es, (∀ d, gentle id d e) ∧ (∀ F, e ≠ .item (.sample id F)) ∧ ∀ m n b, e ≠ .item (.create id m n b) := by
        intro L
        obtain ⟨_, k, h1, h2⟩ := hear_keeps (space := space) (e := e) (targets s.listeners L) s
        refine ⟨_, h1, h2, fun ev hev => ?_⟩
        obtain ⟨l, hl, h3⟩ := List.mem_filterMap.1 hev
        obtain ⟨F, rfl⟩ := sampleOf_form h3
        have hl : l.id ≠ id := fun hid => h.known l (mem_targets.1 (List.mem_of_mem_take hl)).1 (by rw [hid]; exact hn)
        exact ⟨fun d => .inl hl, fun F' hF => hl (by cases hF; rfl), fun m n b hc => by cases hc⟩
      dsimp only [raise]
      split
      · exact many _
      · exact many _
      · exact nothing _ rfl rfl
    | listen l m d =>
      dsimp only
      split
      · exact nothing s rfl rfl
      · exact one _ _ (fun d => trivial) (fun F h => by cases h) (fun m n b h => hf (by cases h; rfl))
    | change k => exact one _ _ (fun d => hf) (fun F h => by cases h) (fun m n b h => by cases h)
    | unlisten k => exact one _ _ (fun d => hf) (fun F h => by cases h) (fun m n b h => by cases h)
    | mode k => exact one _ _ (fun d => .inl hf) (fun F h => by cases h) (fun m n b h => by cases h)
    | link => exact one s.listeners _ (fun d => trivial) (fun F h => by cases h) (fun m n b h => by cases h)
    | sub e =>
      cases e with
      | item => exact nothing s rfl rfl
      | _ => exact one s.listeners _ (fun d => trivial) (fun F h => by cases h) (fun m n b h => by cases h)

theorem run_fresh (en : Bool) (a b : Nat) (id : Nat) (evs : List Ev) (hf : ∀ ev ∈ evs, fresh id ev) :
    MonitoredItem.find (run space rounds (init en a b) evs).delivery.items.items id = none ∧
    samples id (run space rounds (init en a b) evs).past = [] ∧
    Gentle id (Delivery.init en a b) (run space rounds (init en a b) evs).past := by
  induction evs using snocInd with
  | nil => exact ⟨rfl, rfl, trivial⟩
  | append_singleton evs ev ih =>
    obtain ⟨h1, h2, h3⟩ := ih fun x hx => hf x (by simp [hx])
    have hb := base_run (space := space) (rounds := rounds) (base_init en a b) evs
    obtain ⟨es, h4, h5, h6⟩ := step_fresh (space := space) (rounds := rounds) hb id h1 ev (hf ev (by simp))
    rw [run_snoc, h4, h5]
    refine ⟨absent_run hb.distinct es id (fun e he => (h6 e he).2.2) h1, ?_, ?_⟩
    · rw [samples_append, h2, samples_none id es (fun e he => (h6 e he).2.1)]
      rfl
    · rw [gentle_append]
      exact ⟨h3, gentle_all id es (fun e he => (h6 e he).1) _⟩

/-! ## The whole story of a listener -/

theorem roomy_snoc (id : Nat) (evs : List Ev) (e : Ev) : ∀ s, Roomy space rounds id s (evs ++ [e]) ↔
    Roomy space rounds id s evs ∧ ∀ t x, e = .raise t x → (waiting id (run space rounds s evs).delivery).length < 1024 := by
  induction evs with
  | nil => intro s; simp [Roomy, run]
  | cons a evs ih => intro s; simp only [List.cons_append, Roomy, ih, and_assoc]; rfl

theorem waiting_other {d : Delivery.State Fields} (h : Distinct d) (k id : Nat) (F : Fields) (hk : k ≠ id) :
    waiting id (Delivery.step d (.item (.sample k F))) = waiting id d := by
  unfold waiting
  have hst : (Delivery.step d (.item (.sample k F))).items = MonitoredItem.step d.items (.sample k F) := rfl
  rw [hst]
  have hc := MonitoredItem.step_change d.items h id (.sample k F)
  generalize MonitoredItem.find d.items.items id = a at *
  generalize MonitoredItem.find (MonitoredItem.step d.items (.sample k F)).items id = b at *
  cases hc with
  | same => rfl
  | made m n b hd => cases hd
  | gone _ hd => cases hd
  | sampled _ v hd => cases hd; exact absurd rfl hk
  | trig => rfl
  | modified _ _ _ hd => cases hd
  | moded _ _ hd => cases hd
  | linked _ _ _ _ hd => cases hd
  | published _ _ _ _ _ _ hd => cases hd

theorem gentle_samples {e : EventFilter.Event} (id : Nat) (on : Bool) (ts : List Listener) : ∀ d, Distinct d → Live d id on →
    (ts.map (·.id)).Nodup → (∀ x ∈ ts, x.id = id → on = true) → (waiting id d).length < 1024 →
    Gentle id d (ts.filterMap (sampleOf space e)) := by
  induction ts with
  | nil => intro d _ _ _ _ _; trivial
  | cons x ts ih =>
    intro d hd hl hn ho hw
    rw [List.map_cons, List.nodup_cons] at hn
    rw [List.filterMap_cons]
    split
    · exact ih d hd hl hn.2 (fun y hy => ho y (List.mem_cons_of_mem _ hy)) hw
    next ev hev =>
      obtain ⟨F, rfl⟩ := sampleOf_form hev
      by_cases hx : x.id = id
      · refine ⟨.inr ?_, gentle_all id _ (fun ev hev d' => ?_) _⟩
        · obtain ⟨y, h1, h2, h3⟩ := hl
          refine ⟨y, h1, h2.1 (ho x (by simp) hx), ?_⟩
          have : waiting id d = y.queue := by unfold waiting; rw [h1]
          rw [← this, h3]
          exact hw
        · obtain ⟨l, hl', h3⟩ := List.mem_filterMap.1 hev
          obtain ⟨F, rfl⟩ := sampleOf_form h3
          exact .inl fun hid => hn.1 (List.mem_map.2 ⟨l, hl', hid.trans hx.symm⟩)
      · refine ⟨.inl hx, ih _ (distinct_step hd _) (live_step hd _ id on trivial hl) hn.2
          (fun y hy => ho y (List.mem_cons_of_mem _ hy)) ?_⟩
        rw [waiting_other hd _ _ _ hx]
        exact hw

theorem story (hsi : AddressSpace.SingleInheritance space) (hon : AddressSpace.OneNotifier space) (en : Bool) (a b : Nat) (pre post : List Ev) (l : Listener)
    (m : MonitoredItem.Mode) (d : Bool) (hpre : ∀ ev ∈ pre, fresh l.id ev) (hpost : ∀ ev ∈ post, Steady l ev ∧ Fine space rounds l ev)
    (hrun : (run space rounds (init en a b) (pre ++ .listen l m d :: post)).stopped = false) :
    ∃ on W, Wanted space l (decide (m ≠ .disabled)) post on W ∧ Good l on (run space rounds (init en a b) (pre ++ .listen l m d :: post)) ∧
      samples l.id (run space rounds (init en a b) (pre ++ .listen l m d :: post)).past = W ∧
      (Roomy space rounds l.id (run space rounds (init en a b) (pre ++ [.listen l m d])) post → (∀ ev ∈ post, enabling l.id ev) →
        Gentle l.id (Delivery.init en a b) (run space rounds (init en a b) (pre ++ .listen l m d :: post)).past) := by
  induction post using snocInd with
  | nil =>
    obtain ⟨h1, h2, h3⟩ := run_fresh (space := space) (rounds := rounds) en a b l.id pre hpre
    have hst := before (b := [.listen l m d]) hrun
    obtain ⟨h4, h5⟩ := good_listen (space := space) (rounds := rounds) (base_run (base_init en a b) pre) hst l m d h1
    refine ⟨_, [], .none, by rw [run_snoc]; exact h4, ?_, fun _ _ => ?_⟩
    · rw [run_snoc, h5, samples_append, h2]; rfl
    · rw [run_snoc, h5, gentle_append]; exact ⟨h3, trivial, trivial⟩
  | append_singleton post ev ih =>
    have happ : pre ++ Ev.listen l m d :: (post ++ [ev]) = (pre ++ .listen l m d :: post) ++ [ev] := by simp
    rw [happ] at hrun ⊢
    have hst := before hrun
    obtain ⟨on, W, hW, hG, hS, hGe⟩ := ih (fun x hx => hpost x (by simp [hx])) hst
    obtain ⟨hs1, hs2⟩ := hpost ev (by simp)
    have hmid : run space rounds (run space rounds (init en a b) (pre ++ [.listen l m d])) post =
        run space rounds (init en a b) (pre ++ .listen l m d :: post) := by
      rw [← run_append]; simp
    have hpast := run_past (space := space) (rounds := rounds) en a b (pre ++ .listen l m d :: post)
    generalize hs : run space rounds (init en a b) (pre ++ .listen l m d :: post) = s at *
    rw [run_snoc, hs] at hrun ⊢
    by_cases hr : ∃ t e, ev = .raise t e
    · obtain ⟨t, e, rfl⟩ := hr
      obtain ⟨h1, ts, h2, h3, h4, W', h5, h6⟩ := good_raise hsi hon hG hst t e hs2 hrun
      refine ⟨on, W ++ W', h6 _ _ _ hW, h1, by rw [h3, samples_append, hS, h5], fun hro hen => ?_⟩
      rw [roomy_snoc, hmid] at hro
      rw [h3, gentle_append]
      refine ⟨hGe hro.1 fun x hx => hen x (by simp [hx]), ?_⟩
      rw [← hpast]
      exact gentle_samples l.id on ts s.delivery hG.base.distinct hG.live h2 h4 (hro.2 t e rfl)
    · by_cases hm : ∃ k, ev = .mode l.id k
      · obtain ⟨k, rfl⟩ := hm
        obtain ⟨h1, h2⟩ := good_mode (space := space) (rounds := rounds) hG hst k
        refine ⟨_, W, .mode on k hW, h1, ?_, fun hro hen => ?_⟩
        · rw [h2, samples_append, hS]; simp [samples]
        · rw [roomy_snoc] at hro
          rw [h2, gentle_append]
          have hk : enabling l.id (.mode l.id k) := hen _ (by simp)
          exact ⟨hGe hro.1 fun x hx => hen x (by simp [hx]), .inr (hk rfl), trivial⟩
      · have ho : Other l ev := ⟨fun t e h => hr ⟨t, e, h⟩, fun k h => hm ⟨k, h⟩⟩
        obtain ⟨h1, es, h2, h3, h4⟩ := good_other (space := space) (rounds := rounds) hG ev hs1 ho
        refine ⟨on, W, .other on ev hW ho.1 ho.2, h1, by rw [h2, samples_append, hS, h3, List.append_nil], fun hro hen => ?_⟩
        rw [roomy_snoc] at hro
        rw [h2, gentle_append]
        exact ⟨hGe hro.1 fun x hx => hen x (by simp [hx]), gentle_all _ _ h4 _⟩

/-! ## What is wanted is determined -/

theorem wanted_inv {l : Listener} {b₀ b : Bool} {evs : List Ev} {ev : Ev} {W : List Fields} (h : Wanted space l b₀ (evs ++ [ev]) b W) :
    ∃ b' W', Wanted space l b₀ evs b' W' ∧
      ((∃ t e F, ev = .raise t e ∧ b' = true ∧ b = true ∧ AddressSpace.Hears space t l.node ∧ EventFilter.Passes space e l.els ∧
          Chosen space e l.select F ∧ W = W' ++ [F]) ∨
       (∃ t e, ev = .raise t e ∧ b' = b ∧ W = W' ∧
          (¬ AddressSpace.Hears space t l.node ∨ ¬ EventFilter.Passes space e l.els ∨ b = false)) ∨
       (∃ m, ev = .mode l.id m ∧ b = decide (m ≠ .disabled) ∧ W = W') ∨
       ((∀ t e, ev ≠ .raise t e) ∧ (∀ m, ev ≠ .mode l.id m) ∧ b' = b ∧ W = W')) := by
  generalize hL : evs ++ [ev] = L at h
  cases h with
  | none => simp at hL
  | got t e F h1 h2 h3 h4 =>
    obtain ⟨rfl, h5⟩ := List.append_inj' hL rfl
    cases h5
    exact ⟨_, _, h1, .inl ⟨t, e, F, rfl, rfl, rfl, h2, h3, h4, rfl⟩⟩
  | far b t e h1 h2 =>
    obtain ⟨rfl, h5⟩ := List.append_inj' hL rfl
    cases h5
    exact ⟨_, _, h1, .inr (.inl ⟨t, e, rfl, rfl, rfl, .inl h2⟩)⟩
  | barred b t e h1 h2 =>
    obtain ⟨rfl, h5⟩ := List.append_inj' hL rfl
    cases h5
    exact ⟨_, _, h1, .inr (.inl ⟨t, e, rfl, rfl, rfl, .inr (.inl h2)⟩)⟩
  | off t e h1 =>
    obtain ⟨rfl, h5⟩ := List.append_inj' hL rfl
    cases h5
    exact ⟨_, _, h1, .inr (.inl ⟨t, e, rfl, rfl, rfl, .inr (.inr rfl)⟩)⟩
  | mode b' m h1 =>
    obtain ⟨rfl, h5⟩ := List.append_inj' hL rfl
    cases h5
    exact ⟨_, _, h1, .inr (.inr (.inl ⟨m, rfl, rfl, rfl⟩))⟩
  | other b' ev' h1 h2 h3 =>
    obtain ⟨rfl, h5⟩ := List.append_inj' hL rfl
    cases h5
    exact ⟨_, _, h1, .inr (.inr (.inr ⟨h2, h3, rfl, rfl⟩))⟩

theorem chosen_unique {e : EventFilter.Event} {select : List EventFilter.Clause} {F G : Fields} (h1 : Chosen space e select F)
    (h2 : Chosen space e select G) : F = G := by
  refine List.ext_getElem? fun i => ?_
  cases hc : select[i]? with
  | none =>
    have hl := List.getElem?_eq_none_iff.1 hc
    rw [List.getElem?_eq_none (by rw [h1.1]; exact hl), List.getElem?_eq_none (by rw [h2.1]; exact hl)]
  | some c =>
    obtain ⟨v, h3, h4⟩ := h1.2 i c hc
    obtain ⟨w, h5, h6⟩ := h2.2 i c hc
    rw [h3, h5, EventFilter.selected_unique h4 h6]

theorem wanted_unique {l : Listener} {b₀ : Bool} {evs : List Ev} : ∀ {b c : Bool} {W X : List Fields},
    Wanted space l b₀ evs b W → Wanted space l b₀ evs c X → b = c ∧ W = X := by
  induction evs using snocInd with
  | nil =>
    have key : ∀ {b : Bool} {W : List Fields} {L : List Ev}, Wanted space l b₀ L b W → L = [] → b = b₀ ∧ W = [] := by
      intro b W L h hL
      cases h with
      | none => exact ⟨rfl, rfl⟩
      | got => simp at hL
      | far => simp at hL
      | barred => simp at hL
      | off => simp at hL
      | mode => simp at hL
      | other => simp at hL
    intro b c W X h1 h2
    obtain ⟨rfl, rfl⟩ := key h1 rfl
    obtain ⟨rfl, rfl⟩ := key h2 rfl
    exact ⟨rfl, rfl⟩
  | append_singleton evs ev ih =>
    intro b c W X h1 h2
    obtain ⟨b', W', h3, h4⟩ := wanted_inv h1
    obtain ⟨c', X', h5, h6⟩ := wanted_inv h2
    obtain ⟨rfl, rfl⟩ := ih h3 h5
    rcases h4 with ⟨t, e, F, rfl, hb, hb', a1, a2, a3, rfl⟩ | ⟨t, e, rfl, rfl, rfl, a1⟩ | ⟨m, rfl, rfl, rfl⟩ | ⟨a1, a2, rfl, rfl⟩
    · rcases h6 with ⟨t', e', G, h7, _, hc, _, _, c3, rfl⟩ | ⟨t', e', h7, rfl, rfl, c1⟩ | ⟨m, h7, _⟩ | ⟨c1, _⟩
      · cases h7; rw [hb', hc, chosen_unique a3 c3]; exact ⟨rfl, rfl⟩
      · cases h7
        rcases c1 with c1 | c1 | c1
        · exact absurd a1 c1
        · exact absurd a2 c1
        · rw [c1] at hb; cases hb
      · cases h7
      · exact absurd rfl (c1 t e)
    · rcases h6 with ⟨t', e', G, h7, hb, hc, c1, c2, c3, rfl⟩ | ⟨t', e', h7, rfl, rfl, c1⟩ | ⟨m, h7, _⟩ | ⟨c1, _⟩
      · cases h7
        rcases a1 with a1 | a1 | a1
        · exact absurd c1 a1
        · exact absurd c2 a1
        · rw [a1] at hb; cases hb
      · exact ⟨rfl, rfl⟩
      · cases h7
      · exact absurd rfl (c1 t e)
    · rcases h6 with ⟨t', e', G, h7, _⟩ | ⟨t', e', h7, _⟩ | ⟨m', h7, rfl, rfl⟩ | ⟨_, c2, _⟩
      · cases h7
      · cases h7
      · cases h7; exact ⟨rfl, rfl⟩
      · exact absurd rfl (c2 m)
    · rcases h6 with ⟨t', e', G, rfl, _⟩ | ⟨t', e', rfl, _⟩ | ⟨m', rfl, _⟩ | ⟨_, _, rfl, rfl⟩
      · exact absurd rfl (a1 t' e')
      · exact absurd rfl (a1 t' e')
      · exact absurd rfl (a2 m')
      · exact ⟨rfl, rfl⟩

/-! ## The theorems -/

/-- The history as the subscription sees it. -/
abbrev past (space : AddressSpace.Space) (rounds : Nat) (en : Bool) (a b : Nat) (evs : List Ev) : List (Delivery.Ev Fields) :=
  (run space rounds (init en a b) evs).past

/-- **C131 (order, partial).** A listener gets what it should get and nothing else, and never in another order: what the
client has in the first `n` messages is part of what was wanted, in order; and a beginning of it if the queue did not
overflow and the item was not disabled. Missing: two notifiers, unusual filters, a server that has stopped. -/
theorem C131_order_partial (hsi : AddressSpace.SingleInheritance space) (hon : AddressSpace.OneNotifier space) (en : Bool) (a b : Nat)
    (pre post : List Ev) (l : Listener) (m : MonitoredItem.Mode) (d : Bool) (hpre : ∀ ev ∈ pre, fresh l.id ev)
    (hpost : ∀ ev ∈ post, Steady l ev ∧ Fine space rounds l ev)
    (hrun : (run space rounds (init en a b) (pre ++ .listen l m d :: post)).stopped = false)
    (hc : Careful (Delivery.init en a b) (past space rounds en a b (pre ++ .listen l m d :: post)))
    (hn : Delivery.made (run space rounds (init en a b) (pre ++ .listen l m d :: post)).delivery < 2 ^ 32) (n : Nat)
    (hh : ∀ i < n, BitVec.ofNat 32 (i + 1) ∈ numbers (run space rounds (init en a b) (pre ++ .listen l m d :: post)).delivery.got) :
    ∃ on W, Wanted space l (decide (m ≠ .disabled)) post on W ∧
      (assembled l.id (run space rounds (init en a b) (pre ++ .listen l m d :: post)).delivery.got n).Sublist W ∧
      (Roomy space rounds l.id (run space rounds (init en a b) (pre ++ [.listen l m d])) post → (∀ ev ∈ post, enabling l.id ev) →
        assembled l.id (run space rounds (init en a b) (pre ++ .listen l m d :: post)).delivery.got n <+: W) := by
  obtain ⟨on, W, h1, h2, h3, h4⟩ := story hsi hon en a b pre post l m d hpre hpost hrun
  have hp := run_past (space := space) (rounds := rounds) en a b (pre ++ .listen l m d :: post)
  rw [hp] at hn hh ⊢
  obtain ⟨h5, h6⟩ := Delivery.C129_assembled_partial en a b _ hc hn l.id n hh
  rw [h3] at h5 h6
  exact ⟨on, W, h1, h5, fun r e => h6 (h4 r e)⟩

/-- **C131 (delivery, partial).** A careful client that asks again for the messages it has not got has every event that
it wanted, once and in order, but for those that are still in the queue. -/
theorem C131_delivered_partial (hsi : AddressSpace.SingleInheritance space) (hon : AddressSpace.OneNotifier space) (en : Bool) (a b : Nat)
    (pre post : List Ev) (l : Listener) (m : MonitoredItem.Mode) (d : Bool) (hpre : ∀ ev ∈ pre, fresh l.id ev)
    (hpost : ∀ ev ∈ post, Steady l ev ∧ Fine space rounds l ev ∧ enabling l.id ev)
    (hrun : (run space rounds (init en a b) (pre ++ .listen l m d :: post)).stopped = false)
    (hroom : Roomy space rounds l.id (run space rounds (init en a b) (pre ++ [.listen l m d])) post)
    (hc : Careful (Delivery.init en a b) (past space rounds en a b (pre ++ .listen l m d :: post)))
    (hn : Delivery.made (run space rounds (init en a b) (pre ++ .listen l m d :: post)).delivery < 2 ^ 32)
    (ha : (run space rounds (init en a b) (pre ++ .listen l m d :: post)).delivery.sub.alive = true) :
    ∃ on W, Wanted space l (decide (m ≠ .disabled)) post on W ∧
      (∀ on' W', Wanted space l (decide (m ≠ .disabled)) post on' W' → W' = W) ∧
      let s := (run space rounds (init en a b) (pre ++ .listen l m d :: post)).delivery
      assembled l.id (Delivery.run s (Delivery.askAgain (Delivery.made s))).got (Delivery.made s) ++ waiting l.id s = W := by
  obtain ⟨on, W, h1, h2, h3, h4⟩ := story hsi hon en a b pre post l m d hpre (fun e he => ⟨(hpost e he).1, (hpost e he).2.1⟩) hrun
  have hp := run_past (space := space) (rounds := rounds) en a b (pre ++ .listen l m d :: post)
  refine ⟨on, W, h1, fun on' W' h => (wanted_unique h h1).2, ?_⟩
  dsimp only
  rw [hp] at hn ha ⊢
  have := Delivery.C129_recover_partial en a b _ hc hn ha l.id (h4 hroom fun e he => (hpost e he).2.2)
  rw [h3] at this
  rw [← this]
  simp [Delivery.run]

/-- The filters that clients have sent. -/
def filters (evs : List Ev) : List (List EventFilter.Element) :=
  evs.filterMap (fun
    | .listen l _ _ => some l.els
    | .change _ els _ _ => some els
    | _ => none)

/-- **C131 (service, partial).** If all filters use what is implemented, and every delivery ends, the server does not
stop. -/
theorem C131_serving_partial (hsi : AddressSpace.SingleInheritance space) (en : Bool) (a b : Nat) (evs : List Ev)
    (h : ∀ t e, Ev.raise t e ∈ evs → (∀ L, AddressSpace.onEvent space rounds t [] ≠ .running L) ∧ EventFilter.Shallow space e ∧
      ∀ els ∈ filters evs, EventFilter.FilterOk space e els) :
    (run space rounds (init en a b) evs).stopped = false := by
  have key : ∀ (p : List Ev), (∀ ev ∈ p, ev ∈ evs) → (run space rounds (init en a b) p).stopped = false ∧
      ∀ x ∈ (run space rounds (init en a b) p).listeners, x.els ∈ filters evs := by
    intro p
    induction p using snocInd with
    | nil => intro _; exact ⟨rfl, fun x hx => by cases hx⟩
    | append_singleton p ev ih =>
      intro hp
      obtain ⟨h1, h2⟩ := ih fun x hx => hp x (by simp [hx])
      rw [run_snoc]
      generalize run space rounds (init en a b) p = s at *
      have hev := hp ev (by simp)
      unfold step
      rw [if_neg (by rw [h1]; simp)]
      cases ev with
      | raise t e =>
        obtain ⟨h3, h4, h5⟩ := h t e hev
        have many : ∀ ts : List Listener, (∀ x ∈ ts, x ∈ s.listeners) → ∀ s' : State, s'.stopped = false → s'.listeners = s.listeners →
            (ts.foldl (hear space e) s').stopped = false ∧ (ts.foldl (hear space e) s').listeners = s.listeners := by
          intro ts
          induction ts with
          | nil => intro _ s' h1 h2; exact ⟨h1, h2⟩
          | cons x ts ih2 =>
            intro hts s' g1 g2
            rw [List.foldl_cons]
            have := EventFilter.C58_where_partial space hsi e h4 x.els (h5 _ (h2 x (hts x (by simp)))) x.select (x.els.length + 1) (by omega)
            have hh : (hear space e s' x).stopped = false ∧ (hear space e s' x).listeners = s.listeners := by
              rcases this with ⟨_, F, h6⟩ | ⟨_, h6⟩
              · simp [hear, g1, h6, tell, g2]
              · simp [hear, g1, h6, g2]
            exact ih2 (fun y hy => hts y (List.mem_cons_of_mem _ hy)) _ hh.1 hh.2
        have hd : ∀ L, ((targets s.listeners L).foldl (hear space e) s).stopped = false ∧
            ((targets s.listeners L).foldl (hear space e) s).listeners = s.listeners :=
          fun L => many _ (fun x hx => (mem_targets.1 hx).1) s h1 rfl
        dsimp only [raise]
        split
        · exact ⟨(hd _).1, fun x hx => h2 x ((hd _).2 ▸ hx)⟩
        · exact ⟨(hd _).1, fun x hx => h2 x ((hd _).2 ▸ hx)⟩
        next hr => exact absurd hr (h3 _)
      | listen l m d =>
        dsimp only
        split
        · exact ⟨h1, h2⟩
        · refine ⟨h1, fun x hx => ?_⟩
          rcases List.mem_append.1 hx with hx | hx
          · exact h2 x hx
          · simp only [List.mem_singleton] at hx
            subst hx
            exact List.mem_filterMap.2 ⟨_, hev, rfl⟩
      | change id els select d =>
        refine ⟨h1, fun x hx => ?_⟩
        obtain ⟨y, hy, rfl⟩ := List.mem_map.1 hx
        split
        · exact List.mem_filterMap.2 ⟨_, hev, rfl⟩
        · exact h2 y hy
      | unlisten id => exact ⟨h1, fun x hx => h2 x (List.mem_filter.1 hx).1⟩
      | mode id m =>
        refine ⟨h1, fun x hx => ?_⟩
        obtain ⟨y, hy, rfl⟩ := List.mem_map.1 hx
        split <;> exact h2 y hy
      | link => exact ⟨h1, h2⟩
      | sub e =>
        cases e with
        | item => exact ⟨h1, h2⟩
        | _ => exact ⟨h1, h2⟩
  exact (key evs fun _ h => h).1

/-! ## What is lost -/

theorem run_items (es : List (MonitoredItem.Ev Fields)) (h : ∀ e ∈ es, ∀ a b, e ≠ .publish a b) : ∀ d : Delivery.State Fields,
    (Delivery.run d (es.map .item)).items = MonitoredItem.run d.items es := by
  induction es with
  | nil => intro d; rfl
  | cons e es ih =>
    intro d
    have hs : (Delivery.step d (.item e)).items = MonitoredItem.step d.items e := by
      cases e with
      | publish a b => exact absurd rfl (h _ (by simp) a b)
      | _ => rfl
    have := ih (fun x hx => h x (List.mem_cons_of_mem _ hx)) (Delivery.step d (.item e))
    rw [hs] at this
    exact this

theorem burst_run (l : Listener) (hl : l.node = AddressSpace.serverObject) (he : l.els = []) (d en : Bool) (a b : Nat)
    (es : List EventFilter.Event) :
    let s := run space (rounds + 1) (init en a b) (.listen l .reporting d :: es.map (.raise AddressSpace.serverObject ·))
    s.stopped = false ∧ s.listeners = [{ l with on := true }] ∧
      s.past = .item (.create l.id .reporting 1024 d) :: es.map (fun e => .item (.sample l.id (EventFilter.selectFields e l.select))) := by
  induction es using snocInd with
  | nil => simp [run, step, init, Delivery.init, MonitoredItem.init, MonitoredItem.find, tell]
  | append_singleton es e ih =>
    dsimp only at ih ⊢
    rw [List.map_append, List.map_cons, List.map_nil, ← List.cons_append, run_snoc]
    generalize run space (rounds + 1) (init en a b) _ = s at *
    obtain ⟨h1, h2, h3⟩ := ih
    have ho : EventFilter.onEvent space l.els l.select (l.els.length + 1) e = .queued (EventFilter.selectFields e l.select) := by
      rw [he]; simp [EventFilter.onEvent, EventFilter.whereClause]
    have : step space (rounds + 1) s (.raise AddressSpace.serverObject e) = tell s (.item (.sample l.id (EventFilter.selectFields e l.select))) := by
      simp [step, h1, raise, AddressSpace.onEvent, targets, h2, hl, hear, ho]
    rw [this]
    exact ⟨h1, h2, by simp [tell, h3]⟩

/-- **C131 fails (bursts).** Whatever queue size a client asks for, at most 1024 events wait to be published: of a longer
burst the oldest events are lost, and no message tells. -/
theorem C131_burst_fails (l : Listener) (hl : l.node = AddressSpace.serverObject) (he : l.els = []) (en : Bool) (a b : Nat)
    (es : List EventFilter.Event) :
    let s := run space (rounds + 1) (init en a b) (.listen l .reporting true :: es.map (.raise AddressSpace.serverObject ·))
    waiting l.id s.delivery = (es.map (fun e => EventFilter.selectFields e l.select)).drop (es.length - 1024) ∧ s.delivery.got = [] ∧
      ∀ e ∈ es, EventFilter.Passes space e l.els ∧ AddressSpace.Hears space AddressSpace.serverObject l.node := by
  obtain ⟨h1, h2, h3⟩ := burst_run (space := space) (rounds := rounds) l hl he true en a b es
  have hp := run_past (space := space) (rounds := rounds + 1) en a b (.listen l .reporting true :: es.map (.raise AddressSpace.serverObject ·))
  dsimp only at h1 h2 h3 ⊢
  rw [h3] at hp
  generalize run space (rounds + 1) (init en a b) _ = s at *
  have hform : (.item (.create l.id .reporting 1024 true) :: es.map (fun e => .item (.sample l.id (EventFilter.selectFields e l.select))) :
      List (Delivery.Ev Fields)) =
      (([.create l.id .reporting 1024 true] ++ es.map (fun e => .sample l.id (EventFilter.selectFields e l.select))) :
        List (MonitoredItem.Ev Fields)).map .item := by
    simp
  refine ⟨?_, ?_, fun e _ => ⟨.inl he, by rw [hl]; exact .self _⟩⟩
  · rw [hp, hform]
    unfold waiting
    rw [run_items _ (by
      intro e he a b h
      subst h
      simp at he)]
    obtain ⟨y, h4, _, _, _, h5⟩ := MonitoredItem.C51_kept [.create l.id .reporting 1024 true]
      (es.map (fun e => .sample l.id (EventFilter.selectFields e l.select))) l.id
      (MonitoredItem.newItem l.id .reporting 1024 true) (by simp [MonitoredItem.run, MonitoredItem.step, MonitoredItem.init, MonitoredItem.find, MonitoredItem.newItem])
      (by simp [MonitoredItem.newItem]) (by
        intro e he
        obtain ⟨x, _, rfl⟩ := List.mem_map.1 he
        rfl)
    have h4' : MonitoredItem.find (MonitoredItem.run (Delivery.init en a b).items
      ([.create l.id .reporting 1024 true] ++ es.map (fun e => .sample l.id (EventFilter.selectFields e l.select)))).items l.id = some y := h4
    rw [h4']
    dsimp only
    rw [h5]
    have hsz : (MonitoredItem.newItem l.id .reporting 1024 true : MonitoredItem.Item Fields).size = 1024 := by
      rw [MonitoredItem.newItem, (MonitoredItem.setQueueSize_spec _ _).1]; rfl
    have hq : (MonitoredItem.newItem l.id .reporting 1024 true : MonitoredItem.Item Fields).queue = [] := rfl
    have hd : (MonitoredItem.newItem l.id .reporting 1024 true : MonitoredItem.Item Fields).discardOldest = true := rfl
    have hsam : MonitoredItem.samplesOf l.id (es.map (fun e => .sample l.id (EventFilter.selectFields e l.select))) =
        es.map (fun e => EventFilter.selectFields e l.select) := by
      clear h1 h2 h3 hp hform h4 h4' h5
      induction es with
      | nil => rfl
      | cons e es ih => simp [MonitoredItem.samplesOf] at ih ⊢; exact ih
    rw [hsz, hq, hd, hsam, if_pos rfl, List.nil_append]
    simp [MonitoredItem.newest]
  · rw [hp, hform]
    generalize ([.create l.id .reporting 1024 true] ++ es.map (fun e => .sample l.id (EventFilter.selectFields e l.select)) :
        List (MonitoredItem.Ev Fields)) = xs
    have : ∀ (xs : List (MonitoredItem.Ev Fields)) (d : Delivery.State Fields), (Delivery.run d (xs.map .item)).got = d.got := by
      intro xs
      induction xs with
      | nil => intro d; rfl
      | cons x xs ih =>
        intro d
        have h := ih (Delivery.step d (.item x))
        have hg : (Delivery.step d (.item x)).got = d.got := by cases x <;> rfl
        rw [hg] at h
        exact h
    exact this xs _

/-- **C131 fails (one filter stops all).** A filter with too few operands, sent by one client, makes the server panic at
the next event, and another listener does not get it. -/
theorem C131_stop_fails (en : Bool) (a b : Nat) (e : EventFilter.Event) (select : List EventFilter.Clause) :
    let s := run space (rounds + 1) (init en a b) [.listen ⟨1, AddressSpace.serverObject, [⟨0, [.literal .null]⟩], [], true⟩ .reporting true,
      .listen ⟨2, AddressSpace.serverObject, [], select, true⟩ .reporting true, .raise AddressSpace.serverObject e]
    s.stopped = true ∧ waiting 2 s.delivery = [] ∧ EventFilter.Passes space e [] := by
  have h : EventFilter.onEvent space [⟨0, [.literal .null]⟩] [] 2 e = .panic := by
    simp [EventFilter.onEvent, EventFilter.whereClause, EventFilter.equals, EventFilter.operandValue]
  refine ⟨?_, ?_, .inl rfl⟩ <;>
  simp [run, step, init, Delivery.init, MonitoredItem.init, MonitoredItem.find, tell, raise, AddressSpace.onEvent, targets,
    hear, h, Delivery.step, MonitoredItem.step, MonitoredItem.newItem, MonitoredItem.setQueueSize, MonitoredItem.popFrontTo, waiting]

/-- **C131 fails (a second area).** A client that listens at the second of two areas to which a pump belongs does not
hear of the pump. -/
theorem C131_area_fails :
    let l : Listener := ⟨1, ⟨1, 3⟩, [], [{ type := EventFilter.baseEventType, path := ["Severity"] }], true⟩
    let s := run AddressSpace.twoAreas 5 (init true 30 10) [.listen l .reporting true, .raise ⟨1, 2⟩ EventFilter.pumpFailed]
    AddressSpace.Hears AddressSpace.twoAreas ⟨1, 2⟩ l.node ∧ EventFilter.Passes AddressSpace.twoAreas EventFilter.pumpFailed l.els ∧
      s.stopped = false ∧ waiting 1 s.delivery = [] ∧ s.delivery.got = [] :=
  ⟨AddressSpace.C89_second_fails.1, .inl rfl, by decide +kernel, by decide +kernel, by decide +kernel⟩

theorem changed_run (l : Listener) (hl : l.node = AddressSpace.serverObject) (select : List EventFilter.Clause) (d0 en : Bool)
    (a b : Nat) (es : List EventFilter.Event) :
    let s := run space (rounds + 1) (init en a b)
      ([.listen l .reporting d0, .change l.id [] select true] ++ es.map (.raise AddressSpace.serverObject ·))
    s.stopped = false ∧ s.listeners = [{ l with els := [], select := select, on := true }] ∧
    s.past = [.item (.create l.id .reporting 1024 d0), .item (.modify l.id 1024 true)] ++
      es.map (fun e => .item (.sample l.id (EventFilter.selectFields e select))) := by
  induction es using snocInd with
  | nil => simp [run, step, init, Delivery.init, MonitoredItem.init, MonitoredItem.find, tell]
  | append_singleton es e ih =>
    dsimp only at ih ⊢
    rw [List.map_append, List.map_cons, List.map_nil, ← List.append_assoc, run_snoc]
    generalize run space (rounds + 1) (init en a b) _ = s at *
    obtain ⟨h1, h2, h3⟩ := ih
    have ho : EventFilter.onEvent space [] select 1 e = .queued (EventFilter.selectFields e select) := by
      simp [EventFilter.onEvent, EventFilter.whereClause]
    have : step space (rounds + 1) s (.raise AddressSpace.serverObject e) = tell s (.item (.sample l.id (EventFilter.selectFields e select))) := by
      simp [step, h1, raise, AddressSpace.onEvent, targets, h2, hl, hear, ho]
    rw [this]
    exact ⟨h1, h2, by simp [tell, h3]⟩

/-- After ModifyMonitoredItems a listener gets the fields that it asks for now, of all events, and as many as 1024 of
them still wait for it. -/
theorem C131_changed (l : Listener) (hl : l.node = AddressSpace.serverObject) (select : List EventFilter.Clause) (d0 en : Bool)
    (a b : Nat) (es : List EventFilter.Event) :
    let s := run space (rounds + 1) (init en a b)
      ([.listen l .reporting d0, .change l.id [] select true] ++ es.map (.raise AddressSpace.serverObject ·))
    waiting l.id s.delivery = (es.map (fun e => EventFilter.selectFields e select)).drop (es.length - 1024) := by
  have hb := changed_run (space := space) (rounds := rounds) l hl select d0 en a b es
  obtain ⟨h1, h2, h3⟩ := hb
  have hp := run_past (space := space) (rounds := rounds + 1) en a b
    ([.listen l .reporting d0, .change l.id [] select true] ++ es.map (.raise AddressSpace.serverObject ·))
  dsimp only at h1 h2 h3 ⊢
  rw [h3] at hp
  generalize run space (rounds + 1) (init en a b) _ = s at *
  have hform : ([.item (.create l.id .reporting 1024 d0), .item (.modify l.id 1024 true)] ++
      es.map (fun e => .item (.sample l.id (EventFilter.selectFields e select))) : List (Delivery.Ev Fields)) =
      (([.create l.id .reporting 1024 d0, .modify l.id 1024 true] ++ es.map (fun e => .sample l.id (EventFilter.selectFields e select))) :
        List (MonitoredItem.Ev Fields)).map .item := by
    simp
  rw [hp, hform]
  unfold waiting
  rw [run_items _ (by
    intro e he a b h
    subst h
    simp at he)]
  have hnew : (MonitoredItem.find (MonitoredItem.run MonitoredItem.init [.create l.id .reporting 1024 d0, .modify l.id 1024 true] :
      MonitoredItem.State Fields).items l.id).map (fun y => (y.mode, y.size, y.queue, y.discardOldest)) =
      some (.reporting, 1024, [], true) := by
    cases d0 <;> simp [MonitoredItem.run, MonitoredItem.step, MonitoredItem.init, MonitoredItem.find, MonitoredItem.newItem,
      MonitoredItem.setQueueSize, MonitoredItem.popFrontTo, MonitoredItem.popBackTo, MonitoredItem.update, MonitoredItem.modify]
  obtain ⟨x, hx, hxx⟩ := Option.map_eq_some_iff.1 hnew
  injection hxx with e1 e2
  injection e2 with e2 e3
  injection e3 with e3 e4
  obtain ⟨y, h4, _, _, _, h5⟩ := MonitoredItem.C51_kept [.create l.id .reporting 1024 d0, .modify l.id 1024 true]
    (es.map (fun e => .sample l.id (EventFilter.selectFields e select))) l.id x hx (by rw [e1]; decide) (by
      intro e he
      obtain ⟨x, _, rfl⟩ := List.mem_map.1 he
      rfl)
  have h4' : MonitoredItem.find (MonitoredItem.run (Delivery.init en a b).items
    ([.create l.id .reporting 1024 d0, .modify l.id 1024 true] ++ es.map (fun e => .sample l.id (EventFilter.selectFields e select)))).items l.id = some y := h4
  rw [h4']
  dsimp only
  rw [h5]
  have hsam : MonitoredItem.samplesOf l.id (es.map (fun e => .sample l.id (EventFilter.selectFields e select))) =
      es.map (fun e => EventFilter.selectFields e select) := by
    clear h1 h2 h3 hp hform h4 h4' h5
    induction es with
    | nil => rfl
    | cons e es ih => simp [MonitoredItem.samplesOf] at ih ⊢; exact ih
  rw [e2, e3, e4, hsam, if_pos rfl, List.nil_append]
  simp [MonitoredItem.newest]

/-- **C131 fails (a cycle of notifiers).** When two objects are notifiers of one another, raising an event at one of them
never comes to an end, and nobody is told anything afterwards. -/
theorem C131_cycle_fails (rounds : Nat) (en : Bool) (a b : Nat) (e : EventFilter.Event) (evs later : List Ev)
    (hs : (run AddressSpace.notifierCycle rounds (init en a b) evs).stopped = false) :
    (run AddressSpace.notifierCycle rounds (init en a b) (evs ++ .raise ⟨1, 0⟩ e :: later)).delivery =
      (run AddressSpace.notifierCycle rounds (init en a b) evs).delivery := by
  obtain ⟨L, h1, _⟩ := AddressSpace.C89_cycle_fails rounds
  have hstep : step AddressSpace.notifierCycle rounds (run AddressSpace.notifierCycle rounds (init en a b) evs) (.raise ⟨1, 0⟩ e) =
      { run AddressSpace.notifierCycle rounds (init en a b) evs with stopped := true } := by
    simp [step, hs, raise, h1]
  have hstop : ∀ (l : List Ev) (s : State), s.stopped = true → run AddressSpace.notifierCycle rounds s l = s := by
    intro l
    induction l with
    | nil => intro s _; rfl
    | cons x l ih =>
      intro s h
      have hx : step AddressSpace.notifierCycle rounds s x = s := by simp [step, h]
      show run AddressSpace.notifierCycle rounds (step AddressSpace.notifierCycle rounds s x) l = s
      rw [hx]; exact ih s h
  have : run AddressSpace.notifierCycle rounds (init en a b) (evs ++ .raise ⟨1, 0⟩ e :: later) =
      run AddressSpace.notifierCycle rounds (step AddressSpace.notifierCycle rounds (run AddressSpace.notifierCycle rounds (init en a b) evs) (.raise ⟨1, 0⟩ e)) later := by
    simp [run]
  rw [this, hstep, hstop later _ rfl]

/-! ## An example: the pump belongs to an area, the area to the server -/

def works : AddressSpace.Space := fun id =>
  if id = ⟨1, 10⟩ then some { refs := [⟨AddressSpace.hasNotifier, true, ⟨1, 11⟩⟩] }
  else if id = ⟨1, 11⟩ then some { refs := [⟨AddressSpace.hasNotifier, true, AddressSpace.serverObject⟩] }
  else if id = AddressSpace.serverObject then some { refs := [] }
  else EventFilter.eventTypes id

theorem works_super {a b : AddressSpace.Id} : AddressSpace.IsSuper works a b ↔ AddressSpace.IsSuper EventFilter.eventTypes a b := by
  have hcases : (a = ⟨1, 10⟩ ∨ a = ⟨1, 11⟩ ∨ a = AddressSpace.serverObject) ∨ works a = EventFilter.eventTypes a := by
    unfold works
    split
    · exact .inl (.inl ‹_›)
    · split
      · exact .inl (.inr (.inl ‹_›))
      · split
        · exact .inl (.inr (.inr ‹_›))
        · exact .inr rfl
  rcases hcases with (rfl | rfl | rfl) | h
  · constructor
    · rintro ⟨n, hn, hr⟩
      have : n = { refs := [⟨AddressSpace.hasNotifier, true, ⟨1, 11⟩⟩] } := by
        have : works ⟨1, 10⟩ = some { refs := [⟨AddressSpace.hasNotifier, true, ⟨1, 11⟩⟩] } := by decide
        rw [this] at hn; cases hn; rfl
      subst this
      exact absurd hr (by simp)
    · rintro ⟨n, hn, hr⟩
      have : EventFilter.eventTypes ⟨1, 10⟩ = none := by decide
      rw [this] at hn; cases hn
  · constructor
    · rintro ⟨n, hn, hr⟩
      have : n = { refs := [⟨AddressSpace.hasNotifier, true, AddressSpace.serverObject⟩] } := by
        have : works ⟨1, 11⟩ = some { refs := [⟨AddressSpace.hasNotifier, true, AddressSpace.serverObject⟩] } := by decide
        rw [this] at hn; cases hn; rfl
      subst this
      exact absurd hr (by simp)
    · rintro ⟨n, hn, hr⟩
      have : EventFilter.eventTypes ⟨1, 11⟩ = none := by decide
      rw [this] at hn; cases hn
  · constructor
    · rintro ⟨n, hn, hr⟩
      have : n = { refs := [] } := by
        have : works AddressSpace.serverObject = some { refs := [] } := by decide
        rw [this] at hn; cases hn; rfl
      subst this
      cases hr
    · rintro ⟨n, hn, hr⟩
      have : EventFilter.eventTypes AddressSpace.serverObject = none := by decide
      rw [this] at hn; cases hn
  · unfold AddressSpace.IsSuper; rw [h]

theorem works_hops {k : Nat} {a b : AddressSpace.Id} : AddressSpace.Hops works k a b ↔ AddressSpace.Hops EventFilter.eventTypes k a b := by
  constructor
  · intro h
    induction h with
    | zero => exact .zero _
    | succ h _ ih => exact .succ (works_super.1 h) ih
  · intro h
    induction h with
    | zero => exact .zero _
    | succ h _ ih => exact .succ (works_super.2 h) ih

theorem works_single : AddressSpace.SingleInheritance works := fun a b c h1 h2 =>
  EventFilter.eventTypes_single a b c (works_super.1 h1) (works_super.1 h2)

theorem works_one : AddressSpace.OneNotifier works := by
  rintro a b c ⟨_, n, hn, hb⟩ ⟨_, m, hm, hc⟩
  rw [hn] at hm
  cases hm
  unfold works at hn
  split at hn
  · cases hn; simp at hb hc; rw [hb, hc]
  · split at hn
    · cases hn; simp at hb hc; rw [hb, hc]
    · unfold EventFilter.eventTypes at hn
      split at hn
      · cases hn; simp at hb
      · split at hn
        · cases hn; simp at hb
        · split at hn
          · cases hn; cases hb
          · cases hn

theorem works_isA {a b : AddressSpace.Id} (h : EventFilter.IsA EventFilter.eventTypes a b) : EventFilter.IsA works a b := by
  obtain ⟨k, h⟩ := h
  exact ⟨k, works_hops.2 h⟩

/-- Conditions of severity 700 at the area. -/
def operator : Listener :=
  ⟨7, ⟨1, 11⟩, EventFilter.pumpFilter, [{ type := EventFilter.baseEventType, path := ["SourceName"] }], true⟩

theorem operator_fine : Fine works 5 operator (.raise ⟨1, 10⟩ EventFilter.pumpFailed) := by
  refine ⟨⟨_, rfl⟩, ?_, ?_, ?_⟩
  · intro c hc k t hk
    exact EventFilter.pump_shallow c hc k t (works_hops.1 hk)
  · intro i el h
    have hp : EventFilter.Plain works EventFilter.pumpFailed { type := EventFilter.baseEventType, path := ["Severity"] } :=
      fun p _ _ => ⟨Or.inl rfl, ⟨1, 5⟩, rfl, works_isA EventFilter.pump_isA.2⟩
    match i with
    | 0 => cases h; exact Or.inl ⟨_, _, rfl, by simp [EventFilter.OperandOk, operator, EventFilter.pumpFilter], by simp [EventFilter.OperandOk, operator, EventFilter.pumpFilter], by decide⟩
    | 1 => cases h; exact Or.inl ⟨_, _, rfl, hp, trivial, by decide⟩
    | 2 => cases h; exact Or.inr ⟨_, rfl⟩
    | n + 3 => cases h
  · intro c hc
    simp only [operator, List.mem_singleton] at hc
    subst hc
    exact fun p _ _ => ⟨Or.inl rfl, ⟨1, 5⟩, rfl, works_isA EventFilter.pump_isA.2⟩

/-- Another client listens at the server; the response with the first event is lost. -/
def exPre : List Ev := [.listen ⟨3, AddressSpace.serverObject, [], [], true⟩ .reporting true]

def exPost : List Ev := [.raise ⟨1, 10⟩ EventFilter.pumpFailed, .sub (.timer 5 [3, 7] (.some [] true) false),
  .raise ⟨1, 10⟩ EventFilter.pumpFailed, .sub (.timer 5 [3, 7] (.some [] true) true)]

example : ∃ on W, Wanted works operator true exPost on W ∧
    let s := (run works 5 (init true 30 10) (exPre ++ .listen operator .reporting true :: exPost)).delivery
    s.got.map (·.1) = [2] ∧
    assembled 7 (Delivery.run s (Delivery.askAgain (Delivery.made s))).got (Delivery.made s) ++ waiting 7 s = W ∧
    W = [[.text 12 "Pump"], [.text 12 "Pump"]] := by
  obtain ⟨on, W, h1, h2, h3⟩ := C131_delivered_partial (rounds := 5) works_single works_one true 30 10 exPre exPost operator .reporting true
    (by intro ev hev; simp only [exPre, List.mem_singleton] at hev; subst hev; show 3 ≠ 7; decide)
    (by
      intro ev hev
      simp only [exPost, List.mem_cons, List.not_mem_nil, or_false] at hev
      rcases hev with rfl | rfl | rfl | rfl
      · exact ⟨trivial, operator_fine, trivial⟩
      · exact ⟨trivial, trivial, trivial⟩
      · exact ⟨trivial, operator_fine, trivial⟩
      · exact ⟨trivial, trivial, trivial⟩)
    (by decide +kernel)
    (by
      refine ⟨fun _ _ _ => ?_, fun _ _ _ => ?_, fun _ _ _ => ?_, fun _ _ _ => ?_, trivial⟩ <;> decide +kernel)
    (by
      have : past works 5 true 30 10 (exPre ++ .listen operator .reporting true :: exPost) =
        [.item (.create 3 .reporting 1024 true), .item (.create 7 .reporting 1024 true), .item (.sample 7 [.text 12 "Pump"]),
         .item (.sample 3 []), .timer 5 [3, 7] (.some [] true) false, .item (.sample 7 [.text 12 "Pump"]), .item (.sample 3 []),
         .timer 5 [3, 7] (.some [] true) true] := by
        have h1 : AddressSpace.onEvent works 5 ⟨1, 10⟩ [] = .done [⟨1, 10⟩, ⟨1, 11⟩, AddressSpace.serverObject] := by decide
        rfl
      rw [this]
      refine ⟨trivial, trivial, trivial, trivial, ⟨rfl, ?_⟩, trivial, trivial, ⟨rfl, ?_⟩, trivial⟩ <;> decide +kernel)
    (by decide +kernel) (by decide +kernel)
  refine ⟨on, W, h1, by decide +kernel, h3, ?_⟩
  rw [← h3]
  decide +kernel

-- C131_changed: the second event comes with the fields asked for now; C131_cycle_fails: a server that runs before
example : waiting 7 (run works 5 (init true 30 10) [.listen { operator with node := AddressSpace.serverObject } .reporting true,
      .raise ⟨1, 10⟩ EventFilter.pumpFailed, .change 7 [] [] true, .raise ⟨1, 10⟩ EventFilter.pumpFailed]).delivery =
    [[.text 12 "Pump"], []] ∧
    (run AddressSpace.notifierCycle 9 (init true 30 10) [.listen operator .reporting true]).stopped = false := by decide +kernel

-- a listener that only samples is reported with the one that it is linked to
example : waiting 8 (run works 5 (init true 30 10) [.listen operator .reporting true,
      .listen { operator with id := 8, node := AddressSpace.serverObject } .sampling true, .link 7 [] [8],
      .raise ⟨1, 10⟩ EventFilter.pumpFailed, .sub (.timer 5 [7, 8] (.some [] true) false)]).delivery = [] ∧
    waiting 8 (run works 5 (init true 30 10) [.listen operator .reporting true,
      .listen { operator with id := 8, node := AddressSpace.serverObject } .sampling true, .link 7 [8] [],
      .raise ⟨1, 10⟩ EventFilter.pumpFailed, .sub (.timer 5 [7, 8] (.some [] true) false)]).delivery = [[.text 12 "Pump"]] := by
  decide +kernel

end Opcua.Alarms
