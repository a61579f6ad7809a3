import Verif.Model.Kept
import Verif.Lemmas.Lists
import Mathlib.Data.List.Perm.Subperm

/-!
# C140: What clients can make the server keep is bounded
-/

namespace Opcua.Kept

/-! ## Specification -/

namespace Spec

/-- What is kept for a session. -/
structure SessionBounded (L : Limits) (x : Sess) : Prop where
  waiting : x.waiting.length ≤ 64
  cps : 0 < L.cps → x.cps.length ≤ L.cps
  /-- an hour at most -/
  timeout : x.timeout ≤ 3600000

structure ItemBounded (i : Item) : Prop where
  queue : i.queue.length ≤ i.size
  size : 1 ≤ i.size ∧ i.size ≤ 1024

structure SubBounded (u : Sub) : Prop where
  sent : u.sent.length ≤ 128
  items : ∀ i ∈ u.items, ItemBounded i

/-- All that has a limit keeps to it. -/
structure Bounded (L : Limits) (s : State) : Prop where
  sessions : 0 < L.sessions → s.sessions.length ≤ L.sessions
  subs : 0 < L.subs → s.subs.length ≤ L.subs
  session : ∀ x ∈ s.sessions, SessionBounded L x
  sub : ∀ u ∈ s.subs, SubBounded u
  past : ∀ x ∈ s.sessions, x.last ≤ s.now

/-- How much is kept: sessions, Publish requests, continuation points, subscriptions, notifications, items and
their values. -/
def amount (s : State) : Nat :=
  (s.sessions.map fun x => 1 + x.waiting.length + x.cps.length).sum
  + (s.subs.map fun u => 1 + u.sent.length + (u.items.map fun i => 1 + i.queue.length).sum).sum

/-- The monitored items of all subscriptions. -/
def items (s : State) : Nat := (s.subs.map fun u => u.items.length).sum

end Spec

open Spec

theorem run_snoc (L : Limits) (s : State) (evs : List Ev) (e : Ev) : run L s (evs ++ [e]) = step L (run L s evs) e := by
  simp [run]

theorem run_append (L : Limits) (s : State) (a b : List Ev) : run L s (a ++ b) = run L (run L s a) b := by
  simp [run]

/-! ## Steps keep the bounds -/

theorem bounded_onSession {L : Limits} {s : State} (h : Bounded L s) (t : Nat) (f : Sess → Sess)
    (hf : ∀ x, SessionBounded L x → SessionBounded L (f x)) : Bounded L (s.onSession t f) := by
  refine ⟨fun h0 => by simpa [State.onSession] using h.sessions h0, h.subs, ?_, h.sub, ?_⟩
  · intro x hx
    simp only [State.onSession, List.mem_map] at hx
    obtain ⟨y, hy, rfl⟩ := hx
    split
    · have := hf y (h.session y hy)
      exact ⟨this.waiting, this.cps, this.timeout⟩
    · exact h.session y hy
  · intro x hx
    simp only [State.onSession, List.mem_map] at hx
    obtain ⟨y, hy, rfl⟩ := hx
    split
    · exact Nat.le_refl _
    · exact h.past y hy

theorem bounded_filter {L : Limits} {s : State} (h : Bounded L s) (p : Sess → Bool) :
    Bounded L { s with sessions := s.sessions.filter p } :=
  ⟨fun h0 => Nat.le_trans (List.length_filter_le _ _) (h.sessions h0), h.subs,
    fun x hx => h.session x (List.mem_filter.1 hx).1, h.sub,
    fun x hx => h.past x (List.mem_filter.1 hx).1⟩

theorem bounded_filterSubs {L : Limits} {s : State} (h : Bounded L s) (p : Sub → Bool) :
    Bounded L { s with subs := s.subs.filter p } :=
  ⟨h.sessions, fun h0 => Nat.le_trans (List.length_filter_le _ _) (h.subs h0), h.session,
    fun u hu => h.sub u (List.mem_filter.1 hu).1, h.past⟩

theorem bounded_gated {L : Limits} {s : State} (h : Bounded L s) (t : Nat) (f : State → State)
    (hf : ∀ s, Bounded L s → Bounded L (f s)) : Bounded L (s.gated t f) := by
  unfold State.gated
  split
  · exact h
  · split
    · exact hf _ (bounded_onSession h t id fun _ hx => hx)
    · exact bounded_filter h _

theorem bounded_onSub {L : Limits} {s : State} (h : Bounded L s) (id : Nat) (f : Sub → Sub)
    (hf : ∀ u, SubBounded u → SubBounded (f u)) : Bounded L (s.onSub id f) := by
  refine ⟨h.sessions, fun h0 => by simpa [State.onSub] using h.subs h0, h.session, ?_, h.past⟩
  intro x hx
  simp only [State.onSub, List.mem_map] at hx
  obtain ⟨y, hy, rfl⟩ := hx
  split
  · exact hf y (h.sub y hy)
  · exact h.sub y hy

theorem bounded_onItem {L : Limits} {s : State} (h : Bounded L s) (sub item : Nat) (f : Item → Item)
    (hf : ∀ i, ItemBounded i → ItemBounded (f i)) : Bounded L (s.onItem sub item f) := by
  refine bounded_onSub h sub _ fun u hu => ⟨hu.sent, ?_⟩
  intro x hx
  simp only [List.mem_map] at hx
  obtain ⟨y, hy, rfl⟩ := hx
  split
  · exact hf y (hu.items y hy)
  · exact hu.items y hy

theorem bounded_pollGroup {L : Limits} {s : State} (h : Bounded L s) (k : Nat) : Bounded L (s.pollGroup L k) := by
  unfold State.pollGroup
  dsimp only
  split
  · exact h
  · exact ⟨h.sessions, h.subs, h.session, h.sub, h.past⟩

theorem bounded_restart {L : Limits} {s : State} (h : Bounded L s) (e : Bool) (a b : Nat) (d : Bool) :
    Bounded L (s.restart L e a b d) := by
  unfold State.restart
  split
  · exact h
  · split
    · exact bounded_pollGroup h _
    · exact bounded_pollGroup (bounded_pollGroup h _) _

theorem bounded_addPublish {L : Limits} (r : Nat) (x : Sess) (h : SessionBounded L x) : SessionBounded L (addPublish r x) := by
  refine ⟨?_, h.cps, h.timeout⟩
  have := h.waiting
  simp only [addPublish, List.length_append, List.length_cons, List.length_nil]
  split
  · omega
  · rw [List.length_drop]; omega

theorem bounded_addCp {L : Limits} (refs : List Nat) (x : Sess) (h : SessionBounded L x) : SessionBounded L (addCp L refs x) := by
  unfold addCp
  split
  · exact h
  · rename_i hn
    refine ⟨h.waiting, fun h0 => ?_, h.timeout⟩
    simp only [List.length_append, List.length_cons, List.length_nil]
    omega

theorem bounded_nextPage {L : Limits} (cp max : Nat) (r : Bool) (x : Sess) (h : SessionBounded L x) :
    SessionBounded L (nextPage L cp max r x) := by
  unfold nextPage
  split
  · exact h
  · have hx : SessionBounded L { x with cps := x.cps.filter fun q => q.1 != cp } :=
      ⟨h.waiting, fun h0 => Nat.le_trans (List.length_filter_le _ _) (h.cps h0), h.timeout⟩
    dsimp only
    split
    · exact hx
    · split
      · exact bounded_addCp _ _ hx
      · exact hx

theorem bounded_addSent (n : Nat) (u : Sub) (h : SubBounded u) : SubBounded (addSent n u) := by
  refine ⟨?_, h.items⟩
  have := h.sent
  simp only [addSent, List.length_append, List.length_cons, List.length_nil]
  split
  · rw [List.length_drop]; omega
  · omega

theorem reviseSize_le (e : Bool) (n : Nat) : 1 ≤ reviseSize e n ∧ reviseSize e n ≤ 1024 := by
  unfold reviseSize
  split <;> omega

theorem bounded_trim (i : Item) (h : 1 ≤ i.size ∧ i.size ≤ 1024) : ItemBounded (trim i) := by
  refine ⟨?_, h⟩
  simp only [trim]
  split
  · rw [List.length_drop]; omega
  · exact List.length_take_le _ _

theorem bounded_enqueue (v : Nat) (i : Item) (h : ItemBounded i) : ItemBounded (enqueue v i) := by
  have h1 := h.queue
  have h2 := h.size
  unfold enqueue
  split
  · exact ⟨by simp only [List.length_append, List.length_cons, List.length_nil]; omega, h.size⟩
  · split
    · refine ⟨?_, h.size⟩
      simp only [List.length_append, List.length_cons, List.length_nil, List.length_drop]
      omega
    · refine ⟨?_, h.size⟩
      simp only [List.length_append, List.length_cons, List.length_nil, List.length_take]
      omega

theorem bounded_step {L : Limits} {s : State} (h : Bounded L s) (e : Ev) : Bounded L (step L s e) := by
  cases e with
  | tick ms => exact ⟨h.sessions, h.subs, h.session, h.sub, fun x hx => Nat.le_trans (h.past x hx) (Nat.le_add_right _ _)⟩
  | connect c => exact ⟨h.sessions, h.subs, h.session, h.sub, h.past⟩
  | disconnect c => exact ⟨h.sessions, h.subs, h.session, h.sub, h.past⟩
  | createSession t d =>
    unfold step
    dsimp only
    split
    · exact h
    · rename_i hn
      refine ⟨fun h0 => ?_, h.subs, ?_, h.sub, ?_⟩
      · have := List.length_filter_le (fun x : Sess => x.token != t) s.sessions
        simp only [List.length_append, List.length_cons, List.length_nil]
        omega
      · intro x hx
        rcases List.mem_append.1 hx with hx | hx
        · exact h.session x (List.mem_filter.1 hx).1
        · rw [List.mem_singleton.1 hx]
          refine ⟨by simp, by simp, ?_⟩
          change reviseTimeout d ≤ 3600000
          unfold reviseTimeout
          omega
      · intro x hx
        rcases List.mem_append.1 hx with hx | hx
        · exact h.past x (List.mem_filter.1 hx).1
        · rw [List.mem_singleton.1 hx]
          exact Nat.le_refl _
  | activate t user => exact bounded_onSession h t _ fun x hx => ⟨hx.waiting, hx.cps, hx.timeout⟩
  | closeSession t d =>
    refine bounded_gated h t (State.close t d) fun s hs => ?_
    have : Bounded L { s with subs := if d then s.subs.filter fun u => u.owner != t else s.subs } := by
      split
      · exact bounded_filterSubs hs _
      · exact hs
    exact bounded_filter this _
  | sweep => exact bounded_filter h _
  | publish t r => exact bounded_gated h t _ fun s hs => bounded_onSession hs t _ (bounded_addPublish r)
  | take t =>
    refine ⟨fun h0 => by simpa [step] using h.sessions h0, h.subs, ?_, h.sub, ?_⟩
    · intro x hx
      simp only [step, List.mem_map] at hx
      obtain ⟨y, hy, rfl⟩ := hx
      have hb := h.session y hy
      split
      · exact ⟨by have := hb.waiting; simp only [List.length_drop]; omega, hb.cps, hb.timeout⟩
      · exact hb
    · intro x hx
      simp only [step, List.mem_map] at hx
      obtain ⟨y, hy, rfl⟩ := hx
      have hb := h.past y hy
      split
      · exact hb
      · exact hb
  | page t refs => exact bounded_gated h t _ fun s hs => bounded_onSession hs t _ (bounded_addCp refs)
  | next t cp max r => exact bounded_gated h t _ fun s hs => bounded_onSession hs t _ (bounded_nextPage cp max r)
  | createSub t =>
    refine bounded_gated h t (State.newSub L t) fun s hs => ?_
    unfold State.newSub
    split
    · exact ⟨hs.sessions, hs.subs, hs.session, hs.sub, hs.past⟩
    · rename_i hn
      refine ⟨hs.sessions, fun h0 => ?_, hs.session, ?_, hs.past⟩
      · simp only [List.length_append, List.length_cons, List.length_nil]
        omega
      · intro x hx
        rcases List.mem_append.1 hx with hx | hx
        · exact hs.sub x hx
        · rw [List.mem_singleton.1 hx]
          exact ⟨by simp, by simp⟩
  | deleteSub t id => exact bounded_gated h t _ fun s hs => bounded_filterSubs hs _
  | expireSub id => exact bounded_filterSubs h _
  | notify sub n => exact bounded_onSub h sub _ (bounded_addSent n)
  | acknowledge t sub n =>
    refine bounded_gated h t (fun s => s.onSub sub fun u => { u with sent := u.sent.erase n }) fun s hs =>
      bounded_onSub hs sub _ fun u hu => ⟨?_, hu.items⟩
    exact Nat.le_trans List.length_erase_le hu.sent
  | createItem t sub interval minNode size d dis ev =>
    refine bounded_gated h t (State.newItem L sub interval minNode size d dis ev) fun s hs => ?_
    unfold State.newItem
    split
    · have hb : ∀ i, ItemBounded i → Bounded L (s.addItem sub i) := by
        intro i hi
        have := bounded_onSub hs sub (fun u => { u with items := u.items ++ [i] }) (by
            intro u hu
            refine ⟨hu.sent, fun j hj => ?_⟩
            rcases List.mem_append.1 hj with hj | hj
            · exact hu.items j hj
            · rw [List.mem_singleton.1 hj]
              exact hi)
        exact ⟨this.sessions, this.subs, this.session, this.sub, this.past⟩
      dsimp only
      split
      · exact hb _ ⟨Nat.zero_le _, reviseSize_le ev size⟩
      · exact bounded_pollGroup (hb _ ⟨Nat.zero_le _, reviseSize_le ev size⟩) _
    · exact hs
  | modifyItem t sub item interval minNode size d =>
    refine bounded_gated h t (State.modify L sub item interval minNode size d) fun s hs => ?_
    unfold State.modify
    split
    · exact hs
    · exact bounded_restart (bounded_onItem hs sub item _ fun i _ => bounded_trim _ (reviseSize_le i.event size)) _ _ _ _
  | setMode t sub item dis =>
    refine bounded_gated h t (State.mode L sub item dis) fun s hs => ?_
    unfold State.mode
    split
    · exact hs
    · split
      · exact hs
      · refine bounded_restart (bounded_onItem hs sub item
          (fun i => { i with disabled := dis, queue := if dis then [] else i.queue }) fun i hi => ⟨?_, hi.size⟩) _ _ _ _
        have := hi.queue
        dsimp only
        split
        · exact Nat.zero_le _
        · exact this
  | deleteItem t sub item =>
    exact bounded_gated h t (State.deleteItem sub item) fun s hs => bounded_onSub hs sub _ fun u hu =>
      ⟨hu.sent, fun i hi => hu.items i (List.mem_filter.1 hi).1⟩
  | value sub item v => exact bounded_onItem h sub item _ (bounded_enqueue v)
  | drain sub item n =>
    exact bounded_onItem h sub item _ fun i hi =>
      ⟨by have := hi.queue; simp only [List.length_drop]; omega, hi.size⟩
  | link t sub a b =>
    refine bounded_gated h t (State.link sub a b) fun s hs => ?_
    unfold State.link
    split
    · exact bounded_onItem hs sub a _ fun i hi => ⟨hi.queue, hi.size⟩
    · exact hs
  | unlink t sub a b =>
    refine bounded_gated h t (State.unlink sub a b) fun s hs => ?_
    unfold State.unlink
    split
    · exact bounded_onItem hs sub a _ fun i hi => ⟨hi.queue, hi.size⟩
    · exact hs

/-! ## The property -/

/-- Whatever clients send and in whatever order: no more sessions and subscriptions than the limits, no more than 64
Publish requests wait in a session, no more continuation points than the limit, no more than 128 notifications
are held for a subscription, and no more values in a queue than its size, 1024 at most. -/
theorem C140_bounded (L : Limits) (evs : List Ev) : Bounded L (run L init evs) := by
  induction evs using snocInd with
  | nil => exact ⟨by simp [run, init], by simp [run, init], by simp [run, init], by simp [run, init],
    by simp [run, init]⟩
  | append_singleton evs e ih => rw [run_snoc]; exact bounded_step ih e

/-- An hour after the last request of all, whatever came before, the next look for expired sessions leaves none. -/
theorem C140_silence (L : Limits) (evs : List Ev) (ms : Nat) (h : 3600000 < ms) :
    (run L init (evs ++ [.tick ms, .sweep])).sessions = [] := by
  have hb := C140_bounded L evs
  rw [run_append]
  generalize run L init evs = s at hb
  change (s.sessions.filter fun x => decide (s.now + ms - x.last ≤ x.timeout)) = []
  rw [List.filter_eq_nil_iff]
  intro x hx
  have h1 := (hb.session x hx).timeout
  have h2 := hb.past x hx
  simp only [decide_eq_true_eq]
  omega

/-- It is not by then that they are gone without the look. -/
example : (run ⟨0, 0, 0, 0⟩ init [.createSession 1 3600000, .tick 3600000, .sweep]).sessions.length = 1 ∧
    (run ⟨0, 0, 0, 0⟩ init [.createSession 1 3600000, .tick 3600001]).sessions.length = 1 := by decide

theorem sum_le {α : Type} (l : List α) (f : α → Nat) (b : Nat) (h : ∀ x ∈ l, f x ≤ b) : (l.map f).sum ≤ b * l.length := by
  induction l with
  | nil => simp
  | cons x l ih =>
    simp only [List.map_cons, List.sum_cons, List.length_cons]
    have := ih fun y hy => h y (List.mem_cons_of_mem _ hy)
    have := h x List.mem_cons_self
    rw [Nat.mul_add]
    omega

theorem subs_sum (l : List Sub) (h : ∀ u ∈ l, SubBounded u) :
    (l.map fun u => 1 + u.sent.length + (u.items.map fun i => 1 + i.queue.length).sum).sum
      ≤ 129 * l.length + 1025 * (l.map fun u => u.items.length).sum := by
  induction l with
  | nil => simp
  | cons u l ih =>
    have h1 := ih fun y hy => h y (List.mem_cons_of_mem _ hy)
    have h2 := h u List.mem_cons_self
    have h3 := sum_le u.items (fun i => 1 + i.queue.length) 1025 (fun i hi => by
      have := (h2.items i hi).queue; have := (h2.items i hi).size; omega)
    have h4 := h2.sent
    simp only [List.map_cons, List.sum_cons, List.length_cons]
    omega

/-- So with limits set, all that is kept is bounded by the limits and the number of monitored items, which has no
limit (C140_items_fails). -/
theorem C140_total_partial (L : Limits) (hs : 0 < L.sessions) (hu : 0 < L.subs) (hc : 0 < L.cps) (evs : List Ev) :
    amount (run L init evs) ≤ (65 + L.cps) * L.sessions + 129 * L.subs + 1025 * items (run L init evs) := by
  have h := C140_bounded L evs
  have h1 := sum_le (run L init evs).sessions (fun x => 1 + x.waiting.length + x.cps.length) (65 + L.cps) (fun x hx => by
    have := (h.session x hx).waiting; have := (h.session x hx).cps hc; omega)
  have h2 := subs_sum (run L init evs).subs h.sub
  have h3 := Nat.mul_le_mul_left (65 + L.cps) (h.sessions hs)
  have h4 := h.subs hu
  unfold amount items
  omega

/-! ### Poll groups -/

/-- The intervals that nodes ask for are no longer than the longest of the server. -/
def NodeIntervals (evs : List Ev) : Prop :=
  (∀ t sub k m n a b c, Ev.createItem t sub k m n a b c ∈ evs → m ≤ 60000) ∧
  ∀ t sub i k m n a, Ev.modifyItem t sub i k m n a ∈ evs → m ≤ 60000

/-- What is so of the groups: one for an interval, of no more than a minute. -/
structure Grouped (L : Limits) (s : State) : Prop where
  nodup : s.groups.Nodup
  range : ∀ k ∈ s.groups, L.minSample ≤ k ∧ k ≤ 60000
  items : ∀ u ∈ s.subs, ∀ i ∈ u.items, i.interval ≤ 60000

theorem grouped_onSession {L : Limits} {s : State} (h : Grouped L s) (t : Nat) (f : Sess → Sess) :
    Grouped L (s.onSession t f) := ⟨h.nodup, h.range, h.items⟩

theorem grouped_gated {L : Limits} {s : State} (h : Grouped L s) (t : Nat) (f : State → State)
    (hf : ∀ s, Grouped L s → Grouped L (f s)) : Grouped L (s.gated t f) := by
  unfold State.gated
  split
  · exact h
  · split
    · exact hf _ (grouped_onSession h t id)
    · exact ⟨h.nodup, h.range, h.items⟩

theorem grouped_onSub {L : Limits} {s : State} (h : Grouped L s) (id : Nat) (f : Sub → Sub)
    (hf : ∀ u, (∀ i ∈ u.items, i.interval ≤ 60000) → ∀ i ∈ (f u).items, i.interval ≤ 60000) : Grouped L (s.onSub id f) := by
  refine ⟨h.nodup, h.range, ?_⟩
  intro x hx
  simp only [State.onSub, List.mem_map] at hx
  obtain ⟨y, hy, rfl⟩ := hx
  split
  · exact hf y (h.items y hy)
  · exact h.items y hy

theorem grouped_onItem {L : Limits} {s : State} (h : Grouped L s) (sub item : Nat) (f : Item → Item)
    (hf : ∀ i, i.interval ≤ 60000 → (f i).interval ≤ 60000) : Grouped L (s.onItem sub item f) := by
  refine grouped_onSub h sub _ fun u hu => ?_
  intro x hx
  simp only [List.mem_map] at hx
  obtain ⟨y, hy, rfl⟩ := hx
  split
  · exact hf y (hu y hy)
  · exact hu y hy

theorem grouped_pollGroup {L : Limits} {s : State} (hL : L.minSample ≤ 60000) (h : Grouped L s) (k : Nat) (hk : k ≤ 60000) :
    Grouped L (s.pollGroup L k) := by
  unfold State.pollGroup
  dsimp only
  split
  · exact h
  · rename_i hn
    refine ⟨?_, ?_, h.items⟩
    · refine List.nodup_append.2 ⟨h.nodup, (by simp), ?_⟩
      intro a ha b hb e
      rw [List.mem_singleton.1 hb] at e
      exact hn (by rw [List.contains_iff_mem]; exact e ▸ ha)
    · intro x hx
      rcases List.mem_append.1 hx with hx | hx
      · exact h.range x hx
      · rw [List.mem_singleton.1 hx]
        omega

theorem grouped_restart {L : Limits} {s : State} (hL : L.minSample ≤ 60000) (h : Grouped L s) (e : Bool) (a b : Nat) (d : Bool)
    (ha : a ≤ 60000) (hb : b ≤ 60000) : Grouped L (s.restart L e a b d) := by
  unfold State.restart
  split
  · exact h
  · split
    · exact grouped_pollGroup hL h _ ha
    · exact grouped_pollGroup hL (grouped_pollGroup hL h _ ha) _ hb

theorem item?_mem {s : State} {sub item : Nat} {i : Item} (h : s.item? sub item = some i) : ∃ u ∈ s.subs, i ∈ u.items := by
  unfold State.item? at h
  cases hu : s.subs.find? (·.id == sub) with
  | none => rw [hu] at h; cases h
  | some u =>
    rw [hu] at h
    exact ⟨u, List.mem_of_find?_eq_some hu, List.mem_of_find?_eq_some h⟩

theorem reviseInterval_le (L : Limits) (k m : Nat) (hm : m ≤ 60000) : reviseInterval L k m ≤ 60000 := by
  unfold reviseInterval
  omega

theorem grouped_step {L : Limits} {s : State} (hL : L.minSample ≤ 60000) (h : Grouped L s) (e : Ev) (he : NodeIntervals [e]) :
    Grouped L (step L s e) := by
  cases e with
  | tick ms => exact ⟨h.nodup, h.range, h.items⟩
  | connect c => exact ⟨h.nodup, h.range, h.items⟩
  | disconnect c => exact ⟨h.nodup, h.range, h.items⟩
  | createSession t d =>
    unfold step
    dsimp only
    split
    · exact h
    · exact ⟨h.nodup, h.range, h.items⟩
  | activate t user => exact grouped_onSession h t _
  | closeSession t d =>
    refine grouped_gated h t (State.close t d) fun s hs => ⟨hs.nodup, hs.range, ?_⟩
    intro u hu
    unfold State.close at hu
    dsimp only at hu
    split at hu
    · exact hs.items u (List.mem_filter.1 hu).1
    · exact hs.items u hu
  | sweep => exact ⟨h.nodup, h.range, h.items⟩
  | publish t r => exact grouped_gated h t _ fun s hs => grouped_onSession hs t _
  | take t => exact ⟨h.nodup, h.range, h.items⟩
  | page t refs => exact grouped_gated h t _ fun s hs => grouped_onSession hs t _
  | next t cp max r => exact grouped_gated h t _ fun s hs => grouped_onSession hs t _
  | createSub t =>
    refine grouped_gated h t (State.newSub L t) fun s hs => ?_
    unfold State.newSub
    split
    · exact ⟨hs.nodup, hs.range, hs.items⟩
    · refine ⟨hs.nodup, hs.range, ?_⟩
      intro u hu
      rcases List.mem_append.1 hu with hu | hu
      · exact hs.items u hu
      · rw [List.mem_singleton.1 hu]
        simp
  | deleteSub t id =>
    exact grouped_gated h t (fun s => { s with subs := s.subs.filter fun u => u.id != id }) fun s hs =>
      ⟨hs.nodup, hs.range, fun u hu => hs.items u (List.mem_filter.1 hu).1⟩
  | expireSub id => exact ⟨h.nodup, h.range, fun u hu => h.items u (List.mem_filter.1 hu).1⟩
  | notify sub n => exact grouped_onSub h sub _ fun u hu => hu
  | acknowledge t sub n =>
    exact grouped_gated h t (fun s => s.onSub sub fun u => { u with sent := u.sent.erase n }) fun s hs =>
      grouped_onSub hs sub _ fun u hu => hu
  | createItem t sub interval minNode size d dis ev =>
    have hm := reviseInterval_le L interval minNode (he.1 _ _ _ _ _ _ _ _ List.mem_cons_self)
    refine grouped_gated h t (State.newItem L sub interval minNode size d dis ev) fun s hs => ?_
    unfold State.newItem
    split
    · have hb : ∀ i, i.interval ≤ 60000 → Grouped L (s.addItem sub i) := by
        intro i hi
        have := grouped_onSub hs sub (fun u => { u with items := u.items ++ [i] }) (by
            intro u hu j hj
            rcases List.mem_append.1 hj with hj | hj
            · exact hu j hj
            · rw [List.mem_singleton.1 hj]
              exact hi)
        exact ⟨this.nodup, this.range, this.items⟩
      dsimp only
      split
      · exact hb _ hm
      · exact grouped_pollGroup hL (hb _ hm) _ hm
    · exact hs
  | modifyItem t sub item interval minNode size d =>
    have hm := reviseInterval_le L interval minNode (he.2 _ _ _ _ _ _ _ List.mem_cons_self)
    refine grouped_gated h t (State.modify L sub item interval minNode size d) fun s hs => ?_
    unfold State.modify
    split
    · exact hs
    · rename_i i hi
      obtain ⟨u, hu, hiu⟩ := item?_mem hi
      exact grouped_restart hL (grouped_onItem hs sub item _ fun i _ => hm) _ _ _ _ (hs.items u hu i hiu) hm
  | setMode t sub item dis =>
    refine grouped_gated h t (State.mode L sub item dis) fun s hs => ?_
    unfold State.mode
    split
    · exact hs
    · rename_i i hi
      obtain ⟨u, hu, hiu⟩ := item?_mem hi
      split
      · exact hs
      · exact grouped_restart hL (grouped_onItem hs sub item
          (fun i => { i with disabled := dis, queue := if dis then [] else i.queue }) fun i hi => hi) _ _ _ _
          (hs.items u hu i hiu) (hs.items u hu i hiu)
  | deleteItem t sub item =>
    exact grouped_gated h t (State.deleteItem sub item) fun s hs => grouped_onSub hs sub _ fun u hu =>
      fun i hi => hu i (List.mem_filter.1 hi).1
  | value sub item v =>
    refine grouped_onItem h sub item _ fun i hi => ?_
    unfold enqueue
    split
    · exact hi
    · split
      · exact hi
      · exact hi
  | drain sub item n => exact grouped_onItem h sub item _ fun i hi => hi
  | link t sub a b =>
    refine grouped_gated h t (State.link sub a b) fun s hs => ?_
    unfold State.link
    split
    · exact grouped_onItem hs sub a _ fun i hi => hi
    · exact hs
  | unlink t sub a b =>
    refine grouped_gated h t (State.unlink sub a b) fun s hs => ?_
    unfold State.unlink
    split
    · exact grouped_onItem hs sub a _ fun i hi => hi
    · exact hs

/-- There is one poll group for an interval, so there are no more than there are intervals of whole milliseconds
between the shortest of the server and a minute. -/
theorem C140_groups_partial (L : Limits) (hL : L.minSample ≤ 60000) (evs : List Ev) (h : NodeIntervals evs) :
    (run L init evs).groups.length ≤ 60001 - L.minSample := by
  have main : Grouped L (run L init evs) := by
    induction evs using snocInd with
    | nil => exact ⟨List.nodup_nil, by simp [run, init], by simp [run, init]⟩
    | append_singleton evs e ih =>
      rw [run_snoc]
      have h1 : NodeIntervals evs := ⟨fun _ _ _ _ _ _ _ _ hm => h.1 _ _ _ _ _ _ _ _ (List.mem_append_left _ hm),
        fun _ _ _ _ _ _ _ hm => h.2 _ _ _ _ _ _ _ (List.mem_append_left _ hm)⟩
      have h2 : NodeIntervals [e] := ⟨fun _ _ _ _ _ _ _ _ hm => h.1 _ _ _ _ _ _ _ _ (List.mem_append_right _ hm),
        fun _ _ _ _ _ _ _ hm => h.2 _ _ _ _ _ _ _ (List.mem_append_right _ hm)⟩
      exact grouped_step hL (ih h1) e h2
  have hsub : (run L init evs).groups ⊆ List.range' L.minSample (60001 - L.minSample) := by
    intro k hk
    have := main.range k hk
    rw [List.mem_range']
    exact ⟨k - L.minSample, by omega, by omega⟩
  have := (List.subperm_of_subset main.nodup hsub).length_le
  rwa [List.length_range'] at this

/-! ### Limits refuse only what is beyond them -/

/-- What there is room for comes in, and nothing is dropped for it. -/
theorem C140_room (L : Limits) (s : State) :
    (∀ t d, (0 < L.sessions → s.sessions.length < L.sessions) → (∀ x ∈ s.sessions, x.token ≠ t) →
      ∃ x, x.token = t ∧ (step L s (.createSession t d)).sessions = s.sessions ++ [x]) ∧
    (∀ t, (0 < L.subs → s.subs.length < L.subs) → (s.newSub L t).subs = s.subs ++ [⟨s.nextSub, t, [], []⟩]) ∧
    (∀ x refs, (0 < L.cps → x.cps.length < L.cps) → ∃ cp, (addCp L refs x).cps = x.cps ++ [(cp, refs)]) ∧
    (∀ x r, x.waiting.length < 64 → (addPublish r x).waiting = x.waiting ++ [r]) ∧
    (∀ u n, u.sent.length < 128 → (addSent n u).sent = u.sent ++ [n]) ∧
    (∀ i v, i.queue.length < i.size → (enqueue v i).queue = i.queue ++ [v]) := by
  refine ⟨?_, ?_, ?_, ?_, ?_, ?_⟩
  · intro t d h ht
    refine ⟨⟨t, reviseTimeout d, s.now, false, [], [], [], 0⟩, rfl, ?_⟩
    unfold step
    dsimp only
    rw [if_neg (by omega)]
    dsimp only
    rw [List.filter_eq_self.2 (by intro x hx; simpa using ht x hx)]
  · intro t h
    unfold State.newSub
    rw [if_neg (by omega)]
  · intro x refs h
    unfold addCp
    rw [if_neg (by omega)]
    exact ⟨_, rfl⟩
  · intro x r h
    simp [addPublish, h]
  · intro u n h
    simp only [addSent]
    rw [if_neg (by omega)]
  · intro i v h
    simp [enqueue, h]

/-- At the limit the oldest Publish request and the oldest notification make room for the new one. -/
theorem C140_oldest (x : Sess) (r : Nat) (hx : x.waiting.length = 64) (u : Sub) (n : Nat) (hu : u.sent.length = 128) :
    (addPublish r x).waiting = x.waiting.tail ++ [r] ∧ (addSent n u).sent = u.sent.tail ++ [n] := by
  simp [addPublish, addSent, hx, hu]

/-! ## Where there is no bound -/

/-- The session and the subscription of one client. -/
def entry : List Ev := [.createSession 1 60000, .activate 1 0, .createSub 1]

/-- The interval of an item that asks for a second. -/
def second (L : Limits) : Nat := reviseInterval L 1000 0

def anItem (L : Limits) (id : Nat) (links : List Nat) : Item := ⟨id, second L, 1, true, false, false, [], links⟩

def withItems (items : List Item) (groups : List Nat) (n : Nat) : State :=
  { sessions := [{ token := 1, timeout := 60000, last := 0, active := true, users := [0] }]
    subs := [{ id := 1, owner := 1, items := items }]
    groups := groups
    nextSub := 2
    nextItem := n }

theorem run_entry (L : Limits) : run L init entry = withItems [] [] 1 := by
  simp only [run, entry, List.foldl_cons, List.foldl_nil]
  have h1 : step L init (.createSession 1 60000) = { sessions := [{ token := 1, timeout := 60000, last := 0 }] } := by
    change (if 0 < L.sessions ∧ L.sessions ≤ 0 then _ else _) = _
    rw [if_neg (by omega)]
    rfl
  rw [h1]
  have h2 : step L { sessions := [{ token := 1, timeout := 60000, last := 0 }] } (.activate 1 0)
      = { sessions := [{ token := 1, timeout := 60000, last := 0, active := true, users := [0] }] } := rfl
  rw [h2]
  change (if 0 < L.subs ∧ L.subs ≤ 0 then _ else _) = _
  rw [if_neg (by omega)]
  rfl

theorem gated_withItems (items : List Item) (groups : List Nat) (n : Nat) (f : State → State) :
    (withItems items groups n).gated 1 f = f (withItems items groups n) := rfl

/-- No limit keeps a client from having any number of monitored items, in one subscription of one session. -/
theorem C140_items_fails (L : Limits) (n : Nat) :
    ∃ evs, (run L init evs).sessions.length = 1 ∧ (run L init evs).subs.length = 1 ∧ items (run L init evs) = n := by
  have main : ∃ items groups, run L init (entry ++ List.replicate n (.createItem 1 1 1000 0 1 true false false))
      = withItems items groups (n + 1) ∧ items.length = n := by
    induction n with
    | zero => exact ⟨[], [], by simpa using run_entry L, rfl⟩
    | succ n ih =>
      obtain ⟨is, gs, h, hl⟩ := ih
      have e : run L init (entry ++ List.replicate (n + 1) (.createItem 1 1 1000 0 1 true false false))
          = (withItems (is ++ [anItem L (n + 1) []]) gs (n + 2)).pollGroup L (second L) := by
        rw [List.replicate_succ', ← List.append_assoc, run_snoc, h]
        rfl
      refine ⟨is ++ [anItem L (n + 1) []],
        if gs.contains (max (second L) L.minSample) then gs else gs ++ [max (second L) L.minSample], e.trans ?_, by simp [hl]⟩
      unfold State.pollGroup
      dsimp only
      change (if gs.contains _ then _ else _) = _
      split <;> rfl
  obtain ⟨is, gs, h, hl⟩ := main
  exact ⟨_, by rw [h]; rfl, by rw [h]; rfl, by rw [h]; simp [items, withItems, hl]⟩

/-- No limit keeps a client from linking the same two items again and again; every link is kept, and gone through with
every value. -/
theorem C140_links_fails (L : Limits) (n : Nat) :
    ∃ evs, items (run L init evs) = 2 ∧ ∃ u ∈ (run L init evs).subs, ∃ i ∈ u.items, i.links.length = n := by
  have start : run L init (entry ++ List.replicate 2 (.createItem 1 1 1000 0 1 true false false))
      = withItems [anItem L 1 [], anItem L 2 []] [max (second L) L.minSample] 3 := by
    rw [run_append, run_entry]
    change ((withItems [anItem L 1 []] [max (second L) L.minSample] 2).addItem 1 (anItem L 2 [])).pollGroup L (second L) = _
    unfold State.pollGroup
    dsimp only
    rw [if_pos (by simp [State.addItem, withItems, State.onSub])]
    rfl
  have main : run L init (entry ++ List.replicate 2 (.createItem 1 1 1000 0 1 true false false)
      ++ List.replicate n (.link 1 1 1 2))
      = withItems [anItem L 1 (List.replicate n 2), anItem L 2 []] [max (second L) L.minSample] 3 := by
    induction n with
    | zero => simpa using start
    | succ n ih =>
      rw [List.replicate_succ' (n := n), ← List.append_assoc, run_snoc, ih, List.replicate_succ']
      rfl
  refine ⟨_, by rw [main]; rfl, _, by rw [main]; exact List.mem_cons_self, _, List.mem_cons_self, ?_⟩
  simp [anItem]

/-- Nor from activating its session again and again; the session keeps the user of every activation. -/
theorem C140_users_fails (L : Limits) (n : Nat) :
    ∃ evs x, (run L init evs).sessions = [x] ∧ x.users.length = n := by
  have start : run L init [.createSession 1 60000] = { sessions := [⟨1, 60000, 0, false, [], [], [], 0⟩] } := by
    change (if 0 < L.sessions ∧ L.sessions ≤ 0 then _ else _) = _
    rw [if_neg (by omega)]
    rfl
  have main : ∃ a, run L init ([.createSession 1 60000] ++ List.replicate n (.activate 1 0))
      = { sessions := [⟨1, 60000, 0, a, List.replicate n 0, [], [], 0⟩] } := by
    induction n with
    | zero => exact ⟨false, by simpa using start⟩
    | succ n ih =>
      obtain ⟨a, h⟩ := ih
      refine ⟨true, ?_⟩
      rw [List.replicate_succ', ← List.append_assoc, run_snoc, h, List.replicate_succ']
      rfl
  obtain ⟨a, h⟩ := main
  exact ⟨_, _, by rw [h], by simp⟩

/-- Nor anyone from opening connections. -/
theorem C140_connections_fails (L : Limits) (n : Nat) : ∃ evs, (run L init evs).conns.length = n := by
  have main : run L init ((List.range n).map .connect) = { conns := (List.range n).reverse } := by
    induction n with
    | zero => rfl
    | succ n ih =>
      rw [List.range_succ, List.map_append, List.map_singleton, run_snoc, ih]
      change ({ conns := n :: ((List.range n).reverse).filter (· != n) } : State) = _
      rw [List.filter_eq_self.2 (by intro x hx; have := List.mem_range.1 (List.mem_reverse.1 hx); simp; omega)]
      simp
  exact ⟨_, by rw [main]; simp⟩

/-- With the limits as they are when the application sets none, there is no bound on sessions either, and strangers
who never activate theirs can have any number. -/
theorem C140_default_fails (n : Nat) :
    ∃ evs, (∀ e ∈ evs, ∃ t d, e = .createSession t d) ∧ (run defaults init evs).sessions.length = n := by
  have main : ∃ l : List Sess, run defaults init ((List.range n).map fun t => .createSession t 0) = { sessions := l } ∧
      l.map (·.token) = List.range n := by
    induction n with
    | zero => exact ⟨[], rfl, rfl⟩
    | succ n ih =>
      obtain ⟨l, h, hl⟩ := ih
      refine ⟨l ++ [⟨n, reviseTimeout 0, 0, false, [], [], [], 0⟩], ?_, by simp [hl, List.range_succ]⟩
      rw [List.range_succ, List.map_append, List.map_singleton, run_snoc, h]
      change ({ sessions := l.filter (fun x => x.token != n) ++ _ } : State) = _
      rw [List.filter_eq_self.2 (by
        intro x hx
        have : x.token ∈ List.range n := hl ▸ List.mem_map_of_mem hx
        have := List.mem_range.1 this
        simp; omega)]
  obtain ⟨l, h, hl⟩ := main
  refine ⟨_, ?_, by rw [h]; have := congrArg List.length hl; simpa using this⟩
  intro e he
  obtain ⟨t, _, rfl⟩ := List.mem_map.1 he
  exact ⟨_, _, rfl⟩

/-- A limit on sessions turns against those it is for: someone who never activates a session can hold all of them,
for an hour at a time, and nobody else gets one. -/
theorem C140_slots_fails (L : Limits) (h0 : 0 < L.sessions) :
    ∃ evs, (∀ e ∈ evs, ∃ t d, e = .createSession t d) ∧ (run L init evs).sessions.length = L.sessions ∧
      ∀ ms t d, ms ≤ 3600000 → (run L init (evs ++ [.tick ms, .sweep, .createSession t d])).sessions = (run L init evs).sessions := by
  have main : ∀ n, n ≤ L.sessions → ∃ l : List Sess,
      run L init ((List.range n).map fun t => .createSession t 3600000) = { sessions := l } ∧
      l.map (·.token) = List.range n ∧ ∀ x ∈ l, x.timeout = 3600000 ∧ x.last = 0 := by
    intro n
    induction n with
    | zero => exact fun _ => ⟨[], rfl, rfl, by simp⟩
    | succ n ih =>
      intro hn
      obtain ⟨l, h, hl, ht⟩ := ih (by omega)
      have hlen : l.length = n := by have := congrArg List.length hl; simpa using this
      refine ⟨l ++ [⟨n, 3600000, 0, false, [], [], [], 0⟩], ?_, by simp [hl, List.range_succ], ?_⟩
      · rw [List.range_succ, List.map_append, List.map_singleton, run_snoc, h]
        change (if 0 < L.sessions ∧ L.sessions ≤ l.length then _ else _) = _
        rw [if_neg (by omega)]
        change ({ sessions := l.filter (fun x => x.token != n) ++ _ } : State) = _
        rw [List.filter_eq_self.2 (by
          intro x hx
          have : x.token ∈ List.range n := hl ▸ List.mem_map_of_mem hx
          have := List.mem_range.1 this
          simp; omega)]
        rfl
      · intro x hx
        rcases List.mem_append.1 hx with hx | hx
        · exact ht x hx
        · rw [List.mem_singleton.1 hx]; exact ⟨rfl, rfl⟩
  obtain ⟨l, h, hl, ht⟩ := main L.sessions (Nat.le_refl _)
  have hlen : l.length = L.sessions := by have := congrArg List.length hl; simpa using this
  refine ⟨_, ?_, by rw [h]; exact hlen, ?_⟩
  · intro e he
    obtain ⟨t, _, rfl⟩ := List.mem_map.1 he
    exact ⟨_, _, rfl⟩
  · intro ms t d hms
    rw [run_append, h]
    have h1 : run L { sessions := l } [.tick ms, .sweep] = { now := 0 + ms, sessions := l } := by
      change ({ now := 0 + ms, sessions := l.filter fun x => decide (0 + ms - x.last ≤ x.timeout) } : State) = _
      rw [List.filter_eq_self.2 (by
        intro x hx
        obtain ⟨a, b⟩ := ht x hx
        rw [a, b]
        simpa using hms)]
    have h2 : ([.tick ms, .sweep, .createSession t d] : List Ev) = [.tick ms, .sweep] ++ [.createSession t d] := rfl
    rw [h2, run_append, h1]
    change (if 0 < L.sessions ∧ L.sessions ≤ l.length then _ else _ : State).sessions = _
    rw [if_pos ⟨h0, by omega⟩]

/-- A poll group is never given back: when the client is gone, its groups are there, each with its goroutine and its
ticker. -/
theorem C140_groups_fails (L : Limits) (hL : L.minSample ≤ 60000) (n : Nat) (hn : n ≤ 60001 - L.minSample) :
    ∃ evs, (run L init evs).sessions = [] ∧ (run L init evs).subs = [] ∧ (run L init evs).conns = [] ∧
      (run L init evs).groups.length = n := by
  have main : ∃ is, run L init (entry ++ (List.range n).map fun k => .createItem 1 1 (L.minSample + k) 0 1 true false false)
      = withItems is ((List.range n).map fun k => L.minSample + k) (n + 1) := by
    induction n with
    | zero => exact ⟨[], by simpa using run_entry L⟩
    | succ n ih =>
      obtain ⟨is, h⟩ := ih (by omega)
      refine ⟨is ++ [⟨n + 1, reviseInterval L (L.minSample + n) 0, 1, true, false, false, [], []⟩], ?_⟩
      rw [List.range_succ, List.map_append, List.map_singleton, ← List.append_assoc, run_snoc, h]
      have hk : reviseInterval L (L.minSample + n) 0 = L.minSample + n := by unfold reviseInterval; omega
      change ((withItems (is ++ [⟨n + 1, reviseInterval L (L.minSample + n) 0, 1, true, false, false, [], []⟩])
        ((List.range n).map fun k => L.minSample + k) (n + 2)).pollGroup L (reviseInterval L (L.minSample + n) 0)) = _
      rw [hk]
      unfold State.pollGroup
      dsimp only
      have hmax : max (L.minSample + n) L.minSample = L.minSample + n := by omega
      rw [hmax, if_neg]
      · simp [withItems]
      · intro hc
        rw [List.contains_iff_mem] at hc
        obtain ⟨k, hk, e⟩ := List.mem_map.1 hc
        have := List.mem_range.1 hk
        omega
  obtain ⟨is, h⟩ := main
  have h2 : run L init ((entry ++ (List.range n).map fun k => .createItem 1 1 (L.minSample + k) 0 1 true false false)
      ++ [.closeSession 1 true]) = { groups := (List.range n).map fun k => L.minSample + k, nextSub := 2, nextItem := n + 1 } := by
    rw [run_snoc, h]
    rfl
  exact ⟨_, by rw [h2], by rw [h2], by rw [h2], by rw [h2]; simp⟩

/-! ## Examples -/

/-- Two sessions at most, one subscription, one continuation point. -/
def tight : Limits := ⟨2, 1, 1, 100⟩

example : ((run tight init [.createSession 1 0, .createSession 2 0, .createSession 3 0]).sessions.map (·.token)) = [1, 2] := by
  decide +kernel

example : (run tight init [.createSession 1 0, .createSession 2 0, .tick 10001, .sweep, .createSession 3 0]).sessions.map
    (·.token) = [3] := by decide +kernel

/-- A service on a session that was not activated ends it. -/
example : (run tight init [.createSession 1 0, .createSub 1]).sessions = [] := by decide +kernel

/-- The second subscription and the second continuation point are refused. -/
example : let s := run tight init (entry ++ [.createSub 1, .page 1 [7, 8], .page 1 [9]])
    s.subs.map (·.id) = [1] ∧ s.sessions.map (·.cps) = [[(1, [7, 8])]] := by decide +kernel

example : (run tight init (entry ++ [.page 1 [7, 8], .next 1 1 1 false])).sessions.map (·.cps) = [[(2, [8])]] := by
  decide +kernel

/-- A queue of two takes three values; 65 Publish requests; 129 notifications. -/
example : (run tight init (entry ++ [.createItem 1 1 50 0 2 true false false, .value 1 1 5, .value 1 1 6, .value 1 1 7])).subs.map
    (fun u => u.items.map (·.queue)) = [[[6, 7]]] := by decide +kernel

example : (run tight init (entry ++ (List.range 65).map (.publish 1))).sessions.map (·.waiting.head?) = [some 1] := by
  decide +kernel

example : (run tight init (entry ++ (List.range 129).map (.notify 1))).subs.map (·.sent.head?) = [some 1] := by decide +kernel

/-- What C140_total_partial adds up. -/
example : amount (run tight init (entry ++ [.createItem 1 1 50 0 2 true false false, .value 1 1 5, .publish 1 3, .page 1 [7],
    .notify 1 4])) = 7 ∧ 0 < tight.sessions ∧ 0 < tight.subs ∧ 0 < tight.cps := by decide +kernel

/-- A disabled item has no group until it is enabled; to modify an item makes the group of its new interval. -/
example : (run tight init (entry ++ [.createItem 1 1 50 0 2 true true false, .setMode 1 1 1 false,
    .modifyItem 1 1 1 250 0 2 true])).groups = [100, 250] := by decide +kernel

example : NodeIntervals [.createItem 1 1 50 1000 2 true true false, .modifyItem 1 1 1 250 0 2 true] := by
  constructor
  · intro t sub k m n a b c h
    simp at h
    omega
  · intro t sub i k m n a h
    simp at h
    omega

example : ∃ x : Sess, x.waiting.length = 64 := ⟨⟨0, 0, 0, false, [], List.replicate 64 0, [], 0⟩, by simp⟩

end Opcua.Kept
