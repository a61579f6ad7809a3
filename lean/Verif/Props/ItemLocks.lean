import Verif.Model.ItemLocks

/-! # C86: monitored items do not wait for each other for ever -/

namespace Opcua.ItemLocks

theorem run_append (s : State) (a b : List Nat) : run s (a ++ b) = run (run s a) b := by simp [run]
theorem run_cons (s : State) (t : Nat) (b : List Nat) : run s (t :: b) = run (step s t) b := rfl

/-! ### Specification -/

/-- Goroutine `t` has finished. -/
def Done (s : State) (t : Nat) : Prop := s.prog t = []

/-- Goroutine `t` will never finish, whatever the others do. -/
def Stuck (s : State) (t : Nat) : Prop := ∀ schedule, ¬ Done (run s schedule) t

/-! ### Locks taken in order -/

/-- A program that holds the locks `hs`, takes only locks that may be taken after those that it holds,
gives back the one that it took last, and ends with none. -/
def ordered (ok : Lock → Lock → Prop) : List Lock → List Instr → Prop
  | hs, [] => hs = []
  | hs, .acquire l :: p => (∀ h ∈ hs, ok h l) ∧ ordered ok (l :: hs) p
  | [], .release _ :: _ => False
  | h :: hs, .release l :: p => l = h ∧ ordered ok hs p

/-- Locks of a higher rank than those that are held. -/
def up (rank : Lock → Nat) (h l : Lock) : Prop := rank h < rank l

/-- Everything that is held is held by a goroutine that will give it back. -/
structure Inv (ok : Lock → Lock → Prop) (n : Nat) (s : State) : Prop where
  thread : ∀ t, ∃ hs, ordered ok hs (s.prog t) ∧ hs.Nodup ∧ ∀ l, s.held l = some t ↔ l ∈ hs
  beyond : ∀ t, n ≤ t → s.prog t = []

theorem set_self {α β : Type} [DecidableEq α] (f : α → β) (a : α) (b : β) : set f a b a = b := by simp [set]
theorem set_ne {α β : Type} [DecidableEq α] (f : α → β) (a x : α) (b : β) (h : x ≠ a) : set f a b x = f x := by
  simp [set, h]

theorem inv_step {ok : Lock → Lock → Prop} {n : Nat} {s : State} (t : Nat) (hs : Inv ok n s) : Inv ok n (step s t) := by
  unfold step
  split
  · exact hs
  next l p hp =>
    split
    next hfree =>
      have htn : t < n := by
        rcases Nat.lt_or_ge t n with h | h
        · exact h
        · rw [hs.beyond t h] at hp; cases hp
      refine ⟨?_, ?_⟩
      · intro u
        obtain ⟨ls, ho, hn, hh⟩ := hs.thread u
        by_cases hu : u = t
        · subst hu
          rw [hp] at ho
          refine ⟨l :: ls, ?_, ?_, ?_⟩
          · show ordered _ _ (set s.prog u p u); rw [set_self]; exact ho.2
          · rw [List.nodup_cons]
            refine ⟨?_, hn⟩
            intro hm
            rw [(hh l).mpr hm] at hfree
            cases hfree
          · intro k
            show set s.held l (some u) k = some u ↔ _
            by_cases hk : k = l
            · subst hk; simp [set_self]
            · rw [set_ne _ _ _ _ hk, hh k]; simp [hk]
        · refine ⟨ls, ?_, hn, ?_⟩
          · show ordered _ _ (set s.prog t p u); rw [set_ne _ _ _ _ hu]; exact ho
          · intro k
            show set s.held l (some t) k = some u ↔ _
            by_cases hk : k = l
            · subst hk
              rw [set_self]
              constructor
              · intro h; cases h; exact absurd rfl hu
              · intro h; rw [(hh k).mpr h] at hfree; cases hfree
            · rw [set_ne _ _ _ _ hk]; exact hh k
      · intro u hu
        show set s.prog t p u = []
        rw [set_ne _ _ _ _ (by omega)]
        exact hs.beyond u hu
    · exact hs
  next l p hp =>
    have htn : t < n := by
      rcases Nat.lt_or_ge t n with h | h
      · exact h
      · rw [hs.beyond t h] at hp; cases hp
    obtain ⟨ls0, ho0, hn0, hh0⟩ := hs.thread t
    rw [hp] at ho0
    cases ls0 with
    | nil => exact ho0.elim
    | cons h ls0 =>
      obtain ⟨rfl, ho0⟩ := ho0
      refine ⟨?_, ?_⟩
      · intro u
        by_cases hu : u = t
        · subst hu
          refine ⟨ls0, ?_, (List.nodup_cons.mp hn0).2, ?_⟩
          · show ordered _ _ (set s.prog u p u); rw [set_self]; exact ho0
          · intro k
            show set s.held l none k = some u ↔ _
            by_cases hk : k = l
            · subst hk; rw [set_self]; simp [(List.nodup_cons.mp hn0).1]
            · rw [set_ne _ _ _ _ hk, hh0 k]; simp [hk]
        · obtain ⟨ls, ho, hn, hh⟩ := hs.thread u
          refine ⟨ls, ?_, hn, ?_⟩
          · show ordered _ _ (set s.prog t p u); rw [set_ne _ _ _ _ hu]; exact ho
          · intro k
            show set s.held l none k = some u ↔ _
            by_cases hk : k = l
            · subst hk
              rw [set_self]
              have h1 := (hh0 k).mpr (by simp)
              constructor
              · intro h; cases h
              · intro h; rw [(hh k).mpr h] at h1; cases h1; exact absurd rfl hu
            · rw [set_ne _ _ _ _ hk]; exact hh k
      · intro u hu
        show set s.prog t p u = []
        rw [set_ne _ _ _ _ (by omega)]
        exact hs.beyond u hu

theorem inv_run {ok : Lock → Lock → Prop} {n : Nat} (sch : List Nat) : ∀ {s : State}, Inv ok n s → Inv ok n (run s sch) := by
  induction sch with
  | nil => intro s h; exact h
  | cons t sch ih => intro s h; rw [run_cons]; exact ih (inv_step t h)

/-- The instructions still to be done. -/
def left (s : State) : Nat → Nat
  | 0 => 0
  | n + 1 => left s n + (s.prog n).length

theorem left_eq (s s' : State) (n : Nat) (h : ∀ u, u < n → s'.prog u = s.prog u) : left s' n = left s n := by
  induction n with
  | zero => rfl
  | succ n ih => simp only [left]; rw [ih (fun u hu => h u (by omega)), h n (by omega)]

theorem left_lt (s s' : State) (t : Nat) (n : Nat) (hn : t < n) (h : ∀ u, u ≠ t → s'.prog u = s.prog u)
    (ht : (s'.prog t).length < (s.prog t).length) : left s' n < left s n := by
  induction n with
  | zero => omega
  | succ n ih =>
    simp only [left]
    by_cases hnt : n = t
    · subst hnt; rw [left_eq s s' n (fun u hu => h u (by omega))]; omega
    · have := ih (by omega); rw [h n hnt]; omega

theorem step_free {s : State} {t : Nat} {l : Lock} {p : List Instr} (hp : s.prog t = .acquire l :: p)
    (h : s.held l = none) (n : Nat) (hn : t < n) : left (step s t) n < left s n := by
  refine left_lt s _ t n hn ?_ ?_
  · intro u hu; unfold step; rw [hp]; dsimp only; rw [if_pos h]; exact set_ne _ _ _ _ hu
  · unfold step; rw [hp]; dsimp only; rw [if_pos h]
    show (set s.prog t p t).length < _
    rw [set_self]; simp

theorem step_release {s : State} {t : Nat} {l : Lock} {p : List Instr} (hp : s.prog t = .release l :: p)
    (n : Nat) (hn : t < n) : left (step s t) n < left s n := by
  refine left_lt s _ t n hn ?_ ?_
  · intro u hu; unfold step; rw [hp]; exact set_ne _ _ _ _ hu
  · unfold step; rw [hp]
    show (set s.prog t p t).length < _
    rw [set_self]; simp

/-- Some goroutine can take a step: follow the holders of the locks that are waited for; their ranks
rise. -/
theorem progress {rank : Lock → Nat} {n : Nat} {s : State} (hs : Inv (up rank) n s) (top : Nat)
    (htop : ∀ t l p, s.prog t = .acquire l :: p → rank l ≤ top) (t : Nat) (ht : s.prog t ≠ []) :
    ∃ u, left (step s u) n < left s n := by
  have key : ∀ d t, s.prog t ≠ [] → (∀ l p, s.prog t = .acquire l :: p → top - rank l ≤ d) →
      ∃ u, left (step s u) n < left s n := by
    intro d
    induction d with
    | zero =>
      intro t ht hd
      have htn : t < n := by
        rcases Nat.lt_or_ge t n with h | h
        · exact h
        · exact absurd (hs.beyond t h) ht
      match hp : s.prog t with
      | [] => exact absurd hp ht
      | .release l :: p => exact ⟨t, step_release hp n htn⟩
      | .acquire l :: p =>
        cases hl : s.held l with
        | none => exact ⟨t, step_free hp hl n htn⟩
        | some u =>
          obtain ⟨ls, ho, hn, hh⟩ := hs.thread u
          have hm := (hh l).mp hl
          match hq : s.prog u with
          | [] => rw [hq] at ho; rw [ho] at hm; cases hm
          | .release k :: q =>
            have hun : u < n := by
              rcases Nat.lt_or_ge u n with h | h
              · exact h
              · rw [hs.beyond u h] at hq; cases hq
            exact ⟨u, step_release hq n hun⟩
          | .acquire k :: q =>
            rw [hq] at ho
            have h1 : rank l < rank k := ho.1 l hm
            have h2 := htop u k q hq
            have h3 := hd l p hp
            omega
    | succ d ih =>
      intro t ht hd
      have htn : t < n := by
        rcases Nat.lt_or_ge t n with h | h
        · exact h
        · exact absurd (hs.beyond t h) ht
      match hp : s.prog t with
      | [] => exact absurd hp ht
      | .release l :: p => exact ⟨t, step_release hp n htn⟩
      | .acquire l :: p =>
        cases hl : s.held l with
        | none => exact ⟨t, step_free hp hl n htn⟩
        | some u =>
          obtain ⟨ls, ho, hn, hh⟩ := hs.thread u
          have hm := (hh l).mp hl
          refine ih u ?_ ?_
          · intro hq; rw [hq] at ho; rw [ho] at hm; cases hm
          · intro k q hq
            rw [hq] at ho
            have h1 : rank l < rank k := ho.1 l hm
            have h3 := hd l p hp
            omega
  exact key top t ht (fun l p _ => Nat.sub_le _ _)

/-- The locks that a program takes have ranks up to `top`. -/
def bounded (rank : Lock → Nat) (top : Nat) (p : List Instr) : Prop := ∀ l, .acquire l ∈ p → rank l ≤ top

theorem prog_suffix (s : State) (t u : Nat) : ∀ i ∈ (step s t).prog u, i ∈ s.prog u := by
  intro i hi
  unfold step at hi
  split at hi
  · exact hi
  next l p hp =>
    split at hi
    · have hi' : i ∈ set s.prog t p u := hi
      by_cases h : u = t
      · subst h; rw [set_self] at hi'; rw [hp]; exact List.mem_cons_of_mem _ hi'
      · rw [set_ne _ _ _ _ h] at hi'; exact hi'
    · exact hi
  next l p hp =>
    have hi' : i ∈ set s.prog t p u := hi
    by_cases h : u = t
    · subst h; rw [set_self] at hi'; rw [hp]; exact List.mem_cons_of_mem _ hi'
    · rw [set_ne _ _ _ _ h] at hi'; exact hi'

theorem bounded_run {rank : Lock → Nat} {top : Nat} (sch : List Nat) : ∀ {s : State},
    (∀ t, bounded rank top (s.prog t)) → ∀ t, bounded rank top ((run s sch).prog t) := by
  induction sch with
  | nil => intro s h; exact h
  | cons u sch ih =>
    intro s h
    rw [run_cons]
    exact ih (fun t l hl => h t l (prog_suffix s u t _ hl))

/-- With locks taken in order, everybody can finish. -/
theorem finish {rank : Lock → Nat} {top n : Nat} : ∀ m (s : State), left s n ≤ m → Inv (up rank) n s →
    (∀ t, bounded rank top (s.prog t)) → ∃ schedule, ∀ t, Done (run s schedule) t := by
  intro m
  induction m with
  | zero =>
    intro s hl hs hb
    refine ⟨[], fun t => Classical.byContradiction fun ht => ?_⟩
    obtain ⟨u, hu⟩ := progress hs top (fun t l p hp => hb t l (by rw [hp]; simp)) t ht
    omega
  | succ m ih =>
    intro s hl hs hb
    by_cases h : ∃ t, s.prog t ≠ []
    · obtain ⟨t, ht⟩ := h
      obtain ⟨u, hu⟩ := progress hs top (fun t l p hp => hb t l (by rw [hp]; simp)) t ht
      obtain ⟨sch, hsch⟩ := ih (step s u) (by omega) (inv_step u hs)
        (fun t l hl => hb t l (prog_suffix s u t _ hl))
      exact ⟨u :: sch, hsch⟩
    · exact ⟨[], fun t => Classical.byContradiction fun ht => h ⟨t, ht⟩⟩

/-! ### The tasks -/

theorem ordered_cat {ok : Lock → Lock → Prop} (p : List Instr) : ∀ {hs : List Lock} {q : List Instr} {bs : List Lock},
    (∀ b ∈ bs, ∀ l, .acquire l ∈ p → ok b l) → ordered ok hs p → ordered ok bs q →
    ordered ok (hs ++ bs) (p ++ q) := by
  induction p with
  | nil => intro hs q bs _ hp hq; rw [show hs = [] from hp]; exact hq
  | cons i p ih =>
    intro hs q bs hb hp hq
    cases i with
    | acquire l =>
      refine ⟨?_, ih (hs := l :: hs) (fun b hbm k hk => hb b hbm k (List.mem_cons_of_mem _ hk)) hp.2 hq⟩
      intro h hm
      rcases List.mem_append.mp hm with h1 | h1
      · exact hp.1 h h1
      · exact hb h h1 l (by simp)
    | release l =>
      cases hs with
      | nil => exact hp.elim
      | cons h hs =>
        exact ⟨hp.1, ih (fun b hbm k hk => hb b hbm k (List.mem_cons_of_mem _ hk)) hp.2 hq⟩

/-- Balanced programs, taking only locks above `b`. -/
def Above (rank : Lock → Nat) (b : Nat) (p : List Instr) : Prop :=
  ordered (up rank) [] p ∧ ∀ l, .acquire l ∈ p → b < rank l

theorem Above.nil {rank : Lock → Nat} {b : Nat} : Above rank b [] := ⟨rfl, by simp⟩

theorem Above.append {rank : Lock → Nat} {b : Nat} {p q : List Instr} (hp : Above rank b p) (hq : Above rank b q) :
    Above rank b (p ++ q) :=
  ⟨ordered_cat (hs := []) (bs := []) p (by simp) hp.1 hq.1, by
    intro l hl
    rcases List.mem_append.mp hl with h | h
    · exact hp.2 l h
    · exact hq.2 l h⟩

theorem Above.flatMap {α : Type} {rank : Lock → Nat} {b : Nat} (f : α → List Instr) (as : List α)
    (hf : ∀ a ∈ as, Above rank b (f a)) : Above rank b (as.flatMap f) := by
  induction as with
  | nil => exact .nil
  | cons a as ih =>
    rw [List.flatMap_cons]
    exact (hf a (by simp)).append (ih (fun x hx => hf x (List.mem_cons_of_mem _ hx)))

/-- A lock around a program that takes only higher locks. -/
theorem Above.wrap {rank : Lock → Nat} {b : Nat} {l : Lock} {p : List Instr} (hl : b < rank l)
    (hp : Above rank (rank l) p) : Above rank b ([.acquire l] ++ p ++ [.release l]) := by
  constructor
  · rw [List.append_assoc]
    refine ⟨by simp, ?_⟩
    have := ordered_cat (ok := up rank) p (hs := []) (q := [.release l]) (bs := [l])
      (by intro x hx k hk; rw [List.mem_singleton.mp hx]; exact hp.2 k hk) hp.1 ⟨rfl, rfl⟩
    exact this
  · intro k hk
    simp only [List.mem_append, List.mem_singleton, Instr.acquire.injEq, reduceCtorEq, or_false] at hk
    rcases hk with rfl | hk
    · exact hl
    · exact Nat.lt_trans hl (hp.2 k hk)

theorem Above.once {rank : Lock → Nat} {b : Nat} {l : Lock} (hl : b < rank l) : Above rank b (once l) :=
  Above.wrap hl .nil

theorem Above.weaken {rank : Lock → Nat} {b c : Nat} {p : List Instr} (h : Above rank b p) (hc : c ≤ b) :
    Above rank c p := ⟨h.1, fun l hl => Nat.lt_of_le_of_lt hc (h.2 l hl)⟩

/-- Tasks other than changing or deleting an item that listens to events; the items of a subscription are
its own. -/
def Task.calm (owner : Nat → Nat) : Task → Bool
  | .cycle k items => items.all (fun x => owner x.1 == k)
  | .deleteSub k items => items.all (fun i => owner i == k)
  | .expire subs => subs.all (fun x => (x.2.getD []).all (fun i => owner i == x.1))
  | .changeEvent _ _ => false
  | .deleteEvent _ _ => false
  | _ => true

namespace Spec

/-- An order of the locks: the manager comes before all subscriptions, an item comes after its subscription
and after all nodes, before the items that it triggers and before what it needs for the diagnostics that it
samples. -/
structure Order (u : Setup) (level : Lock → Nat) : Prop where
  owner : ∀ i, level (.sub (u.owner i)) < level (.item i)
  links : ∀ i, ∀ l ∈ u.links i, level (.item i) < level (.item l)
  reads : ∀ i, ∀ k ∈ u.reads i, level (.item i) < level k.lock
  table : ∀ k, level .table < level (.sub k)
  nodes : ∀ n i, level (.node n) < level (.item i)
  groups : ∀ k, level (.sub k) < level .group

end Spec
open Spec

/-- Levels from one. -/
def rankOf (level : Lock → Nat) (l : Lock) : Nat := level l + 1

theorem trigger_above {u : Setup} {level : Lock → Nat} (h : Order u level) (i : Nat) :
    Above (rankOf level) (rankOf level (.item i)) (trigger (u.links i)) :=
  Above.flatMap _ _ (fun l hl => Above.once (by have := h.links i l hl; simp only [rankOf]; omega))

theorem sample_above {u : Setup} {level : Lock → Nat} (h : Order u level) (i : Nat) :
    Above (rankOf level) (rankOf level (.item i)) (sample (u.reads i)) :=
  Above.flatMap _ _ (fun k hk => Above.once (by have := h.reads i k hk; simp only [rankOf]; omega))

theorem task_above {u : Setup} {level : Lock → Nat} (h : Order u level) (k : Task)
    (hk : k.calm u.owner = true) : Above (rankOf level) 0 (k.instrs u) := by
  have pos : ∀ l, 0 < rankOf level l := fun l => Nat.succ_pos _
  have own : ∀ i, rankOf level (.sub (u.owner i)) < rankOf level (.item i) := by
    intro i; have := h.owner i; simp only [rankOf]; omega
  have once0 : ∀ l, Above (rankOf level) 0 (once l) := fun l => Above.once (pos l)
  have del : ∀ i, Above (rankOf level) (rankOf level (.sub (u.owner i))) (deleteItem i) := fun i =>
    ((Above.once (own i)).append (Above.once (by have := h.groups (u.owner i); simp only [rankOf]; omega))).append
      (Above.once (own i))
  have disp : ∀ k items b, b < rankOf level (.sub k) → (∀ i ∈ items, u.owner i = k) →
      Above (rankOf level) b (dispose k items) := by
    intro k items b hb ho
    exact Above.wrap hb (Above.flatMap _ _ (fun i hi => by have := del i; rw [ho i hi] at this; exact this))
  cases k with
  | cycle k items =>
    refine Above.wrap (pos _) (Above.flatMap _ _ ?_)
    rintro ⟨i, n, again⟩ hmem
    have hki : u.owner i = k := by simpa using List.all_eq_true.mp hk _ hmem
    subst hki
    clear hmem
    have h1 : Above (rankOf level) (rankOf level (.item i)) (List.replicate n (trigger (u.links i))).flatten := by
      induction n with
      | zero => exact .nil
      | succ n ih => rw [List.replicate_succ, List.flatten_cons]; exact (trigger_above h i).append ih
    have h2 : Above (rankOf level) (rankOf level (.item i))
        (if again then sample (u.reads i) ++ trigger (u.links i) else []) := by
      cases again
      · exact .nil
      · exact (sample_above h i).append (trigger_above h i)
    exact (Above.wrap (own i) (h1.append h2)).append (Above.once (own i))
  | event n ls =>
    refine Above.wrap (pos _) (Above.flatMap _ _ ?_)
    rintro ⟨i, q⟩ _
    have h1 : Above (rankOf level) (rankOf level (.item i)) (if q then trigger (u.links i) else []) := by
      cases q
      · exact .nil
      · exact trigger_above h i
    exact Above.wrap (by have := h.nodes n i; simp only [rankOf]; omega) h1
  | poll i => exact Above.wrap (pos _) (sample_above h i)
  | create i =>
    exact (((Above.wrap (pos _) (sample_above h i)).append (once0 _)).append (once0 _)).append
      (Above.wrap (pos _) (Above.once (own i)))
  | changeData i =>
    exact ((((once0 _).append (once0 _)).append (Above.wrap (pos _) (sample_above h i))).append (once0 _)).append (once0 _)
  | changeEvent i n => cases hk
  | deleteData i => exact Above.wrap (pos _) (del i)
  | deleteEvent i n => cases hk
  | link i => exact once0 _
  | read subs => exact Above.flatMap _ _ (fun k _ => once0 _)
  | deleteSub k items =>
    exact (once0 _).append (disp k items 0 (pos _) (by simpa [Task.calm] using hk))
  | expire subs =>
    refine Above.wrap (pos _) (Above.flatMap _ _ ?_)
    rintro ⟨k, items⟩ hmem
    have hk2 := List.all_eq_true.mp hk _ hmem
    have ht : rankOf level .table < rankOf level (.sub k) := by have := h.table k; simp only [rankOf]; omega
    refine (Above.once ht).append ?_
    cases items with
    | none => exact .nil
    | some items => exact disp k items _ ht (by simpa using hk2)

theorem exists_top (rank : Lock → Nat) (p : List Instr) : ∃ top, bounded rank top p := by
  induction p with
  | nil => exact ⟨0, by intro l hl; cases hl⟩
  | cons i p ih =>
    obtain ⟨top, h⟩ := ih
    cases i with
    | acquire l =>
      refine ⟨max top (rank l), ?_⟩
      intro k hk
      rcases List.mem_cons.mp hk with e | e
      · cases e; omega
      · have := h k e; omega
    | release l =>
      refine ⟨top, ?_⟩
      intro k hk
      rcases List.mem_cons.mp hk with e | e
      · cases e
      · exact h k e

theorem exists_top_all (rank : Lock → Nat) (prog : Nat → List Instr) (n : Nat) :
    ∃ top, ∀ t, t < n → bounded rank top (prog t) := by
  induction n with
  | zero => exact ⟨0, by omega⟩
  | succ n ih =>
    obtain ⟨a, ha⟩ := ih
    obtain ⟨b, hb⟩ := exists_top rank (prog n)
    refine ⟨max a b, ?_⟩
    intro t ht l hl
    rcases Nat.lt_succ_iff_lt_or_eq.mp ht with h | h
    · have := ha t h l hl; omega
    · subst h; have := hb l hl; omega

theorem start_beyond (u : Setup) (tasks : List (List Task)) (t : Nat) (ht : tasks.length ≤ t) :
    (start u tasks).prog t = [] := by
  simp [start, List.getElem?_eq_none ht]

/-- **C86 (partial).** If there is an order of the locks, that is, if triggering links and the sampling of
the diagnostics of subscriptions have no cycle, then publishing cycles, samples, events, reads, changes of
links, and creations, changes and deletions of items that sample data do not block each other: whatever
happened so far, all of them can finish. Missing: changes and deletions of items that listen to events. -/
theorem C86_finish_partial (u : Setup) (level : Lock → Nat) (h : Order u level)
    (tasks : List (List Task)) (hk : ∀ ts ∈ tasks, ∀ k ∈ ts, k.calm u.owner = true) (schedule : List Nat) :
    ∃ more, ∀ t, Done (run (start u tasks) (schedule ++ more)) t := by
  have hinv : Inv (up (rankOf level)) tasks.length (start u tasks) := by
    refine ⟨?_, start_beyond u tasks⟩
    intro t
    refine ⟨[], ?_, List.nodup_nil, by intro l; simp [start]⟩
    show ordered _ _ (((tasks[t]?).getD []).flatMap (Task.instrs u))
    cases ht : tasks[t]? with
    | none => exact rfl
    | some ts =>
      exact (Above.flatMap (b := 0) _ ts (fun k hkm => task_above h k
        (hk ts (List.mem_of_getElem? ht) k hkm))).1
  obtain ⟨top, htop⟩ := exists_top_all (rankOf level) (start u tasks).prog tasks.length
  have hb : ∀ t, bounded (rankOf level) top ((start u tasks).prog t) := by
    intro t
    rcases Nat.lt_or_ge t tasks.length with ht | ht
    · exact htop t ht
    · rw [start_beyond u tasks t ht]; intro l hl; cases hl
  obtain ⟨more, hm⟩ := finish (top := top) _ (run (start u tasks) schedule) (Nat.le_refl _)
    (inv_run schedule hinv) (bounded_run schedule hb)
  exact ⟨more, fun t => by rw [run_append]; exact hm t⟩

/-- Without samples of diagnostics it is enough that the links have no cycle. -/
theorem order_of_links (u : Setup) (level : Nat → Nat) (h : ∀ i, ∀ l ∈ u.links i, level i < level l)
    (hr : ∀ i, u.reads i = []) :
    Order u (fun | .table => 0 | .sub _ => 1 | .node _ => 0 | .group => 2 | .item i => 2 + level i) := by
  refine ⟨fun i => by dsimp only; omega, fun i l hl => ?_, fun i k hk => ?_, fun k => by dsimp only; omega,
    fun n i => by dsimp only; omega, fun k => by dsimp only; omega⟩
  · have := h i l hl; dsimp only; omega
  · rw [hr i] at hk; cases hk

/-- **C86 (partial, links only).** The same for items that do not sample diagnostics. -/
theorem C86_links_partial (u : Setup) (level : Nat → Nat) (h : ∀ i, ∀ l ∈ u.links i, level i < level l)
    (hr : ∀ i, u.reads i = []) (tasks : List (List Task)) (hk : ∀ ts ∈ tasks, ∀ k ∈ ts, k.calm u.owner = true)
    (schedule : List Nat) : ∃ more, ∀ t, Done (run (start u tasks) (schedule ++ more)) t :=
  C86_finish_partial u _ (order_of_links u level h hr) tasks hk schedule

/-- Item 1 triggers items 2 and 3, item 3 triggers item 2; they belong to subscription 1. Item 4 belongs to
subscription 2 and samples the diagnostics of subscription 1. -/
def chain : Setup where
  links := fun i => if i = 1 then [2, 3] else if i = 3 then [2] else []
  owner := fun i => if i = 4 then 2 else 1
  reads := fun i => if i = 4 then [.sub 1] else []

def chainLevel : Lock → Nat
  | .table => 0
  | .sub k => if k = 1 then 3 else 1
  | .node _ => 0
  | .group => 4
  | .item i => if i = 1 then 4 else if i = 3 then 5 else if i = 4 then 2 else 6

example : Order chain chainLevel := by
  refine ⟨?_, ?_, ?_, ?_, ?_, ?_⟩
  · intro i; simp only [chain, chainLevel]; grind
  · intro i l hl; simp only [chain, chainLevel] at *; grind
  · intro i k hk; simp only [chain] at hk; split at hk <;> simp at hk; subst hk; simp [chainLevel, Source.lock, *]
  · intro k; simp only [chainLevel]; grind
  · intro n i; simp only [chainLevel]; grind
  · intro k; simp only [chainLevel]; grind

example : ∀ ts ∈ [[Task.cycle 1 [(1, 2, true), (2, 1, false), (3, 1, true)], .deleteData 2],
    [.event 7 [(3, true), (4, false)]], [.poll 2, .changeData 1, .poll 4], [.create 3, .read [.sub 1, .session]], [.expire [(1, none), (2, some [4])], .deleteSub 1 [1, 2]]],
    ∀ k ∈ ts, k.calm chain.owner = true := by decide

/-! ### Where it fails -/

/-- Nobody can take a step. -/
def Blocked (s : State) : Prop := ∀ t, step s t = s

theorem blocked_stuck {s : State} (h : Blocked s) {t : Nat} (ht : s.prog t ≠ []) : Stuck s t := by
  intro sch
  have : run s sch = s := by
    induction sch with
    | nil => rfl
    | cons u sch ih => rw [run_cons, h u]; exact ih
  unfold Done
  rw [this]
  exact ht

/-- Waiting for a lock that is held. -/
def waits (s : State) (t : Nat) : Bool :=
  match s.prog t with
  | [] => true
  | .acquire l :: _ => (s.held l).isSome
  | .release _ :: _ => false

theorem waits_idle {s : State} {t : Nat} (h : waits s t = true) : step s t = s := by
  unfold waits at h
  unfold step
  split at h
  next hp => rw [hp]
  next l p hp =>
    rw [hp]
    dsimp only
    rw [if_neg (by intro hn; rw [hn] at h; cases h)]
  · cases h

theorem run_beyond (s : State) (n : Nat) (hn : ∀ t, n ≤ t → s.prog t = []) (sch : List Nat) :
    ∀ t, n ≤ t → (run s sch).prog t = [] := by
  induction sch generalizing s with
  | nil => exact hn
  | cons u sch ih =>
    rw [run_cons]
    refine ih (step s u) ?_
    intro t ht
    have : ∀ i ∈ (step s u).prog t, False := by
      intro i hi
      have := prog_suffix s u t i hi
      rw [hn t ht] at this
      cases this
    exact List.eq_nil_iff_forall_not_mem.mpr this

theorem stuck_of (links : Setup) (tasks : List (List Task)) (sch : List Nat) (t : Nat)
    (h : ∀ u, u < tasks.length → waits (run (start links tasks) sch) u = true)
    (ht : (run (start links tasks) sch).prog t ≠ []) : Stuck (run (start links tasks) sch) t := by
  refine blocked_stuck (fun u => ?_) ht
  rcases Nat.lt_or_ge u tasks.length with hu | hu
  · exact waits_idle (h u hu)
  · refine waits_idle ?_
    unfold waits
    rw [run_beyond _ _ (start_beyond links tasks) sch u hu]

/-- One subscription and the given links. -/
abbrev linked (links : Nat → List Nat) : Setup := ⟨links, fun _ => 1, fun _ => []⟩

/-- **C86 fails (self).** SetTriggering accepts a link from an item to itself. The next time the item
queues a value, the publishing goroutine waits for a lock that it holds; it holds the lock of the
subscription, too, so that Publish and the other services wait with it (here goroutine 1, which deletes
an item). No coincidence is needed. -/
theorem C86_self_fails :
    let u := linked (fun i => if i = 1 then [1] else [])
    ∃ schedule, Stuck (run (start u [[.cycle 1 [(1, 1, false)]], [.deleteData 2]]) schedule) 0 ∧
      Stuck (run (start u [[.cycle 1 [(1, 1, false)]], [.deleteData 2]]) schedule) 1 := by
  refine ⟨[0, 0], stuck_of _ _ _ _ (by decide) (by decide), stuck_of _ _ _ _ (by decide) (by decide)⟩

/-- **C86 fails (mutual).** Two items that listen to different nodes and trigger each other: two events
at the same time block each other, and the applications that raise them. -/
theorem C86_mutual_fails :
    let u := linked (fun i => if i = 1 then [2] else if i = 2 then [1] else [])
    ∃ schedule, Stuck (run (start u [[.event 1 [(1, true)]], [.event 2 [(2, true)]]]) schedule) 0 ∧
      Stuck (run (start u [[.event 1 [(1, true)]], [.event 2 [(2, true)]]]) schedule) 1 := by
  refine ⟨[0, 1, 0, 1], stuck_of _ _ _ _ (by decide) (by decide), stuck_of _ _ _ _ (by decide) (by decide)⟩

/-- **C86 fails (events).** Without any links: an event is raised while SetMonitoringMode or Modify
changes an item that listens to it. The event holds the node and waits for the item, the service holds
the item and waits for the node. -/
theorem C86_event_fails :
    let u := linked (fun _ => [])
    ∃ schedule, Stuck (run (start u [[.event 1 [(1, true)]], [.changeEvent 1 1]]) schedule) 0 ∧
      Stuck (run (start u [[.event 1 [(1, true)]], [.changeEvent 1 1]]) schedule) 1 := by
  refine ⟨[0, 1], stuck_of _ _ _ _ (by decide) (by decide), stuck_of _ _ _ _ (by decide) (by decide)⟩

/-- **C86 fails (deletion).** The same when the item is deleted, which also blocks the subscription. -/
theorem C86_delete_fails :
    ∃ schedule, Stuck (run (start (linked (fun _ => [])) [[.event 1 [(1, true)]], [.deleteEvent 1 1], [.cycle 1 []]]) schedule) 2 := by
  refine ⟨[0, 1, 1], stuck_of _ _ _ _ (by decide) (by decide)⟩

/-- One subscription without links, where item 1 samples the diagnostics of that subscription. -/
abbrev watching : Setup := ⟨fun _ => [], fun _ => 1, fun i => if i = 1 then [.sub 1] else []⟩

/-- **C86 fails (diagnostics).** A client monitors the diagnostics of its own subscription. Sampling holds
the item and waits for the subscription, publishing holds the subscription and waits for the item. From
then on the subscription does not publish, and everything that needs it waits, too (here a Read of the
diagnostics). -/
theorem C86_diagnostics_fails :
    ∃ schedule, Stuck (run (start watching [[.cycle 1 [(1, 1, false)]], [.poll 1], [.read [.sub 1]]]) schedule) 0 ∧
      Stuck (run (start watching [[.cycle 1 [(1, 1, false)]], [.poll 1], [.read [.sub 1]]]) schedule) 1 ∧
      Stuck (run (start watching [[.cycle 1 [(1, 1, false)]], [.poll 1], [.read [.sub 1]]]) schedule) 2 := by
  refine ⟨[0, 1], stuck_of _ _ _ _ (by decide) (by decide), stuck_of _ _ _ _ (by decide) (by decide),
    stuck_of _ _ _ _ (by decide) (by decide)⟩

/-- Programs that give back what they take. -/
def Balanced (p : List Instr) : Prop := ordered (fun _ _ => True) [] p

theorem Balanced.append {p q : List Instr} (hp : Balanced p) (hq : Balanced q) : Balanced (p ++ q) :=
  ordered_cat (hs := []) (bs := []) p (by simp) hp hq

theorem Balanced.flatMap {α : Type} (f : α → List Instr) (as : List α) (hf : ∀ a, Balanced (f a)) :
    Balanced (as.flatMap f) := by
  induction as with
  | nil => exact rfl
  | cons a as ih => rw [List.flatMap_cons]; exact (hf a).append ih

theorem Balanced.wrap (l : Lock) {p : List Instr} (hp : Balanced p) : Balanced ([.acquire l] ++ p ++ [.release l]) := by
  rw [List.append_assoc]
  exact ⟨by simp, ordered_cat (ok := fun _ _ => True) p (hs := []) (q := [.release l]) (bs := [l]) (by simp) hp ⟨rfl, rfl⟩⟩

theorem Balanced.once (l : Lock) : Balanced (once l) := Balanced.wrap l (p := []) rfl

theorem task_balanced (u : Setup) (k : Task) : Balanced (k.instrs u) := by
  have tr : ∀ ls, Balanced (trigger ls) := fun ls => Balanced.flatMap _ _ (fun _ => .once _)
  have sa : ∀ ls, Balanced (sample ls) := fun ls => Balanced.flatMap _ _ (fun _ => .once _)
  have disp : ∀ k items, Balanced (dispose k items) := fun k items =>
    Balanced.wrap _ (Balanced.flatMap _ _ (fun _ => ((Balanced.once _).append (.once _)).append (.once _)))
  cases k with
  | cycle k items =>
    refine Balanced.wrap _ (Balanced.flatMap _ _ ?_)
    rintro ⟨i, n, again⟩
    refine (Balanced.wrap _ (Balanced.append ?_ ?_)).append (.once _)
    · induction n with
      | zero => exact rfl
      | succ n ih => rw [List.replicate_succ, List.flatten_cons]; exact (tr _).append ih
    · cases again
      · exact rfl
      · exact (sa _).append (tr _)
  | event n ls =>
    refine Balanced.wrap _ (Balanced.flatMap _ _ ?_)
    rintro ⟨i, q⟩
    refine Balanced.wrap _ ?_
    cases q
    · exact rfl
    · exact tr _
  | poll i => exact .wrap _ (sa _)
  | create i => exact (((Balanced.wrap _ (sa _)).append (.once _)).append (.once _)).append (.wrap _ (.once _))
  | changeData i => exact ((((Balanced.once _).append (.once _)).append (.wrap _ (sa _))).append (.once _)).append (.once _)
  | changeEvent i n =>
    have := Balanced.wrap (.item i) ((Balanced.once (.node n)).append (.once (.node n)))
    simpa [Task.instrs] using this
  | deleteData i => exact .wrap _ (((Balanced.once _).append (.once _)).append (.once _))
  | deleteSub k items => exact (Balanced.once _).append (disp k items)
  | expire subs =>
    refine Balanced.wrap _ (Balanced.flatMap _ _ ?_)
    rintro ⟨k, items⟩
    refine (Balanced.once _).append ?_
    cases items with
    | none => exact rfl
    | some items => exact disp k items
  | deleteEvent i n =>
    have := Balanced.wrap (.sub (u.owner i)) (Balanced.wrap (.item i) (Balanced.once (.node n)))
    simpa [Task.instrs] using this
  | link i => exact .once _
  | read subs => exact sa _

theorem start_balanced (u : Setup) (tasks : List (List Task)) :
    Inv (fun _ _ => True) tasks.length (start u tasks) := by
  refine ⟨fun t => ⟨[], ?_, List.nodup_nil, by intro l; simp [start]⟩, start_beyond u tasks⟩
  exact Balanced.flatMap _ _ (fun k => task_balanced u k)

/-- The publishing goroutine on its way to the lock that it holds. -/
def Doomed (s : State) : Prop :=
  (∃ p, s.prog 0 = .acquire (.sub 1) :: .acquire (.item 1) :: .acquire (.sub 1) :: p) ∨
  (s.held (.sub 1) = some 0 ∧ ∃ p, s.prog 0 = .acquire (.item 1) :: .acquire (.sub 1) :: p) ∨
  (s.held (.sub 1) = some 0 ∧ ∃ p, s.prog 0 = .acquire (.sub 1) :: p)

theorem doomed_step {n : Nat} {s : State} (hs : Inv (fun _ _ => True) n s) (h : Doomed s) (t : Nat) : Doomed (step s t) := by
  by_cases ht : t = 0
  · subst ht
    unfold step
    rcases h with ⟨p, hp⟩ | ⟨hh, p, hp⟩ | ⟨hh, p, hp⟩
    · rw [hp]
      dsimp only
      split
      · exact .inr (.inl ⟨by simp [set], p, by simp [set]⟩)
      · exact .inl ⟨p, hp⟩
    · rw [hp]
      dsimp only
      split
      · exact .inr (.inr ⟨by simp [set, hh], p, by simp [set]⟩)
      · exact .inr (.inl ⟨hh, p, hp⟩)
    · rw [hp]
      dsimp only
      rw [if_neg (by rw [hh]; simp)]
      exact .inr (.inr ⟨hh, p, hp⟩)
  · have hprog : (step s t).prog 0 = s.prog 0 := by
      unfold step
      split
      · rfl
      · split
        · exact set_ne _ _ _ _ (fun e => ht e.symm)
        · rfl
      · exact set_ne _ _ _ _ (fun e => ht e.symm)
    have hheld : s.held (.sub 1) = some 0 → (step s t).held (.sub 1) = some 0 := by
      intro hh
      unfold step
      split
      · exact hh
      next l p hp =>
        split
        next hf =>
          refine (set_ne _ _ _ _ ?_).trans hh
          rintro rfl
          rw [hh] at hf; cases hf
        · exact hh
      next l p hp =>
        refine (set_ne _ _ _ _ ?_).trans hh
        rintro rfl
        obtain ⟨ls, ho, -, hm⟩ := hs.thread t
        rw [hp] at ho
        cases ls with
        | nil => exact ho
        | cons a ls =>
          have := (hm (.sub 1)).mpr (by rw [ho.1]; simp)
          rw [hh] at this
          cases this
          exact ht rfl
    rcases h with ⟨p, hp⟩ | ⟨hh, p, hp⟩ | ⟨hh, p, hp⟩
    · exact .inl ⟨p, by rw [hprog]; exact hp⟩
    · exact .inr (.inl ⟨hheld hh, p, by rw [hprog]; exact hp⟩)
    · exact .inr (.inr ⟨hheld hh, p, by rw [hprog]; exact hp⟩)

theorem doomed_run {n : Nat} (sch : List Nat) : ∀ {s : State}, Inv (fun _ _ => True) n s → Doomed s → Doomed (run s sch) := by
  induction sch with
  | nil => intro s _ h; exact h
  | cons t sch ih => intro s hs h; rw [run_cons]; exact ih (inv_step t hs) (doomed_step hs h t)

/-- **C86 fails (ResendData).** With such an item no coincidence is needed: after ResendData the publishing
goroutine itself samples the item and waits for the lock that it holds. -/
theorem C86_resend_fails : ∀ others : List (List Task), ∀ schedule,
    ¬ Done (run (start watching ([.cycle 1 [(1, 0, true)]] :: others)) schedule) 0 := by
  intro others schedule hd
  have h0 : Doomed (start watching ([.cycle 1 [(1, 0, true)]] :: others)) :=
    .inl ⟨[.release (.sub 1), .release (.item 1), .acquire (.item 1), .release (.item 1), .release (.sub 1)], rfl⟩
  have := doomed_run schedule (start_balanced watching _) h0
  unfold Done at hd
  rcases this with ⟨p, hp⟩ | ⟨-, p, hp⟩ | ⟨-, p, hp⟩ <;> rw [hd] at hp <;> cases hp

/-- **C86 fails (two subscriptions).** Two subscriptions that monitor each other. -/
theorem C86_cross_fails :
    let u : Setup := ⟨fun _ => [], fun i => i, fun i => if i = 1 then [.sub 2] else if i = 2 then [.sub 1] else []⟩
    ∃ schedule, ∀ t, t < 4 →
      Stuck (run (start u [[.cycle 1 [(1, 0, false)]], [.poll 1], [.cycle 2 [(2, 0, false)]], [.poll 2]]) schedule) t := by
  refine ⟨[0, 1, 2, 3], fun t ht => ?_⟩
  match t, ht with
  | 0, _ => exact stuck_of _ _ _ _ (by decide) (by decide)
  | 1, _ => exact stuck_of _ _ _ _ (by decide) (by decide)
  | 2, _ => exact stuck_of _ _ _ _ (by decide) (by decide)
  | 3, _ => exact stuck_of _ _ _ _ (by decide) (by decide)

/-- **C86 fails (session diagnostics).** A client monitors the diagnostics of its session. If its
subscription expires while the item is sampled, then sampling holds the item and waits for the subscription
manager, and the check for expired subscriptions holds the manager and waits for the item: from then on all
services on all subscriptions of all clients wait (here goroutine 2, which creates or looks up one). -/
theorem C86_session_fails :
    let u : Setup := ⟨fun _ => [], fun _ => 1, fun i => if i = 1 then [.session] else []⟩
    ∃ schedule, ∀ t, t < 3 →
      Stuck (run (start u [[.expire [(1, some [1])]], [.poll 1], [.deleteSub 2 []]]) schedule) t := by
  refine ⟨[0, 0, 0, 0, 1], fun t ht => ?_⟩
  match t, ht with
  | 0, _ => exact stuck_of _ _ _ _ (by decide) (by decide)
  | 1, _ => exact stuck_of _ _ _ _ (by decide) (by decide)
  | 2, _ => exact stuck_of _ _ _ _ (by decide) (by decide)

/-- **C86 fails (session diagnostics, ResendData).** The same without expiry: after ResendData publishing
samples such an item while it holds the subscription, and the check asks every subscription whether it has
expired while it holds the manager. -/
theorem C86_sessionResend_fails :
    let u : Setup := ⟨fun _ => [], fun _ => 1, fun i => if i = 1 then [.session] else []⟩
    ∃ schedule, ∀ t, t < 3 →
      Stuck (run (start u [[.expire [(1, none)]], [.cycle 1 [(1, 0, true)]], [.deleteSub 2 []]]) schedule) t := by
  refine ⟨[0, 1, 1], fun t ht => ?_⟩
  match t, ht with
  | 0, _ => exact stuck_of _ _ _ _ (by decide) (by decide)
  | 1, _ => exact stuck_of _ _ _ _ (by decide) (by decide)
  | 2, _ => exact stuck_of _ _ _ _ (by decide) (by decide)

end Opcua.ItemLocks
