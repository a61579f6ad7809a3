import Verif.Model.PollGroup
import Verif.Lemmas.Lists

/-! # C103: items are sampled at their revised interval; C104: services on items do not crash the server -/

namespace Opcua.PollGroup
open Revise (F64 toInt64)

/-! ## The revised interval -/

/-- **C103 (revision).** A requested interval between the least interval of the server and a minute, that the node
allows, is not changed; a negative one stands for the publishing interval; the revised interval is never less than the server
and the node allow, and more than a minute only if the node asks for it. -/
theorem C103_revised (rate : Rat) (nodeMin : Option Rat) (pub req : Rat) (hr : rate ≤ 60000) :
    (0 ≤ req → rate ≤ req → req ≤ 60000 → (∀ m, nodeMin = some m → m ≤ req) →
      samplingInterval (.fin rate) (nodeMin.map .fin) (.fin pub) (.fin req) = .fin req)
    ∧ (req < 0 → 0 ≤ pub → samplingInterval (.fin rate) (nodeMin.map .fin) (.fin pub) (.fin req) =
      samplingInterval (.fin rate) (nodeMin.map .fin) (.fin pub) (.fin pub))
    ∧ ∃ r, samplingInterval (.fin rate) (nodeMin.map .fin) (.fin pub) (.fin req) = .fin r ∧ rate ≤ r
      ∧ (∀ m, nodeMin = some m → m ≤ r) ∧ (r ≤ 60000 ∨ nodeMin = some r) := by
  unfold samplingInterval clamp orPublishing
  cases nodeMin with
  | none =>
    simp only [Option.map_none, F64.lt, decide_eq_true_eq, maxSamplingInterval]
    refine ⟨?_, ?_, ?_⟩
    · intros; grind
    · intros; grind
    · by_cases h0 : req < 0 <;> simp only [h0, if_true, if_false]
      · by_cases h1 : pub < rate <;> simp only [h1, if_true, if_false, F64.lt, decide_eq_true_eq] <;> grind
      · by_cases h1 : req < rate <;> simp only [h1, if_true, if_false, F64.lt, decide_eq_true_eq] <;> grind
  | some m =>
    simp only [Option.map_some, F64.lt, decide_eq_true_eq, maxSamplingInterval]
    refine ⟨?_, ?_, ?_⟩
    · intros; grind [F64.lt]
    · intros; grind [F64.lt]
    · by_cases h0 : req < 0 <;> simp only [h0, if_true, if_false]
      · by_cases h1 : pub < rate <;> simp only [h1, if_true, if_false, F64.lt, decide_eq_true_eq] <;> grind [F64.lt]
      · by_cases h1 : req < rate <;> simp only [h1, if_true, if_false, F64.lt, decide_eq_true_eq] <;> grind [F64.lt]

example : samplingInterval (.fin 100) (some (.fin 250)) (.fin 500) (.fin (-1)) = .fin 500
    ∧ samplingInterval (.fin 100) (some (.fin 250)) (.fin 500) (.fin 0) = .fin 250
    ∧ samplingInterval (.fin 100) (some (.fin 90000)) (.fin 500) (.fin 100000) = .fin 90000 := by decide +kernel

/-! ## The period of the poll group -/

theorem duration_fin (q : Rat) (h0 : 0 ≤ q) (h1 : q ≤ 9000000000000) : duration (.fin q) = q.floor * 1000000 := by
  have hf0 : 0 ≤ q.floor := by rw [Rat.le_floor_iff]; exact_mod_cast h0
  have hf1 : q.floor ≤ 9000000000000 := by
    have : ((q.floor : Int) : Rat) ≤ q := Rat.floor_le q
    have h2 : ((q.floor : Int) : Rat) ≤ ((9000000000000 : Int) : Rat) := by grind
    exact Rat.intCast_le_intCast.1 h2
  have ht : toInt64 (.fin q) = q.floor := by
    unfold toInt64
    have hb : -(2 : Rat) ^ 63 ≤ q ∧ q < (2 : Rat) ^ 63 := by constructor <;> grind
    simp only [hb, and_self, if_true, h0]
  unfold duration
  rw [ht]
  generalize q.floor = n at hf0 hf1
  have : (2 ^ 64 : Nat) = 18446744073709551616 := rfl
  rw [this]
  simp only [Int.bmod]
  omega

/-- **C103 (period).** An item is in a poll group whose period is the revised interval without its fraction of a
millisecond: the item is sampled at least as often as the client was told, and by less than a millisecond more often. -/
theorem C103_period (rate q : Rat) (h0 : 0 ≤ rate) (hr : rate ≤ q) (h1 : q ≤ 9000000000000) :
    ((groupOf (.fin rate) (.fin q) : Int) : Rat) ≤ q * 1000000
    ∧ q * 1000000 < ((groupOf (.fin rate) (.fin q) : Int) : Rat) + 1000000 := by
  have hq0 : 0 ≤ q := by grind
  unfold groupOf
  rw [duration_fin rate h0 (by grind), duration_fin q hq0 h1]
  have hm : rate.floor ≤ q.floor := Rat.floor_monotone hr
  rw [if_neg (by omega)]
  have ha : ((q.floor : Int) : Rat) ≤ q := Rat.floor_le q
  have hb : q < ((q.floor : Int) : Rat) + 1 := by have := Rat.lt_floor (x := q); grind
  generalize q.floor = n at ha hb
  have : ((n * 1000000 : Int) : Rat) = (n : Rat) * 1000000 := Rat.intCast_mul n 1000000
  rw [this]
  constructor <;> grind

example : groupOf (.fin 100) (.fin 250) = 250000000 ∧ groupOf (.fin 100) (.fin (501 / 2)) = 250000000 := by decide +kernel

/-- **C103 fails (NaN).** A client that asks for the interval NaN is told NaN, and the item is sampled at the least interval. -/
theorem C103_nan_fails (rate pub : F64) (n : Option F64) :
    samplingInterval rate n pub .nan = .nan ∧ (∀ q, rate = .fin q → 0 ≤ q → q ≤ 60000 → groupOf rate .nan = duration rate) := by
  constructor
  · cases n <;> simp [samplingInterval, clamp, orPublishing, F64.lt]
  · rintro q rfl h0 h1
    have hf0 : 0 ≤ q.floor := by rw [Rat.le_floor_iff]; exact_mod_cast h0
    unfold groupOf
    rw [duration_fin q h0 (by grind)]
    have : duration .nan = 0 := by decide +kernel
    rw [this]
    split <;> omega

/-- **C103 fails (slow nodes).** A variable whose MinimumSamplingInterval is 10^13 ms, about 300 years, is sampled at the
least interval of the server instead: the product with a million wraps around. -/
theorem C103_slow_fails : samplingInterval (.fin 100) (some (.fin 10000000000000)) (.fin 500) (.fin 1000) = .fin 10000000000000
    ∧ groupOf (.fin 100) (.fin 10000000000000) = 100000000 := by decide +kernel

/-! ## Histories -/

theorem run_snoc (rate : F64) (evs : List Ev) (e : Ev) : run rate (evs ++ [e]) = step rate (run rate evs) e := by
  simp [run, List.foldl_append]

theorem set_same {α β : Type} [DecidableEq α] (f : α → β) (a : α) (b : β) : set f a b a = b := by simp [set]

theorem set_other {α β : Type} [DecidableEq α] (f : α → β) (a x : α) (b : β) (h : x ≠ a) : set f a b x = f x := by
  simp [set, h]

/-- A goroutine is at work on the item. -/
def Spec.Busy (s : State) (i : Nat) : Prop := ∃ t pc, s.threads t = some (i, pc)

/-- No service begins to work on the item while another one does. -/
def Spec.Apart (rate : F64) (evs : List Ev) (i : Nat) : Prop :=
  ∀ pre t op post, evs = pre ++ .begin t i op :: post → ¬ Spec.Busy (run rate pre) i

/-- The item exists, is not deleted and not disabled, and `g` is the group of its interval. -/
def Spec.Wanted (rate : F64) (s : State) (i : Nat) (g : Int) : Prop :=
  ∃ it, s.items i = some it ∧ it.live = true ∧ it.mode ≠ .disabled ∧ g = groupOf rate it.interval

open Spec

/-- `t` is the only goroutine at work on the item, and it is at `pc`. -/
def Only (s : State) (i t : Nat) (pc : Pc) : Prop := ∀ t' pc', s.threads t' = some (i, pc') ↔ t' = t ∧ pc' = pc

def At (rate : F64) (s : State) (i : Nat) (it : Item) : Pc → Prop
  | .compare _ => ∀ g, i ∈ s.groups g ↔ Wanted rate s i g
  | .leave (.create ..) => False
  | .leave .delete => (∀ g, i ∈ s.groups g ↔ Wanted rate s i g) ∧ it.listed = false
  | .leave _ => ∀ g, i ∈ s.groups g ↔ Wanted rate s i g
  | .change (.create ..) => False
  | .change .delete => (∀ g, i ∉ s.groups g) ∧ it.listed = false
  | .change _ => ∀ g, i ∉ s.groups g
  | .enter _ => (∀ g, i ∉ s.groups g) ∧ it.mode ≠ .disabled

def Inv (rate : F64) (s : State) (i : Nat) : Prop :=
  (∀ it, s.items i = some it → it.listed = true → it.live = true) ∧
  ((¬ Busy s i ∧ ∀ g, i ∈ s.groups g ↔ Wanted rate s i g)
  ∨ ∃ t pc it, Only s i t pc ∧ s.items i = some it ∧ it.live = true ∧ At rate s i it pc)

/-- What other items' services leave alone. -/
structure Same (s s' : State) (i : Nat) : Prop where
  items : s'.items i = s.items i
  groups : ∀ g, i ∈ s'.groups g ↔ i ∈ s.groups g
  threads : ∀ t pc, s'.threads t = some (i, pc) ↔ s.threads t = some (i, pc)

theorem Same.refl (s : State) (i : Nat) : Same s s i := ⟨rfl, fun _ => .rfl, fun _ _ => .rfl⟩

theorem Inv.same {rate : F64} {s s' : State} {i : Nat} (h : Inv rate s i) (k : Same s s' i) : Inv rate s' i := by
  have hw : ∀ g, Wanted rate s' i g ↔ Wanted rate s i g := fun g => by unfold Wanted; rw [k.items]
  refine ⟨by rw [k.items]; exact h.1, ?_⟩
  rcases h.2 with ⟨h1, h2⟩ | ⟨t, pc, it, h1, h2, h3, h4⟩
  · refine .inl ⟨?_, fun g => by rw [k.groups, hw]; exact h2 g⟩
    rintro ⟨t, pc, ht⟩
    exact h1 ⟨t, pc, (k.threads t pc).1 ht⟩
  · refine .inr ⟨t, pc, it, fun t' pc' => by rw [k.threads]; exact h1 t' pc', by rw [k.items]; exact h2, h3, ?_⟩
    cases pc with
    | compare m => exact fun g => by rw [k.groups, hw]; exact h4 g
    | leave op =>
      cases op <;> first | exact h4 | exact ⟨fun g => by rw [k.groups, hw]; exact h4.1 g, h4.2⟩ | exact fun g => by rw [k.groups, hw]; exact h4 g
    | change op =>
      cases op <;> first | exact h4 | exact ⟨fun g => by rw [k.groups]; exact h4.1 g, h4.2⟩ | exact fun g => by rw [k.groups]; exact h4 g
    | enter f => exact ⟨fun g => by rw [k.groups]; exact h4.1 g, h4.2⟩

theorem mem_insert (i j : Nat) (l : List Nat) : i ∈ insert j l ↔ i = j ∨ i ∈ l := by
  unfold insert
  split
  · constructor
    · exact .inr
    · rintro (rfl | h) <;> assumption
  · simp [or_comm]

theorem ticker_same (g : Int) (s : State) (i : Nat) : Same s (ticker g s) i := by
  unfold ticker
  split <;> exact ⟨rfl, fun _ => .rfl, fun _ _ => .rfl⟩

theorem Same.trans {s s' s'' : State} {i : Nat} (h : Same s s' i) (k : Same s' s'' i) : Same s s'' i :=
  ⟨k.items.trans h.items, fun g => (k.groups g).trans (h.groups g), fun t pc => (k.threads t pc).trans (h.threads t pc)⟩

theorem threads_other {s : State} {t i j : Nat} {o : Option (Nat × Pc)} (hij : i ≠ j) (ht : ∀ pc, s.threads t ≠ some (i, pc))
    (ho : ∀ pc, o ≠ some (i, pc)) (t' : Nat) (pc : Pc) : set s.threads t o t' = some (i, pc) ↔ s.threads t' = some (i, pc) := by
  by_cases h : t' = t
  · subst h
    rw [set_same]
    exact ⟨fun h => absurd h (ho pc), fun h => absurd h (ht pc)⟩
  · rw [set_other _ _ _ _ h]

theorem begin_other (rate : F64) (s : State) (t i j : Nat) (op : Op) (hij : i ≠ j) (ht : s.threads t = none) :
    Same s (begin rate s t j op) i := by
  have hn : ∀ pc, s.threads t ≠ some (i, pc) := fun pc h => by rw [ht] at h; cases h
  have hj : ∀ (pc pc' : Pc), some (j, pc') ≠ some (i, pc) := fun pc pc' h => by
    injection h with h; injection h with h; exact hij h.symm
  unfold begin
  split
  · split
    · exact ⟨set_other _ _ _ _ hij, fun _ => .rfl, fun _ _ => .rfl⟩
    · exact ⟨set_other _ _ _ _ hij, fun _ => .rfl, threads_other hij hn fun pc => hj pc _⟩
  · split
    · exact ⟨rfl, fun _ => .rfl, threads_other hij hn fun pc => hj pc _⟩
    · exact .refl _ _
  · split
    · exact ⟨rfl, fun _ => .rfl, threads_other hij hn fun pc => hj pc _⟩
    · exact .refl _ _
  · split
    · exact ⟨set_other _ _ _ _ hij, fun _ => .rfl, threads_other hij hn fun pc => hj pc _⟩
    · exact .refl _ _
  · exact .refl _ _

theorem starting_other (s : State) (t i j : Nat) (it : Item) (hij : i ≠ j) (hn : ∀ pc, s.threads t ≠ some (i, pc)) :
    Same s (starting s t j it) i := by
  have hj : ∀ (pc pc' : Pc), some (j, pc') ≠ some (i, pc) := fun pc pc' h => by
    injection h with h; injection h with h; exact hij h.symm
  unfold starting
  split
  · exact ⟨set_other _ _ _ _ hij, fun _ => .rfl, threads_other hij hn fun pc h => by cases h⟩
  · split
    · exact ⟨set_other _ _ _ _ hij, fun _ => .rfl, threads_other hij hn fun pc => hj pc _⟩
    · exact ⟨rfl, fun _ => .rfl, fun _ _ => .rfl⟩

theorem mem_set_groups (s : State) (g0 g : Int) (i : Nat) (l : List Nat) (h : i ∈ l ↔ i ∈ s.groups g0) :
    i ∈ set s.groups g0 l g ↔ i ∈ s.groups g := by
  by_cases hg : g = g0
  · subst hg; rw [set_same]; exact h
  · rw [set_other _ _ _ _ hg]

theorem go_other (rate : F64) (s : State) (t i j : Nat) (pc0 : Pc) (hij : i ≠ j) (ht : s.threads t = some (j, pc0)) :
    Same s (go rate s t) i := by
  have hj : ∀ (pc pc' : Pc), some (j, pc') ≠ some (i, pc) := fun pc pc' h => by
    injection h with h; injection h with h; exact hij h.symm
  have hn : ∀ pc, s.threads t ≠ some (i, pc) := fun pc h => by rw [ht] at h; exact hj _ _ h
  unfold go
  rw [ht]
  simp only
  cases hi : s.items j with
  | none => exact .refl _ _
  | some it =>
    simp only
    cases pc0 with
    | compare m =>
      simp only
      split
      · exact ⟨rfl, fun _ => .rfl, threads_other hij hn fun pc h => by cases h⟩
      · exact ⟨rfl, fun _ => .rfl, threads_other hij hn fun pc => hj pc _⟩
    | leave op =>
      refine Same.trans ?_ (ticker_same _ _ _)
      exact ⟨rfl, fun g => mem_set_groups _ _ _ _ _ (by simp [hij]), threads_other hij hn fun pc => hj pc _⟩
    | change op =>
      simp only
      unfold change
      cases op with
      | create => exact .refl _ _
      | modify pub req =>
        simp only
        split
        · exact ⟨rfl, fun _ => .rfl, fun _ _ => .rfl⟩
        · exact starting_other _ _ _ _ _ hij hn
      | setMode m =>
        simp only
        split
        · exact ⟨rfl, fun _ => .rfl, fun _ _ => .rfl⟩
        · exact starting_other _ _ _ _ _ hij hn
      | delete => exact ⟨set_other _ _ _ _ hij, fun _ => .rfl, threads_other hij hn fun pc h => by cases h⟩
    | enter f =>
      refine Same.trans ?_ (ticker_same _ _ _)
      exact ⟨set_other _ _ _ _ hij, fun g => mem_set_groups _ _ _ _ _ (by simp [mem_insert, hij]),
        threads_other hij hn fun pc h => by cases h⟩

theorem only_set {s : State} {i t : Nat} {pc' : Pc} (h : ∀ t' pc, t' ≠ t → s.threads t' ≠ some (i, pc)) :
    ∀ t1 pc1, set s.threads t (some (i, pc')) t1 = some (i, pc1) ↔ t1 = t ∧ pc1 = pc' := by
  intro t1 pc1
  by_cases h1 : t1 = t
  · subst h1
    rw [set_same]
    constructor
    · intro h2
      injection h2 with h2
      injection h2 with _ h2
      exact ⟨rfl, h2.symm⟩
    · rintro ⟨_, rfl⟩; rfl
  · rw [set_other _ _ _ _ h1]
    exact ⟨fun h2 => absurd h2 (h t1 pc1 h1), fun h2 => absurd h2.1 h1⟩

theorem free_set {s : State} {i t : Nat} (h : ∀ t' pc, t' ≠ t → s.threads t' ≠ some (i, pc)) :
    ¬ ∃ t1 pc1, set s.threads t none t1 = some (i, pc1) := by
  rintro ⟨t1, pc1, h2⟩
  by_cases h1 : t1 = t
  · subst h1; rw [set_same] at h2; cases h2
  · rw [set_other _ _ _ _ h1] at h2; exact h t1 pc1 h1 h2

theorem begin_inv (rate : F64) (s : State) (t i : Nat) (op : Op) (h : Inv rate s i) (hb : ¬ Busy s i) :
    Inv rate (begin rate s t i op) i := by
  have hinv := h
  obtain ⟨hl, h2⟩ := h
  have h2 : ∀ g, i ∈ s.groups g ↔ Wanted rate s i g := by
    rcases h2 with h2 | ⟨t1, pc1, it1, h2, _⟩
    · exact h2.2
    · exact absurd ⟨t1, pc1, (h2 t1 pc1).2 ⟨rfl, rfl⟩⟩ hb
  have hoth : ∀ t' pc, t' ≠ t → s.threads t' ≠ some (i, pc) := fun t' pc _ h => hb ⟨t', pc, h⟩
  unfold begin
  cases hi : s.items i with
  | none =>
    have hout : ∀ g, i ∉ s.groups g := by
      intro g hg
      obtain ⟨it, h3, _⟩ := (h2 g).1 hg
      rw [hi] at h3; cases h3
    cases op with
    | create m n pub req =>
      simp only
      split
      · rename_i hm
        refine ⟨fun it h3 _ => ?_, .inl ⟨hb, fun g => ⟨fun h3 => absurd h3 (hout g), ?_⟩⟩⟩
        · simp only [set_same] at h3
          injection h3 with h3
          subst h3; rfl
        · rintro ⟨it, h3, _, h4, _⟩
          simp only [set_same] at h3
          injection h3 with h3
          subst h3
          exact absurd hm h4
      · rename_i hm
        refine ⟨fun it h3 h4 => ?_, .inr ⟨t, .enter true, _, only_set hoth, set_same _ _ _, rfl, hout, hm⟩⟩
        simp only [set_same] at h3
        injection h3 with h3
        subst h3; rfl
    | modify => exact hinv
    | setMode => exact hinv
    | delete => exact hinv
  | some it =>
    cases op with
    | create => exact hinv
    | modify pub req =>
      simp only
      split
      · rename_i hli
        exact ⟨hl, .inr ⟨t, .leave (.modify pub req), it, only_set hoth, hi, hl it hi hli, h2⟩⟩
      · exact hinv
    | setMode m =>
      simp only
      split
      · rename_i hli
        exact ⟨hl, .inr ⟨t, .compare m, it, only_set hoth, hi, hl it hi hli, h2⟩⟩
      · exact hinv
    | delete =>
      simp only
      split
      · rename_i hli
        refine ⟨fun it' h3 h4 => ?_, .inr ⟨t, .leave .delete, _, only_set hoth, set_same _ _ _, hl it hi hli, fun g => ?_, rfl⟩⟩
        · simp only [set_same] at h3
          injection h3 with h3
          subst h3; cases h4
        · rw [show i ∈ s.groups g ↔ _ from h2 g]
          unfold Wanted
          constructor
          · rintro ⟨it', h3, h4, h5, h6⟩
            rw [hi] at h3
            injection h3 with h3
            subst h3
            exact ⟨_, set_same _ _ _, h4, h5, h6⟩
          · rintro ⟨it', h3, h4, h5, h6⟩
            simp only [set_same] at h3
            injection h3 with h3
            subst h3
            exact ⟨_, hi, h4, h5, h6⟩
      · exact hinv

theorem starting_inv (rate : F64) (s : State) (t i : Nat) (it : Item) (hoth : ∀ t' pc, t' ≠ t → s.threads t' ≠ some (i, pc))
    (hout : ∀ g, i ∉ s.groups g) (hlive : it.live = true) : Inv rate (starting s t i it) i := by
  unfold starting
  split
  · rename_i hm
    refine ⟨fun it' h3 _ => ?_, .inl ⟨free_set hoth, fun g => ⟨fun h => absurd h (hout g), ?_⟩⟩⟩
    · simp only [set_same] at h3
      injection h3 with h3
      subst h3; exact hlive
    · rintro ⟨it', h3, _, h4, _⟩
      simp only [set_same] at h3
      injection h3 with h3
      subst h3
      exact absurd hm h4
  · rename_i hm
    refine ⟨fun it' h3 _ => ?_, .inr ⟨t, .enter false, it, only_set hoth, set_same _ _ _, hlive, hout, hm⟩⟩
    simp only [set_same] at h3
    injection h3 with h3
    subst h3; exact hlive

theorem go_inv (rate : F64) (s : State) (t i : Nat) (pc : Pc) (h : Inv rate s i) (ht : s.threads t = some (i, pc)) :
    Inv rate (go rate s t) i := by
  obtain ⟨hl, ⟨h1, _⟩ | ⟨t1, pc1, it, h1, hi, hlive, hat⟩⟩ := h
  · exact absurd ⟨t, pc, ht⟩ h1
  obtain ⟨rfl, rfl⟩ := (h1 t pc).1 ht
  have hoth : ∀ t' pc', t' ≠ t → s.threads t' ≠ some (i, pc') := fun t' pc' h2 h3 => h2 ((h1 t' pc').1 h3).1
  unfold go
  rw [ht]
  simp only [hi]
  cases pc with
  | compare m =>
    simp only
    split
    · exact ⟨hl, .inl ⟨free_set hoth, hat⟩⟩
    · exact ⟨hl, .inr ⟨t, _, it, only_set hoth, hi, hlive, hat⟩⟩
  | leave op =>
    refine Inv.same (s := { s with
        groups := set s.groups (groupOf rate it.interval) ((s.groups (groupOf rate it.interval)).filter (· ≠ i)),
        threads := set s.threads t (some (i, .change op)) }) ?_ (ticker_same _ _ _)
    have hcond : ∀ g, i ∈ s.groups g ↔ Wanted rate s i g := by cases op <;> first | exact hat | exact hat.1 | exact absurd hat id
    have hout : ∀ g, i ∉ set s.groups (groupOf rate it.interval) ((s.groups (groupOf rate it.interval)).filter (· ≠ i)) g := by
      intro g hg
      by_cases h3 : g = groupOf rate it.interval
      · subst h3
        rw [set_same] at hg
        simp at hg
      · rw [set_other _ _ _ _ h3] at hg
        obtain ⟨it', h4, _, _, h5⟩ := (hcond g).1 hg
        rw [hi] at h4
        injection h4 with h4
        subst h4
        exact h3 h5
    refine ⟨hl, .inr ⟨t, .change op, it, only_set hoth, hi, hlive, ?_⟩⟩
    cases op <;> first | exact hout | exact ⟨hout, hat.2⟩ | exact absurd hat id
  | change op =>
    simp only
    unfold change
    cases op with
    | create => exact absurd hat id
    | modify pub req =>
      simp only
      rw [if_neg (by simp [hlive])]
      exact starting_inv _ _ _ _ _ hoth hat hlive
    | setMode m =>
      simp only
      rw [if_neg (by simp [hlive])]
      exact starting_inv _ _ _ _ _ hoth hat hlive
    | delete =>
      refine ⟨fun it' h3 h4 => ?_, .inl ⟨free_set hoth, fun g => ⟨fun h => absurd h (hat.1 g), ?_⟩⟩⟩
      · simp only [set_same] at h3
        injection h3 with h3
        subst h3
        exact absurd h4 (by simp [hat.2])
      · rintro ⟨it', h3, h4, _⟩
        simp only [set_same] at h3
        injection h3 with h3
        subst h3; cases h4
  | enter f =>
    refine Inv.same (s := { s with
        groups := set s.groups (groupOf rate it.interval) (insert i (s.groups (groupOf rate it.interval))),
        items := set s.items i (some (if f then append it else it)), threads := set s.threads t none }) ?_ (ticker_same _ _ _)
    refine ⟨fun it' h3 _ => ?_, .inl ⟨free_set hoth, fun g => ?_⟩⟩
    · simp only [set_same] at h3
      injection h3 with h3
      subst h3
      cases f <;> exact hlive
    · have hw : Wanted rate { s with
          groups := set s.groups (groupOf rate it.interval) (insert i (s.groups (groupOf rate it.interval))),
          items := set s.items i (some (if f then append it else it)), threads := set s.threads t none } i g
          ↔ g = groupOf rate it.interval := by
        constructor
        · rintro ⟨it', h3, _, _, h5⟩
          simp only [set_same] at h3
          injection h3 with h3
          subst h3
          cases f <;> exact h5
        · intro h3
          refine ⟨_, set_same _ _ _, ?_⟩
          cases f <;> exact ⟨hlive, hat.2, h3⟩
      rw [hw]
      by_cases h3 : g = groupOf rate it.interval
      · subst h3
        simp [set_same, mem_insert]
      · simp only [set_other _ _ _ _ h3]
        exact ⟨fun h => absurd h (hat.1 g), fun h => absurd h h3⟩

theorem step_inv (rate : F64) (s : State) (e : Ev) (i : Nat) (h : Inv rate s i) (hb : ∀ t op, e = .begin t i op → ¬ Busy s i) :
    Inv rate (step rate s e) i := by
  unfold step
  split
  · exact h
  · cases e with
    | begin t j op =>
      simp only
      split
      · exact h
      · rename_i hn
        by_cases hij : i = j
        · subst hij; exact begin_inv _ _ _ _ _ h (hb _ _ rfl)
        · exact h.same (begin_other _ _ _ _ _ _ hij (by simpa using hn))
    | go t =>
      simp only
      cases ht : s.threads t with
      | none => simp only [go, ht]; exact h
      | some p =>
        obtain ⟨j, pc⟩ := p
        by_cases hij : i = j
        · subst hij; exact go_inv _ _ _ _ _ h ht
        · exact h.same (go_other _ _ _ _ _ _ hij ht)
    | tick g =>
      simp only
      split
      · exact h.same ⟨rfl, fun _ => .rfl, fun _ _ => .rfl⟩
      · exact h
    | poll g j =>
      simp only [poll]
      split
      · exact h.same ⟨rfl, fun _ => .rfl, fun _ _ => .rfl⟩
      · exact h

theorem inv_init (rate : F64) (i : Nat) : Inv rate init i := by
  refine ⟨fun it h => by simp [init] at h, .inl ⟨?_, fun g => ?_⟩⟩
  · rintro ⟨t, pc, h⟩; simp [init] at h
  · simp [init, Wanted]

theorem inv_run (rate : F64) (evs : List Ev) (i : Nat) (h : Apart rate evs i) : Inv rate (run rate evs) i := by
  induction evs using snocInd with
  | nil => exact inv_init rate i
  | append_singleton evs e ih =>
    rw [run_snoc]
    refine step_inv _ _ _ _ (ih ?_) ?_
    · intro pre t op post hp
      exact h pre t op (post ++ [e]) (by rw [hp]; simp)
    · rintro t op rfl
      exact h evs t op [] rfl

/-- **C103 (the group, partial).** If the services that work on an item do not overlap, then between them the item is in the
poll group of its revised interval if it is neither deleted nor disabled, and in no other group; otherwise it is in none.
Missing: services that overlap, see `C103_overlap_fails`. -/
theorem C103_group_partial (rate : F64) (evs : List Ev) (i : Nat) (h : Apart rate evs i) (hb : ¬ Busy (run rate evs) i) (g : Int) :
    i ∈ (run rate evs).groups g ↔ Wanted rate (run rate evs) i g := by
  obtain ⟨_, ⟨_, h2⟩ | ⟨t, pc, it, h1, _⟩⟩ := inv_run rate evs i h
  · exact h2 g
  · exact absurd ⟨t, pc, (h1 t pc).2 ⟨rfl, rfl⟩⟩ hb

/-- Each group lists an item once, and so does the goroutine that polls. -/
def Nodups (s : State) : Prop := ∀ g, (s.groups g).Nodup ∧ (s.due g).Nodup

theorem nodup_insert (i : Nat) (l : List Nat) (h : l.Nodup) : (insert i l).Nodup := by
  unfold insert
  split
  · exact h
  · rename_i hi
    rw [List.nodup_append]
    exact ⟨h, by simp, by intro a ha b hb; simp at hb; subst hb; exact fun hab => hi (hab ▸ ha)⟩

/-- What the services do with the lists of the groups. -/
theorem go_groups (rate : F64) (s : State) (t : Nat) (g : Int) :
    ((go rate s t).groups g = s.groups g ∨ (∃ i, (go rate s t).groups g = (s.groups g).filter (· ≠ i))
      ∨ ∃ i, (go rate s t).groups g = insert i (s.groups g)) ∧ (go rate s t).due = s.due ∧ (go rate s t).reads = s.reads := by
  have hst : ∀ i it, (starting s t i it).groups = s.groups ∧ (starting s t i it).due = s.due ∧ (starting s t i it).reads = s.reads := by
    intro i it
    unfold starting
    split
    · simp
    · split <;> simp
  have htk : ∀ g' (s' : State), (ticker g' s').groups = s'.groups ∧ (ticker g' s').due = s'.due ∧ (ticker g' s').reads = s'.reads := by
    intro g' s'
    unfold ticker
    split <;> simp
  unfold go
  cases s.threads t with
  | none => simp
  | some p =>
    obtain ⟨i, pc⟩ := p
    simp only
    cases s.items i with
    | none => simp
    | some it =>
      simp only
      cases pc with
      | compare m => simp only; split <;> simp
      | leave op =>
        rw [(htk _ _).1, (htk _ _).2.1, (htk _ _).2.2]
        refine ⟨?_, rfl, rfl⟩
        by_cases hg : g = groupOf rate it.interval
        · subst hg; exact .inr (.inl ⟨i, set_same _ _ _⟩)
        · exact .inl (set_other _ _ _ _ hg)
      | change op =>
        simp only
        unfold change
        cases op with
        | create => simp
        | modify =>
          simp only
          split
          · simp
          · simp only [hst]; simp
        | setMode =>
          simp only
          split
          · simp
          · simp only [hst]; simp
        | delete => simp
      | enter f =>
        rw [(htk _ _).1, (htk _ _).2.1, (htk _ _).2.2]
        refine ⟨?_, rfl, rfl⟩
        by_cases hg : g = groupOf rate it.interval
        · subst hg; exact .inr (.inr ⟨i, set_same _ _ _⟩)
        · exact .inl (set_other _ _ _ _ hg)

theorem begin_groups (rate : F64) (s : State) (t i : Nat) (op : Op) :
    (begin rate s t i op).groups = s.groups ∧ (begin rate s t i op).due = s.due ∧ (begin rate s t i op).reads = s.reads := by
  unfold begin
  split <;> first | exact ⟨rfl, rfl, rfl⟩ | (split <;> exact ⟨rfl, rfl, rfl⟩)

theorem step_nodups (rate : F64) (s : State) (e : Ev) (h : Nodups s) : Nodups (step rate s e) := by
  intro g
  unfold step
  split
  · exact h g
  · cases e with
    | begin t i op =>
      simp only
      split
      · exact h g
      · rw [(begin_groups _ _ _ _ _).1, (begin_groups _ _ _ _ _).2.1]; exact h g
    | go t =>
      simp only
      obtain ⟨h1, h2, _⟩ := go_groups rate s t g
      rw [h2]
      refine ⟨?_, (h g).2⟩
      rcases h1 with h1 | ⟨i, h1⟩ | ⟨i, h1⟩ <;> rw [h1]
      · exact (h g).1
      · exact (List.filter_sublist (l := s.groups g)).nodup (h g).1
      · exact nodup_insert _ _ (h g).1
    | tick g' =>
      simp only
      split
      · refine ⟨(h g).1, ?_⟩
        by_cases hg : g = g'
        · subst hg; simp only [set_same]; exact (h g).1
        · simp only [set_other _ _ _ _ hg]; exact (h g).2
      · exact h g
    | poll g' i =>
      simp only [poll]
      split
      · refine ⟨(h g).1, ?_⟩
        by_cases hg : g = g'
        · subst hg; simp only [set_same]; exact (h g).2.erase _
        · simp only [set_other _ _ _ _ hg]; exact (h g).2
      · exact h g

theorem nodups_run (rate : F64) (evs : List Ev) : Nodups (run rate evs) := by
  induction evs using snocInd with
  | nil => intro g; simp [run, init]
  | append_singleton evs e ih => rw [run_snoc]; exact step_nodups _ _ _ ih

/-- How the reads and what is due change in a step. -/
theorem step_count (rate : F64) (s : State) (e : Ev) (g : Int) (i : Nat) :
    ((step rate s e).reads.count (g, i) = s.reads.count (g, i) ∧ (step rate s e).due g = s.due g)
    ∨ (e = .tick g ∧ s.due g = [] ∧ (step rate s e).reads.count (g, i) = s.reads.count (g, i) ∧ (step rate s e).due g = s.groups g)
    ∨ (∃ j, e = .poll g j ∧ j ∈ s.due g ∧ (step rate s e).due g = (s.due g).erase j
        ∧ (step rate s e).reads.count (g, i) = s.reads.count (g, i) + (if j = i ∧ (s.items i).any (·.live) then 1 else 0)) := by
  unfold step
  split
  · exact .inl ⟨rfl, rfl⟩
  · cases e with
    | begin t j op =>
      simp only
      split
      · exact .inl ⟨rfl, rfl⟩
      · rw [(begin_groups _ _ _ _ _).2.2, (begin_groups _ _ _ _ _).2.1]; exact .inl ⟨rfl, rfl⟩
    | go t =>
      obtain ⟨_, h2, h3⟩ := go_groups rate s t g
      exact .inl ⟨by simp only [h3], by simp only [h2]⟩
    | tick g' =>
      simp only
      split
      · rename_i hd
        by_cases hg : g = g'
        · subst hg
          exact .inr (.inl ⟨rfl, hd, rfl, set_same _ _ _⟩)
        · exact .inl ⟨rfl, set_other _ _ _ _ hg⟩
      · exact .inl ⟨rfl, rfl⟩
    | poll g' j =>
      simp only [poll]
      split
      · rename_i hj
        by_cases hg : g = g'
        · subst hg
          refine .inr (.inr ⟨j, rfl, hj, set_same _ _ _, ?_⟩)
          by_cases hji : j = i
          · subst hji
            by_cases hl : (s.items j).any (·.live)
            · simp [hl]
            · simp [hl]
          · by_cases hl : (s.items j).any (·.live)
            · simp [hl, hji, List.count_append]
            · simp [hl, hji]
        · refine .inl ⟨?_, set_other _ _ _ _ hg⟩
          split
          · simp only [List.count_append, List.count_cons, List.count_nil]
            simp [Ne.symm hg]
          · rfl
      · exact .inl ⟨rfl, rfl⟩

/-- **C103 (not too often).** However the services are interleaved, an item is read for a poll group at most once for each
tick of the group. -/
theorem C103_atMost (rate : F64) (evs : List Ev) (g : Int) (i : Nat) :
    (run rate evs).reads.count (g, i) ≤ evs.count (.tick g) := by
  have key : (run rate evs).reads.count (g, i) + ((run rate evs).due g).count i ≤ evs.count (.tick g) := by
    induction evs using snocInd with
    | nil => simp [run, init]
    | append_singleton evs e ih =>
      rw [run_snoc, List.count_append, List.count_singleton]
      have hn := nodups_run rate evs g
      rcases step_count rate (run rate evs) e g i with ⟨h1, h2⟩ | ⟨rfl, h1, h2, h3⟩ | ⟨j, rfl, h1, h2, h3⟩
      · rw [h1, h2]; omega
      · rw [h2, h3]
        have := List.nodup_iff_count.1 hn.1 i
        simp only [beq_self_eq_true, if_true]
        omega
      · rw [h2, h3, List.count_erase]
        by_cases hji : j = i
        · subst hji
          have : 0 < ((run rate evs).due g).count j := List.count_pos_iff.2 h1
          simp only [beq_self_eq_true, if_true]
          split <;> omega
        · simp only [hji, false_and, if_false]
          omega
  omega

theorem set_some {α : Type} [DecidableEq α] {β : Type} (f : α → Option β) (a x : α) (b : β) (h : ∃ y, f x = some y) :
    ∃ y, set f a (some b) x = some y := by
  by_cases hx : x = a
  · subst hx; exact ⟨b, set_same _ _ _⟩
  · rw [set_other _ _ _ _ hx]; exact h

/-- What a step leaves of an item: it stays, and it does not come to life again. -/
theorem step_item (rate : F64) (s : State) (e : Ev) (i : Nat) (it : Item) (h : s.items i = some it) :
    ∃ it', (step rate s e).items i = some it' ∧ (it.live = false → it'.live = false) := by
  have keep : ∀ (j : Nat) (jt jt' : Item), s.items j = some jt → (jt.live = false → jt'.live = false) →
      ∃ it', set s.items j (some jt') i = some it' ∧ (it.live = false → it'.live = false) := by
    intro j jt jt' hj hl
    by_cases hij : i = j
    · subst hij
      rw [h] at hj
      injection hj with hj
      subst hj
      exact ⟨jt', set_same _ _ _, hl⟩
    · rw [set_other _ _ _ _ hij]; exact ⟨it, h, id⟩
  have hst : ∀ t j jt jt', s.items j = some jt → (jt.live = false → jt'.live = false) →
      ∃ it', (starting s t j jt').items i = some it' ∧ (it.live = false → it'.live = false) := by
    intro t j jt jt' hj hl
    unfold starting
    split
    · exact keep j jt jt' hj hl
    · split
      · exact keep j jt jt' hj hl
      · exact ⟨it, h, id⟩
  have htk : ∀ g' (s' : State), (ticker g' s').items = s'.items := by
    intro g' s'
    unfold ticker
    split <;> rfl
  unfold step
  split
  · exact ⟨it, h, id⟩
  · cases e with
    | begin t j op =>
      simp only
      split
      · exact ⟨it, h, id⟩
      · unfold begin
        cases hj : s.items j with
        | none =>
          have hij : i ≠ j := fun hh => by subst hh; rw [h] at hj; cases hj
          cases op with
          | create m n pub req =>
            simp only
            split <;> simp only [set_other _ _ _ _ hij] <;> exact ⟨it, h, id⟩
          | modify => exact ⟨it, h, id⟩
          | setMode => exact ⟨it, h, id⟩
          | delete => exact ⟨it, h, id⟩
        | some jt =>
          cases op with
          | create => exact ⟨it, h, id⟩
          | modify => simp only; split <;> exact ⟨it, h, id⟩
          | setMode => simp only; split <;> exact ⟨it, h, id⟩
          | delete =>
            simp only
            split
            · exact keep j jt _ hj id
            · exact ⟨it, h, id⟩
    | go t =>
      simp only [go]
      cases s.threads t with
      | none => exact ⟨it, h, id⟩
      | some p =>
        obtain ⟨j, pc⟩ := p
        simp only
        cases hj : s.items j with
        | none => exact ⟨it, h, id⟩
        | some jt =>
          simp only
          cases pc with
          | compare m => simp only; split <;> exact ⟨it, h, id⟩
          | leave op => simp only [htk]; exact ⟨it, h, id⟩
          | change op =>
            simp only
            unfold change
            cases op with
            | create => exact ⟨it, h, id⟩
            | modify pub req =>
              simp only
              split
              · exact ⟨it, h, id⟩
              · exact hst t j jt _ hj id
            | setMode m =>
              simp only
              split
              · exact ⟨it, h, id⟩
              · exact hst t j jt _ hj id
            | delete => exact keep j jt _ hj fun _ => rfl
          | enter f =>
            simp only [htk]
            exact keep j jt _ hj (by cases f <;> exact id)
    | tick g => simp only; split <;> exact ⟨it, h, id⟩
    | poll g j =>
      simp only [poll]
      split <;> exact ⟨it, h, id⟩

theorem run_append (rate : F64) (evs more : List Ev) : run rate (evs ++ more) = more.foldl (step rate) (run rate evs) := by
  simp [run, List.foldl_append]

theorem foldl_item (rate : F64) (evs : List Ev) : ∀ (s : State) (i : Nat) (it : Item), s.items i = some it →
    ∃ it', (evs.foldl (step rate) s).items i = some it' ∧ (it.live = false → it'.live = false) := by
  induction evs with
  | nil => intro s i it h; exact ⟨it, h, id⟩
  | cons e evs ih =>
    intro s i it h
    obtain ⟨it1, h1, h2⟩ := step_item rate s e i it h
    obtain ⟨it2, h3, h4⟩ := ih _ i it1 h1
    exact ⟨it2, h3, fun hh => h4 (h2 hh)⟩

/-- **C103 (deleted).** An item that has been deleted is never read again, whatever is interleaved. -/
theorem C103_deleted (rate : F64) (evs more : List Ev) (i : Nat) (it : Item) (h : (run rate evs).items i = some it)
    (hd : it.live = false) (g : Int) : (run rate (evs ++ more)).reads.count (g, i) = (run rate evs).reads.count (g, i) := by
  induction more using snocInd with
  | nil => simp
  | append_singleton more e ih =>
    rw [← List.append_assoc, run_snoc]
    obtain ⟨it', h1, h2⟩ := foldl_item rate more _ i it h
    rw [← run_append] at h1
    have hdead := h2 hd
    rcases step_count rate (run rate (evs ++ more)) e g i with ⟨h3, _⟩ | ⟨_, _, h3, _⟩ | ⟨j, _, _, _, h3⟩
    · rw [h3, ih]
    · rw [h3, ih]
    · rw [h3, ih, h1]
      simp [hdead]

theorem foldl_read (rate : F64) (g : Int) (i : Nat) (more : List Ev) (hm : .tick g ∉ more) : ∀ (s : State),
    (∃ it, s.items i = some it) → (∃ it, (more.foldl (step rate) s).items i = some it ∧ it.live = true) → (s.due g).Nodup →
    (more.foldl (step rate) s).reads.count (g, i) + ((more.foldl (step rate) s).due g).count i
      = s.reads.count (g, i) + (s.due g).count i := by
  induction more with
  | nil => intro s _ _ _; rfl
  | cons e more ih =>
    intro s hs hl hn
    obtain ⟨it, hit⟩ := hs
    obtain ⟨it1, h1, h2⟩ := step_item rate s e i it hit
    have hlive : it.live = true := by
      cases hl0 : it.live with
      | true => rfl
      | false =>
        obtain ⟨it2, h3, h4⟩ := foldl_item rate more _ i it1 h1
        obtain ⟨it3, h5, h6⟩ := hl
        rw [List.foldl_cons, h3] at h5
        injection h5 with h5
        subst h5
        rw [h4 (h2 hl0)] at h6
        cases h6
    have hne : e ≠ .tick g := fun he => hm (by simp [he])
    have hrest : .tick g ∉ more := fun he => hm (by simp [he])
    have hstep : (step rate s e).reads.count (g, i) + ((step rate s e).due g).count i = s.reads.count (g, i) + (s.due g).count i
        ∧ ((step rate s e).due g).Nodup := by
      rcases step_count rate s e g i with ⟨h3, h4⟩ | ⟨h3, _⟩ | ⟨j, _, h3, h4, h5⟩
      · rw [h3, h4]; exact ⟨rfl, hn⟩
      · exact absurd h3 hne
      · rw [h4, h5]
        refine ⟨?_, hn.erase _⟩
        rw [List.count_erase]
        by_cases hji : j = i
        · subst hji
          have : 0 < (s.due g).count j := List.count_pos_iff.2 h3
          simp [hit, hlive]
          omega
        · simp [hji]
    rw [List.foldl_cons, ih hrest _ ⟨it1, h1⟩ (by simpa using hl) hstep.2, hstep.1]

/-- **C103 (each tick, partial).** Say the services on an item do not overlap, and none is under way when the group `g`
ticks, having polled all its listeners. Then, once the group has polled again, the item has been read exactly once more for this
group if it is monitored with that interval and has not been deleted meanwhile. Missing: as for `C103_group_partial`. -/
theorem C103_tick_partial (rate : F64) (evs more : List Ev) (i : Nat) (g : Int) (h : Apart rate evs i)
    (hb : ¬ Busy (run rate evs) i) (hp : (run rate evs).panicked = false) (hd : (run rate evs).due g = [])
    (hm : .tick g ∉ more) (hdone : i ∉ (run rate (evs ++ .tick g :: more)).due g) :
    (Wanted rate (run rate evs) i g →
      (∃ it, (run rate (evs ++ .tick g :: more)).items i = some it ∧ it.live = true) →
      (run rate (evs ++ .tick g :: more)).reads.count (g, i) = (run rate evs).reads.count (g, i) + 1)
    ∧ (¬ Wanted rate (run rate evs) i g →
      (run rate (evs ++ .tick g :: more)).reads.count (g, i) = (run rate evs).reads.count (g, i)) := by
  have hg := C103_group_partial rate evs i h hb g
  have hs : step rate (run rate evs) (.tick g) = { run rate evs with due := set (run rate evs).due g ((run rate evs).groups g) } := by
    simp [step, hp, hd]
  have hr : run rate (evs ++ .tick g :: more) = more.foldl (step rate) (step rate (run rate evs) (.tick g)) := by
    rw [run_append, List.foldl_cons]
  have hn := (nodups_run rate evs g).1
  constructor
  · intro hw hl
    rw [hr] at hdone hl ⊢
    have hit : ∃ it, (step rate (run rate evs) (.tick g)).items i = some it := by
      obtain ⟨it, h1, _⟩ := hw
      exact ⟨it, by rw [hs]; exact h1⟩
    have := foldl_read rate g i more hm _ hit hl (by rw [hs]; simpa [set_same] using hn)
    rw [List.count_eq_zero.2 hdone] at this
    have e1 : (step rate (run rate evs) (.tick g)).reads = (run rate evs).reads := by rw [hs]
    have e2 : (step rate (run rate evs) (.tick g)).due g = (run rate evs).groups g := by rw [hs]; simp only [set_same]
    rw [e1, e2] at this
    have hc : ((run rate evs).groups g).count i = 1 := by
      have h1 := List.count_pos_iff.2 (hg.2 hw)
      have h2 := List.nodup_iff_count.1 hn i
      omega
    omega
  · intro hw
    rw [hr]
    have hnot : i ∉ (step rate (run rate evs) (.tick g)).due g := by
      rw [hs]; simp only [set_same]; exact fun hh => hw (hg.1 hh)
    have hcount : (step rate (run rate evs) (.tick g)).reads.count (g, i) = (run rate evs).reads.count (g, i) := by rw [hs]
    rw [← hcount]
    generalize step rate (run rate evs) (.tick g) = s at hnot
    clear hr hdone hs hcount
    induction more generalizing s with
    | nil => rfl
    | cons e more ih =>
      have hne : e ≠ .tick g := fun he => hm (by simp [he])
      rw [List.foldl_cons]
      rcases step_count rate s e g i with ⟨h3, h4⟩ | ⟨h3, _⟩ | ⟨j, _, h3, h4, h5⟩
      · rw [ih (fun he => hm (by simp [he])) _ (by rw [h4]; exact hnot), h3]
      · exact absurd h3 hne
      · have hji : j ≠ i := fun hh => hnot (hh ▸ h3)
        rw [ih (fun he => hm (by simp [he])) _ (by rw [h4]; exact fun hh => hnot (List.mem_of_mem_erase hh)), h5]
        simp [hji]

/-! ## Samples -/

abbrev ms (n : Int) : Int := n * 1000000

def toyCreate : List Ev := [.begin 0 7 (.create .reporting none (.fin 500) (.fin 250)), .go 0]

/-- An item that is made, changed and sampled. -/
def toyHistory : List Ev :=
  toyCreate ++ [.tick (ms 250), .poll (ms 250) 7, .begin 0 7 (.modify (.fin 500) (.fin 1000)), .go 0, .go 0, .go 0]

/-- Only the goroutine 0 begins services. -/
def sole (evs : List Ev) : Bool := evs.all fun | .begin t _ _ => t == 0 | _ => true

def quiet (rate : F64) (evs : List Ev) : Bool :=
  (List.range evs.length).all fun n =>
    match evs[n]? with
    | some (.begin _ _ _) => ((run rate (evs.take n)).threads 0).isNone
    | _ => true

theorem step_threads (rate : F64) (s : State) (e : Ev) (t : Nat) (h : s.threads t = none) (he : ∀ i op, e ≠ .begin t i op) :
    (step rate s e).threads t = none := by
  have hs : ∀ (t' : Nat) o, t' ≠ t → set s.threads t' o t = none := fun t' o ht => by rw [set_other _ _ _ _ (Ne.symm ht)]; exact h
  have htk : ∀ g' (s' : State), (ticker g' s').threads = s'.threads := by
    intro g' s'
    unfold ticker
    split <;> rfl
  unfold step
  split
  · exact h
  · cases e with
    | begin t' i op =>
      have ht : t' ≠ t := fun hh => he i op (by rw [hh])
      simp only
      split
      · exact h
      · unfold begin
        split <;> first | exact h | (split <;> first | exact h | exact hs _ _ ht)
    | go t' =>
      simp only [go]
      cases ht' : s.threads t' with
      | none => exact h
      | some p =>
        have ht : t' ≠ t := fun hh => by subst hh; rw [h] at ht'; cases ht'
        obtain ⟨j, pc⟩ := p
        simp only
        have hst : ∀ it, (starting s t' j it).threads t = none := by
          intro it
          unfold starting
          split
          · exact hs _ _ ht
          · split
            · exact hs _ _ ht
            · exact h
        cases s.items j with
        | none => exact h
        | some jt =>
          simp only
          cases pc with
          | compare m => simp only; split <;> exact hs _ _ ht
          | leave op => simp only [htk]; exact hs _ _ ht
          | change op =>
            simp only
            unfold change
            cases op with
            | create => exact h
            | modify => simp only; split <;> first | exact h | exact hst _
            | setMode => simp only; split <;> first | exact h | exact hst _
            | delete => exact hs _ _ ht
          | enter f => simp only [htk]; exact hs _ _ ht
    | tick g => simp only; split <;> exact h
    | poll g j => simp only [poll]; split <;> exact h

theorem sole_threads (rate : F64) (evs : List Ev) (h : sole evs = true) (t : Nat) (ht : t ≠ 0) : (run rate evs).threads t = none := by
  induction evs using snocInd with
  | nil => rfl
  | append_singleton evs e ih =>
    simp only [sole, List.all_append, Bool.and_eq_true] at h
    rw [run_snoc]
    refine step_threads _ _ _ _ (ih h.1) ?_
    rintro i op rfl
    simp at h
    exact ht h.2

theorem apart_of (rate : F64) (evs : List Ev) (h1 : sole evs = true) (h2 : quiet rate evs = true) (i : Nat) : Apart rate evs i := by
  rintro pre t op post rfl ⟨t', pc, hb⟩
  have hpre : sole pre = true := by
    simp only [sole, List.all_append, Bool.and_eq_true] at h1
    exact h1.1
  have h3 := List.all_eq_true.1 h2 pre.length (by simp)
  simp at h3
  by_cases ht : t' = 0
  · subst ht; rw [h3] at hb; cases hb
  · rw [sole_threads rate pre hpre t' ht] at hb; cases hb

theorem idle_of (rate : F64) (evs : List Ev) (h1 : sole evs = true) (h2 : (run rate evs).threads 0 = none) (i : Nat) :
    ¬ Busy (run rate evs) i := by
  rintro ⟨t, pc, hb⟩
  by_cases ht : t = 0
  · subst ht; rw [h2] at hb; cases hb
  · rw [sole_threads rate evs h1 t ht] at hb; cases hb

example : Apart (.fin 100) toyHistory 7 ∧ ¬ Busy (run (.fin 100) toyHistory) 7
    ∧ (run (.fin 100) toyHistory).groups (ms 1000) = [7] ∧ (run (.fin 100) toyHistory).groups (ms 250) = []
    ∧ (run (.fin 100) toyHistory).reads = [(ms 250, 7)] :=
  ⟨apart_of _ _ (by decide +kernel) (by decide +kernel) 7, idle_of _ _ (by decide +kernel) (by decide +kernel) 7,
    by decide +kernel, by decide +kernel, by decide +kernel⟩

example : .tick (ms 1000) ∉ [Ev.poll (ms 1000) 7] ∧ 7 ∉ (run (.fin 100) (toyHistory ++ .tick (ms 1000) :: [.poll (ms 1000) 7])).due (ms 1000)
    ∧ (run (.fin 100) (toyHistory ++ .tick (ms 1000) :: [.poll (ms 1000) 7])).reads = [(ms 250, 7), (ms 1000, 7)] := by
  decide +kernel

/-! ## Services that overlap -/

/-- Two Modify on one item that overlap: the first one asks for 1 s, the second one for 2 s. -/
def twoModify : List Ev :=
  toyCreate ++ [.begin 1 7 (.modify (.fin 500) (.fin 1000)), .begin 2 7 (.modify (.fin 500) (.fin 2000)), .go 1, .go 1, .go 2, .go 1,
    .go 2, .go 2]

/-- **C103 fails (overlap).** Two ModifyMonitoredItems requests that meet may leave the item in two poll groups. From then
on it is sampled at both intervals, though it has one; and after it has been deleted it is still a listener of the first. -/
theorem C103_overlap_fails :
    (∀ t < 3, (run (.fin 100) twoModify).threads t = none)
    ∧ (run (.fin 100) twoModify).items 7 = some ⟨.reporting, .fin 2000, none, true, true⟩
    ∧ (run (.fin 100) twoModify).groups (ms 1000) = [7] ∧ (run (.fin 100) twoModify).groups (ms 2000) = [7]
    ∧ (run (.fin 100) (twoModify ++ [.begin 0 7 .delete, .go 0, .go 0])).items 7 = some ⟨.reporting, .fin 2000, none, false, false⟩
    ∧ (run (.fin 100) (twoModify ++ [.begin 0 7 .delete, .go 0, .go 0])).groups (ms 1000) = [7] := by decide +kernel

/-- Modify meets SetMonitoringMode, which disables the item. -/
def modifyAndDisable : List Ev :=
  toyCreate ++ [.begin 1 7 (.modify (.fin 500) (.fin 1000)), .go 1, .go 1, .begin 2 7 (.setMode .disabled), .go 2, .go 2, .go 2, .go 1]

/-- **C103 fails (disabled).** A ModifyMonitoredItems request that meets a SetMonitoringMode request may leave the item
disabled and in a poll group: it is read for ever, and nothing takes the values out of its prequeue. -/
theorem C103_disabled_fails :
    (∀ t < 3, (run (.fin 100) modifyAndDisable).threads t = none)
    ∧ (run (.fin 100) modifyAndDisable).items 7 = some ⟨.disabled, .fin 1000, none, true, true⟩
    ∧ (run (.fin 100) (modifyAndDisable ++ [.tick (ms 1000), .poll (ms 1000) 7])).reads = [(ms 1000, 7)] := by decide +kernel

/-! ## C104 -/

/-- No item is deleted while another service works on it. -/
def Spec.DeletesAlone (rate : F64) (evs : List Ev) : Prop :=
  ∀ pre t i post, evs = pre ++ .begin t i .delete :: post → ¬ Spec.Busy (run rate pre) i

/-- The deletion, and the end of the creation. -/
def Special (pc : Pc) : Prop := pc = .leave .delete ∨ pc = .change .delete ∨ pc = .enter true

structure Safe (s : State) : Prop where
  listed : ∀ i it, s.items i = some it → it.listed = true → it.live = true
  /-- an item on which services are at work is not deleted; the deletion itself works alone -/
  work : ∀ t i pc, s.threads t = some (i, pc) → ∃ it, s.items i = some it ∧ it.live = true
    ∧ (Special pc → it.listed = false ∧ ∀ t' pc', s.threads t' = some (i, pc') → t' = t)
  fine : s.panicked = false

theorem groupOf_pos (rate : F64) (h : 0 < duration rate) (t : F64) : 0 < groupOf rate t := by
  unfold groupOf
  split <;> omega

theorem Safe.upd {s s' : State} (h : Safe s) {t i : Nat} {pc : Pc} {it it' : Item} {o : Option Pc} (ht : s.threads t = some (i, pc))
    (hi : s.items i = some it) (hl : it'.live = true) (hli : it'.listed = it.listed) (ho : ∀ pc', o = some pc' → Special pc' → Special pc)
    (e1 : s'.items = set s.items i (some it')) (e2 : s'.threads = set s.threads t (o.map fun pc' => (i, pc')))
    (e3 : s'.panicked = false) : Safe s' := by
  obtain ⟨it0, hi0, _, hsp⟩ := h.work t i pc ht
  rw [hi] at hi0
  injection hi0 with hi0
  subst hi0
  constructor
  · intro j jt hj hlj
    rw [e1] at hj
    by_cases hij : j = i
    · subst hij
      rw [set_same] at hj
      injection hj with hj
      subst hj; exact hl
    · rw [set_other _ _ _ _ hij] at hj
      exact h.listed j jt hj hlj
  · intro t1 j pc1 h1
    rw [e2] at h1
    by_cases h2 : t1 = t
    · subst h2
      rw [set_same] at h1
      cases o with
      | none => cases h1
      | some pc' =>
        simp only [Option.map_some] at h1
        injection h1 with h1
        injection h1 with h1 h1'
        subst h1 h1'
        refine ⟨it', by rw [e1, set_same], hl, fun hs => ?_⟩
        obtain ⟨h3, h4⟩ := hsp (ho _ rfl hs)
        refine ⟨by rw [hli]; exact h3, fun t2 pc2 h5 => ?_⟩
        rw [e2] at h5
        by_cases h6 : t2 = t1
        · exact h6
        · rw [set_other _ _ _ _ h6] at h5; exact h4 t2 pc2 h5
    · rw [set_other _ _ _ _ h2] at h1
      obtain ⟨jt, h3, h4, h5⟩ := h.work t1 j pc1 h1
      by_cases hij : j = i
      · subst hij
        rw [hi] at h3
        injection h3 with h3
        subst h3
        refine ⟨it', by rw [e1, set_same], hl, fun hs => ?_⟩
        exact absurd ((h5 hs).2 t pc ht).symm h2
      · refine ⟨jt, by rw [e1, set_other _ _ _ _ hij]; exact h3, h4, fun hs => ⟨(h5 hs).1, fun t2 pc2 h6 => ?_⟩⟩
        rw [e2] at h6
        by_cases h7 : t2 = t
        · subst h7
          rw [set_same] at h6
          cases o with
          | none => cases h6
          | some pc' =>
            simp only [Option.map_some] at h6
            injection h6 with h6
            injection h6 with h6
            exact absurd h6.symm hij
        · rw [set_other _ _ _ _ h7] at h6; exact (h5 hs).2 t2 pc2 h6
  · exact e3

theorem set_eta {α β : Type} [DecidableEq α] (f : α → β) (a : α) (b : β) (h : f a = b) : set f a b = f := by
  funext x
  unfold set
  split
  · rename_i hx; subst hx; exact h.symm
  · rfl

theorem safe_starting {s : State} (h : Safe s) {t i : Nat} {pc : Pc} {it it' : Item} (ht : s.threads t = some (i, pc))
    (hi : s.items i = some it) (hl : it'.live = true) (hli : it'.listed = it.listed) : Safe (starting s t i it') := by
  unfold starting
  split
  · exact h.upd (o := none) ht hi hl hli (fun _ h => by cases h) rfl rfl h.fine
  · refine h.upd (o := some (.enter false)) ht hi hl hli (fun pc' h hs => ?_) rfl rfl h.fine
    injection h with h
    subst h
    rcases hs with h | h | h <;> cases h

/-- The goroutine ends and nobody else works on the item. -/
theorem Safe.done {s s' : State} (h : Safe s) {t i : Nat} {pc : Pc} {it' : Item} (ht : s.threads t = some (i, pc))
    (hsp : Special pc) (hl : it'.listed = true → it'.live = true)
    (e1 : s'.items = set s.items i (some it')) (e2 : s'.threads = set s.threads t none) (e3 : s'.panicked = false) : Safe s' := by
  obtain ⟨it0, hi0, _, hsp'⟩ := h.work t i pc ht
  obtain ⟨_, hsole⟩ := hsp' hsp
  have hthr : ∀ t1 j pc1, s'.threads t1 = some (j, pc1) → t1 ≠ t ∧ s.threads t1 = some (j, pc1) ∧ j ≠ i := by
    intro t1 j pc1 h1
    rw [e2] at h1
    by_cases h2 : t1 = t
    · subst h2; rw [set_same] at h1; cases h1
    · rw [set_other _ _ _ _ h2] at h1
      exact ⟨h2, h1, fun hj => by subst hj; exact h2 (hsole t1 pc1 h1)⟩
  constructor
  · intro j jt hj hlj
    rw [e1] at hj
    by_cases hij : j = i
    · subst hij
      rw [set_same] at hj
      injection hj with hj
      subst hj; exact hl hlj
    · rw [set_other _ _ _ _ hij] at hj
      exact h.listed j jt hj hlj
  · intro t1 j pc1 h1
    obtain ⟨_, h2, hij⟩ := hthr t1 j pc1 h1
    obtain ⟨jt, h3, h4, h5⟩ := h.work t1 j pc1 h2
    exact ⟨jt, by rw [e1, set_other _ _ _ _ hij]; exact h3, h4, fun hs => ⟨(h5 hs).1, fun t2 pc2 h6 =>
      (h5 hs).2 t2 pc2 (hthr t2 j pc2 h6).2.1⟩⟩
  · exact e3

theorem ticker_pos (g : Int) (s : State) (h : 0 < g) : ticker g s = s := by simp [ticker, h]

theorem safe_go (rate : F64) (hr : 0 < duration rate) (s : State) (h : Safe s) (t : Nat) : Safe (go rate s t) := by
  unfold go
  cases ht : s.threads t with
  | none => exact h
  | some p =>
    obtain ⟨i, pc⟩ := p
    simp only
    obtain ⟨it, hi, hlive, _⟩ := h.work t i pc ht
    rw [hi]
    simp only
    have hsame : s.items = set s.items i (some it) := (set_eta _ _ _ hi).symm
    cases pc with
    | compare m =>
      simp only
      split
      · exact h.upd (o := none) ht hi hlive rfl (fun _ h => by cases h) hsame rfl h.fine
      · refine h.upd (o := some (.leave (.setMode m))) ht hi hlive rfl (fun pc' h hs => ?_) hsame rfl h.fine
        injection h with h
        subst h
        rcases hs with h | h | h <;> cases h
    | leave op =>
      simp only
      rw [ticker_pos _ _ (groupOf_pos rate hr _)]
      refine h.upd (o := some (.change op)) ht hi hlive rfl (fun pc' h hs => ?_) hsame rfl h.fine
      injection h with h
      subst h
      rcases hs with h | h | h
      · cases h
      · injection h with h; subst h; exact .inl rfl
      · cases h
    | change op =>
      simp only
      unfold change
      cases op with
      | create => exact h
      | modify pub req =>
        simp only
        rw [if_neg (by simp [hlive])]
        exact safe_starting h ht hi hlive rfl
      | setMode m =>
        simp only
        rw [if_neg (by simp [hlive])]
        exact safe_starting h ht hi hlive rfl
      | delete =>
        refine h.done ht (.inr (.inl rfl)) (fun hh => ?_) rfl rfl h.fine
        obtain ⟨it2, h1, _, h2⟩ := h.work t i _ ht
        rw [hi] at h1
        injection h1 with h1
        subst h1
        rw [(h2 (.inr (.inl rfl))).1] at hh
        cases hh
    | enter f =>
      simp only
      rw [ticker_pos _ _ (groupOf_pos rate hr _)]
      cases f with
      | true => exact h.done (it' := append it) ht (.inr (.inr rfl)) (fun _ => hlive) rfl rfl h.fine
      | false => exact h.upd (o := none) ht hi hlive rfl (fun _ h => by cases h) rfl rfl h.fine

/-- A service begins. -/
theorem Safe.added {s s' : State} (h : Safe s) {t i : Nat} {pc : Pc} {it' : Item} (ht : s.threads t = none)
    (hl : it'.live = true)
    (hnew : (Special pc ∧ it'.listed = false ∧ ∀ t' pc', s.threads t' ≠ some (i, pc'))
      ∨ (¬ Special pc ∧ s.items i = some it' ∧ it'.listed = true))
    (e1 : s'.items = set s.items i (some it')) (e2 : s'.threads = set s.threads t (some (i, pc))) (e3 : s'.panicked = false) : Safe s' := by
  constructor
  · intro j jt hj hlj
    rw [e1] at hj
    by_cases hij : j = i
    · subst hij
      rw [set_same] at hj
      injection hj with hj
      subst hj; exact hl
    · rw [set_other _ _ _ _ hij] at hj
      exact h.listed j jt hj hlj
  · intro t1 j pc1 h1
    rw [e2] at h1
    by_cases h2 : t1 = t
    · subst h2
      rw [set_same] at h1
      injection h1 with h1
      injection h1 with h1 h1'
      subst h1 h1'
      refine ⟨it', by rw [e1, set_same], hl, fun hs => ?_⟩
      rcases hnew with ⟨_, h3, h4⟩ | ⟨h3, _⟩
      · refine ⟨h3, fun t2 pc2 h5 => ?_⟩
        rw [e2] at h5
        by_cases h6 : t2 = t1
        · exact h6
        · rw [set_other _ _ _ _ h6] at h5; exact absurd h5 (h4 t2 pc2)
      · exact absurd hs h3
    · rw [set_other _ _ _ _ h2] at h1
      obtain ⟨jt, h3, h4, h5⟩ := h.work t1 j pc1 h1
      by_cases hij : j = i
      · subst hij
        rcases hnew with ⟨_, _, h6⟩ | ⟨_, h6, h7⟩
        · exact absurd h1 (h6 t1 pc1)
        · rw [h3] at h6
          injection h6 with h6
          subst h6
          exact ⟨jt, by rw [e1, set_same], h4, fun hs => by rw [(h5 hs).1] at h7; cases h7⟩
      · refine ⟨jt, by rw [e1, set_other _ _ _ _ hij]; exact h3, h4, fun hs => ⟨(h5 hs).1, fun t2 pc2 h6 => ?_⟩⟩
        rw [e2] at h6
        by_cases h7 : t2 = t
        · subst h7
          rw [set_same] at h6
          injection h6 with h6
          injection h6 with h6
          exact absurd h6.symm hij
        · rw [set_other _ _ _ _ h7] at h6; exact (h5 hs).2 t2 pc2 h6
  · exact e3

theorem safe_begin (rate : F64) (s : State) (h : Safe s) (t i : Nat) (op : Op) (ht : s.threads t = none)
    (hd : op = .delete → ¬ Busy s i) : Safe (begin rate s t i op) := by
  unfold begin
  cases hi : s.items i with
  | none =>
    have hno : ∀ t' pc', s.threads t' ≠ some (i, pc') := fun t' pc' h1 => by
      obtain ⟨it, h2, _⟩ := h.work t' i pc' h1
      rw [hi] at h2; cases h2
    cases op with
    | create m n pub req =>
      simp only
      split
      · constructor
        · intro j jt hj hlj
          by_cases hij : j = i
          · subst hij
            simp only [set_same] at hj
            injection hj with hj
            subst hj; rfl
          · simp only [set_other _ _ _ _ hij] at hj
            exact h.listed j jt hj hlj
        · intro t1 j pc1 h1
          have hij : j ≠ i := fun hh => hno t1 pc1 (by rw [← hh]; exact h1)
          obtain ⟨jt, h3, h4⟩ := h.work t1 j pc1 h1
          exact ⟨jt, by simp only [set_other _ _ _ _ hij]; exact h3, h4⟩
        · exact h.fine
      · exact h.added ht rfl (.inl ⟨.inr (.inr rfl), rfl, hno⟩) rfl rfl h.fine
    | modify => exact h
    | setMode => exact h
    | delete => exact h
  | some it =>
    have hsame : s.items = set s.items i (some it) := (set_eta _ _ _ hi).symm
    cases op with
    | create => exact h
    | modify pub req =>
      simp only
      split
      · rename_i hl
        refine h.added ht (h.listed i it hi hl) (.inr ⟨?_, hi, hl⟩) hsame rfl h.fine
        rintro (hs | hs | hs) <;> cases hs
      · exact h
    | setMode m =>
      simp only
      split
      · rename_i hl
        refine h.added ht (h.listed i it hi hl) (.inr ⟨?_, hi, hl⟩) hsame rfl h.fine
        rintro (hs | hs | hs) <;> cases hs
      · exact h
    | delete =>
      simp only
      split
      · rename_i hl
        refine h.added (it' := { it with listed := false }) ht (h.listed i it hi hl) (.inl ⟨.inl rfl, rfl, fun t' pc' h1 => ?_⟩) rfl rfl h.fine
        exact hd rfl ⟨t', pc', h1⟩
      · exact h

theorem safe_run (rate : F64) (hr : 0 < duration rate) (evs : List Ev) (h : DeletesAlone rate evs) : Safe (run rate evs) := by
  induction evs using snocInd with
  | nil => exact ⟨fun i it h => by simp [run, init] at h, fun t i pc h => by simp [run, init] at h, rfl⟩
  | append_singleton evs e ih =>
    have hs := ih fun pre t i post hp => h pre t i (post ++ [e]) (by rw [hp]; simp)
    rw [run_snoc]
    unfold step
    rw [hs.fine]
    simp only [Bool.false_eq_true, if_false]
    cases e with
    | begin t i op =>
      simp only
      split
      · exact hs
      · rename_i hn
        refine safe_begin rate _ hs t i op (by simpa using hn) ?_
        rintro rfl
        exact h evs t i [] rfl
    | go t => exact safe_go rate hr _ hs t
    | tick g => simp only; split <;> first | exact hs | exact ⟨hs.listed, hs.work, rfl⟩ | exact ⟨hs.listed, hs.work, hs.fine⟩
    | poll g i => simp only [poll]; split <;> first | exact hs | exact ⟨hs.listed, hs.work, rfl⟩ | exact ⟨hs.listed, hs.work, hs.fine⟩

/-- **C104 (partial).** However creations, changes, mode switches and samplings of items are interleaved, nothing panics, if
no item is deleted while another service works on it and the server's least sampling interval is at least a millisecond.
Missing: deletions that overlap, see `C104_delete_fails`, and the least interval, see `C104_rate_fails`. -/
theorem C104_partial (rate : Rat) (h1 : 1 ≤ rate) (h2 : rate ≤ 9000000000000) (evs : List Ev) (h : DeletesAlone (.fin rate) evs) :
    (run (.fin rate) evs).panicked = false := by
  refine (safe_run _ ?_ evs h).fine
  rw [duration_fin rate (by grind) h2]
  have : (1 : Int) ≤ rate.floor := by rw [Rat.le_floor_iff]; grind
  omega

theorem deletesAlone_of (rate : F64) (evs : List Ev) (h : ∀ t i, .begin t i .delete ∉ evs) : DeletesAlone rate evs := by
  rintro pre t i post rfl
  exact absurd (by simp) (h t i)

/-- The two overlapping histories above are among those that do not panic. -/
example : DeletesAlone (.fin 100) twoModify ∧ DeletesAlone (.fin 100) modifyAndDisable := by
  constructor <;> refine deletesAlone_of _ _ fun t i h => ?_ <;> simp [twoModify, modifyAndDisable, toyCreate] at h

/-- **C104 fails (deletion).** A ModifyMonitoredItems or SetMonitoringMode request that meets the deletion of its item, or
of its subscription, uses the subscription that the deletion has taken away from the item: the server panics. -/
theorem C104_delete_fails :
    (run (.fin 100) (toyCreate ++ [.begin 1 7 (.modify (.fin 500) (.fin 1000)), .begin 2 7 .delete, .go 2, .go 2, .go 1, .go 1])).panicked = true
    ∧ (run (.fin 100) (toyCreate ++ [.begin 1 7 (.setMode .disabled), .go 1, .begin 2 7 .delete, .go 2, .go 2, .go 1, .go 1])).panicked = true := by
  decide +kernel

/-- **C104 fails (rate).** If the server is configured with a least sampling interval below a millisecond, a client that asks
for such an interval makes it panic: the ticker of the poll group would have the period zero. -/
theorem C104_rate_fails : (run (.fin (1 / 2)) [.begin 0 7 (.create .reporting none (.fin 500) (.fin 0)), .go 0]).panicked = true := by
  decide +kernel

end Opcua.PollGroup
