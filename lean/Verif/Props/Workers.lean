import Verif.Model.Workers
import Verif.Lemmas.Lists

/-! C139: what the shared workers do to the requests of all connections. -/

namespace Opcua.Workers

namespace Spec

/-- An item that stores its result (perhaps more than once) and then counts itself done once, and does neither afterwards. -/
def Orderly (t : List Act) : Prop := ∃ n, t = List.replicate (n + 1) .set ++ [.done]

/-- The end of this item. -/
def isEnd (r i : Nat) : Seen → Bool
  | .ended t _ => t.req == r && t.item == i
  | _ => false

/-- Every answer is that to a request that was taken from the same connection and has had no answer; it has a result for each
item, which is what this item ended with; each item has ended once before the answer, and none ends after it. -/
def Faithful (log : List Seen) : Prop :=
  ∀ pre c r rs post, log = pre ++ .answered c r rs :: post →
    .taken c r rs.length ∈ pre ∧ (∀ c' rs', .answered c' r rs' ∉ pre) ∧
      (∀ i, i < rs.length → ∃ v, rs[i]? = some (some v) ∧ pre.filter (isEnd r i) = [.ended ⟨c, r, i⟩ v]) ∧
      ∀ t v, .ended t v ∈ post → t.req ≠ r

/-- The items in the order in which they were submitted, and in which they were begun. -/
def submits (log : List Seen) : List Task := log.filterMap fun | .submitted t => some t | _ => none
def begins (log : List Seen) : List Task := log.filterMap fun | .began t => some t | _ => none

/-- A new request comes. -/
def isTake : Ev → Bool
  | .take _ _ => true
  | _ => false

/-- Each event has an effect. -/
def Effective (workers : Nat) (s : State) : List Ev → Prop
  | [] => True
  | e :: es => step workers s e ≠ s ∧ Effective workers (step workers s e) es

/-- Nothing of request `r` ends before a request that has items was answered: its handlers wait for what another client does,
or do not return. -/
def Waits (r : Nat) (log : List Seen) : Prop :=
  ∀ pre t v post, log = pre ++ .ended t v :: post → t.req = r → ∃ c q rs, .answered c q rs ∈ pre ∧ rs ≠ []

end Spec

open Spec

/-! ### What an item does -/

/-- Nothing yet, a result, a result and done. -/
inductive At where
  | fresh
  | has
  | over
  deriving DecidableEq, Repr

def At.go : At → Act → Option At
  | .fresh, .set => some .has
  | .has, .set => some .has
  | .has, .done => some .over
  | _, _ => none

def At.path : At → List Act → Option At
  | a, [] => some a
  | a, x :: xs => (a.go x).bind (·.path xs)

/-- Where a flow can leave off without `return`; `none` if it may go wrong. -/
def check : Flow → At → Option (List At)
  | .set, a => (a.go .set).map ([·])
  | .done, a => (a.go .done).map ([·])
  | .ret, a => if a = .over then some [] else none
  | .skip, a => some [a]
  | .seq f g, a =>
    match check f a with
    | none => none
    | some l => l.foldr (fun b acc => match check g b, acc with
        | some m, some n => some (m ++ n)
        | _, _ => none) (some [])
  | .alt f g, a =>
    match check f a, check g a with
    | some l, some m => some (l ++ m)
    | _, _ => none
  | .loop f, a =>
    match check f a with
    | some l => if l.all (· == a) then some [a] else none
    | none => none

theorem path_append (t u : List Act) : ∀ (a : At), a.path (t ++ u) = (a.path t).bind (·.path u) := by
  induction t with
  | nil => intro a; rfl
  | cons x xs ih =>
    intro a
    change (a.go x).bind (·.path (xs ++ u)) = ((a.go x).bind (·.path xs)).bind (·.path u)
    cases a.go x with
    | none => rfl
    | some b => exact ih b

theorem check_seq {g : Flow} {l : List At} {m : List At}
    (h : l.foldr (fun b acc => match check g b, acc with
        | some m, some n => some (m ++ n)
        | _, _ => none) (some []) = some m) {b : At} (hb : b ∈ l) : ∃ n, check g b = some n ∧ ∀ x ∈ n, x ∈ m := by
  induction l generalizing m with
  | nil => cases hb
  | cons c l ih =>
    rw [List.foldr_cons] at h
    split at h
    · rename_i m' n' hm' hn'
      cases h
      rcases List.mem_cons.1 hb with rfl | hb
      · exact ⟨m', hm', fun x hx => List.mem_append_left _ hx⟩
      · obtain ⟨n, hn, hs⟩ := ih hn' hb
        exact ⟨n, hn, fun x hx => List.mem_append_right _ (hs x hx)⟩
    · cases h

theorem check_sound {f : Flow} {t : List Act} {r : Bool} (h : Exec f t r) :
    ∀ (a : At) (l : List At), check f a = some l →
      ∃ b, a.path t = some b ∧ (r = true → b = .over) ∧ (r = false → b ∈ l) := by
  induction h with
  | set =>
    intro a l hc
    cases a <;> cases hc <;> exact ⟨_, rfl, (fun h => by cases h), fun _ => List.mem_singleton.2 rfl⟩
  | done =>
    intro a l hc
    cases a <;> cases hc <;> exact ⟨_, rfl, (fun h => by cases h), fun _ => List.mem_singleton.2 rfl⟩
  | ret =>
    intro a l hc
    unfold check at hc
    split at hc
    · rename_i ha; exact ⟨a, rfl, fun _ => ha, (fun h => by cases h)⟩
    · cases hc
  | skip =>
    intro a l hc
    cases hc
    exact ⟨a, rfl, (fun h => by cases h), fun _ => List.mem_singleton.2 rfl⟩
  | stop _ ih =>
    intro a l hc
    unfold check at hc
    split at hc
    · cases hc
    · rename_i l' hl'
      obtain ⟨b, hb, h1, _⟩ := ih a l' hl'
      exact ⟨b, hb, h1, (fun h => by cases h)⟩
  | next _ _ ih1 ih2 =>
    intro a l hc
    unfold check at hc
    split at hc
    · cases hc
    · rename_i l' hl'
      obtain ⟨b, hb, _, h2⟩ := ih1 a l' hl'
      obtain ⟨n, hn, hs⟩ := check_seq hc (h2 rfl)
      obtain ⟨d, hd, h3, h4⟩ := ih2 b n hn
      refine ⟨d, ?_, h3, fun h => hs d (h4 h)⟩
      rw [path_append, hb]; exact hd
  | left _ ih =>
    intro a l hc
    unfold check at hc
    split at hc
    · rename_i l1 l2 h1 h2
      cases hc
      obtain ⟨b, hb, h3, h4⟩ := ih a l1 h1
      exact ⟨b, hb, h3, fun h => List.mem_append_left _ (h4 h)⟩
    · cases hc
  | right _ ih =>
    intro a l hc
    unfold check at hc
    split at hc
    · rename_i l1 l2 h1 h2
      cases hc
      obtain ⟨b, hb, h3, h4⟩ := ih a l2 h2
      exact ⟨b, hb, h3, fun h => List.mem_append_right _ (h4 h)⟩
    · cases hc
  | over =>
    intro a l hc
    unfold check at hc
    split at hc
    · split at hc
      · cases hc; exact ⟨a, rfl, (fun h => by cases h), fun _ => List.mem_singleton.2 rfl⟩
      · cases hc
    · cases hc
  | out _ ih =>
    intro a l hc
    unfold check at hc
    split at hc
    · rename_i l' hl'
      obtain ⟨b, hb, h1, _⟩ := ih a l' hl'
      exact ⟨b, hb, h1, (fun h => by cases h)⟩
    · cases hc
  | again _ _ ih1 ih2 =>
    intro a l hc
    have hc0 := hc
    unfold check at hc
    split at hc
    · rename_i l' hl'
      split at hc
      · rename_i hall
        obtain ⟨b, hb, _, h2⟩ := ih1 a l' hl'
        have hba : b = a := by
          have := List.all_eq_true.1 hall b (h2 rfl)
          exact eq_of_beq this
        obtain ⟨d, hd, h3, h4⟩ := ih2 a l hc0
        refine ⟨d, ?_, h3, h4⟩
        rw [path_append, hb, hba]; exact hd
      · cases hc
    · cases hc

theorem path_over : ∀ (t : List Act) (a : At), a.path t = some .over →
    (a = .over ∧ t = []) ∨ (a = .has ∧ ∃ n, t = List.replicate n .set ++ [.done]) ∨ (a = .fresh ∧ Orderly t) := by
  intro t
  induction t with
  | nil => intro a h; cases h; exact .inl ⟨rfl, rfl⟩
  | cons x xs ih =>
    intro a h
    change (a.go x).bind (·.path xs) = some .over at h
    cases a with
    | fresh =>
      cases x with
      | set =>
        rcases ih .has h with ⟨h1, _⟩ | ⟨_, n, hn⟩ | ⟨h1, _⟩
        · cases h1
        · exact .inr (.inr ⟨rfl, n, by rw [hn]; rfl⟩)
        · cases h1
      | done => cases h
    | has =>
      cases x with
      | set =>
        rcases ih .has h with ⟨h1, _⟩ | ⟨_, n, hn⟩ | ⟨h1, _⟩
        · cases h1
        · exact .inr (.inl ⟨rfl, n + 1, by rw [hn]; rfl⟩)
        · cases h1
      | done =>
        rcases ih .over h with ⟨_, h1⟩ | ⟨h1, _⟩ | ⟨h1, _⟩
        · exact .inr (.inl ⟨rfl, 0, by rw [h1]; rfl⟩)
        · cases h1
        · cases h1
    | over => cases x <;> cases h

/-- Whatever way an item of the six services takes, it stores a result and then counts itself done, once. -/
theorem C139_items (f : Flow) (hf : f ∈ closures) (t : List Act) (r : Bool) (h : Exec f t r) : Orderly t := by
  have hc : ∀ f ∈ closures, ∃ l, check f .fresh = some l ∧ ∀ x ∈ l, x = .over := by
    have : (closures.all fun f => match check f .fresh with
        | some l => l.all (· == .over)
        | none => false) = true := by decide +kernel
    intro f hf
    have h1 := List.all_eq_true.1 this f hf
    split at h1
    · rename_i l hl
      exact ⟨l, hl, fun x hx => eq_of_beq (List.all_eq_true.1 h1 x hx)⟩
    · cases h1
  obtain ⟨l, hl, ho⟩ := hc f hf
  obtain ⟨b, hb, h1, h2⟩ := check_sound h .fresh l hl
  have hb' : b = .over := by
    cases r with
    | true => exact h1 rfl
    | false => exact ho b (h2 rfl)
  rw [hb'] at hb
  rcases path_over t .fresh hb with ⟨h, _⟩ | ⟨h, _⟩ | ⟨_, h⟩
  · cases h
  · cases h
  · exact h

/-- A way through Browse: two references are looked at, the target of the second is not there. -/
example : Exec browse [.set, .done] true := by
  have g : Exec guard [] false := .right .skip
  have lv : Exec leave [.set, .done] true := .next (t := [.set]) .set (.next (t := [.done]) .done .ret)
  refine .next (t := []) g (.next (t := []) g (.next (t := []) g (.next (t := []) (.right .skip) (.stop ?_))))
  refine .again (t := []) (.left .skip) (.out ?_)
  exact .right (.right (.stop (.left lv)))
/-- The test finds items that go wrong. -/
example : check (.alt .done .skip ;; .set ;; .done) .fresh = none ∧ check (.alt leave .skip ;; .set) .fresh = some [.has] ∧
    check (.alt (.set ;; .done) .skip ;; .set ;; .done) .fresh = none ∧ check (.loop .set ;; .done) .fresh = none := by
  decide +kernel

/-! ### The pool -/

/-- The number of the request that an event is about. -/
def reqOf : Seen → Nat
  | .taken _ r _ => r
  | .submitted t => t.req
  | .began t => t.req
  | .ended t _ => t.req
  | .answered _ r _ => r

structure Inv (workers : Nat) (s : State) : Prop where
  calm : s.crashed = false
  few : s.working.length ≤ workers
  job : ∀ (c : Nat) (j : Job), s.conns[c]? = some (some j) → j.req < s.next ∧ j.results.length = j.count ∧ j.submitted ≤ j.count ∧
    j.wg = j.results.countP (·.isNone) ∧ .taken c j.req j.count ∈ s.log ∧ ∀ c' rs, .answered c' j.req rs ∉ s.log
  apart : ∀ (c c' : Nat) (j j' : Job), s.conns[c]? = some (some j) → s.conns[c']? = some (some j') → j.req = j'.req → c = c'
  nodup : (s.queue ++ s.working).Nodup
  task : ∀ t, t ∈ s.queue ++ s.working → ∃ j : Job, s.conns[t.conn]? = some (some j) ∧ j.req = t.req ∧ t.item < j.submitted ∧
    j.results[t.item]? = some none
  back : ∀ (c : Nat) (j : Job) (i : Nat), s.conns[c]? = some (some j) → i < j.submitted → j.results[i]? = some none →
    ⟨c, j.req, i⟩ ∈ s.queue ++ s.working
  res : ∀ (c : Nat) (j : Job) (i v : Nat), s.conns[c]? = some (some j) → j.results[i]? = some (some v) →
    i < j.submitted ∧ s.log.filter (isEnd j.req i) = [.ended ⟨c, j.req, i⟩ v]
  non : ∀ (c : Nat) (j : Job) (i : Nat), s.conns[c]? = some (some j) → j.results[i]? = some none → s.log.filter (isEnd j.req i) = []
  old : ∀ x, x ∈ s.log → reqOf x < s.next
  open_ : ∀ c r n, .taken c r n ∈ s.log →
    (∃ rs, .answered c r rs ∈ s.log) ∨ ∃ j : Job, s.conns[c]? = some (some j) ∧ j.req = r
  fifo : begins s.log ++ s.queue = submits s.log
  faithful : Faithful s.log

theorem get_set {l : List (Option Job)} {c : Nat} {x y : Option Job} (h : l[c]? = some x) (c' : Nat) :
    (l.set c y)[c']? = if c = c' then some y else l[c']? := by
  rw [List.getElem?_set]
  have : c < l.length := (List.getElem?_eq_some_iff.1 h).1
  rw [if_pos this]

theorem split_snoc {l pre post : List Seen} {x y : Seen} (h : l ++ [x] = pre ++ y :: post) :
    (post = [] ∧ pre = l ∧ y = x) ∨ ∃ post', post = post' ++ [x] ∧ l = pre ++ y :: post' := by
  rcases List.eq_nil_or_concat post with hp | ⟨post', z, hp⟩
  · left
    subst hp
    have := List.append_inj' h rfl
    refine ⟨rfl, this.1.symm, ?_⟩
    have h2 := this.2
    injection h2 with h2 _
    exact h2.symm
  · right
    rw [List.concat_eq_append] at hp
    subst hp
    rw [← List.cons_append, ← List.append_assoc] at h
    have := List.append_inj' h rfl
    have h2 := this.2
    injection h2 with h2 _
    exact ⟨post', by rw [h2], this.1⟩

/-- An event that is no answer and no end. -/
theorem faithful_quiet {log : List Seen} (h : Faithful log) (x : Seen) (ha : ∀ c r rs, x ≠ .answered c r rs)
    (he : ∀ t v, x ≠ .ended t v) : Faithful (log ++ [x]) := by
  intro pre c r rs post heq
  rcases split_snoc heq with ⟨_, _, hx⟩ | ⟨post', hp, hl⟩
  · exact absurd hx.symm (ha c r rs)
  · obtain ⟨h1, h2, h3, h4⟩ := h pre c r rs post' hl
    refine ⟨h1, h2, h3, ?_⟩
    intro t v ht
    rw [hp] at ht
    rcases List.mem_append.1 ht with ht | ht
    · exact h4 t v ht
    · exact absurd (List.mem_singleton.1 ht).symm (he t v)

theorem filter_quiet {log : List Seen} {x : Seen} {r i : Nat} (h : isEnd r i x = false) :
    (log ++ [x]).filter (isEnd r i) = log.filter (isEnd r i) := by
  rw [List.filter_append, List.filter_cons_of_neg (by rw [h]; exact Bool.false_ne_true), List.filter_nil, List.append_nil]

theorem mem_snoc {x y : Seen} {log : List Seen} : x ∈ log ++ [y] ↔ x ∈ log ∨ x = y := by
  rw [List.mem_append, List.mem_singleton]

theorem inv_init (workers n : Nat) : Inv workers (init n) := by
  have hn : ∀ (c : Nat) (j : Job), ¬ (init n).conns[c]? = some (some j) := by
    intro c j h
    unfold init at h
    rw [List.getElem?_replicate] at h
    split at h <;> cases h
  constructor
  · rfl
  · exact Nat.zero_le _
  · intro c j h; exact absurd h (hn c j)
  · intro c c' j j' h; exact absurd h (hn c j)
  · exact List.nodup_nil
  · intro t h; cases h
  · intro c j i h; exact absurd h (hn c j)
  · intro c j i v h; exact absurd h (hn c j)
  · intro c j i h; exact absurd h (hn c j)
  · intro x h; cases h
  · intro c r n h; cases h
  · rfl
  · intro pre c r rs post h
    exact absurd h.symm (by simp [init])

theorem inv_take {W : Nat} {s : State} (h : Inv W s) (c n : Nat) : Inv W (take s c n) := by
  unfold take
  split
  · rename_i hc
    have hget := get_set (y := some ⟨s.next, n, 0, List.replicate n none, n⟩) hc
    have hnew : ∀ (x : Seen), x ∈ s.log → reqOf x ≠ s.next := fun x hx => Nat.ne_of_lt (h.old x hx)
    have hrep : ∀ (i : Nat) (x : Option Nat), (List.replicate n (none : Option Nat))[i]? = some x → x = none := by
      intro i x hx
      rw [List.getElem?_replicate] at hx
      split at hx <;> cases hx
      rfl
    have hfil : ∀ i, s.log.filter (isEnd s.next i) = [] := by
      intro i
      rw [List.filter_eq_nil_iff]
      intro x hx he
      cases x with
      | ended t v =>
        have h1 := hnew _ hx
        unfold isEnd at he
        rw [Bool.and_eq_true] at he
        exact h1 (eq_of_beq he.1)
      | _ => cases he
    have hfq : ∀ r i, (s.log ++ [Seen.taken c s.next n]).filter (isEnd r i) = s.log.filter (isEnd r i) := fun r i =>
      filter_quiet rfl
    have hsplit : ∀ (c' : Nat) (j' : Job), (s.conns.set c (some ⟨s.next, n, 0, List.replicate n none, n⟩))[c']? = some (some j') →
        (c' = c ∧ j' = ⟨s.next, n, 0, List.replicate n none, n⟩) ∨ (c' ≠ c ∧ s.conns[c']? = some (some j')) := by
      intro c' j' hj
      rw [hget] at hj
      split at hj
      · rename_i hcc
        injection hj with hj; injection hj with hj
        exact .inl ⟨hcc.symm, hj.symm⟩
      · rename_i hcc
        exact .inr ⟨fun h => hcc h.symm, hj⟩
    constructor
    · exact h.calm
    · exact h.few
    · intro c' j' hj
      rcases hsplit c' j' hj with ⟨rfl, rfl⟩ | ⟨_, hj⟩
      · refine ⟨Nat.lt_succ_self _, List.length_replicate, Nat.zero_le _, ?_, mem_snoc.2 (.inr rfl), ?_⟩
        · symm
          change (List.replicate n (none : Option Nat)).countP (·.isNone) = n
          rw [List.countP_replicate]; rfl
        · intro c2 rs hm
          rcases mem_snoc.1 hm with hm | hm
          · exact hnew _ hm rfl
          · cases hm
      · obtain ⟨h1, h2, h3, h4, h5, h6⟩ := h.job c' j' hj
        refine ⟨Nat.lt_succ_of_lt h1, h2, h3, h4, mem_snoc.2 (.inl h5), ?_⟩
        intro c2 rs hm
        rcases mem_snoc.1 hm with hm | hm
        · exact h6 c2 rs hm
        · cases hm
    · intro c1 c2 j1 j2 h1 h2 he
      rcases hsplit c1 j1 h1 with ⟨rfl, rfl⟩ | ⟨_, g1⟩
      · rcases hsplit c2 j2 h2 with ⟨rfl, rfl⟩ | ⟨_, h2⟩
        · rfl
        · exact absurd he (Nat.ne_of_gt (h.job c2 j2 h2).1)
      · rcases hsplit c2 j2 h2 with ⟨rfl, rfl⟩ | ⟨_, h2⟩
        · exact absurd he (Nat.ne_of_lt (h.job c1 j1 g1).1)
        · exact h.apart c1 c2 j1 j2 g1 h2 he
    · exact h.nodup
    · intro t ht
      obtain ⟨j, hj, h1⟩ := h.task t ht
      refine ⟨j, ?_, h1⟩
      change (s.conns.set c _)[t.conn]? = _
      rw [hget, if_neg]
      · exact hj
      · intro hcc
        rw [← hcc, hc] at hj; cases hj
    · intro c' j' i hj hi hr
      rcases hsplit c' j' hj with ⟨rfl, rfl⟩ | ⟨_, hj⟩
      · exact absurd hi (Nat.not_lt_zero _)
      · exact h.back c' j' i hj hi hr
    · intro c' j' i v hj hr
      rcases hsplit c' j' hj with ⟨rfl, rfl⟩ | ⟨_, hj⟩
      · cases hrep i _ hr
      · obtain ⟨h1, h2⟩ := h.res c' j' i v hj hr
        exact ⟨h1, (hfq _ _).trans h2⟩
    · intro c' j' i hj hr
      rcases hsplit c' j' hj with ⟨rfl, rfl⟩ | ⟨_, hj⟩
      · exact (hfq _ _).trans (hfil i)
      · exact (hfq _ _).trans (h.non c' j' i hj hr)
    · intro x hx
      rcases mem_snoc.1 hx with hx | rfl
      · exact Nat.lt_succ_of_lt (h.old x hx)
      · exact Nat.lt_succ_self _
    · intro c' r m hm
      rcases mem_snoc.1 hm with hm | hm
      · rcases h.open_ c' r m hm with ⟨rs, hrs⟩ | ⟨j, hj, hr⟩
        · exact .inl ⟨rs, mem_snoc.2 (.inl hrs)⟩
        · refine .inr ⟨j, ?_, hr⟩
          change (s.conns.set c _)[c']? = _
          rw [hget, if_neg]
          · exact hj
          · intro hcc
            rw [← hcc, hc] at hj; cases hj
      · cases hm
        refine .inr ⟨⟨s.next, n, 0, List.replicate n none, n⟩, ?_, rfl⟩
        change (s.conns.set c _)[c]? = _
        rw [hget, if_pos rfl]
    · have := h.fifo
      unfold begins submits at this ⊢
      rw [List.filterMap_append, List.filterMap_append]
      change List.filterMap _ s.log ++ [] ++ s.queue = List.filterMap _ s.log ++ []
      rw [List.append_nil, List.append_nil]; exact this
    · exact faithful_quiet h.faithful _ (by intro _ _ _ h; cases h) (by intro _ _ h; cases h)
  · exact h

theorem inv_submit {W : Nat} {s : State} (h : Inv W s) (c : Nat) : Inv W (submit s c) := by
  unfold submit
  split
  · rename_i j hc
    split
    · rename_i hlt
      have hget := get_set (y := some { j with submitted := j.submitted + 1 }) hc
      obtain ⟨q1, q2, q3, q4, q5, q6⟩ := h.job c j hc
      have hfq : ∀ r i, (s.log ++ [Seen.submitted ⟨c, j.req, j.submitted⟩]).filter (isEnd r i) = s.log.filter (isEnd r i) :=
        fun r i => filter_quiet rfl
      have hnone : j.results[j.submitted]? = some none := by
        have hl : j.submitted < j.results.length := by rw [q2]; exact hlt
        cases hr : j.results[j.submitted]? with
        | none => rw [List.getElem?_eq_none_iff] at hr; omega
        | some x =>
          cases x with
          | none => rfl
          | some v => exact absurd (h.res c j _ v hc hr).1 (Nat.lt_irrefl _)
      have hsplit : ∀ (c' : Nat) (j' : Job), (s.conns.set c (some { j with submitted := j.submitted + 1 }))[c']? = some (some j') →
          (c' = c ∧ j' = { j with submitted := j.submitted + 1 }) ∨ (c' ≠ c ∧ s.conns[c']? = some (some j')) := by
        intro c' j' hj
        rw [hget] at hj
        split at hj
        · rename_i hcc
          injection hj with hj; injection hj with hj
          exact .inl ⟨hcc.symm, hj.symm⟩
        · rename_i hcc
          exact .inr ⟨fun h => hcc h.symm, hj⟩
      have hfresh : (⟨c, j.req, j.submitted⟩ : Task) ∉ s.queue ++ s.working := by
        intro hm
        obtain ⟨j', hj', _, hlt', _⟩ := h.task _ hm
        rw [hc] at hj'
        injection hj' with hj'; injection hj' with hj'
        subst hj'
        exact Nat.lt_irrefl _ hlt'
      have hmem : ∀ t, t ∈ s.queue ++ [⟨c, j.req, j.submitted⟩] ++ s.working ↔
          t ∈ s.queue ++ s.working ∨ t = ⟨c, j.req, j.submitted⟩ := by
        intro t
        simp only [List.mem_append, List.mem_singleton]
        grind
      constructor
      · exact h.calm
      · exact h.few
      · intro c' j' hj
        rcases hsplit c' j' hj with ⟨rfl, rfl⟩ | ⟨_, hj⟩
        · refine ⟨q1, q2, hlt, q4, mem_snoc.2 (.inl q5), ?_⟩
          intro c2 rs hm
          rcases mem_snoc.1 hm with hm | hm
          · exact q6 c2 rs hm
          · cases hm
        · obtain ⟨h1, h2, h3, h4, h5, h6⟩ := h.job c' j' hj
          refine ⟨h1, h2, h3, h4, mem_snoc.2 (.inl h5), ?_⟩
          intro c2 rs hm
          rcases mem_snoc.1 hm with hm | hm
          · exact h6 c2 rs hm
          · cases hm
      · intro c1 c2 j1 j2 h1 h2 he
        rcases hsplit c1 j1 h1 with ⟨rfl, rfl⟩ | ⟨_, g1⟩
        · rcases hsplit c2 j2 h2 with ⟨rfl, rfl⟩ | ⟨_, h2⟩
          · rfl
          · exact h.apart _ c2 j j2 hc h2 he
        · rcases hsplit c2 j2 h2 with ⟨rfl, rfl⟩ | ⟨_, h2⟩
          · exact h.apart c1 _ j1 j g1 hc he
          · exact h.apart c1 c2 j1 j2 g1 h2 he
      · have hn := h.nodup
        change (s.queue ++ [(⟨c, j.req, j.submitted⟩ : Task)] ++ s.working).Nodup
        rw [List.append_assoc]
        refine (List.Perm.nodup_iff (l₂ := ⟨c, j.req, j.submitted⟩ :: (s.queue ++ s.working)) ?_).2
          (List.nodup_cons.2 ⟨hfresh, hn⟩)
        exact List.perm_middle
      · intro t ht
        rcases (hmem t).1 ht with ht | rfl
        · obtain ⟨j', hj', h1, h2, h3⟩ := h.task t ht
          by_cases hcc : c = t.conn
          · rw [← hcc, hc] at hj'
            injection hj' with hj'; injection hj' with hj'
            subst hj'
            refine ⟨{ j with submitted := j.submitted + 1 }, ?_, h1, Nat.lt_succ_of_lt h2, h3⟩
            change (s.conns.set c _)[t.conn]? = _
            rw [hget, if_pos hcc]
          · refine ⟨j', ?_, h1, h2, h3⟩
            change (s.conns.set c _)[t.conn]? = _
            rw [hget, if_neg hcc]; exact hj'
        · refine ⟨{ j with submitted := j.submitted + 1 }, ?_, rfl, Nat.lt_succ_self _, hnone⟩
          change (s.conns.set c _)[c]? = _
          rw [hget, if_pos rfl]
      · intro c' j' i hj hi hr
        rcases hsplit c' j' hj with ⟨rfl, rfl⟩ | ⟨_, hj⟩
        · refine (hmem _).2 ?_
          rcases Nat.lt_succ_iff_lt_or_eq.1 hi with hi | rfl
          · exact .inl (h.back _ j i hc hi hr)
          · exact .inr rfl
        · exact (hmem _).2 (.inl (h.back c' j' i hj hi hr))
      · intro c' j' i v hj hr
        rcases hsplit c' j' hj with ⟨rfl, rfl⟩ | ⟨_, hj⟩
        · obtain ⟨h1, h2⟩ := h.res _ j i v hc hr
          exact ⟨Nat.lt_succ_of_lt h1, (hfq _ _).trans h2⟩
        · obtain ⟨h1, h2⟩ := h.res c' j' i v hj hr
          exact ⟨h1, (hfq _ _).trans h2⟩
      · intro c' j' i hj hr
        rcases hsplit c' j' hj with ⟨rfl, rfl⟩ | ⟨_, hj⟩
        · exact (hfq _ _).trans (h.non _ j i hc hr)
        · exact (hfq _ _).trans (h.non c' j' i hj hr)
      · intro x hx
        rcases mem_snoc.1 hx with hx | rfl
        · exact h.old x hx
        · exact q1
      · intro c' r m hm
        rcases mem_snoc.1 hm with hm | hm
        · rcases h.open_ c' r m hm with ⟨rs, hrs⟩ | ⟨j', hj, hr⟩
          · exact .inl ⟨rs, mem_snoc.2 (.inl hrs)⟩
          · by_cases hcc : c = c'
            · rw [← hcc, hc] at hj
              injection hj with hj; injection hj with hj
              subst hj
              refine .inr ⟨{ j with submitted := j.submitted + 1 }, ?_, hr⟩
              change (s.conns.set c _)[c']? = _
              rw [hget, if_pos hcc]
            · refine .inr ⟨j', ?_, hr⟩
              change (s.conns.set c _)[c']? = _
              rw [hget, if_neg hcc]; exact hj
        · cases hm
      · have := h.fifo
        unfold begins submits at this ⊢
        rw [List.filterMap_append, List.filterMap_append]
        change List.filterMap _ s.log ++ [] ++ (s.queue ++ [_]) = List.filterMap _ s.log ++ [_]
        rw [List.append_nil, ← List.append_assoc, this]
      · exact faithful_quiet h.faithful _ (by intro _ _ _ h; cases h) (by intro _ _ h; cases h)
    · exact h
  · exact h

theorem inv_begin {W : Nat} {s : State} (h : Inv W s) : Inv W (begin_ W s) := by
  unfold begin_
  split
  · rename_i t q hq
    split
    · rename_i hlt
      have hfq : ∀ r i, (s.log ++ [Seen.began t]).filter (isEnd r i) = s.log.filter (isEnd r i) := fun r i => filter_quiet rfl
      have hperm : (q ++ (s.working ++ [t])).Perm (s.queue ++ s.working) := by
        rw [hq, ← List.append_assoc]
        exact List.perm_append_singleton t (q ++ s.working)
      have hmem : ∀ x, x ∈ q ++ (s.working ++ [t]) ↔ x ∈ s.queue ++ s.working := fun x => hperm.mem_iff
      constructor
      · exact h.calm
      · change (s.working ++ [t]).length ≤ W
        rw [List.length_append, List.length_singleton]; omega
      · intro c' j' hj
        obtain ⟨h1, h2, h3, h4, h5, h6⟩ := h.job c' j' hj
        refine ⟨h1, h2, h3, h4, mem_snoc.2 (.inl h5), ?_⟩
        intro c2 rs hm
        rcases mem_snoc.1 hm with hm | hm
        · exact h6 c2 rs hm
        · cases hm
      · exact h.apart
      · exact hperm.nodup_iff.2 h.nodup
      · intro x hx
        exact h.task x ((hmem x).1 hx)
      · intro c' j' i hj hi hr
        exact (hmem _).2 (h.back c' j' i hj hi hr)
      · intro c' j' i v hj hr
        obtain ⟨h1, h2⟩ := h.res c' j' i v hj hr
        exact ⟨h1, (hfq _ _).trans h2⟩
      · intro c' j' i hj hr
        exact (hfq _ _).trans (h.non c' j' i hj hr)
      · intro x hx
        rcases mem_snoc.1 hx with hx | rfl
        · exact h.old x hx
        · obtain ⟨j, hj, hr, _⟩ := h.task t (by rw [hq]; exact List.mem_append_left _ (List.mem_cons_self ..))
          have := (h.job _ j hj).1
          rw [hr] at this; exact this
      · intro c' r m hm
        rcases mem_snoc.1 hm with hm | hm
        · rcases h.open_ c' r m hm with ⟨rs, hrs⟩ | hj
          · exact .inl ⟨rs, mem_snoc.2 (.inl hrs)⟩
          · exact .inr hj
        · cases hm
      · have := h.fifo
        rw [hq] at this
        unfold begins submits at this ⊢
        rw [List.filterMap_append, List.filterMap_append]
        change List.filterMap _ s.log ++ [t] ++ q = List.filterMap _ s.log ++ []
        rw [List.append_nil, ← this, List.append_assoc]; rfl
      · exact faithful_quiet h.faithful _ (by intro _ _ _ h; cases h) (by intro _ _ h; cases h)
    · exact h
  · exact h

theorem countP_set {l : List (Option Nat)} {i v : Nat} (h : l[i]? = some none) :
    (l.set i (some v)).countP (·.isNone) + 1 = l.countP (·.isNone) := by
  induction l generalizing i with
  | nil => cases h
  | cons a l ih =>
    cases i with
    | zero =>
      injection h with h
      subst h
      rw [List.set_cons_zero, List.countP_cons, List.countP_cons]
      simp
    | succ i =>
      have := ih (i := i) h
      rw [List.set_cons_succ, List.countP_cons, List.countP_cons]
      omega

theorem perm_erase {l : List Task} {k : Nat} {t : Task} (h : l[k]? = some t) : l.Perm (t :: l.eraseIdx k) := by
  induction l generalizing k with
  | nil => cases h
  | cons a l ih =>
    cases k with
    | zero =>
      injection h with h
      subst h
      exact List.Perm.refl _
    | succ k => exact ((ih (k := k) h).cons a).trans (List.Perm.swap ..)

theorem inv_finish {W : Nat} {s : State} (h : Inv W s) (k v : Nat) : Inv W (finish s k v) := by
  unfold finish
  split
  · rename_i t hk
    have htw : t ∈ s.working := List.mem_of_getElem? hk
    obtain ⟨j, hc, hr, hi, hnone⟩ := h.task t (List.mem_append_right _ htw)
    obtain ⟨q1, q2, q3, q4, q5, q6⟩ := h.job t.conn j hc
    have hcount := countP_set (v := v) hnone
    have hw : 0 < j.wg := by rw [q4]; omega
    dsimp only
    rw [hc]
    dsimp only
    rw [if_pos ⟨hr, hw⟩]
    have hget := get_set (y := some { j with
            results := j.results.set t.item (some v)
            wg := j.wg - 1 }) hc
    have hil : t.item < j.results.length := by rw [q2]; omega
    have hset : ∀ (i : Nat), (j.results.set t.item (some v))[i]? = if t.item = i then some (some v) else j.results[i]? := by
      intro i
      rw [List.getElem?_set, if_pos hil]
    have hsplit : ∀ (c' : Nat) (j' : Job), (s.conns.set t.conn (some { j with
            results := j.results.set t.item (some v)
            wg := j.wg - 1 }))[c']? = some (some j') →
        (c' = t.conn ∧ j' = { j with
            results := j.results.set t.item (some v)
            wg := j.wg - 1 }) ∨ (c' ≠ t.conn ∧ s.conns[c']? = some (some j')) := by
      intro c' j' hj
      rw [hget] at hj
      split at hj
      · rename_i hcc
        injection hj with hj; injection hj with hj
        exact .inl ⟨hcc.symm, hj.symm⟩
      · rename_i hcc
        exact .inr ⟨fun h => hcc h.symm, hj⟩
    have hperm : (s.queue ++ s.working).Perm (t :: (s.queue ++ s.working.eraseIdx k)) := by
      have h1 : s.working.Perm (t :: s.working.eraseIdx k) := by
        exact perm_erase hk
      exact (List.Perm.append_left _ h1).trans List.perm_middle
    have hnd : (t :: (s.queue ++ s.working.eraseIdx k)).Nodup := hperm.nodup_iff.1 h.nodup
    have htn := (List.nodup_cons.1 hnd).1
    have hmem : ∀ x, x ∈ s.queue ++ s.working ↔ x = t ∨ x ∈ s.queue ++ s.working.eraseIdx k := fun x =>
      hperm.mem_iff.trans List.mem_cons
    have htt : t = ⟨t.conn, j.req, t.item⟩ := by rw [hr]
    have hfq : ∀ r i, ¬ (r = j.req ∧ i = t.item) →
        (s.log ++ [Seen.ended t v]).filter (isEnd r i) = s.log.filter (isEnd r i) := by
      intro r i hne
      refine filter_quiet ?_
      change (t.req == r && t.item == i) = false
      rw [Bool.and_eq_false_iff]
      by_cases h1 : t.req = r
      · right
        rw [beq_eq_false_iff_ne]
        intro h2
        exact hne ⟨by rw [← h1, hr], h2.symm⟩
      · left
        rw [beq_eq_false_iff_ne]; exact h1
    have hother : ∀ (c' : Nat) (j' : Job), c' ≠ t.conn → s.conns[c']? = some (some j') → j'.req ≠ j.req := by
      intro c' j' hne hj he
      exact hne (h.apart c' t.conn j' j hj hc he)
    constructor
    · exact h.calm
    · change (s.working.eraseIdx k).length ≤ W
      exact Nat.le_trans (List.length_eraseIdx_le ..) h.few
    · intro c' j' hj
      rcases hsplit c' j' hj with ⟨rfl, rfl⟩ | ⟨_, hj⟩
      · refine ⟨q1, ?_, q3, ?_, mem_snoc.2 (.inl q5), ?_⟩
        · change (j.results.set _ _).length = _
          rw [List.length_set]; exact q2
        · change j.wg - 1 = (j.results.set _ _).countP _
          rw [q4]; omega
        · intro c2 rs hm
          rcases mem_snoc.1 hm with hm | hm
          · exact q6 c2 rs hm
          · cases hm
      · obtain ⟨h1, h2, h3, h4, h5, h6⟩ := h.job c' j' hj
        refine ⟨h1, h2, h3, h4, mem_snoc.2 (.inl h5), ?_⟩
        intro c2 rs hm
        rcases mem_snoc.1 hm with hm | hm
        · exact h6 c2 rs hm
        · cases hm
    · intro c1 c2 j1 j2 h1 h2 he
      rcases hsplit c1 j1 h1 with ⟨e1, rfl⟩ | ⟨_, g1⟩
      · rcases hsplit c2 j2 h2 with ⟨e2, rfl⟩ | ⟨_, g2⟩
        · rw [e1, e2]
        · rw [e1]; exact h.apart _ c2 j j2 hc g2 he
      · rcases hsplit c2 j2 h2 with ⟨e2, rfl⟩ | ⟨_, g2⟩
        · rw [e2]; exact h.apart c1 _ j1 j g1 hc he
        · exact h.apart c1 c2 j1 j2 g1 g2 he
    · exact (List.nodup_cons.1 hnd).2
    · intro x hx
      obtain ⟨j', hj', h1, h2, h3⟩ := h.task x ((hmem x).2 (.inr hx))
      by_cases hcc : t.conn = x.conn
      · have hj2 := hj'
        rw [← hcc, hc] at hj2
        injection hj2 with hj2; injection hj2 with hj2
        subst hj2
        refine ⟨{ j with
            results := j.results.set t.item (some v)
            wg := j.wg - 1 }, ?_, h1, h2, ?_⟩
        · change (s.conns.set t.conn _)[x.conn]? = _
          rw [hget, if_pos hcc]
        · change (j.results.set t.item (some v))[x.item]? = _
          rw [hset, if_neg]
          · exact h3
          · intro hii
            refine htn ?_
            have : x = t := by
              obtain ⟨xc, xr, xi⟩ := x
              obtain ⟨tc, tr, ti⟩ := t
              dsimp only at hcc hii h1 hr
              rw [hcc, ← hii, ← h1, hr]
            rw [← this]; exact hx
      · refine ⟨j', ?_, h1, h2, h3⟩
        change (s.conns.set t.conn _)[x.conn]? = _
        rw [hget, if_neg hcc]; exact hj'
    · intro c' j' i hj hi' hr'
      rcases hsplit c' j' hj with ⟨rfl, rfl⟩ | ⟨hne, hj⟩
      · change (j.results.set t.item (some v))[i]? = _ at hr'
        rw [hset] at hr'
        split at hr'
        · cases hr'
        · rename_i hii
          rcases (hmem _).1 (h.back _ j i hc hi' hr') with he | hm
          · exact absurd (congrArg Task.item he).symm hii
          · exact hm
      · rcases (hmem _).1 (h.back c' j' i hj hi' hr') with he | hm
        · exact absurd (congrArg Task.conn he) hne
        · exact hm
    · intro c' j' i w hj hr'
      rcases hsplit c' j' hj with ⟨rfl, rfl⟩ | ⟨hne, hj⟩
      · change (j.results.set t.item (some v))[i]? = _ at hr'
        rw [hset] at hr'
        split at hr'
        · rename_i hii
          injection hr' with hr'; injection hr' with hr'
          subst hr'
          refine ⟨by rw [← hii]; exact hi, ?_⟩
          change (s.log ++ [Seen.ended t v]).filter (isEnd j.req i) = [Seen.ended ⟨t.conn, j.req, i⟩ v]
          rw [List.filter_append, h.non t.conn j i hc (by rw [← hii]; exact hnone), List.nil_append,
            List.filter_cons_of_pos, List.filter_nil]
          · rw [← hii, ← htt]
          · change (t.req == j.req && t.item == i) = true
            rw [hr, hii, beq_self_eq_true, beq_self_eq_true]; rfl
        · rename_i hii
          obtain ⟨h1, h2⟩ := h.res _ j i w hc hr'
          exact ⟨h1, (hfq _ _ (fun h => hii h.2.symm)).trans h2⟩
      · obtain ⟨h1, h2⟩ := h.res c' j' i w hj hr'
        exact ⟨h1, (hfq _ _ (fun h => hother c' j' hne hj h.1)).trans h2⟩
    · intro c' j' i hj hr'
      rcases hsplit c' j' hj with ⟨rfl, rfl⟩ | ⟨hne, hj⟩
      · change (j.results.set t.item (some v))[i]? = _ at hr'
        rw [hset] at hr'
        split at hr'
        · cases hr'
        · rename_i hii
          exact (hfq _ _ (fun h => hii h.2.symm)).trans (h.non _ j i hc hr')
      · exact (hfq _ _ (fun h => hother c' j' hne hj h.1)).trans (h.non c' j' i hj hr')
    · intro x hx
      rcases mem_snoc.1 hx with hx | rfl
      · exact h.old x hx
      · change t.req < s.next
        rw [← hr]; exact q1
    · intro c' r m hm
      rcases mem_snoc.1 hm with hm | hm
      · rcases h.open_ c' r m hm with ⟨rs, hrs⟩ | ⟨j', hj, hr'⟩
        · exact .inl ⟨rs, mem_snoc.2 (.inl hrs)⟩
        · by_cases hcc : t.conn = c'
          · have hj2 := hj
            rw [← hcc, hc] at hj2
            injection hj2 with hj2; injection hj2 with hj2
            subst hj2
            refine .inr ⟨{ j with
              results := j.results.set t.item (some v)
              wg := j.wg - 1 }, ?_, hr'⟩
            change (s.conns.set t.conn _)[c']? = _
            rw [hget, if_pos hcc]
          · refine .inr ⟨j', ?_, hr'⟩
            change (s.conns.set t.conn _)[c']? = _
            rw [hget, if_neg hcc]; exact hj
      · cases hm
    · have := h.fifo
      unfold begins submits at this ⊢
      rw [List.filterMap_append, List.filterMap_append]
      change List.filterMap _ s.log ++ [] ++ s.queue = List.filterMap _ s.log ++ []
      rw [List.append_nil, List.append_nil]; exact this
    · intro pre c r rs post heq
      rcases split_snoc heq with ⟨_, _, hx⟩ | ⟨post', hp, hl⟩
      · cases hx
      · obtain ⟨h1, h2, h3, h4⟩ := h.faithful pre c r rs post' hl
        refine ⟨h1, h2, h3, ?_⟩
        intro x w hx
        rw [hp] at hx
        rcases mem_snoc.1 hx with hx | hx
        · exact h4 x w hx
        · injection hx with hx _
          rw [hx]
          intro he
          refine q6 c rs ?_
          rw [hr, he, hl]
          exact List.mem_append_right _ (List.mem_cons_self ..)
  · exact h

theorem inv_answer {W : Nat} {s : State} (h : Inv W s) (c : Nat) : Inv W (answer s c) := by
  unfold answer
  split
  · rename_i j hc
    split
    · rename_i hdone
      have hget := get_set (y := none) hc
      obtain ⟨q1, q2, q3, q4, q5, q6⟩ := h.job c j hc
      have hfq : ∀ r i, (s.log ++ [Seen.answered c j.req j.results]).filter (isEnd r i) = s.log.filter (isEnd r i) :=
        fun r i => filter_quiet rfl
      have hsplit : ∀ (c' : Nat) (j' : Job), (s.conns.set c none)[c']? = some (some j') →
          c' ≠ c ∧ s.conns[c']? = some (some j') := by
        intro c' j' hj
        rw [hget] at hj
        split at hj
        · cases hj
        · rename_i hcc
          exact ⟨fun h => hcc h.symm, hj⟩
      have hall : ∀ (i : Nat), i < j.results.length → ∃ v, j.results[i]? = some (some v) := by
        intro i hi
        have h0 : j.results.countP (·.isNone) = 0 := by rw [← q4]; exact hdone.2
        rw [List.countP_eq_zero] at h0
        have := h0 _ (List.getElem_mem hi)
        rw [List.getElem?_eq_getElem hi]
        cases hx : j.results[i] with
        | none => rw [hx] at this; exact absurd rfl this
        | some v => exact ⟨v, rfl⟩
      have hnone : ∀ (i : Nat), ¬ j.results[i]? = some none := by
        intro i hi
        have hil := (List.getElem?_eq_some_iff.1 hi).1
        obtain ⟨v, hv⟩ := hall i hil
        rw [hi] at hv; cases hv
      have hkeep : ∀ (c' : Nat) (j' : Job), j'.req ≠ j.req → s.conns[c']? = some (some j') →
          (s.conns.set c none)[c']? = some (some j') := by
        intro c' j' hne hj
        rw [hget, if_neg]
        · exact hj
        · intro hcc
          rw [← hcc, hc] at hj
          injection hj with hj; injection hj with hj
          exact hne (by rw [hj])
      constructor
      · exact h.calm
      · exact h.few
      · intro c' j' hj
        obtain ⟨hne, hj⟩ := hsplit c' j' hj
        obtain ⟨h1, h2, h3, h4, h5, h6⟩ := h.job c' j' hj
        refine ⟨h1, h2, h3, h4, mem_snoc.2 (.inl h5), ?_⟩
        intro c2 rs hm
        rcases mem_snoc.1 hm with hm | hm
        · exact h6 c2 rs hm
        · injection hm with _ hm _
          exact hne (h.apart c' c j' j hj hc hm)
      · intro c1 c2 j1 j2 h1 h2 he
        exact h.apart c1 c2 j1 j2 (hsplit c1 j1 h1).2 (hsplit c2 j2 h2).2 he
      · exact h.nodup
      · intro x hx
        obtain ⟨j', hj', h1, h2, h3⟩ := h.task x hx
        refine ⟨j', ?_, h1, h2, h3⟩
        change (s.conns.set c none)[x.conn]? = _
        rw [hget, if_neg]
        · exact hj'
        · intro hcc
          rw [← hcc, hc] at hj'
          injection hj' with hj'; injection hj' with hj'
          subst hj'
          exact hnone _ h3
      · intro c' j' i hj hi hr
        exact h.back c' j' i (hsplit c' j' hj).2 hi hr
      · intro c' j' i v hj hr
        obtain ⟨h1, h2⟩ := h.res c' j' i v (hsplit c' j' hj).2 hr
        exact ⟨h1, (hfq _ _).trans h2⟩
      · intro c' j' i hj hr
        exact (hfq _ _).trans (h.non c' j' i (hsplit c' j' hj).2 hr)
      · intro x hx
        rcases mem_snoc.1 hx with hx | rfl
        · exact h.old x hx
        · exact q1
      · intro c' r m hm
        rcases mem_snoc.1 hm with hm | hm
        · rcases h.open_ c' r m hm with ⟨rs, hrs⟩ | ⟨j', hj, hr⟩
          · exact .inl ⟨rs, mem_snoc.2 (.inl hrs)⟩
          · by_cases hrr : j'.req = j.req
            · have hcc := h.apart c' c j' j hj hc hrr
              refine .inl ⟨j.results, mem_snoc.2 (.inr ?_)⟩
              rw [hcc, ← hr, hrr]
            · exact .inr ⟨j', hkeep c' j' hrr hj, hr⟩
        · cases hm
      · have := h.fifo
        unfold begins submits at this ⊢
        rw [List.filterMap_append, List.filterMap_append]
        change List.filterMap _ s.log ++ [] ++ s.queue = List.filterMap _ s.log ++ []
        rw [List.append_nil, List.append_nil]; exact this
      · intro pre c' r rs post heq
        rcases split_snoc heq with ⟨hp, hpre, hx⟩ | ⟨post', hp, hl⟩
        · injection hx with hx1 hx2 hx3
          rw [hpre, hp, hx1, hx2, hx3]
          refine ⟨by rw [q2]; exact q5, q6, ?_, by intro _ _ h; cases h⟩
          intro i hi
          obtain ⟨v, hv⟩ := hall i hi
          exact ⟨v, hv, (h.res c j i v hc hv).2⟩
        · obtain ⟨h1, h2, h3, h4⟩ := h.faithful pre c' r rs post' hl
          refine ⟨h1, h2, h3, ?_⟩
          intro x w hx
          rw [hp] at hx
          rcases mem_snoc.1 hx with hx | hx
          · exact h4 x w hx
          · cases hx
    · exact h
  · exact h

theorem inv_step {W : Nat} {s : State} (h : Inv W s) (e : Ev) : Inv W (step W s e) := by
  unfold step
  rw [if_neg (by rw [h.calm]; exact Bool.false_ne_true)]
  cases e with
  | take c n => exact inv_take h c n
  | submit c => exact inv_submit h c
  | begin_ => exact inv_begin h
  | finish k v => exact inv_finish h k v
  | answer c => exact inv_answer h c

theorem inv_run {W : Nat} {s : State} (h : Inv W s) (evs : List Ev) : Inv W (run W s evs) := by
  induction evs generalizing s with
  | nil => exact h
  | cons e es ih => exact ih (inv_step h e)

/-- Every answer has the results of its own items, each worked on once, and nothing that was submitted ever finds its request
gone (which would end the process). -/
theorem C139_answers (workers conns : Nat) (evs : List Ev) :
    Faithful (run workers (init conns) evs).log ∧ (run workers (init conns) evs).crashed = false :=
  have h := inv_run (inv_init workers conns) evs
  ⟨h.faithful, h.calm⟩

/-- An item has ended. -/
def isEnded : Seen → Bool
  | .ended _ _ => true
  | _ => false

theorem count_run (W conns : Nat) (evs : List Ev) :
    (begins (run W (init conns) evs).log).length =
      (run W (init conns) evs).log.countP isEnded + (run W (init conns) evs).working.length := by
  induction evs using snocInd with
  | nil => rfl
  | append_singleton evs e ih =>
    have hr : run W (init conns) (evs ++ [e]) = step W (run W (init conns) evs) e := by
      unfold run; rw [List.foldl_append]; rfl
    rw [hr]
    have hI := inv_run (inv_init W conns) evs
    generalize run W (init conns) evs = s at ih hI
    have hq : ∀ (x : Seen) (s' : State), s'.log = s.log ++ [x] → s'.working = s.working → (begins [x] = []) →
        isEnded x = false → (begins s'.log).length = s'.log.countP isEnded + s'.working.length := by
      intro x s' h1 h2 h3 h4
      rw [h1, h2, List.countP_append]
      unfold begins at h3 ih ⊢
      rw [List.filterMap_append, h3, List.append_nil, ih, List.countP_cons, List.countP_nil, h4]
      simp
    unfold step
    rw [if_neg (by rw [hI.calm]; exact Bool.false_ne_true)]
    cases e with
    | take c n =>
      dsimp only
      unfold take
      split
      · exact hq _ _ rfl rfl rfl rfl
      · exact ih
    | submit c =>
      dsimp only
      unfold submit
      split
      · split
        · exact hq _ _ rfl rfl rfl rfl
        · exact ih
      · exact ih
    | begin_ =>
      dsimp only
      unfold begin_
      split
      · rename_i t q _
        split
        · dsimp only
          unfold begins at ih ⊢
          rw [List.filterMap_append, List.countP_append, List.length_append, List.length_append, ih]
          change _ + 1 = _ + 0 + (_ + 1)
          omega
        · exact ih
      · exact ih
    | finish k v =>
      dsimp only
      unfold finish
      split
      · rename_i t hk
        have hl : (s.working.eraseIdx k).length + 1 = s.working.length := by
          have := (perm_erase hk).length_eq
          rw [List.length_cons] at this; omega
        have key : (begins (s.log ++ [Seen.ended t v])).length =
            (s.log ++ [Seen.ended t v]).countP isEnded + (s.working.eraseIdx k).length := by
          unfold begins at ih ⊢
          rw [List.filterMap_append, List.countP_append, List.length_append, ih]
          change _ + 0 = _ + 1 + _
          omega
        dsimp only
        split
        · split <;> exact key
        · exact key
      · exact ih
    | answer c =>
      dsimp only
      unfold answer
      split
      · split
        · exact hq _ _ rfl rfl rfl rfl
        · exact ih
      · exact ih

/-- Items are begun in the order in which they were submitted, whatever connection they come from, and no more of them are at
work than there are workers. -/
theorem C139_order (workers conns : Nat) (evs : List Ev) :
    begins (run workers (init conns) evs).log <+: submits (run workers (init conns) evs).log ∧
      (begins (run workers (init conns) evs).log).length ≤
        ((run workers (init conns) evs).log.countP isEnded) + workers := by
  have h := inv_run (inv_init workers conns) evs
  refine ⟨⟨_, h.fifo⟩, ?_⟩
  rw [count_run]
  exact Nat.add_le_add_left h.few _

/-! ### If handlers return -/

/-- What is left to do for a connection. -/
def due : Option Job → Nat
  | none => 0
  | some j => 3 * (j.count - j.submitted) + 1

def total : List (Option Job) → Nat
  | [] => 0
  | j :: l => due j + total l

/-- What is left to do. -/
def left (s : State) : Nat := total s.conns + 2 * s.queue.length + s.working.length

theorem total_set {l : List (Option Job)} {c : Nat} {x : Option Job} (h : l[c]? = some x) (y : Option Job) :
    total (l.set c y) + due x = total l + due y := by
  induction l generalizing c with
  | nil => cases h
  | cons a l ih =>
    cases c with
    | zero =>
      injection h with h
      subst h
      rw [List.set_cons_zero]
      unfold total
      omega
    | succ c =>
      have := ih (c := c) h
      rw [List.set_cons_succ]
      unfold total
      omega

theorem step_left {W : Nat} {s : State} (hI : Inv W s) (e : Ev) (ht : isTake e = false) (he : step W s e ≠ s) :
    left (step W s e) < left s := by
  unfold step at he ⊢
  rw [if_neg (by rw [hI.calm]; exact Bool.false_ne_true)] at he ⊢
  cases e with
  | take c n => cases ht
  | submit c =>
    dsimp only at he ⊢
    unfold submit at he ⊢
    split
    · rename_i j hc
      rw [hc] at he
      dsimp only at he
      split
      · rename_i hlt
        have := total_set hc (some { j with submitted := j.submitted + 1 })
        unfold left due at *
        dsimp only at *
        rw [List.length_append, List.length_singleton]
        omega
      · rename_i hlt
        rw [if_neg hlt] at he
        exact absurd rfl he
    · rename_i hno
      split at he
      · rename_i j hc; exact absurd hc (hno j)
      · exact absurd rfl he
  | begin_ =>
    dsimp only at he ⊢
    unfold begin_ at he ⊢
    split
    · rename_i t q hq
      rw [hq] at he
      dsimp only at he
      split
      · unfold left
        dsimp only
        rw [hq, List.length_append, List.length_singleton, List.length_cons]
        omega
      · rename_i hlt
        rw [if_neg hlt] at he
        exact absurd rfl he
    · rename_i hq
      rw [hq] at he
      exact absurd rfl he
  | finish k v =>
    dsimp only at he ⊢
    unfold finish at he ⊢
    split
    · rename_i t hk
      have hl : (s.working.eraseIdx k).length + 1 = s.working.length := by
        have := (perm_erase hk).length_eq
        rw [List.length_cons] at this; omega
      obtain ⟨j, hc, hr, hi, hnone⟩ := hI.task t (List.mem_append_right _ (List.mem_of_getElem? hk))
      dsimp only
      rw [hc]
      dsimp only
      split
      · have := total_set hc (some { j with
            results := j.results.set t.item (some v)
            wg := j.wg - 1 })
        unfold left due at *
        dsimp only at *
        omega
      · unfold left
        dsimp only
        omega
    · rename_i hk
      rw [hk] at he
      exact absurd rfl he
  | answer c =>
    dsimp only at he ⊢
    unfold answer at he ⊢
    split
    · rename_i j hc
      rw [hc] at he
      dsimp only at he
      split
      · have := total_set hc none
        unfold left due at *
        dsimp only at *
        omega
      · rename_i hlt
        rw [if_neg hlt] at he
        exact absurd rfl he
    · rename_i hno
      split at he
      · rename_i j hc; exact absurd hc (hno j)
      · exact absurd rfl he

theorem log_ne {s : State} {x : Seen} {s' : State} (h : s'.log = s.log ++ [x]) : s' ≠ s := by
  intro he
  rw [he] at h
  have := congrArg List.length h
  rw [List.length_append, List.length_singleton] at this
  omega

theorem can_go {W : Nat} (hW : 1 ≤ W) {s : State} (hI : Inv W s) {c : Nat} {j : Job} (hc : s.conns[c]? = some (some j)) :
    ∃ e, isTake e = false ∧ step W s e ≠ s := by
  have hst : ∀ e, step W s e = match e with
      | .take c n => take s c n
      | .submit c => submit s c
      | .begin_ => begin_ W s
      | .finish k v => finish s k v
      | .answer c => answer s c := by
    intro e
    unfold step
    rw [if_neg (by rw [hI.calm]; exact Bool.false_ne_true)]
    cases e <;> rfl
  obtain ⟨q1, q2, q3, q4, q5, q6⟩ := hI.job c j hc
  by_cases hs : j.submitted < j.count
  · refine ⟨.submit c, rfl, ?_⟩
    rw [hst]
    dsimp only
    unfold submit
    rw [hc]
    dsimp only
    rw [if_pos hs]
    exact log_ne rfl
  · by_cases hw : j.wg = 0
    · refine ⟨.answer c, rfl, ?_⟩
      rw [hst]
      dsimp only
      unfold answer
      rw [hc]
      dsimp only
      rw [if_pos ⟨by omega, hw⟩]
      exact log_ne rfl
    · have hpos : 0 < j.results.countP (·.isNone) := by rw [← q4]; omega
      rw [List.countP_pos_iff] at hpos
      obtain ⟨x, hx, hxn⟩ := hpos
      obtain ⟨i, hi⟩ := List.mem_iff_getElem?.1 hx
      have hxn : x = none := by cases x with
        | none => rfl
        | some _ => cases hxn
      subst hxn
      have hil := (List.getElem?_eq_some_iff.1 hi).1
      have hm := hI.back c j i hc (by omega) hi
      cases hwk : s.working with
      | cons t ts =>
        refine ⟨.finish 0 0, rfl, ?_⟩
        rw [hst]
        dsimp only
        unfold finish
        have h0 : s.working[0]? = some t := by rw [hwk]; rfl
        rw [h0]
        dsimp only
        split
        · split
          · exact log_ne (x := .ended t 0) rfl
          · exact log_ne (x := .ended t 0) rfl
        · exact log_ne (x := .ended t 0) rfl
      | nil =>
        rw [hwk, List.append_nil] at hm
        refine ⟨.begin_, rfl, ?_⟩
        rw [hst]
        dsimp only
        unfold begin_
        cases hq : s.queue with
        | nil => rw [hq] at hm; cases hm
        | cons t q =>
          dsimp only
          rw [if_pos (by rw [hwk]; exact hW)]
          exact log_ne rfl

/-- If the handlers of items return, every request is answered: at any time there is a bound on what can happen before the
next request comes, and when nothing more can happen every request that was taken has its answer. -/
theorem C139_finish (workers conns : Nat) (hw : 1 ≤ workers) (evs : List Ev) :
    (∃ bound, ∀ more, (∀ e ∈ more, isTake e = false) → Effective workers (run workers (init conns) evs) more →
      more.length ≤ bound) ∧
    ((∀ e, isTake e = false → step workers (run workers (init conns) evs) e = run workers (init conns) evs) →
      ∀ c r n, .taken c r n ∈ (run workers (init conns) evs).log →
        ∃ rs, .answered c r rs ∈ (run workers (init conns) evs).log) := by
  have hI := inv_run (inv_init workers conns) evs
  generalize run workers (init conns) evs = s at hI
  constructor
  · refine ⟨left s, ?_⟩
    intro more
    induction more generalizing s with
    | nil => intro _ _; exact Nat.zero_le _
    | cons e es ih =>
      intro hn he
      have h1 := step_left hI e (hn e (List.mem_cons_self ..)) he.1
      have h2 := ih (step workers s e) (inv_step hI e) (fun x hx => hn x (List.mem_cons_of_mem _ hx)) he.2
      rw [List.length_cons]
      omega
  · intro hstuck c r n ht
    rcases hI.open_ c r n ht with h | ⟨j, hj, _⟩
    · exact h
    · obtain ⟨e, h1, h2⟩ := can_go hw hI hj
      exact absurd (hstuck e h1) h2

/-- A service that does without workers is answered whatever they do. -/
theorem C139_direct (workers conns : Nat) (evs : List Ev) (c : Nat)
    (hc : (run workers (init conns) evs).conns[c]? = some none) :
    (run workers (init conns) (evs ++ [.take c 0, .answer c])).log =
      (run workers (init conns) evs).log ++
        [.taken c (run workers (init conns) evs).next 0, .answered c (run workers (init conns) evs).next []] := by
  have hI := inv_run (inv_init workers conns) evs
  have hr : run workers (init conns) (evs ++ [.take c 0, .answer c]) =
      step workers (step workers (run workers (init conns) evs) (.take c 0)) (.answer c) := by
    unfold run; rw [List.foldl_append]; rfl
  rw [hr]
  generalize run workers (init conns) evs = s at hI hc
  have hcr := hI.calm
  have h1 : step workers s (.take c 0) = take s c 0 := by
    unfold step
    rw [if_neg (by rw [hcr]; exact Bool.false_ne_true)]
  have h2 : step workers (take s c 0) (.answer c) = answer (take s c 0) c := by
    unfold step
    rw [if_neg (by rw [(inv_take hI c 0).calm]; exact Bool.false_ne_true)]
  rw [h1, h2]
  have h3 : (take s c 0).conns[c]? = some (some ⟨s.next, 0, 0, [], 0⟩) := by
    unfold take
    rw [hc]
    dsimp only
    rw [get_set hc, if_pos rfl]; rfl
  unfold answer
  rw [h3]
  dsimp only
  rw [if_pos ⟨rfl, rfl⟩]
  dsimp only
  unfold take
  rw [hc]
  dsimp only
  rw [List.append_assoc]; rfl

/-! ### How it fails -/

/-- One client asks for as many items as there are workers, and their handlers begin. -/
def occupy (workers : Nat) : List Ev :=
  .take 0 workers :: (List.replicate workers (.submit 0) ++ List.replicate workers .begin_)

theorem run_append (W : Nat) (s : State) (a b : List Ev) : run W s (a ++ b) = run W (run W s a) b := by
  unfold run; rw [List.foldl_append]

structure Jam (W : Nat) (s : State) : Prop where
  inv : Inv W s
  full : s.working.length = W
  mine : ∀ t ∈ s.working, t.req = 0
  none_ : ∀ t v, .ended t v ∉ s.log
  empty : ∀ c r rs, .answered c r rs ∈ s.log → rs = []

/-- Nothing has ended or been answered. -/
def Silent (s : State) : Prop := (∀ t v, .ended t v ∉ s.log) ∧ ∀ c r rs, .answered c r rs ∉ s.log

theorem silent_snoc {s s' : State} (h : Silent s) (x : Seen) (hl : s'.log = s.log ++ [x]) (h1 : ∀ t v, x ≠ .ended t v)
    (h2 : ∀ c r rs, x ≠ .answered c r rs) : Silent s' := by
  unfold Silent
  rw [hl]
  constructor
  · intro t v hm
    rcases mem_snoc.1 hm with hm | hm
    · exact h.1 t v hm
    · exact h1 t v hm.symm
  · intro c r rs hm
    rcases mem_snoc.1 hm with hm | hm
    · exact h.2 c r rs hm
    · exact h2 c r rs hm.symm

theorem jam_submit (W n : Nat) (hn : 1 ≤ n) : ∀ k, k ≤ W →
    let s := run W (init n) (.take 0 W :: List.replicate k (.submit 0))
    s.conns[0]? = some (some ⟨0, W, k, List.replicate W none, W⟩) ∧ s.queue.length = k ∧ s.working = [] ∧
      (∀ t ∈ s.queue, t.req = 0) ∧ Silent s := by
  intro k
  induction k with
  | zero =>
    intro _
    have h0 : (init n).conns[0]? = some none := by
      unfold init; dsimp only; rw [List.getElem?_replicate, if_pos (Nat.lt_of_lt_of_le Nat.zero_lt_one hn)]
    have hs : run W (init n) (.take 0 W :: List.replicate 0 (.submit 0)) = take (init n) 0 W := rfl
    dsimp only
    rw [hs]
    unfold take
    rw [h0]
    dsimp only
    refine ⟨by rw [get_set h0, if_pos rfl]; rfl, rfl, rfl, (fun t ht => by cases ht), ?_⟩
    exact silent_snoc (s := init n) ⟨(fun _ _ h => by cases h), (fun _ _ _ h => by cases h)⟩ _ rfl
      (by intro _ _ h; cases h) (by intro _ _ _ h; cases h)
  | succ k ih =>
    intro hk
    dsimp only
    have hs : run W (init n) (.take 0 W :: List.replicate (k + 1) (.submit 0)) =
        step W (run W (init n) (.take 0 W :: List.replicate k (.submit 0))) (.submit 0) := by
      rw [List.replicate_succ', ← List.cons_append, run_append]; rfl
    rw [hs]
    have hI := inv_run (inv_init W n) (.take 0 W :: List.replicate k (.submit 0))
    obtain ⟨h1, h2, h3, h4, h5⟩ := ih (Nat.le_of_succ_le hk)
    generalize run W (init n) (.take 0 W :: List.replicate k (.submit 0)) = s at hI h1 h2 h3 h4 h5
    have hst : step W s (.submit 0) = submit s 0 := by
      unfold step
      rw [if_neg (by rw [hI.calm]; exact Bool.false_ne_true)]
    rw [hst]
    unfold submit
    rw [h1]
    dsimp only
    rw [if_pos (Nat.lt_of_succ_le hk)]
    dsimp only
    refine ⟨by rw [get_set h1, if_pos rfl], by rw [List.length_append, h2]; rfl, h3, ?_,
      silent_snoc h5 _ rfl (by intro _ _ h; cases h) (by intro _ _ _ h; cases h)⟩
    intro t ht
    rcases List.mem_append.1 ht with ht | ht
    · exact h4 t ht
    · rw [List.mem_singleton.1 ht]

theorem jam_begin (W n : Nat) (hn : 1 ≤ n) : ∀ k, k ≤ W →
    let s := run W (init n) (.take 0 W :: (List.replicate W (.submit 0) ++ List.replicate k .begin_))
    s.queue.length + k = W ∧ s.working.length = k ∧ (∀ t ∈ s.queue, t.req = 0) ∧ (∀ t ∈ s.working, t.req = 0) ∧ Silent s := by
  intro k
  induction k with
  | zero =>
    intro _
    dsimp only
    obtain ⟨_, h2, h3, h4, h5⟩ := jam_submit W n hn W (Nat.le_refl _)
    rw [List.replicate_zero, List.append_nil]
    refine ⟨h2, by rw [h3]; rfl, h4, ?_, h5⟩
    rw [h3]
    intro t ht; cases ht
  | succ k ih =>
    intro hk
    dsimp only
    have hs : run W (init n) (.take 0 W :: (List.replicate W (.submit 0) ++ List.replicate (k + 1) .begin_)) =
        step W (run W (init n) (.take 0 W :: (List.replicate W (.submit 0) ++ List.replicate k .begin_))) .begin_ := by
      rw [List.replicate_succ', ← List.append_assoc, ← List.cons_append, run_append]; rfl
    rw [hs]
    have hI := inv_run (inv_init W n) (.take 0 W :: (List.replicate W (.submit 0) ++ List.replicate k .begin_))
    obtain ⟨h1, h2, h3, h4, h5⟩ := ih (Nat.le_of_succ_le hk)
    generalize run W (init n) (.take 0 W :: (List.replicate W (.submit 0) ++ List.replicate k .begin_)) = s at hI h1 h2 h3 h4 h5
    have hst : step W s .begin_ = begin_ W s := by
      unfold step
      rw [if_neg (by rw [hI.calm]; exact Bool.false_ne_true)]
    rw [hst]
    unfold begin_
    cases hq : s.queue with
    | nil => rw [hq] at h1; simp at h1; omega
    | cons t q =>
      dsimp only
      rw [if_pos (by rw [h2]; exact Nat.lt_of_succ_le hk)]
      dsimp only
      rw [hq] at h1 h3
      rw [List.length_cons] at h1
      refine ⟨by omega, by rw [List.length_append, h2]; rfl, fun x hx => h3 x (List.mem_cons_of_mem _ hx), ?_,
        silent_snoc h5 _ rfl (by intro _ _ h; cases h) (by intro _ _ _ h; cases h)⟩
      intro x hx
      rcases List.mem_append.1 hx with hx | hx
      · exact h4 x hx
      · rw [List.mem_singleton.1 hx]; exact h3 t (List.mem_cons_self ..)

theorem jam_occupy (W n : Nat) (hn : 1 ≤ n) : Jam W (run W (init n) (occupy W)) := by
  obtain ⟨_, h2, _, h4, h5⟩ := jam_begin W n hn W (Nat.le_refl _)
  exact ⟨inv_run (inv_init W n) _, h2, h4, h5.1, fun c r rs h => absurd h (h5.2 c r rs)⟩

theorem jam_step {W : Nat} {s : State} (h : Jam W s) (e : Ev) (hw : Waits 0 (step W s e).log) : Jam W (step W s e) := by
  have hI := inv_step h.inv e
  have hcalm : step W s e = match e with
      | .take c n => take s c n
      | .submit c => submit s c
      | .begin_ => begin_ W s
      | .finish k v => finish s k v
      | .answer c => answer s c := by
    unfold step
    rw [if_neg (by rw [h.inv.calm]; exact Bool.false_ne_true)]
    cases e <;> rfl
  have hq : ∀ (s' : State) (x : Seen), step W s e = s' → s'.working = s.working → s'.log = s.log ++ [x] →
      (∀ t v, x ≠ .ended t v) → (∀ c r rs, x = .answered c r rs → rs = []) → Jam W (step W s e) := by
    intro s' x h0 h1 h2 h3 h4
    rw [h0] at hI ⊢
    refine ⟨hI, by rw [h1]; exact h.full, by rw [h1]; exact h.mine, ?_, ?_⟩
    · rw [h2]
      intro t v hm
      rcases mem_snoc.1 hm with hm | hm
      · exact h.none_ t v hm
      · exact h3 t v hm.symm
    · rw [h2]
      intro c r rs hm
      rcases mem_snoc.1 hm with hm | hm
      · exact h.empty c r rs hm
      · exact h4 c r rs hm.symm
  have hsame : step W s e = s → Jam W (step W s e) := fun h0 => by rw [h0]; exact h
  cases e with
  | take c n =>
    change step W s (.take c n) = take s c n at hcalm
    unfold take at hcalm
    split at hcalm
    · exact hq _ _ hcalm rfl rfl (by intro _ _ h; cases h) (by intro _ _ _ h; cases h)
    · exact hsame hcalm
  | submit c =>
    change step W s (.submit c) = submit s c at hcalm
    unfold submit at hcalm
    split at hcalm
    · split at hcalm
      · exact hq _ _ hcalm rfl rfl (by intro _ _ h; cases h) (by intro _ _ _ h; cases h)
      · exact hsame hcalm
    · exact hsame hcalm
  | begin_ =>
    change step W s .begin_ = begin_ W s at hcalm
    unfold begin_ at hcalm
    split at hcalm
    · rw [if_neg (by rw [h.full]; exact Nat.lt_irrefl _)] at hcalm
      exact hsame hcalm
    · exact hsame hcalm
  | finish k v =>
    change step W s (.finish k v) = finish s k v at hcalm
    unfold finish at hcalm
    split at hcalm
    · rename_i t hk
      have hlog : (step W s (.finish k v)).log = s.log ++ [Seen.ended t v] := by
        rw [hcalm]
        dsimp only
        split
        · split <;> rfl
        · rfl
      rw [hlog] at hw
      obtain ⟨c, q, rs, hm, hne⟩ := hw s.log t v [] rfl (h.mine t (List.mem_of_getElem? hk))
      exact absurd (h.empty c q rs hm) hne
    · exact hsame hcalm
  | answer c =>
    change step W s (.answer c) = answer s c at hcalm
    unfold answer at hcalm
    split at hcalm
    · rename_i j hc
      split at hcalm
      · rename_i hd
        refine hq _ _ hcalm rfl rfl (by intro _ _ h; cases h) ?_
        intro c' r rs he
        injection he with _ _ he
        rw [← he]
        have hq4 := (h.inv.job c j hc).2.2.2.1
        rw [hd.2] at hq4
        have h0 := List.countP_eq_zero.1 hq4.symm
        cases hrs : j.results with
        | nil => rfl
        | cons x xs =>
          cases x with
          | none => rw [hrs] at h0; exact absurd rfl (h0 none (List.mem_cons_self ..))
          | some w =>
            have := (h.inv.res c j 0 w hc (by rw [hrs]; rfl)).2
            have hm : Seen.ended ⟨c, j.req, 0⟩ w ∈ s.log.filter (isEnd j.req 0) := by
              rw [this]; exact List.mem_singleton.2 rfl
            exact absurd (List.mem_filter.1 hm).1 (h.none_ _ _)
      · exact hsame hcalm
    · exact hsame hcalm

theorem log_step (W : Nat) (s : State) (e : Ev) : ∃ l, (step W s e).log = s.log ++ l := by
  have hz : ∃ l, s.log = s.log ++ l := ⟨[], (List.append_nil _).symm⟩
  unfold step
  split
  · exact hz
  · cases e with
    | take c n =>
      dsimp only
      unfold take
      split
      · exact ⟨_, rfl⟩
      · exact hz
    | submit c =>
      dsimp only
      unfold submit
      split
      · split
        · exact ⟨_, rfl⟩
        · exact hz
      · exact hz
    | begin_ =>
      dsimp only
      unfold begin_
      split
      · split
        · exact ⟨_, rfl⟩
        · exact hz
      · exact hz
    | finish k v =>
      dsimp only
      unfold finish
      split
      · dsimp only
        split
        · split <;> exact ⟨_, rfl⟩
        · exact ⟨_, rfl⟩
      · exact hz
    | answer c =>
      dsimp only
      unfold answer
      split
      · split
        · exact ⟨_, rfl⟩
        · exact hz
      · exact hz

theorem waits_prefix {r : Nat} {a b : List Seen} (h : Waits r (a ++ b)) : Waits r a := by
  intro pre t v post he hr
  exact h pre t v (post ++ b) (by rw [he, List.append_assoc, List.cons_append]) hr

/-- One client that calls as many methods (or reads or writes as many variables) as there are workers stops every service on
items for all clients as long as the handlers have not returned; and if they wait for something that another client must do by
such a service, for ever. -/
theorem C139_shared_fails (workers conns : Nat) (hc : 1 ≤ conns) (evs : List Ev)
    (hw : Waits 0 (run workers (init conns) (occupy workers ++ evs)).log) :
    ∀ c r rs, .answered c r rs ∈ (run workers (init conns) (occupy workers ++ evs)).log → rs = [] := by
  have key : Jam workers (run workers (init conns) (occupy workers ++ evs)) := by
    induction evs using snocInd with
    | nil =>
      rw [List.append_nil]
      exact jam_occupy workers conns hc
    | append_singleton evs e ih =>
      have hr : run workers (init conns) (occupy workers ++ (evs ++ [e])) =
          step workers (run workers (init conns) (occupy workers ++ evs)) e := by
        rw [← List.append_assoc, run_append]; rfl
      rw [hr] at hw ⊢
      refine jam_step (ih ?_) e hw
      obtain ⟨l, hl⟩ := log_step workers (run workers (init conns) (occupy workers ++ evs)) e
      rw [hl] at hw
      exact waits_prefix hw
  exact key.empty

/-- A client whose call has not returned gets nothing else done on its connection: no other request of it is taken, be it
without items. -/
theorem C139_own_fails (workers conns n : Nat) (hn : 1 ≤ n) (hc : 1 ≤ conns) (evs : List Ev)
    (hw : ∀ v, .ended ⟨0, 0, 0⟩ v ∉ (run workers (init conns) (.take 0 n :: evs)).log) :
    ∀ r m, .taken 0 r m ∈ (run workers (init conns) (.take 0 n :: evs)).log → r = 0 ∧ m = n := by
  have h0 : (init conns).conns[0]? = some none := by
    unfold init; dsimp only; rw [List.getElem?_replicate, if_pos (Nat.lt_of_lt_of_le Nat.zero_lt_one hc)]
  have hfirst : run workers (init conns) [.take 0 n] = take (init conns) 0 n := rfl
  have hlog0 : (run workers (init conns) [.take 0 n]).log = [.taken 0 0 n] := by
    rw [hfirst]; unfold take; rw [h0]; rfl
  have key : (∀ r m, .taken 0 r m ∈ (run workers (init conns) (.take 0 n :: evs)).log → r = 0 ∧ m = n) ∧
      .taken 0 0 n ∈ (run workers (init conns) (.take 0 n :: evs)).log := by
    induction evs using snocInd with
    | nil =>
      rw [hlog0]
      constructor
      · intro r m hm
        have := List.mem_singleton.1 hm
        injection this with _ h1 h2
        exact ⟨h1, h2⟩
      · exact List.mem_singleton.2 rfl
    | append_singleton evs e ih =>
      have hr : run workers (init conns) (.take 0 n :: (evs ++ [e])) =
          step workers (run workers (init conns) (.take 0 n :: evs)) e := by
        rw [← List.cons_append, run_append]; rfl
      rw [hr] at hw ⊢
      obtain ⟨l, hl⟩ := log_step workers (run workers (init conns) (.take 0 n :: evs)) e
      have hw' : ∀ v, .ended ⟨0, 0, 0⟩ v ∉ (run workers (init conns) (.take 0 n :: evs)).log := by
        intro v hm
        refine hw v ?_
        rw [hl]; exact List.mem_append_left _ hm
      obtain ⟨h1, h2⟩ := ih hw'
      have hI := inv_run (inv_init workers conns) (.take 0 n :: evs)
      generalize run workers (init conns) (.take 0 n :: evs) = s at *
      refine ⟨?_, by rw [hl]; exact List.mem_append_left _ h2⟩
      have hjob : ∃ j, s.conns[0]? = some (some j) := by
        rcases hI.open_ 0 0 n h2 with ⟨rs, hrs⟩ | ⟨j, hj, _⟩
        · obtain ⟨pre, post, hsp⟩ := List.append_of_mem hrs
          obtain ⟨g1, _, g3, _⟩ := hI.faithful pre 0 0 rs post hsp
          have hlen := (h1 0 rs.length (by rw [hsp]; exact List.mem_append_left _ g1)).2
          obtain ⟨v, _, hv⟩ := g3 0 (by omega)
          have hm : Seen.ended ⟨0, 0, 0⟩ v ∈ pre.filter (isEnd 0 0) := by rw [hv]; exact List.mem_singleton.2 rfl
          refine absurd ?_ (hw' v)
          rw [hsp]; exact List.mem_append_left _ (List.mem_filter.1 hm).1
        · exact ⟨j, hj⟩
      obtain ⟨j, hj⟩ := hjob
      intro r m hm
      have hst : step workers s e = match e with
          | .take c n => take s c n
          | .submit c => submit s c
          | .begin_ => begin_ workers s
          | .finish k v => finish s k v
          | .answer c => answer s c := by
        unfold step
        rw [if_neg (by rw [hI.calm]; exact Bool.false_ne_true)]
        cases e <;> rfl
      have hq : ∀ (s' : State) (x : Seen), step workers s e = s' → s'.log = s.log ++ [x] → x ≠ .taken 0 r m →
          r = 0 ∧ m = n := by
        intro s' x e1 e2 e3
        rw [e1, e2] at hm
        rcases mem_snoc.1 hm with hm | hm
        · exact h1 r m hm
        · exact absurd hm.symm e3
      have hsame : step workers s e = s → r = 0 ∧ m = n := fun e1 => by rw [e1] at hm; exact h1 r m hm
      cases e with
      | take c k =>
        change step workers s (.take c k) = take s c k at hst
        unfold take at hst
        split at hst
        · rename_i hcn
          refine hq _ _ hst rfl ?_
          intro he
          injection he with he _ _
          rw [he, hj] at hcn; cases hcn
        · exact hsame hst
      | submit c =>
        change step workers s (.submit c) = submit s c at hst
        unfold submit at hst
        split at hst
        · split at hst
          · exact hq _ _ hst rfl (by intro h; cases h)
          · exact hsame hst
        · exact hsame hst
      | begin_ =>
        change step workers s .begin_ = begin_ workers s at hst
        unfold begin_ at hst
        split at hst
        · split at hst
          · exact hq _ _ hst rfl (by intro h; cases h)
          · exact hsame hst
        · exact hsame hst
      | finish k v =>
        change step workers s (.finish k v) = finish s k v at hst
        unfold finish at hst
        split at hst
        · rename_i t hk
          refine hq _ (.ended t v) rfl ?_ (by intro h; cases h)
          rw [hst]
          dsimp only
          split
          · split <;> rfl
          · rfl
        · exact hsame hst
      | answer c =>
        change step workers s (.answer c) = answer s c at hst
        unfold answer at hst
        split at hst
        · split at hst
          · exact hq _ _ hst rfl (by intro h; cases h)
          · exact hsame hst
        · exact hsame hst
  exact key.1

/-! ### A history -/

/-- Two clients, two workers: a request of three items, one of two and one without. -/
def exEvs : List Ev :=
  [.take 0 3, .submit 0, .take 1 2, .submit 1, .begin_, .submit 0, .begin_, .submit 0, .submit 1, .begin_, .finish 1 7, .answer 1,
    .begin_, .finish 0 4, .begin_, .finish 0 5, .begin_, .finish 0 6, .answer 0, .finish 0 8, .answer 1, .take 1 0, .answer 1]

example : (run 2 (init 2) exEvs).log.filterMap (fun | .answered c r rs => some (c, r, rs) | _ => none) =
    [(0, 0, [some 4, some 5, some 6]), (1, 1, [some 7, some 8]), (1, 2, [])] ∧
    (begins (run 2 (init 2) exEvs).log).map (fun t => (t.conn, t.item)) = [(0, 0), (1, 0), (0, 1), (0, 2), (1, 1)] := by
  decide +kernel
/-- When the items of both have been submitted, three begin, five end and two answers go out; then nothing is left. -/
example : left (run 2 (init 2) (exEvs.take 9)) = 10 ∧ left (run 2 (init 2) exEvs) = 0 := by decide +kernel
/-- Four methods that wait for a write; the write is taken and never answered, a request without items is. -/
example : (run 4 (init 3) (occupy 4 ++ [.take 1 1, .submit 1, .begin_, .take 2 0, .answer 2, .answer 1])).log.filterMap
    (fun | .answered c r rs => some (c, r, rs) | _ => none) = [(2, 2, [])] ∧
    (run 4 (init 3) (occupy 4)).working.length = 4 := by decide +kernel
/-- With one worker more it would be. -/
example : (run 5 (init 3) (occupy 4 ++ [.take 1 1, .submit 1, .begin_, .finish 4 9, .answer 1])).log.filterMap
    (fun | .answered c r rs => some (c, r, rs) | _ => none) = [(1, 1, [some 9])] := by decide +kernel

end Opcua.Workers
