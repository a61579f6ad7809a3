import Verif.Model.Pool
import Verif.Lemmas.Lists
import Verif.Props.Batch
import Verif.Props.Range

/-! C128: variables behave as if requests came one after the other. -/

namespace Opcua.Pool

open Opcua.Batch (Prog Space readItem writeItem store)

deriving instance DecidableEq for Res
deriving instance DecidableEq for Seen

namespace Spec

/-- Item `i` of request `r`. -/
abbrev Id := Nat × Nat

/-- What an item does if nothing else happens: a read gives the value, a write is the one of Model/Write.lean. -/
def apply (c : Write.Caps) (s : Space) : Op → Space × Res
  | .read id range => (s, .value (Range.readRange (s id).value range))
  | .write id v range =>
    match Write.writeValue c (s id) v range with
    | none => (s, .status none)
    | some (n, st) => (fun x => if x = id then n else s x, .status (some st))
  | .set id w => (fun x => if x = id then { s id with value := w } else s x, .done)

/-- A list of items done one after the other, each with the result that it has alone. -/
def Legal (c : Write.Caps) : Space → List (Id × Op × Res) → Prop
  | _, [] => True
  | s, e :: L => (apply c s e.2.1).2 = e.2.2 ∧ Legal c (apply c s e.2.1).1 L

/-- Request `a` was answered before request `b` was sent. -/
def Precedes (log : List Seen) (a b : Nat) : Prop :=
  ∃ l1 l2 rs its, log = l1 ++ .answered a rs :: l2 ∧ .sent b its ∈ l2

def Asked (log : List Seen) (a : Id) (op : Op) : Prop := ∃ its, .sent a.1 its ∈ log ∧ its[a.2]? = some op

/-- `L` is an order of items that explains all answers: every item once, items that were asked for, with the results
that they have one after the other, every result that was answered, and in the order of time. -/
structure Explains (c : Write.Caps) (s : Space) (log : List Seen) (L : List (Id × Op × Res)) : Prop where
  once : (L.map (·.1)).Nodup
  asked : ∀ e ∈ L, Asked log e.1 e.2.1
  legal : Legal c s L
  answers : ∀ r rs, .answered r rs ∈ log → ∃ its, .sent r its ∈ log ∧ rs.length = its.length ∧
    ∀ i op, its[i]? = some op → ∃ res, rs[i]? = some (some res) ∧ ((r, i), op, res) ∈ L
  order : ∀ (i j : Nat) (a b : Id × Op × Res), L[i]? = some a → L[j]? = some b → Precedes log a.1.1 b.1.1 → i < j

/-- An item under way. -/
def Pending (log : List Seen) (a : Id) (op : Op) : Prop := Asked log a op ∧ ∀ rs, .answered a.1 rs ∉ log

/-- A write of a part of a variable, and another change of the same variable. -/
def Clash : Op → Op → Prop
  | .write x _ range, .write y _ _ => x = y ∧ range ≠ []
  | .write x _ range, .set y _ => x = y ∧ range ≠ []
  | _, _ => False

/-- Never is a part of a variable written while something else changes the variable. -/
def Apart (log : List Seen) : Prop :=
  ∀ l, l <+: log → ∀ a b op op', a ≠ b → Pending l a op → Pending l b op' → ¬ Clash op op'

end Spec

open Spec

/-- The state after a list of items. -/
def final (c : Write.Caps) : Space → List (Id × Op × Res) → Space
  | s, [] => s
  | s, e :: L => final c (apply c s e.2.1).1 L

theorem final_snoc (c : Write.Caps) (e : Id × Op × Res) : ∀ (s : Space) (L : List (Id × Op × Res)),
    final c s (L ++ [e]) = (apply c (final c s L) e.2.1).1
  | _, [] => rfl
  | s, x :: L => final_snoc c e (apply c s x.2.1).1 L

theorem legal_snoc (c : Write.Caps) (e : Id × Op × Res) : ∀ (s : Space) (L : List (Id × Op × Res)),
    Legal c s (L ++ [e]) ↔ Legal c s L ∧ (apply c (final c s L) e.2.1).2 = e.2.2
  | _, [] => by simp [Legal, final]
  | s, x :: L => by simp [Legal, final, legal_snoc c e _ L, and_assoc]

def target : Op → Nat
  | .read id _ => id
  | .write id _ _ => id
  | .set id _ => id

def isRead : Op → Bool
  | .read _ _ => true
  | _ => false

/-- Only values change, and only that of the target. -/
theorem apply_frame (c : Write.Caps) (s : Space) (op : Op) (x : Nat) :
    ((apply c s op).1 x).type = (s x).type ∧ ((apply c s op).1 x).rank = (s x).rank ∧
    ((apply c s op).1 x).historizing = (s x).historizing ∧
    (x ≠ target op ∨ isRead op = true → (apply c s op).1 x = s x) := by
  cases op with
  | read id r => exact ⟨rfl, rfl, rfl, fun _ => rfl⟩
  | set id w =>
    simp only [apply, target, isRead]
    by_cases h : x = id
    · subst h; simp
    · simp [h]
  | write id v r =>
    simp only [apply, target, isRead]
    have hn : ∀ n st, Write.writeValue c (s id) v r = some (n, st) →
        n.type = (s id).type ∧ n.rank = (s id).rank ∧ n.historizing = (s id).historizing := by
      intro n st hw
      unfold Write.writeValue at hw
      dsimp only at hw
      split at hw
      · split at hw
        · cases hw
        · cases hw; exact ⟨rfl, rfl, rfl⟩
        · unfold Write.setValue at hw
          split at hw
          · cases hw
          · rename_i hset
            split at hset
            · cases hset
            · cases hset; cases hw; exact ⟨rfl, rfl, rfl⟩
      · cases hw; exact ⟨rfl, rfl, rfl⟩
    cases hw : Write.writeValue c (s id) v r with
    | none => exact ⟨rfl, rfl, rfl, fun _ => rfl⟩
    | some p =>
      obtain ⟨n, st⟩ := p
      by_cases h : x = id
      · subst h; simpa using hn n st hw
      · simp [h]

/-- A write has seen a value, and goes on to store. -/
def Mid (c : Write.Caps) (s : Space) (id : Nat) (v : Range.Val) (range : Range.Text) (w : Range.Val) : Prop :=
  Write.checkValue c (s id).type (s id).rank (Write.convert (s id).type (s id).rank v) = .good ∧
    Range.writeRange (s id).value (Write.convert (s id).type (s id).rank v) range = .ok w

def storing (id : Nat) (w : Range.Val) : Prog Space Res :=
  .act (fun s => store s id w) (fun _ => .done (.status (some .good)))

theorem mid_apply {c : Write.Caps} {s : Space} {id : Nat} {v : Range.Val} {range : Range.Text} {w : Range.Val}
    (h : Mid c s id v range w) (hh : (s id).historizing = false) :
    apply c s (.write id v range) = (store s id w, .status (some .good)) := by
  obtain ⟨h1, h2⟩ := h
  have hs : Write.setValue (s id) w = some { s id with value := w } := by simp [Write.setValue, hh]
  simp only [apply, Write.writeValue, h1, h2, hs]
  rfl

/-- The first action of a write. -/
theorem write_first (c : Write.Caps) (id : Nat) (v : Range.Val) (range : Range.Text) :
    ∃ k, prog c (.write id v range) = .act (fun s => s) k ∧ ∀ s : Space,
      (∃ res, k s = .done res ∧ apply c s (.write id v range) = (s, res)) ∨
      (∃ w, k s = storing id w ∧ Mid c s id v range w) := by
  refine ⟨_, rfl, ?_⟩
  intro s
  dsimp only
  have hself : (fun x => if x = id then s id else s x) = s := by
    funext x; by_cases h : x = id <;> simp [h]
  have key : ∀ st : Write.Status, Write.checkValue c (s id).type (s id).rank (Write.convert (s id).type (s id).rank v) = st →
      st ≠ .good → Write.writeValue c (s id) v range = some (s id, st) := by
    intro st h1 h2
    unfold Write.writeValue
    dsimp only
    rw [h1]
    cases st <;> first | rfl | exact absurd rfl h2
  cases hc : Write.checkValue c (s id).type (s id).rank (Write.convert (s id).type (s id).rank v) with
  | good =>
    dsimp only
    cases hw : Range.writeRange (s id).value (Write.convert (s id).type (s id).rank v) range with
    | panic =>
      refine Or.inl ⟨_, rfl, ?_⟩
      simp [apply, Write.writeValue, hc, hw]
    | bad st =>
      refine Or.inl ⟨_, rfl, ?_⟩
      simp [apply, Write.writeValue, hc, hw, hself]
    | ok w => exact Or.inr ⟨w, rfl, hc, hw⟩
  | _ =>
    refine Or.inl ⟨_, rfl, ?_⟩
    simp only [apply, key _ hc (by simp), hself]

/-! ### The invariant -/

/-- How far an item is, with its task, its result and the order so far. -/
inductive Stage (c : Write.Caps) (s : Space) (L : List (Id × Op × Res)) (id : Id) (op : Op) :
    Option (Prog Space Res) → Option Res → Prop
  | fresh : id ∉ L.map (·.1) → Stage c s L id op (some (prog c op)) none
  | mid (x : Nat) (v : Range.Val) (range : Range.Text) (w : Range.Val) : op = .write x v range → Mid c s x v range w →
      id ∉ L.map (·.1) → Stage c s L id op (some (storing x w)) none
  | done (res : Res) : (id, op, res) ∈ L → Stage c s L id op (some (.done res)) none
  | over (res : Res) : (id, op, res) ∈ L → Stage c s L id op none (some res)

structure Inv (c : Write.Caps) (s0 : Space) (s : State) (L : List (Id × Op × Res)) : Prop where
  final : final c s0 L = s.shared
  legal : Legal c s0 L
  once : (L.map (·.1)).Nodup
  plain : ∀ x, (s.shared x).historizing = false
  sizes : ∀ (r : Nat) (q : Req), s.reqs[r]? = some q → q.tasks.length = q.items.length ∧ q.results.length = q.items.length
  stages : ∀ (r : Nat) (q : Req), s.reqs[r]? = some q → ∀ (i : Nat) (op : Op), q.items[i]? = some op →
    ∃ t x, q.tasks[i]? = some t ∧ q.results[i]? = some x ∧ Stage c s.shared L (r, i) op t x
  ids : ∀ e ∈ L, ∃ q : Req, s.reqs[e.1.1]? = some q ∧ q.items[e.1.2]? = some e.2.1
  sent : ∀ r its, .sent r its ∈ s.log ↔ ∃ q : Req, s.reqs[r]? = some q ∧ q.items = its
  ans : ∀ r rs, .answered r rs ∈ s.log → ∃ q : Req, s.reqs[r]? = some q ∧ q.answered = true ∧ rs = q.results ∧
    ∀ t ∈ q.tasks, t = none
  ans' : ∀ (r : Nat) (q : Req), s.reqs[r]? = some q → q.answered = true → ∃ rs, .answered r rs ∈ s.log
  order : ∀ (i j : Nat) (a b : Id × Op × Res), L[i]? = some a → L[j]? = some b → Precedes s.log a.1.1 b.1.1 → i < j

theorem inv_init (c : Write.Caps) (s0 : Space) (h : ∀ x, (s0 x).historizing = false) : Inv c s0 (init s0) [] where
  final := rfl
  legal := trivial
  once := by simp
  plain := h
  sizes := by simp [init]
  stages := by simp [init]
  ids := by simp
  sent := by simp [init]
  ans := by simp [init]
  ans' := by simp [init]
  order := by simp

theorem precedes_snoc {log : List Seen} {e : Seen} {a b : Nat} (h : Precedes (log ++ [e]) a b) :
    Precedes log a b ∨ ∃ its, e = .sent b its := by
  obtain ⟨l1, l2, rs, its, h1, h2⟩ := h
  rcases List.eq_nil_or_concat l2 with rfl | ⟨l2', x, rfl⟩
  · simp at h2
  · rw [List.concat_eq_append] at h1 h2
    have h3 : log ++ [e] = (l1 ++ .answered a rs :: l2') ++ [x] := by rw [h1]; simp
    obtain ⟨h4, h5⟩ := List.append_inj' h3 rfl
    simp only [List.cons.injEq, and_true] at h5
    rcases List.mem_append.1 h2 with h2 | h2
    · exact Or.inl ⟨l1, l2', rs, its, h4, h2⟩
    · simp only [List.mem_singleton] at h2
      exact Or.inr ⟨its, h5.trans h2.symm⟩

theorem inv_arrive {c s0 s L} (I : Inv c s0 s L) (items : List Op) : Inv c s0 (step c s (.arrive items)) L := by
  have hnew : ∀ (r : Nat) (q : Req), (s.reqs ++ [(⟨items, (items.map (prog c)).map some, (items.map (prog c)).map fun _ => none, false⟩ : Req)])[r]? = some q →
      s.reqs[r]? = some q ∨ (r = s.reqs.length ∧ q = ⟨items, (items.map (prog c)).map some, (items.map (prog c)).map fun _ => none, false⟩) := by
    intro r q h
    rcases Nat.lt_trichotomy r s.reqs.length with hl | hl | hl
    · rw [List.getElem?_append_left hl] at h; exact Or.inl h
    · subst hl; rw [List.getElem?_append_right (Nat.le_refl _)] at h; simp only [Nat.sub_self, List.getElem?_cons_zero, Option.some.injEq] at h; exact Or.inr ⟨rfl, h.symm⟩
    · rw [List.getElem?_append_right (by omega)] at h
      have : r - s.reqs.length ≠ 0 := by omega
      cases hk : r - s.reqs.length with
      | zero => omega
      | succ k => rw [hk] at h; simp at h
  have hold : ∀ (r : Nat) (q : Req), s.reqs[r]? = some q →
      (s.reqs ++ [(⟨items, (items.map (prog c)).map some, (items.map (prog c)).map fun _ => none, false⟩ : Req)])[r]? = some q := by
    intro r q h
    rw [List.getElem?_append_left (List.getElem?_eq_some_iff.1 h).1]; exact h
  have hno : ∀ i, (s.reqs.length, i) ∉ L.map (·.1) := by
    intro i hm
    obtain ⟨e, he, h1⟩ := List.mem_map.1 hm
    obtain ⟨q, hq, -⟩ := I.ids e he
    rw [h1] at hq
    simp at hq
  constructor
  case final => exact I.final
  case legal => exact I.legal
  case once => exact I.once
  case plain => exact I.plain
  case sizes =>
    intro r q h
    rcases hnew r q h with h | ⟨-, rfl⟩
    · exact I.sizes r q h
    · simp
  case stages =>
    intro r q h i op ho
    rcases hnew r q h with h | ⟨rfl, rfl⟩
    · exact I.stages r q h i op ho
    · refine ⟨some (prog c op), none, ?_, ?_, .fresh (hno i)⟩
      · simp only at ho; simp [ho]
      · simp only at ho; simp [ho]
  case ids =>
    intro e he
    obtain ⟨q, h1, h2⟩ := I.ids e he
    exact ⟨q, hold _ _ h1, h2⟩
  case sent =>
    intro r its
    simp only [step, List.mem_append, List.mem_singleton, Seen.sent.injEq]
    constructor
    · rintro (h | ⟨rfl, rfl⟩)
      · obtain ⟨q, h1, h2⟩ := (I.sent r its).1 h
        exact ⟨q, hold _ _ h1, h2⟩
      · exact ⟨_, by rw [List.getElem?_append_right (Nat.le_refl _)]; simp; rfl, rfl⟩
    · rintro ⟨q, h1, h2⟩
      rcases hnew r q h1 with h | ⟨rfl, rfl⟩
      · exact Or.inl ((I.sent r its).2 ⟨q, h, h2⟩)
      · exact Or.inr ⟨rfl, h2.symm⟩
  case ans =>
    intro r rs h
    rcases List.mem_append.1 h with h | h
    · obtain ⟨q, h1, h2⟩ := I.ans r rs h
      exact ⟨q, hold _ _ h1, h2⟩
    · simp at h
  case ans' =>
    intro r q h ha
    rcases hnew r q h with h | ⟨-, rfl⟩
    · obtain ⟨rs, hr⟩ := I.ans' r q h ha
      exact ⟨rs, List.mem_append_left _ hr⟩
    · cases ha
  case order =>
    intro i j a b h1 h2 h3
    rcases precedes_snoc h3 with h3 | ⟨its, h3⟩
    · exact I.order i j a b h1 h2 h3
    · have hb := (Seen.sent.inj h3).1
      have := hno b.1.2
      rw [hb] at this
      exact absurd (List.mem_map.2 ⟨b, List.mem_of_getElem? h2, rfl⟩) this

theorem get_set {l : List Req} {r : Nat} {q q' : Req} (hq : l[r]? = some q) (r' : Nat) (x : Req) :
    (l.set r q')[r']? = some x ↔ (r' = r ∧ x = q') ∨ (r' ≠ r ∧ l[r']? = some x) := by
  rw [List.getElem?_set]
  have hl := (List.getElem?_eq_some_iff.1 hq).1
  by_cases h : r = r'
  · subst h
    simp only [if_true, hl, Option.some.injEq, true_and, ne_eq, not_true, false_and, or_false]
    exact ⟨fun h => h.symm, fun h => h.symm⟩
  · have h' : ¬ r' = r := fun e => h e.symm
    simp [h, h']

theorem stage_mono {c : Write.Caps} {s s' : Space} {L : List (Id × Op × Res)} {id id' : Id} {op op' : Op} {res : Res}
    {t : Option (Prog Space Res)} {x : Option Res} (h : Stage c s L id op t x) (hne : id ≠ id')
    (hm : id ∉ L.map (·.1) → t ≠ none → ∀ x v range w, op = .write x v range → Mid c s x v range w → Mid c s' x v range w) :
    Stage c s' (L ++ [(id', op', res)]) id op t x := by
  have hn : id ∉ L.map (·.1) → id ∉ (L ++ [(id', op', res)]).map (·.1) := by
    intro h1 h2
    rw [List.map_append, List.mem_append] at h2
    rcases h2 with h2 | h2
    · exact h1 h2
    · simp at h2; exact hne h2
  cases h with
  | fresh h1 => exact .fresh (hn h1)
  | mid x v range w h1 h2 h3 => exact .mid x v range w h1 (hm h3 (by simp) x v range w h1 h2) (hn h3)
  | done res h1 => exact .done res (List.mem_append_left _ h1)
  | over res h1 => exact .over res (List.mem_append_left _ h1)

/-- An item of a request that has a task left is under way. -/
theorem pending_of {c s0 s L} (I : Inv c s0 s L) {r i : Nat} {q : Req} {op : Op} {p : Prog Space Res}
    (hq : s.reqs[r]? = some q) (ho : q.items[i]? = some op) (ht : q.tasks[i]? = some (some p)) :
    Pending s.log (r, i) op := by
  refine ⟨⟨q.items, (I.sent r _).2 ⟨q, hq, rfl⟩, ho⟩, ?_⟩
  intro rs hr
  obtain ⟨q', h1, -, -, h2⟩ := I.ans r rs hr
  rw [hq] at h1
  cases h1
  exact absurd (h2 _ (List.mem_of_getElem? ht)) (by simp)

/-- A value that a write of the same variable goes on from is not changed by another item, unless they clash. -/
theorem mid_stable {c : Write.Caps} {s : Space} {op : Op} {x : Nat} {v : Range.Val} {range : Range.Text} {w : Range.Val}
    (h : Mid c s x v range w) (hc : ¬ Clash (.write x v range) op) : Mid c (apply c s op).1 x v range w := by
  obtain ⟨f1, f2, -, f4⟩ := apply_frame c s op x
  unfold Mid at h ⊢
  rw [f1, f2]
  refine ⟨h.1, ?_⟩
  by_cases hr : range = []
  · subst hr
    have := h.2
    unfold Range.writeRange at this ⊢
    simpa using this
  · by_cases hx : x ≠ target op ∨ isRead op = true
    · rw [f4 hx]; exact h.2
    · exfalso
      apply hc
      cases op with
      | read y r => exact absurd (Or.inr rfl) hx
      | write y v' r' =>
        refine ⟨?_, hr⟩
        rcases Nat.decEq x y with h | h
        · exact absurd (Or.inl h) hx
        · exact h
      | set y w' =>
        refine ⟨?_, hr⟩
        rcases Nat.decEq x y with h | h
        · exact absurd (Or.inl h) hx
        · exact h

theorem inv_commit {c s0 s L} (I : Inv c s0 s L) (hap : Apart s.log) {r i : Nat} {q : Req} {op : Op}
    {next : Space → Space} {k : Space → Prog Space Res} {res : Res} (hq : s.reqs[r]? = some q)
    (ho : q.items[i]? = some op) (ht : q.tasks[i]? = some (some (.act next k))) (hx : q.results[i]? = some none)
    (hn : (r, i) ∉ L.map (·.1)) (h1 : apply c s.shared op = (next s.shared, res)) :
    Inv c s0 { s with
      shared := next s.shared
      reqs := s.reqs.set r { q with
        tasks := q.tasks.set i (some (.done res))
        results := q.results } } (L ++ [((r, i), op, res)]) := by
  have hil := (List.getElem?_eq_some_iff.1 ht).1
  have e1 : next s.shared = (apply c s.shared op).1 := by rw [h1]
  constructor
  case final => rw [final_snoc, I.final, e1]
  case legal => exact (legal_snoc c _ _ _).2 ⟨I.legal, by rw [I.final, h1]⟩
  case once =>
    rw [List.map_append, List.nodup_append]
    refine ⟨I.once, by simp, ?_⟩
    intro a ha b hb e
    simp at hb
    rw [e, hb] at ha
    exact hn ha
  case plain => intro x; rw [e1, (apply_frame c s.shared op x).2.2.1]; exact I.plain x
  case sizes =>
    intro r' q' h
    rcases (get_set hq r' q').1 h with ⟨rfl, rfl⟩ | ⟨-, h⟩
    · simpa using I.sizes r' q hq
    · exact I.sizes r' q' h
  case stages =>
    intro r' q' h i' op' ho'
    have hmono : ∀ (q : Req), s.reqs[r']? = some q → q.items[i']? = some op' → (r', i') ≠ (r, i) → ∀ t x,
        q.tasks[i']? = some t → Stage c s.shared L (r', i') op' t x →
        Stage c (next s.shared) (L ++ [((r, i), op, res)]) (r', i') op' t x := by
      intro q2 hq2 ho2 hne t x ht2 hst
      refine stage_mono hst hne ?_
      intro _ htn y v range w he hm
      rw [e1]
      refine mid_stable hm ?_
      cases t with
      | none => exact absurd rfl htn
      | some p =>
        have p1 := pending_of I hq2 ho2 ht2
        have p2 := pending_of I hq ho ht
        rw [← he]
        exact hap s.log (List.prefix_refl _) _ _ _ _ hne p1 p2
    rcases (get_set hq r' q').1 h with ⟨rfl, rfl⟩ | ⟨hne, h⟩
    · simp only at ho' ⊢
      by_cases hi : i' = i
      · subst hi
        rw [ho] at ho'
        cases ho'
        exact ⟨some (.done res), none, by rw [List.getElem?_set_self hil], hx, .done res (by simp)⟩
      · obtain ⟨t, x, g1, g2, g3⟩ := I.stages r' q hq i' op' ho'
        refine ⟨t, x, by rw [List.getElem?_set_ne (fun e => hi e.symm)]; exact g1, g2, ?_⟩
        exact hmono q hq ho' (by simp [hi]) t x g1 g3
    · obtain ⟨t, x, g1, g2, g3⟩ := I.stages r' q' h i' op' ho'
      exact ⟨t, x, g1, g2, hmono q' h ho' (by simp [hne]) t x g1 g3⟩
  case ids =>
    intro e he
    have : ∃ q0 : Req, s.reqs[e.1.1]? = some q0 ∧ q0.items[e.1.2]? = some e.2.1 := by
      rcases List.mem_append.1 he with he | he
      · exact I.ids e he
      · simp at he; subst he; exact ⟨q, hq, ho⟩
    obtain ⟨q0, g1, g2⟩ := this
    by_cases hr : e.1.1 = r
    · rw [hr, hq] at g1
      cases g1
      exact ⟨_, (get_set hq _ _).2 (Or.inl ⟨hr, rfl⟩), g2⟩
    · exact ⟨q0, (get_set hq _ _).2 (Or.inr ⟨hr, g1⟩), g2⟩
  case sent =>
    intro r' its
    refine (I.sent r' its).trans ?_
    constructor
    · rintro ⟨q0, g1, g2⟩
      by_cases hr : r' = r
      · subst hr
        rw [hq] at g1
        cases g1
        exact ⟨_, (get_set hq _ _).2 (Or.inl ⟨rfl, rfl⟩), g2⟩
      · exact ⟨q0, (get_set hq _ _).2 (Or.inr ⟨hr, g1⟩), g2⟩
    · rintro ⟨q0, g1, g2⟩
      rcases (get_set hq _ _).1 g1 with ⟨rfl, rfl⟩ | ⟨-, g1⟩
      · exact ⟨q, hq, g2⟩
      · exact ⟨q0, g1, g2⟩
  case ans =>
    intro r' rs hr
    obtain ⟨q0, g1, g2, g3, g4⟩ := I.ans r' rs hr
    by_cases he : r' = r
    · subst he
      rw [hq] at g1
      cases g1
      exact absurd (g4 _ (List.mem_of_getElem? ht)) (by simp)
    · exact ⟨q0, (get_set hq _ _).2 (Or.inr ⟨he, g1⟩), g2, g3, g4⟩
  case ans' =>
    intro r' q' h ha
    rcases (get_set hq _ _).1 h with ⟨rfl, rfl⟩ | ⟨-, h⟩
    · exact I.ans' r' q hq ha
    · exact I.ans' r' q' h ha
  case order =>
    intro m n a b ha hb hp
    rcases Nat.lt_trichotomy n L.length with hl | hl | hl
    · rw [List.getElem?_append_left hl] at hb
      rcases Nat.lt_or_ge m L.length with hm | hm
      · rw [List.getElem?_append_left hm] at ha
        exact I.order m n a b ha hb hp
      · exfalso
        rw [List.getElem?_append_right hm] at ha
        have ha : a = ((r, i), op, res) := by
          cases hk : m - L.length with
          | zero => rw [hk] at ha; simpa using ha.symm
          | succ j => rw [hk] at ha; simp at ha
        subst ha
        obtain ⟨l1, l2, rs, its, e, -⟩ := hp
        exact (pending_of I hq ho ht).2 rs (by show _ ∈ s.log; rw [show s.log = _ from e]; simp)
    · have hm : m < L.length + 1 := by
        have := (List.getElem?_eq_some_iff.1 ha).1
        simpa using this
      rcases Nat.lt_or_ge m L.length with hm' | hm'
      · omega
      · exfalso
        have hm : m = L.length := by omega
        subst hm
        have ha : a = ((r, i), op, res) := by simpa using ha.symm
        subst ha
        obtain ⟨l1, l2, rs, its, e, -⟩ := hp
        exact (pending_of I hq ho ht).2 rs (by show _ ∈ s.log; rw [show s.log = _ from e]; simp)
    · have := (List.getElem?_eq_some_iff.1 hb).1
      simp at this
      omega

/-- A step that only moves an item on. -/
theorem inv_quiet {c s0 s L} (I : Inv c s0 s L) {r i : Nat} {q : Req} {op : Op} {p : Prog Space Res}
    {t : Option (Prog Space Res)} {x : Option Res} (hq : s.reqs[r]? = some q) (ho : q.items[i]? = some op)
    (ht : q.tasks[i]? = some (some p)) (hst : Stage c s.shared L (r, i) op t x) :
    Inv c s0 { s with
      reqs := s.reqs.set r { q with
        tasks := q.tasks.set i t
        results := q.results.set i x } } L := by
  have hil := (List.getElem?_eq_some_iff.1 ht).1
  have hrl : i < q.results.length := by have := I.sizes r q hq; omega
  constructor
  case final => exact I.final
  case legal => exact I.legal
  case once => exact I.once
  case plain => exact I.plain
  case sizes =>
    intro r' q' h
    rcases (get_set hq r' q').1 h with ⟨rfl, rfl⟩ | ⟨-, h⟩
    · simpa using I.sizes r' q hq
    · exact I.sizes r' q' h
  case stages =>
    intro r' q' h i' op' ho'
    rcases (get_set hq r' q').1 h with ⟨rfl, rfl⟩ | ⟨hne, h⟩
    · simp only at ho' ⊢
      by_cases hi : i' = i
      · subst hi
        rw [ho] at ho'
        cases ho'
        exact ⟨t, x, by rw [List.getElem?_set_self hil], by rw [List.getElem?_set_self hrl], hst⟩
      · obtain ⟨t, x, g1, g2, g3⟩ := I.stages r' q hq i' op' ho'
        exact ⟨t, x, by rw [List.getElem?_set_ne (fun e => hi e.symm)]; exact g1,
          by rw [List.getElem?_set_ne (fun e => hi e.symm)]; exact g2, g3⟩
    · exact I.stages r' q' h i' op' ho'
  case ids =>
    intro e he
    obtain ⟨q0, g1, g2⟩ := I.ids e he
    by_cases hr : e.1.1 = r
    · rw [hr, hq] at g1
      cases g1
      exact ⟨_, (get_set hq _ _).2 (Or.inl ⟨hr, rfl⟩), g2⟩
    · exact ⟨q0, (get_set hq _ _).2 (Or.inr ⟨hr, g1⟩), g2⟩
  case sent =>
    intro r' its
    refine (I.sent r' its).trans ?_
    constructor
    · rintro ⟨q0, g1, g2⟩
      by_cases hr : r' = r
      · subst hr
        rw [hq] at g1
        cases g1
        exact ⟨_, (get_set hq _ _).2 (Or.inl ⟨rfl, rfl⟩), g2⟩
      · exact ⟨q0, (get_set hq _ _).2 (Or.inr ⟨hr, g1⟩), g2⟩
    · rintro ⟨q0, g1, g2⟩
      rcases (get_set hq _ _).1 g1 with ⟨rfl, rfl⟩ | ⟨-, g1⟩
      · exact ⟨q, hq, g2⟩
      · exact ⟨q0, g1, g2⟩
  case ans =>
    intro r' rs hr
    obtain ⟨q0, g1, g2, g3, g4⟩ := I.ans r' rs hr
    by_cases he : r' = r
    · subst he
      rw [hq] at g1
      cases g1
      exact absurd (g4 _ (List.mem_of_getElem? ht)) (by simp)
    · exact ⟨q0, (get_set hq _ _).2 (Or.inr ⟨he, g1⟩), g2, g3, g4⟩
  case ans' =>
    intro r' q' h ha
    rcases (get_set hq _ _).1 h with ⟨rfl, rfl⟩ | ⟨-, h⟩
    · exact I.ans' r' q hq ha
    · exact I.ans' r' q' h ha
  case order => exact I.order

theorem set_same {α : Type} {l : List α} {r : Nat} {q : α} (hq : l[r]? = some q) : l.set r q = l := by
  apply List.ext_getElem?
  intro n
  rw [List.getElem?_set]
  have hl := (List.getElem?_eq_some_iff.1 hq).1
  by_cases h : r = n
  · subst h
    rw [if_pos rfl, if_pos hl, hq]
  · rw [if_neg h]

theorem inv_task {c s0 s L} (I : Inv c s0 s L) (hap : Apart s.log) (r i : Nat) :
    ∃ L', Inv c s0 (step c s (.task r i)) L' := by
  cases hq : s.reqs[r]? with
  | none => exact ⟨L, by simpa only [step, hq] using I⟩
  | some q =>
    have hidle : Batch.stepTask ⟨s.shared, q.tasks, q.results⟩ i = ⟨s.shared, q.tasks, q.results⟩ →
        Inv c s0 (step c s (.task r i)) L := by
      intro h
      simp only [step, hq, h]
      rw [show ({ q with tasks := q.tasks, results := q.results } : Req) = q from rfl, set_same hq]
      exact I
    cases ht : q.tasks[i]? with
    | none => exact ⟨L, hidle (by simp [Batch.stepTask, ht])⟩
    | some t =>
      cases t with
      | none => exact ⟨L, hidle (by simp [Batch.stepTask, ht])⟩
      | some p =>
        have hlen := I.sizes r q hq
        have hil := (List.getElem?_eq_some_iff.1 ht).1
        have ho : q.items[i]? = some (q.items[i]'(by omega)) := List.getElem?_eq_getElem (by omega)
        generalize q.items[i]'(by omega) = op at ho
        obtain ⟨t, x, g1, g2, g3⟩ := I.stages r q hq i op ho
        rw [ht] at g1
        cases g1
        -- the step that ends an item
        have commit : ∀ next k res, p = .act next k → k s.shared = .done res → (r, i) ∉ L.map (·.1) → x = none →
            apply c s.shared op = (next s.shared, res) → ∃ L', Inv c s0 (step c s (.task r i)) L' := by
          intro next k res hp hk hn hx ha
          subst hp
          have h := inv_commit I hap hq ho ht (by rw [g2, hx]) hn ha
          refine ⟨L ++ [((r, i), op, res)], ?_⟩
          simpa only [step, hq, Batch.stepTask, ht, hk] using h
        cases g3 with
        | fresh hn =>
          cases op with
          | read y rg => exact commit _ _ _ rfl rfl hn rfl rfl
          | set y w => exact commit _ _ _ rfl rfl hn rfl rfl
          | write y v rg =>
            obtain ⟨k, hk, hcases⟩ := write_first c y v rg
            rcases hcases s.shared with ⟨res, k1, k2⟩ | ⟨w, k1, k2⟩
            · exact commit _ _ _ hk k1 hn rfl k2
            · refine ⟨L, ?_⟩
              have := inv_quiet I hq ho ht (.mid y v rg w rfl k2 hn)
              rw [set_same g2] at this
              rw [hk] at ht
              simpa only [step, hq, Batch.stepTask, ht, k1] using this
        | mid y v rg w h1 h2 h3 =>
          subst h1
          exact commit _ _ _ rfl rfl h3 rfl (mid_apply h2 (I.plain y))
        | done res h1 =>
          refine ⟨L, ?_⟩
          have := inv_quiet I hq ho ht (.over res h1)
          simpa only [step, hq, Batch.stepTask, ht] using this

theorem inv_answer {c s0 s L} (I : Inv c s0 s L) (r : Nat) : Inv c s0 (step c s (.answer r)) L := by
  cases hq : s.reqs[r]? with
  | none => simpa only [step, hq] using I
  | some q =>
    simp only [step, hq]
    split
    case isFalse => exact I
    case isTrue h =>
    obtain ⟨hna, hfin⟩ := h
    have hall : ∀ t ∈ q.tasks, t = none := by
      intro t ht
      have := List.all_eq_true.1 hfin t ht
      cases t with
      | none => rfl
      | some _ => simp at this
    constructor
    case final => exact I.final
    case legal => exact I.legal
    case once => exact I.once
    case plain => exact I.plain
    case sizes =>
      intro r' q' h
      rcases (get_set hq r' q').1 h with ⟨rfl, rfl⟩ | ⟨-, h⟩
      · exact I.sizes r' q hq
      · exact I.sizes r' q' h
    case stages =>
      intro r' q' h i' op' ho'
      rcases (get_set hq r' q').1 h with ⟨rfl, rfl⟩ | ⟨hne, h⟩
      · exact I.stages r' q hq i' op' ho'
      · exact I.stages r' q' h i' op' ho'
    case ids =>
      intro e he
      obtain ⟨q0, g1, g2⟩ := I.ids e he
      by_cases hr : e.1.1 = r
      · rw [hr, hq] at g1
        cases g1
        exact ⟨_, (get_set hq _ _).2 (Or.inl ⟨hr, rfl⟩), g2⟩
      · exact ⟨q0, (get_set hq _ _).2 (Or.inr ⟨hr, g1⟩), g2⟩
    case sent =>
      intro r' its
      rw [List.mem_append, List.mem_singleton]
      simp only [reduceCtorEq, or_false]
      refine (I.sent r' its).trans ?_
      constructor
      · rintro ⟨q0, g1, g2⟩
        by_cases hr : r' = r
        · subst hr
          rw [hq] at g1
          cases g1
          exact ⟨_, (get_set hq _ _).2 (Or.inl ⟨rfl, rfl⟩), g2⟩
        · exact ⟨q0, (get_set hq _ _).2 (Or.inr ⟨hr, g1⟩), g2⟩
      · rintro ⟨q0, g1, g2⟩
        rcases (get_set hq _ _).1 g1 with ⟨rfl, rfl⟩ | ⟨-, g1⟩
        · exact ⟨q, hq, g2⟩
        · exact ⟨q0, g1, g2⟩
    case ans =>
      intro r' rs hr
      rcases List.mem_append.1 hr with hr | hr
      · obtain ⟨q0, g1, g2, g3, g4⟩ := I.ans r' rs hr
        by_cases he : r' = r
        · subst he
          rw [hq] at g1
          cases g1
          rw [hna] at g2; cases g2
        · exact ⟨q0, (get_set hq _ _).2 (Or.inr ⟨he, g1⟩), g2, g3, g4⟩
      · simp only [List.mem_singleton, Seen.answered.injEq] at hr
        obtain ⟨rfl, rfl⟩ := hr
        exact ⟨_, (get_set hq _ _).2 (Or.inl ⟨rfl, rfl⟩), rfl, rfl, hall⟩
    case ans' =>
      intro r' q' h ha
      rcases (get_set hq _ _).1 h with ⟨rfl, rfl⟩ | ⟨-, h⟩
      · exact ⟨q.results, by simp⟩
      · obtain ⟨rs, hrs⟩ := I.ans' r' q' h ha
        exact ⟨rs, List.mem_append_left _ hrs⟩
    case order =>
      intro i j a b h1 h2 h3
      rcases precedes_snoc h3 with h3 | ⟨its, h3⟩
      · exact I.order i j a b h1 h2 h3
      · cases h3

theorem log_step (c : Write.Caps) (s : State) (e : Ev) : s.log <+: (step c s e).log := by
  cases e with
  | arrive items => exact List.prefix_append _ _
  | task r i =>
    simp only [step]
    split <;> exact List.prefix_refl _
  | answer r =>
    simp only [step]
    split
    · exact List.prefix_refl _
    · split
      · exact List.prefix_append _ _
      · exact List.prefix_refl _

theorem inv_run (c : Write.Caps) (s0 : Space) (h : ∀ x, (s0 x).historizing = false) (evs : List Ev)
    (hap : Apart (run c s0 evs).log) : ∃ L, Inv c s0 (run c s0 evs) L := by
  induction evs using snocInd with
  | nil => exact ⟨[], inv_init c s0 h⟩
  | append_singleton evs e ih =>
    have hstep : run c s0 (evs ++ [e]) = step c (run c s0 evs) e := by simp [run]
    rw [hstep] at hap ⊢
    have hpre := log_step c (run c s0 evs) e
    have hap0 : Apart (run c s0 evs).log := fun l hl => hap l (hl.trans hpre)
    obtain ⟨L, I⟩ := ih hap0
    cases e with
    | arrive items => exact ⟨L, inv_arrive I items⟩
    | task r i => exact inv_task I hap0 r i
    | answer r => exact ⟨L, inv_answer I r⟩

theorem inv_explains {c s0 s L} (I : Inv c s0 s L) : Explains c s0 s.log L where
  once := I.once
  asked := by
    intro e he
    obtain ⟨q, h1, h2⟩ := I.ids e he
    exact ⟨q.items, (I.sent _ _).2 ⟨q, h1, rfl⟩, h2⟩
  legal := I.legal
  answers := by
    intro r rs h
    obtain ⟨q, h1, h2, rfl, h4⟩ := I.ans r rs h
    refine ⟨q.items, (I.sent _ _).2 ⟨q, h1, rfl⟩, (I.sizes r q h1).2, ?_⟩
    intro i op ho
    obtain ⟨t, x, g1, g2, g3⟩ := I.stages r q h1 i op ho
    have := h4 t (List.mem_of_getElem? g1)
    subst this
    cases g3 with
    | over res hm => exact ⟨res, g2, hm⟩
  order := I.order

/-! ## C128 -/

/-- Whatever requests meet, in whatever order their items are worked on: the answers are those of the items done one
after the other, each between the sending of its request and the answer. Partial: no write of a part of a variable
while something else changes this variable. -/
theorem C128_linearizable_partial (c : Write.Caps) (s0 : Space) (h : ∀ x, (s0 x).historizing = false) (evs : List Ev)
    (hap : Apart (run c s0 evs).log) : ∃ L, Explains c s0 (run c s0 evs).log L := by
  obtain ⟨L, I⟩ := inv_run c s0 h evs hap
  exact ⟨L, inv_explains I⟩

theorem apart_whole {log : List Seen} (hw : ∀ a x v range, Asked log a (.write x v range) → range = []) :
    Apart log := by
  intro l hl a b op op' _ ha _ hc
  obtain ⟨⟨its, h1, h2⟩, -⟩ := ha
  cases op with
  | read x r => cases op' <;> exact hc
  | set x w => cases op' <;> exact hc
  | write x v range =>
    have := hw a x v range ⟨its, hl.subset h1, h2⟩
    cases op' with
    | read y r => exact hc
    | write y v' r => exact hc.2 this
    | set y w => exact hc.2 this

/-- Without writes of parts there is no other condition. -/
theorem C128_whole (c : Write.Caps) (s0 : Space) (h : ∀ x, (s0 x).historizing = false) (evs : List Ev)
    (hw : ∀ a x v range, Asked (run c s0 evs).log a (.write x v range) → range = []) :
    ∃ L, Explains c s0 (run c s0 evs).log L := by
  exact C128_linearizable_partial c s0 h evs (apart_whole hw)

theorem final_append (c : Write.Caps) : ∀ (s : Space) (L M : List (Id × Op × Res)),
    final c s (L ++ M) = final c (final c s L) M
  | _, [], _ => rfl
  | s, x :: L, M => final_append c (apply c s x.2.1).1 L M

theorem legal_append (c : Write.Caps) : ∀ (s : Space) (L M : List (Id × Op × Res)),
    Legal c s (L ++ M) ↔ Legal c s L ∧ Legal c (final c s L) M
  | _, [], _ => by simp [Legal, final]
  | s, x :: L, M => by simp [Legal, final, legal_append c _ L M, and_assoc]

theorem final_type (c : Write.Caps) (x : Nat) : ∀ (s : Space) (L : List (Id × Op × Res)),
    (final c s L x).type = (s x).type ∧ (final c s L x).rank = (s x).rank ∧
      (final c s L x).historizing = (s x).historizing
  | _, [] => ⟨rfl, rfl, rfl⟩
  | s, e :: L => by
    obtain ⟨h1, h2, h3⟩ := final_type c x (apply c s e.2.1).1 L
    obtain ⟨k1, k2, k3, -⟩ := apply_frame c s e.2.1 x
    exact ⟨h1.trans k1, h2.trans k2, h3.trans k3⟩

theorem final_same (c : Write.Caps) (x : Nat) : ∀ (s : Space) (L : List (Id × Op × Res)),
    (∀ e ∈ L, x ≠ target e.2.1 ∨ isRead e.2.1 = true) → final c s L x = s x
  | _, [], _ => rfl
  | s, e :: L, h => by
    rw [final, final_same c x _ L (fun e he => h e (List.mem_cons_of_mem _ he))]
    exact (apply_frame c s e.2.1 x).2.2.2 (h e (List.mem_cons_self ..))

theorem split_at {α : Type} {l : List α} {i : Nat} {a : α} (h : l[i]? = some a) :
    l = l.take i ++ a :: l.drop (i + 1) := by
  have hl := (List.getElem?_eq_some_iff.1 h).1
  have : a = l[i] := by rw [List.getElem?_eq_getElem hl] at h; cases h; rfl
  rw [this, List.getElem_cons_drop, List.take_append_drop]

theorem nodup_index {L : List (Id × Op × Res)} (h : (L.map (·.1)).Nodup) {i j : Nat} {a b : Id × Op × Res}
    (h1 : L[i]? = some a) (h2 : L[j]? = some b) (he : a.1 = b.1) : i = j := by
  have g1 := (List.getElem?_eq_some_iff.1 h1)
  have g2 := (List.getElem?_eq_some_iff.1 h2)
  obtain ⟨l1, g1⟩ := g1
  obtain ⟨l2, g2⟩ := g2
  have hp := List.pairwise_iff_getElem.1 h
  rcases Nat.lt_trichotomy i j with hlt | heq | hgt
  · exact absurd (by rw [List.getElem_map, List.getElem_map, g1, g2, he]) (hp i j (by simpa using l1) (by simpa using l2) hlt)
  · exact heq
  · exact absurd (by rw [List.getElem_map, List.getElem_map, g1, g2, he]) (hp j i (by simpa using l2) (by simpa using l1) hgt)

namespace Spec

/-- An item that may change variable `x`. -/
def Changes (x : Nat) : Op → Prop
  | .read _ _ => False
  | .write y _ _ => y = x
  | .set y _ => y = x

end Spec

/-- A write of a whole variable is answered Good, and a read is sent after this answer. Everything else that may change
the variable is answered before the write is sent, or sent after the read is answered. Then the read gives what was
written, as a value of the type of the variable. -/
theorem C128_fresh_partial (c : Write.Caps) (s0 : Space) (h : ∀ x, (s0 x).historizing = false) (evs : List Ev)
    (hap : Apart (run c s0 evs).log) (x : Nat) (v : Range.Val) (a b : Id) (ra rb : List (Option Res))
    (ha : Asked (run c s0 evs).log a (.write x v [])) (hra : .answered a.1 ra ∈ (run c s0 evs).log)
    (hgood : ra[a.2]? = some (some (.status (some .good))))
    (hb : Asked (run c s0 evs).log b (.read x [])) (hrb : .answered b.1 rb ∈ (run c s0 evs).log)
    (hab : Precedes (run c s0 evs).log a.1 b.1)
    (hothers : ∀ d op, d ≠ a → Asked (run c s0 evs).log d op → Changes x op →
      Precedes (run c s0 evs).log d.1 a.1 ∨ Precedes (run c s0 evs).log b.1 d.1) :
    rb[b.2]? = some (some (.value (.ok (Write.convert (s0 x).type (s0 x).rank v)))) := by
  obtain ⟨L, I⟩ := inv_run c s0 h evs hap
  have E := inv_explains I
  have hin : ∀ (a : Id) op ra, Asked (run c s0 evs).log a op → .answered a.1 ra ∈ (run c s0 evs).log →
      ∃ res, ra[a.2]? = some (some res) ∧ (a, op, res) ∈ L := by
    intro a op ra h1 h2
    obtain ⟨its, k1, k2⟩ := h1
    obtain ⟨its', m1, -, m3⟩ := E.answers _ _ h2
    have : its = its' := by
      obtain ⟨q, e1, rfl⟩ := (I.sent _ _).1 k1
      obtain ⟨q', e2, rfl⟩ := (I.sent _ _).1 m1
      rw [e1] at e2
      cases e2
      rfl
    subst this
    exact m3 _ _ k2
  obtain ⟨res, h1, h2⟩ := hin a _ ra ha hra
  rw [hgood] at h1
  cases h1
  obtain ⟨resb, h3, h4⟩ := hin b _ rb hb hrb
  rw [h3]
  obtain ⟨i, hi⟩ := List.mem_iff_getElem?.1 h2
  obtain ⟨j, hj⟩ := List.mem_iff_getElem?.1 h4
  have hij : i < j := E.order i j _ _ hi hj hab
  -- the state before the write, after it, and before the read
  have hmid : ∀ e ∈ (L.take j).drop (i + 1), x ≠ target e.2.1 ∨ isRead e.2.1 = true := by
    intro e he
    obtain ⟨k, hk⟩ := List.mem_iff_getElem?.1 he
    have hkl := (List.getElem?_eq_some_iff.1 hk).1
    rw [List.getElem?_drop, List.getElem?_take] at hk
    split at hk
    case isFalse => cases hk
    case isTrue hlt =>
    have hmem : e ∈ L := List.mem_of_getElem? hk
    have hask := E.asked e hmem
    have hne : e.1 ≠ a := fun hh => by
      have := nodup_index E.once hk hi hh
      omega
    have hno : ¬ Changes x e.2.1 := by
      intro hch
      rcases hothers _ _ hne hask hch with hp | hp
      · have := E.order _ _ _ _ hk hi hp
        omega
      · have := E.order _ _ _ _ hj hk hp
        omega
    revert hno
    cases e.2.1 with
    | read y r => intro _; exact Or.inr rfl
    | write y v r => intro hno; exact Or.inl (fun hh => hno hh.symm)
    | set y w => intro hno; exact Or.inl (fun hh => hno hh.symm)
  have hLj := split_at hj
  have hi' : (L.take j)[i]? = some (a, .write x v [], .status (some .good)) := by
    rw [List.getElem?_take, if_pos hij, hi]
  have hLi := split_at hi'
  have hlegal := E.legal
  rw [hLj, legal_append, hLi] at hlegal
  obtain ⟨hl1, hl2, -⟩ := hlegal
  rw [legal_append] at hl1
  obtain ⟨-, hl3, -⟩ := hl1
  simp only at hl2 hl3
  rw [final_append] at hl2
  simp only [final] at hl2
  generalize hS : final c s0 ((L.take j).take i) = S at hl2 hl3
  obtain ⟨t1, t2, t3⟩ := final_type c x s0 ((L.take j).take i)
  rw [hS] at t1 t2 t3
  rw [h x] at t3
  have hafter : ((apply c S (.write x v [])).1 x).value = Write.convert (s0 x).type (s0 x).rank v := by
    simp only [apply, Write.writeValue, Range.writeRange, List.isEmpty_nil, if_true, t1, t2] at hl3 ⊢
    have hs : Write.setValue (S x) (Write.convert (s0 x).type (s0 x).rank v)
        = some { S x with value := Write.convert (s0 x).type (s0 x).rank v } := by simp [Write.setValue, t3]
    rw [hs] at hl3 ⊢
    cases hck : Write.checkValue c (s0 x).type (s0 x).rank (Write.convert (s0 x).type (s0 x).rank v) with
    | good => simp
    | _ => rw [hck] at hl3; simp at hl3
  have hsame := final_same c x (apply c S (.write x v [])).1 _ hmid
  rw [← hl2, ← hafter, ← hsame]
  rfl

/-! Two clients write one array of Int32 while a third reads it. -/

abbrev exC : Write.Caps := ⟨8, 8, 8⟩
abbrev exBegin : Space := fun _ => ⟨6, 1, .array 6 [10, 20], false, false⟩
abbrev exWhole : List Ev :=
  [.arrive [.write 1 (.array 6 [7, 8]) []], .arrive [.write 1 (.array 6 [5, 6]) [], .read 1 []],
    .task 1 0, .task 0 0, .task 0 0, .task 1 1, .task 1 0, .task 1 1, .task 1 0, .task 0 0, .answer 1, .answer 0,
    .arrive [.read 1 []], .task 2 0, .task 2 0, .answer 2]

example : (run exC exBegin exWhole).log =
    [.sent 0 [.write 1 (.array 6 [7, 8]) []], .sent 1 [.write 1 (.array 6 [5, 6]) [], .read 1 []],
      .answered 1 [some (.status (some .good)), some (.value (.ok (.array 6 [7, 8])))],
      .answered 0 [some (.status (some .good))], .sent 2 [.read 1 []],
      .answered 2 [some (.value (.ok (.array 6 [5, 6])))]] := by decide

example : ∃ L, Explains exC exBegin (run exC exBegin exWhole).log L := by
  refine C128_whole exC exBegin (fun _ => rfl) exWhole ?_
  have hlog : (run exC exBegin exWhole).log =
    [.sent 0 [.write 1 (.array 6 [7, 8]) []], .sent 1 [.write 1 (.array 6 [5, 6]) [], .read 1 []],
      .answered 1 [some (.status (some .good)), some (.value (.ok (.array 6 [7, 8])))],
      .answered 0 [some (.status (some .good))], .sent 2 [.read 1 []],
      .answered 2 [some (.value (.ok (.array 6 [5, 6])))]] := by decide
  rw [hlog]
  rintro ⟨r, i⟩ x v range ⟨its, h1, h2⟩
  simp at h1
  rcases h1 with ⟨rfl, rfl⟩ | ⟨rfl, rfl⟩ | ⟨rfl, rfl⟩
  all_goals
    rcases i with _ | _ | i <;> simp at h2
  all_goals exact h2.2.2

/-- A history that satisfies what C128_fresh_partial asks for: the write is request 2, after a change by the
application. -/
abbrev exFresh : List Ev :=
  [.arrive [.set 1 (.array 6 [0])], .arrive [.read 1 []], .task 0 0, .task 0 0, .answer 0,
    .arrive [.write 1 (.array 6 [5, 6]) []], .arrive [.write 2 (.array 6 [9]) []],
    .task 2 0, .task 3 0, .task 2 0, .task 1 0, .task 2 0, .answer 2, .arrive [.read 1 []],
    .task 4 0, .task 4 0, .task 3 0, .answer 4]

abbrev exFreshLog : List Seen :=
  [.sent 0 [.set 1 (.array 6 [0])], .sent 1 [.read 1 []], .answered 0 [some .done],
    .sent 2 [.write 1 (.array 6 [5, 6]) []], .sent 3 [.write 2 (.array 6 [9]) []],
    .answered 2 [some (.status (some .good))], .sent 4 [.read 1 []],
    .answered 4 [some (.value (.ok (.array 6 [5, 6])))]]

example : ∀ rb, .answered 4 rb ∈ (run exC exBegin exFresh).log →
    rb[0]? = some (some (.value (.ok (Write.convert 6 1 (.array 6 [5, 6]))))) := by
  have hlog : (run exC exBegin exFresh).log = exFreshLog := by decide +kernel
  intro rb hrb
  refine C128_fresh_partial exC exBegin (fun _ => rfl) exFresh ?_ 1 (.array 6 [5, 6]) (2, 0) (4, 0)
    [some (.status (some .good))] rb ?_ ?_ rfl ?_ hrb ?_ ?_ <;> rw [hlog]
  · apply apart_whole
    rintro ⟨r, i⟩ x v range ⟨its, h1, h2⟩
    simp at h1
    rcases h1 with ⟨rfl, rfl⟩ | ⟨rfl, rfl⟩ | ⟨rfl, rfl⟩ | ⟨rfl, rfl⟩ | ⟨rfl, rfl⟩
    all_goals
      rcases i with _ | i <;> simp at h2
    all_goals exact h2.2.2
  · exact ⟨_, (by decide : Seen.sent 2 [.write 1 (.array 6 [5, 6]) []] ∈ exFreshLog), rfl⟩
  · decide
  · exact ⟨_, (by decide : Seen.sent 4 [.read 1 []] ∈ exFreshLog), rfl⟩
  · exact ⟨exFreshLog.take 5, exFreshLog.drop 6, [some (.status (some .good))], [.read 1 []], rfl, by decide⟩
  · rintro ⟨r, i⟩ op hne ⟨its, h1, h2⟩ hch
    simp at h1
    rcases h1 with ⟨rfl, rfl⟩ | ⟨rfl, rfl⟩ | ⟨rfl, rfl⟩ | ⟨rfl, rfl⟩ | ⟨rfl, rfl⟩
    all_goals
      rcases i with _ | i <;> simp at h2
    all_goals subst h2
    · exact Or.inl ⟨exFreshLog.take 2, exFreshLog.drop 3, [some .done], [.write 1 (.array 6 [5, 6]) []], rfl, by decide⟩
    · exact absurd hch (by simp [Changes])
    · exact absurd rfl hne
    · exact absurd hch (by simp [Changes])
    · exact absurd hch (by simp [Changes])

/-! ## Parts -/

/-- One client writes a part while another reads and changes another variable: what C128_linearizable_partial asks
for. -/
example : ∃ L, Explains exC exBegin (run exC exBegin [.arrive [.write 1 (.array 6 [7]) "0".toList],
    .arrive [.read 1 [], .set 2 (.array 6 [1])], .task 0 0, .task 1 0, .task 0 0, .task 1 1, .task 1 0, .task 1 1,
    .task 0 0, .answer 0, .answer 1]).log L := by
  refine C128_linearizable_partial exC exBegin (fun _ => rfl) _ ?_
  have hlog : (run exC exBegin [.arrive [.write 1 (.array 6 [7]) "0".toList],
    .arrive [.read 1 [], .set 2 (.array 6 [1])], .task 0 0, .task 1 0, .task 0 0, .task 1 1, .task 1 0, .task 1 1,
    .task 0 0, .answer 0, .answer 1]).log =
      [.sent 0 [.write 1 (.array 6 [7]) "0".toList], .sent 1 [.read 1 [], .set 2 (.array 6 [1])],
        .answered 0 [some (.status (some .good))],
        .answered 1 [some (.value (.ok (.array 6 [10, 20]))), some .done]] := by decide +kernel
  rw [hlog]
  rintro l hl ⟨r, i⟩ ⟨r', i'⟩ op op' hne ⟨⟨its, h1, h2⟩, -⟩ ⟨⟨its', h1', h2'⟩, -⟩ hc
  have h1 := hl.subset h1
  have h1' := hl.subset h1'
  simp at h1 h1'
  rcases h1 with ⟨rfl, rfl⟩ | ⟨rfl, rfl⟩ <;> rcases h1' with ⟨rfl, rfl⟩ | ⟨rfl, rfl⟩
  all_goals
    rcases i with _ | _ | i <;> simp at h2
  all_goals
    rcases i' with _ | _ | i' <;> simp at h2'
  all_goals
    subst h2 h2'
    first
    | exact hne rfl
    | (simp [Clash] at hc)

abbrev exParts : List Ev :=
  [.arrive [.write 1 (.array 6 [7]) "0".toList], .arrive [.write 1 (.array 6 [8]) "1".toList],
    .task 0 0, .task 1 0, .task 0 0, .task 1 0, .task 0 0, .task 1 0, .answer 0, .answer 1,
    .arrive [.read 1 []], .task 2 0, .task 2 0, .answer 2]

abbrev exPartsLog : List Seen :=
  [.sent 0 [.write 1 (.array 6 [7]) "0".toList], .sent 1 [.write 1 (.array 6 [8]) "1".toList],
    .answered 0 [some (.status (some .good))], .answered 1 [some (.status (some .good))], .sent 2 [.read 1 []],
    .answered 2 [some (.value (.ok (.array 6 [10, 8])))]]

abbrev exA : Id × Op × Res := ((0, 0), .write 1 (.array 6 [7]) "0".toList, .status (some .good))
abbrev exB : Id × Op × Res := ((1, 0), .write 1 (.array 6 [8]) "1".toList, .status (some .good))
abbrev exR : Id × Op × Res := ((2, 0), .read 1 [], .value (.ok (.array 6 [10, 8])))

def legalDec (c : Write.Caps) : ∀ s L, Decidable (Legal c s L)
  | _, [] => .isTrue trivial
  | s, e :: L => @instDecidableAnd _ _ (inferInstance) (legalDec c (apply c s e.2.1).1 L)

instance (c : Write.Caps) (s L) : Decidable (Legal c s L) := legalDec c s L

theorem key_unique {L : List (Id × Op × Res)} (h : (L.map (·.1)).Nodup) {a b : Id × Op × Res} (ha : a ∈ L)
    (hb : b ∈ L) (he : a.1 = b.1) : a = b := by
  obtain ⟨i, hi⟩ := List.mem_iff_getElem?.1 ha
  obtain ⟨j, hj⟩ := List.mem_iff_getElem?.1 hb
  have := nodup_index h hi hj he
  subst this
  rw [hi] at hj
  cases hj
  rfl

/-- Two clients write different elements of one array at the same time, both writes are answered Good, and a read
sent after both answers still shows the old value of one element. No order of the three explains this. -/
theorem C128_range_fails :
    (run exC exBegin exParts).log = exPartsLog ∧ ¬ ∃ L, Explains exC exBegin (run exC exBegin exParts).log L := by
  have hlog : (run exC exBegin exParts).log = exPartsLog := by decide +kernel
  refine ⟨hlog, ?_⟩
  rw [hlog]
  rintro ⟨L, E⟩
  have hA : exA ∈ L := by
    obtain ⟨its, h1, -, h3⟩ := E.answers 0 [some (.status (some .good))] (by simp)
    simp at h1
    subst h1
    obtain ⟨res, k1, k2⟩ := h3 0 _ rfl
    simp at k1
    subst k1
    exact k2
  have hB : exB ∈ L := by
    obtain ⟨its, h1, -, h3⟩ := E.answers 1 [some (.status (some .good))] (by simp)
    simp at h1
    subst h1
    obtain ⟨res, k1, k2⟩ := h3 0 _ rfl
    simp at k1
    subst k1
    exact k2
  have hR : exR ∈ L := by
    obtain ⟨its, h1, -, h3⟩ := E.answers 2 [some (.value (.ok (.array 6 [10, 8])))] (by simp)
    simp at h1
    subst h1
    obtain ⟨res, k1, k2⟩ := h3 0 _ rfl
    simp at k1
    subst k1
    exact k2
  have hall : ∀ e ∈ L, e = exA ∨ e = exB ∨ e = exR := by
    intro e he
    obtain ⟨its, h1, h2⟩ := E.asked e he
    have hz : e.1.2 = 0 := by
      simp at h1
      rcases h1 with ⟨-, rfl⟩ | ⟨-, rfl⟩ | ⟨-, rfl⟩ <;>
      · cases hh : e.1.2 with
        | zero => rfl
        | succ n => rw [hh] at h2; simp at h2
    simp at h1
    rcases h1 with ⟨h1, -⟩ | ⟨h1, -⟩ | ⟨h1, -⟩
    · exact Or.inl (key_unique E.once he hA (Prod.ext h1 hz))
    · exact Or.inr (Or.inl (key_unique E.once he hB (Prod.ext h1 hz)))
    · exact Or.inr (Or.inr (key_unique E.once he hR (Prod.ext h1 hz)))
  have hAR : Precedes exPartsLog 0 2 :=
    ⟨exPartsLog.take 2, exPartsLog.drop 3, [some (.status (some .good))], [.read 1 []], rfl, by decide⟩
  have hBR : Precedes exPartsLog 1 2 :=
    ⟨exPartsLog.take 3, exPartsLog.drop 4, [some (.status (some .good))], [.read 1 []], rfl, by decide⟩
  have hlegal := E.legal
  have honce := E.once
  have horder := E.order
  clear E
  match L, hall with
  | [], _ => simp at hA
  | [a], hall =>
    rw [List.mem_singleton] at hA hB
    exact absurd (hA.trans hB.symm) (by decide)
  | [a, b], hall =>
    rcases hall a (by simp) with rfl | rfl | rfl <;> rcases hall b (by simp) with rfl | rfl | rfl <;>
      first
      | exact absurd hA (by decide)
      | exact absurd hB (by decide)
      | exact absurd hR (by decide)
  | [a, b, d], hall =>
    rcases hall a (by simp) with rfl | rfl | rfl <;> rcases hall b (by simp) with rfl | rfl | rfl <;>
      rcases hall d (by simp) with rfl | rfl | rfl <;>
      first
      | exact absurd honce (by decide)
      | exact absurd hlegal (by decide +kernel)
      | exact absurd (horder 1 0 _ _ rfl rfl hAR) (by decide)
      | exact absurd (horder 2 0 _ _ rfl rfl hAR) (by decide)
      | exact absurd (horder 2 1 _ _ rfl rfl hAR) (by decide)
      | exact absurd (horder 1 0 _ _ rfl rfl hBR) (by decide)
      | exact absurd (horder 2 0 _ _ rfl rfl hBR) (by decide)
      | exact absurd (horder 2 1 _ _ rfl rfl hBR) (by decide)
  | a :: b :: d :: e :: M, hall =>
    simp only [List.map_cons, List.nodup_cons, List.mem_cons, not_or] at honce
    obtain ⟨⟨n1, n2, n3, -⟩, ⟨n4, n5, -⟩, ⟨n6, -⟩, -⟩ := honce
    rcases hall a (by simp) with rfl | rfl | rfl <;> rcases hall b (by simp) with rfl | rfl | rfl <;>
      rcases hall d (by simp) with rfl | rfl | rfl <;> rcases hall e (by simp) with rfl | rfl | rfl <;>
      first
      | exact n1 rfl
      | exact n2 rfl
      | exact n3 rfl
      | exact n4 rfl
      | exact n5 rfl
      | exact n6 rfl

end Opcua.Pool
