import Verif.Model.EventFilter
import Verif.Props.SpaceQueries

/-!
# C58 and C91: event filters and fields of events

The specification is OPC UA Part 4, 7.4: a filter is a graph of elements; `ElementIs` and `OperandIs` give
the meaning of elements and operands by rules, for all filters and without an order of evaluation.
-/

namespace Opcua.EventFilter

open Opcua.AddressSpace

/-! ## Specification -/

/-- Equality of values: numbers by their value whatever their type, times by their instant. -/
def Same : Value → Value → Bool
  | .num _ a, .num _ b => decide (a = b)
  | .time a _, .time b _ => decide (a = b)
  | a, b => decide (a = b)

/-- The type `c` of an event is `t` or a subtype of `t`. -/
def IsA (s : Space) (c t : Id) : Prop := ∃ k, Hops s k c t

/-- The event type, if the event has one. -/
def HasType (e : Event) (c : Id) : Prop := e.values[1]? = some (.node c)

/-- The clause asks for the field `d`: same path, attribute and range. -/
def SameField (c d : Clause) : Prop := c.path = d.path ∧ c.attr = d.attr ∧ c.range = d.range

/-- The value of a clause: the field with this path, if the event is of the type of the clause (or a
subtype); otherwise null. -/
def Selected (s : Space) (e : Event) (c : Clause) (v : Value) : Prop :=
  (∃ p ∈ attributes e, SameField c p.1 ∧ (∃ t, HasType e t ∧ IsA s t c.type) ∧ v = p.2) ∨
  (v = .null ∧ ∀ p ∈ attributes e, SameField c p.1 → ¬ ∃ t, HasType e t ∧ IsA s t c.type)

mutual
/-- The value of an operand. -/
inductive OperandIs (s : Space) (e : Event) (els : List Element) : Operand → Value → Prop
  | literal (v : Value) : OperandIs s e els (.literal v) v
  | field {c : Clause} {v : Value} : Selected s e c v → OperandIs s e els (.field c) v
  | element {i : Nat} {b : Bool} : ElementIs s e els i b → OperandIs s e els (.element i) (.bool b)
/-- The truth value of an element. -/
inductive ElementIs (s : Space) (e : Event) (els : List Element) : Nat → Bool → Prop
  | equals {i : Nat} {a b : Operand} {va vb : Value} : els[i]? = some ⟨0, [a, b]⟩ → OperandIs s e els a va →
      OperandIs s e els b vb → ElementIs s e els i (Same va vb)
  | isType {i : Nat} {t c : Id} : els[i]? = some ⟨14, [.literal (.node t)]⟩ → HasType e c → IsA s c t → ElementIs s e els i true
  | notType {i : Nat} {t : Id} : els[i]? = some ⟨14, [.literal (.node t)]⟩ → (∀ c, HasType e c → ¬ IsA s c t) → ElementIs s e els i false
  | not {i : Nat} {a : Operand} {b : Bool} : els[i]? = some ⟨7, [a]⟩ → OperandIs s e els a (.bool b) → ElementIs s e els i (!b)
  | and {i : Nat} {a b : Operand} {x y : Bool} : els[i]? = some ⟨10, [a, b]⟩ → OperandIs s e els a (.bool x) →
      OperandIs s e els b (.bool y) → ElementIs s e els i (x && y)
  | or {i : Nat} {a b : Operand} {x y : Bool} : els[i]? = some ⟨11, [a, b]⟩ → OperandIs s e els a (.bool x) →
      OperandIs s e els b (.bool y) → ElementIs s e els i (x || y)
end

/-- The filter lets the event pass: it has no elements, or the first is true. -/
def Passes (s : Space) (e : Event) (els : List Element) : Prop := els = [] ∨ ElementIs s e els 0 true

/-! ## Lemmas -/

theorem equalOperand_iff (a b : Clause) :
    equalOperand a b = true ↔ (a.type = ⟨0, 2041⟩ ∨ a.type = b.type) ∧ SameField a b := by
  unfold equalOperand SameField
  split
  next h => simp [h]
  next h =>
    simp only [Bool.and_eq_true, decide_eq_true_eq]
    have : a.type = ⟨0, 2041⟩ ∨ a.type = b.type := by
      by_cases h1 : a.type = ⟨0, 2041⟩
      · exact Or.inl h1
      · exact Or.inr (Classical.byContradiction fun h2 => h ⟨h1, h2⟩)
    constructor
    · rintro ⟨⟨h1, h2⟩, h3⟩; exact ⟨this, h1, h2, h3⟩
    · rintro ⟨_, h1, h2, h3⟩; exact ⟨⟨h1, h2⟩, h3⟩

/-- All clauses of an event have different paths. -/
theorem clauses_distinct : ((selectClauses ++ [activeStateName]).map (fun c => (c.path, c.attr, c.range))).Nodup := by decide

theorem zip_fst_sublist {α β : Type} : ∀ (l : List α) (m : List β), List.Sublist ((l.zip m).map Prod.fst) l
  | [], _ => by simp
  | _ :: _, [] => by simp
  | a :: l, b :: m => by
    rw [List.zip_cons_cons, List.map_cons]
    exact List.Sublist.cons_cons _ (zip_fst_sublist l m)

theorem attributes_distinct (e : Event) (p q : Clause × Value) (hp : p ∈ attributes e) (hq : q ∈ attributes e) (h : SameField p.1 q.1) : p = q := by
  have hn : ((attributes e).map (fun p => (p.1.path, p.1.attr, p.1.range))).Nodup := by
    have hsub : List.Sublist ((attributes e).map (fun p => (p.1.path, p.1.attr, p.1.range)))
        ((selectClauses ++ [activeStateName]).map (fun c => (c.path, c.attr, c.range))) := by
      unfold attributes
      rw [List.map_append, List.map_append]
      refine List.Sublist.append ?_ ?_
      · have : (selectClauses.zip e.values).map (fun p => (p.1.path, p.1.attr, p.1.range)) =
            ((selectClauses.zip e.values).map Prod.fst).map (fun c => (c.path, c.attr, c.range)) := by
          rw [List.map_map]; rfl
        rw [this]
        refine List.Sublist.map _ ?_
        exact zip_fst_sublist _ _
      · split
        · exact List.Sublist.refl _
        · exact List.nil_sublist _
    exact List.Sublist.nodup hsub clauses_distinct
  have hpw := List.pairwise_map.mp (List.nodup_iff_pairwise_ne.mp hn)
  have hk : ∀ x y : Clause × Value, (x.1.path, x.1.attr, x.1.range) = (y.1.path, y.1.attr, y.1.range) ↔ SameField x.1 y.1 := by
    intro x y
    simp [SameField]
  have hpw' : (attributes e).Pairwise (fun x y => ¬ SameField x.1 y.1) := hpw.imp (fun {x y} h hs => h ((hk x y).mpr hs))
  have hsym : ∀ x y : Clause × Value, ¬ SameField x.1 y.1 → ¬ SameField y.1 x.1 := by
    intro x y h hs
    exact h ⟨hs.1.symm, hs.2.1.symm, hs.2.2.symm⟩
  apply Classical.byContradiction
  intro hne
  exact List.Pairwise.forall_of_forall_of_flip (R := fun x y => x = y ∨ ¬ SameField x.1 y.1) (fun x _ => Or.inl rfl)
    (hpw'.imp (fun h => Or.inr h)) (hpw'.imp (fun {x y} h => Or.inr (hsym _ _ h))) hp hq |>.elim hne (fun h' => h' h)

theorem selected_unique {s : Space} {e : Event} {c : Clause} {v w : Value} (h1 : Selected s e c v) (h2 : Selected s e c w) : v = w := by
  rcases h1 with ⟨p, hp, hpf, hpt, rfl⟩ | ⟨rfl, h1⟩
  · rcases h2 with ⟨q, hq, hqf, _, rfl⟩ | ⟨_, h2⟩
    · have : p = q := attributes_distinct e p q hp hq
        ⟨hpf.1.symm.trans hqf.1, hpf.2.1.symm.trans hqf.2.1, hpf.2.2.symm.trans hqf.2.2⟩
      rw [this]
    · exact absurd hpt (h2 p hp hpf)
  · rcases h2 with ⟨q, hq, hqf, hqt, _⟩ | ⟨rfl, _⟩
    · exact absurd hqt (h1 q hq hqf)
    · rfl

/-- The clause names BaseEventType or the type that declares the field, and an event with such a field is
of that type. -/
def Plain (s : Space) (e : Event) (c : Clause) : Prop :=
  ∀ p ∈ attributes e, SameField c p.1 → (c.type = ⟨0, 2041⟩ ∨ c.type = p.1.type) ∧ ∃ t, HasType e t ∧ IsA s t c.type

theorem getAttribute_selected {s : Space} {e : Event} {c : Clause} (h : Plain s e c) : Selected s e c (getAttribute e c) := by
  unfold getAttribute
  cases hf : (attributes e).find? (fun p => equalOperand c p.1) with
  | some p =>
    have hm := List.mem_of_find?_eq_some hf
    have hs := ((equalOperand_iff c p.1).mp (List.find?_some (p := fun p : Clause × Value => equalOperand c p.1) hf)).2
    exact Or.inl ⟨p, hm, hs, (h p hm hs).2, rfl⟩
  | none =>
    rw [List.find?_eq_none] at hf
    refine Or.inr ⟨rfl, fun p hp hs => ?_⟩
    exact absurd ((equalOperand_iff _ _).mpr ⟨(h p hp hs).1, hs⟩) (hf p hp)

theorem getAttribute_type (e : Event) : getAttribute e eventTypeClause = (e.values[1]?).getD .null := by
  obtain ⟨vs⟩ := e
  match vs with
  | [] => rfl
  | [a] => rfl
  | a :: b :: rest => rfl

/-- Go's `==` gives the equality of the specification for these two values, or for others of the same
kinds. -/
def comparable : Value → Value → Bool
  | .num t _, .num u _ => decide (t = u)
  | .time _ r, .time _ q => decide (r = q)
  | .array _ _, .array _ _ => false
  | _, _ => true

theorem goEq_same {a b : Value} (h : comparable a b = true) : goEq a b = some (Same a b) := by
  cases a <;> cases b <;> simp_all [goEq, Same, comparable]

/-- A value of the same kind as that of the operand. -/
def kindOf (e : Event) : Operand → Value
  | .literal v => v
  | .field c => getAttribute e c
  | .element _ => .bool true
  | .other => .null

/-- An operand of element `i` that the code evaluates as specified. -/
def OperandOk (s : Space) (e : Event) (els : List Element) (i : Nat) : Operand → Prop
  | .literal _ => True
  | .field c => Plain s e c
  | .element j => i < j ∧ j < els.length
  | .other => False

/-- Only Equals and OfType, with the right operands; elements refer to later elements; the values that
are compared have the same type. -/
def FilterOk (s : Space) (e : Event) (els : List Element) : Prop :=
  ∀ i el, els[i]? = some el →
    (∃ a b, el = ⟨0, [a, b]⟩ ∧ OperandOk s e els i a ∧ OperandOk s e els i b ∧ comparable (kindOf e a) (kindOf e b) = true) ∨
    (∃ t, el = ⟨14, [.literal (.node t)]⟩)

/-- No type is more than 101 references below another. -/
def Shallow (s : Space) (e : Event) : Prop := ∀ c, HasType e c → ∀ k t, Hops s k c t → k ≤ 101

theorem hasType_unique {e : Event} {c d : Id} (h1 : HasType e c) (h2 : HasType e d) : c = d := by
  unfold HasType at h1 h2
  rw [h1] at h2
  cases h2
  rfl

theorem ofType_is {s : Space} (hs : SingleInheritance s) {e : Event} (hd : Shallow s e) {els : List Element} {i : Nat} {t : Id}
    (hel : els[i]? = some ⟨14, [.literal (.node t)]⟩) :
    ∃ b, ofType s e [.literal (.node t)] = .val (.bool b) ∧ ElementIs s e els i b := by
  by_cases hc : ∃ c, HasType e c
  · obtain ⟨c, hc⟩ := hc
    have hattr : getAttribute e eventTypeClause = .node c := by rw [getAttribute_type, hc]; rfl
    have hval : ofType s e [.literal (.node t)] = .val (.bool (decide (c = t) || isSubtype s c t)) := by
      simp [ofType, hattr]
    refine ⟨_, hval, ?_⟩
    by_cases h : IsA s c t
    · have : (decide (c = t) || isSubtype s c t) = true := by
        obtain ⟨k, hk⟩ := h
        cases k with
        | zero => cases hk; simp
        | succ k =>
          have := (C61_exact_partial s hs c t).mpr ⟨k + 1, by omega, hd c hc _ _ hk, hk⟩
          simp [this]
      rw [this]
      exact .isType hel hc h
    · have : (decide (c = t) || isSubtype s c t) = false := by
        cases hb : decide (c = t) || isSubtype s c t with
        | false => rfl
        | true =>
          rw [Bool.or_eq_true, decide_eq_true_eq] at hb
          rcases hb with rfl | hb
          · exact absurd ⟨0, .zero _⟩ h
          · obtain ⟨k, _, hk⟩ := C61_sound s c t hb
            exact absurd ⟨k, hk⟩ h
      rw [this]
      refine .notType hel (fun d hd' => ?_)
      rw [hasType_unique hd' hc]
      exact h
  · refine ⟨false, ?_, .notType hel (fun c h => absurd ⟨c, h⟩ hc)⟩
    have : ∀ c, getAttribute e eventTypeClause ≠ .node c := by
      intro c h
      rw [getAttribute_type] at h
      apply hc
      refine ⟨c, ?_⟩
      unfold HasType
      cases hv : e.values[1]? with
      | none => rw [hv] at h; cases h
      | some v => rw [hv] at h; simp at h; rw [h]
    unfold ofType
    cases hg : getAttribute e eventTypeClause with
    | node c => exact absurd hg (this c)
    | _ => simp

theorem operand_is {s : Space} {e : Event} {els : List Element} {i k : Nat}
    (ih : ∀ j, i < j → j < els.length → ∃ b, whereClause s e els k j = .val (.bool b) ∧ ElementIs s e els j b)
    {a : Operand} (ha : OperandOk s e els i a) :
    ∃ v, operandValue e (whereClause s e els k) a = some (.val v) ∧ OperandIs s e els a v ∧
      ∀ w, comparable (kindOf e a) w = comparable v w ∧ comparable w (kindOf e a) = comparable w v := by
  cases a with
  | literal v => exact ⟨v, rfl, .literal v, fun w => ⟨rfl, rfl⟩⟩
  | field c => exact ⟨getAttribute e c, rfl, .field (getAttribute_selected ha), fun w => ⟨rfl, rfl⟩⟩
  | element j =>
    obtain ⟨b, h1, h2⟩ := ih j ha.1 ha.2
    refine ⟨.bool b, by simp [operandValue, h1], .element h2, fun w => ?_⟩
    cases w <;> exact ⟨rfl, rfl⟩
  | other => exact absurd ha id

theorem element_is {s : Space} (hs : SingleInheritance s) {e : Event} (hd : Shallow s e) {els : List Element} (hf : FilterOk s e els) :
    ∀ (k i : Nat), i < els.length → els.length - i ≤ k → ∃ b, whereClause s e els k i = .val (.bool b) ∧ ElementIs s e els i b := by
  intro k
  induction k with
  | zero => intro i h1 h2; omega
  | succ k ih =>
    intro i h1 h2
    have hel : els[i]? = some els[i] := List.getElem?_eq_getElem h1
    rcases hf i els[i] hel with ⟨a, b, he, ha, hb, hc⟩ | ⟨t, he⟩
    · rw [he] at hel
      have ih' : ∀ j, i < j → j < els.length → ∃ b, whereClause s e els k j = .val (.bool b) ∧ ElementIs s e els j b :=
        fun j h3 h4 => ih j h4 (by omega)
      obtain ⟨va, h3, h4, h5⟩ := operand_is ih' ha
      obtain ⟨vb, h6, h7, h8⟩ := operand_is ih' hb
      have hcmp : comparable va vb = true := by
        rw [← (h5 vb).1, ← (h8 (kindOf e a)).2]
        exact hc
      refine ⟨Same va vb, ?_, .equals hel h4 h7⟩
      unfold whereClause
      rw [hel]
      simp [equals, h3, h6, goEq_same hcmp]
    · rw [he] at hel
      obtain ⟨b, h3, h4⟩ := ofType_is hs hd hel
      refine ⟨b, ?_, h4⟩
      unfold whereClause
      rw [hel]
      simpa using h3

theorem element_inv {s : Space} {e : Event} {els : List Element} (hf : FilterOk s e els) {i : Nat} {r : Bool}
    (h : ElementIs s e els i r) :
    (∃ a b va vb, els[i]? = some ⟨0, [a, b]⟩ ∧ OperandOk s e els i a ∧ OperandOk s e els i b ∧ OperandIs s e els a va ∧
      OperandIs s e els b vb ∧ r = Same va vb) ∨
    (∃ t, els[i]? = some ⟨14, [.literal (.node t)]⟩ ∧ (r = true ↔ ∃ c, HasType e c ∧ IsA s c t)) := by
  cases h with
  | @equals _ a b va vb hel h1 h2 =>
    rcases hf i _ hel with ⟨a', b', he, ha, hb, _⟩ | ⟨t, he⟩
    · cases he
      exact Or.inl ⟨a, b, va, vb, hel, ha, hb, h1, h2, rfl⟩
    · cases he
  | @isType _ t c hel h1 h2 => exact Or.inr ⟨t, hel, by simp; exact ⟨c, h1, h2⟩⟩
  | @notType _ t hel h1 =>
    refine Or.inr ⟨t, hel, ?_⟩
    constructor
    · intro h; cases h
    · rintro ⟨c, h2, h3⟩; exact absurd h3 (h1 c h2)
  | not hel _ => rcases hf i _ hel with ⟨a', b', he, _⟩ | ⟨t, he⟩ <;> cases he
  | and hel _ _ => rcases hf i _ hel with ⟨a', b', he, _⟩ | ⟨t, he⟩ <;> cases he
  | or hel _ _ => rcases hf i _ hel with ⟨a', b', he, _⟩ | ⟨t, he⟩ <;> cases he

theorem element_unique {s : Space} {e : Event} {els : List Element} (hf : FilterOk s e els) :
    ∀ (k i : Nat), els.length - i ≤ k → ∀ b c, ElementIs s e els i b → ElementIs s e els i c → b = c := by
  intro k
  induction k with
  | zero =>
    intro i h b c hb _
    have : els[i]? = none := List.getElem?_eq_none (by omega)
    rcases element_inv hf hb with ⟨_, _, _, _, h1, _⟩ | ⟨_, h1, _⟩
    all_goals rw [this] at h1; cases h1
  | succ k ih =>
    intro i h b c hb hc
    have hop : ∀ a va vb, OperandOk s e els i a → OperandIs s e els a va → OperandIs s e els a vb → va = vb := by
      intro a va vb ha h1 h2
      cases a with
      | literal v => cases h1; cases h2; rfl
      | field c =>
        cases h1 with
        | field h1 => cases h2 with
          | field h2 => exact selected_unique h1 h2
      | element j =>
        cases h1 with
        | element h1 => cases h2 with
          | element h2 =>
            have := ha.1
            have := ha.2
            rw [ih j (by omega) _ _ h1 h2]
      | other => exact absurd ha id
    rcases element_inv hf hb with ⟨a, a', va, vb, h1, h2, h3, h4, h5, h6⟩ | ⟨t, h1, h2⟩
    · rcases element_inv hf hc with ⟨x, x', vx, vy, g1, g2, g3, g4, g5, g6⟩ | ⟨t, g1, g2⟩
      · rw [h1] at g1
        cases g1
        rw [h6, g6, hop _ _ _ h2 h4 g4, hop _ _ _ h3 h5 g5]
      · rw [h1] at g1; cases g1
    · rcases element_inv hf hc with ⟨x, x', vx, vy, g1, g2, g3, g4, g5, g6⟩ | ⟨t, g1, g2⟩
      · rw [h1] at g1; cases g1
      · rw [h1] at g1
        cases g1
        rw [Bool.eq_iff_iff, h2, g2]

/-! ## C58 -/

/-- **C58 (where clause, partial).** For a filter of Equals and OfType elements that refer to later elements
and compare values of the same type, the evaluation ends, and the event is queued exactly if the filter
lets it pass. Missing: the other filters, see the theorems that fail. -/
theorem C58_where_partial (s : Space) (hs : SingleInheritance s) (e : Event) (hd : Shallow s e) (els : List Element)
    (hf : FilterOk s e els) (select : List Clause) (depth : Nat) (hdepth : els.length < depth) :
    (Passes s e els ∧ ∃ fields, onEvent s els select depth e = .queued fields) ∨
    (¬ Passes s e els ∧ onEvent s els select depth e = .dropped) := by
  by_cases hl : els = []
  · subst hl
    obtain ⟨k, rfl⟩ : ∃ k, depth = k + 1 := ⟨depth - 1, by simp at hdepth; omega⟩
    exact Or.inl ⟨Or.inl rfl, _, by simp [onEvent, whereClause]; rfl⟩
  · have hpos : 0 < els.length := by
      cases els with
      | nil => exact absurd rfl hl
      | cons _ _ => simp
    obtain ⟨b, h1, h2⟩ := element_is hs hd hf depth 0 hpos (by omega)
    cases b with
    | true => exact Or.inl ⟨Or.inr h2, _, by simp [onEvent, h1]; rfl⟩
    | false =>
      refine Or.inr ⟨?_, by simp [onEvent, h1]⟩
      rintro (h | h)
      · exact hl h
      · have := element_unique hf _ 0 (Nat.le_refl _) _ _ h h2
        cases this

/-- **C58 (fields, partial).** The fields of a queued event are those that were selected, in order. Missing:
clauses that name a subtype of the type that declares the field, see `C58_inherited_fails`. -/
theorem C58_fields_partial (s : Space) (els : List Element) (select : List Clause) (depth : Nat) (e : Event)
    (fields : List Value) (h : onEvent s els select depth e = .queued fields) :
    fields.length = select.length ∧
    ∀ (i : Nat) (c : Clause), select[i]? = some c → Plain s e c → ∃ v, fields[i]? = some v ∧ Selected s e c v ∧
      ∀ w, Selected s e c w → w = v := by
  have hfields : fields = selectFields e select := by
    unfold onEvent at h
    split at h
    · split at h
      · cases h; rfl
      · cases h
    · cases h
    · cases h
  subst hfields
  refine ⟨by simp [selectFields], ?_⟩
  intro i c hc hp
  refine ⟨getAttribute e c, by simp [selectFields, hc], getAttribute_selected hp, fun w hw => ?_⟩
  exact selected_unique hw (getAttribute_selected hp)

/-- A condition of type (1, 5), a subtype of ConditionType. -/
def pumpFailed : Event :=
  ⟨[.text 15 "id", .node ⟨1, 5⟩, .node ⟨1, 9⟩, .text 12 "Pump", .time 100 0, .time 101 0, .text 21 "failed", .num 5 700,
    .node ⟨1, 77⟩, .text 12 "Failure", .null, .bool true]⟩

def eventTypes : Space := fun id =>
  if id = ⟨1, 5⟩ then some { refs := [⟨hasSubtype, true, conditionType⟩] }
  else if id = conditionType then some { refs := [⟨hasSubtype, true, baseEventType⟩] }
  else if id = baseEventType then some { refs := [] } else none

theorem eventTypes_single : SingleInheritance eventTypes := by
  rintro a b c ⟨n, hn, hb⟩ ⟨m, hm, hc⟩
  rw [hn] at hm
  cases hm
  unfold eventTypes at hn
  split at hn
  · cases hn; simp only [List.mem_singleton, Ref.mk.injEq, true_and] at hb hc; rw [hb, hc]
  · split at hn
    · cases hn; simp only [List.mem_singleton, Ref.mk.injEq, true_and] at hb hc; rw [hb, hc]
    · split at hn
      · cases hn; cases hb
      · cases hn

/-- The severity is 700, and the comparison of the type test with true holds. -/
def pumpFilter : List Element :=
  [⟨0, [.element 1, .element 2]⟩, ⟨0, [.field { type := ⟨0, 2041⟩, path := ["Severity"] }, .literal (.num 5 700)]⟩,
   ⟨14, [.literal (.node conditionType)]⟩]

theorem eventTypes_super {a b : Id} (h : IsSuper eventTypes a b) : (a = ⟨1, 5⟩ ∧ b = conditionType) ∨ (a = conditionType ∧ b = baseEventType) := by
  obtain ⟨n, hn, hr⟩ := h
  unfold eventTypes at hn
  split at hn
  next ha => cases hn; simp only [List.mem_singleton, Ref.mk.injEq, true_and] at hr; exact Or.inl ⟨ha, hr⟩
  · split at hn
    next ha => cases hn; simp only [List.mem_singleton, Ref.mk.injEq, true_and] at hr; exact Or.inr ⟨ha, hr⟩
    · split at hn
      · cases hn; cases hr
      · cases hn

theorem pump_shallow : Shallow eventTypes pumpFailed := by
  intro c hc k t hk
  cases hk with
  | zero => omega
  | succ h1 h2 => cases h2 with
    | zero => omega
    | succ h3 h4 => cases h4 with
      | zero => omega
      | succ h5 h6 =>
        rcases eventTypes_super h1 with ⟨_, rfl⟩ | ⟨_, rfl⟩
        · rcases eventTypes_super h3 with ⟨h, _⟩ | ⟨_, rfl⟩
          · cases h
          · rcases eventTypes_super h5 with ⟨h, _⟩ | ⟨h, _⟩ <;> cases h
        · rcases eventTypes_super h3 with ⟨h, _⟩ | ⟨h, _⟩ <;> cases h

theorem pump_isA : IsA eventTypes ⟨1, 5⟩ conditionType ∧ IsA eventTypes ⟨1, 5⟩ baseEventType := by
  have h1 : IsSuper eventTypes ⟨1, 5⟩ conditionType := ⟨{ refs := [⟨hasSubtype, true, conditionType⟩] }, by decide, by decide⟩
  have h2 : IsSuper eventTypes conditionType baseEventType := ⟨{ refs := [⟨hasSubtype, true, baseEventType⟩] }, by decide, by decide⟩
  exact ⟨⟨1, .succ h1 (.zero _)⟩, ⟨2, .succ h1 (.succ h2 (.zero _))⟩⟩

example : FilterOk eventTypes pumpFailed pumpFilter := by
  intro i el h
  have hp : Plain eventTypes pumpFailed { type := ⟨0, 2041⟩, path := ["Severity"] } :=
    fun p _ _ => ⟨Or.inl rfl, ⟨1, 5⟩, rfl, pump_isA.2⟩
  match i with
  | 0 => cases h; exact Or.inl ⟨_, _, rfl, by simp [OperandOk, pumpFilter], by simp [OperandOk, pumpFilter], by decide⟩
  | 1 => cases h; exact Or.inl ⟨_, _, rfl, hp, trivial, by decide⟩
  | 2 => cases h; exact Or.inr ⟨_, rfl⟩
  | n + 3 => cases h

example : onEvent eventTypes pumpFilter [{ type := ⟨0, 2041⟩, path := ["SourceName"] }, { type := conditionType, path := ["Retain"] }] 9 pumpFailed =
    .queued [.text 12 "Pump", .bool true] := by decide +kernel
example : onEvent eventTypes [⟨0, [.literal (.num 5 1), .literal (.num 5 2)]⟩] [] 9 pumpFailed = .dropped := by decide +kernel

/-- **C58 fails (operators).** "Not of type ..." is never true. -/
theorem C58_operator_fails :
    let els : List Element := [⟨7, [.element 1]⟩, ⟨14, [.literal (.node alarmConditionType)]⟩]
    Passes eventTypes pumpFailed els ∧ onEvent eventTypes els [] 9 pumpFailed = .dropped := by
  refine ⟨Or.inr ?_, by decide +kernel⟩
  refine .not (a := .element 1) (b := false) rfl (.element (.notType (t := alarmConditionType) rfl ?_))
  intro c hc ⟨k, hk⟩
  cases hc
  cases hk with
  | succ h1 h2 =>
    rcases eventTypes_super h1 with ⟨_, rfl⟩ | ⟨_, rfl⟩
    · cases h2 with
      | succ h3 h4 =>
        rcases eventTypes_super h3 with ⟨h, _⟩ | ⟨_, rfl⟩
        · cases h
        · cases h4 with
          | succ h5 h6 => rcases eventTypes_super h5 with ⟨h, _⟩ | ⟨h, _⟩ <;> cases h
    · cases h2 with
      | succ h3 h4 => rcases eventTypes_super h3 with ⟨h, _⟩ | ⟨h, _⟩ <;> cases h

/-- **C58 fails (conversion).** A severity of 700 is not equal to the Int32 700. -/
theorem C58_conversion_fails :
    let els : List Element := [⟨0, [.field { type := ⟨0, 2041⟩, path := ["Severity"] }, .literal (.num 6 700)]⟩]
    Passes eventTypes pumpFailed els ∧ onEvent eventTypes els [] 9 pumpFailed = .dropped := by
  refine ⟨Or.inr (.equals (va := .num 5 700) (vb := .num 6 700) rfl (.field ?_) (.literal _)), by decide +kernel⟩
  exact Or.inl ⟨({ type := ⟨0, 2041⟩, path := ["Severity"] }, .num 5 700), by decide, ⟨rfl, rfl, rfl⟩, ⟨_, rfl, pump_isA.2⟩, rfl⟩

/-- **C58 fails (times).** A time with a clock reading is not equal to the same instant in a literal. -/
theorem C58_time_fails :
    let e : Event := ⟨[.text 15 "id", .node baseEventType, .null, .text 12 "", .time 100 1]⟩
    let els : List Element := [⟨0, [.field { type := ⟨0, 2041⟩, path := ["Time"] }, .literal (.time 100 0)]⟩]
    Passes eventTypes e els ∧ onEvent eventTypes els [] 9 e = .dropped := by
  refine ⟨Or.inr (.equals (va := .time 100 1) (vb := .time 100 0) rfl (.field ?_) (.literal _)), by decide +kernel⟩
  exact Or.inl ⟨({ type := ⟨0, 2041⟩, path := ["Time"] }, .time 100 1), by decide, ⟨rfl, rfl, rfl⟩, ⟨baseEventType, rfl, 0, .zero _⟩, rfl⟩

/-- **C58 fails (inherited fields).** A condition has a severity, but a clause that asks for the severity of
a ConditionType gets null. -/
theorem C58_inherited_fails : Selected eventTypes pumpFailed { type := conditionType, path := ["Severity"] } (.num 5 700) ∧
    onEvent eventTypes [] [{ type := conditionType, path := ["Severity"] }] 9 pumpFailed = .queued [.null] := by
  refine ⟨Or.inl ⟨({ type := ⟨0, 2041⟩, path := ["Severity"] }, .num 5 700), by decide, ⟨rfl, rfl, rfl⟩, ⟨_, rfl, pump_isA.1⟩, rfl⟩, by decide +kernel⟩

/-- **C58 fails (panics).** Filters that a client can send make the server panic: Equals with one operand,
OfType without operands, and the comparison of two arrays. -/
theorem C58_panic_fails (s : Space) (e : Event) (select : List Clause) :
    onEvent s [⟨0, [.literal .null]⟩] select 9 e = .panic ∧ onEvent s [⟨14, []⟩] select 9 e = .panic ∧
    onEvent s [⟨0, [.literal (.array 6 [1]), .literal (.array 6 [1])]⟩] select 9 e = .panic := by
  refine ⟨?_, ?_, ?_⟩ <;> simp [onEvent, whereClause, equals, ofType, operandValue, goEq]

/-- **C58 fails (no end).** An element that refers to itself is evaluated for ever. -/
theorem C58_endless_fails (s : Space) (e : Event) (select : List Clause) (depth : Nat) :
    onEvent s [⟨0, [.element 0, .literal (.bool true)]⟩] select depth e = .running := by
  have key : ∀ k, whereClause s e [⟨0, [.element 0, .literal (.bool true)]⟩] k 0 = .running := by
    intro k
    induction k with
    | zero => rfl
    | succ k ih =>
      unfold whereClause
      simp [equals, operandValue, ih]
  simp [onEvent, key]

/-! ## C91: fields of events -/

/-- The type of the field in each place of the Go structures, ua/alarm_condition.go:10-26 and, for the
kinds with fewer fields, base_event.go:14-23, condition.go:10-23, acknowledgeable_condition.go:10-25: ByteString, NodeID (which may be nil), String,
time, LocalizedText, UInt16 and Boolean. -/
def Fits (i : Nat) (v : Value) : Prop :=
  match i with
  | 0 => ∃ x, v = .text 15 x
  | 1 | 2 | 8 | 10 => v = .null ∨ ∃ x, v = .node x
  | 3 | 9 => ∃ x, v = .text 12 x
  | 4 | 5 => ∃ x y, v = .time x y
  | 6 => ∃ x, v = .text 21 x
  | 7 => ∃ x, v = .num 5 x
  | 11 | 12 | 13 | 14 => ∃ x, v = .bool x
  | _ => False

/-- The values have the types that the fields have in the Go structures. -/
def WellTyped (e : Event) : Prop := ∀ (i : Nat) (v : Value), e.values[i]? = some v → Fits i v

theorem WellTyped.length {e : Event} (h : WellTyped e) : e.values.length ≤ 15 := by
  refine Classical.byContradiction fun hl => ?_
  have h15 : 15 < e.values.length := by omega
  exact h 15 _ (List.getElem?_eq_getElem h15)

theorem WellTyped.assert {e : Event} (h : WellTyped e) {i : Nat} {t : FieldType} {v : Value}
    (ht : fieldTypes[i]? = some t) (hv : e.values[i]? = some v) : assertType t v = v := by
  have hf := h i v hv
  unfold Fits at hf
  split at hf
  all_goals first
    | exact hf.elim
    | (simp only [fieldTypes, List.getElem?_cons_zero, List.getElem?_cons_succ, Option.some.injEq] at ht
       subst ht
       first
       | (rcases hf with rfl | ⟨x, rfl⟩ <;> rfl)
       | (obtain ⟨x, y, rfl⟩ := hf; rfl)
       | (obtain ⟨x, rfl⟩ := hf; rfl))

theorem getAttribute_clause {e : Event} {i : Nat} {c : Clause} {v : Value} (hc : selectClauses[i]? = some c)
    (hv : e.values[i]? = some v) : getAttribute e c = v := by
  have hm : (c, v) ∈ attributes e := by
    unfold attributes
    refine List.mem_append.mpr (Or.inl ?_)
    exact List.mem_of_getElem? (i := i) (List.getElem?_zip_eq_some.mpr ⟨hc, hv⟩)
  have he : equalOperand c c = true := (equalOperand_iff c c).mpr ⟨Or.inr rfl, rfl, rfl, rfl⟩
  unfold getAttribute
  cases hf : (attributes e).find? (fun p => equalOperand c p.1) with
  | none =>
    rw [List.find?_eq_none] at hf
    exact absurd he (hf _ hm)
  | some p =>
    have h1 := List.mem_of_find?_eq_some hf
    have h2 := ((equalOperand_iff c p.1).mp (List.find?_some (p := fun p : Clause × Value => equalOperand c p.1) hf)).2
    rw [← attributes_distinct e (c, v) p hm h1 h2]

/-- **C91.** An event that is queued with the select clauses of its own kind, or of a kind that has a part of
its fields, is unmarshalled to the fields that it was raised with. -/
theorem C91_fields (e : Event) (he : WellTyped e) (n : Nat) (hn : n ≤ e.values.length) (s : Space) (depth : Nat) :
    ∃ fields, onEvent s [] (selectClauses.take n) (depth + 1) e = .queued fields ∧
      unmarshalFields n fields = some ⟨e.values.take n⟩ := by
  have hlen := he.length
  have hcl : selectClauses.length = 15 := rfl
  have hft : fieldTypes.length = 15 := rfl
  refine ⟨selectFields e (selectClauses.take n), by simp [onEvent, whereClause], ?_⟩
  have hsel : selectFields e (selectClauses.take n) = e.values.take n := by
    apply List.ext_getElem?
    intro i
    unfold selectFields
    rw [List.getElem?_map]
    by_cases hi : i < n
    · rw [List.getElem?_take_of_lt hi, List.getElem?_take_of_lt hi]
      have h1 : i < selectClauses.length := by omega
      have h2 : i < e.values.length := by omega
      rw [List.getElem?_eq_getElem h1, List.getElem?_eq_getElem h2, Option.map_some]
      exact congrArg some (getAttribute_clause (List.getElem?_eq_getElem h1) (List.getElem?_eq_getElem h2))
    · rw [List.getElem?_eq_none (by simp; omega), List.getElem?_eq_none (by simp; omega)]
      rfl
  unfold unmarshalFields
  rw [hsel, if_neg (by simp; omega)]
  congr 2
  apply List.ext_getElem?
  intro i
  rw [List.getElem?_map]
  by_cases hi : i < n
  · have h1 : i < fieldTypes.length := by omega
    have h2 : i < e.values.length := by omega
    have h3 : ((fieldTypes.take n).zip (e.values.take n))[i]? = some (fieldTypes[i], e.values[i]) :=
      List.getElem?_zip_eq_some.mpr ⟨by rw [List.getElem?_take_of_lt hi, List.getElem?_eq_getElem h1],
        by rw [List.getElem?_take_of_lt hi, List.getElem?_eq_getElem h2]⟩
    rw [h3, List.getElem?_take_of_lt hi, List.getElem?_eq_getElem h2, Option.map_some]
    exact congrArg some (he.assert (List.getElem?_eq_getElem h1) (List.getElem?_eq_getElem h2))
  · rw [List.getElem?_eq_none (by simp; omega), List.getElem?_eq_none (by simp; omega)]
    rfl

/-- The zero values of the fields. -/
def zeroValues : List Value :=
  [.text 15 "", .null, .null, .text 12 "", .time 0 0, .time 0 0, .text 21 "", .num 5 0, .null, .text 12 "", .null,
   .bool false, .bool false, .bool false, .bool false]

theorem assertType_zero : fieldTypes.map (fun t => assertType t .null) = zeroValues := rfl

/-- **C91 (other kinds).** Fields that the event does not have are unmarshalled to their zero values. -/
theorem C91_missing (e : Event) (n i : Nat) (hi : i < n) (hn : n ≤ 15) (hl : e.values.length ≤ i) (hk : e.values.length < 15) :
    ∃ fields ev, selectFields e (selectClauses.take n) = fields ∧ unmarshalFields n fields = some ev ∧
      ev.values[i]? = zeroValues[i]? := by
  have hcl : selectClauses.length = 15 := rfl
  have hft : fieldTypes.length = 15 := rfl
  have h1 : i < selectClauses.length := by omega
  have h2 : i < fieldTypes.length := by omega
  have hlen : (selectFields e (selectClauses.take n)).length = n := by simp [selectFields]; omega
  have hnull : getAttribute e selectClauses[i] = .null := by
    unfold getAttribute
    cases hf : (attributes e).find? (fun p => equalOperand selectClauses[i] p.1) with
    | none => rfl
    | some p =>
      exfalso
      have hm := List.mem_of_find?_eq_some hf
      have hs := ((equalOperand_iff selectClauses[i] p.1).mp (List.find?_some (p := fun p : Clause × Value => equalOperand selectClauses[i] p.1) hf)).2
      unfold attributes at hm
      rw [if_neg (by omega), List.append_nil] at hm
      obtain ⟨j, hj⟩ := List.mem_iff_getElem?.mp hm
      obtain ⟨g1, g2⟩ := List.getElem?_zip_eq_some.mp (show (selectClauses.zip e.values)[j]? = some (p.1, p.2) from hj)
      have hj2 : j < e.values.length := (List.getElem?_eq_some_iff.mp g2).1
      -- the event of all fields shows that the paths differ
      have hd : (selectClauses.map (fun c => (c.path, c.attr, c.range))).Nodup := by decide
      have : (selectClauses.map (fun c => (c.path, c.attr, c.range)))[i]? = (selectClauses.map (fun c => (c.path, c.attr, c.range)))[j]? := by
        rw [List.getElem?_map, List.getElem?_map, g1, List.getElem?_eq_getElem h1, Option.map_some, Option.map_some]
        exact congrArg some (Prod.ext hs.1 (Prod.ext hs.2.1 hs.2.2))
      have := (List.getElem?_inj (by simpa using h1) hd).mp this
      omega
  refine ⟨_, _, rfl, by unfold unmarshalFields; rw [if_neg (by simpa using hlen)], ?_⟩
  rw [← assertType_zero]
  have h3 : ((fieldTypes.take n).zip (selectFields e (selectClauses.take n)))[i]? = some (fieldTypes[i], .null) := by
    refine List.getElem?_zip_eq_some.mpr ⟨by rw [List.getElem?_take_of_lt hi, List.getElem?_eq_getElem h2], ?_⟩
    unfold selectFields
    rw [List.getElem?_map, List.getElem?_take_of_lt hi, List.getElem?_eq_getElem h1, Option.map_some]
    exact congrArg some hnull
  rw [List.getElem?_map, h3, List.getElem?_map, List.getElem?_eq_getElem h2]
  rfl

example : WellTyped pumpFailed := by
  intro i v hv
  have hi : i < 12 := (List.getElem?_eq_some_iff.mp hv).1
  have : i = 0 ∨ i = 1 ∨ i = 2 ∨ i = 3 ∨ i = 4 ∨ i = 5 ∨ i = 6 ∨ i = 7 ∨ i = 8 ∨ i = 9 ∨ i = 10 ∨ i = 11 := by omega
  rcases this with rfl | rfl | rfl | rfl | rfl | rfl | rfl | rfl | rfl | rfl | rfl | rfl <;>
    (cases hv; simp [Fits])

/-- The names of the fields that the structures hold, in their order. -/
def fieldPaths : List (List String) :=
  [["EventId"], ["EventType"], ["SourceNode"], ["SourceName"], ["Time"], ["ReceiveTime"], ["Message"], ["Severity"],
   [], ["ConditionName"], ["BranchId"], ["Retain"], ["AckedState", "Id"], ["ConfirmedState", "Id"], ["ActiveState", "Id"]]

/-- **C58 (names).** A clause of BaseEventType with the name of a field gets that field. The NodeId of the
condition, attribute 1 with an empty path, is the only field that is not a value. -/
theorem C58_names (e : Event) (i : Nat) (path : List String) (v : Value) (hp : fieldPaths[i]? = some path)
    (hv : e.values[i]? = some v) :
    getAttribute e { type := ⟨0, 2041⟩, path := path, attr := if i = 8 then 1 else 13 } = v := by
  have hi : i < 15 := (List.getElem?_eq_some_iff.mp hp).1
  have key : ∀ c, selectClauses[i]? = some c → SameField { type := ⟨0, 2041⟩, path := path, attr := if i = 8 then 1 else 13 } c →
      getAttribute e { type := ⟨0, 2041⟩, path := path, attr := if i = 8 then 1 else 13 } = v := by
    intro c hc hsame
    have hm : (c, v) ∈ attributes e := by
      unfold attributes
      exact List.mem_append.mpr (Or.inl (List.mem_of_getElem? (i := i) (List.getElem?_zip_eq_some.mpr ⟨hc, hv⟩)))
    have he : equalOperand { type := ⟨0, 2041⟩, path := path, attr := if i = 8 then 1 else 13 } c = true :=
      (equalOperand_iff _ _).mpr ⟨Or.inl rfl, hsame⟩
    unfold getAttribute
    cases hf : (attributes e).find? (fun p => equalOperand { type := ⟨0, 2041⟩, path := path, attr := if i = 8 then 1 else 13 } p.1) with
    | none =>
      rw [List.find?_eq_none] at hf
      exact absurd he (hf _ hm)
    | some p =>
      have h1 := List.mem_of_find?_eq_some hf
      have h2 := ((equalOperand_iff _ p.1).mp (List.find?_some (p := fun p : Clause × Value =>
        equalOperand { type := ⟨0, 2041⟩, path := path, attr := if i = 8 then 1 else 13 } p.1) hf)).2
      have h3 : SameField c p.1 := ⟨hsame.1.symm.trans h2.1, hsame.2.1.symm.trans h2.2.1, hsame.2.2.symm.trans h2.2.2⟩
      rw [← attributes_distinct e (c, v) p hm h1 h3]
  have : i = 0 ∨ i = 1 ∨ i = 2 ∨ i = 3 ∨ i = 4 ∨ i = 5 ∨ i = 6 ∨ i = 7 ∨ i = 8 ∨ i = 9 ∨ i = 10 ∨ i = 11 ∨ i = 12 ∨
    i = 13 ∨ i = 14 := by omega
  rcases this with rfl | rfl | rfl | rfl | rfl | rfl | rfl | rfl | rfl | rfl | rfl | rfl | rfl | rfl | rfl <;>
    (cases hp; exact key _ rfl ⟨rfl, rfl, rfl⟩)

example : getAttribute pumpFailed { type := ⟨0, 2041⟩, path := ["Severity"] } = .num 5 700 := by decide +kernel

/-- **C58 (state of alarms).** The effective display name of the active state of an alarm is "Active" if it is
active and "Inactive" if it is not. -/
theorem C58_activeState (e : Event) (b : Bool) (he : e.values.length = 15) (hb : e.values[14]? = some (.bool b)) :
    getAttribute e { type := ⟨0, 2915⟩, path := ["ActiveState", "EffectiveDisplayName"] } =
      .text 21 (if b then "Active" else "Inactive") := by
  unfold getAttribute
  have hm : (activeStateName, Value.text 21 (if e.values[14]? = some (.bool true) then "Active" else "Inactive")) ∈ attributes e := by
    unfold attributes
    rw [if_pos he]
    simp
  cases hf : (attributes e).find? (fun p => equalOperand { type := ⟨0, 2915⟩, path := ["ActiveState", "EffectiveDisplayName"] } p.1) with
  | none =>
    rw [List.find?_eq_none] at hf
    exact absurd (show equalOperand { type := ⟨0, 2915⟩, path := ["ActiveState", "EffectiveDisplayName"] }
      activeStateName = true by decide) (hf _ hm)
  | some p =>
    have h1 := List.mem_of_find?_eq_some hf
    have h2 := ((equalOperand_iff _ p.1).mp (List.find?_some (p := fun p : Clause × Value =>
      equalOperand { type := ⟨0, 2915⟩, path := ["ActiveState", "EffectiveDisplayName"] } p.1) hf)).2
    rw [← attributes_distinct e _ p hm h1 h2, hb]
    cases b <;> simp

example : getAttribute ⟨pumpFailed.values ++ [.bool false, .bool false, .bool true]⟩ activeStateName = .text 21 "Active" := by
  decide +kernel

example : unmarshalFields 8 (selectFields pumpFailed (selectClauses.take 8)) = some ⟨pumpFailed.values.take 8⟩ := by decide +kernel
example : unmarshalFields 8 (selectFields pumpFailed (selectClauses.take 9)) = none := by decide +kernel

end Opcua.EventFilter
