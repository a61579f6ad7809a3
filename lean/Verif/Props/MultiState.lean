import Verif.Model.MultiState
import Verif.Lemmas.Lists

/-! C112 and C113: variables of type MultiStateValueDiscreteType, and finding properties and components. -/

namespace Opcua.MultiState

namespace Spec

/-- The integer that a value is, if it is one. -/
inductive Denotes : V → Int → Prop where
  | int (k n) : Denotes (.int k n) n
  | float (n : Int) : Denotes (.float n) n

/-- A value that int64 can hold. -/
def Fits (n : Int) : Prop := -(2 : Int) ^ 63 ≤ n ∧ n < (2 : Int) ^ 63

/-- The enumeration that the property EnumValues gives. -/
def Enumerates (s : St) (evs : List EnumValue) : Prop := s.enums = .objects (evs.map some)

/-- The text belongs to the value. -/
def InStep (evs : List EnumValue) (s : St) : Prop := ∃ e ∈ evs, Denotes s.value e.value ∧ s.text = e.name

end Spec

open Spec

theorem toEnumValues_some (evs : List EnumValue) : toEnumValues (evs.map some) = some evs := by
  induction evs with
  | nil => rfl
  | cons e evs ih => simp [toEnumValues, ih]

theorem wrap_fits {n : Int} (h : Fits n) : wrap n = n := by
  simp only [Fits] at h
  simp only [wrap, BitVec.toInt_ofInt]
  rw [Int.bmod_def]
  omega

theorem int64_denotes {v : V} {n : Int} (h : Denotes v n) (hn : Fits n) : int64 v = some n := by
  cases h with
  | int k =>
    cases k <;> simp [int64, wrap_fits hn]
  | float =>
    simp only [int64, truncate]
    split <;> simp

theorem lookup_unique {evs : List EnumValue} {e : EnumValue} (he : e ∈ evs) (hd : (evs.map (·.value)).Nodup) :
    lookup evs e.value = some e := by
  unfold lookup
  induction evs with
  | nil => cases he
  | cons a evs ih =>
    simp only [List.map_cons, List.nodup_cons, List.mem_map, not_exists, not_and] at hd
    rcases List.mem_cons.1 he with rfl | he'
    · simp
    · have : a.value ≠ e.value := fun h => hd.1 e he' h.symm
      have hb : (a.value == e.value) = false := by simpa using this
      rw [List.find?_cons, hb]
      exact ih he' hd.2

/-- A write of one of the values of the enumeration sets the value and its text. -/
theorem write_known (accepts : V → Bool) (s : St) (evs : List EnumValue) (hs : Enumerates s evs)
    (hd : (evs.map (·.value)).Nodup) (v : V) (e : EnumValue) (he : e ∈ evs) (hv : Denotes v e.value)
    (hf : Fits e.value) (ha : accepts v = true) (r : Option (Nat × Nat)) :
    write accepts s v r = some ({ s with value := v, text := e.name }, .good) := by
  simp only [Enumerates] at hs
  simp [write, ha, handler, int64_denotes hv hf, hs, toEnumValues_some, lookup_unique he hd]

/-- C112 in part: after any writes of values of the enumeration (the service may refuse any of them) the text belongs
to the value. What it is to miss: values that are not of the enumeration. -/
theorem C112_in_step_partial (accepts : V → Bool) (s : St) (evs : List EnumValue) (hs : Enumerates s evs)
    (hd : (evs.map (·.value)).Nodup) (hf : ∀ e ∈ evs, Fits e.value) (h0 : InStep evs s)
    (ws : List (V × Option (Nat × Nat))) (hw : ∀ w ∈ ws, ∃ e ∈ evs, Denotes w.1 e.value) :
    ∃ s', run accepts s ws = some s' ∧ Enumerates s' evs ∧ InStep evs s' ∧
      (∀ w, ws.getLast? = some w → accepts w.1 = true → s'.value = w.1) := by
  induction ws using snocInd with
  | nil => exact ⟨s, rfl, hs, h0, by simp⟩
  | append_singleton ws w ih =>
    obtain ⟨s1, h1, h2, h3, -⟩ := ih (fun w hw' => hw w (by simp [hw']))
    obtain ⟨e, he, hv⟩ := hw w (by simp)
    have hrun : run accepts s (ws ++ [w]) = (run accepts s ws).bind (fun s => (write accepts s w.1 w.2).map (·.1)) := by
      simp [run]
    rw [hrun, h1]
    by_cases ha : accepts w.1 = true
    · rw [Option.bind_some, write_known accepts s1 evs h2 hd w.1 e he hv (hf e he) ha w.2]
      refine ⟨_, rfl, h2, ⟨e, he, hv, rfl⟩, ?_⟩
      intro w' hw' _
      simp at hw'
      rw [← hw']
    · refine ⟨s1, ?_, h2, h3, ?_⟩
      · simp [write, ha]
      · intro w' hw' ha'
        simp at hw'
        subst hw'
        exact absurd ha' ha

/-- The values of the examples. -/
def demo : St := ⟨.int .i32 0, "Off", .objects [some ⟨0, "Off"⟩, some ⟨1, "On"⟩, some ⟨7, "Fault"⟩]⟩

example : Enumerates demo [⟨0, "Off"⟩, ⟨1, "On"⟩, ⟨7, "Fault"⟩] ∧ InStep [⟨0, "Off"⟩, ⟨1, "On"⟩, ⟨7, "Fault"⟩] demo ∧
    run (fun _ => true) demo [(.int .i32 7, none), (.int .i32 1, none)] = some { demo with value := .int .i32 1, text := "On" } :=
  ⟨rfl, ⟨_, List.mem_cons_self, .int _ _, rfl⟩, by decide +kernel⟩

/-- C112 fails: any accepted value outside of the enumeration is stored all the same, and the text remains that of the
value before. -/
theorem C112_unknown_fails (accepts : V → Bool) (s : St) (evs : List EnumValue) (hs : Enumerates s evs) (v : V)
    (ha : accepts v = true) (n : Int) (hn : int64 v = some n) (hx : ∀ e ∈ evs, e.value ≠ n) (r : Option (Nat × Nat)) :
    write accepts s v r = some ({ s with value := v }, .good) := by
  simp only [Enumerates] at hs
  have : lookup evs n = none := by
    simp only [lookup, List.find?_eq_none, beq_iff_eq]
    exact hx
  simp [write, ha, handler, hn, hs, toEnumValues_some, this]

example : write (fun _ => true) demo (.int .i32 3) none = some ({ demo with value := .int .i32 3 }, .good) := by
  decide +kernel

/-- C112 fails: so is a value that is no number. -/
theorem C112_kind_fails (accepts : V → Bool) (s : St) (tag : Nat) (ha : accepts (.other tag) = true) (r : Option (Nat × Nat)) :
    write accepts s (.other tag) r = some ({ s with value := .other tag }, .good) := by
  simp [write, ha, handler, int64]

/-- C112 fails: 1.5 is stored with the text of 1, and the largest uint64 with that of -1. -/
theorem C112_rounded_fails :
    (write (fun _ => true) demo (.float (3/2)) none = some ({ demo with value := .float (3/2), text := "On" }, .good)) ∧
    (write (fun _ => true) { demo with enums := .objects [some ⟨-1, "Unknown"⟩] } (.int .u64 18446744073709551615) none =
      some (⟨.int .u64 18446744073709551615, "Unknown", .objects [some ⟨-1, "Unknown"⟩]⟩, .good)) := by
  constructor <;> decide +kernel

/-- C112 fails: the index range is not looked at; what is written to an element replaces the whole. -/
theorem C112_range_fails (accepts : V → Bool) (s : St) (v : V) (r r' : Option (Nat × Nat)) :
    write accepts s v r = write accepts s v r' := rfl

/-- C112 fails: while EnumValues holds no values of the enumeration (as before the application sets it), any accepted
number ends the server. -/
theorem C112_crash_fails (accepts : V → Bool) (s : St) (v : V) (n : Int) (ha : accepts v = true) (hn : int64 v = some n)
    (hs : s.enums = .other ∨ ∃ l, s.enums = .objects l ∧ none ∈ l) (r : Option (Nat × Nat)) : write accepts s v r = none := by
  have hl : ∀ l : List (Option EnumValue), none ∈ l → toEnumValues l = none := by
    intro l
    induction l with
    | nil => intro h; cases h
    | cons a l ih =>
      intro h
      cases a with
      | none => rfl
      | some a =>
        have : none ∈ l := by simpa using h
        simp [toEnumValues, ih this]
  rcases hs with hs | ⟨l, hs, hm⟩
  · simp [write, ha, handler, hn, hs]
  · simp [write, ha, handler, hn, hs, hl l hm]

example : int64 (.int .u8 3) = some 3 := rfl

/-- Nothing else does: a write crashes only if EnumValues does not hold an enumeration. -/
theorem C112_no_crash_partial (accepts : V → Bool) (s : St) (evs : List EnumValue) (hs : Enumerates s evs) (v : V)
    (r : Option (Nat × Nat)) : ∃ s' st, write accepts s v r = some (s', st) ∧ Enumerates s' evs := by
  simp only [Enumerates] at hs
  cases ha : accepts v with
  | false => exact ⟨s, .refused, by simp [write, ha], hs⟩
  | true =>
    cases hn : int64 v with
    | none => exact ⟨{ s with value := v }, .good, by simp [write, ha, handler, hn], hs⟩
    | some n =>
      cases hl : lookup evs n with
      | none =>
        refine ⟨{ s with value := v }, .good, ?_, hs⟩
        simp [write, ha, handler, hn, hs, toEnumValues_some, hl]
      | some e =>
        refine ⟨{ s with value := v, text := e.name }, .good, ?_, hs⟩
        simp [write, ha, handler, hn, hs, toEnumValues_some, hl]

/-! ### Writes that meet -/

/-- The three calls, one after the other, are the write. -/
theorem calls_alone (s : St) (evs : List EnumValue) (hs : Enumerates s evs) (v : V) (n : Int) (hn : int64 v = some n)
    (e : EnumValue) (he : lookup evs n = some e) (accepts : V → Bool) (ha : accepts v = true) (r : Option (Nat × Nat)) :
    write accepts s v r = some ((calls v e).foldl call s, .good) := by
  simp only [Enumerates] at hs
  simp [write, ha, handler, hn, hs, toEnumValues_some, he, calls, call]

/-- C112 fails: two writes of known values that meet can leave the value of one with the text of the other. -/
theorem C112_race_fails : ∃ r, Interleaves (calls (.int .i32 0) ⟨0, "Off"⟩) (calls (.int .i32 1) ⟨1, "On"⟩) r ∧
    (r.foldl call demo).value = .int .i32 1 ∧ (r.foldl call demo).text = "Off" := by
  refine ⟨[.setValue (.int .i32 1), .setText "On", .setValue (.int .i32 0), .setText "Off", .setValue (.int .i32 0),
    .setValue (.int .i32 1)], ?_, by decide, by decide⟩
  exact .right _ _ _ _ (.right _ _ _ _ (.left _ _ _ _ (.left _ _ _ _ (.left _ _ _ _ (.right _ _ _ _ .nil)))))

theorem last_value (v : V) (s : St) (cs : List Call) (h : ∀ c ∈ cs, c = .setValue v ∨ ∃ t, c = .setText t)
    (hm : s.value = v ∨ Call.setValue v ∈ cs) : (cs.foldl call s).value = v := by
  induction cs generalizing s with
  | nil => simpa using hm
  | cons c cs ih =>
    rw [List.foldl_cons]
    apply ih _ (fun c hc => h c (by simp [hc]))
    rcases h c (by simp) with rfl | ⟨t, rfl⟩
    · exact .inl rfl
    · rcases hm with hm | hm
      · exact .inl hm
      · exact .inr (by simpa using hm)

theorem interleaves_mem {l m r : List Call} (h : Interleaves l m r) (c : Call) : c ∈ r ↔ c ∈ l ∨ c ∈ m := by
  induction h with
  | nil => simp
  | left d l m r _ ih => simp [ih, or_assoc]
  | right d l m r _ ih =>
    simp only [List.mem_cons, ih]
    constructor
    · rintro (h | h | h)
      · exact .inr (.inl h)
      · exact .inl h
      · exact .inr (.inr h)
    · rintro (h | h | h)
      · exact .inr (.inl h)
      · exact .inl h
      · exact .inr (.inr h)

theorem last_text (t : String) (s : St) (cs : List Call) (h : ∀ c ∈ cs, c = .setText t ∨ ∃ v, c = .setValue v)
    (hm : s.text = t ∨ Call.setText t ∈ cs) : (cs.foldl call s).text = t := by
  induction cs generalizing s with
  | nil => simpa using hm
  | cons c cs ih =>
    rw [List.foldl_cons]
    apply ih _ (fun c hc => h c (by simp [hc]))
    rcases h c (by simp) with rfl | ⟨v, rfl⟩
    · exact .inl rfl
    · rcases hm with hm | hm
      · exact .inl hm
      · exact .inr (by simpa using hm)

/-- Writes of the same value may meet in any way. -/
theorem C112_same_value_partial (s : St) (v : V) (e : EnumValue) (r : List Call)
    (h : Interleaves (calls v e) (calls v e) r) :
    (r.foldl call s).value = v ∧ (r.foldl call s).text = e.name := by
  have hm := interleaves_mem h
  constructor
  · apply last_value
    · intro c hc
      have := (hm c).1 hc
      simp only [calls, List.mem_cons, List.not_mem_nil, or_false] at this
      rcases this with (h | h | h) | (h | h | h) <;> subst h <;> simp
    · exact .inr ((hm _).2 (.inl (by simp [calls])))
  · apply last_text
    · intro c hc
      have := (hm c).1 hc
      simp only [calls, List.mem_cons, List.not_mem_nil, or_false] at this
      rcases this with (h | h | h) | (h | h | h) <;> subst h <;> simp
    · exact .inr ((hm _).2 (.inl (by simp [calls])))

/-! ## C113 -/

namespace Spec

/-- A node is there as a child by a reference of this very type. -/
def Child (nodes : Nat → Option Node) (refs : List Ref) (type : Nat) (t : Nat) (n : Node) : Prop :=
  ⟨type, false, t⟩ ∈ refs ∧ nodes t = some n

end Spec

theorem first_some {nodes : Nat → Option Node} {type : Nat} {name : Nat × String} {refs : List Ref} {t : Nat} {n : Node}
    (h : first nodes type name refs = some (t, n)) : Child nodes refs type t n ∧ n.name = name := by
  induction refs with
  | nil => cases h
  | cons r rs ih =>
    have hrec : first nodes type name rs = some (t, n) → Child nodes (r :: rs) type t n ∧ n.name = name := by
      intro h
      obtain ⟨⟨h1, h2⟩, h3⟩ := ih h
      exact ⟨⟨by simp [h1], h2⟩, h3⟩
    rw [first] at h
    split at h
    · rename_i hc
      simp only [Bool.and_eq_true, Bool.not_eq_true', beq_iff_eq] at hc
      cases hn : nodes r.target with
      | none => rw [hn] at h; exact hrec h
      | some m =>
        rw [hn] at h
        simp only at h
        split at h
        · rename_i he
          simp only [Option.some.injEq, Prod.mk.injEq] at h
          obtain ⟨rfl, rfl⟩ := h
          refine ⟨⟨?_, hn⟩, by simpa using he⟩
          have : (⟨type, false, r.target⟩ : Ref) = r := by cases r; simp_all
          simp [this]
        · exact hrec h
    · exact hrec h

theorem first_none {nodes : Nat → Option Node} {type : Nat} {name : Nat × String} {refs : List Ref}
    (h : first nodes type name refs = none) (t : Nat) (n : Node) (hc : Child nodes refs type t n) : n.name ≠ name := by
  obtain ⟨h1, h2⟩ := hc
  induction refs with
  | nil => cases h1
  | cons r rs ih =>
    rw [first] at h
    rcases List.mem_cons.1 h1 with rfl | h1
    · simp only [Bool.not_false, Bool.true_and, beq_self_eq_true, if_true, h2] at h
      split at h
      · cases h
      · rename_i hne; simpa using hne
    · apply ih _ h1
      split at h
      · cases hn : nodes r.target with
        | none => rw [hn] at h; exact h
        | some m =>
          rw [hn] at h
          simp only at h
          split at h
          · cases h
          · exact h
      · exact h

/-- What is found as a property is a variable of that name among the properties; and if all properties of the name are
variables, one is found whenever there is one. -/
theorem C113_property_partial (nodes : Nat → Option Node) (refs : List Ref) (name : Nat × String) :
    (∀ t, findProperty nodes refs name = some t →
      ∃ n, Child nodes refs 46 t n ∧ n.name = name ∧ n.isVariable = true) ∧
    ((∀ t n, Child nodes refs 46 t n → n.name = name → n.isVariable = true) →
      ((∃ t, findProperty nodes refs name = some t) ↔ ∃ t n, Child nodes refs 46 t n ∧ n.name = name)) := by
  have hfst : ∀ t, findProperty nodes refs name = some t →
      ∃ n, Child nodes refs 46 t n ∧ n.name = name ∧ n.isVariable = true := by
    intro t h
    unfold findProperty at h
    cases hf : first nodes hasProperty name refs with
    | none => rw [hf] at h; cases h
    | some p =>
      obtain ⟨u, n⟩ := p
      rw [hf] at h
      simp only at h
      obtain ⟨h1, h2⟩ := first_some hf
      split at h
      · cases h; exact ⟨n, h1, h2, by assumption⟩
      · cases h
  refine ⟨hfst, ?_⟩
  intro hall
  constructor
  · rintro ⟨t, h⟩
    obtain ⟨n, h1, h2, -⟩ := hfst t h
    exact ⟨t, n, h1, h2⟩
  · rintro ⟨t, n, h1, h2⟩
    cases hf : first nodes hasProperty name refs with
    | none => exact absurd h2 (first_none hf t n h1)
    | some p =>
      obtain ⟨u, m⟩ := p
      obtain ⟨h3, h4⟩ := first_some hf
      exact ⟨u, by simp [findProperty, hf, hall u m h3 h4]⟩

/-- What is found as a component is a component of that name, and one is found whenever there is one by a reference of
type HasComponent itself. -/
theorem C113_component_partial (nodes : Nat → Option Node) (refs : List Ref) (name : Nat × String) :
    (∀ t, findComponent nodes refs name = some t → ∃ n, Child nodes refs 47 t n ∧ n.name = name) ∧
    ((∃ t, findComponent nodes refs name = some t) ↔ ∃ t n, Child nodes refs 47 t n ∧ n.name = name) := by
  have hfst : ∀ t, findComponent nodes refs name = some t → ∃ n, Child nodes refs 47 t n ∧ n.name = name := by
    intro t h
    simp only [findComponent, Option.map_eq_some_iff] at h
    obtain ⟨⟨u, n⟩, hf, rfl⟩ := h
    exact ⟨n, first_some hf⟩
  refine ⟨hfst, ?_, ?_⟩
  · rintro ⟨t, h⟩
    obtain ⟨n, h1⟩ := hfst t h
    exact ⟨t, n, h1⟩
  · rintro ⟨t, n, h1, h2⟩
    cases hf : first nodes hasComponent name refs with
    | none => exact absurd h2 (first_none hf t n h1)
    | some p => exact ⟨p.1, by simp [findComponent, hf]⟩

/-- The nodes of the examples: a property 1, an object 2 and an ordered component 3. -/
def demoNodes : Nat → Option Node
  | 1 => some ⟨(0, "EnumValues"), true⟩
  | 2 => some ⟨(0, "EnumValues"), false⟩
  | 3 => some ⟨(2, "Step"), true⟩
  | 4 => some ⟨(0, "ValueAsText"), true⟩
  | _ => none

example : findProperty demoNodes [⟨47, false, 3⟩, ⟨46, true, 1⟩, ⟨46, false, 9⟩, ⟨46, false, 1⟩] (0, "EnumValues") = some 1 := by
  decide

/-- C113 fails: a component by a subtype of HasComponent, such as HasOrderedComponent, is not found. -/
theorem C113_subtype_fails (nodes : Nat → Option Node) (t : Nat) (name : Nat × String) :
    findComponent nodes [⟨49, false, t⟩] name = none := rfl

/-- C113 fails: a node of the name that is no variable hides a property after it. -/
theorem C113_hidden_fails : findProperty demoNodes [⟨46, false, 2⟩, ⟨46, false, 1⟩] (0, "EnumValues") = none := by decide

/-- The behaviour of a multi-state variable is set exactly if both properties are found. -/
theorem C113_behavior_partial (nodes : Nat → Option Node) (refs : List Ref) (e t : Nat) :
    setBehavior nodes refs = some (e, t) ↔
      findProperty nodes refs (0, "EnumValues") = some e ∧ findProperty nodes refs (0, "ValueAsText") = some t := by
  unfold setBehavior
  cases h1 : findProperty nodes refs (0, "EnumValues") <;> cases h2 : findProperty nodes refs (0, "ValueAsText") <;> simp

example : setBehavior demoNodes [⟨46, false, 1⟩, ⟨46, false, 4⟩] = some (1, 4) := by decide

end Opcua.MultiState
