import Verif.Model.Write
import Verif.Props.Range

/-!
# C68 and C70: writing values
-/

namespace Opcua.Write

open Opcua.Range

/-! ## Specification -/

namespace Spec

/-- The built-in type of a value. -/
def typeOf : Val → Nat
  | .null => 0
  | .scalar t _ => t
  | .text _ => 12
  | .bytes _ => 15
  | .struct t _ => t
  | .array t _ => t
  | .texts _ => 12
  | .byteStrings _ => 15
  | .matrix t _ => t

/-- The number of dimensions of a value. -/
def dims : Val → Nat
  | .array _ _ => 1
  | .texts _ => 1
  | .byteStrings _ => 1
  | .matrix _ _ => 2
  | _ => 0

/-- The dimensions that a value rank allows (Part 3, 5.6.2). -/
def RankAllows (rank : Int) (d : Nat) : Prop :=
  (rank = -3 ∧ d ≤ 1) ∨ rank = -2 ∨ (rank = -1 ∧ d = 0) ∨ (rank = 0 ∧ 1 ≤ d) ∨ (1 ≤ rank ∧ rank = d)

/-- The length of a text in UTF-8. -/
def utf8Length : Text → Nat
  | [] => 0
  | c :: cs => c.utf8Size + utf8Length cs

/-- The limits of lengths. -/
def Within (c : Caps) : Val → Prop
  | .text s => utf8Length s ≤ c.maxString
  | .bytes b => b.length ≤ c.maxByteString
  | .array _ xs => xs.length ≤ c.maxArray
  | .texts xs => xs.length ≤ c.maxArray ∧ ∀ x ∈ xs, utf8Length x ≤ c.maxString
  | .byteStrings xs => xs.length ≤ c.maxArray ∧ ∀ x ∈ xs, x.length ≤ c.maxByteString
  | .matrix _ rows => (rows.map List.length).sum ≤ c.maxArray
  | _ => True

/-- A value that a variable may hold. -/
def Conforms (c : Caps) (type : Nat) (rank : Int) (v : Val) : Prop :=
  v = .null ∨ ((typeOf v = type ∨ type = 24) ∧ RankAllows rank (dims v) ∧ Within c v)

/-- The values for which the checks suffice: at most one dimension, no diagnostic infos, structures that are
extension objects, strings inside an array within the limit, ASCII characters. (Strings and byte strings have
constructors of their own.) -/
def Plain (c : Caps) : Val → Prop
  | .matrix _ _ => False
  | .scalar t _ => t ≠ 12 ∧ t ≠ 15
  | .array t _ => t ≠ 12 ∧ t ≠ 15 ∧ t ≠ 25
  | .struct t _ => t = 22
  | .text s => ∀ x ∈ s, x.utf8Size = 1
  | .texts xs => ∀ x ∈ xs, utf8Length x ≤ c.maxString
  | .byteStrings xs => ∀ x ∈ xs, x.length ≤ c.maxByteString
  | _ => True

end Spec

open Spec

/-! ## Lemmas -/

theorem byteLen_eq (s : Text) : byteLen s = utf8Length s := by
  induction s with
  | nil => rfl
  | cons c s ih =>
    simp only [byteLen, List.map_cons, List.sum_cons, utf8Length]
    unfold byteLen at ih
    omega

theorem ascii_length {s : Text} (h : ∀ x ∈ s, x.utf8Size = 1) : utf8Length s = s.length := by
  induction s with
  | nil => rfl
  | cons c s ih =>
    simp only [utf8Length, List.length_cons]
    rw [ih (fun x hx => h x (List.mem_cons_of_mem _ hx)), h c List.mem_cons_self]
    omega

theorem patch_mem {α : Type} {xs ys : List α} {i j : Nat} {z : α} (h : z ∈ patch xs i j ys) :
    z ∈ xs ∨ z ∈ ys := by
  unfold patch at h
  rcases List.mem_append.1 h with h | h
  · rcases List.mem_append.1 h with h | h
    · exact .inl (List.mem_of_mem_take h)
    · exact .inr h
  · exact .inl (List.mem_of_mem_drop h)

theorem writeSlice_inv {α : Type} {xs zs : List α} {new : Option (List α)} {s : Text}
    (h : writeSlice xs s new = .ok zs) :
    ∃ ys, new = some ys ∧ zs.length = xs.length ∧ ∀ z ∈ zs, z ∈ xs ∨ z ∈ ys := by
  unfold writeSlice at h
  cases hb : parseBounds s xs.length with
  | error st => simp [hb] at h
  | ok p =>
    obtain ⟨i, j⟩ := p
    cases new with
    | none => simp [hb] at h
    | some ys =>
      simp only [hb] at h
      split at h
      · simp at h
      · rename_i hl
        simp only [Outcome.ok.injEq] at h
        subst h
        have hle := parseBounds_le hb
        exact ⟨ys, rfl, patch_length _ _ _ _ (by omega) hle.2 (by omega), fun z hz => patch_mem hz⟩

theorem writeFlat_inv {α : Type} {xs zs : List α} {new : Option (List α)} {rs : List Text}
    (h : writeFlat xs rs new = .ok zs) :
    ∃ ys, new = some ys ∧ zs.length = xs.length ∧ ∀ z ∈ zs, z ∈ xs ∨ z ∈ ys := by
  unfold writeFlat at h
  split at h
  · exact writeSlice_inv h
  · simp at h

theorem writeNested_inv {α : Type} {xs zs : List α} {new : Option (List α)} {rs : List Text}
    (h : writeNested xs rs new = .ok zs) :
    ∃ ys, new = some ys ∧ zs.length = xs.length ∧ ∀ z ∈ zs, z ∈ xs ∨ z ∈ ys := by
  unfold writeNested at h
  split at h
  · exact writeSlice_inv h
  · exact writeSlice_inv h
  · simp at h

/-- What a write with a range leaves in the variable. -/
theorem writeRange_plain {c : Caps} {type : Nat} {rank : Int} {v new w : Val} {r : Text} (hr : r ≠ [])
    (hv : Conforms c type rank v) (hp : Plain c v) (hn : Plain c new) (h : writeRange v new r = .ok w) :
    Conforms c type rank w ∧ Plain c w := by
  have he : r.isEmpty = false := by simpa using hr
  unfold writeRange at h
  rw [he] at h
  cases v <;> simp only [Bool.false_eq_true, if_false, reduceCtorEq] at h
  · obtain ⟨zs, hz, rfl⟩ := map_ok h
    obtain ⟨ys, hy, hl, hm⟩ := writeFlat_inv hz
    have hn' : new = .text ys := by cases new <;> simp [asText] at hy; simp [hy]
    subst hn'
    have hpl : Plain c (.text zs) := by
      intro x hx
      rcases hm x hx with h | h
      · exact hp x h
      · exact hn x h
    rcases hv with hv | ⟨ht, hk, hw⟩
    · simp at hv
    · refine ⟨.inr ⟨ht, hk, ?_⟩, hpl⟩
      simp only [Within] at hw ⊢
      rw [ascii_length hpl, hl, ← ascii_length hp]
      exact hw
  · obtain ⟨zs, hz, rfl⟩ := map_ok h
    obtain ⟨ys, hy, hl, hm⟩ := writeFlat_inv hz
    rcases hv with hv | ⟨ht, hk, hw⟩
    · simp at hv
    · exact ⟨.inr ⟨ht, hk, by simp only [Within] at hw ⊢; omega⟩, trivial⟩
  · obtain ⟨zs, hz, rfl⟩ := map_ok h
    obtain ⟨ys, hy, hl, hm⟩ := writeFlat_inv hz
    rcases hv with hv | ⟨ht, hk, hw⟩
    · simp at hv
    · exact ⟨.inr ⟨ht, hk, by simp only [Within] at hw ⊢; omega⟩, hp⟩
  · obtain ⟨zs, hz, rfl⟩ := map_ok h
    obtain ⟨ys, hy, hl, hm⟩ := writeNested_inv hz
    have hn' : new = .texts ys := by cases new <;> simp [asTexts] at hy; simp [hy]
    subst hn'
    have hpl : Plain c (.texts zs) := by
      intro x hx
      rcases hm x hx with h | h
      · exact hp x h
      · exact hn x h
    rcases hv with hv | ⟨ht, hk, hw⟩
    · simp at hv
    · exact ⟨.inr ⟨ht, hk, by simp only [Within] at hw ⊢; exact ⟨by omega, hpl⟩⟩, hpl⟩
  · obtain ⟨zs, hz, rfl⟩ := map_ok h
    obtain ⟨ys, hy, hl, hm⟩ := writeNested_inv hz
    have hn' : new = .byteStrings ys := by cases new <;> simp [asByteStrings] at hy; simp [hy]
    subst hn'
    have hpl : Plain c (.byteStrings zs) := by
      intro x hx
      rcases hm x hx with h | h
      · exact hp x h
      · exact hn x h
    rcases hv with hv | ⟨ht, hk, hw⟩
    · simp at hv
    · exact ⟨.inr ⟨ht, hk, by simp only [Within] at hw ⊢; exact ⟨by omega, hpl⟩⟩, hpl⟩

theorem checkScalar_good {t type : Nat} {rank : Int} :
    checkScalar t type rank = .good ↔ (t = type ∨ type = 24) ∧ RankAllows rank 0 := by
  unfold checkScalar sameType scalarRank RankAllows typeVariant rankScalar rankScalarOrOne rankAny
  by_cases h1 : type = t <;> by_cases h2 : type = 24 <;> by_cases h3 : rank = -1 <;> by_cases h4 : rank = -2 <;>
    by_cases h5 : rank = -3 <;> simp [h1, h2, h3, h4, h5] <;> omega

theorem checkSlice_good {c : Caps} {t len type : Nat} {rank : Int} :
    checkSlice c t len type rank = .good ↔
      len ≤ c.maxArray ∧ (t = type ∨ type = 24) ∧ RankAllows rank 1 := by
  unfold checkSlice sameType sliceRank RankAllows typeVariant rankOne rankOneOrMore rankScalarOrOne rankAny
  by_cases h0 : len > c.maxArray
  · simp [h0]; omega
  · by_cases h1 : type = t <;> by_cases h2 : type = 24 <;> by_cases h3 : rank = 1 <;> by_cases h4 : rank = -2 <;>
      by_cases h5 : rank = -3 <;> by_cases h6 : rank = 0 <;> simp [h0, h1, h2, h3, h4, h5, h6] <;> omega

/-- The checks are right for plain values. -/
theorem checkValue_plain {c : Caps} {type : Nat} {rank : Int} {v : Val} (hp : Plain c v) :
    checkValue c type rank v = .good ↔ Conforms c type rank v := by
  unfold Conforms
  cases v with
  | null => simp [checkValue]
  | scalar t x => simp [checkValue, checkScalar_good, typeOf, dims, Within]
  | text s =>
    simp only [checkValue, byteLen_eq, typeOf, dims, Within, reduceCtorEq, false_or]
    split
    · simp; omega
    · rw [checkScalar_good]; simp only [typeString]; constructor
      · rintro ⟨a, b⟩; exact ⟨a, b, by omega⟩
      · rintro ⟨a, b, _⟩; exact ⟨a, b⟩
  | bytes b =>
    simp only [checkValue, typeOf, dims, Within, reduceCtorEq, false_or]
    split
    · simp; omega
    · rw [checkScalar_good]; simp only [typeByteString]; constructor
      · rintro ⟨a, b⟩; exact ⟨a, b, by omega⟩
      · rintro ⟨a, b, _⟩; exact ⟨a, b⟩
  | struct t x =>
    simp only [Plain] at hp
    subst hp
    simp [checkValue, checkScalar_good, typeOf, dims, Within, typeExtensionObject]
  | array t xs =>
    simp only [Plain] at hp
    simp only [checkValue, typeOf, dims, Within, reduceCtorEq, false_or, typeDiagnosticInfo, if_neg hp.2.2,
      checkSlice_good]
    constructor
    · rintro ⟨a, b, d⟩; exact ⟨b, d, a⟩
    · rintro ⟨b, d, a⟩; exact ⟨a, b, d⟩
  | texts xs =>
    simp only [checkValue, typeOf, dims, Within, reduceCtorEq, false_or, checkSlice_good, typeString]
    constructor
    · rintro ⟨a, b, d⟩; exact ⟨b, d, a, hp⟩
    · rintro ⟨b, d, a, _⟩; exact ⟨a, b, d⟩
  | byteStrings xs =>
    simp only [checkValue, typeOf, dims, Within, reduceCtorEq, false_or, checkSlice_good, typeByteString]
    constructor
    · rintro ⟨a, b, d⟩; exact ⟨b, d, a, hp⟩
    · rintro ⟨b, d, a, _⟩; exact ⟨a, b, d⟩
  | matrix t rows => exact absurd hp (by simp [Plain])

theorem convert_plain {c : Caps} {type : Nat} {rank : Int} {v : Val} (hp : Plain c v) :
    Plain c (convert type rank v) := by
  unfold convert
  split
  · split
    · simp [Plain, typeByte]
    · exact hp
  · split
    · simp [Plain]
    · exact hp
  · exact hp

/-- The outcomes of a write. -/
theorem writeValue_cases {c : Caps} {n n' : Node} {v : Val} {r : Text} {st : Status}
    (h : writeValue c n v r = some (n', st)) :
    (st ≠ .good ∧ n' = n) ∨
      (st = .good ∧ checkValue c n.type n.rank (convert n.type n.rank v) = .good ∧
        ∃ w, writeRange n.value (convert n.type n.rank v) r = .ok w ∧ n' = { n with value := w }) ∨
      (st = .good ∧ writeRange n.value (convert n.type n.rank v) r = .bad .good) := by
  unfold writeValue at h
  dsimp only at h
  cases hc : checkValue c n.type n.rank (convert n.type n.rank v) with
  | good =>
    simp only [hc] at h
    cases hw : writeRange n.value (convert n.type n.rank v) r with
    | panic => simp [hw] at h
    | bad s =>
      simp only [hw, Option.some.injEq, Prod.mk.injEq] at h
      cases s with
      | good => exact .inr (.inr ⟨by simp [← h.2, ofRange], rfl⟩)
      | badIndexRangeInvalid => exact .inl ⟨by simp [← h.2, ofRange], h.1.symm⟩
      | badIndexRangeNoData => exact .inl ⟨by simp [← h.2, ofRange], h.1.symm⟩
    | ok w =>
      simp only [hw, setValue] at h
      split at h
      · simp at h
      · rename_i n'' hs
        split at hs
        · simp at hs
        · simp only [Option.some.injEq] at hs
          simp only [Option.some.injEq, Prod.mk.injEq] at h
          exact .inr (.inl ⟨h.2.symm, rfl, w, rfl, by rw [← h.1, ← hs]⟩)
  | _ =>
    simp only [hc, Option.some.injEq, Prod.mk.injEq] at h
    exact .inl ⟨by simp [← h.2], h.1.symm⟩

theorem parseBounds_bad (s : Text) (len : Nat) : parseBounds s len ≠ .error .good := by
  unfold parseBounds
  split
  · simp
  · split
    · simp
    · split
      · simp
      · split <;> simp

theorem writeSlice_bad {α : Type} (xs : List α) (s : Text) (new : Option (List α)) :
    writeSlice xs s new ≠ .bad .good := by
  unfold writeSlice
  have := parseBounds_bad s xs.length
  split
  · rename_i st h
    intro hh
    simp at hh
    rw [hh] at h
    exact this h
  · split
    · simp
    · split <;> simp

theorem map_bad {α β : Type} {f : α → β} {o : Outcome α} (h : o ≠ .bad .good) : o.map f ≠ .bad .good := by
  cases o <;> simp [Outcome.map] at *
  exact h

theorem writeRange_bad (v new : Val) (r : Text) : writeRange v new r ≠ .bad .good := by
  unfold writeRange
  split
  · simp
  · cases v <;> simp only [ne_eq] <;> try (intro h; simp at h; done)
    · exact map_bad (by unfold writeFlat; split; exact writeSlice_bad _ _ _; simp)
    · exact map_bad (by unfold writeFlat; split; exact writeSlice_bad _ _ _; simp)
    · exact map_bad (by unfold writeFlat; split; exact writeSlice_bad _ _ _; simp)
    · exact map_bad (by unfold writeNested; split; exact writeSlice_bad _ _ _; exact writeSlice_bad _ _ _; simp)
    · exact map_bad (by unfold writeNested; split; exact writeSlice_bad _ _ _; exact writeSlice_bad _ _ _; simp)

/-! ## C68 -/

/-- One write of a plain value keeps a conforming variable conforming. -/
theorem writeValue_conforms {c : Caps} {n n' : Node} {v : Val} {r : Text} {st : Status}
    (hn : Conforms c n.type n.rank n.value) (hp : Plain c n.value) (hv : Plain c v)
    (h : writeValue c n v r = some (n', st)) :
    n'.type = n.type ∧ n'.rank = n.rank ∧ Conforms c n'.type n'.rank n'.value ∧ Plain c n'.value := by
  rcases writeValue_cases h with ⟨_, rfl⟩ | ⟨_, hc, w, hw, rfl⟩ | ⟨_, hb⟩
  · exact ⟨rfl, rfl, hn, hp⟩
  · have hv' : Plain c (convert n.type n.rank v) := convert_plain hv
    refine ⟨rfl, rfl, ?_⟩
    by_cases hr : r = []
    · subst hr
      simp [writeRange] at hw
      subst hw
      exact ⟨(checkValue_plain hv').1 hc, hv'⟩
    · exact writeRange_plain hr hn hp hv' hw
  · exact absurd hb (writeRange_bad _ _ _)

def Event.PlainIn (c : Caps) : Event → Prop
  | .value v _ => Plain c v
  | .historizing _ => True

/-- A variable that holds a conforming value does so after every sequence of writes of plain values, with
and without ranges. Partial: the values for which the checks do not suffice are left out, see the theorems
that end in `_fails`. -/
theorem C68_partial (c : Caps) (n : Node) (evs : List Event) (n' : Node) (sts : List Status)
    (hn : Conforms c n.type n.rank n.value) (hp : Plain c n.value) (hev : ∀ e ∈ evs, e.PlainIn c)
    (h : run c n evs = some (n', sts)) :
    n'.type = n.type ∧ n'.rank = n.rank ∧ Conforms c n.type n.rank n'.value := by
  have key : ∀ evs : List Event, (∀ e ∈ evs, e.PlainIn c) → ∀ n' sts, run c n evs = some (n', sts) →
      n'.type = n.type ∧ n'.rank = n.rank ∧ Conforms c n.type n.rank n'.value ∧ Plain c n'.value := by
    intro evs
    induction evs using snocInd with
    | nil =>
      intro _ n' sts h
      simp [run] at h
      obtain ⟨rfl, _⟩ := h
      exact ⟨rfl, rfl, hn, hp⟩
    | append_singleton evs e ih =>
      intro hev n' sts h
      have ih := ih (fun e he => hev e (List.mem_append.2 (.inl he)))
      have he := hev e (List.mem_append.2 (.inr List.mem_cons_self))
      unfold run at h ih
      rw [List.foldl_append] at h
      simp only [List.foldl_cons, List.foldl_nil] at h
      cases hs : evs.foldl (step c) (some (n, [])) with
      | none => rw [hs] at h; simp [step] at h
      | some p =>
        obtain ⟨m, ss⟩ := p
        rw [hs] at h
        obtain ⟨h1, h2, h3, h4⟩ := ih m ss hs
        cases e with
        | value v r =>
          simp only [step] at h
          cases hw : writeValue c m v r with
          | none => simp [hw] at h
          | some q =>
            obtain ⟨m', st⟩ := q
            simp only [hw, Option.some.injEq, Prod.mk.injEq] at h
            obtain ⟨rfl, _⟩ := h
            obtain ⟨k1, k2, k3, k4⟩ := writeValue_conforms (by rw [h1, h2]; exact h3) h4 he hw
            rw [k1, k2, h1, h2] at k3
            exact ⟨k1.trans h1, k2.trans h2, k3, k4⟩
        | historizing v =>
          simp only [step, Option.some.injEq, Prod.mk.injEq] at h
          obtain ⟨rfl, _⟩ := h
          unfold writeHistorizing
          split <;> exact ⟨h1, h2, h3, h4⟩
  obtain ⟨h1, h2, h3, _⟩ := key evs hev n' sts h
  exact ⟨h1, h2, h3⟩

abbrev exCaps : Caps := ⟨8, 8, 8⟩
abbrev exNode : Node := ⟨12, -1, .text "hello".toList, false, false⟩

example : Conforms exCaps exNode.type exNode.rank exNode.value ∧ Plain exCaps exNode.value :=
  ⟨.inr ⟨.inl rfl, .inr (.inr (.inl ⟨rfl, rfl⟩)), by simp only [Within]; decide⟩, by simp only [Plain]; decide⟩

example : run exCaps exNode
    [.value (.scalar 6 3) [], .value (.text "XY".toList) "3:4".toList, .value (.text "far too long".toList) [],
      .value (.texts ["a".toList]) []]
    = some ({ exNode with value := .text "helXY".toList },
        [.badTypeMismatch, .good, .badOutOfRange, .badTypeMismatch]) := by decide

/-- A write of the whole value that is good stores the value itself, unless it is a byte string for a byte
array or the reverse, and then the same bytes. -/
theorem C68_stored (c : Caps) (n n' : Node) (v : Val) (h : writeValue c n v [] = some (n', .good)) :
    n'.value = v ∨
      (∃ b, v = .bytes b ∧ n.type = 3 ∧ n.rank = 1 ∧ n'.value = .array 3 b) ∨
      (∃ b, v = .array 3 b ∧ n.type = 15 ∧ n.rank = -1 ∧ n'.value = .bytes b) := by
  rcases writeValue_cases h with ⟨hg, _⟩ | ⟨_, _, w, hw, rfl⟩ | ⟨_, hb⟩
  · exact absurd rfl hg
  · simp [writeRange] at hw
    subst hw
    dsimp only
    unfold convert
    cases v with
    | bytes b =>
      dsimp only
      by_cases hc : n.type = typeByte ∧ n.rank = rankOne
      · rw [if_pos hc]; exact .inr (.inl ⟨_, rfl, hc.1, hc.2, rfl⟩)
      · rw [if_neg hc]; exact .inl rfl
    | array t xs =>
      dsimp only
      by_cases hc : n.type = typeByteString ∧ n.rank = rankScalar ∧ t = typeByte
      · rw [if_pos hc]
        obtain ⟨h1, h2, rfl⟩ := hc
        exact .inr (.inr ⟨_, rfl, h1, h2, rfl⟩)
      · rw [if_neg hc]; exact .inl rfl
    | _ => exact .inl rfl
  · exact absurd hb (writeRange_bad _ _ _)

example : writeValue exCaps ⟨3, 1, .null, false, false⟩ (.bytes [1, 2]) [] =
    some (⟨3, 1, .array 3 [1, 2], false, false⟩, .good) := by decide

/-- A conforming value, plain or not but of at most one dimension, is accepted and stored as it is. -/
theorem C68_accepted_partial (c : Caps) (n : Node) (v : Val) (hp : Plain c v) (h : Conforms c n.type n.rank v)
    (hh : n.historizing = false ∨ n.historian = true) :
    writeValue c n v [] = some ({ n with value := v }, .good) := by
  have hcv : convert n.type n.rank v = v := by
    rcases h with rfl | ⟨ht, hr, _⟩
    · rfl
    · unfold convert
      split
      · rw [if_neg]
        rintro ⟨h1, _⟩
        rw [h1] at ht
        simp [typeOf, typeByte] at ht
      · rw [if_neg]
        rintro ⟨h1, _, h3⟩
        rw [h1, h3] at ht
        simp [typeOf, typeByte, typeByteString] at ht
      · rfl
  unfold writeValue
  simp only [hcv, (checkValue_plain hp).2 h]
  simp only [writeRange, List.isEmpty_nil, if_true, setValue]
  rw [if_neg]
  rcases hh with h | h <;> simp [h]

/-- A plain value that does not conform is refused, with and without a range. -/
theorem C68_refused (c : Caps) (n : Node) (v : Val) (r : Text) (hp : Plain c v)
    (h : ¬ Conforms c n.type n.rank (convert n.type n.rank v)) :
    ∃ st, st ≠ .good ∧ writeValue c n v r = some (n, st) := by
  have hb : checkValue c n.type n.rank (convert n.type n.rank v) ≠ .good :=
    fun hg => h ((checkValue_plain (convert_plain hp)).1 hg)
  unfold writeValue
  dsimp only
  cases hc : checkValue c n.type n.rank (convert n.type n.rank v) with
  | good => exact absurd hc hb
  | badTypeMismatch => exact ⟨_, by simp, rfl⟩
  | badOutOfRange => exact ⟨_, by simp, rfl⟩
  | badIndexRangeInvalid => exact ⟨_, by simp, rfl⟩
  | badIndexRangeNoData => exact ⟨_, by simp, rfl⟩

/-- A write that is not good changes nothing. -/
theorem C68_frame (c : Caps) (n n' : Node) (v : Val) (r : Text) (st : Status)
    (h : writeValue c n v r = some (n', st)) (hb : st ≠ .good) : n' = n := by
  rcases writeValue_cases h with ⟨_, h⟩ | ⟨hg, _⟩ | ⟨hg, _⟩
  · exact h
  · exact absurd hg hb
  · exact absurd hg hb

/-- A matrix of any type is stored in an array of numbers. -/
theorem C68_matrix_fails :
    ∃ c n v n', Conforms c n.type n.rank n.value ∧ writeValue c n v [] = some (n', .good) ∧
      typeOf n'.value ≠ n.type ∧ n.type ≠ 24 ∧ ¬ RankAllows n.rank (dims n'.value) :=
  ⟨exCaps, ⟨6, 1, .null, false, false⟩, .matrix 12 [[1]], ⟨6, 1, .matrix 12 [[1]], false, false⟩,
    .inl rfl, by decide, by decide, by decide, by simp [RankAllows, dims]⟩

/-- A string of any length is stored in an array. -/
theorem C68_element_fails :
    ∃ c n v n', Conforms c n.type n.rank n.value ∧ writeValue c n v [] = some (n', .good) ∧ ¬ Within c n'.value :=
  ⟨exCaps, ⟨12, 1, .null, false, false⟩, .texts ["far too long".toList],
    ⟨12, 1, .texts ["far too long".toList], false, false⟩, .inl rfl, by decide, by simp only [Within]; decide⟩

/-- A DataValue is stored in a variable of extension objects. -/
theorem C68_struct_fails :
    ∃ c n v n', Conforms c n.type n.rank n.value ∧ writeValue c n v [] = some (n', .good) ∧
      typeOf n'.value ≠ n.type ∧ n.type ≠ 24 :=
  ⟨exCaps, ⟨22, -1, .null, false, false⟩, .struct 23 0, ⟨22, -1, .struct 23 0, false, false⟩, .inl rfl,
    by decide, by decide, by decide⟩

/-- Replacing characters by longer ones makes a string longer than the limit. -/
theorem C68_range_fails :
    ∃ c n v r n', Conforms c n.type n.rank n.value ∧ Within c v ∧ writeValue c n v r = some (n', .good) ∧
      ¬ Within c n'.value :=
  ⟨exCaps, ⟨12, -1, .text "abcdefgh".toList, false, false⟩, .text "é".toList, "0".toList,
    ⟨12, -1, .text "ébcdefgh".toList, false, false⟩,
    .inr ⟨.inl rfl, .inr (.inr (.inl ⟨rfl, rfl⟩)), by simp only [Within]; decide⟩, by simp only [Within]; decide,
    by decide, by simp only [Within]; decide⟩

/-! ## C70 -/

theorem writeSlice_some {α : Type} (xs ys : List α) (s : Text) : writeSlice xs s (some ys) ≠ .panic := by
  unfold writeSlice
  split
  · simp
  · dsimp only; split <;> simp

theorem writeFlat_some {α : Type} (xs ys : List α) (rs : List Text) : writeFlat xs rs (some ys) ≠ .panic := by
  unfold writeFlat
  split
  · exact writeSlice_some _ _ _
  · simp

theorem writeNested_some {α : Type} (xs ys : List α) (rs : List Text) :
    writeNested xs rs (some ys) ≠ .panic := by
  unfold writeNested
  split
  · exact writeSlice_some _ _ _
  · exact writeSlice_some _ _ _
  · simp

theorem map_panic {α β : Type} {f : α → β} {o : Outcome α} (h : o ≠ .panic) : o.map f ≠ .panic := by
  cases o <;> simp [Outcome.map] at *

/-- A value of the same type as the value of the variable, or a variable whose value has no elements. -/
theorem writeRange_total (v new : Val) (r : Text) (h : Range.Spec.form new = Range.Spec.form v ∨
    Range.Spec.cells v = none) : writeRange v new r ≠ .panic := by
  unfold writeRange
  split
  · simp
  · rcases h with h | h
    · cases v <;> cases new <;> simp [Range.Spec.form] at h <;> try (simp; done)
      · exact map_panic (writeFlat_some _ _ _)
      · exact map_panic (writeFlat_some _ _ _)
      · subst h
        simp only [asArray, if_true]
        exact map_panic (writeFlat_some _ _ _)
      · exact map_panic (writeNested_some _ _ _)
      · exact map_panic (writeNested_some _ _ _)
    · cases v <;> simp [Range.Spec.cells] at h <;> simp

/-- Two plain values of a variable of one type and of one rank have the same form, or the first has no
elements. -/
theorem same_form {c : Caps} {type : Nat} {rank : Int} {v w : Val} (ht : type ≠ 24) (hr : rank = -1 ∨ rank = 1)
    (hv : Conforms c type rank v) (hpv : Plain c v) (hw : Conforms c type rank w) (hpw : Plain c w)
    (hnull : w ≠ .null) : Range.Spec.form w = Range.Spec.form v ∨ Range.Spec.cells v = none := by
  rcases hw with rfl | ⟨htw, hrw, _⟩
  · exact absurd rfl hnull
  rcases hv with rfl | ⟨htv, hrv, _⟩
  · exact .inr rfl
  have htw : typeOf w = type := by rcases htw with h | h; exact h; exact absurd h ht
  have htv : typeOf v = type := by rcases htv with h | h; exact h; exact absurd h ht
  have hd : dims w = dims v := by
    unfold RankAllows at hrw hrv
    omega
  cases v <;> try exact .inr rfl
  all_goals
    refine .inl ?_
    cases w <;> simp [dims] at hd <;> simp_all [typeOf, Plain, Range.Spec.form] <;> omega

def Event.SafeIn (c : Caps) : Event → Prop
  | .value v _ => Plain c v ∧ v ≠ .null
  | .historizing _ => True

theorem convert_null {type : Nat} {rank : Int} {v : Val} (h : v ≠ .null) : convert type rank v ≠ .null := by
  unfold convert
  split
  · split <;> simp
  · split <;> simp
  · exact h

theorem writeValue_total {c : Caps} {n : Node} {v : Val} {r : Text} (hn : Conforms c n.type n.rank n.value)
    (hp : Plain c n.value) (hv : Plain c v) (ht : n.type ≠ 24) (hr : n.rank = -1 ∨ n.rank = 1) (hnull : v ≠ .null)
    (hh : n.historian = true) : ∃ n' st, writeValue c n v r = some (n', st) := by
  unfold writeValue
  dsimp only
  cases hc : checkValue c n.type n.rank (convert n.type n.rank v) with
  | good =>
    have hcp := convert_plain (type := n.type) (rank := n.rank) hv
    have hcc := (checkValue_plain hcp).1 hc
    have hw := writeRange_total n.value (convert n.type n.rank v) r
      (same_form ht hr hn hp hcc hcp (convert_null hnull))
    cases hwr : writeRange n.value (convert n.type n.rank v) r with
    | panic => exact absurd hwr hw
    | bad st => exact ⟨_, _, rfl⟩
    | ok w => simp [setValue, hh]
  | _ => exact ⟨_, _, rfl⟩

/-- A variable of one type and of one rank, with a historian: every sequence of writes of plain values that
are not null leaves the server running, and every write has its status. Partial: see the theorems that end in
`_fails`. -/
theorem C70_partial (c : Caps) (n : Node) (evs : List Event) (hn : Conforms c n.type n.rank n.value)
    (hp : Plain c n.value) (hev : ∀ e ∈ evs, e.SafeIn c) (ht : n.type ≠ 24) (hr : n.rank = -1 ∨ n.rank = 1)
    (hh : n.historian = true) :
    ∃ n' sts, run c n evs = some (n', sts) ∧ sts.length = evs.length := by
  have key : ∀ evs : List Event, (∀ e ∈ evs, e.SafeIn c) → ∃ n' sts, run c n evs = some (n', sts) ∧
      sts.length = evs.length ∧ n'.type = n.type ∧ n'.rank = n.rank ∧ n'.historian = true ∧
      Conforms c n.type n.rank n'.value ∧ Plain c n'.value := by
    intro evs
    induction evs using snocInd with
    | nil => intro _; exact ⟨n, [], rfl, rfl, rfl, rfl, hh, hn, hp⟩
    | append_singleton evs e ih =>
      intro hev
      obtain ⟨m, ss, hs, hl, h1, h2, h3, h4, h5⟩ := ih (fun e he => hev e (List.mem_append.2 (.inl he)))
      have he := hev e (List.mem_append.2 (.inr List.mem_cons_self))
      unfold run at hs ⊢
      rw [List.foldl_append, hs]
      simp only [List.foldl_cons, List.foldl_nil]
      cases e with
      | value v r =>
        have h4' : Conforms c m.type m.rank m.value := by rw [h1, h2]; exact h4
        obtain ⟨m', st, hw⟩ := writeValue_total (r := r) h4' h5 he.1 (by rw [h1]; exact ht)
          (by rw [h2]; exact hr) he.2 h3
        obtain ⟨k1, k2, k3, k4⟩ := writeValue_conforms h4' h5 he.1 hw
        refine ⟨m', ss ++ [st], by simp [step, hw], by simp [hl], k1.trans h1, k2.trans h2, ?_, ?_, k4⟩
        · rcases writeValue_cases hw with ⟨_, rfl⟩ | ⟨_, _, w, _, rfl⟩ | ⟨_, hb⟩
          · exact h3
          · exact h3
          · exact absurd hb (writeRange_bad _ _ _)
        · rw [k1, k2, h1, h2] at k3
          exact k3
      | historizing v =>
        refine ⟨_, _, rfl, by simp [hl], ?_⟩
        unfold writeHistorizing
        split <;> exact ⟨h1, h2, h3, h4, h5⟩
  obtain ⟨n', sts, h, hl, _⟩ := key evs hev
  exact ⟨n', sts, h, hl⟩

example : run exCaps { exNode with historian := true }
    [.historizing (.scalar 1 1), .value (.text "XY".toList) "3:4".toList, .value (.bytes [1]) "0".toList]
    = some (⟨12, -1, .text "helXY".toList, true, true⟩, [.good, .good, .badTypeMismatch]) := by decide

/-- A null value written with a range ends the server. -/
theorem C70_null_fails :
    ∃ c n r, Conforms c n.type n.rank n.value ∧ Plain c n.value ∧ n.type ≠ 24 ∧ n.rank = -1 ∧ n.historian = true ∧
      writeValue c n .null r = none :=
  ⟨exCaps, { exNode with historian := true }, "0".toList,
    .inr ⟨.inl rfl, .inr (.inr (.inl ⟨rfl, rfl⟩)), by simp only [Within]; decide⟩, by simp only [Plain]; decide,
    by decide, rfl, rfl, by decide⟩

/-- In a variable of any type, a value of another type written with a range ends the server. -/
theorem C70_type_fails :
    ∃ c n v r, Conforms c n.type n.rank n.value ∧ Plain c n.value ∧ Plain c v ∧ v ≠ .null ∧ n.rank = -1 ∧
      n.historian = true ∧ writeValue c n v r = none :=
  ⟨exCaps, { exNode with type := 24, historian := true }, .scalar 6 3, "0".toList,
    .inr ⟨.inr rfl, .inr (.inr (.inl ⟨rfl, rfl⟩)), by simp only [Within]; decide⟩, by simp only [Plain]; decide,
    by simp [Plain], by simp, rfl, rfl, by decide⟩

/-- In a variable of any rank, a value of another rank written with a range ends the server. -/
theorem C70_rank_fails :
    ∃ c n v r, Conforms c n.type n.rank n.value ∧ Plain c n.value ∧ Plain c v ∧ v ≠ .null ∧ n.type ≠ 24 ∧
      n.historian = true ∧ writeValue c n v r = none :=
  ⟨exCaps, { exNode with rank := -2, historian := true }, .texts ["a".toList], "0".toList,
    .inr ⟨.inl rfl, .inr (.inl rfl), by simp only [Within]; decide⟩, by simp only [Plain]; decide,
    by simp only [Plain]; decide, by simp, by decide, rfl, by decide⟩

/-- A matrix written with a range to an array ends the server. -/
theorem C70_matrix_fails :
    ∃ c n v r, Conforms c n.type n.rank n.value ∧ Plain c n.value ∧ v ≠ .null ∧ n.type ≠ 24 ∧ n.rank = 1 ∧
      n.historian = true ∧ writeValue c n v r = none :=
  ⟨exCaps, ⟨6, 1, .array 6 [1, 2], false, true⟩, .matrix 6 [[1]], "0".toList,
    .inr ⟨.inl rfl, .inr (.inr (.inr (.inr ⟨by decide, rfl⟩))), by simp only [Within]; decide⟩,
    by simp only [Plain]; decide, by simp, by decide, rfl, rfl, by decide⟩

/-- Without a historian, a client that turns historizing on and writes a value ends the server. -/
theorem C70_historian_fails :
    ∃ c n, n.historizing = false ∧
      (∃ p, run c n [.historizing (.scalar 1 1)] = some p) ∧
      run c n [.historizing (.scalar 1 1), .value (.text "a".toList) []] = none :=
  ⟨exCaps, exNode, rfl, ⟨_, rfl⟩, by decide⟩

/-- Without a range, and with a historian, every write gets a status. -/
theorem C70_whole (c : Caps) (n : Node) (v : Val) (hh : n.historizing = false ∨ n.historian = true) :
    ∃ n' st, writeValue c n v [] = some (n', st) := by
  unfold writeValue
  dsimp only
  cases hc : checkValue c n.type n.rank (convert n.type n.rank v) with
  | good =>
    simp only [writeRange, List.isEmpty_nil, if_true, setValue]
    rw [if_neg]
    · exact ⟨_, _, rfl⟩
    · rcases hh with h | h <;> simp [h]
  | _ => exact ⟨_, _, rfl⟩

end Opcua.Write
