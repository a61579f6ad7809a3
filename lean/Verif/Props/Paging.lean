import Verif.Model.Paging
import Verif.Lemmas.Lists

/-! C39: paging; C40: BrowseNext and malformed continuation points. -/
namespace Opcua.Paging

variable {R : Type}

/-! ### Specification -/

/-- What the answers for a Browse item add up to. -/
def pages (out : List (Answer R)) (b : Nat) : List R := (out.filter (fun a => a.tag = some b)).flatMap (·.refs)

/-- The Browse items of a history with their full results and page sizes. -/
def browses (evs : List (Ev R)) : List (Nat × List R × Nat) :=
  evs.filterMap (fun | .browse b refs max => some (b, refs, max) | _ => none)

/-! ### Lemmas -/

theorem run_snoc (s : State R) (evs : List (Ev R)) (e : Ev R) : run s (evs ++ [e]) = step (run s evs) e := by simp [run]

theorem decode_encode (n : BitVec 32) (more : Bytes) : decode (encode n ++ more) = some n := by
  simp only [encode, decode, List.cons_append, List.nil_append]
  congr 1
  ext i hi
  simp only [BitVec.getElem_append, BitVec.getElem_extractLsb']
  repeat' split
  all_goals (first | (rw [← BitVec.getLsbD_eq_getElem]; congr 1; omega) | skip)

theorem pages_append (out : List (Answer R)) (a : Answer R) (b : Nat) :
    pages (out ++ [a]) b = pages out b ++ (if a.tag = some b then a.refs else []) := by
  unfold pages
  rw [List.filter_append, List.flatMap_append]
  by_cases h : a.tag = some b <;> simp [h]

structure Content (T : List (Nat × List R × Nat)) (out : List (Answer R)) (E : List (Entry R)) : Prop where
  tagsT : (T.map (·.1)).Nodup
  tags : (E.map (·.tag)).Nodup
  ent : ∀ e ∈ E, ∃ refs, (e.tag, refs, e.max) ∈ T ∧ refs = pages out e.tag ++ e.data
  pre : ∀ b refs max, (b, refs, max) ∈ T → pages out b <+: refs
  fin : ∀ a ∈ out, ∀ b, a.tag = some b → ∃ refs max, (b, refs, max) ∈ T ∧ (max > 0 → a.refs.length ≤ max) ∧
    (a.status = .good → a.cp = none → pages out b = refs ∧ ∀ e ∈ E, e.tag ≠ b) ∧
    (a.cp ≠ none → a.refs.length = max ∧ max > 0)

theorem mem_unique {T : List (Nat × List R × Nat)} (h : (T.map (·.1)).Nodup) {b : Nat} {x y : List R × Nat}
    (hx : (b, x) ∈ T) (hy : (b, y) ∈ T) : x = y := by
  induction T with
  | nil => simp at hx
  | cons z T ih =>
    simp only [List.map_cons, List.nodup_cons, List.mem_map, not_exists, not_and] at h
    simp only [List.mem_cons] at hx hy
    rcases hx with hx | hx <;> rcases hy with hy | hy
    · have := hx.trans hy.symm; simpa using this
    · exact absurd (by rw [← hx]) (h.1 _ hy)
    · exact absurd (by rw [← hy]) (h.1 _ hx)
    · exact ih h.2 hx hy

theorem Content.perm {T : List (Nat × List R × Nat)} {out : List (Answer R)} {E E' : List (Entry R)}
    (h : Content T out E) (hp : E.Perm E') : Content T out E' := by
  refine ⟨h.tagsT, ((hp.map _).nodup_iff).1 h.tags, fun e he => h.ent e (hp.mem_iff.2 he), h.pre, ?_⟩
  intro a ha b hb
  obtain ⟨refs, max, h1, h2, h3, h4⟩ := h.fin a ha b hb
  exact ⟨refs, max, h1, h2, fun g1 g2 => ⟨(h3 g1 g2).1, fun e he => (h3 g1 g2).2 e (hp.mem_iff.2 he)⟩, h4⟩

theorem Content.drop {T : List (Nat × List R × Nat)} {out : List (Answer R)} {E : List (Entry R)} {e : Entry R}
    (h : Content T out (E ++ [e])) : Content T out E := by
  refine ⟨h.tagsT, ?_, fun e he => h.ent e (List.mem_append_left _ he), h.pre, ?_⟩
  · have := h.tags
    rw [List.map_append] at this
    exact (List.nodup_append.1 this).1
  · intro a ha b hb
    obtain ⟨refs, max, h1, h2, h3, h4⟩ := h.fin a ha b hb
    exact ⟨refs, max, h1, h2, fun g1 g2 => ⟨(h3 g1 g2).1, fun e he => (h3 g1 g2).2 e (List.mem_append_left _ he)⟩, h4⟩

theorem Content.untagged {T : List (Nat × List R × Nat)} {out : List (Answer R)} {E : List (Entry R)} (a : Answer R)
    (h : Content T out E) (ha : a.tag = none) : Content T (out ++ [a]) E := by
  have hp : ∀ b, pages (out ++ [a]) b = pages out b := by intro b; rw [pages_append, ha]; simp
  refine ⟨h.tagsT, h.tags, by simpa only [hp] using h.ent, by simpa only [hp] using h.pre, ?_⟩
  intro a' ha' b hb
  simp only [List.mem_append, List.mem_singleton] at ha'
  rcases ha' with ha' | rfl
  · simpa only [hp] using h.fin a' ha' b hb
  · rw [ha] at hb; cases hb

theorem Content.start {T : List (Nat × List R × Nat)} {out : List (Answer R)} {E : List (Entry R)}
    (h : Content T out E) (b : Nat) (refs : List R) (max : Nat) (hb : b ∉ T.map (·.1)) :
    Content (T ++ [(b, refs, max)]) out (E ++ [⟨b, refs, max⟩]) ∧ Content (T ++ [(b, refs, max)]) out E := by
  have hno : ∀ a ∈ out, a.tag ≠ some b := by
    intro a ha h'
    obtain ⟨refs', max', h1, _⟩ := h.fin a ha b h'
    exact hb (List.mem_map.2 ⟨_, h1, rfl⟩)
  have hp : pages out b = [] := by
    unfold pages
    rw [List.filter_eq_nil_iff.2 (by intro a ha; simpa using hno a ha)]
    rfl
  have hE : ∀ e ∈ E, e.tag ≠ b := by
    intro e he h'
    obtain ⟨refs', h1, _⟩ := h.ent e he
    exact hb (List.mem_map.2 ⟨_, h1, h'⟩)
  have hT : ((T ++ [(b, refs, max)]).map (·.1)).Nodup := by
    rw [List.map_append]
    refine List.nodup_append.2 ⟨h.tagsT, by simp, ?_⟩
    intro x hx y hy
    simp only [List.map_cons, List.map_nil, List.mem_singleton] at hy
    rw [hy]; rintro rfl; exact hb hx
  have key : Content (T ++ [(b, refs, max)]) out (E ++ [⟨b, refs, max⟩]) := by
    refine ⟨hT, ?_, ?_, ?_, ?_⟩
    · rw [List.map_append]
      refine List.nodup_append.2 ⟨h.tags, by simp, ?_⟩
      intro x hx y hy
      simp only [List.map_cons, List.map_nil, List.mem_singleton] at hy
      obtain ⟨e, he, rfl⟩ := List.mem_map.1 hx
      rw [hy]; exact hE e he
    · intro e he
      simp only [List.mem_append, List.mem_singleton] at he
      rcases he with he | rfl
      · obtain ⟨refs', h1, h2⟩ := h.ent e he
        exact ⟨refs', List.mem_append_left _ h1, h2⟩
      · exact ⟨refs, by simp, by rw [hp]; rfl⟩
    · intro b' refs' max' hm
      simp only [List.mem_append, List.mem_singleton, Prod.mk.injEq] at hm
      rcases hm with hm | ⟨rfl, rfl, rfl⟩
      · exact h.pre _ _ _ hm
      · rw [hp]; exact List.nil_prefix
    · intro a ha b' hb'
      obtain ⟨refs', max', h1, h2, h3, h4⟩ := h.fin a ha b' hb'
      refine ⟨refs', max', List.mem_append_left _ h1, h2, fun g1 g2 => ⟨(h3 g1 g2).1, ?_⟩, h4⟩
      intro e he
      simp only [List.mem_append, List.mem_singleton] at he
      rcases he with he | rfl
      · exact (h3 g1 g2).2 e he
      · rintro rfl; exact hno a ha hb'
  exact ⟨key, key.drop⟩

/-- The facts about the tag of the entry in flight. -/
theorem Content.flight {T : List (Nat × List R × Nat)} {out : List (Answer R)} {E : List (Entry R)} {e : Entry R}
    (h : Content T out (E ++ [e])) :
    (e.tag, pages out e.tag ++ e.data, e.max) ∈ T ∧ (∀ x ∈ E, x.tag ≠ e.tag) ∧
    (∀ a ∈ out, a.tag = some e.tag → ¬ (a.status = .good ∧ a.cp = none)) := by
  obtain ⟨refs, h1, h2⟩ := h.ent e (by simp)
  refine ⟨h2 ▸ h1, ?_, ?_⟩
  · have := h.tags
    rw [List.map_append, List.nodup_append] at this
    intro x hx
    exact this.2.2 x.tag (List.mem_map.2 ⟨x, hx, rfl⟩) e.tag (by simp)
  · rintro a ha hb ⟨g1, g2⟩
    obtain ⟨_, _, _, _, h3, _⟩ := h.fin a ha _ hb
    exact (h3 g1 g2).2 e (by simp) rfl

theorem Content.page {T : List (Nat × List R × Nat)} {out : List (Answer R)} {E : List (Entry R)} {e : Entry R} (cp : Bytes)
    (h : Content T out (E ++ [e])) (h0 : e.max > 0) (hl : e.data.length > e.max) :
    Content T (out ++ [⟨some e.tag, .good, e.data.take e.max, some cp⟩]) (E ++ [{ e with data := e.data.drop e.max }]) := by
  obtain ⟨f1, f2, f3⟩ := h.flight
  have hself : pages (out ++ [⟨some e.tag, .good, e.data.take e.max, some cp⟩]) e.tag = pages out e.tag ++ e.data.take e.max := by
    rw [pages_append]; simp
  have hoth : ∀ b, b ≠ e.tag → pages (out ++ [⟨some e.tag, .good, e.data.take e.max, some cp⟩]) b = pages out b := by
    intro b hb; rw [pages_append, if_neg (by simp; exact fun h => hb h.symm)]; simp
  refine ⟨h.tagsT, by simpa using h.tags, ?_, ?_, ?_⟩
  · intro x hx
    simp only [List.mem_append, List.mem_singleton] at hx
    rcases hx with hx | rfl
    · rw [hoth _ (f2 x hx)]; exact h.ent x (List.mem_append_left _ hx)
    · exact ⟨_, f1, by dsimp only; rw [hself, List.append_assoc, List.take_append_drop]⟩
  · intro b refs max hm
    by_cases hb : b = e.tag
    · subst hb
      have := mem_unique h.tagsT hm f1
      simp only [Prod.mk.injEq] at this
      rw [hself, this.1]
      exact ⟨e.data.drop e.max, by rw [List.append_assoc, List.take_append_drop]⟩
    · rw [hoth b hb]; exact h.pre b refs max hm
  · intro a ha b hb
    simp only [List.mem_append, List.mem_singleton] at ha
    rcases ha with ha | rfl
    · obtain ⟨refs, max, h1, h2, h3, h4⟩ := h.fin a ha b hb
      refine ⟨refs, max, h1, h2, ?_, h4⟩
      intro g1 g2
      have hbe : b ≠ e.tag := by rintro rfl; exact f3 a ha hb ⟨g1, g2⟩
      rw [hoth b hbe]
      refine ⟨(h3 g1 g2).1, ?_⟩
      intro x hx
      simp only [List.mem_append, List.mem_singleton] at hx
      rcases hx with hx | rfl
      · exact (h3 g1 g2).2 x (List.mem_append_left _ hx)
      · exact fun h => hbe h.symm
    · simp only [Option.some.injEq] at hb
      subst hb
      refine ⟨_, _, f1, ?_, by simp, ?_⟩
      · intro _; simp only [List.length_take]; omega
      · intro _; simp only [List.length_take]; omega

theorem Content.last {T : List (Nat × List R × Nat)} {out : List (Answer R)} {E : List (Entry R)} {e : Entry R}
    (h : Content T out (E ++ [e])) (hl : e.max > 0 → e.data.length ≤ e.max) :
    Content T (out ++ [⟨some e.tag, .good, e.data, none⟩]) E := by
  obtain ⟨f1, f2, f3⟩ := h.flight
  have hself : pages (out ++ [⟨some e.tag, .good, e.data, none⟩]) e.tag = pages out e.tag ++ e.data := by
    rw [pages_append]; simp
  have hoth : ∀ b, b ≠ e.tag → pages (out ++ [⟨some e.tag, .good, e.data, none⟩]) b = pages out b := by
    intro b hb; rw [pages_append, if_neg (by simp; exact fun h => hb h.symm)]; simp
  refine ⟨h.tagsT, h.drop.tags, ?_, ?_, ?_⟩
  · intro x hx
    rw [hoth _ (f2 x hx)]; exact h.ent x (List.mem_append_left _ hx)
  · intro b refs max hm
    by_cases hb : b = e.tag
    · subst hb
      have := mem_unique h.tagsT hm f1
      simp only [Prod.mk.injEq] at this
      rw [hself, this.1]
      exact List.prefix_rfl
    · rw [hoth b hb]; exact h.pre b refs max hm
  · intro a ha b hb
    simp only [List.mem_append, List.mem_singleton] at ha
    rcases ha with ha | rfl
    · obtain ⟨refs, max, h1, h2, h3, h4⟩ := h.fin a ha b hb
      refine ⟨refs, max, h1, h2, ?_, h4⟩
      intro g1 g2
      have hbe : b ≠ e.tag := by rintro rfl; exact f3 a ha hb ⟨g1, g2⟩
      rw [hoth b hbe]
      exact ⟨(h3 g1 g2).1, fun x hx => (h3 g1 g2).2 x (List.mem_append_left _ hx)⟩
    · simp only [Option.some.injEq] at hb
      subst hb
      exact ⟨_, _, f1, hl, fun _ _ => ⟨hself, f2⟩, by simp⟩

theorem Content.refused {T : List (Nat × List R × Nat)} {out : List (Answer R)} {E : List (Entry R)} {e : Entry R}
    (h : Content T out (E ++ [e])) :
    Content T (out ++ [⟨some e.tag, .badNoContinuationPoints, [], none⟩]) E := by
  obtain ⟨f1, f2, f3⟩ := h.flight
  have hp : ∀ b, pages (out ++ [⟨some e.tag, .badNoContinuationPoints, [], none⟩]) b = pages out b := by
    intro b; rw [pages_append]; simp
  have hd := h.drop
  refine ⟨hd.tagsT, hd.tags, by simpa only [hp] using hd.ent, by simpa only [hp] using hd.pre, ?_⟩
  intro a ha b hb
  simp only [List.mem_append, List.mem_singleton] at ha
  rcases ha with ha | rfl
  · simpa only [hp] using hd.fin a ha b hb
  · simp only [Option.some.injEq] at hb
    subst hb
    exact ⟨_, _, f1, by simp, by simp, by simp⟩

/-! ### The invariant of all histories -/

def entries (s : State R) : List (Entry R) := s.cps.map (·.2) ++ s.held.map (·.2)

structure Inv (n : Nat) (T : List (Nat × List R × Nat)) (s : State R) : Prop where
  content : Content T s.out (entries s)
  ids : (s.cps.map (·.1)).Nodup
  range : ∀ x ∈ s.cps, 1 ≤ x.1.toNat ∧ x.1.toNat ≤ s.last.toNat
  count : s.last.toNat ≤ n
  workers : (s.held.map (·.1)).Nodup
  room : s.limit > 0 → s.cps.length + s.held.length ≤ s.limit
  pos : ∀ e ∈ entries s, e.max > 0

theorem erase_fresh (m : List (BitVec 32 × Entry R)) (k : BitVec 32) (h : ∀ x ∈ m, x.1 ≠ k) : erase m k = m := by
  unfold erase; rw [List.filter_eq_self]; intro x hx; simpa using h x hx

theorem find_perm {m : List (BitVec 32 × Entry R)} {k : BitVec 32} {e : Entry R} (hn : (m.map (·.1)).Nodup)
    (h : find m k = some e) : m.Perm (erase m k ++ [(k, e)]) := by
  induction m with
  | nil => simp [find] at h
  | cons x m ih =>
    obtain ⟨k', e'⟩ := x
    simp only [List.map_cons, List.nodup_cons, List.mem_map, not_exists, not_and] at hn
    simp only [find] at h
    split at h
    · rename_i hk
      subst hk
      simp only [Option.some.injEq] at h
      subst h
      have : erase ((k', e') :: m) k' = m := by
        have : erase ((k', e') :: m) k' = erase m k' := by simp [erase]
        rw [this, erase_fresh]
        intro x hx; exact hn.1 x hx
      rw [this]
      exact (List.perm_append_singleton _ _).symm
    · rename_i hk
      have : erase ((k', e') :: m) k = (k', e') :: erase m k := by simp [erase, hk]
      rw [this]
      exact (ih hn.2 h).cons _

theorem findHeld_perm {m : List (Nat × Entry R)} {k : Nat} {e : Entry R} (hn : (m.map (·.1)).Nodup)
    (h : findHeld m k = some e) : m.Perm (m.filter (fun x => x.1 ≠ k) ++ [(k, e)]) := by
  induction m with
  | nil => simp [findHeld] at h
  | cons x m ih =>
    obtain ⟨k', e'⟩ := x
    simp only [List.map_cons, List.nodup_cons, List.mem_map, not_exists, not_and] at hn
    simp only [findHeld] at h
    split at h
    · rename_i hk
      subst hk
      simp only [Option.some.injEq] at h
      subst h
      have : ((k', e') :: m).filter (fun x => x.1 ≠ k') = m := by
        have h2 : m.filter (fun x => x.1 ≠ k') = m := by
          rw [List.filter_eq_self]; intro x hx; simpa using hn.1 x hx
        simpa using h2
      rw [this]
      exact (List.perm_append_singleton _ _).symm
    · rename_i hk
      have : ((k', e') :: m).filter (fun x => x.1 ≠ k) = (k', e') :: m.filter (fun x => x.1 ≠ k) := by simp [hk]
      rw [this]
      exact (ih hn.2 h).cons _

theorem findHeld_none {m : List (Nat × Entry R)} {k : Nat} (h : (findHeld m k).isSome = false) : ∀ x ∈ m, x.1 ≠ k := by
  induction m with
  | nil => simp
  | cons x m ih =>
    obtain ⟨k', e'⟩ := x
    simp only [findHeld] at h
    split at h
    · simp at h
    · rename_i hk
      intro x hx
      simp only [List.mem_cons] at hx
      rcases hx with rfl | hx
      · exact hk
      · exact ih h x hx

theorem find_some_iff {m : List (BitVec 32 × Entry R)} {k : BitVec 32} {e : Entry R} (hn : (m.map (·.1)).Nodup) :
    find m k = some e ↔ (k, e) ∈ m := by
  induction m with
  | nil => simp [find]
  | cons x m ih =>
    obtain ⟨k', e'⟩ := x
    simp only [List.map_cons, List.nodup_cons, List.mem_map, not_exists, not_and] at hn
    simp only [find]
    split
    · rename_i hk
      subst hk
      simp only [Option.some.injEq, List.mem_cons, Prod.mk.injEq, true_and]
      constructor
      · intro h; exact Or.inl h.symm
      · rintro (h | h)
        · exact h.symm
        · exact absurd rfl (hn.1 _ h)
    · rename_i hk
      rw [ih hn.2]
      simp only [List.mem_cons, Prod.mk.injEq]
      constructor
      · exact Or.inr
      · rintro (⟨h, _⟩ | h)
        · exact absurd h.symm hk
        · exact h

/-- `answerPage` when the entry `e` is neither open nor held. `full`: no room for another point. -/
theorem answerPage_inv {n : Nat} {T : List (Nat × List R × Nat)} {s : State R} {e : Entry R} {paged : Bool}
    (hc : Content T s.out (entries s ++ [e])) (ids : (s.cps.map (·.1)).Nodup)
    (range : ∀ x ∈ s.cps, 1 ≤ x.1.toNat ∧ x.1.toNat ≤ s.last.toNat) (count : s.last.toNat ≤ n) (hn : n + 1 < 2 ^ 32)
    (workers : (s.held.map (·.1)).Nodup) (room : s.limit > 0 → s.cps.length + s.held.length ≤ s.limit)
    (pos : ∀ e ∈ entries s, e.max > 0)
    (hroom : s.limit > 0 → s.cps.length < s.limit → s.cps.length + s.held.length < s.limit)
    (hp : paged = decide (e.max > 0 ∧ e.data.length > e.max)) :
    Inv (n + 1) T (answerPage s e paged) := by
  have hlast : (s.last + 1).toNat = s.last.toNat + 1 := by
    rw [BitVec.toNat_add]
    have : BitVec.toNat (1 : BitVec 32) = 1 := rfl
    omega
  unfold answerPage
  by_cases hpg : paged = true
  · rw [if_pos hpg]
    rw [hpg] at hp
    have hp := (of_decide_eq_true hp.symm)
    unfold addCP
    by_cases hfull : s.limit > 0 ∧ s.cps.length ≥ s.limit
    · rw [if_pos hfull]
      exact ⟨hc.refused, ids, range, by dsimp only; omega, workers, room, pos⟩
    · rw [if_neg hfull]
      have hfresh : ∀ x ∈ s.cps, x.1 ≠ s.last + 1 := by
        intro x hx h
        have := range x hx
        rw [h, hlast] at this
        omega
      rw [erase_fresh _ _ hfresh]
      refine ⟨?_, ?_, ?_, ?_, workers, ?_, ?_⟩
      · refine (hc.page (encode (s.last + 1)) hp.1 hp.2).perm ?_
        simp only [entries, List.map_append, List.map_cons, List.map_nil, List.append_assoc]
        exact List.Perm.append_left _ List.perm_append_comm
      · dsimp only
        rw [List.map_append]
        refine List.nodup_append.2 ⟨ids, by simp, ?_⟩
        intro x hx y hy
        simp only [List.map_cons, List.map_nil, List.mem_singleton] at hy
        obtain ⟨z, hz, rfl⟩ := List.mem_map.1 hx
        rw [hy]; exact hfresh z hz
      · intro x hx
        simp only [List.mem_append, List.mem_singleton] at hx
        dsimp only
        rw [hlast]
        rcases hx with hx | rfl
        · have := range x hx; omega
        · dsimp only; rw [hlast]; omega
      · dsimp only; rw [hlast]; omega
      · intro h0
        dsimp only at h0 ⊢
        have := hroom h0 (by omega)
        simp only [List.length_append, List.length_cons, List.length_nil]
        omega
      · intro x hx
        simp only [entries, List.map_append, List.map_cons, List.map_nil, List.mem_append, List.mem_singleton] at hx
        rcases hx with (hx | rfl) | hx
        · exact pos x (List.mem_append_left _ hx)
        · exact hp.1
        · exact pos x (List.mem_append_right _ hx)
  · rw [if_neg hpg]
    have hp : ¬ (e.max > 0 ∧ e.data.length > e.max) := by
      intro h; rw [hp] at hpg; exact hpg (decide_eq_true h)
    exact ⟨hc.last (by omega), ids, range, by dsimp only; omega, workers, room, pos⟩

theorem Inv.mono {n m : Nat} {T : List (Nat × List R × Nat)} {s : State R} (h : Inv n T s) (hm : n ≤ m) : Inv m T s :=
  { h with count := Nat.le_trans h.count hm }

theorem inv_step {n : Nat} {T : List (Nat × List R × Nat)} {s : State R} (h : Inv n T s) (ev : Ev R) (hn : n + 1 < 2 ^ 32)
    (ht : ((T ++ browses [ev]).map (·.1)).Nodup) : Inv (n + 1) (T ++ browses [ev]) (step s ev) := by
  have hmono := h.mono (Nat.le_add_right n 1)
  cases ev with
  | browse b refs max =>
    have hb : b ∉ T.map (·.1) := by
      intro hb
      simp only [browses, List.filterMap_cons, List.filterMap_nil, List.map_append, List.map_cons, List.map_nil] at ht
      exact (List.nodup_append.1 ht).2.2 b hb b (by simp) rfl
    have hbr : browses [Ev.browse b refs max] = [(b, refs, max)] := rfl
    rw [hbr]
    obtain ⟨c1, c2⟩ := h.content.start b refs max hb
    unfold step
    by_cases hcr : s.crashed = true
    · rw [if_pos hcr]; exact { hmono with content := c2 }
    · rw [if_neg hcr]
      dsimp only
      by_cases hh : s.held ≠ []
      · rw [if_pos hh]; exact { hmono with content := c2 }
      · rw [if_neg hh]
        have hh : s.held = [] := Decidable.not_not.1 hh
        exact answerPage_inv c1 h.ids h.range h.count hn h.workers h.room h.pos
          (by intro _ h2; rw [hh]; exact h2) rfl
  | take t cp release =>
    have hbr : browses [Ev.take (R := R) t cp release] = [] := rfl
    rw [hbr, List.append_nil]
    unfold step
    by_cases hcr : s.crashed = true
    · rw [if_pos hcr]; exact hmono
    · rw [if_neg hcr]
      dsimp only
      by_cases hh : (findHeld s.held t).isSome = true
      · rw [if_pos hh]; exact hmono
      · rw [if_neg hh]
        by_cases hcp : cp = []
        · rw [if_pos hcp]; exact { hmono with content := h.content.untagged _ rfl }
        · rw [if_neg hcp]
          cases hd : decode cp with
          | none => exact { hmono with }
          | some id =>
            dsimp only
            cases hf : find s.cps id with
            | none => exact { hmono with content := h.content.untagged _ rfl }
            | some e =>
              have hperm := find_perm h.ids hf
              have hE : (entries s).Perm (((erase s.cps id).map (·.2) ++ s.held.map (·.2)) ++ [e]) := by
                refine ((hperm.map (·.2)).append_right _).trans ?_
                simp only [List.map_append, List.map_cons, List.map_nil, List.append_assoc]
                exact List.Perm.append_left _ List.perm_append_comm
              have hlen := hperm.length_eq
              simp only [List.length_append, List.length_cons, List.length_nil] at hlen
              have hsub : ∀ x ∈ erase s.cps id, x ∈ s.cps := fun x hx => (List.mem_filter.1 hx).1
              have hids : ((erase s.cps id).map (·.1)).Nodup := (List.filter_sublist.map _).nodup h.ids
              dsimp only
              by_cases hr : release = true
              · rw [if_pos hr]
                refine ⟨((h.content.perm hE).drop).untagged _ rfl, hids, fun x hx => h.range x (hsub x hx), hmono.count,
                  h.workers, ?_, ?_⟩
                · intro h0; have := h.room h0; dsimp only at this ⊢; omega
                · intro x hx; exact h.pos x (hE.mem_iff.2 (List.mem_append_left _ hx))
              · rw [if_neg hr]
                have hE2 : (entries s).Perm ((erase s.cps id).map (·.2) ++ (s.held ++ [(t, e)]).map (·.2)) := by
                  refine hE.trans ?_
                  simp only [List.map_append, List.map_cons, List.map_nil, List.append_assoc]
                  exact List.Perm.refl _
                refine ⟨h.content.perm hE2, hids, fun x hx => h.range x (hsub x hx), hmono.count, ?_, ?_, ?_⟩
                · dsimp only
                  rw [List.map_append]
                  refine List.nodup_append.2 ⟨h.workers, by simp, ?_⟩
                  intro x hx y hy
                  simp only [List.map_cons, List.map_nil, List.mem_singleton] at hy
                  obtain ⟨z, hz, rfl⟩ := List.mem_map.1 hx
                  rw [hy]
                  exact findHeld_none (by simpa using hh) z hz
                · intro h0
                  have := h.room h0
                  simp only [List.length_append, List.length_cons, List.length_nil]
                  omega
                · intro x hx; exact h.pos x (hE2.mem_iff.2 hx)
  | put t =>
    have hbr : browses [Ev.put (R := R) t] = [] := rfl
    rw [hbr, List.append_nil]
    unfold step
    by_cases hcr : s.crashed = true
    · rw [if_pos hcr]; exact hmono
    · rw [if_neg hcr]
      dsimp only
      cases hf : findHeld s.held t with
      | none => exact hmono
      | some e =>
        dsimp only
        have hperm := findHeld_perm h.workers hf
        have hE : (entries s).Perm (entries { s with held := s.held.filter (fun x => x.1 ≠ t) } ++ [e]) := by
          refine ((hperm.map (·.2)).append_left _).trans ?_
          simp only [entries, List.map_append, List.map_cons, List.map_nil, List.append_assoc]
          exact List.Perm.refl _
        have hlen := hperm.length_eq
        simp only [List.length_append, List.length_cons, List.length_nil] at hlen
        have hpos : e.max > 0 := h.pos e (hE.mem_iff.2 (by simp))
        refine answerPage_inv (h.content.perm hE) h.ids h.range h.count hn ((List.filter_sublist.map _).nodup h.workers)
          ?_ ?_ ?_ ?_
        · intro h0; have := h.room h0; dsimp only; omega
        · intro x hx; exact h.pos x (hE.mem_iff.2 (List.mem_append_left _ hx))
        · intro h0 _; have := h.room h0; dsimp only; omega
        · simp [hpos]

theorem inv_run (limit : Nat) (evs : List (Ev R)) (hn : evs.length < 2 ^ 32) (ht : ((browses evs).map (·.1)).Nodup) :
    Inv evs.length (browses evs) (run (init limit) evs) := by
  induction evs using snocInd with
  | nil =>
    exact ⟨⟨by simp [browses], by simp [entries, run, init], by simp [entries, run, init], by simp [browses],
      by simp [run, init]⟩, by simp [run, init], by simp [run, init], by simp [run, init], by simp [run, init],
      by simp [run, init], by simp [entries, run, init]⟩
  | append_singleton evs e ih =>
    have hb : browses (evs ++ [e]) = browses evs ++ browses [e] := by simp [browses]
    rw [List.length_append, List.length_singleton] at hn ⊢
    rw [hb] at ht ⊢
    rw [run_snoc]
    refine inv_step (ih (by omega) ?_) e hn ht
    rw [List.map_append] at ht
    exact (List.nodup_append.1 ht).1

/-! ### C39 -/

/-- Whatever the interleaving of Browse, BrowseNext and release, the pages sent for a Browse item
are, in order, a beginning of its full result: nothing is repeated, left out in the middle or mixed
with the result of another item. (Up to 2^32 calls, after which identifiers repeat.) -/
theorem C39_pages_in_order (limit : Nat) (evs : List (Ev R)) (hn : evs.length < 2 ^ 32)
    (ht : ((browses evs).map (·.1)).Nodup) (b : Nat) (refs : List R) (max : Nat) (hb : Ev.browse b refs max ∈ evs) :
    pages (run (init limit) evs).out b <+: refs :=
  (inv_run limit evs hn ht).content.pre b refs max (List.mem_filterMap.2 ⟨_, hb, rfl⟩)

/-- Once a page without continuation point has been sent, the pages together are the full result. -/
theorem C39_complete (limit : Nat) (evs : List (Ev R)) (hn : evs.length < 2 ^ 32)
    (ht : ((browses evs).map (·.1)).Nodup) (b : Nat) (refs : List R) (max : Nat) (hb : Ev.browse b refs max ∈ evs)
    (a : Answer R) (ha : a ∈ (run (init limit) evs).out) (hab : a.tag = some b) (hg : a.status = .good) (hc : a.cp = none) :
    pages (run (init limit) evs).out b = refs := by
  have h := (inv_run limit evs hn ht).content
  obtain ⟨refs', max', h1, _, h3, _⟩ := h.fin a ha b hab
  have := mem_unique h.tagsT h1 (List.mem_filterMap.2 ⟨_, hb, rfl⟩)
  simp only [Prod.mk.injEq] at this
  rw [(h3 hg hc).1, this.1]

/-- No page is longer than the requested maximum, and every page but the last has exactly that
length. -/
theorem C39_page_size (limit : Nat) (evs : List (Ev R)) (hn : evs.length < 2 ^ 32)
    (ht : ((browses evs).map (·.1)).Nodup) (b : Nat) (refs : List R) (max : Nat) (hb : Ev.browse b refs max ∈ evs)
    (a : Answer R) (ha : a ∈ (run (init limit) evs).out) (hab : a.tag = some b) :
    (max > 0 → a.refs.length ≤ max) ∧ (a.cp ≠ none → a.refs.length = max ∧ max > 0) := by
  have h := (inv_run limit evs hn ht).content
  obtain ⟨refs', max', h1, h2, _, h4⟩ := h.fin a ha b hab
  have := mem_unique h.tagsT h1 (List.mem_filterMap.2 ⟨_, hb, rfl⟩)
  simp only [Prod.mk.injEq] at this
  rw [← this.2]
  exact ⟨h2, h4⟩

/-- The number of open continuation points never exceeds the limit. -/
theorem C39_limit (limit : Nat) (h0 : limit > 0) (evs : List (Ev R)) : (run (init limit) evs).cps.length ≤ limit := by
  have add : ∀ (s : State R) e, s.limit = limit → s.cps.length ≤ limit →
      (addCP s e).1.limit = limit ∧ (addCP s e).1.cps.length ≤ limit := by
    intro s e h1 h2
    unfold addCP
    split
    · exact ⟨h1, h2⟩
    · rename_i h
      have hle : (erase s.cps (s.last + 1)).length ≤ s.cps.length := List.length_filter_le _ _
      simp only [List.length_append, List.length_cons, List.length_nil]
      exact ⟨h1, by omega⟩
  have page : ∀ (s : State R) e p, s.limit = limit → s.cps.length ≤ limit →
      (answerPage s e p).limit = limit ∧ (answerPage s e p).cps.length ≤ limit := by
    intro s e p h1 h2
    unfold answerPage
    split
    · have := add s { e with data := e.data.drop e.max } h1 h2
      split <;> (rename_i h; rw [h] at this; exact this)
    · exact ⟨h1, h2⟩
  have key : (run (init limit : State R) evs).limit = limit ∧ (run (init limit) evs).cps.length ≤ limit := by
    induction evs using snocInd with
    | nil => exact ⟨rfl, by simp [run, init]⟩
    | append_singleton evs e ih =>
      rw [run_snoc]
      obtain ⟨h1, h2⟩ := ih
      generalize run (init limit) evs = s at h1 h2
      unfold step
      split
      · exact ⟨h1, h2⟩
      · cases e with
        | browse b refs max =>
          dsimp only
          split
          · exact ⟨h1, h2⟩
          · exact page _ _ _ h1 h2
        | take t cp release =>
          dsimp only
          have hle : ∀ id, (erase s.cps id).length ≤ s.cps.length := fun id => List.length_filter_le _ _
          repeat' split
          all_goals first | exact ⟨h1, h2⟩ | exact ⟨h1, Nat.le_trans (hle _) h2⟩
        | put t =>
          dsimp only
          split
          · exact ⟨h1, h2⟩
          · exact page _ _ _ h1 h2
  exact key.2

/-- BrowseNext is never refused for want of continuation points: the worker that took one up can
always continue, however many run in parallel. -/
theorem C39_next_not_refused (limit : Nat) (evs : List (Ev R)) (hn : evs.length < 2 ^ 32)
    (ht : ((browses evs).map (·.1)).Nodup) (t : Nat) (e : Entry R)
    (hh : findHeld (run (init limit) evs).held t = some e) (hcr : (run (init limit) evs).crashed = false) :
    ∃ cp, (run (init limit) (evs ++ [.put t])).out =
      (run (init limit) evs).out ++ [⟨some e.tag, .good, e.data.take e.max, cp⟩] ∧ (cp = none ↔ e.data.length ≤ e.max) := by
  have h := inv_run limit evs hn ht
  rw [run_snoc]
  generalize run (init limit) evs = s at h hh hcr
  have hlen := (findHeld_perm h.workers hh).length_eq
  simp only [List.length_append, List.length_cons, List.length_nil] at hlen
  have hroom : ¬ (s.limit > 0 ∧ s.cps.length ≥ s.limit) := by
    rintro ⟨h0, h1⟩
    have := h.room h0
    omega
  unfold step
  rw [if_neg (by simp [hcr])]
  dsimp only
  rw [hh]
  dsimp only
  unfold answerPage addCP
  by_cases hp : e.data.length > e.max
  · rw [if_pos (by simpa using hp), if_neg hroom]
    exact ⟨_, rfl, by simp; omega⟩
  · rw [if_neg (by simpa using hp)]
    refine ⟨none, ?_, by simp; omega⟩
    rw [List.take_of_length_le (by omega)]

theorem step_mem (s : State R) (ev : Ev R) : (step s ev).last.toNat ≤ 2 ^ 32 ∧
    (∀ x ∈ (step s ev).cps, x ∈ s.cps ∨ x.1 = s.last + 1 ∧ (step s ev).last = s.last + 1) ∧
    ((step s ev).last = s.last ∨ (step s ev).last = s.last + 1) := by
  refine ⟨Nat.le_of_lt (BitVec.isLt _), ?_⟩
  have page : ∀ (s : State R) e p,
      (∀ x ∈ (answerPage s e p).cps, x ∈ s.cps ∨ x.1 = s.last + 1 ∧ (answerPage s e p).last = s.last + 1) ∧
      ((answerPage s e p).last = s.last ∨ (answerPage s e p).last = s.last + 1) := by
    intro s e p
    unfold answerPage addCP
    by_cases hp : p = true
    · rw [if_pos hp]
      by_cases hf : s.limit > 0 ∧ s.cps.length ≥ s.limit
      · rw [if_pos hf]; exact ⟨fun x hx => Or.inl hx, Or.inl rfl⟩
      · rw [if_neg hf]
        refine ⟨?_, Or.inr rfl⟩
        intro x hx
        simp only [List.mem_append, List.mem_singleton] at hx
        rcases hx with hx | rfl
        · exact Or.inl (List.mem_filter.1 hx).1
        · exact Or.inr ⟨rfl, rfl⟩
    · rw [if_neg hp]; exact ⟨fun x hx => Or.inl hx, Or.inl rfl⟩
  unfold step
  split
  · exact ⟨fun x hx => Or.inl hx, Or.inl rfl⟩
  · cases ev with
    | browse b refs max =>
      dsimp only
      split
      · exact ⟨fun x hx => Or.inl hx, Or.inl rfl⟩
      · exact page _ _ _
    | take t cp release =>
      dsimp only
      repeat' split
      all_goals first
        | exact ⟨fun x hx => Or.inl hx, Or.inl rfl⟩
        | exact ⟨fun x hx => Or.inl (List.mem_filter.1 hx).1, Or.inl rfl⟩
    | put t =>
      dsimp only
      split
      · exact ⟨fun x hx => Or.inl hx, Or.inl rfl⟩
      · exact page _ _ _

theorem later_ids (evs : List (Ev R)) : ∀ (s : State R), s.last.toNat + evs.length < 2 ^ 32 →
    s.last.toNat ≤ (run s evs).last.toNat ∧
    ∀ x ∈ (run s evs).cps, x ∈ s.cps ∨ x.1.toNat > s.last.toNat := by
  induction evs with
  | nil => intro s _; exact ⟨Nat.le_refl _, fun x hx => Or.inl hx⟩
  | cons e evs ih =>
    intro s hs
    simp only [List.length_cons] at hs
    have hl : (s.last + 1).toNat = s.last.toNat + 1 := by
      rw [BitVec.toNat_add]
      have : BitVec.toNat (1 : BitVec 32) = 1 := rfl
      omega
    obtain ⟨_, h1, h2⟩ := step_mem s e
    have hle : s.last.toNat ≤ (step s e).last.toNat ∧ (step s e).last.toNat ≤ s.last.toNat + 1 := by
      rcases h2 with h2 | h2 <;> rw [h2]
      · omega
      · omega
    obtain ⟨g1, g2⟩ := ih (step s e) (by omega)
    refine ⟨Nat.le_trans hle.1 g1, ?_⟩
    intro x hx
    rcases g2 x hx with hx | hx
    · rcases h1 x hx with hx | ⟨hx, _⟩
      · exact Or.inl hx
      · right; rw [hx, hl]; omega
    · right; omega

/-- A continuation point works once: after a BrowseNext or a release has taken it up it is never
valid again, whatever happens later. -/
theorem C39_once (limit : Nat) (evs later : List (Ev R)) (t : Nat) (cp : Bytes) (release : Bool) (id : BitVec 32)
    (hn : evs.length + later.length < 2 ^ 32 - 1) (ht : ((browses evs).map (·.1)).Nodup)
    (hd : decode cp = some id) (hopen : (find (run (init limit) evs).cps id).isSome)
    (hcr : (run (init limit) evs).crashed = false) (hw : findHeld (run (init limit) evs).held t = none) :
    find (run (init limit) (evs ++ .take t cp release :: later)).cps id = none := by
  have h := inv_run limit evs (by omega) ht
  rw [show run (init limit) (evs ++ .take t cp release :: later) = run (step (run (init limit) evs) (.take t cp release)) later
    by simp [run]]
  generalize run (init limit) evs = s at h hopen hcr hw
  obtain ⟨e, he⟩ := Option.isSome_iff_exists.1 hopen
  have hmem := (find_some_iff h.ids).1 he
  have hne : cp ≠ [] := by rintro rfl; simp [decode] at hd
  have hcps : (step s (.take t cp release)).cps = erase s.cps id ∧ (step s (.take t cp release)).last = s.last := by
    unfold step
    rw [if_neg (by simp [hcr])]
    dsimp only
    rw [if_neg (by simp [hw]), if_neg hne, hd]
    dsimp only
    rw [he]
    dsimp only
    split <;> exact ⟨rfl, rfl⟩
  have hlater := (later_ids later (step s (.take t cp release)) (by rw [hcps.2]; have := h.count; omega)).2
  rw [hcps.1, hcps.2] at hlater
  have hno : ∀ x ∈ (run (step s (.take t cp release)) later).cps, x.1 ≠ id := by
    intro x hx hxid
    rcases hlater x hx with hx | hx
    · have := (List.mem_filter.1 hx).2
      simp [hxid] at this
    · have := (h.range _ hmem).2
      rw [hxid] at hx
      dsimp only at this
      omega
  generalize (run (step s (.take t cp release)) later).cps = m at hno
  clear hlater
  induction m with
  | nil => rfl
  | cons x m ih =>
    obtain ⟨k, e⟩ := x
    simp only [find]
    rw [if_neg (hno (k, e) (by simp))]
    exact ih (fun x hx => hno x (List.mem_cons_of_mem _ hx))

/-- Naming it again is answered BadContinuationPointInvalid and changes nothing else. -/
theorem C39_once_status (limit : Nat) (evs later : List (Ev R)) (t t' : Nat) (cp : Bytes) (release release' : Bool)
    (id : BitVec 32) (hn : evs.length + later.length < 2 ^ 32 - 1) (ht : ((browses evs).map (·.1)).Nodup)
    (hd : decode cp = some id) (hopen : (find (run (init limit) evs).cps id).isSome)
    (hcr : (run (init limit) evs).crashed = false) (hw : findHeld (run (init limit) evs).held t = none)
    (hcr' : (run (init limit) (evs ++ .take t cp release :: later)).crashed = false)
    (hw' : findHeld (run (init limit) (evs ++ .take t cp release :: later)).held t' = none) :
    step (run (init limit) (evs ++ .take t cp release :: later)) (.take t' cp release')
      = { run (init limit) (evs ++ .take t cp release :: later) with
          out := (run (init limit) (evs ++ .take t cp release :: later)).out
            ++ [⟨none, .badContinuationPointInvalid, [], none⟩] } := by
  have h := C39_once limit evs later t cp release id hn ht hd hopen hcr hw
  generalize run (init limit) (evs ++ .take t cp release :: later) = s at *
  have hne : cp ≠ [] := by rintro rfl; simp [decode] at hd
  unfold step
  rw [if_neg (by simp [hcr'])]
  dsimp only
  rw [if_neg (by simp [hw']), if_neg hne, hd]
  dsimp only
  rw [h]

/-- And it keeps working until then: an open continuation point that no BrowseNext names is still
open, with the same content, after any other calls. -/
theorem C39_stays_open (limit : Nat) (evs later : List (Ev R)) (id : BitVec 32) (e : Entry R)
    (hn : evs.length + later.length < 2 ^ 32) (ht : ((browses (evs ++ later)).map (·.1)).Nodup)
    (hopen : find (run (init limit) evs).cps id = some e)
    (hnot : ∀ t cp r, Ev.take t cp r ∈ later → decode cp ≠ some id) :
    find (run (init limit) (evs ++ later)).cps id = some e := by
  induction later using snocInd with
  | nil => simpa using hopen
  | append_singleton later ev ih =>
    rw [List.length_append, List.length_singleton] at hn
    rw [← List.append_assoc] at ht ⊢
    have hb : browses (evs ++ later ++ [ev]) = browses (evs ++ later) ++ browses [ev] := by simp [browses]
    have ht' : ((browses (evs ++ later)).map (·.1)).Nodup := by
      rw [hb, List.map_append] at ht
      exact (List.nodup_append.1 ht).1
    have ih := ih (by omega) ht' (fun t cp r hm => hnot t cp r (List.mem_append_left _ hm))
    have hinv := inv_run limit (evs ++ later) (by rw [List.length_append]; omega) ht'
    have hinv' := inv_run limit (evs ++ later ++ [ev]) (by simp only [List.length_append, List.length_singleton]; omega) ht
    have hcount := hinv.count
    rw [List.length_append] at hcount
    rw [find_some_iff hinv'.ids]
    rw [find_some_iff hinv.ids] at ih
    have hr := hinv.range _ ih
    rw [run_snoc]
    clear hinv hinv' hopen
    generalize run (init limit) (evs ++ later) = s at ih hr hcount
    dsimp only at hr
    have hfresh : id ≠ s.last + 1 := by
      intro h
      have hl : (s.last + 1).toNat = s.last.toNat + 1 := by
        rw [BitVec.toNat_add]
        have : BitVec.toNat (1 : BitVec 32) = 1 := rfl
        omega
      rw [h, hl] at hr
      omega
    have page : ∀ (s' : State R) x p, s'.cps = s.cps → s'.last = s.last → (id, e) ∈ (answerPage s' x p).cps := by
      intro s' x p h1 h2
      unfold answerPage addCP
      by_cases hp : p = true
      · rw [if_pos hp]
        by_cases hf : s'.limit > 0 ∧ s'.cps.length ≥ s'.limit
        · rw [if_pos hf]; dsimp only; rw [h1]; exact ih
        · rw [if_neg hf]
          refine List.mem_append_left _ (List.mem_filter.2 ⟨by rw [h1]; exact ih, ?_⟩)
          rw [h2]; simpa using hfresh
      · rw [if_neg hp]; dsimp only; rw [h1]; exact ih
    unfold step
    split
    · exact ih
    · cases ev with
      | browse b refs max =>
        dsimp only
        split
        · exact ih
        · exact page _ _ _ rfl rfl
      | take t cp release =>
        have hid := hnot t cp release (by simp)
        dsimp only
        split
        · exact ih
        · split
          · exact ih
          · split
            · exact ih
            · rename_i id' hd'
              have hne : id ≠ id' := by rintro rfl; exact hid hd'
              split
              · exact ih
              · split <;> exact List.mem_filter.2 ⟨ih, by simpa using hne⟩
      | put t =>
        dsimp only
        split
        · exact ih
        · exact page _ _ _ rfl rfl

/-- A Browse that would need a continuation point beyond the limit is refused and opens none. -/
theorem C39_refused (s : State R) (b : Nat) (refs : List R) (max : Nat) (hcr : s.crashed = false) (hh : s.held = [])
    (h0 : s.limit > 0) (hl : s.cps.length = s.limit) (hm : max > 0) (hr : refs.length > max) :
    step s (.browse b refs max) = { s with out := s.out ++ [⟨some b, .badNoContinuationPoints, [], none⟩] } := by
  simp [step, hcr, hh, answerPage, addCP, h0, hl, hm, hr]

/-! A client that follows its continuation points. -/

/-- BrowseNext with one continuation point: the references and the next point. -/
def next (s : State R) (cp : Bytes) : State R × Option (Answer R) :=
  let s' := run s [.take 0 cp false, .put 0]
  (s', s'.out.getLast?)

def follow : Nat → State R → Option Bytes → List R
  | 0, _, _ => []
  | _, _, none => []
  | n + 1, s, some cp =>
    match next s cp with
    | (s, some a) => a.refs ++ follow n s a.cp
    | (_, none) => []

def browseAll (n : Nat) (s : State R) (b : Nat) (refs : List R) (max : Nat) : List R :=
  let s' := step s (.browse b refs max)
  match s'.out.getLast? with
  | some a => a.refs ++ follow n s' a.cp
  | none => []

theorem find_append_fresh (m : List (BitVec 32 × Entry R)) (k : BitVec 32) (e : Entry R) (h : ∀ x ∈ m, x.1 ≠ k) :
    find (m ++ [(k, e)]) k = some e := by
  induction m with
  | nil => simp [find]
  | cons x m ih =>
    obtain ⟨k', e'⟩ := x
    simp only [List.cons_append, find]
    rw [if_neg (h (k', e') (by simp))]
    exact ih (fun x hx => h x (List.mem_cons_of_mem _ hx))

theorem find_erase_add (m : List (BitVec 32 × Entry R)) (k : BitVec 32) (e : Entry R) :
    find (erase m k ++ [(k, e)]) k = some e := by
  apply find_append_fresh
  intro x hx
  simpa using (List.mem_filter.1 hx).2

theorem follow_spec : ∀ (n : Nat) (s : State R) (id : BitVec 32) (e : Entry R), s.crashed = false → s.held = [] →
    find s.cps id = some e → e.max > 0 → (s.limit > 0 → s.cps.length ≤ s.limit) → e.data.length ≤ n →
    e.data ≠ [] → follow n s (some (encode id)) = e.data := by
  intro n
  induction n with
  | zero =>
    intro s id e _ _ _ _ _ hn hne
    exact absurd (List.eq_nil_of_length_eq_zero (by omega)) hne
  | succ n ih =>
    intro s id e hcr hh hf hm hroom hn hne
    have hdec : decode (encode id) = some id := by simpa using decode_encode id []
    have hlt : (erase s.cps id).length < s.cps.length := by
      have : ∃ x ∈ s.cps, x.1 = id := by
        generalize s.cps = m at hf
        induction m with
        | nil => simp [find] at hf
        | cons x m ih =>
          obtain ⟨k, e'⟩ := x
          simp only [find] at hf
          split at hf
          · rename_i hk; exact ⟨_, List.mem_cons_self, hk⟩
          · obtain ⟨x, hx, hxk⟩ := ih hf; exact ⟨x, List.mem_cons_of_mem _ hx, hxk⟩
      obtain ⟨x, hx, hxk⟩ := this
      unfold erase
      rcases Nat.lt_or_ge (s.cps.filter (fun x => x.1 ≠ id)).length s.cps.length with h | h
      · exact h
      · have := (List.length_filter_eq_length_iff.1 (Nat.le_antisymm (List.length_filter_le _ _) h)) x hx
        simp [hxk] at this
    have htake : step s (.take 0 (encode id) false) = { s with cps := erase s.cps id, held := [(0, e)] } := by
      unfold step
      rw [if_neg (by simp [hcr])]
      dsimp only
      rw [hh, if_neg (by simp [findHeld]), if_neg (by simp [encode]), hdec]
      dsimp only
      rw [hf]
      rfl
    have hnext : run s [.take 0 (encode id) false, .put 0] =
        answerPage { s with cps := erase s.cps id, held := [] } e (decide (e.data.length > e.max)) := by
      show step (step s (.take 0 (encode id) false)) (.put 0) = _
      rw [htake]
      unfold step
      rw [if_neg (by simp [hcr])]
      simp [findHeld]
    show (match next s (encode id) with
      | (s, some a) => a.refs ++ follow n s a.cp
      | (_, none) => []) = e.data
    unfold next
    rw [hnext]
    unfold answerPage
    by_cases hp : e.data.length > e.max
    · rw [if_pos (by simpa using hp)]
      unfold addCP
      rw [if_neg (by dsimp only; omega)]
      dsimp only
      simp only [List.getLast?_append, List.getLast?_singleton, Option.some_or]
      rw [ih _ (s.last + 1) { e with data := e.data.drop e.max } (by exact hcr) (by rfl) (by exact find_erase_add _ _ _) hm ?_ ?_ ?_]
      · exact List.take_append_drop _ _
      · intro h0
        dsimp only at h0 ⊢
        have h1 := hroom h0
        have h2 : (erase (erase s.cps id) (s.last + 1)).length ≤ (erase s.cps id).length := List.length_filter_le _ _
        simp only [List.length_append, List.length_cons, List.length_nil]
        omega
      · dsimp only; rw [List.length_drop]; omega
      · intro h
        have := congrArg List.length h
        simp only [List.length_drop, List.length_nil] at this
        omega
    · rw [if_neg (by simpa using hp)]
      simp only [List.getLast?_append, List.getLast?_singleton, Option.some_or]
      cases n <;> simp [follow]

/-- A client that browses with any page size and follows the continuation points until none is
returned obtains exactly the full result, if there was room for a continuation point. -/
theorem C39_follow (s : State R) (b : Nat) (refs : List R) (max n : Nat) (hcr : s.crashed = false) (hh : s.held = [])
    (hroom : s.limit > 0 → s.cps.length < s.limit) (hn : refs.length ≤ n) : browseAll n s b refs max = refs := by
  unfold browseAll step
  rw [if_neg (by simp [hcr])]
  dsimp only
  rw [if_neg (by simp [hh])]
  unfold answerPage
  by_cases hp : max > 0 ∧ refs.length > max
  · rw [if_pos (by simpa using hp)]
    unfold addCP
    rw [if_neg (by omega)]
    dsimp only
    simp only [List.getLast?_append, List.getLast?_singleton, Option.some_or]
    rw [follow_spec n _ (s.last + 1) ⟨b, refs.drop max, max⟩ (by exact hcr) (by exact hh) (by exact find_erase_add _ _ _) hp.1 ?_ ?_ ?_]
    · exact List.take_append_drop _ _
    · intro h0
      dsimp only at h0 ⊢
      have h1 := hroom h0
      have h2 : (erase s.cps (s.last + 1)).length ≤ s.cps.length := List.length_filter_le _ _
      simp only [List.length_append, List.length_cons, List.length_nil]
      omega
    · dsimp only; rw [List.length_drop]; omega
    · intro h
      have := congrArg List.length h
      simp only [List.length_drop, List.length_nil] at this
      omega
  · rw [if_neg (by simpa using hp)]
    simp only [List.getLast?_append, List.getLast?_singleton, Option.some_or]
    cases n <;> simp [follow]

example : browseAll 9 (init 1) 0 [1, 2, 3, 4, 5, 6, 7] 3 = [1, 2, 3, 4, 5, 6, 7] := by decide

/-- Two browses and their continuations, interleaved. -/
example :
    let s := run (init 2) [.browse 0 [1, 2, 3, 4, 5] 2, .browse 1 [6, 7, 8] 2, .browse 2 [9, 10] 1,
      .take 0 [1, 0, 0, 0] false, .take 1 [2, 0, 0, 0] false, .put 1, .put 0, .take 0 [1, 0, 0, 0] false,
      .take 0 [3, 0, 0, 0] true]
    s.out = [⟨some 0, .good, [1, 2], some [1, 0, 0, 0]⟩, ⟨some 1, .good, [6, 7], some [2, 0, 0, 0]⟩,
      ⟨some 2, .badNoContinuationPoints, [], none⟩, ⟨some 1, .good, [8], none⟩,
      ⟨some 0, .good, [3, 4], some [3, 0, 0, 0]⟩, ⟨none, .badContinuationPointInvalid, [], none⟩,
      ⟨none, .good, [], none⟩] ∧ s.cps = [] ∧ pages s.out 1 = [6, 7, 8] := by
  decide

/-! ### C40 -/

/-- A continuation point of one to three bytes crashes the server process, in every state in which
a worker is free. -/
theorem C40_short_fails (s : State R) (t : Nat) (cp : Bytes) (r : Bool) (hw : findHeld s.held t = none)
    (h1 : cp ≠ []) (h2 : cp.length < 4) : (step s (.take t cp r)).crashed = true := by
  have hd : decode cp = none := by
    match cp, h2 with
    | [], _ => rfl
    | [_], _ => rfl
    | [_, _], _ => rfl
    | [_, _, _], _ => rfl
  unfold step
  split
  · assumption
  · simp [hw, h1, hd]

/-- Any other byte string gets an answer or is taken up by the worker. -/
theorem C40_answered_partial (s : State R) (t : Nat) (cp : Bytes) (r : Bool) (hcr : s.crashed = false)
    (hw : findHeld s.held t = none) (h : cp = [] ∨ 4 ≤ cp.length) :
    (step s (.take t cp r)).crashed = false ∧
    ((∃ a, (step s (.take t cp r)).out = s.out ++ [a]) ∨
     ∃ e, r = false ∧ (step s (.take t cp r)).held = s.held ++ [(t, e)]) := by
  have hd : cp ≠ [] → ∃ id, decode cp = some id := by
    intro hne
    match cp, h with
    | [], _ => exact absurd rfl hne
    | [_], h => simp at h
    | [_, _], h => simp at h
    | [_, _, _], h => simp at h
    | a :: b :: c :: d :: _, _ => exact ⟨_, rfl⟩
  unfold step
  rw [if_neg (by simp [hcr])]
  dsimp only
  rw [if_neg (by simp [hw])]
  by_cases hne : cp = []
  · rw [if_pos hne]; exact ⟨hcr, Or.inl ⟨_, rfl⟩⟩
  · rw [if_neg hne]
    obtain ⟨id, hid⟩ := hd hne
    rw [hid]
    dsimp only
    cases hf : find s.cps id with
    | none => exact ⟨hcr, Or.inl ⟨_, rfl⟩⟩
    | some e =>
      dsimp only
      cases r with
      | true => exact ⟨hcr, Or.inl ⟨_, rfl⟩⟩
      | false => exact ⟨hcr, Or.inr ⟨e, rfl, rfl⟩⟩

example : (step (init 10 : State Nat) (.take 0 [1, 2, 3] false)).crashed = true := by decide

end Opcua.Paging
