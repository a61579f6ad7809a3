import Verif.Model.CertList

/-! C122: a certificate list is a set of certificates in the order of their first arrival. -/

namespace Opcua.CertList

namespace Spec

/-- The usable certificates of a PEM file. -/
def usable (parse : Octets → Option Cert) (b : Block) : Option Cert :=
  if b.type = "CERTIFICATE" ∧ b.headers = [] then parse b.bytes else none

/-- The certificates that a call brings. -/
def brings (parse : Octets → Option Cert) : Op → List Cert
  | .add c => [c]
  | .pem bs => bs.filterMap (usable parse)

/-- The first copies, in order. -/
def firsts : List Cert → List Cert → List Cert
  | acc, [] => acc
  | acc, c :: cs => if c ∈ acc then firsts acc cs else firsts (acc ++ [c]) cs

/-- The set of a sequence of calls. -/
def members (parse : Octets → Option Cert) (ops : List Op) : List Cert := firsts [] (ops.flatMap (brings parse))

/-- The encoding of a certificate fixes its fields. -/
def Honest (cs : List Cert) : Prop := ∀ a ∈ cs, ∀ b ∈ cs, a.raw = b.raw → a = b

/-- The certificate that the list returns for a child: the key identifiers decide, and the names only when the child
does not name the key of its issuer. -/
def suits (child p : Cert) : Bool :=
  if child.authorityKeyID = [] then decide (p.subject = child.issuer) else decide (p.subjectKeyID = child.authorityKeyID)

/-- RFC 5280: the names match, and the key identifiers if both are there. -/
def mayHaveSigned (p child : Cert) : Prop :=
  p.subject = child.issuer ∧ (p.subjectKeyID = [] ∨ child.authorityKeyID = [] ∨ p.subjectKeyID = child.authorityKeyID)

end Spec

open Spec

/-- The invariant: the list is `cs`, and the maps are its indices by key and by name. -/
structure Repr (s : Option CList) (cs : List Cert) where
  l : CList
  eq : s = some l
  made : l.made = true
  certs : l.certs = cs
  name : ∀ k j, j ∈ l.byName k ↔ ∃ c, cs[j]? = some c ∧ c.subject = k
  pickName : ∀ k, pick cs (l.byName k) = .ok (cs.filter fun c => decide (c.subject = k))
  pickKey : ∀ k, k ≠ [] → pick cs (l.bySubjectKeyID k) = .ok (cs.filter fun c => decide (c.subjectKeyID = k))

theorem pick_mono (cs : List Cert) (x : Cert) : ∀ js r, pick cs js = .ok r → pick (cs ++ [x]) js = .ok r
  | [], r, h => h
  | j :: js, r, h => by
    rw [pick] at h ⊢
    cases e : cs[j]? with
    | none => rw [e] at h; cases h
    | some c =>
      rw [e] at h
      have hj : j < cs.length := by
        rcases Nat.lt_or_ge j cs.length with h | h
        · exact h
        · rw [List.getElem?_eq_none h] at e; cases e
      rw [List.getElem?_append_left hj, e]
      cases e2 : pick cs js with
      | panic => rw [e2] at h; cases h
      | ok r2 =>
        rw [e2] at h
        simp only [pick_mono cs x js r2 e2]
        exact h

theorem pick_snoc (cs : List Cert) (j : Nat) (c : Cert) (hc : cs[j]? = some c) :
    ∀ js r, pick cs js = .ok r → pick cs (js ++ [j]) = .ok (r ++ [c])
  | [], r, h => by cases h; simp [pick, hc]
  | i :: js, r, h => by
    rw [pick] at h
    rw [List.cons_append, pick]
    cases e : cs[i]? with
    | none => rw [e] at h; cases h
    | some d =>
      rw [e] at h
      cases e2 : pick cs js with
      | panic => rw [e2] at h; cases h
      | ok r2 =>
        rw [e2] at h
        cases h
        simp only [pick_snoc cs j c hc js r2 e2]
        rfl

theorem containsLoop_iff (cs : List Cert) (cert : Cert) :
    ∀ js r, pick cs js = .ok r → containsLoop cs cert js = .ok (r.any fun c => decide (c.raw = cert.raw))
  | [], r, h => by cases h; rfl
  | i :: js, r, h => by
    rw [pick] at h
    rw [containsLoop]
    cases e : cs[i]? with
    | none => rw [e] at h; cases h
    | some d =>
      rw [e] at h
      cases e2 : pick cs js with
      | panic => rw [e2] at h; cases h
      | ok r2 =>
        rw [e2] at h
        cases h
        by_cases hd : d.raw = cert.raw
        · simp [hd]
        · simp [hd, containsLoop_iff cs cert js r2 e2]

theorem Repr.contains {s cs} (h : Repr s cs) (c : Cert) :
    contains s c = .ok (cs.any fun d => decide (d.subject = c.subject) && decide (d.raw = c.raw)) := by
  rw [h.eq]
  show containsLoop h.l.certs c _ = _
  rw [h.certs, containsLoop_iff _ _ _ _ (h.pickName _), List.any_filter]

theorem Repr.new : Nonempty (Repr (some new) []) :=
  ⟨⟨_, rfl, rfl, rfl, by simp [CertList.new], fun k => by simp [CertList.new, pick],
    fun k _ => by simp [CertList.new, pick]⟩⟩

theorem Repr.add {s cs} (h : Repr s cs) (c : Cert) (hon : Honest (c :: cs)) :
    ∃ s', addCert s (some c) = .ok s' ∧ Nonempty (Repr s' (firsts cs [c])) := by
  simp only [addCert, h.contains]
  by_cases hc : c ∈ cs
  · have : (cs.any fun d => decide (d.subject = c.subject) && decide (d.raw = c.raw)) = true := by
      rw [List.any_eq_true]; exact ⟨c, hc, by simp⟩
    rw [this]
    exact ⟨s, rfl, by rw [firsts, if_pos hc]; exact ⟨h⟩⟩
  · have : (cs.any fun d => decide (d.subject = c.subject) && decide (d.raw = c.raw)) = false := by
      rw [List.any_eq_false]
      intro d hd hx
      simp only [Bool.and_eq_true, decide_eq_true_eq] at hx
      exact hc (hon d (List.mem_cons_of_mem _ hd) c (List.mem_cons_self ..) hx.2 ▸ hd)
    rw [this]
    obtain ⟨l, rfl, made, certs, name, pn, pk⟩ := h
    subst certs
    simp only [made, Bool.true_eq_false, if_false]
    refine ⟨_, rfl, ⟨⟨_, rfl, rfl, ?_, ?_, ?_, ?_⟩⟩⟩
    · simp [firsts, hc]
    · intro k j
      simp only [firsts, hc, if_false, put]
      by_cases hk : k = c.subject
      · subst hk
        simp only [if_true, List.mem_append, List.mem_singleton, name]
        constructor
        · rintro (⟨d, hd, hs⟩ | rfl)
          · exact ⟨d, by
              have : j < l.certs.length := (List.getElem?_eq_some_iff.1 hd).1
              rw [List.getElem?_append_left this]; exact hd, hs⟩
          · exact ⟨c, by simp, rfl⟩
        · rintro ⟨d, hd, hs⟩
          rcases Nat.lt_trichotomy j l.certs.length with hj | hj | hj
          · rw [List.getElem?_append_left hj] at hd; exact .inl ⟨d, hd, hs⟩
          · exact .inr hj
          · rw [List.getElem?_eq_none (by simp; omega)] at hd; cases hd
      · simp only [hk, if_false, name]
        constructor
        · rintro ⟨d, hd, hs⟩
          have : j < l.certs.length := (List.getElem?_eq_some_iff.1 hd).1
          exact ⟨d, by rw [List.getElem?_append_left this]; exact hd, hs⟩
        · rintro ⟨d, hd, hs⟩
          rcases Nat.lt_trichotomy j l.certs.length with hj | hj | hj
          · rw [List.getElem?_append_left hj] at hd; exact ⟨d, hd, hs⟩
          · subst hj; simp at hd; exact absurd (hs.symm.trans (congrArg _ hd.symm)) hk
          · rw [List.getElem?_eq_none (by simp; omega)] at hd; cases hd
    · intro k
      simp only [firsts, hc, if_false, put, List.filter_append]
      by_cases hk : k = c.subject
      · subst hk
        simp only [if_true]
        rw [pick_snoc _ _ c (by simp) _ _ (pick_mono _ _ _ _ (pn _))]
        simp
      · simp only [hk, if_false]
        rw [pick_mono _ _ _ _ (pn _)]
        simp [Ne.symm hk]
    · intro k hk0
      simp only [firsts, hc, if_false, List.filter_append]
      by_cases hk : k = c.subjectKeyID
      · subst hk
        rw [if_pos (List.length_pos_iff.2 hk0)]
        simp only [put, if_true]
        rw [pick_snoc _ _ c (by simp) _ _ (pick_mono _ _ _ _ (pk _ hk0))]
        simp
      · have e : (if c.subjectKeyID.length > 0 then put l.bySubjectKeyID c.subjectKeyID l.certs.length
            else l.bySubjectKeyID) k = l.bySubjectKeyID k := by
          split
          · simp [put, hk]
          · rfl
        rw [e, pick_mono _ _ _ _ (pk _ hk0)]
        simp [Ne.symm hk]

theorem firsts_append : ∀ (acc xs ys : List Cert), firsts acc (xs ++ ys) = firsts (firsts acc xs) ys
  | _, [], _ => rfl
  | acc, x :: xs, ys => by
    rw [List.cons_append, firsts, firsts]
    split
    · exact firsts_append acc xs ys
    · exact firsts_append (acc ++ [x]) xs ys

theorem mem_firsts : ∀ (acc xs : List Cert) (c : Cert), c ∈ firsts acc xs ↔ c ∈ acc ∨ c ∈ xs
  | acc, [], c => by simp [firsts]
  | acc, x :: xs, c => by
    rw [firsts]
    split
    · rename_i h
      rw [mem_firsts acc xs c, List.mem_cons]
      constructor
      · rintro (h1 | h1)
        · exact .inl h1
        · exact .inr (.inr h1)
      · rintro (h1 | rfl | h1)
        · exact .inl h1
        · exact .inl h
        · exact .inr h1
    · rw [mem_firsts (acc ++ [x]) xs c, List.mem_append, List.mem_singleton, List.mem_cons, or_assoc]

theorem nodup_firsts : ∀ (acc xs : List Cert), acc.Nodup → (firsts acc xs).Nodup
  | _, [], h => h
  | acc, x :: xs, h => by
    rw [firsts]
    split
    · exact nodup_firsts acc xs h
    · rename_i hx
      refine nodup_firsts _ xs (List.nodup_append.2 ⟨h, by simp, ?_⟩)
      intro a ha b hb
      rw [List.mem_singleton] at hb
      subst hb
      exact fun e => hx (e ▸ ha)

theorem Repr.pem (parse : Octets → Option Cert) : ∀ (bs : List Block) {s cs} (_ : Repr s cs) (ok : Bool),
    Honest (cs ++ bs.filterMap (usable parse)) →
    ∃ s', appendPEM parse s bs ok = .ok (s', ok || !(bs.filterMap (usable parse)).isEmpty) ∧
      Nonempty (Repr s' (firsts cs (bs.filterMap (usable parse))))
  | [], s, cs, h, ok, _ => ⟨s, by simp [appendPEM], ⟨by simpa [firsts] using h⟩⟩
  | b :: bs, s, cs, h, ok, hon => by
    rw [appendPEM]
    by_cases hb : b.type = "CERTIFICATE" ∧ b.headers = []
    · rw [if_neg (by simp [hb.1, hb.2])]
      cases hp : parse b.bytes with
      | none =>
        have hu : usable parse b = none := by rw [usable, if_pos hb, hp]
        rw [List.filterMap_cons, hu] at hon ⊢
        exact Repr.pem parse bs h ok hon
      | some c =>
        have hu : usable parse b = some c := by rw [usable, if_pos hb, hp]
        rw [List.filterMap_cons, hu] at hon ⊢
        obtain ⟨s1, e1, ⟨r1⟩⟩ := h.add c (fun a ha d hd => hon a
          (by rcases List.mem_cons.1 ha with rfl | ha <;> simp [*]) d
          (by rcases List.mem_cons.1 hd with rfl | hd <;> simp [*]))
        obtain ⟨s2, e2, r2⟩ := Repr.pem parse bs r1 true (fun a ha d hd => hon a
          (by rw [List.mem_append, mem_firsts] at ha; rcases ha with (ha | ha) | ha <;> simp_all) d
          (by rw [List.mem_append, mem_firsts] at hd; rcases hd with (hd | hd) | hd <;> simp_all))
        refine ⟨s2, ?_, ?_⟩
        · simp only [e1, e2]
          simp
        · rw [show firsts cs (c :: bs.filterMap (usable parse)) = firsts (firsts cs [c]) (bs.filterMap (usable parse)) from
            firsts_append cs [c] _]
          exact r2
    · rw [if_pos (by
        rcases Classical.em (b.type = "CERTIFICATE") with h1 | h1
        · exact .inr (fun h2 => hb ⟨h1, List.eq_nil_of_length_eq_zero h2⟩)
        · exact .inl h1)]
      have hu : usable parse b = none := by rw [usable, if_neg hb]
      rw [List.filterMap_cons, hu] at hon ⊢
      exact Repr.pem parse bs h ok hon

theorem Repr.run (parse : Octets → Option Cert) : ∀ (ops : List Op) {s cs} (_ : Repr s cs),
    Honest (cs ++ ops.flatMap (brings parse)) →
    ∃ s', run parse s ops = .ok s' ∧ Nonempty (Repr s' (firsts cs (ops.flatMap (brings parse))))
  | [], s, cs, h, _ => ⟨s, rfl, ⟨by simpa [firsts] using h⟩⟩
  | o :: os, s, cs, h, hon => by
    rw [CertList.run]
    have key : ∃ s', step parse s o = .ok s' ∧ Nonempty (Repr s' (firsts cs (brings parse o))) := by
      cases o with
      | add c =>
        exact h.add c (fun a ha d hd => hon a
          (by rcases List.mem_cons.1 ha with rfl | ha <;> simp [brings, *]) d
          (by rcases List.mem_cons.1 hd with rfl | hd <;> simp [brings, *]))
      | pem bs =>
        obtain ⟨s', e, r⟩ := Repr.pem parse bs h false (fun a ha d hd => hon a
          (by rw [List.flatMap_cons]; rcases List.mem_append.1 ha with ha | ha <;> simp [brings, *]) d
          (by rw [List.flatMap_cons]; rcases List.mem_append.1 hd with hd | hd <;> simp [brings, *]))
        exact ⟨s', by rw [step, e], r⟩
    obtain ⟨s1, e1, ⟨r1⟩⟩ := key
    obtain ⟨s2, e2, r2⟩ := Repr.run parse os r1 (fun a ha d hd => hon a
      (by rw [List.mem_append, mem_firsts] at ha; rw [List.flatMap_cons]
          rcases ha with (ha | ha) | ha <;> simp only [List.mem_append, ha, true_or, or_true]) d
      (by rw [List.mem_append, mem_firsts] at hd; rw [List.flatMap_cons]
          rcases hd with (hd | hd) | hd <;> simp only [List.mem_append, hd, true_or, or_true]))
    refine ⟨s2, by rw [e1]; exact e2, ?_⟩
    rw [List.flatMap_cons, firsts_append]
    exact r2

/-- After any calls on a new list, nothing has panicked, a certificate is contained exactly if it was brought by one of
them, and the subjects are those of the certificates in the order of their first arrival. -/
theorem C122_set (parse : Octets → Option Cert) (ops : List Op) (hon : Honest (ops.flatMap (brings parse))) :
    ∃ s, run parse (some new) ops = .ok s ∧
      (∀ c, Honest (c :: ops.flatMap (brings parse)) → contains s c = .ok (decide (c ∈ ops.flatMap (brings parse)))) ∧
      subjects s = .ok ((members parse ops).map (·.subject)) ∧ (members parse ops).Nodup := by
  obtain ⟨r0⟩ := Repr.new
  obtain ⟨s, e, ⟨r⟩⟩ := Repr.run parse ops r0 (by simpa using hon)
  refine ⟨s, e, ?_, ?_, nodup_firsts _ _ List.nodup_nil⟩
  · intro c hc
    rw [r.contains c]
    congr 1
    rw [Bool.eq_iff_iff, List.any_eq_true, decide_eq_true_iff]
    constructor
    · rintro ⟨d, hd, hx⟩
      rw [mem_firsts] at hd
      simp only [Bool.and_eq_true, decide_eq_true_eq] at hx
      have hd' : d ∈ ops.flatMap (brings parse) := by rcases hd with hd | hd; · cases hd
                                                      · exact hd
      exact hc d (List.mem_cons_of_mem _ hd') c (List.mem_cons_self ..) hx.2 ▸ hd'
    · intro h
      exact ⟨c, (mem_firsts _ _ _).2 (.inr h), by simp⟩
  · rw [r.eq]
    show Res.ok (r.l.certs.map _) = _
    rw [r.certs]
    rfl

/-- The parents that are returned are exactly the members with the right key identifier or, for a child without one, the
right name, in the order of their first arrival. -/
theorem C122_parents (parse : Octets → Option Cert) (ops : List Op) (hon : Honest (ops.flatMap (brings parse)))
    (child : Cert) :
    ∃ s, run parse (some new) ops = .ok s ∧
      findPotentialParents s child = .ok ((members parse ops).filter (suits child)) := by
  obtain ⟨r0⟩ := Repr.new
  obtain ⟨s, e, ⟨r⟩⟩ := Repr.run parse ops r0 (by simpa using hon)
  refine ⟨s, e, ?_⟩
  rw [r.eq]
  rw [findPotentialParents]
  by_cases hk : child.authorityKeyID = []
  · rw [if_neg (by simp [hk]), r.certs, r.pickName]
    congr 2; funext c; simp [suits, hk]
  · rw [if_pos (List.length_pos_iff.2 hk), r.certs, r.pickKey _ hk]
    congr 2; funext c; simp [suits, hk]

/-- The result for a PEM file: true exactly if one of its blocks is usable, also if the list had it already. -/
theorem C122_pem (parse : Octets → Option Cert) (ops : List Op) (bs : List Block)
    (hon : Honest ((ops ++ [Op.pem bs]).flatMap (brings parse))) :
    ∃ s s' ok, run parse (some new) ops = .ok s ∧ appendPEM parse s bs false = .ok (s', ok) ∧
      (ok = true ↔ ∃ b ∈ bs, ∃ c, usable parse b = some c) := by
  obtain ⟨r0⟩ := Repr.new
  obtain ⟨s, e, ⟨r⟩⟩ := Repr.run parse ops r0 (by
    intro a ha d hd
    exact hon a (by simpa using .inl (by simpa using ha)) d (by simpa using .inl (by simpa using hd)))
  obtain ⟨s', e', _⟩ := Repr.pem parse bs r false (by
    intro a ha d hd
    rw [List.mem_append, mem_firsts] at ha hd
    refine hon a ?_ d ?_ <;> rw [List.flatMap_append, List.mem_append]
    · rcases ha with (ha | ha) | ha
      · cases ha
      · exact .inl ha
      · exact .inr (by simpa [brings] using ha)
    · rcases hd with (ha | ha) | ha
      · cases ha
      · exact .inl ha
      · exact .inr (by simpa [brings] using ha))
  refine ⟨s, s', _, e, e', ?_⟩
  rw [Bool.false_or]
  simp only [Bool.not_eq_true', List.isEmpty_eq_false_iff]
  constructor
  · intro h
    obtain ⟨c, hc⟩ := List.exists_mem_of_ne_nil _ h
    obtain ⟨b, hb, hu⟩ := List.mem_filterMap.1 hc
    exact ⟨b, hb, c, hu⟩
  · rintro ⟨b, hb, c, hu⟩
    exact List.ne_nil_of_mem (List.mem_filterMap.2 ⟨b, hb, hu⟩)

/-- No issuer is missed, provided that it has a key identifier or the child does not name one. -/
theorem C122_issuer_partial (parse : Octets → Option Cert) (ops : List Op)
    (hon : Honest (ops.flatMap (brings parse))) (p child : Cert) (hp : p ∈ ops.flatMap (brings parse))
    (hs : mayHaveSigned p child) (hk : p.subjectKeyID ≠ [] ∨ child.authorityKeyID = []) :
    ∃ s ps, run parse (some new) ops = .ok s ∧ findPotentialParents s child = .ok ps ∧ p ∈ ps := by
  obtain ⟨s, e, f⟩ := C122_parents parse ops hon child
  refine ⟨s, _, e, f, List.mem_filter.2 ⟨(mem_firsts _ _ _).2 (.inr hp), ?_⟩⟩
  rw [suits]
  by_cases hc : child.authorityKeyID = []
  · rw [if_pos hc]; exact decide_eq_true hs.1
  · rw [if_neg hc]
    rcases hs.2 with h | h | h
    · exact absurd h (hk.resolve_right hc)
    · exact absurd h hc
    · exact decide_eq_true h

def caNoKey : Cert := ⟨[1], [10], [10], [], []⟩
def ca : Cert := ⟨[2], [10], [10], [7], [7]⟩
def stranger : Cert := ⟨[3], [66], [66], [7], []⟩
def leaf : Cert := ⟨[4], [20], [10], [8], [7]⟩

/-- An issuer whose certificate has no key identifier is missed when the child names one: for every such pair. -/
theorem C122_issuer_fails :
    (∀ parse ops p child, Honest (ops.flatMap (brings parse)) → p.subjectKeyID = [] → child.authorityKeyID ≠ [] →
      ∃ s ps, run parse (some new) ops = .ok s ∧ findPotentialParents s child = .ok ps ∧ p ∉ ps) ∧
    mayHaveSigned caNoKey leaf ∧ caNoKey.subjectKeyID = [] ∧ leaf.authorityKeyID ≠ [] := by
  refine ⟨?_, ⟨rfl, .inl rfl⟩, rfl, by decide⟩
  intro parse ops p child hon hp hc
  obtain ⟨s, e, f⟩ := C122_parents parse ops hon child
  refine ⟨s, _, e, f, fun hm => ?_⟩
  have := (List.mem_filter.1 hm).2
  rw [suits, if_neg hc, hp] at this
  exact hc (of_decide_eq_true this).symm

/-- A certificate of another name is returned as a possible issuer when it has the same key identifier. -/
theorem C122_stranger_fails :
    ∃ ops s, run (fun _ => none) (some new) ops = .ok s ∧ findPotentialParents s leaf = .ok [stranger] ∧
      ¬ mayHaveSigned stranger leaf :=
  ⟨[.add stranger], _, rfl, rfl, by simp [mayHaveSigned, stranger, leaf]⟩

/-- A nil list answers questions as an empty one, but cannot be added to; neither can the zero value; a nil certificate
is refused always. -/
theorem C122_nil_partial (c : Cert) (s : Option CList) :
    findPotentialParents none c = .ok [] ∧ contains none c = .ok false ∧ addCert none (some c) = .panic ∧
    subjects none = .panic ∧ addCert (some zero) (some c) = .panic ∧ addCert s none = .panic :=
  ⟨rfl, rfl, rfl, rfl, rfl, rfl⟩

/-- A file without any usable block is harmless even for a nil list. -/
example : appendPEM (fun _ => none) none [⟨"CERTIFICATE", [], [1]⟩, ⟨"KEY", [], []⟩] false = .ok (none, false) := rfl

example : Honest ([Op.add ca, .pem [⟨"CERTIFICATE", [], [4]⟩, ⟨"KEY", [], [4]⟩], .add ca].flatMap
    (brings fun b => if b = [4] then some leaf else none)) := by
  intro a ha b hb
  have ha : a = ca ∨ a = leaf := by simpa [brings, usable, or_comm] using ha
  have hb : b = ca ∨ b = leaf := by simpa [brings, usable, or_comm] using hb
  rcases ha with rfl | rfl <;> rcases hb with rfl | rfl <;> simp [ca, leaf]

example : ∃ s, run (fun b => if b = [4] then some leaf else none) (some new)
      [Op.add ca, .pem [⟨"CERTIFICATE", [], [4]⟩, ⟨"KEY", [], [4]⟩], .add ca] = .ok s ∧
    findPotentialParents s leaf = .ok [ca] ∧ subjects s = .ok [[10], [20]] := ⟨_, rfl, by decide +kernel, by decide +kernel⟩

end Opcua.CertList
