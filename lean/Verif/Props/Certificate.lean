import Verif.Model.Certificate

/-! C96 (only trusted, unrevoked certificates are accepted) and C97 (the application a session names). -/

namespace Opcua.Certificate

namespace Spec

/-- The certificate is the other one, or was issued by one that descends from it. -/
inductive Descends : Cert → Cert → Prop
  | self (c : Cert) : Descends c c
  | up {c p t : Cert} : Issued c p → Descends p t → Descends c t

/-- Some readable file of the path holds it. -/
def Holds (p : Path α) (x : α) : Prop := ∃ xs, some xs ∈ p ∧ x ∈ xs

/-- A list counts for an issuer: its next update is to come, and the issuer signed it. -/
def InForce (issuer : Cert) (now : Nat) (l : Crl) : Prop :=
  now < l.nextUpdate ∧ l.signer = issuer.key ∧ issuer.crlSign = true

/-- A list of the stores in force for the issuer names the certificate. -/
def Revoked (st : Stores) (now : Nat) (cert issuer : Cert) : Prop :=
  ∃ l, (Holds st.trustedCrls l ∨ Holds st.issuerCrls l) ∧ InForce issuer now l ∧ cert.serial ∈ l.revoked

/-- What a chain must be for the certificate to be accepted. -/
structure Sound (st : Stores) (usages : List Nat) (now : Nat) (leaf : Cert) (chain : List Cert) : Prop where
  head : chain.head? = some leaf
  linked : Linked chain
  trusted : ∃ t ∈ chain, Holds st.trusted t
  selfSigned : ∀ m ∈ chain, m.issuer = m.subject → m.signer = m.key
  usage : ∃ u ∈ leaf.ekus, u ∈ usages
  issuers : ∀ m ∈ chain.tail, m.certSign = true

end Spec

open Spec

theorem readAll_holds {p : Path α} {xs : List α} (h : readAll p = some xs) (x : α) (hx : x ∈ xs) : Holds p x := by
  induction p generalizing xs with
  | nil => simp only [readAll, Option.some.injEq] at h; subst h; cases hx
  | cons a p ih =>
    cases a with
    | none => simp [readAll] at h
    | some ys =>
      simp only [readAll, Option.map_eq_some_iff] at h
      obtain ⟨zs, hz, rfl⟩ := h
      rcases List.mem_append.1 hx with h1 | h1
      · exact ⟨ys, List.mem_cons_self, h1⟩
      · obtain ⟨ws, hw, hm⟩ := ih hz h1
        exact ⟨ws, List.mem_cons_of_mem _ hw, hm⟩

theorem getD_holds {p : Path α} (x : α) (hx : x ∈ (readAll p).getD []) : Holds p x := by
  cases h : readAll p with
  | none => rw [h] at hx; cases hx
  | some xs => rw [h] at hx; exact readAll_holds h x hx

theorem readAll_none {p : Path α} (h : none ∈ p) : readAll p = none := by
  induction p with
  | nil => cases h
  | cons a p ih =>
    cases a with
    | none => rfl
    | some ys =>
      have : none ∈ p := by
        rcases List.mem_cons.1 h with h | h
        · cases h
        · exact h
      simp [readAll, ih this]

theorem readAll_some {p : Path α} (h : none ∉ p) : ∃ xs, readAll p = some xs ∧ ∀ x, Holds p x → x ∈ xs := by
  induction p with
  | nil => exact ⟨[], rfl, fun x ⟨_, h1, _⟩ => nomatch h1⟩
  | cons a p ih =>
    cases a with
    | none => exact absurd List.mem_cons_self h
    | some ys =>
      obtain ⟨xs, h1, h2⟩ := ih (fun h' => h (List.mem_cons_of_mem _ h'))
      refine ⟨ys ++ xs, by simp [readAll, h1], fun x ⟨zs, hz, hx⟩ => ?_⟩
      rcases List.mem_cons.1 hz with hz | hz
      · cases hz; exact List.mem_append_left _ hx
      · exact List.mem_append_right _ (h2 x ⟨zs, hz, hx⟩)

theorem checkChains_none {trusted usages crls suppress now} {chains : List (List Cert)} {e : Option Status}
    (hne : chains ≠ [] ∨ e ≠ none) :
    checkChains trusted usages crls suppress now e chains = none ↔
      ∃ ch ∈ chains, checkChain ch trusted usages crls suppress now true ch = none := by
  induction chains generalizing e with
  | nil => simp [checkChains]; rcases hne with h | h; exact absurd rfl h; exact h
  | cons ch rest ih =>
    unfold checkChains
    cases h : checkChain ch trusted usages crls suppress now true ch with
    | none => simp [h]
    | some e' =>
      dsimp only
      rw [ih (Or.inr (by simp))]
      simp [h]

/-- What the checks of one member ask for. -/
theorem checkMember_none {whole : List Cert} {isLeaf c rest trusted usages crls suppress now} :
    checkMember whole isLeaf c rest trusted usages crls suppress now = none ↔
      (c.issuer = c.subject → c.signer = c.key) ∧ (∃ t ∈ whole, t ∈ trusted) ∧
      (isLeaf = true → ∃ u ∈ c.ekus, u ∈ usages) ∧ (isLeaf = false → c.certSign = true) ∧
      checkRevocation isLeaf rest crls suppress now = none := by
  unfold checkMember
  have hany : (whole.any fun c2 => trusted.any fun c3 => decide (c2 = c3)) = true ↔ ∃ t ∈ whole, t ∈ trusted := by
    simp
  have heku : (c.ekus.any fun e => usages.any fun u => decide (e = u)) = true ↔ ∃ u ∈ c.ekus, u ∈ usages := by
    simp
  by_cases h1 : isSelfSigned c && decide (c.signer ≠ c.key)
  · rw [if_pos h1]
    simp only [isSelfSigned, Bool.and_eq_true, decide_eq_true_eq] at h1
    simp only [reduceCtorEq, false_iff]
    intro h
    exact h1.2 (h.1 h1.1)
  · rw [if_neg h1]
    have h1' : c.issuer = c.subject → c.signer = c.key := by
      intro hs
      apply Classical.byContradiction
      intro hn
      exact h1 (by simp [isSelfSigned, hs, hn])
    by_cases h2 : (whole.any fun c2 => trusted.any fun c3 => decide (c2 = c3)) = true
    · rw [if_neg (by simp [h2])]
      have h2' := hany.1 h2
      by_cases h3 : (c.ekus.any fun e => usages.any fun u => decide (e = u)) = true
      · have h3' := heku.1 h3
        rw [if_neg (by simp [h3])]
        cases isLeaf <;> cases hc : c.certSign <;> simp_all
      · have h3' := fun h => h3 (heku.2 h)
        cases isLeaf with
        | true =>
          rw [if_pos (by simp [h3])]
          simp only [reduceCtorEq, false_iff]
          intro h
          exact h3' (h.2.2.1 trivial)
        | false => cases hc : c.certSign <;> simp_all
    · rw [if_pos (by simp [h2])]
      simp only [reduceCtorEq, false_iff]
      intro h
      exact h2 (hany.2 h.2.1)

theorem checkChain_none {whole : List Cert} {trusted usages crls suppress now} (isLeaf : Bool) (ch : List Cert) :
    checkChain whole trusted usages crls suppress now isLeaf ch = none ↔
      ∀ i c, ch[i]? = some c →
        checkMember whole (isLeaf && decide (i = 0)) c (ch.drop i) trusted usages crls suppress now = none := by
  induction ch generalizing isLeaf with
  | nil => simp [checkChain]
  | cons c rest ih =>
    unfold checkChain
    constructor
    · intro h i d hd
      cases hm : checkMember whole isLeaf c (c :: rest) trusted usages crls suppress now with
      | some e => rw [hm] at h; cases h
      | none =>
        rw [hm] at h
        cases i with
        | zero =>
          simp only [List.getElem?_cons_zero, Option.some.injEq] at hd
          subst hd
          simpa using hm
        | succ i =>
          have := (ih false).1 h i d (by simpa using hd)
          simpa using this
    · intro h
      have h0 := h 0 c rfl
      simp only [decide_true, Bool.and_true, List.drop_zero] at h0
      rw [h0]
      refine (ih false).2 fun i d hd => ?_
      have := h (i + 1) d (by simpa using hd)
      simpa using this

theorem lookUp_some {cert issuer now} {crls : List Crl} {b : Bool} (h : lookUp cert issuer now crls = some b) :
    ∃ l ∈ crls, InForce issuer now l ∧ (b = true ↔ cert.serial ∈ l.revoked) := by
  induction crls with
  | nil => cases h
  | cons l ls ih =>
    unfold lookUp at h
    split at h
    · rename_i hf
      refine ⟨l, List.mem_cons_self, hf, ?_⟩
      cases h
      simp
    · obtain ⟨l', h1, h2⟩ := ih h
      exact ⟨l', List.mem_cons_of_mem _ h1, h2⟩

theorem lookUp_none {cert issuer now} {crls : List Crl} :
    lookUp cert issuer now crls = none ↔ ∀ l ∈ crls, ¬ InForce issuer now l := by
  induction crls with
  | nil => simp [lookUp]
  | cons l ls ih =>
    unfold lookUp
    split
    · rename_i hf
      simp only [reduceCtorEq, false_iff]
      intro h
      exact h l List.mem_cons_self hf
    · rename_i hf
      rw [ih]
      constructor
      · intro h l' hl'
        rcases List.mem_cons.1 hl' with rfl | hl'
        · exact hf
        · exact h l' hl'
      · exact fun h l' hl' => h l' (List.mem_cons_of_mem _ hl')

/-- What remains of acceptance for the certificates of a chain. -/
theorem accepted_chain {L : Library} (hL : L.Lawful) {leaf : Cert} {peer : List Cert} {usages host st f now}
    (h : verdict L (leaf :: peer) usages host st f now = none) :
    ∃ chain chains, L.verify (options leaf peer (usagesOr usages) host st f now) leaf = .ok chains ∧ chain ∈ chains ∧
      checkChain chain (trustedOf leaf st f) (usagesOr usages) (crlsOf st) f.revocation now true chain = none := by
  unfold verdict at h
  dsimp only at h
  cases hv : L.verify (options leaf peer (usagesOr usages) host st f now) leaf with
  | error e => rw [hv] at h; cases h
  | ok chains =>
    rw [hv] at h
    obtain ⟨ch, h1, h2⟩ := (checkChains_none (Or.inl (hL.nonempty _ _ _ hv))).1 h
    exact ⟨ch, chains, rfl, h1, h2⟩

theorem Linked.descends {chain : List Cert} {leaf t : Cert} (hl : Linked chain) (hh : chain.head? = some leaf)
    (ht : t ∈ chain) : Descends leaf t := by
  induction chain generalizing leaf with
  | nil => cases ht
  | cons c rest ih =>
    simp only [List.head?_cons, Option.some.injEq] at hh
    subst hh
    rcases List.mem_cons.1 ht with rfl | ht
    · exact .self _
    · cases rest with
      | nil => cases ht
      | cons p rest => exact .up hl.1 (ih hl.2 rfl ht)

theorem trustedOf_holds {leaf : Cert} {st : Stores} {f : Flags} (hf : f.chain = false) {t : Cert}
    (h : t ∈ trustedOf leaf st f) : Holds st.trusted t := by
  unfold trustedOf at h
  rw [hf] at h
  simp only [Bool.false_eq_true, if_false, List.append_nil] at h
  exact getD_holds t h

/-- An accepted certificate has a chain to a root with a trusted member, right usages, and signatures that verify,
whatever the other side sent along. -/
theorem C96_chain {L : Library} (hL : L.Lawful) {leaf : Cert} {peer : List Cert} {usages host st f now}
    (hf : f.chain = false) (h : verdict L (leaf :: peer) usages host st f now = none) :
    ∃ chain, Sound st (usagesOr usages) now leaf chain ∧
      (f.time = false → ∀ m ∈ chain, ValidAt now m) := by
  obtain ⟨chain, chains, hv, hm, hc⟩ := accepted_chain hL h
  have hh := hL.head _ _ _ hv chain hm
  cases chain with
  | nil => cases hh
  | cons c rest =>
    simp only [List.head?_cons, Option.some.injEq] at hh
    subst hh
    have hall := (checkChain_none true _).1 hc
    have h0 := checkMember_none.1 (hall 0 c rfl)
    refine ⟨c :: rest, ⟨rfl, hL.linked _ _ _ hv _ hm, ?_, ?_, ?_, ?_⟩, ?_⟩
    · obtain ⟨t, h1, h2⟩ := h0.2.1
      exact ⟨t, h1, trustedOf_holds hf h2⟩
    · intro m hmem hs
      obtain ⟨i, hi⟩ := List.mem_iff_getElem?.1 hmem
      exact (checkMember_none.1 (hall i m hi)).1 hs
    · exact h0.2.2.1 rfl
    · intro m hmem
      obtain ⟨i, hi⟩ := List.mem_iff_getElem?.1 (show m ∈ rest from hmem)
      exact (checkMember_none.1 (hall (i + 1) m (by simpa using hi))).2.2.2.1 (by simp)
    · intro ht m hmem
      have := hL.time _ _ _ hv _ hm m hmem
      simpa [options, ht] using this

/-- So an accepted certificate is one of the trust list or descends from one by signatures. -/
theorem C96_trusted {L : Library} (hL : L.Lawful) {leaf : Cert} {peer : List Cert} {usages host st f now}
    (hf : f.chain = false) (h : verdict L (leaf :: peer) usages host st f now = none) :
    ∃ t, Holds st.trusted t ∧ Descends leaf t := by
  obtain ⟨chain, hs, _⟩ := C96_chain hL hf h
  obtain ⟨t, h1, h2⟩ := hs.trusted
  exact ⟨t, h2, hs.linked.descends hs.head h1⟩

/-- Nothing is accepted when a file of the trust list cannot be read. -/
theorem C96_unreadable {L : Library} (hL : L.Lawful) (certs : List Cert) (usages : List Nat) (host : String)
    (st : Stores) (f : Flags) (now : Nat) (hf : f.chain = false) (hn : none ∈ st.trusted) :
    verdict L certs usages host st f now ≠ none := by
  intro h
  cases certs with
  | nil => cases h
  | cons leaf peer =>
    obtain ⟨chain, chains, hv, hm, hc⟩ := accepted_chain hL h
    have hh := hL.head _ _ _ hv chain hm
    cases chain with
    | nil => cases hh
    | cons c rest =>
      obtain ⟨t, _, h2⟩ := (checkMember_none.1 ((checkChain_none true _).1 hc 0 c rfl)).2.1
      simp [trustedOf, readAll_none hn, hf] at h2

/-- The host name is one of the certificate, and the usage is the wanted one, also with WithInsecureSkipVerify. -/
theorem C96_host {L : Library} (hL : L.Lawful) {leaf : Cert} {peer : List Cert} {usages host st f now}
    (h : verdict L (leaf :: peer) usages host st f now = none) :
    (f.host = false → host ≠ "" → host ∈ leaf.hosts) ∧ ∃ u ∈ leaf.ekus, u ∈ usagesOr usages := by
  obtain ⟨chain, chains, hv, hm, hc⟩ := accepted_chain hL h
  have hh := hL.head _ _ _ hv chain hm
  refine ⟨fun hf hne => ?_, ?_⟩
  · have := hL.host _ _ _ hv
    simp only [options, hf, Bool.false_eq_true, if_false] at this
    exact this hne
  · cases chain with
    | nil => cases hh
    | cons c rest =>
      simp only [List.head?_cons, Option.some.injEq] at hh
      subst hh
      exact (checkMember_none.1 ((checkChain_none true _).1 hc 0 c rfl)).2.2.1 rfl

theorem crlsOf_holds {st : Stores} {l : Crl} (h : l ∈ crlsOf st) : Holds st.trustedCrls l ∨ Holds st.issuerCrls l := by
  unfold crlsOf at h
  rcases List.mem_append.1 h with h | h
  · exact .inr (getD_holds l h)
  · exact .inl (getD_holds l h)

/-- Revocation. In the chain of an accepted certificate every member but the last has a list in force signed by its
issuer that does not name it. What is missing: other lists in force may name it, `C96_lists_fails`; so nothing on it is
revoked if the lists in force of one issuer agree. -/
theorem C96_revocation_partial {L : Library} (hL : L.Lawful) {leaf : Cert} {peer : List Cert} {usages host st f now}
    (hf : f.chain = false) (hr : f.revocation = false) (h : verdict L (leaf :: peer) usages host st f now = none) :
    ∃ chain, Sound st (usagesOr usages) now leaf chain ∧
      (∀ i c p, chain[i]? = some c → chain[i + 1]? = some p →
        ∃ l, (Holds st.trustedCrls l ∨ Holds st.issuerCrls l) ∧ InForce p now l ∧ c.serial ∉ l.revoked) ∧
      ((∀ p l l', InForce p now l → InForce p now l' → (Holds st.trustedCrls l ∨ Holds st.issuerCrls l) →
          (Holds st.trustedCrls l' ∨ Holds st.issuerCrls l') → l.revoked = l'.revoked) →
        ∀ i c p, chain[i]? = some c → chain[i + 1]? = some p → ¬ Revoked st now c p) := by
  obtain ⟨chain, chains, hv, hm, hc⟩ := accepted_chain hL h
  have hall := (checkChain_none true _).1 hc
  have hh := hL.head _ _ _ hv chain hm
  have hlists : ∀ (i : Nat) (c p : Cert), chain[i]? = some c → chain[i + 1]? = some p →
      ∃ l, (Holds st.trustedCrls l ∨ Holds st.issuerCrls l) ∧ InForce p now l ∧ c.serial ∉ l.revoked := by
    intro i c p hi hp
    have hcr := (checkMember_none.1 (hall i c hi)).2.2.2.2
    have hd : chain.drop i = c :: p :: chain.drop (i + 2) := by
      obtain ⟨h1, h2⟩ := List.getElem?_eq_some_iff.1 hi
      obtain ⟨h3, h4⟩ := List.getElem?_eq_some_iff.1 hp
      rw [List.drop_eq_getElem_cons h1, h2, List.drop_eq_getElem_cons h3, h4]
    rw [hd] at hcr
    unfold checkRevocation at hcr
    dsimp only at hcr
    cases hl : lookUp c p now (crlsOf st) with
    | none => rw [hl, hr] at hcr; simp at hcr
    | some b =>
      obtain ⟨l, h1, h2, h3⟩ := lookUp_some hl
      cases b with
      | true => rw [hl] at hcr; simp at hcr
      | false => exact ⟨l, crlsOf_holds h1, h2, fun hx => by simpa using h3.2 hx⟩
  refine ⟨chain, ?_, hlists, ?_⟩
  · cases chain with
    | nil => cases hh
    | cons c rest =>
      simp only [List.head?_cons, Option.some.injEq] at hh
      subst hh
      have h0 := checkMember_none.1 (hall 0 c rfl)
      refine ⟨rfl, hL.linked _ _ _ hv _ hm, ?_, ?_, h0.2.2.1 rfl, ?_⟩
      · obtain ⟨t, h1, h2⟩ := h0.2.1
        exact ⟨t, h1, trustedOf_holds hf h2⟩
      · intro m hmem hs
        obtain ⟨i, hi⟩ := List.mem_iff_getElem?.1 hmem
        exact (checkMember_none.1 (hall i m hi)).1 hs
      · intro m hmem
        obtain ⟨i, hi⟩ := List.mem_iff_getElem?.1 (show m ∈ rest from hmem)
        exact (checkMember_none.1 (hall (i + 1) m (by simpa using hi))).2.2.2.1 (by simp)
  · intro hagree i c p hi hp ⟨l, hl, hin, hrev⟩
    obtain ⟨l', hl', hin', hnot⟩ := hlists i c p hi hp
    rw [hagree p l' l hin' hin hl' hl] at hnot
    exact hnot hrev

/-- A self-signed certificate of a readable trust list, in its period, for the host and the usage, is accepted. -/
theorem C96_accepts {L : Library} (hL : L.Lawful) (leaf : Cert) (peer : List Cert) (usages : List Nat) (host : String)
    (st : Stores) (f : Flags) (now : Nat) (hread : none ∉ st.trusted) (ht : Holds st.trusted leaf)
    (hself : leaf.issuer = leaf.subject) (hsig : leaf.signer = leaf.key) (hvalid : ValidAt now leaf)
    (hhost : host = "" ∨ host ∈ leaf.hosts) (husage : ∃ u ∈ leaf.ekus, u ∈ usagesOr usages) :
    verdict L (leaf :: peer) usages host st f now = none := by
  obtain ⟨xs, hx, hin⟩ := readAll_some hread
  have hmem := hin leaf ht
  have hv : L.verify (options leaf peer (usagesOr usages) host st f now) leaf = .ok [[leaf]] := by
    refine hL.found _ _ ?_ ?_ ?_ ?_
    · simp only [options]
      refine List.mem_append_left _ (List.mem_filter.2 ⟨?_, by simp [isSelfSigned, hself]⟩)
      simp [pool, hx, hmem]
    · simp only [options]
      split
      · exact ⟨Nat.le_refl _, Nat.le_trans hvalid.1 hvalid.2⟩
      · exact hvalid
    · simp only [options]
      split
      · exact .inl rfl
      · exact hhost
    · exact husage
  unfold verdict
  dsimp only
  rw [hv]
  refine (checkChains_none (Or.inl (by simp))).2 ⟨[leaf], List.mem_cons_self, ?_⟩
  refine (checkChain_none true _).2 fun i c hi => ?_
  cases i with
  | succ i => simp at hi
  | zero =>
    simp only [List.getElem?_cons_zero, Option.some.injEq] at hi
    subst hi
    refine checkMember_none.2 ⟨fun _ => hsig, ⟨leaf, List.mem_cons_self, ?_⟩, fun _ => husage, by simp, rfl⟩
    exact List.mem_append_left _ (by simp [hx, hmem])

/-- With WithInsecureSkipVerify any certificate of the usage is accepted that is not a falsely self-signed one; lists
of revoked certificates are not looked at. -/
theorem C96_skipVerify {L : Library} (hL : L.Lawful) (leaf : Cert) (peer : List Cert) (usages : List Nat) (host : String)
    (st : Stores) (f : Flags) (now : Nat) (hf : f.chain = true) (ht : f.time = true) (hh : f.host = true ∨ host = "")
    (hper : leaf.notBefore ≤ leaf.notAfter) (husage : ∃ u ∈ leaf.ekus, u ∈ usagesOr usages) :
    verdict L (leaf :: peer) usages host st f now = none ↔ (leaf.issuer = leaf.subject → leaf.signer = leaf.key) := by
  have hv : L.verify (options leaf peer (usagesOr usages) host st f now) leaf = .ok [[leaf]] := by
    refine hL.found _ _ ?_ ?_ ?_ ?_
    · simp [options, hf]
    · simp only [options, ht, if_true]; exact ⟨Nat.le_refl _, hper⟩
    · simp only [options]
      rcases hh with hh | hh
      · simp [hh]
      · simp [hh]
    · exact husage
  unfold verdict
  dsimp only
  rw [hv, checkChains_none (Or.inl (by simp))]
  constructor
  · rintro ⟨ch, hm, hc⟩
    simp only [List.mem_singleton] at hm
    subst hm
    exact (checkMember_none.1 ((checkChain_none true _).1 hc 0 leaf rfl)).1
  · intro hsig
    refine ⟨[leaf], List.mem_cons_self, (checkChain_none true _).2 fun i c hi => ?_⟩
    cases i with
    | succ i => simp at hi
    | zero =>
      simp only [List.getElem?_cons_zero, Option.some.injEq] at hi
      subst hi
      refine checkMember_none.2 ⟨hsig, ⟨leaf, List.mem_cons_self, ?_⟩, fun _ => husage, by simp, rfl⟩
      simp [trustedOf, hf]

/-- **C96 (the option).** With WithInsecureSkipVerify a client connects to a server with any certificate that was made for
servers, whatever its host, its period and its issuer, and a server opens channels for any certificate made for
clients; only a certificate that names itself as issuer has to be signed by its own key. -/
theorem C96_skipOpen {L : Library} (hL : L.Lawful) (leaf : Cert) (peer : List Cert) (host : String) (st : Stores)
    (now : Nat) (hper : leaf.notBefore ≤ leaf.notAfter) (hself : leaf.issuer = leaf.subject → leaf.signer = leaf.key) :
    (1 ∈ leaf.ekus → clientOpens L (some (some (leaf :: peer))) host st skipClient now = none) ∧
    (2 ∈ leaf.ekus → ∀ mode, serverOpens L mode (some (leaf :: peer)) st skipServer now = none) := by
  refine ⟨fun h => ?_, fun h mode => ?_⟩
  · exact (C96_skipVerify hL leaf peer [serverAuth] host st skipClient now rfl rfl (.inl rfl) hper
      ⟨1, h, by simp [usagesOr]⟩).2 hself
  · unfold serverOpens
    split
    · exact (C96_skipVerify hL leaf peer [clientAuth] "" st skipServer now rfl rfl (.inr rfl) hper
        ⟨2, h, by simp [usagesOr]⟩).2 hself
    · rfl

/-- The certificate is filed as rejected exactly when it is rejected and a directory is named. -/
theorem C96_rejected (L : Library) (leaf : Cert) (peer : List Cert) (usages : List Nat) (host : String)
    (st : Stores) (f : Flags) (now : Nat) (c : Cert) :
    rejectedFile L (leaf :: peer) usages host st f now = some c ↔
      c = leaf ∧ st.rejected = true ∧ verdict L (leaf :: peer) usages host st f now ≠ none := by
  unfold rejectedFile
  cases h : verdict L (leaf :: peer) usages host st f now with
  | none => simp
  | some e =>
    cases hr : st.rejected
    · simp
    · simp [eq_comm]

theorem checkMember_quiet {whole isLeaf c rest trusted usages crls suppress now e}
    (h : checkMember whole isLeaf c rest trusted usages crls suppress now = some e) :
    e ≠ .badCertificateRevoked ∧ e ≠ .badCertificateIssuerRevoked ∧ e ≠ .badCertificateHostNameInvalid
      ∧ e ≠ .badCertificateTimeInvalid ∧ e ≠ .raw := by
  unfold checkMember at h
  repeat' split at h
  · injection h with h; subst h; decide
  · injection h with h; subst h; decide
  · injection h with h; subst h; decide
  · injection h with h; subst h; decide
  · unfold checkRevocation at h
    split at h
    · split at h
      · cases isLeaf <;> (injection h with h; subst h; decide)
      · cases h
      · split at h
        · cases h
        · cases isLeaf <;> (injection h with h; subst h; decide)
    · cases h

theorem checkChain_quiet {whole trusted usages crls suppress now} (isLeaf : Bool) (chain : List Cert) (e : Status)
    (h : checkChain whole trusted usages crls suppress now isLeaf chain = some e) :
    e ≠ .badCertificateRevoked ∧ e ≠ .badCertificateIssuerRevoked ∧ e ≠ .badCertificateHostNameInvalid
      ∧ e ≠ .badCertificateTimeInvalid ∧ e ≠ .raw := by
  induction chain generalizing isLeaf with
  | nil => cases h
  | cons c rest ih =>
    unfold checkChain at h
    split at h
    · rename_i hm
      injection h with h
      subst h
      exact checkMember_quiet hm
    · exact ih _ h

theorem checkChains_quiet {trusted usages crls suppress now} (chains : List (List Cert)) (e0 : Option Status) (e : Status)
    (h0 : ∀ x, e0 = some x → x ≠ .badCertificateRevoked ∧ x ≠ .badCertificateIssuerRevoked
      ∧ x ≠ .badCertificateHostNameInvalid ∧ x ≠ .badCertificateTimeInvalid ∧ x ≠ .raw)
    (h : checkChains trusted usages crls suppress now e0 chains = some e) :
    e ≠ .badCertificateRevoked ∧ e ≠ .badCertificateIssuerRevoked ∧ e ≠ .badCertificateHostNameInvalid
      ∧ e ≠ .badCertificateTimeInvalid ∧ e ≠ .raw := by
  induction chains generalizing e0 with
  | nil => exact h0 e h
  | cons ch rest ih =>
    unfold checkChains at h
    split at h
    · cases h
    · rename_i e1 hm
      exact ih (some e1) (fun x hx => by injection hx with hx; subst hx; exact checkChain_quiet _ _ _ hm) h

/-- What the other side is told. It never learns that a certificate was revoked; it is told of a wrong host or a wrong
time only if the library found that, and of a wrong time only if the certificate is otherwise in order. -/
theorem C96_status (L : Library) (leaf : Cert) (peer : List Cert) (usages : List Nat) (host : String)
    (st : Stores) (f : Flags) (now : Nat) (e : Status) (h : verdict L (leaf :: peer) usages host st f now = some e) :
    e ≠ .badCertificateRevoked ∧ e ≠ .badCertificateIssuerRevoked ∧
    (e = .badCertificateHostNameInvalid ↔
      L.verify (options leaf peer (usagesOr usages) host st f now) leaf = .error .hostname) ∧
    (e = .badCertificateTimeInvalid ↔
      L.verify (options leaf peer (usagesOr usages) host st f now) leaf = .error .expired ∧
      ∃ chains, L.verify { options leaf peer (usagesOr usages) host st f now with time := leaf.notBefore } leaf = .ok chains) := by
  unfold verdict at h
  dsimp only at h
  cases hv : L.verify (options leaf peer (usagesOr usages) host st f now) leaf with
  | ok chains =>
    rw [hv] at h
    obtain ⟨h1, h2, h3, h4, _⟩ := checkChains_quiet _ _ _ (fun x hx => by cases hx) h
    exact ⟨h1, h2, by simp [h3], by simp [h4]⟩
  | error x =>
    rw [hv] at h
    simp only [Option.some.injEq] at h
    cases x with
    | expired =>
      simp only [mapError] at h
      cases hv2 : L.verify { options leaf peer (usagesOr usages) host st f now with time := leaf.notBefore } leaf with
      | ok chains => rw [hv2] at h; subst h; simp
      | error _ => rw [hv2] at h; subst h; simp
    | incompatibleUsage => simp only [mapError] at h; subst h; simp
    | invalid => simp only [mapError] at h; subst h; simp
    | hostname => simp only [mapError] at h; subst h; simp
    | unknownAuthority => simp only [mapError] at h; subst h; simp
    | other => simp only [mapError] at h; subst h; simp

/-- The two callers: a server opens a channel that signs or encrypts only for a client whose certificate is trusted and
made for clients (usage 2, `ExtKeyUsageClientAuth`); a client connects to a server with a certificate only if it is trusted, made for servers (usage 1) and for
this host. -/
theorem C96_open {L : Library} (hL : L.Lawful) (st : Stores) (now : Nat) :
    (∀ mode certs, mode = .sign ∨ mode = .signAndEncrypt → serverOpens L mode certs st strict now = none →
      ∃ leaf peer t, certs = some (leaf :: peer) ∧ Holds st.trusted t ∧ Descends leaf t ∧ 2 ∈ leaf.ekus ∧
        ValidAt now leaf) ∧
    (∀ certs host, host ≠ "" → clientOpens L (some certs) host st strict now = none →
      ∃ leaf peer t, certs = some (leaf :: peer) ∧ Holds st.trusted t ∧ Descends leaf t ∧ 1 ∈ leaf.ekus ∧
        ValidAt now leaf ∧ host ∈ leaf.hosts) := by
  have key : ∀ leaf peer u host, verdict L (leaf :: peer) [u] host st strict now = none →
      (∃ t, Holds st.trusted t ∧ Descends leaf t) ∧ u ∈ leaf.ekus ∧ ValidAt now leaf := by
    intro leaf peer u host h
    obtain ⟨chain, hs, hval⟩ := C96_chain hL (show strict.chain = false from rfl) h
    refine ⟨C96_trusted hL rfl h, ?_, hval rfl leaf ?_⟩
    · obtain ⟨v, hv, hv'⟩ := hs.usage
      simp [usagesOr] at hv'
      exact hv' ▸ hv
    · have := hs.head
      cases chain with
      | nil => cases this
      | cons c rest => simp only [List.head?_cons, Option.some.injEq] at this; subst this; exact List.mem_cons_self
  refine ⟨fun mode certs hmode h => ?_, fun certs host hne h => ?_⟩
  · unfold serverOpens at h
    rw [if_pos hmode] at h
    cases certs with
    | none => cases h
    | some cs =>
      dsimp only at h
      cases cs with
      | nil => cases h
      | cons leaf peer =>
        obtain ⟨⟨t, h1, h2⟩, h3, h4⟩ := key leaf peer _ _ h
        exact ⟨leaf, peer, t, rfl, h1, h2, h3, h4⟩
  · unfold clientOpens at h
    cases certs with
    | none => cases h
    | some cs =>
      cases cs with
      | nil => cases h
      | cons leaf peer =>
        obtain ⟨⟨t, h1, h2⟩, h3, h4⟩ := key leaf peer _ _ h
        exact ⟨leaf, peer, t, rfl, h1, h2, h3, h4, (C96_host hL h).1 rfl hne⟩

/-! A library that keeps the contract, and the cases. -/

instance (c p : Cert) : Decidable (Issued c p) := by unfold Issued; exact inferInstance
instance (t : Nat) (c : Cert) : Decidable (ValidAt t c) := by unfold ValidAt; exact inferInstance

/-- Chains of at most `n` members. -/
def grow (o : VerifyOpts) : Nat → Cert → List (List Cert)
  | 0, _ => []
  | n + 1, c =>
    if ValidAt o.time c then
      if c ∈ o.roots then [[c]]
      else ((o.intermediates ++ o.roots).filter (fun p => decide (Issued c p))).flatMap
        (fun p => (grow o n p).map (c :: ·))
    else []

def toy : Library where
  verify o c :=
    if ¬ ValidAt o.time c then .error .expired
    else if o.host ≠ "" ∧ o.host ∉ c.hosts then .error .hostname
    else if grow o 8 c = [] then .error .unknownAuthority
    else .ok (grow o 8 c)

theorem grow_spec (o : VerifyOpts) (n : Nat) (c : Cert) (ch : List Cert) (h : ch ∈ grow o n c) :
    ch.head? = some c ∧ Linked ch ∧ (∃ r ∈ o.roots, ch.getLast? = some r) ∧ ∀ m ∈ ch, ValidAt o.time m := by
  induction n generalizing c ch with
  | zero => cases h
  | succ n ih =>
    unfold grow at h
    split at h
    · rename_i hval
      split at h
      · rename_i hroot
        simp only [List.mem_singleton] at h
        subst h
        exact ⟨rfl, trivial, ⟨c, hroot, rfl⟩, fun m hm => by simp only [List.mem_singleton] at hm; exact hm ▸ hval⟩
      · simp only [List.mem_flatMap, List.mem_filter, decide_eq_true_eq, List.mem_map] at h
        obtain ⟨p, ⟨_, hiss⟩, ch', hch', rfl⟩ := h
        obtain ⟨h1, h2, ⟨r, h3, h4⟩, h5⟩ := ih p ch' hch'
        cases ch' with
        | nil => cases h1
        | cons d rest =>
          simp only [List.head?_cons, Option.some.injEq] at h1
          subst h1
          refine ⟨rfl, ⟨hiss, h2⟩, ⟨r, h3, by simpa using h4⟩, ?_⟩
          intro m hm
          rcases List.mem_cons.1 hm with rfl | hm
          · exact hval
          · exact h5 m hm
    · cases h

theorem toy_ok {o : VerifyOpts} {c : Cert} {chains : List (List Cert)} (h : toy.verify o c = .ok chains) :
    chains = grow o 8 c ∧ chains ≠ [] ∧ (o.host ≠ "" → o.host ∈ c.hosts) := by
  unfold toy at h
  dsimp only at h
  split at h
  · cases h
  · split at h
    · cases h
    · rename_i hh
      split at h
      · cases h
      · rename_i hg
        cases h
        refine ⟨rfl, hg, fun hne => ?_⟩
        apply Classical.byContradiction
        exact fun hn => hh ⟨hne, hn⟩

theorem toy_lawful : toy.Lawful where
  head o c chains h ch hm := (grow_spec o 8 c ch ((toy_ok h).1 ▸ hm)).1
  nonempty o c chains h := (toy_ok h).2.1
  linked o c chains h ch hm := (grow_spec o 8 c ch ((toy_ok h).1 ▸ hm)).2.1
  root o c chains h ch hm := (grow_spec o 8 c ch ((toy_ok h).1 ▸ hm)).2.2.1
  time o c chains h ch hm := (grow_spec o 8 c ch ((toy_ok h).1 ▸ hm)).2.2.2
  host o c chains h := (toy_ok h).2.2
  found o c hr hv hh _ := by
    have hg : grow o 8 c = [[c]] := by
      show grow o (7 + 1) c = _
      unfold grow
      rw [if_pos hv, if_pos hr]
    unfold toy
    dsimp only
    rw [if_neg (by simpa using hv), if_neg (by rintro ⟨h1, h2⟩; rcases hh with h | h; exact h1 h; exact h2 h), hg]
    rfl

/-- A root, an authority under it, and an application. -/
def caRoot : Cert := ⟨"root", "root", 1, 1, 1, 0, 100, true, true, true, [], [], []⟩
def caMid : Cert := ⟨"mid", "root", 2, 1, 2, 0, 100, true, true, true, [], [], []⟩
def app : Cert := ⟨"app", "mid", 3, 2, 7, 10, 90, false, false, false, [serverAuth, clientAuth], ["plant"], ["urn:app"]⟩
/-- An application that issued its certificate itself. -/
def ownApp : Cert := ⟨"own", "own", 4, 4, 9, 10, 90, false, false, false, [serverAuth, clientAuth], ["plant"], ["urn:own"]⟩

/-- Trusts the authority `mid`, knows the root and empty lists of both. -/
def stores : Stores := ⟨[some [caMid]], [some [⟨2, 60, []⟩]], [some [caRoot]], [some [⟨1, 60, []⟩]], true⟩

example : verdict toy [app] [] "plant" stores strict 50 = none := by decide +kernel
example : verdict toy [app, caRoot] [] "plant" { stores with issuers := [none] } strict 50 = none := by decide +kernel
example : verdict toy [ownApp] [clientAuth] "" { stores with trusted := [some [ownApp]] } strict 50 = none := by
  decide +kernel
example : verdict toy [ownApp] [clientAuth] "" stores strict 50 = some .badSecurityChecksFailed := by decide +kernel
example : verdict toy [app] [] "plant" stores strict 95 = some .badCertificateTimeInvalid := by decide +kernel
example : verdict toy [app] [] "other" stores strict 50 = some .badCertificateHostNameInvalid := by decide +kernel
example : verdict toy [app] [9] "" stores strict 50 = some .badCertificateUseNotAllowed := by decide +kernel
example : verdict toy [app] [] "" { stores with trustedCrls := [] } strict 50 =
    some .badCertificateRevocationUnknown := by decide +kernel
example : verdict toy [app] [] "" { stores with issuerCrls := [] } strict 50 =
    some .badCertificateIssuerRevocationUnknown := by decide +kernel
example : verdict toy [app] [] "" { stores with trustedCrls := [some [⟨2, 60, [7]⟩]] } strict 50 =
    some .badSecurityChecksFailed := by decide +kernel
example : rejectedFile toy [app] [] "" { stores with trustedCrls := [] } strict 50 = some app := by decide +kernel
example : verdict toy [ownApp] [] "x" stores skipClient 500 = none := by decide +kernel
example : clientOpens toy (some (some [ownApp])) "x" stores skipClient 500 = none ∧
    serverOpens toy .sign (some [ownApp]) stores skipServer 500 = none ∧
    serverOpens toy .sign (some [ownApp]) stores strict 50 ≠ none := by decide +kernel
example : serverOpens toy .sign (some [app]) stores strict 50 = none := by decide +kernel
example : clientOpens toy (some (some [app])) "plant" stores strict 50 = none := by decide +kernel

/-- The claim is false for revocation: the newer of two lists in force of the issuer names the certificate, and it is
accepted, since only the first list is looked at. -/
theorem C96_lists_fails :
    ∃ (L : Library) (_ : L.Lawful) (leaf issuer : Cert) (st : Stores) (now : Nat),
      verdict L [leaf] [clientAuth] "" st strict now = none ∧ Issued leaf issuer ∧ Revoked st now leaf issuer ∧
      ∀ p, Issued leaf p → (Holds st.trusted p ∨ Holds st.issuers p) → p = issuer :=
  ⟨toy, toy_lawful, app, caMid, { stores with trustedCrls := [some [⟨2, 55, []⟩], some [⟨2, 60, [7]⟩]] }, 50,
    by decide +kernel, by decide, ⟨⟨2, 60, [7]⟩, .inl ⟨[⟨2, 60, [7]⟩], by decide, by decide⟩, ⟨by decide, by decide, by decide⟩, by decide⟩, by
      intro p hp hin
      rcases hin with ⟨xs, h1, h2⟩ | ⟨xs, h1, h2⟩
      · simp only [stores, List.mem_singleton, Option.some.injEq] at h1
        subst h1
        simpa using h2
      · simp only [stores, List.mem_singleton, Option.some.injEq] at h1
        subst h1
        simp only [List.mem_singleton] at h2
        subst h2
        exact absurd hp (by decide)⟩

/-! C97 -/

/-- What holds: on a channel of a policy other than None, the application URI of a session is one of the certificate in
the request; it is one of the channel's certificate if the request carries that. -/
theorem C97_uri_partial (ch : ServerChan) (r : CreateReq) (uri : String) (hp : ch.policy ≠ .none)
    (h : createSession ch r = .created uri) :
    uri = r.applicationURI ∧ uri ≠ "" ∧ (∃ c rest, r.certs = some (c :: rest) ∧ uri ∈ c.uris) ∧
      ∀ own rest, ch.remote = some own → r.certs = some (own :: rest) → uri ∈ own.uris := by
  unfold createSession at h
  split at h
  · cases h
  · split at h
    · cases h
    · rename_i hu
      split at h
      · cases h
      · cases h
        have hu' : uriValid r = true := by simpa using hu
        unfold uriValid at hu'
        simp only [Bool.and_eq_true, decide_eq_true_eq] at hu'
        obtain ⟨h1, h2⟩ := hu'
        split at h2
        · rename_i c rest hc
          have hmem : r.applicationURI ∈ c.uris := by simpa using h2
          refine ⟨rfl, h1, ⟨c, rest, hc, hmem⟩, ?_⟩
          intro own rest' _ hr
          rw [hc] at hr
          cases hr
          exact hmem
        · cases h2

example : createSession ⟨.basic256Sha256, false, some app⟩ ⟨"urn:app", some [app], 32⟩ = .created "urn:app" := by
  decide +kernel
example : createSession ⟨.basic256Sha256, false, some app⟩ ⟨"urn:own", some [app], 32⟩ = .badCertificateURIInvalid := by
  decide +kernel

/-- The claim is false: a client on a channel with its own certificate creates a session in the name of any other
application whose certificate it knows; the two certificates are not compared. -/
theorem C97_other_fails (policy : Endpoint.Policy) (hp : policy ≠ .none) (own victim : Cert) (uri : String) (hu : uri ∈ victim.uris)
    (hne : uri ≠ "") :
    createSession ⟨policy, false, some own⟩ ⟨uri, some [victim], 32⟩ = .created uri := by
  unfold createSession
  have : uriValid ⟨uri, some [victim], 32⟩ = true := by simp [uriValid, hne, hu]
  simp [hp, this]

example : createSession ⟨.basic256Sha256, false, some ownApp⟩ ⟨"urn:app", some [app], 32⟩ = .created "urn:app" ∧
    "urn:app" ∉ ownApp.uris := by decide +kernel

/-- And without security any name is taken. -/
theorem C97_none_fails (uri : String) (certs : Option (List Cert)) (n : Nat) :
    createSession ⟨.none, false, none⟩ ⟨uri, certs, n⟩ = .created uri := rfl

end Opcua.Certificate
