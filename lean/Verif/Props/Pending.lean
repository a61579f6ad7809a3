import Verif.Model.Pending
import Verif.Props.Counter

/-! Properties C35 and C78. -/
namespace Opcua.Pending
open Opcua.Channel (nextSeq seqFrom)
open Opcua.Counter (after seqFrom_snoc after_succ C26_distinct seqFrom_length)

@[simp] theorem setAt_same {α β : Type} [DecidableEq α] (f : α → β) (a : α) (b : β) : setAt f a b a = b := by
  simp [setAt]

theorem setAt_other {α β : Type} [DecidableEq α] (f : α → β) {a x : α} (b : β) (h : x ≠ a) : setAt f a b x = f x := by
  simp [setAt, h]

/-- An operation the channel still holds for caller `c` under handle `h`. -/
def Held (s : State) (h : BitVec 32) (c : Nat) : Prop := (h, c) ∈ s.queue ∨ s.pend h = some c

/-- The handle a caller in mid-call carries. -/
def Phase.handle : Phase → Option (BitVec 32)
  | .drawn h _ => some h
  | .sending h _ => some h
  | .waiting h _ => some h
  | _ => none

structure Inv (v0 : BitVec 32) (s : State) : Prop where
  seq : s.starts.map Prod.snd = seqFrom v0 s.starts.length
  val : s.val = after v0 s.starts.length
  started : ∀ c, s.phase c = .idle ↔ c ∉ s.starts.map Prod.fst
  callers : (s.starts.map Prod.fst).Nodup
  carries : ∀ c h, (s.phase c).handle = some h → (c, h) ∈ s.starts
  notYet : ∀ c h d, s.phase c = .drawn h d → c ∉ s.enq
  enqStarted : ∀ c, c ∈ s.enq → c ∈ s.starts.map Prod.fst
  held : ∀ h c, Held s h c → (c, h) ∈ s.starts ∧ c ∈ s.enq ∧ c ∉ s.log.map Prod.fst
  queueNodup : (s.queue.map Prod.snd).Nodup
  queuePend : ∀ h c, (h, c) ∈ s.queue → ∀ h', s.pend h' ≠ some c
  logOk : ∀ c r, (c, r) ∈ s.log → (c, r.handle) ∈ s.starts ∧ c ∈ s.enq
  logNodup : (s.log.map Prod.fst).Nodup
  boxLog : ∀ c r, s.box c = some r → (c, r) ∈ s.log
  doneLog : ∀ c r, s.phase c = .done (.response r) → (c, r) ∈ s.log
  /-- the conclusion about losses needs handles not to repeat -/
  unanswered : s.starts.length ≤ 2 ^ 32 - 1 → ∀ c h, (c, h) ∈ s.starts → c ∈ s.enq → c ∉ s.log.map Prod.fst → Held s h c

theorem inv_init (v : BitVec 32) : Inv v (init v) where
  seq := rfl
  val := rfl
  started c := by simp [init]
  callers := by simp [init]
  carries c h e := by simp [init, Phase.handle] at e
  notYet c h d e := by simp [init] at e
  enqStarted c h := by simp [init] at h
  held h c e := by simp [Held, init] at e
  queueNodup := by simp [init]
  queuePend h c e := by simp [init] at e
  logOk c r e := by simp [init] at e
  logNodup := by simp [init]
  boxLog c r e := by simp [init] at e
  doneLog c r e := by simp [init] at e
  unanswered _ c h e := by simp [init] at e

theorem mapPending_spec : ∀ (q : List (BitVec 32 × Nat)) (pend : BitVec 32 → Option Nat) (h : BitVec 32) (c : Nat),
    mapPending pend q h = some c → (h, c) ∈ q ∨ pend h = some c := by
  intro q
  induction q with
  | nil => intro pend h c e; exact Or.inr e
  | cons x q ih =>
    obtain ⟨h', c'⟩ := x
    intro pend h c e
    rcases ih _ h c e with e | e
    · exact Or.inl (List.mem_cons_of_mem _ e)
    · by_cases hh : h = h'
      · subst hh; rw [setAt_same] at e; cases e; exact Or.inl List.mem_cons_self
      · rw [setAt_other _ _ hh] at e; exact Or.inr e

theorem mapPending_keep : ∀ (q : List (BitVec 32 × Nat)) (pend : BitVec 32 → Option Nat) (h : BitVec 32) (c : Nat),
    (∀ c', (h, c') ∈ q → c' = c) → ((h, c) ∈ q ∨ pend h = some c) → mapPending pend q h = some c := by
  intro q
  induction q with
  | nil =>
    intro pend h c _ e
    rcases e with e | e
    · cases e
    · exact e
  | cons x q ih =>
    obtain ⟨h', c'⟩ := x
    intro pend h c hu e
    refine ih _ h c (fun c'' hc => hu c'' (List.mem_cons_of_mem _ hc)) ?_
    rcases e with e | e
    · rcases List.mem_cons.1 e with e | e
      · cases e; exact Or.inr (setAt_same _ _ _)
      · exact Or.inl e
    · by_cases hh : h = h'
      · subst hh
        have := hu c' List.mem_cons_self
        subst this
        exact Or.inr (setAt_same _ _ _)
      · exact Or.inr (by rw [setAt_other _ _ hh]; exact e)

/-- With fewer than 2^32 draws a handle belongs to one caller. -/
theorem Inv.unique {v0 s} (I : Inv v0 s) (hn : s.starts.length ≤ 2 ^ 32 - 1) {c c' : Nat} {h : BitVec 32}
    (h1 : (c, h) ∈ s.starts) (h2 : (c', h) ∈ s.starts) : c = c' := by
  have hd := C26_distinct v0 s.starts.length hn
  rw [← I.seq] at hd
  clear I hn
  generalize s.starts = l at *
  induction l with
  | nil => cases h1
  | cons x l ih =>
    rw [List.map_cons, List.nodup_cons] at hd
    rcases List.mem_cons.1 h1 with e1 | e1 <;> rcases List.mem_cons.1 h2 with e2 | e2
    · rw [← e1] at e2; exact (congrArg Prod.fst e2).symm
    · subst e1; exact absurd (List.mem_map_of_mem (f := Prod.snd) e2) hd.1
    · subst e2; exact absurd (List.mem_map_of_mem (f := Prod.snd) e1) hd.1
    · exact ih e1 e2 hd.2

/-- A caller has one handle. -/
theorem Inv.one_handle {v0 s} (I : Inv v0 s) {c : Nat} {h h' : BitVec 32}
    (h1 : (c, h) ∈ s.starts) (h2 : (c, h') ∈ s.starts) : h = h' := by
  have hd := I.callers
  clear I
  generalize s.starts = l at *
  induction l with
  | nil => cases h1
  | cons x l ih =>
    rw [List.map_cons, List.nodup_cons] at hd
    rcases List.mem_cons.1 h1 with e1 | e1 <;> rcases List.mem_cons.1 h2 with e2 | e2
    · rw [← e1] at e2; exact (congrArg Prod.snd e2).symm
    · subst e1; exact absurd (List.mem_map_of_mem (f := Prod.fst) e2) hd.1
    · subst e2; exact absurd (List.mem_map_of_mem (f := Prod.fst) e1) hd.1
    · exact ih e1 e2 hd.2

/-- The map after mapPendingResponses holds exactly the held operations, as long as handles do not
repeat. -/
theorem Inv.mapped {v0 s} (I : Inv v0 s) (hn : s.starts.length ≤ 2 ^ 32 - 1) (h : BitVec 32) (c : Nat) :
    mapPending s.pend s.queue h = some c ↔ Held s h c := by
  constructor
  · exact mapPending_spec _ _ _ _
  · intro e
    refine mapPending_keep _ _ _ _ (fun c' hc => ?_) e
    exact I.unique hn (I.held h c' (Or.inl hc)).1 (I.held h c e).1

theorem inv_receive {v0 s} (I : Inv v0 s) (r : Resp) : Inv v0 (handleResponse s r) := by
  have hp : ∀ h c, mapPending s.pend s.queue h = some c → Held s h c := fun h c => mapPending_spec _ _ _ _
  unfold handleResponse
  dsimp only
  split
  · exact {
      seq := I.seq, val := I.val, started := I.started, callers := I.callers, carries := I.carries
      notYet := I.notYet, enqStarted := I.enqStarted
      held := fun h c e => by
        rcases e with e | e
        · cases e
        · exact I.held h c (hp h c e)
      queueNodup := List.nodup_nil
      queuePend := fun h c e => by cases e
      logOk := I.logOk, logNodup := I.logNodup, boxLog := I.boxLog, doneLog := I.doneLog
      unanswered := fun hn c h e1 e2 e3 => Or.inr ((I.mapped hn h c).2 (I.unanswered hn c h e1 e2 e3)) }
  · rename_i c hc
    have hheld := hp _ _ hc
    obtain ⟨k1, k2, k3⟩ := I.held _ _ hheld
    -- removing the entry
    have hsub : ∀ h c', setAt (mapPending s.pend s.queue) r.handle none h = some c' → h ≠ r.handle ∧ Held s h c' := by
      intro h c' e
      by_cases hh : h = r.handle
      · subst hh; rw [setAt_same] at e; cases e
      · rw [setAt_other _ _ hh] at e; exact ⟨hh, hp _ _ e⟩
    split
    · rename_i hbox
      exact {
        seq := I.seq, val := I.val, started := I.started, callers := I.callers, carries := I.carries
        notYet := I.notYet, enqStarted := I.enqStarted
        held := fun h c' e => by
          rcases e with e | e
          · cases e
          · obtain ⟨hne, hh⟩ := hsub h c' e
            obtain ⟨j1, j2, j3⟩ := I.held _ _ hh
            refine ⟨j1, j2, ?_⟩
            rw [List.map_append, List.mem_append, not_or]
            refine ⟨j3, ?_⟩
            intro hm
            simp at hm
            subst hm
            exact hne (I.one_handle j1 k1)
        queueNodup := List.nodup_nil
        queuePend := fun h c e => by cases e
        logOk := fun c' r' e => by
          rcases List.mem_append.1 e with e | e
          · exact I.logOk _ _ e
          · simp at e; obtain ⟨e1, e2⟩ := e; subst e1; subst e2; exact ⟨k1, k2⟩
        logNodup := by
          rw [List.map_append, List.nodup_append]
          exact ⟨I.logNodup, by simp, fun a ha b hb e => by simp at hb; subst hb; subst e; exact k3 ha⟩
        boxLog := fun c' r' e => by
          dsimp only at e
          by_cases hh : c' = c
          · subst hh; rw [setAt_same] at e; cases e; exact List.mem_append_right _ List.mem_cons_self
          · rw [setAt_other _ _ hh] at e; exact List.mem_append_left _ (I.boxLog _ _ e)
        doneLog := fun c' r' e => List.mem_append_left _ (I.doneLog _ _ e)
        unanswered := fun hn c' h e1 e2 e3 => by
          dsimp only at e3
          rw [List.map_append, List.mem_append, not_or] at e3
          have hh := I.unanswered hn c' h e1 e2 e3.1
          refine Or.inr ?_
          have hne : h ≠ r.handle := by
            intro e; subst e
            have := I.unique hn k1 e1
            exact e3.2 (by simp [this])
          show setAt _ _ _ _ = _
          rw [setAt_other _ _ hne]
          exact (I.mapped hn h c').2 hh }
    · rename_i r' hbox
      exact absurd (List.mem_map_of_mem (f := Prod.fst) (I.boxLog _ _ hbox)) k3

theorem inv_step {v0 s} (I : Inv v0 s) (e : Ev) : Inv v0 (step s e) := by
  cases e with
  | tick d =>
    exact ⟨I.seq, I.val, I.started, I.callers, I.carries, I.notYet, I.enqStarted, I.held, I.queueNodup, I.queuePend,
      I.logOk, I.logNodup, I.boxLog, I.doneLog, I.unanswered⟩
  | close =>
    exact ⟨I.seq, I.val, I.started, I.callers, I.carries, I.notYet, I.enqStarted, I.held, I.queueNodup, I.queuePend,
      I.logOk, I.logNodup, I.boxLog, I.doneLog, I.unanswered⟩
  | start c hint =>
    unfold step
    dsimp only
    split
    · rename_i hid
      have hns := (I.started c).1 hid
      exact {
        seq := by
          show (s.starts ++ [(c, nextSeq s.val)]).map Prod.snd = seqFrom v0 (s.starts ++ [(c, nextSeq s.val)]).length
          rw [List.length_append, List.length_singleton, seqFrom_snoc, List.map_append, I.seq, I.val]; rfl
        val := by
          show nextSeq s.val = after v0 (s.starts ++ [(c, nextSeq s.val)]).length
          rw [List.length_append, List.length_singleton, after_succ, I.val]
        started := fun c' => by
          show setAt _ _ _ c' = _ ↔ c' ∉ (s.starts ++ [(c, nextSeq s.val)]).map Prod.fst
          rw [List.map_append, List.mem_append, not_or]
          by_cases hh : c' = c
          · subst hh; rw [setAt_same]; simp
          · rw [setAt_other _ _ hh, I.started]; simp [hh]
        callers := by
          show ((s.starts ++ [(c, nextSeq s.val)]).map Prod.fst).Nodup
          rw [List.map_append, List.nodup_append]
          exact ⟨I.callers, by simp, fun a ha b hb e => by simp at hb; subst hb; subst e; exact hns ha⟩
        carries := fun c' h e => by
          dsimp only at e
          by_cases hh : c' = c
          · subst hh; rw [setAt_same] at e; cases e; exact List.mem_append_right _ List.mem_cons_self
          · rw [setAt_other _ _ hh] at e; exact List.mem_append_left _ (I.carries _ _ e)
        notYet := fun c' h d e => by
          dsimp only at e
          by_cases hh : c' = c
          · subst hh; exact fun hc => hns (I.enqStarted _ hc)
          · rw [setAt_other _ _ hh] at e; exact I.notYet _ _ _ e
        enqStarted := fun c' hc => by
          show c' ∈ (s.starts ++ [_]).map Prod.fst
          rw [List.map_append]; exact List.mem_append_left _ (I.enqStarted _ hc)
        held := fun h c' e => by
          obtain ⟨j1, j2⟩ := I.held h c' e
          exact ⟨List.mem_append_left _ j1, j2⟩
        queueNodup := I.queueNodup, queuePend := I.queuePend
        logOk := fun c' r e => ⟨List.mem_append_left _ (I.logOk _ _ e).1, (I.logOk _ _ e).2⟩
        logNodup := I.logNodup, boxLog := I.boxLog
        doneLog := fun c' r e => by
          dsimp only at e
          by_cases hh : c' = c
          · subst hh; rw [setAt_same] at e; cases e
          · rw [setAt_other _ _ hh] at e; exact I.doneLog _ _ e
        unanswered := fun hn c' h e1 e2 e3 => by
          have hn' : s.starts.length ≤ 2 ^ 32 - 1 := by
            have : (s.starts ++ [(c, nextSeq s.val)]).length = s.starts.length + 1 := by simp
            change (s.starts ++ [(c, nextSeq s.val)]).length ≤ _ at hn
            omega
          rcases List.mem_append.1 e1 with e1 | e1
          · exact I.unanswered hn' c' h e1 e2 e3
          · simp at e1
            exact absurd (I.enqStarted _ (e1.1 ▸ e2)) hns }
    · exact I
  | enqueue c =>
    unfold step
    dsimp only
    split
    · rename_i h d hph
      split
      · have hst := I.carries c h (by rw [hph]; rfl)
        have hne := I.notYet c h d hph
        exact {
          seq := I.seq, val := I.val, callers := I.callers
          started := fun c' => by
            show setAt _ _ _ c' = _ ↔ _
            by_cases hh : c' = c
            · subst hh; rw [setAt_same]
              simp only [reduceCtorEq, false_iff, Classical.not_not]
              exact List.mem_map_of_mem (f := Prod.fst) hst
            · rw [setAt_other _ _ hh]; exact I.started c'
          carries := fun c' h' e => by
            dsimp only at e
            by_cases hh : c' = c
            · subst hh; rw [setAt_same] at e; cases e; exact hst
            · rw [setAt_other _ _ hh] at e; exact I.carries _ _ e
          notYet := fun c' h' d' e => by
            dsimp only at e
            by_cases hh : c' = c
            · subst hh; rw [setAt_same] at e; cases e
            · rw [setAt_other _ _ hh] at e
              show c' ∉ s.enq ++ [c]
              rw [List.mem_append, not_or]
              exact ⟨I.notYet _ _ _ e, by simpa using hh⟩
          enqStarted := fun c' hc => by
            rcases List.mem_append.1 hc with hc | hc
            · exact I.enqStarted _ hc
            · simp at hc; subst hc; exact List.mem_map_of_mem (f := Prod.fst) hst
          held := fun h' c' e => by
            rcases e with e | e
            · rcases List.mem_append.1 e with e | e
              · obtain ⟨j1, j2, j3⟩ := I.held h' c' (Or.inl e)
                exact ⟨j1, List.mem_append_left _ j2, j3⟩
              · simp at e
                obtain ⟨e1, e2⟩ := e
                subst e1; subst e2
                refine ⟨hst, List.mem_append_right _ List.mem_cons_self, fun hm => ?_⟩
                obtain ⟨⟨x, r⟩, hx, hx2⟩ := List.mem_map.1 hm
                dsimp only at hx2
                subst hx2
                exact hne (I.logOk _ _ hx).2
            · obtain ⟨j1, j2, j3⟩ := I.held h' c' (Or.inr e)
              exact ⟨j1, List.mem_append_left _ j2, j3⟩
          queueNodup := by
            show ((s.queue ++ [(h, c)]).map Prod.snd).Nodup
            rw [List.map_append, List.nodup_append]
            refine ⟨I.queueNodup, by simp, fun a ha b hb e => ?_⟩
            simp at hb
            subst hb; subst e
            obtain ⟨⟨x, y⟩, hx, hx2⟩ := List.mem_map.1 ha
            dsimp only at hx2
            subst hx2
            exact hne (I.held _ _ (Or.inl hx)).2.1
          queuePend := fun h' c' e h'' => by
            rcases List.mem_append.1 e with e | e
            · exact I.queuePend _ _ e h''
            · simp at e
              obtain ⟨e1, e2⟩ := e
              subst e2
              exact fun hp => hne (I.held _ _ (Or.inr hp)).2.1
          logOk := fun c' r e => ⟨(I.logOk _ _ e).1, List.mem_append_left _ (I.logOk _ _ e).2⟩
          logNodup := I.logNodup, boxLog := I.boxLog
          doneLog := fun c' r e => by
            dsimp only at e
            by_cases hh : c' = c
            · subst hh; rw [setAt_same] at e; cases e
            · rw [setAt_other _ _ hh] at e; exact I.doneLog _ _ e
          unanswered := fun hn c' h' e1 e2 e3 => by
            rcases List.mem_append.1 e2 with e2 | e2
            · rcases I.unanswered hn c' h' e1 e2 e3 with e | e
              · exact Or.inl (List.mem_append_left _ e)
              · exact Or.inr e
            · simp at e2
              subst e2
              have := I.one_handle e1 hst
              subst this
              exact Or.inl (List.mem_append_right _ List.mem_cons_self) }
      · exact I
    · exact I
  | sent c =>
    unfold step
    dsimp only
    split
    · rename_i h d hph
      have hst := I.carries c h (by rw [hph]; rfl)
      exact {
        seq := I.seq, val := I.val, callers := I.callers, enqStarted := I.enqStarted, held := I.held
        queueNodup := I.queueNodup, queuePend := I.queuePend, logOk := I.logOk, logNodup := I.logNodup, boxLog := I.boxLog
        unanswered := I.unanswered
        started := fun c' => by
          show setAt _ _ _ c' = _ ↔ _
          by_cases hh : c' = c
          · subst hh; rw [setAt_same]
            simp only [reduceCtorEq, false_iff, Classical.not_not]
            exact List.mem_map_of_mem (f := Prod.fst) hst
          · rw [setAt_other _ _ hh]; exact I.started c'
        carries := fun c' h' e => by
          dsimp only at e
          by_cases hh : c' = c
          · subst hh; rw [setAt_same] at e; cases e; exact hst
          · rw [setAt_other _ _ hh] at e; exact I.carries _ _ e
        notYet := fun c' h' d' e => by
          dsimp only at e
          by_cases hh : c' = c
          · subst hh; rw [setAt_same] at e; cases e
          · rw [setAt_other _ _ hh] at e; exact I.notYet _ _ _ e
        doneLog := fun c' r e => by
          dsimp only at e
          by_cases hh : c' = c
          · subst hh; rw [setAt_same] at e; cases e
          · rw [setAt_other _ _ hh] at e; exact I.doneLog _ _ e }
    · exact I
  | receive r =>
    unfold step
    dsimp only
    split
    · exact I
    · exact inv_receive I r
  | take c =>
    unfold step
    dsimp only
    split
    · rename_i h d r hph hbox
      have hst := I.carries c h (by rw [hph]; rfl)
      exact {
        seq := I.seq, val := I.val, callers := I.callers, enqStarted := I.enqStarted, held := I.held
        queueNodup := I.queueNodup, queuePend := I.queuePend, logOk := I.logOk, logNodup := I.logNodup
        unanswered := I.unanswered
        boxLog := fun c' r' e => by
          dsimp only at e
          by_cases hh : c' = c
          · subst hh; rw [setAt_same] at e; cases e
          · rw [setAt_other _ _ hh] at e; exact I.boxLog _ _ e
        started := fun c' => by
          show setAt _ _ _ c' = _ ↔ _
          by_cases hh : c' = c
          · subst hh; rw [setAt_same]
            simp only [reduceCtorEq, false_iff, Classical.not_not]
            exact List.mem_map_of_mem (f := Prod.fst) hst
          · rw [setAt_other _ _ hh]; exact I.started c'
        carries := fun c' h' e => by
          dsimp only at e
          by_cases hh : c' = c
          · subst hh; rw [setAt_same] at e; cases e
          · rw [setAt_other _ _ hh] at e; exact I.carries _ _ e
        notYet := fun c' h' d' e => by
          dsimp only at e
          by_cases hh : c' = c
          · subst hh; rw [setAt_same] at e; cases e
          · rw [setAt_other _ _ hh] at e; exact I.notYet _ _ _ e
        doneLog := fun c' r' e => by
          dsimp only at e
          by_cases hh : c' = c
          · subst hh; rw [setAt_same] at e; cases e; exact I.boxLog _ _ hbox
          · rw [setAt_other _ _ hh] at e; exact I.doneLog _ _ e }
    · exact I
  | expire c =>
    unfold step
    dsimp only
    split
    · rename_i h d hph
      split
      · have hst := I.carries c h (by rw [hph]; rfl)
        exact {
          seq := I.seq, val := I.val, callers := I.callers, enqStarted := I.enqStarted, held := I.held
          queueNodup := I.queueNodup, queuePend := I.queuePend, logOk := I.logOk, logNodup := I.logNodup, boxLog := I.boxLog
          unanswered := I.unanswered
          started := fun c' => by
            show setAt _ _ _ c' = _ ↔ _
            by_cases hh : c' = c
            · subst hh; rw [setAt_same]
              simp only [reduceCtorEq, false_iff, Classical.not_not]
              exact List.mem_map_of_mem (f := Prod.fst) hst
            · rw [setAt_other _ _ hh]; exact I.started c'
          carries := fun c' h' e => by
            dsimp only at e
            by_cases hh : c' = c
            · subst hh; rw [setAt_same] at e; cases e
            · rw [setAt_other _ _ hh] at e; exact I.carries _ _ e
          notYet := fun c' h' d' e => by
            dsimp only at e
            by_cases hh : c' = c
            · subst hh; rw [setAt_same] at e; cases e
            · rw [setAt_other _ _ hh] at e; exact I.notYet _ _ _ e
          doneLog := fun c' r e => by
            dsimp only at e
            by_cases hh : c' = c
            · subst hh; rw [setAt_same] at e; cases e
            · rw [setAt_other _ _ hh] at e; exact I.doneLog _ _ e }
      · exact I
    · exact I
  | closedExit c =>
    unfold step
    dsimp only
    split
    · rename_i h d hph
      split
      · have hst := I.carries c h (by rw [hph]; rfl)
        exact {
          seq := I.seq, val := I.val, callers := I.callers, enqStarted := I.enqStarted, held := I.held
          queueNodup := I.queueNodup, queuePend := I.queuePend, logOk := I.logOk, logNodup := I.logNodup, boxLog := I.boxLog
          unanswered := I.unanswered
          started := fun c' => by
            show setAt _ _ _ c' = _ ↔ _
            by_cases hh : c' = c
            · subst hh; rw [setAt_same]
              simp only [reduceCtorEq, false_iff, Classical.not_not]
              exact List.mem_map_of_mem (f := Prod.fst) hst
            · rw [setAt_other _ _ hh]; exact I.started c'
          carries := fun c' h' e => by
            dsimp only at e
            by_cases hh : c' = c
            · subst hh; rw [setAt_same] at e; cases e
            · rw [setAt_other _ _ hh] at e; exact I.carries _ _ e
          notYet := fun c' h' d' e => by
            dsimp only at e
            by_cases hh : c' = c
            · subst hh; rw [setAt_same] at e; cases e
            · rw [setAt_other _ _ hh] at e; exact I.notYet _ _ _ e
          doneLog := fun c' r e => by
            dsimp only at e
            by_cases hh : c' = c
            · subst hh; rw [setAt_same] at e; cases e
            · rw [setAt_other _ _ hh] at e; exact I.doneLog _ _ e }
      · exact I
    · exact I

theorem inv_run {v0 : BitVec 32} (evs : List Ev) : ∀ s, Inv v0 s → Inv v0 (run s evs) := by
  induction evs with
  | nil => exact fun s I => I
  | cons e evs ih => exact fun s I => ih _ (inv_step I e)

/-! ### C35 -/

/-- Whatever the interleaving, a caller that returns a response returns one that was received with
the handle this caller drew. -/
theorem C35_own_response (v0 : BitVec 32) (evs : List Ev) (c : Nat) (r : Resp)
    (h : (run (init v0) evs).phase c = .done (.response r)) :
    (c, r.handle) ∈ (run (init v0) evs).starts ∧ (c, r) ∈ (run (init v0) evs).log := by
  have I := inv_run evs _ (inv_init v0)
  exact ⟨(I.logOk c r (I.doneLog c r h)).1, I.doneLog c r h⟩

/-- Every delivery goes to a caller that drew the handle of the response, no caller gets two, and
one received response makes at most one delivery. -/
theorem C35_at_most_once (v0 : BitVec 32) (evs : List Ev) (r : Resp) :
    (∀ c x, (c, x) ∈ (run (init v0) evs).log → (c, x.handle) ∈ (run (init v0) evs).starts) ∧
    ((run (init v0) evs).log.map Prod.fst).Nodup ∧
    ((step (run (init v0) evs) (.receive r)).log = (run (init v0) evs).log ∨
      ∃ c, (step (run (init v0) evs) (.receive r)).log = (run (init v0) evs).log ++ [(c, r)]) := by
  have I := inv_run evs _ (inv_init v0)
  refine ⟨fun c x h => (I.logOk c x h).1, I.logNodup, ?_⟩
  unfold step
  dsimp only
  split
  · exact Or.inl rfl
  · unfold handleResponse
    dsimp only
    split
    · exact Or.inl rfl
    · split
      · exact Or.inr ⟨_, rfl⟩
      · exact Or.inl rfl

/-- No response is lost: when the operation of a caller has been enqueued, the caller drew handle
`h` and no response has been delivered to it, a response with that handle is put into its response
channel, also when the caller is still sending. This holds for the first 2^32 − 1 requests of a
channel, after which handles repeat. -/
theorem C35_delivered (v0 : BitVec 32) (evs : List Ev) (c : Nat) (r : Resp)
    (hn : (run (init v0) evs).starts.length ≤ 2 ^ 32 - 1) (hopen : (run (init v0) evs).closed = false)
    (hs : (c, r.handle) ∈ (run (init v0) evs).starts) (he : c ∈ (run (init v0) evs).enq)
    (hl : c ∉ (run (init v0) evs).log.map Prod.fst) :
    (step (run (init v0) evs) (.receive r)).box c = some r ∧
    (step (run (init v0) evs) (.receive r)).log = (run (init v0) evs).log ++ [(c, r)] ∧
    ∀ c', c' ≠ c → (step (run (init v0) evs) (.receive r)).box c' = (run (init v0) evs).box c' := by
  have I := inv_run evs _ (inv_init v0)
  generalize run (init v0) evs = s at *
  have hm := (I.mapped hn r.handle c).2 (I.unanswered hn c r.handle hs he hl)
  have hb : s.box c = none := by
    cases e : s.box c with
    | none => rfl
    | some x => exact absurd (List.mem_map_of_mem (f := Prod.fst) (I.boxLog _ _ e)) hl
  unfold step
  dsimp only
  rw [hopen]
  unfold handleResponse
  dsimp only
  rw [if_neg (by decide), hm]
  dsimp only
  rw [hb]
  exact ⟨setAt_same _ _ _, rfl, fun c' h => setAt_other _ _ h⟩

/-- A response whose handle no outstanding request has is dropped: no response channel, no caller
and no outstanding operation changes. -/
theorem C35_unknown_dropped (v0 : BitVec 32) (evs : List Ev) (r : Resp)
    (hn : (run (init v0) evs).starts.length ≤ 2 ^ 32 - 1)
    (hu : ∀ c, (c, r.handle) ∈ (run (init v0) evs).starts → c ∈ (run (init v0) evs).enq →
      c ∈ (run (init v0) evs).log.map Prod.fst) :
    (step (run (init v0) evs) (.receive r)).box = (run (init v0) evs).box ∧
    (step (run (init v0) evs) (.receive r)).phase = (run (init v0) evs).phase ∧
    (step (run (init v0) evs) (.receive r)).log = (run (init v0) evs).log ∧
    ∀ h c, Held (step (run (init v0) evs) (.receive r)) h c ↔ Held (run (init v0) evs) h c := by
  have I := inv_run evs _ (inv_init v0)
  generalize run (init v0) evs = s at *
  have hm : mapPending s.pend s.queue r.handle = none := by
    cases e : mapPending s.pend s.queue r.handle with
    | none => rfl
    | some c =>
      obtain ⟨h1, h2, h3⟩ := I.held _ _ (mapPending_spec _ _ _ _ e)
      exact absurd (hu c h1 h2) h3
  unfold step
  dsimp only
  split
  · exact ⟨rfl, rfl, rfl, fun h c => Iff.rfl⟩
  · unfold handleResponse
    dsimp only
    rw [hm]
    refine ⟨rfl, rfl, rfl, fun h c => ?_⟩
    constructor
    · rintro (e | e)
      · cases e
      · exact mapPending_spec _ _ _ _ e
    · exact fun e => Or.inr ((I.mapped hn h c).2 e)

/-- Two requests, answered in the other order, with an unknown response in between. -/
example :
    let s := run (init 7) [.start 0 100, .start 1 100, .enqueue 1, .enqueue 0, .sent 0, .sent 1,
      .receive ⟨9, 1⟩, .receive ⟨55, 2⟩, .receive ⟨8, 3⟩, .take 0, .take 1]
    s.phase 0 = .done (.response ⟨8, 3⟩) ∧ s.phase 1 = .done (.response ⟨9, 1⟩) := by decide

/-! ### C78 -/

/-- Once its operation is enqueued and the request is written, a caller can return at its deadline,
whatever everyone else does, and time out is then what it returns if it does. -/
theorem C78_deadline_partial (v0 : BitVec 32) (evs : List Ev) (c : Nat) (h : BitVec 32) (d : Nat)
    (hw : (run (init v0) evs).phase c = .waiting h d) (hd : d ≤ (run (init v0) evs).now) :
    (step (run (init v0) evs) (.expire c)).phase c = .done .badRequestTimeout := by
  generalize run (init v0) evs = s at *
  unfold step
  dsimp only
  rw [hw]
  dsimp only
  rw [if_pos hd]
  exact setAt_same _ _ _

/-- And the deadline is the time of the call plus the timeout hint. -/
theorem C78_deadline_value_partial (s : State) (c hint : Nat) (hi : s.phase c = .idle) :
    (step s (.start c hint)).phase c = .drawn (nextSeq s.val) (s.now + hint) := by
  unfold step
  dsimp only
  rw [hi]
  exact setAt_same _ _ _

/-- Events during which the response worker receives nothing. -/
def quiet : Ev → Bool
  | .receive _ => false
  | _ => true

/-- The claim is false before that point: while the server does not answer, the operation of a 33rd
concurrent caller does not fit the queue, and the caller stays blocked however much time passes,
whatever other callers do and even after the channel is closed. -/
theorem C78_blocked_fails (s : State) (c : Nat) (h : BitVec 32) (d : Nat) (hq : s.queue.length = queueCap)
    (hp : s.phase c = .drawn h d) (evs : List Ev) (hev : ∀ e ∈ evs, quiet e = true) :
    (run s evs).phase c = .drawn h d := by
  induction evs generalizing s with
  | nil => exact hp
  | cons e evs ih =>
    have hcap : ¬ s.queue.length < queueCap := by omega
    suffices hs : (step s e).queue.length = queueCap ∧ (step s e).phase c = .drawn h d from
      ih _ hs.1 hs.2 (fun x hx => hev x (List.mem_cons_of_mem _ hx))
    have hset : ∀ c' p, s.phase c' ≠ s.phase c → setAt s.phase c' p c = .drawn h d := by
      intro c' p hne
      have : c ≠ c' := fun e => hne (by rw [e])
      rw [setAt_other _ _ this]; exact hp
    cases e with
    | tick n => exact ⟨hq, hp⟩
    | close => exact ⟨hq, hp⟩
    | receive r => exact absurd (hev _ List.mem_cons_self) (by simp [quiet])
    | start c' hint =>
      unfold step; dsimp only
      split
      · rename_i hx; exact ⟨hq, hset c' _ (by rw [hx, hp]; simp)⟩
      · exact ⟨hq, hp⟩
    | enqueue c' =>
      unfold step; dsimp only
      split
      · rw [if_neg hcap]; exact ⟨hq, hp⟩
      · exact ⟨hq, hp⟩
    | sent c' =>
      unfold step; dsimp only
      split
      · rename_i hx; exact ⟨hq, hset c' _ (by rw [hx, hp]; simp)⟩
      · exact ⟨hq, hp⟩
    | take c' =>
      unfold step; dsimp only
      split
      · rename_i hx _; exact ⟨hq, hset c' _ (by rw [hx, hp]; simp)⟩
      · exact ⟨hq, hp⟩
    | expire c' =>
      unfold step; dsimp only
      split
      · rename_i hx
        split
        · exact ⟨hq, hset c' _ (by rw [hx, hp]; simp)⟩
        · exact ⟨hq, hp⟩
      · exact ⟨hq, hp⟩
    | closedExit c' =>
      unfold step; dsimp only
      split
      · rename_i hx
        split
        · exact ⟨hq, hset c' _ (by rw [hx, hp]; simp)⟩
        · exact ⟨hq, hp⟩
      · exact ⟨hq, hp⟩

/-- 32 callers waiting for a silent server bring the channel into that state. -/
theorem C78_reachable_fails :
    let s := run (init 0) ((List.range 33).flatMap fun c => [Ev.start c 10, Ev.enqueue c, Ev.sent c])
    s.queue.length = queueCap ∧ s.phase 32 = .drawn 33 10 := by decide +kernel

end Opcua.Pending
