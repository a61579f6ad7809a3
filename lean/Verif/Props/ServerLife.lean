import Verif.Model.ServerLife
import Verif.Lemmas.Lists

/-! # C105: a server runs once, and ends when it is closed -/

namespace Opcua.ServerLife

theorem run_snoc (evs : List Event) (e : Event) : run (evs ++ [e]) = step (run evs) e := by simp [run]

/-- The events `evs` from the state `s` on. -/
def from' (s : State) (evs : List Event) : State := evs.foldl step s

theorem run_append (a b : List Event) : run (a ++ b) = from' (run a) b := by simp [run, from']
theorem from_snoc (s : State) (evs : List Event) (e : Event) : from' s (evs ++ [e]) = step (from' s evs) e := by simp [from']
theorem from_cons (s : State) (evs : List Event) (e : Event) : from' s (e :: evs) = from' (step s e) evs := rfl

/-! ### Specification -/

namespace Spec

/-- A call that got to run the server. -/
def Serving (s : State) (i : Nat) : Prop := ∃ p, s.calls[i]? = some p ∧ p ≠ .returned (some .badInternalError)

def Returned (s : State) (i : Nat) (e : Option Code) : Prop := s.calls[i]? = some (.returned e)

/-- Everything has come to its end: every call has returned, nothing listens, no connection is served. -/
structure Finished (s : State) : Prop where
  calls : ∀ p ∈ s.calls, ∃ e, p = .returned e
  closers : ∀ c ∈ s.closers, c = .done
  conns : ∀ c ∈ s.conns, c = .gone
  listener : s.listener ≠ .open

/-- What the server does by itself, given time: not the calls of the application, not new connections and
not what clients choose to do. -/
def own (s : State) : Event → Bool
  | .serve => false
  | .close => false
  | .accept _ _ => s.listener == .closed
  | .opened _ => false
  | .hangup _ => false
  | _ => true

/-- Calls of `Close` in a history. -/
def closes (evs : List Event) : Nat := (evs.filter (· == .close)).length

end Spec
open Spec

/-! ### At most one call serves -/

/-- What holds in every reachable state. -/
structure Inv (s : State) : Prop where
  /-- nobody serves before the server runs -/
  unknown : s.status = .unknown → s.calls = [] ∧ s.listener = .none ∧ s.conns = []
  /-- at most one call got through -/
  one : ∀ i j : Nat, Serving s i → Serving s j → i = j
  /-- who accepts has a listener -/
  bound : ∀ (i : Nat) d, s.calls[i]? = some (.accepting d) ∨ s.calls[i]? = some (.sleeping d) → s.listener ≠ .none
  /-- who has not got to listening has none -/
  fresh : ∀ i : Nat, s.calls[i]? = some .starting → s.listener = .none ∧ s.conns = []
  /-- a server that is being closed is shut down -/
  shut : s.closing = true ∨ s.closers ≠ [] → s.status = .shutdown

theorem getElem?_set_cases {α : Type} {l : List α} {i j : Nat} {a b : α} (h : (l.set i a)[j]? = some b) :
    (i = j ∧ b = a ∧ j < l.length) ∨ (i ≠ j ∧ l[j]? = some b) := by
  rw [List.getElem?_set] at h
  split at h
  next hij =>
    split at h
    · injection h with h; exact .inl ⟨hij, h.symm, by omega⟩
    · cases h
  next hij => exact .inr ⟨hij, h⟩

theorem serving_set {s : State} {i : Nat} {p q : Phase} (hi : s.calls[i]? = some q) (hq : q ≠ .returned (some .badInternalError))
    {s' : State} (hs : s'.calls = s.calls.set i p) {j : Nat} (h : Serving s' j) : Serving s j := by
  obtain ⟨r, hr, hn⟩ := h
  rw [hs] at hr
  rcases getElem?_set_cases hr with ⟨rfl, -, -⟩ | ⟨-, h⟩
  · exact ⟨q, hi, hq⟩
  · exact ⟨r, h, hn⟩

/-- Invariant for a change of the phase of a call that serves. -/
theorem inv_set {s s' : State} (h : Inv s) {i : Nat} {p q : Phase} (hi : s.calls[i]? = some q)
    (hq : q ≠ .returned (some .badInternalError)) (hc : s'.calls = s.calls.set i p)
    (hst : s'.status = s.status) (hcl : s'.closing = s.closing) (hcs : s'.closers = s.closers)
    (hb : ∀ d, p = .accepting d ∨ p = .sleeping d → s'.listener ≠ .none)
    (hl : s.listener ≠ .none → s'.listener ≠ .none)
    (hp : p ≠ .starting) : Inv s' := by
  refine ⟨?_, ?_, ?_, ?_, ?_⟩
  · intro hu
    have := h.unknown (hst ▸ hu)
    rw [this.1] at hi
    cases hi
  · intro a b ha hb
    exact h.one a b (serving_set hi hq hc ha) (serving_set hi hq hc hb)
  · intro j d hj
    rw [hc] at hj
    rcases hj with hj | hj <;> rcases getElem?_set_cases hj with ⟨rfl, e, -⟩ | ⟨-, e⟩
    · exact hb d (.inl e.symm)
    · exact hl (h.bound j d (.inl e))
    · exact hb d (.inr e.symm)
    · exact hl (h.bound j d (.inr e))
  · intro j hj
    rw [hc] at hj
    rcases getElem?_set_cases hj with ⟨-, e, -⟩ | ⟨hij, e⟩
    · exact absurd e.symm hp
    · exact absurd (h.one i j ⟨q, hi, hq⟩ ⟨_, e, by simp⟩) hij
  · intro hcl'
    rw [hst]
    exact h.shut (by rw [← hcl, ← hcs]; exact hcl')

/-- Invariant when the calls do not change. -/
theorem inv_same {s s' : State} (h : Inv s) (hc : s'.calls = s.calls)
    (hst : s'.status = s.status ∨ s'.status = .shutdown)
    (hcl : s'.closing = true ∨ s'.closers ≠ [] → s'.status = .shutdown)
    (hl : s.listener ≠ .none → s'.listener ≠ .none) (hf : s.listener = .none → s'.listener = .none)
    (hcn : s.conns = [] → s'.conns = []) : Inv s' := by
  have sv : ∀ j, Serving s' j → Serving s j := by rintro j ⟨p, hp, hn⟩; exact ⟨p, hc ▸ hp, hn⟩
  refine ⟨?_, fun i j hi hj => h.one i j (sv i hi) (sv j hj), ?_, ?_, hcl⟩
  · intro hu
    rcases hst with e | e
    · obtain ⟨h1, h2, h3⟩ := h.unknown (e ▸ hu)
      exact ⟨hc.trans h1, hf h2, hcn h3⟩
    · rw [e] at hu; cases hu
  · intro i d hi; rw [hc] at hi; exact hl (h.bound i d hi)
  · intro i hi; rw [hc] at hi; exact ⟨hf (h.fresh i hi).1, hcn (h.fresh i hi).2⟩

theorem step_inv {s : State} (h : Inv s) (e : Event) : Inv (step s e) := by
  unfold step
  split
  · exact h
  cases e with
  | serve =>
    simp only [live, onServe]
    split
    next hu =>
      have sv : ∀ j, Serving { s with calls := s.calls ++ [.returned (some .badInternalError)] } j → Serving s j := by
        rintro j ⟨p, hp, hn⟩
        rw [List.getElem?_append] at hp
        split at hp
        · exact ⟨p, hp, hn⟩
        · rw [List.getElem?_singleton] at hp
          split at hp
          · injection hp with hp; exact absurd hp.symm hn
          · cases hp
      have old : ∀ (j : Nat) p, (s.calls ++ [.returned (some .badInternalError)])[j]? = some p →
          p ≠ .returned (some .badInternalError) → s.calls[j]? = some p := by
        intro j p hp hn
        obtain ⟨q, hq, -⟩ := sv j ⟨p, hp, hn⟩
        have hlt : j < s.calls.length := (List.getElem?_eq_some_iff.mp hq).1
        rw [List.getElem?_append_left hlt] at hp
        exact hp
      refine ⟨fun hx => absurd hx hu, fun i j hi hj => h.one i j (sv i hi) (sv j hj), ?_, ?_, h.shut⟩
      · intro i d hi
        refine h.bound i d ?_
        rcases hi with hi | hi
        · exact .inl (old i _ hi (by simp))
        · exact .inr (old i _ hi (by simp))
      · intro i hi; exact h.fresh i (old i _ hi (by simp))
    next hu =>
      have hu' : s.status = .unknown := by simpa using hu
      obtain ⟨h1, h2, h3⟩ := h.unknown hu'
      refine ⟨by simp, ?_, ?_, ?_, ?_⟩
      · rintro i j ⟨p, hp, -⟩ ⟨q, hq, -⟩
        simp only [h1, List.nil_append, List.getElem?_singleton] at hp hq
        split at hp <;> split at hq <;> simp_all
      · intro i d hi
        simp only [h1, List.nil_append, List.getElem?_singleton] at hi
        split at hi <;> simp at hi
      · intro i _; exact ⟨h2, h3⟩
      · intro hc; exact absurd (h.shut hc) (by rw [hu']; simp)
  | bind i r =>
    simp only [live]
    split
    next hi =>
      cases r with
      | badURL => exact inv_set h hi (by simp) rfl rfl rfl rfl (by simp) (fun x => x) (by simp)
      | busy => exact inv_set h hi (by simp) rfl rfl rfl rfl (by simp) (fun x => x) (by simp)
      | ok => exact inv_set h hi (by simp) rfl rfl rfl rfl (by simp [onBind]) (by simp [onBind]) (by simp)
    · exact h
  | accept i r =>
    simp only [live]
    split
    next d hi =>
      have hl := h.bound i d (.inl hi)
      unfold onAccept
      split
      · exact inv_set h hi (by simp) rfl rfl rfl rfl (fun _ _ => hl) (fun x => x) (by simp)
      all_goals split <;> exact inv_set h hi (by simp) rfl rfl rfl rfl (fun _ _ => hl) (fun x => x) (by simp)
    · exact h
  | wake i =>
    simp only [live]
    split
    next d hi => exact inv_set h hi (by simp) rfl rfl rfl rfl (fun _ _ => h.bound i d (.inr hi)) (fun x => x) (by simp)
    · exact h
  | drain i =>
    simp only [live]
    split
    next e hi =>
      split
      · exact inv_set h hi (by simp) rfl rfl rfl rfl (by simp) (fun x => x) (by simp)
      · exact h
    · exact h
  | close =>
    simp only [live, onClose]
    split
    all_goals exact inv_same h rfl (.inr rfl) (fun _ => rfl) (fun x => x) (fun x => x) (fun x => x)
  | tick j =>
    simp only [live]
    split
    next n hj =>
      have hn : s.closers ≠ [] := by intro hu; rw [hu] at hj; cases hj
      unfold onTick
      split
      · exact h
      all_goals exact inv_same h rfl (.inl rfl) (fun _ => h.shut (.inr hn)) (fun x => x) (fun x => x) (fun x => x)
    · exact h
  | shut j =>
    simp only [live]
    split
    next hj =>
      have hn : s.closers ≠ [] := by intro hu; rw [hu] at hj; cases hj
      unfold onShut
      split
      all_goals exact inv_same h rfl (.inl rfl) (fun _ => h.shut (.inr hn)) (fun x => x) (fun x => x) (fun x => x)
    · exact h
  | unlisten =>
    simp only [live]
    split
    next hc => exact inv_same h rfl (.inl rfl) h.shut (by simp) (by simp [hc.2]) (fun x => x)
    · exact h
  | opened c =>
    simp only [live]
    split
    · exact inv_same h rfl (.inl rfl) h.shut (fun x => x) (fun x => x) (by simp)
    · exact h
  | refused c =>
    simp only [live]
    split
    · exact inv_same h rfl (.inl rfl) h.shut (fun x => x) (fun x => x) (by simp)
    · exact h
  | hangup c =>
    simp only [live]
    split
    · exact inv_same h rfl (.inl rfl) h.shut (fun x => x) (fun x => x) (by simp)
    · exact h
  | watch c =>
    simp only [live]
    split
    · exact inv_same h rfl (.inl rfl) h.shut (fun x => x) (fun x => x) (by simp)
    · exact h
  | finish c =>
    simp only [live]
    split
    · exact inv_same h rfl (.inl rfl) h.shut (fun x => x) (fun x => x) (by simp)
    · exact h

theorem run_inv (evs : List Event) : Inv (run evs) := by
  induction evs using snocInd with
  | nil =>
    refine ⟨fun _ => ⟨rfl, rfl, rfl⟩, ?_, ?_, ?_, ?_⟩
    · rintro i j ⟨p, hp, -⟩; simp [run] at hp
    · intro i d hi; simp [run] at hi
    · intro i hi; simp [run] at hi
    · intro hc; simp [run] at hc
  | append_singleton evs e ih => rw [run_snoc]; exact step_inv ih e

theorem step_panicked {s : State} (h : s.panicked = true) (e : Event) : step s e = s := by unfold step; rw [if_pos h]

theorem step_live {s : State} (h : s.panicked = false) (e : Event) : step s e = live s e := by
  unfold step; rw [if_neg (by simp [h])]

/-- **C105 (once).** However often and whenever `ListenAndServe` and `Close` are called, at most one call of
`ListenAndServe` serves; all others return BadInternalError at once. A call before any other is the one. -/
theorem C105_once (evs : List Event) :
    (∀ i j, Serving (run evs) i → Serving (run evs) j → i = j) ∧
    (.serve ∉ evs → .close ∉ evs → (run (evs ++ [.serve])).calls = [.starting]) := by
  refine ⟨(run_inv evs).one, ?_⟩
  intro hs hc
  have key : (run evs).status = .unknown ∧ (run evs).panicked = false ∧ (run evs).calls = [] ∧ (run evs).closers = [] ∧
      (run evs).conns = [] := by
    induction evs using snocInd with
    | nil => exact ⟨rfl, rfl, rfl, rfl, rfl⟩
    | append_singleton evs e ih =>
      obtain ⟨h1, h2, h3, h4, h5⟩ := ih (fun h => hs (by simp [h])) (fun h => hc (by simp [h]))
      rw [run_snoc, step_live h2]
      cases e with
      | serve => exact absurd (by simp) hs
      | close => exact absurd (by simp) hc
      | unlisten => simp only [live]; split <;> exact ⟨h1, h2, h3, h4, h5⟩
      | bind i r => simp [live, h3, h1, h2, h4, h5]
      | accept i r => simp [live, h3, h1, h2, h4, h5]
      | wake i => simp [live, h3, h1, h2, h4, h5]
      | drain i => simp [live, h3, h1, h2, h4, h5]
      | tick j => simp [live, h3, h1, h2, h4, h5]
      | shut j => simp [live, h3, h1, h2, h4, h5]
      | opened c => simp [live, h3, h1, h2, h4, h5]
      | refused c => simp [live, h3, h1, h2, h4, h5]
      | hangup c => simp [live, h3, h1, h2, h4, h5]
      | watch c => simp [live, h3, h1, h2, h4, h5]
      | finish c => simp [live, h3, h1, h2, h4, h5]
  rw [run_snoc, step_live key.2.1]
  simp [live, onServe, key.1, key.2.2.1]

/-- Two calls: the second returns at once. -/
example : (run [.serve, .serve, .bind 0 .ok]).calls = [.accepting 0, .returned (some .badInternalError)] := by decide

/-- No call has come to an end without an error. -/
def Errs (s : State) : Prop := ∀ p ∈ s.calls, p ≠ .returned none ∧ p ≠ .waiting none

theorem errs_step {s : State} (h : Errs s) (e : Event) : Errs (step s e) := by
  have set : ∀ i p, p ≠ .returned none ∧ p ≠ .waiting none → ∀ x ∈ s.calls.set i p, x ≠ .returned none ∧ x ≠ .waiting none := by
    intro i p hp x hx
    rcases List.mem_or_eq_of_mem_set hx with hx | rfl
    · exact h x hx
    · exact hp
  have app : ∀ p, p ≠ .returned none ∧ p ≠ .waiting none → ∀ x ∈ s.calls ++ [p], x ≠ .returned none ∧ x ≠ .waiting none := by
    intro p hp x hx
    rcases List.mem_append.mp hx with hx | hx
    · exact h x hx
    · rw [List.mem_singleton.mp hx]; exact hp
  unfold step
  split
  · exact h
  · cases e with
    | serve => simp only [live, onServe]; split <;> exact app _ (by simp)
    | bind i r =>
      simp only [live]
      split
      · cases r <;> exact set _ _ (by simp)
      · exact h
    | accept i r =>
      simp only [live]
      split
      · unfold onAccept; split
        · exact set _ _ (by simp)
        all_goals split <;> exact set _ _ (by simp)
      · exact h
    | wake i =>
      simp only [live]
      split
      · exact set _ _ (by simp)
      · exact h
    | drain i =>
      simp only [live]
      split
      next e hi =>
        split
        · refine set _ _ ⟨?_, by simp⟩
          rintro hx
          injection hx with hx
          subst hx
          exact (h _ (List.mem_iff_getElem?.mpr ⟨i, hi⟩)).2 rfl
        · exact h
      · exact h
    | close => simp only [live, onClose]; split <;> exact h
    | tick j =>
      simp only [live]
      split
      · unfold onTick; split <;> exact h
      · exact h
    | shut j =>
      simp only [live]
      split
      · unfold onShut; split <;> exact h
      · exact h
    | unlisten => simp only [live]; split <;> exact h
    | opened c => simp only [live]; split <;> exact h
    | refused c => simp only [live]; split <;> exact h
    | hangup c => simp only [live]; split <;> exact h
    | watch c => simp only [live]; split <;> exact h
    | finish c => simp only [live]; split <;> exact h

theorem errs_run (evs : List Event) : Errs (run evs) := by
  induction evs using snocInd with
  | nil => intro p hp; simp [run] at hp
  | append_singleton evs e ih => rw [run_snoc]; exact errs_step ih e

/-- Once the call that served has returned, no connection is left. -/
def Drained (s : State) : Prop :=
  ∀ (i : Nat) e, s.calls[i]? = some (.returned e) → e ≠ some .badInternalError → ∀ c ∈ s.conns, c = .gone

theorem drained_conns {s : State} (h : Drained s) {c : Nat} {n : Conn} (hc : s.conns[c]? = some n) (hn : n ≠ .gone) (m : Conn) :
    Drained { s with conns := s.conns.set c m } := by
  intro i e hi he
  exact absurd (h i e hi he n (List.mem_iff_getElem?.mpr ⟨c, hc⟩)) hn

theorem drained_calls {s s' : State} (hi : Inv s) {i : Nat} {p q : Phase} (hq : s.calls[i]? = some q)
    (hqn : ∀ e, q ≠ .returned e) (hc : s'.calls = s.calls.set i p)
    (hp : ∀ e, p = .returned e → ∀ c ∈ s'.conns, c = .gone) : Drained s' := by
  intro j e hj he
  rw [hc] at hj
  rcases getElem?_set_cases hj with ⟨-, e1, -⟩ | ⟨hij, e1⟩
  · exact hp e e1.symm
  · refine absurd (hi.one i j ⟨q, hq, hqn _⟩ ⟨_, e1, ?_⟩) hij
    intro hx
    injection hx with hx
    exact he hx

theorem drained_step {s : State} (hi : Inv s) (h : Drained s) (e : Event) : Drained (step s e) := by
  unfold step
  split
  · exact h
  · cases e with
    | serve =>
      simp only [live, onServe]
      split
      · intro i e hie he
        refine h i e ?_ he
        simp only [List.getElem?_append] at hie
        split at hie
        · exact hie
        · rw [List.getElem?_singleton] at hie
          split at hie
          · simp at hie; exact absurd hie.symm he
          · cases hie
      next hu =>
        intro i e hie he
        simp only [(hi.unknown (by simpa using hu)).1, List.nil_append, List.getElem?_singleton] at hie
        split at hie <;> simp at hie
    | bind i r =>
      simp only [live]
      split
      next hs =>
        have hc := (hi.fresh i hs).2
        cases r <;> exact drained_calls hi hs (by simp) rfl (by intro e he c hm; simp [onBind, hc] at hm)
      · exact h
    | accept i r =>
      simp only [live]
      split
      next d hs =>
        unfold onAccept; split
        · exact drained_calls hi hs (by simp) rfl (by simp)
        all_goals split <;> exact drained_calls hi hs (by simp) rfl (by simp)
      · exact h
    | wake i =>
      simp only [live]
      split
      next d hs => exact drained_calls hi hs (by simp) rfl (by simp)
      · exact h
    | drain i =>
      simp only [live]
      split
      next e hs =>
        split
        next hid => exact drained_calls hi hs (by simp) rfl (fun _ _ => by simpa [idle, List.all_eq_true] using hid)
        · exact h
      · exact h
    | close => simp only [live, onClose]; split <;> exact h
    | tick j =>
      simp only [live]
      split
      · unfold onTick; split <;> exact h
      · exact h
    | shut j =>
      simp only [live]
      split
      · unfold onShut; split <;> exact h
      · exact h
    | unlisten => simp only [live]; split <;> exact h
    | opened c =>
      simp only [live]
      split
      next hc => exact drained_conns h hc (by simp) _
      · exact h
    | refused c =>
      simp only [live]
      split
      next hc => exact drained_conns h hc (by simp) _
      · exact h
    | hangup c =>
      simp only [live]
      split
      next hc => exact drained_conns h hc (by simp) _
      · exact h
    | watch c =>
      simp only [live]
      split
      next hc => exact drained_conns h hc.2 (by simp) _
      · exact h
    | finish c =>
      simp only [live]
      split
      next hc => exact drained_conns h hc (by simp) _
      · exact h

/-- **C105 (error).** `ListenAndServe` never returns without an error. The call that served returns only when
no connection is served any more, and none is served afterwards. -/
theorem C105_error (evs : List Event) (i : Nat) (e : Option Code) (h : Returned (run evs) i e) :
    e ≠ none ∧ (e ≠ some .badInternalError → ∀ c ∈ (run evs).conns, c = .gone) := by
  refine ⟨?_, ?_⟩
  · rintro rfl
    exact (errs_run evs _ (List.mem_iff_getElem?.mpr ⟨i, h⟩)).1 rfl
  · have key : Drained (run evs) := by
      clear h
      induction evs using snocInd with
      | nil => intro i e hie; simp [run] at hie
      | append_singleton evs e ih => rw [run_snoc]; exact drained_step (run_inv evs) ih e
    exact key i e h

example : Returned (run [.serve, .bind 0 .ok, .accept 0 .conn, .opened 0, .accept 0 .failed, .hangup 0, .drain 0]) 0
    (some .badTCPInternalError) := by unfold Returned; decide

/-! ### After Close -/

theorem status_shutdown {s : State} (h : s.status = .shutdown) (e : Event) : (step s e).status = .shutdown := by
  unfold step
  split
  · exact h
  · cases e with
    | serve => simp only [live, onServe]; rw [if_pos (by rw [h]; simp)]; exact h
    | bind i r =>
      simp only [live]
      split
      · cases r <;> exact h
      · exact h
    | accept i r =>
      simp only [live]
      split
      · unfold onAccept; split
        · exact h
        all_goals split <;> exact h
      · exact h
    | wake i => simp only [live]; split <;> exact h
    | drain i =>
      simp only [live]
      split
      · split <;> exact h
      · exact h
    | close => simp only [live, onClose]; split <;> rfl
    | tick j =>
      simp only [live]
      split
      · unfold onTick; split <;> exact h
      · exact h
    | shut j =>
      simp only [live]
      split
      · unfold onShut; split <;> exact h
      · exact h
    | unlisten => simp only [live]; split <;> exact h
    | opened c => simp only [live]; split <;> exact h
    | refused c => simp only [live]; split <;> exact h
    | hangup c => simp only [live]; split <;> exact h
    | watch c => simp only [live]; split <;> exact h
    | finish c => simp only [live]; split <;> exact h

/-- On the way to BadServerHalted. -/
def Halting (s : State) (i : Nat) : Prop :=
  s.status = .shutdown ∧ ((∃ d, s.calls[i]? = some (.accepting d)) ∨ (∃ d, s.calls[i]? = some (.sleeping d)) ∨
    s.calls[i]? = some (.waiting (some .badServerHalted)) ∨ s.calls[i]? = some (.returned (some .badServerHalted)))

theorem halting_other {s s' : State} {i : Nat} (h : Halting s i) (hst : s'.status = .shutdown)
    (hc : s'.calls[i]? = s.calls[i]?) : Halting s' i := ⟨hst, by rw [hc]; exact h.2⟩

theorem lt_of_getElem? {α : Type} {l : List α} {i : Nat} {a : α} (h : l[i]? = some a) : i < l.length :=
  (List.getElem?_eq_some_iff.mp h).1

theorem Halting.lt {s : State} {i : Nat} (h : Halting s i) : i < s.calls.length := by
  rcases h.2 with ⟨d, h⟩ | ⟨d, h⟩ | h | h <;> exact lt_of_getElem? h

theorem halting_step {s : State} {i : Nat} (h : Halting s i) (e : Event) : Halting (step s e) i := by
  have hst := status_shutdown h.1 e
  cases hp : s.panicked with
  | true => rw [step_panicked hp]; exact h
  | false =>
    rw [step_live hp] at hst ⊢
    have self : ∀ p, (s.calls.set i p)[i]? = some p := fun p => by
      rw [List.getElem?_set_self h.lt]
    have other : ∀ j p, j ≠ i → (s.calls.set j p)[i]? = s.calls[i]? := fun j p hj => by
      rw [List.getElem?_set_ne hj]
    cases e with
    | serve =>
      refine halting_other h hst ?_
      simp only [live, onServe]
      split <;> exact List.getElem?_append_left h.lt
    | bind j r =>
      simp only [live] at hst ⊢
      split
      next hj =>
        have hji : j ≠ i := by
          rintro rfl
          rcases h.2 with ⟨d, h⟩ | ⟨d, h⟩ | h | h <;> rw [hj] at h <;> cases h
        rw [if_pos hj] at hst
        refine halting_other h hst ?_
        cases r <;> exact other j _ hji
      · exact h
    | accept j r =>
      simp only [live] at hst ⊢
      split
      next d hj =>
        by_cases hji : j = i
        · subst hji
          have hn : s.status ≠ .running := by rw [h.1]; simp
          unfold onAccept
          split
          · exact ⟨h.1, .inl ⟨0, self _⟩⟩
          · rw [if_pos hn]; exact ⟨h.1, .inr (.inr (.inl (self _)))⟩
          · rw [if_pos hn]; exact ⟨h.1, .inr (.inr (.inl (self _)))⟩
        · rw [hj] at hst
          refine halting_other h hst ?_
          unfold onAccept
          split
          · exact other j _ hji
          all_goals split <;> exact other j _ hji
      · exact h
    | wake j =>
      simp only [live] at hst ⊢
      split
      next d hj =>
        by_cases hji : j = i
        · subst hji; exact ⟨h.1, .inl ⟨d, self _⟩⟩
        · exact halting_other h h.1 (other j _ hji)
      · exact h
    | drain j =>
      simp only [live] at hst ⊢
      split
      next e hj =>
        split
        · by_cases hji : j = i
          · subst hji
            rcases h.2 with ⟨d, h'⟩ | ⟨d, h'⟩ | h' | h' <;> rw [hj] at h' <;> cases h'
            exact ⟨h.1, .inr (.inr (.inr (self _)))⟩
          · exact halting_other h h.1 (other j _ hji)
        · exact h
      · exact h
    | close =>
      refine halting_other h hst ?_
      simp only [live, onClose]
      split <;> rfl
    | tick j =>
      refine halting_other h hst ?_
      simp only [live]
      split
      · unfold onTick; split <;> rfl
      · rfl
    | shut j =>
      refine halting_other h hst ?_
      simp only [live]
      split
      · unfold onShut; split <;> rfl
      · rfl
    | unlisten => refine halting_other h hst ?_; simp only [live]; split <;> rfl
    | opened c => refine halting_other h hst ?_; simp only [live]; split <;> rfl
    | refused c => refine halting_other h hst ?_; simp only [live]; split <;> rfl
    | hangup c => refine halting_other h hst ?_; simp only [live]; split <;> rfl
    | watch c => refine halting_other h hst ?_; simp only [live]; split <;> rfl
    | finish c => refine halting_other h hst ?_; simp only [live]; split <;> rfl

theorem halting_from {i : Nat} (evs : List Event) : ∀ {s : State}, Halting s i → Halting (from' s evs) i := by
  induction evs with
  | nil => intro s h; exact h
  | cons e evs ih => intro s h; exact ih (halting_step h e)

theorem panicked_from (evs : List Event) : ∀ {s : State}, s.panicked = true → from' s evs = s := by
  induction evs with
  | nil => intro s _; rfl
  | cons e evs ih => intro s h; rw [from_cons, step_panicked h]; exact ih h

/-- **C105 (halted, partial).** If `Close` is called while a call of `ListenAndServe` accepts connections (or
waits before it tries again), then that call returns BadServerHalted, if it returns: whatever happened before
and whatever happens afterwards. Missing: calls that had failed before (C105_fatal_fails) or that come
after `Close` (C105_closeFirst_fails). -/
theorem C105_halted_partial (before after : List Event) (i d : Nat) (e : Option Code)
    (hacc : (run before).calls[i]? = some (.accepting d) ∨ (run before).calls[i]? = some (.sleeping d))
    (hret : Returned (run (before ++ .close :: after)) i e) : e = some .badServerHalted := by
  unfold Returned at hret
  rw [run_append, from_cons] at hret
  cases hp : (run before).panicked with
  | true =>
    rw [step_panicked hp, panicked_from after hp] at hret
    rcases hacc with h | h <;> rw [h] at hret <;> cases hret
  | false =>
    rw [step_live hp] at hret
    have hst : (onClose (run before)).status = .shutdown := by unfold onClose; split <;> rfl
    have hc : (onClose (run before)).calls = (run before).calls := by unfold onClose; split <;> rfl
    have h1 : Halting (onClose (run before)) i := by
      refine ⟨hst, ?_⟩
      rw [hc]
      rcases hacc with h | h
      · exact .inl ⟨d, h⟩
      · exact .inr (.inl ⟨d, h⟩)
    have h2 := halting_from after h1
    rcases h2.2 with ⟨d, h⟩ | ⟨d, h⟩ | h | h <;> rw [show from' (onClose (run before)) after = from' (live (run before) .close) after from rfl, hret] at h <;> cases h
    rfl

/-- A server with one client is closed. -/
def aLife : List Event := [.serve, .bind 0 .ok, .accept 0 .conn, .opened 0, .accept 0 .timeout, .wake 0]

example : (run aLife).calls[0]? = some (.accepting 5) := by decide
example : Returned (run (aLife ++ .close :: [.tick 0, .tick 0, .tick 0, .shut 0, .unlisten, .accept 0 .conn, .watch 0, .finish 0,
    .drain 0])) 0 (some .badServerHalted) := by unfold Returned; decide

/-! ### It ends -/

def weightP : Phase → Nat
  | .starting => 6
  | .accepting _ => 3
  | .sleeping _ => 4
  | .waiting _ => 2
  | .returned _ => 0

def weightC : Closer → Nat
  | .counting n => n + 2
  | .shutting => 1
  | .done => 0

def weightN : Conn → Nat
  | .opening => 4
  | .serving => 3
  | .closed => 2
  | .gone => 0

def weightL : Listener → Nat
  | .open => 1
  | _ => 0

/-- How much is left to do. -/
def toDo (s : State) : Nat :=
  (s.calls.map weightP).sum + (s.closers.map weightC).sum + (s.conns.map weightN).sum + weightL s.listener

theorem sum_set {α : Type} (w : α → Nat) (l : List α) : ∀ (i : Nat) (a b : α), l[i]? = some b →
    ((l.set i a).map w).sum + w b = (l.map w).sum + w a := by
  induction l with
  | nil => intro i a b h; simp at h
  | cons x l ih =>
    intro i a b h
    cases i with
    | zero => simp at h; subst h; simp; omega
    | succ i =>
      have := ih i a b (by simpa using h)
      simp only [List.set_cons_succ, List.map_cons, List.sum_cons]
      omega

/-- What the clients can still do once nothing listens any more. -/
def passive (s : State) : Event → Bool
  | .serve => false
  | .close => false
  | .accept _ _ => s.listener == .closed
  | _ => true

/-- Every step that does something leaves less to do. -/
theorem toDo_step {s : State} (hi : Inv s) (hcl : s.closing = true) (e : Event) (he : passive s e = true)
    (hne : step s e ≠ s) (hp : (step s e).panicked = false) : toDo (step s e) < toDo s := by
  have hp0 : s.panicked = false := by
    cases h : s.panicked with
    | false => rfl
    | true => rw [step_panicked h] at hne; exact absurd rfl hne
  have hsd := hi.shut (.inl hcl)
  rw [step_live hp0] at hne hp ⊢
  cases e with
  | serve => cases he
  | close => cases he
  | bind i r =>
    simp only [live] at hne ⊢
    split at hne
    next h =>
      rw [if_pos h]
      have hl := (hi.fresh i h).1
      cases r with
      | badURL => have := sum_set weightP s.calls i (.returned (some .badTCPEndpointURLInvalid)) _ h; simp only [toDo, onBind, weightP] at *; omega
      | busy => have := sum_set weightP s.calls i (.returned (some .badResourceUnavailable)) _ h; simp only [toDo, onBind, weightP] at *; omega
      | ok => have := sum_set weightP s.calls i (.accepting 0) _ h; simp only [toDo, onBind, weightP, hl, weightL] at *; omega
    · exact absurd rfl hne
  | accept i r =>
    have hl : s.listener = .closed := by simpa [passive] using he
    simp only [live] at hne ⊢
    split at hne
    next d h =>
      have hn : s.status ≠ .running := by rw [hsd]; simp
      simp only [outcome, hl, if_true, onAccept]
      rw [if_pos hn]
      have := sum_set weightP s.calls i (.waiting (some .badServerHalted)) _ h
      simp only [toDo, weightP, hl, weightL] at *
      omega
    · exact absurd rfl hne
  | wake i =>
    simp only [live] at hne ⊢
    split at hne
    next d h =>
      have := sum_set weightP s.calls i (.accepting d) _ h
      simp only [toDo, weightP] at *
      omega
    · exact absurd rfl hne
  | drain i =>
    simp only [live] at hne ⊢
    split at hne
    next d h =>
      split at hne
      next hid =>
        rw [if_pos hid]
        have := sum_set weightP s.calls i (.returned d) _ h
        simp only [toDo, weightP] at *
        omega
      · exact absurd rfl hne
    · exact absurd rfl hne
  | tick j =>
    simp only [live] at hne ⊢
    split at hne
    next n h =>
      match n with
      | 0 => exact absurd rfl hne
      | 1 =>
        have := sum_set weightC s.closers j .shutting _ h
        simp only [toDo, onTick, weightC] at *
        omega
      | n + 2 =>
        have := sum_set weightC s.closers j (.counting (n + 1)) _ h
        simp only [toDo, onTick, weightC] at *
        omega
    · exact absurd rfl hne
  | shut j =>
    simp only [live] at hne hp
    split at hne
    next h => rw [if_pos h] at hp; simp [onShut, hcl] at hp
    · exact absurd rfl hne
  | unlisten =>
    simp only [live] at hne ⊢
    split at hne
    next h => rw [if_pos h]; simp only [toDo, h.2, weightL]; omega
    · exact absurd rfl hne
  | opened c =>
    simp only [live] at hne ⊢
    split at hne
    next h =>
      rw [if_pos h]
      have := sum_set weightN s.conns c .serving _ h
      simp only [toDo, weightN] at *
      omega
    · exact absurd rfl hne
  | refused c =>
    simp only [live] at hne ⊢
    split at hne
    next h =>
      rw [if_pos h]
      have := sum_set weightN s.conns c .gone _ h
      simp only [toDo, weightN] at *
      omega
    · exact absurd rfl hne
  | hangup c =>
    simp only [live] at hne ⊢
    split at hne
    next h =>
      rw [if_pos h]
      have := sum_set weightN s.conns c .gone _ h
      simp only [toDo, weightN] at *
      omega
    · exact absurd rfl hne
  | watch c =>
    simp only [live] at hne ⊢
    split at hne
    next h =>
      rw [if_pos h]
      have := sum_set weightN s.conns c .closed _ h.2
      simp only [toDo, weightN] at *
      omega
    · exact absurd rfl hne
  | finish c =>
    simp only [live] at hne ⊢
    split at hne
    next h =>
      rw [if_pos h]
      have := sum_set weightN s.conns c .gone _ h
      simp only [toDo, weightN] at *
      omega
    · exact absurd rfl hne

theorem set_ne_self {α : Type} {l : List α} {i : Nat} {a b : α} (h : l[i]? = some b) (hab : a ≠ b) : l.set i a ≠ l := by
  intro e
  have : (l.set i a)[i]? = some a := List.getElem?_set_self (lt_of_getElem? h)
  rw [e, h] at this
  injection this with this
  exact hab this.symm

theorem calls_ne {s s' : State} (h : s'.calls ≠ s.calls) : s' ≠ s := fun e => h (by rw [e])
theorem conns_ne {s s' : State} (h : s'.conns ≠ s.conns) : s' ≠ s := fun e => h (by rw [e])
theorem closers_ne {s s' : State} (h : s'.closers ≠ s.closers) : s' ≠ s := fun e => h (by rw [e])

/-- Who counts has at least a second to go. -/
def Counts (s : State) : Prop := ∀ c ∈ s.closers, c ≠ .counting 0

theorem counts_step {s : State} (h : Counts s) (e : Event) : Counts (step s e) := by
  have set : ∀ j c, c ≠ .counting 0 → ∀ x ∈ s.closers.set j c, x ≠ .counting 0 := by
    intro j c hc x hx
    rcases List.mem_or_eq_of_mem_set hx with hx | rfl
    · exact h x hx
    · exact hc
  have app : ∀ c, c ≠ .counting 0 → ∀ x ∈ s.closers ++ [c], x ≠ .counting 0 := by
    intro c hc x hx
    rcases List.mem_append.mp hx with hx | hx
    · exact h x hx
    · rw [List.mem_singleton.mp hx]; exact hc
  unfold step
  split
  · exact h
  · cases e with
    | serve => simp only [live, onServe]; split <;> exact h
    | bind i r =>
      simp only [live]
      split
      · cases r <;> exact h
      · exact h
    | accept i r =>
      simp only [live]
      split
      · unfold onAccept; split
        · exact h
        all_goals split <;> exact h
      · exact h
    | wake i => simp only [live]; split <;> exact h
    | drain i =>
      simp only [live]
      split
      · split <;> exact h
      · exact h
    | close => simp only [live, onClose]; split <;> exact app _ (by simp)
    | tick j =>
      simp only [live]
      split
      next n _ =>
        match n with
        | 0 => exact h
        | 1 => exact set _ _ (by simp)
        | n + 2 => exact set _ _ (by simp)
      · exact h
    | shut j =>
      simp only [live]
      split
      · unfold onShut
        split
        · exact h
        · exact set _ _ (by simp)
      · exact h
    | unlisten => simp only [live]; split <;> exact h
    | opened c => simp only [live]; split <;> exact h
    | refused c => simp only [live]; split <;> exact h
    | hangup c => simp only [live]; split <;> exact h
    | watch c => simp only [live]; split <;> exact h
    | finish c => simp only [live]; split <;> exact h

theorem counts_run (evs : List Event) : Counts (run evs) := by
  induction evs using snocInd with
  | nil => intro c hc; simp [run] at hc
  | append_singleton evs e ih => rw [run_snoc]; exact counts_step ih e

/-- **C105 (nothing waits for ever).** After `srv.closing` has been closed: if nothing that the server does by
itself, given time, changes anything, then everything is finished. -/
theorem C105_finished (evs : List Event) (hcl : (run evs).closing = true) (hp : (run evs).panicked = false)
    (hq : ∀ e, own (run evs) e = true → step (run evs) e = run evs) : Finished (run evs) := by
  have hi := run_inv evs
  have hct := counts_run evs
  generalize run evs = s at *
  have hq' : ∀ e, own s e = true → live s e = s := fun e he => by rw [← step_live hp]; exact hq e he
  have hl : s.listener ≠ .open := by
    intro hl
    have := hq' .unlisten rfl
    simp only [live, hcl, hl, true_and, if_true] at this
    have := congrArg State.listener this
    simp [hl] at this
  have hconns : ∀ c ∈ s.conns, c = .gone := by
    intro c hc
    obtain ⟨i, hi⟩ := List.mem_iff_getElem?.mp hc
    cases c with
    | gone => rfl
    | opening =>
      have := hq' (.refused i) rfl
      simp only [live, hi, if_true] at this
      exact absurd this (conns_ne (set_ne_self hi (by simp)))
    | serving =>
      have := hq' (.watch i) rfl
      simp only [live, hi, hcl, true_and, if_true] at this
      exact absurd this (conns_ne (set_ne_self hi (by simp)))
    | closed =>
      have := hq' (.finish i) rfl
      simp only [live, hi, if_true] at this
      exact absurd this (conns_ne (set_ne_self hi (by simp)))
  refine ⟨?_, ?_, hconns, hl⟩
  · intro p hpm
    obtain ⟨i, hip⟩ := List.mem_iff_getElem?.mp hpm
    cases p with
    | returned e => exact ⟨e, rfl⟩
    | starting =>
      have := hq' (.bind i .badURL) rfl
      simp only [live, hip, if_true] at this
      exact absurd this (calls_ne (set_ne_self hip (by simp)))
    | accepting d =>
      have hcd : s.listener = .closed := by
        have := hi.bound i d (.inl hip)
        cases h : s.listener <;> simp_all
      have := hq' (.accept i .failed) (by simp [own, hcd])
      simp only [live, hip, outcome, hcd, if_true, onAccept] at this
      split at this
      all_goals exact absurd this (calls_ne (set_ne_self hip (by simp)))
    | sleeping d =>
      have := hq' (.wake i) rfl
      simp only [live, hip] at this
      exact absurd this (calls_ne (set_ne_self hip (by simp)))
    | waiting e =>
      have hid : idle s = true := by
        simp only [idle, List.all_eq_true, beq_iff_eq]; exact hconns
      have := hq' (.drain i) rfl
      simp only [live, hip, hid, if_true] at this
      exact absurd this (calls_ne (set_ne_self hip (by simp)))
  · intro c hc
    obtain ⟨j, hj⟩ := List.mem_iff_getElem?.mp hc
    cases c with
    | done => rfl
    | shutting =>
      have := hq' (.shut j) rfl
      simp only [live, hj, if_true, onShut, hcl] at this
      have := congrArg State.panicked this
      simp [hp] at this
    | counting n =>
      have := hq' (.tick j) rfl
      simp only [live, hj] at this
      match n with
      | 0 => exact absurd rfl (hct _ hc)
      | 1 => exact absurd this (closers_ne (set_ne_self hj (by simp)))
      | n + 2 => exact absurd this (closers_ne (set_ne_self hj (by simp)))

/-- Events that all do something, none of which is a call of the application or a new connection. -/
def Busy : State → List Event → Prop
  | _, [] => True
  | s, e :: evs => passive s e = true ∧ step s e ≠ s ∧ (step s e).panicked = false ∧ Busy (step s e) evs

theorem closing_step {s : State} (h : s.closing = true) (e : Event) : (step s e).closing = true := by
  unfold step
  split
  · exact h
  · cases e with
    | serve => simp only [live, onServe]; split <;> exact h
    | bind i r =>
      simp only [live]
      split
      · cases r <;> exact h
      · exact h
    | accept i r =>
      simp only [live]
      split
      · unfold onAccept; split
        · exact h
        all_goals split <;> exact h
      · exact h
    | wake i => simp only [live]; split <;> exact h
    | drain i =>
      simp only [live]
      split
      · split <;> exact h
      · exact h
    | close => simp only [live, onClose]; split <;> exact h
    | tick j =>
      simp only [live]
      split
      · unfold onTick; split <;> exact h
      · exact h
    | shut j =>
      simp only [live]
      split
      · unfold onShut; split <;> first | exact h | rfl
      · exact h
    | unlisten => simp only [live]; split <;> exact h
    | opened c => simp only [live]; split <;> exact h
    | refused c => simp only [live]; split <;> exact h
    | hangup c => simp only [live]; split <;> exact h
    | watch c => simp only [live]; split <;> exact h
    | finish c => simp only [live]; split <;> exact h

theorem busy_bound : ∀ (more : List Event) {s : State}, Inv s → s.closing = true → Busy s more → more.length ≤ toDo s
  | [], _, _, _, _ => Nat.zero_le _
  | e :: evs, s, hi, hc, hb => by
    have h1 := toDo_step hi hc e hb.1 hb.2.1 hb.2.2.1
    have h2 := busy_bound evs (step_inv hi e) (closing_step hc e) hb.2.2.2
    simp only [List.length_cons]
    omega

/-- **C105 (bounded).** After `srv.closing` has been closed there is a bound on how much can still happen,
whatever the clients and the timers do, apart from connections that are accepted before the listener is
closed and further calls of the application. With `C105_finished`: whoever keeps doing what can be done gets
to the end. -/
theorem C105_bounded (evs : List Event) (hcl : (run evs).closing = true) :
    ∃ n, ∀ more, Busy (run evs) more → more.length ≤ n :=
  ⟨toDo (run evs), fun more h => busy_bound more (run_inv evs) hcl h⟩

/-- The end of the life above, with another call of `ListenAndServe` in between. -/
example : (run (aLife ++ [.close, .tick 0, .tick 0, .tick 0, .shut 0, .serve])).closing = true := by decide
example : Busy (run (aLife ++ [.close, .tick 0, .tick 0, .tick 0, .shut 0, .serve]))
    [.unlisten, .accept 0 .conn, .hangup 0, .drain 0] := by
  refine ⟨by decide, by decide, by decide, by decide, by decide, by decide, by decide, by decide, by decide,
    by decide, by decide, by decide, trivial⟩

/-! ### One Close does not crash the server, and gives clients three seconds -/

/-- Events that have nothing to do with `Close`. -/
def calm : Event → Bool
  | .close => false
  | .tick _ => false
  | .shut _ => false
  | _ => true

theorem calm_step (s : State) (e : Event) (he : calm e = true) :
    (step s e).closers = s.closers ∧ (step s e).closing = s.closing ∧ (step s e).seconds = s.seconds ∧
      (step s e).panicked = s.panicked := by
  unfold step
  split
  · exact ⟨rfl, rfl, rfl, rfl⟩
  · cases e with
    | close => cases he
    | tick j => cases he
    | shut j => cases he
    | serve => simp only [live, onServe]; split <;> exact ⟨rfl, rfl, rfl, rfl⟩
    | bind i r =>
      simp only [live]
      split
      · cases r <;> exact ⟨rfl, rfl, rfl, rfl⟩
      · exact ⟨rfl, rfl, rfl, rfl⟩
    | accept i r =>
      simp only [live]
      split
      · unfold onAccept; split
        · exact ⟨rfl, rfl, rfl, rfl⟩
        all_goals split <;> exact ⟨rfl, rfl, rfl, rfl⟩
      · exact ⟨rfl, rfl, rfl, rfl⟩
    | wake i => simp only [live]; split <;> exact ⟨rfl, rfl, rfl, rfl⟩
    | drain i =>
      simp only [live]
      split
      · split <;> exact ⟨rfl, rfl, rfl, rfl⟩
      · exact ⟨rfl, rfl, rfl, rfl⟩
    | unlisten => simp only [live]; split <;> exact ⟨rfl, rfl, rfl, rfl⟩
    | opened c => simp only [live]; split <;> exact ⟨rfl, rfl, rfl, rfl⟩
    | refused c => simp only [live]; split <;> exact ⟨rfl, rfl, rfl, rfl⟩
    | hangup c => simp only [live]; split <;> exact ⟨rfl, rfl, rfl, rfl⟩
    | watch c => simp only [live]; split <;> exact ⟨rfl, rfl, rfl, rfl⟩
    | finish c => simp only [live]; split <;> exact ⟨rfl, rfl, rfl, rfl⟩

theorem closes_snoc (evs : List Event) (e : Event) : closes (evs ++ [e]) = closes evs + if e = .close then 1 else 0 := by
  unfold closes
  rw [List.filter_append, List.length_append]
  congr 1
  by_cases h : e = .close <;> simp [h]

theorem closers_inv (evs : List Event) :
    (run evs).closers.length ≤ closes evs ∧ ((run evs).closing = true → .done ∈ (run evs).closers) ∧
      (closes evs ≤ 1 → (run evs).panicked = false) := by
  induction evs using snocInd with
  | nil => exact ⟨by simp [run], by simp [run], fun _ => rfl⟩
  | append_singleton evs e ih =>
    obtain ⟨h1, h2, h3⟩ := ih
    rw [run_snoc, closes_snoc]
    by_cases he : calm e = true
    · obtain ⟨e1, e2, -, e4⟩ := calm_step (run evs) e he
      rw [e1, e2, e4]
      refine ⟨by omega, h2, fun h => h3 (by omega)⟩
    · cases hp : (run evs).panicked with
      | true =>
        rw [step_panicked hp]
        refine ⟨by omega, h2, fun h => ?_⟩
        rw [h3 (by omega)] at hp
        cases hp
      | false =>
        rw [step_live hp]
        cases e with
        | close =>
          simp only [if_true, live, onClose]
          split
          · refine ⟨by simp; omega, fun h => by simp [h2 h], fun _ => hp⟩
          · refine ⟨by simp; omega, fun h => by simp [h2 h], fun _ => hp⟩
        | tick j =>
          simp only [reduceCtorEq, if_false, Nat.add_zero, live]
          have keep : ∀ c, c ≠ .done → (∃ n, (run evs).closers[j]? = some (.counting n)) → .done ∈ (run evs).closers →
              Closer.done ∈ (run evs).closers.set j c := by
            rintro c hc ⟨n, hn⟩ hd
            obtain ⟨k, hk⟩ := List.mem_iff_getElem?.mp hd
            have hkj : j ≠ k := by rintro rfl; rw [hn] at hk; cases hk
            exact List.mem_iff_getElem?.mpr ⟨k, by rw [List.getElem?_set_ne hkj]; exact hk⟩
          split
          next n hn =>
            match n with
            | 0 => exact ⟨h1, h2, h3⟩
            | 1 => exact ⟨by simpa [onTick] using h1, fun h => keep _ (by simp) ⟨_, hn⟩ (h2 h), fun _ => hp⟩
            | n + 2 => exact ⟨by simpa [onTick] using h1, fun h => keep _ (by simp) ⟨_, hn⟩ (h2 h), fun _ => hp⟩
          · exact ⟨h1, h2, h3⟩
        | shut j =>
          simp only [reduceCtorEq, if_false, Nat.add_zero, live]
          split
          next hj =>
            unfold onShut
            split
            next hc =>
              refine ⟨h1, h2, fun h => ?_⟩
              have hd := h2 hc
              obtain ⟨k, hk⟩ := List.mem_iff_getElem?.mp hd
              have a := lt_of_getElem? hk
              have b := lt_of_getElem? hj
              have : j = k := by omega
              subst this
              rw [hj] at hk
              cases hk
            next hc =>
              refine ⟨by simpa using h1, fun _ => ?_, fun _ => hp⟩
              exact List.mem_iff_getElem?.mpr ⟨j, List.getElem?_set_self (lt_of_getElem? hj)⟩
          · exact ⟨h1, h2, h3⟩
        | _ => exact absurd rfl he

/-- **C105 (no crash, partial).** A server that is closed at most once does not crash in `Close`, whatever
else happens. Missing: a second call (C105_twice_fails). -/
theorem C105_single_partial (evs : List Event) (h : closes evs ≤ 1) : (run evs).panicked = false :=
  (closers_inv evs).2.2 h

example : closes (aLife ++ [.close, .tick 0, .tick 0, .tick 0, .shut 0, .serve]) ≤ 1 := by decide

/-- Seconds that have passed for the call `j` of `Close`. -/
def ticks (j : Nat) (evs : List Event) : Nat := (evs.filter (· == .tick j)).length

theorem ticks_snoc (j : Nat) (evs : List Event) (e : Event) :
    ticks j (evs ++ [e]) = ticks j evs + if e = .tick j then 1 else 0 := by
  unfold ticks
  rw [List.filter_append, List.length_append]
  congr 1
  by_cases h : e = .tick j <;> simp [h]

/-- The countdown. -/
def Counting (t : Nat) (s : State) : Prop :=
  s.seconds = 3 - t ∧
  ((t < 3 ∧ s.closers = [.counting (3 - t)] ∧ s.closing = false) ∨
    (3 ≤ t ∧ s.closers = [.shutting] ∧ s.closing = false) ∨ (3 ≤ t ∧ s.closers = [.done] ∧ s.closing = true))

/-- Nothing is closed before `srv.closing`. -/
def Kept (s : State) : Prop := s.closing = false → .closed ∉ s.conns ∧ s.listener ≠ .closed

theorem kept_step {s : State} (h : Kept s) (e : Event) : Kept (step s e) := by
  have set : ∀ c n, n ≠ .closed → s.closing = false → Conn.closed ∉ s.conns.set c n := by
    intro c n hn hc hm
    rcases List.mem_or_eq_of_mem_set hm with hm | hm
    · exact (h hc).1 hm
    · exact hn hm.symm
  unfold step
  split
  · exact h
  · cases e with
    | serve => simp only [live, onServe]; split <;> exact h
    | bind i r =>
      simp only [live]
      split
      · cases r with
        | badURL => exact h
        | busy => exact h
        | ok => exact fun hc => ⟨(h hc).1, by simp [onBind]⟩
      · exact h
    | accept i r =>
      simp only [live]
      split
      · unfold onAccept; split
        · exact fun hc => ⟨by simpa using (h hc).1, (h hc).2⟩
        all_goals split <;> exact h
      · exact h
    | wake i => simp only [live]; split <;> exact h
    | drain i =>
      simp only [live]
      split
      · split <;> exact h
      · exact h
    | close => simp only [live, onClose]; split <;> exact h
    | tick j =>
      simp only [live]
      split
      · unfold onTick; split <;> exact h
      · exact h
    | shut j =>
      simp only [live]
      split
      · unfold onShut; split
        · exact h
        · intro hc; cases hc
      · exact h
    | unlisten =>
      simp only [live]
      split
      next hc => intro hf; rw [hc.1] at hf; cases hf
      · exact h
    | opened c =>
      simp only [live]
      split
      · exact fun hc => ⟨set _ _ (by simp) hc, (h hc).2⟩
      · exact h
    | refused c =>
      simp only [live]
      split
      · exact fun hc => ⟨set _ _ (by simp) hc, (h hc).2⟩
      · exact h
    | hangup c =>
      simp only [live]
      split
      · exact fun hc => ⟨set _ _ (by simp) hc, (h hc).2⟩
      · exact h
    | watch c =>
      simp only [live]
      split
      next hc => intro hf; rw [hc.1] at hf; cases hf
      · exact h
    | finish c =>
      simp only [live]
      split
      · exact fun hc => ⟨set _ _ (by simp) hc, (h hc).2⟩
      · exact h

theorem kept_run (evs : List Event) : Kept (run evs) := by
  induction evs using snocInd with
  | nil => exact fun _ => ⟨by simp [run], by simp [run]⟩
  | append_singleton evs e ih => rw [run_snoc]; exact kept_step ih e

theorem closes_append (a b : List Event) : closes (a ++ b) = closes a + closes b := by simp [closes]

theorem counting_step {t : Nat} {s : State} (h : Counting t s) (hp : s.panicked = false) (e : Event) (he : e ≠ .close) :
    Counting (t + if e = .tick 0 then 1 else 0) (step s e) := by
  by_cases hcm : calm e = true
  · obtain ⟨e1, e2, e3, -⟩ := calm_step s e hcm
    have : e ≠ .tick 0 := by rintro rfl; cases hcm
    rw [if_neg this]
    unfold Counting
    rw [e1, e2, e3]
    exact h
  · rw [step_live hp]
    cases e with
    | close => exact absurd rfl he
    | tick j =>
      simp only [live, Event.tick.injEq]
      obtain ⟨hs, h | h | h⟩ := h
      · obtain ⟨ht, hc, hcl⟩ := h
        rw [hc]
        cases j with
        | succ j => simpa [Counting, hs, hc, hcl] using ht
        | zero =>
          simp only [List.getElem?_cons_zero, if_true]
          have : t = 0 ∨ t = 1 ∨ t = 2 := by omega
          rcases this with rfl | rfl | rfl <;> simp [Counting, onTick, hc, hcl]
      · obtain ⟨ht, hc, hcl⟩ := h
        rw [hc]
        cases j with
        | succ j => simp only [List.getElem?_cons_succ, List.getElem?_nil]; exact ⟨by simp [hs], .inr (.inl ⟨by omega, hc, hcl⟩)⟩
        | zero => simp only [List.getElem?_cons_zero, if_true]; exact ⟨by omega, .inr (.inl ⟨by omega, hc, hcl⟩)⟩
      · obtain ⟨ht, hc, hcl⟩ := h
        rw [hc]
        cases j with
        | succ j => simp only [List.getElem?_cons_succ, List.getElem?_nil]; exact ⟨by simp [hs], .inr (.inr ⟨by omega, hc, hcl⟩)⟩
        | zero => simp only [List.getElem?_cons_zero, if_true]; exact ⟨by omega, .inr (.inr ⟨by omega, hc, hcl⟩)⟩
    | shut j =>
      simp only [live, reduceCtorEq, if_false, Nat.add_zero]
      split
      next hj =>
        obtain ⟨hs, h | h | h⟩ := h
        · obtain ⟨ht, hc, hcl⟩ := h
          rw [hc] at hj
          cases j <;> simp at hj
        · obtain ⟨ht, hc, hcl⟩ := h
          rw [hc] at hj
          cases j with
          | succ j => simp at hj
          | zero => unfold onShut; rw [if_neg (by simp [hcl])]; exact ⟨hs, .inr (.inr ⟨ht, by simp [hc], rfl⟩)⟩
        · obtain ⟨ht, hc, hcl⟩ := h
          rw [hc] at hj
          cases j <;> simp at hj
      · exact h
    | _ => exact absurd rfl hcm

/-- **C105 (grace).** If a running server is closed, and closed once, then it announces for how many seconds
it goes on, counting from three, and neither connections nor the listener are closed before the three
seconds have passed. -/
theorem C105_grace (before after : List Event) (hr : (run before).status = .running) (hc : closes (before ++ after) = 0) :
    (run (before ++ .close :: after)).seconds = 3 - ticks 0 after ∧
    (ticks 0 after < 3 → (run (before ++ .close :: after)).closing = false ∧
      .closed ∉ (run (before ++ .close :: after)).conns ∧ (run (before ++ .close :: after)).listener ≠ .closed) := by
  rw [closes_append] at hc
  have hpan : ∀ more, closes more = 0 → (run (before ++ .close :: more)).panicked = false := by
    intro more hm
    refine C105_single_partial _ ?_
    rw [closes_append, show (Event.close :: more) = [.close] ++ more from rfl, closes_append]
    have : closes [.close] = 1 := rfl
    omega
  have key : Counting (ticks 0 after) (run (before ++ .close :: after)) := by
    induction after using snocInd with
    | nil =>
      have hb := closers_inv before
      have hcs : (run before).closers = [] := List.eq_nil_of_length_eq_zero (by omega)
      have hcl : (run before).closing = false := by
        cases h : (run before).closing with
        | false => rfl
        | true => have := hb.2.1 h; rw [hcs] at this; cases this
      rw [run_append, from_cons, step_live (hb.2.2 (by omega))]
      simp [from', live, onClose, hr, Counting, ticks, hcs, hcl]
    | append_singleton evs e ih =>
      rw [closes_snoc] at hc
      have he : e ≠ .close := by rintro rfl; simp at hc
      rw [if_neg he] at hc
      rw [ticks_snoc, show before ++ Event.close :: (evs ++ [e]) = (before ++ .close :: evs) ++ [e] by simp, run_snoc]
      exact counting_step (ih (by omega)) (hpan evs (by omega)) e he
  refine ⟨key.1, fun ht => ?_⟩
  have hcl : (run (before ++ .close :: after)).closing = false := by
    rcases key.2 with h | h | h
    · exact h.2.2
    · exact h.2.2
    · omega
  exact ⟨hcl, kept_run _ hcl⟩

example : (run aLife).status = .running ∧ closes (aLife ++ [.tick 0, .tick 0, .serve]) = 0 ∧ ticks 0 [.tick 0, .tick 0, .serve] < 3 ∧
    (run (aLife ++ .close :: [.tick 0, .tick 0, .serve])).seconds = 1 := by decide

/-! ### Waiting before Accept is tried again -/

/-- So many timeouts in a row. -/
def timeouts (i : Nat) : Nat → List Event
  | 0 => []
  | n + 1 => timeouts i n ++ [.accept i .timeout, .wake i]

theorem backoff_min (n : Nat) : backoff (min (5 * 2 ^ n) 1000) = min (5 * 2 ^ (n + 1)) 1000 := by
  have h : 0 < 2 ^ n := Nat.pow_pos (by omega)
  rw [Nat.pow_succ]
  unfold backoff
  generalize 2 ^ n = m at *
  have : min (5 * m) 1000 ≠ 0 := by omega
  simp only [this, if_false]
  split <;> omega

/-- The wait after so many timeouts in a row. -/
def lastWait : Nat → Nat
  | 0 => 0
  | k + 1 => min (5 * 2 ^ k) 1000

/-- **C105 (back off).** While a server runs, it tries `Accept` again after each timeout: after 5 ms, and then
after twice the time of the last wait, up to a second; a connection that is accepted starts this anew. -/
theorem C105_backoff (evs : List Event) (i d n : Nat) (hp : (run evs).panicked = false) (hr : (run evs).status = .running)
    (hl : (run evs).listener ≠ .closed) (ha : (run evs).calls[i]? = some (.accepting d)) :
    (run (evs ++ .accept i .conn :: timeouts i n ++ [.accept i .timeout])).calls[i]? = some (.sleeping (min (5 * 2 ^ n) 1000)) ∧
    (run (evs ++ .accept i .conn :: timeouts i (n + 1))).calls[i]? = some (.accepting (min (5 * 2 ^ n) 1000)) := by
  have base : ∀ m, ∃ s, run (evs ++ .accept i .conn :: timeouts i m) = s ∧ s.panicked = false ∧ s.status = .running ∧
      s.listener ≠ .closed ∧ s.calls[i]? = some (.accepting (lastWait m)) ∧
      (step s (.accept i .timeout)).calls[i]? = some (.sleeping (min (5 * 2 ^ m) 1000)) := by
    intro m
    have wait : ∀ (s : State) d, s.panicked = false → s.status = .running → s.listener ≠ .closed →
        s.calls[i]? = some (.accepting d) → step s (.accept i .timeout) = { s with calls := s.calls.set i (.sleeping (backoff d)) } := by
      intro s d h1 h2 h3 h4
      rw [step_live h1]
      simp [live, h4, outcome, h3, onAccept, h2]
    induction m with
    | zero =>
      have hlt := lt_of_getElem? ha
      refine ⟨_, rfl, ?_⟩
      rw [run_append, from_cons, step_live hp]
      simp only [timeouts, from', List.foldl_nil, live, ha, outcome, if_neg hl, onAccept]
      refine ⟨hp, hr, hl, by simp [hlt, lastWait], ?_⟩
      rw [wait _ 0 (by exact hp) (by exact hr) (by exact hl) (by simp [hlt])]
      simp [hlt, backoff]
    | succ m ih =>
      obtain ⟨s, h0, h1, h2, h3, h4, h5⟩ := ih
      have hlt := lt_of_getElem? h4
      have hb : backoff (lastWait m) = min (5 * 2 ^ m) 1000 := by
        cases m with
        | zero => rfl
        | succ k => exact backoff_min k
      refine ⟨_, rfl, ?_⟩
      rw [timeouts, show evs ++ Event.accept i Accept.conn :: (timeouts i m ++ [Event.accept i Accept.timeout, Event.wake i]) =
        (evs ++ .accept i .conn :: timeouts i m) ++ [.accept i .timeout] ++ [.wake i] by simp, run_snoc, run_snoc, h0,
        wait s _ h1 h2 h3 h4, hb, step_live (by exact h1)]
      simp only [live, List.getElem?_set_self hlt]
      refine ⟨h1, h2, h3, by simp [hlt, lastWait], ?_⟩
      rw [wait _ (min (5 * 2 ^ m) 1000) (by exact h1) (by exact h2) (by exact h3) (by simp [hlt])]
      simp [hlt, backoff_min]
  refine ⟨?_, ?_⟩
  · obtain ⟨s, h0, -, -, -, -, h5⟩ := base n
    rw [run_snoc, h0]
    exact h5
  · obtain ⟨s, h0, -, -, -, h4, -⟩ := base (n + 1)
    rw [h0]
    exact h4

example : (run aLife).panicked = false ∧ (run aLife).status = .running ∧ (run aLife).listener ≠ .closed ∧
    (run aLife).calls[0]? = some (.accepting 5) := by decide
example : (run (aLife ++ .accept 0 .conn :: timeouts 0 9 ++ [.accept 0 .timeout])).calls[0]? = some (.sleeping 1000) := by decide

/-! ### Where it fails -/

/-- **C105 fails (twice).** A second call of `Close` ends the process: closing a closed channel panics. This
does not need a coincidence; the second call also cuts the three seconds short. -/
theorem C105_twice_fails :
    (run (aLife ++ [.close, .tick 0, .close, .shut 1])).closing = true ∧
    (run (aLife ++ [.close, .tick 0, .close, .shut 1, .tick 0, .tick 0, .shut 0])).panicked = true ∧
    (run [.close, .shut 0, .close, .shut 1]).panicked = true := by decide

/-- **C105 fails (close first).** `ListenAndServe` after `Close` returns BadInternalError, not BadServerHalted
as its documentation says. -/
theorem C105_closeFirst_fails : (run [.close, .shut 0, .serve]).calls = [.returned (some .badInternalError)] := by decide

/-- What a call has returned stays. -/
theorem returned_step {s : State} {i : Nat} {r : Option Code} (h : s.calls[i]? = some (.returned r)) (e : Event) :
    (step s e).calls[i]? = some (.returned r) := by
  have other : ∀ (j : Nat) q p, s.calls[j]? = some q → q ≠ .returned r → (s.calls.set j p)[i]? = some (.returned r) := by
    intro j q p hj hq
    have : j ≠ i := by rintro rfl; rw [h] at hj; injection hj with hj; exact hq hj.symm
    rw [List.getElem?_set_ne this]
    exact h
  unfold step
  split
  · exact h
  · cases e with
    | serve => simp only [live, onServe]; split <;> exact (List.getElem?_append_left (lt_of_getElem? h)).trans h
    | bind j r =>
      simp only [live]
      split
      next hj => cases r <;> exact other j _ _ hj (by simp)
      · exact h
    | accept j r =>
      simp only [live]
      split
      next d hj =>
        unfold onAccept; split
        · exact other j _ _ hj (by simp)
        all_goals split <;> exact other j _ _ hj (by simp)
      · exact h
    | wake j =>
      simp only [live]
      split
      next d hj => exact other j _ _ hj (by simp)
      · exact h
    | drain j =>
      simp only [live]
      split
      next d hj =>
        split
        · exact other j _ _ hj (by simp)
        · exact h
      · exact h
    | close => simp only [live, onClose]; split <;> exact h
    | tick j =>
      simp only [live]
      split
      · unfold onTick; split <;> exact h
      · exact h
    | shut j =>
      simp only [live]
      split
      · unfold onShut; split <;> exact h
      · exact h
    | unlisten => simp only [live]; split <;> exact h
    | opened c => simp only [live]; split <;> exact h
    | refused c => simp only [live]; split <;> exact h
    | hangup c => simp only [live]; split <;> exact h
    | watch c => simp only [live]; split <;> exact h
    | finish c => simp only [live]; split <;> exact h

/-- **C105 fails (retry).** If the port is in use at first, then the server can never be started: every
further call of `ListenAndServe` is refused, also when the port has become free. -/
theorem C105_retry_fails (more : List Event) :
    Returned (run [.serve, .bind 0 .busy]) 0 (some .badResourceUnavailable) ∧
    ∀ i, Serving (run ([.serve, .bind 0 .busy] ++ more)) i → i = 0 := by
  refine ⟨by unfold Returned; decide, ?_⟩
  intro i hi
  have h0 : Serving (run ([.serve, .bind 0 .busy] ++ more)) 0 := by
    rw [run_append]
    have : ∀ s, s.calls[0]? = some (.returned (some .badResourceUnavailable)) →
        (from' s more).calls[0]? = some (.returned (some .badResourceUnavailable)) := by
      clear hi
      induction more with
      | nil => intro s h; exact h
      | cons e more ih => intro s h; exact ih _ (returned_step h e)
    exact ⟨_, this _ (by decide), by simp⟩
  exact (run_inv _).one i 0 hi h0

/-- **C105 fails (Accept).** An error of `Accept` that is not a timeout, such as too many open files, ends
`serve`: while one client stays connected, `ListenAndServe` does not return, no new connection is
accepted, and yet the server still says that it runs and keeps its port. -/
theorem C105_fatal_fails :
    let s := run (aLife ++ [.accept 0 .failed])
    s.status = .running ∧ s.listener = .open ∧ s.calls = [.waiting (some .badTCPInternalError)] ∧
    (∀ r, step s (.accept 0 r) = s) ∧ step s (.drain 0) = s ∧
    Returned (run (aLife ++ [.accept 0 .failed, .hangup 0, .drain 0])) 0 (some .badTCPInternalError) ∧
    (run (aLife ++ [.accept 0 .failed, .hangup 0, .drain 0])).listener = .open ∧
    (run (aLife ++ [.accept 0 .failed, .hangup 0, .drain 0])).status = .running := by
  refine ⟨by decide, by decide, by decide, ?_, by decide, ?_, by decide, by decide⟩
  · intro r; cases r <;> decide
  · unfold Returned; decide

end Opcua.ServerLife
