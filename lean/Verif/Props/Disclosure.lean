import Verif.Model.Disclosure
import Verif.Lemmas.Lists

/-!
# C144: A client is told only what its user may have

The rights are those of the OPC UA standard, as the server keeps them in `World`; `Spec.MayHave` says what they permit.
-/

namespace Opcua.Disclosure

namespace Spec

/-- The user may have this. -/
def MayHave (w : World) (user : Nat) : Datum → Prop
  | .value n _ => w.browse user n = true ∧ w.readable n = true ∧ w.read user n = true
  | .attr n _ => w.browse user n = true
  | .event n _ => w.receive user n = true
  | .status _ => True

/-- A request that does not reach for the subscriptions of another session, and is not HistoryRead. -/
def Fair (st : State) : Ev → Prop
  | .history _ _ => False
  | .create s k _ _ _ _ => ∀ u ∈ st.subs k, u.session = s
  | .republish s k _ => ∀ u ∈ st.subs k, u.session = s
  | _ => True

/-- At every event. -/
def Always (w : World) (p : State → Ev → Prop) (evs : List Ev) : Prop :=
  ∀ before e after, evs = before ++ e :: after → p (run w before) e

/-- A session that changes its user changes to one with at least the same rights. -/
def Rises (w : World) (st : State) : Ev → Prop
  | .activate s user => ∀ old, st.sessions s = .active old → ∀ d, MayHave w old d → MayHave w user d
  | _ => True

/-- What the session was told. -/
def heardBy (s : Nat) (st : State) : List (Nat × Datum) := (st.told.filter (fun x => decide (x.1 = s))).map (·.2)

/-- Two histories that differ at most in the values that the node `n` is given. -/
def SameBut (n : Nat) (a b : List Ev) : Prop :=
  a.length = b.length ∧ ∀ (i : Nat) (x y : Ev), a[i]? = some x → b[i]? = some y → x = y ∨ ∃ v v', x = .write n v ∧ y = .write n v'

end Spec

open Spec

theorem Spec.Always.init {w : World} {p : State → Ev → Prop} {evs : List Ev} {e : Ev} (h : Always w p (evs ++ [e])) : Always w p evs :=
  fun before x after hx => h before x (after ++ [e]) (by rw [hx]; simp)

theorem Spec.Always.last {w : World} {p : State → Ev → Prop} {evs : List Ev} {e : Ev} (h : Always w p (evs ++ [e])) : p (run w evs) e :=
  h evs e [] rfl

theorem run_snoc (w : World) (evs : List Ev) (e : Ev) : run w (evs ++ [e]) = step w (run w evs) e := by
  simp [run, List.foldl_append]

/-! ## What the subscriptions hold -/

/-- `P s d`: the session `s` may be told `d`. All that the items and the retransmission queue hold may be told to the session
of the subscription, as may every event that an item listens for. -/
structure ItemOk (P : Nat → Datum → Prop) (s : Nat) (i : Item) : Prop where
  pre : ∀ d ∈ i.pre, P s d
  queue : ∀ d ∈ i.queue, P s d
  event : i.event = true → ∀ e, P s (.event i.node e)

structure SubOk (P : Nat → Datum → Prop) (u : Sub) : Prop where
  items : ∀ i ∈ u.items, ItemOk P u.session i
  sent : ∀ m ∈ u.sent, ∀ d ∈ m.2, P u.session d

def Held (P : Nat → Datum → Prop) (st : State) : Prop := ∀ k u, st.subs k = some u → SubOk P u

/-- The current users of the sessions agree with `P`. -/
structure Users (w : World) (P : Nat → Datum → Prop) (st : State) : Prop where
  may : ∀ s user, st.sessions s = .active user → ∀ d, MayHave w user d → P s d
  status : ∀ s x, P s (.status x)

theorem ItemOk.mono {P Q : Nat → Datum → Prop} {s : Nat} {i : Item} (h : ItemOk P s i) (hq : ∀ d, P s d → Q s d) : ItemOk Q s i :=
  ⟨fun d hd => hq d (h.pre d hd), fun d hd => hq d (h.queue d hd), fun he e => hq _ (h.event he e)⟩

theorem SubOk.mono {P Q : Nat → Datum → Prop} {u : Sub} (h : SubOk P u) (hq : ∀ d, P u.session d → Q u.session d) : SubOk Q u :=
  ⟨fun i hi => (h.items i hi).mono hq, fun m hm d hd => hq d (h.sent m hm d hd)⟩

theorem readValue_may (w : World) (vals : Nat → Nat) (user n a : Nat) : MayHave w user (readValue w vals user n a) := by
  unfold readValue
  repeat' split
  all_goals first | trivial | skip
  all_goals simp_all [MayHave]

theorem sample_ok {w : World} {P : Nat → Datum → Prop} {st : State} (h : Users w P st) (u : Sub) (i : Item) : P u.session (sample w st u i) := by
  unfold sample
  split
  · rename_i user hu; exact h.may _ _ hu _ (readValue_may _ _ _ _ _)
  · exact h.status _ _

theorem start_ok {w : World} {P : Nat → Datum → Prop} {st : State} (h : Users w P st) {u : Sub} {i : Item} (hi : ItemOk P u.session i) :
    ItemOk P u.session (start w st u i) := by
  unfold start
  split
  · exact hi
  · refine ⟨fun d hd => ?_, hi.queue, hi.event⟩
    rcases List.mem_append.1 hd with hd | hd
    · exact hi.pre d hd
    · rw [List.mem_singleton.1 hd]; exact sample_ok h u i

theorem onItem_held {P : Nat → Datum → Prop} {st : State} {k id : Nat} {f : Sub → Item → Item} (h : Held P st)
    (hf : ∀ u i, ItemOk P u.session i → ItemOk P u.session (f u i)) : Held P (st.onItem k id f) := by
  intro j u hu
  simp only [State.onItem] at hu
  cases hj : st.subs j with
  | none => rw [hj] at hu; cases hu
  | some v =>
    rw [hj] at hu
    have hv := h j v hj
    simp only [Option.map_some, Option.some.injEq] at hu
    subst hu
    split
    · refine ⟨fun i hi => ?_, hv.sent⟩
      obtain ⟨i', hi', rfl⟩ := List.mem_map.1 hi
      have := hv.items i' hi'
      split
      · exact hf v i' this
      · exact this
    · exact hv

theorem set_held {P : Nat → Datum → Prop} {st : State} {k : Nat} {x : Option Sub} {t : List (Nat × Nat × Datum)} (h : Held P st)
    (hx : ∀ u, x = some u → SubOk P u) : Held P { st with subs := set st.subs k x, told := t } := by
  intro j u hu
  simp only [set] at hu
  split at hu
  · exact hx u hu
  · exact h j u hu

theorem createStatus_may {w : World} {user n a : Nat} (h : createStatus w user n a = .good) (ha : a = attrEventNotifier) (e : Nat) :
    MayHave w user (.event n e) := by
  subst ha
  unfold createStatus at h
  simp only [attrEventNotifier, attrValue] at h
  repeat' split at h
  all_goals first | cases h | skip
  all_goals simp_all [MayHave]

/-- Nothing enters a subscription that may not be told to its session. -/
theorem step_held {w : World} {P : Nat → Datum → Prop} {st : State} (hu : Users w P st) (h : Held P st) (e : Ev) (hf : Fair st e) :
    Held P (step w st e) := by
  cases e with
  | openSession s => simp only [step]; split <;> exact h
  | activate s user => simp only [step]; split <;> exact h
  | close s => exact h
  | read s n a => simp only [step]; split <;> exact h
  | history s n => exact hf.elim
  | subscribe s k =>
    simp only [step]
    split
    · exact set_held h (fun u hx => by cases hx; exact ⟨(fun i hi => by cases hi), (fun m hm => by cases hm)⟩)
    · exact h
  | unsubscribe k => exact set_held h (fun u hx => by cases hx)
  | create s k id n a mode =>
    simp only [step, create]
    split
    · rename_i user u hs hk
      split
      · rename_i hg
        refine set_held h (fun v hx => ?_)
        cases hx
        have hv := h k u hk
        refine ⟨fun i hi => ?_, hv.sent⟩
        rcases List.mem_append.1 hi with hi | hi
        · exact hv.items i hi
        · rw [List.mem_singleton.1 hi]
          refine start_ok hu ⟨fun d hd => (by cases hd), fun d hd => (by cases hd), fun he e => ?_⟩
          have hown : u.session = s := hf u hk
          rw [hown]
          exact hu.may s user hs _ (createStatus_may hg (by simpa using he) e)
      · exact h
    · exact h
  | delete k id =>
    intro j u hx
    simp only [step] at hx
    cases hj : st.subs j with
    | none => rw [hj] at hx; cases hx
    | some v =>
      rw [hj] at hx
      have hv := h j v hj
      simp only [Option.map_some, Option.some.injEq] at hx
      subst hx
      split
      · exact ⟨fun i hi => hv.items i (List.mem_filter.1 hi).1, hv.sent⟩
      · exact hv
  | setMode k id mode =>
    refine onItem_held h (fun u i hi => ?_)
    unfold setMode
    split
    · exact hi
    · apply start_ok hu
      split
      · exact ⟨hi.pre, (fun d hd => by cases hd), hi.event⟩
      · exact ⟨hi.pre, hi.queue, hi.event⟩
  | poll k id => exact onItem_held h (fun u i hi => start_ok hu hi)
  | offer k id keep =>
    refine onItem_held h (fun u i hi => ?_)
    unfold offer
    split
    · exact hi
    · rename_i d ds hp
      refine ⟨fun x hx => hi.pre x (by rw [hp]; exact List.mem_cons_of_mem _ hx), fun x hx => ?_, hi.event⟩
      simp only at hx
      split at hx
      · rcases List.mem_append.1 hx with hx | hx
        · exact hi.queue x hx
        · rw [List.mem_singleton.1 hx]; exact hi.pre d (by rw [hp]; exact List.mem_cons_self)
      · exact hi.queue x hx
  | discard k id n =>
    exact onItem_held h (fun u i hi => ⟨hi.pre, fun d hd => hi.queue d (List.mem_of_mem_eraseIdx hd), hi.event⟩)
  | raise n e =>
    intro j u hx
    simp only [step] at hx
    cases hj : st.subs j with
    | none => rw [hj] at hx; cases hx
    | some v =>
      rw [hj] at hx
      have hv := h j v hj
      simp only [Option.map_some, Option.some.injEq] at hx
      subst hx
      refine ⟨fun i hi => ?_, hv.sent⟩
      obtain ⟨i', hi', rfl⟩ := List.mem_map.1 hi
      have h1 := hv.items i' hi'
      unfold hear
      split
      · rename_i hc
        refine ⟨h1.pre, fun d hd => ?_, h1.event⟩
        rcases List.mem_append.1 hd with hd | hd
        · exact h1.queue d hd
        · rw [List.mem_singleton.1 hd]; exact h1.event hc.1 e
      · exact h1
  | write n v => exact h
  | publish k count =>
    simp only [step, publish]
    split
    · exact h
    · rename_i u hk
      have hv := h k u hk
      split
      · refine set_held h (fun v hx => ?_)
        cases hx
        refine ⟨fun i hi => ?_, fun m hm d hd => ?_⟩
        · obtain ⟨i', hi', rfl⟩ := List.mem_map.1 hi
          have h1 := hv.items i' hi'
          exact ⟨h1.pre, fun d hd => h1.queue d (List.mem_of_mem_drop hd), h1.event⟩
        · rcases List.mem_append.1 hm with hm | hm
          · exact hv.sent m hm d hd
          · rw [List.mem_singleton.1 hm] at hd
            obtain ⟨i, hi, hd⟩ := List.mem_flatMap.1 hd
            exact (hv.items i hi).queue d (List.mem_of_mem_take hd)
      · exact h
  | republish s k seq =>
    simp only [step, republish]
    split
    · rename_i user u hs hk
      have hv := h k u hk
      split
      · exact set_held h (fun v hx => by cases hx; exact ⟨hv.items, fun m hm => hv.sent m (List.mem_filter.1 hm).1⟩)
      · exact h
    · exact h
  | acknowledge k seq =>
    intro j u hx
    simp only [step] at hx
    cases hj : st.subs j with
    | none => rw [hj] at hx; cases hx
    | some v =>
      rw [hj] at hx
      have hv := h j v hj
      simp only [Option.map_some, Option.some.injEq] at hx
      subst hx
      split
      · exact ⟨hv.items, fun m hm => hv.sent m (List.mem_filter.1 hm).1⟩
      · exact hv

/-- Nothing is told that may not be, and the user named is the one that the session has. -/
theorem step_told {w : World} {P : Nat → Datum → Prop} {st : State} (hu : Users w P st) (h : Held P st) (e : Ev) (hf : Fair st e) :
    ∃ new, (step w st e).told = st.told ++ new ∧ ∀ x ∈ new, P x.1 x.2.2 ∧ st.sessions x.1 = .active x.2.1 := by
  have none_ : ∀ t : State, t.told = st.told → ∃ new, t.told = st.told ++ new ∧ ∀ x ∈ new, P x.1 x.2.2 ∧ st.sessions x.1 = .active x.2.1 :=
    fun t ht => ⟨[], by simp [ht], by simp⟩
  have one : ∀ (t : State) (s user : Nat) (ds : List Datum), t.told = st.told → st.sessions s = .active user → (∀ d ∈ ds, P s d) →
      ∃ new, (t.tell s user ds).told = st.told ++ new ∧ ∀ x ∈ new, P x.1 x.2.2 ∧ st.sessions x.1 = .active x.2.1 := by
    intro t s user ds ht hs hd
    refine ⟨ds.map (fun d => (s, user, d)), by simp [State.tell, ht], fun x hx => ?_⟩
    obtain ⟨d, hd', rfl⟩ := List.mem_map.1 hx
    exact ⟨hd d hd', hs⟩
  cases e with
  | openSession s => simp only [step]; split <;> exact none_ _ rfl
  | activate s user => simp only [step]; split <;> exact none_ _ rfl
  | close s => exact none_ _ rfl
  | read s n a =>
    simp only [step]
    split
    · rename_i user hs
      exact one st s user _ rfl hs (fun d hd => by rw [List.mem_singleton.1 hd]; exact hu.may s user hs _ (readValue_may _ _ _ _ _))
    · exact none_ _ rfl
  | history s n => exact hf.elim
  | subscribe s k => simp only [step]; split <;> exact none_ _ rfl
  | unsubscribe k => exact none_ _ rfl
  | create s k id n a mode =>
    simp only [step, create]
    split
    · rename_i user u hs hk
      split
      · exact one _ s user _ rfl hs (fun d hd => by rw [List.mem_singleton.1 hd]; exact hu.status _ _)
      · exact one _ s user _ rfl hs (fun d hd => by rw [List.mem_singleton.1 hd]; exact hu.status _ _)
    · exact none_ _ rfl
  | delete k id => exact none_ _ rfl
  | setMode k id mode => exact none_ _ rfl
  | poll k id => exact none_ _ rfl
  | offer k id keep => exact none_ _ rfl
  | discard k id n => exact none_ _ rfl
  | raise n e => exact none_ _ rfl
  | write n v => exact none_ _ rfl
  | publish k count =>
    simp only [step, publish]
    split
    · exact none_ _ rfl
    · rename_i u hk
      have hv := h k u hk
      split
      · rename_i user hs
        refine one _ u.session user _ rfl hs (fun d hd => ?_)
        obtain ⟨i, hi, hd⟩ := List.mem_flatMap.1 hd
        exact (hv.items i hi).queue d (List.mem_of_mem_take hd)
      · exact none_ _ rfl
  | republish s k seq =>
    simp only [step, republish]
    split
    · rename_i user u hs hk
      have hv := h k u hk
      split
      · rename_i m hm
        refine one _ s user _ rfl hs (fun d hd => ?_)
        have hown : u.session = s := hf u hk
        have := hv.sent m (List.mem_of_find?_eq_some hm) d hd
        rwa [hown] at this
      · exact one _ s user _ rfl hs (fun d hd => by rw [List.mem_singleton.1 hd]; exact hu.status _ _)
    · exact none_ _ rfl
  | acknowledge k seq => exact none_ _ rfl

/-! ## Histories -/

theorem step_sessions {w : World} {st : State} {e : Ev} {s user : Nat} (h : (step w st e).sessions s = .active user) :
    e = .activate s user ∨ st.sessions s = .active user := by
  cases e with
  | openSession s0 =>
    simp only [step] at h
    split at h
    · simp only [set] at h
      split at h
      · cases h
      · exact .inr h
    · exact .inr h
  | activate s0 u0 =>
    simp only [step] at h
    have key : ∀ t : State, t.sessions s = .active user → t.sessions = set st.sessions s0 (.active u0) →
        Ev.activate s0 u0 = .activate s user ∨ st.sessions s = .active user := by
      intro t h1 h2
      rw [h2] at h1
      simp only [set] at h1
      split at h1
      · rename_i h0; cases h1; exact .inl (by rw [h0])
      · exact .inr h1
    split at h
    · exact key _ h rfl
    · exact key _ h rfl
    · exact .inr h
  | close s0 =>
    simp only [step, set] at h
    split at h
    · cases h
    · exact .inr h
  | read s0 n a => simp only [step] at h; split at h <;> exact .inr h
  | history s0 n => simp only [step] at h; split at h <;> exact .inr h
  | subscribe s0 k => simp only [step] at h; split at h <;> exact .inr h
  | unsubscribe k => exact .inr h
  | create s0 k id n a mode =>
    simp only [step, create] at h
    split at h
    · split at h <;> exact .inr h
    · exact .inr h
  | delete k id => exact .inr h
  | setMode k id mode => exact .inr h
  | poll k id => exact .inr h
  | offer k id keep => exact .inr h
  | discard k id n => exact .inr h
  | raise n e => exact .inr h
  | write n v => exact .inr h
  | publish k count =>
    simp only [step, publish] at h
    split at h
    · exact .inr h
    · split at h <;> exact .inr h
  | republish s0 k seq =>
    simp only [step, republish] at h
    split at h
    · split at h <;> exact .inr h
    · exact .inr h
  | acknowledge k seq => exact .inr h

/-- The session was activated for a user that may have this. -/
def Was (w : World) (evs : List Ev) (s : Nat) (d : Datum) : Prop :=
  (∃ x, d = .status x) ∨ ∃ user, Ev.activate s user ∈ evs ∧ MayHave w user d

theorem Was.mono {w : World} {evs : List Ev} {e : Ev} {s : Nat} {d : Datum} (h : Was w evs s d) : Was w (evs ++ [e]) s d := by
  rcases h with h | ⟨user, h1, h2⟩
  · exact .inl h
  · exact .inr ⟨user, by simp [h1], h2⟩

theorem run_was (w : World) (evs : List Ev) (hf : Always w Fair evs) : Held (Was w evs) (run w evs) ∧
    (∀ s user, (run w evs).sessions s = .active user → Ev.activate s user ∈ evs) ∧
    ∀ x ∈ (run w evs).told, Was w evs x.1 x.2.2 := by
  induction evs using snocInd with
  | nil => exact ⟨fun k u h => (by cases h), fun s u h => (by cases h), fun x hx => (by cases hx)⟩
  | append_singleton evs e ih =>
    obtain ⟨h1, h2, h3⟩ := ih hf.init
    have hu : Users w (Was w evs) (run w evs) :=
      ⟨fun s user hs d hd => .inr ⟨user, h2 s user hs, hd⟩, fun s x => .inl ⟨x, rfl⟩⟩
    rw [run_snoc]
    refine ⟨?_, ?_, ?_⟩
    · intro k u hk
      exact (step_held hu h1 e hf.last k u hk).mono (fun d hd => hd.mono)
    · intro s user hs
      rcases step_sessions hs with h | h
      · simp [h]
      · simp [h2 s user h]
    · obtain ⟨new, hn, hx⟩ := step_told hu h1 e hf.last
      intro x hx'
      rw [hn] at hx'
      rcases List.mem_append.1 hx' with hx' | hx'
      · exact (h3 x hx').mono
      · exact (hx x hx').1.mono

/-- **C144 (session, partial).** Whatever a session is told, it was activated at some time for a user that may have it,
as long as nobody reaches for the subscriptions of others or reads history.
Missing: HistoryRead (`C144_history_fails`), Republish (`C144_republish_fails`) and CreateMonitoredItems
(`C144_foreign_fails`) on subscriptions of others. -/
theorem C144_session_partial (w : World) (evs : List Ev) (hf : Always w Fair evs) (s user : Nat) (d : Datum)
    (h : (s, user, d) ∈ (run w evs).told) : (∃ x, d = .status x) ∨ ∃ u, Ev.activate s u ∈ evs ∧ MayHave w u d :=
  (run_was w evs hf).2.2 _ h

/-- The user that the session has may have this. -/
def Now (w : World) (st : State) (s : Nat) (d : Datum) : Prop := ∀ user, st.sessions s = .active user → MayHave w user d

/-- The sessions of the subscriptions have been activated. -/
def Begun (st : State) : Prop := ∀ k u, st.subs k = some u → st.sessions u.session ≠ .idle ∧ st.sessions u.session ≠ .unborn

theorem step_begun_session {w : World} {st : State} {e : Ev} {s : Nat} (h : st.sessions s ≠ .idle ∧ st.sessions s ≠ .unborn) :
    (step w st e).sessions s ≠ .idle ∧ (step w st e).sessions s ≠ .unborn := by
  cases e with
  | openSession s0 =>
    simp only [step]
    split
    · simp only [set]
      split
      · rename_i h0 h1; subst h1; exact absurd h0 h.2
      · exact h
    · exact h
  | activate s0 u0 =>
    simp only [step]
    split
    · simp only [set]; split
      · simp
      · exact h
    · simp only [set]; split
      · simp
      · exact h
    · exact h
  | close s0 =>
    simp only [step, set]
    split
    · simp
    · exact h
  | read s0 n a => simp only [step]; split <;> exact h
  | history s0 n => simp only [step]; split <;> exact h
  | subscribe s0 k => simp only [step]; split <;> exact h
  | unsubscribe k => exact h
  | create s0 k id n a mode =>
    simp only [step, create]
    split
    · split <;> exact h
    · exact h
  | delete k id => exact h
  | setMode k id mode => exact h
  | poll k id => exact h
  | offer k id keep => exact h
  | discard k id n => exact h
  | raise n e => exact h
  | write n v => exact h
  | publish k count =>
    simp only [step, publish]
    split
    · exact h
    · split <;> exact h
  | republish s0 k seq =>
    simp only [step, republish]
    split
    · split <;> exact h
    · exact h
  | acknowledge k seq => exact h

/-- Where the subscriptions of the next state come from. -/
theorem step_subs {w : World} {st : State} {e : Ev} {k : Nat} {u : Sub} (h : (step w st e).subs k = some u) :
    (∃ u0, st.subs k = some u0 ∧ u0.session = u.session) ∨ ∃ user, st.sessions u.session = .active user := by
  have same : ∀ {x : Option Sub}, x = some u → st.subs k = x → (∃ u0, st.subs k = some u0 ∧ u0.session = u.session) ∨
      ∃ user, st.sessions u.session = .active user := fun h1 h2 => .inl ⟨u, h2.trans h1, rfl⟩
  have mapped : ∀ f : Sub → Sub, (∀ v, (f v).session = v.session) → (st.subs k).map f = some u →
      (∃ u0, st.subs k = some u0 ∧ u0.session = u.session) ∨ ∃ user, st.sessions u.session = .active user := by
    intro f hf h
    cases hk : st.subs k with
    | none => rw [hk] at h; cases h
    | some v => rw [hk] at h; cases h; exact .inl ⟨v, rfl, (hf v).symm⟩
  have put : ∀ (j : Nat) (v v' : Sub), st.subs j = some v → v'.session = v.session → set st.subs j (some v') k = some u →
      (∃ u0, st.subs k = some u0 ∧ u0.session = u.session) ∨ ∃ user, st.sessions u.session = .active user := by
    intro j v v' hj hv h
    simp only [set] at h
    split at h
    · rename_i h0; cases h; exact .inl ⟨v, h0 ▸ hj, hv.symm⟩
    · exact .inl ⟨u, h, rfl⟩
  cases e with
  | openSession s0 => simp only [step] at h; split at h <;> exact .inl ⟨u, h, rfl⟩
  | activate s0 u0 => simp only [step] at h; split at h <;> exact .inl ⟨u, h, rfl⟩
  | close s0 => exact .inl ⟨u, h, rfl⟩
  | read s0 n a => simp only [step] at h; split at h <;> exact .inl ⟨u, h, rfl⟩
  | history s0 n => simp only [step] at h; split at h <;> exact .inl ⟨u, h, rfl⟩
  | subscribe s0 j =>
    simp only [step] at h
    split at h
    · rename_i user hs hj
      simp only [set] at h
      split at h
      · cases h; exact .inr ⟨user, hs⟩
      · exact .inl ⟨u, h, rfl⟩
    · exact .inl ⟨u, h, rfl⟩
  | unsubscribe j =>
    simp only [step, set] at h
    split at h
    · cases h
    · exact .inl ⟨u, h, rfl⟩
  | create s0 j id n a mode =>
    simp only [step, create] at h
    split at h
    · rename_i v hs hj
      split at h
      · exact put j v _ hj (by rfl) h
      · exact .inl ⟨u, h, rfl⟩
    · exact .inl ⟨u, h, rfl⟩
  | delete j id => exact mapped _ (fun v => by split <;> rfl) h
  | setMode j id mode => exact mapped _ (fun v => by split <;> rfl) h
  | poll j id => exact mapped _ (fun v => by split <;> rfl) h
  | offer j id keep => exact mapped _ (fun v => by split <;> rfl) h
  | discard j id n => exact mapped _ (fun v => by split <;> rfl) h
  | raise n e => exact mapped _ (fun v => by rfl) h
  | write n v => exact .inl ⟨u, h, rfl⟩
  | publish j count =>
    simp only [step, publish] at h
    split at h
    · exact .inl ⟨u, h, rfl⟩
    · rename_i v hj
      split at h
      · exact put j v _ hj (by rfl) h
      · exact .inl ⟨u, h, rfl⟩
  | republish s0 j seq =>
    simp only [step, republish] at h
    split at h
    · rename_i v hs hj
      split at h
      · exact put j v _ hj (by rfl) h
      · exact .inl ⟨u, h, rfl⟩
    · exact .inl ⟨u, h, rfl⟩
  | acknowledge j seq => exact mapped _ (fun v => by split <;> rfl) h

theorem step_begun {w : World} {st : State} (h : Begun st) (e : Ev) : Begun (step w st e) := by
  intro k u hk
  apply step_begun_session
  rcases step_subs hk with ⟨u0, h0, h1⟩ | ⟨user, hs⟩
  · rw [← h1]; exact h k u0 h0
  · rw [hs]; simp

theorem run_now (w : World) (evs : List Ev) (hf : Always w Fair evs) (hr : Always w (Rises w) evs) :
    Held (Now w (run w evs)) (run w evs) ∧ Begun (run w evs) ∧ ∀ x ∈ (run w evs).told, MayHave w x.2.1 x.2.2 := by
  induction evs using snocInd with
  | nil => exact ⟨fun k u h => (by cases h), fun k u h => (by cases h), fun x hx => (by cases hx)⟩
  | append_singleton evs e ih =>
    obtain ⟨h1, h2, h3⟩ := ih hf.init hr.init
    have hu : Users w (Now w (run w evs)) (run w evs) := by
      refine ⟨fun s user hs d hd u2 hs2 => ?_, fun s x user _ => trivial⟩
      rw [hs] at hs2
      cases hs2
      exact hd
    rw [run_snoc]
    refine ⟨?_, step_begun h2 e, ?_⟩
    · intro k u hk
      refine (step_held hu h1 e hf.last k u hk).mono (fun d hd user hs => ?_)
      rcases step_sessions hs with h | h
      · subst h
        have hb : (run w evs).sessions u.session ≠ .idle ∧ (run w evs).sessions u.session ≠ .unborn := by
          rcases step_subs hk with ⟨u0, h0, h4⟩ | ⟨user, hs⟩
          · rw [← h4]; exact h2 k u0 h0
          · rw [hs]; simp
        cases hold : (run w evs).sessions u.session with
        | unborn => exact absurd hold hb.2
        | idle => exact absurd hold hb.1
        | active old => exact hr.last old hold d (hd old hold)
        | ended =>
          simp only [step, hold] at hs
          cases hs
      · exact hd user h
    · obtain ⟨new, hn, hx⟩ := step_told hu h1 e hf.last
      intro x hx'
      rw [hn] at hx'
      rcases List.mem_append.1 hx' with hx' | hx'
      · exact h3 x hx'
      · exact (hx x hx').1 _ (hx x hx').2

/-- **C144 (user, partial).** Whatever a session is told, the user that it has at that moment may have it, as long as
sessions change only to users with at least the same rights, and nobody reaches for the subscriptions of others or reads
history. Missing: changes to users with fewer rights (`C144_switch_fails`). -/
theorem C144_told_partial (w : World) (evs : List Ev) (hf : Always w Fair evs) (hr : Always w (Rises w) evs) (s user : Nat) (d : Datum)
    (h : (s, user, d) ∈ (run w evs).told) : MayHave w user d :=
  (run_now w evs hf hr).2.2 _ h

/-! ## What is not told cannot be guessed -/

/-- The value of the node `n` is taken out. -/
def eraseD (n : Nat) : Datum → Datum
  | .value m v => .value m (if m = n then 0 else v)
  | d => d

def eraseI (n : Nat) (i : Item) : Item := { i with pre := i.pre.map (eraseD n), queue := i.queue.map (eraseD n) }

def eraseU (n : Nat) (u : Sub) : Sub :=
  { u with items := u.items.map (eraseI n), sent := u.sent.map (fun m => (m.1, m.2.map (eraseD n))) }

def eraseVals (n : Nat) (vals : Nat → Nat) : Nat → Nat := fun m => if m = n then 0 else vals m

def eraseSt (n : Nat) (st : State) : State :=
  { st with subs := fun k => (st.subs k).map (eraseU n), vals := eraseVals n st.vals,
            told := st.told.map (fun x => (x.1, x.2.1, eraseD n x.2.2)) }

def eraseE (n : Nat) : Ev → Ev
  | .write m v => .write m (if m = n then 0 else v)
  | e => e

theorem erase_read (w : World) (n : Nat) (vals : Nat → Nat) (user m a : Nat) :
    readValue w (eraseVals n vals) user m a = eraseD n (readValue w vals user m a) := by
  unfold readValue
  repeat' split
  all_goals rfl

theorem erase_sessions (n : Nat) (st : State) : (eraseSt n st).sessions = st.sessions := rfl

theorem erase_subsAt (n : Nat) (st : State) (k : Nat) : (eraseSt n st).subs k = (st.subs k).map (eraseU n) := rfl

theorem erase_sample (w : World) (n : Nat) (st : State) (u : Sub) (i : Item) :
    sample w (eraseSt n st) (eraseU n u) (eraseI n i) = eraseD n (sample w st u i) := by
  have e : (eraseSt n st).sessions (eraseU n u).session = st.sessions u.session := rfl
  simp only [sample, e]
  cases st.sessions u.session <;> simp only
  · rfl
  · rfl
  · exact erase_read ..
  · rfl

theorem erase_start (w : World) (n : Nat) (st : State) (u : Sub) (i : Item) :
    start w (eraseSt n st) (eraseU n u) (eraseI n i) = eraseI n (start w st u i) := by
  unfold start
  rw [erase_sample]
  change (if i.mode = 0 ∨ i.event = true then _ else _) = _
  split
  · rfl
  · simp [eraseI]

theorem erase_tell (n : Nat) (st : State) (s user : Nat) (ds : List Datum) :
    (eraseSt n st).tell s user (ds.map (eraseD n)) = eraseSt n (st.tell s user ds) := by
  simp [State.tell, eraseSt, Function.comp_def]

theorem erase_set (n : Nat) (st : State) (k : Nat) (x : Option Sub) :
    { eraseSt n st with subs := set (eraseSt n st).subs k (x.map (eraseU n)) } = eraseSt n { st with subs := set st.subs k x } := by
  unfold eraseSt set
  simp only [State.mk.injEq, and_true, true_and]
  funext j
  split <;> rfl

theorem erase_onItem (n : Nat) (st : State) (k id : Nat) (f g : Sub → Item → Item) (h : ∀ u i, g (eraseU n u) (eraseI n i) = eraseI n (f u i)) :
    (eraseSt n st).onItem k id g = eraseSt n (st.onItem k id f) := by
  unfold State.onItem eraseSt
  simp only [State.mk.injEq, and_true, true_and]
  funext j
  simp only [Option.map_map]
  congr 1
  funext u
  simp only [Function.comp_def]
  split
  · simp only [eraseU, List.map_map, Sub.mk.injEq, and_true, true_and]
    apply List.map_congr_left
    intro i _
    simp only [Function.comp_def]
    change (if i.id = id then _ else _) = _
    split
    · exact h u i
    · rfl
  · rfl

theorem erase_subs (n : Nat) (st : State) (f g : Nat → Sub → Sub) (h : ∀ j u, g j (eraseU n u) = eraseU n (f j u)) :
    { eraseSt n st with subs := fun j => ((eraseSt n st).subs j).map (g j) } = eraseSt n { st with subs := fun j => (st.subs j).map (f j) } := by
  unfold eraseSt
  simp only [State.mk.injEq, and_true, true_and]
  funext j
  simp only [Option.map_map]
  congr 1
  funext u
  exact h j u

theorem eraseIdx_map {α β : Type} (f : α → β) (l : List α) : ∀ i : Nat, (l.map f).eraseIdx i = (l.eraseIdx i).map f := by
  induction l with
  | nil => intro i; rfl
  | cons x l ih =>
    intro i
    cases i with
    | zero => rfl
    | succ i => simp [ih]

/-- Taking the values of `n` out commutes with everything that happens. -/
theorem erase_step (w : World) (n : Nat) (st : State) (e : Ev) : step w (eraseSt n st) (eraseE n e) = eraseSt n (step w st e) := by
  cases e with
  | openSession s =>
    simp only [eraseE, step]
    change (if st.sessions s = .unborn then _ else _) = _
    split <;> rfl
  | activate s user =>
    simp only [eraseE, step, erase_sessions]
    cases st.sessions s <;> rfl
  | close s => rfl
  | read s m a =>
    simp only [eraseE, step, erase_sessions]
    cases st.sessions s <;> simp only
    rw [← erase_tell]
    simp only [List.map_cons, List.map_nil, ← erase_read]
    rfl
  | history s m =>
    simp only [eraseE, step, erase_sessions]
    cases st.sessions s <;> simp only
    rw [← erase_tell]
    rfl
  | subscribe s k =>
    simp only [eraseE, step, erase_sessions, erase_subsAt]
    cases hs : st.sessions s <;> cases hk : st.subs k <;> simp only [Option.map_none, Option.map_some]
    exact erase_set n st k (some { session := s })
  | unsubscribe k => exact erase_set n st k none
  | create s k id m a mode =>
    simp only [eraseE, step, create, erase_sessions, erase_subsAt]
    cases hs : st.sessions s <;> cases hk : st.subs k <;> simp only [Option.map_none, Option.map_some]
    rename_i user u
    split
    · rw [← erase_tell, ← erase_set]
      have h1 := erase_start w n st u { id := id, node := m, attr := a, event := decide (a = attrEventNotifier), mode := mode }
      have h2 : eraseI n { id := id, node := m, attr := a, event := decide (a = attrEventNotifier), mode := mode } =
        { id := id, node := m, attr := a, event := decide (a = attrEventNotifier), mode := mode } := rfl
      rw [h2] at h1
      rw [h1]
      simp only [Option.map_some, eraseU, List.map_append, List.map_cons, List.map_nil, eraseD]
      rfl
    · rw [← erase_tell]; rfl
  | delete k id =>
    refine erase_subs n st (fun j u => if j = k then { u with items := u.items.filter (fun i => i.id != id) } else u) _ (fun j u => ?_)
    split
    · simp only [eraseU, List.filter_map, Function.comp_def, eraseI]
    · rfl
  | setMode k id mode =>
    refine erase_onItem n st k id _ _ (fun u i => ?_)
    unfold setMode
    change (if i.mode = mode then _ else _) = _
    split
    · rfl
    · rw [← erase_start]
      congr 1
      split <;> rfl
  | poll k id => exact erase_onItem n st k id _ _ (fun u i => erase_start w n st u i)
  | offer k id keep =>
    refine erase_onItem n st k id _ _ (fun u i => ?_)
    cases hp : i.pre with
    | nil => simp [offer, eraseI, hp]
    | cons d ds => simp [offer, eraseI, hp]; split <;> simp
  | discard k id j =>
    refine erase_onItem n st k id _ _ (fun u i => ?_)
    simp [eraseI, eraseIdx_map]
  | raise m e =>
    refine erase_subs n st (fun _ u => { u with items := u.items.map (hear w m e) }) _ (fun j u => ?_)
    simp only [eraseU, Sub.mk.injEq, and_true, true_and, List.map_map]
    apply List.map_congr_left
    intro i _
    simp only [Function.comp_def, hear]
    change (if i.event = true ∧ i.mode ≠ 0 ∧ i.node ∈ w.heard m then _ else _) = _
    split
    · simp [eraseI, eraseD]
    · rfl
  | write m v =>
    simp only [eraseE, step, eraseSt, State.mk.injEq, and_true, true_and]
    funext j
    simp only [set, eraseVals]
    by_cases h1 : j = m
    · subst h1; simp
    · simp [h1]
  | publish k count =>
    simp only [eraseE, step, publish, erase_sessions, erase_subsAt]
    cases hk : st.subs k with
    | none => rfl
    | some u =>
      simp only [Option.map_some]
      have e : (eraseU n u).session = u.session := rfl
      simp only [e]
      cases hs : st.sessions u.session <;> simp only
      rename_i user
      have hd : (eraseU n u).items.flatMap (fun i => i.queue.take (count i.id)) = (u.items.flatMap (fun i => i.queue.take (count i.id))).map (eraseD n) := by
        simp [eraseU, eraseI, List.flatMap_map, List.map_flatMap, List.map_take]
      rw [hd, ← erase_tell, ← erase_set]
      simp [eraseU, eraseI, Function.comp_def, List.map_drop]
      rfl
  | republish s k seq =>
    simp only [eraseE, step, republish, erase_sessions, erase_subsAt]
    cases hs : st.sessions s <;> cases hk : st.subs k <;> simp only [Option.map_none, Option.map_some]
    rename_i user u
    have hf : (eraseU n u).sent.find? (fun m => m.1 == seq) = (u.sent.find? (fun m => m.1 == seq)).map (fun m => (m.1, m.2.map (eraseD n))) := by
      simp [eraseU, List.find?_map, Function.comp_def]
    rw [hf]
    cases u.sent.find? (fun m => m.1 == seq) with
    | none => simp only [Option.map_none]; rw [← erase_tell]; rfl
    | some m =>
      simp only [Option.map_some]
      rw [← erase_tell, ← erase_set]
      simp [eraseU, List.filter_map, Function.comp_def]
      rfl
  | acknowledge k seq =>
    refine erase_subs n st (fun j u => if j = k then { u with sent := u.sent.filter (fun m => m.1 != seq) } else u) _ (fun j u => ?_)
    split
    · simp only [eraseU, List.filter_map, Function.comp_def]
    · rfl

theorem erase_run (w : World) (n : Nat) (evs : List Ev) : run w (evs.map (eraseE n)) = eraseSt n (run w evs) := by
  induction evs using snocInd with
  | nil =>
    simp only [List.map_nil, run, List.foldl_nil, eraseSt, State.mk.injEq, List.map_nil, and_true, true_and]
    refine ⟨rfl, ?_⟩
    funext m
    simp [eraseVals]
  | append_singleton evs e ih =>
    rw [List.map_append, List.map_cons, List.map_nil, run_snoc, run_snoc, ih, erase_step]

/-- **C144 (blind, partial).** A session none of whose users may have the value of a node is told the same whatever values
the node has: two histories that differ only in them look alike to it. (Which values pass the filters of other clients and
how many are published at a time is part of the histories.) -/
theorem C144_blind_partial (w : World) (n s : Nat) (a b : List Ev) (hab : SameBut n a b)
    (hfa : Always w Fair a) (hfb : Always w Fair b)
    (hn : ∀ user, Ev.activate s user ∈ a → ¬ (w.browse user n = true ∧ w.readable n = true ∧ w.read user n = true)) :
    heardBy s (run w a) = heardBy s (run w b) := by
  have hmap : a.map (eraseE n) = b.map (eraseE n) := by
    apply List.ext_getElem?
    intro i
    simp only [List.getElem?_map]
    cases ha : a[i]? with
    | none =>
      have : b[i]? = none := by
        rw [List.getElem?_eq_none_iff] at ha ⊢
        have := hab.1
        omega
      rw [this]
    | some x =>
      cases hb : b[i]? with
      | none =>
        rw [List.getElem?_eq_none_iff] at hb
        have h1 := (List.getElem?_eq_some_iff.1 ha).1
        have := hab.1
        omega
      | some y =>
        rcases hab.2 i x y ha hb with h | ⟨v, v', rfl, rfl⟩
        · rw [h]
        · simp [eraseE]
  have hb : ∀ user, Ev.activate s user ∈ b → ¬ (w.browse user n = true ∧ w.readable n = true ∧ w.read user n = true) := by
    intro user hu
    apply hn
    have h1 : eraseE n (.activate s user) ∈ b.map (eraseE n) := List.mem_map_of_mem hu
    rw [← hmap] at h1
    obtain ⟨x, hx, hxe⟩ := List.mem_map.1 h1
    cases x <;> simp only [eraseE] at hxe <;> first | cases hxe | skip
    exact hx
  have key : ∀ evs : List Ev, Always w Fair evs → (∀ user, Ev.activate s user ∈ evs → ¬ (w.browse user n = true ∧ w.readable n = true ∧ w.read user n = true)) →
      heardBy s (run w (evs.map (eraseE n))) = heardBy s (run w evs) := by
    intro evs hf hn
    rw [erase_run]
    have hw := (run_was w evs hf).2.2
    unfold heardBy eraseSt
    simp only
    generalize (run w evs).told = l at hw
    induction l with
    | nil => rfl
    | cons x l ih =>
      have ih := ih (fun y hy => hw y (List.mem_cons_of_mem _ hy))
      simp only [List.map_cons, List.filter_cons]
      by_cases hx : x.1 = s
      · simp only [hx, decide_true, if_true, List.map_cons, ih]
        congr 1
        obtain ⟨s0, user, d⟩ := x
        simp only at hx
        subst hx
        simp only [Prod.mk.injEq, true_and]
        cases d with
        | value m v =>
          simp only [eraseD, Datum.value.injEq, true_and]
          split
          · rename_i h0
            subst h0
            rcases hw _ List.mem_cons_self with ⟨_, h⟩ | ⟨u, h1, h2⟩
            · cases h
            · exact absurd h2 (hn u h1)
          · rfl
        | attr m v => rfl
        | event m e => rfl
        | status x => rfl
      · simp only [hx, decide_false, Bool.false_eq_true, if_false, ih]
  rw [← key a hfa hn, ← key b hfb hb, hmap]

/-- **C144 (read).** Read tells the value of a variable to exactly those who may have it, as it is. -/
theorem C144_read (w : World) (st : State) (s user n : Nat) (hs : st.sessions s = .active user)
    (hk : w.known n = true) (hv : w.isVariable n = true) :
    ∃ d, (step w st (.read s n attrValue)).told = st.told ++ [(s, user, d)] ∧
      (d = .value n (st.vals n) ↔ w.browse user n = true ∧ w.readable n = true ∧ w.read user n = true) ∧ (d = .value n (st.vals n) ∨ ∃ x, d = .status x) := by
  refine ⟨readValue w st.vals user n attrValue, by simp [step, hs, State.tell], ?_, ?_⟩
  · cases h1 : w.browse user n <;> cases h2 : w.read user n <;> cases hr : w.readable n <;> simp [readValue, hk, hv, hr, h1, h2]
  · cases h1 : w.browse user n <;> cases h2 : w.read user n <;> cases hr : w.readable n <;> simp [readValue, hk, hv, hr, h1, h2]

/-! ## Where it fails, and examples -/

namespace Ex

/-- A variable, 1, and an object, 2. User 1 may do everything, user 2 nothing with them. -/
def w : World where
  known n := decide (n = 1 ∨ n = 2)
  isVariable n := decide (n = 1)
  isObject n := decide (n = 2)
  hasAttr _ _ := true
  readable n := decide (n = 1)
  subscribable n := decide (n = 2)
  browse u _ := decide (u = 1)
  read u _ := decide (u = 1)
  receive u _ := decide (u = 1)
  heard n := [n]

/-- Session 5, of user 1, watches the variable and the object in subscription 9. -/
def watch : List Ev :=
  [.openSession 5, .activate 5 1, .write 1 33, .subscribe 5 9, .create 5 9 70 1 13 2, .create 5 9 71 2 12 2, .offer 9 70 true]

/-- Session 6 is of user 2, and tries. -/
def guest : List Ev :=
  [.openSession 6, .activate 6 2, .read 6 1 13, .subscribe 6 10, .create 6 10 80 1 13 2, .create 6 10 81 2 12 2, .raise 2 77, .write 1 34, .poll 9 70,
    .offer 9 70 true, .publish 9 (fun _ => 5), .publish 10 (fun _ => 5), .read 6 1 1]

end Ex

theorem always_of {w : World} {p : State → Ev → Prop} {evs : List Ev} (h : ∀ i, (hi : i < evs.length) → p (run w (evs.take i)) evs[i]) :
    Always w p evs := by
  intro before e after he
  have hl : before.length < evs.length := by rw [he]; simp
  have := h before.length hl
  simpa [he] using this

instance (st : State) : DecidablePred (Fair st) := fun e => by
  cases e <;> simp only [Fair] <;> infer_instance

theorem Ex.fair : Always Ex.w Fair (Ex.watch ++ Ex.guest) := by
  apply always_of
  decide +kernel

example : Always Ex.w (Rises Ex.w) (Ex.watch ++ Ex.guest) := by
  apply always_of
  intro i hi
  match i, hi with
  | 1, _ =>
    intro old h
    have h0 : (run Ex.w (List.take 1 (Ex.watch ++ Ex.guest))).sessions 5 = .idle := by decide +kernel
    rw [h0] at h
    cases h
  | 8, _ =>
    intro old h
    have h0 : (run Ex.w (List.take 8 (Ex.watch ++ Ex.guest))).sessions 6 = .idle := by decide +kernel
    rw [h0] at h
    cases h
  | n + 20, h => exact absurd h (by simp [Ex.watch, Ex.guest])
  | 0, _ | 2, _ | 3, _ | 4, _ | 5, _ | 6, _ | 7, _ | 9, _ | 10, _ | 11, _ | 12, _ | 13, _ | 14, _ | 15, _ | 16, _ | 17, _ | 18, _ | 19, _ => trivial

/-- User 1 is told both values and the event, user 2 only refusals. -/
example : (run Ex.w (Ex.watch ++ Ex.guest)).told =
    [(5, 1, .status .good), (5, 1, .status .good), (6, 2, .status .badNodeIDUnknown), (6, 2, .status .badUserAccessDenied),
      (6, 2, .status .badUserAccessDenied), (5, 1, .value 1 33), (5, 1, .value 1 34), (5, 1, .event 2 77), (6, 2, .status .badNodeIDUnknown)] := by
  decide +kernel
example : ∀ user, Ev.activate 6 user ∈ Ex.watch ++ Ex.guest → ¬ (Ex.w.browse user 1 = true ∧ Ex.w.readable 1 = true ∧ Ex.w.read user 1 = true) := by
  intro user h
  simp [Ex.watch, Ex.guest] at h
  subst h
  decide
example : heardBy 6 (run Ex.w (Ex.watch ++ Ex.guest)) = [(2, .status .badNodeIDUnknown), (2, .status .badUserAccessDenied),
    (2, .status .badUserAccessDenied), (2, .status .badNodeIDUnknown)] := by decide +kernel

/-- **C144 (change of user) fails.** When user 2 takes over the session of user 1, the value that was read for user 1 and an
event that is raised afterwards are both told to user 2, and the message with them can be had again. -/
theorem C144_switch_fails :
    let evs := Ex.watch ++ [.activate 5 2, .raise 2 77, .publish 9 (fun _ => 5), .republish 5 9 1]
    Always Ex.w Fair evs ∧
    (run Ex.w evs).told.drop 2 = [(5, 2, .value 1 33), (5, 2, .event 2 77), (5, 2, .value 1 33), (5, 2, .event 2 77)] ∧
    ¬ MayHave Ex.w 2 (.value 1 33) ∧ ¬ MayHave Ex.w 2 (.event 2 77) := by
  refine ⟨always_of (by decide +kernel), by decide +kernel, ?_, ?_⟩ <;> simp [MayHave, Ex.w]

/-- **C144 (Republish) fails.** Any session is given the messages of the subscriptions of others. -/
theorem C144_republish_fails :
    let evs := Ex.watch ++ [.raise 2 77, .publish 9 (fun _ => 5), .openSession 6, .activate 6 2, .republish 6 9 1]
    heardBy 6 (run Ex.w evs) = [(2, .value 1 33), (2, .event 2 77)] ∧ ¬ MayHave Ex.w 2 (.value 1 33) ∧ ¬ MayHave Ex.w 2 (.event 2 77) := by
  refine ⟨by decide +kernel, ?_, ?_⟩ <;> simp [MayHave, Ex.w]

/-- **C144 (items in subscriptions of others) fails.** With the rights of user 1 an item is put into the subscription of
user 2, who is told its events from then on. -/
theorem C144_foreign_fails :
    let evs := [.openSession 5, .activate 5 1, .openSession 6, .activate 6 2, .subscribe 6 10, .create 5 10 71 2 12 2, .raise 2 77, .publish 10 (fun _ => 5)]
    heardBy 6 (run Ex.w evs) = [(2, .event 2 77)] ∧ ¬ MayHave Ex.w 2 (.event 2 77) := by
  refine ⟨by decide +kernel, ?_⟩
  simp [MayHave, Ex.w]

/-- **C144 (history) fails.** HistoryRead looks at no right at all. -/
theorem C144_history_fails :
    heardBy 6 (run Ex.w [.openSession 6, .activate 6 2, .write 1 33, .history 6 1]) = [(2, .value 1 33)] ∧ ¬ MayHave Ex.w 2 (.value 1 33) := by
  refine ⟨by decide +kernel, ?_⟩
  simp [MayHave, Ex.w]

/-- **C144 (existence) fails.** Read does not tell a node that the user may not see from one that does not exist;
CreateMonitoredItems does. -/
theorem C144_hidden_fails : createStatus Ex.w 2 1 attrValue ≠ createStatus Ex.w 2 3 attrValue ∧
    readValue Ex.w (fun _ => 0) 2 1 attrValue = readValue Ex.w (fun _ => 0) 2 3 attrValue := by decide +kernel

end Opcua.Disclosure
