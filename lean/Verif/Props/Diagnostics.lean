import Verif.Model.Diagnostics
import Verif.Lemmas.Lists

/-! What a server publishes about itself: C106 (sessions and subscriptions), C107 (security diagnostics
of a session), C108 (counters of requests), and the unlocked map of C84. -/

namespace Opcua.Diagnostics

namespace Spec

/-- The sessions that exist, told from what the clients saw. -/
def liveStep (l : List Nat) : Out → List Nat
  | .created id => l ++ [id]
  | .closed id => l.filter (fun i => i != id)
  | .timedOut id => l.filter (fun i => i != id)
  | _ => l

def live (outs : List Out) : List Nat := outs.foldl liveStep []

/-- The subscriptions that exist, each with the session it was created in. -/
def liveSubStep (l : List (Nat × Nat)) : Out → List (Nat × Nat)
  | .subCreated node session => l ++ [(node, session)]
  | .subEnded node => l.filter (fun i => i.1 != node)
  | _ => l

def liveSubs (outs : List Out) : List (Nat × Nat) := outs.foldl liveSubStep []

def isCreated : Out → Bool
  | .created _ => true
  | _ => false

def isTimedOut : Out → Bool
  | .timedOut _ => true
  | _ => false

def isClosed : Out → Bool
  | .closed _ => true
  | _ => false

def isSubCreated : Out → Bool
  | .subCreated _ _ => true
  | _ => false

/-- The sessions and subscriptions that a history tries to create. -/
def newSession : Ev → Option Sess
  | .createSession x => some x
  | _ => none

def newSub : Ev → Option Sub
  | .createSub x => some x
  | _ => none

/-- Tokens and session ids are random and long, and so are the ids of the nodes of subscriptions; ids
of subscriptions are not used again before 2^32 were created. -/
structure Fresh (evs : List Ev) : Prop where
  tokens : ((evs.filterMap newSession).map (·.token)).Nodup
  ids : ((evs.filterMap newSession).map (·.id)).Nodup
  subIds : ((evs.filterMap newSub).map (·.id)).Nodup
  subNodes : ((evs.filterMap newSub).map (·.node)).Nodup

/-- The sessions an event may end. -/
def ends : Ev → List Nat
  | .closeSession id => [id]
  | .expireSessions ids => ids
  | _ => []

/-- No session ends before the subscriptions that were created in it. -/
def Orderly (s : State) (evs : List Ev) : Prop :=
  ∀ a e b, evs = a ++ e :: b → ∀ id ∈ ends e, ∀ x ∈ liveSubs (run s a).2, x.2 ≠ id

end Spec

open Spec

def init (enabled : Bool) (maxSessions maxSubs : Nat) : State :=
  { enabled := enabled, maxSessions := maxSessions, maxSubs := maxSubs }

theorem run_snoc (s : State) (a : List Ev) (e : Ev) : run s (a ++ [e]) = step (run s a) e := by simp [run]

theorem live_append (a b : List Out) : live (a ++ b) = b.foldl liveStep (live a) := by simp [live]
theorem liveSubs_append (a b : List Out) : liveSubs (a ++ b) = b.foldl liveSubStep (liveSubs a) := by simp [liveSubs]

theorem Spec.Fresh.init {evs : List Ev} {e : Ev} (h : Fresh (evs ++ [e])) : Fresh evs := by
  obtain ⟨h1, h2, h3, h4⟩ := h
  simp only [List.filterMap_append, List.map_append, List.nodup_append] at h1 h2 h3 h4
  exact ⟨h1.1, h2.1, h3.1, h4.1⟩

/-- The node of a session. -/
def sessionOf : Node → Option Nat
  | .session id => some id
  | .sub _ _ => none

def subOf : Node → Option Nat
  | .session _ => none
  | .sub n _ => some n

theorem belongs_session (i id : Nat) : (Node.session i).belongs id = (i == id) := rfl
theorem belongs_sub (n : Nat) (p : Option Nat) (id : Nat) : (Node.sub n p).belongs id = (p == some id) := rfl
theorem isSub_session (i n : Nat) : (Node.session i).isSub n = false := rfl
theorem isSub_sub (k : Nat) (p : Option Nat) (n : Nat) : (Node.sub k p).isSub n = (k == n) := rfl

theorem sessionOf_remove (nodes : List Node) (id : Nat) :
    (removeSessionNode nodes id).filterMap sessionOf = (nodes.filterMap sessionOf).filter (fun i => i != id) := by
  unfold removeSessionNode
  have key : ∀ l : List Node, (l.filter (fun n => !n.belongs id)).filterMap sessionOf
      = (l.filterMap sessionOf).filter (fun i => i != id) := by
    intro l
    induction l with
    | nil => rfl
    | cons n l ih =>
      cases n with
      | session i =>
        by_cases h : i = id
        · subst h; simp [List.filter_cons, List.filterMap_cons, belongs_session, belongs_sub, sessionOf, ih]
        · simp [List.filter_cons, List.filterMap_cons, belongs_session, belongs_sub, sessionOf, ih, h]
      | sub k p =>
        by_cases h : p = some id
        · simp [List.filter_cons, List.filterMap_cons, belongs_session, belongs_sub, sessionOf, ih, h]
        · simp [List.filter_cons, List.filterMap_cons, belongs_session, belongs_sub, sessionOf, ih, h]
  split
  · exact key nodes
  · rename_i h
    symm
    rw [List.filter_eq_self]
    intro i hi
    simp only [List.mem_filterMap] at hi
    obtain ⟨n, hn, hs⟩ := hi
    cases n with
    | sub k p => simp [sessionOf] at hs
    | session j =>
      simp only [sessionOf, Option.some.injEq] at hs
      subst hs
      simp only [List.any_eq_true, not_exists, not_and] at h
      have := h _ hn
      simp only [Node.isSession, beq_iff_eq] at this
      simpa using this

theorem sessionOf_removeSub (nodes : List Node) (node : Nat) :
    (removeSubNode nodes node).filterMap sessionOf = nodes.filterMap sessionOf := by
  unfold removeSubNode
  induction nodes with
  | nil => rfl
  | cons n l ih =>
    cases n with
    | session i => simp [List.filter_cons, List.filterMap_cons, isSub_session, isSub_sub, sessionOf, ih]
    | sub k p =>
      by_cases h : k = node
      · simp [List.filter_cons, List.filterMap_cons, isSub_session, isSub_sub, sessionOf, ih, h]
      · simp [List.filter_cons, List.filterMap_cons, isSub_session, isSub_sub, sessionOf, ih, h]

theorem subOf_removeSub (nodes : List Node) (node : Nat) :
    (removeSubNode nodes node).filterMap subOf = (nodes.filterMap subOf).filter (fun i => i != node) := by
  unfold removeSubNode
  induction nodes with
  | nil => rfl
  | cons n l ih =>
    cases n with
    | session i => simp [List.filter_cons, List.filterMap_cons, isSub_session, isSub_sub, subOf, ih]
    | sub k p =>
      by_cases h : k = node
      · simp [List.filter_cons, List.filterMap_cons, isSub_session, isSub_sub, subOf, ih, h]
      · simp [List.filter_cons, List.filterMap_cons, isSub_session, isSub_sub, subOf, ih, h]

/-- Removing the node of a session below which there is no subscription leaves the others. -/
theorem subOf_remove (nodes : List Node) (id : Nat) (h : ∀ n, Node.sub n (some id) ∉ nodes) :
    (removeSessionNode nodes id).filterMap subOf = nodes.filterMap subOf := by
  unfold removeSessionNode
  split
  · rename_i hx
    clear hx
    induction nodes with
    | nil => rfl
    | cons n l ih =>
      have ih := ih (fun n hn => h n (List.mem_cons_of_mem _ hn))
      cases n with
      | session i =>
        by_cases e : i = id
        · simp [List.filter_cons, List.filterMap_cons, belongs_session, belongs_sub, subOf, ih, e]
        · simp [List.filter_cons, List.filterMap_cons, belongs_session, belongs_sub, subOf, ih, e]
      | sub k p =>
        have : p ≠ some id := by
          intro e; subst e; exact h k List.mem_cons_self
        simp [List.filter_cons, List.filterMap_cons, belongs_session, belongs_sub, subOf, ih, this]
  · rfl

theorem mem_removeSession {nodes : List Node} {id : Nat} {n : Node} (h : n ∈ removeSessionNode nodes id) : n ∈ nodes := by
  unfold removeSessionNode at h
  split at h
  · exact (List.mem_filter.1 h).1
  · exact h

/-! ### The loop of `checkForExpiredSessions` -/

theorem expire_sessions (gone : List Sess) : ∀ s : State,
    (gone.foldl expireSession s).sessions = s.sessions.filter (fun y => !gone.any (fun x => x.token == y.token)) := by
  induction gone with
  | nil => intro s; symm; rw [List.foldl_nil, List.filter_eq_self]; intro y _; rfl
  | cons x gone ih =>
    intro s
    rw [List.foldl_cons, ih]
    have : (expireSession s x).sessions = s.sessions.filter (fun y => y.token != x.token) := by
      unfold expireSession
      dsimp only
      split <;> rfl
    rw [this, List.filter_filter]
    apply List.filter_congr
    intro y _
    simp only [List.any_cons]
    by_cases h : x.token = y.token
    · simp [h]
    · have h' : (y.token != x.token) = true := by simpa using fun e : y.token = x.token => h e.symm
      have h'' : (x.token == y.token) = false := by simpa using h
      simp [h', h'']

theorem expire_frame (gone : List Sess) : ∀ s : State,
    (gone.foldl expireSession s).enabled = s.enabled ∧ (gone.foldl expireSession s).subs = s.subs ∧
    (gone.foldl expireSession s).maxSessions = s.maxSessions ∧ (gone.foldl expireSession s).maxSubs = s.maxSubs ∧
    (gone.foldl expireSession s).summary.cumulatedSubs = s.summary.cumulatedSubs ∧
    (gone.foldl expireSession s).summary.currentSubs = s.summary.currentSubs ∧
    (gone.foldl expireSession s).summary.cumulatedSessions = s.summary.cumulatedSessions := by
  induction gone with
  | nil => intro s; simp
  | cons x gone ih =>
    intro s
    rw [List.foldl_cons]
    obtain ⟨h1, h2, h3, h4, h5, h6, h7⟩ := ih (expireSession s x)
    rw [h1, h2, h3, h4, h5, h6, h7]
    unfold expireSession
    dsimp only
    split <;> simp

theorem expire_counts (gone : List Sess) : ∀ s : State, s.enabled = true →
    s.summary.currentSessions = BitVec.ofNat 32 s.sessions.length →
    (gone.foldl expireSession s).summary.currentSessions = BitVec.ofNat 32 (gone.foldl expireSession s).sessions.length ∧
    (gone.foldl expireSession s).summary.sessionTimeouts = s.summary.sessionTimeouts + BitVec.ofNat 32 gone.length := by
  induction gone with
  | nil => intro s _ h; simp [h]
  | cons x gone ih =>
    intro s he h
    rw [List.foldl_cons]
    have e1 : (expireSession s x).enabled = true := by unfold expireSession; dsimp only; rw [he]; rfl
    have e2 : (expireSession s x).summary.currentSessions = BitVec.ofNat 32 (expireSession s x).sessions.length := by
      unfold expireSession; dsimp only; rw [he]; rfl
    have e3 : (expireSession s x).summary.sessionTimeouts = s.summary.sessionTimeouts + 1 := by
      unfold expireSession; dsimp only; rw [he]; rfl
    obtain ⟨h1, h2⟩ := ih _ e1 e2
    refine ⟨h1, ?_⟩
    rw [h2, e3, List.length_cons, BitVec.add_assoc]
    congr 1
    rw [BitVec.add_comm, BitVec.ofNat_add]
    rfl

theorem expire_nodes (gone : List Sess) : ∀ s : State, s.enabled = true →
    (gone.foldl expireSession s).nodes.filterMap sessionOf
      = (s.nodes.filterMap sessionOf).filter (fun i => !(gone.map (·.id)).contains i) := by
  induction gone with
  | nil => intro s _; symm; rw [List.foldl_nil, List.filter_eq_self]; intro y _; rfl
  | cons x gone ih =>
    intro s he
    rw [List.foldl_cons]
    have e1 : (expireSession s x).enabled = true := by unfold expireSession; dsimp only; rw [he]; rfl
    have e2 : (expireSession s x).nodes = removeSessionNode s.nodes x.id := by
      unfold expireSession; dsimp only; rw [he]; rfl
    rw [ih _ e1, e2, sessionOf_remove, List.filter_filter]
    apply List.filter_congr
    intro i _
    by_cases h : i = x.id
    · simp [h]
    · simp [h]

theorem expire_subNodes (gone : List Sess) : ∀ s : State,
    (∀ x ∈ gone, ∀ n, Node.sub n (some x.id) ∉ s.nodes) →
    (gone.foldl expireSession s).nodes.filterMap subOf = s.nodes.filterMap subOf ∧
    ∀ n ∈ (gone.foldl expireSession s).nodes, n ∈ s.nodes := by
  induction gone with
  | nil => intro s _; simp
  | cons x gone ih =>
    intro s h
    rw [List.foldl_cons]
    have e2 : (expireSession s x).nodes = removeSessionNode s.nodes x.id ∨ (expireSession s x).nodes = s.nodes := by
      unfold expireSession
      dsimp only
      split
      · left; rfl
      · right; rfl
    have e3 : ∀ n ∈ (expireSession s x).nodes, n ∈ s.nodes := by
      intro n hn
      cases e2 with
      | inl e => rw [e] at hn; exact mem_removeSession hn
      | inr e => rw [e] at hn; exact hn
    obtain ⟨h1, h2⟩ := ih (expireSession s x) (by
      intro y hy n hn
      exact h y (List.mem_cons_of_mem _ hy) n (e3 _ hn))
    refine ⟨?_, fun n hn => e3 n (h2 n hn)⟩
    rw [h1]
    cases e2 with
    | inl e => rw [e]; exact subOf_remove _ _ (h x List.mem_cons_self)
    | inr e => rw [e]

/-! ### Invariants -/

/-- What holds of tables and counters after every history. -/
structure Counts (p : State × List Out) : Prop where
  current : p.1.summary.currentSessions = BitVec.ofNat 32 p.1.sessions.length
  cumulated : p.1.summary.cumulatedSessions = BitVec.ofNat 32 (p.2.countP isCreated)
  timeouts : p.1.summary.sessionTimeouts = BitVec.ofNat 32 (p.2.countP isTimedOut)
  subs : p.1.summary.currentSubs = BitVec.ofNat 32 p.1.subs.length
  cumulatedSubs : p.1.summary.cumulatedSubs = BitVec.ofNat 32 (p.2.countP isSubCreated)

theorem countP_map_none {α : Type} (p : Out → Bool) (f : α → Out) (h : ∀ a, p (f a) = false) (l : List α) :
    (l.map f).countP p = 0 := by
  rw [List.countP_eq_zero]
  intro o ho
  obtain ⟨a, _, rfl⟩ := List.mem_map.1 ho
  simp [h]

theorem countP_map_all {α : Type} (p : Out → Bool) (f : α → Out) (h : ∀ a, p (f a) = true) (l : List α) :
    (l.map f).countP p = l.length := by
  induction l with
  | nil => rfl
  | cons a l ih => simp [List.countP_cons, ih, h]

theorem act_enabled (s : State) (e : Ev) : (act s e).1.enabled = s.enabled := by
  cases e with
  | createSession x =>
    simp only [act, addSession]
    split
    · rfl
    · split <;> rfl
  | closeSession id => simp only [act, deleteSession]; split <;> rfl
  | expireSessions ids => exact (expire_frame _ s).1
  | createSub x =>
    simp only [act, addSub]
    split
    · rfl
    · split <;> rfl
  | deleteSub node => simp only [act, deleteSub]; split <;> rfl

theorem run_enabled (s : State) (evs : List Ev) : (run s evs).1.enabled = s.enabled := by
  induction evs using snocInd with
  | nil => rfl
  | append_singleton evs e ih => rw [run_snoc]; exact (act_enabled _ _).trans ih

theorem counts_step (p : State × List Out) (e : Ev) (he : p.1.enabled = true) (h : Counts p) : Counts (step p e) := by
  obtain ⟨s, outs⟩ := p
  obtain ⟨h1, h2, h3, h4, h5⟩ := h
  dsimp only at he h1 h2 h3 h4 h5
  cases e with
  | createSession x =>
    simp only [step, act, addSession]
    split
    · constructor <;> simp_all [isCreated, isTimedOut, isSubCreated]
    · constructor <;> simp_all [isCreated, isTimedOut, isSubCreated, BitVec.ofNat_add]
  | closeSession id =>
    simp only [step, act, deleteSession]
    rw [if_pos he]
    constructor
    · rfl
    · dsimp only; rw [h2, List.countP_append, countP_map_none _ _ (fun _ => rfl)]; rfl
    · dsimp only; rw [h3, List.countP_append, countP_map_none _ _ (fun _ => rfl)]; rfl
    · exact h4
    · dsimp only; rw [h5, List.countP_append, countP_map_none _ _ (fun _ => rfl)]; rfl
  | expireSessions ids =>
    simp only [step, act, expireSessions]
    obtain ⟨f1, f2, f3, f4, f5, f6, f7⟩ := expire_frame (s.sessions.filter (fun x => ids.contains x.id)) s
    obtain ⟨g1, g2⟩ := expire_counts (s.sessions.filter (fun x => ids.contains x.id)) s he h1
    constructor
    · exact g1
    · dsimp only; rw [f7, h2, List.countP_append, countP_map_none _ _ (fun _ => rfl)]; rfl
    · dsimp only; rw [g2, h3, List.countP_append, countP_map_all _ _ (fun _ => rfl), BitVec.ofNat_add]
    · dsimp only; rw [f6, f2, h4]
    · dsimp only; rw [f5, h5, List.countP_append, countP_map_none _ _ (fun _ => rfl)]; rfl
  | createSub x =>
    simp only [step, act, addSub]
    split
    · constructor <;> simp_all [isCreated, isTimedOut, isSubCreated]
    · constructor <;> simp_all [isCreated, isTimedOut, isSubCreated, BitVec.ofNat_add]
  | deleteSub node =>
    simp only [step, act, deleteSub]
    rw [if_pos he]
    constructor
    · exact h1
    · dsimp only; rw [h2, List.countP_append, countP_map_none _ _ (fun _ => rfl)]; rfl
    · dsimp only; rw [h3, List.countP_append, countP_map_none _ _ (fun _ => rfl)]; rfl
    · rfl
    · dsimp only; rw [h5, List.countP_append, countP_map_none _ _ (fun _ => rfl)]; rfl

theorem counts_run (maxSessions maxSubs : Nat) (evs : List Ev) : Counts (run (init true maxSessions maxSubs) evs) := by
  induction evs using snocInd with
  | nil => constructor <;> rfl
  | append_singleton evs e ih =>
    rw [run_snoc]
    exact counts_step _ _ (run_enabled _ _) ih

/-! ### The tables and what the clients saw -/

theorem foldl_live_map {α : Type} (f : α → Out) (g : α → Nat) (h : ∀ l a, liveStep l (f a) = l.filter (fun i => i != g a)) (as : List α) :
    ∀ l : List Nat, (as.map f).foldl liveStep l = l.filter (fun i => !(as.map g).contains i) := by
  induction as with
  | nil => intro l; symm; show List.filter _ l = l; rw [List.filter_eq_self]; intro y _; rfl
  | cons a as ih =>
    intro l
    rw [List.map_cons, List.foldl_cons, h, ih, List.filter_filter]
    apply List.filter_congr
    intro i _
    by_cases e : i = g a
    · simp [e]
    · simp [e]

theorem foldl_liveSub_map {α : Type} (f : α → Out) (g : α → Nat)
    (h : ∀ l a, liveSubStep l (f a) = l.filter (fun i => i.1 != g a)) (as : List α) :
    ∀ l : List (Nat × Nat), (as.map f).foldl liveSubStep l = l.filter (fun i => !(as.map g).contains i.1) := by
  induction as with
  | nil => intro l; symm; show List.filter _ l = l; rw [List.filter_eq_self]; intro y _; rfl
  | cons a as ih =>
    intro l
    rw [List.map_cons, List.foldl_cons, h, ih, List.filter_filter]
    apply List.filter_congr
    intro i _
    by_cases e : i.1 = g a
    · simp [e]
    · simp [e]

theorem foldl_live_same {α : Type} (f : α → Out) (h : ∀ l a, liveStep l (f a) = l) (as : List α) :
    ∀ l : List Nat, (as.map f).foldl liveStep l = l := by
  induction as with
  | nil => intro l; rfl
  | cons a as ih => intro l; rw [List.map_cons, List.foldl_cons, h, ih]

theorem foldl_liveSub_same {α : Type} (f : α → Out) (h : ∀ l a, liveSubStep l (f a) = l) (as : List α) :
    ∀ l : List (Nat × Nat), (as.map f).foldl liveSubStep l = l := by
  induction as with
  | nil => intro l; rfl
  | cons a as ih => intro l; rw [List.map_cons, List.foldl_cons, h, ih]

structure Tables (evs : List Ev) (p : State × List Out) : Prop where
  sessions : p.1.sessions.map (·.id) = live p.2
  tokens : (p.1.sessions.map (·.token)).Nodup
  known : ∀ x ∈ p.1.sessions, x ∈ evs.filterMap newSession
  nodes : p.1.enabled = true → p.1.nodes.filterMap sessionOf = p.1.sessions.map (·.id)
  subs : p.1.subs.map (fun x => (x.node, x.session)) = liveSubs p.2
  knownSubs : ∀ x ∈ p.1.subs, x ∈ evs.filterMap newSub
  balance : (live p.2).length + p.2.countP isClosed + p.2.countP isTimedOut = p.2.countP isCreated

theorem filter_contains_filter (l : List Sess) (ids : List Nat) (y : Sess) (hy : y ∈ l) :
    ((l.filter (fun x => ids.contains x.id)).map (·.id)).contains y.id = ids.contains y.id := by
  rw [Bool.eq_iff_iff]
  simp only [List.contains_iff_mem, List.mem_map, List.mem_filter]
  constructor
  · rintro ⟨x, ⟨_, h⟩, e⟩; rw [← e]; exact h
  · intro h; exact ⟨y, ⟨hy, h⟩, rfl⟩

theorem eq_of_token {l : List Sess} (hn : (l.map (·.token)).Nodup) {x y : Sess} (hx : x ∈ l) (hy : y ∈ l)
    (h : x.token = y.token) : x = y := by
  induction l with
  | nil => cases hx
  | cons a l ih =>
    simp only [List.map_cons, List.nodup_cons] at hn
    rcases List.mem_cons.1 hx with rfl | hx'
    · rcases List.mem_cons.1 hy with rfl | hy'
      · rfl
      · exact absurd (h ▸ List.mem_map_of_mem (f := (·.token)) hy') hn.1
    · rcases List.mem_cons.1 hy with rfl | hy'
      · exact absurd (h ▸ List.mem_map_of_mem (f := (·.token)) hx') hn.1
      · exact ih hn.2 hx' hy'

theorem filter_gone {l : List Sess} (hn : (l.map (·.token)).Nodup) (ids : List Nat) :
    l.filter (fun y => !(l.filter (fun x => ids.contains x.id)).any (fun x => x.token == y.token))
      = l.filter (fun y => !ids.contains y.id) := by
  apply List.filter_congr
  intro y hy
  congr 1
  rw [Bool.eq_iff_iff]
  simp only [List.any_eq_true, List.mem_filter, beq_iff_eq]
  constructor
  · rintro ⟨x, ⟨hx, hc⟩, ht⟩
    rw [← eq_of_token hn hx hy ht]; exact hc
  · intro hc; exact ⟨y, ⟨hy, hc⟩, rfl⟩

theorem map_id_filter (l : List Sess) (q : Nat → Bool) :
    (l.filter (fun y => q y.id)).map (·.id) = (l.map (·.id)).filter q := by
  rw [List.filter_map]; rfl

theorem length_filter_add (l : List Sess) (q : Sess → Bool) : (l.filter (fun y => !q y)).length + (l.filter q).length = l.length := by
  induction l with
  | nil => rfl
  | cons a l ih =>
    by_cases h : q a
    · simp [h]; omega
    · simp [h]; omega

theorem tables_step (evs : List Ev) (p : State × List Out) (e : Ev) (hf : Fresh (evs ++ [e])) (h : Tables evs p) :
    Tables (evs ++ [e]) (step p e) := by
  obtain ⟨s, outs⟩ := p
  obtain ⟨h1, h2, h3, h4, h5, h6, h7⟩ := h
  dsimp only at h1 h2 h3 h4 h5 h6 h7
  have lift : ∀ x ∈ s.sessions, x ∈ (evs ++ [e]).filterMap newSession := by
    intro x hx; rw [List.filterMap_append]; exact List.mem_append_left _ (h3 x hx)
  have liftSub : ∀ x ∈ s.subs, x ∈ (evs ++ [e]).filterMap newSub := by
    intro x hx; rw [List.filterMap_append]; exact List.mem_append_left _ (h6 x hx)
  cases e with
  | createSession x =>
    simp only [step, act, addSession]
    split
    · exact ⟨by simp [live_append, liveStep, h1], h2, lift, h4, by simp [liveSubs_append, liveSubStep, h5], liftSub,
        by simpa [live_append, liveStep, isClosed, isTimedOut, isCreated] using h7⟩
    · have hfr : ∀ y ∈ s.sessions, y.token ≠ x.token := by
        intro y hy ht
        have := hf.tokens
        simp only [List.filterMap_append, List.map_append, List.nodup_append] at this
        exact this.2.2 _ (List.mem_map_of_mem (f := (·.token)) (h3 y hy)) x.token
          (by simp [newSession]) ht
      have hflt : s.sessions.filter (fun y => y.token != x.token) = s.sessions := by
        rw [List.filter_eq_self]
        intro y hy
        simpa using hfr y hy
      rw [hflt]
      have key : ∀ st : State, st.sessions = s.sessions ++ [x] → st.subs = s.subs → 
          (st.enabled = true → st.nodes.filterMap sessionOf = st.sessions.map (·.id)) →
          Tables (evs ++ [Ev.createSession x]) (st, outs ++ [Out.created x.id]) := by
        intro st e1 e2 e3
        constructor
        · simp [e1, live_append, liveStep, h1]
        · dsimp only
          rw [e1, List.map_append, List.nodup_append]
          refine ⟨h2, by simp, ?_⟩
          intro a ha b hb
          simp only [List.map_cons, List.map_nil, List.mem_singleton] at hb
          obtain ⟨y, hy, rfl⟩ := List.mem_map.1 ha
          rw [hb]; exact hfr y hy
        · dsimp only
          rw [e1]
          intro y hy
          rcases List.mem_append.1 hy with hy | hy
          · exact lift y hy
          · simp only [List.mem_singleton] at hy
            subst hy
            simp [newSession]
        · exact e3
        · simp [e2, liveSubs_append, liveSubStep, h5]
        · dsimp only; rw [e2]; exact liftSub
        · simp only [live_append, List.foldl_cons, List.foldl_nil, liveStep, List.length_append, List.length_singleton,
            List.countP_append, List.countP_cons, List.countP_nil, isClosed, isTimedOut, isCreated]
          simp only [Bool.false_eq_true, if_false, if_true]
          omega
      split
      · rename_i hen
        exact key _ rfl rfl (fun _ => by simp [List.filterMap_append, sessionOf, h4 hen])
      · rename_i hen
        exact key _ rfl rfl (fun h => absurd h hen)
  | closeSession id =>
    simp only [step, act, deleteSession]
    have e1 : ((s.sessions.filter (fun y => y.id == id)).map (fun y => Out.closed y.id)).foldl liveStep (live outs)
        = (live outs).filter (fun i => i != id) := by
      rw [foldl_live_map (fun y : Sess => Out.closed y.id) (·.id) (fun _ _ => rfl)]
      apply List.filter_congr
      intro i hi
      rw [← h1] at hi
      obtain ⟨y, hy, rfl⟩ := List.mem_map.1 hi
      have hc := filter_contains_filter s.sessions [id] y hy
      have hsame : s.sessions.filter (fun x => [id].contains x.id) = s.sessions.filter (fun y => y.id == id) := by
        apply List.filter_congr; intro z _; by_cases e : z.id = id <;> simp [e]
      rw [hsame] at hc
      rw [hc]
      by_cases e : y.id = id <;> simp [e]
    have e2 : ((s.sessions.filter (fun y => y.id == id)).map (fun y => Out.closed y.id)).foldl liveSubStep (liveSubs outs) = liveSubs outs :=
      foldl_liveSub_same _ (fun _ _ => rfl) _ _
    have key : ∀ st : State, st.sessions = s.sessions.filter (fun y => y.id != id) → st.subs = s.subs →
        (st.enabled = true → st.nodes.filterMap sessionOf = st.sessions.map (·.id)) →
        Tables (evs ++ [Ev.closeSession id]) (st, outs ++ (s.sessions.filter (fun y => y.id == id)).map (fun y => Out.closed y.id)) := by
      intro st k1 k2 k3
      constructor
      · dsimp only
        rw [k1, live_append, e1, ← h1]
        exact map_id_filter s.sessions (fun i => i != id)
      · dsimp only; rw [k1]; exact (List.Sublist.map _ List.filter_sublist).nodup h2
      · dsimp only; rw [k1]; intro y hy; exact lift y (List.mem_filter.1 hy).1
      · exact k3
      · dsimp only; rw [k2, liveSubs_append, e2, h5]
      · dsimp only; rw [k2]; exact liftSub
      · dsimp only
        rw [live_append, e1, ← h1, ← map_id_filter s.sessions (fun i => i != id), List.length_map, List.countP_append,
          List.countP_append, List.countP_append, countP_map_all isClosed _ (fun _ => rfl), countP_map_none isTimedOut _ (fun _ => rfl),
          countP_map_none isCreated _ (fun _ => rfl)]
        rw [← h1, List.length_map] at h7
        have := length_filter_add s.sessions (fun y => y.id == id)
        have hb : s.sessions.filter (fun y => y.id != id) = s.sessions.filter (fun y => !(y.id == id)) := rfl
        rw [hb]
        omega
    split
    · rename_i hen
      refine key _ rfl rfl (fun _ => ?_)
      dsimp only
      rw [sessionOf_remove, h4 hen]
      exact (map_id_filter s.sessions (fun i => i != id)).symm
    · rename_i hen
      exact key _ rfl rfl (fun h => absurd h hen)
  | expireSessions ids =>
    simp only [step, act, expireSessions]
    obtain ⟨f1, f2, f3, f4, f5, f6, f7⟩ := expire_frame (s.sessions.filter (fun x => ids.contains x.id)) s
    have k1 : ((s.sessions.filter (fun x => ids.contains x.id)).foldl expireSession s).sessions
        = s.sessions.filter (fun y => !ids.contains y.id) := by
      rw [expire_sessions, filter_gone h2]
    have e1 : ((s.sessions.filter (fun x => ids.contains x.id)).map (fun x => Out.timedOut x.id)).foldl liveStep (live outs)
        = (live outs).filter (fun i => !ids.contains i) := by
      rw [foldl_live_map (fun y : Sess => Out.timedOut y.id) (·.id) (fun _ _ => rfl)]
      apply List.filter_congr
      intro i hi
      rw [← h1] at hi
      obtain ⟨y, hy, rfl⟩ := List.mem_map.1 hi
      rw [filter_contains_filter s.sessions ids y hy]
    constructor
    · dsimp only
      rw [k1, live_append, e1, ← h1]
      exact map_id_filter s.sessions (fun i => !ids.contains i)
    · dsimp only; rw [k1]; exact (List.Sublist.map _ List.filter_sublist).nodup h2
    · dsimp only; rw [k1]; intro y hy; exact lift y (List.mem_filter.1 hy).1
    · dsimp only
      intro hen
      rw [f1] at hen
      rw [expire_nodes _ _ hen, k1, h4 hen, ← map_id_filter s.sessions (fun i => !((s.sessions.filter (fun x => ids.contains x.id)).map (·.id)).contains i)]
      congr 1
      apply List.filter_congr
      intro y hy
      rw [filter_contains_filter s.sessions ids y hy]
    · dsimp only
      rw [f2, liveSubs_append, foldl_liveSub_same _ (fun _ _ => rfl), h5]
    · dsimp only; rw [f2]; exact liftSub
    · dsimp only
      rw [live_append, e1, ← h1, ← map_id_filter s.sessions (fun i => !ids.contains i), List.length_map, List.countP_append,
        List.countP_append, List.countP_append, countP_map_none isClosed _ (fun _ => rfl), countP_map_all isTimedOut _ (fun _ => rfl),
        countP_map_none isCreated _ (fun _ => rfl)]
      rw [← h1, List.length_map] at h7
      have := length_filter_add s.sessions (fun y => ids.contains y.id)
      omega
  | createSub x =>
    simp only [step, act, addSub]
    split
    · exact ⟨by simp [live_append, liveStep, h1], h2, lift, h4, by simp [liveSubs_append, liveSubStep, h5], liftSub,
        by simpa [live_append, liveStep, isClosed, isTimedOut, isCreated] using h7⟩
    · have hflt : s.subs.filter (fun y => y.id != x.id) = s.subs := by
        rw [List.filter_eq_self]
        intro y hy
        have := hf.subIds
        simp only [List.filterMap_append, List.map_append, List.nodup_append] at this
        have := this.2.2 _ (List.mem_map_of_mem (f := (·.id)) (h6 y hy)) x.id (by simp [newSub])
        simpa using this
      rw [hflt]
      have key : ∀ st : State, st.sessions = s.sessions → st.subs = s.subs ++ [x] →
          (st.enabled = true → st.nodes.filterMap sessionOf = st.sessions.map (·.id)) →
          Tables (evs ++ [Ev.createSub x]) (st, outs ++ [Out.subCreated x.node x.session]) := by
        intro st e1 e2 e3
        constructor
        · simp [e1, live_append, liveStep, h1]
        · dsimp only; rw [e1]; exact h2
        · dsimp only; rw [e1]; exact lift
        · exact e3
        · simp [e2, liveSubs_append, liveSubStep, h5]
        · dsimp only
          rw [e2]
          intro y hy
          rcases List.mem_append.1 hy with hy | hy
          · exact liftSub y hy
          · simp only [List.mem_singleton] at hy
            subst hy
            simp [newSub]
        · simpa [live_append, liveStep, isClosed, isTimedOut, isCreated] using h7
      split
      · rename_i hen
        exact key _ rfl rfl (fun _ => by simp [List.filterMap_append, sessionOf, h4 hen])
      · rename_i hen
        exact key _ rfl rfl (fun h => absurd h hen)
  | deleteSub node =>
    simp only [step, act, deleteSub]
    have e2 : ((s.subs.filter (fun y => y.node == node)).map (fun y => Out.subEnded y.node)).foldl liveSubStep (liveSubs outs)
        = (liveSubs outs).filter (fun i => i.1 != node) := by
      rw [foldl_liveSub_map (fun y : Sub => Out.subEnded y.node) (·.node) (fun _ _ => rfl)]
      apply List.filter_congr
      intro i hi
      rw [← h5] at hi
      obtain ⟨y, hy, rfl⟩ := List.mem_map.1 hi
      have hbne : (y.node != node) = !(y.node == node) := rfl
      rw [hbne]
      dsimp only
      congr 1
      rw [Bool.eq_iff_iff]
      simp only [List.contains_iff_mem, List.mem_map, List.mem_filter, beq_iff_eq]
      constructor
      · rintro ⟨z, ⟨_, h⟩, e⟩; rw [← e]; exact h
      · intro h; exact ⟨y, ⟨hy, h⟩, rfl⟩
    have e1 : ((s.subs.filter (fun y => y.node == node)).map (fun y => Out.subEnded y.node)).foldl liveStep (live outs) = live outs :=
      foldl_live_same _ (fun _ _ => rfl) _ _
    have key : ∀ st : State, st.sessions = s.sessions → st.subs = s.subs.filter (fun y => y.node != node) →
        (st.enabled = true → st.nodes.filterMap sessionOf = st.sessions.map (·.id)) →
        Tables (evs ++ [Ev.deleteSub node]) (st, outs ++ (s.subs.filter (fun y => y.node == node)).map (fun y => Out.subEnded y.node)) := by
      intro st k1 k2 k3
      constructor
      · dsimp only; rw [k1, live_append, e1, h1]
      · dsimp only; rw [k1]; exact h2
      · dsimp only; rw [k1]; exact lift
      · exact k3
      · dsimp only
        rw [k2, liveSubs_append, e2, ← h5, List.filter_map]
        rfl
      · dsimp only; rw [k2]; intro y hy; exact liftSub y (List.mem_filter.1 hy).1
      · dsimp only
        rw [live_append, e1, List.countP_append, List.countP_append, List.countP_append, countP_map_none isClosed _ (fun _ => rfl),
          countP_map_none isTimedOut _ (fun _ => rfl), countP_map_none isCreated _ (fun _ => rfl)]
        simpa using h7
    split
    · rename_i hen
      refine key _ rfl rfl (fun _ => ?_)
      dsimp only
      rw [sessionOf_removeSub, h4 hen]
    · rename_i hen
      exact key _ rfl rfl (fun h => absurd h hen)

theorem tables_run (s : State) (hs : s.sessions = []) (hs' : s.subs = []) (hs'' : s.nodes = []) (evs : List Ev) (hf : Fresh evs) : Tables evs (run s evs) := by
  induction evs using snocInd with
  | nil => constructor <;> simp [run, hs, hs', hs'', live, liveSubs]
  | append_singleton evs e ih =>
    rw [run_snoc]
    exact tables_step _ _ _ hf (ih hf.init)

theorem mem_sessionOf {nodes : List Node} {id : Nat} : id ∈ nodes.filterMap sessionOf ↔ Node.session id ∈ nodes := by
  rw [List.mem_filterMap]
  constructor
  · rintro ⟨n, hn, h⟩
    cases n with
    | session i => simp only [sessionOf, Option.some.injEq] at h; rw [← h]; exact hn
    | sub k p => simp [sessionOf] at h
  · intro h; exact ⟨_, h, rfl⟩

/-! ## C106 -/

/-- The counts a client reads are those of what the clients together saw happen: sessions that exist,
sessions created, sessions that timed out; and there is a node for each session that exists and for no
other. -/
theorem C106_sessions (maxSessions maxSubs : Nat) (evs : List Ev) (h : Fresh evs) :
    let p := run (init true maxSessions maxSubs) evs
    p.1.summary.currentSessions = BitVec.ofNat 32 (live p.2).length ∧
    p.1.summary.cumulatedSessions = BitVec.ofNat 32 (p.2.countP isCreated) ∧
    p.1.summary.sessionTimeouts = BitVec.ofNat 32 (p.2.countP isTimedOut) ∧
    (∀ id, Node.session id ∈ p.1.nodes ↔ id ∈ live p.2) ∧
    (live p.2).length + p.2.countP isClosed + p.2.countP isTimedOut = p.2.countP isCreated := by
  intro p
  have hc := counts_run maxSessions maxSubs evs
  have ht := tables_run (init true maxSessions maxSubs) rfl rfl rfl evs h
  refine ⟨?_, hc.cumulated, hc.timeouts, ?_, ht.balance⟩
  · rw [hc.current, ← ht.sessions, List.length_map]
  · intro id
    rw [← mem_sessionOf, ht.nodes (run_enabled _ _), ht.sessions]

/-- The same for subscriptions, as far as the counts and the array of the server go. -/
theorem C106_subscriptions (maxSessions maxSubs : Nat) (evs : List Ev) (h : Fresh evs) :
    let p := run (init true maxSessions maxSubs) evs
    p.1.summary.currentSubs = BitVec.ofNat 32 (liveSubs p.2).length ∧
    p.1.summary.cumulatedSubs = BitVec.ofNat 32 (p.2.countP isSubCreated) ∧
    readArray p.1 = some ((liveSubs p.2).map (·.1)) := by
  intro p
  have hc := counts_run maxSessions maxSubs evs
  have ht := tables_run (init true maxSessions maxSubs) rfl rfl rfl evs h
  refine ⟨?_, hc.cumulatedSubs, ?_⟩
  · rw [hc.subs, ← ht.subs, List.length_map]
  · unfold readArray
    have hen : p.1.enabled = true := run_enabled _ _
    rw [if_pos hen, ← ht.subs, List.map_map]
    rfl

example : Fresh [.createSession ⟨7, 1⟩, .createSub ⟨1, 50, 1⟩, .createSession ⟨8, 2⟩, .expireSessions [2, 5], .deleteSub 50] :=
  ⟨by decide, by decide, by decide, by decide⟩

example :
    let p := run (init true 2 0) [.createSession ⟨7, 1⟩, .createSession ⟨8, 2⟩, .createSession ⟨9, 3⟩, .expireSessions [2], .closeSession 2]
    p.1.summary = { cumulatedSessions := 2, currentSessions := 1, sessionTimeouts := 1 } ∧
    p.2 = [.created 1, .created 2, .refused, .timedOut 2] ∧ p.1.nodes = [.session 1] := by decide

/-- Without diagnostics nothing is counted and no node is made. -/
theorem C106_disabled (maxSessions maxSubs : Nat) (evs : List Ev) :
    let p := run (init false maxSessions maxSubs) evs
    p.1.summary = {} ∧ p.1.nodes = [] ∧ readArray p.1 = none := by
  have key : (run (init false maxSessions maxSubs) evs).1.summary = {} ∧ (run (init false maxSessions maxSubs) evs).1.nodes = [] := by
    induction evs using snocInd with
    | nil => exact ⟨rfl, rfl⟩
    | append_singleton evs e ih =>
      rw [run_snoc]
      have hen : (run (init false maxSessions maxSubs) evs).1.enabled = false := run_enabled _ _
      generalize run (init false maxSessions maxSubs) evs = p at *
      obtain ⟨s, outs⟩ := p
      dsimp only at ih hen
      cases e with
      | createSession x =>
        simp only [step, act, addSession]
        split
        · exact ih
        · simp only [hen]; exact ih
      | closeSession id => simp only [step, act, deleteSession, hen]; exact ih
      | expireSessions ids =>
        simp only [step, act, expireSessions]
        generalize s.sessions.filter (fun x => ids.contains x.id) = gone
        have : ∀ (gone : List Sess) (s : State), s.enabled = false →
            (gone.foldl expireSession s).summary = s.summary ∧ (gone.foldl expireSession s).nodes = s.nodes := by
          intro gone
          induction gone with
          | nil => intro s _; exact ⟨rfl, rfl⟩
          | cons x gone ih =>
            intro s hs
            rw [List.foldl_cons]
            have e : expireSession s x = { s with sessions := s.sessions.filter (fun y => y.token != x.token) } := by
              unfold expireSession; dsimp only; rw [hs]; rfl
            obtain ⟨a, b⟩ := ih (expireSession s x) (by rw [e]; exact hs)
            rw [a, b, e]
            exact ⟨rfl, rfl⟩
        obtain ⟨a, b⟩ := this gone s hen
        rw [a, b]
        exact ih
      | createSub x =>
        simp only [step, act, addSub]
        split
        · exact ih
        · simp only [hen]; exact ih
      | deleteSub node => simp only [step, act, deleteSub, hen]; exact ih
  refine ⟨key.1, key.2, ?_⟩
  unfold readArray
  rw [run_enabled]
  rfl

/-- Below the object of a session are only variables of subscriptions that were created in it and
exist. -/
structure Parents (p : State × List Out) : Prop where
  parents : ∀ n id, Node.sub n (some id) ∈ p.1.nodes → (n, id) ∈ liveSubs p.2
  subNodes : p.1.nodes.filterMap subOf = (liveSubs p.2).map (·.1)

theorem parents_step (evs : List Ev) (p : State × List Out) (e : Ev) (hen : p.1.enabled = true) (hf : Fresh (evs ++ [e]))
    (ht : Tables evs p) (hp : Parents p) (ho : ∀ id ∈ ends e, ∀ x ∈ liveSubs p.2, x.2 ≠ id) : Parents (step p e) := by
  have ht' := tables_step evs p e hf ht
  obtain ⟨s, outs⟩ := p
  obtain ⟨h1, h2⟩ := hp
  dsimp only at hen h1 h2 ho
  cases e with
  | createSession x =>
    simp only [step, act, addSession]
    split
    · exact ⟨by simpa [liveSubs_append, liveSubStep] using h1, by simpa [liveSubs_append, liveSubStep] using h2⟩
    · constructor
      · intro n id hn
        simp only [List.mem_append, List.mem_singleton, reduceCtorEq, or_false] at hn
        simpa [liveSubs_append, liveSubStep] using h1 n id hn
      · simpa [liveSubs_append, liveSubStep, List.filterMap_append, List.filterMap_cons, subOf] using h2
  | closeSession id =>
    simp only [step, act, deleteSession]
    rw [if_pos hen]
    have e2 : ((s.sessions.filter (fun y => y.id == id)).map (fun y => Out.closed y.id)).foldl liveSubStep (liveSubs outs) = liveSubs outs :=
      foldl_liveSub_same _ (fun _ _ => rfl) _ _
    constructor
    · intro n i hn
      dsimp only
      rw [liveSubs_append, e2]
      exact h1 n i (mem_removeSession hn)
    · dsimp only
      rw [liveSubs_append, e2, subOf_remove _ _ ?_, h2]
      intro n hn
      exact ho id (by simp [ends]) _ (h1 n id hn) rfl
  | expireSessions ids =>
    simp only [step, act, expireSessions]
    obtain ⟨k1, k2⟩ := expire_subNodes (s.sessions.filter (fun x => ids.contains x.id)) s (by
      intro x hx n hn
      have := (List.mem_filter.1 hx).2
      simp only [List.contains_iff_mem] at this
      exact ho x.id (by simpa [ends] using this) _ (h1 n x.id hn) rfl)
    have e2 : ((s.sessions.filter (fun x => ids.contains x.id)).map (fun x => Out.timedOut x.id)).foldl liveSubStep (liveSubs outs) = liveSubs outs :=
      foldl_liveSub_same _ (fun _ _ => rfl) _ _
    constructor
    · intro n i hn
      dsimp only
      rw [liveSubs_append, e2]
      exact h1 n i (k2 _ hn)
    · dsimp only
      rw [liveSubs_append, e2, k1, h2]
  | createSub x =>
    simp only [step, act, addSub]
    split
    · exact ⟨by simpa [liveSubs_append, liveSubStep] using h1, by simpa [liveSubs_append, liveSubStep] using h2⟩
    · constructor
      · intro n id hn
        dsimp only at hn ⊢
        simp only [List.mem_append, List.mem_singleton, Node.sub.injEq] at hn
        rw [liveSubs_append]
        simp only [List.foldl_cons, List.foldl_nil, liveSubStep, List.mem_append, List.mem_singleton, Prod.mk.injEq]
        rcases hn with hn | ⟨rfl, hn⟩
        · exact Or.inl (h1 n id hn)
        · refine Or.inr ⟨rfl, ?_⟩
          split at hn
          · simpa using hn
          · simp at hn
      · simp [liveSubs_append, liveSubStep, List.filterMap_append, subOf, h2]
  | deleteSub node =>
    have hsubs := ht'.subs
    simp only [step, act, deleteSub] at hsubs ⊢
    rw [if_pos hen] at hsubs ⊢
    dsimp only at hsubs
    have e3 : liveSubs (outs ++ (s.subs.filter (fun y => y.node == node)).map (fun y => Out.subEnded y.node))
        = (liveSubs outs).filter (fun i => i.1 != node) := by
      rw [← hsubs, ← ht.subs, List.filter_map]; rfl
    constructor
    · intro n i hn
      dsimp only at hn ⊢
      rw [e3]
      unfold removeSubNode at hn
      obtain ⟨hn1, hn2⟩ := List.mem_filter.1 hn
      rw [List.mem_filter]
      refine ⟨h1 n i hn1, ?_⟩
      simpa [isSub_sub] using hn2
    · dsimp only
      rw [e3, subOf_removeSub, h2, List.filter_map]
      rfl

/-- If no session ends before its subscriptions, there is a node for each subscription that exists and
for no other. -/
theorem C106_nodes_partial (maxSessions maxSubs : Nat) (evs : List Ev) (h : Fresh evs)
    (ho : Orderly (init true maxSessions maxSubs) evs) (node : Nat) :
    let p := run (init true maxSessions maxSubs) evs
    (∃ parent, Node.sub node parent ∈ p.1.nodes) ↔ ∃ session, (node, session) ∈ liveSubs p.2 := by
  have key : Parents (run (init true maxSessions maxSubs) evs) := by
    induction evs using snocInd with
    | nil => exact ⟨by intro n id hn; simp [run, init] at hn, rfl⟩
    | append_singleton evs e ih =>
      rw [run_snoc]
      refine parents_step evs _ e (run_enabled _ _) h (tables_run _ rfl rfl rfl evs h.init) (ih h.init ?_) ?_
      · intro a e' b hab
        exact ho a e' (b ++ [e]) (by rw [hab]; simp)
      · exact ho evs e [] rfl
  intro p
  have hs := key.subNodes
  constructor
  · rintro ⟨parent, hp⟩
    have : node ∈ p.1.nodes.filterMap subOf := List.mem_filterMap.2 ⟨_, hp, rfl⟩
    rw [hs, List.mem_map] at this
    obtain ⟨⟨n, sess⟩, hx, rfl⟩ := this
    exact ⟨sess, hx⟩
  · rintro ⟨sess, hx⟩
    have : node ∈ (liveSubs p.2).map (·.1) := List.mem_map.2 ⟨_, hx, rfl⟩
    rw [← hs, List.mem_filterMap] at this
    obtain ⟨n, hn, e⟩ := this
    cases n with
    | session i => simp [subOf] at e
    | sub k parent =>
      simp only [subOf, Option.some.injEq] at e
      subst e
      exact ⟨parent, hn⟩

example : Orderly (init true 0 0) [.createSession ⟨7, 1⟩, .createSub ⟨1, 50, 1⟩, .deleteSub 50, .closeSession 1] := by
  intro a e b h id hid x hx
  match a, h with
  | [], h => simp at h; obtain ⟨rfl, _⟩ := h; simp [ends] at hid
  | [_], h => simp at h; obtain ⟨_, rfl, _⟩ := h; simp [ends] at hid
  | [_, _], h => simp at h; obtain ⟨_, _, rfl, _⟩ := h; simp [ends] at hid
  | [a, b, c], h =>
    simp at h
    obtain ⟨rfl, rfl, rfl, rfl, _⟩ := h
    have : liveSubs (run (init true 0 0) [.createSession ⟨7, 1⟩, .createSub ⟨1, 50, 1⟩, .deleteSub 50]).2 = [] := by decide
    rw [this] at hx
    cases hx
  | _ :: _ :: _ :: _ :: _, h => simp at h

/-- A session that ends takes the nodes of its subscriptions with it, though they go on: they count,
they are in the array of the server, but there is no node for them any more. -/
theorem C106_orphan_fails : ∃ evs, Fresh evs ∧
    let p := run (init true 0 0) evs
    (50, 1) ∈ liveSubs p.2 ∧ p.1.summary.currentSubs = 1 ∧ readArray p.1 = some [50] ∧ p.1.nodes = [] :=
  ⟨[.createSession ⟨7, 1⟩, .createSub ⟨1, 50, 1⟩, .closeSession 1],
    ⟨by decide, by decide, by decide, by decide⟩, by decide, by decide, by decide, by decide⟩

/-! ## C84: the map that is read without its lock -/

theorem Table.run_snoc (a : List TableEv) (e : TableEv) : Table.run (a ++ [e]) = Table.step (Table.run a) e := by
  simp [Table.run]

/-- As long as nobody reads the array, the lock of the manager keeps the map in order. -/
theorem C84_table_partial (evs : List TableEv) (h : ∀ t, TableEv.enter t .bareRead ∉ evs) : (Table.run evs).fatal = false := by
  have key : (Table.run evs).fatal = false ∧ ∀ b ∈ (Table.run evs).busy, b.2 ≠ .bareRead := by
    induction evs using snocInd with
    | nil => exact ⟨rfl, by intro b hb; cases hb⟩
    | append_singleton evs e ih =>
      obtain ⟨h1, h2⟩ := ih (fun t ht => h t (List.mem_append_left _ ht))
      rw [Table.run_snoc]
      generalize Table.run evs = s at *
      cases e with
      | leave t =>
        simp only [Table.step, h1, Bool.false_eq_true, if_false]
        refine ⟨trivial, ?_⟩
        intro b hb
        exact h2 b (List.mem_filter.1 hb).1
      | enter t a =>
        have ha : a ≠ .bareRead := by
          intro e; subst e; exact h t (by simp)
        simp only [Table.step]
        split
        · exact ⟨h1, h2⟩
        · rename_i hne
          simp only [not_or] at hne
          obtain ⟨_, _, hw⟩ := hne
          constructor
          · rw [Bool.eq_false_iff]
            intro hc
            simp only [List.any_eq_true] at hc hw
            obtain ⟨b, hb, hbc⟩ := hc
            have hb2 := h2 b hb
            apply hw
            refine ⟨b, hb, ?_⟩
            cases a <;> cases hbx : b.2 <;> simp_all [Access.conflicts, Access.waits]
          · intro b hb
            rcases List.mem_append.1 hb with hb | hb
            · exact h2 b hb
            · simp only [List.mem_singleton] at hb; subst hb; exact ha
  exact key.1

example : (Table.run [.enter 1 .lockedRead, .enter 2 .lockedWrite, .enter 3 .lockedRead, .leave 1, .leave 3, .enter 2 .lockedWrite]).busy
    = [(2, .lockedWrite)] := by decide

/-- A client that reads the SubscriptionDiagnosticsArray of the server while another creates a
subscription can make Go end the process, whichever of the two begins first. -/
theorem C84_array_fails : (Table.run [.enter 1 .bareRead, .enter 2 .lockedWrite]).fatal = true ∧
    (Table.run [.enter 2 .lockedWrite, .enter 1 .bareRead]).fatal = true := by decide

/-! ## C107 -/

section Security
variable {Role : Type} [DecidableEq Role]

/-- The security diagnostics of a session are shown exactly to sessions of users that have the role
AuthenticatedUser, on a channel that encrypts. -/
theorem C107_access (roles : Identity → Option (List Role)) (auth : Role) (s : Session) (reader : Option Session) (f : Field) :
    (∃ v, readSecurity roles auth s reader f = .good v) ↔
      ∃ r rs, reader = some r ∧ roles r.user = some rs ∧ auth ∈ rs ∧ r.mode = .signAndEncrypt := by
  unfold readSecurity
  cases reader with
  | none => simp
  | some r =>
    cases hr : roles r.user with
    | none => simp [hr]
    | some rs =>
      simp only [hr, Option.some.injEq]
      by_cases ha : auth ∈ rs
      · by_cases hm : r.mode = .signAndEncrypt
        · simp [ha, hm, hr]
        · simp only [ha, hm, if_true, if_false]
          constructor
          · rintro ⟨v, hv⟩; cases hv
          · rintro ⟨r', rs', rfl, _, _, h⟩; exact absurd h hm
      · simp only [ha, if_false]
        constructor
        · rintro ⟨v, hv⟩; cases hv
        · rintro ⟨r', rs', rfl, h, h', _⟩
          rw [hr] at h
          cases h
          exact absurd h' ha

end Security

namespace Spec

/-- What the variables are to say about a session. -/
def describes (s : Session) : Field → Value
  | .whole => .whole
      { sessionId := s.id, userId := s.userId, history := s.history, mechanism := s.mechanism,
        encoding := "UA Binary", transport := "http://opcfoundation.org/UA-Profile/Transport/uatcp-uasc-uabinary",
        mode := s.mode, policy := s.policy, certificate := s.certificate }
  | .sessionId => .id s.id
  | .userId => .text s.userId
  | .history => .texts s.history
  | .mechanism => .text s.mechanism
  | .encoding => .text "UA Binary"
  | .transport => .text "http://opcfoundation.org/UA-Profile/Transport/uatcp-uasc-uabinary"
  | .mode => .mode s.mode
  | .policy => .text s.policy
  | .certificate => .bytes s.certificate

/-- How the diagnostics name a user and the way the user was authenticated. -/
def userName : Identity → String
  | .anonymous => "<anonymous>"
  | .userName n => n
  | .x509 _ => "<certificate>"
  | .issued _ => "<issued>"

def mechanism : Identity → String
  | .anonymous => "Anonymous"
  | .userName _ => "UserName"
  | .x509 _ => "X509"
  | .issued _ => "Issued"

end Spec

section Security
variable {Role : Type} [DecidableEq Role]

/-- What is shown is right if the session that reads has the mode, policy and certificate of the
session it reads about, and for the variables that do not tell these. -/
theorem C107_right_partial (roles : Identity → Option (List Role)) (auth : Role) (s r : Session) (f : Field) (v : Value)
    (h : readSecurity roles auth s (some r) f = .good v)
    (hs : f ∈ [Field.sessionId, .userId, .history, .mechanism, .encoding, .transport] ∨
      (r.mode = s.mode ∧ r.policy = s.policy ∧ r.certificate = s.certificate)) : v = describes s f := by
  unfold readSecurity at h
  dsimp only at h
  split at h
  · cases h
  · split at h
    · split at h
      · cases h
        rcases hs with hs | ⟨h1, h2, h3⟩
        · cases f <;> simp_all [securityValue, describes]
        · cases f <;> simp_all [securityValue, describes]
      · cases h
    · cases h

/-- A user who looks at the diagnostics of another's session sees its mode, policy and certificate as
those of the own session: a session without any security looks encrypted. -/
theorem C107_other_fails (roles : Identity → Option (List Role)) (auth : Role) (u : Identity) (rs : List Role)
    (hr : roles u = some rs) (ha : auth ∈ rs) (s : Session) (hs : s.mode ≠ .signAndEncrypt) (policy : String) (cert : List UInt8) :
    ∃ r : Session, r.user = u ∧ r.policy = policy ∧ r.certificate = cert ∧
      readSecurity roles auth s (some r) .mode = .good (.mode .signAndEncrypt) ∧
      readSecurity roles auth s (some r) .policy = .good (.text policy) ∧
      readSecurity roles auth s (some r) .certificate = .good (.bytes cert) ∧
      ∀ v, readSecurity roles auth s (some r) .whole = .good v → v ≠ describes s .whole := by
  refine ⟨{ id := 1, user := u, mode := .signAndEncrypt, policy := policy, certificate := cert }, rfl, rfl, rfl, ?_⟩
  simp only [readSecurity, hr, ha, if_true, securityValue, true_and]
  intro v hv
  cases hv
  intro e
  simp only [describes, Value.whole.injEq, Security.mk.injEq] at e
  exact hs e.2.2.2.2.2.2.1.symm

end Security

example : readSecurity (fun u => match u with | .anonymous => some [] | _ => some [7]) 7
    { id := 3, mode := .none, policy := "None", certificate := [] }
    (some { id := 4, user := .userName "ann", mode := .signAndEncrypt, policy := "Basic256Sha256", certificate := [1] }) .sessionId
    = .good (.id 3) := by decide

/-- The diagnostics know every user the session was activated with, in order, and the way the last one
was authenticated. -/
theorem C107_history (s : Session) (us : List Identity) (u : Identity) :
    let t := (us ++ [u]).foldl setUserIdentity s
    t.history = s.history ++ (us ++ [u]).map userName ∧ t.userId = userName u ∧ t.mechanism = mechanism u ∧ t.user = u ∧
    t.id = s.id ∧ t.mode = s.mode ∧ t.policy = s.policy ∧ t.certificate = s.certificate := by
  have hd : ∀ u, displayName u = userName u := by intro u; cases u <;> rfl
  have hm : ∀ u, mechanismOf u = mechanism u := by intro u; cases u <;> rfl
  have key : ∀ (us : List Identity) (s : Session), (us.foldl setUserIdentity s).history = s.history ++ us.map userName ∧
      (us.foldl setUserIdentity s).id = s.id ∧ (us.foldl setUserIdentity s).mode = s.mode ∧
      (us.foldl setUserIdentity s).policy = s.policy ∧ (us.foldl setUserIdentity s).certificate = s.certificate := by
    intro us
    induction us with
    | nil => intro s; simp
    | cons v us ih =>
      intro s
      rw [List.foldl_cons]
      obtain ⟨h1, h2, h3, h4, h5⟩ := ih (setUserIdentity s v)
      rw [h1, h2, h3, h4, h5]
      simp [setUserIdentity, hd]
  intro t
  obtain ⟨h1, h2, h3, h4, h5⟩ := key (us ++ [u]) s
  refine ⟨h1, ?_, ?_, ?_, h2, h3, h4, h5⟩
  · simp only [t, List.foldl_append, List.foldl_cons, List.foldl_nil, setUserIdentity, hd]
  · simp only [t, List.foldl_append, List.foldl_cons, List.foldl_nil, setUserIdentity, hm]
  · simp only [t, List.foldl_append, List.foldl_cons, List.foldl_nil, setUserIdentity]

example : ([Identity.anonymous, .userName "ann"].foldl setUserIdentity { id := 3, mode := .sign, policy := "p", certificate := [] }).history
    = ["<anonymous>", "ann"] := by decide

/-! ## C108 -/

namespace Spec

/-- The services whose requests are counted in the session. -/
def countedServices : List Service :=
  [.browse, .browseNext, .translate, .registerNodes, .unregisterNodes, .read, .write, .call,
   .createItems, .modifyItems, .setMonitoringMode, .setTriggering, .deleteItems,
   .createSub, .modifySub, .setPublishingMode, .deleteSubs, .publish, .republish]

/-- A request of service `v` that named a session that exists. -/
def reached (v : Service) : Req → Bool
  | .request w e => w = v ∧ e ≠ .discovery ∧ e ≠ .noSession
  | .drained => false

/-- ... and was answered with a fault. -/
def faulted (v : Service) : Req → Bool
  | .request w e => w = v ∧ e ≠ .discovery ∧ e ≠ .noSession ∧ e ≠ .served
  | .drained => v = .publish

def reachedAny (r : Req) : Bool := countedServices.any (fun v => reached v r)
def faultedAny (r : Req) : Bool := countedServices.any (fun v => faulted v r)

/-- A request that was not served. -/
def refused : Req → Bool
  | .request _ e => e ≠ .served
  | .drained => false

/-- ... for a reason that the handlers count. -/
def refusedEarly : Req → Bool
  | .request v e => v ≠ .unsupported ∧ e ≠ .served ∧ e ≠ .failed ∧ ¬ (v = .unregisterNodes ∧ e = .notActivated)
  | .drained => false

end Spec

theorem Counters.run_snoc (a : List Req) (e : Req) : Counters.run (a ++ [e]) = Counters.step (Counters.run a) e := by
  simp [Counters.run]

theorem add_ofNat (n : Nat) (b : Bool) : add (BitVec.ofNat 32 n) b = BitVec.ofNat 32 (n + if b then 1 else 0) := by
  cases b
  · rfl
  · simp [add, BitVec.ofNat_add]

theorem bump_ofNat (f : Service → BitVec 32) (v w : Service) (n : Nat) (hf : f w = BitVec.ofNat 32 n) (b : Bool) :
    bump f v b w = BitVec.ofNat 32 (n + if w = v ∧ b = true then 1 else 0) := by
  unfold bump
  split
  · rename_i h; simp [hf, BitVec.ofNat_add]
  · rename_i h; simp [hf]

/-- Of requests handled one after the other, each service's counters are the number of its requests
that named the session and of those among them that were answered with a fault. -/
theorem C108_services_partial (rs : List Req) (v : Service) (hv : v ∈ countedServices) :
    (Counters.run rs).count v = BitVec.ofNat 32 (rs.countP (reached v)) ∧
    (Counters.run rs).errorCount v = BitVec.ofNat 32 (rs.countP (faulted v)) := by
  have hc : v.counted = true := by
    revert hv; cases v <;> decide
  induction rs using snocInd with
  | nil => exact ⟨rfl, rfl⟩
  | append_singleton rs r ih =>
    obtain ⟨h1, h2⟩ := ih
    rw [Counters.run_snoc, List.countP_append, List.countP_append]
    generalize Counters.run rs = c at *
    cases r with
    | drained =>
      refine ⟨by simpa [Counters.step, reached] using h1, ?_⟩
      simp only [Counters.step]
      rw [bump_ofNat _ _ _ _ h2]
      simp [faulted]
    | request w e =>
      simp only [Counters.step, request]
      rw [bump_ofNat _ _ _ _ h1, bump_ofNat _ _ _ _ h2]
      constructor
      · congr 1
        simp only [List.countP_cons, List.countP_nil, Nat.zero_add, Nat.add_left_cancel_iff]
        by_cases hw : v = w
        · subst hw
          cases e <;> simp [reached, hc, End.found]
        · have : w ≠ v := fun e => hw e.symm
          simp [reached, hw, this]
      · congr 1
        simp only [List.countP_cons, List.countP_nil, Nat.zero_add, Nat.add_left_cancel_iff]
        by_cases hw : v = w
        · subst hw
          cases e <;> simp [faulted, hc, End.found, End.fault]
        · have : w ≠ v := fun e => hw e.symm
          simp [faulted, hw, this]

/-- The totals are the sums over the services; and unless they have wrapped round, there are at most as
many errors as requests if each Publish request that was answered late had been received. -/
theorem C108_total_partial (rs : List Req) :
    (Counters.run rs).requests = BitVec.ofNat 32 (rs.countP reachedAny) ∧
    (Counters.run rs).errors = BitVec.ofNat 32 (rs.countP faultedAny) := by
  induction rs using snocInd with
  | nil => exact ⟨rfl, rfl⟩
  | append_singleton rs r ih =>
    obtain ⟨h1, h2⟩ := ih
    rw [Counters.run_snoc, List.countP_append, List.countP_append]
    generalize Counters.run rs = c at *
    cases r with
    | drained =>
      refine ⟨by simpa [Counters.step, reachedAny, reached] using h1, ?_⟩
      simp only [Counters.step, h2]
      simp [faultedAny, faulted, countedServices, BitVec.ofNat_add]
    | request w e =>
      simp only [Counters.step, request, h1, h2, add_ofNat]
      constructor
      · congr 1
        simp only [List.countP_cons, List.countP_nil, Nat.zero_add, Nat.add_left_cancel_iff]
        cases w <;> cases e <;> rfl
      · congr 1
        simp only [List.countP_cons, List.countP_nil, Nat.zero_add, Nat.add_left_cancel_iff]
        cases w <;> cases e <;> rfl

example : (Counters.run [.request .read .served, .request .read .invalid, .request .publish .served, .drained, .request .browse .noSession]).requests = 3 ∧
    (Counters.run [.request .read .served, .request .read .invalid, .request .publish .served, .drained, .request .browse .noSession]).errors = 2 := by
  decide

/-- HistoryRead, Cancel and CloseSession requests are not counted: the client reads no requests at all
after any number of them. -/
theorem C108_uncounted_fails (n : Nat) (e : End) :
    (Counters.run (List.replicate n (.request .historyRead e))).requests = 0 ∧
    (Counters.run (List.replicate n (.request .historyRead e))).count .historyRead = 0 := by
  induction n with
  | zero => exact ⟨rfl, rfl⟩
  | succ n ih =>
    rw [List.replicate_succ', Counters.run_snoc]
    generalize Counters.run _ = c at *
    simp [Counters.step, request, Service.counted, add, bump, ih]

/-- RejectedRequestsCount counts the requests refused for the reasons below, each once. -/
theorem C108_rejected_partial (rs : List Req) :
    (Counters.run rs).rejected = BitVec.ofNat 32 (rs.countP refusedEarly) := by
  induction rs using snocInd with
  | nil => rfl
  | append_singleton rs r ih =>
    rw [Counters.run_snoc, List.countP_append]
    generalize Counters.run rs = c at *
    cases r with
    | drained => simpa [Counters.step, refusedEarly] using ih
    | request w e =>
      simp only [Counters.step, request, ih, add_ofNat]
      congr 1
      simp only [List.countP_cons, List.countP_nil, Nat.zero_add, Nat.add_left_cancel_iff]
      cases w <;> cases e <;> rfl

/-- SecurityRejectedRequestsCount counts the requests of the services on channels that are for discovery
only. -/
theorem C108_security_partial (rs : List Req) :
    (Counters.run rs).securityRejected
      = BitVec.ofNat 32 (rs.countP (fun r => match r with | .request v e => decide (v ≠ .unsupported ∧ e = .discovery) | .drained => false)) := by
  induction rs using snocInd with
  | nil => rfl
  | append_singleton rs r ih =>
    rw [Counters.run_snoc, List.countP_append]
    generalize Counters.run rs = c at *
    cases r with
    | drained => simpa [Counters.step] using ih
    | request w e =>
      simp only [Counters.step, request, ih, add_ofNat]
      congr 1
      simp only [List.countP_cons, List.countP_nil, Nat.zero_add, Nat.add_left_cancel_iff]
      cases w <;> cases e <;> rfl

example : (Counters.run [.request .browse .discovery, .request .browse .served, .request .read .discovery]).securityRejected = 2 := by
  decide

/-- Not every request that was refused is counted: not an UnregisterNodes on a session that was not
activated (though the same Browse is), and not a request for a service there is none of. -/
theorem C108_rejected_fails :
    (∃ r, refused r = true ∧ (Counters.run [r]).rejected = 0 ∧ r = .request .unregisterNodes .notActivated) ∧
    (∃ r, refused r = true ∧ (Counters.run [r]).rejected = 0 ∧ r = .request .unsupported .invalid) ∧
    (Counters.run [.request .browse .notActivated]).rejected = 1 :=
  ⟨⟨_, by decide, by decide, rfl⟩, ⟨_, by decide, by decide, rfl⟩, by decide⟩

theorem Cell.run_snoc (a : List CellEv) (e : CellEv) : Cell.run (a ++ [e]) = Cell.step (Cell.run a) e := by
  simp [Cell.run]

/-- Whatever the goroutines do, a counter never shows more than was counted. -/
theorem C108_bound (evs : List CellEv) : (Cell.run evs).value ≤ (Cell.run evs).stores := by
  have key : (Cell.run evs).value ≤ (Cell.run evs).stores ∧ ∀ p ∈ (Cell.run evs).pending, p.2 ≤ (Cell.run evs).stores := by
    induction evs using snocInd with
    | nil => exact ⟨Nat.le_refl _, by intro p hp; cases hp⟩
    | append_singleton evs e ih =>
      rw [Cell.run_snoc]
      generalize Cell.run evs = c at *
      obtain ⟨h1, h2⟩ := ih
      cases e with
      | load t =>
        simp only [Cell.step]
        split
        · exact ⟨h1, h2⟩
        · refine ⟨h1, ?_⟩
          intro p hp
          rcases List.mem_append.1 hp with hp | hp
          · exact h2 p hp
          · simp only [List.mem_singleton] at hp; subst hp; exact h1
      | store t =>
        simp only [Cell.step]
        split
        · exact ⟨h1, h2⟩
        · rename_i p hp
          have := h2 p (List.mem_of_find?_eq_some hp)
          refine ⟨by dsimp only; omega, ?_⟩
          intro q hq
          have := h2 q (List.mem_filter.1 hq).1
          dsimp only
          omega
  exact key.1

/-- If every goroutine is left to finish its `count++`, the counter shows all of them. -/
theorem C108_alone_partial (ts : List Nat) : (Cell.run (ts.flatMap (fun t => [.load t, .store t]))).value = ts.length := by
  have key : Cell.run (ts.flatMap (fun t => [.load t, .store t])) = { value := ts.length, pending := [], stores := ts.length } := by
    induction ts using snocInd with
    | nil => rfl
    | append_singleton ts t ih =>
      rw [List.flatMap_append]
      simp only [List.flatMap_cons, List.flatMap_nil, List.append_nil]
      have : ∀ a : List CellEv, a ++ [.load t, .store t] = (a ++ [.load t]) ++ [.store t] := by intro a; simp
      rw [this, Cell.run_snoc, Cell.run_snoc, ih]
      simp [Cell.step]
  rw [key]

/-- The counters of the server are changed by the goroutines of all channels without a lock: two
refusals may count as one. -/
theorem C108_race_fails : ∃ evs, (Cell.run evs).stores = 2 ∧ (Cell.run evs).value = 1 ∧ (Cell.run evs).pending = [] :=
  ⟨[.load 1, .load 2, .store 1, .store 2], by decide, by decide, by decide⟩

example : (Cell.run [.load 1, .store 1, .load 2, .store 2]).value = 2 := by decide

end Opcua.Diagnostics
