import Verif.Model.SubTable
import Verif.Lemmas.Subscription

/-!
# C46, C49, C50: acknowledgements, ownership and the table of subscriptions
-/

namespace Opcua.SubTable

open Opcua.Subscription

variable {C I : Type}

theorem run_snoc (s : Server C I) (a : List (Ev C I)) (e : Ev C I) : run s (a ++ [e]) = step (run s a) e := by
  simp [run]

/-! ### The table -/

theorem get_some {t : List (Entry C I)} {id : BitVec 32} {e : Entry C I} (h : get t id = some e) :
    e ∈ t ∧ e.id = id := by
  unfold get at h
  exact ⟨List.mem_of_find?_eq_some h, by simpa using List.find?_some h⟩

theorem get_none {t : List (Entry C I)} {id : BitVec 32} : get t id = none ↔ ∀ e ∈ t, e.id ≠ id := by
  simp [get, List.find?_eq_none]

theorem get_of_mem {t : List (Entry C I)} {e : Entry C I} (hn : (t.map (·.id)).Nodup) (h : e ∈ t) :
    get t e.id = some e := by
  induction t with
  | nil => cases h
  | cons a t ih =>
    rw [List.map_cons, List.nodup_cons] at hn
    rcases List.mem_cons.1 h with rfl | h
    · simp [get]
    · have hne : a.id ≠ e.id := by
        intro x
        exact hn.1 (x ▸ List.mem_map_of_mem h)
      unfold get
      rw [List.find?_cons_of_neg (by simpa using hne)]
      exact ih hn.2 h

theorem update_ids (t : List (Entry C I)) (id : BitVec 32) (f : Entry C I → Entry C I)
    (hf : ∀ e, (f e).id = e.id) : (update t id f).map (·.id) = t.map (·.id) := by
  unfold update
  rw [List.map_map]
  apply List.map_congr_left
  intro e _
  show (if e.id = id then f e else e).id = e.id
  split
  · exact hf e
  · rfl

theorem get_update (t : List (Entry C I)) (id : BitVec 32) (f : Entry C I → Entry C I)
    (hf : ∀ e, (f e).id = e.id) : get (update t id f) id = (get t id).map f := by
  induction t with
  | nil => rfl
  | cons a t ih =>
    unfold get update at *
    rw [List.map_cons]
    by_cases h : a.id = id
    · rw [if_pos h, List.find?_cons_of_pos (by simp [hf, h]), List.find?_cons_of_pos (by simp [h])]
      rfl
    · rw [if_neg h, List.find?_cons_of_neg (by simp [h]), List.find?_cons_of_neg (by simp [h])]
      exact ih

theorem get_update_ne (t : List (Entry C I)) (id id' : BitVec 32) (hne : id' ≠ id) (f : Entry C I → Entry C I)
    (hf : ∀ e, (f e).id = e.id) : get (update t id f) id' = get t id' := by
  induction t with
  | nil => rfl
  | cons a t ih =>
    unfold get update at *
    rw [List.map_cons]
    by_cases h : a.id = id
    · rw [if_pos h, List.find?_cons_of_neg (by simp [hf, h, hne.symm]), List.find?_cons_of_neg (by simp [h, hne.symm])]
      exact ih
    · rw [if_neg h]
      by_cases h' : a.id = id'
      · rw [List.find?_cons_of_pos (by simp [h']), List.find?_cons_of_pos (by simp [h'])]
      · rw [List.find?_cons_of_neg (by simp [h']), List.find?_cons_of_neg (by simp [h'])]
        exact ih

/-! ### C46 -/

/-- What an acknowledgement deserves: whether the subscription exists and holds the message. -/
def Deserves (t : List (Entry C I)) (a : BitVec 32 × BitVec 32) : AckStatus → Prop
  | .badSubscriptionIDInvalid => ∀ e ∈ t, e.id ≠ a.1
  | .badSequenceNumberUnknown => ∃ e, get t a.1 = some e ∧ ∀ m ∈ e.sub.queue, m.1 ≠ a.2
  | .good => ∃ e, get t a.1 = some e ∧ ∃ m ∈ e.sub.queue, m.1 = a.2

theorem ackOne_none {t : List (Entry C I)} {a : BitVec 32 × BitVec 32} (h : get t a.1 = none) :
    ackOne t a = (t, .badSubscriptionIDInvalid) := by
  unfold ackOne; rw [h]

theorem ackOne_held {t : List (Entry C I)} {a : BitVec 32 × BitVec 32} {e : Entry C I} (h : get t a.1 = some e)
    (hh : holds e.sub.queue a.2 = true) :
    ackOne t a = (update t a.1 (fun e => { e with sub := { e.sub with queue := removeFirst e.sub.queue a.2 } }), .good) := by
  unfold ackOne; rw [h]; simp [acknowledge, hh]

theorem ackOne_unknown {t : List (Entry C I)} {a : BitVec 32 × BitVec 32} {e : Entry C I} (h : get t a.1 = some e)
    (hh : holds e.sub.queue a.2 = false) :
    ackOne t a = (update t a.1 (fun e => { e with sub := { e.sub with queue := removeFirst e.sub.queue a.2 } }),
      .badSequenceNumberUnknown) := by
  unfold ackOne; rw [h]; simp [acknowledge, hh]

theorem ackOne_deserves (t : List (Entry C I)) (a : BitVec 32 × BitVec 32) : Deserves t a (ackOne t a).2 := by
  cases h : get t a.1 with
  | none => rw [ackOne_none h]; exact get_none.1 h
  | some e =>
    cases hh : holds e.sub.queue a.2 with
    | true =>
      rw [ackOne_held h hh]
      unfold holds at hh
      rw [List.any_eq_true] at hh
      obtain ⟨m, hm, hm'⟩ := hh
      exact ⟨e, h, m, hm, by simpa using hm'⟩
    | false =>
      rw [ackOne_unknown h hh]
      refine ⟨e, h, ?_⟩
      intro m hm e'
      have : holds e.sub.queue a.2 = true := List.any_eq_true.2 ⟨m, hm, by simpa using e'⟩
      rw [hh] at this; cases this

/-- The table after the first acknowledgements of a request. -/
def afterAcks (t : List (Entry C I)) (as : List (BitVec 32 × BitVec 32)) : List (Entry C I) :=
  as.foldl (fun t a => (ackOne t a).1) t

theorem ackAll_table (as : List (BitVec 32 × BitVec 32)) : ∀ t : List (Entry C I), (ackAll t as).1 = afterAcks t as := by
  induction as with
  | nil => intro t; rfl
  | cons a as ih => intro t; simp only [ackAll, afterAcks, List.foldl_cons]; exact ih _

/-- **C46 (results).** There is one result for each acknowledgement, at the same position, and it says
what became of it: it is judged on the messages held when its turn comes. -/
theorem C46_results (t : List (Entry C I)) (as : List (BitVec 32 × BitVec 32)) :
    (ackAll t as).2.length = as.length ∧
    ∀ i a r, as[i]? = some a → (ackAll t as).2[i]? = some r → Deserves (afterAcks t (as.take i)) a r := by
  induction as generalizing t with
  | nil => exact ⟨rfl, fun i a r h => by simp at h⟩
  | cons x as ih =>
    obtain ⟨h1, h2⟩ := ih (ackOne t x).1
    refine ⟨by simp only [ackAll, List.length_cons, h1], ?_⟩
    intro i a r ha hr
    cases i with
    | zero =>
      simp only [ackAll, List.getElem?_cons_zero, Option.some.injEq] at ha hr
      subst ha; subst hr
      exact ackOne_deserves t x
    | succ i =>
      simp only [ackAll, List.getElem?_cons_succ] at ha hr
      rw [List.take_succ_cons]
      exact h2 i a r ha hr

/-- **C46 (release).** An acknowledgement with result Good takes exactly one message, with that
number, out of that subscription; other results change nothing, and no other subscription is
touched. -/
theorem C46_release (t : List (Entry C I)) (a : BitVec 32 × BitVec 32) :
    ((ackOne t a).2 = .good → ∃ e e' p m q, get t a.1 = some e ∧ get (ackOne t a).1 a.1 = some e'
        ∧ e.sub.queue = p ++ m :: q ∧ m.1 = a.2 ∧ e'.sub = { e.sub with queue := p ++ q })
    ∧ ((ackOne t a).2 = .badSequenceNumberUnknown → ∀ e, get t a.1 = some e → get (ackOne t a).1 a.1 = some e)
    ∧ ((ackOne t a).2 = .badSubscriptionIDInvalid → (ackOne t a).1 = t)
    ∧ ∀ id, id ≠ a.1 → get (ackOne t a).1 id = get t id := by
  have split : ∀ q : List (BitVec 32 × C), holds q a.2 = true →
      ∃ p m r, q = p ++ m :: r ∧ m.1 = a.2 ∧ removeFirst q a.2 = p ++ r := by
    intro q
    induction q with
    | nil => intro h; cases h
    | cons m q ih =>
      intro h
      by_cases hm : m.1 = a.2
      · exact ⟨[], m, q, rfl, hm, by simp [removeFirst, hm]⟩
      · have : holds q a.2 = true := by simpa [holds, hm] using h
        obtain ⟨p, x, r, h1, h2, h3⟩ := ih this
        exact ⟨m :: p, x, r, by rw [h1]; rfl, h2, by simp [removeFirst, hm, h3]⟩
  have same : ∀ q : List (BitVec 32 × C), holds q a.2 = false → removeFirst q a.2 = q := by
    intro q
    induction q with
    | nil => intro _; rfl
    | cons m q ih =>
      intro h
      by_cases hm : m.1 = a.2
      · simp [holds, hm] at h
      · have : holds q a.2 = false := by simpa [holds, hm] using h
        simp [removeFirst, hm, ih this]
  cases h : get t a.1 with
  | none =>
    rw [ackOne_none h]
    refine ⟨fun h => (by cases h), fun h => (by cases h), fun _ => rfl, fun _ _ => rfl⟩
  | some e =>
    cases hh : holds e.sub.queue a.2 with
    | true =>
      rw [ackOne_held h hh]
      refine ⟨fun _ => ?_, fun h => (by cases h), fun h => (by cases h), fun id hne => get_update_ne t a.1 id hne _ (fun _ => rfl)⟩
      obtain ⟨p, m, q, h1, h2, h3⟩ := split _ hh
      refine ⟨e, { e with sub := { e.sub with queue := p ++ q } }, p, m, q, rfl, ?_, h1, h2, rfl⟩
      dsimp only
      rw [get_update, h, Option.map_some, h3]
      intro _; rfl
    | false =>
      rw [ackOne_unknown h hh]
      refine ⟨fun h => (by cases h), fun _ e0 he0 => ?_, fun h => (by cases h), fun id hne => get_update_ne t a.1 id hne _ (fun _ => rfl)⟩
      cases he0
      dsimp only
      rw [get_update, h, Option.map_some, same _ hh]
      intro _; rfl

/-- A subscription with the messages 1 and 2. -/
def twoMessages : Subscription.Sub Nat :=
  Subscription.run (new true 9 3) [.cycle (some (7, false)) (.some [] true), .cycle (some (8, false)) (.some [] true)]

/-- Acknowledging 2, 2 again, 3, and a message of a subscription that does not exist. -/
example : (ackAll [(⟨5, 1, twoMessages, []⟩ : Entry Nat Unit)] [(5, 2), (5, 2), (5, 3), (6, 1)]).2
      = [.good, .badSequenceNumberUnknown, .badSequenceNumberUnknown, .badSubscriptionIDInvalid]
    ∧ (ackAll [(⟨5, 1, twoMessages, []⟩ : Entry Nat Unit)] [(5, 2), (5, 2), (5, 3), (6, 1)]).1.map (·.sub.queue)
      = [[(1, 7)]] := by decide

/-- **C46 (response).** The results worked out for a request are the ones in the response that answers
it, if it is answered by a publishing cycle or by notifications. -/
theorem C46_response_partial (s : Subscription.Sub C) (e : Subscription.Ev C) (results : List AckStatus) (r : Resp C)
    (he : (∃ d, e = .cycle d (.some results true)) ∨ ∃ d, e = .late d results true)
    (hs : (Subscription.step s e).sent = s.sent ++ [r])
    (hr : (∃ d, e = .cycle d (.some results true)) ∨ r.msg.body ≠ none) : r.results = results := by
  have hk := step_kind s e
  generalize Subscription.step s e = s' at *
  cases hk with
  | quiet h =>
    rw [h] at hs
    exact absurd (congrArg List.length hs) (by rw [List.length_append]; simp)
  | data c more res ok late halive hd hx =>
    subst hd
    have hres : res = results ∧ ok = true := by
      rcases hx with ⟨d, rfl⟩ | ⟨d, rfl⟩ <;> rcases he with ⟨d', he⟩ | ⟨d', he⟩ <;> simp_all
    obtain ⟨rfl, rfl⟩ := hres
    have h' : s.sent ++ [_] = s.sent ++ [r] := hs
    have := List.append_cancel_left h'
    injection this with this _
    rw [← this]
  | keepAlive k res halive hd hx =>
    subst hd
    have h' : s.sent ++ [_] = s.sent ++ [r] := hs
    have := List.append_cancel_left h'
    injection this with this _
    rw [← this] at hr ⊢
    rcases hr with ⟨d, rfl⟩ | hr
    · rcases hx with ⟨d', hx⟩ | ⟨d', r', hx, _⟩
      · cases hx; rfl
      · cases hx
    · exact absurd rfl hr
  | expire k l halive hd hl hx =>
    subst hd
    exact absurd (congrArg List.length (show s.sent = _ from hs)) (by rw [List.length_append]; simp)

example : (Subscription.step (new true 9 3 : Subscription.Sub Nat) (.cycle none (.some [.badSequenceNumberUnknown] true))).sent.map
    (·.results) = [[.badSequenceNumberUnknown]] := by decide

/-- **C46 fails (response).** If the request is answered at once by the keep-alive of a late
subscription, its results are replaced by Good, whatever they were. -/
theorem C46_late_keep_alive_fails (s : Subscription.Sub C) (results : List AckStatus) (halive : s.alive = true)
    (hlate : s.isLate = true) (hk : s.maxKeepAlive ≤ s.keepAlive) :
    ∃ r, (Subscription.step s (.late none results true)).sent = s.sent ++ [r]
      ∧ r.results = List.replicate results.length .good := by
  refine ⟨⟨s.queue.map (·.1), false, ⟨s.nextSeq, none⟩, List.replicate results.length .good⟩, ?_, rfl⟩
  unfold Subscription.step
  rw [if_neg (by simp [halive])]
  dsimp only [late]
  rw [if_neg (by simp [halive, hlate])]
  have : (if s.enabled = true then (none : Option (C × Bool)) else none) = none := by split <;> rfl
  rw [this]
  dsimp only
  rw [if_pos (.inl hk)]
  rfl

/-- The state is reached: an acknowledgement of a message that is not held gets Good. -/
example :
    let s := Subscription.run (new true 9 1 : Subscription.Sub Nat) [.cycle none (.some [] true), .cycle none .none]
    s.alive = true ∧ s.isLate = true ∧ s.maxKeepAlive ≤ s.keepAlive
    ∧ (ackAll [(⟨5, 1, s, []⟩ : Entry Nat Unit)] [(5, 77)]).2 = [.badSequenceNumberUnknown]
    ∧ ((Subscription.step s (.late none [.badSequenceNumberUnknown] true)).sent.map (·.results)).getLast?
      = some [.good] := by decide

/-! ### C50 -/

/-- How many subscriptions were asked for. -/
def creates (evs : List (Ev C I)) : Nat :=
  (evs.filter (fun e => match e with | .create .. => true | _ => false)).length

theorem creates_snoc (evs : List (Ev C I)) (e : Ev C I) : creates evs ≤ creates (evs ++ [e]) := by
  simp [creates, List.filter_append]

structure Inv (n : Nat) (s : Server C I) : Prop where
  counter : s.counter.toNat = n
  range : ∀ e ∈ s.subs, 1 ≤ e.id.toNat ∧ e.id.toNat ≤ n
  ids : (s.subs.map (·.id)).Nodup

theorem Inv.sub {n : Nat} {s s' : Server C I} (h : Inv n s) (hc : s'.counter = s.counter)
    (hs : (s'.subs.map (·.id)).Sublist (s.subs.map (·.id))) : Inv n s' := by
  refine ⟨by rw [hc]; exact h.counter, ?_, h.ids.sublist hs⟩
  intro e he
  have : e.id ∈ s.subs.map (·.id) := hs.subset (List.mem_map_of_mem he)
  obtain ⟨x, hx, hid⟩ := List.mem_map.1 this
  rw [← hid]; exact h.range x hx

theorem update_sublist (t : List (Entry C I)) (id : BitVec 32) (f : Entry C I → Entry C I)
    (hf : ∀ e, (f e).id = e.id) : ((update t id f).map (·.id)).Sublist (t.map (·.id)) := by
  rw [update_ids t id f hf]; exact .refl _

theorem foldl_sublist {α : Type} (g : List (Entry C I) → α → List (Entry C I))
    (hg : ∀ t a, ((g t a).map (·.id)).Sublist (t.map (·.id))) (as : List α) :
    ∀ t, ((as.foldl g t).map (·.id)).Sublist (t.map (·.id)) := by
  induction as with
  | nil => intro t; exact .refl _
  | cons a as ih => intro t; exact (ih (g t a)).trans (hg t a)

theorem deleteOne_sublist (who : Nat) (t : List (Entry C I)) (id : BitVec 32) :
    ((deleteOne who t id).map (·.id)).Sublist (t.map (·.id)) := by
  unfold deleteOne
  split
  · exact .refl _
  · split
    · exact (List.filter_sublist).map _
    · exact .refl _

theorem setPublishingOne_sublist (who : Nat) (b : Bool) (t : List (Entry C I)) (id : BitVec 32) :
    ((setPublishingOne who b t id).map (·.id)).Sublist (t.map (·.id)) := by
  unfold setPublishingOne
  split
  · exact .refl _
  · split
    · exact update_sublist _ _ _ (fun _ => rfl)
    · exact .refl _

theorem ackOne_sublist (t : List (Entry C I)) (a : BitVec 32 × BitVec 32) :
    (((ackOne t a).1).map (·.id)).Sublist (t.map (·.id)) := by
  unfold ackOne
  split
  · exact .refl _
  · exact update_sublist _ _ _ (fun _ => rfl)

/-- Every event but the creation of a subscription leaves the ids or removes some. -/
theorem step_sublist (s : Server C I) (e : Ev C I) (h : ∀ who b l k, e ≠ .create who b l k) :
    (step s e).counter = s.counter ∧ (step s e).max = s.max
    ∧ ((step s e).subs.map (·.id)).Sublist (s.subs.map (·.id)) := by
  cases e with
  | create who b l k => exact absurd rfl (h who b l k)
  | modify who id l k =>
    dsimp only [step]
    split
    · exact ⟨rfl, rfl, .refl _⟩
    · split
      · exact ⟨rfl, rfl, .refl _⟩
      · exact ⟨rfl, rfl, update_sublist _ _ _ (fun _ => rfl)⟩
  | setPublishing who b ids => exact ⟨rfl, rfl, foldl_sublist _ (setPublishingOne_sublist who b) ids _⟩
  | delete who ids => exact ⟨rfl, rfl, foldl_sublist _ (deleteOne_sublist who) ids _⟩
  | close who => exact ⟨rfl, rfl, (List.filter_sublist).map _⟩
  | items sv who id f =>
    dsimp only [step]
    split
    · exact ⟨rfl, rfl, .refl _⟩
    · split
      · exact ⟨rfl, rfl, .refl _⟩
      · exact ⟨rfl, rfl, update_sublist _ _ _ (fun _ => rfl)⟩
  | acks who as =>
    refine ⟨rfl, rfl, ?_⟩
    show (((ackAll s.subs as).1).map (·.id)).Sublist _
    rw [ackAll_table]
    exact foldl_sublist _ ackOne_sublist as _
  | republish who id n ok =>
    dsimp only [step]
    split
    · exact ⟨rfl, rfl, .refl _⟩
    · exact ⟨rfl, rfl, update_sublist _ _ _ (fun _ => rfl)⟩
  | timer id d req =>
    refine ⟨rfl, rfl, ?_⟩
    exact ((List.filter_sublist).map _).trans (update_sublist s.subs id _ (fun _ => rfl))
  | late who id d r ok =>
    dsimp only [step]
    split
    · exact ⟨rfl, rfl, .refl _⟩
    · split
      · exact ⟨rfl, rfl, .refl _⟩
      · exact ⟨rfl, rfl, update_sublist _ _ _ (fun _ => rfl)⟩

/-- The id that the next subscription gets is not in use. -/
theorem Inv.fresh {n : Nat} {s : Server C I} (h : Inv n s) (hn : n + 1 < 2 ^ 32) :
    (s.counter + 1).toNat = n + 1 ∧ ∀ e ∈ s.subs, e.id ≠ s.counter + 1 := by
  have h1 : (s.counter + 1).toNat = n + 1 := by
    rw [BitVec.toNat_add, h.counter]
    show (n + 1) % 2 ^ 32 = n + 1
    exact Nat.mod_eq_of_lt hn
  refine ⟨h1, ?_⟩
  intro e he heq
  have := (h.range e he).2
  rw [heq, h1] at this
  omega

theorem erase_fresh {t : List (Entry C I)} {id : BitVec 32} (h : ∀ e ∈ t, e.id ≠ id) : erase t id = t := by
  unfold erase
  rw [List.filter_eq_self]
  intro e he
  simpa using h e he

theorem inv_run (max : Nat) (evs : List (Ev C I)) (hn : creates evs < 2 ^ 32) :
    Inv (creates evs) (run (init max) evs) := by
  induction evs using snocInd with
  | nil => exact ⟨rfl, fun e h => (by cases h), List.nodup_nil⟩
  | append_singleton evs e ih =>
    have ih := ih (Nat.lt_of_le_of_lt (creates_snoc evs e) hn)
    rw [run_snoc]
    by_cases hc : ∃ who b l k, e = .create who b l k
    · obtain ⟨who, b, l, k, rfl⟩ := hc
      have hcr : creates (evs ++ [Ev.create who b l k]) = creates evs + 1 := by
        simp [creates, List.filter_append]
      rw [hcr] at hn ⊢
      obtain ⟨h1, h2⟩ := ih.fresh hn
      generalize run (init max) evs = s at *
      generalize creates evs = n at *
      dsimp only [step, add]
      split
      · exact ⟨h1, fun e he => ⟨(ih.range e he).1, Nat.le_succ_of_le (ih.range e he).2⟩, ih.ids⟩
      · refine ⟨h1, ?_, ?_⟩
        · intro e he
          dsimp only at he
          rw [erase_fresh h2] at he
          rcases List.mem_append.1 he with he | he
          · exact ⟨(ih.range e he).1, Nat.le_succ_of_le (ih.range e he).2⟩
          · have : e.id = s.counter + 1 := by
              have := List.mem_singleton.1 he
              rw [this]
            rw [this, h1]; omega
        · dsimp only
          rw [erase_fresh h2, List.map_append, List.nodup_append]
          refine ⟨ih.ids, by simp, ?_⟩
          intro x hx y hy
          obtain ⟨e, he, rfl⟩ := List.mem_map.1 hx
          have : y = s.counter + 1 := by simpa using hy
          rw [this]
          exact h2 e he
    · have hne : ∀ who b l k, e ≠ .create who b l k := fun who b l k h => hc ⟨who, b, l, k, h⟩
      have hcr : creates (evs ++ [e]) = creates evs := by
        unfold creates
        rw [List.filter_append, List.length_append]
        have : (List.filter (fun e => match e with | .create .. => true | _ => false) [e] : List (Ev C I)) = [] := by
          cases e <;> first | rfl | exact absurd rfl (hne _ _ _ _)
        rw [this]; rfl
      rw [hcr]
      obtain ⟨h1, _, h3⟩ := step_sublist (run (init max) evs) e hne
      exact ih.sub h1 h3

/-- **C50 (limit).** The number of subscriptions never exceeds the configured maximum. -/
theorem C50_limit (max : Nat) (hmax : 0 < max) (evs : List (Ev C I)) : (run (init max) evs).subs.length ≤ max := by
  suffices h : (run (init max) evs).max = max ∧ (run (init max) evs).subs.length ≤ max from h.2
  induction evs using snocInd with
  | nil => exact ⟨rfl, Nat.zero_le _⟩
  | append_singleton evs e ih =>
    obtain ⟨i1, i2⟩ := ih
    rw [run_snoc]
    generalize run (init max) evs = s at *
    by_cases hc : ∃ who b l k, e = .create who b l k
    · obtain ⟨who, b, l, k, rfl⟩ := hc
      dsimp only [step, add]
      split
      · exact ⟨i1, i2⟩
      · next h =>
        refine ⟨i1, ?_⟩
        show (erase s.subs _ ++ [_]).length ≤ _
        have h1 : (erase s.subs (s.counter + 1)).length ≤ s.subs.length := List.length_filter_le _ _
        rw [List.length_append, List.length_singleton]
        omega
    · have hne : ∀ who b l k, e ≠ .create who b l k := fun who b l k h => hc ⟨who, b, l, k, h⟩
      obtain ⟨_, h2, h3⟩ := step_sublist s e hne
      refine ⟨by rw [h2]; exact i1, ?_⟩
      have := h3.length_le
      rw [List.length_map, List.length_map] at this
      omega

/-- **C50 (ids).** As long as fewer than 2^32 subscriptions were asked for, no two subscriptions have
the same id, and the id of a new one is not that of any other that ever was: it is the number of
requests so far. -/
theorem C50_ids_partial (max : Nat) (evs : List (Ev C I)) (hn : creates evs < 2 ^ 32) :
    ((run (init max) evs).subs.map (·.id)).Nodup
    ∧ ∀ e ∈ (run (init max) evs).subs, 1 ≤ e.id.toNat ∧ e.id.toNat ≤ creates evs :=
  ⟨(inv_run max evs hn).ids, (inv_run max evs hn).range⟩

/-- **C50 (create).** A new subscription is added with the next number as id, unless the table is full;
then nothing is added. -/
theorem C50_create_partial (max : Nat) (evs : List (Ev C I)) (hn : creates evs + 1 < 2 ^ 32)
    (who : Nat) (b : Bool) (l k : Nat) :
    (run (init max) (evs ++ [.create who b l k])).subs
      = if (run (init max) evs).max > 0 ∧ (run (init max) evs).subs.length ≥ (run (init max) evs).max
        then (run (init max) evs).subs
        else (run (init max) evs).subs ++ [⟨BitVec.ofNat 32 (creates evs + 1), who, new b l k, []⟩] := by
  have h := inv_run max evs (by omega)
  obtain ⟨h1, h2⟩ := h.fresh hn
  rw [run_snoc]
  generalize run (init max) evs = s at *
  dsimp only [step, add]
  have hid : s.counter + 1 = BitVec.ofNat 32 (creates evs + 1) := by
    apply BitVec.eq_of_toNat_eq
    rw [h1, BitVec.toNat_ofNat, Nat.mod_eq_of_lt hn]
  split
  · rfl
  · dsimp only
    rw [erase_fresh h2, hid]

theorem foldl_deleteOne (who : Nat) (ids : List (BitVec 32)) : ∀ t : List (Entry C I), (t.map (·.id)).Nodup →
    ids.foldl (deleteOne who) t = t.filter (fun e => decide (¬ (e.owner = who ∧ e.id ∈ ids))) := by
  induction ids with
  | nil =>
    intro t _
    rw [List.foldl_nil]
    symm
    rw [List.filter_eq_self]
    intro e _; simp
  | cons id ids ih =>
    intro t ht
    have hone : deleteOne who t id = t.filter (fun e => decide (¬ (e.owner = who ∧ e.id = id))) := by
      unfold deleteOne
      cases hg : get t id with
      | none =>
        symm
        dsimp only
        rw [List.filter_eq_self]
        intro e he
        have := get_none.1 hg e he
        simp [this]
      | some x =>
        obtain ⟨hx, hxid⟩ := get_some hg
        dsimp only
        have huniq : ∀ e ∈ t, e.id = id → e = x := by
          intro e he heid
          have := get_of_mem ht he
          rw [heid, hg] at this
          exact (Option.some.inj this).symm
        by_cases ho : x.owner = who
        · rw [if_pos ho]
          unfold erase
          apply List.filter_congr
          intro e he
          by_cases heid : e.id = id
          · rw [huniq e he heid]; simp [ho, hxid]
          · simp [heid]
        · rw [if_neg ho]
          symm
          rw [List.filter_eq_self]
          intro e he
          by_cases heid : e.id = id
          · rw [huniq e he heid]; simp [ho]
          · simp [heid]
    rw [List.foldl_cons, hone, ih _ (ht.sublist ((List.filter_sublist).map _)), List.filter_filter]
    apply List.filter_congr
    intro e _
    by_cases h1 : e.owner = who <;> by_cases h2 : e.id = id <;> simp [h1, h2]

/-- **C50 (delete).** DeleteSubscriptions removes exactly the named subscriptions of the caller. -/
theorem C50_delete_partial (max : Nat) (evs : List (Ev C I)) (hn : creates evs < 2 ^ 32) (who : Nat) (ids : List (BitVec 32)) :
    (run (init max) (evs ++ [.delete who ids])).subs
      = (run (init max) evs).subs.filter (fun e => decide (¬ (e.owner = who ∧ e.id ∈ ids))) := by
  rw [run_snoc]
  exact foldl_deleteOne who ids _ (inv_run max evs hn).ids

/-- **C50 fails.** The counter wraps around and `Add` overwrites: requests that are refused because the
table is full count as well, and after 2^32 of them a new subscription of session 2 takes the place of
the live subscription of session 1. -/
theorem C50_wrap_fails (b : Bool) (l k : Nat) :
    (run (init 2 : Server C I) [.create 1 b l k, .create 2 b l k]).subs.map (fun e => (e.id, e.owner)) = [(1, 1), (2, 2)]
    ∧ (run (init 2 : Server C I) ([.create 1 b l k, .create 2 b l k] ++ List.replicate (2 ^ 32 - 2) (.create 2 b l k)
        ++ [.delete 2 [2], .create 2 b l k])).subs.map (fun e => (e.id, e.owner)) = [(1, 2)] := by
  have full : ∀ n (s : Server C I), s.max = 2 → s.subs.length = 2 →
      run s (List.replicate n (.create 2 b l k)) = { s with counter := s.counter + BitVec.ofNat 32 n } := by
    intro n
    induction n with
    | zero => intro s _ _; simp [run]
    | succ n ih =>
      intro s h1 h2
      have : run s (List.replicate (n + 1) (.create 2 b l k)) = run (step s (.create 2 b l k)) (List.replicate n (.create 2 b l k)) := rfl
      rw [this]
      have hs : step s (.create 2 b l k) = { s with counter := s.counter + 1 } := by
        simp [step, add, h1, h2]
      rw [hs, ih { s with counter := s.counter + 1 } h1 h2]
      have : s.counter + 1 + BitVec.ofNat 32 n = s.counter + BitVec.ofNat 32 (n + 1) := by
        rw [BitVec.add_assoc]
        congr 1
        apply BitVec.eq_of_toNat_eq
        simp [Nat.add_comm]
      show { s with counter := _ } = _
      rw [this]
  have h2 : run (init 2 : Server C I) [.create 1 b l k, .create 2 b l k] = ⟨2, 2, [⟨1, 1, new b l k, []⟩, ⟨2, 2, new b l k, []⟩]⟩ := rfl
  refine ⟨by rw [h2]; rfl, ?_⟩
  have happ : ∀ (s : Server C I) a b, run s (a ++ b) = run (run s a) b := by
    intro s a b; simp [run]
  rw [happ, happ, h2, full _ _ rfl rfl]
  have hw : (2 : BitVec 32) + BitVec.ofNat 32 (2 ^ 32 - 2) = 0 := by decide
  dsimp only
  rw [hw]
  rfl

/-- Two sessions, at most three subscriptions. -/
def history : List (Ev Nat Nat) :=
  [.create 1 true 9 3, .create 2 true 9 3, .create 1 true 9 3, .create 2 true 9 3, .delete 1 [1, 2, 7], .create 2 true 9 3]

example : (run (init 3) history).subs.map (fun e => (e.id, e.owner)) = [(2, 2), (3, 1), (5, 2)]
    ∧ creates history < 2 ^ 32 := by decide

/-! ### C49 -/

/-- The session that sends a request. -/
def actor : Ev C I → Option Nat
  | .create who .. => some who
  | .modify who .. => some who
  | .setPublishing who .. => some who
  | .delete who .. => some who
  | .close who => some who
  | .items _ who .. => some who
  | .acks who _ => some who
  | .republish who .. => some who
  | .timer .. => none
  | .late who .. => some who

/-- The requests whose handlers compare the sessions. -/
def guarded : Ev C I → Bool
  | .items sv .. => decide (sv = .modifyMonitoredItems)
  | .acks .. => false
  | .republish .. => false
  | .timer .. => false
  | _ => true

/-- The subscriptions of the other sessions. -/
def others (who : Nat) (s : Server C I) : List (Entry C I) := s.subs.filter (fun e => decide (e.owner ≠ who))

theorem others_update (who : Nat) (t : List (Entry C I)) (hn : (t.map (·.id)).Nodup) (id : BitVec 32) (e : Entry C I)
    (he : get t id = some e) (ho : e.owner = who) (f : Entry C I → Entry C I) (hf : ∀ e, (f e).owner = e.owner) :
    (update t id f).filter (fun e => decide (e.owner ≠ who)) = t.filter (fun e => decide (e.owner ≠ who)) := by
  obtain ⟨_, _⟩ := get_some he
  have huniq : ∀ x ∈ t, x.id = id → x.owner = who := by
    intro x hx hid
    have := get_of_mem hn hx
    rw [hid, he] at this
    rw [← Option.some.inj this]; exact ho
  clear he
  have hmap : ∀ l : List (Entry C I), (∀ x ∈ l, x.id = id → x.owner = who) →
      (update l id f).filter (fun e => decide (e.owner ≠ who)) = l.filter (fun e => decide (e.owner ≠ who)) := by
    intro l
    induction l with
    | nil => intro _; rfl
    | cons a l ih =>
      intro h
      have ih := ih (fun x hx => h x (List.mem_cons_of_mem _ hx))
      unfold update at *
      rw [List.map_cons]
      by_cases ha : a.id = id
      · have hw := h a List.mem_cons_self ha
        rw [if_pos ha, List.filter_cons_of_neg (by simp [hf, hw]), List.filter_cons_of_neg (by simp [hw])]
        exact ih
      · rw [if_neg ha, List.filter_cons, List.filter_cons, ih]
  exact hmap t huniq

theorem foldl_others {α : Type} (who : Nat) (g : List (Entry C I) → α → List (Entry C I))
    (hs : ∀ t a, ((g t a).map (·.id)).Sublist (t.map (·.id)))
    (hg : ∀ t a, (t.map (·.id)).Nodup → (g t a).filter (fun e => decide (e.owner ≠ who)) = t.filter (fun e => decide (e.owner ≠ who)))
    (as : List α) : ∀ t, (t.map (·.id)).Nodup →
    (as.foldl g t).filter (fun e => decide (e.owner ≠ who)) = t.filter (fun e => decide (e.owner ≠ who)) := by
  induction as with
  | nil => intro t _; rfl
  | cons a as ih =>
    intro t ht
    rw [List.foldl_cons, ih _ (ht.sublist (hs t a)), hg t a ht]

/-- **C49 (partial).** ModifySubscription, SetPublishingMode, DeleteSubscriptions, CloseSession,
ModifyMonitoredItems, CreateSubscription and a publish request that finds late subscriptions leave the
subscriptions of other sessions as they were. -/
theorem C49_own_partial (max : Nat) (evs : List (Ev C I)) (e : Ev C I) (hn : creates (evs ++ [e]) < 2 ^ 32)
    (who : Nat) (ha : actor e = some who) (hg : guarded e = true) :
    others who (run (init max) (evs ++ [e])) = others who (run (init max) evs) := by
  have hinv := inv_run max evs (Nat.lt_of_le_of_lt (creates_snoc evs e) hn)
  have hids := hinv.ids
  unfold others
  rw [run_snoc]
  cases e with
  | create w b l k =>
    have : creates (evs ++ [Ev.create w b l k]) = creates evs + 1 := by simp [creates, List.filter_append]
    rw [this] at hn
    obtain ⟨_, h2⟩ := hinv.fresh hn
    generalize run (init max) evs = s at *
    cases ha
    dsimp only [step, add]
    split
    · rfl
    · dsimp only
      rw [erase_fresh h2, List.filter_append]
      simp
  | modify w id l k =>
    generalize run (init max) evs = s at *
    cases ha
    dsimp only [step]
    split
    · rfl
    · next x hx =>
      split
      · rfl
      · next ho => exact others_update who s.subs hids id x hx (Decidable.not_not.1 ho) _ (fun _ => rfl)
  | setPublishing w b ids =>
    generalize run (init max) evs = s at *
    cases ha
    refine foldl_others who _ (setPublishingOne_sublist who b) ?_ ids s.subs hids
    intro t id ht
    unfold setPublishingOne
    split
    · rfl
    · next x hx =>
      split
      · next ho => exact others_update who t ht id x hx ho _ (fun _ => rfl)
      · rfl
  | delete w ids =>
    generalize run (init max) evs = s at *
    cases ha
    show (ids.foldl (deleteOne who) s.subs).filter _ = _
    rw [foldl_deleteOne who ids s.subs hids, List.filter_filter]
    apply List.filter_congr
    intro e _
    by_cases h1 : e.owner = who <;> simp [h1]
  | close w =>
    generalize run (init max) evs = s at *
    cases ha
    show (s.subs.filter _).filter _ = _
    rw [List.filter_filter]
    apply List.filter_congr
    intro e _
    by_cases h1 : e.owner = who <;> simp [h1]
  | items sv w id f =>
    generalize run (init max) evs = s at *
    cases ha
    have hsv : sv = .modifyMonitoredItems := by simpa [guarded] using hg
    subst hsv
    dsimp only [step]
    split
    · rfl
    · next x hx =>
      split
      · rfl
      · next ho =>
        have ho : x.owner = who := Classical.byContradiction fun h => ho (by simp [ItemService.checksOwner, h])
        exact others_update who s.subs hids id x hx ho _ (fun _ => rfl)
  | acks w as => cases hg
  | republish w id n ok => cases hg
  | timer id d req => cases hg
  | late w id d r ok =>
    generalize run (init max) evs = s at *
    cases ha
    dsimp only [step]
    split
    · rfl
    · next x hx =>
      split
      · rfl
      · next ho => exact others_update who s.subs hids id x hx (Decidable.not_not.1 ho) _ (fun _ => rfl)

/-- Session 1 tries everything on the subscription 2 of session 2. -/
example : (others 1 (run (init 3) (history ++ [.modify 1 2 0 0, .setPublishing 1 false [2, 5], .delete 1 [2, 5], .close 1]))).map
        (fun e => (e.id, e.sub.enabled, e.sub.maxLifetime))
      = (others 1 (run (init 3) history)).map (fun e => (e.id, e.sub.enabled, e.sub.maxLifetime))
    ∧ (others 1 (run (init 3) history)).length = 2 := by decide

/-- **C49 fails.** CreateMonitoredItems, SetMonitoringMode, SetTriggering and DeleteMonitoredItems
change the monitored items of a subscription whoever asks. -/
theorem C49_items_fails (s : Server C I) (sv : ItemService) (hsv : sv ≠ .modifyMonitoredItems) (who : Nat)
    (id : BitVec 32) (f : List (BitVec 32 × I) → List (BitVec 32 × I)) (e : Entry C I) (he : get s.subs id = some e) :
    (get (step s (.items sv who id f)).subs id).map (·.items) = some (f e.items) := by
  have hc : sv.checksOwner = false := by cases sv <;> first | rfl | exact absurd rfl hsv
  dsimp only [step]
  rw [he]
  dsimp only
  rw [if_neg (by simp [hc])]
  dsimp only
  rw [get_update, he]
  · rfl
  · intro _; rfl

/-- Session 1 deletes the monitored items of session 2. -/
example : (run (init 3) (history ++ [.items .createMonitoredItems 2 2 (fun _ => [(10, 0), (11, 0)]),
      .items .deleteMonitoredItems 1 2 (fun _ => [])])).subs.map (fun e => (e.id, e.owner, e.items))
    = [(2, 2, []), (3, 1, []), (5, 2, [])] := by decide

/-- **C49 fails.** An acknowledgement in a publish request discards the notifications of a
subscription of any session; so does Republish, which sends them to whoever asks. -/
theorem C49_acks_fails (s : Server C I) (who : Nat) (id n : BitVec 32) (e : Entry C I)
    (he : get s.subs id = some e) (halive : e.sub.alive = true) :
    (get (step s (.acks who [(id, n)])).subs id).map (·.sub.queue) = some (removeFirst e.sub.queue n)
    ∧ (get (step s (.republish who id n true)).subs id).map (·.sub.queue) = some (removeFirst e.sub.queue n) := by
  constructor
  · have : (step s (.acks who [(id, n)])).subs = (ackOne s.subs (id, n)).1 := rfl
    rw [this]
    cases hh : holds e.sub.queue n with
    | true => 
      rw [ackOne_held he hh]
      dsimp only
      rw [get_update, he]
      · rfl
      · intro _; rfl
    | false => 
      rw [ackOne_unknown he hh]
      dsimp only
      rw [get_update, he]
      · rfl
      · intro _; rfl
  · dsimp only [step]
    rw [he]
    dsimp only
    have : (Subscription.step e.sub (.republish n true)).queue = removeFirst e.sub.queue n := by
      unfold Subscription.step
      rw [if_neg (by simp [halive])]
      dsimp only [republish]
      split
      · next h =>
        have h : ∀ m ∈ e.sub.queue, m.1 ≠ n := by simpa [List.find?_eq_none] using h
        show e.sub.queue = _
        revert h
        generalize e.sub.queue = q
        induction q with
        | nil => intro _; rfl
        | cons m q ih =>
          intro h
          have h1 := h m List.mem_cons_self
          rw [removeFirst, if_neg h1, ← ih (fun m hm => h m (List.mem_cons_of_mem _ hm))]
      · rfl
    rw [get_update, he, Option.map_some, Option.map_some, this]
    intro _; rfl

/-- Session 1 takes the notification 1 of session 2. -/
def stolen (ev : Ev Nat Nat) : List (BitVec 32 × Nat × List (BitVec 32 × Nat)) :=
  (run (init 3) (history ++ [.timer 2 (some (77, false)) (.some [] true), ev])).subs.map
    (fun e => (e.id, e.owner, e.sub.queue))

example : stolen (.modify 1 2 0 0) = [(2, 2, [(1, 77)]), (3, 1, []), (5, 2, [])]
    ∧ stolen (.acks 1 [(2, 1)]) = [(2, 2, []), (3, 1, []), (5, 2, [])]
    ∧ stolen (.republish 1 2 1 true) = [(2, 2, []), (3, 1, []), (5, 2, [])] := by decide

end Opcua.SubTable
