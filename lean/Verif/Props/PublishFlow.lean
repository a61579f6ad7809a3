import Verif.Model.PublishFlow
import Verif.Lemmas.Lists

/-! C126: who answers a Publish request, and which requests wait. -/
namespace Opcua.PublishFlow

namespace Spec

/-- A subscription that waits for a request: its timer found none, and it has notifications to send or
owes a keep-alive. -/
def Hungry (t : Sub) (d : Data) : Prop :=
  t.late = true ∧ ((d ≠ .nothing ∧ t.enabled = true) ∨ t.maxKeepAlive ≤ t.keepAlive ∨ t.fresh = true)

/-- The requests that a session sent, in order. -/
def asked (w : Nat) : List Ev → List Nat
  | [] => []
  | .publish u r _ _ :: es => if u = w then r.rid :: asked w es else asked w es
  | _ :: es => asked w es

/-- The requests of a session that have an answer, in the order of the answers. -/
def answered (s : State) (w : Nat) : List Nat := (s.answers.filter (fun a => decide (a.1 = w))).map (·.2.1)

/-- The requests of a session that wait. -/
def waiting (s : State) (w : Nat) : List Nat := (s.queue w).map (·.rid)

/-- The session that acts in an event, if any. -/
def actor : Ev → Option Nat
  | .create w _ _ _ _ => some w
  | .modify w _ _ _ _ => some w
  | .setMode w _ _ => some w
  | .delete w _ => some w
  | .publish w _ _ _ => some w
  | _ => none

/-- The deadline of a request is over. -/
def Overdue (now : Nat) (r : Req) : Bool := decide (r.deadline < now)

/-- A subscription has use for a request on a turn of its timer: for its notifications, for its first
response, or for a keep-alive. -/
def Needs (t : Sub) (d : Data) : Prop :=
  (d ≠ .nothing ∧ t.enabled = true) ∨ t.maxKeepAlive ≤ t.keepAlive + 1 ∨ t.fresh = true

/-- Only `w` creates subscriptions, with a lifetime of at least one. -/
def Alone (w : Nat) : Ev → Prop
  | .create u _ _ _ l => u = w ∧ 0 < l
  | .modify _ _ _ _ l => 0 < l
  | _ => True

end Spec

open Spec

theorem run_snoc (s : State) (evs : List Ev) (e : Ev) : run s (evs ++ [e]) = step (run s evs) e := by simp [run]

/-! ### Every request is answered once or waits -/

theorem asked_snoc (w : Nat) (evs : List Ev) (e : Ev) : asked w (evs ++ [e]) = asked w evs ++ asked w [e] := by
  induction evs with
  | nil => rfl
  | cons a as ih =>
    cases a <;> simp only [List.cons_append, asked, ih]
    split <;> simp

theorem filter_told (u w : Nat) (as : List (Nat × Answer)) :
    ((told u as).filter (fun a => decide (a.1 = w))).map (·.2.1) = if u = w then as.map (·.1) else [] := by
  induction as with
  | nil => simp [told]
  | cons a as ih =>
    unfold told at ih ⊢
    rw [List.map_cons, List.filter_cons]
    by_cases hu : u = w
    · rw [if_pos hu] at ih ⊢
      rw [if_pos (by simpa using hu), List.map_cons, ih]; rfl
    · rw [if_neg hu] at ih ⊢
      rw [if_neg (by simpa using hu), ih]

theorem answered_told (s : State) (w u : Nat) (as : List (Nat × Answer)) (s' : State)
    (h : s'.answers = s.answers ++ told u as) :
    answered s' w = answered s w ++ if u = w then as.map (·.1) else [] := by
  unfold answered
  rw [h, List.filter_append, List.map_append, filter_told]

theorem set_same {α : Type} (f : Nat → α) (w : Nat) (v : α) : set f w v w = v := by simp [set]
theorem set_other {α : Type} (f : Nat → α) (w u : Nat) (v : α) (h : u ≠ w) : set f w v u = f u := by simp [set, h]

theorem remove_rids (now : Nat) (q : List Req) :
    q.map (·.rid) = (remove now q).1.map (·.1) ++ (remove now q).2.1.toList.map (·.rid) ++ (remove now q).2.2.map (·.rid) := by
  induction q with
  | nil => rfl
  | cons r rs ih =>
    unfold remove
    split
    · simp only [List.map_cons, List.cons_append]; rw [ih]
    · simp

theorem remove_none (now : Nat) (q : List Req) (h : (remove now q).2.1 = none) : (remove now q).2.2 = [] := by
  induction q with
  | nil => rfl
  | cons r rs ih =>
    unfold remove at h ⊢
    split
    · rename_i hd; rw [if_pos hd] at h; exact ih h
    · rename_i hd; rw [if_neg hd] at h; cases h

theorem drain_rids (now : Nat) (q : List Req) : (drain now q).map (·.1) = q.map (·.rid) := by
  induction q with
  | nil => rfl
  | cons r rs ih => simp [drain, ih]

theorem told_append (u : Nat) (as bs : List (Nat × Answer)) : told u as ++ told u bs = told u (as ++ bs) := by
  simp [told]

/-- What a session asked, with the answers and the channel that a step of session `u` leaves. -/
theorem conserve (s s' : State) (u : Nat) (as : List (Nat × Answer)) (q : List Req) (new : List Nat)
    (ha : s'.answers = s.answers ++ told u as) (hq : s'.queue = set s.queue u q)
    (hp : (as.map (·.1) ++ q.map (·.rid)).Perm ((s.queue u).map (·.rid) ++ new)) (w : Nat) :
    (answered s' w ++ waiting s' w).Perm (answered s w ++ waiting s w ++ if u = w then new else []) := by
  rw [answered_told s w u as s' ha]
  unfold waiting
  rw [hq]
  by_cases hu : u = w
  · subst hu
    rw [if_pos rfl, if_pos rfl, set_same, List.append_assoc, List.append_assoc]
    exact List.Perm.append_left _ hp
  · rw [if_neg hu, if_neg hu, set_other _ _ _ _ (Ne.symm hu)]
    simp

theorem conserve_idle (s s' : State) (ha : s'.answers = s.answers) (hq : s'.queue = s.queue) (w : Nat) :
    (answered s' w ++ waiting s' w).Perm (answered s w ++ waiting s w) := by
  unfold answered waiting
  rw [ha, hq]

theorem set_self {α : Type} (f : Nat → α) (w : Nat) : set f w (f w) = f := by
  funext u; unfold set; split
  · rename_i h; rw [h]
  · rfl

theorem enqueue_conserves (s : State) (u : Nat) (r : Req) (w : Nat) :
    (answered (enqueue u r s) w ++ waiting (enqueue u r s) w).Perm
      (answered s w ++ waiting s w ++ if u = w then [r.rid] else []) := by
  unfold enqueue
  split
  · rename_i h
    exact conserve s _ u [] [r] [r.rid] (by simp [told]) rfl (by simp [h]) w
  · rename_i o q h
    split
    · exact conserve s _ u [] (o :: q ++ [r]) [r.rid] (by simp [told]) rfl (by simp [h]) w
    · exact conserve s _ u [(o.rid, .badTooManyPublishRequests)] (q ++ [r]) [r.rid] rfl rfl (by simp [h]) w

theorem publish_conserves (s : State) (u : Nat) (r : Req) (tie : Nat → Nat) (data : Nat → Data) (w : Nat) :
    (answered (publish s u r tie data) w ++ waiting (publish s u r tie data) w).Perm
      (answered s w ++ waiting s w ++ if u = w then [r.rid] else []) := by
  have once : ∀ (s' : State) (a : Answer), s'.answers = s.answers ++ told u [(r.rid, a)] → s'.queue = s.queue →
      (answered s' w ++ waiting s' w).Perm (answered s w ++ waiting s w ++ if u = w then [r.rid] else []) := by
    intro s' a ha hq
    refine conserve s s' u [(r.rid, a)] (s.queue u) [r.rid] ha (by rw [hq, set_self]) ?_ w
    simpa using (List.perm_append_comm (l₁ := [r.rid]) (l₂ := (s.queue u).map (·.rid)))
  unfold publish
  split
  · exact once _ _ rfl rfl
  · split
    · exact once _ _ rfl rfl
    · split
      · exact once _ _ rfl rfl
      · exact enqueue_conserves s u r w

theorem starve_answers (s : State) (t : Sub) (f : Nat → Nat → Bool) :
    (starve s t f).answers = s.answers ∧ (starve s t f).queue = s.queue := by
  unfold starve
  dsimp only
  split <;> exact ⟨rfl, rfl⟩

theorem cycle_conserves (s : State) (t : Sub) (d : Data) (w : Nat) :
    (answered (cycle s t d) w ++ waiting (cycle s t d) w).Perm (answered s w ++ waiting s w) := by
  have hr := remove_rids s.now (s.queue t.owner)
  have fed : ∀ (s' : State) (r : Req) (a : Answer), (remove s.now (s.queue t.owner)).2.1 = some r →
      s'.answers = s.answers ++ told t.owner (remove s.now (s.queue t.owner)).1 ++ told t.owner [(r.rid, a)] →
      s'.queue = set s.queue t.owner (remove s.now (s.queue t.owner)).2.2 →
      (answered s' w ++ waiting s' w).Perm (answered s w ++ waiting s w) := by
    intro s' r a h1 h2 h3
    have := conserve s s' t.owner ((remove s.now (s.queue t.owner)).1 ++ [(r.rid, a)]) _ []
      (by rw [h2, List.append_assoc, told_append]) h3 (by rw [hr, h1]; simp) w
    simpa using this
  have unfed : ∀ (s' : State), (remove s.now (s.queue t.owner)).2.1 = none →
      s'.answers = s.answers ++ told t.owner (remove s.now (s.queue t.owner)).1 →
      s'.queue = set s.queue t.owner (remove s.now (s.queue t.owner)).2.2 →
      (answered s' w ++ waiting s' w).Perm (answered s w ++ waiting s w) := by
    intro s' h1 h2 h3
    have := conserve s s' t.owner (remove s.now (s.queue t.owner)).1 _ [] h2 h3 (by rw [hr, h1]; simp) w
    simpa using this
  unfold cycle
  dsimp only
  split
  · split
    · rename_i r h; exact fed _ r _ h rfl rfl
    · rename_i h
      exact unfed _ h (starve_answers _ _ _).1 (starve_answers _ _ _).2
  · split
    · split
      · rename_i r h; exact fed _ r _ h rfl rfl
      · rename_i h
        exact unfed _ h (starve_answers _ _ _).1 (starve_answers _ _ _).2
    · exact conserve_idle s _ rfl rfl w

theorem delete_conserves (s : State) (u : Nat) (ids : List Nat) (w : Nat) :
    (answered (delete s u ids) w ++ waiting (delete s u ids) w).Perm (answered s w ++ waiting s w) := by
  unfold delete
  split
  · exact List.Perm.refl _
  · dsimp only
    split
    · have := conserve s { s with
        subs := s.subs.filter (fun t => decide (¬ (t.owner = u ∧ t.id ∈ ids)))
        queue := set s.queue u []
        answers := s.answers ++ told u (drain s.now (s.queue u)) } u (drain s.now (s.queue u)) [] [] rfl rfl
        (by rw [drain_rids]; simp) w
      simpa using this
    · exact conserve_idle s _ rfl rfl w

theorem step_conserves (s : State) (e : Ev) (w : Nat) :
    (answered (step s e) w ++ waiting (step s e) w).Perm (answered s w ++ waiting s w ++ asked w [e]) := by
  cases e with
  | publish u r tie data =>
    have h : asked w [Ev.publish u r tie data] = if u = w then [r.rid] else [] := by
      simp only [asked]
    rw [h]
    exact publish_conserves s u r tie data w
  | timer id d =>
    simp only [step, asked, List.append_nil]
    split
    · exact List.Perm.refl _
    · exact cycle_conserves s _ d w
  | delete u ids =>
    simp only [step, asked, List.append_nil]
    exact delete_conserves s u ids w
  | tick d => simpa only [asked, List.append_nil] using conserve_idle s (step s (.tick d)) rfl rfl w
  | create a b c d f => simpa only [asked, List.append_nil] using conserve_idle s (step s (.create a b c d f)) rfl rfl w
  | modify a b c d f => simpa only [asked, List.append_nil] using conserve_idle s (step s (.modify a b c d f)) rfl rfl w
  | setMode a b c => simpa only [asked, List.append_nil] using conserve_idle s (step s (.setMode a b c)) rfl rfl w
  | sweep => simpa only [asked, List.append_nil] using conserve_idle s (step s .sweep) rfl rfl w

/-- Every Publish request of a session that is not closed is answered or waits, and none is answered
twice: the requests that were sent are, in some order, those with an answer and those in the channel. -/
theorem C126_conserved (evs : List Ev) (w : Nat) :
    (answered (run init evs) w ++ waiting (run init evs) w).Perm (asked w evs) := by
  induction evs using snocInd with
  | nil => exact List.Perm.refl _
  | append_singleton evs e ih =>
    rw [run_snoc, asked_snoc]
    exact (step_conserves _ e w).trans (ih.append_right _)

/-! ### Which subscription answers -/

theorem mem_insert (tie : Nat → Nat) (a x : Sub) (l : List Sub) : x ∈ insert tie a l ↔ x = a ∨ x ∈ l := by
  induction l with
  | nil => simp [insert]
  | cons b bs ih =>
    unfold insert
    split
    · simp
    · rw [List.mem_cons, ih, List.mem_cons]
      constructor
      · rintro (h | h | h) <;> simp [h]
      · rintro (h | h | h) <;> simp [h]

theorem mem_sort (tie : Nat → Nat) (x : Sub) (l : List Sub) : x ∈ sort tie l ↔ x ∈ l := by
  induction l with
  | nil => simp [sort]
  | cons a as ih => simp [sort, mem_insert, ih]

theorem insert_sorted (tie : Nat → Nat) (a : Sub) (l : List Sub)
    (h : l.Pairwise (fun x y => y.priority ≤ x.priority)) :
    (insert tie a l).Pairwise (fun x y => y.priority ≤ x.priority) := by
  induction l with
  | nil => simp [insert]
  | cons b bs ih =>
    have hb := List.pairwise_cons.1 h
    unfold insert
    split
    · rename_i hc
      refine List.pairwise_cons.2 ⟨fun y hy => ?_, h⟩
      rcases List.mem_cons.1 hy with rfl | hy
      · omega
      · have := hb.1 y hy; omega
    · rename_i hc
      refine List.pairwise_cons.2 ⟨fun y hy => ?_, ih hb.2⟩
      rcases (mem_insert tie a y bs).1 hy with rfl | hy
      · by_cases hp : y.priority ≤ b.priority
        · exact hp
        · exact absurd (Or.inl (by omega)) hc
      · exact hb.1 y hy

theorem sort_sorted (tie : Nat → Nat) (l : List Sub) :
    (sort tie l).Pairwise (fun x y => y.priority ≤ x.priority) := by
  induction l with
  | nil => exact List.Pairwise.nil
  | cons a as ih => exact insert_sorted tie a _ ih

theorem handleLate_some (t : Sub) (d : Data) : (handleLate t d).isSome = true ↔ Hungry t d := by
  unfold handleLate Hungry
  cases t.late <;> simp
  by_cases h1 : d ≠ .nothing ∧ t.enabled = true
  · simp [h1]
  · rw [if_neg (by simpa using h1)]
    by_cases h2 : t.maxKeepAlive ≤ t.keepAlive ∨ t.fresh = true
    · simp [h2]
    · simp [h2]; simpa using h1

theorem handleLate_answer {t : Sub} {d : Data} {a : Answer} {u : Sub} (h : handleLate t d = some (a, u)) :
    (a = .notification t.id ∨ a = .keepAlive t.id) ∧ u.id = t.id ∧
      (a = .notification t.id ↔ d ≠ .nothing ∧ t.enabled = true) := by
  unfold handleLate at h
  split at h
  · cases h
  · split at h
    · rename_i hd
      cases h
      exact ⟨Or.inl rfl, rfl, fun _ => hd, fun _ => rfl⟩
    · rename_i hd
      split at h
      · cases h
        exact ⟨Or.inr rfl, rfl, fun h => (by cases h), fun h => absurd h hd⟩
      · cases h

theorem firstLate_some {data : Nat → Data} {l : List Sub} {x : Answer × Sub} (h : firstLate data l = some x)
    (hs : l.Pairwise (fun x y => y.priority ≤ x.priority)) :
    ∃ t ∈ l, handleLate t (data t.id) = some x ∧
      ∀ u ∈ l, Hungry u (data u.id) → u.priority ≤ t.priority := by
  induction l with
  | nil => cases h
  | cons t ts ih =>
    have hp := List.pairwise_cons.1 hs
    unfold firstLate at h
    split at h
    · rename_i y hy
      cases h
      refine ⟨t, List.mem_cons_self, hy, fun u hu _ => ?_⟩
      rcases List.mem_cons.1 hu with rfl | hu
      · exact Nat.le_refl _
      · exact hp.1 u hu
    · rename_i hn
      obtain ⟨t', ht', h1, h2⟩ := ih h hp.2
      refine ⟨t', List.mem_cons_of_mem _ ht', h1, fun u hu hh => ?_⟩
      rcases List.mem_cons.1 hu with rfl | hu
      · have := (handleLate_some u (data u.id)).2 hh
        rw [hn] at this; cases this
      · exact h2 u hu hh

theorem firstLate_none {data : Nat → Data} {l : List Sub} (h : firstLate data l = none) :
    ∀ u ∈ l, ¬ Hungry u (data u.id) := by
  induction l with
  | nil => intro u hu; cases hu
  | cons t ts ih =>
    unfold firstLate at h
    split at h
    · cases h
    · rename_i hn
      intro u hu hh
      rcases List.mem_cons.1 hu with rfl | hu
      · have := (handleLate_some u (data u.id)).2 hh
        rw [hn] at this; cases this
      · exact ih h u hu hh

theorem mem_mine {subs : List Sub} {w : Nat} {t : Sub} : t ∈ mine subs w ↔ t ∈ subs ∧ t.owner = w := by
  simp [mine]

/-- A Publish request goes at once to a subscription of its session that waits for one, if there is one
and no status change is due: the one of highest priority, which sends its notifications if it has any
and publishing is enabled, and otherwise its keep-alive. -/
theorem C126_priority (s : State) (w : Nat) (r : Req) (tie : Nat → Nat) (data : Nat → Data)
    (hc : s.changes w = []) (hh : ∃ u ∈ s.subs, u.owner = w ∧ Hungry u (data u.id)) :
    ∃ t ∈ s.subs, t.owner = w ∧ Hungry t (data t.id) ∧
      (∀ u ∈ s.subs, u.owner = w → Hungry u (data u.id) → u.priority ≤ t.priority) ∧
      (step s (.publish w r tie data)).answers = s.answers ++
        [(w, r.rid, if data t.id ≠ .nothing ∧ t.enabled = true then .notification t.id else .keepAlive t.id)] ∧
      (step s (.publish w r tie data)).queue = s.queue := by
  obtain ⟨u, hu, huw, huh⟩ := hh
  cases hf : firstLate data (sort tie (mine s.subs w)) with
  | none => exact absurd huh (firstLate_none hf u ((mem_sort _ _ _).2 (mem_mine.2 ⟨hu, huw⟩)))
  | some x =>
    obtain ⟨a, v⟩ := x
    obtain ⟨t, ht, h1, h2⟩ := firstLate_some hf (sort_sorted _ _)
    have htm := mem_mine.1 ((mem_sort _ _ _).1 ht)
    have ha := handleLate_answer h1
    refine ⟨t, htm.1, htm.2, (handleLate_some _ _).1 (by rw [h1]; rfl),
      fun u hu hw hh => h2 u ((mem_sort _ _ _).2 (mem_mine.2 ⟨hu, hw⟩)) hh, ?_⟩
    have hlen : ¬ s.subs.length = 0 := by
      intro h0; rw [List.length_eq_zero_iff.1 h0] at hu; cases hu
    simp only [step, publish, hc, if_neg hlen, hf]
    refine ⟨?_, trivial⟩
    congr 1
    by_cases hd : data t.id ≠ .nothing ∧ t.enabled = true
    · rw [if_pos hd, ha.2.2.2 hd]; rfl
    · rw [if_neg hd]
      rcases ha.1 with h | h
      · exact absurd (ha.2.2.1 h) hd
      · rw [h]; rfl

/-- What does not fit into one response is sent with the next: if the subscriptions that wait for a request have more
than they can send at once, the next request is answered at once as well. -/
theorem C126_more (s : State) (w : Nat) (r r2 : Req) (tie tie2 : Nat → Nat) (data data2 : Nat → Data)
    (hc : s.changes w = []) (hh : ∃ u ∈ s.subs, u.owner = w ∧ Hungry u (data u.id))
    (hm : ∀ u ∈ s.subs, u.owner = w → Hungry u (data u.id) → data u.id = .more ∧ u.enabled = true)
    (h2 : ∀ i, data i = .more → data2 i ≠ .nothing) :
    let s' := step s (.publish w r tie data)
    ∃ t ∈ s'.subs, t.owner = w ∧ data2 t.id ≠ .nothing ∧ t.enabled = true ∧ t.late = true ∧
      ∃ a, (step s' (.publish w r2 tie2 data2)).answers = s'.answers ++ [(w, r2.rid, a)] ∧
        (step s' (.publish w r2 tie2 data2)).queue = s.queue := by
  obtain ⟨u, hu, huw, huh⟩ := hh
  cases hf : firstLate data (sort tie (mine s.subs w)) with
  | none => exact absurd huh (firstLate_none hf u ((mem_sort _ _ _).2 (mem_mine.2 ⟨hu, huw⟩)))
  | some x =>
    obtain ⟨a, v⟩ := x
    obtain ⟨t, ht, h1, -⟩ := firstLate_some hf (sort_sorted _ _)
    have htm := mem_mine.1 ((mem_sort _ _ _).1 ht)
    have hth := (handleLate_some _ _).1 (by rw [h1]; rfl : (handleLate t (data t.id)).isSome = true)
    obtain ⟨hd, he⟩ := hm t htm.1 htm.2 hth
    have hv : v = { t with fresh := false, keepAlive := 0, lifetime := 0, late := true } := by
      unfold handleLate at h1
      rw [if_neg (by rw [hth.1]; decide), if_pos ⟨by rw [hd]; decide, he⟩, hd] at h1
      injection h1 with h1; injection h1 with _ h1
      exact h1.symm
    have hlen : ¬ s.subs.length = 0 := by
      intro h0; rw [List.length_eq_zero_iff.1 h0] at hu; cases hu
    have hs : step s (.publish w r tie data) =
        { s with
          subs := store s.subs v
          answers := s.answers ++ told w [(r.rid, a)] } := by
      simp only [step, publish, hc, if_neg hlen, hf]
    have hvm : v ∈ (step s (.publish w r tie data)).subs := by
      rw [hs]
      refine List.mem_map.2 ⟨t, htm.1, ?_⟩
      rw [if_pos (by rw [hv])]
    have hq : (step s (.publish w r tie data)).queue = s.queue := by rw [hs]
    have hcc : (step s (.publish w r tie data)).changes w = [] := by rw [hs]; exact hc
    have hvh : Hungry v (data2 v.id) := by
      rw [hv]; exact ⟨rfl, .inl ⟨h2 _ hd, he⟩⟩
    have hvo : v.owner = w := by rw [hv]; exact htm.2
    refine ⟨v, hvm, hvo, ?_, ?_, ?_, ?_⟩
    · rw [hv]; exact h2 _ hd
    · rw [hv]; exact he
    · rw [hv]
    · obtain ⟨t', -, -, -, -, h3, h4⟩ := C126_priority _ w r2 tie2 data2 hcc ⟨v, hvm, hvo, hvh⟩
      exact ⟨_, h3, h4.trans hq⟩

/-- The end of a subscription is told first: if status changes are due, the request carries the oldest. -/
theorem C126_status_first (s : State) (w : Nat) (r : Req) (tie : Nat → Nat) (data : Nat → Data) (c : Nat)
    (cs : List Nat) (hc : s.changes w = c :: cs) :
    (step s (.publish w r tie data)).answers = s.answers ++ [(w, r.rid, .statusChange c)] ∧
      (step s (.publish w r tie data)).changes w = cs ∧ (step s (.publish w r tie data)).queue = s.queue ∧
      (step s (.publish w r tie data)).subs = s.subs := by
  simp [step, publish, hc, set_same, told]

/-! ### What a turn of a timer does with the requests -/

theorem remove_eq (now : Nat) (q : List Req) :
    remove now q = ((q.takeWhile (Overdue now)).map (fun r => (r.rid, .badTimeout)),
      (q.dropWhile (Overdue now)).head?, (q.dropWhile (Overdue now)).tail) := by
  induction q with
  | nil => rfl
  | cons r rs ih =>
    unfold remove
    by_cases h : now > r.deadline
    · have h' : Overdue now r = true := by simpa [Overdue] using h
      rw [if_pos h, ih]
      simp [h']
    · have h' : Overdue now r = false := by simpa [Overdue] using h
      rw [if_neg h]
      simp [h']

/-- A subscription that turns to the requests of its session takes the oldest one that is not overdue: it
answers it with its notifications, if it has any and publishing is enabled, and otherwise with a
keep-alive. The overdue ones before it are answered with BadTimeout, those after it stay. A subscription
that has no need of a request touches none. -/
theorem C126_turn (s : State) (id : Nat) (d : Data) (t : Sub) (ht : s.subs.find? (fun u => decide (u.id = id)) = some t) :
    (Needs t d →
      (step s (.timer id d)).answers = s.answers ++
        ((s.queue t.owner).takeWhile (Overdue s.now)).map (fun r => (t.owner, r.rid, .badTimeout)) ++
        ((s.queue t.owner).dropWhile (Overdue s.now)).head?.toList.map (fun r => (t.owner, r.rid,
          if d ≠ .nothing ∧ t.enabled = true then .notification t.id else .keepAlive t.id)) ∧
      (step s (.timer id d)).queue t.owner = ((s.queue t.owner).dropWhile (Overdue s.now)).tail) ∧
    (¬ Needs t d → (step s (.timer id d)).answers = s.answers ∧ (step s (.timer id d)).queue = s.queue) := by
  have hs : step s (.timer id d) = cycle s t d := by simp only [step, ht]
  rw [hs]
  unfold cycle
  rw [remove_eq]
  dsimp only
  constructor
  · intro hn
    by_cases hd : d ≠ .nothing ∧ t.enabled = true
    · rw [if_pos hd]
      cases hh : ((s.queue t.owner).dropWhile (Overdue s.now)).head? with
      | none =>
        simp only [(starve_answers _ _ _).1, (starve_answers _ _ _).2, set_same]
        simp [told]
      | some r =>
        simp only [set_same, if_pos hd]
        simp [told]
    · rw [if_neg hd]
      have hk : t.keepAlive + 1 ≥ t.maxKeepAlive ∨ t.fresh = true := by
        rcases hn with h | h | h
        · exact absurd h hd
        · exact Or.inl h
        · exact Or.inr h
      rw [if_pos hk]
      cases hh : ((s.queue t.owner).dropWhile (Overdue s.now)).head? with
      | none =>
        simp only [(starve_answers _ _ _).1, (starve_answers _ _ _).2, set_same]
        simp [told]
      | some r =>
        simp only [set_same, if_neg hd]
        simp [told]
  · intro hn
    rw [if_neg (fun h => hn (Or.inl h)), if_neg (fun h => hn (Or.inr h))]
    exact ⟨rfl, rfl⟩

theorem find_map {subs : List Sub} {f : Sub → Sub} (hf : ∀ t, (f t).id = t.id) {id : Nat} {t : Sub}
    (h : subs.find? (fun u => decide (u.id = id)) = some t) :
    (subs.map f).find? (fun u => decide (u.id = id)) = some (f t) := by
  rw [List.find?_map]
  have : ((fun u : Sub => decide (u.id = id)) ∘ f) = (fun u => decide (u.id = id)) := by
    funext u; simp [hf]
  rw [this, h]; rfl

/-- ModifySubscription sets the count of idle turns after which the subscription owes a keep-alive: on a
turn without notifications it answers a waiting request if that many turns have passed, and otherwise,
once it has sent its first response, it does not. -/
theorem C126_modified (s : State) (w id p k l : Nat) (t : Sub) (r : Req) (q : List Req)
    (ht : s.subs.find? (fun u => decide (u.id = id)) = some t) (how : t.owner = w) (hf : t.fresh = false)
    (hq : s.queue w = r :: q) (hr : s.now ≤ r.deadline) :
    (run s [.modify w id p k l, .timer id .nothing]).answers =
      if k ≤ t.keepAlive + 1 then s.answers ++ [(w, r.rid, .keepAlive t.id)] else s.answers := by
  have hid : t.id = id := by simpa using List.find?_some ht
  have h1 : (step s (.modify w id p k l)).subs.find? (fun u => decide (u.id = id)) =
      some { t with priority := p, maxKeepAlive := k, maxLifetime := l, lifetime := 0 } := by
    simp only [step]
    rw [find_map (f := fun t => if t.id = id ∧ t.owner = w then
      { t with priority := p, maxKeepAlive := k, maxLifetime := l, lifetime := 0 } else t) _ ht]
    · rw [if_pos ⟨hid, how⟩]
    · intro u; split <;> rfl
  have h2 := C126_turn (step s (.modify w id p k l)) id .nothing _ h1
  have hQ : (step s (.modify w id p k l)).queue t.owner = r :: q := by rw [how]; exact hq
  have hO : Overdue s.now r = false := decide_eq_false (Nat.not_lt.2 hr)
  show (step (step s (.modify w id p k l)) (.timer id .nothing)).answers = _
  split
  · rename_i hk
    rw [(h2.1 (Or.inr (Or.inl hk))).1]
    have hnow : (step s (.modify w id p k l)).now = s.now := rfl
    have hans : (step s (.modify w id p k l)).answers = s.answers := rfl
    simp only [hQ, hnow, hans]
    simp [hO, how]
  · rename_i hk
    refine (h2.2 ?_).1
    rintro (h | h | h)
    · exact h.1 rfl
    · exact hk h
    · simp only [hf] at h; cases h

/-! ### How many requests wait -/

/-- A request that no subscription needs waits behind the others. Only when 64 wait already is the oldest
of them answered, with BadTooManyPublishRequests. -/
theorem C126_queued (s : State) (w : Nat) (r : Req) (tie : Nat → Nat) (data : Nat → Data)
    (hc : s.changes w = []) (hs : s.subs ≠ []) (hh : ∀ u ∈ s.subs, u.owner = w → ¬ Hungry u (data u.id)) :
    ((s.queue w).length < 64 →
      (step s (.publish w r tie data)).queue w = s.queue w ++ [r] ∧
      (step s (.publish w r tie data)).answers = s.answers) ∧
    (∀ o q, s.queue w = o :: q → 64 ≤ (s.queue w).length →
      (step s (.publish w r tie data)).queue w = q ++ [r] ∧
      (step s (.publish w r tie data)).answers = s.answers ++ [(w, o.rid, .badTooManyPublishRequests)]) := by
  have hn : firstLate data (sort tie (mine s.subs w)) = none := by
    cases hf : firstLate data (sort tie (mine s.subs w)) with
    | none => rfl
    | some x =>
      obtain ⟨t, ht, h1, _⟩ := firstLate_some hf (sort_sorted _ _)
      have htm := mem_mine.1 ((mem_sort _ _ _).1 ht)
      exact absurd ((handleLate_some _ _).1 (by rw [h1]; rfl)) (hh t htm.1 htm.2)
  have hlen : ¬ s.subs.length = 0 := fun h0 => hs (List.length_eq_zero_iff.1 h0)
  simp only [step, publish, hc, if_neg hlen, hn]
  constructor
  · intro hl
    unfold enqueue
    cases hq : s.queue w with
    | nil => simp [set_same]
    | cons o q =>
      rw [hq] at hl
      simp only [if_pos hl, set_same]
      exact ⟨trivial, trivial⟩
  · intro o q hq hl
    rw [hq] at hl
    unfold enqueue
    rw [hq]
    simp only [if_neg (Nat.not_lt.2 hl), set_same]
    exact ⟨trivial, rfl⟩

theorem starve_queue (s : State) (t : Sub) (f : Nat → Nat → Bool) : (starve s t f).queue = s.queue :=
  (starve_answers s t f).2

/-- No more than 64 requests of a session ever wait. -/
theorem C126_room (evs : List Ev) (w : Nat) : (waiting (run init evs) w).length ≤ 64 := by
  unfold waiting
  rw [List.length_map]
  induction evs using snocInd with
  | nil => exact Nat.zero_le _
  | append_singleton evs e ih =>
    rw [run_snoc]
    generalize run init evs = s at ih ⊢
    cases e with
    | tick => exact ih
    | create => exact ih
    | modify => exact ih
    | setMode => exact ih
    | sweep => exact ih
    | delete u ids =>
      simp only [step, delete]
      split
      · exact ih
      · split
        · by_cases hu : w = u
          · subst hu; simp [set_same]
          · simpa only [set_other _ _ _ _ hu] using ih
        · exact ih
    | publish u r tie data =>
      simp only [step, publish]
      split
      · exact ih
      · split
        · exact ih
        · split
          · exact ih
          · unfold enqueue
            split
            · by_cases hu : w = u
              · subst hu; simp [set_same]
              · simpa only [set_other _ _ _ _ hu] using ih
            · rename_i o q hq
              split
              · rename_i hl
                by_cases hu : w = u
                · subst hu
                  simp only [set_same, List.length_append, List.length_singleton]
                  omega
                · simpa only [set_other _ _ _ _ hu] using ih
              · by_cases hu : w = u
                · subst hu
                  rw [hq] at ih
                  simp only [set_same, List.length_append, List.length_singleton]
                  simpa using ih
                · simpa only [set_other _ _ _ _ hu] using ih
    | timer id d =>
      simp only [step]
      split
      · exact ih
      · rename_i t ht
        have hset : (set s.queue t.owner (remove s.now (s.queue t.owner)).2.2 w).length ≤ 64 := by
          by_cases hu : w = t.owner
          · subst hu
            rw [set_same, remove_eq]
            refine Nat.le_trans ?_ ih
            refine Nat.le_trans (by rw [List.length_tail]; exact Nat.sub_le _ _) ?_
            exact (List.dropWhile_suffix _).length_le
          · rw [set_other _ _ _ _ hu]; exact ih
        unfold cycle
        dsimp only
        repeat' split
        all_goals first
          | exact ih
          | exact hset
          | (rw [starve_queue]; exact hset)

/-! ### Requests of a session without subscriptions -/

/-- When DeleteSubscriptions leaves a session without subscriptions, no request of it waits any more and
each one that did has its answer: BadTimeout if it is overdue, else BadNoSubscription. -/
theorem C126_drain (s : State) (w : Nat) (ids : List Nat) (hne : ids ≠ [])
    (h : ∀ t ∈ s.subs, t.owner = w → t.id ∈ ids) :
    waiting (step s (.delete w ids)) w = [] ∧ (∀ t ∈ (step s (.delete w ids)).subs, t.owner ≠ w) ∧
      ∀ r ∈ s.queue w, (w, r.rid, if s.now > r.deadline then Answer.badTimeout else .badNoSubscription) ∈
        (step s (.delete w ids)).answers := by
  have hm : (mine (s.subs.filter (fun t => decide (¬ (t.owner = w ∧ t.id ∈ ids)))) w).length = 0 := by
    rw [List.length_eq_zero_iff, List.eq_nil_iff_forall_not_mem]
    intro t ht
    have h1 := mem_mine.1 ht
    have h2 := List.mem_filter.1 h1.1
    exact of_decide_eq_true h2.2 ⟨h1.2, h t h2.1 h1.2⟩
  have hl : ¬ ids.length = 0 := fun h0 => hne (List.length_eq_zero_iff.1 h0)
  simp only [step, delete, if_neg hl, if_pos hm]
  refine ⟨by simp [waiting, set_same], ?_, ?_⟩
  · intro t ht hw
    have h2 := List.mem_filter.1 ht
    exact of_decide_eq_true h2.2 ⟨hw, h t h2.1 hw⟩
  · intro r hr
    refine List.mem_append_right _ (List.mem_map.2 ⟨(r.rid, _), ?_, rfl⟩)
    generalize s.queue w = q at hr
    induction q with
    | nil => cases hr
    | cons o q ih =>
      unfold drain
      rcases List.mem_cons.1 hr with rfl | hr
      · exact List.mem_cons_self
      · exact List.mem_cons_of_mem _ (ih hr)

theorem forall_store {P : Sub → Prop} {subs : List Sub} {t : Sub} (h : ∀ u ∈ subs, P u) (ht : P t) :
    ∀ u ∈ store subs t, P u := by
  intro u hu
  obtain ⟨v, hv, rfl⟩ := List.mem_map.1 hu
  split
  · exact ht
  · exact h v hv

theorem store_ne_nil {subs : List Sub} {t : Sub} (h : subs ≠ []) : store subs t ≠ [] := by
  intro h0; exact h (List.map_eq_nil_iff.1 h0)

theorem handleLate_keeps {t : Sub} {d : Data} {a : Answer} {u : Sub} (h : handleLate t d = some (a, u)) :
    u.owner = t.owner ∧ u.maxLifetime = t.maxLifetime ∧ u.lifetime = 0 := by
  unfold handleLate at h
  repeat' split at h
  all_goals (cases h; try exact ⟨rfl, rfl, rfl⟩)

theorem firstLate_mem {data : Nat → Data} {l : List Sub} {x : Answer × Sub} (h : firstLate data l = some x) :
    ∃ t ∈ l, handleLate t (data t.id) = some x := by
  induction l with
  | nil => cases h
  | cons t ts ih =>
    unfold firstLate at h
    split at h
    · rename_i y hy; cases h; exact ⟨t, List.mem_cons_self, hy⟩
    · obtain ⟨t', ht', h1⟩ := ih h; exact ⟨t', List.mem_cons_of_mem _ ht', h1⟩

theorem enqueue_subs (w : Nat) (r : Req) (s : State) : (enqueue w r s).subs = s.subs := by
  unfold enqueue; repeat' split
  all_goals rfl

/-- Every subscription belongs to `w` and has not reached its lifetime; requests of `w` wait only while
it has a subscription. -/
structure Held (w : Nat) (s : State) : Prop where
  own : ∀ t ∈ s.subs, t.owner = w ∧ t.lifetime < t.maxLifetime
  fed : s.queue w ≠ [] → s.subs ≠ []

theorem starve_held (w : Nat) (s : State) (t : Sub) (f : Nat → Nat → Bool)
    (hf : ∀ a b, a ≤ b → f a b = false → a < b) (own : ∀ t ∈ s.subs, t.owner = w ∧ t.lifetime < t.maxLifetime)
    (ht : t.owner = w ∧ t.lifetime < t.maxLifetime) (hq : s.queue w = []) : Held w (starve s t f) := by
  have hq' : (starve s t f).queue w = [] := by rw [(starve_answers s t f).2, hq]
  refine ⟨?_, fun h => absurd hq' h⟩
  unfold starve
  dsimp only
  split
  · intro u hu; exact own u (List.mem_filter.1 hu).1
  · rename_i hn
    exact forall_store own ⟨ht.1, hf _ _ ht.2 (by simpa using hn)⟩

theorem cycle_held (w : Nat) (s : State) (h : Held w s) (t : Sub) (ht : t ∈ s.subs) (d : Data) :
    Held w (cycle s t d) := by
  obtain ⟨how, hlt⟩ := h.own t ht
  have hne : s.subs ≠ [] := by intro h0; rw [h0] at ht; cases ht
  subst how
  unfold cycle
  dsimp only
  split
  · split
    · exact ⟨forall_store h.own ⟨rfl, Nat.lt_of_le_of_lt (Nat.zero_le _) hlt⟩, fun _ => store_ne_nil hne⟩
    · rename_i hn
      refine starve_held _ _ _ _ (fun a b _ h => by have := of_decide_eq_false h; omega) h.own ⟨rfl, hlt⟩ ?_
      simp only [set_same]; exact remove_none _ _ hn
  · split
    · split
      · exact ⟨forall_store h.own ⟨rfl, Nat.lt_of_le_of_lt (Nat.zero_le _) hlt⟩, fun _ => store_ne_nil hne⟩
      · rename_i hn
        refine starve_held _ _ _ _ (fun a b hl h => by have := of_decide_eq_false h; omega) h.own ⟨rfl, hlt⟩ ?_
        simp only [set_same]; exact remove_none _ _ hn
    · exact ⟨forall_store h.own ⟨rfl, hlt⟩, fun _ => store_ne_nil hne⟩

theorem held_step (w : Nat) (s : State) (h : Held w s) (e : Ev) (he : Alone w e) : Held w (step s e) := by
  cases e with
  | tick d => exact ⟨h.own, h.fed⟩
  | create u p b k l =>
    refine ⟨fun t ht => ?_, fun _ h0 => ?_⟩
    · simp only [step] at ht
      rcases List.mem_append.1 ht with ht | ht
      · exact h.own t ht
      · rw [List.mem_singleton.1 ht]; exact he
    · simp [step] at h0
  | modify u id p k l =>
    refine ⟨fun t ht => ?_, fun hq h0 => h.fed hq (List.map_eq_nil_iff.1 h0)⟩
    obtain ⟨v, hv, rfl⟩ := List.mem_map.1 ht
    split
    · exact ⟨(h.own v hv).1, he⟩
    · exact h.own v hv
  | setMode u ids b =>
    refine ⟨fun t ht => ?_, fun hq h0 => h.fed hq (List.map_eq_nil_iff.1 h0)⟩
    obtain ⟨v, hv, rfl⟩ := List.mem_map.1 ht
    have := h.own v hv
    split
    · exact ⟨this.1, Nat.lt_of_le_of_lt (Nat.zero_le _) this.2⟩
    · exact this
  | sweep =>
    refine ⟨fun t ht => h.own t (List.mem_filter.1 ht).1, fun hq => ?_⟩
    have : s.subs.filter (fun t => decide (¬ t.lifetime ≥ t.maxLifetime)) = s.subs :=
      List.filter_eq_self.2 (fun t ht => decide_eq_true (by have := (h.own t ht).2; omega))
    simp only [step, this]
    exact h.fed hq
  | timer id d =>
    simp only [step]
    split
    · exact h
    · rename_i t hf
      exact cycle_held w s h t (List.mem_of_find?_eq_some hf) d
  | publish u r tie data =>
    simp only [step, publish]
    split
    · exact ⟨h.own, h.fed⟩
    · split
      · exact ⟨h.own, h.fed⟩
      · rename_i hl
        have hne : s.subs ≠ [] := fun h0 => hl (by rw [h0]; rfl)
        split
        · rename_i a v hf
          obtain ⟨t, ht, h1⟩ := firstLate_mem hf
          have hk := handleLate_keeps h1
          have ho := h.own t (mem_mine.1 ((mem_sort _ _ _).1 ht)).1
          exact ⟨forall_store h.own ⟨hk.1.trans ho.1, by rw [hk.2.1, hk.2.2]; omega⟩, fun _ => store_ne_nil hne⟩
        · exact ⟨by rw [enqueue_subs]; exact h.own, fun _ => by rw [enqueue_subs]; exact hne⟩
  | delete u ids =>
    simp only [step, delete]
    split
    · exact h
    · have own' : ∀ t ∈ s.subs.filter (fun t => decide (¬ (t.owner = u ∧ t.id ∈ ids))),
          t.owner = w ∧ t.lifetime < t.maxLifetime := fun t ht => h.own t (List.mem_filter.1 ht).1
      by_cases hu : u = w
      · subst hu
        split
        · exact ⟨own', fun hq => absurd (set_same _ _ _) hq⟩
        · rename_i hm
          refine ⟨own', fun _ h0 => hm ?_⟩
          dsimp only at h0
          rw [h0]; rfl
      · have keep : s.subs.filter (fun t => decide (¬ (t.owner = u ∧ t.id ∈ ids))) = s.subs :=
          List.filter_eq_self.2 (fun t ht => decide_eq_true (fun hh => hu (hh.1.symm.trans (h.own t ht).1)))
        rw [keep]
        split
        · refine ⟨h.own, fun hq => h.fed ?_⟩
          simpa only [set_other _ _ _ _ (Ne.symm hu)] using hq
        · exact ⟨h.own, h.fed⟩

/-- If only one session creates subscriptions, its requests wait only while it has a subscription,
whatever is deleted, expires or is swept. Missing: servers where several sessions have subscriptions,
see C126_stranded_fails. -/
theorem C126_waits_partial (w : Nat) (evs : List Ev) (h : ∀ e ∈ evs, Alone w e) (hw : waiting (run init evs) w ≠ []) :
    ∃ t ∈ (run init evs).subs, t.owner = w := by
  have hh : Held w (run init evs) := by
    clear hw
    induction evs using snocInd with
    | nil => exact ⟨fun t ht => (by cases ht), fun hq => absurd rfl hq⟩
    | append_singleton evs e ih =>
      rw [run_snoc]
      exact held_step w _ (ih (fun e he => h e (List.mem_append_left _ he))) e (h e (by simp))
  have hne := hh.fed (fun h0 => hw (by simp [waiting, h0]))
  obtain ⟨t, ht⟩ := List.exists_mem_of_ne_nil _ hne
  exact ⟨t, ht, (hh.own t ht).1⟩

/-- Nothing that others do reaches the channel of a session without subscriptions. -/
structure Cut (w : Nat) (q : List Req) (as : List Nat) (s : State) : Prop where
  none : ∀ t ∈ s.subs, t.owner ≠ w
  queue : s.queue w = q
  answers : answered s w = as

theorem answered_other (s s' : State) (w u : Nat) (as : List (Nat × Answer)) (hu : u ≠ w)
    (h : s'.answers = s.answers ++ told u as) : answered s' w = answered s w := by
  rw [answered_told s w u as s' h, if_neg hu, List.append_nil]

theorem enqueue_cut (w u : Nat) (q : List Req) (as : List Nat) (r : Req) (s : State) (h : Cut w q as s) (hu : u ≠ w) :
    Cut w q as (enqueue u r s) := by
  refine ⟨by rw [enqueue_subs]; exact h.none, ?_, ?_⟩
  · rw [← h.queue]; unfold enqueue; repeat' split
    all_goals exact set_other _ _ _ _ (Ne.symm hu)
  · rw [← h.answers]; unfold enqueue; repeat' split
    · rfl
    · rfl
    · exact answered_other s _ w u _ hu rfl

theorem starve_cut (w : Nat) (q : List Req) (as : List Nat) (s : State) (t : Sub) (f : Nat → Nat → Bool)
    (h : Cut w q as s) (ht : t.owner ≠ w) : Cut w q as (starve s t f) := by
  obtain ⟨ha, hq⟩ := starve_answers s t f
  refine ⟨?_, by rw [hq]; exact h.queue, by rw [← h.answers]; unfold answered; rw [ha]⟩
  unfold starve
  dsimp only
  split
  · intro u hu; exact h.none u (List.mem_filter.1 hu).1
  · exact forall_store h.none ht

theorem cut_step (w : Nat) (q : List Req) (as : List Nat) (s : State) (h : Cut w q as s) (e : Ev) (he : actor e ≠ some w) :
    Cut w q as (step s e) := by
  cases e with
  | tick d => exact ⟨h.none, h.queue, h.answers⟩
  | create u p b k l =>
    refine ⟨fun t ht => ?_, h.queue, h.answers⟩
    rcases List.mem_append.1 ht with ht | ht
    · exact h.none t ht
    · rw [List.mem_singleton.1 ht]; exact fun h0 => he (congrArg some h0)
  | modify u id p k l =>
    refine ⟨fun t ht => ?_, h.queue, h.answers⟩
    obtain ⟨v, hv, rfl⟩ := List.mem_map.1 ht
    split <;> exact h.none v hv
  | setMode u ids b =>
    refine ⟨fun t ht => ?_, h.queue, h.answers⟩
    obtain ⟨v, hv, rfl⟩ := List.mem_map.1 ht
    split <;> exact h.none v hv
  | sweep => exact ⟨fun t ht => h.none t (List.mem_filter.1 ht).1, h.queue, h.answers⟩
  | delete u ids =>
    have hu : u ≠ w := fun h0 => he (congrArg some h0)
    simp only [step, delete]
    split
    · exact h
    · split
      · refine ⟨fun t ht => h.none t (List.mem_filter.1 ht).1, ?_, ?_⟩
        · rw [← h.queue]; exact set_other _ _ _ _ (Ne.symm hu)
        · rw [← h.answers]; exact answered_other s _ w u _ hu rfl
      · exact ⟨fun t ht => h.none t (List.mem_filter.1 ht).1, h.queue, h.answers⟩
  | publish u r tie data =>
    have hu : u ≠ w := fun h0 => he (congrArg some h0)
    simp only [step, publish]
    split
    · exact ⟨h.none, h.queue, (answered_other s _ w u _ hu rfl).trans h.answers⟩
    · split
      · exact ⟨h.none, h.queue, (answered_other s _ w u _ hu rfl).trans h.answers⟩
      · split
        · rename_i a v hf
          obtain ⟨t, ht, h1⟩ := firstLate_mem hf
          have ho := h.none t (mem_mine.1 ((mem_sort _ _ _).1 ht)).1
          exact ⟨forall_store h.none (by rw [(handleLate_keeps h1).1]; exact ho), h.queue,
            (answered_other s _ w u _ hu rfl).trans h.answers⟩
        · exact enqueue_cut w u q as r s h hu
  | timer id d =>
    simp only [step]
    split
    · exact h
    · rename_i t hf
      have ho := h.none t (List.mem_of_find?_eq_some hf)
      have hs : Cut w q as { s with
          queue := set s.queue t.owner (remove s.now (s.queue t.owner)).2.2
          answers := s.answers ++ told t.owner (remove s.now (s.queue t.owner)).1 } :=
        ⟨h.none, (set_other _ _ _ _ (Ne.symm ho)).trans h.queue, (answered_other s _ w _ _ ho rfl).trans h.answers⟩
      unfold cycle
      dsimp only
      repeat' split
      · exact ⟨forall_store h.none ho, hs.queue, (answered_other _ _ w _ _ ho rfl).trans hs.answers⟩
      · exact starve_cut w q as _ _ _ hs ho
      · exact ⟨forall_store h.none ho, hs.queue, (answered_other _ _ w _ _ ho rfl).trans hs.answers⟩
      · exact starve_cut w q as _ _ _ hs ho
      · exact ⟨forall_store h.none ho, h.queue, h.answers⟩

/-- A session without subscriptions should hear BadNoSubscription. If another session has a
subscription, its request waits instead, and nothing that other sessions, the timers or the sweep do
ever answers it, not even after its deadline. -/
theorem C126_stranded_fails : ∃ (evs : List Ev) (w : Nat) (r : Req) (tie : Nat → Nat) (data : Nat → Data),
    (∀ t ∈ (run init evs).subs, t.owner ≠ w) ∧
    ∀ later : List Ev, (∀ e ∈ later, actor e ≠ some w) →
      waiting (run init (evs ++ [.publish w r tie data] ++ later)) w = [r.rid] ∧
      answered (run init (evs ++ [.publish w r tie data] ++ later)) w = [] := by
  refine ⟨[.create 1 0 true 10 30], 2, ⟨7, 60⟩, id, fun _ => .nothing, ?_, ?_⟩
  · intro t ht
    simp [run, step, init] at ht
    rw [ht]; decide
  · intro later hl
    have key : Cut 2 [⟨7, 60⟩] [] (run init ([.create 1 0 true 10 30] ++
        [.publish 2 ⟨7, 60⟩ id (fun _ => .nothing)] ++ later)) := by
      induction later using snocInd with
      | nil =>
        refine ⟨?_, rfl, rfl⟩
        intro t ht
        simp [run, step, publish, init, mine, sort, firstLate, enqueue] at ht
        rw [ht]; decide
      | append_singleton later e ih =>
        rw [← List.append_assoc, run_snoc]
        exact cut_step 2 _ _ _ (ih (fun e he => hl e (List.mem_append_left _ he))) e (hl e (by simp))
    exact ⟨by unfold waiting; rw [key.queue]; rfl, key.answers⟩

/-! ### Concrete cases -/

/-- Two subscriptions of session 1, the second of higher priority, starve for one turn each and have
data; two requests arrive, then one that waits, and then both subscriptions are deleted. -/
def day : List Ev :=
  [.create 1 5 true 10 30, .create 1 9 true 10 30, .timer 1 .some, .timer 2 .some,
   .publish 1 ⟨100, 60⟩ id (fun _ => .some), .publish 1 ⟨101, 60⟩ id (fun _ => .nothing),
   .publish 1 ⟨102, 60⟩ id (fun _ => .some), .publish 1 ⟨103, 5⟩ id (fun _ => .some), .tick 10,
   .delete 1 [1, 2]]

-- the higher priority first; the other has no data any more but never sent anything: a keep-alive
example : (run init day).answers =
    [(1, 100, .notification 2), (1, 101, .keepAlive 1), (1, 102, .badNoSubscription), (1, 103, .badTimeout)] := by
  decide +kernel

-- the hypotheses of C126_priority hold before the first request, for two subscriptions
example : (run init (day.take 4)).changes 1 = [] ∧
    (run init (day.take 4)).subs.map (fun t => (t.id, t.priority, t.late, t.enabled)) =
      [(1, 5, true, true), (2, 9, true, true)] := by decide +kernel

-- C126_waits_partial: two requests wait before the deletion, with both subscriptions alive
example : waiting (run init (day.take 9)) 1 = [102, 103] ∧ (∀ e ∈ day.take 9, Alone 1 e) := by
  refine ⟨by decide +kernel, ?_⟩
  intro e he
  simp [day] at he
  rcases he with rfl | rfl | rfl | rfl | rfl | rfl | rfl | rfl | rfl <;> simp [Alone]

-- C126_drain applies to the last event
example : ∀ t ∈ (run init (day.take 9)).subs, t.owner = 1 → t.id ∈ [1, 2] := by decide +kernel

-- C126_status_first: a subscription with a lifetime of one turn ends, and the next request says so
example : (run init [.create 1 0 true 10 1, .timer 1 .some]).changes 1 = [1] ∧
    (run init [.create 1 0 true 10 1, .timer 1 .some, .publish 1 ⟨5, 60⟩ id (fun _ => .some)]).answers =
      [(1, 5, .statusChange 1)] := by decide +kernel

-- C126_more: three requests come when a subscription has more than fits into two responses; the third one waits
example : (run init [.create 1 0 true 10 30, .timer 1 .more]).subs.map (fun t => (t.owner, t.late, t.enabled)) = [(1, true, true)] ∧
    (run init [.create 1 0 true 10 30, .timer 1 .more, .publish 1 ⟨5, 60⟩ id (fun _ => .more),
        .publish 1 ⟨6, 60⟩ id (fun _ => .some), .publish 1 ⟨7, 60⟩ id (fun _ => .some)]).answers =
      [(1, 5, .notification 1), (1, 6, .notification 1)] := by decide +kernel

/-- A busy day: three requests, the first overdue when the timer fires. -/
def busy : List Ev :=
  [.create 1 5 true 10 30, .publish 1 ⟨7, 5⟩ id (fun _ => .nothing), .publish 1 ⟨8, 9⟩ id (fun _ => .nothing),
   .publish 1 ⟨9, 50⟩ id (fun _ => .nothing), .tick 9]

-- C126_turn: the request whose deadline is just now is taken, the one before it is overdue
example : ((run init busy).subs.find? (fun u => decide (u.id = 1))).isSome = true ∧
    (run init (busy ++ [.timer 1 .some])).answers = [(1, 7, .badTimeout), (1, 8, .notification 1)] ∧
    waiting (run init (busy ++ [.timer 1 .some])) 1 = [9] := by decide +kernel

-- C126_modified: ten idle turns become one
example : (run init (busy ++ [.timer 1 .some, .timer 1 .nothing])).answers.length = 2 ∧
    (run init (busy ++ [.timer 1 .some, .modify 1 1 5 1 30, .timer 1 .nothing])).answers =
      [(1, 7, .badTimeout), (1, 8, .notification 1), (1, 9, .keepAlive 1)] := by decide +kernel

/-- `n` requests that nobody needs. -/
def flood (n : Nat) : List Ev :=
  .create 1 5 true 10 30 :: (List.range n).map (fun i => .publish 1 ⟨i, 50⟩ id (fun _ => .nothing))

-- C126_queued, C126_room: the 65th request throws out the first
example : (run init (flood 64)).answers = [] ∧ (waiting (run init (flood 64)) 1).length = 64 ∧
    (run init (flood 65)).answers = [(1, 0, .badTooManyPublishRequests)] ∧
    (waiting (run init (flood 65)) 1).length = 64 := by decide +kernel

end Opcua.PublishFlow
