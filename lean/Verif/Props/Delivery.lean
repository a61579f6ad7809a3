import Verif.Model.Delivery
import Verif.Props.MonitoredItem
import Verif.Props.Subscription

/-! C129: no notification is lost to a client that follows the protocol. -/

namespace Opcua.Delivery

open Opcua

variable {V : Type}

namespace Spec

/-- The numbers of messages that the client has. -/
def numbers (got : List (BitVec 32 × List (Nat × V))) : List (BitVec 32) := got.map (·.1)

/-- What a careful client and a kind network do: responses can be written, though they may be lost on the way; the
client acknowledges what it has; the answer to Republish arrives; when a message is made, fewer than 128 wait to be
acknowledged. -/
def careful (s : State V) : Ev V → Prop
  | .timer _ _ (.some _ ok) _ => ok = true ∧ s.sub.queue.length < 128
  | .late _ _ _ ok _ => ok = true ∧ s.sub.queue.length < 128
  | .ack n => n ∈ numbers s.got
  | .republish _ ok arrives => ok = true → arrives = true
  | _ => True

/-- So it is at every step of a history. -/
def Careful : State V → List (Ev V) → Prop
  | _, [] => True
  | s, e :: evs => careful s e ∧ Careful (step s e) evs

/-- The values of an item in one message. -/
def valuesIn (id : Nat) (c : List (Nat × V)) : List V := (c.filter (fun p => decide (p.1 = id))).map (·.2)

/-- The content of the message with a number, if the client has it. -/
def message (got : List (BitVec 32 × List (Nat × V))) (n : Nat) : List (Nat × V) :=
  match got.find? (fun m => decide (m.1 = BitVec.ofNat 32 n)) with
  | some m => m.2
  | none => []

/-- The values of an item in the messages 1 to `n`, one after the other. -/
def assembled (id : Nat) (got : List (BitVec 32 × List (Nat × V))) (n : Nat) : List V :=
  (List.range n).flatMap (fun i => valuesIn id (message got (i + 1)))

/-- The values sampled for an item. -/
def samples (id : Nat) (evs : List (Ev V)) : List V :=
  evs.filterMap (fun
    | .item (.sample k v) => if k = id then some v else none
    | _ => none)

/-- What is still in the queue of an item. -/
def waiting (id : Nat) (s : State V) : List V :=
  match MonitoredItem.find s.items.items id with
  | none => []
  | some x => x.queue

/-- Nothing throws values of the item away: it is not deleted, modified or disabled, it is there when it is sampled,
and then its queue is not full. -/
def gentle (id : Nat) (s : State V) : Ev V → Prop
  | .item (.delete k) => k ≠ id
  | .item (.modify k _ _) => k ≠ id
  | .item (.setMode k m) => k ≠ id ∨ m ≠ .disabled
  | .item (.sample k _) => k ≠ id ∨
      ∃ x, MonitoredItem.find s.items.items id = some x ∧ x.mode ≠ .disabled ∧ x.queue.length < x.size
  | _ => True

def Gentle (id : Nat) : State V → List (Ev V) → Prop
  | _, [] => True
  | s, e :: evs => gentle id s e ∧ Gentle id (step s e) evs

end Spec

open Spec

theorem run_snoc (s : State V) (evs : List (Ev V)) (e : Ev V) : run s (evs ++ [e]) = step (run s evs) e := by
  simp [run]

theorem careful_snoc (evs : List (Ev V)) (e : Ev V) : ∀ s, Careful s (evs ++ [e]) ↔ Careful s evs ∧ careful (run s evs) e := by
  induction evs with
  | nil => intro s; simp [Careful, run]
  | cons a evs ih => intro s; simp only [List.cons_append, Careful, ih, and_assoc]; rfl

theorem gentle_snoc (id : Nat) (evs : List (Ev V)) (e : Ev V) :
    ∀ s, Gentle id s (evs ++ [e]) ↔ Gentle id s evs ∧ gentle id (run s evs) e := by
  induction evs with
  | nil => intro s; simp [Gentle, run]
  | cons a evs ih => intro s; simp only [List.cons_append, Gentle, ih, and_assoc]; rfl

theorem samples_snoc (id : Nat) (evs : List (Ev V)) (e : Ev V) : samples id (evs ++ [e]) = samples id evs ++ samples id [e] := by
  simp [samples]

/-- What `offer` offers is what a publish takes from the items. -/
theorem offer_some {items : MonitoredItem.State V} {max : Nat} {order : List Nat} {c : List (Nat × V)} {more : Bool}
    (h : offer items max order = some (c, more)) :
    (MonitoredItem.step items (.publish max order)).out = items.out ++ [(c, more)] := by
  unfold offer at h
  rcases MonitoredItem.step_out items (.publish max order) with h1 | ⟨_, _, r, m, _, h1⟩
  · rw [h1] at h; simp at h
  · rw [h1] at h ⊢
    simp at h
    rw [h.1, h.2]

/-- How a turn of the timer, or a late request, can go. -/
inductive Turn {C : Type} (s : Subscription.Sub C) (d : Option (C × Bool)) (P : Bool → Prop) (s' : Subscription.Sub C) :
    Prop where
  | quiet (hp : s'.produced = s.produced) (hb : ∀ r ∈ s'.sent.drop s.sent.length, r.msg.body = none)
      (hq : s'.alive = true → s'.queue = s.queue) (ha : s'.alive = true → s.alive = true)
  | data (c : C) (more : Bool) (results : List Subscription.AckStatus) (ok late : Bool) (halive : s.alive = true)
      (hd : ∃ m, d = some (c, m)) (hP : P ok) (h : s' = Subscription.sendData s c more results ok late)

theorem produced_cycle {C : Type} (s : Subscription.Sub C) (d : Option (C × Bool)) (req : Subscription.Req) :
    (Subscription.step s (.cycle d req)).produced = s.produced ∨
      ∃ c more, d = some (c, more) ∧ (Subscription.step s (.cycle d req)).produced = s.produced ++ [(s.nextSeq, c)] := by
  unfold Subscription.step
  split
  · exact .inl rfl
  · dsimp only [Subscription.cycle]
    rw [if_neg (by assumption)]
    split
    · next c more hd =>
      split
      · exact .inl rfl
      · refine .inr ⟨c, more, ?_, ?_⟩
        · split at hd
          · exact hd
          · cases hd
        · unfold Subscription.sendData
          dsimp only
          split <;> rfl
      · split <;> exact .inl rfl
    · left
      split
      · split
        · rfl
        · unfold Subscription.sendKeepAlive
          split <;> rfl
        · split <;> rfl
      · rfl

theorem produced_late {C : Type} (s : Subscription.Sub C) (d : Option (C × Bool)) (results : List Subscription.AckStatus) (ok : Bool) :
    (Subscription.step s (.late d results ok)).produced = s.produced ∨
      ∃ c more, d = some (c, more) ∧ (Subscription.step s (.late d results ok)).produced = s.produced ++ [(s.nextSeq, c)] := by
  unfold Subscription.step
  split
  · exact .inl rfl
  · dsimp only [Subscription.late]
    split
    · exact .inl rfl
    · split
      · next c more hd =>
        refine .inr ⟨c, more, ?_, ?_⟩
        · split at hd
          · exact hd
          · cases hd
        · unfold Subscription.sendData
          dsimp only
          split <;> rfl
      · left
        split
        · unfold Subscription.sendKeepAlive
          dsimp only
          split <;> rfl
        · rfl

theorem sendData_produced {C : Type} (s : Subscription.Sub C) (c : C) (more : Bool) (results : List Subscription.AckStatus)
    (ok late : Bool) : (Subscription.sendData s c more results ok late).produced = s.produced ++ [(s.nextSeq, c)] := by
  unfold Subscription.sendData
  dsimp only
  split <;> rfl

theorem turn_of {C : Type} (s : Subscription.Sub C) (d : Option (C × Bool)) (e : Subscription.Ev C) (P : Bool → Prop)
    (h1 : (Subscription.step s e).produced = s.produced ∨
      ∃ c more, d = some (c, more) ∧ (Subscription.step s e).produced = s.produced ++ [(s.nextSeq, c)])
    (h2 : ∀ n, e ≠ .ack n) (h3 : ∀ n, e ≠ .republish n true)
    (h4 : ∀ results ok, ((∃ d, e = .cycle d (.some results ok)) ∨ ∃ d, e = .late d results ok) → P ok) :
    Turn s d P (Subscription.step s e) := by
  have hk := Subscription.step_kind s e
  generalize Subscription.step s e = s' at hk h1
  cases hk with
  | quiet hs hp hn hpc ha hc hq =>
    refine .quiet hp (by rw [hs]; simp) (fun _ => ?_) (fun h => by rw [← ha]; exact h)
    rcases hq with hq | ⟨n, _, hq | hq⟩
    · exact hq
    · exact absurd hq (h2 n)
    · exact absurd hq (h3 n)
  | data c more results ok late halive hd hx =>
    rcases h1 with h1 | ⟨c', more', h1, h5⟩
    · rw [hd, sendData_produced] at h1
      exact absurd (congrArg List.length h1) (by simp)
    · rw [hd, sendData_produced] at h5
      have h6 : c = c' := by simpa using List.append_cancel_left h5
      subst h6
      exact .data c more results ok late halive ⟨more', h1⟩ (h4 results ok hx) hd
  | keepAlive k results halive h he =>
    subst h
    refine .quiet rfl ?_ (fun _ => rfl) (fun _ => halive)
    simp [Subscription.sendKeepAlive]
  | expire k l halive h hl he =>
    subst h
    exact .quiet rfl (by simp [Subscription.expire]) (fun h => by cases h) (fun h => by cases h)

theorem turn_cycle {C : Type} (s : Subscription.Sub C) (d : Option (C × Bool)) (req : Subscription.Req) :
    Turn s d (fun ok => ∃ results, req = .some results ok) (Subscription.step s (.cycle d req)) := by
  refine turn_of s d _ _ (produced_cycle s d req) (fun n h => by cases h) (fun n h => by cases h) ?_
  rintro results ok (⟨d', h⟩ | ⟨d', h⟩)
  · cases h; exact ⟨results, rfl⟩
  · cases h

theorem turn_late {C : Type} (s : Subscription.Sub C) (d : Option (C × Bool)) (results : List Subscription.AckStatus) (ok : Bool) :
    Turn s d (· = ok) (Subscription.step s (.late d results ok)) := by
  refine turn_of s d _ _ (produced_late s d results ok) (fun n h => by cases h) (fun n h => by cases h) ?_
  rintro r b (⟨d', h⟩ | ⟨d', h⟩)
  · cases h
  · cases h; rfl

/-- What holds after every history of a careful client. -/
structure Inv (en : Bool) (l k : Nat) (evs : List (Ev V)) (s : State V) : Prop where
  subRun : ∃ sevs, s.sub = Subscription.run (Subscription.new en l k) sevs ∧ ∀ e ∈ sevs, Subscription.writeFails e = false
  itemRun : ∃ ievs, s.items = MonitoredItem.run MonitoredItem.init ievs ∧ ∀ id, MonitoredItem.samplesOf id ievs = samples id evs ∧
    (Gentle id (init en l k) evs → MonitoredItem.noLoss id MonitoredItem.init ievs = true)
  out : s.items.out.map (·.1) = s.sub.produced.map (·.2)
  sound : ∀ m ∈ s.got, m ∈ s.sub.produced
  kept : s.sub.alive = true → ∀ m ∈ s.sub.produced, m ∈ s.got ∨ m ∈ s.sub.queue

theorem unique_of {en : Bool} {l k : Nat} {evs : List (Ev V)} {s : State V} (I : Inv en l k evs s)
    (hn : s.sub.produced.length < 2 ^ 32) : (s.sub.produced.map (·.1)).Nodup := by
  obtain ⟨sevs, h1, h2⟩ := I.subRun
  rw [h1] at hn ⊢
  exact Subscription.C44_unique_partial en l k sevs h2 hn

theorem eq_of_number {α β : Type} {L : List (α × β)} (h : (L.map (·.1)).Nodup) {a b : α × β} (ha : a ∈ L) (hb : b ∈ L)
    (he : a.1 = b.1) : a = b := by
  induction L with
  | nil => cases ha
  | cons x L ih =>
    rw [List.map_cons, List.nodup_cons] at h
    cases ha with
    | head =>
      cases hb with
      | head => rfl
      | tail _ hb => exact absurd (he ▸ List.mem_map_of_mem hb) h.1
    | tail _ ha =>
      cases hb with
      | head => exact absurd (he ▸ List.mem_map_of_mem ha) h.1
      | tail _ hb => exact ih h.2 ha hb

theorem inv_init (en : Bool) (l k : Nat) : Inv en l k ([] : List (Ev V)) (init en l k) where
  subRun := ⟨[], rfl, by simp⟩
  itemRun := ⟨[], rfl, fun id => ⟨rfl, fun _ => rfl⟩⟩
  out := rfl
  sound := by simp [init]
  kept := by simp [init, Subscription.new]

theorem samplesOf_snoc' (id : Nat) (ievs : List (MonitoredItem.Ev V)) (e : MonitoredItem.Ev V) :
    MonitoredItem.samplesOf id (ievs ++ [e]) = MonitoredItem.samplesOf id ievs ++ MonitoredItem.samplesOf id [e] := by
  simp [MonitoredItem.samplesOf]

theorem inv_item {en : Bool} {l k : Nat} {evs : List (Ev V)} {s : State V} (I : Inv en l k evs s)
    (hs : s = run (init en l k) evs) (e : MonitoredItem.Ev V) (he : ∀ max order, e ≠ .publish max order) :
    Inv en l k (evs ++ [.item e]) { s with items := MonitoredItem.step s.items e } where
  subRun := I.subRun
  itemRun := by
    obtain ⟨ievs, h1, h2⟩ := I.itemRun
    refine ⟨ievs ++ [e], by rw [MonitoredItem.run_snoc, h1], fun id => ⟨?_, ?_⟩⟩
    · rw [samplesOf_snoc', samples_snoc, (h2 id).1]
      congr 1
      cases e <;> rfl
    · rw [gentle_snoc, ← hs]
      rintro ⟨g1, g2⟩
      rw [MonitoredItem.noLoss_snoc, (h2 id).2 g1, ← h1, Bool.true_and]
      cases e with
      | sample i v =>
        rcases g2 with g2 | ⟨x, g2, g3, g4⟩
        · simp [MonitoredItem.harmless, g2]
        · simp [MonitoredItem.harmless, g2, g3, g4]
      | delete i => simpa [MonitoredItem.harmless, gentle] using g2
      | modify i n d => simpa [MonitoredItem.harmless, gentle] using g2
      | setMode i m => simpa [MonitoredItem.harmless, gentle] using g2
      | _ => rfl
  out := by
    rcases MonitoredItem.step_out s.items e with h | ⟨max, order, _, _, h, _⟩
    · simpa only [h] using I.out
    · exact absurd h (he max order)
  sound := I.sound
  kept := I.kept

/-- Events that sample nothing and throw nothing away. -/
theorem itemRun_same {en : Bool} {l k : Nat} {evs : List (Ev V)} {s : State V} (I : Inv en l k evs s)
    {e : Ev V} (he : ∀ i, e ≠ .item i) : ∃ ievs, s.items = MonitoredItem.run MonitoredItem.init ievs ∧
      ∀ id, MonitoredItem.samplesOf id ievs = samples id (evs ++ [e]) ∧
        (Gentle id (init en l k) (evs ++ [e]) → MonitoredItem.noLoss id MonitoredItem.init ievs = true) := by
  obtain ⟨ievs, h1, h2⟩ := I.itemRun
  refine ⟨ievs, h1, fun id => ⟨?_, fun g => (h2 id).2 ((gentle_snoc id evs e _).1 g).1⟩⟩
  rw [samples_snoc, (h2 id).1]
  cases e with
  | item i => exact absurd rfl (he i)
  | _ => simp [samples]

theorem itemRun_publish {en : Bool} {l k : Nat} {evs : List (Ev V)} {s : State V} (I : Inv en l k evs s)
    {e : Ev V} (he : ∀ i, e ≠ .item i) (max : Nat) (order : List Nat) :
    ∃ ievs, MonitoredItem.step s.items (.publish max order) = MonitoredItem.run MonitoredItem.init ievs ∧
      ∀ id, MonitoredItem.samplesOf id ievs = samples id (evs ++ [e]) ∧
        (Gentle id (init en l k) (evs ++ [e]) → MonitoredItem.noLoss id MonitoredItem.init ievs = true) := by
  obtain ⟨ievs, h1, h2⟩ := itemRun_same I he
  refine ⟨ievs ++ [.publish max order], by rw [MonitoredItem.run_snoc, h1], fun id => ⟨?_, fun g => ?_⟩⟩
  · rw [samplesOf_snoc', (h2 id).1]
    simp [MonitoredItem.samplesOf]
  · rw [MonitoredItem.noLoss_snoc, (h2 id).2 g]
    rfl

/-- An event of the subscription that makes no message and neither removes one from the queue. -/
theorem inv_sub {en : Bool} {l k : Nat} {evs : List (Ev V)} {s : State V} (I : Inv en l k evs s) {e : Ev V}
    (he : ∀ i, e ≠ .item i) (se : Subscription.Ev (List (Nat × V))) (hw : Subscription.writeFails se = false)
    (hp : (Subscription.step s.sub se).produced = s.sub.produced)
    (ha : (Subscription.step s.sub se).alive = true → s.sub.alive = true)
    (hq : (Subscription.step s.sub se).alive = true → ∀ m ∈ s.sub.queue, m ∈ (Subscription.step s.sub se).queue ∨ m ∈ s.got)
    : Inv en l k (evs ++ [e]) { s with sub := Subscription.step s.sub se } where
  subRun := by
    obtain ⟨sevs, h1, h2⟩ := I.subRun
    refine ⟨sevs ++ [se], by rw [Subscription.run_snoc, ← h1], ?_⟩
    intro x hx
    rcases List.mem_append.1 hx with hx | hx
    · exact h2 x hx
    · rw [List.mem_singleton.1 hx]; exact hw
  itemRun := itemRun_same I he
  out := by rw [hp]; exact I.out
  sound := by rw [hp]; exact I.sound
  kept := by
    intro hal m hm
    rw [hp] at hm
    rcases I.kept (ha hal) m hm with h | h
    · exact .inl h
    · rcases hq hal m h with h | h
      · exact .inr h
      · exact .inl h

theorem contents_none {rs : List (Subscription.Resp (List (Nat × V)))} (h : ∀ r ∈ rs, r.msg.body = none) : contents rs = [] := by
  unfold contents
  rw [List.filterMap_eq_nil_iff]
  intro r hr
  simp [h r hr]

theorem inv_turn {en : Bool} {l k : Nat} {evs : List (Ev V)} {s : State V} (I : Inv en l k evs s) {e : Ev V}
    (he : ∀ i, e ≠ .item i) (max : Nat) (order : List Nat)
    (mk : Option (List (Nat × V) × Bool) → Subscription.Ev (List (Nat × V))) (arrives : Bool) (P : Bool → Prop)
    (hw : Subscription.writeFails (mk (offer s.items max order)) = false)
    (ht : Turn s.sub (offer s.items max order) P (Subscription.step s.sub (mk (offer s.items max order))))
    (hP : ∀ ok, P ok → ok = true ∧ s.sub.queue.length < 128) :
    Inv en l k (evs ++ [e]) (publishing s max order mk arrives) := by
  have hsub : ∃ sevs, Subscription.step s.sub (mk (offer s.items max order)) = Subscription.run (Subscription.new en l k) sevs ∧
      ∀ e ∈ sevs, Subscription.writeFails e = false := by
    obtain ⟨sevs, h1, h2⟩ := I.subRun
    refine ⟨sevs ++ [mk (offer s.items max order)], by rw [Subscription.run_snoc, ← h1], ?_⟩
    intro x hx
    rcases List.mem_append.1 hx with hx | hx
    · exact h2 x hx
    · rw [List.mem_singleton.1 hx]; exact hw
  cases ht with
  | quiet hp hb hq ha =>
    have := inv_sub I he (mk (offer s.items max order)) hw hp ha (fun hal m hm => .inl (by rw [hq hal]; exact hm))
    unfold publishing
    dsimp only
    rw [if_neg (by rw [hp]; exact Nat.lt_irrefl _), contents_none hb, List.append_nil, ite_self]
    exact this
  | data c more results ok late halive hd hok h =>
    obtain ⟨rfl, hroom⟩ := hP ok hok
    obtain ⟨m, hd⟩ := hd
    have hprod : (Subscription.step s.sub (mk (offer s.items max order))).produced = s.sub.produced ++ [(s.sub.nextSeq, c)] := by
      rw [h, sendData_produced]
    have hqueue : (Subscription.step s.sub (mk (offer s.items max order))).queue = s.sub.queue ++ [(s.sub.nextSeq, c)] := by
      rw [h]
      have : ¬ s.sub.queue.length ≥ 128 := by omega
      simp only [Subscription.sendData, Subscription.trim, Subscription.maxQueue, this, if_false, if_true]
    have hsent : contents ((Subscription.step s.sub (mk (offer s.items max order))).sent.drop s.sub.sent.length)
        = [(s.sub.nextSeq, c)] := by
      rw [h]
      simp [Subscription.sendData, contents]
    have hout := offer_some hd
    unfold publishing
    dsimp only
    rw [if_pos (by rw [hprod]; simp), hsent]
    refine ⟨hsub, itemRun_publish I he max order, ?_, ?_, ?_⟩
    · dsimp only
      rw [hout, hprod, List.map_append, List.map_append, I.out]
      rfl
    · dsimp only
      rw [hprod]
      intro x hx
      split at hx
      · rcases List.mem_append.1 hx with hx | hx
        · exact List.mem_append_left _ (I.sound x hx)
        · exact List.mem_append_right _ hx
      · exact List.mem_append_left _ (I.sound x hx)
    · dsimp only
      intro _ x hx
      rw [hprod] at hx
      rw [hqueue]
      rcases List.mem_append.1 hx with hx | hx
      · rcases I.kept halive x hx with h' | h'
        · left
          split
          · exact List.mem_append_left _ h'
          · exact h'
        · exact .inr (List.mem_append_left _ h')
      · exact .inr (List.mem_append_right _ hx)

theorem removed {C : Type} {q : List (BitVec 32 × C)} {n : BitVec 32} {m : BitVec 32 × C} (hm : m ∈ q) :
    m ∈ Subscription.removeFirst q n ∨ m.1 = n := by
  by_cases h : m.1 = n
  · exact .inr h
  · exact .inl (Subscription.mem_removeFirst hm h)

theorem inv_got {en : Bool} {l k : Nat} {evs : List (Ev V)} {s : State V} (I : Inv en l k evs s) {m : BitVec 32 × List (Nat × V)}
    (hm : m ∈ s.sub.produced) : Inv en l k evs { s with got := s.got ++ [m] } where
  subRun := I.subRun
  itemRun := I.itemRun
  out := I.out
  sound := by
    intro x hx
    rcases List.mem_append.1 hx with hx | hx
    · exact I.sound x hx
    · rw [List.mem_singleton.1 hx]; exact hm
  kept := by
    intro ha x hx
    rcases I.kept ha x hx with h | h
    · exact .inl (List.mem_append_left _ h)
    · exact .inr h

theorem produced_mono (s : State V) (e : Ev V) : s.sub.produced.length ≤ (step s e).sub.produced.length := by
  have key : ∀ se, s.sub.produced.length ≤ (Subscription.step s.sub se).produced.length := by
    intro se
    have hk := Subscription.step_kind s.sub se
    generalize Subscription.step s.sub se = s' at hk
    cases hk with
    | quiet hs hp hn hpc ha hc hq => rw [hp]; exact Nat.le_refl _
    | data c more results ok late halive hd hx => rw [hd, sendData_produced]; simp
    | keepAlive k results halive h he => rw [h]; exact Nat.le_refl _
    | expire k l halive h hl he => rw [h]; exact Nat.le_refl _
  cases e with
  | item e => cases e <;> exact Nat.le_refl _
  | _ => exact key _

theorem inv_run (en : Bool) (l k : Nat) (evs : List (Ev V)) (hc : Careful (init en l k) evs)
    (hn : (run (init en l k) evs).sub.produced.length < 2 ^ 32) : Inv en l k evs (run (init en l k) evs) := by
  induction evs using snocInd with
  | nil => exact inv_init en l k
  | append_singleton evs e ih =>
    rw [run_snoc] at hn ⊢
    have hn' : (run (init en l k) evs).sub.produced.length < 2 ^ 32 := Nat.lt_of_le_of_lt (produced_mono _ e) hn
    obtain ⟨hc1, hc2⟩ := (careful_snoc evs e _).1 hc
    have I := ih hc1 hn'
    have hu := unique_of I hn'
    have hqs : ((run (init en l k) evs).sub.queue.map (·.1)).Nodup := by
      obtain ⟨sevs, h1, -⟩ := I.subRun
      have := Subscription.queue_sublist en l k sevs
      rw [← h1] at this
      exact hu.sublist (this.map _)
    have hqp : ∀ m ∈ (run (init en l k) evs).sub.queue, m ∈ (run (init en l k) evs).sub.produced := by
      obtain ⟨sevs, h1, -⟩ := I.subRun
      have := Subscription.queue_sublist en l k sevs
      rw [← h1] at this
      exact fun m hm => this.subset hm
    generalize hS : run (init en l k) evs = s at *
    cases e with
    | item e =>
      cases e with
      | publish max order =>
        obtain ⟨h1, h2, h3, h4, h5⟩ := I
        refine ⟨h1, ?_, h3, h4, h5⟩
        obtain ⟨ievs, g1, g2⟩ := h2
        refine ⟨ievs, g1, fun id => ⟨?_, fun g => (g2 id).2 ((gentle_snoc id evs _ _).1 g).1⟩⟩
        rw [samples_snoc, (g2 id).1]
        simp [samples]
      | _ => exact inv_item I hS.symm _ (fun max order h => by cases h)
    | timer max order req arrives =>
      refine inv_turn I (fun i h => by cases h) max order (.cycle · req) arrives _ ?_ (turn_cycle _ _ _) ?_
      · cases req with
        | some results ok => obtain ⟨rfl, -⟩ := hc2; rfl
        | _ => rfl
      · rintro ok ⟨results, rfl⟩
        exact hc2
    | late max order results ok arrives =>
      refine inv_turn I (fun i h => by cases h) max order (.late · results ok) arrives _ ?_ (turn_late _ _ _ _) ?_
      · obtain ⟨rfl, -⟩ := hc2; rfl
      · rintro ok' rfl
        exact hc2
    | ack n =>
      refine inv_sub I (fun i h => by cases h) (.ack n) rfl ?_ ?_ ?_
      · simp only [Subscription.step]; split <;> rfl
      · simp only [Subscription.step]; split <;> exact id
      · intro _ m hm
        have : (Subscription.step s.sub (.ack n)).queue = s.sub.queue ∨
            (Subscription.step s.sub (.ack n)).queue = Subscription.removeFirst s.sub.queue n := by
          simp only [Subscription.step]; split
          · exact .inl rfl
          · exact .inr rfl
        rcases this with h | h
        · rw [h]; exact .inl hm
        · rw [h]
          rcases removed (n := n) hm with h' | h'
          · exact .inl h'
          · right
            obtain ⟨g, hg1, hg2⟩ := List.mem_map.1 hc2
            rw [eq_of_number hu (hqp m hm) (I.sound g hg1) (h'.trans hg2.symm)]
            exact hg1
    | republish n ok arrives =>
      have hp : (Subscription.step s.sub (.republish n ok)).produced = s.sub.produced := by
        simp only [Subscription.step, Subscription.republish]
        split
        · rfl
        · split
          · rfl
          · split <;> rfl
      have ha : (Subscription.step s.sub (.republish n ok)).alive = true → s.sub.alive = true := by
        simp only [Subscription.step, Subscription.republish]
        split
        · exact id
        · split
          · exact id
          · split <;> exact id
      have hplain : (Subscription.step s.sub (.republish n ok)).queue = s.sub.queue →
          Inv en l k (evs ++ [.republish n ok arrives]) { s with sub := Subscription.step s.sub (.republish n ok) } :=
        fun hq => inv_sub I (fun i h => by cases h) (.republish n ok) rfl hp ha (fun _ m hm => .inl (by rw [hq]; exact hm))
      simp only [step]
      by_cases hal : s.sub.alive = true
      · rw [if_pos hal]
        cases hf : s.sub.queue.find? (fun m => decide (m.1 = n)) with
        | none =>
          have : (Subscription.republish s.sub n ok).2 = none := by simp only [Subscription.republish, hf]
          rw [this]
          refine hplain ?_
          simp only [Subscription.step, hal, Bool.true_eq_false, if_false, Subscription.republish, hf]
        | some m0 =>
          cases ok with
          | false =>
            have : (Subscription.republish s.sub n false).2 = none := by simp [Subscription.republish, hf]
            rw [this]
            refine hplain ?_
            simp [Subscription.step, hal, Subscription.republish, hf]
          | true =>
            have h2 : (Subscription.republish s.sub n true).2 = some m0.2 := by simp [Subscription.republish, hf]
            have hq : (Subscription.step s.sub (.republish n true)).queue = Subscription.removeFirst s.sub.queue n := by
              simp [Subscription.step, hal, Subscription.republish, hf]
            have hm0 : m0.1 = n := by simpa using List.find?_some hf
            have hmem := List.mem_of_find?_eq_some hf
            rw [h2]
            simp only [hc2 rfl, if_true]
            have hm : (n, m0.2) = m0 := by rw [← hm0]
            rw [hm]
            refine inv_sub (inv_got I (hqp m0 hmem)) (fun i h => by cases h) (.republish n true) rfl hp ha ?_
            intro _ m hm
            show m ∈ (Subscription.step s.sub (.republish n true)).queue ∨ _
            rw [hq]
            rcases removed (n := n) hm with h' | h'
            · exact .inl h'
            · right
              rw [eq_of_number hu (hqp m hm) (hqp m0 hmem) (h'.trans hm0.symm)]
              exact List.mem_append_right _ (List.mem_singleton.2 rfl)
      · rw [if_neg hal]
        refine hplain ?_
        simp only [Subscription.step, Bool.not_eq_true] at *
        rw [if_pos hal]
    | setMode b =>
      refine inv_sub I (fun i h => by cases h) (.setMode b) rfl ?_ ?_ ?_
      · simp only [Subscription.step]; split <;> rfl
      · simp only [Subscription.step]; split <;> exact id
      · intro _ m hm; left; simp only [Subscription.step]; split <;> exact hm
    | modify l' k' =>
      refine inv_sub I (fun i h => by cases h) (.modify l' k') rfl ?_ ?_ ?_
      · simp only [Subscription.step]; split <;> rfl
      · simp only [Subscription.step]; split <;> exact id
      · intro _ m hm; left; simp only [Subscription.step]; split <;> exact hm
    | touch =>
      refine inv_sub I (fun i h => by cases h) .touch rfl ?_ ?_ ?_
      · simp only [Subscription.step]; split <;> rfl
      · simp only [Subscription.step]; split <;> exact id
      · intro _ m hm; left; simp only [Subscription.step]; split <;> exact hm

/-! ## What the client has -/

theorem produced_numbers {en : Bool} {l k : Nat} {evs : List (Ev V)} {s : State V} (I : Inv en l k evs s) :
    s.sub.produced.map (·.1) = Subscription.numbersTo s.sub.produced.length := by
  obtain ⟨sevs, h1, h2⟩ := I.subRun
  have e := Subscription.produced_sent en l k sevs h2
  have e2 := (Subscription.seqInv en l k sevs).seqs
  rw [← h1] at e e2
  have : Subscription.dataCount s.sub.sent = s.sub.produced.length := by
    have := congrArg List.length e
    rw [List.length_map] at this
    exact this.symm
  rw [e, e2, this]

theorem produced_at {en : Bool} {l k : Nat} {evs : List (Ev V)} {s : State V} (I : Inv en l k evs s) {i : Nat}
    (hi : i < s.sub.produced.length) : s.sub.produced[i].1 = BitVec.ofNat 32 (i + 1) := by
  have h := congrArg (·[i]?) (produced_numbers I)
  simp [Subscription.numbersTo, hi] at h
  exact h

theorem message_eq {en : Bool} {l k : Nat} {evs : List (Ev V)} {s : State V} (I : Inv en l k evs s)
    (hn : s.sub.produced.length < 2 ^ 32) {i : Nat} (hi : i < s.sub.produced.length)
    (hh : BitVec.ofNat 32 (i + 1) ∈ numbers s.got) : message s.got (i + 1) = s.sub.produced[i].2 := by
  unfold message
  have hu := unique_of I hn
  cases hf : s.got.find? (fun m => decide (m.1 = BitVec.ofNat 32 (i + 1))) with
  | none =>
    obtain ⟨g, hg1, hg2⟩ := List.mem_map.1 hh
    have := List.find?_eq_none.1 hf g hg1
    simp [hg2] at this
  | some m =>
    have h1 : m.1 = BitVec.ofNat 32 (i + 1) := by simpa using List.find?_some hf
    have h2 := I.sound m (List.mem_of_find?_eq_some hf)
    rw [eq_of_number hu h2 (List.getElem_mem hi) (by rw [h1, produced_at I hi])]

theorem assembled_eq {en : Bool} {l k : Nat} {evs : List (Ev V)} {s : State V} (I : Inv en l k evs s)
    (hn : s.sub.produced.length < 2 ^ 32) (id : Nat) (n : Nat) (hle : n ≤ s.sub.produced.length)
    (hh : ∀ i < n, BitVec.ofNat 32 (i + 1) ∈ numbers s.got) :
    assembled id s.got n = (s.sub.produced.take n).flatMap (fun m => valuesIn id m.2) := by
  induction n with
  | zero => rfl
  | succ n ih =>
    have h1 := ih (by omega) (fun i hi => hh i (by omega))
    unfold assembled at h1 ⊢
    rw [List.range_succ, List.flatMap_append, h1, List.take_succ_eq_append_getElem (by omega), List.flatMap_append]
    congr 1
    simp only [List.flatMap_cons, List.flatMap_nil, List.append_nil]
    rw [message_eq I hn (by omega) (hh n (by omega))]

theorem delivered_eq {en : Bool} {l k : Nat} {evs : List (Ev V)} {s : State V} (I : Inv en l k evs s) (id : Nat) :
    MonitoredItem.deliveredOf id s.items.out = s.sub.produced.flatMap (fun m => valuesIn id m.2) := by
  have h := congrArg (fun L => L.flatMap (valuesIn id)) I.out
  simp only [List.flatMap_map] at h
  exact h

theorem assembled_prefix {en : Bool} {l k : Nat} {evs : List (Ev V)} {s : State V} (I : Inv en l k evs s)
    (hn : s.sub.produced.length < 2 ^ 32) (id : Nat) (n : Nat) (hle : n ≤ s.sub.produced.length)
    (hh : ∀ i < n, BitVec.ofNat 32 (i + 1) ∈ numbers s.got) :
    assembled id s.got n <+: MonitoredItem.deliveredOf id s.items.out := by
  rw [assembled_eq I hn id n hle hh, delivered_eq I id]
  conv => rhs; rw [← List.take_append_drop n s.sub.produced, List.flatMap_append]
  exact List.prefix_append _ _

theorem have_le {en : Bool} {l k : Nat} {evs : List (Ev V)} {s : State V} (I : Inv en l k evs s)
    (hn : s.sub.produced.length < 2 ^ 32) (n : Nat) (hh : ∀ i < n, BitVec.ofNat 32 (i + 1) ∈ numbers s.got) :
    n ≤ s.sub.produced.length := by
  refine Nat.le_of_not_lt fun hlt => ?_
  obtain ⟨g, hg1, hg2⟩ := List.mem_map.1 (hh s.sub.produced.length hlt)
  have h1 : g.1 ∈ s.sub.produced.map (·.1) := List.mem_map_of_mem (I.sound g hg1)
  rw [produced_numbers I, hg2] at h1
  simp only [Subscription.numbersTo, List.mem_map, List.mem_range] at h1
  obtain ⟨j, hj1, hj2⟩ := h1
  have := congrArg BitVec.toNat hj2
  simp only [BitVec.toNat_ofNat] at this
  omega

/-- The number of messages that were made. -/
abbrev made (s : State V) : Nat := s.sub.produced.length

/-- Whatever responses are lost: what a careful client assembles from the messages 1 to `n` is, for every item, a part of
the values sampled, in their order; and if nothing threw values away, it is a beginning of them, without gap or
repetition. -/
theorem C129_assembled_partial (en : Bool) (l k : Nat) (evs : List (Ev V)) (hc : Careful (init en l k) evs)
    (hn : made (run (init en l k) evs) < 2 ^ 32) (id n : Nat)
    (hh : ∀ i < n, BitVec.ofNat 32 (i + 1) ∈ numbers (run (init en l k) evs).got) :
    (assembled id (run (init en l k) evs).got n).Sublist (samples id evs) ∧
      (Gentle id (init en l k) evs → assembled id (run (init en l k) evs).got n <+: samples id evs) := by
  have I := inv_run en l k evs hc hn
  have hp := assembled_prefix I hn id n (have_le I hn n hh) hh
  obtain ⟨ievs, h1, h2⟩ := I.itemRun
  refine ⟨?_, fun g => ?_⟩
  · have := MonitoredItem.C53_order ievs id
    rw [← h1, (h2 id).1] at this
    exact (hp.sublist.trans (List.sublist_append_left _ _)).trans this
  · have := MonitoredItem.C53_complete ievs id ((h2 id).2 g)
    rw [← h1, (h2 id).1] at this
    rw [← this]
    exact hp.trans (List.prefix_append _ _)

theorem got_mono (s : State V) (e : Ev V) : ∀ m ∈ s.got, m ∈ (step s e).got := by
  intro m hm
  cases e with
  | item e => cases e <;> exact hm
  | timer max order req arrives =>
    simp only [step, publishing]
    split
    · exact List.mem_append_left _ hm
    · exact hm
  | late max order results ok arrives =>
    simp only [step, publishing]
    split
    · exact List.mem_append_left _ hm
    · exact hm
  | republish n ok arrives =>
    simp only [step]
    split
    · split
      · exact List.mem_append_left _ hm
      · exact hm
    · exact hm
  | _ => exact hm

/-- Asking again for each of the messages 1 to `n`. -/
def askAgain (n : Nat) : List (Ev V) := (List.range n).map (fun i => .republish (BitVec.ofNat 32 (i + 1)) true true)

theorem step_republish_sub (s : State V) (n : BitVec 32) : (step s (.republish n true true)).sub.produced = s.sub.produced ∧
    (step s (.republish n true true)).sub.alive = s.sub.alive ∧ (step s (.republish n true true)).items = s.items := by
  refine ⟨?_, ?_, rfl⟩ <;>
  · simp only [step, Subscription.step, Subscription.republish]
    split
    · rfl
    · split <;> rfl

theorem run_append (s : State V) (a b : List (Ev V)) : run s (a ++ b) = run (run s a) b := by simp [run]

theorem asked {en : Bool} {l k : Nat} {evs : List (Ev V)} (hc : Careful (init en l k) evs)
    (hn : made (run (init en l k) evs) < 2 ^ 32) (ha : (run (init en l k) evs).sub.alive = true) (n : Nat)
    (hle : n ≤ made (run (init en l k) evs)) :
    Careful (init en l k) (evs ++ askAgain n) ∧
    (run (init en l k) (evs ++ askAgain n)).sub.produced = (run (init en l k) evs).sub.produced ∧
    (run (init en l k) (evs ++ askAgain n)).sub.alive = true ∧
    (run (init en l k) (evs ++ askAgain n)).items = (run (init en l k) evs).items ∧
    ∀ i < n, BitVec.ofNat 32 (i + 1) ∈ numbers (run (init en l k) (evs ++ askAgain n)).got := by
  induction n with
  | zero => simpa [askAgain] using ⟨hc, ha⟩
  | succ n ih =>
    obtain ⟨h1, h2, h3, h4, h5⟩ := ih (by omega)
    have hsplit : evs ++ askAgain (n + 1) = (evs ++ askAgain n) ++ [.republish (BitVec.ofNat 32 (n + 1)) true true] := by
      simp [askAgain, List.range_succ]
    rw [hsplit, careful_snoc, run_snoc]
    have I := inv_run en l k (evs ++ askAgain n) h1 (by rw [h2]; exact hn)
    have hn2 : (run (init en l k) (evs ++ askAgain n)).sub.produced.length < 2 ^ 32 := by rw [h2]; exact hn
    have hlt : n < (run (init en l k) (evs ++ askAgain n)).sub.produced.length := by
      rw [h2]; exact hle
    generalize run (init en l k) (evs ++ askAgain n) = s at *
    obtain ⟨g1, g2, g3⟩ := step_republish_sub s (BitVec.ofNat 32 (n + 1))
    refine ⟨⟨h1, fun _ => rfl⟩, g1.trans h2, g2.trans h3, g3.trans h4, ?_⟩
    intro i hi
    by_cases hin : i < n
    · obtain ⟨g, k1, k2⟩ := List.mem_map.1 (h5 i hin)
      exact List.mem_map.2 ⟨g, got_mono _ _ g k1, k2⟩
    · obtain rfl : i = n := by omega
      have hu := unique_of I hn2
      have hm := List.getElem_mem hlt
      have hnum := produced_at I hlt
      rcases I.kept h3 _ hm with hg | hg
      · exact List.mem_map.2 ⟨_, got_mono _ _ _ hg, hnum⟩
      · have hsub : (s.sub.queue.map (·.1)).Nodup := by
          obtain ⟨sevs, e1, -⟩ := I.subRun
          have := Subscription.queue_sublist en l k sevs
          rw [← e1] at this
          exact hu.sublist (this.map _)
        have hf := Subscription.find_of_mem_nodup hg hsub
        rw [hnum] at hf
        have h2 : (Subscription.republish s.sub (BitVec.ofNat 32 (i + 1)) true).2 = some s.sub.produced[i].2 := by
          simp [Subscription.republish, hf]
        simp only [step, h3, if_true, h2]
        simp [numbers]

/-- Whatever responses were lost: by asking again for the messages that were made, a careful client gets them all, and
then it has, for every item, all the values sampled except those that still wait in the queue of the item. -/
theorem C129_recover_partial (en : Bool) (l k : Nat) (evs : List (Ev V)) (hc : Careful (init en l k) evs)
    (hn : made (run (init en l k) evs) < 2 ^ 32) (ha : (run (init en l k) evs).sub.alive = true) (id : Nat)
    (hg : Gentle id (init en l k) evs) :
    assembled id (run (init en l k) (evs ++ askAgain (made (run (init en l k) evs)))).got (made (run (init en l k) evs)) ++
      waiting id (run (init en l k) evs) = samples id evs := by
  obtain ⟨h1, h2, h3, h4, h5⟩ := asked hc hn ha _ (Nat.le_refl _)
  have I := inv_run en l k _ h1 (by rw [h2]; exact hn)
  rw [assembled_eq I (by rw [h2]; exact hn) id _ (by rw [h2]; exact Nat.le_refl _) h5, h2, List.take_length]
  have I0 := inv_run en l k evs hc hn
  obtain ⟨ievs, e1, e2⟩ := I0.itemRun
  have := MonitoredItem.C53_complete ievs id ((e2 id).2 hg)
  rw [← e1, (e2 id).1, delivered_eq I0 id] at this
  exact this

/-! Examples: an item with room for 4 values, at most 2 notifications in a message; the first response is lost. -/

abbrev served : Subscription.Req := .some [] true

abbrev exLost : List (Ev Nat) :=
  [.item (.create 1 .reporting 4 true), .item (.sample 1 7), .item (.sample 1 8), .item (.sample 1 9),
    .timer 2 [1] served false, .timer 2 [1] served true, .ack 2, .item (.sample 1 10), .timer 2 [1] served false,
    .item (.sample 1 11)]

theorem exLost_careful : Careful (init true 30 10) exLost := by
  refine ⟨trivial, trivial, trivial, trivial, ⟨rfl, ?_⟩, ⟨rfl, ?_⟩, ?_, trivial, ⟨rfl, ?_⟩, trivial, trivial⟩
  case refine_3 => exact (by decide : (2 : BitVec 32) ∈ [(2 : BitVec 32)])
  all_goals decide

theorem exLost_gentle : Gentle 1 (init true 30 10) exLost := by
  refine ⟨trivial, .inr ⟨_, rfl, ?_⟩, .inr ⟨_, rfl, ?_⟩, .inr ⟨_, rfl, ?_⟩, trivial, trivial, trivial, .inr ⟨_, rfl, ?_⟩,
    trivial, .inr ⟨_, rfl, ?_⟩, trivial⟩ <;> decide

example : (run (init true 30 10) exLost).got = [(2, [(1, 9)])] ∧ made (run (init true 30 10) exLost) = 3 := by decide

example : assembled 1 (run (init true 30 10) (exLost ++ askAgain 3)).got 3 ++ waiting 1 (run (init true 30 10) exLost)
    = [7, 8, 9, 10, 11] :=
  C129_recover_partial true 30 10 exLost exLost_careful (by decide) (by decide) 1 exLost_gentle

example : assembled 1 (run (init true 30 10) (exLost ++ askAgain 2)).got 2 = [7, 8, 9] := by decide

/-! ## What is lost -/

/-- A response that cannot be written: its number is used again, and the values in it are lost to a client that does all
else right; it has all messages, nothing waits, and 7 never came. -/
theorem C129_write_fails :
    let evs : List (Ev Nat) := [.item (.create 1 .reporting 4 true), .item (.sample 1 7), .timer 2 [1] (.some [] false) true,
      .item (.sample 1 8), .timer 2 [1] served true, .ack 1, .timer 2 [1] served true]
    let s := run (init true 30 1) evs
    s.got = [(1, [(1, 8)])] ∧ s.sub.sent.map (·.msg) = [⟨1, some [(1, 8)]⟩, ⟨2, none⟩] ∧ waiting 1 s = [] ∧
      samples 1 evs = [7, 8] ∧ Gentle 1 (init true 30 1) evs ∧
      (run s (askAgain 1)).got = [(1, [(1, 8)]), (1, [(1, 8)])] := by
  refine ⟨by decide, by decide, by decide, by decide, ?_, by decide⟩
  exact ⟨trivial, .inr ⟨_, rfl, by decide⟩, trivial, .inr ⟨_, rfl, by decide⟩, trivial, trivial, trivial, trivial⟩

/-- The answer to Republish is lost too: the message is gone. -/
theorem C129_republish_fails :
    let evs : List (Ev Nat) := [.item (.create 1 .reporting 4 true), .item (.sample 1 7), .timer 2 [1] served false,
      .republish 1 true false]
    (run (init true 30 1) evs).sub.sent.map (·.msg) = [⟨1, some [(1, 7)]⟩] ∧
      (run (init true 30 1) (evs ++ [.republish 1 true true])).got = [] := by
  decide

/-- One message is lost on the way, and 128 more are made before the client asks again: the message is gone. -/
theorem C129_room_fails :
    let round (v : Nat) (arrives : Bool) : List (Ev Nat) := [.item (.sample 1 v), .timer 2 [1] served arrives]
    let evs : List (Ev Nat) := .item (.create 1 .reporting 4 true) :: round 0 false ++
      (List.range 128).flatMap (fun i => round (i + 1) true)
    (run (init true 30 1) (evs ++ [.republish 1 true true])).got.map (·.1) = (Subscription.numbersTo 129).tail := by
  decide +kernel

end Opcua.Delivery
