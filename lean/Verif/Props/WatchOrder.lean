import Verif.Props.Watch

/-! C135: a client that watches a variable sees values that the variable had, in the order in which it had them. -/

namespace Opcua.Subscription

/-- The numbers of the messages that were made do not go down, whether or not they could be written. -/
structure Rising {C : Type} (s : Sub C) : Prop where
  tags : ∃ ns : List Nat, s.produced.map (·.1) = ns.map (BitVec.ofNat 32) ∧ ns.Pairwise (· ≤ ·) ∧
    ∀ n ∈ ns, 1 ≤ n ∧ n ≤ ns.length ∧ n ≤ dataCount s.sent + 1
  count : dataCount s.sent ≤ s.produced.length

theorem rising_step {C : Type} {s : Sub C} (hi : SeqInv s) (h : Rising s) (e : Ev C) : Rising (step s e) := by
  have hk := step_kind s e
  generalize step s e = s' at hk
  cases hk with
  | quiet hs hp hn hpc ha hc hq => exact ⟨by rw [hp, hs]; exact h.tags, by rw [hp, hs]; exact h.count⟩
  | data c more results ok late halive hd hx =>
    subst hd
    obtain ⟨ns, h1, h2, h3⟩ := h.tags
    have hlen : ns.length = s.produced.length := by simpa using (congrArg List.length h1).symm
    have hnext := (hi.next halive).1
    have hcount := h.count
    have hp : (sendData s c more results ok late).produced = s.produced ++ [(s.nextSeq, c)] := by
      unfold sendData; dsimp only; split <;> rfl
    have hs : dataCount (sendData s c more results ok late).sent = dataCount s.sent + (if ok then 1 else 0) := by
      unfold sendData
      cases ok with
      | true => simp [dataCount, dataSeq]
      | false => simp
    refine ⟨⟨ns ++ [dataCount s.sent + 1], ?_, ?_, ?_⟩, ?_⟩
    · rw [hp, List.map_append, List.map_append, h1]
      simp [hnext]
    · rw [List.pairwise_append]
      refine ⟨h2, by simp, ?_⟩
      intro a ha b hb
      rw [List.mem_singleton.1 hb]
      exact (h3 a ha).2.2
    · intro n hn
      rw [hs, List.length_append]
      rcases List.mem_append.1 hn with hn | hn
      · obtain ⟨g1, g2, g3⟩ := h3 n hn
        exact ⟨g1, by omega, by omega⟩
      · rw [List.mem_singleton.1 hn]
        exact ⟨by omega, by simp; omega, by omega⟩
    · rw [hs, hp, List.length_append]
      simp only [List.length_singleton]
      split <;> omega
  | keepAlive k results halive hd he =>
    subst hd
    have hc : dataCount (sendKeepAlive { s with keepAlive := k } results true).sent = dataCount s.sent := by
      simp [sendKeepAlive, dataCount, dataSeq]
    exact ⟨by rw [hc]; exact h.tags, by rw [hc]; exact h.count⟩
  | expire k l halive hd hl he =>
    subst hd
    exact ⟨h.tags, h.count⟩

theorem rising (C : Type) (en : Bool) (l k : Nat) (evs : List (Ev C)) : Rising (run (new en l k) evs) := by
  induction evs using snocInd with
  | nil => exact ⟨⟨[], rfl, .nil, by simp⟩, Nat.zero_le _⟩
  | append_singleton evs e ih => rw [run_snoc]; exact rising_step (seqInv en l k evs) ih e

/-- The numbers of fewer than 2^32 messages do not go down, and begin with 1. -/
theorem rising_numbers {C : Type} {s : Sub C} (h : Rising s) (hn : s.produced.length < 2 ^ 32) :
    s.produced.Pairwise (fun a b => a.1.toNat ≤ b.1.toNat) ∧ ∀ m ∈ s.produced, 1 ≤ m.1.toNat := by
  obtain ⟨ns, h1, h2, h3⟩ := h.tags
  have hlen : ns.length = s.produced.length := by simpa using (congrArg List.length h1).symm
  have hmod : ∀ n ∈ ns, (BitVec.ofNat 32 n).toNat = n := by
    intro n hm
    obtain ⟨_, g2, _⟩ := h3 n hm
    rw [BitVec.toNat_ofNat]
    exact Nat.mod_eq_of_lt (by omega)
  have key : s.produced.map (fun m => m.1.toNat) = ns := by
    have := congrArg (List.map BitVec.toNat) h1
    rw [List.map_map, List.map_map] at this
    show s.produced.map (BitVec.toNat ∘ (·.1)) = ns
    rw [this]
    conv => rhs; rw [← List.map_id ns]
    exact List.map_congr_left hmod
  refine ⟨?_, ?_⟩
  · have := h2
    rw [← key, List.pairwise_map] at this
    exact this
  · intro m hm
    have : m.1.toNat ∈ ns := by rw [← key]; exact List.mem_map_of_mem hm
    exact (h3 _ this).1

end Opcua.Subscription

namespace Opcua.Delivery

open Opcua Spec

variable {V : Type}

/-- What holds after every history, whatever the client does. -/
structure Any (en : Bool) (l k : Nat) (evs : List (Ev V)) (s : State V) : Prop where
  subRun : ∃ sevs, s.sub = Subscription.run (Subscription.new en l k) sevs
  itemRun : ∃ ievs, s.items = MonitoredItem.run MonitoredItem.init ievs ∧ ∀ id, MonitoredItem.samplesOf id ievs = samples id evs
  out : s.items.out.map (·.1) = s.sub.produced.map (·.2)
  sound : ∀ m ∈ s.got, m ∈ s.sub.produced
  order : (∀ n ok a, .republish n ok a ∉ evs) → s.got.Sublist s.sub.produced

theorem any_queue {en : Bool} {l k : Nat} {evs : List (Ev V)} {s : State V} (I : Any en l k evs s) :
    ∀ m ∈ s.sub.queue, m ∈ s.sub.produced := by
  obtain ⟨sevs, h⟩ := I.subRun
  have := Subscription.queue_sublist en l k sevs
  rw [← h] at this
  exact fun m hm => this.subset hm

theorem any_items {evs : List (Ev V)} {e : Ev V} (he : ∀ id, samples id [e] = []) {items : MonitoredItem.State V}
    (h : ∃ ievs, items = MonitoredItem.run MonitoredItem.init ievs ∧ ∀ id, MonitoredItem.samplesOf id ievs = samples id evs) :
    ∃ ievs, items = MonitoredItem.run MonitoredItem.init ievs ∧ ∀ id, MonitoredItem.samplesOf id ievs = samples id (evs ++ [e]) := by
  obtain ⟨ievs, h1, h2⟩ := h
  refine ⟨ievs, h1, fun id => ?_⟩
  rw [samples_snoc, he id, List.append_nil, h2 id]

theorem any_sub {en : Bool} {l k : Nat} {evs : List (Ev V)} {s : State V} (I : Any en l k evs s) {e : Ev V}
    (he : ∀ id, samples id [e] = []) (se : Subscription.Ev (List (Nat × V)))
    (hp : (Subscription.step s.sub se).produced = s.sub.produced) :
    Any en l k (evs ++ [e]) { s with sub := Subscription.step s.sub se } where
  subRun := by
    obtain ⟨sevs, h⟩ := I.subRun
    exact ⟨sevs ++ [se], by rw [Subscription.run_snoc, ← h]⟩
  itemRun := any_items he I.itemRun
  out := by rw [hp]; exact I.out
  sound := by rw [hp]; exact I.sound
  order := by rw [hp]; exact fun h => I.order (fun n ok a hm => h n ok a (List.mem_append_left _ hm))

theorem any_turn {en : Bool} {l k : Nat} {evs : List (Ev V)} {s : State V} (I : Any en l k evs s) {e : Ev V}
    (he : ∀ id, samples id [e] = []) (max : Nat) (order : List Nat)
    (mk : Option (List (Nat × V) × Bool) → Subscription.Ev (List (Nat × V))) (arrives : Bool) (P : Bool → Prop)
    (ht : Turn s.sub (offer s.items max order) P (Subscription.step s.sub (mk (offer s.items max order)))) :
    Any en l k (evs ++ [e]) (publishing s max order mk arrives) := by
  cases ht with
  | quiet hp hb hq ha =>
    have := any_sub I he (mk (offer s.items max order)) hp
    unfold publishing
    dsimp only
    rw [if_neg (by rw [hp]; exact Nat.lt_irrefl _), contents_none hb, List.append_nil, ite_self]
    exact this
  | data c more results ok late halive hd hok h =>
    obtain ⟨m, hd⟩ := hd
    have hprod : (Subscription.step s.sub (mk (offer s.items max order))).produced = s.sub.produced ++ [(s.sub.nextSeq, c)] := by
      rw [h, sendData_produced]
    have hsent : (contents ((Subscription.step s.sub (mk (offer s.items max order))).sent.drop s.sub.sent.length)).Sublist
        [(s.sub.nextSeq, c)] := by
      rw [h]
      cases ok <;> simp [Subscription.sendData, contents]
    have hout := offer_some hd
    unfold publishing
    dsimp only
    rw [if_pos (by rw [hprod]; simp)]
    refine ⟨?_, ?_, ?_, ?_, ?_⟩
    · obtain ⟨sevs, h⟩ := I.subRun
      exact ⟨sevs ++ [mk (offer s.items max order)], by rw [Subscription.run_snoc, ← h]⟩
    · obtain ⟨ievs, h1, h2⟩ := any_items he I.itemRun
      refine ⟨ievs ++ [.publish max order], by rw [MonitoredItem.run_snoc, ← h1], fun id => ?_⟩
      rw [samplesOf_snoc', h2 id]
      simp [MonitoredItem.samplesOf]
    · dsimp only
      rw [hout, hprod, List.map_append, List.map_append, I.out]
      rfl
    · dsimp only
      rw [hprod]
      intro x hx
      split at hx
      · rcases List.mem_append.1 hx with hx | hx
        · exact List.mem_append_left _ (I.sound x hx)
        · exact List.mem_append_right _ (hsent.subset hx)
      · exact List.mem_append_left _ (I.sound x hx)
    · dsimp only
      intro hno
      have h0 := I.order (fun n ok a hm => hno n ok a (List.mem_append_left _ hm))
      rw [hprod]
      split
      · exact h0.append hsent
      · exact h0.trans (List.sublist_append_left _ _)

theorem any_run (en : Bool) (l k : Nat) (evs : List (Ev V)) : Any en l k evs (run (init en l k) evs) := by
  induction evs using snocInd with
  | nil => exact ⟨⟨[], rfl⟩, ⟨[], rfl, fun _ => rfl⟩, rfl, by simp [run, init], fun _ => List.Sublist.refl _⟩
  | append_singleton evs e ih =>
    rw [run_snoc]
    generalize run (init en l k) evs = s at ih
    have hne : (∀ i, e ≠ .item i) → ∀ id, samples id [e] = [] := by
      intro h id
      cases e with
      | item i => exact absurd rfl (h i)
      | _ => simp [samples]
    have hmono : (∀ n ok a, Ev.republish n ok a ∉ evs ++ [e]) → ∀ n ok a, Ev.republish n ok a ∉ evs :=
      fun h n ok a hm => h n ok a (List.mem_append_left _ hm)
    cases e with
    | item e =>
      have key : ∀ e' : MonitoredItem.Ev V, (∀ max order, e' ≠ .publish max order) →
          Any en l k (evs ++ [.item e']) { s with items := MonitoredItem.step s.items e' } := by
        intro e' he'
        refine ⟨ih.subRun, ?_, ?_, ih.sound, fun h => ih.order (fun n ok a hm => h n ok a (List.mem_append_left _ hm))⟩
        · obtain ⟨ievs, h1, h2⟩ := ih.itemRun
          refine ⟨ievs ++ [e'], by rw [MonitoredItem.run_snoc, ← h1], fun id => ?_⟩
          rw [samplesOf_snoc', samples_snoc, h2 id]
          congr 1
          cases e' <;> rfl
        · rcases MonitoredItem.step_out s.items e' with h | ⟨max, order, _, _, h, _⟩
          · simpa only [h] using ih.out
          · exact absurd h (he' max order)
      cases e with
      | publish max order =>
        exact ⟨ih.subRun, any_items (fun id => by simp [samples]) ih.itemRun, ih.out, ih.sound, fun h => ih.order (hmono h)⟩
      | _ => exact key _ (fun max order h => by cases h)
    | timer max order req arrives =>
      exact any_turn ih (hne (fun i h => by cases h)) max order (.cycle · req) arrives _ (turn_cycle _ _ _)
    | late max order results ok arrives =>
      exact any_turn ih (hne (fun i h => by cases h)) max order (.late · results ok) arrives _ (turn_late _ _ _ _)
    | ack n =>
      refine any_sub ih (hne (fun i h => by cases h)) (.ack n) ?_
      simp only [Subscription.step]; split <;> rfl
    | republish n ok arrives =>
      have hp : (Subscription.step s.sub (.republish n ok)).produced = s.sub.produced := by
        simp only [Subscription.step, Subscription.republish]
        split
        · rfl
        · split
          · rfl
          · split <;> rfl
      have base := any_sub ih (hne (fun i h => by cases h)) (.republish n ok) hp
      refine ⟨base.subRun, base.itemRun, base.out, ?_, fun h => absurd (List.mem_append_right _ (List.mem_singleton.2 rfl)) (h n ok arrives)⟩
      have hb := base.sound
      simp only [step]
      intro m hm
      split at hm
      · next c hc =>
        split at hm
        · rcases List.mem_append.1 hm with hm | hm
          · exact hb m hm
          · rw [List.mem_singleton.1 hm]
            show (n, c) ∈ (Subscription.step s.sub (.republish n ok)).produced
            rw [hp]
            split at hc
            · unfold Subscription.republish at hc
              dsimp only at hc
              split at hc
              · cases hc
              · next m0 hf =>
                split at hc
                · cases hc
                  have h1 : m0.1 = n := by simpa using List.find?_some hf
                  rw [← h1]
                  exact any_queue ih m0 (List.mem_of_find?_eq_some hf)
                · cases hc
            · cases hc
        · exact hb m hm
      · exact hb m hm
    | setMode b =>
      refine any_sub ih (hne (fun i h => by cases h)) (.setMode b) ?_
      simp only [Subscription.step]; split <;> rfl
    | modify l' k' =>
      refine any_sub ih (hne (fun i h => by cases h)) (.modify l' k') ?_
      simp only [Subscription.step]; split <;> rfl
    | touch =>
      refine any_sub ih (hne (fun i h => by cases h)) .touch ?_
      simp only [Subscription.step]; split <;> rfl

/-- The values in all the messages made are values sampled, in their order. -/
theorem made_samples {en : Bool} {l k : Nat} {evs : List (Ev V)} {s : State V} (I : Any en l k evs s) (id : Nat) :
    (s.sub.produced.flatMap (fun m => valuesIn id m.2)).Sublist (samples id evs) := by
  obtain ⟨ievs, h1, h2⟩ := I.itemRun
  have h3 := MonitoredItem.C53_order ievs id
  rw [← h1, h2 id] at h3
  have h := congrArg (fun L => L.flatMap (valuesIn id)) I.out
  simp only [List.flatMap_map] at h
  rw [← h]
  exact (List.sublist_append_left _ _).trans h3

theorem flatMap_sublist {α β : Type} (f : α → List β) {l m : List α} (h : l.Sublist m) : (l.flatMap f).Sublist (m.flatMap f) := by
  induction h with
  | slnil => exact List.Sublist.refl _
  | cons a h ih => rw [List.flatMap_cons]; exact ih.trans (List.sublist_append_right _ _)
  | cons_cons a h ih => rw [List.flatMap_cons, List.flatMap_cons]; exact (List.Sublist.refl _).append ih

theorem mem_flatMap_sublist {α β : Type} (f : α → List β) {l : List α} {a : α} (h : a ∈ l) : (f a).Sublist (l.flatMap f) := by
  have := flatMap_sublist f (List.singleton_sublist.2 h)
  simpa using this

/-- Splitting a list that rises at a number. -/
theorem filter_succ {α : Type} (f : α → Nat) (n : Nat) (l : List α) (h : l.Pairwise (fun a b => f a ≤ f b)) :
    l.filter (fun a => decide (f a ≤ n + 1)) = l.filter (fun a => decide (f a ≤ n)) ++ l.filter (fun a => decide (f a = n + 1)) := by
  induction l with
  | nil => rfl
  | cons a l ih =>
    rw [List.pairwise_cons] at h
    have ih := ih h.2
    by_cases h1 : f a ≤ n
    · simp only [List.filter_cons, decide_eq_true (show f a ≤ n + 1 by omega), decide_eq_true h1,
        decide_eq_false (show ¬ f a = n + 1 by omega), if_true, Bool.false_eq_true, if_false, ih, List.cons_append]
    · have hz : l.filter (fun a => decide (f a ≤ n)) = [] := by
        rw [List.filter_eq_nil_iff]
        intro b hb hle
        have := h.1 b hb
        have := of_decide_eq_true hle
        omega
      by_cases h2 : f a = n + 1
      · simp only [List.filter_cons, decide_eq_true (show f a ≤ n + 1 by omega), decide_eq_false h1,
          decide_eq_true h2, if_true, Bool.false_eq_true, if_false, ih, hz, List.nil_append]
      · simp only [List.filter_cons, decide_eq_false (show ¬ f a ≤ n + 1 by omega), decide_eq_false h1,
          decide_eq_false h2, Bool.false_eq_true, if_false, ih, hz, List.nil_append]

theorem assembled_made {en : Bool} {l k : Nat} {evs : List (Ev V)} {s : State V} (I : Any en l k evs s)
    (hn : s.sub.produced.length < 2 ^ 32) (id n : Nat) (hlt : n < 2 ^ 32) :
    (assembled id s.got n).Sublist ((s.sub.produced.filter (fun m => decide (m.1.toNat ≤ n))).flatMap (fun m => valuesIn id m.2)) := by
  have hr : s.sub.produced.Pairwise (fun a b => a.1.toNat ≤ b.1.toNat) := by
    obtain ⟨sevs, h⟩ := I.subRun
    have := Subscription.rising _ en l k sevs
    rw [← h] at this
    exact (Subscription.rising_numbers this hn).1
  induction n with
  | zero => exact List.nil_sublist _
  | succ n ih =>
    have ih := ih (by omega)
    unfold assembled at ih ⊢
    rw [List.range_succ, List.flatMap_append, filter_succ (fun m : BitVec 32 × List (Nat × V) => m.1.toNat) n _ hr, List.flatMap_append]
    refine ih.append ?_
    simp only [List.flatMap_cons, List.flatMap_nil, List.append_nil]
    unfold message
    split
    · next m hf =>
      have h1 : m.1 = BitVec.ofNat 32 (n + 1) := by simpa using List.find?_some hf
      have h2 := I.sound m (List.mem_of_find?_eq_some hf)
      refine mem_flatMap_sublist (fun m : BitVec 32 × List (Nat × V) => valuesIn id m.2) ?_
      rw [List.mem_filter]
      refine ⟨h2, decide_eq_true ?_⟩
      rw [h1, BitVec.toNat_ofNat]
      exact Nat.mod_eq_of_lt hlt
    · exact List.nil_sublist _

/-- **C135 (any client).** Whatever a client acknowledges or asks for again, whatever is lost on the way and whatever cannot be
written: the values of an item in the messages that the client has, put in the order of their numbers, are values sampled for
the item, in the order of the samples. So they are as the messages arrive, if the client never asks for a message again,
however many there are. -/
theorem C135_order (en : Bool) (l k : Nat) (evs : List (Ev V)) (id : Nat) :
    (∀ n, n < 2 ^ 32 → made (run (init en l k) evs) < 2 ^ 32 →
      (assembled id (run (init en l k) evs).got n).Sublist (samples id evs)) ∧
    ((∀ n ok a, .republish n ok a ∉ evs) →
      ((run (init en l k) evs).got.flatMap (fun m => valuesIn id m.2)).Sublist (samples id evs)) := by
  have I := any_run en l k evs
  refine ⟨fun n hlt hn => ?_, fun h => ?_⟩
  · exact ((assembled_made I hn id n hlt).trans (flatMap_sublist _ List.filter_sublist)).trans (made_samples I id)
  · exact (flatMap_sublist _ (I.order h)).trans (made_samples I id)

end Opcua.Delivery

namespace Opcua.Watch

open DataChange (DV Arith withTimestamps initialValue takeDue sweep drain)
open Delivery.Spec (assembled valuesIn samples)

namespace Spec

/-- What a client is told of a value: the value and its status, with the time stamps that it wants. -/
structure Shows (t : DataChange.Timestamps) (w u : DV) : Prop where
  value : u.value = w.value
  status : u.status = w.status
  source : u.source = match t with
    | .source | .both => w.source
    | .server | .neither => 0
  server : u.server = match t with
    | .server | .both => w.server
    | .source | .neither => 0

/-- Bad_WaitingForInitialData: there is no value yet. -/
def NoValue (u : DV) : Prop := u.value = .null ∧ u.status = 0x80320000

/-- A list tells of some values of a history, one or several times each, in the order of the history. -/
inductive Follows (t : DataChange.Timestamps) : List DV → List DV → Prop
  | nil {h} : Follows t h []
  | skip {w h l} : Follows t h l → Follows t (w :: h) l
  | tell {w h u l} : Shows t w u → Follows t (w :: h) l → Follows t (w :: h) (u :: l)
  | none {h u l} : NoValue u → Follows t h l → Follows t h (u :: l)

/-- The values that the variable has had. -/
def history (v : DV) (evs : List Ev) : List DV := v :: writes evs

end Spec

open Spec

/-! ### Lists that follow a history -/

theorem follows_sublist {t : DataChange.Timestamps} {h k : List DV} (hf : Follows t h k) : ∀ {l}, l.Sublist k → Follows t h l := by
  induction hf with
  | nil => intro l hl; rw [List.sublist_nil.1 hl]; exact .nil
  | skip _ ih => intro l hl; exact .skip (ih hl)
  | tell hs _ ih =>
    intro l hl
    cases hl with
    | cons _ hl => exact ih hl
    | cons_cons _ hl => exact .tell hs (ih hl)
  | none hn _ ih =>
    intro l hl
    cases hl with
    | cons _ hl => exact ih hl
    | cons_cons _ hl => exact .none hn (ih hl)

theorem follows_longer {t : DataChange.Timestamps} {h k : List DV} (hf : Follows t h k) (x : List DV) : Follows t (h ++ x) k := by
  induction hf with
  | nil => exact .nil
  | skip _ ih => exact .skip ih
  | tell hs _ ih => exact .tell hs ih
  | none hn _ ih => exact .none hn ih

theorem follows_last {t : DataChange.Timestamps} {w u : DV} (hs : Shows t w u) (h : List DV) : Follows t (h ++ [w]) [u] := by
  induction h with
  | nil => exact .tell hs .nil
  | cons a h ih => exact .skip ih

theorem follows_snoc {t : DataChange.Timestamps} {h k : List DV} (hf : Follows t h k) {w u : DV} (hs : Shows t w u) :
    Follows t (h ++ [w]) (k ++ [u]) := by
  induction hf with
  | nil => exact follows_last hs _
  | skip _ ih => exact .skip ih
  | tell hs _ ih => exact .tell hs ih
  | none hn _ ih => exact .none hn ih

theorem follows_twice {t : DataChange.Timestamps} {h k : List DV} (hf : Follows t h k) :
    ∀ {l m : List DV} {a : DV}, k = l ++ a :: m → Follows t h (l ++ a :: a :: m) := by
  induction hf with
  | nil => intro l m a hk; simp at hk
  | skip _ ih => intro l m a hk; exact .skip (ih hk)
  | tell hs hf ih =>
    intro l m a hk
    cases l with
    | nil => cases hk; exact .tell hs (.tell hs hf)
    | cons x l => cases hk; exact .tell hs (ih rfl)
  | none hn hf ih =>
    intro l m a hk
    cases l with
    | nil => cases hk; exact .none hn (.none hn hf)
    | cons x l => cases hk; exact .none hn (ih rfl)

theorem follows_none {t : DataChange.Timestamps} {h k : List DV} (hf : Follows t h k) {a : DV} (ha : NoValue a) :
    ∀ {l m : List DV}, k = l ++ m → Follows t h (l ++ a :: m) := by
  induction hf with
  | nil =>
    intro l m hk
    obtain ⟨rfl, rfl⟩ := List.append_eq_nil_iff.1 hk.symm
    exact .none ha .nil
  | skip _ ih => intro l m hk; exact .skip (ih hk)
  | tell hs hf ih =>
    intro l m hk
    cases l with
    | nil => cases hk; exact .none ha (.tell hs hf)
    | cons x l => cases hk; exact .tell hs (ih rfl)
  | none hn hf ih =>
    intro l m hk
    cases l with
    | nil => cases hk; exact .none ha (.none hn hf)
    | cons x l => cases hk; exact .none hn (ih rfl)

theorem shows_stamps (t : DataChange.Timestamps) {w u : DV} (h : Shows .both w u) : Shows t w (withTimestamps u t) := by
  obtain ⟨h1, h2, h3, h4⟩ := h
  cases t <;> exact ⟨h1, h2, by first | exact h3 | rfl, by first | exact h4 | rfl⟩

theorem follows_stamps (t : DataChange.Timestamps) {h k : List DV} (hf : Follows .both h k) : Follows t h (k.map (withTimestamps · t)) := by
  induction hf with
  | nil => exact .nil
  | skip _ ih => exact .skip ih
  | tell hs _ ih => exact .tell (shows_stamps t hs) ih
  | none hn _ ih => exact .none ⟨by rw [(stamps_keep _ t).1]; exact hn.1, by rw [(stamps_keep _ t).2]; exact hn.2⟩ ih

theorem shows_self (v : DV) : Shows .both v v := ⟨rfl, rfl, rfl, rfl⟩

/-! ### Sampling keeps the order -/

/-- The values reported so far, `past` and then the queue, come from a list after which the values that the item holds follow. -/
structure Orderly (h : List DV) (t : DataChange.Timestamps) (past rest : List DV) (i : DataChange.Item) : Prop where
  stamps : i.timestamps = t
  raw : ∃ R, past ++ i.queue = R.map (withTimestamps · t) ∧ Follows .both h (R ++ i.prev :: rest)

theorem orderly_offer {A : Arith} {h : List DV} {t : DataChange.Timestamps} {past rest : List DV} {i : DataChange.Item} {v : DV}
    (ho : Orderly h t past (v :: rest) i) : Orderly h t past (v :: rest) (DataChange.offer A i v) := by
  unfold DataChange.offer
  split
  · obtain ⟨h1, R, h2, h3⟩ := ho
    refine ⟨h1, R ++ [v], ?_, ?_⟩
    · show past ++ (i.queue ++ [withTimestamps v i.timestamps]) = _
      rw [← List.append_assoc, h2, h1, List.map_append]
      rfl
    · show Follows .both h (R ++ [v] ++ v :: v :: rest)
      have h4 : Follows .both h (R ++ v :: rest) := follows_sublist h3 ((List.Sublist.refl R).append (.cons _ (.refl _)))
      have h5 := follows_twice h4 rfl
      have h6 := follows_twice (l := R) h5 rfl
      simpa using h6
  · exact ho

theorem takeDue_sublist (ts : Nat) (l : List DV) : ∀ (v : DV) (s : Option DV),
    ((takeDue ts v s l).1 :: (takeDue ts v s l).2.2).Sublist (v :: l) := by
  induction l with
  | nil => intro v s; exact .refl _
  | cons p l ih =>
    intro v s
    unfold takeDue
    split
    · exact (ih p (some p)).trans (.cons _ (.refl _))
    · exact .refl _

theorem Orderly.sublist {h : List DV} {t : DataChange.Timestamps} {past r r' : List DV} {i : DataChange.Item}
    (ho : Orderly h t past r i) (hs : r'.Sublist r) : Orderly h t past r' i := by
  obtain ⟨h1, R, h2, h3⟩ := ho
  exact ⟨h1, R, h2, follows_sublist h3 ((List.Sublist.refl R).append (hs.cons_cons _))⟩

theorem orderly_sweep {A : Arith} {h : List DV} {t : DataChange.Timestamps} {past tail : List DV} (n : Nat) :
    ∀ (v : DV) (i : DataChange.Item), Orderly h t past (v :: i.prequeue ++ tail) i →
      Orderly h t past ((sweep A n v i).prequeue ++ tail) (sweep A n v i) := by
  induction n with
  | zero => intro v i ho; exact ho.sublist (.cons _ (.refl _))
  | succ n ih =>
    intro v i ho
    unfold sweep
    have hsub := takeDue_sublist i.ts i.prequeue v i.seen
    obtain ⟨v', seen', rest, htd⟩ : ∃ v' s' r, takeDue i.ts v i.seen i.prequeue = (v', s', r) := ⟨_, _, _, rfl⟩
    rw [htd] at hsub ⊢
    dsimp only at hsub ⊢
    refine ih v' _ ?_
    have h1 : Orderly h t past (v' :: (rest ++ tail)) { i with prequeue := rest, seen := seen' } := by
      obtain ⟨g1, g2⟩ := ho.sublist (hsub.append (.refl tail))
      exact ⟨g1, g2⟩
    have h2 := orderly_offer (A := A) h1
    have h3 : (DataChange.offer A { i with prequeue := rest, seen := seen' } v').prequeue = rest := by
      unfold DataChange.offer; split <;> rfl
    obtain ⟨g1, g2⟩ := h2
    refine ⟨g1, ?_⟩
    dsimp only
    rw [h3]
    exact g2

theorem orderly_drain {A : Arith} {h : List DV} {t : DataChange.Timestamps} {past tail : List DV} (vs : List DV) :
    ∀ (i : DataChange.Item), Orderly h t past (vs ++ tail) i → Orderly h t past ((drain A i vs).prequeue ++ tail) (drain A i vs) := by
  induction vs with
  | nil => intro i ho; exact ⟨ho.1, ho.2⟩
  | cons v vs ih =>
    intro i ho
    unfold drain
    refine ih _ ?_
    have h1 : Orderly h t past (v :: (vs ++ tail)) { i with seen := some v } := ⟨ho.1, ho.2⟩
    exact (orderly_offer (A := A) h1).sublist (.cons _ (.refl _))

theorem orderly_cycle {A : Arith} {h : List DV} {t : DataChange.Timestamps} {past tail : List DV} {i : DataChange.Item}
    (ho : Orderly h t past (i.prequeue ++ tail) i) (tn : Nat) :
    Orderly h t past ((DataChange.cycle A i tn none).prequeue ++ tail) (DataChange.cycle A i tn none) := by
  unfold DataChange.cycle
  split
  · exact ⟨ho.1, ho.2⟩
  · dsimp only
    split
    · refine orderly_sweep _ _ _ ?_
      obtain ⟨h1, R, h2, h3⟩ := ho
      exact ⟨h1, R, h2, follows_twice h3 rfl⟩
    · exact orderly_drain _ _ ho

/-- The invariant: what has been sampled, what the item holds, and the value of the variable are in the order of the history. -/
structure InOrder (id : Nat) (h : List DV) (t : DataChange.Timestamps) (s : State) : Prop where
  queue : s.item.queue = []
  orderly : Orderly h t (samples id s.past) (s.item.prequeue ++ [s.value]) s.item

theorem feed_samples (id : Nat) (vs : List DV) : ∀ s : State, samples id (feed id s vs).past = samples id s.past ++ vs := by
  induction vs with
  | nil => intro s; exact (List.append_nil _).symm
  | cons v vs ih =>
    intro s
    have := ih (tell s (.item (.sample id v)))
    show samples id (feed id (tell s (.item (.sample id v))) vs).past = _
    rw [this]
    show samples id (s.past ++ [.item (.sample id v)]) ++ vs = _
    rw [Delivery.samples_snoc]
    simp [samples]

theorem inOrder_sample {A : Arith} {id : Nat} {h : List DV} {t : DataChange.Timestamps} {s : State} (hs : InOrder id h t s) :
    InOrder id h t (sample A id s) := by
  have hc := orderly_cycle (A := A) hs.orderly s.now
  obtain ⟨e1, _, e3, _⟩ := sample_fields A id s
  have e5 : samples id (sample A id s).past = samples id s.past ++ (DataChange.cycle A s.item s.now none).queue := by
    rw [sample_eq, feed_samples]
  refine ⟨by rw [e1], ?_⟩
  rw [e1, e3, e5]
  obtain ⟨h1, R, h2, h3⟩ := hc
  exact ⟨h1, R, by rw [← h2]; exact List.append_nil _, h3⟩

theorem inOrder_tell {id : Nat} {h : List DV} {t : DataChange.Timestamps} {s : State} (hs : InOrder id h t s) (e : Delivery.Ev DV)
    (he : samples id [e] = []) : InOrder id h t (tell s e) := by
  refine ⟨hs.queue, ?_⟩
  show Orderly h t (samples id (s.past ++ [e])) _ _
  rw [Delivery.samples_snoc, he, List.append_nil]
  exact hs.orderly

/-- Polling and starting put the value of the variable behind those that wait. -/
theorem orderly_push {h : List DV} {t : DataChange.Timestamps} {past q : List DV} {v : DV} {i : DataChange.Item}
    (ho : Orderly h t past (q ++ [v]) i) : Orderly h t past (q ++ [v] ++ [v]) i := by
  obtain ⟨h1, R, h2, h3⟩ := ho
  refine ⟨h1, R, h2, ?_⟩
  have := follows_twice (l := R ++ i.prev :: q) (a := v) (m := []) h3 (by simp)
  simpa using this

theorem orderly_start {h : List DV} {t : DataChange.Timestamps} {past : List DV} {v : DV} {i : DataChange.Item}
    (ho : Orderly h t past (i.prequeue ++ [v]) i) (now : Nat) :
    Orderly h t past ((DataChange.startMonitoring i now v).prequeue ++ [v]) (DataChange.startMonitoring i now v) := by
  unfold DataChange.startMonitoring
  dsimp only
  split
  · exact ⟨ho.1, ho.2⟩
  · have := orderly_push ho
    exact ⟨this.1, this.2⟩

theorem start_queue (i : DataChange.Item) (now : Nat) (v : DV) : (DataChange.startMonitoring i now v).queue = i.queue := by
  unfold DataChange.startMonitoring
  dsimp only
  split <;> rfl

theorem inOrder_step {A : Arith} {id : Nat} {h : List DV} {t : DataChange.Timestamps} {s : State} (hs : InOrder id h t s) (e : Ev) :
    InOrder id (h ++ writes [e]) t (step A id s e) := by
  cases e with
  | tick n => rw [show writes [Ev.tick n] = [] from rfl, List.append_nil]; exact ⟨hs.queue, hs.orderly⟩
  | write v =>
    rw [show writes [Ev.write v] = [v] from rfl]
    obtain ⟨hq, h1, R, h2, h3⟩ := hs
    refine ⟨hq, h1, R, h2, ?_⟩
    have h4 : Follows .both h (R ++ s.item.prev :: s.item.prequeue) :=
      follows_sublist h3 ((List.Sublist.refl R).append ((List.sublist_append_left _ _).cons_cons _))
    have h5 := follows_snoc h4 (shows_self v)
    show Follows .both (h ++ [v]) (R ++ s.item.prev :: (s.item.prequeue ++ [v]))
    simpa using h5
  | poll =>
    rw [show writes [Ev.poll] = [] from rfl, List.append_nil]
    simp only [step]
    split
    · exact hs
    · obtain ⟨g1, g2⟩ := orderly_push hs.orderly
      exact ⟨hs.queue, g1, g2⟩
  | timer max order req arrives =>
    rw [show writes [Ev.timer max order req arrives] = [] from rfl, List.append_nil]
    simp only [step]
    split
    · exact inOrder_tell (inOrder_sample hs) _ rfl
    · exact hs
  | late max order results ok arrives =>
    rw [show writes [Ev.late max order results ok arrives] = [] from rfl, List.append_nil]
    simp only [step]
    split
    · exact inOrder_tell (inOrder_sample hs) _ rfl
    · exact hs
  | change f tt ti n d =>
    rw [show writes [Ev.change f tt ti n d] = [] from rfl, List.append_nil]
    refine inOrder_tell (s := { s with item := DataChange.step A s.item (.modify f tt ti s.now s.value) }) ⟨?_, ?_⟩ _ rfl
    · show (DataChange.startMonitoring _ _ _).queue = []
      unfold DataChange.startMonitoring
      dsimp only
      split <;> exact hs.queue
    · have h0 : Orderly h t (samples id s.past) (s.item.prequeue ++ [s.value]) { s.item with filter := f, ti := ti } :=
        ⟨hs.orderly.1, hs.orderly.2⟩
      exact orderly_start h0 s.now
  | mode m =>
    rw [show writes [Ev.mode m] = [] from rfl, List.append_nil]
    refine inOrder_tell (s := { s with item := DataChange.step A s.item (.setMode m s.now s.value) }) ?_ _ rfl
    simp only [DataChange.step, DataChange.setMode]
    split
    · exact hs
    · refine ⟨?_, orderly_start ?_ s.now⟩
      · rw [start_queue]
        split
        · rfl
        · exact hs.queue
      · split
        · obtain ⟨hq, h1, R, h2, h3⟩ := hs
          refine ⟨h1, R, ?_, ?_⟩
          · rw [hq] at h2; exact h2
          · have h4 : Follows .both h (R ++ (s.item.prequeue ++ [s.value])) :=
              follows_sublist h3 ((List.Sublist.refl R).append (.cons _ (.refl _)))
            exact follows_none h4 ⟨rfl, rfl⟩ rfl
        · exact ⟨hs.orderly.1, hs.orderly.2⟩
  | other e =>
    rw [show writes [Ev.other e] = [] from rfl, List.append_nil]
    simp only [step]
    split
    · exact hs
    · next ha =>
      refine inOrder_tell hs e ?_
      cases e with
      | item e =>
        cases e with
        | sample k v =>
          have : k ≠ id := by simpa [apart] using ha
          simp [samples, this]
        | _ => rfl
      | _ => rfl

theorem inOrder_init (id : Nat) (en : Bool) (l k : Nat) (m : DataChange.Mode) (f : DataChange.Filter) (t : DataChange.Timestamps)
    (ti size : Nat) (d : Bool) (now : Nat) (v : DV) : InOrder id [v] t (init id en l k m f t ti size d now v) := by
  refine inOrder_tell (s := ⟨now, v, DataChange.newItem m f t ti now v, Delivery.init en l k, []⟩) ⟨?_, ?_⟩ _ rfl
  · show (DataChange.startMonitoring _ _ _).queue = []
    unfold DataChange.startMonitoring
    dsimp only
    split <;> rfl
  · refine orderly_start (i := ⟨m, ti, now, f, t, [], initialValue, [], [], none⟩) ⟨rfl, [], rfl, ?_⟩ now
    exact .none ⟨rfl, rfl⟩ (.tell (shows_self v) .nil)

theorem writes_snoc (evs : List Ev) (e : Ev) : writes (evs ++ [e]) = writes evs ++ writes [e] := by
  unfold writes; rw [List.filterMap_append]

theorem inOrder_run {A : Arith} {id : Nat} {t : DataChange.Timestamps} {s : State} {v : DV} (hs : InOrder id [v] t s) (evs : List Ev) :
    InOrder id (history v evs) t (run A id s evs) := by
  induction evs using snocInd with
  | nil => exact hs
  | append_singleton evs e ih =>
    rw [run_snoc]
    have := inOrder_step (A := A) ih e
    unfold history at this ⊢
    rw [writes_snoc]
    exact this

theorem samples_follow (A : Arith) (id : Nat) (en : Bool) (l k : Nat) (m : DataChange.Mode) (f : DataChange.Filter)
    (t : DataChange.Timestamps) (ti size : Nat) (d : Bool) (now : Nat) (v : DV) (evs : List Ev) :
    Follows t (history v evs) (samples id (run A id (init id en l k m f t ti size d now v) evs).past) := by
  obtain ⟨hq, _, R, h2, h3⟩ := inOrder_run (A := A) (inOrder_init id en l k m f t ti size d now v) evs
  rw [hq, List.append_nil] at h2
  rw [h2]
  exact follows_stamps t (follows_sublist h3 (List.sublist_append_left _ _))

/-- **C135 (values and order).** A client that watches a variable, and puts the messages that it has into the order of their
numbers, sees values that the variable had, with the time stamps chosen when the item was made, in the order in which it had
them; apart from marks that there is no value yet. It need not follow the protocol, responses may be lost, the item may be
modified, disabled and enabled. -/
theorem C135_watched (A : Arith) (id : Nat) (en : Bool) (l k : Nat) (m : DataChange.Mode) (f : DataChange.Filter)
    (t : DataChange.Timestamps) (ti size : Nat) (d : Bool) (now : Nat) (v : DV) (evs : List Ev) (s : State)
    (hs : s = run A id (init id en l k m f t ti size d now v) evs) (n : Nat) (hn : n < 2 ^ 32)
    (hm : s.delivery.sub.produced.length < 2 ^ 32) : Follows t (history v evs) (assembled id s.delivery.got n) := by
  have hp := past_run (A := A) (id := id) (d0 := Delivery.init en l k) evs (s := init id en l k m f t ti size d now v) rfl
  have hf := samples_follow A id en l k m f t ti size d now v evs
  rw [← hs] at hp hf
  rw [hp] at hm ⊢
  exact follows_sublist hf ((Delivery.C135_order en l k s.past id).1 n hn hm)

theorem past_republish {A : Arith} {id : Nat} {evs : List Ev} : ∀ {s : State} {n : BitVec 32} {ok a : Bool},
    .republish n ok a ∈ (run A id s evs).past → .republish n ok a ∈ s.past ∨ .other (.republish n ok a) ∈ evs := by
  have ht : ∀ (s : State) (e : Delivery.Ev DV) n ok a, .republish n ok a ∈ (tell s e).past →
      .republish n ok a ∈ s.past ∨ e = .republish n ok a := by
    intro s e n ok a h
    rcases List.mem_append.1 h with h | h
    · exact .inl h
    · exact .inr (List.mem_singleton.1 h).symm
  have hfeed : ∀ (vs : List DV) (s : State) n ok a, .republish n ok a ∈ (feed id s vs).past → .republish n ok a ∈ s.past := by
    intro vs
    induction vs with
    | nil => intro s n ok a h; exact h
    | cons v vs ih =>
      intro s n ok a h
      rcases ht s _ n ok a (ih _ n ok a h) with h | h
      · exact h
      · cases h
  have hsample : ∀ (s : State) n ok a, .republish n ok a ∈ (sample A id s).past → .republish n ok a ∈ s.past := by
    intro s n ok a h
    rw [sample_eq] at h
    have := hfeed _ _ n ok a h
    exact this
  induction evs with
  | nil => intro s n ok a h; exact .inl h
  | cons e evs ih =>
    intro s n ok a h
    rcases ih (s := step A id s e) h with h | h
    · cases e with
      | tick n => exact .inl h
      | write v => exact .inl h
      | poll =>
        simp only [step] at h
        split at h <;> exact .inl h
      | timer max order req arrives =>
        simp only [step] at h
        split at h
        · rcases ht _ _ _ _ _ h with h | h
          · exact .inl (hsample _ _ _ _ h)
          · cases h
        · exact .inl h
      | late max order results ok arrives =>
        simp only [step] at h
        split at h
        · rcases ht _ _ _ _ _ h with h | h
          · exact .inl (hsample _ _ _ _ h)
          · cases h
        · exact .inl h
      | change f t ti n d =>
        rcases ht _ _ _ _ _ h with h | h
        · exact .inl h
        · cases h
      | mode m =>
        rcases ht _ _ _ _ _ h with h | h
        · exact .inl h
        · cases h
      | other e =>
        simp only [step] at h
        split at h
        · exact .inl h
        · rcases ht _ _ _ _ _ h with h | h
          · exact .inl h
          · rw [h]; exact .inr List.mem_cons_self
    · exact .inr (List.mem_cons_of_mem _ h)

/-- **C135 (one message).** So it is within each message, and from message to message as they arrive if none is asked for again,
however many there are. -/
theorem C135_arriving (A : Arith) (id : Nat) (en : Bool) (l k : Nat) (m : DataChange.Mode) (f : DataChange.Filter)
    (t : DataChange.Timestamps) (ti size : Nat) (d : Bool) (now : Nat) (v : DV) (evs : List Ev) (s : State)
    (hs : s = run A id (init id en l k m f t ti size d now v) evs) :
    (∀ g ∈ s.delivery.got, Follows t (history v evs) (valuesIn id g.2)) ∧
    ((∀ n ok a, .other (.republish n ok a) ∉ evs) →
      Follows t (history v evs) (s.delivery.got.flatMap (fun g => valuesIn id g.2))) := by
  have hp := past_run (A := A) (id := id) (d0 := Delivery.init en l k) evs (s := init id en l k m f t ti size d now v) rfl
  have hf := samples_follow A id en l k m f t ti size d now v evs
  have hr := fun n ok a => past_republish (A := A) (id := id) (evs := evs) (s := init id en l k m f t ti size d now v)
    (n := n) (ok := ok) (a := a)
  rw [← hs] at hp hf hr
  rw [hp]
  refine ⟨fun g hg => ?_, fun h => ?_⟩
  · have I := Delivery.any_run en l k s.past
    exact follows_sublist hf ((Delivery.mem_flatMap_sublist (fun g : BitVec 32 × List (Nat × DV) => valuesIn id g.2)
      (I.sound g hg)).trans (Delivery.made_samples I id))
  · refine follows_sublist hf ((Delivery.C135_order en l k s.past id).2 fun n ok a hm => ?_)
    rcases hr n ok a hm with h' | h'
    · rcases List.mem_singleton.1 h' with h'
      cases h'
    · exact h n ok a h'

/-! ### Witnesses -/

section Examples

/-- The variable is 1, 2 and 3; the message that tells of 1 is lost and asked for again after the others have arrived. -/
def exLost : List Ev := [.timer 10 [7] served false, .tick 20, .write (number 2 25), .poll, .tick 10, .write (number 3 35), .poll,
  .tick 10, .timer 10 [7] served true, .other (.republish 1 true true)]

-- the messages arrive out of order, and are put in order by their numbers
example : let s := run DataChange.exactly 7 exStart exLost
    s.delivery.got.flatMap (fun g => valuesIn 7 g.2) = [number 2 25, number 3 35, number 1 5] ∧
    assembled 7 s.delivery.got 2 = [number 1 5, number 2 25, number 3 35] ∧
    history (number 1 5) exLost = [number 1 5, number 2 25, number 3 35] := by decide +kernel

example : Follows .both (history (number 1 5) exLost) (assembled 7 (run DataChange.exactly 7 exStart exLost).delivery.got 2) :=
  C135_watched DataChange.exactly 7 true 30 10 .reporting ⟨.statusValue, .none⟩ .both 10 3 false 5 (number 1 5) exLost _ rfl 2
    (by decide) (by decide +kernel)

/-- Only the value is wanted, the second response cannot be written, and the client acknowledges what it does not have. -/
def exCareless : List Ev := [.timer 10 [7] served true, .other (.ack 2), .tick 20, .write (number 2 25), .poll, .tick 10,
  .timer 10 [7] (.some [] false) true, .write (number 3 35), .poll, .tick 10, .timer 10 [7] served true]

example : let s := run DataChange.exactly 7 (init 7 true 30 10 .reporting ⟨.statusValue, .none⟩ .neither 10 3 false 5 (number 1 5)) exCareless
    s.delivery.got.flatMap (fun g => valuesIn 7 g.2) = [number 1 0, number 3 0] := by decide +kernel

example : Follows .neither [number 1 5, number 2 25, number 3 35] [number 1 0, number 3 0] :=
  (C135_arriving DataChange.exactly 7 true 30 10 .reporting ⟨.statusValue, .none⟩ .neither 10 3 false 5 (number 1 5) exCareless _ rfl).2
    (by intro n ok a h; simp [exCareless] at h)

-- values in another order, or values that the variable never had, do not follow
example : ¬ Follows .both [number 1 5, number 2 25] [number 2 25, number 1 5] := by
  intro h
  have hs : ∀ x y a b, Shows .both (number x a) (number y b) → x = y := by
    intro x y a b h
    have := h.value
    simpa [number] using this.symm
  cases h with
  | skip h =>
    cases h with
    | skip h =>
      cases h with
      | none h _ => exact absurd h.1 (by decide)
    | tell _ h =>
      cases h with
      | skip h => cases h with | none h _ => exact absurd h.1 (by decide)
      | tell h _ => exact absurd (hs _ _ _ _ h) (by decide)
      | none h _ => exact absurd h.1 (by decide)
    | none h _ => exact absurd h.1 (by decide)
  | tell h _ => exact absurd (hs _ _ _ _ h) (by decide)
  | none h _ => exact absurd h.1 (by decide)

end Examples

end Opcua.Watch
