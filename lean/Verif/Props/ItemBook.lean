import Verif.Model.ItemBook
import Verif.Props.MonitoredItem
import Verif.Lemmas.Lists

/-!
# C143: A client's book of its monitored items is right

`Spec.book` is what a client writes down that knows only its requests and the responses of the server. The theorems say
that the items of the server, what GetMonitoredItems answers, and the notifications agree with that book.
-/

namespace Opcua.ItemBook

open Opcua.MonitoredItem (popFrontTo popBackTo popFrontTo_eq popBackTo_eq maxQueueSize)
open Opcua.Revise (F64)

namespace Spec

/-- What the client knows about one of its items. -/
structure Entry where
  handle : Nat
  mode : Int
  stamps : Int
  discardOldest : Bool
  filter : Option Filter
  /-- as confirmed -/
  size : Nat
  interval : F64

/-- The entries by the id of the item. -/
abbrev Book := Nat → Option Entry

def Book.write (b : Book) (id : Nat) (e : Option Entry) : Book := fun k => if k = id then e else b k

/-- The client reads the results of CreateMonitoredItems. -/
def Book.created (stamps : Int) : List (CreateReq × CreateResult) → Book → Book
  | [], b => b
  | (c, r) :: l, b => Book.created stamps l
      (if r.status = .good then
        b.write r.id (some ⟨c.params.handle, c.mode, stamps, c.params.discardOldest, c.params.filter, r.size, r.interval⟩)
      else b)

/-- The client reads the results of ModifyMonitoredItems. -/
def Book.modified (stamps : Int) : List ((Nat × Params) × ModifyResult) → Book → Book
  | [], b => b
  | (m, r) :: l, b => Book.modified stamps l
      (if r.status = .good then
        b.write m.1 ((b m.1).map (fun e => ⟨m.2.handle, e.mode, stamps, m.2.discardOldest, m.2.filter, r.size, r.interval⟩))
      else b)

/-- The client reads the results of SetMonitoringMode. -/
def Book.moded (mode : Int) : List (Nat × Status) → Book → Book
  | [], b => b
  | (id, st) :: l, b => Book.moded mode l
      (if st = .good then b.write id ((b id).map (fun e => { e with mode := mode })) else b)

/-- The client reads the results of DeleteMonitoredItems. -/
def Book.deleted : List (Nat × Status) → Book → Book
  | [], b => b
  | (id, st) :: l, b => Book.deleted l (if st = .good then b.write id none else b)

/-- What the client writes down after a request and its response. -/
def Book.note (b : Book) : Req × Resp → Book
  | (.create stamps cs, .created rs) => Book.created stamps (cs.zip rs) b
  | (.modify stamps ms, .modified rs) => Book.modified stamps (ms.zip rs) b
  | (.setMode mode ids, .statuses rs) => Book.moded mode (ids.zip rs) b
  | (.delete ids, .statuses rs) => Book.deleted (ids.zip rs) b
  | _ => b

/-- The book after a history. -/
def book (history : List (Req × Resp)) : Book := history.foldl Book.note (fun _ => none)

/-- How many ids a request can use up. -/
def uses : Req → Nat
  | .create _ cs => cs.length
  | .elsewhere n => n
  | _ => 0

/-- Fewer than 2^32 items have been created since the start of the server. -/
def Young (reqs : List Req) : Prop := (reqs.map uses).sum < 2 ^ 32

/-- The filter in force: the one asked for, or the default. -/
def FilterOf (asked : Option Filter) (inForce : Filter) : Prop :=
  match asked with
  | some f => inForce = f
  | none => inForce = .dataChange 1 0 ∨ inForce = .event 0

/-- The item is as the client believes. -/
structure Agree (i : Item) (e : Entry) : Prop where
  handle : i.handle = e.handle
  mode : i.mode = e.mode
  discardOldest : i.discardOldest = e.discardOldest
  filter : FilterOf e.filter i.filter
  size : i.size = e.size
  interval : i.interval = e.interval

/-- Both know the item, and agree about it, or neither does. -/
def Same : Option Item → Option Entry → Prop
  | none, none => True
  | some i, some e => Agree i e
  | _, _ => False

/-- The map is visited in this order: every key once. -/
def Visits (order : List Nat) (s : State) : Prop := order.Nodup ∧ ∀ id, id ∈ order ↔ (s.items id).isSome = true

end Spec

open Spec

/-! ## Queues -/

theorem trim_length (d : Bool) (n : Nat) (q : List Val) : (trim d n q).length ≤ n := by
  unfold trim
  split
  · rw [popFrontTo_eq, List.length_drop]; omega
  · rw [popBackTo_eq, List.length_take]; omega

theorem trim_mem {d : Bool} {n : Nat} {q : List Val} {v : Val} (h : v ∈ trim d n q) : v ∈ q := by
  unfold trim at h
  split at h
  · rw [popFrontTo_eq] at h; exact List.mem_of_mem_drop h
  · rw [popBackTo_eq] at h; exact List.mem_of_mem_take h

theorem sizeOf_pos (k : Kind) (n : Nat) : 1 ≤ sizeOf k n := by
  unfold sizeOf
  cases k <;> simp only [maxQueueSize] <;> repeat' split
  all_goals omega

/-- What holds of every item of the server. -/
structure Sound (k : Nat) (i : Item) : Prop where
  id : i.id = k
  pos : 1 ≤ i.size
  room : i.queue.length ≤ i.size
  own : ∀ v ∈ i.queue, v.src = k
  off : i.mode = 0 → i.queue = []

/-- The state and the book after a history that has used up at most `n` ids. -/
structure Inv (n : Nat) (s : State) (b : Book) : Prop where
  same : ∀ id, Same (s.items id) (b id)
  sound : ∀ id i, s.items id = some i → Sound id i
  ctr : s.ctr ≤ n
  fresh : ∀ id, s.ctr < id → s.items id = none

theorem Inv.mono {n m : Nat} {s : State} {b : Book} (h : Inv n s b) (hm : n ≤ m) : Inv m s b :=
  ⟨h.same, h.sound, by have := h.ctr; omega, h.fresh⟩

theorem configure_sound {rate pub : F64} {p : Params} {id : Nat} {i : Item} (hid : i.id = id) (hown : ∀ v ∈ i.queue, v.src = id)
    (hoff : i.mode = 0 → i.queue = []) : Sound id (i.configure rate pub p) where
  id := hid
  pos := sizeOf_pos _ _
  room := trim_length _ _ _
  own := fun v hv => hown v (trim_mem hv)
  off := fun hm => by
    have h0 := hoff hm
    cases hq : (i.configure rate pub p).queue with
    | nil => rfl
    | cons v q =>
      have hv : v ∈ (i.configure rate pub p).queue := by rw [hq]; simp
      have := trim_mem (show v ∈ trim p.discardOldest (sizeOf i.kind p.size) i.queue from hv)
      rw [h0] at this
      cases this

/-! ## The services keep the book right -/

theorem admissible_filter {c : CreateReq} {k : Kind} {p : Params} (h : admissible c = .ok (k, p)) :
    p.handle = c.params.handle ∧ p.discardOldest = c.params.discardOldest ∧ FilterOf c.params.filter (filterOf k p.filter) := by
  unfold admissible at h
  repeat' split at h
  all_goals first | cases h | skip
  · rename_i tr d hf hd
    refine ⟨rfl, rfl, ?_⟩
    cases hc : c.params.filter with
    | none => rw [hc] at hf; cases hf; exact .inl rfl
    | some f => rw [hc] at hf; cases hf; rfl
  · rename_i n hf
    refine ⟨rfl, rfl, ?_⟩
    rw [hf]; rfl
  · rename_i hf
    refine ⟨rfl, rfl, ?_⟩
    have : c.params.filter = none := Classical.not_not.1 hf
    rw [this]; exact .inl rfl

theorem Inv.change {n m c k : Nat} {s : State} {b : Book} {x : Option Item} {e : Option Entry} (h : Inv n s b) (hs : Same x e)
    (hx : ∀ i, x = some i → Sound k i) (hk : k ≤ c ∨ x = none) (hc : s.ctr ≤ c) (hm : c ≤ m) :
    Inv m { s with ctr := c, items := put s.items k x } (b.write k e) where
  same := fun id => by
    unfold put Book.write
    by_cases h0 : id = k
    · simpa [h0] using hs
    · simpa [h0] using h.same id
  sound := fun id i hi => by
    simp only [put] at hi
    by_cases h0 : id = k
    · rw [if_pos h0] at hi; exact h0 ▸ hx i hi
    · rw [if_neg h0] at hi; exact h.sound id i hi
  ctr := hm
  fresh := fun id hid => by
    change c < id at hid
    simp only [put]
    by_cases h0 : id = k
    · rw [if_pos h0]
      rcases hk with hk | hk
      · omega
      · exact hk
    · rw [if_neg h0]; exact h.fresh id (by omega)

theorem Inv.known {n k : Nat} {s : State} {b : Book} {i : Item} (h : Inv n s b) (hi : s.items k = some i) : k ≤ s.ctr := by
  refine Classical.byContradiction fun h0 => ?_
  rw [h.fresh k (by omega)] at hi
  cases hi

theorem Inv.entry {n k : Nat} {s : State} {b : Book} {i : Item} (h : Inv n s b) (hi : s.items k = some i) :
    ∃ e, b k = some e ∧ Agree i e := by
  have := h.same k
  rw [hi] at this
  cases hb : b k with
  | none => rw [hb] at this; exact this.elim
  | some e => rw [hb] at this; exact ⟨e, rfl, this⟩

theorem create1_inv {rate : F64} {stamps : Int} {c : CreateReq} {n : Nat} {s : State} {b : Book} (h : Inv n s b)
    (hn : n + 1 < 2 ^ 32) :
    Inv (n + 1) (create1 rate stamps c s).1 (Book.created stamps [(c, (create1 rate stamps c s).2)] b) := by
  unfold create1
  cases ha : admissible c with
  | error st =>
    have hst : st ≠ .good := by
      intro h0
      subst h0
      unfold admissible at ha
      repeat' split at ha
      all_goals cases ha
    simp only [Book.created, if_neg hst]
    exact h.mono (by omega)
  | ok kp =>
    obtain ⟨k, p⟩ := kp
    obtain ⟨h1, h2, h3⟩ := admissible_filter ha
    have hc := h.ctr
    have hid : (s.ctr + 1) % 2 ^ 32 = s.ctr + 1 := Nat.mod_eq_of_lt (by omega)
    have hf := h.fresh (s.ctr + 1) (by omega)
    simp only [hid, hf, Option.isSome_none, Bool.false_eq_true, if_false, Book.created, if_true]
    refine h.change (k := s.ctr + 1) (c := s.ctr + 1) ?_ ?_ (.inl (Nat.le_refl _)) (by omega) (by omega)
    · exact ⟨h1, rfl, h2, h3, rfl, rfl⟩
    · intro i hi
      cases hi
      exact configure_sound rfl (by intro v hv; cases hv) (fun _ => rfl)

theorem createAll_inv {rate : F64} {stamps : Int} : ∀ (cs : List CreateReq) {n : Nat} {s : State} {b : Book}, Inv n s b →
    n + cs.length < 2 ^ 32 →
    Inv (n + cs.length) (createAll rate stamps cs s).1 (Book.created stamps (cs.zip (createAll rate stamps cs s).2) b) := by
  intro cs
  induction cs with
  | nil => intro n s b h _; exact h
  | cons c cs ih =>
    intro n s b h hn
    simp only [List.length_cons] at hn ⊢
    have h1 := create1_inv (rate := rate) (stamps := stamps) (c := c) h (by omega)
    have h2 := ih h1 (by omega)
    have e : n + 1 + cs.length = n + (cs.length + 1) := by omega
    rw [e] at h2
    exact h2

theorem modifiable_filter {k : Kind} {f f' : Option Filter} (h : modifiable k f = some f') : FilterOf f (filterOf k f') := by
  unfold modifiable at h
  repeat' split at h
  all_goals first | cases h | skip
  · rename_i tr d hf hd
    cases f with
    | none => cases hf; exact .inl rfl
    | some g => cases hf; rfl
  · rename_i n hf
    cases f with
    | none => cases hf; exact .inr rfl
    | some g => cases hf; rfl
  · rename_i hf
    subst hf
    exact .inl rfl

theorem modify1_inv {rate : F64} {stamps : Int} {m : Nat × Params} {n : Nat} {s : State} {b : Book} (h : Inv n s b) :
    Inv n (modify1 rate m s).1 (Book.modified stamps [(m, (modify1 rate m s).2)] b) := by
  unfold modify1
  cases hi : s.items m.1 with
  | none => exact h
  | some it =>
    simp only
    cases hm : modifiable it.kind m.2.filter with
    | none => exact h
    | some f =>
      simp only [Book.modified, if_true]
      obtain ⟨e, he, ha⟩ := h.entry hi
      have hs := h.sound _ _ hi
      refine h.change (k := m.1) (c := s.ctr) ?_ ?_ (.inl (h.known hi)) (Nat.le_refl _) h.ctr
      · rw [he]
        exact ⟨rfl, ha.mode, rfl, modifiable_filter hm, rfl, rfl⟩
      · intro i h0
        cases h0
        exact configure_sound hs.id hs.own hs.off

theorem modifyAll_inv {rate : F64} {stamps : Int} : ∀ (ms : List (Nat × Params)) {n : Nat} {s : State} {b : Book}, Inv n s b →
    Inv n (modifyAll rate ms s).1 (Book.modified stamps (ms.zip (modifyAll rate ms s).2) b) := by
  intro ms
  induction ms with
  | nil => intro n s b h; exact h
  | cons m ms ih =>
    intro n s b h
    exact ih (modify1_inv (rate := rate) (stamps := stamps) (m := m) h)

theorem setMode1_inv {mode : Int} {id : Nat} {n : Nat} {s : State} {b : Book} (h : Inv n s b) :
    Inv n (setMode1 mode id s).1 (Book.moded mode [(id, (setMode1 mode id s).2)] b) := by
  unfold setMode1
  cases hi : s.items id with
  | none => exact h
  | some it =>
    simp only [Book.moded, if_true]
    obtain ⟨e, he, ha⟩ := h.entry hi
    have hs := h.sound _ _ hi
    refine h.change (k := id) (c := s.ctr) ?_ ?_ (.inl (h.known hi)) (Nat.le_refl _) h.ctr
    · rw [he]
      unfold Item.setMode
      split
      · rename_i h0; exact ⟨ha.handle, h0, ha.discardOldest, ha.filter, ha.size, ha.interval⟩
      · split
        · exact ⟨ha.handle, rfl, ha.discardOldest, ha.filter, ha.size, ha.interval⟩
        · exact ⟨ha.handle, rfl, ha.discardOldest, ha.filter, ha.size, ha.interval⟩
    · intro i h0
      cases h0
      unfold Item.setMode
      split
      · exact hs
      · split
        · exact ⟨hs.id, hs.pos, Nat.zero_le _, (fun v hv => by cases hv), fun _ => rfl⟩
        · rename_i h1; exact ⟨hs.id, hs.pos, hs.room, hs.own, fun h0 => absurd h0 h1⟩

theorem delete1_inv {id : Nat} {n : Nat} {s : State} {b : Book} (h : Inv n s b) :
    Inv n (delete1 id s).1 (Book.deleted [(id, (delete1 id s).2)] b) := by
  unfold delete1
  cases hi : s.items id with
  | none => exact h
  | some it =>
    simp only [Book.deleted, if_true]
    exact h.change (k := id) (c := s.ctr) (x := none) (e := none) trivial (fun _ h0 => by cases h0) (.inr rfl) (Nat.le_refl _) h.ctr

theorem setModes_inv {mode : Int} : ∀ (ids : List Nat) {n : Nat} {s : State} {b : Book}, Inv n s b →
    Inv n (eachId (setMode1 mode) ids s).1 (Book.moded mode (ids.zip (eachId (setMode1 mode) ids s).2) b) := by
  intro ids
  induction ids with
  | nil => intro n s b h; exact h
  | cons m ms ih => intro n s b h; exact ih (setMode1_inv (mode := mode) (id := m) h)

theorem deletes_inv : ∀ (ids : List Nat) {n : Nat} {s : State} {b : Book}, Inv n s b →
    Inv n (eachId delete1 ids s).1 (Book.deleted (ids.zip (eachId delete1 ids s).2) b) := by
  intro ids
  induction ids with
  | nil => intro n s b h; exact h
  | cons m ms ih => intro n s b h; exact ih (delete1_inv (id := m) h)

theorem write_same {b : Book} {k : Nat} {e : Option Entry} (h : b k = e) : b.write k e = b := by
  funext id
  unfold Book.write
  by_cases h0 : id = k
  · rw [if_pos h0, h0, h]
  · rw [if_neg h0]

/-- An item changes in nothing that the client has written down. -/
theorem Inv.quiet {n k : Nat} {s : State} {b : Book} {i i' : Item} (h : Inv n s b) (hi : s.items k = some i)
    (he : ∀ e, Agree i e → Agree i' e) (hs : Sound k i → Sound k i') : Inv n { s with items := put s.items k (some i') } b := by
  obtain ⟨e, hb, ha⟩ := h.entry hi
  have := h.change (k := k) (c := s.ctr) (m := n) (x := some i') (e := some e) (he e ha)
    (fun j hj => by cases hj; exact hs (h.sound _ _ hi)) (.inl (h.known hi)) (Nat.le_refl _) h.ctr
  rwa [write_same hb] at this

theorem sampled_inv {id v n : Nat} {s : State} {b : Book} (h : Inv n s b) : Inv n (sampled id v s) b := by
  unfold sampled
  cases hi : s.items id with
  | none => exact h
  | some it =>
    simp only
    split
    · exact h
    · rename_i hm
      refine h.quiet hi (fun e ha => ⟨ha.handle, ha.mode, ha.discardOldest, ha.filter, ha.size, ha.interval⟩)
        (fun hs => ⟨hs.id, hs.pos, ?_, ?_, fun h0 => absurd h0 hm⟩)
      · have := trim_length it.discardOldest (it.size - 1) it.queue
        have hp := hs.pos
        simp only [Item.enqueue, List.length_append, List.length_singleton]
        omega
      · intro w hw
        simp only [Item.enqueue, List.mem_append, List.mem_singleton] at hw
        rcases hw with hw | rfl
        · exact hs.own w (trim_mem hw)
        · exact hs.id

theorem trigger_inv {id n : Nat} {s : State} {b : Book} (h : Inv n s b) : Inv n (trigger id s) b := by
  unfold trigger
  cases hi : s.items id with
  | none => exact h
  | some it =>
    exact h.quiet hi (fun e ha => ⟨ha.handle, ha.mode, ha.discardOldest, ha.filter, ha.size, ha.interval⟩)
      (fun hs => ⟨hs.id, hs.pos, hs.room, hs.own, hs.off⟩)

/-- How many values the item `k` has in its queue. -/
def waiting (s : State) (k : Nat) : Nat := ((s.items k).map (·.queue.length)).getD 0

theorem collect_inv : ∀ (order : List Nat) {maxN n : Nat} {s : State} {b : Book}, Inv n s b →
    Inv n (collect order maxN s).1 b ∧
    (∀ x ∈ (collect order maxN s).2, ∃ e, b x.2.src = some e ∧ e.handle = x.1 ∧ e.mode ≠ 0) ∧
    (collect order maxN s).2.length ≤ maxN ∧
    ∀ k, ((collect order maxN s).2.filter (fun x => decide (x.2.src = k))).length ≤ waiting s k := by
  intro order
  induction order with
  | nil => intro maxN n s b h; exact ⟨h, by simp [collect], by simp [collect], by simp [collect]⟩
  | cons id order ih =>
    intro maxN n s b h
    unfold collect
    cases hi : s.items id with
    | none => exact ih h
    | some it =>
      simp only
      split
      · exact ih h
      · have hs := h.sound _ _ hi
        obtain ⟨e, he, ha⟩ := h.entry hi
        have h1 : Inv n { s with items := put s.items id (some (drained maxN it)) } b := by
          refine h.quiet hi (fun e ha => ⟨ha.handle, ha.mode, ha.discardOldest, ha.filter, ha.size, ha.interval⟩)
            (fun hs => ⟨hs.id, hs.pos, ?_, fun v hv => hs.own v (List.mem_of_mem_drop hv), fun h0 => ?_⟩)
          · have := hs.room
            simp only [drained, List.length_drop]
            omega
          · have := hs.off h0
            simp [drained, this]
        obtain ⟨h2, h3, h4, h5⟩ := ih (maxN := maxN - (it.queue.take maxN).length) h1
        refine ⟨h2, ?_, ?_, ?_⟩
        · intro x hx
          rcases List.mem_append.1 hx with hx | hx
          · obtain ⟨v, hv, rfl⟩ := List.mem_map.1 hx
            have hq := List.mem_of_mem_take hv
            refine ⟨e, by rw [hs.own v hq]; exact he, ha.handle.symm, fun h0 => ?_⟩
            rw [hs.off (ha.mode.trans h0)] at hq
            cases hq
          · exact h3 x hx
        · simp only [List.length_append, List.length_map, List.length_take] at h4 ⊢
          omega
        · intro k
          have h6 := h5 k
          rw [List.filter_append, List.length_append]
          by_cases hk : id = k
          · subst hk
            have e1 : waiting { s with items := put s.items id (some (drained maxN it)) } id = it.queue.length - maxN := by
              simp [waiting, put, drained]
            have e2 : waiting s id = it.queue.length := by simp [waiting, hi]
            rw [e1] at h6
            rw [e2]
            have h7 := List.length_filter_le (fun x : Nat × Val => decide (x.2.src = id)) ((it.queue.take maxN).map (fun v => (it.handle, v)))
            simp only [List.length_map, List.length_take] at h7
            omega
          · have e1 : waiting { s with items := put s.items id (some (drained maxN it)) } k = waiting s k := by
              have hk' : ¬ k = id := fun h0 => hk h0.symm
              simp [waiting, put, hk']
            rw [e1] at h6
            have e2 : ((it.queue.take maxN).map (fun v => (it.handle, v))).filter (fun x : Nat × Val => decide (x.2.src = k)) = [] := by
              rw [List.filter_eq_nil_iff]
              intro x hx
              obtain ⟨v, hv, rfl⟩ := List.mem_map.1 hx
              have := hs.own v (List.mem_of_mem_take hv)
              simp [this, hk]
            rw [e2, List.length_nil, Nat.zero_add]
            exact h6

theorem step_inv {rate : F64} {limit n : Nat} {s : State} {b : Book} (q : Req) (h : Inv n s b) (hn : n + uses q < 2 ^ 32) :
    Inv (n + uses q) (step rate limit s q).1 (b.note (q, (step rate limit s q).2)) := by
  cases q with
  | create stamps cs =>
    simp only [uses] at hn ⊢
    simp only [step, counted]
    repeat' split
    · exact h.mono (by omega)
    · exact h.mono (by omega)
    · exact h.mono (by omega)
    · exact createAll_inv cs h hn
  | modify stamps ms =>
    simp only [step, counted]
    repeat' split
    · exact h
    · exact h
    · exact h
    · exact modifyAll_inv ms h
  | setMode mode ids =>
    simp only [step, counted]
    repeat' split
    · exact h
    · exact h
    · exact setModes_inv ids h
  | delete ids =>
    simp only [step, counted]
    repeat' split
    · exact h
    · exact h
    · exact deletes_inv ids h
  | book order => exact h
  | publish order max => exact (collect_inv order h).1
  | sampled id v => exact sampled_inv h
  | trigger id => exact trigger_inv h
  | elsewhere k =>
    simp only [uses] at hn ⊢
    have hc := h.ctr
    have e : (s.ctr + k) % 2 ^ 32 = s.ctr + k := Nat.mod_eq_of_lt (by omega)
    refine ⟨h.same, h.sound, ?_, fun id hid => h.fresh id ?_⟩
    · change (s.ctr + k) % 2 ^ 32 ≤ n + k
      omega
    · change (s.ctr + k) % 2 ^ 32 < id at hid
      omega
  | interval pub => exact ⟨h.same, h.sound, h.ctr, h.fresh⟩

theorem run_append (rate : F64) (limit : Nat) (reqs : List Req) (q : Req) :
    run rate limit (reqs ++ [q]) = ((step rate limit (run rate limit reqs).1 q).1,
      (run rate limit reqs).2 ++ [(q, (step rate limit (run rate limit reqs).1 q).2)]) := by
  simp [run, List.foldl_append]

theorem run_inv (rate : F64) (limit : Nat) (reqs : List Req) (hy : Young reqs) :
    Inv (reqs.map uses).sum (run rate limit reqs).1 (book (run rate limit reqs).2) := by
  induction reqs using snocInd with
  | nil => exact ⟨fun _ => trivial, (fun _ _ h => by cases h), Nat.le_refl _, fun _ _ => rfl⟩
  | append_singleton reqs q ih =>
    have e : ((reqs ++ [q]).map uses).sum = (reqs.map uses).sum + uses q := by simp
    unfold Young at hy ih
    rw [e] at hy ⊢
    have h1 := ih (by omega)
    rw [run_append]
    have h2 := step_inv (rate := rate) (limit := limit) q h1 hy
    unfold book at h2 ⊢
    rw [List.foldl_append]
    exact h2

/-! ## The theorems -/

/-- **C143 (settings, partial).** After every history, the server has exactly the items of the client's book, with the
client handle, the mode, the discard policy, the filter, and the confirmed queue size and sampling interval that stand there.
Missing: the timestamps of modified items (`C143_timestamps_fails`), modes that do not exist (`C143_mode_fails`), servers that
have created 2^32 items (`C143_wrap_fails`). -/
theorem C143_settings_partial (rate : F64) (limit : Nat) (reqs : List Req) (hy : Young reqs) (id : Nat) :
    Same ((run rate limit reqs).1.items id) (book (run rate limit reqs).2 id) :=
  (run_inv rate limit reqs hy).same id

/-- **C143 (GetMonitoredItems, partial).** After every history, the answer lists every item of the client's book once,
with its client handle, and nothing else. -/
theorem C143_handles_partial (rate : F64) (limit : Nat) (reqs : List Req) (hy : Young reqs) (order : List Nat)
    (hv : Visits order (run rate limit reqs).1) :
    ∃ hs, (step rate limit (run rate limit reqs).1 (.book order)).2 = .handles hs ∧ (hs.map (·.1)).Nodup ∧
      ∀ id h, (id, h) ∈ hs ↔ ∃ e, book (run rate limit reqs).2 id = some e ∧ e.handle = h := by
  have hinv := run_inv rate limit reqs hy
  refine ⟨_, rfl, ?_, ?_⟩
  · have key : ∀ l : List Nat, (∀ id ∈ l, ((run rate limit reqs).1.items id).isSome = true) →
        (l.filterMap (fun id => ((run rate limit reqs).1.items id).map (fun it => (it.id, it.handle)))).map (·.1) = l := by
      intro l
      induction l with
      | nil => intro _; rfl
      | cons id l ih =>
        intro h
        have h1 := h id (by simp)
        obtain ⟨it, hit⟩ := Option.isSome_iff_exists.1 h1
        rw [List.filterMap_cons, hit]
        simp only [Option.map_some, List.map_cons]
        rw [(hinv.sound _ _ hit).id, ih (fun k hk => h k (by simp [hk]))]
    rw [key order (fun id hid => (hv.2 id).1 hid)]
    exact hv.1
  · intro id h
    rw [List.mem_filterMap]
    constructor
    · rintro ⟨k, _, hk⟩
      cases hi : (run rate limit reqs).1.items k with
      | none => rw [hi] at hk; cases hk
      | some it =>
        rw [hi] at hk
        simp only [Option.map_some, Option.some.injEq, Prod.mk.injEq] at hk
        obtain ⟨e, he, ha⟩ := hinv.entry hi
        have hid : k = id := by rw [← hk.1, (hinv.sound _ _ hi).id]
        exact ⟨e, hid ▸ he, by rw [← ha.handle]; exact hk.2⟩
    · rintro ⟨e, he, hh⟩
      have hs := hinv.same id
      cases hi : (run rate limit reqs).1.items id with
      | none => rw [hi, he] at hs; exact hs.elim
      | some it =>
        rw [hi, he] at hs
        exact ⟨id, (hv.2 id).2 (by rw [hi]; rfl), by
          rw [hi]; simp only [Option.map_some, Option.some.injEq, Prod.mk.injEq]
          exact ⟨(hinv.sound _ _ hi).id, hs.handle.trans hh⟩⟩

/-- **C143 (notifications, partial).** After every history, every value in a Publish response stands under the client
handle that the client has written down for the item that sampled it, and that item is neither deleted nor disabled in the
book; there are no more values than the response may hold, and none of an item beyond its confirmed queue size. -/
theorem C143_notified_partial (rate : F64) (limit : Nat) (reqs : List Req) (hy : Young reqs) (order : List Nat) (max : Nat) :
    ∃ ns, (step rate limit (run rate limit reqs).1 (.publish order max)).2 = .notified ns ∧ ns.length ≤ max ∧
      (∀ x ∈ ns, ∃ e, book (run rate limit reqs).2 x.2.src = some e ∧ e.handle = x.1 ∧ e.mode ≠ 0) ∧
      ∀ id e, book (run rate limit reqs).2 id = some e → (ns.filter (fun x => decide (x.2.src = id))).length ≤ e.size := by
  have hinv := run_inv rate limit reqs hy
  obtain ⟨_, h1, h2, h3⟩ := collect_inv order (maxN := max) hinv
  refine ⟨_, rfl, h2, h1, fun id e he => Nat.le_trans (h3 id) ?_⟩
  have hs := hinv.same id
  cases hi : (run rate limit reqs).1.items id with
  | none => rw [hi, he] at hs; exact hs.elim
  | some it =>
    rw [hi, he] at hs
    have := (hinv.sound _ _ hi).room
    simp only [waiting, hi, Option.map_some, Option.getD_some]
    rw [← hs.size]
    exact this

theorem createAll_zip {rate : F64} {stamps : Int} : ∀ (cs : List CreateReq) (s : State) (x : CreateReq × CreateResult),
    x ∈ cs.zip (createAll rate stamps cs s).2 → ∃ s0, x.2 = (create1 rate stamps x.1 s0).2 := by
  intro cs
  induction cs with
  | nil => intro s x hx; cases hx
  | cons c cs ih =>
    intro s x hx
    simp only [createAll, List.zip_cons_cons, List.mem_cons] at hx
    rcases hx with rfl | hx
    · exact ⟨s, rfl⟩
    · exact ih _ x hx

/-- **C143 (confirmed size).** Every queue size that CreateMonitoredItems confirms is between 1 and 1024, and for the
value of a variable it is the one asked for if that is. -/
theorem C143_confirmed (rate : F64) (limit : Nat) (s : State) (stamps : Int) (cs : List CreateReq) (rs : List CreateResult)
    (h : (step rate limit s (.create stamps cs)).2 = .created rs) (x : CreateReq × CreateResult) (hx : x ∈ cs.zip rs)
    (hg : x.2.status = .good) :
    1 ≤ x.2.size ∧ x.2.size ≤ 1024 ∧
      (∀ v r u g k m b, x.1.target = some (b, .value v r u g k m) → 1 ≤ x.1.params.size → x.1.params.size ≤ 1024 →
        x.2.size = x.1.params.size) := by
  have hrs : rs = (createAll rate stamps cs s).2 := by
    simp only [step, counted] at h
    repeat' split at h
    all_goals first | cases h | skip
    rfl
  subst hrs
  obtain ⟨s0, h0⟩ := createAll_zip cs s x hx
  rw [h0] at hg ⊢
  unfold create1 at hg ⊢
  cases ha : admissible x.1 with
  | error st =>
    rw [ha] at hg
    simp only at hg
    subst hg
    unfold admissible at ha
    repeat' split at ha
    all_goals cases ha
  | ok kp =>
    obtain ⟨k, p⟩ := kp
    simp only [Item.configure]
    refine ⟨sizeOf_pos _ _, ?_, ?_⟩
    · unfold sizeOf
      cases k <;> simp only [maxQueueSize] <;> repeat' split
      all_goals omega
    · intro v r u g kk m b ht h1 h2
      have hk : p.size = x.1.params.size ∧ k = .value kk m := by
        unfold admissible at ha
        rw [ht] at ha
        simp only at ha
        repeat' split at ha
        all_goals first | cases ha | skip
        exact ⟨rfl, rfl⟩
      rw [hk.1, hk.2]
      simp only [sizeOf, maxQueueSize]
      repeat' split
      all_goals omega

/-- Nothing in the response is good. -/
def Refused : Resp → Prop
  | .fault _ => True
  | .created rs => ∀ r ∈ rs, r.status ≠ .good
  | .modified rs => ∀ r ∈ rs, r.status ≠ .good
  | .statuses rs => ∀ r ∈ rs, r ≠ .good
  | _ => False

theorem each_refused {f : Nat → State → State × Status} (hf : ∀ id s, (f id s).2 ≠ .good → (f id s).1 = s) : ∀ (ids : List Nat) (s : State),
    (∀ r ∈ (eachId f ids s).2, r ≠ .good) → (eachId f ids s).1 = s := by
  intro ids
  induction ids with
  | nil => intro s _; rfl
  | cons id ids ih =>
    intro s h
    simp only [eachId, List.mem_cons, forall_eq_or_imp] at h ⊢
    rw [ih _ h.2]
    exact hf id s h.1

/-- **C143 (refused).** A request that is refused, as a whole or in each of its operations, changes no item. -/
theorem C143_refused (rate : F64) (limit : Nat) (s : State) (q : Req) (h : Refused (step rate limit s q).2) :
    (step rate limit s q).1 = s := by
  have hc : ∀ (stamps : Int) (cs : List CreateReq) (s : State),
      (∀ r ∈ (createAll rate stamps cs s).2, r.status ≠ .good) → (createAll rate stamps cs s).1 = s := by
    intro stamps cs
    induction cs with
    | nil => intro s _; rfl
    | cons c cs ih =>
      intro s h
      simp only [createAll, List.mem_cons, forall_eq_or_imp] at h ⊢
      rw [ih _ h.2]
      have h1 := h.1
      unfold create1 at h1 ⊢
      split
      · rfl
      · rename_i hx; rw [hx] at h1; exact absurd rfl h1
  have hm : ∀ (ms : List (Nat × Params)) (s : State),
      (∀ r ∈ (modifyAll rate ms s).2, r.status ≠ .good) → (modifyAll rate ms s).1 = s := by
    intro ms
    induction ms with
    | nil => intro s _; rfl
    | cons m ms ih =>
      intro s h
      simp only [modifyAll, List.mem_cons, forall_eq_or_imp] at h ⊢
      rw [ih _ h.2]
      have h1 := h.1
      unfold modify1 at h1 ⊢
      split
      · rfl
      · rename_i hx
        rw [hx] at h1
        simp only at h1
        split
        · rfl
        · rename_i hy; rw [hy] at h1; exact absurd rfl h1
  cases q with
  | create stamps cs =>
    simp only [step, counted] at h ⊢
    repeat' split
    · rfl
    · rfl
    · rfl
    · rename_i h1 h2 h3
      rw [if_neg h1, if_neg h2, if_neg h3] at h
      exact hc _ _ _ h
  | modify stamps ms =>
    simp only [step, counted] at h ⊢
    repeat' split
    · rfl
    · rfl
    · rfl
    · rename_i h1 h2 h3
      rw [if_neg h1, if_neg h2, if_neg h3] at h
      exact hm _ _ h
  | setMode mode ids =>
    simp only [step, counted] at h ⊢
    repeat' split
    · rfl
    · rfl
    · rename_i h1 h2
      rw [if_neg h1, if_neg h2] at h
      refine each_refused (fun id s h0 => ?_) _ _ h
      unfold setMode1 at h0 ⊢
      cases hi : s.items id with
      | none => rfl
      | some it => rw [hi] at h0; exact absurd rfl h0
  | delete ids =>
    simp only [step, counted] at h ⊢
    repeat' split
    · rfl
    · rfl
    · rename_i h1 h2
      rw [if_neg h1, if_neg h2] at h
      refine each_refused (fun id s h0 => ?_) _ _ h
      unfold delete1 at h0 ⊢
      cases hi : s.items id with
      | none => rfl
      | some it => rw [hi] at h0; exact absurd rfl h0
  | book order => exact h.elim
  | publish order max => exact h.elim
  | sampled id v => exact h.elim
  | trigger id => exact h.elim
  | elsewhere n => exact h.elim
  | interval pub => exact h.elim

/-! ## Where it fails, and examples -/

namespace Ex

def rate : F64 := .fin 100
def limit : Nat := 10
/-- The value of a number that may be read. -/
def number : Option (Bool × Target) := some (true, .value true true true none true (.fin 0))
def params (h size : Nat) : Params := ⟨h, .fin 250, size, true, none⟩
def create (h size : Nat) : Req := .create 0 [⟨number, 2, params h size⟩]

/-- Two items are created, the first is modified, the second is disabled. -/
def day : List Req :=
  [.create 0 [⟨number, 2, params 70 5⟩, ⟨none, 2, params 71 5⟩, ⟨number, 1, params 72 5000⟩], .sampled 1 40, .sampled 1 41, .sampled 2 50,
    .modify 0 [(1, ⟨80, .fin 10, 2, false, some (.dataChange 2 0)⟩), (9, params 90 1)], .setMode 0 [2], .sampled 1 42, .sampled 2 51]

end Ex

example : Young Ex.day := by unfold Young; decide +kernel
example : ((run Ex.rate Ex.limit Ex.day).1.items 1).map (fun i => (i.handle, i.mode, i.size, i.interval, i.filter))
    = some (80, 2, 2, .fin 100, .dataChange 2 0) := by decide +kernel
example : (book (run Ex.rate Ex.limit Ex.day).2 1).map (fun e => (e.handle, e.mode, e.size, e.interval, e.filter))
    = some (80, 2, 2, .fin 100, some (.dataChange 2 0)) := by decide +kernel
example : (book (run Ex.rate Ex.limit Ex.day).2 2).map (fun e => (e.handle, e.mode, e.size, e.interval, e.filter))
    = some (72, 0, 1024, .fin 250, none) := by decide +kernel
example : ((book (run Ex.rate Ex.limit Ex.day).2 3).isSome, (book (run Ex.rate Ex.limit Ex.day).2 9).isSome) = (false, false) := by decide +kernel
example : (step Ex.rate Ex.limit (run Ex.rate Ex.limit Ex.day).1 (.book [2, 1])).2 = .handles [(2, 72), (1, 80)] := by decide +kernel
/-- The new handle stands also on what was sampled before; with DiscardOldest false the newest gives way. -/
example : (step Ex.rate Ex.limit (run Ex.rate Ex.limit Ex.day).1 (.publish [2, 1] 10)).2
    = .notified [(80, ⟨1, 40, 0⟩), (80, ⟨1, 42, 0⟩)] := by decide +kernel
example : (step Ex.rate Ex.limit {} (.create 0 [⟨Ex.number, 2, Ex.params 1 7⟩, ⟨Ex.number, 2, Ex.params 1 0⟩, ⟨Ex.number, 2, Ex.params 1 5000⟩])).2
    = .created [⟨.good, 1, .fin 250, 7⟩, ⟨.good, 2, .fin 250, 1⟩, ⟨.good, 3, .fin 250, 1024⟩] := by decide +kernel
example : (step Ex.rate Ex.limit (run Ex.rate Ex.limit Ex.day).1 (.modify 0 [(1, ⟨3, .fin 0, 1, true, some (.event 5)⟩), (7, Ex.params 1 1)])).2
    = .modified [⟨.badFilterNotAllowed, .fin 0, 0⟩, ⟨.badMonitoredItemIDInvalid, .fin 0, 0⟩] := by decide +kernel
example : (step Ex.rate Ex.limit (run Ex.rate Ex.limit Ex.day).1 (.delete [1, 1])).2
    = .statuses [.good, .badMonitoredItemIDInvalid] := by decide +kernel

/-- **C143 (timestamps) fails.** ModifyMonitoredItems asks that values come without timestamps (3), and is answered Good;
a value sampled afterwards comes with its source timestamp (0), as asked for when the item was created. -/
theorem C143_timestamps_fails :
    let h := run Ex.rate Ex.limit [Ex.create 70 5, .modify 3 [(1, Ex.params 70 5)], .sampled 1 42, .publish [1] 10]
    h.2.map (·.2) = [.created [⟨.good, 1, .fin 250, 5⟩], .modified [⟨.good, .fin 250, 5⟩], .silent, .notified [(70, ⟨1, 42, 0⟩)]] ∧
      (book h.2 1).map (·.stamps) = some 3 := by
  decide +kernel

/-- **C143 (mode) fails.** A monitoring mode that does not exist is confirmed, when an item is created and when its mode
is set; the item samples and its values are never reported. -/
theorem C143_mode_fails :
    let h := run Ex.rate Ex.limit [.create 0 [⟨Ex.number, 7, Ex.params 70 5⟩], .sampled 1 42, .publish [1] 10, .setMode (-3) [1], .publish [1] 10]
    h.2.map (·.2) = [.created [⟨.good, 1, .fin 250, 5⟩], .silent, .notified [], .statuses [.good], .notified []] ∧
      (h.1.items 1).map (·.queue) = some [⟨1, 42, 0⟩] := by
  decide +kernel

/-- **C143 (wrap) fails.** Once the counter of all subscriptions has gone round, an item gets the id of another one of the
same subscription: it is confirmed and thrown away, and the client's book says of that id what is true of neither. -/
theorem C143_wrap_fails :
    let h := run Ex.rate Ex.limit [Ex.create 70 5, .elsewhere (2 ^ 32 - 1), Ex.create 71 6, .book [1]]
    h.2.map (·.2) = [.created [⟨.good, 1, .fin 250, 5⟩], .silent, .created [⟨.good, 1, .fin 250, 6⟩], .handles [(1, 70)]] ∧
      (book h.2 1).map (·.handle) = some 71 := by
  decide +kernel

end Opcua.ItemBook
