import Verif.Model.SubBook
import Verif.Lemmas.Lists

/-!
# C146: A client's book of its subscriptions is right

`Spec.book` is what a client writes down that knows only its requests and the responses of the server. The theorems compare
it with the subscriptions that the server has.
-/

namespace Opcua.SubBook

open Opcua.Revise (F64)

namespace Spec

/-- What the client knows about one of its subscriptions: the interval and the counts as confirmed, the rest as requested. -/
structure Entry where
  interval : F64
  lifetime : Nat
  keepAlive : Nat
  /-- 0: no limit asked for -/
  maxNotifications : Nat
  priority : Nat
  enabled : Bool
  deriving DecidableEq

/-- The entries by the id of the subscription. -/
abbrev Book := Nat → Option Entry

def Book.write (b : Book) (id : Nat) (e : Option Entry) : Book := fun k => if k = id then e else b k

/-- The client reads the results of SetPublishingMode. -/
def Book.moded (enabled : Bool) : List (Nat × Status) → Book → Book
  | [], b => b
  | (id, st) :: l, b =>
    Book.moded enabled l (if st = .good then b.write id ((b id).map (fun e => { e with enabled := enabled })) else b)

/-- The client reads the results of DeleteSubscriptions. -/
def Book.deleted : List (Nat × Status) → Book → Book
  | [], b => b
  | (id, st) :: l, b => Book.deleted l (if st = .good then b.write id none else b)

/-- The client reads a response to a request of its own. -/
def Book.note (b : Book) : Req → Reply → Book
  | .create p enabled, .created id i l k => b.write id (some ⟨i, l, k, p.maxNotifications, p.priority, enabled⟩)
  | .modify id p, .modified i l k => b.write id ((b id).map (fun e => ⟨i, l, k, p.maxNotifications, p.priority, e.enabled⟩))
  | .setMode enabled ids, .results l => b.moded enabled (ids.zip l)
  | .delete ids, .results l => b.deleted (ids.zip l)
  | .close true, .closed => fun _ => none
  | .publish, .change id => b.write id none
  | _, _ => b

/-- The book of the client of session `s`. -/
def book (s : Nat) (log : List (Nat × Req × Reply)) : Book :=
  log.foldl (fun b x => if x.1 = s then b.note x.2.1 x.2.2 else b) (fun _ => none)

/-- The subscription is as it stands in the book. -/
def Agrees (e : Entry) (u : Sub) : Prop :=
  u.interval = e.interval ∧ u.lifetime = e.lifetime ∧ u.keepAlive = e.keepAlive ∧ u.priority = e.priority ∧
  u.enabled = e.enabled ∧ (e.maxNotifications = 0 ∨ u.maxNotifications = e.maxNotifications)

/-- How many subscriptions were asked for. -/
def asked (evs : List Ev) : Nat :=
  (evs.filter (fun e => match e with | .call _ (.create _ _) => true | _ => false)).length

end Spec

open Spec

/-! ## Lemmas -/

theorem mem_update {t : List Sub} {id : Nat} {f : Sub → Sub} {v : Sub} :
    v ∈ update t id f ↔ ∃ u ∈ t, v = if u.id = id then f u else u := by
  simp only [update, List.mem_map]
  constructor
  · rintro ⟨u, hu, rfl⟩; exact ⟨u, hu, rfl⟩
  · rintro ⟨u, hu, rfl⟩; exact ⟨u, hu, rfl⟩

theorem mem_erase {t : List Sub} {id : Nat} {v : Sub} : v ∈ erase t id ↔ v ∈ t ∧ v.id ≠ id := by
  simp [erase]

theorem get_some {t : List Sub} {id : Nat} {u : Sub} (h : get t id = some u) : u ∈ t ∧ u.id = id := by
  have h1 := List.find?_some h
  exact ⟨List.mem_of_find?_eq_some h, by simpa using h1⟩

theorem get_none {t : List Sub} {id : Nat} (h : get t id = none) : ∀ u ∈ t, u.id ≠ id := by
  intro u hu
  have := List.find?_eq_none.mp h u hu
  simpa using this

theorem own_some {t : List Sub} {s id : Nat} {u : Sub} (h : own t s id = some u) : u ∈ t ∧ u.id = id ∧ u.owner = s := by
  unfold own at h
  cases hg : get t id with
  | none => simp [hg] at h
  | some v =>
    simp only [hg] at h
    by_cases ho : v.owner = s
    · rw [if_pos ho] at h
      cases h
      exact ⟨(get_some hg).1, (get_some hg).2, ho⟩
    · rw [if_neg ho] at h; cases h

theorem countFor_pos {a i : Rat} (ha : a ≠ 0) : 0 < Revise.countFor a i := by
  unfold Revise.countFor
  simp only
  by_cases h : (((a / i).floor.toNat : Nat) : Rat) * i ≠ a
  · rw [if_pos h]; omega
  · rw [if_neg h]
    rcases Nat.eq_zero_or_pos (a / i).floor.toNat with h0 | h0
    · exfalso
      apply h
      rw [h0]
      intro h'
      apply ha
      rw [← h']
      simp
    · exact h0

theorem ite_pos {c : Prop} [Decidable c] {a b : Nat} (ha : 0 < a) (hb : 0 < b) : 0 < if c then a else b := by
  split <;> assumption

theorem keepAlive_pos (i : Rat) (n : Nat) : 0 < Revise.maxKeepAliveCount i n := by
  have h1 : 0 < Revise.countFor Revise.maxLifetime i := countFor_pos (by decide +kernel)
  have h2 : 0 < Revise.countFor Revise.maxPublishingInterval i := countFor_pos (by decide +kernel)
  have h3 : 0 < if n = 0 then 3 else n := by split <;> omega
  exact ite_pos h2 (ite_pos h1 h3)

theorem lifetime_pos (i : Rat) (k n : Nat) (hk : 0 < k) : 0 < Revise.lifetimeCount i k n := by
  have h1 : 0 < Revise.countFor Revise.minLifetime i := countFor_pos (by decide +kernel)
  have h3 : ∀ m : Nat, 0 < if k * 3 > m then k * 3 else m := by intro m; split <;> omega
  exact ite_pos (ite_pos h1 (h3 _)) (by decide)

theorem set_lifetime (u : Sub) (p : Params) : 0 < (u.set p).lifetime :=
  lifetime_pos _ _ _ (keepAlive_pos _ _)

/-- What holds between the server and the books: `c` is the counter, `ch` the waiting status changes. -/
structure Good (c : Nat) (ch : Nat → List Nat) (t : List Sub) (b : Nat → Book) : Prop where
  bound : ∀ u ∈ t, u.id ≤ c
  uniq : ∀ u ∈ t, ∀ v ∈ t, u.id = v.id → u = v
  has : ∀ u ∈ t, ∃ e, b u.owner u.id = some e ∧ Agrees e u
  only : ∀ s id e, b s id = some e → (∃ u ∈ t, u.id = id ∧ u.owner = s) ∨ id ∈ ch s
  ended : ∀ s, ∀ id ∈ ch s, id ≤ c ∧ ∀ u ∈ t, u.id ≠ id
  life : ∀ u ∈ t, u.life < u.lifetime

/-- One entry of one book is written. -/
def put (b : Nat → Book) (s id : Nat) (e : Option Entry) : Nat → Book := fun x => if x = s then (b s).write id e else b x

theorem put_eq (b : Nat → Book) (s id : Nat) (e : Option Entry) (x k : Nat) :
    put b s id e x k = if x = s ∧ k = id then e else b x k := by
  unfold put Book.write
  by_cases h : x = s
  · subst h; simp
  · simp [h]

theorem good_update {c : Nat} {ch : Nat → List Nat} {t : List Sub} {b : Nat → Book} (h : Good c ch t b) {u : Sub} (hu : u ∈ t)
    (f : Sub → Sub) (hid : (f u).id = u.id) (ho : (f u).owner = u.owner) (hl : (f u).life < (f u).lifetime)
    (e : Entry) (he : Agrees e (f u)) : Good c ch (update t u.id f) (put b u.owner u.id (some e)) := by
  have key : ∀ v ∈ update t u.id f, v = f u ∨ (v ∈ t ∧ v.id ≠ u.id) := by
    intro v hv
    obtain ⟨w, hw, rfl⟩ := mem_update.mp hv
    by_cases hwi : w.id = u.id
    · left; rw [if_pos hwi, h.uniq w hw u hu hwi]
    · right; rw [if_neg hwi]; exact ⟨hw, hwi⟩
  have hfu : f u ∈ update t u.id f := mem_update.mpr ⟨u, hu, by simp⟩
  refine ⟨?_, ?_, ?_, ?_, ?_, ?_⟩
  · intro v hv
    rcases key v hv with rfl | ⟨hv, _⟩
    · rw [hid]; exact h.bound u hu
    · exact h.bound v hv
  · intro v hv w hw hvw
    rcases key v hv with rfl | ⟨hv', hv2⟩ <;> rcases key w hw with rfl | ⟨hw', hw2⟩
    · rfl
    · exact absurd (hvw.symm.trans hid) hw2
    · exact absurd (hvw.trans hid) hv2
    · exact h.uniq v hv' w hw' hvw
  · intro v hv
    rcases key v hv with rfl | ⟨hv', hv2⟩
    · exact ⟨e, by rw [put_eq, if_pos ⟨ho, hid⟩], he⟩
    · obtain ⟨e', h1, h2⟩ := h.has v hv'
      exact ⟨e', by rw [put_eq, if_neg (fun hh => hv2 hh.2)]; exact h1, h2⟩
  · intro s id e' hb
    rw [put_eq] at hb
    by_cases hh : s = u.owner ∧ id = u.id
    · exact Or.inl ⟨f u, hfu, by rw [hid, hh.2], by rw [ho, hh.1]⟩
    · rw [if_neg hh] at hb
      rcases h.only s id e' hb with ⟨v, hv, h1, h2⟩ | hc
      · left
        by_cases hvi : v.id = u.id
        · have := h.uniq v hv u hu hvi
          subst this
          exact absurd ⟨h2.symm, h1.symm⟩ hh
        · exact ⟨v, mem_update.mpr ⟨v, hv, by rw [if_neg hvi]⟩, h1, h2⟩
      · exact Or.inr hc
  · intro s id hid'
    refine ⟨(h.ended s id hid').1, fun v hv => ?_⟩
    rcases key v hv with rfl | ⟨hv', _⟩
    · rw [hid]; exact (h.ended s id hid').2 u hu
    · exact (h.ended s id hid').2 v hv'
  · intro v hv
    rcases key v hv with rfl | ⟨hv', _⟩
    · exact hl
    · exact h.life v hv'

theorem good_erase {c : Nat} {ch : Nat → List Nat} {t : List Sub} {b : Nat → Book} (h : Good c ch t b) {u : Sub} (hu : u ∈ t) :
    Good c ch (erase t u.id) (put b u.owner u.id none) := by
  refine ⟨fun v hv => h.bound v (mem_erase.mp hv).1, fun v hv w hw => h.uniq v (mem_erase.mp hv).1 w (mem_erase.mp hw).1,
    ?_, ?_, ?_, fun v hv => h.life v (mem_erase.mp hv).1⟩
  · intro v hv
    obtain ⟨e, h1, h2⟩ := h.has v (mem_erase.mp hv).1
    exact ⟨e, by rw [put_eq, if_neg (fun hh => (mem_erase.mp hv).2 hh.2)]; exact h1, h2⟩
  · intro s id e hb
    rw [put_eq] at hb
    by_cases hh : s = u.owner ∧ id = u.id
    · rw [if_pos hh] at hb; cases hb
    · rw [if_neg hh] at hb
      rcases h.only s id e hb with ⟨v, hv, h1, h2⟩ | hc
      · left
        by_cases hvi : v.id = u.id
        · have := h.uniq v hv u hu hvi
          subst this
          exact absurd ⟨h2.symm, h1.symm⟩ hh
        · exact ⟨v, mem_erase.mpr ⟨hv, hvi⟩, h1, h2⟩
      · exact Or.inr hc
  · intro s id hid
    exact ⟨(h.ended s id hid).1, fun v hv => (h.ended s id hid).2 v (mem_erase.mp hv).1⟩

/-- The end of a subscription is put into the queue of its session. -/
theorem good_expire {c : Nat} {ch : Nat → List Nat} {t : List Sub} {b : Nat → Book} (h : Good c ch t b) {u : Sub} (hu : u ∈ t) :
    Good c (fun x => if x = u.owner then ch x ++ [u.id] else ch x) (erase t u.id) b := by
  have hch : ∀ s id, id ∈ (if s = u.owner then ch s ++ [u.id] else ch s) ↔ id ∈ ch s ∨ (s = u.owner ∧ id = u.id) := by
    intro s id
    by_cases hs : s = u.owner
    · simp [hs]
    · simp [hs]
  refine ⟨fun v hv => h.bound v (mem_erase.mp hv).1, fun v hv w hw => h.uniq v (mem_erase.mp hv).1 w (mem_erase.mp hw).1,
    fun v hv => h.has v (mem_erase.mp hv).1, ?_, ?_, fun v hv => h.life v (mem_erase.mp hv).1⟩
  · intro s id e hb
    rw [hch]
    rcases h.only s id e hb with ⟨v, hv, h1, h2⟩ | hc
    · by_cases hvi : v.id = u.id
      · have := h.uniq v hv u hu hvi
        subst this
        exact Or.inr (Or.inr ⟨h2.symm, h1.symm⟩)
      · exact Or.inl ⟨v, mem_erase.mpr ⟨hv, hvi⟩, h1, h2⟩
    · exact Or.inr (Or.inl hc)
  · intro s id hid
    rw [hch] at hid
    rcases hid with hid | ⟨_, rfl⟩
    · exact ⟨(h.ended s id hid).1, fun v hv => (h.ended s id hid).2 v (mem_erase.mp hv).1⟩
    · exact ⟨h.bound u hu, fun v hv => (mem_erase.mp hv).2⟩

theorem good_create {c : Nat} {ch : Nat → List Nat} {t : List Sub} {b : Nat → Book} (h : Good c ch t b) (u : Sub)
    (hid : u.id = c + 1) (hl : u.life < u.lifetime) (e : Entry) (he : Agrees e u) :
    Good (c + 1) ch (erase t u.id ++ [u]) (put b u.owner u.id (some e)) := by
  have key : ∀ v, v ∈ erase t u.id ++ [u] ↔ v ∈ t ∨ v = u := by
    intro v
    rw [List.mem_append, mem_erase, List.mem_singleton]
    constructor
    · rintro (h' | h')
      · exact Or.inl h'.1
      · exact Or.inr h'
    · rintro (h' | h')
      · have := h.bound v h'
        exact Or.inl ⟨h', by omega⟩
      · exact Or.inr h'
  refine ⟨?_, ?_, ?_, ?_, ?_, ?_⟩
  · intro v hv
    rcases (key v).mp hv with hv | rfl
    · have := h.bound v hv; omega
    · omega
  · intro v hv w hw hvw
    rcases (key v).mp hv with hv' | hv' <;> rcases (key w).mp hw with hw' | hw'
    · exact h.uniq v hv' w hw' hvw
    · have := h.bound v hv'; rw [hw'] at hvw; omega
    · have := h.bound w hw'; rw [hv'] at hvw; omega
    · rw [hv', hw']
  · intro v hv
    rcases (key v).mp hv with hv | rfl
    · obtain ⟨e', h1, h2⟩ := h.has v hv
      have := h.bound v hv
      exact ⟨e', by rw [put_eq, if_neg (fun hh => by have := hh.2; omega)]; exact h1, h2⟩
    · exact ⟨e, by rw [put_eq, if_pos ⟨rfl, rfl⟩], he⟩
  · intro s id e' hb
    rw [put_eq] at hb
    by_cases hh : s = u.owner ∧ id = u.id
    · exact Or.inl ⟨u, (key u).mpr (Or.inr rfl), hh.2.symm, hh.1.symm⟩
    · rw [if_neg hh] at hb
      rcases h.only s id e' hb with ⟨v, hv, h1, h2⟩ | hc
      · exact Or.inl ⟨v, (key v).mpr (Or.inl hv), h1, h2⟩
      · exact Or.inr hc
  · intro s id hid'
    have := (h.ended s id hid').1
    refine ⟨by omega, fun v hv => ?_⟩
    rcases (key v).mp hv with hv | rfl
    · exact (h.ended s id hid').2 v hv
    · omega
  · intro v hv
    rcases (key v).mp hv with hv | rfl
    · exact h.life v hv
    · exact hl

/-- The counter moves without a new subscription. -/
theorem good_skip {c : Nat} {ch : Nat → List Nat} {t : List Sub} {b : Nat → Book} (h : Good c ch t b) : Good (c + 1) ch t b :=
  ⟨fun u hu => Nat.le_succ_of_le (h.bound u hu), h.uniq, h.has, h.only,
    fun s id hid => ⟨Nat.le_succ_of_le (h.ended s id hid).1, (h.ended s id hid).2⟩, h.life⟩

theorem good_close {c : Nat} {ch : Nat → List Nat} {t : List Sub} {b : Nat → Book} (h : Good c ch t b) (s : Nat) :
    Good c ch (t.filter (fun u => decide (u.owner ≠ s))) (fun x => if x = s then fun _ => none else b x) := by
  have key : ∀ v, v ∈ t.filter (fun u => decide (u.owner ≠ s)) ↔ v ∈ t ∧ v.owner ≠ s := by simp
  refine ⟨fun v hv => h.bound v ((key v).mp hv).1, fun v hv w hw => h.uniq v ((key v).mp hv).1 w ((key w).mp hw).1,
    ?_, ?_, ?_, fun v hv => h.life v ((key v).mp hv).1⟩
  · intro v hv
    obtain ⟨e, h1, h2⟩ := h.has v ((key v).mp hv).1
    exact ⟨e, by rw [if_neg ((key v).mp hv).2]; exact h1, h2⟩
  · intro s' id e hb
    by_cases hs : s' = s
    · rw [if_pos hs] at hb; cases hb
    · rw [if_neg hs] at hb
      rcases h.only s' id e hb with ⟨v, hv, h1, h2⟩ | hc
      · exact Or.inl ⟨v, (key v).mpr ⟨hv, by rw [h2]; exact hs⟩, h1, h2⟩
      · exact Or.inr hc
  · intro s' id hid
    exact ⟨(h.ended s' id hid).1, fun v hv => (h.ended s' id hid).2 v ((key v).mp hv).1⟩

/-- The end of a subscription is told. -/
theorem good_told {c : Nat} {ch : Nat → List Nat} {t : List Sub} {b : Nat → Book} (h : Good c ch t b) (s id : Nat) (l : List Nat)
    (hc : ch s = id :: l) : Good c (fun x => if x = s then l else ch x) t (put b s id none) := by
  have hmem : id ∈ ch s := by rw [hc]; simp
  have hsub : ∀ x k, k ∈ (if x = s then l else ch x) → k ∈ ch x := by
    intro x k hk
    by_cases hx : x = s
    · rw [if_pos hx] at hk; rw [hx, hc]; exact List.mem_cons_of_mem _ hk
    · rw [if_neg hx] at hk; exact hk
  refine ⟨h.bound, h.uniq, ?_, ?_, fun x k hk => h.ended x k (hsub x k hk), h.life⟩
  · intro v hv
    obtain ⟨e, h1, h2⟩ := h.has v hv
    exact ⟨e, by rw [put_eq, if_neg (fun hh => (h.ended s id hmem).2 v hv hh.2)]; exact h1, h2⟩
  · intro x k e hb
    rw [put_eq] at hb
    by_cases hh : x = s ∧ k = id
    · rw [if_pos hh] at hb; cases hb
    · rw [if_neg hh] at hb
      rcases h.only x k e hb with hv | hk
      · exact Or.inl hv
      · right
        by_cases hx : x = s
        · rw [if_pos hx]
          rw [hx, hc] at hk
          rcases List.mem_cons.mp hk with rfl | hk
          · exact absurd ⟨hx, rfl⟩ hh
          · exact hk
        · rw [if_neg hx]; exact hk

theorem book_snoc (s : Nat) (log : List (Nat × Req × Reply)) (x : Nat × Req × Reply) :
    book s (log ++ [x]) = if x.1 = s then (book s log).note x.2.1 x.2.2 else book s log := by
  unfold book
  rw [List.foldl_append]
  rfl

/-- The books after a call of session `s` that writes this. -/
def turn (b : Nat → Book) (s : Nat) (f : Book → Book) : Nat → Book := fun x => if x = s then f (b s) else b x

theorem turn_write (b : Nat → Book) (s id : Nat) (e : Option Entry) : turn b s (fun k => k.write id e) = put b s id e := rfl

theorem turn_turn (b : Nat → Book) (s : Nat) (f g : Book → Book) : turn (turn b s f) s g = turn b s (fun k => g (f k)) := by
  funext x
  unfold turn
  by_cases h : x = s <;> simp [h]

theorem turn_id (b : Nat → Book) (s : Nat) : turn b s (fun k => k) = b := by
  funext x
  unfold turn
  by_cases h : x = s <;> simp [h]

theorem good_setModes {c : Nat} {ch : Nat → List Nat} (s : Nat) (enabled : Bool) (ids : List Nat) : ∀ {t : List Sub} {b : Nat → Book},
    Good c ch t b → Good c ch (setModes s enabled t ids).1
      (turn b s (fun k => k.moded enabled (ids.zip (setModes s enabled t ids).2))) := by
  induction ids with
  | nil => intro t b h; simpa [setModes, Book.moded, turn_id] using h
  | cons id ids ih =>
    intro t b h
    unfold setModes
    cases ho : own t s id with
    | none => simpa [Book.moded] using ih h
    | some u =>
      obtain ⟨hu, rfl, rfl⟩ := own_some ho
      obtain ⟨e, he, ha⟩ := h.has u hu
      have h1 := good_update h hu (Sub.setMode enabled) rfl rfl (Nat.lt_of_le_of_lt (Nat.zero_le _) (h.life u hu))
        { e with enabled := enabled } ⟨ha.1, ha.2.1, ha.2.2.1, ha.2.2.2.1, rfl, ha.2.2.2.2.2⟩
      have h2 := ih h1
      rw [← turn_write, turn_turn] at h2
      have : turn b u.owner (fun k => Book.moded enabled ((u.id :: ids).zip
            (Status.good :: (setModes u.owner enabled (update t u.id (Sub.setMode enabled)) ids).2)) k) =
          turn b u.owner (fun k => Book.moded enabled (ids.zip (setModes u.owner enabled (update t u.id (Sub.setMode enabled)) ids).2)
            (k.write u.id (some { e with enabled := enabled }))) := by
        funext x
        unfold turn
        by_cases hx : x = u.owner
        · simp only [if_pos hx, List.zip_cons_cons, Book.moded, if_true, he, Option.map_some]
        · simp only [if_neg hx]
      simp only
      rw [this]
      exact h2

theorem good_deletes {c : Nat} {ch : Nat → List Nat} (s : Nat) (ids : List Nat) : ∀ {t : List Sub} {b : Nat → Book},
    Good c ch t b → Good c ch (deletes s t ids).1 (turn b s (fun k => k.deleted (ids.zip (deletes s t ids).2))) := by
  induction ids with
  | nil => intro t b h; simpa [deletes, Book.deleted, turn_id] using h
  | cons id ids ih =>
    intro t b h
    unfold deletes
    cases ho : own t s id with
    | none => simpa [Book.deleted] using ih h
    | some u =>
      obtain ⟨hu, rfl, rfl⟩ := own_some ho
      have h2 := ih (good_erase h hu)
      rw [← turn_write, turn_turn] at h2
      simpa [Book.deleted] using h2

theorem put_same {b : Nat → Book} {s id : Nat} {e : Entry} (h : b s id = some e) : put b s id (some e) = b := by
  funext x k
  rw [put_eq]
  by_cases hh : x = s ∧ k = id
  · rw [if_pos hh, hh.1, hh.2, h]
  · rw [if_neg hh]

/-- Good, of a state. -/
def GoodSt (st : State) : Prop :=
  Good st.server.counter st.server.changes st.server.subs (fun s => book s st.log)

/-- The books after a call. -/
theorem books_call (st : State) (s : Nat) (r : Req) :
    (fun x => book x (next st (.call s r)).log) =
      turn (fun x => book x st.log) s (fun k => k.note r (call st.server s r).2) := by
  funext x
  have : (next st (.call s r)).log = st.log ++ [(s, r, (call st.server s r).2)] := rfl
  rw [this, book_snoc]
  unfold turn
  by_cases hx : x = s
  · subst hx; simp
  · rw [if_neg (fun h => hx h.symm), if_neg hx]

theorem note_fault (b : Book) (r : Req) (st : Status) : b.note r (.fault st) = b := by
  cases r <;> first | rfl | skip
  case close d => cases d <;> rfl

theorem good_call (st : State) (h : GoodSt st) (s : Nat) (r : Req) (hc : ∀ p en, r = .create p en → st.server.counter + 1 < 2 ^ 32) :
    GoodSt (next st (.call s r)) := by
  unfold GoodSt
  rw [books_call]
  have hsv : (next st (.call s r)).server = (call st.server s r).1 := rfl
  rw [hsv]
  unfold call
  by_cases hg : s ∈ st.server.gone
  · rw [if_pos hg]
    simp only [note_fault, turn_id]
    exact h
  rw [if_neg hg]
  cases r with
  | create p enabled =>
    simp only
    have hid : (st.server.counter + 1) % 2 ^ 32 = st.server.counter + 1 := Nat.mod_eq_of_lt (hc p enabled rfl)
    unfold create
    simp only [hid]
    by_cases hm : st.server.max > 0 ∧ st.server.subs.length ≥ st.server.max
    · rw [if_pos hm]
      simp only [note_fault, turn_id]
      exact good_skip h
    · rw [if_neg hm]
      refine good_create h (newSub (st.server.counter + 1) s p enabled) rfl (set_lifetime _ _) _ ⟨rfl, rfl, rfl, rfl, rfl, ?_⟩
      simp only [newSub, Sub.set, Revise.maxNotifications]
      by_cases h0 : p.maxNotifications = 0
      · exact Or.inl h0
      · right; rw [if_pos (by omega)]
  | modify id p =>
    simp only
    unfold modify
    cases ho : own st.server.subs s id with
    | none => simp only [note_fault, turn_id]; exact h
    | some u =>
      obtain ⟨hu, rfl, rfl⟩ := own_some ho
      obtain ⟨e, he, ha⟩ := h.has u hu
      simp only
      have h1 := good_update h hu (fun u => u.modify p) rfl rfl (set_lifetime u p)
        ⟨(u.modify p).interval, (u.modify p).lifetime, (u.modify p).keepAlive, p.maxNotifications, p.priority, e.enabled⟩
        ⟨rfl, rfl, rfl, rfl, ha.2.2.2.2.1, by
          simp only [Sub.modify, Sub.set, Revise.maxNotifications]
          by_cases h0 : p.maxNotifications = 0
          · exact Or.inl h0
          · right; rw [if_pos (by omega)]⟩
      rw [← turn_write] at h1
      have : turn (fun x => book x st.log) u.owner (fun k => k.note (.modify u.id p)
            (.modified (u.modify p).interval (u.modify p).lifetime (u.modify p).keepAlive)) =
          turn (fun x => book x st.log) u.owner (fun k => k.write u.id
            (some ⟨(u.modify p).interval, (u.modify p).lifetime, (u.modify p).keepAlive, p.maxNotifications, p.priority, e.enabled⟩)) := by
        funext x
        unfold turn
        by_cases hx : x = u.owner
        · simp only [if_pos hx, Book.note, he, Option.map_some]
        · simp only [if_neg hx]
      rw [this]
      exact h1
  | setMode enabled ids => exact good_setModes s enabled ids h
  | delete ids =>
    simp only
    unfold delete
    by_cases h0 : ids.length = 0
    · rw [if_pos h0]
      simp only [note_fault, turn_id]
      exact h
    · rw [if_neg h0]
      exact good_deletes s ids h
  | close d =>
    cases d
    · have : turn (fun x => book x st.log) s (fun k => k.note (.close false) .closed) = fun x => book x st.log := turn_id _ _
      simp only [close]
      rw [this]
      exact h
    · exact good_close h s
  | publish =>
    simp only
    unfold publish
    cases hcs : st.server.changes s with
    | nil =>
      simp only
      have : ∀ a : Reply, (a = .waits ∨ ∃ x, a = .fault x) →
          turn (fun x => book x st.log) s (fun k => k.note .publish a) = fun x => book x st.log := by
        rintro a (rfl | ⟨x, rfl⟩) <;> exact turn_id _ _
      rw [this]
      · exact h
      · by_cases hl : st.server.subs.length = 0
        · rw [if_pos hl]; exact Or.inr ⟨_, rfl⟩
        · rw [if_neg hl]; exact Or.inl rfl
    | cons id l => exact good_told h s id l hcs

theorem good_other (st : State) (h : GoodSt st) (e : Ev) (he : ∀ s r, e ≠ .call s r) : GoodSt (next st e) := by
  cases e with
  | call s r => exact absurd rfl (he s r)
  | served id =>
    have hl : (next st (.served id)).log = st.log := rfl
    unfold GoodSt
    rw [hl]
    simp only [next, step]
    by_cases hx : ∃ u ∈ st.server.subs, u.id = id
    · obtain ⟨u, hu, rfl⟩ := hx
      obtain ⟨e, he, ha⟩ := h.has u hu
      have h1 := good_update h hu (fun u => { u with life := 0 }) rfl rfl (Nat.lt_of_le_of_lt (Nat.zero_le _) (h.life u hu)) e ha
      rw [put_same he] at h1
      exact h1
    · have : update st.server.subs id (fun u => { u with life := 0 }) = st.server.subs := by
        unfold update
        rw [List.map_congr_left (g := fun u => u) (fun u hu => if_neg (fun hh => hx ⟨u, hu, hh⟩))]
        exact List.map_id _
      rw [this]
      exact h
  | missed id data =>
    have hl : (next st (.missed id data)).log = st.log := rfl
    unfold GoodSt
    rw [hl]
    simp only [next, step]
    cases hg : get st.server.subs id with
    | none => exact h
    | some u =>
      obtain ⟨hu, rfl⟩ := get_some hg
      simp only
      unfold missed
      by_cases hx : (data = true ∧ u.life + 1 ≥ u.lifetime) ∨ (data = false ∧ u.life + 1 = u.lifetime)
      · rw [if_pos hx]
        exact good_expire h hu
      · rw [if_neg hx]
        obtain ⟨e, he, ha⟩ := h.has u hu
        have hlt := h.life u hu
        have h1 := good_update h hu (fun u => { u with life := u.life + 1 }) rfl rfl
          (by
            simp only
            cases data
            · have : u.life + 1 ≠ u.lifetime := fun hh => hx (Or.inr ⟨rfl, hh⟩)
              omega
            · have : ¬ (u.life + 1 ≥ u.lifetime) := fun hh => hx (Or.inl ⟨rfl, hh⟩)
              omega) e ha
        rw [put_same he] at h1
        exact h1
  | sweep =>
    have hl : (next st .sweep).log = st.log := rfl
    unfold GoodSt
    rw [hl]
    simp only [next, step]
    have : st.server.subs.filter (fun u => decide (u.life < u.lifetime)) = st.server.subs := by
      rw [List.filter_eq_self]
      intro u hu
      simpa using h.life u hu
    rw [this]
    exact h
  | timeout s => exact h

theorem counter_le (sv : Server) (e : Ev) : (step sv e).1.counter ≤ sv.counter + asked [e] := by
  cases e with
  | call s r =>
    simp only [step]
    unfold call
    by_cases hg : s ∈ sv.gone
    · rw [if_pos hg]; simp
    · rw [if_neg hg]
      cases r with
      | create p en =>
        simp only [create]
        have := Nat.mod_le (sv.counter + 1) (2 ^ 32)
        have ha : asked [Ev.call s (.create p en)] = 1 := rfl
        rw [ha]
        split <;> simpa using this
      | modify id p => simp only [modify]; split <;> simp
      | setMode en ids => simp
      | delete ids => simp only [delete]; split <;> simp
      | close d => simp [close]
      | publish => simp only [publish]; split <;> simp
  | served id => simp [step]
  | missed id data =>
    simp only [step]
    split
    · simp
    · simp only [missed]; split <;> simp
  | sweep => simp [step]
  | timeout s => simp [step]

theorem asked_append (a b : List Ev) : asked (a ++ b) = asked a + asked b := by
  simp [asked, List.filter_append]

theorem run_snoc (max : Nat) (evs : List Ev) (e : Ev) : run max (evs ++ [e]) = next (run max evs) e := by
  simp [run, List.foldl_append]

theorem run_counter (max : Nat) (evs : List Ev) : (run max evs).server.counter ≤ asked evs := by
  induction evs using snocInd with
  | nil => simp [run, init]
  | append_singleton evs e ih =>
    rw [run_snoc, asked_append]
    have := counter_le (run max evs).server e
    have h2 : (next (run max evs) e).server = (step (run max evs).server e).1 := rfl
    rw [h2]
    omega

theorem run_good (max : Nat) (evs : List Ev) (hn : asked evs < 2 ^ 32) : GoodSt (run max evs) := by
  induction evs using snocInd with
  | nil =>
    exact ⟨by simp [run, init], by simp [run, init], by simp [run, init], (by intro s id e h; cases h), by simp [run, init], by simp [run, init]⟩
  | append_singleton evs e ih =>
    rw [run_snoc]
    rw [asked_append] at hn
    have hg := ih (by omega)
    have hc := run_counter max evs
    by_cases he : ∃ s r, e = .call s r
    · obtain ⟨s, r, rfl⟩ := he
      refine good_call _ hg s r (fun p en hr => ?_)
      subst hr
      have : asked [Ev.call s (.create p en)] = 1 := rfl
      omega
    · exact good_other _ hg e (fun s r h => he ⟨s, r, h⟩)

/-! ## The book is right -/

/-- **C146 (nothing is missing, with less than 2^32 subscriptions asked for).** Every subscription that the server has
stands in the book of its client, as it is. -/
theorem C146_has_partial (max : Nat) (evs : List Ev) (hn : asked evs < 2 ^ 32) (u : Sub) (hu : u ∈ (run max evs).server.subs) :
    ∃ e, book u.owner (run max evs).log u.id = some e ∧ Agrees e u :=
  (run_good max evs hn).has u hu

/-- **C146 (nothing stands there in vain, with less than 2^32 subscriptions asked for).** What stands in the book of a
client the server has, as it stands there; or the news of its end is waiting for the next Publish requests. -/
theorem C146_only_partial (max : Nat) (evs : List Ev) (hn : asked evs < 2 ^ 32) (s id : Nat) (e : Entry)
    (h : book s (run max evs).log id = some e) :
    (∃ u ∈ (run max evs).server.subs, u.id = id ∧ u.owner = s ∧ Agrees e u) ∨ id ∈ (run max evs).server.changes s := by
  rcases (run_good max evs hn).only s id e h with ⟨u, hu, rfl, rfl⟩ | hc
  · obtain ⟨e', h1, h2⟩ := (run_good max evs hn).has u hu
    have : some e = some e' := h.symm.trans h1
    cases this
    exact Or.inl ⟨u, hu, rfl, rfl, h2⟩
  · exact Or.inr hc

theorem publish_step (st : State) (s : Nat) (hs : s ∉ st.server.gone) :
    (next st (.call s .publish)).server.changes s = (st.server.changes s).tail ∧
    (next st (.call s .publish)).server.subs = st.server.subs ∧
    (next st (.call s .publish)).server.gone = st.server.gone := by
  have hsv : (next st (.call s .publish)).server = (call st.server s .publish).1 := rfl
  rw [hsv]
  unfold call
  rw [if_neg hs]
  simp only
  unfold publish
  cases hc : st.server.changes s <;> simp [hc]

theorem publish_run (s n : Nat) : ∀ st : State, s ∉ st.server.gone → (st.server.changes s).length = n →
    ((List.replicate n (Ev.call s .publish)).foldl next st).server.changes s = [] ∧
    ((List.replicate n (Ev.call s .publish)).foldl next st).server.subs = st.server.subs := by
  induction n with
  | zero => intro st _ hl; exact ⟨List.length_eq_zero_iff.mp hl, rfl⟩
  | succ n ih =>
    intro st hs hl
    obtain ⟨h1, h2, h3⟩ := publish_step st s hs
    rw [List.replicate_succ, List.foldl_cons]
    have := ih (next st (.call s .publish)) (by rw [h3]; exact hs) (by rw [h1, List.length_tail, hl]; rfl)
    exact ⟨this.1, this.2.trans h2⟩

theorem asked_replicate (s n : Nat) : asked (List.replicate n (Ev.call s .publish)) = 0 := by
  simp [asked]

/-- **C146 (the news arrives, with less than 2^32 subscriptions asked for).** As many Publish requests as there are news
waiting bring the book of a living session up to date: then it has exactly the subscriptions that the server has for it. -/
theorem C146_news_partial (max : Nat) (evs : List Ev) (hn : asked evs < 2 ^ 32) (s : Nat)
    (hs : s ∉ (run max evs).server.gone) :
    ∃ n, ∀ st, st = run max (evs ++ List.replicate n (.call s .publish)) → st.server.subs = (run max evs).server.subs ∧
      (∀ id e, book s st.log id = some e → ∃ u ∈ st.server.subs, u.id = id ∧ u.owner = s ∧ Agrees e u) ∧
      (∀ u ∈ st.server.subs, u.owner = s → ∃ e, book s st.log u.id = some e ∧ Agrees e u) := by
  refine ⟨((run max evs).server.changes s).length, fun st hst => ?_⟩
  have hrun : run max (evs ++ List.replicate ((run max evs).server.changes s).length (.call s .publish)) =
      (List.replicate ((run max evs).server.changes s).length (Ev.call s .publish)).foldl next (run max evs) := by
    simp [run, List.foldl_append]
  obtain ⟨h1, h2⟩ := publish_run s _ (run max evs) hs rfl
  have hn' : asked (evs ++ List.replicate ((run max evs).server.changes s).length (.call s .publish)) < 2 ^ 32 := by
    rw [asked_append, asked_replicate]; exact hn
  subst hst
  refine ⟨by rw [hrun]; exact h2, fun id e hb => ?_, fun u hu ho => ?_⟩
  · rcases C146_only_partial max _ hn' s id e hb with h | h
    · exact h
    · rw [hrun, h1] at h; cases h
  · have := C146_has_partial max _ hn' u hu
    rw [ho] at this
    exact this

/-- **C146 (no subscription ends in silence, with less than 2^32 subscriptions asked for).** The check for expired
subscriptions, which tells nobody, never finds one: the publishing timer has ended it before and has left word. -/
theorem C146_sweep_partial (max : Nat) (evs : List Ev) (hn : asked evs < 2 ^ 32) :
    (run max (evs ++ [.sweep])).server = (run max evs).server := by
  rw [run_snoc]
  have : (run max evs).server.subs.filter (fun u => decide (u.life < u.lifetime)) = (run max evs).server.subs := by
    rw [List.filter_eq_self]
    intro u hu
    simpa using (run_good max evs hn).life u hu
  simp only [next, step, this]

/-- **C146 (refusals).** A call that is answered with a fault leaves all subscriptions as they were, and the book too. -/
theorem C146_refused (st : State) (s : Nat) (r : Req) (x : Status) (h : (call st.server s r).2 = .fault x) :
    (next st (.call s r)).server.subs = st.server.subs ∧ (next st (.call s r)).server.changes = st.server.changes ∧
    (next st (.call s r)).server.gone = st.server.gone ∧ ∀ c, book c (next st (.call s r)).log = book c st.log := by
  have hsv : (next st (.call s r)).server = (call st.server s r).1 := rfl
  have hb : ∀ c, book c (next st (.call s r)).log = book c st.log := by
    intro c
    have := congrFun (books_call st s r) c
    rw [h] at this
    refine this.trans ?_
    unfold turn
    by_cases hc : c = s
    · rw [if_pos hc, hc]; exact note_fault _ _ _
    · rw [if_neg hc]
  refine ⟨?_, ?_, ?_, hb⟩ <;> rw [hsv] <;> unfold call at h ⊢ <;> by_cases hg : s ∈ st.server.gone
  all_goals first | rw [if_pos hg] | (rw [if_neg hg] at h ⊢)
  all_goals
    cases r with
    | create p en => simp only [create] at h ⊢; split at h <;> simp_all
    | modify id p => simp only [modify] at h ⊢; split at h <;> simp_all
    | setMode en ids => cases h
    | delete ids => simp only [delete] at h ⊢; split at h <;> simp_all
    | close d => cases h
    | publish => simp only [publish] at h ⊢; split at h <;> simp_all

theorem own_isSome {t : List Sub} (hu : ∀ u ∈ t, ∀ v ∈ t, u.id = v.id → u = v) (s id : Nat) :
    (own t s id).isSome = true ↔ ∃ u ∈ t, u.id = id ∧ u.owner = s := by
  constructor
  · intro h
    cases ho : own t s id with
    | none => simp [ho] at h
    | some u => exact ⟨u, own_some ho⟩
  · rintro ⟨u, hmem, rfl, rfl⟩
    unfold own
    cases hg : get t u.id with
    | none => exact absurd rfl (get_none hg u hmem)
    | some v =>
      have := hu v (get_some hg).1 u hmem (get_some hg).2
      subst this
      simp

theorem setModes_spec (s : Nat) (en : Bool) (ids : List Nat) : ∀ t : List Sub, (∀ u ∈ t, ∀ v ∈ t, u.id = v.id → u = v) →
    (∀ id x, (id, x) ∈ ids.zip (setModes s en t ids).2 → (x = .good ↔ ∃ u ∈ t, u.id = id ∧ u.owner = s)) ∧
    (setModes s en t ids).2.length = ids.length ∧
    (setModes s en t ids).1 = t.map (fun u => if u.owner = s ∧ u.id ∈ ids then u.setMode en else u) := by
  induction ids with
  | nil => intro t _; simp [setModes]
  | cons id ids ih =>
    intro t ht
    unfold setModes
    cases ho : own t s id with
    | none =>
      obtain ⟨h1, h2, h3⟩ := ih t ht
      have hno : ¬ ∃ u ∈ t, u.id = id ∧ u.owner = s := by
        rw [← own_isSome ht, ho]; simp
      refine ⟨?_, by simp [h2], ?_⟩
      · intro k x hk
        simp only [List.zip_cons_cons, List.mem_cons, Prod.mk.injEq] at hk
        rcases hk with ⟨rfl, rfl⟩ | hk
        · simp only [reduceCtorEq, false_iff]; exact hno
        · exact h1 k x hk
      · simp only
        rw [h3]
        apply List.map_congr_left
        intro u hu
        have : ¬ (u.owner = s ∧ u.id = id) := fun hh => hno ⟨u, hu, hh.2, hh.1⟩
        by_cases hm : u.owner = s ∧ u.id ∈ ids
        · rw [if_pos hm, if_pos ⟨hm.1, List.mem_cons_of_mem _ hm.2⟩]
        · rw [if_neg hm, if_neg]
          rintro ⟨ha, hb⟩
          rcases List.mem_cons.mp hb with hb | hb
          · exact this ⟨ha, hb⟩
          · exact hm ⟨ha, hb⟩
    | some w =>
      obtain ⟨hw, rfl, rfl⟩ := own_some ho
      have hkeep : ∀ v : Sub, (if v.id = w.id then v.setMode en else v).id = v.id ∧ (if v.id = w.id then v.setMode en else v).owner = v.owner := by
        intro v; by_cases hv : v.id = w.id <;> simp [hv, Sub.setMode]
      have ht' : ∀ u ∈ update t w.id (Sub.setMode en), ∀ v ∈ update t w.id (Sub.setMode en), u.id = v.id → u = v := by
        intro u hu v hv huv
        obtain ⟨a, ha, rfl⟩ := mem_update.mp hu
        obtain ⟨b, hb, rfl⟩ := mem_update.mp hv
        rw [(hkeep a).1, (hkeep b).1] at huv
        rw [ht a ha b hb huv]
      have hex : ∀ k, (∃ u ∈ update t w.id (Sub.setMode en), u.id = k ∧ u.owner = w.owner) ↔ ∃ u ∈ t, u.id = k ∧ u.owner = w.owner := by
        intro k
        constructor
        · rintro ⟨u, hu, h1, h2⟩
          obtain ⟨a, ha, rfl⟩ := mem_update.mp hu
          rw [(hkeep a).1] at h1
          rw [(hkeep a).2] at h2
          exact ⟨a, ha, h1, h2⟩
        · rintro ⟨a, ha, h1, h2⟩
          exact ⟨_, mem_update.mpr ⟨a, ha, rfl⟩, by rw [(hkeep a).1]; exact h1, by rw [(hkeep a).2]; exact h2⟩
      obtain ⟨h1, h2, h3⟩ := ih _ ht'
      refine ⟨?_, by simp [h2], ?_⟩
      · intro k x hk
        simp only [List.zip_cons_cons, List.mem_cons, Prod.mk.injEq] at hk
        rcases hk with ⟨rfl, rfl⟩ | hk
        · simp only [true_iff]; exact ⟨w, hw, rfl, rfl⟩
        · rw [h1 k x hk, hex]
      · simp only
        rw [h3]
        unfold update
        rw [List.map_map]
        apply List.map_congr_left
        intro u hu
        simp only [Function.comp]
        by_cases hui : u.id = w.id
        · have := ht u hu w hw hui
          subst this
          by_cases hm : u.id ∈ ids <;> simp [Sub.setMode, hm]
        · simp [hui]

theorem deletes_spec (s : Nat) (ids : List Nat) : ∀ t : List Sub, (∀ u ∈ t, ∀ v ∈ t, u.id = v.id → u = v) →
    (∀ i id, ids[i]? = some id →
      ((deletes s t ids).2[i]? = some .good ↔ (∃ u ∈ t, u.id = id ∧ u.owner = s) ∧ id ∉ ids.take i)) ∧
    (deletes s t ids).2.length = ids.length ∧
    (deletes s t ids).1 = t.filter (fun u => decide (¬ (u.owner = s ∧ u.id ∈ ids))) := by
  induction ids with
  | nil =>
    intro t _
    refine ⟨by simp, rfl, ?_⟩
    simp only [deletes]
    symm
    rw [List.filter_eq_self]
    simp
  | cons id ids ih =>
    intro t ht
    unfold deletes
    cases ho : own t s id with
    | none =>
      obtain ⟨h1, h2, h3⟩ := ih t ht
      have hno : ¬ ∃ u ∈ t, u.id = id ∧ u.owner = s := by
        rw [← own_isSome ht, ho]; simp
      refine ⟨?_, by simp [h2], ?_⟩
      · intro i k hk
        cases i with
        | zero =>
          simp only [List.getElem?_cons_zero, Option.some.injEq] at hk ⊢
          subst hk
          simp only [reduceCtorEq, false_iff]
          exact fun hh => hno hh.1
        | succ i =>
          simp only [List.getElem?_cons_succ] at hk ⊢
          rw [h1 i k hk, List.take_succ_cons, List.mem_cons]
          constructor
          · rintro ⟨ha, hb⟩
            refine ⟨ha, ?_⟩
            rintro (rfl | hc)
            · exact hno ha
            · exact hb hc
          · rintro ⟨ha, hb⟩
            exact ⟨ha, fun hc => hb (Or.inr hc)⟩
      · simp only
        rw [h3]
        apply List.filter_congr
        intro u hu
        have : ¬ (u.owner = s ∧ u.id = id) := fun hh => hno ⟨u, hu, hh.2, hh.1⟩
        simp only [List.mem_cons, decide_eq_decide]
        constructor
        · rintro h ⟨ha, hb | hb⟩
          · exact this ⟨ha, hb⟩
          · exact h ⟨ha, hb⟩
        · rintro h ⟨ha, hb⟩
          exact h ⟨ha, Or.inr hb⟩
    | some w =>
      obtain ⟨hw, rfl, rfl⟩ := own_some ho
      have ht' : ∀ u ∈ erase t w.id, ∀ v ∈ erase t w.id, u.id = v.id → u = v :=
        fun u hu v hv => ht u (mem_erase.mp hu).1 v (mem_erase.mp hv).1
      obtain ⟨h1, h2, h3⟩ := ih _ ht'
      refine ⟨?_, by simp [h2], ?_⟩
      · intro i k hk
        cases i with
        | zero =>
          simp only [List.getElem?_cons_zero, Option.some.injEq] at hk ⊢
          subst hk
          simp only [true_iff, List.take_zero, List.not_mem_nil, not_false_eq_true, and_true]
          exact ⟨w, hw, rfl, rfl⟩
        | succ i =>
          simp only [List.getElem?_cons_succ] at hk ⊢
          rw [h1 i k hk, List.take_succ_cons, List.mem_cons]
          constructor
          · rintro ⟨⟨u, hu, ha, hb⟩, hc⟩
            refine ⟨⟨u, (mem_erase.mp hu).1, ha, hb⟩, ?_⟩
            rintro (hd | hd)
            · exact (mem_erase.mp hu).2 (ha.trans hd)
            · exact hc hd
          · rintro ⟨⟨u, hu, ha, hb⟩, hc⟩
            exact ⟨⟨u, mem_erase.mpr ⟨hu, fun hh => hc (Or.inl (ha.symm.trans hh))⟩, ha, hb⟩, fun hd => hc (Or.inr hd)⟩
      · simp only
        rw [h3]
        unfold erase
        rw [List.filter_filter]
        apply List.filter_congr
        intro u hu
        rw [← Bool.decide_and, decide_eq_decide]
        simp only [List.mem_cons]
        constructor
        · rintro ⟨h, hne⟩ ⟨ha, hb | hb⟩
          · exact hne hb
          · exact h ⟨ha, hb⟩
        · intro h
          refine ⟨fun hh => h ⟨hh.1, Or.inr hh.2⟩, fun hh => ?_⟩
          have := ht u hu w hw hh
          exact h ⟨by rw [this], Or.inl hh⟩

/-- **C146 (SetPublishingMode, with less than 2^32 subscriptions asked for).** There is a result for every id, in its place:
good for the subscriptions of the session. Exactly these are switched. -/
theorem C146_modes_partial (max : Nat) (evs : List Ev) (hn : asked evs < 2 ^ 32) (s : Nat) (en : Bool) (ids : List Nat)
    (hs : s ∉ (run max evs).server.gone) :
    ∃ l, (call (run max evs).server s (.setMode en ids)).2 = .results l ∧ l.length = ids.length ∧
      (∀ id x, (id, x) ∈ ids.zip l → (x = .good ↔ ∃ u ∈ (run max evs).server.subs, u.id = id ∧ u.owner = s)) ∧
      (call (run max evs).server s (.setMode en ids)).1.subs =
        (run max evs).server.subs.map (fun u => if u.owner = s ∧ u.id ∈ ids then { u with enabled := en, life := 0 } else u) := by
  obtain ⟨h1, h2, h3⟩ := setModes_spec s en ids _ (run_good max evs hn).uniq
  unfold call
  rw [if_neg hs]
  exact ⟨_, rfl, h2, h1, h3⟩

/-- **C146 (DeleteSubscriptions, with less than 2^32 subscriptions asked for).** There is a result for every id, in its
place: good for the first mention of a subscription of the session. Exactly these are deleted. -/
theorem C146_deleted_partial (max : Nat) (evs : List Ev) (hn : asked evs < 2 ^ 32) (s : Nat) (ids : List Nat)
    (hs : s ∉ (run max evs).server.gone) (h0 : ids ≠ []) :
    ∃ l, (call (run max evs).server s (.delete ids)).2 = .results l ∧ l.length = ids.length ∧
      (∀ i id, ids[i]? = some id →
        (l[i]? = some .good ↔ (∃ u ∈ (run max evs).server.subs, u.id = id ∧ u.owner = s) ∧ id ∉ ids.take i)) ∧
      (call (run max evs).server s (.delete ids)).1.subs =
        (run max evs).server.subs.filter (fun u => decide (¬ (u.owner = s ∧ u.id ∈ ids))) := by
  obtain ⟨h1, h2, h3⟩ := deletes_spec s ids _ (run_good max evs hn).uniq
  have hl : ids.length ≠ 0 := fun h => h0 (List.length_eq_zero_iff.mp h)
  unfold call
  rw [if_neg hs]
  simp only [delete, if_neg hl]
  exact ⟨_, rfl, h2, h1, h3⟩

/-! ## Cases -/

namespace Ex

def p : Params := ⟨.fin 60000, 3, 1, 10, 7⟩
def q : Params := ⟨.fin 1, 0, 0, 0, 9⟩

/-- Two sessions, three subscriptions, one switched off, one modified, one deleted. -/
def evs : List Ev := [.call 1 (.create p true), .call 2 (.create q false), .call 1 (.create q true), .call 1 (.setMode false [1, 2]),
  .call 1 (.modify 3 p), .missed 3 false, .call 2 (.delete [2, 2, 1])]

/-- The first subscription ends for want of Publish requests. -/
def late : List Ev := evs ++ [.missed 1 false, .missed 1 true, .sweep, .missed 1 false]

end Ex

example : asked Ex.late < 2 ^ 32 := by decide +kernel
example : (run 5 Ex.evs).server.subs = [⟨1, 1, .fin 60000, 3, 1, 10, 7, false, 0⟩, ⟨3, 1, .fin 60000, 3, 1, 10, 7, true, 1⟩] := by decide +kernel
example : (run 5 Ex.evs).log.map (fun x => x.2.2) = [.created 1 (.fin 60000) 3 1, .created 2 (.fin 125) 80 3, .created 3 (.fin 125) 80 3,
    .results [.good, .badSubscriptionIDInvalid], .modified (.fin 60000) 3 1, .results [.good, .badSubscriptionIDInvalid, .badSubscriptionIDInvalid]] := by
  decide +kernel
example : book 1 (run 5 Ex.evs).log 1 = some ⟨.fin 60000, 3, 1, 10, 7, false⟩ ∧ book 1 (run 5 Ex.evs).log 3 = some ⟨.fin 60000, 3, 1, 10, 7, true⟩ ∧
    book 2 (run 5 Ex.evs).log 2 = none := by decide +kernel
example : (run 5 Ex.late).server.changes 1 = [1] ∧ (run 5 Ex.late).server.subs.length = 1 ∧ book 1 (run 5 Ex.late).log 1 ≠ none ∧
    1 ∉ (run 5 Ex.late).server.gone ∧ book 1 (run 5 (Ex.late ++ [.call 1 .publish])).log 1 = none := by decide +kernel
example : (call (run 1 [.call 1 (.create Ex.p true)]).server 2 (.create Ex.p true)).2 = .fault .badTooManySubscriptions := by decide +kernel

/-! ## Where it fails -/

/-- No call of another session touches a subscription, unless the counter comes round to its id. -/
theorem call_keeps (sv : Server) (hun : ∀ u ∈ sv.subs, ∀ v ∈ sv.subs, u.id = v.id → u = v) (s : Nat) (r : Req) (u : Sub) (hu : u ∈ sv.subs)
    (ho : u.owner ≠ s) (hid : u.id ≠ (sv.counter + 1) % 2 ^ 32) : u ∈ (call sv s r).1.subs := by
  unfold call
  by_cases hg : s ∈ sv.gone
  · rw [if_pos hg]; exact hu
  rw [if_neg hg]
  cases r with
  | create p en =>
    simp only [create]
    split
    · exact hu
    · exact List.mem_append_left _ (mem_erase.mpr ⟨hu, hid⟩)
  | modify id p =>
    simp only [modify]
    cases hown : own sv.subs s id with
    | none => exact hu
    | some w =>
      obtain ⟨hw, rfl, rfl⟩ := own_some hown
      exact mem_update.mpr ⟨u, hu, by rw [if_neg (fun hh => ho (by rw [hun u hu w hw hh]))]⟩
  | setMode en ids =>
    simp only
    rw [(setModes_spec s en ids _ hun).2.2]
    exact List.mem_map.mpr ⟨u, hu, by rw [if_neg (fun hh => ho hh.1)]⟩
  | delete ids =>
    simp only [delete]
    split
    · exact hu
    · simp only
      rw [(deletes_spec s ids _ hun).2.2]
      exact List.mem_filter.mpr ⟨hu, by simp [ho]⟩
  | close d =>
    simp only [close]
    split
    · exact List.mem_filter.mpr ⟨hu, by simp [ho]⟩
    · exact hu
  | publish =>
    simp only [publish]
    split <;> exact hu

/-- A closed session calls in vain. -/
theorem gone_run (s n : Nat) : ∀ st : State, s ∈ st.server.gone →
    ((List.replicate n (Ev.call s .publish)).foldl next st).server = st.server ∧
    ∀ c, book c ((List.replicate n (Ev.call s .publish)).foldl next st).log = book c st.log := by
  induction n with
  | zero => intro st _; exact ⟨rfl, fun _ => rfl⟩
  | succ n ih =>
    intro st hs
    have hcall : call st.server s .publish = (st.server, .fault .badSessionIDInvalid) := by
      unfold call
      rw [if_pos hs]
    have hsv : (next st (.call s .publish)).server = st.server := by
      have : (next st (.call s .publish)).server = (call st.server s .publish).1 := rfl
      rw [this, hcall]
    have hb := (C146_refused st s .publish _ (by rw [hcall])).2.2.2
    obtain ⟨h1, h2⟩ := ih (next st (.call s .publish)) (by rw [hsv]; exact hs)
    rw [List.replicate_succ, List.foldl_cons]
    exact ⟨h1.trans hsv, fun c => (h2 c).trans (hb c)⟩

/-- **C146 (subscriptions that are left behind) fails.** A client closes its session and asks that its subscription be kept.
From then on no call of any session can change or delete it, there being no TransferSubscriptions; when it ends, the news is
put into the queue of the closed session, where nobody can fetch it. -/
theorem C146_left_fails :
    let left := [.call 1 (.create Ex.p true), .call 1 (.close false)]
    (∀ s r, ∃ u ∈ (call (run 5 left).server s r).1.subs, u = newSub 1 1 Ex.p true) ∧
    (∀ l, let st := run 5 (left ++ [.missed 1 false, .missed 1 false, .missed 1 false] ++ List.replicate l (.call 1 .publish))
      st.server.subs = [] ∧ book 1 st.log 1 ≠ none) := by
  refine ⟨fun s r => ?_, fun l => ?_⟩
  · refine ⟨newSub 1 1 Ex.p true, ?_, rfl⟩
    have hsub : (run 5 [.call 1 (.create Ex.p true), .call 1 (.close false)]).server.subs = [newSub 1 1 Ex.p true] := by decide +kernel
    have hgone : (run 5 [.call 1 (.create Ex.p true), .call 1 (.close false)]).server.gone = [1] := by decide +kernel
    have hcnt : (run 5 [.call 1 (.create Ex.p true), .call 1 (.close false)]).server.counter = 1 := by decide +kernel
    by_cases hs : s = 1
    · unfold call
      rw [if_pos (by rw [hgone, hs]; simp), hsub]
      simp
    · refine call_keeps _ ?_ s r _ (by rw [hsub]; simp) (fun h => hs h.symm) (by rw [hcnt]; decide)
      rw [hsub]
      intro u hu v hv _
      rw [List.mem_singleton.mp hu, List.mem_singleton.mp hv]
  · have hrun : ∀ evs : List Ev, run 5 (evs ++ List.replicate l (.call 1 .publish)) =
        (List.replicate l (Ev.call 1 .publish)).foldl next (run 5 evs) := by
      intro evs; simp [run, List.foldl_append]
    simp only
    rw [hrun]
    obtain ⟨h1, h2⟩ := gone_run 1 l
      (run 5 ([.call 1 (.create Ex.p true), .call 1 (.close false)] ++ [.missed 1 false, .missed 1 false, .missed 1 false])) (by decide +kernel)
    rw [h1, h2 1]
    decide +kernel

/-- The session asks in vain. -/
theorem full_run (s : Nat) (p : Params) (en : Bool) (n : Nat) : ∀ st : State, st.server.max > 0 → st.server.subs.length ≥ st.server.max →
    s ∉ st.server.gone → st.server.counter < 2 ^ 32 →
    ((List.replicate n (Ev.call s (.create p en))).foldl next st).server = { st.server with counter := (st.server.counter + n) % 2 ^ 32 } ∧
    ∀ c, book c ((List.replicate n (Ev.call s (.create p en))).foldl next st).log = book c st.log := by
  induction n with
  | zero => intro st _ _ _ hc; exact ⟨by simp only [List.replicate_zero, List.foldl_nil, Nat.add_zero, Nat.mod_eq_of_lt hc], fun _ => rfl⟩
  | succ n ih =>
    intro st h1 h2 h3 hc
    have hcall : call st.server s (.create p en) =
        ({ st.server with counter := (st.server.counter + 1) % 2 ^ 32 }, .fault .badTooManySubscriptions) := by
      unfold call
      rw [if_neg h3]
      simp only [create]
      rw [if_pos ⟨h1, h2⟩]
    have hsv : (next st (.call s (.create p en))).server = { st.server with counter := (st.server.counter + 1) % 2 ^ 32 } := by
      have : (next st (.call s (.create p en))).server = (call st.server s (.create p en)).1 := rfl
      rw [this, hcall]
    have hb := (C146_refused st s (.create p en) _ (by rw [hcall])).2.2.2
    obtain ⟨ha, hbb⟩ := ih (next st (.call s (.create p en))) (by rw [hsv]; exact h1) (by rw [hsv]; exact h2) (by rw [hsv]; exact h3)
      (by rw [hsv]; exact Nat.mod_lt _ (by decide))
    rw [List.replicate_succ, List.foldl_cons]
    refine ⟨?_, fun c => (hbb c).trans (hb c)⟩
    rw [ha, hsv]
    simp only
    congr 1
    rw [Nat.mod_add_mod, Nat.add_assoc, Nat.add_comm 1 n]

/-- **C146 (the counter comes round) fails.** Calls that are refused use up ids. After 2^32 of them the new subscription of
one client takes the place of that of another, who is told nothing. -/
theorem C146_wrap_fails : ∃ evs e, book 1 (run 2 evs).log 1 = some e ∧ (∀ u ∈ (run 2 evs).server.subs, u.owner ≠ 1) ∧
    (run 2 evs).server.changes 1 = [] := by
  obtain ⟨h1, h2⟩ := full_run 3 Ex.p true (2 ^ 32 - 2) (run 2 [.call 1 (.create Ex.p true), .call 2 (.create Ex.q true)])
    (by decide +kernel) (by decide +kernel) (by decide +kernel) (by decide +kernel)
  refine ⟨[.call 1 (.create Ex.p true), .call 2 (.create Ex.q true)] ++ List.replicate (2 ^ 32 - 2) (.call 3 (.create Ex.p true)) ++
    [.call 2 (.delete [2]), .call 2 (.create Ex.q true)], ⟨.fin 60000, 3, 1, 10, 7, true⟩, ?_⟩
  have hrun : run 2 ([.call 1 (.create Ex.p true), .call 2 (.create Ex.q true)] ++ List.replicate (2 ^ 32 - 2) (.call 3 (.create Ex.p true)) ++
      [.call 2 (.delete [2]), .call 2 (.create Ex.q true)]) =
      next (next ((List.replicate (2 ^ 32 - 2) (.call 3 (.create Ex.p true))).foldl next
        (run 2 [.call 1 (.create Ex.p true), .call 2 (.create Ex.q true)])) (.call 2 (.delete [2]))) (.call 2 (.create Ex.q true)) := by
    simp only [run, List.foldl_append, List.foldl_cons, List.foldl_nil]
  rw [hrun]
  generalize (List.replicate (2 ^ 32 - 2) (Ev.call 3 (.create Ex.p true))).foldl next
    (run 2 [.call 1 (.create Ex.p true), .call 2 (.create Ex.q true)]) = st at h1 h2
  have hb : ∀ (st : State) (r : Req), book 1 (next st (.call 2 r)).log = book 1 st.log := by
    intro st r
    have : (next st (.call 2 r)).log = st.log ++ [(2, r, (call st.server 2 r).2)] := rfl
    rw [this, book_snoc]
    rfl
  have hsv : ∀ (st : State) (r : Req), (next st (.call 2 r)).server = (call st.server 2 r).1 := fun _ _ => rfl
  rw [hb, hb, h2, hsv, hsv, h1]
  decide +kernel

end Opcua.SubBook
