import Verif.Model.SubCounters
import Verif.Model.Schema
import Verif.Model.Structs
import Verif.Props.MonitoredItem

/-!
# C119: What the server shows about a subscription is what happened to it
-/

namespace Opcua.SubCounters

open Opcua

variable {V : Type}

namespace Spec

/-- In how many steps of a history something happens. -/
def tally (P : Diag V → Ev V → Bool) : Diag V → List (Ev V) → Nat
  | _, [] => 0
  | d, e :: es => (P d e).toNat + tally P (step d e) es

/-- A subscription that exists is modified. -/
def modified (d : Diag V) : Ev V → Bool
  | .modify .. => d.sub.alive
  | _ => false

/-- A message of a subscription that exists is asked for again. -/
def republishAsked (d : Diag V) : Ev V → Bool
  | .republish .. => d.sub.alive
  | _ => false

/-- It was still there and was sent again. -/
def republished (d : Diag V) : Ev V → Bool
  | .republish n ok => d.sub.alive && ok && d.sub.queue.any (fun m => m.1 == n)
  | _ => false

/-- A publish request is answered when it comes. -/
def answeredLate (d : Diag V) (e : Ev V) : Bool :=
  match e with
  | .late .. => decide ((step d e).sub.sent.length > d.sub.sent.length)
  | _ => false

/-- Publishing is switched on. -/
def switchedOn (d : Diag V) : Ev V → Bool
  | .setMode true => d.sub.alive && !d.sub.enabled
  | _ => false

/-- A message that was not acknowledged is dropped. -/
def discarded (d : Diag V) (e : Ev V) : Bool :=
  match e with
  | .cycle .. => d.sub.queue.any (fun m => !(step d e).sub.queue.any (fun m' => m'.1 == m.1))
  | _ => false

/-- The length of the queue of an item. -/
def queued (d : Diag V) (id : Nat) : Nat :=
  ((MonitoredItem.find d.items.items id).map (fun i => i.queue.length)).getD 0

/-- The size of the queue of an item. -/
def sized (d : Diag V) (id : Nat) : Nat :=
  ((MonitoredItem.find d.items.items id).map (fun i => i.size)).getD 0

/-- A value is queued and another is lost, because the queue is full. -/
def lost (d : Diag V) (e : Ev V) : Bool :=
  match e with
  | .item (.sample id _) =>
    d.sub.alive &&
    match MonitoredItem.find d.items.items id with
    | some i => decide (i.mode ≠ .disabled) && decide (queued (step d e) id ≤ queued d id)
    | none => false
  | _ => false

/-- The same in a queue of more than one. -/
def lostMany (d : Diag V) (e : Ev V) : Bool :=
  match e with
  | .item (.sample id _) => lost d e && decide (sized d id > 1)
  | _ => false

/-- The settings that were agreed on last, at the creation or by a modification of a subscription that exists:
lifetime, keep-alive, interval, greatest number of notifications, priority. -/
def agreed : Nat × Nat × Nat × Nat × Nat → Diag V → List (Ev V) → Nat × Nat × Nat × Nat × Nat
  | x, _, [] => x
  | x, d, .modify l k i m p :: es =>
    agreed (if d.sub.alive then (l, k, i, m, p) else x) (step d (.modify l k i m p)) es
  | x, d, e :: es => agreed x (step d e) es

/-- Whether publishing was switched on last, at the creation or by the service. -/
def switched : Bool → Diag V → List (Ev V) → Bool
  | x, _, [] => x
  | x, d, .setMode b :: es => switched (if d.sub.alive then b else x) (step d (.setMode b)) es
  | x, d, e :: es => switched x (step d e) es

end Spec

open Spec

theorem run_snoc (d : Diag V) (evs : List (Ev V)) (e : Ev V) : run d (evs ++ [e]) = step (run d evs) e := by
  simp [run]

theorem tally_snoc (P : Diag V → Ev V → Bool) (d : Diag V) (evs : List (Ev V)) (e : Ev V) :
    tally P d (evs ++ [e]) = tally P d evs + (P (run d evs) e).toNat := by
  induction evs generalizing d with
  | nil => simp [tally, run]
  | cons x xs ih =>
    simp only [List.cons_append, tally, ih]
    simp only [run, List.foldl_cons]
    omega

/-- A counter that goes up by one exactly when something happens counts it. -/
theorem counts (f : Diag V → BitVec 32) (P : Diag V → Ev V → Bool) (d : Diag V) (evs : List (Ev V))
    (h0 : f d = 0)
    (h : ∀ pre e, f (step (run d pre) e) = if P (run d pre) e then f (run d pre) + 1 else f (run d pre)) :
    (f (run d evs)).toNat = tally P d evs % 2 ^ 32 := by
  have key : f (run d evs) = BitVec.ofNat 32 (tally P d evs) := by
    induction evs using snocInd with
    | nil => simpa [run, tally] using h0
    | append_singleton evs e ih =>
      rw [run_snoc, tally_snoc, h, ih]
      by_cases hp : P (run d evs) e = true
      · simp [hp, BitVec.ofNat_add]
      · simp [hp]
  rw [key, BitVec.toNat_ofNat]


/-! ## The steps, counter by counter -/

theorem sendData_parts (d : Diag V) (c : Nat × Nat) (more : Bool) (rs : List Subscription.AckStatus) (ok late : Bool) :
    (sendData d c more rs ok late).sub = Subscription.sendData d.sub c more rs ok late ∧
    (sendData d c more rs ok late).modify = d.modify ∧
    (sendData d c more rs ok late).republishRequests = d.republishRequests ∧
    (sendData d c more rs ok late).republishMessageRequests = d.republishMessageRequests ∧
    (sendData d c more rs ok late).republishMessages = d.republishMessages ∧
    (sendData d c more rs ok late).monitored = d.monitored ∧
    (sendData d c more rs ok late).overflow = d.overflow ∧
    (sendData d c more rs ok late).items = d.items ∧
    (sendData d c more rs ok late).data = d.data + BitVec.ofNat 32 c.1 ∧
    (sendData d c more rs ok late).event = d.event + BitVec.ofNat 32 c.2 ∧
    (sendData d c more rs ok late).notifications = d.notifications + BitVec.ofNat 32 c.1 + BitVec.ofNat 32 c.2 ∧
    (sendData d c more rs ok late).late = (if ok && late then d.late + 1 else d.late) := by
  cases ok <;> cases late <;> simp [sendData, count]

theorem sendKeepAlive_parts (d : Diag V) (rs : List Subscription.AckStatus) (ok late : Bool) :
    (sendKeepAlive d rs ok late).sub = Subscription.sendKeepAlive d.sub rs ok ∧
    (sendKeepAlive d rs ok late).modify = d.modify ∧
    (sendKeepAlive d rs ok late).republishRequests = d.republishRequests ∧
    (sendKeepAlive d rs ok late).republishMessageRequests = d.republishMessageRequests ∧
    (sendKeepAlive d rs ok late).republishMessages = d.republishMessages ∧
    (sendKeepAlive d rs ok late).monitored = d.monitored ∧
    (sendKeepAlive d rs ok late).overflow = d.overflow ∧
    (sendKeepAlive d rs ok late).items = d.items ∧
    (sendKeepAlive d rs ok late).data = d.data ∧
    (sendKeepAlive d rs ok late).event = d.event ∧
    (sendKeepAlive d rs ok late).notifications = d.notifications ∧
    (sendKeepAlive d rs ok late).late = (if ok && late then d.late + 1 else d.late) := by
  cases ok <;> cases late <;> simp [sendKeepAlive]

/-- The event of the publishing machine that a step is. -/
def pubEv : Ev V → Option (Subscription.Ev (Nat × Nat))
  | .cycle data req => some (.cycle data req)
  | .late data rs ok => some (.late data rs ok)
  | .ack n => some (.ack n)
  | .republish n ok => some (.republish n ok)
  | .setMode b => some (.setMode b)
  | .modify l k _ _ _ => some (.modify l k)
  | .item _ => none
  | .touch => some .touch

theorem itemStep_sub (d : Diag V) (e : MonitoredItem.Ev V) : (itemStep d e).sub = d.sub := by
  cases e <;> simp only [itemStep] <;> repeat' split
  all_goals rfl

/-- The publishing is that of Model/Subscription.lean. -/
theorem step_sub (d : Diag V) (e : Ev V) :
    (step d e).sub = match pubEv e with
      | some e' => Subscription.step d.sub e'
      | none => d.sub := by
  by_cases ha : d.sub.alive = false
  · cases e <;> simp [step, pubEv, Subscription.step, ha]
  · cases e with
    | cycle data req =>
      simp only [step, if_neg ha, pubEv, Subscription.step, cycle, Subscription.cycle]
      by_cases he : d.sub.enabled = true
      · cases data with
        | none => cases req <;> simp [he] <;> split <;> simp_all [(sendKeepAlive_parts _ _ _ _).1]
        | some x => cases req <;> simp [he, (sendData_parts _ _ _ _ _ _).1]
      · cases req <;> simp [he] <;> split <;> simp_all [(sendKeepAlive_parts _ _ _ _).1]
    | late data rs ok =>
      simp only [step, if_neg ha, pubEv, Subscription.step, handleLate, Subscription.late]
      by_cases hl : d.sub.isLate = false
      · simp [hl]
      · by_cases he : d.sub.enabled = true
        · cases data with
          | none => simp [he, hl, ha]; split <;> simp_all [(sendKeepAlive_parts _ _ _ _).1]
          | some x => simp [he, hl, ha, (sendData_parts _ _ _ _ _ _).1]
        · simp [he, hl, ha]; split <;> simp_all [(sendKeepAlive_parts _ _ _ _).1]
    | ack n => simp [step, ha, pubEv, Subscription.step]
    | republish n ok => simp [step, ha, pubEv, Subscription.step, republish]
    | setMode b => simp [step, ha, pubEv, Subscription.step]
    | modify l k i m p => simp [step, ha, pubEv, Subscription.step]
    | item e => simp [step, ha, pubEv, itemStep_sub]
    | touch => simp [step, ha, pubEv, Subscription.step]

/-- The counters that publishing leaves alone. -/
def quiet (d : Diag V) : (BitVec 32 × BitVec 32 × BitVec 32 × BitVec 32) × BitVec 32 × BitVec 32 × MonitoredItem.State V :=
  ((d.modify, d.republishRequests, d.republishMessageRequests, d.republishMessages), d.monitored, d.overflow, d.items)

theorem quiet_sendData (d : Diag V) (c : Nat × Nat) (more : Bool) (rs : List Subscription.AckStatus) (ok late : Bool) :
    quiet (sendData d c more rs ok late) = quiet d := by
  cases ok <;> rfl

theorem quiet_sendKeepAlive (d : Diag V) (rs : List Subscription.AckStatus) (ok late : Bool) :
    quiet (sendKeepAlive d rs ok late) = quiet d := by
  cases ok <;> rfl

theorem quiet_cycle (d : Diag V) (data : Option ((Nat × Nat) × Bool)) (req : Subscription.Req) :
    quiet (cycle d data req) = quiet d := by
  simp only [cycle]
  split
  · exact quiet_sendData _ _ _ _ _ _
  · rfl
  · split
    · exact (quiet_sendKeepAlive _ _ _ _).trans rfl
    · rfl
  · rfl

theorem quiet_late (d : Diag V) (data : Option ((Nat × Nat) × Bool)) (rs : List Subscription.AckStatus) (ok : Bool) :
    quiet (handleLate d data rs ok) = quiet d := by
  simp only [handleLate]
  split
  · rfl
  · split
    · exact quiet_sendData _ _ _ _ _ _
    · split
      · exact quiet_sendKeepAlive _ _ _ _
      · rfl

theorem itemStep_quiet (d : Diag V) (e : MonitoredItem.Ev V) : (quiet (itemStep d e)).1 = (quiet d).1 := by
  cases e <;> simp only [itemStep] <;> repeat' split
  all_goals rfl

theorem step_modify (d : Diag V) (e : Ev V) :
    (step d e).modify = if modified d e then d.modify + 1 else d.modify := by
  by_cases ha : d.sub.alive = false
  · cases e <;> simp [step, ha, modified]
  · cases e with
    | cycle data req => simpa [step, ha, modified, quiet] using congrArg (·.1.1) (quiet_cycle d data req)
    | late data rs ok => simpa [step, ha, modified, quiet] using congrArg (·.1.1) (quiet_late d data rs ok)
    | item e => simpa [step, ha, modified, quiet] using congrArg (·.1) (itemStep_quiet d e)
    | _ => simp [step, ha, modified, republish] <;> simp_all

theorem step_republish (d : Diag V) (e : Ev V) :
    (step d e).republishRequests = (if republishAsked d e then d.republishRequests + 1 else d.republishRequests) ∧
    (step d e).republishMessageRequests =
      (if republishAsked d e then d.republishMessageRequests + 1 else d.republishMessageRequests) ∧
    (step d e).republishMessages = (if republished d e then d.republishMessages + 1 else d.republishMessages) := by
  by_cases ha : d.sub.alive = false
  · cases e <;> simp [step, ha, republishAsked, republished]
  · have ha' : d.sub.alive = true := by simpa using ha
    cases e with
    | cycle data req =>
      have h := congrArg (·.1.2) (quiet_cycle d data req)
      simp only [quiet, Prod.mk.injEq] at h
      simp [step, ha, republishAsked, republished, h]
    | late data rs ok =>
      have h := congrArg (·.1.2) (quiet_late d data rs ok)
      simp only [quiet, Prod.mk.injEq] at h
      simp [step, ha, republishAsked, republished, h]
    | item e =>
      have h := congrArg (·.2) (itemStep_quiet d e)
      simp only [quiet, Prod.mk.injEq] at h
      simp [step, ha, republishAsked, republished, h]
    | republish n ok =>
      simp only [step, republishAsked, ha', if_true, republished, republish, Bool.true_and, Bool.true_eq_false, if_false]
      simp only [Subscription.republish]
      cases hf : d.sub.queue.find? (fun m => decide (m.1 = n)) with
      | none =>
        have : d.sub.queue.any (fun m => m.1 == n) = false := by
          rw [List.find?_eq_none] at hf
          rw [List.any_eq_false]
          intro x hx
          simpa using hf x hx
        simp [this]
      | some m =>
        have : d.sub.queue.any (fun m => m.1 == n) = true := by
          rw [List.any_eq_true]
          exact ⟨m, List.mem_of_find?_eq_some hf, by simpa using List.find?_some hf⟩
        cases ok <;> simp [this]
    | _ => simp [step, ha, republishAsked, republished]

theorem step_late (d : Diag V) (e : Ev V) :
    (step d e).late = if answeredLate d e then d.late + 1 else d.late := by
  by_cases ha : d.sub.alive = false
  · cases e <;> simp [step, ha, answeredLate]
  · cases e with
    | cycle data req =>
      simp only [step, if_neg ha, answeredLate, cycle, Bool.false_eq_true, if_false]
      split
      · simp [(sendData_parts _ _ _ _ _ _)]
      · rfl
      · split
        · simp [(sendKeepAlive_parts _ _ _ _)]
        · rfl
      · rfl
    | late data rs ok =>
      simp only [answeredLate]
      simp only [step, if_neg ha, handleLate]
      split
      · simp
      · split
        · cases ok <;> simp [sendData, count, Subscription.sendData]
        · split
          · cases ok <;> simp [sendKeepAlive, Subscription.sendKeepAlive]
          · simp
    | item e =>
      simp only [step, if_neg ha, answeredLate, Bool.false_eq_true, if_false]
      cases e <;> simp only [itemStep] <;> repeat' split
      all_goals rfl
    | _ => simp [step, ha, answeredLate, republish]

/-- The sum of a part of the messages made. -/
def total (f : Nat × Nat → Nat) (d : Diag V) : Nat := (d.sub.produced.map (fun m => f m.2)).sum

theorem cycle_produced (s : Subscription.Sub (Nat × Nat)) (data : Option ((Nat × Nat) × Bool)) (req : Subscription.Req)
    (h : ∀ rs ok, req = .some rs ok → False) : (Subscription.cycle s data req).produced = s.produced := by
  simp only [Subscription.cycle]
  split
  · rfl
  · cases req with
    | some rs ok => exact (h _ _ rfl).elim
    | none =>
      split
      · simp only; split <;> rfl
      · simp only; split
        · split <;> rfl
        · rfl
    | failed =>
      split
      · rfl
      · simp only; split <;> rfl

theorem step_notifications (d : Diag V) (e : Ev V)
    (h : d.data = BitVec.ofNat 32 (total (·.1) d) ∧ d.event = BitVec.ofNat 32 (total (·.2) d) ∧
      d.notifications = d.data + d.event) :
    (step d e).data = BitVec.ofNat 32 (total (·.1) (step d e)) ∧
    (step d e).event = BitVec.ofNat 32 (total (·.2) (step d e)) ∧
    (step d e).notifications = (step d e).data + (step d e).event := by
  have hsend : ∀ (d : Diag V) c more rs ok late, (d.data = BitVec.ofNat 32 (total (·.1) d) ∧
      d.event = BitVec.ofNat 32 (total (·.2) d) ∧ d.notifications = d.data + d.event) →
      (sendData d c more rs ok late).data = BitVec.ofNat 32 (total (·.1) (sendData d c more rs ok late)) ∧
      (sendData d c more rs ok late).event = BitVec.ofNat 32 (total (·.2) (sendData d c more rs ok late)) ∧
      (sendData d c more rs ok late).notifications =
        (sendData d c more rs ok late).data + (sendData d c more rs ok late).event := by
    intro d c more rs ok late ⟨h1, h2, h3⟩
    have hp : (sendData d c more rs ok late).sub.produced = d.sub.produced ++ [(d.sub.nextSeq, c)] := by
      rw [(sendData_parts d c more rs ok late).1]
      cases ok <;> simp [Subscription.sendData]
    obtain ⟨_, _, _, _, _, _, _, _, e1, e2, e3, _⟩ := sendData_parts d c more rs ok late
    refine ⟨?_, ?_, ?_⟩
    · rw [e1, h1, total, total, hp]; simp [BitVec.ofNat_add]
    · rw [e2, h2, total, total, hp]; simp [BitVec.ofNat_add]
    · rw [e1, e2, e3, h3]
      ac_rfl
  have hkeep : ∀ (d : Diag V) rs ok late, (d.data = BitVec.ofNat 32 (total (·.1) d) ∧
      d.event = BitVec.ofNat 32 (total (·.2) d) ∧ d.notifications = d.data + d.event) →
      (sendKeepAlive d rs ok late).data = BitVec.ofNat 32 (total (·.1) (sendKeepAlive d rs ok late)) ∧
      (sendKeepAlive d rs ok late).event = BitVec.ofNat 32 (total (·.2) (sendKeepAlive d rs ok late)) ∧
      (sendKeepAlive d rs ok late).notifications =
        (sendKeepAlive d rs ok late).data + (sendKeepAlive d rs ok late).event := by
    intro d rs ok late h
    cases ok <;> simpa [sendKeepAlive, Subscription.sendKeepAlive, total] using h
  by_cases ha : d.sub.alive = false
  · have : step d e = d := by simp [step, ha]
    rw [this]; exact h
  · have keep : ∀ d' : Diag V, d'.data = d.data → d'.event = d.event → d'.notifications = d.notifications →
        d'.sub.produced = d.sub.produced → d'.data = BitVec.ofNat 32 (total (·.1) d') ∧
        d'.event = BitVec.ofNat 32 (total (·.2) d') ∧ d'.notifications = d'.data + d'.event := by
      intro d' h1 h2 h3 h4
      simp only [total, h1, h2, h3, h4]
      exact h
    cases e with
    | cycle data req =>
      simp only [step, if_neg ha, cycle]
      split
      · exact hsend _ _ _ _ _ _ h
      · rename_i hr
        exact keep _ rfl rfl rfl (cycle_produced _ _ _ (fun rs ok hq => hr _ _ rs ok hq rfl))
      · split
        · exact hkeep _ _ _ _ h
        · exact keep _ rfl rfl rfl rfl
      · exact keep _ rfl rfl rfl (cycle_produced _ _ _ (by assumption))
    | late data rs ok =>
      simp only [step, if_neg ha, handleLate]
      split
      · exact h
      · split
        · exact hsend _ _ _ _ _ _ h
        · split
          · exact hkeep _ _ _ _ h
          · exact h
    | republish n ok =>
      simp only [step, if_neg ha]
      refine keep _ rfl rfl rfl ?_
      simp only [republish, Subscription.republish]
      split
      · rfl
      · split <;> rfl
    | item e =>
      simp only [step, if_neg ha]
      refine keep _ ?_ ?_ ?_ (by rw [itemStep_sub])
      all_goals (cases e <;> simp only [itemStep] <;> repeat' split)
      all_goals rfl
    | _ => simp only [step, if_neg ha]; exact keep _ rfl rfl rfl rfl

/-! ## Items -/

theorem step_items (d : Diag V) (e : Ev V) :
    (step d e).items = match e with
      | .item e' => if d.sub.alive then MonitoredItem.step d.items e' else d.items
      | _ => d.items := by
  by_cases ha : d.sub.alive = false
  · cases e <;> simp [step, ha]
  · have ha' : d.sub.alive = true := by simpa using ha
    cases e with
    | cycle data req => simpa [step, ha, quiet] using congrArg (·.2.2.2) (quiet_cycle d data req)
    | late data rs ok => simpa [step, ha, quiet] using congrArg (·.2.2.2) (quiet_late d data rs ok)
    | item e =>
      simp only [step, ha', if_true]
      cases e <;> simp only [itemStep] <;> repeat' split
      all_goals first | rfl | simp_all
    | _ => simp [step, ha, republish]

/-- The items are those of a history of Model/MonitoredItem.lean. -/
theorem run_items (s i p iv m : Nat) (b : Bool) (l k : Nat) (evs : List (Ev V)) :
    ∃ es, (run (new s i p iv m b l k) evs).items = MonitoredItem.run MonitoredItem.init es := by
  induction evs using snocInd with
  | nil => exact ⟨[], rfl⟩
  | append_singleton evs e ih =>
    obtain ⟨es, h⟩ := ih
    rw [run_snoc, step_items]
    cases e with
    | item e' =>
      simp only
      split
      · exact ⟨es ++ [e'], by rw [MonitoredItem.run_snoc, h]⟩
      · exact ⟨es, h⟩
    | _ => exact ⟨es, h⟩

theorem length_of_ids {a b : List (MonitoredItem.Item V)} (h : a.map (·.id) = b.map (·.id)) : a.length = b.length := by
  have := congrArg List.length h
  simpa using this

theorem filter_length (is : List (MonitoredItem.Item V)) (id : Nat) (hn : (is.map (·.id)).Nodup)
    (x : MonitoredItem.Item V) (h : MonitoredItem.find is id = some x) :
    (is.filter (fun i => decide (i.id ≠ id))).length + 1 = is.length := by
  induction is with
  | nil => simp [MonitoredItem.find] at h
  | cons a is ih =>
    rw [List.map_cons, List.nodup_cons] at hn
    by_cases ha : a.id = id
    · have : is.filter (fun i => decide (i.id ≠ id)) = is := by
        rw [List.filter_eq_self]
        intro y hy
        have : y.id ≠ id := fun h => hn.1 (by rw [ha, ← h]; exact List.mem_map_of_mem hy)
        simpa using this
      rw [List.filter_cons_of_neg (by simp [ha]), this]; rfl
    · have h' : MonitoredItem.find is id = some x := by simpa [MonitoredItem.find, List.find?_cons, ha] using h
      have := ih hn.2 h'
      simp [ha]
      simpa using this

theorem step_monitored (d : Diag V) (e : Ev V) (hn : (d.items.items.map (·.id)).Nodup)
    (h : d.monitored = BitVec.ofNat 32 d.items.items.length) :
    (step d e).monitored = BitVec.ofNat 32 (step d e).items.items.length := by
  by_cases ha : d.sub.alive = false
  · simpa [step, ha] using h
  · have ha' : d.sub.alive = true := by simpa using ha
    cases e with
    | cycle data req =>
      have h1 := congrArg (·.2.1) (quiet_cycle d data req)
      simp only [quiet] at h1
      rw [step_items]
      simp only [step, ha', Bool.true_eq_false, if_false, h1, h]
    | late data rs ok =>
      have h1 := congrArg (·.2.1) (quiet_late d data rs ok)
      simp only [quiet] at h1
      rw [step_items]
      simp only [step, ha', Bool.true_eq_false, if_false, h1, h]
    | item e =>
      simp only [step, ha', Bool.true_eq_false, if_false]
      cases e with
      | create id m n b =>
        simp only [itemStep]
        cases hf : MonitoredItem.find d.items.items id with
        | some x => simp only [MonitoredItem.step, hf]; exact h
        | none => simp [MonitoredItem.step, hf, h, BitVec.ofNat_add]
      | delete id =>
        simp only [itemStep]
        cases hf : MonitoredItem.find d.items.items id with
        | none => simp only [MonitoredItem.step, hf]; exact h
        | some x =>
          simp only [MonitoredItem.step, hf, h]
          rw [← filter_length d.items.items id hn x hf, BitVec.ofNat_add]
          exact BitVec.add_sub_cancel _ _
      | sample id v =>
        have hl : (MonitoredItem.step d.items (.sample id v)).items.length = d.items.items.length := by
          simp only [MonitoredItem.step]
          repeat' split
          · rfl
          · rfl
          · exact length_of_ids (MonitoredItem.enqueueAt_ids _ _ _)
        simp only [itemStep]
        repeat' split
        all_goals (show d.monitored = _; rw [hl]; exact h)
      | modify id n b =>
        show d.monitored = BitVec.ofNat 32 (MonitoredItem.update _ _ _).length
        simpa [MonitoredItem.update] using h
      | setMode id m =>
        simp only [itemStep, MonitoredItem.step]
        split
        · exact h
        · simpa [MonitoredItem.update] using h
      | setTriggering t r a =>
        simp only [itemStep, MonitoredItem.step]
        split
        · exact h
        · next hs =>
          show d.monitored = _
          rw [length_of_ids (MonitoredItem.setTriggering_only hs).ids]; exact h
      | publish max order =>
        simp only [itemStep, MonitoredItem.step_publish]
        split
        · show d.monitored = BitVec.ofNat 32 (MonitoredItem.collect _ _).1.length
          rw [length_of_ids (MonitoredItem.collect_fst _ _), (MonitoredItem.walk_perm hn).length_eq]; exact h
        · exact h
    | _ => simpa [step, ha', republish] using h

/-- The queue of an item after a value was queued. -/
theorem sample_queue (s : MonitoredItem.State V) (hn : (s.items.map (·.id)).Nodup) (id : Nat) (v : V)
    (x : MonitoredItem.Item V) (hx : MonitoredItem.find s.items id = some x) (hm : x.mode ≠ .disabled)
    (hs : MonitoredItem.Sized x) :
    ((MonitoredItem.find (MonitoredItem.step s (.sample id v)).items id).map (fun i => i.queue.length)) =
      some (min (x.queue.length + 1) x.size) := by
  have hc := MonitoredItem.step_change s hn id (.sample id v)
  rw [hx] at hc
  generalize hy : MonitoredItem.find (MonitoredItem.step s (.sample id v)).items id = y at hc
  obtain ⟨h1, h2, h3⟩ := hs
  cases hc with
  | same o h h' => exact absurd (h' v rfl x rfl) hm
  | gone o h => cases h
  | sampled x v' hv _ =>
    show some (MonitoredItem.enqueue x v').queue.length = _
    rw [MonitoredItem.enqueue_queue, List.length_append]
    congr 1
    split
    · rw [List.length_drop, List.length_singleton]; omega
    · rw [List.length_take, List.length_singleton]; omega
  | trig x y j w h hj => simp_all
  | modified x n d h => cases h
  | moded x m h => cases h
  | linked x y r a h => cases h
  | published x y max order r more h => cases h

theorem step_overflow (d : Diag V) (e : Ev V) (hn : (d.items.items.map (·.id)).Nodup)
    (hz : ∀ k x, MonitoredItem.find d.items.items k = some x → MonitoredItem.Sized x) :
    (step d e).overflow = if lostMany d e then d.overflow + 1 else d.overflow := by
  by_cases ha : d.sub.alive = false
  · have : step d e = d := by simp [step, ha]
    rw [this]
    cases e with
    | item e => cases e <;> simp [lostMany, lost, ha]
    | _ => simp [lostMany]
  · have ha' : d.sub.alive = true := by simpa using ha
    cases e with
    | cycle data req => simpa [step, ha, quiet, lostMany] using congrArg (·.2.2.1) (quiet_cycle d data req)
    | late data rs ok => simpa [step, ha, quiet, lostMany] using congrArg (·.2.2.1) (quiet_late d data rs ok)
    | item e =>
      cases e with
      | sample id v =>
        have hstep : (step d (.item (.sample id v))).items = MonitoredItem.step d.items (.sample id v) := by
          rw [step_items]; simp [ha']
        cases hx : MonitoredItem.find d.items.items id with
        | none => simp [step, ha', itemStep, hx, lostMany, lost]
        | some x =>
          by_cases hm : x.mode = .disabled
          · simp [step, ha', itemStep, hx, lostMany, lost, hm]
          · have hq := sample_queue d.items hn id v x hx hm (hz id x hx)
            have hq' : queued (step d (.item (.sample id v))) id = min (x.queue.length + 1) x.size := by
              simp only [queued, hstep, hq, Option.getD_some]
            have hq0 : queued d id = x.queue.length := by simp [queued, hx]
            have hs0 : sized d id = x.size := by simp [sized, hx]
            obtain ⟨_, _, h3⟩ := hz id x hx
            simp only [lostMany, lost, hx, hq', hq0, hs0, ha', Bool.true_and]
            simp only [step, ha', Bool.true_eq_false, if_false, itemStep, hx]
            by_cases hfull : x.queue.length ≥ x.size
            · have h1 : min (x.queue.length + 1) x.size ≤ x.queue.length := by omega
              by_cases hone : x.size > 1 <;> simp [hm, hfull, h1, hone]
            · have h1 : ¬ min (x.queue.length + 1) x.size ≤ x.queue.length := by omega
              simp [hm, hfull, h1]
      | create id m n b => simp only [step, ha', Bool.true_eq_false, if_false, itemStep, lostMany, Bool.false_eq_true]; split <;> rfl
      | delete id => simp only [step, ha', Bool.true_eq_false, if_false, itemStep, lostMany, Bool.false_eq_true]; split <;> rfl
      | _ => simp [step, ha', itemStep, lostMany]
    | _ => simp [step, ha', republish, lostMany]

/-! ## What is shown -/

theorem shown_modify (d : Diag V) : shown d "ModifyCount" = some d.modify.toNat := by
  simp [shown, subComponents, SubExpr.eval, SubField.get]
theorem shown_republishRequests (d : Diag V) : shown d "RepublishRequestCount" = some d.republishRequests.toNat := by
  simp [shown, subComponents, SubExpr.eval, SubField.get]
theorem shown_republishMessageRequests (d : Diag V) :
    shown d "RepublishMessageRequestCount" = some d.republishMessageRequests.toNat := by
  simp [shown, subComponents, SubExpr.eval, SubField.get]
theorem shown_republishMessages (d : Diag V) : shown d "RepublishMessageCount" = some d.republishMessages.toNat := by
  simp [shown, subComponents, SubExpr.eval, SubField.get]
theorem shown_publish (d : Diag V) : shown d "PublishRequestCount" = some d.sub.pubCount.toNat := by
  simp [shown, subComponents, SubExpr.eval, SubField.get]
theorem shown_late (d : Diag V) : shown d "LatePublishRequestCount" = some d.late.toNat := by
  simp [shown, subComponents, SubExpr.eval, SubField.get]
theorem shown_data (d : Diag V) : shown d "DataChangeNotificationsCount" = some d.data.toNat := by
  simp [shown, subComponents, SubExpr.eval, SubField.get]
theorem shown_event (d : Diag V) : shown d "EventNotificationsCount" = some d.event.toNat := by
  simp [shown, subComponents, SubExpr.eval, SubField.get]
theorem shown_notifications (d : Diag V) : shown d "NotificationsCount" = some d.notifications.toNat := by
  simp [shown, subComponents, SubExpr.eval, SubField.get]
theorem shown_unacknowledged (d : Diag V) : shown d "UnacknowledgedMessageCount" = some d.unacknowledged.toNat := by
  simp [shown, subComponents, SubExpr.eval, SubField.get]
theorem shown_monitored (d : Diag V) : shown d "MonitoredItemCount" = some d.monitored.toNat := by
  simp [shown, subComponents, SubExpr.eval, SubField.get]
theorem shown_overflow (d : Diag V) : shown d "MonitoringQueueOverflowCount" = some d.overflow.toNat := by
  simp [shown, subComponents, SubExpr.eval, SubField.get]
theorem shown_next (d : Diag V) : shown d "NextSequenceNumber" = some d.sub.nextSeq.toNat := by
  simp [shown, subComponents, SubExpr.eval, SubField.get]
theorem shown_enable (d : Diag V) : shown d "EnableCount" = some 0 := by
  simp [shown, subComponents, SubExpr.eval]
theorem shown_discarded (d : Diag V) : shown d "DiscardedMessageCount" = some 0 := by
  simp [shown, subComponents, SubExpr.eval]

/-! ## The claims -/

/-- The variables below the node of a subscription have the names of the fields of the standard's
`SubscriptionDiagnosticsDataType`, in the same order, and each shows what the structure holds in that
field, both where the node of the subscription returns it and in the array of the server. -/
theorem C119_views :
    (∃ t ∈ Schema.types, t.name = "SubscriptionDiagnosticsDataType" ∧ t.fields.map (·.1) = subComponents.map (·.1)) ∧
    (∃ t ∈ Structs.structs, t.name = "SubscriptionDiagnosticsDataType" ∧ t.fields.map (·.1) = subStruct.map (·.1) ∧
      t.fields.map (·.1) = subArray.map (·.1)) ∧
    ∀ (d : Diag V) (i : Nat),
      subComponents[i]?.map (fun r => r.2.eval d) = subStruct[i]?.map (fun r => r.2.eval d) ∧
      subComponents[i]?.map (fun r => r.2.eval d) = subArray[i]?.map (fun r => r.2.eval d) := by
  refine ⟨⟨_, List.mem_append_right _ (List.mem_iff_getElem?.2 ⟨20, rfl⟩), rfl, rfl⟩,
    ⟨_, List.mem_append_right _ (List.mem_iff_getElem?.2 ⟨20, rfl⟩), rfl, rfl, rfl⟩, ?_⟩
  have h1 : subComponents.map (·.2) = subStruct.map (·.2) := rfl
  have h2 : subComponents.map (·.2) = subArray.map (·.2) := rfl
  intro d i
  have e : ∀ l : List (String × SubExpr), l[i]?.map (fun r => r.2.eval d) = ((l.map (·.2))[i]?).map (fun x => x.eval d) := by
    intro l; simp; rfl
  exact ⟨by rw [e, e, h1], by rw [e, e, h2]⟩

/-- The same for a session; of the fields only the length of the list of locales is no variable. -/
theorem C119_session_views :
    (∃ t ∈ Schema.types, t.name = "SessionDiagnosticsDataType" ∧
      t.fields.map (·.1) = (sesComponents.map (·.1)).insertIdx 5 "NoOfLocaleIds") ∧
    (∃ t ∈ Structs.structs, t.name = "SessionDiagnosticsDataType" ∧ t.fields.map (·.1) = sesStruct.map (·.1)) ∧
    ∀ (s : Ses) (i : Nat), sesComponents[i]?.map (fun r => r.2.eval s) = sesStruct[i]?.map (fun r => r.2.eval s) := by
  refine ⟨⟨_, List.mem_append_right _ (List.mem_iff_getElem?.2 ⟨16, rfl⟩), rfl, rfl⟩,
    ⟨_, List.mem_append_right _ (List.mem_iff_getElem?.2 ⟨16, rfl⟩), rfl, rfl⟩, ?_⟩
  have h1 : sesComponents.map (·.2) = sesStruct.map (·.2) := rfl
  intro s i
  have e : ∀ l : List (String × SesExpr), l[i]?.map (fun r => r.2.eval s) = ((l.map (·.2))[i]?).map (fun x => x.eval s) := by
    intro l; simp; rfl
  rw [e, e, h1]

/-- `ModifyCount` is the number of times the subscription was modified. -/
theorem C119_modified (s i p iv m : Nat) (b : Bool) (l k : Nat) (evs : List (Ev V)) :
    shown (run (new s i p iv m b l k) evs) "ModifyCount" = some (tally modified (new s i p iv m b l k) evs % 2 ^ 32) := by
  rw [shown_modify, counts (·.modify) modified _ evs rfl (fun _ _ => step_modify _ _)]

/-- The counters of republished messages: asked for, and found and sent. -/
theorem C119_republished (s i p iv m : Nat) (b : Bool) (l k : Nat) (evs : List (Ev V)) :
    let d := run (new s i p iv m b l k) evs
    shown d "RepublishRequestCount" = some (tally republishAsked (new s i p iv m b l k) evs % 2 ^ 32) ∧
    shown d "RepublishMessageRequestCount" = some (tally republishAsked (new s i p iv m b l k) evs % 2 ^ 32) ∧
    shown d "RepublishMessageCount" = some (tally republished (new s i p iv m b l k) evs % 2 ^ 32) := by
  refine ⟨?_, ?_, ?_⟩
  · rw [shown_republishRequests, counts (·.republishRequests) republishAsked _ evs rfl (fun _ _ => (step_republish _ _).1)]
  · rw [shown_republishMessageRequests,
      counts (·.republishMessageRequests) republishAsked _ evs rfl (fun _ _ => (step_republish _ _).2.1)]
  · rw [shown_republishMessages,
      counts (·.republishMessages) republished _ evs rfl (fun _ _ => (step_republish _ _).2.2)]

theorem sub_sent (s : Subscription.Sub (Nat × Nat)) (e : Subscription.Ev (Nat × Nat))
    (h : s.pubCount = BitVec.ofNat 32 s.sent.length) :
    (Subscription.step s e).pubCount = BitVec.ofNat 32 (Subscription.step s e).sent.length := by
  have hs : ∀ (s : Subscription.Sub (Nat × Nat)) c more rs ok late, s.pubCount = BitVec.ofNat 32 s.sent.length →
      (Subscription.sendData s c more rs ok late).pubCount =
        BitVec.ofNat 32 (Subscription.sendData s c more rs ok late).sent.length := by
    intro s c more rs ok late h
    cases ok <;> simp [Subscription.sendData, h, BitVec.ofNat_add]
  have hk : ∀ (s : Subscription.Sub (Nat × Nat)) rs ok, s.pubCount = BitVec.ofNat 32 s.sent.length →
      (Subscription.sendKeepAlive s rs ok).pubCount = BitVec.ofNat 32 (Subscription.sendKeepAlive s rs ok).sent.length := by
    intro s rs ok h
    cases ok <;> simp [Subscription.sendKeepAlive, h, BitVec.ofNat_add]
  simp only [Subscription.step]
  split
  · exact h
  · cases e with
    | cycle data req =>
      simp only [Subscription.cycle]
      split
      · exact h
      · split
        · split
          · exact h
          · exact hs _ _ _ _ _ _ h
          · split <;> exact h
        · split
          · split
            · exact h
            · exact hk _ _ _ h
            · split <;> exact h
          · exact h
    | late data rs ok =>
      simp only [Subscription.late]
      split
      · exact h
      · split
        · exact hs _ _ _ _ _ _ h
        · split
          · exact hk _ _ _ h
          · exact h
    | republish n ok =>
      simp only [Subscription.republish]
      split
      · exact h
      · split <;> exact h
    | _ => exact h

/-- `PublishRequestCount` is the number of responses sent, and `LatePublishRequestCount` that of publish
requests answered when they came. -/
theorem C119_responses (s i p iv m : Nat) (b : Bool) (l k : Nat) (evs : List (Ev V)) :
    let d := run (new s i p iv m b l k) evs
    shown d "PublishRequestCount" = some (d.sub.sent.length % 2 ^ 32) ∧
    shown d "LatePublishRequestCount" = some (tally answeredLate (new s i p iv m b l k) evs % 2 ^ 32) := by
  refine ⟨?_, ?_⟩
  · have h : (run (new s i p iv m b l k) evs).sub.pubCount =
        BitVec.ofNat 32 (run (new s i p iv m b l k) evs).sub.sent.length := by
      induction evs using snocInd with
      | nil => rfl
      | append_singleton evs e ih =>
        rw [run_snoc, step_sub]
        split
        · exact sub_sent _ _ ih
        · exact ih
    rw [shown_publish, h, BitVec.toNat_ofNat]
  · rw [shown_late, counts (·.late) answeredLate _ evs rfl (fun _ _ => step_late _ _)]

/-- The counters of notifications are the numbers of data changes and events in all messages made, and
their sum. (A message that could not be written is counted too; it stays in the queue.) -/
theorem C119_notifications (s i p iv m : Nat) (b : Bool) (l k : Nat) (evs : List (Ev V)) :
    let d := run (new s i p iv m b l k) evs
    let made := d.sub.produced.map (·.2)
    shown d "DataChangeNotificationsCount" = some ((made.map (·.1)).sum % 2 ^ 32) ∧
    shown d "EventNotificationsCount" = some ((made.map (·.2)).sum % 2 ^ 32) ∧
    shown d "NotificationsCount" = some (((made.map (·.1)).sum + (made.map (·.2)).sum) % 2 ^ 32) := by
  have h : (run (new s i p iv m b l k) evs).data = BitVec.ofNat 32 (total (·.1) (run (new s i p iv m b l k) evs)) ∧
      (run (new s i p iv m b l k) evs).event = BitVec.ofNat 32 (total (·.2) (run (new s i p iv m b l k) evs)) ∧
      (run (new s i p iv m b l k) evs).notifications =
        (run (new s i p iv m b l k) evs).data + (run (new s i p iv m b l k) evs).event := by
    induction evs using snocInd with
    | nil => exact ⟨rfl, rfl, rfl⟩
    | append_singleton evs e ih => rw [run_snoc]; exact step_notifications _ e ih
  obtain ⟨h1, h2, h3⟩ := h
  have e1 : ∀ f : Nat × Nat → Nat, total f (run (new s i p iv m b l k) evs) =
      (((run (new s i p iv m b l k) evs).sub.produced.map (·.2)).map f).sum := by
    intro f; simp [total, Function.comp_def]
  refine ⟨?_, ?_, ?_⟩
  · rw [shown_data, h1, BitVec.toNat_ofNat, e1]
  · rw [shown_event, h2, BitVec.toNat_ofNat, e1]
  · rw [shown_notifications, h3, h1, h2, ← BitVec.ofNat_add, BitVec.toNat_ofNat, e1, e1]

/-- `MonitoredItemCount` is the number of items. -/
theorem C119_items (s i p iv m : Nat) (b : Bool) (l k : Nat) (evs : List (Ev V)) :
    let d := run (new s i p iv m b l k) evs
    shown d "MonitoredItemCount" = some (d.items.items.length % 2 ^ 32) := by
  have h : (run (new s i p iv m b l k) evs).monitored =
      BitVec.ofNat 32 (run (new s i p iv m b l k) evs).items.items.length := by
    induction evs using snocInd with
    | nil => rfl
    | append_singleton evs e ih =>
      rw [run_snoc]
      obtain ⟨es, he⟩ := run_items s i p iv m b l k evs
      exact step_monitored _ e (by rw [he]; exact MonitoredItem.run_nodup es) ih
  intro d
  rw [shown_monitored, h, BitVec.toNat_ofNat]

/-- `MonitoringQueueOverflowCount` is the number of times a value was lost in a queue of more than one. -/
theorem C119_overflow_partial (s i p iv m : Nat) (b : Bool) (l k : Nat) (evs : List (Ev V)) :
    shown (run (new s i p iv m b l k) evs) "MonitoringQueueOverflowCount" =
      some (tally lostMany (new s i p iv m b l k) evs % 2 ^ 32) := by
  rw [shown_overflow, counts (·.overflow) lostMany _ evs rfl]
  intro pre e
  obtain ⟨es, he⟩ := run_items s i p iv m b l k pre
  exact step_overflow _ e (by rw [he]; exact MonitoredItem.run_nodup es)
    (by rw [he]; exact fun k x hx => MonitoredItem.run_sized es k x hx)

/-- The length of the list of available numbers of the last response. -/
def lastAvail (s : Subscription.Sub (Nat × Nat)) : Nat := (s.sent.getLast?.map (fun r => r.avail.length)).getD 0

theorem sendData_unack (d : Diag V) (c : Nat × Nat) (more : Bool) (rs : List Subscription.AckStatus) (ok late : Bool)
    (h : d.unacknowledged = BitVec.ofNat 32 (lastAvail d.sub)) :
    (sendData d c more rs ok late).unacknowledged = BitVec.ofNat 32 (lastAvail (sendData d c more rs ok late).sub) := by
  cases ok
  · simpa [sendData, count, Subscription.sendData, lastAvail] using h
  · simp [sendData, count, Subscription.sendData, lastAvail]

theorem sendKeepAlive_unack (d : Diag V) (rs : List Subscription.AckStatus) (ok late : Bool)
    (h : d.unacknowledged = BitVec.ofNat 32 (lastAvail d.sub)) :
    (sendKeepAlive d rs ok late).unacknowledged = BitVec.ofNat 32 (lastAvail (sendKeepAlive d rs ok late).sub) := by
  cases ok
  · simpa [sendKeepAlive, Subscription.sendKeepAlive, lastAvail] using h
  · simp [sendKeepAlive, Subscription.sendKeepAlive, lastAvail]

theorem cycle_sent (s : Subscription.Sub (Nat × Nat)) (data : Option ((Nat × Nat) × Bool)) (req : Subscription.Req)
    (h : ∀ rs ok, req = .some rs ok → False) : (Subscription.cycle s data req).sent = s.sent := by
  simp only [Subscription.cycle]
  split
  · rfl
  · cases req with
    | some rs ok => exact (h _ _ rfl).elim
    | none =>
      split
      · simp only; split <;> rfl
      · simp only; split
        · split <;> rfl
        · rfl
    | failed =>
      split
      · rfl
      · simp only; split <;> rfl

theorem step_unack (d : Diag V) (e : Ev V) (h : d.unacknowledged = BitVec.ofNat 32 (lastAvail d.sub)) :
    (step d e).unacknowledged = BitVec.ofNat 32 (lastAvail (step d e).sub) := by
  by_cases ha : d.sub.alive = false
  · have : step d e = d := by simp [step, ha]
    rw [this]; exact h
  · have keep : ∀ d' : Diag V, d'.unacknowledged = d.unacknowledged → d'.sub.sent = d.sub.sent →
        d'.unacknowledged = BitVec.ofNat 32 (lastAvail d'.sub) := by
      intro d' h1 h2
      rw [h1, h]
      simp only [lastAvail, h2]
    cases e with
    | cycle data req =>
      simp only [step, if_neg ha, cycle]
      split
      · exact sendData_unack _ _ _ _ _ _ h
      · rename_i hr
        exact keep _ rfl (cycle_sent _ _ _ (fun rs ok hq => hr _ _ rs ok hq rfl))
      · split
        · exact sendKeepAlive_unack _ _ _ _ h
        · exact keep _ rfl rfl
      · exact keep _ rfl (cycle_sent _ _ _ (by assumption))
    | late data rs ok =>
      simp only [step, if_neg ha, handleLate]
      split
      · exact h
      · split
        · exact sendData_unack _ _ _ _ _ _ h
        · split
          · exact sendKeepAlive_unack _ _ _ _ h
          · exact h
    | republish n ok =>
      simp only [step, if_neg ha]
      refine keep _ rfl ?_
      simp only [republish, Subscription.republish]
      split
      · rfl
      · split <;> rfl
    | item e =>
      simp only [step, if_neg ha]
      refine keep _ ?_ (by rw [itemStep_sub])
      cases e <;> simp only [itemStep] <;> repeat' split
      all_goals rfl
    | _ => simp only [step, if_neg ha]; exact keep _ rfl rfl

/-- `UnacknowledgedMessageCount` is the number of messages that the last response named as available. -/
theorem C119_unacknowledged_partial (s i p iv m : Nat) (b : Bool) (l k : Nat) (evs : List (Ev V)) :
    let d := run (new s i p iv m b l k) evs
    shown d "UnacknowledgedMessageCount" = some (((d.sub.sent.getLast?.map (fun r => r.avail.length)).getD 0) % 2 ^ 32) := by
  have h : (run (new s i p iv m b l k) evs).unacknowledged = BitVec.ofNat 32 (lastAvail (run (new s i p iv m b l k) evs).sub) := by
    induction evs using snocInd with
    | nil => rfl
    | append_singleton evs e ih => rw [run_snoc]; exact step_unack _ e ih
  intro d
  rw [shown_unacknowledged, h, BitVec.toNat_ofNat]
  rfl

/-- `NextSequenceNumber` is the number of the message in the next response. -/
theorem C119_next (d : Diag V) (e : Ev V) (r : Subscription.Resp (Nat × Nat))
    (h : (step d e).sub.sent = d.sub.sent ++ [r]) : shown d "NextSequenceNumber" = some r.msg.seq.toNat := by
  rw [shown_next]
  congr 2
  have hne : ∀ l : List (Subscription.Resp (Nat × Nat)), l = l ++ [r] → False := by
    intro l hl
    have := congrArg List.length hl
    simp at this
  have hsend : ∀ (d' : Diag V) c more rs ok late, d'.sub.sent = d.sub.sent → d'.sub.nextSeq = d.sub.nextSeq →
      (sendData d' c more rs ok late).sub.sent = d.sub.sent ++ [r] → d.sub.nextSeq = r.msg.seq := by
    intro d' c more rs ok late h1 h2 h
    cases ok
    · simp only [sendData, count, Subscription.sendData, h1, Bool.false_eq_true, if_false] at h
      exact (hne _ h).elim
    · simp [sendData, count, Subscription.sendData, h1, h2] at h
      rw [← h]
  have hkeep : ∀ (d' : Diag V) rs ok late, d'.sub.sent = d.sub.sent → d'.sub.nextSeq = d.sub.nextSeq →
      (sendKeepAlive d' rs ok late).sub.sent = d.sub.sent ++ [r] → d.sub.nextSeq = r.msg.seq := by
    intro d' rs ok late h1 h2 h
    cases ok
    · simp only [sendKeepAlive, Subscription.sendKeepAlive, h1, Bool.false_eq_true, if_false] at h
      exact (hne _ h).elim
    · simp [sendKeepAlive, Subscription.sendKeepAlive, h1, h2] at h
      rw [← h]
  by_cases ha : d.sub.alive = false
  · have : step d e = d := by simp [step, ha]
    rw [this] at h; exact (hne _ h).elim
  · cases e with
    | cycle data req =>
      simp only [step, if_neg ha, cycle] at h
      split at h
      · exact hsend _ _ _ _ _ _ rfl rfl h
      · rename_i hr
        exact (hne _ ((cycle_sent _ _ _ (fun rs ok hq => hr _ _ rs ok hq rfl)).symm.trans h)).elim
      · split at h
        · refine hkeep _ _ _ _ ?_ ?_ h <;> rfl
        · exact (hne _ h).elim
      · exact (hne _ ((cycle_sent _ _ _ (by assumption)).symm.trans h)).elim
    | late data rs ok =>
      simp only [step, if_neg ha, handleLate] at h
      split at h
      · exact (hne _ h).elim
      · split at h
        · exact hsend _ _ _ _ _ _ rfl rfl h
        · split at h
          · exact hkeep _ _ _ _ rfl rfl h
          · exact (hne _ h).elim
    | republish n ok =>
      simp only [step, if_neg ha, republish, Subscription.republish] at h
      split at h
      · exact (hne _ h).elim
      · split at h <;> exact (hne _ h).elim
    | item e =>
      simp only [step, if_neg ha, itemStep_sub] at h
      exact (hne _ h).elim
    | _ => simp only [step, if_neg ha] at h; exact (hne _ h).elim

/-! ### The settings -/

/-- What a subscription is told. -/
def told (d : Diag V) : (Nat × Nat) × (Nat × Nat × Nat × Nat × Nat) × Bool :=
  ((d.session, d.id), (d.sub.maxLifetime, d.sub.maxKeepAlive, d.interval, d.maxNotifications, d.priority), d.sub.enabled)

theorem told_sub (d d' : Diag V) (h : d'.session = d.session ∧ d'.id = d.id ∧ d'.interval = d.interval ∧
    d'.maxNotifications = d.maxNotifications ∧ d'.priority = d.priority) (h1 : d'.sub.maxLifetime = d.sub.maxLifetime)
    (h2 : d'.sub.maxKeepAlive = d.sub.maxKeepAlive) (h3 : d'.sub.enabled = d.sub.enabled) : told d' = told d := by
  simp only [told, h, h1, h2, h3]

theorem told_sendData (d : Diag V) (c : Nat × Nat) (more : Bool) (rs : List Subscription.AckStatus) (ok late : Bool) :
    told (sendData d c more rs ok late) = told d := by
  cases ok <;> rfl

theorem told_sendKeepAlive (d : Diag V) (rs : List Subscription.AckStatus) (ok late : Bool) :
    told (sendKeepAlive d rs ok late) = told d := by
  cases ok <;> rfl

theorem told_cycleSub (d : Diag V) (data : Option ((Nat × Nat) × Bool)) (req : Subscription.Req) :
    told { d with sub := Subscription.cycle d.sub data req } = told d := by
  have h : (Subscription.cycle d.sub data req).maxLifetime = d.sub.maxLifetime ∧
      (Subscription.cycle d.sub data req).maxKeepAlive = d.sub.maxKeepAlive ∧
      (Subscription.cycle d.sub data req).enabled = d.sub.enabled := by
    unfold Subscription.cycle Subscription.sendData Subscription.sendKeepAlive
    simp only
    repeat' split
    all_goals exact ⟨rfl, rfl, rfl⟩
  exact told_sub d _ ⟨rfl, rfl, rfl, rfl, rfl⟩ h.1 h.2.1 h.2.2

theorem told_step (d : Diag V) (e : Ev V) :
    told (step d e) = (if d.sub.alive then
      match e with
      | .modify l k i m p => ((told d).1, (l, k, i, m, p), (told d).2.2)
      | .setMode b => ((told d).1, (told d).2.1, b)
      | _ => told d
      else told d) := by
  by_cases ha : d.sub.alive = true
  · have hf : ¬ d.sub.alive = false := by simp [ha]
    rw [if_pos ha]
    simp only [step, if_neg hf]
    cases e with
    | cycle data req =>
      simp only [cycle]
      split
      · exact told_sendData ..
      · exact told_cycleSub ..
      · split
        · exact told_sendKeepAlive ..
        · rfl
      · exact told_cycleSub ..
    | late data rs ok =>
      simp only [handleLate]
      split
      · rfl
      · split
        · exact told_sendData ..
        · split
          · exact told_sendKeepAlive ..
          · rfl
    | ack n =>
      rfl
    | republish n ok =>
      simp only [republish, Subscription.republish]
      split
      · rfl
      · split <;> rfl
    | setMode b => rfl
    | modify l k i m p => rfl
    | item e =>
      cases e <;> simp only [itemStep] <;> repeat' split
      all_goals rfl
    | touch => rfl
  · have hf : d.sub.alive = false := by simpa using ha
    rw [if_neg ha]
    simp [step, hf]

theorem told_run (d : Diag V) (evs : List (Ev V)) :
    told (run d evs) = ((told d).1, agreed (told d).2.1 d evs, switched (told d).2.2 d evs) := by
  induction evs generalizing d with
  | nil => rfl
  | cons e es ih =>
    have h : run d (e :: es) = run (step d e) es := rfl
    rw [h, ih, told_step]
    by_cases ha : d.sub.alive = true
    · rw [if_pos ha]
      cases e <;> simp only [agreed, switched, if_pos ha]
    · rw [if_neg ha]
      cases e <;> simp only [agreed, switched, if_neg ha]

/-- What is shown of the settings is what was agreed on last: at the creation, or when the subscription was modified
and when publishing was switched. Session and number of the subscription never change. -/
theorem C119_settings (s i p iv m : Nat) (b : Bool) (l k : Nat) (evs : List (Ev V)) :
    let d := run (new s i p iv m b l k) evs
    let a := agreed (l, k, iv, m, p) (new s i p iv m b l k) evs
    ["SessionId", "SubscriptionId", "MaxLifetimeCount", "MaxKeepAliveCount", "PublishingInterval",
      "MaxNotificationsPerPublish", "Priority", "PublishingEnabled"].map (shown d) =
    [some s, some i, some a.1, some a.2.1, some a.2.2.1, some a.2.2.2.1, some a.2.2.2.2,
      some (switched b (new s i p iv m b l k) evs).toNat] := by
  intro d a
  have h := told_run (new s i p iv m b l k : Diag V) evs
  have hs : ∀ d : Diag V, ["SessionId", "SubscriptionId", "MaxLifetimeCount", "MaxKeepAliveCount", "PublishingInterval",
      "MaxNotificationsPerPublish", "Priority", "PublishingEnabled"].map (shown d) =
      [some (told d).1.1, some (told d).1.2, some (told d).2.1.1, some (told d).2.1.2.1, some (told d).2.1.2.2.1,
        some (told d).2.1.2.2.2.1, some (told d).2.1.2.2.2.2, some (told d).2.2.toNat] := by
    intro d
    simp only [List.map_cons, List.map_nil, shown, subComponents]
    simp [SubExpr.eval, SubField.get, told]
    cases d.sub.enabled <;> rfl
  rw [hs, h]
  rfl

/-- The counts of a session are its subscriptions, all their items, and the publish requests that wait. -/
theorem C119_session_counts (s : Ses) :
    ["CurrentSubscriptionsCount", "CurrentMonitoredItemsCount", "CurrentPublishRequestsInQueue"].map
      (fun name => (sesComponents.find? (fun r => r.1 == name)).map (fun r => r.2.eval s)) =
    [some (.num s.subs.length), some (.num (s.subs.foldl (· + ·) 0)), some (.num s.queued)] := by
  rw [show s.subs.foldl (· + ·) 0 = s.subs.sum from List.sum_eq_foldl_nat.symm]
  simp [sesComponents, SesExpr.eval]

/-! ## A history -/

/-- A subscription of session 7, publishing, at most three cycles without message. -/
def d0 : Diag Nat := new 7 12 0 1000 100 true 9 3

/-- An item is made, a message with two data changes and one with an event are sent, the second late; the
first is sent again; the subscription is modified. -/
def history : List (Ev Nat) := [
  .item (.create 5 .reporting 2 true), .item (.sample 5 10), .item (.sample 5 11), .item (.sample 5 12),
  .cycle (some ((2, 0), false)) (.some [] true),
  .cycle (some ((0, 1), false)) .none,
  .late (some ((0, 1), false)) [] true,
  .republish 1 true, .republish 9 true,
  .modify 30 5 500 10 1]

example : (["ModifyCount", "RepublishRequestCount", "RepublishMessageCount", "PublishRequestCount",
    "LatePublishRequestCount", "DataChangeNotificationsCount", "EventNotificationsCount", "NotificationsCount",
    "UnacknowledgedMessageCount", "MonitoredItemCount", "MonitoringQueueOverflowCount", "NextSequenceNumber"].map
    (shown (run d0 history))) =
    [some 1, some 2, some 1, some 2, some 1, some 2, some 1, some 3, some 2, some 1, some 1, some 3] := by
  simp only [List.map, shown_modify, shown_republishRequests, shown_republishMessages, shown_publish, shown_late, shown_data,
    shown_event, shown_notifications, shown_unacknowledged, shown_monitored, shown_overflow, shown_next]
  decide +kernel

example : (tally modified d0 history, tally republishAsked d0 history, tally republished d0 history,
    tally answeredLate d0 history, tally lostMany d0 history) = (1, 2, 1, 1, 1) := by decide +kernel

/-! ## What is not shown -/

/-- Acknowledging does not change `UnacknowledgedMessageCount`: it shows a message although there is
none left. -/
theorem C119_unacknowledged_fails : ∃ evs : List (Ev Nat),
    (run d0 evs).sub.queue.length = 0 ∧ shown (run d0 evs) "UnacknowledgedMessageCount" = some 1 :=
  ⟨[.cycle (some ((2, 0), false)) (.some [] true), .ack 1], by decide +kernel, by rw [shown_unacknowledged]; decide +kernel⟩

/-- `EnableCount` shows nothing of publishing being switched on, nor `DisableCount` of it being switched
off. -/
theorem C119_enabled_fails : ∃ evs : List (Ev Nat),
    tally switchedOn d0 evs = 2 ∧ shown (run d0 evs) "EnableCount" = some 0 ∧ shown (run d0 evs) "DisableCount" = some 0 :=
  ⟨[.setMode false, .setMode true, .setMode false, .setMode true], by decide +kernel, shown_enable _, by
    simp [shown, subComponents, SubExpr.eval]⟩

/-- `DiscardedMessageCount` shows nothing of a message that is dropped before it was acknowledged. -/
theorem C119_discarded_fails : ∃ evs : List (Ev Nat),
    tally discarded d0 evs = 1 ∧ shown (run d0 evs) "DiscardedMessageCount" = some 0 :=
  ⟨List.replicate 129 (.cycle (some ((1, 0), false)) (.some [] true)), by decide +kernel, shown_discarded _⟩

/-- Values lost in a queue of one are not counted. -/
theorem C119_overflow_fails : ∃ evs : List (Ev Nat),
    tally lost d0 evs = 2 ∧ shown (run d0 evs) "MonitoringQueueOverflowCount" = some 0 :=
  ⟨[.item (.create 5 .reporting 1 true), .item (.sample 5 10), .item (.sample 5 11), .item (.sample 5 12)],
    by decide +kernel, by rw [shown_overflow]; decide +kernel⟩

/-- The array that a session shows of its subscriptions is empty when it has some. -/
theorem C119_session_array_fails (subs : List (Diag V)) (h : subs ≠ []) :
    (sessionArray subs).length ≠ subs.length ∧
    ((serverArray true subs).map List.length) = some subs.length := by
  refine ⟨?_, by simp [serverArray]⟩
  cases subs with
  | nil => exact absurd rfl h
  | cons a l => simp [sessionArray]

/-- The variable with the policy of a session has another name than in the standard: a client that looks
for `SecurityPolicyUri` does not find it. -/
theorem C119_security_name_fails :
    ∃ t ∈ Schema.types, t.name = "SessionSecurityDiagnosticsDataType" ∧
      "SecurityPolicyUri" ∈ t.fields.map (·.1) ∧ "SecurityPolicyUri" ∉ securityComponents := by
  refine ⟨_, List.mem_append_right _ (List.mem_iff_getElem?.2 ⟨17, rfl⟩), rfl, ?_, by simp [securityComponents]⟩
  exact List.mem_iff_getElem?.2 ⟨8, rfl⟩

end Opcua.SubCounters
