import Verif.Model.Call
import Verif.Props.Access

/-! C95: methods and their arguments. -/

namespace Opcua.Call

open Opcua.AddressSpace (Id)
open Opcua.Access (Identity plant anna)

namespace Spec

/-- The standard's answer to a call of GetMonitoredItems and ResendData: exactly one argument, a UInt32, that names a
subscription of the session. -/
inductive Answer (t : List Sub) (session : Nat) : List Arg → Status → Prop
  | missing : Answer t session [] .badArgumentsMissing
  | many (a b : Arg) (rest : List Arg) : Answer t session (a :: b :: rest) .badTooManyArguments
  | type (k : Nat) : Answer t session [.other k] .badInvalidArgument
  | unknown (id : BitVec 32) : (∀ s ∈ t, s.id ≠ id) → Answer t session [.u32 id] .badSubscriptionIDInvalid
  | foreign (id : BitVec 32) (s : Sub) : s ∈ t → s.id = id → s.owner ≠ session →
      Answer t session [.u32 id] .badUserAccessDenied
  | own (id : BitVec 32) (s : Sub) : s ∈ t → s.id = id → s.owner = session → Answer t session [.u32 id] .good

/-- Each subscription id is there once, as in the map of the manager. -/
def Unique (t : List Sub) : Prop := t.Pairwise (fun a b => a.id ≠ b.id)

end Spec

open Spec

theorem get_some {t : List Sub} {id : BitVec 32} {s : Sub} (h : get t id = some s) : s ∈ t ∧ s.id = id := by
  have h1 := List.mem_of_find?_eq_some h
  have h2 := List.find?_some (p := fun s : Sub => decide (s.id = id)) h
  exact ⟨h1, by simpa using h2⟩

theorem get_none {t : List Sub} {id : BitVec 32} (h : get t id = none) : ∀ s ∈ t, s.id ≠ id := by
  intro s hs
  have := List.find?_eq_none.1 h s hs
  simpa using this

theorem unique_eq {t : List Sub} (hu : Unique t) {a b : Sub} (ha : a ∈ t) (hb : b ∈ t) (h : a.id = b.id) : a = b := by
  induction t with
  | nil => cases ha
  | cons x t ih =>
    have hx := List.pairwise_cons.1 hu
    rcases List.mem_cons.1 ha with rfl | ha'
    · rcases List.mem_cons.1 hb with hb' | hb'
      · exact hb'.symm
      · exact absurd h (hx.1 b hb')
    · rcases List.mem_cons.1 hb with rfl | hb'
      · exact absurd h.symm (hx.1 a ha')
      · exact ih hx.2 ha' hb'

theorem get_mem {t : List Sub} (hu : Unique t) {s : Sub} (hs : s ∈ t) : get t s.id = some s := by
  cases h : get t s.id with
  | none => exact absurd rfl (get_none h s hs)
  | some s' =>
    obtain ⟨h1, h2⟩ := get_some h
    rw [unique_eq hu h1 hs h2]

/-- The status of the answer is the one of the standard, and there is only one. -/
theorem answer_iff {t : List Sub} (hu : Unique t) (session : Nat) (args : List Arg) (st : Status) :
    Answer t session args st ↔
      (match subscriptionOf t (some session) args with | .error r => r.status | .ok _ => .good) = st := by
  constructor
  · intro h
    cases h with
    | missing => rfl
    | many a b rest => cases a <;> rfl
    | type k => rfl
    | unknown id h =>
      have : get t id = none := List.find?_eq_none.2 (fun s hs => by simpa using h s hs)
      simp [subscriptionOf, this]
    | foreign id s hs hid ho =>
      subst hid
      simp [subscriptionOf, get_mem hu hs, Ne.symm ho]
    | own id s hs hid ho =>
      subst hid
      simp [subscriptionOf, get_mem hu hs, ho]
  · intro h
    subst h
    match args with
    | [] => exact .missing
    | [.other k] => exact .type k
    | a :: b :: rest => cases a <;> exact .many _ b rest
    | [.u32 id] =>
      cases hg : get t id with
      | none => simp only [subscriptionOf, hg]; exact .unknown id (get_none hg)
      | some s =>
        obtain ⟨h1, h2⟩ := get_some hg
        by_cases ho : s.owner = session
        · simp only [subscriptionOf, hg, ho]; exact .own id s h1 h2 ho
        · have : ¬ (some session = some s.owner) := fun h => ho (Option.some.inj h).symm
          simp only [subscriptionOf, hg, if_neg this]
          exact .foreign id s h1 h2 ho

/-- **C95 (arguments).** Both methods answer with the status that the arguments call for, for all arguments, sessions
and subscriptions. -/
theorem C95_arguments {t : List Sub} (hu : Unique t) (session : Nat) (args : List Arg) (st : Status) :
    (Answer t session args st ↔ (getMonitoredItems t (some session) args).status = st) ∧
    (Answer t session args st ↔ (resendData t (some session) args).2.status = st) := by
  rw [answer_iff hu]
  unfold getMonitoredItems resendData
  cases subscriptionOf t (some session) args with
  | error r => exact ⟨Iff.rfl, Iff.rfl⟩
  | ok s => exact ⟨Iff.rfl, Iff.rfl⟩

/-- **C95 (handles).** GetMonitoredItems returns two lists of equal length that give exactly the ids and handles of the
items of the caller's subscription, in corresponding places; and no handles otherwise. -/
theorem C95_handles {t : List Sub} (session : Nat) (args : List Arg) :
    (∃ s ∈ t, s.owner = session ∧ args = [.u32 s.id] ∧
      ∃ ids handles, (getMonitoredItems t (some session) args).outputs = [ids, handles] ∧
        ids.length = handles.length ∧ ids.zip handles = s.items.map (fun i => (i.id, i.handle))) ∨
    ((getMonitoredItems t (some session) args).status ≠ .good ∧
      (getMonitoredItems t (some session) args).outputs = []) := by
  unfold getMonitoredItems
  match args with
  | [] => exact .inr ⟨by simp [subscriptionOf], rfl⟩
  | [.other k] => exact .inr ⟨by simp [subscriptionOf], rfl⟩
  | .other k :: b :: rest => exact .inr ⟨by simp [subscriptionOf], rfl⟩
  | .u32 k :: b :: rest => exact .inr ⟨by simp [subscriptionOf], rfl⟩
  | [.u32 id] =>
    cases hg : get t id with
    | none => exact .inr (by simp [subscriptionOf, hg])
    | some s =>
      obtain ⟨h1, h2⟩ := get_some hg
      by_cases ho : s.owner = session
      · refine .inl ⟨s, h1, ho, by rw [h2], s.items.map Item.id, s.items.map Item.handle, ?_, by simp, ?_⟩
        · simp [subscriptionOf, hg, ho]
        · rw [List.zip_map']
      · exact .inr (by simp [subscriptionOf, hg, Ne.symm ho])

/-- **C95 (nothing else changes).** A call of a built-in method leaves every subscription as it was, but for the flag of
a subscription of the caller that ResendData was called for. -/
theorem C95_frame (w : World) (user : Identity) (session : Nat) (object method : Id) (args : List Arg) :
    let w' := (call w user session object method args).1
    w'.access = w.access ∧
    (w'.subs = w.subs ∨ ∃ s ∈ w.subs, s.owner = session ∧ args = [.u32 s.id] ∧ w.handlers method = .resendData ∧
      w'.subs = w.subs.map (fun x => if x.id = s.id then { x with resend := true } else x)) := by
  dsimp only
  unfold call
  cases hc : Access.call w.access user object method with
  | status st => exact ⟨rfl, .inl rfl⟩
  | runs o m =>
    have hm : m = method := by
      have := (Access.C66_call w.access user object method o m hc)
      exact this.2.1
    subst hm
    dsimp only
    cases hh : w.handlers m with
    | getMonitoredItems => exact ⟨rfl, .inl rfl⟩
    | custom f => exact ⟨rfl, .inl rfl⟩
    | resendData =>
      dsimp only
      refine ⟨rfl, ?_⟩
      unfold resendData
      match args with
      | [] => exact .inl rfl
      | [.other k] => exact .inl rfl
      | .other k :: b :: rest => exact .inl rfl
      | .u32 k :: b :: rest => exact .inl rfl
      | [.u32 id] =>
        cases hg : get w.subs id with
        | none => simp [subscriptionOf, hg]
        | some s =>
          obtain ⟨h1, h2⟩ := get_some hg
          by_cases ho : s.owner = session
          · subst ho
            simp only [subscriptionOf, hg, if_true]
            exact .inr ⟨s, h1, rfl, by rw [h2], trivial, rfl⟩
          · have : ¬ (some session = some s.owner) := fun h => ho (Option.some.inj h).symm
            simp [subscriptionOf, hg, Ne.symm ho]

/-- **C95 (the wrong argument).** The result says which argument has the wrong type exactly if there is one argument and it
is no UInt32. -/
theorem C95_mismatch (t : List Sub) (session : Nat) (args : List Arg) :
    (getMonitoredItems t (some session) args).mismatch = (resendData t (some session) args).2.mismatch ∧
    ((∃ k, args = [.other k]) → (getMonitoredItems t (some session) args).mismatch = [true]) ∧
    ((¬ ∃ k, args = [.other k]) → (getMonitoredItems t (some session) args).mismatch = []) := by
  unfold getMonitoredItems resendData
  match args with
  | [] => simp [subscriptionOf]
  | [.other k] => simp [subscriptionOf]
  | .other k :: b :: rest => simp [subscriptionOf]
  | .u32 k :: b :: rest => simp [subscriptionOf]
  | [.u32 id] =>
    cases hg : get t id with
    | none => simp [subscriptionOf, hg]
    | some s => by_cases ho : some session = some s.owner <;> simp [subscriptionOf, hg, ho]

/-- **C95 (Call).** A call of a built-in method succeeds exactly if the user may call it and the arguments name a
subscription of the caller's own session; an application's method is given the arguments as they are, and its answer is
returned. -/
theorem C95_call (w : World) (hu : Unique w.subs) (user : Identity) (session : Nat) (object method : Id) (args : List Arg) :
    (w.handlers method = .getMonitoredItems ∨ w.handlers method = .resendData →
      ((call w user session object method args).2.status = .good ↔
        Access.Spec.MayCall w.access user object method ∧ Answer w.subs session args .good)) ∧
    (∀ f, w.handlers method = .custom f → Access.Spec.MayCall w.access user object method →
      (call w user session object method args).2.status = .custom (f args)) ∧
    (¬ Access.Spec.MayCall w.access user object method →
      ∃ st, Access.call w.access user object method = .status st ∧
        (call w user session object method args).2 = ⟨.guarded st, [], []⟩) := by
  have hexact := Access.C66_callExact w.access user object method
  have harg := fun st => C95_arguments hu session args st
  cases hc : Access.call w.access user object method with
  | status st =>
    have hno : ¬ Access.Spec.MayCall w.access user object method := by
      intro h
      obtain ⟨o', m', h'⟩ := hexact.2 h
      rw [hc] at h'; cases h'
    refine ⟨fun _ => ⟨fun h => ?_, fun h => absurd h.1 hno⟩, fun f _ h => absurd h hno, fun _ => ⟨st, rfl, ?_⟩⟩
    · simp [call, hc] at h
    · simp [call, hc]
  | runs o m =>
    obtain ⟨rfl, rfl, _⟩ := Access.C66_call w.access user object method o m hc
    have hyes := hexact.1 ⟨o, m, hc⟩
    refine ⟨fun hh => ?_, fun f hf _ => by simp [call, hc, hf], fun h => absurd hyes h⟩
    simp only [hyes, true_and]
    rcases hh with hh | hh
    · rw [(harg .good).1]
      simp [call, hc, hh]
    · rw [(harg .good).2]
      simp [call, hc, hh]

/-- Two subscriptions of the sessions 1 and 2; method 4 of the plant is GetMonitoredItems. -/
def station (h : Handler) : World where
  access := plant
  handlers := fun _ => h
  components := [(⟨1, 9⟩, ⟨1, 4⟩)]
  subs := [⟨5, 1, [⟨1, 100⟩, ⟨2, 200⟩], false⟩, ⟨6, 2, [⟨3, 300⟩], false⟩]

example : Unique (station .resendData).subs := by simp [Unique, station]
example : (call (station .getMonitoredItems) anna 1 ⟨1, 3⟩ ⟨1, 4⟩ [.u32 5]).2 = ⟨.good, [], [[1, 2], [100, 200]]⟩ := by
  decide +kernel
example : Access.Spec.MayCall (station .resendData).access anna ⟨1, 3⟩ ⟨1, 4⟩ :=
  (Access.C66_callExact _ _ _ _).1 ⟨⟨1, 3⟩, ⟨1, 4⟩, by decide +kernel⟩
example : (call (station .getMonitoredItems) anna 1 ⟨1, 3⟩ ⟨1, 4⟩ [.u32 6]).2 = ⟨.badUserAccessDenied, [], []⟩ := by
  decide +kernel
example : (call (station .resendData) anna 2 ⟨1, 3⟩ ⟨1, 4⟩ [.u32 6]).1.subs =
    [⟨5, 1, [⟨1, 100⟩, ⟨2, 200⟩], false⟩, ⟨6, 2, [⟨3, 300⟩], true⟩] := by decide +kernel

/-- The claim is false for the object: the method runs on an object that does not have it. -/
theorem C95_object_fails :
    ∃ (w : World) (object method : Id), (object, method) ∉ w.components ∧
      (call w anna 1 object method [.u32 5]).2.status = .good :=
  ⟨station .getMonitoredItems, ⟨1, 3⟩, ⟨1, 4⟩, by decide +kernel, by decide +kernel⟩

end Opcua.Call
