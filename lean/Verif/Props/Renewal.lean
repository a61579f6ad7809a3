import Verif.Model.Renewal

/-! Property C77: renewing the token does not break the channel. -/
namespace Opcua.Renewal

/-- Renewals do not overlap, and the token in hand has been used before it is replaced. -/
def Serial : State → List Ev → Prop
  | _, [] => True
  | s, e :: evs => (e = .renew → s.live = [] ∧ s.used = true) ∧ Serial (step s e) evs

/-- What the server makes of all messages in the pipe. -/
def drain (v : Server) : List Up → Option (Server × List (Nat × Nat))
  | [] => some (v, [])
  | m :: up =>
    match handle v m with
    | none => none
    | some (v', out) =>
      match drain v' up with
      | none => none
      | some (v'', out') => some (v'', out ++ out')

theorem drain_snoc (up : List Up) (m : Up) : ∀ (v f : Server) (o : List (Nat × Nat)), drain v up = some (f, o) →
    drain v (up ++ [m]) = (handle f m).map (fun x => (x.1, o ++ x.2)) := by
  induction up with
  | nil =>
    intro v f o h
    cases h
    simp only [List.nil_append, drain]
    cases handle v m with
    | none => rfl
    | some x => simp
  | cons a up ih =>
    intro v f o h
    rw [drain] at h
    rw [List.cons_append, drain]
    split at h
    · cases h
    · rename_i v' out e
      split at h
      · cases h
      · rename_i v'' out' e2
        cases h
        rw [ih v' _ _ e2]
        cases handle f m with
        | none => rfl
        | some x => simp

/-- `F` is what the server will be when it has read everything in the pipe. -/
structure Inv (s : State) : Prop where
  sound : s.broken = false
  fut : ∃ F o, drain s.srv s.up = some (F, o) ∧
    (s.tok = F.cur ∨ (s.tok = F.pend ∧ s.live = [] ∧ s.used = false)) ∧
    ∀ id t, (id, t) ∈ s.down ++ o → id < s.nextId ∧ (id ∈ s.live → t = F.pend)
  one : ∀ a b, a ∈ s.live → b ∈ s.live → a = b
  below : ∀ a, a ∈ s.live → a < s.nextId

theorem inv_opened : Inv opened :=
  ⟨rfl, ⟨⟨0, 1, 1⟩, [], rfl, Or.inr ⟨rfl, rfl, rfl⟩, fun id t h => (by cases h)⟩, fun a b h => (by cases h), fun a h => (by cases h)⟩

theorem inv_step {s : State} (I : Inv s) (e : Ev) (hs : e = .renew → s.live = [] ∧ s.used = true) : Inv (step s e) := by
  obtain ⟨F, o, hd, ht, hr⟩ := I.fut
  cases e with
  | send =>
    have hsn := drain_snoc s.up (.msg s.tok) s.srv F o hd
    by_cases hc : F.cur = s.tok
    · refine ⟨I.sound, ⟨F, o, ?_, Or.inl hc.symm, hr⟩, I.one, I.below⟩
      show drain s.srv (s.up ++ [.msg s.tok]) = _
      rw [hsn]
      simp [handle, hc]
    · rcases ht with ht | ⟨ht, hl, hu⟩
      · exact absurd ht.symm hc
      · refine ⟨I.sound, ⟨⟨s.tok, F.pend, F.last⟩, o, ?_, Or.inl rfl, hr⟩, I.one, I.below⟩
        show drain s.srv (s.up ++ [.msg s.tok]) = _
        rw [hsn]
        simp only [handle]
        rw [if_neg hc, if_neg (by simp [ht])]
        simp
  | renew =>
    obtain ⟨hl, hu⟩ := hs rfl
    have hc : s.tok = F.cur := by
      rcases ht with ht | ⟨_, _, ht⟩
      · exact ht
      · rw [hu] at ht; cases ht
    have hsn := drain_snoc s.up (.opn s.nextId) s.srv F o hd
    refine ⟨I.sound, ⟨⟨F.cur, F.last + 1, F.last + 1⟩, o ++ [(s.nextId, F.last + 1)], ?_, Or.inl hc, ?_⟩, ?_, ?_⟩
    · show drain s.srv (s.up ++ [.opn s.nextId]) = _
      rw [hsn]; rfl
    · intro id t hm
      change (id, t) ∈ s.down ++ (o ++ [(s.nextId, F.last + 1)]) at hm
      rw [← List.append_assoc] at hm
      show id < s.nextId + 1 ∧ (id ∈ s.nextId :: s.live → t = F.last + 1)
      rcases List.mem_append.1 hm with hm | hm
      · have := (hr id t hm).1
        refine ⟨by omega, fun h => ?_⟩
        rw [hl] at h
        simp at h
        omega
      · simp at hm
        exact ⟨by omega, fun _ => hm.2⟩
    · intro a b ha hb
      change a ∈ s.nextId :: s.live at ha
      change b ∈ s.nextId :: s.live at hb
      rw [hl] at ha hb
      simp at ha hb
      omega
    · intro a ha
      change a ∈ s.nextId :: s.live at ha
      rw [hl] at ha
      simp at ha
      show a < s.nextId + 1
      omega
  | giveUp id =>
    have hsub : ∀ a, a ∈ s.live.filter (· ≠ id) → a ∈ s.live := fun a h => (List.mem_filter.1 h).1
    refine ⟨I.sound, ⟨F, o, hd, ?_, fun i t h => ⟨(hr i t h).1, fun hl => (hr i t h).2 (hsub _ hl)⟩⟩,
      fun a b ha hb => I.one a b (hsub _ ha) (hsub _ hb), fun a ha => I.below a (hsub _ ha)⟩
    rcases ht with ht | ⟨h1, h2, h3⟩
    · exact Or.inl ht
    · refine Or.inr ⟨h1, ?_, h3⟩
      show s.live.filter _ = []
      rw [h2]; rfl
  | serverRecv =>
    unfold step
    dsimp only
    rw [I.sound, if_neg (by decide)]
    split
    · exact I
    · rename_i m up hup
      rw [hup, drain] at hd
      split at hd
      · cases hd
      · rename_i v out hv
        split at hd
        · cases hd
        · rename_i v' out' hv'
          cases hd
          rw [hv]
          dsimp only
          refine ⟨rfl, ⟨F, out', hv', ht, fun id t h => hr id t ?_⟩, I.one, I.below⟩
          rwa [← List.append_assoc]
  | clientRecv =>
    unfold step
    dsimp only
    split
    · exact I
    · rename_i id t down hdn
      have h0 := hr id t (by rw [hdn]; exact List.mem_cons_self)
      have hrest : ∀ i u, (i, u) ∈ down ++ o → (i, u) ∈ s.down ++ o := fun i u h => by
        rw [hdn]; exact List.mem_cons_of_mem _ h
      split
      · rename_i hl
        have hnone : s.live.filter (· ≠ id) = [] := by
          rw [List.filter_eq_nil_iff]
          intro a ha
          simp [I.one a id ha hl]
        refine ⟨I.sound, ⟨F, o, hd, Or.inr ⟨h0.2 hl, hnone, rfl⟩, fun i u h => ⟨(hr i u (hrest i u h)).1, fun hm => ?_⟩⟩, ?_, ?_⟩
        · change i ∈ s.live.filter (· ≠ id) at hm
          rw [hnone] at hm; cases hm
        · intro a b ha; change a ∈ s.live.filter (· ≠ id) at ha; rw [hnone] at ha; cases ha
        · intro a ha; change a ∈ s.live.filter (· ≠ id) at ha; rw [hnone] at ha; cases ha
      · exact ⟨I.sound, ⟨F, o, hd, ht, fun i u h => hr i u (hrest i u h)⟩, I.one, I.below⟩

/-- As long as renewals do not overlap and each token is used before the next renewal starts, no
interleaving of requests, renewals, renewals that time out, and deliveries makes the server refuse
a token. -/
theorem C77_serial_renewals_partial (evs : List Ev) (hs : Serial opened evs) : (run opened evs).broken = false := by
  suffices h : ∀ (evs : List Ev) s, Inv s → Serial s evs → Inv (run s evs) from (h evs _ inv_opened hs).sound
  intro evs
  induction evs with
  | nil => exact fun s I _ => I
  | cons e evs ih => exact fun s I hs => ih _ (inv_step I e hs.1) hs.2

/-- The hypothesis is met, for example, by a run with a renewal that times out and a second one that
succeeds while requests keep flowing; the client ends on token 3. -/
example :
    let evs : List Ev := [.send, .serverRecv, .renew, .send, .giveUp 0, .serverRecv, .serverRecv, .clientRecv, .renew, .send,
      .serverRecv, .clientRecv, .send, .serverRecv, .serverRecv]
    Serial opened evs ∧ (run opened evs).tok = 3 ∧ (run opened evs).srv.cur = 3 := by
  simp [Serial, opened, step, run, handle]

/-- The code does not keep renewals apart: sendRequest tests the renewal time and moves it in two
steps, so two concurrent requests can both start a renewal. The first response then makes the client
send under token 2 while the server waits for token 3, and the server closes the channel. -/
theorem C77_overlap_fails :
    (run opened [.send, .serverRecv, .renew, .renew, .serverRecv, .serverRecv, .clientRecv, .send, .serverRecv]).broken = true := by
  decide

/-- It also breaks without overlap, when a token is replaced before its first use: a request that is
sent during the renewal still names the token the server has just forgotten. -/
theorem C77_unused_token_fails :
    (run opened [.renew, .send, .serverRecv, .serverRecv]).broken = true := by
  decide

end Opcua.Renewal
