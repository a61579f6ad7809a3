import Verif.Model.TokenRace

/-! Property C79: a chunk is secured with the keys of the token it names. -/
namespace Opcua.TokenRace

/-- Server: a token change is one step as far as the sender is concerned, that is, it happens only
while no response is being sent, and no response starts before the keys are installed. -/
def Calm : Server → List SEv → Prop
  | _, [] => True
  | s, e :: evs =>
    (match e with
      | .setToken _ => s.locked = false
      | .lock => s.tokenID = s.keyTok
      | _ => True) ∧ Calm (sstep s e) evs

theorem C79_server_partial (evs : List SEv) (s : Server) (hl : s.locked = true → s.tokenID = s.keyTok)
    (hh : ∀ h, s.hdr = some h → s.locked = true ∧ h = s.keyTok) (ho : ∀ p ∈ s.out, p.1 = p.2) (hc : Calm s evs) :
    ∀ p ∈ (srun s evs).out, p.1 = p.2 := by
  induction evs generalizing s with
  | nil => exact ho
  | cons e evs ih =>
    obtain ⟨h1, h2⟩ := hc
    refine ih (sstep s e) ?_ ?_ ?_ h2
    · cases e with
      | setToken t => intro h; dsimp only at h1; change s.locked = true at h; rw [h1] at h; cases h
      | installKeys =>
        intro h; unfold sstep at h ⊢; dsimp only at h ⊢
        split
        · rename_i hk; exact hl hk
        · rfl
      | lock => intro _; exact h1
      | header => unfold sstep; dsimp only; split <;> exact hl
      | secure => unfold sstep; dsimp only; split <;> exact hl
      | unlock => intro h; cases h
    · cases e with
      | setToken t => exact hh
      | installKeys =>
        unfold sstep; dsimp only
        split
        · exact hh
        · rename_i hk; intro h e; exact absurd (hh h e).1 hk
      | lock => intro h e; exact ⟨rfl, (hh h e).2⟩
      | header =>
        unfold sstep; dsimp only
        split
        · rename_i hk; intro h e; cases e; exact ⟨hk, hl hk⟩
        · exact hh
      | secure =>
        unfold sstep; dsimp only
        split
        · intro h e; cases e
        · exact hh
      | unlock => intro h e; cases e
    · cases e with
      | setToken t => exact ho
      | installKeys => unfold sstep; dsimp only; split <;> exact ho
      | lock => exact ho
      | header => unfold sstep; dsimp only; split <;> exact ho
      | secure =>
        unfold sstep; dsimp only
        split
        · rename_i h e
          intro p hp
          rcases List.mem_append.1 hp with hp | hp
          · exact ho p hp
          · simp at hp; subst hp; exact (hh h e).2
        · exact ho
      | unlock => exact ho

example : Calm ⟨1, 1, false, none, []⟩ [.lock, .header, .secure, .header, .secure, .unlock, .setToken 2, .installKeys, .lock, .header, .secure] ∧
    (srun ⟨1, 1, false, none, []⟩ [.lock, .header, .secure, .header, .secure, .unlock, .setToken 2, .installKeys, .lock, .header, .secure]).out
      = [(1, 1), (1, 1), (2, 2)] := by
  simp [Calm, sstep, srun]

/-- The code does not ensure this: readRequest changes the token id before it waits for the sender,
so a response that is being sent in several chunks names the new token in its remaining chunks while
they are secured with the old keys. The client cannot verify them. -/
theorem C79_server_fails :
    (1, 1) ∈ (srun ⟨1, 1, false, none, []⟩ [.lock, .header, .secure, .setToken 2, .header, .secure, .unlock, .installKeys]).out ∧
    (2, 1) ∈ (srun ⟨1, 1, false, none, []⟩ [.lock, .header, .secure, .setToken 2, .header, .secure, .unlock, .installKeys]).out := by
  decide

/-- Client: no renewal completes between writing the token word and securing the chunk. -/
def CCalm : Client → List CEv → Prop
  | _, [] => True
  | s, e :: evs =>
    (match e with
      | .renewed _ => s.hdr = none
      | _ => True) ∧ CCalm (cstep s e) evs

theorem C79_client_partial (evs : List CEv) (s : Client) (hh : ∀ h, s.hdr = some h → h = s.tokenID)
    (ho : ∀ p ∈ s.out, p.1 = p.2) (hc : CCalm s evs) : ∀ p ∈ (crun s evs).out, p.1 = p.2 := by
  induction evs generalizing s with
  | nil => exact ho
  | cons e evs ih =>
    obtain ⟨h1, h2⟩ := hc
    refine ih (cstep s e) ?_ ?_ h2
    · cases e with
      | renewed t => intro h e; change s.hdr = some h at e; rw [h1] at e; cases e
      | header => intro h e; cases e; rfl
      | secure =>
        unfold cstep; dsimp only
        split
        · intro h e; cases e
        · exact hh
    · cases e with
      | renewed t => exact ho
      | header => exact ho
      | secure =>
        unfold cstep; dsimp only
        split
        · rename_i h e
          intro p hp
          rcases List.mem_append.1 hp with hp | hp
          · exact ho p hp
          · simp at hp; subst hp; exact hh h e
        · exact ho

example : CCalm ⟨1, 0, none, []⟩ [.header, .secure, .renewed 2, .header, .secure] := by simp [CCalm, cstep]

/-- The code does not ensure this either: the token word is written before the token lock is taken,
so a renewal that completes in between yields a chunk that names the old token under the new keys. -/
theorem C79_client_fails : (1, 2) ∈ (crun ⟨1, 1, none, []⟩ [.header, .renewed 2, .secure]).out := by
  decide

end Opcua.TokenRace
