/-! Lists as histories. -/
namespace Opcua

/-- Induction along a history: the last event is added at the end. -/
@[elab_as_elim]
theorem snocInd {α : Type u} {P : List α → Prop} (l : List α) (nil : P [])
    (append_singleton : ∀ (l : List α) (a : α), P l → P (l ++ [a])) : P l := by
  have key : ∀ l : List α, P l.reverse := by
    intro l
    induction l with
    | nil => exact nil
    | cons a l ih =>
      rw [List.reverse_cons]
      exact append_singleton _ _ ih
  have := key l.reverse
  rwa [List.reverse_reverse] at this

end Opcua
