import Verif.Lemmas.Trunc

/-! More stack never changes a result that is not a crash. -/
namespace Opcua

/-- `d'` agrees with `d` wherever `d` does not panic. -/
def Dec.Le (d d' : Dec α) : Prop := ∀ s, d.run s ≠ .panic → d'.run s = d.run s

theorem Le.refl (d : Dec α) : Dec.Le d d := fun _ _ => rfl

theorem Le.crash (d : Dec α) : Dec.Le Dec.crash d := fun _ h => absurd rfl h

theorem Le.bind {d d' : Dec α} {f f' : α → Dec β} (h1 : Dec.Le d d') (h2 : ∀ a, Dec.Le (f a) (f' a)) :
    Dec.Le (d >>= f) (d' >>= f') := by
  intro s hs
  rw [Dec.bind_apply] at hs
  rw [Dec.bind_apply, Dec.bind_apply]
  have : d.run s ≠ .panic := by intro h; rw [h] at hs; exact hs rfl
  rw [h1 s this]
  cases hd : d.run s with
  | ok p =>
    obtain ⟨a, s'⟩ := p
    simp only
    rw [hd] at hs
    exact h2 a s' hs
  | err l => rfl
  | panic => rfl

theorem Le.map {d d' : Dec α} (f : α → β) (h : Dec.Le d d') : Dec.Le (f <$> d) (f <$> d') :=
  Le.bind h fun _ => Le.refl _

theorem Le.ite {p : Prop} [Decidable p] {a a' b b' : Dec α} (h1 : Dec.Le a a') (h2 : Dec.Le b b') :
    Dec.Le (if p then a else b) (if p then a' else b') := by split <;> assumption

theorem Le.decSeq_map {ts : List β} {g g' : β → Dec α} (h : ∀ t, Dec.Le (g t) (g' t)) :
    Dec.Le (decSeq (ts.map g)) (decSeq (ts.map g')) := by
  induction ts with
  | nil => exact Le.refl _
  | cons t ts ih => exact Le.bind (h t) fun _ => Le.bind ih fun _ => Le.refl _

theorem Le.decSeq_replicate {d d' : Dec α} (n : Nat) (h : Dec.Le d d') :
    Dec.Le (decSeq (List.replicate n d)) (decSeq (List.replicate n d')) := by
  induction n with
  | zero => exact Le.refl _
  | succ n ih => exact Le.bind h fun _ => Le.bind ih fun _ => Le.refl _

theorem Le.decArray {d d' : Dec α} (h : Dec.Le d d') : Dec.Le (decArray d) (decArray d') :=
  Le.bind (Le.refl _) fun _ => Le.ite (Le.refl _) (Le.map _ (Le.decSeq_replicate _ h))

theorem Le.readDiag : ∀ {f g : Nat}, f ≤ g → Dec.Le (readDiag f) (readDiag g)
  | 0, g, _ => Le.crash _
  | f + 1, 0, h => absurd h (by omega)
  | f + 1, g + 1, h => by
    simp only [Opcua.readDiag]
    refine Le.bind (Le.refl _) fun b => ?_
    repeat' refine Le.ite (Le.refl _) ?_
    exact Le.ite (Le.bind (Le.readDiag (by omega)) fun _ => Le.refl _) (Le.refl _)

theorem Le.decVariant {r r' : Ty → Dec Val} {f g : Nat} (hfg : f ≤ g) (h : ∀ t, Dec.Le (r t) (r' t)) :
    Dec.Le (decVariant r f) (decVariant r' g) := by
  refine Le.bind (Le.refl _) fun b => ?_
  refine Le.ite (Le.ite (Le.refl _) ?_) (Le.ite (Le.ite (Le.refl _) ?_) (Le.ite (Le.refl _) ?_))
  · split
    · exact Le.refl _
    · exact Le.map _ (h _)
    · exact Le.map _ (h _)
    · exact h _
    · exact Le.map _ (Le.readDiag hfg)
    · exact Le.refl _
  · split
    · exact Le.map _ (Le.decArray (h _))
    · exact Le.refl _
  · split
    · exact Le.bind (Le.decArray (h _)) fun _ => Le.refl _
    · exact Le.refl _

theorem Le.decDataValue {r r' : Ty → Dec Val} (h : ∀ t, Dec.Le (r t) (r' t)) :
    Dec.Le (decDataValue r) (decDataValue r') := by
  refine Le.bind (Le.refl _) fun b => Le.ite ?_ (Le.refl _)
  intro s hs
  simp only at hs ⊢
  have : (r .variant).run s ≠ .panic := by intro h; rw [h] at hs; exact hs rfl
  rw [h _ s this]

theorem Le.decExt {R : Reg} {r r' : Ty → Dec Val} (h : ∀ t, Dec.Le (r t) (r' t)) :
    Dec.Le (decExt R r) (decExt R r') := by
  refine Le.bind (Le.refl _) fun id => Le.bind (Le.refl _) fun b =>
    Le.ite (Le.refl _) (Le.ite ?_ (Le.refl _))
  split
  · exact Le.bind (Le.refl _) fun _ => Le.ite (Le.bind (h _) fun _ => Le.refl _) (Le.refl _)
  · exact Le.refl _

theorem Le.dec (R : Reg) : ∀ (f g : Nat) (ty : Ty), f ≤ g → Dec.Le (dec R f ty) (dec R g ty)
  | 0, g, ty, _ => Le.crash _
  | f + 1, 0, _, h => absurd h (by omega)
  | f + 1, g + 1, ty, h => by
    have ih : ∀ t, Dec.Le (Opcua.dec R f t) (Opcua.dec R g t) := fun t => Le.dec R f g t (by omega)
    cases ty with
    | leaf t => exact Le.refl _
    | bytes => exact Le.refl _
    | struct tys => exact Le.map _ (Le.decSeq_map ih)
    | ptr tys => exact Le.map _ (Le.decSeq_map ih)
    | slice t =>
      exact Le.bind (Le.refl _) fun _ => Le.ite (Le.refl _) (Le.map _ (Le.decSeq_replicate _ (ih t)))
    | variant => exact Le.decVariant (by omega) ih
    | dataValue => exact Le.decDataValue ih
    | ext => exact Le.decExt ih
    | diag => exact Le.map _ (Le.readDiag (by omega))

/-! ### Types whose decoder cannot crash -/

mutual
/-- Types built from leaves, byte slices, structs and slices only. -/
def Ty.plain : Ty → Bool
  | .leaf _ => true
  | .bytes => true
  | .struct ts => Ty.allPlain ts
  | .ptr ts => Ty.allPlain ts
  | .slice t => t.plain
  | _ => false

def Ty.allPlain : List Ty → Bool
  | [] => true
  | t :: ts => t.plain && Ty.allPlain ts
end

mutual
/-- nesting depth of a type -/
def Ty.depth : Ty → Nat
  | .struct ts => 1 + Ty.depthAll ts
  | .ptr ts => 1 + Ty.depthAll ts
  | .slice t => 1 + t.depth
  | _ => 1

def Ty.depthAll : List Ty → Nat
  | [] => 0
  | t :: ts => max t.depth (Ty.depthAll ts)
end

theorem Ty.depth_pos (t : Ty) : 0 < t.depth := by unfold Ty.depth; split <;> omega

mutual
theorem np_plain (R : Reg) : ∀ (ty : Ty) (f : Nat), ty.plain = true → ty.depth ≤ f →
    NoPanic (dec R f ty)
  | ty, 0, _, h => absurd h (by have := ty.depth_pos; omega)
  | .leaf t, f + 1, _, _ => NoPanic.map _ (np_leaf t)
  | .bytes, f + 1, _, _ => NoPanic.map _ np_bytearray
  | .struct ts, f + 1, hp, hd => by
    rw [Ty.plain] at hp; rw [Ty.depth] at hd
    exact NoPanic.map _ (np_plainAll R ts f hp (by omega))
  | .ptr ts, f + 1, hp, hd => by
    rw [Ty.plain] at hp; rw [Ty.depth] at hd
    exact NoPanic.map _ (np_plainAll R ts f hp (by omega))
  | .slice t, f + 1, hp, hd => by
    rw [Ty.plain] at hp; rw [Ty.depth] at hd
    have ih := np_plain R t f hp (by omega)
    exact NoPanic.bind np_i32 fun _ => NoPanic.ite (NoPanic.pure _) (NoPanic.map _
      (NoPanic.decSeq fun d hd => by rw [List.eq_of_mem_replicate hd]; exact ih))
  | .variant, _ + 1, hp, _ => by simp [Ty.plain] at hp
  | .dataValue, _ + 1, hp, _ => by simp [Ty.plain] at hp
  | .ext, _ + 1, hp, _ => by simp [Ty.plain] at hp
  | .diag, _ + 1, hp, _ => by simp [Ty.plain] at hp

theorem np_plainAll (R : Reg) : ∀ (ts : List Ty) (f : Nat), Ty.allPlain ts = true →
    Ty.depthAll ts ≤ f → NoPanic (decSeq (ts.map (dec R f)))
  | [], f, _, _ => NoPanic.pure _
  | t :: ts, f, hp, hd => by
    rw [Ty.allPlain, Bool.and_eq_true] at hp; rw [Ty.depthAll] at hd
    exact NoPanic.bind (np_plain R t f hp.1 (by omega)) fun _ =>
      NoPanic.bind (np_plainAll R ts f hp.2 (by omega)) fun _ => NoPanic.pure _
end

end Opcua
