import Verif.Spec.AecSyntax
/-
The decoder of Model/Aec meets the promise of `Machine.Ok`.
-/
namespace Davs2.Sx

theorem continue0Loop_le (n : Nat) (a : Aec) (ctx vs i : Nat) (r : Aec × Nat × Nat × Nat × Nat × Bool)
    (h : continue0Loop n a ctx vs i = some r) : r.2.2.2.1 ≤ i + n := by
  induction n generalizing a ctx vs i with
  | zero =>
    unfold continue0Loop at h
    cases h
    exact Nat.le_refl _
  | succ n ih =>
    unfold continue0Loop at h
    dsimp only at h
    cases he : a.enter vs with
    | none => rw [he] at h; cases h
    | some q =>
      obtain ⟨b, vs', f⟩ := q
      rw [he] at h
      cases f with
      | true => cases h; dsimp only; omega
      | false =>
        dsimp only at h
        repeat' split at h
        all_goals first
          | (cases h; done)
          | (simp only [Option.some.injEq] at h; subst h; dsimp only; omega)
          | (have := ih _ _ _ _ h; omega)

theorem continue0_le (a : Aec) (ctx max : Nat) (r : Aec × Nat × Nat) (h : continue0 a ctx max = some r) :
    r.2.2 ≤ max := by
  unfold continue0 at h
  cases hl : continue0Loop max a ctx a.vs 0 with
  | none => rw [hl] at h; cases h
  | some q =>
    have hle := continue0Loop_le _ _ _ _ _ _ hl
    obtain ⟨a', c', vs', i', bit', f⟩ := q
    rw [hl] at h
    cases f <;> cases h <;> dsimp only at hle ⊢ <;> omega

theorem contExtLoop_le (inc n : Nat) (a : Aec) (ctx : Nat → Nat) (i : Nat)
    (r : Aec × (Nat → Nat) × Nat × Nat × Bool) (h : contExtLoop inc n a ctx i = some r) : r.2.2.1 ≤ i + n := by
  induction n generalizing a ctx i with
  | zero =>
    unfold contExtLoop at h
    cases h
    exact Nat.le_refl _
  | succ n ih =>
    unfold contExtLoop at h
    dsimp only at h
    cases he : a.enter a.vs with
    | none => rw [he] at h; cases h
    | some q =>
      obtain ⟨b, vs', f⟩ := q
      rw [he] at h
      cases f with
      | true => cases h; dsimp only; omega
      | false =>
        dsimp only at h
        repeat' split at h
        all_goals first
          | (cases h; done)
          | (simp only [Option.some.injEq] at h; subst h; dsimp only; omega)
          | (have := ih _ _ _ h; omega)

theorem contExt_le (a : Aec) (ctx : Nat → Nat) (inc max : Nat) (r : Aec × (Nat → Nat) × Nat)
    (h : contExt a ctx inc max = some r) : r.2.2 ≤ max := by
  unfold contExt at h
  cases hl : contExtLoop inc max a ctx 0 with
  | none => rw [hl] at h; cases h
  | some q =>
    have hle := contExtLoop_le _ _ _ _ _ _ hl
    obtain ⟨a', c', i', bit', f⟩ := q
    rw [hl] at h
    cases f <;> cases h <;> dsimp only at hle ⊢ <;> omega

theorem aecMachine_ok : aecMachine.Ok where
  run0 := by
    intro a i max s v s' h
    simp only [aecMachine] at h
    split at h
    · rename_i r c v' hc
      cases h
      exact continue0_le _ _ _ _ hc
    · cases h
  runExt := by
    intro a i inc max s v s' h
    simp only [aecMachine] at h
    split at h
    · rename_i r c v' hc
      cases h
      exact contExt_le _ _ _ _ _ hc
    · cases h

end Davs2.Sx
