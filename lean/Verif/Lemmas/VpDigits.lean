import Mathlib.Algebra.BigOperators.Group.Finset.Basic
import Mathlib.Tactic.Ring
import Mathlib.Tactic.Linarith
import Verif.Lemmas.VpSym
/-
Digits to the base 65536 of sums, multiples and slices of numbers.
-/
namespace Davs2.Vp.Sym

/-- Digit `k`. -/
def dig (N k : Nat) : Nat := N / 65536 ^ k % 65536

theorem dig_lt (N k : Nat) : dig N k < 65536 := Nat.mod_lt _ (by decide)

theorem dig_zero (k : Nat) : dig 0 k = 0 := by simp [dig]

theorem dig_succ (N k : Nat) : dig N (k + 1) = dig (N / 65536) k := by
  unfold dig; rw [Nat.div_div_eq_div_mul, Nat.pow_succ, Nat.mul_comm]

theorem dig_small {N : Nat} (h : N < 65536) (k : Nat) : dig N k = if k = 0 then N else 0 := by
  cases k with
  | zero => simp [dig, Nat.mod_eq_of_lt h]
  | succ k => rw [dig_succ, Nat.div_eq_of_lt h, dig_zero]; simp

theorem dig_shr (N m k : Nat) : dig (N / 65536 ^ m) k = dig N (m + k) := by
  unfold dig; rw [Nat.div_div_eq_div_mul, Nat.pow_add]

theorem dig_mod (N m k : Nat) : dig (N % 65536 ^ m) k = if k < m then dig N k else 0 := by
  induction m generalizing N k with
  | zero => simp [Nat.mod_one, dig_zero]
  | succ m ih =>
    have h1 : N % 65536 ^ (m + 1) % 65536 = N % 65536 := by
      rw [Nat.pow_succ]; exact Nat.mod_mod_of_dvd _ (Dvd.intro_left _ rfl)
    have h2 : N % 65536 ^ (m + 1) / 65536 = N / 65536 % 65536 ^ m := by
      rw [Nat.pow_succ, Nat.mul_comm, Nat.mod_mul_right_div_self]
    cases k with
    | zero => simp only [dig, Nat.pow_zero, Nat.div_one, h1]; simp
    | succ k => rw [dig_succ, h2, ih, dig_succ]; simp

theorem dig_shl (N m k : Nat) : dig (N * 65536 ^ m) k = if k < m then 0 else dig N (k - m) := by
  induction m generalizing k with
  | zero => simp
  | succ m ih =>
    cases k with
    | zero => simp only [dig, Nat.pow_zero, Nat.div_one, Nat.pow_succ]; rw [← Nat.mul_assoc]; simp
    | succ k =>
      rw [dig_succ, Nat.pow_succ, ← Nat.mul_assoc, Nat.mul_div_cancel _ (by decide), ih]
      by_cases h : k < m
      · rw [if_pos h, if_pos (by omega)]
      · rw [if_neg h, if_neg (by omega)]; congr 1; omega

theorem dig_add {N M : Nat} (h : ∀ k, dig N k + dig M k < 65536) (k : Nat) : dig (N + M) k = dig N k + dig M k := by
  induction k generalizing N M with
  | zero =>
    have := h 0
    simp only [dig, Nat.pow_zero, Nat.div_one] at *; omega
  | succ k ih =>
    have h0 := h 0
    simp only [dig, Nat.pow_zero, Nat.div_one] at h0
    have : (N + M) / 65536 = N / 65536 + M / 65536 := by omega
    rw [dig_succ, dig_succ, dig_succ, this]
    exact ih fun k => by rw [← dig_succ, ← dig_succ]; exact h (k + 1)

theorem dig_mul {N c : Nat} (h : ∀ k, dig N k * c < 65536) (k : Nat) : dig (N * c) k = dig N k * c := by
  induction k generalizing N with
  | zero =>
    have := h 0
    simp only [dig, Nat.pow_zero, Nat.div_one] at *
    rw [Nat.mul_mod, Nat.mod_eq_of_lt (a := N % 65536 * (c % 65536))]
    · rcases Nat.eq_zero_or_pos (N % 65536) with h' | h'
      · rw [h']; simp
      · have : c < 65536 := by nlinarith
        rw [Nat.mod_eq_of_lt this]
    · exact lt_of_le_of_lt (Nat.mul_le_mul_left _ (Nat.mod_le _ _)) this
  | succ k ih =>
    have h0 := h 0
    simp only [dig, Nat.pow_zero, Nat.div_one] at h0
    have : N * c / 65536 = N / 65536 * c := by
      conv_lhs => rw [← Nat.div_add_mod N 65536, Nat.add_mul, Nat.mul_assoc]
      rw [Nat.mul_add_div (by decide), Nat.div_eq_of_lt h0, Nat.add_zero]
    rw [dig_succ, dig_succ, this]
    exact ih fun k => by rw [← dig_succ]; exact h (k + 1)

theorem dig_ext {N M : Nat} (h : ∀ k, dig N k = dig M k) : N = M := by
  induction N using Nat.strongRecOn generalizing M with
  | _ N ih =>
    have h0 := h 0
    simp only [dig, Nat.pow_zero, Nat.div_one] at h0
    by_cases hN : N = 0
    · subst hN
      by_contra hM
      obtain ⟨k, hk⟩ : ∃ k, dig M k ≠ 0 := by
        clear h ih h0
        induction M using Nat.strongRecOn with
        | _ M ihM =>
          by_cases h' : M % 65536 = 0
          · obtain ⟨k, hk⟩ := ihM (M / 65536) (by omega) (by omega)
            exact ⟨k + 1, by rwa [dig_succ]⟩
          · exact ⟨0, by simpa [dig] using h'⟩
      exact hk (by rw [← h k, dig_zero])
    · have := ih (N / 65536) (by omega) (M := M / 65536) fun k => by rw [← dig_succ, ← dig_succ]; exact h (k + 1)
      omega

/-! ### Cells of `W` digits -/

section
variable {W : Nat}

theorem pow16 (n : Nat) : 2 ^ (16 * n) = 65536 ^ n := by rw [Nat.pow_mul]

theorem sr_eq (N k : Nat) : sr (16 * W) N k = N / 65536 ^ (W * k) := by
  show N >>> (16 * W * k) = _
  rw [Nat.shiftRight_eq_div_pow, Nat.mul_assoc, pow16]

theorem low_eq (n k : Nat) : low n k = n % 2 ^ k := (rfl)

theorem md_eq (N k : Nat) : md (16 * W) N k = N % 65536 ^ (W * k) := by
  show low N (16 * W * k) = _
  rw [low_eq, Nat.mul_assoc, pow16]

theorem sl_eq (N k : Nat) : sl (16 * W) N k = N * 65536 ^ (W * k) := by
  show N <<< (16 * W * k) = _
  rw [Nat.shiftLeft_eq, Nat.mul_assoc, pow16]

theorem dig_sr (N n k : Nat) : dig (sr (16 * W) N n) k = dig N (W * n + k) := by rw [sr_eq, dig_shr]

theorem dig_md (N n k : Nat) : dig (md (16 * W) N n) k = if k < W * n then dig N k else 0 := by rw [md_eq, dig_mod]

theorem dig_sl (N n k : Nat) : dig (sl (16 * W) N n) k = if k < W * n then 0 else dig N (k - W * n) := by rw [sl_eq, dig_shl]

theorem dig_cl (N n k : Nat) : dig (cl (16 * W) N n) k = if k < W then dig N (W * n + k) else 0 := by
  show dig (low (N >>> (16 * W * n)) (16 * W)) k = _
  rw [low_eq, pow16, dig_mod, Nat.shiftRight_eq_div_pow, Nat.mul_assoc, pow16, dig_shr]

theorem dig_cat (N n M k : Nat) : dig (cat (16 * W) N n M) k = if k < W * n then dig N k else dig M (k - W * n) := by
  show dig (md (16 * W) N n + sl (16 * W) M n) k = _
  rw [dig_add, dig_md, dig_sl]
  · by_cases h : k < W * n <;> simp [h]
  · intro k; rw [dig_md, dig_sl]
    by_cases h : k < W * n <;> simp [h, dig_lt]

theorem build_succ (S : Nat) (f : Nat → Nat) (n j : Nat) : build S f (n + 1) j = f j % 2 ^ S + build S f n (j + 1) <<< S := rfl

theorem dig_build (f : Nat → Nat) (n j k : Nat) (hW : 0 < W) :
    dig (build (16 * W) f n j) k = if k < W * n then dig (f (j + k / W)) (k % W) else 0 := by
  induction n generalizing j k with
  | zero => simp only [Nat.mul_zero, Nat.not_lt_zero, if_false]; exact dig_zero k
  | succ n ih =>
    have e : build (16 * W) f (n + 1) j = cat (16 * W) (f j) 1 (build (16 * W) f n (j + 1)) := by
      rw [build_succ]; show _ = md _ _ _ + sl _ _ _
      rw [md_eq, sl_eq, Nat.mul_one, pow16, Nat.shiftLeft_eq, pow16]
    rw [e, dig_cat, Nat.mul_one]
    by_cases h : k < W
    · rw [if_pos h, Nat.div_eq_of_lt h, Nat.mod_eq_of_lt h, if_pos (by rw [Nat.mul_succ]; omega)]; rfl
    · obtain ⟨k, rfl⟩ : ∃ k', k = W + k' := ⟨k - W, by omega⟩
      have h1 : (W + k) / W = k / W + 1 := by rw [Nat.add_div_left _ hW]
      have h2 : (W + k) % W = k % W := by simp
      have h3 : W + k < W * (n + 1) ↔ k < W * n := by rw [Nat.mul_succ]; omega
      rw [if_neg h, ih, h1, h2, Nat.add_sub_cancel_left, show j + (k / W + 1) = j + 1 + k / W from by omega]
      simp only [h3]

theorem dig_build' (f : Nat → Nat) (n j i k : Nat) (hk : k < W) :
    dig (build (16 * W) f n j) (W * i + k) = if i < n then dig (f (j + i)) k else 0 := by
  rw [dig_build f n j _ (by omega), Nat.mul_add_div (by omega), Nat.div_eq_of_lt hk, Nat.mul_add_mod, Nat.mod_eq_of_lt hk, Nat.add_zero]
  by_cases h : i < n
  · rw [if_pos h, if_pos]
    calc W * i + k < W * i + W := by omega
      _ = W * (i + 1) := by ring
      _ ≤ W * n := Nat.mul_le_mul_left _ h
  · rw [if_neg h, if_neg]
    have := Nat.mul_le_mul_left W (Nat.le_of_not_lt h); omega

end

end Davs2.Vp.Sym
