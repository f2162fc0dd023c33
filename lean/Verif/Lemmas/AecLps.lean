import Verif.Lemmas.Aec
/-
Lemmas on the arithmetic decoder: the less probable symbol.
-/
namespace Davs2
open Spec

theorem doublings_eq {t n : Nat} (hn : n ≤ 8) (h1 : 256 ≤ t * 2 ^ n) (h2 : t * 2 ^ n < 512) : doublings t = n := by
  have ht : t ≠ 0 := by rintro rfl; simp at h1
  have hp : 0 < 2 ^ n := Nat.pow_pos (by norm_num)
  have e1 : 2 ^ (8 - n) * 2 ^ n = 256 := by rw [← Nat.pow_add]; rw [show 8 - n + n = 8 by omega]
  have e2 : 2 ^ (8 - n + 1) * 2 ^ n = 512 := by rw [← Nat.pow_add]; rw [show 8 - n + 1 + n = 9 by omega]
  have := (Nat.log2_eq_iff ht (k := 8 - n)).2
    ⟨Nat.le_of_mul_le_mul_right (by rw [e1]; exact h1) hp, Nat.lt_of_mul_lt_mul_right (by rw [e2]; exact h2)⟩
  unfold doublings
  omega

/-- Renormalisation reads the bits that the exact interval needs. -/
theorem Aec.lps_tail {a : Aec} {l : List Bool} (h : RdRep a.rd l) (he : a.err = false) {t : Nat}
    (ht1 : 1 ≤ t) (ht : t < 512) (hv : a.vt < t) :
    ∃ n, n ≤ 8 ∧ renorm 9 t = some (t * 2 ^ n, n) ∧ doublings t = n ∧ 256 ≤ t * 2 ^ n ∧ t * 2 ^ n < 512 ∧
      ((∃ a', (if n = 0 then some (a, false) else a.nextN n) = some (a', true) ∧ a'.err = true ∧ l.length < n) ∨
       (n ≤ l.length ∧ ∃ r v, (if n = 0 then some (a, false) else a.nextN n) = some ({ a with rd := r, vt := v }, false) ∧
          RdRep r (l.drop n) ∧ v < t * 2 ^ n ∧ 2 ^ n * ((a.vt : ℚ) + frac l) = v + frac (l.drop n))) := by
  obtain ⟨n, hn, hr, h1, h2⟩ := renorm_spec 8 t (by omega) ht
  refine ⟨n, hn, hr, doublings_eq hn h1 h2, h1, h2, ?_⟩
  by_cases h0 : n = 0
  · subst h0
    right
    exact ⟨Nat.zero_le _, a.rd, a.vt, by simp, by simpa using h, by simpa using hv, by simp⟩
  · rw [if_neg h0]
    rcases Aec.nextN_spec h he n (by omega) (by omega) with ⟨hl, r, e1, e2⟩ | ⟨hl, a', e1, e2⟩
    · right
      have hb : valOf (l.take n) < 2 ^ n := by
        have := valOf_lt (l.take n)
        rwa [List.length_take, Nat.min_eq_left hl] at this
      have hlt : a.vt * 2 ^ n + valOf (l.take n) < t * 2 ^ n :=
        calc a.vt * 2 ^ n + valOf (l.take n) < (a.vt + 1) * 2 ^ n := by rw [Nat.add_mul]; omega
          _ ≤ t * 2 ^ n := Nat.mul_le_mul_right _ hv
      rw [Nat.mod_eq_of_lt (by omega)] at e1
      refine ⟨hl, r, _, e1, e2, hlt, ?_⟩
      have := frac_take l n hl
      push_cast
      rw [mul_add, this]; ring
    · left
      exact ⟨a', e1, e2, by omega⟩

/-- The block of the less probable symbol.  `c` tells whether one bit is read first. -/
theorem Aec.lps_spec {a : Aec} {l : List Bool} (h : RdRep a.rd l) (he : a.err = false) {vs s2 t2 t : Nat}
    (ht1 : 1 ≤ t) (ht : t < 512) (hvt : a.vt < 256)
    (hcase : (s2 = vs ∧ t2 ≤ a.vt ∧ a.vt < t2 + t) ∨ (s2 ≠ vs ∧ t2 < 256 ∧ 2 * a.vt + 1 + 256 < t2 + t)) :
    (∃ a', a.lps vs s2 t2 t = some (a', true) ∧ a'.err = true ∧ l.length < 9 ∧
      l.length < (if s2 = vs then 0 else 1) + doublings t) ∨
    (∃ r v j, a.lps vs s2 t2 t = some ({ a with rd := r, vt := v, s1 := 0, t1 := t * 2 ^ doublings t - 256 }, false) ∧
      RdRep r (l.drop j) ∧ v < t * 2 ^ doublings t ∧ 256 ≤ t * 2 ^ doublings t ∧ t * 2 ^ doublings t < 512 ∧ j ≤ 9 ∧
      j ≤ l.length ∧ j = (if s2 = vs then 0 else 1) + doublings t ∧
      (v : ℚ) + frac (l.drop j) = 2 ^ doublings t *
        (if s2 = vs then (a.vt : ℚ) + frac l - t2 else 2 * (a.vt + frac l) + 256 - t2)) := by
  have key : ∀ (b : Aec) (lb : List Bool) (w : ℚ), RdRep b.rd lb → b.err = false → b.vt < t →
      (b.vt : ℚ) + frac lb = w →
      (∃ a', (match renorm 9 t with
        | none => none
        | some (t, n) =>
          match (if n = 0 then some (b, false) else b.nextN n) with
          | none => none
          | some (a, true) => some (a, true)
          | some (a, false) => some ({ a with s1 := 0, t1 := t % 256 }, false)) = some (a', true) ∧
          a'.err = true ∧ lb.length < doublings t ∧ doublings t ≤ 8) ∨
      (∃ r v j, (match renorm 9 t with
        | none => none
        | some (t, n) =>
          match (if n = 0 then some (b, false) else b.nextN n) with
          | none => none
          | some (a, true) => some (a, true)
          | some (a, false) => some ({ a with s1 := 0, t1 := t % 256 }, false)) =
            some ({ b with rd := r, vt := v, s1 := 0, t1 := t * 2 ^ doublings t - 256 }, false) ∧
        RdRep r (lb.drop j) ∧ v < t * 2 ^ doublings t ∧ 256 ≤ t * 2 ^ doublings t ∧ t * 2 ^ doublings t < 512 ∧
        j ≤ 8 ∧ j ≤ lb.length ∧ j = doublings t ∧ (v : ℚ) + frac (lb.drop j) = 2 ^ doublings t * w) := by
    intro b lb w hb hbe hbv hw
    obtain ⟨n, hn, hr, hd, h1, h2, hx⟩ := Aec.lps_tail hb hbe ht1 ht hbv
    rw [hr, hd]
    simp only []
    rcases hx with ⟨a', e1, e2, e3⟩ | ⟨hnl, r, v, e1, e2, e3, e4⟩
    · left; rw [e1]; exact ⟨a', rfl, e2, e3, hn⟩
    · right; rw [e1]
      refine ⟨r, v, n, ?_, e2, e3, h1, h2, hn, hnl, rfl, by rw [← e4, hw]⟩
      simp only []
      rw [show t * 2 ^ n % 256 = t * 2 ^ n - 256 by omega]
  unfold Aec.lps
  rcases hcase with ⟨e, h1, h2⟩ | ⟨e, h1, h2⟩
  · simp only [if_pos e]
    have hs : sub32 a.vt t2 = a.vt - t2 := by unfold sub32; omega
    rw [hs]
    rcases key { a with vt := a.vt - t2 } l ((a.vt : ℚ) + frac l - t2) h he (by simp only []; omega)
      (by simp only []; rw [Nat.cast_sub h1]; ring) with ⟨a', e1, e2, e3, e8⟩ | ⟨r, v, j, e1, e2, e3, e4, e5, e6, e8, e9, e7⟩
    · left; exact ⟨a', e1, e2, by omega, by omega⟩
    · right; exact ⟨r, v, j, e1, e2, e3, e4, e5, by omega, e8, by omega, e7⟩
  · simp only [if_neg e]
    cases l with
    | nil =>
      left
      obtain ⟨r, h1, _⟩ := Aec.nextBit_nil h
      rw [h1]
      exact ⟨_, rfl, rfl, by simp, by simp⟩
    | cons bit l =>
      obtain ⟨r0, e0, hr0⟩ := Aec.nextBit_cons h
      have hbit : bit.toNat ≤ 1 := by cases bit <;> simp
      have hm : (2 * a.vt + bit.toNat) % 2 ^ 32 = 2 * a.vt + bit.toNat := Nat.mod_eq_of_lt (by omega)
      rw [hm] at e0
      rw [e0]
      have hs : add32 (2 * a.vt + bit.toNat) (sub32 256 t2) = 2 * a.vt + bit.toNat + (256 - t2) := by
        unfold add32 sub32; omega
      simp only [hs]
      have hw : ((2 * a.vt + bit.toNat + (256 - t2) : Nat) : ℚ) + frac l = 2 * (a.vt + frac (bit :: l)) + 256 - t2 := by
        have := frac_cons bit l
        push_cast [Nat.cast_sub (by omega : t2 ≤ 256)]
        linarith
      rcases key { a with rd := r0, vt := 2 * a.vt + bit.toNat + (256 - t2) } l _ hr0 he (by simp only []; omega)
        hw with ⟨a', e1, e2, e3, e8⟩ | ⟨r, v, j, e1, e2, e3, e4, e5, e6, e8, e9, e7⟩
      · left; exact ⟨a', e1, e2, by simp; omega, by simp; omega⟩
      · right; exact ⟨r, v, j + 1, e1, e2, e3, e4, e5, by omega, by simp; omega, by omega, e7⟩

theorem lt_div_pow {off x M : ℚ} {k E d : Nat} (h : off * 2 ^ k = x) (hk : k = E + d) :
    off < M / 2 ^ E ↔ x < M * 2 ^ d := by
  rw [lt_div_iff₀ (by positivity), ← h, hk, pow_add, ← mul_assoc]
  exact (mul_lt_mul_iff_left₀ (by positivity)).symm

end Davs2
