import Verif.Model.VecInter
import Verif.Lemmas.VecSao
import Mathlib.Tactic.IntervalCases
import Mathlib.Tactic.Linarith
import Mathlib.Algebra.Order.Ring.Abs
/-
The vector versions of the interpolation, lane by lane.
-/
namespace Davs2.Vc
open Davs2.Sa (Plane)

/-! ### Instructions -/

theorem w16_hadd_lo (a b : V) (h k : Nat) (hk : k < 4) :
    w16 (hadd16 a b) (8 * h + k) = wrap16 (w16 a (8 * h + 2 * k) + w16 a (8 * h + (2 * k + 1))) := by
  refine (w16_ofW _ _).trans ?_
  rw [if_pos (by omega), show (8 * h + k) / 8 = h by omega, show (8 * h + k) % 8 = k by omega, Nat.add_assoc (8 * h) (2 * k) 1]

theorem w16_hadd_hi (a b : V) (h k : Nat) (hk : 4 ≤ k ∧ k < 8) :
    w16 (hadd16 a b) (8 * h + k) = wrap16 (w16 b (8 * h + 2 * (k - 4)) + w16 b (8 * h + (2 * (k - 4) + 1))) := by
  refine (w16_ofW _ _).trans ?_
  rw [if_neg (by omega), show (8 * h + k) / 8 = h by omega, show (8 * h + k) % 8 = k by omega, Nat.add_assoc (8 * h) (2 * (k - 4)) 1]

theorem d32_madd16 (a b : V) (i : Nat) :
    d32 (madd16 a b) i = wrap32 (w16 a (2 * i) * w16 b (2 * i) + w16 a (2 * i + 1) * w16 b (2 * i + 1)) := d32_ofD _ i
theorem d32_add32 (a b : V) (i : Nat) : d32 (add32 a b) i = wrap32 (d32 a i + d32 b i) := d32_ofD _ i
theorem d32_range (v : V) (i : Nat) : -2147483648 ≤ d32 v i ∧ d32 v i ≤ 2147483647 := by unfold d32 wrap32; omega
theorem d32_srai12 (a : V) (i : Nat) : d32 (srai32 a 12) i = d32 a i / 4096 :=
  (d32_ofD _ i).trans (wrap32_id (by have := d32_range a i; omega))
theorem d32_set1 (x : Int) (i : Nat) : d32 (set1_32 x) i = wrap32 x := d32_ofD _ i

theorem u8_lo8y (a b : V) (i : Nat) : u8 (unpacklo8y a b) (2 * i) = u8 a (16 * (i / 8) + i % 8) ∧
    u8 (unpacklo8y a b) (2 * i + 1) = u8 b (16 * (i / 8) + i % 8) := by
  unfold u8 unpacklo8y
  rw [if_pos (by omega), if_neg (by omega), show 16 * (2 * i / 16) + 2 * i % 16 / 2 = 16 * (i / 8) + i % 8 by omega,
    show 16 * ((2 * i + 1) / 16) + (2 * i + 1) % 16 / 2 = 16 * (i / 8) + i % 8 by omega]
  exact ⟨rfl, rfl⟩

theorem u8_hi8y (a b : V) (i : Nat) : u8 (unpackhi8y a b) (2 * i) = u8 a (16 * (i / 8) + 8 + i % 8) ∧
    u8 (unpackhi8y a b) (2 * i + 1) = u8 b (16 * (i / 8) + 8 + i % 8) := by
  unfold u8 unpackhi8y
  rw [if_pos (by omega), if_neg (by omega), show 16 * (2 * i / 16) + 8 + 2 * i % 16 / 2 = 16 * (i / 8) + 8 + i % 8 by omega,
    show 16 * ((2 * i + 1) / 16) + 8 + (2 * i + 1) % 16 / 2 = 16 * (i / 8) + 8 + i % 8 by omega]
  exact ⟨rfl, rfl⟩

theorem w16_bytes {a b : V} {i k : Nat} (h0 : a (2 * i) = b (2 * k)) (h1 : a (2 * i + 1) = b (2 * k + 1)) : w16 a i = w16 b k := by
  unfold w16 u16 u8; rw [h0, h1]

theorem w16_lo16y (a b : V) (i : Nat) : w16 (unpacklo16y a b) (2 * i) = w16 a (8 * (i / 4) + i % 4) ∧
    w16 (unpacklo16y a b) (2 * i + 1) = w16 b (8 * (i / 4) + i % 4) := by
  constructor <;> apply w16_bytes <;> unfold unpacklo16y <;> first
    | (rw [if_pos (by omega)]; congr 1; omega)
    | (rw [if_neg (by omega)]; congr 1; omega)

theorem w16_hi16y (a b : V) (i : Nat) : w16 (unpackhi16y a b) (2 * i) = w16 a (8 * (i / 4) + 4 + i % 4) ∧
    w16 (unpackhi16y a b) (2 * i + 1) = w16 b (8 * (i / 4) + 4 + i % 4) := by
  constructor <;> apply w16_bytes <;> unfold unpackhi16y <;> first
    | (rw [if_pos (by omega)]; congr 1; omega)
    | (rw [if_neg (by omega)]; congr 1; omega)

theorem w16_packs32y (a b : V) (i : Nat) : w16 (packs32y a b) i =
    if i % 8 < 4 then sat16 (d32 a (4 * (i / 8) + i % 8)) else sat16 (d32 b (4 * (i / 8) + (i % 8 - 4))) := by
  refine (w16_ofW _ i).trans ?_
  split <;> exact wrap16_sat16 _

theorem u8_permute (imm : Nat) (a : V) (j : Nat) : u8 (permute4x64 imm a) j = u8 a (8 * (imm / 4 ^ (j / 8) % 4) + j % 8) := rfl

theorem w16_permute (imm : Nat) (a : V) (i : Nat) : w16 (permute4x64 imm a) i = w16 a (4 * (imm / 4 ^ (i / 4) % 4) + i % 4) := by
  apply w16_bytes <;> unfold permute4x64
  · rw [show 2 * i / 8 = i / 4 by omega]; congr 1; omega
  · rw [show (2 * i + 1) / 8 = i / 4 by omega]; congr 1; omega

theorem permute_d8 (a : V) (j : Nat) (hj : j < 32) : u8 (permute4x64 0xd8 a) j = u8 (permute4x64_d8 a) j := by
  unfold u8 permute4x64 permute4x64_d8
  congr 2
  by_cases h8 : j < 8
  · rw [if_pos h8, show j / 8 = 0 by omega]; congr 1; norm_num; omega
  · rw [if_neg h8]
    by_cases h16 : j < 16
    · rw [if_pos h16, show j / 8 = 1 by omega]; congr 1; norm_num; omega
    · rw [if_neg h16]
      by_cases h24 : j < 24
      · rw [if_pos h24, show j / 8 = 2 by omega]; congr 1; norm_num; omega
      · rw [if_neg h24, show j / 8 = 3 by omega]; congr 1; norm_num; omega

theorem u8_pack_perm (a b : V) (j : Nat) (hj : j < 32) :
    u8 (permute4x64 0xd8 (packus16y a b)) j = if j < 16 then satu8 (w16 a j) else satu8 (w16 b (j - 16)) := by
  rw [permute_d8 _ _ hj, u8_pack_permute _ _ _ hj]

theorem w16_permutevar (a : V) (idx : List Nat) (i : Nat) : w16 (permutevar8x32 a idx) i = w16 a (2 * idx.getD (i / 2) 0 + i % 2) := by
  apply w16_bytes <;> unfold permutevar8x32
  · rw [show 2 * i / 4 = i / 2 by omega]; congr 1; omega
  · rw [show (2 * i + 1) / 4 = i / 2 by omega]; congr 1; omega

theorem u8_permutevar (a : V) (idx : List Nat) (j : Nat) : u8 (permutevar8x32 a idx) j = u8 a (4 * idx.getD (j / 4) 0 + j % 4) := rfl

theorem w16_permute2_lo (a b : V) (i : Nat) (h : i < 8) : w16 (permute2x128_13 a b) i = w16 b (8 + i) := by
  apply w16_bytes <;> unfold permute2x128_13 <;> rw [if_pos (by omega)] <;> congr 1 <;> omega

theorem w16_permute2_hi (a b : V) (i : Nat) (h : 8 ≤ i) : w16 (permute2x128_13 a b) i = w16 a i := by
  apply w16_bytes <;> unfold permute2x128_13 <;> rw [if_neg (by omega)]

theorem w16_low (a : V) (i : Nat) (h : i < 8) : w16 (low128 a) i = w16 a i := by
  apply w16_bytes <;> unfold low128 <;> rw [if_pos (by omega)]

theorem u8_setm_lo (a b : V) (j : Nat) (h : j < 16) : u8 (setm128 a b) j = u8 b j := by unfold u8 setm128; rw [if_pos h]
theorem u8_setm_hi (a b : V) (j : Nat) : u8 (setm128 a b) (16 + j) = u8 a j := by
  unfold u8 setm128; rw [if_neg (by omega), Nat.add_sub_cancel_left]

theorem w16_loadW (t : Plane) (x y : Int) (i : Nat) : w16 (loadW t x y) i = wrap16 (t (x + i) y) := w16_ofW _ i

theorem u8_shuf (s : V) (l : List Int) (f : Nat → Nat) (j : Nat) (h0 : 0 ≤ l.getD (f j) 0 ∧ l.getD (f j) 0 < 16) :
    u8 (shuffle8y s (ofB fun j => l.getD (f j) 0)) j = u8 s (16 * (j / 16) + (l.getD (f j) 0).toNat) := by
  have e : (ofB fun j => l.getD (f j) 0) j = BitVec.ofInt 8 (l.getD (f j) 0) := rfl
  have key : ∀ x : Int, 0 ≤ x ∧ x < 16 → (BitVec.ofInt 8 x).msb = false ∧ (BitVec.ofInt 8 x).toNat % 16 = x.toNat := by
    intro x hx
    obtain ⟨n, rfl⟩ := Int.eq_ofNat_of_zero_le hx.1
    have : n < 16 := by omega
    interval_cases n <;> exact ⟨by decide, by decide⟩
  unfold u8 shuffle8y
  rw [e, (key _ h0).1, (key _ h0).2, if_neg Bool.false_ne_true]

/-! ### Sums -/

/-- The sum of the absolute values of the coefficients keeps all sums within 16 bits. -/
def Fit (c : List Int) : Prop :=
  |tap c 0| + |tap c 1| + |tap c 2| + |tap c 3| + |tap c 4| + |tap c 5| + |tap c 6| + |tap c 7| ≤ 127

theorem Fit.tap_range {c : List Int} (hc : Fit c) (k : Nat) (hk : k < 8) : -128 ≤ tap c k ∧ tap c k ≤ 127 := by
  unfold Fit at hc
  have p := fun i => abs_nonneg (tap c i)
  have p0 := p 0; have p1 := p 1; have p2 := p 2; have p3 := p 3
  have p4 := p 4; have p5 := p 5; have p6 := p 6; have p7 := p 7
  have : |tap c k| ≤ 127 := by interval_cases k <;> omega
  have := abs_le.1 this
  omega

/-- The sum of eight products. -/
def sum8 (c : List Int) (s : Nat → Int) : Int :=
  s 0 * tap c 0 + s 1 * tap c 1 + s 2 * tap c 2 + s 3 * tap c 3 + s 4 * tap c 4 + s 5 * tap c 5 + s 6 * tap c 6 + s 7 * tap c 7

theorem sum8_congr {c : List Int} {s s' : Nat → Int} (h : ∀ k, k < 8 → s k = s' k) : sum8 c s = sum8 c s' := by
  unfold sum8
  rw [h 0 (by omega), h 1 (by omega), h 2 (by omega), h 3 (by omega), h 4 (by omega), h 5 (by omega), h 6 (by omega), h 7 (by omega)]

theorem tap_bound (b s c : Int) (hb : -b ≤ s ∧ s ≤ b) : -(b * |c|) ≤ s * c ∧ s * c ≤ b * |c| := by
  have h := abs_le.2 hb
  have := abs_mul s c
  have h2 := mul_le_mul_of_nonneg_right h (abs_nonneg c)
  rw [← this] at h2
  exact abs_le.1 h2

/-- Products and bounds with names, ready for linear arithmetic. -/
theorem prods (b : Int) (c : List Int) (hc : Fit c) (s : Nat → Int) (hs : ∀ k, k < 8 → -b ≤ s k ∧ s k ≤ b) :
    ∃ b0 b1 b2 b3 b4 b5 b6 b7 : Int, (0 ≤ b0 ∧ 0 ≤ b1 ∧ 0 ≤ b2 ∧ 0 ≤ b3 ∧ 0 ≤ b4 ∧ 0 ≤ b5 ∧ 0 ≤ b6 ∧ 0 ≤ b7 ∧
      b0 + b1 + b2 + b3 + b4 + b5 + b6 + b7 ≤ 127) ∧
      (-(b * b0) ≤ s 0 * tap c 0 ∧ s 0 * tap c 0 ≤ b * b0) ∧ (-(b * b1) ≤ s 1 * tap c 1 ∧ s 1 * tap c 1 ≤ b * b1) ∧
      (-(b * b2) ≤ s 2 * tap c 2 ∧ s 2 * tap c 2 ≤ b * b2) ∧ (-(b * b3) ≤ s 3 * tap c 3 ∧ s 3 * tap c 3 ≤ b * b3) ∧
      (-(b * b4) ≤ s 4 * tap c 4 ∧ s 4 * tap c 4 ≤ b * b4) ∧ (-(b * b5) ≤ s 5 * tap c 5 ∧ s 5 * tap c 5 ≤ b * b5) ∧
      (-(b * b6) ≤ s 6 * tap c 6 ∧ s 6 * tap c 6 ≤ b * b6) ∧ (-(b * b7) ≤ s 7 * tap c 7 ∧ s 7 * tap c 7 ≤ b * b7) := by
  refine ⟨_, _, _, _, _, _, _, _, ⟨abs_nonneg _, abs_nonneg _, abs_nonneg _, abs_nonneg _, abs_nonneg _, abs_nonneg _, abs_nonneg _,
    abs_nonneg _, hc⟩, tap_bound b _ _ (hs 0 (by omega)), tap_bound b _ _ (hs 1 (by omega)), tap_bound b _ _ (hs 2 (by omega)),
    tap_bound b _ _ (hs 3 (by omega)), tap_bound b _ _ (hs 4 (by omega)), tap_bound b _ _ (hs 5 (by omega)),
    tap_bound b _ _ (hs 6 (by omega)), tap_bound b _ _ (hs 7 (by omega))⟩

def ByteLike (s : Nat → Int) : Prop := ∀ k, k < 8 → -255 ≤ s k ∧ s k ≤ 255

theorem sum8_range {c : List Int} (hc : Fit c) {s : Nat → Int} (hs : ByteLike s) : -32385 ≤ sum8 c s ∧ sum8 c s ≤ 32385 := by
  obtain ⟨b0, b1, b2, b3, b4, b5, b6, b7, ⟨n0, n1, n2, n3, n4, n5, n6, n7, hb⟩, q0, q1, q2, q3, q4, q5, q6, q7⟩ := prods 255 c hc s hs
  unfold sum8; omega

theorem sums16 {c : List Int} (hc : Fit c) {s : Nat → Int} (hs : ByteLike s) :
    wrap16 (wrap16 (sat16 (s 0 * tap c 0 + s 1 * tap c 1) + sat16 (s 2 * tap c 2 + s 3 * tap c 3)) +
      wrap16 (sat16 (s 4 * tap c 4 + s 5 * tap c 5) + sat16 (s 6 * tap c 6 + s 7 * tap c 7))) = sum8 c s := by
  obtain ⟨b0, b1, b2, b3, b4, b5, b6, b7, ⟨n0, n1, n2, n3, n4, n5, n6, n7, hb⟩, q0, q1, q2, q3, q4, q5, q6, q7⟩ := prods 255 c hc s hs
  unfold sum8
  generalize s 0 * tap c 0 = p0 at *
  generalize s 1 * tap c 1 = p1 at *
  generalize s 2 * tap c 2 = p2 at *
  generalize s 3 * tap c 3 = p3 at *
  generalize s 4 * tap c 4 = p4 at *
  generalize s 5 * tap c 5 = p5 at *
  generalize s 6 * tap c 6 = p6 at *
  generalize s 7 * tap c 7 = p7 at *
  rw [sat16_id (by omega), sat16_id (by omega), sat16_id (by omega), sat16_id (by omega), wrap16_id (x := p0 + p1 + (p2 + p3)) (by omega),
    wrap16_id (x := p4 + p5 + (p6 + p7)) (by omega), wrap16_id (by omega)]
  omega

theorem sums16c {c : List Int} (hc : Fit c) (h4 : tap c 4 = 0 ∧ tap c 5 = 0 ∧ tap c 6 = 0 ∧ tap c 7 = 0) {s : Nat → Int} (hs : ByteLike s) :
    wrap16 (sat16 (s 0 * tap c 0 + s 1 * tap c 1) + sat16 (s 2 * tap c 2 + s 3 * tap c 3)) = sum8 c s := by
  rw [← sums16 hc hs, h4.1, h4.2.1, h4.2.2.1, h4.2.2.2]
  simp only [mul_zero, add_zero]
  rw [show sat16 0 = 0 from rfl]
  unfold wrap16; omega

theorem sums32 {c : List Int} (hc : Fit c) {s : Nat → Int} (hs : ∀ k, k < 8 → -32768 ≤ s k ∧ s k ≤ 32768) :
    wrap32 (wrap32 (wrap32 (wrap32 (s 0 * tap c 0 + s 1 * tap c 1) + wrap32 (s 2 * tap c 2 + s 3 * tap c 3)) +
      wrap32 (wrap32 (s 4 * tap c 4 + s 5 * tap c 5) + wrap32 (s 6 * tap c 6 + s 7 * tap c 7))) + 2048) = sum8 c s + 2048 := by
  obtain ⟨b0, b1, b2, b3, b4, b5, b6, b7, ⟨n0, n1, n2, n3, n4, n5, n6, n7, hb⟩, q0, q1, q2, q3, q4, q5, q6, q7⟩ := prods 32768 c hc s hs
  unfold sum8
  generalize s 0 * tap c 0 = p0 at *
  generalize s 1 * tap c 1 = p1 at *
  generalize s 2 * tap c 2 = p2 at *
  generalize s 3 * tap c 3 = p3 at *
  generalize s 4 * tap c 4 = p4 at *
  generalize s 5 * tap c 5 = p5 at *
  generalize s 6 * tap c 6 = p6 at *
  generalize s 7 * tap c 7 = p7 at *
  rw [wrap32_id (x := p0 + p1) (by omega), wrap32_id (x := p2 + p3) (by omega), wrap32_id (x := p4 + p5) (by omega),
    wrap32_id (x := p6 + p7) (by omega), wrap32_id (x := p0 + p1 + (p2 + p3)) (by omega),
    wrap32_id (x := p4 + p5 + (p6 + p7)) (by omega), wrap32_id (x := p0 + p1 + (p2 + p3) + (p4 + p5 + (p6 + p7))) (by omega),
    wrap32_id (by omega)]
  omega

theorem i8_c8 {c : List Int} (hc : Fit c) (j : Nat) : i8 (set1_c8 c) j = tap c (j % 8) := by
  unfold set1_c8
  rw [i8_ofB]
  have := hc.tap_range (j % 8) (by omega)
  unfold tap at *; omega

theorem i8_c4 {c : List Int} (hc : Fit c) (j : Nat) : i8 (set1_c4 c) j = tap c (j % 4) := by
  unfold set1_c4
  rw [i8_ofB]
  have := hc.tap_range (j % 4) (by omega)
  unfold tap at *; omega

theorem i8_c2 {c : List Int} (hc : Fit c) (k k' : Nat) (hk : k < 8) (hk' : k' < 8) (i : Nat) :
    i8 (set1_c2 (tap c k) (tap c k')) (2 * i) = tap c k ∧ i8 (set1_c2 (tap c k) (tap c k')) (2 * i + 1) = tap c k' := by
  have := hc.tap_range k hk
  have := hc.tap_range k' hk'
  unfold set1_c2
  rw [i8_ofB, i8_ofB, if_pos (by omega), if_neg (by omega)]
  omega

theorem i8_s1 {c : List Int} (hc : Fit c) (k : Nat) (hk : k < 8) (j : Nat) : i8 (set1_8 (tap c k)) j = tap c k :=
  i8_set1 (hc.tap_range k hk) j

/-! ### Horizontal sums -/

theorem madd_shuf8 {c : List Int} (hc : Fit c) (s : V) (l : List Int) (f : Nat → Nat) (h m : Nat) (hm : m < 8) (a b : Nat)
    (h0 : l.getD (f (2 * (8 * h + m))) 0 = a ∧ a < 16) (h1 : l.getD (f (2 * (8 * h + m) + 1)) 0 = b ∧ b < 16) :
    w16 (maddubs (shuffle8y s (ofB fun j => l.getD (f j) 0)) (set1_c8 c)) (8 * h + m) =
      sat16 (u8 s (16 * h + a) * tap c (2 * m % 8) + u8 s (16 * h + b) * tap c ((2 * m + 1) % 8)) := by
  rw [w16_maddubs, i8_c8 hc, i8_c8 hc, u8_shuf _ _ _ _ (by omega), u8_shuf _ _ _ _ (by omega), h0.1, h1.1]
  rw [show 2 * (8 * h + m) / 16 = h by omega, show (2 * (8 * h + m) + 1) / 16 = h by omega, Int.toNat_natCast, Int.toNat_natCast,
    show 2 * (8 * h + m) % 8 = 2 * m % 8 by omega, show (2 * (8 * h + m) + 1) % 8 = (2 * m + 1) % 8 by omega]

theorem madd_shuf4 {c : List Int} (hc : Fit c) (s : V) (l : List Int) (f : Nat → Nat) (h m : Nat) (hm : m < 8) (a b : Nat)
    (h0 : l.getD (f (2 * (8 * h + m))) 0 = a ∧ a < 16) (h1 : l.getD (f (2 * (8 * h + m) + 1)) 0 = b ∧ b < 16) :
    w16 (maddubs (shuffle8y s (ofB fun j => l.getD (f j) 0)) (set1_c4 c)) (8 * h + m) =
      sat16 (u8 s (16 * h + a) * tap c (2 * m % 4) + u8 s (16 * h + b) * tap c ((2 * m + 1) % 4)) := by
  rw [w16_maddubs, i8_c4 hc, i8_c4 hc, u8_shuf _ _ _ _ (by omega), u8_shuf _ _ _ _ (by omega), h0.1, h1.1]
  rw [show 2 * (8 * h + m) / 16 = h by omega, show (2 * (8 * h + m) + 1) / 16 = h by omega, Int.toNat_natCast, Int.toNat_natCast,
    show 2 * (8 * h + m) % 4 = 2 * m % 4 by omega, show (2 * (8 * h + m) + 1) % 4 = (2 * m + 1) % 4 by omega]

/-- Word `8 h + m` of the products of a shuffled register, with the entries `2 m`, `2 m + 1` of the shuffle. -/
theorem madd_both8 {c : List Int} (hc : Fit c) (s : V) (l : List Int) (hl : ∀ k < 16, 0 ≤ l.getD k 0 ∧ l.getD k 0 < 16) (h m : Nat) (hm : m < 8) :
    w16 (maddubs (shuffle8y s (setrBoth l)) (set1_c8 c)) (8 * h + m) =
      sat16 (u8 s (16 * h + (l.getD (2 * m) 0).toNat) * tap c (2 * m % 8) + u8 s (16 * h + (l.getD (2 * m + 1) 0).toNat) * tap c ((2 * m + 1) % 8)) := by
  have a := hl (2 * m) (by omega)
  have b := hl (2 * m + 1) (by omega)
  exact madd_shuf8 hc s l (· % 16) h m hm _ _ ⟨by rw [show 2 * (8 * h + m) % 16 = 2 * m by omega]; omega, by omega⟩
    ⟨by rw [show (2 * (8 * h + m) + 1) % 16 = 2 * m + 1 by omega]; omega, by omega⟩

theorem madd_both4 {c : List Int} (hc : Fit c) (s : V) (l : List Int) (hl : ∀ k < 16, 0 ≤ l.getD k 0 ∧ l.getD k 0 < 16) (h m : Nat) (hm : m < 8) :
    w16 (maddubs (shuffle8y s (setrBoth l)) (set1_c4 c)) (8 * h + m) =
      sat16 (u8 s (16 * h + (l.getD (2 * m) 0).toNat) * tap c (2 * m % 4) + u8 s (16 * h + (l.getD (2 * m + 1) 0).toNat) * tap c ((2 * m + 1) % 4)) := by
  have a := hl (2 * m) (by omega)
  have b := hl (2 * m + 1) (by omega)
  exact madd_shuf4 hc s l (· % 16) h m hm _ _ ⟨by rw [show 2 * (8 * h + m) % 16 = 2 * m by omega]; omega, by omega⟩
    ⟨by rw [show (2 * (8 * h + m) + 1) % 16 = 2 * m + 1 by omega]; omega, by omega⟩

theorem byteLike_u8 (s : V) (o : Nat) : ByteLike fun k => u8 s (o + k) := by
  intro k _; have := u8_range s (o + k); dsimp only; omega

theorem w16_horL {c : List Int} (hc : Fit c) (s : V) (h r : Nat) (hr : r < 8) :
    w16 (horL c s) (8 * h + r) = sum8 c fun k => u8 s (16 * h + r + k) := by
  have l1 : ∀ k < 16, 0 ≤ swL1.getD k 0 ∧ swL1.getD k 0 < 16 := by decide
  have l2 : ∀ k < 16, 0 ≤ swL2.getD k 0 ∧ swL2.getD k 0 < 16 := by decide
  have l3 : ∀ k < 16, 0 ≤ swL3.getD k 0 ∧ swL3.getD k 0 < 16 := by decide
  have l4 : ∀ k < 16, 0 ≤ swL4.getD k 0 ∧ swL4.getD k 0 < 16 := by decide
  rw [← sums16 hc (byteLike_u8 s (16 * h + r))]
  unfold horL
  dsimp only
  interval_cases r <;>
    simp only [w16_hadd_lo, w16_hadd_hi, madd_both8 hc _ _ l1, madd_both8 hc _ _ l2, madd_both8 hc _ _ l3, madd_both8 hc _ _ l4,
      Nat.reduceLT, Nat.reduceLeDiff, Nat.reduceMul, Nat.reduceAdd, Nat.reduceSub, Nat.reduceMod, and_self, Nat.add_assoc] <;> rfl

theorem w16_horC {c : List Int} (hc : Fit c) (h4 : tap c 4 = 0 ∧ tap c 5 = 0 ∧ tap c 6 = 0 ∧ tap c 7 = 0) (s : V) (h r : Nat) (hr : r < 8) :
    w16 (horC c s) (8 * h + r) = sum8 c fun k => u8 s (16 * h + r + k) := by
  have l1 : ∀ k < 16, 0 ≤ swC1.getD k 0 ∧ swC1.getD k 0 < 16 := by decide
  have l2 : ∀ k < 16, 0 ≤ swC2.getD k 0 ∧ swC2.getD k 0 < 16 := by decide
  rw [← sums16c hc h4 (byteLike_u8 s (16 * h + r))]
  unfold horC
  interval_cases r <;>
    simp only [w16_hadd_lo, w16_hadd_hi, madd_both4 hc _ _ l1, madd_both4 hc _ _ l2,
      Nat.reduceLT, Nat.reduceLeDiff, Nat.reduceMul, Nat.reduceAdd, Nat.reduceSub, Nat.reduceMod, and_self, Nat.add_assoc] <;> rfl

/-- The shuffle of the second row of sums for 24 columns: word `m` of the products of a 32-entry shuffle, lower (`h = 0`) or upper half. -/
theorem madd_set8 {c : List Int} (hc : Fit c) (s : V) (l : List Int) (hl : ∀ k < 32, 0 ≤ l.getD k 0 ∧ l.getD k 0 < 16) (h m : Nat)
    (hh : h < 2) (hm : m < 8) :
    w16 (maddubs (shuffle8y s (setr8 l)) (set1_c8 c)) (8 * h + m) =
      sat16 (u8 s (16 * h + (l.getD (2 * (8 * h + m)) 0).toNat) * tap c (2 * m % 8) +
        u8 s (16 * h + (l.getD (2 * (8 * h + m) + 1) 0).toNat) * tap c ((2 * m + 1) % 8)) := by
  have a := hl (2 * (8 * h + m)) (by omega)
  have b := hl (2 * (8 * h + m) + 1) (by omega)
  exact madd_shuf8 hc s l id h m hm _ _ ⟨by show l.getD (2 * (8 * h + m)) 0 = _; omega, by omega⟩
    ⟨by show l.getD (2 * (8 * h + m) + 1) 0 = _; omega, by omega⟩

theorem madd_set4 {c : List Int} (hc : Fit c) (s : V) (l : List Int) (hl : ∀ k < 32, 0 ≤ l.getD k 0 ∧ l.getD k 0 < 16) (h m : Nat)
    (hh : h < 2) (hm : m < 8) :
    w16 (maddubs (shuffle8y s (setr8 l)) (set1_c4 c)) (8 * h + m) =
      sat16 (u8 s (16 * h + (l.getD (2 * (8 * h + m)) 0).toNat) * tap c (2 * m % 4) +
        u8 s (16 * h + (l.getD (2 * (8 * h + m) + 1) 0).toNat) * tap c ((2 * m + 1) % 4)) := by
  have a := hl (2 * (8 * h + m)) (by omega)
  have b := hl (2 * (8 * h + m) + 1) (by omega)
  exact madd_shuf4 hc s l id h m hm _ _ ⟨by show l.getD (2 * (8 * h + m)) 0 = _; omega, by omega⟩
    ⟨by show l.getD (2 * (8 * h + m) + 1) 0 = _; omega, by omega⟩

/-- With `0x99` both halves hold bytes 8 to 23. -/
theorem u8_p99 (s : V) (h k : Nat) (hh : h < 2) (hk : k < 16) : u8 (permute4x64 0x99 s) (16 * h + k) = u8 s (8 + k) := by
  rw [u8_permute]
  congr 1
  by_cases h8 : k < 8
  · rw [show (16 * h + k) / 8 = 2 * h by omega]; interval_cases h <;> norm_num <;> omega
  · rw [show (16 * h + k) / 8 = 2 * h + 1 by omega]; interval_cases h <;> norm_num <;> omega

/-- With `0x94` the halves hold bytes 0 to 15 and 8 to 23. -/
theorem u8_p94 (s : V) (h k : Nat) (hh : h < 2) (hk : k < 16) : u8 (permute4x64 0x94 s) (16 * h + k) = u8 s (8 * h + k) := by
  rw [u8_permute]
  congr 1
  by_cases h8 : k < 8
  · rw [show (16 * h + k) / 8 = 2 * h by omega]; interval_cases h <;> norm_num <;> omega
  · rw [show (16 * h + k) / 8 = 2 * h + 1 by omega]; interval_cases h <;> norm_num <;> omega

/-- The sums of columns 8 to 15 of 24, luma, one pass. -/
theorem w16_midA {c : List Int} (hc : Fit c) (s : V) (r : Nat) (hr : r < 8) :
    w16 (permutevar8x32 (round16 (hadd16 (hadd16 (maddubs (shuffle8y (permute4x64 0x99 s) (setr8 swA1)) (set1_c8 c))
      (maddubs (shuffle8y (permute4x64 0x99 s) (setr8 swA2)) (set1_c8 c))) (hadd16 (maddubs (shuffle8y (permute4x64 0x99 s) (setr8 swA1)) (set1_c8 c))
      (maddubs (shuffle8y (permute4x64 0x99 s) (setr8 swA2)) (set1_c8 c))))) [0, 4, 1, 5, 2, 6, 3, 7]) r =
    (sum8 c (fun k => u8 s (8 + (r + k))) + 32) / 64 := by
  have l1 : ∀ k < 32, 0 ≤ swA1.getD k 0 ∧ swA1.getD k 0 < 16 := by decide
  have l2 : ∀ k < 32, 0 ≤ swA2.getD k 0 ∧ swA2.getD k 0 < 16 := by decide
  have hb : ByteLike fun k => u8 s (8 + (r + k)) := by intro k _; have := u8_range s (8 + (r + k)); dsimp only; omega
  have hsum := sum8_range hc hb
  rw [w16_permutevar]
  unfold round16
  rw [w16_srai16, w16_add16, w16_set1]
  have key : w16 (hadd16 (hadd16 (maddubs (shuffle8y (permute4x64 0x99 s) (setr8 swA1)) (set1_c8 c))
      (maddubs (shuffle8y (permute4x64 0x99 s) (setr8 swA2)) (set1_c8 c))) (hadd16 (maddubs (shuffle8y (permute4x64 0x99 s) (setr8 swA1)) (set1_c8 c))
      (maddubs (shuffle8y (permute4x64 0x99 s) (setr8 swA2)) (set1_c8 c)))) (2 * [0, 4, 1, 5, 2, 6, 3, 7].getD (r / 2) 0 + r % 2) =
      sum8 c (fun k => u8 s (8 + (r + k))) := by
    rw [← sums16 hc hb]
    obtain ⟨h, m, hh, hm, e, et⟩ : ∃ h m, h < 2 ∧ m < 4 ∧ 2 * [0, 4, 1, 5, 2, 6, 3, 7].getD (r / 2) 0 + r % 2 = 8 * h + m ∧
        r = 4 * (m / 2) + 2 * h + m % 2 := by
      interval_cases r
      exacts [⟨0, 0, by decide⟩, ⟨0, 1, by decide⟩, ⟨1, 0, by decide⟩, ⟨1, 1, by decide⟩, ⟨0, 2, by decide⟩, ⟨0, 3, by decide⟩,
        ⟨1, 2, by decide⟩, ⟨1, 3, by decide⟩]
    rw [e, et]
    clear e et hb hsum
    interval_cases m <;>
    simp only [w16_hadd_lo, w16_hadd_hi, madd_set8 hc _ _ l1 _ _ hh, madd_set8 hc _ _ l2 _ _ hh,
      Nat.reduceLT, Nat.reduceLeDiff, Nat.reduceMul, Nat.reduceAdd, Nat.reduceSub, Nat.reduceMod, and_self] <;>
    interval_cases h <;> rfl
  rw [key, wrap16_id (x := 32) (by omega), wrap16_id (by omega)]
  norm_num

/-- The sums of columns 8 to 15 of 24, luma, first of two passes. -/
theorem w16_midB {c : List Int} (hc : Fit c) (s : V) (r : Nat) (hr : r < 8) :
    w16 (permute4x64 0xd8 (hadd16 (hadd16 (maddubs (shuffle8y (permute4x64 0x99 s) (setr8 swB1)) (set1_c8 c))
      (maddubs (shuffle8y (permute4x64 0x99 s) (setr8 swB2)) (set1_c8 c))) (hadd16 (maddubs (shuffle8y (permute4x64 0x99 s) (setr8 swB1)) (set1_c8 c))
      (maddubs (shuffle8y (permute4x64 0x99 s) (setr8 swB2)) (set1_c8 c))))) (8 + r) =
    sum8 c (fun k => u8 s (8 + (r + k))) := by
  have l1 : ∀ k < 32, 0 ≤ swB1.getD k 0 ∧ swB1.getD k 0 < 16 := by decide
  have l2 : ∀ k < 32, 0 ≤ swB2.getD k 0 ∧ swB2.getD k 0 < 16 := by decide
  have hb : ByteLike fun k => u8 s (8 + (r + k)) := by intro k _; have := u8_range s (8 + (r + k)); dsimp only; omega
  rw [w16_permute, ← sums16 hc hb]
  obtain ⟨h, m, hh, hm, e, et⟩ : ∃ h m, h < 2 ∧ (4 ≤ m ∧ m < 8) ∧ 4 * (0xd8 / 4 ^ ((8 + r) / 4) % 4) + (8 + r) % 4 = 8 * h + m ∧
      r = 4 * h + (m - 4) := by
    interval_cases r
    exacts [⟨0, 4, by decide⟩, ⟨0, 5, by decide⟩, ⟨0, 6, by decide⟩, ⟨0, 7, by decide⟩, ⟨1, 4, by decide⟩, ⟨1, 5, by decide⟩,
      ⟨1, 6, by decide⟩, ⟨1, 7, by decide⟩]
  rw [e, et]
  clear e et hb
  obtain ⟨hm, hm'⟩ := hm
  interval_cases m <;>
  simp only [w16_hadd_lo, w16_hadd_hi, madd_set8 hc _ _ l1 _ _ hh, madd_set8 hc _ _ l2 _ _ hh,
    Nat.reduceLT, Nat.reduceLeDiff, Nat.reduceMul, Nat.reduceAdd, Nat.reduceSub, Nat.reduceMod, and_self] <;>
  interval_cases h <;> rfl

/-- The sums of columns 8 to 15 of 24, chroma. -/
theorem w16_midC {c : List Int} (hc : Fit c) (h4 : tap c 4 = 0 ∧ tap c 5 = 0 ∧ tap c 6 = 0 ∧ tap c 7 = 0) (s : V) (h m : Nat) (hh : h < 2)
    (hm : m < 8) :
    w16 (hadd16 (maddubs (shuffle8y (permute4x64 0x99 s) (setr8 swD)) (set1_c4 c)) (maddubs (shuffle8y (permute4x64 0x99 s) (setr8 swD)) (set1_c4 c)))
      (8 * h + m) = sum8 c (fun k => u8 s (8 + (4 * h + m % 4 + k))) := by
  have l1 : ∀ k < 32, 0 ≤ swD.getD k 0 ∧ swD.getD k 0 < 16 := by decide
  have hb : ByteLike fun k => u8 s (8 + (4 * h + m % 4 + k)) := by intro k _; have := u8_range s (8 + (4 * h + m % 4 + k)); dsimp only; omega
  rw [← sums16c hc h4 hb]
  clear hb
  interval_cases m <;>
  simp only [w16_hadd_lo, w16_hadd_hi, madd_set4 hc _ _ l1 _ _ hh,
    Nat.reduceLT, Nat.reduceLeDiff, Nat.reduceMul, Nat.reduceAdd, Nat.reduceSub, Nat.reduceMod, and_self] <;>
  interval_cases h <;> rfl

/-! ### Rounding -/

theorem clip1_satu8 (v : Int) : clip1 v = satu8 v := by
  unfold clip1 satu8
  split
  · omega
  · split <;> omega

theorem w16_round {v : V} {i : Nat} {x : Int} (e : w16 v i = x) (h : -32385 ≤ x ∧ x ≤ 32385) : w16 (round16 v) i = (x + 32) / 64 := by
  unfold round16
  rw [w16_srai16, w16_add16, w16_set1, e, wrap16_id (x := 32) (by omega), wrap16_id (by omega)]
  norm_num

theorem u8_fin8 {v : V} {j : Nat} {x : Int} (hj : j < 8) (e : w16 v j = x) (h : -32385 ≤ x ∧ x ≤ 32385) :
    u8 (fin8 v) j = clip1 ((x + 32) / 64) := by
  unfold fin8
  rw [u8_packus16, if_pos hj, w16_round e h, clip1_satu8]

/-! ### Vertical sums -/

theorem byteLike_t (t : Nat → V) (j : Nat) : ByteLike fun k => u8 (t k) j := by
  intro k _; have := u8_range (t k) j; dsimp only; omega

/-- A filter whose coefficients 1 and 6 (1 and 2) are the same is symmetric. -/
def Sym8 (c : List Int) : Prop := tap c 1 = tap c 6 → tap c 0 = tap c 7 ∧ tap c 2 = tap c 5 ∧ tap c 3 = tap c 4
def Sym4 (c : List Int) : Prop := tap c 1 = tap c 2 → tap c 0 = tap c 3

theorem w16_madd2 {c : List Int} (hc : Fit c) {un : V → V → V} {i j : Nat} (hun : ∀ a b, u8 (un a b) (2 * i) = u8 a j ∧ u8 (un a b) (2 * i + 1) = u8 b j)
    (a b : V) (k k' : Nat) (hk : k < 8) (hk' : k' < 8) :
    w16 (maddubs (un a b) (set1_c2 (tap c k) (tap c k'))) i = sat16 (u8 a j * tap c k + u8 b j * tap c k') := by
  rw [w16_maddubs, (i8_c2 hc k k' hk hk' i).1, (i8_c2 hc k k' hk hk' i).2, (hun a b).1, (hun a b).2]

theorem w16_madd1 {c : List Int} (hc : Fit c) {un : V → V → V} {i j : Nat} (hun : ∀ a b, u8 (un a b) (2 * i) = u8 a j ∧ u8 (un a b) (2 * i + 1) = u8 b j)
    (a b : V) (k : Nat) (hk : k < 8) :
    w16 (maddubs (un a b) (set1_8 (tap c k))) i = sat16 (u8 a j * tap c k + u8 b j * tap c k) := by
  rw [w16_maddubs, i8_s1 hc k hk, i8_s1 hc k hk, (hun a b).1, (hun a b).2]

/-- The same sum in the order of the symmetric filter. -/
theorem sums16s {c : List Int} (hc : Fit c) (h07 : tap c 0 = tap c 7) (h16 : tap c 1 = tap c 6) (h25 : tap c 2 = tap c 5) (h34 : tap c 3 = tap c 4)
    {s : Nat → Int} (hs : ByteLike s) :
    wrap16 (wrap16 (sat16 (s 0 * tap c 0 + s 7 * tap c 0) + sat16 (s 1 * tap c 1 + s 6 * tap c 1)) +
      wrap16 (sat16 (s 2 * tap c 2 + s 5 * tap c 2) + sat16 (s 3 * tap c 3 + s 4 * tap c 3))) = sum8 c s := by
  obtain ⟨b0, b1, b2, b3, b4, b5, b6, b7, ⟨n0, n1, n2, n3, n4, n5, n6, n7, hb⟩, q0, q1, q2, q3, q4, q5, q6, q7⟩ := prods 255 c hc s hs
  rw [show s 7 * tap c 0 = s 7 * tap c 7 by rw [h07], show s 6 * tap c 1 = s 6 * tap c 6 by rw [h16],
    show s 5 * tap c 2 = s 5 * tap c 5 by rw [h25], show s 4 * tap c 3 = s 4 * tap c 4 by rw [h34]]
  unfold sum8
  generalize s 0 * tap c 0 = p0 at *
  generalize s 1 * tap c 1 = p1 at *
  generalize s 2 * tap c 2 = p2 at *
  generalize s 3 * tap c 3 = p3 at *
  generalize s 4 * tap c 4 = p4 at *
  generalize s 5 * tap c 5 = p5 at *
  generalize s 6 * tap c 6 = p6 at *
  generalize s 7 * tap c 7 = p7 at *
  rw [sat16_id (by omega), sat16_id (by omega), sat16_id (by omega), sat16_id (by omega), wrap16_id (x := p0 + p7 + (p1 + p6)) (by omega),
    wrap16_id (x := p2 + p5 + (p3 + p4)) (by omega), wrap16_id (by omega)]
  omega

theorem w16_verL {c : List Int} (hc : Fit c) (hs : Sym8 c) {un : V → V → V} {i j : Nat}
    (hun : ∀ a b, u8 (un a b) (2 * i) = u8 a j ∧ u8 (un a b) (2 * i + 1) = u8 b j) (t : Nat → V) :
    w16 (verL un c t) i = sum8 c fun k => u8 (t k) j := by
  unfold verL
  by_cases h : tap c 1 = tap c 6
  · rw [if_pos h]
    obtain ⟨h07, h25, h34⟩ := hs h
    simp only [w16_add16, w16_madd1 hc hun, Nat.reduceLT]
    have e := sums16s hc h07 h h25 h34 (byteLike_t t j)
    exact e
  · rw [if_neg h]
    simp only [w16_add16, w16_madd2 hc hun, Nat.reduceLT]
    have e := sums16 hc (byteLike_t t j)
    exact e

theorem w16_verC {c : List Int} (hc : Fit c) (h4 : tap c 4 = 0 ∧ tap c 5 = 0 ∧ tap c 6 = 0 ∧ tap c 7 = 0) (hs : Sym4 c) {un : V → V → V} {i j : Nat}
    (hun : ∀ a b, u8 (un a b) (2 * i) = u8 a j ∧ u8 (un a b) (2 * i + 1) = u8 b j) (t : Nat → V) :
    w16 (verC un c t) i = sum8 c fun k => u8 (t k) j := by
  unfold verC
  by_cases h : tap c 1 = tap c 2
  · rw [if_pos h]
    have h03 := hs h
    simp only [w16_add16, w16_madd1 hc hun, Nat.reduceLT]
    obtain ⟨b0, b1, b2, b3, b4, b5, b6, b7, ⟨n0, n1, n2, n3, n4, n5, n6, n7, hb⟩, q0, q1, q2, q3, q4, q5, q6, q7⟩ :=
      prods 255 c hc _ (byteLike_t t j)
    unfold sum8
    rw [show u8 (t 3) j * tap c 0 = u8 (t 3) j * tap c 3 by rw [h03], show u8 (t 2) j * tap c 1 = u8 (t 2) j * tap c 2 by rw [h],
      h4.1, h4.2.1, h4.2.2.1, h4.2.2.2]
    generalize u8 (t 0) j * tap c 0 = p0 at *
    generalize u8 (t 1) j * tap c 1 = p1 at *
    generalize u8 (t 2) j * tap c 2 = p2 at *
    generalize u8 (t 3) j * tap c 3 = p3 at *
    rw [sat16_id (by omega), sat16_id (by omega), wrap16_id (by omega)]
    omega
  · rw [if_neg h]
    simp only [w16_add16, w16_madd2 hc hun, Nat.reduceLT]
    have e := sums16c hc h4 (byteLike_t t j)
    exact e

theorem w16_ver0 (t : Nat → V) (j : Nat) (hj : j < 8) :
    w16 (ver0 [-1, 4, -10, 57, 19, -7, 3, -1] t) j = sum8 [-1, 4, -10, 57, 19, -7, 3, -1] fun k => u8 (t k) j := by
  have hc : Fit [-1, 4, -10, 57, 19, -7, 3, -1] := by unfold Fit tap; decide
  have hun : ∀ a b : V, u8 (unpacklo8y a b) (2 * j) = u8 a j ∧ u8 (unpacklo8y a b) (2 * j + 1) = u8 b j := by
    intro a b; have := u8_lo8y a b j; rwa [show 16 * (j / 8) + j % 8 = j by omega] at this
  unfold ver0
  dsimp only
  simp only [w16_add16, w16_sub16, w16_subs16, w16_slli16, w16_adds16, w16_cvtu, w16_madd2 hc hun, Nat.reduceLT]
  have r := fun k => u8_range (t k) j
  have r0 := r 0; have r1 := r 1; have r2 := r 2; have r3 := r 3
  have r4 := r 4; have r5 := r 5; have r6 := r 6; have r7 := r 7
  unfold sum8
  simp only [tap, List.getD_cons_zero, List.getD_cons_succ]
  generalize u8 (t 0) j = p0 at *
  generalize u8 (t 1) j = p1 at *
  generalize u8 (t 2) j = p2 at *
  generalize u8 (t 3) j = p3 at *
  generalize u8 (t 4) j = p4 at *
  generalize u8 (t 5) j = p5 at *
  generalize u8 (t 6) j = p6 at *
  generalize u8 (t 7) j = p7 at *
  rw [sat16_id (x := p1 + p6) (by omega), sat16_id (x := p0 + p7) (by omega), sat16_id (x := p2 * -10 + _) (by omega),
    sat16_id (x := p4 * 19 + _) (by omega), wrap16_id (x := (p1 + p6) * 2 ^ 2) (by omega), sat16_id (by omega),
    wrap16_id (x := _ - (p0 + p7)) (by omega), wrap16_id (x := p2 * -10 + p3 * 57 + _) (by omega), wrap16_id (by omega)]
  omega

theorem w16_ver1 (t : Nat → V) (j : Nat) (hj : j < 8) :
    w16 (ver1 [-1, 4, -11, 40, 40, -11, 4, -1] t) j = sum8 [-1, 4, -11, 40, 40, -11, 4, -1] fun k => u8 (t k) j := by
  have hc : Fit [-1, 4, -11, 40, 40, -11, 4, -1] := by unfold Fit tap; decide
  have hun : ∀ a b : V, u8 (unpacklo8y a b) (2 * j) = u8 a j ∧ u8 (unpacklo8y a b) (2 * j + 1) = u8 b j := by
    intro a b; have := u8_lo8y a b j; rwa [show 16 * (j / 8) + j % 8 = j by omega] at this
  unfold ver1
  dsimp only
  simp only [w16_add16, w16_sub16, w16_subs16, w16_slli16, w16_adds16, w16_cvtu, w16_madd1 hc hun, Nat.reduceLT]
  have r := fun k => u8_range (t k) j
  have r0 := r 0; have r1 := r 1; have r2 := r 2; have r3 := r 3
  have r4 := r 4; have r5 := r 5; have r6 := r 6; have r7 := r 7
  unfold sum8
  simp only [tap, List.getD_cons_zero, List.getD_cons_succ]
  generalize u8 (t 0) j = p0 at *
  generalize u8 (t 1) j = p1 at *
  generalize u8 (t 2) j = p2 at *
  generalize u8 (t 3) j = p3 at *
  generalize u8 (t 4) j = p4 at *
  generalize u8 (t 5) j = p5 at *
  generalize u8 (t 6) j = p6 at *
  generalize u8 (t 7) j = p7 at *
  rw [sat16_id (x := p1 + p6) (by omega), sat16_id (x := p0 + p7) (by omega), sat16_id (x := p2 * -11 + _) (by omega),
    sat16_id (x := p3 * 40 + _) (by omega), wrap16_id (x := (p1 + p6) * 2 ^ 2) (by omega),
    wrap16_id (x := _ - (p0 + p7)) (by omega), wrap16_id (x := p2 * -11 + p5 * -11 + _) (by omega), wrap16_id (by omega)]
  omega

theorem w16_ver2 (t : Nat → V) (j : Nat) (hj : j < 8) :
    w16 (ver2 [-1, 3, -7, 19, 57, -10, 4, -1] t) j = sum8 [-1, 3, -7, 19, 57, -10, 4, -1] fun k => u8 (t k) j := by
  have hc : Fit [-1, 3, -7, 19, 57, -10, 4, -1] := by unfold Fit tap; decide
  have hun : ∀ a b : V, u8 (unpacklo8y a b) (2 * j) = u8 a j ∧ u8 (unpacklo8y a b) (2 * j + 1) = u8 b j := by
    intro a b; have := u8_lo8y a b j; rwa [show 16 * (j / 8) + j % 8 = j by omega] at this
  unfold ver2
  dsimp only
  simp only [w16_add16, w16_sub16, w16_subs16, w16_slli16, w16_adds16, w16_cvtu, w16_madd2 hc hun, Nat.reduceLT]
  have r := fun k => u8_range (t k) j
  have r0 := r 0; have r1 := r 1; have r2 := r 2; have r3 := r 3
  have r4 := r 4; have r5 := r 5; have r6 := r 6; have r7 := r 7
  unfold sum8
  simp only [tap, List.getD_cons_zero, List.getD_cons_succ]
  generalize u8 (t 0) j = p0 at *
  generalize u8 (t 1) j = p1 at *
  generalize u8 (t 2) j = p2 at *
  generalize u8 (t 3) j = p3 at *
  generalize u8 (t 4) j = p4 at *
  generalize u8 (t 5) j = p5 at *
  generalize u8 (t 6) j = p6 at *
  generalize u8 (t 7) j = p7 at *
  rw [sat16_id (x := p1 + p6) (by omega), sat16_id (x := p0 + p7) (by omega), sat16_id (x := p2 * -7 + _) (by omega),
    sat16_id (x := p4 * 57 + _) (by omega), wrap16_id (x := (p1 + p6) * 2 ^ 2) (by omega), sat16_id (by omega),
    wrap16_id (x := _ - (p0 + p7)) (by omega), wrap16_id (x := p2 * -7 + p3 * 19 + _) (by omega), wrap16_id (by omega)]
  omega

/-! ### Second pass -/

theorem d32_maddc {c : List Int} (hc : Fit c) {un : V → V → V} {i j : Nat} (hun : ∀ a b, w16 (un a b) (2 * i) = w16 a j ∧ w16 (un a b) (2 * i + 1) = w16 b j)
    (a b : V) (k k' : Nat) (hk : k < 8) (hk' : k' < 8) :
    d32 (madd16 (un a b) (cvtepi8_16 (set1_c2 (tap c k) (tap c k')))) i = wrap32 (w16 a j * tap c k + w16 b j * tap c k') := by
  rw [d32_madd16, w16_cvti, w16_cvti, (i8_c2 hc k k' hk hk' i).1, (i8_c2 hc k k' hk hk' i).2, (hun a b).1, (hun a b).2]

theorem d32_madds {c : List Int} (hc : Fit c) {un : V → V → V} {i j : Nat} (hun : ∀ a b, w16 (un a b) (2 * i) = w16 a j ∧ w16 (un a b) (2 * i + 1) = w16 b j)
    (a b : V) (k : Nat) (hk : k < 8) :
    d32 (madd16 (un a b) (set1_16 (tap c k))) i = wrap32 (w16 a j * tap c k + w16 b j * tap c k) := by
  have := hc.tap_range k hk
  rw [d32_madd16, w16_set1, w16_set1, wrap16_id (x := tap c k) (by omega), (hun a b).1, (hun a b).2]

theorem d32_round {v : V} {i : Nat} {x : Int} (e : wrap32 (d32 v i + 2048) = x + 2048) : d32 (round32 v) i = (x + 2048) / 4096 := by
  unfold round32
  rw [d32_srai12, d32_add32, d32_set1, wrap32_id (x := 2048) (by omega), e]

theorem d32_extL {c : List Int} (hc : Fit c) (sym : Prop) [Decidable sym]
    (hs : sym → tap c 1 = tap c 6 ∧ tap c 0 = tap c 7 ∧ tap c 2 = tap c 5 ∧ tap c 3 = tap c 4) {un : V → V → V} {i j : Nat}
    (hun : ∀ a b, w16 (un a b) (2 * i) = w16 a j ∧ w16 (un a b) (2 * i + 1) = w16 b j) (t : Nat → V) :
    d32 (extL un sym c t) i = (sum8 c (fun k => w16 (t k) j) + 2048) / 4096 := by
  have r : ∀ k, k < 8 → -32768 ≤ w16 (t k) j ∧ w16 (t k) j ≤ 32768 := fun k _ => by have := w16_range (t k) j; omega
  unfold extL
  by_cases h : sym
  · rw [if_pos h]
    obtain ⟨h16, h07, h25, h34⟩ := hs h
    apply d32_round
    simp only [d32_add32, d32_madds hc hun, Nat.reduceLT]
    obtain ⟨b0, b1, b2, b3, b4, b5, b6, b7, ⟨n0, n1, n2, n3, n4, n5, n6, n7, hb⟩, q0, q1, q2, q3, q4, q5, q6, q7⟩ := prods 32768 c hc _ r
    unfold sum8
    rw [show w16 (t 7) j * tap c 0 = w16 (t 7) j * tap c 7 by rw [h07], show w16 (t 6) j * tap c 1 = w16 (t 6) j * tap c 6 by rw [h16],
      show w16 (t 5) j * tap c 2 = w16 (t 5) j * tap c 5 by rw [h25], show w16 (t 4) j * tap c 3 = w16 (t 4) j * tap c 4 by rw [h34]]
    generalize w16 (t 0) j * tap c 0 = p0 at *
    generalize w16 (t 1) j * tap c 1 = p1 at *
    generalize w16 (t 2) j * tap c 2 = p2 at *
    generalize w16 (t 3) j * tap c 3 = p3 at *
    generalize w16 (t 4) j * tap c 4 = p4 at *
    generalize w16 (t 5) j * tap c 5 = p5 at *
    generalize w16 (t 6) j * tap c 6 = p6 at *
    generalize w16 (t 7) j * tap c 7 = p7 at *
    rw [wrap32_id (x := p0 + p7) (by omega), wrap32_id (x := p2 + p5) (by omega), wrap32_id (x := p1 + p6) (by omega),
      wrap32_id (x := p3 + p4) (by omega), wrap32_id (x := p0 + p7 + (p1 + p6)) (by omega),
      wrap32_id (x := p2 + p5 + (p3 + p4)) (by omega), wrap32_id (x := p0 + p7 + (p1 + p6) + (p2 + p5 + (p3 + p4))) (by omega),
      wrap32_id (by omega)]
    omega
  · rw [if_neg h]
    apply d32_round
    simp only [d32_add32, d32_maddc hc hun, Nat.reduceLT]
    have e := sums32 hc r
    exact e

theorem d32_extC {c : List Int} (hc : Fit c) (h4 : tap c 4 = 0 ∧ tap c 5 = 0 ∧ tap c 6 = 0 ∧ tap c 7 = 0) (sym : Prop) [Decidable sym]
    (hs : ¬ sym) {un : V → V → V} {i j : Nat}
    (hun : ∀ a b, w16 (un a b) (2 * i) = w16 a j ∧ w16 (un a b) (2 * i + 1) = w16 b j) (t : Nat → V) :
    d32 (extC un sym c t) i = (sum8 c (fun k => w16 (t k) j) + 2048) / 4096 := by
  have r : ∀ k, k < 8 → -32768 ≤ w16 (t k) j ∧ w16 (t k) j ≤ 32768 := fun k _ => by have := w16_range (t k) j; omega
  unfold extC
  rw [if_neg hs]
  apply d32_round
  simp only [d32_add32, d32_maddc hc hun, Nat.reduceLT]
  rw [← sums32 hc r, h4.1, h4.2.1, h4.2.2.1, h4.2.2.2]
  simp only [mul_zero, add_zero]
  unfold wrap32; omega

/-- The words of both halves in order after packing. -/
theorem w16_ext_pack {lo hi : V} {f : Nat → Int} (hlo : ∀ i, d32 lo i = f (8 * (i / 4) + i % 4)) (hhi : ∀ i, d32 hi i = f (8 * (i / 4) + 4 + i % 4))
    (i : Nat) : w16 (packs32y lo hi) i = sat16 (f i) := by
  rw [w16_packs32y]
  by_cases h : i % 8 < 4
  · rw [if_pos h, hlo]; congr 2; omega
  · rw [if_neg h, hhi]; congr 2; omega

theorem w16_extL {c : List Int} (hc : Fit c) (sym : Prop) [Decidable sym]
    (hs : sym → tap c 1 = tap c 6 ∧ tap c 0 = tap c 7 ∧ tap c 2 = tap c 5 ∧ tap c 3 = tap c 4) (t : Nat → V) (i : Nat) :
    w16 (packs32y (extL unpacklo16y sym c t) (extL unpackhi16y sym c t)) i = sat16 ((sum8 c (fun k => w16 (t k) i) + 2048) / 4096) :=
  w16_ext_pack (f := fun i => (sum8 c (fun k => w16 (t k) i) + 2048) / 4096)
    (fun i => d32_extL hc sym hs (fun a b => w16_lo16y a b i) t) (fun i => d32_extL hc sym hs (fun a b => w16_hi16y a b i) t) i

theorem w16_extC {c : List Int} (hc : Fit c) (h4 : tap c 4 = 0 ∧ tap c 5 = 0 ∧ tap c 6 = 0 ∧ tap c 7 = 0) (sym : Prop) [Decidable sym]
    (hs : ¬ sym) (t : Nat → V) (i : Nat) :
    w16 (packs32y (extC unpacklo16y sym c t) (extC unpackhi16y sym c t)) i = sat16 ((sum8 c (fun k => w16 (t k) i) + 2048) / 4096) :=
  w16_ext_pack (f := fun i => (sum8 c (fun k => w16 (t k) i) + 2048) / 4096)
    (fun i => d32_extC hc h4 sym hs (fun a b => w16_lo16y a b i) t) (fun i => d32_extC hc h4 sym hs (fun a b => w16_hi16y a b i) t) i

theorem satu8_sat16 (x : Int) : satu8 (sat16 x) = clip1 x := by
  rw [clip1_satu8]; unfold satu8 sat16; omega

end Davs2.Vc
