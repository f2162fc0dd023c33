import Verif.Model.Vec
import Mathlib.Tactic.Linarith
import Mathlib.Tactic.IntervalCases
/-
Lemmas on the vector instructions: what they do to a lane.
-/
namespace Davs2.Vc

theorem u8_range (v : V) (i : Nat) : 0 ≤ u8 v i ∧ u8 v i ≤ 255 := by
  unfold u8; have := (v i).isLt; omega

theorem u8_ofB (f : Nat → Int) (i : Nat) : u8 (ofB f) i = f i % 256 := by
  unfold u8 ofB
  rw [BitVec.toNat_ofInt]
  omega

theorem i8_u8 (v : V) (i : Nat) : i8 v i = (u8 v i + 128) % 256 - 128 := by
  unfold i8 u8
  rw [BitVec.toInt_eq_toNat_cond]
  have := (v i).isLt
  split <;> omega

theorem i8_ofB (f : Nat → Int) (i : Nat) : i8 (ofB f) i = (f i + 128) % 256 - 128 := by
  rw [i8_u8, u8_ofB]; omega

theorem u16_range (v : V) (i : Nat) : 0 ≤ u16 v i ∧ u16 v i ≤ 65535 := by
  unfold u16; have := u8_range v (2 * i); have := u8_range v (2 * i + 1); omega

theorem w16_range (v : V) (i : Nat) : -32768 ≤ w16 v i ∧ w16 v i ≤ 32767 := by
  unfold w16 wrap16; omega

theorem u16_ofW (f : Nat → Int) (i : Nat) : u16 (ofW f) i = f i % 65536 := by
  unfold u16 ofW
  rw [u8_ofB, u8_ofB, if_pos (by omega), if_neg (by omega), show 2 * i / 2 = i by omega, show (2 * i + 1) / 2 = i by omega]
  omega

theorem w16_ofW (f : Nat → Int) (i : Nat) : w16 (ofW f) i = wrap16 (f i) := by
  unfold w16; rw [u16_ofW]; unfold wrap16; omega

theorem d32_ofD (f : Nat → Int) (i : Nat) : d32 (ofD f) i = wrap32 (f i) := by
  unfold d32 ofD
  rw [u16_ofW, u16_ofW, if_pos (by omega), if_neg (by omega), show 2 * i / 2 = i by omega, show (2 * i + 1) / 2 = i by omega]
  unfold wrap32; omega

theorem wrap16_id {x : Int} (h : -32768 ≤ x ∧ x ≤ 32767) : wrap16 x = x := by unfold wrap16; omega
theorem wrap32_id {x : Int} (h : -2147483648 ≤ x ∧ x ≤ 2147483647) : wrap32 x = x := by unfold wrap32; omega
theorem sat16_id {x : Int} (h : -32768 ≤ x ∧ x ≤ 32767) : sat16 x = x := by unfold sat16; omega
theorem sat16_range (x : Int) : -32768 ≤ sat16 x ∧ sat16 x ≤ 32767 := by unfold sat16; omega

theorem wrap16_sat16 (x : Int) : wrap16 (sat16 x) = sat16 x := wrap16_id (sat16_range x)

theorem w16_add16 (a b : V) (i : Nat) : w16 (add16 a b) i = wrap16 (w16 a i + w16 b i) := w16_ofW _ i
theorem w16_sub16 (a b : V) (i : Nat) : w16 (sub16 a b) i = wrap16 (w16 a i - w16 b i) := w16_ofW _ i
theorem w16_adds16 (a b : V) (i : Nat) : w16 (adds16 a b) i = sat16 (w16 a i + w16 b i) := (w16_ofW _ i).trans (wrap16_sat16 _)
theorem w16_subs16 (a b : V) (i : Nat) : w16 (subs16 a b) i = sat16 (w16 a i - w16 b i) := (w16_ofW _ i).trans (wrap16_sat16 _)
theorem w16_mullo16 (a b : V) (i : Nat) : w16 (mullo16 a b) i = wrap16 (w16 a i * w16 b i) := w16_ofW _ i
theorem w16_abs16 (a : V) (i : Nat) : w16 (abs16 a) i = wrap16 (max (w16 a i) (-w16 a i)) := w16_ofW _ i

theorem w16_min16 (a b : V) (i : Nat) : w16 (min16 a b) i = min (w16 a i) (w16 b i) :=
  (w16_ofW _ i).trans (wrap16_id (by have := w16_range a i; have := w16_range b i; omega))

theorem w16_max16 (a b : V) (i : Nat) : w16 (max16 a b) i = max (w16 a i) (w16 b i) :=
  (w16_ofW _ i).trans (wrap16_id (by have := w16_range a i; have := w16_range b i; omega))

theorem w16_srai16 (a : V) (n i : Nat) : w16 (srai16 a n) i = w16 a i / 2 ^ n := by
  refine (w16_ofW _ i).trans (wrap16_id ?_)
  have h := w16_range a i
  have p : (1 : Int) ≤ 2 ^ n := by exact_mod_cast Nat.one_le_two_pow
  constructor
  · exact (Int.le_ediv_iff_mul_le (by omega)).2 (by nlinarith)
  · exact Int.ediv_le_of_le_mul (by omega) (by nlinarith)

theorem w16_set1 (x : Int) (i : Nat) : w16 (set1_16 x) i = wrap16 x := w16_ofW _ i
theorem w16_slli16 (a : V) (n i : Nat) : w16 (slli16 a n) i = wrap16 (w16 a i * 2 ^ n) := w16_ofW _ i

theorem w16_hadds16 (a b : V) (i : Nat) : w16 (hadds16 a b) i =
    if i < 4 then sat16 (w16 a (2 * i) + w16 a (2 * i + 1)) else sat16 (w16 b (2 * (i - 4)) + w16 b (2 * (i - 4) + 1)) := by
  refine (w16_ofW _ i).trans ?_
  split <;> exact wrap16_sat16 _

theorem w16_maddubs (a b : V) (i : Nat) : w16 (maddubs a b) i =
    sat16 (u8 a (2 * i) * i8 b (2 * i) + u8 a (2 * i + 1) * i8 b (2 * i + 1)) :=
  (w16_ofW _ i).trans (wrap16_sat16 _)

theorem u8_packus16 (a b : V) (i : Nat) : u8 (packus16 a b) i = if i < 8 then satu8 (w16 a i) else satu8 (w16 b (i - 8)) := by
  unfold packus16
  rw [u8_ofB]
  split <;> unfold satu8 <;> omega

theorem i8_packs16 (a b : V) (i : Nat) : i8 (packs16 a b) i = if i < 8 then sat8 (w16 a i) else sat8 (w16 b (i - 8)) := by
  unfold packs16
  rw [i8_ofB]
  split <;> unfold sat8 <;> omega

theorem w16_packs32 (a b : V) (i : Nat) : w16 (packs32 a b) i = if i < 4 then sat16 (d32 a i) else sat16 (d32 b (i - 4)) := by
  refine (w16_ofW _ i).trans ?_
  split <;> exact wrap16_sat16 _

theorem u8_load (p : Sa.Plane) (x y : Int) (j : Nat) (h : 0 ≤ p (x + j) y ∧ p (x + j) y ≤ 255) : u8 (load p x y) j = p (x + j) y := by
  unfold load; rw [u8_ofB]; omega

theorem u8_unpacklo (a b : V) (i : Nat) : u8 (unpacklo8 a b) (2 * i) = u8 a i ∧ u8 (unpacklo8 a b) (2 * i + 1) = u8 b i := by
  unfold u8 unpacklo8
  rw [if_pos (by omega), if_neg (by omega), show 2 * i / 2 = i by omega, show (2 * i + 1) / 2 = i by omega]
  exact ⟨rfl, rfl⟩

theorem u8_unpackhi (a b : V) (i : Nat) : u8 (unpackhi8 a b) (2 * i) = u8 a (8 + i) ∧ u8 (unpackhi8 a b) (2 * i + 1) = u8 b (8 + i) := by
  unfold u8 unpackhi8
  rw [if_pos (by omega), if_neg (by omega), show 2 * i / 2 = i by omega, show (2 * i + 1) / 2 = i by omega]
  exact ⟨rfl, rfl⟩

theorem i8_shuffle8 (a m : V) (j k : Nat) (h : m j = BitVec.ofNat 8 k) (hk : k < 16) : i8 (shuffle8 a m) j = i8 a k := by
  have e : shuffle8 a m j = a k := by
    unfold shuffle8
    rw [h]
    interval_cases k <;> rfl
  unfold i8; rw [e]

theorem u8_shuffle8 (a m : V) (j k : Nat) (h : m j = BitVec.ofNat 8 k) (hk : k < 16) : u8 (shuffle8 a m) j = u8 a k := by
  have e : shuffle8 a m j = a k := by
    unfold shuffle8
    rw [h]
    interval_cases k <;> rfl
  unfold u8; rw [e]

theorem u8_shuffle8_zero (a m : V) (j : Nat) (h : m j = BitVec.ofInt 8 (-1)) : u8 (shuffle8 a m) j = 0 := by
  have e : shuffle8 a m j = 0 := by
    unfold shuffle8
    rw [h]
    rfl
  unfold u8; rw [e]; rfl

/-- The masks: the first `k + 1` bytes. -/
theorem maskRow_msb {k : Int} {m : V} (h : maskRow k = some m) (j : Nat) : (m j).msb = true ↔ (j : Int) ≤ k := by
  unfold maskRow at h
  split at h
  · cases h
    unfold ofB
    by_cases hj : (j : Int) ≤ k
    · simp only [if_pos hj, hj, iff_true]; decide
    · simp only [if_neg hj, hj, iff_false]; decide
  · cases h

end Davs2.Vc
