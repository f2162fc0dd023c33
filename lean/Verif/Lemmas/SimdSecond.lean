import Verif.Model.SimdSecond
import Verif.Lemmas.VecInter
import Verif.Lemmas.SimdExec
import Verif.Props.Transform
/-
The vector versions of the secondary transforms, lane by lane.
-/
namespace Davs2.Si

open Davs2.Vc Davs2.Spec
open Davs2.Tr (tab)

theorem w16_set1_32 (x : Int) (h : -32768 ≤ x ∧ x ≤ 32767) (i : Nat) : w16 (set1_32 x) (2 * i) = x := by
  unfold set1_32 ofD
  rw [w16_ofW]
  rw [if_pos (by omega)]
  dsimp only
  unfold wrap16
  omega

theorem w16_zero (i : Nat) : w16 zero i = 0 := by
  unfold w16 u16 u8 zero wrap16
  simp

/-- Lane `i` of a sum of four products. -/
theorem d32_dot4 {a b : Nat → V} {i : Nat} {u v : Nat → Int} (ha : ∀ k < 4, w16 (a k) (2 * i) = u k)
    (hb : ∀ k < 4, w16 (b k) (2 * i) = v k) (hz : ∀ k < 4, w16 (a k) (2 * i + 1) * w16 (b k) (2 * i + 1) = 0)
    (hl : ∀ k < 4, |u k * v k| ≤ 126 * 32768) :
    d32 (dot4 a b) i = u 0 * v 0 + u 1 * v 1 + (u 2 * v 2 + u 3 * v 3) := by
  have h0 := abs_le.mp (hl 0 (by omega))
  have h1 := abs_le.mp (hl 1 (by omega))
  have h2 := abs_le.mp (hl 2 (by omega))
  have h3 := abs_le.mp (hl 3 (by omega))
  unfold dot4
  simp only [d32_add32, d32_madd16]
  rw [ha 0 (by omega), ha 1 (by omega), ha 2 (by omega), ha 3 (by omega), hb 0 (by omega), hb 1 (by omega), hb 2 (by omega),
    hb 3 (by omega), hz 0 (by omega), hz 1 (by omega), hz 2 (by omega), hz 3 (by omega)]
  generalize u 0 * v 0 = p0 at *
  generalize u 1 * v 1 = p1 at *
  generalize u 2 * v 2 = p2 at *
  generalize u 3 * v 3 = p3 at *
  simp only [add_zero]
  rw [wrap32_id (x := p0) (by omega), wrap32_id (x := p1) (by omega), wrap32_id (x := p2) (by omega), wrap32_id (x := p3) (by omega),
    wrap32_id (x := p0 + p1) (by omega), wrap32_id (x := p2 + p3) (by omega), wrap32_id (by omega)]

/-- The rounded sum of four products. -/
theorem d32_round {a b : Nat → V} {i shift : Nat} {u v : Nat → Int} (hs : shift ≤ 24) (ha : ∀ k < 4, w16 (a k) (2 * i) = u k)
    (hb : ∀ k < 4, w16 (b k) (2 * i) = v k) (hz : ∀ k < 4, w16 (a k) (2 * i + 1) * w16 (b k) (2 * i + 1) = 0)
    (hl : ∀ k < 4, |u k * v k| ≤ 126 * 32768) :
    d32 (srai32 (Vc.add32 (dot4 a b) (set1_32 (2 ^ (shift - 1)))) shift) i = roundShift shift (∑ k ∈ Finset.range 4, u k * v k) := by
  have h0 := abs_le.mp (hl 0 (by omega))
  have h1 := abs_le.mp (hl 1 (by omega))
  have h2 := abs_le.mp (hl 2 (by omega))
  have h3 := abs_le.mp (hl 3 (by omega))
  have hp : (0 : Int) < 2 ^ (shift - 1) := by positivity
  have hq : (2 : Int) ^ (shift - 1) ≤ 2 ^ 23 := pow_le_pow_right₀ (by omega) (by omega)
  have e : d32 (Vc.add32 (dot4 a b) (set1_32 (2 ^ (shift - 1)))) i = u 0 * v 0 + u 1 * v 1 + (u 2 * v 2 + u 3 * v 3) + 2 ^ (shift - 1) := by
    rw [d32_add32, d32_dot4 ha hb hz hl, d32_set1]
    generalize u 0 * v 0 = p0 at *
    generalize u 1 * v 1 = p1 at *
    generalize u 2 * v 2 = p2 at *
    generalize u 3 * v 3 = p3 at *
    rw [wrap32_id (x := 2 ^ (shift - 1)) (by omega), wrap32_id (by omega)]
  have e2 : d32 (srai32 (Vc.add32 (dot4 a b) (set1_32 (2 ^ (shift - 1)))) shift) i =
      wrap32 (d32 (Vc.add32 (dot4 a b) (set1_32 (2 ^ (shift - 1)))) i / 2 ^ shift) := d32_ofD _ i
  rw [e2, wrap32_id, e]
  · unfold roundShift
    simp only [Finset.sum_range_succ, Finset.sum_range_zero]
    rw [show (0 : Int) + u 0 * v 0 + u 1 * v 1 + u 2 * v 2 + u 3 * v 3 = u 0 * v 0 + u 1 * v 1 + (u 2 * v 2 + u 3 * v 3) by ring]
  · have hr := d32_range (Vc.add32 (dot4 a b) (set1_32 (2 ^ (shift - 1)))) i
    generalize d32 (Vc.add32 (dot4 a b) (set1_32 (2 ^ (shift - 1)))) i = x at hr ⊢
    have hq : (1 : Int) ≤ 2 ^ shift := one_le_pow₀ (by omega)
    constructor
    · exact Int.le_ediv_of_mul_le (by omega) (by nlinarith)
    · exact Int.ediv_le_of_le_mul (by omega) (by nlinarith)

theorem mul_le_126 {t x : Int} (ht : |t| ≤ 126) (hx : -32768 ≤ x ∧ x ≤ 32767) : |t * x| ≤ 126 * 32768 := by
  rw [abs_mul]
  have : |x| ≤ 32768 := abs_le.mpr ⟨by omega, by omega⟩
  exact mul_le_mul ht this (abs_nonneg _) (by omega)

theorem wrap16_tab {t : Int} (ht : |t| ≤ 126) : wrap16 t = t := by
  have := abs_le.mp ht
  unfold wrap16; omega

theorem w16_coefRow {t : List (List Int)} (ht : ∀ k < 4, ∀ i < 4, |tab t k i| ≤ 126) {k i : Nat} (hk : k < 4) (hi : i < 4) :
    w16 (coefRow t k) (2 * i) = tab t k i ∧ w16 (coefRow t k) (2 * i + 1) = 0 := by
  unfold coefRow
  split
  · rename_i h
    rw [(w16_lo16y _ _ i).1, (w16_lo16y _ _ i).2, w16_zero]
    refine ⟨?_, rfl⟩
    unfold loadT
    rw [w16_ofW, if_pos (by omega), show (8 * (k / 2) + (8 * (i / 4) + i % 4)) / 4 = k by omega,
      show (8 * (k / 2) + (8 * (i / 4) + i % 4)) % 4 = i by omega]
    exact wrap16_tab (ht k hk i hi)
  · rename_i h
    rw [(w16_hi16y _ _ i).1, (w16_hi16y _ _ i).2, w16_zero]
    refine ⟨?_, rfl⟩
    unfold loadT
    rw [w16_ofW, if_pos (by omega), show (8 * (k / 2) + (8 * (i / 4) + 4 + i % 4)) / 4 = k by omega,
      show (8 * (k / 2) + (8 * (i / 4) + 4 + i % 4)) % 4 = i by omega]
    exact wrap16_tab (ht k hk i hi)

theorem sat16_limit (v : Int) : sat16 v = limitBits 16 v := rfl

/-- What the limiting does in each lane. -/
def Clips (clip : V → V) (depth : Nat) : Prop := ∀ v i, sat16 (d32 (clip v) i) = limitBits depth (d32 v i)

theorem clips_id : Clips id 16 := fun _ _ => sat16_limit _

theorem clips_9 : Clips (fun v => max32 (min32 v (set1_32 255)) (set1_32 (-256))) 9 := by
  intro v i
  have e : d32 (max32 (min32 v (set1_32 255)) (set1_32 (-256))) i = wrap32 (max (wrap32 (min (d32 v i) (wrap32 255))) (wrap32 (-256))) := by
    unfold max32
    rw [d32_ofD]
    unfold min32
    rw [d32_ofD, d32_set1, d32_set1]
  show sat16 (d32 (max32 (min32 v (set1_32 255)) (set1_32 (-256))) i) = _
  rw [e]
  have hr := d32_range v i
  have e1 : wrap32 255 = 255 := by decide
  have e2 : wrap32 (-256) = -256 := by decide
  rw [e1, e2, wrap32_id (x := min _ _) (by omega), wrap32_id (by omega)]
  unfold sat16 limitBits
  norm_num
  omega

theorem horVec_eq {t : List (List Int)} (ht : ∀ k < 4, ∀ i < 4, |tab t k i| ≤ 126) {clip : V → V} {depth stride shift : Nat}
    (hc : Clips clip depth) (hs : shift ≤ 24) {m : Nat → Int} {j : Nat}
    (hm : ∀ k < 4, -32768 ≤ m (j * stride + k) ∧ m (j * stride + k) ≤ 32767) {i : Nat} (hi : i < 4) :
    w16 (horVec stride shift clip t j m) i = limitBits depth (roundShift shift (mat4 (tab t) (fun k => m (j * stride + k)) i)) := by
  unfold horVec
  rw [w16_packs32y, if_pos (by omega), show 4 * (i / 8) + i % 8 = i by omega, hc,
    d32_round (u := fun k => tab t k i) (v := fun k => m (j * stride + k)) hs]
  · rfl
  · exact fun k hk => (w16_coefRow ht hk hi).1
  · exact fun k hk => w16_set1_32 _ (hm k hk) i
  · intro k hk
    rw [(w16_coefRow ht hk hi).2, zero_mul]
  · exact fun k hk => mul_le_126 (ht k hk i hi) (hm k hk)

theorem verVec_eq {t : List (List Int)} (ht : ∀ k < 4, ∀ i < 4, |tab t k i| ≤ 126) {stride shift : Nat}
    (hs : shift ≤ 24) {m : Nat → Int} {j : Nat} (hj : j < 4)
    (hm : ∀ k < 4, -32768 ≤ m (k * stride + j) ∧ m (k * stride + j) ≤ 32767) {i : Nat} (hi : i < 4) :
    w16 (verVec stride shift t m i) j = limitBits 16 (roundShift shift (mat4 (tab t) (fun k => m (k * stride + j)) i)) := by
  unfold verVec
  rw [w16_packs32y, if_pos (by omega), show 4 * (j / 8) + j % 8 = j by omega, sat16_limit,
    d32_round (u := fun k => tab t k i) (v := fun k => m (k * stride + j)) hs]
  · rfl
  · intro k hk
    have := abs_le.mp (ht k hk i hi)
    exact w16_set1_32 _ (by omega) j
  · intro k hk
    rw [(w16_lo16y _ _ j).1]
    unfold loadC
    rw [w16_ofW, if_pos (by omega), show 8 * (j / 4) + j % 4 = j by omega]
    have := hm k hk
    unfold wrap16; omega
  · intro k hk
    rw [(w16_lo16y _ _ j).2, w16_zero, mul_zero]
  · exact fun k hk => mul_le_126 (ht k hk i hi) (hm k hk)

/-- Four rows stored one after the other. -/
theorem rows_eq {stride : Nat} (hst : 4 ≤ stride) {m : Nat → Int} {g : Nat → (Nat → Int) → V} {val : Nat → Nat → Int}
    (hg : ∀ i < 4, ∀ m' : Nat → Int, (∀ j < 4, m' (i * stride + j) = m (i * stride + j)) → ∀ j < 4, w16 (g i m') j = val i j) :
    ∀ n ≤ 4, (∀ i < n, ∀ j < 4, (List.range n).foldl (fun m' i => storeC 4 m' (i * stride) (g i m')) m (i * stride + j) = val i j) ∧
      ∀ a, ¬ (a / stride < n ∧ a % stride < 4) → (List.range n).foldl (fun m' i => storeC 4 m' (i * stride) (g i m')) m a = m a := by
  intro n
  induction n with
  | zero => exact fun _ => ⟨fun i hi => by omega, fun a _ => rfl⟩
  | succ n ih =>
    intro hn
    obtain ⟨h1, h2⟩ := ih (by omega)
    simp only [List.range_succ, List.foldl_append, List.foldl_cons, List.foldl_nil]
    generalize (List.range n).foldl (fun m' i => storeC 4 m' (i * stride) (g i m')) m = r at *
    have addr : ∀ i j, j < 4 → (i * stride + j) / stride = i ∧ (i * stride + j) % stride = j := by
      intro i j hj
      rw [mul_comm]
      exact ⟨by rw [Nat.mul_add_div (by omega), Nat.div_eq_of_lt (by omega), add_zero], by
        rw [Nat.mul_add_mod, Nat.mod_eq_of_lt (by omega)]⟩
    have cell : ∀ a, n * stride ≤ a ∧ a < n * stride + 4 → a / stride = n ∧ a % stride = a - n * stride := by
      intro a ha
      have := addr n (a - n * stride) (by omega)
      rwa [Nat.add_sub_cancel' ha.1] at this
    constructor
    · intro i hi j hj
      unfold storeC
      obtain ⟨e1, e2⟩ := addr i j hj
      by_cases hin : i = n
      · subst hin
        rw [if_pos (by omega), Nat.add_sub_cancel_left]
        exact hg i (by omega) r (fun j hj => h2 _ (by rw [(addr i j hj).1]; omega)) j hj
      · rw [if_neg]
        · exact h1 i (by omega) j hj
        · intro h
          have := (cell _ h).1
          omega
    · intro a ha
      unfold storeC
      rw [if_neg]
      · exact h2 a (by omega)
      · intro h
        obtain ⟨c1, c2⟩ := cell a h
        omega

end Davs2.Si
