import Verif.Model.VecAlf
import Verif.Lemmas.Vec
import Verif.Lemmas.Alf
/-
Lemmas on the vector version of the adaptive loop filter.
-/
namespace Davs2.Vc
open Davs2.Spec Davs2.Sa

/-- The weight that a byte lane holds for weight `k ≥ 5`. -/
def lim (x : Int) : Int := sat8 (sat16 (wrap32 x))

theorem lim_id {x : Int} (h : -128 ≤ x ∧ x ≤ 127) : lim x = x := by unfold lim sat8 sat16 wrap32; omega

theorem i8_c33 (c : Nat → Int) {j k : Nat} (hj : j < 16) (hk : k < 4)
    (h : ([0, 1, 2, 3, 2, 1, 0, 3, 0, 1, 2, 3, 2, 1, 0, 3] : List Nat)[j]? = some k) : i8 (alfC33 c) j = lim (c (5 + k)) := by
  unfold alfC33
  dsimp only
  rw [i8_shuffle8 _ _ j k (by interval_cases j <;> cases h <;> rfl) (by omega), i8_packs16, if_pos (by omega), w16_packs32, if_pos (by omega)]
  unfold load32
  rw [d32_ofD]
  rfl

/-- A lane of the line. -/
theorem w16_alfLine (c : Nat → Int) (t : V) (i : Nat) (hi : i < 8) : w16 (alfLine c t) i =
    sat16 (sat16 (sat16 (u8 t i * lim (c 5) + u8 t (i + 1) * lim (c 6)) + sat16 (u8 t (i + 2) * lim (c 7) + u8 t (i + 3) * lim (c 8))) +
      sat16 (sat16 (u8 t (i + 4) * lim (c 7) + u8 t (i + 5) * lim (c 6)) + sat16 (u8 t (i + 6) * lim (c 5) + 0 * lim (c 8)))) := by
  have k := fun j k hj hk h => i8_c33 c (j := j) (k := k) hj hk h
  unfold alfLine
  simp only [w16_hadds16, w16_maddubs]
  interval_cases i <;> simp only [Nat.reduceLT, Nat.reduceMul, Nat.reduceAdd, Nat.reduceSub, if_true, if_false,
    k 0 0 (by decide) (by decide) rfl, k 1 1 (by decide) (by decide) rfl, k 2 2 (by decide) (by decide) rfl, k 3 3 (by decide) (by decide) rfl, k 4 2 (by decide) (by decide) rfl, k 5 1 (by decide) (by decide) rfl, k 6 0 (by decide) (by decide) rfl, k 7 3 (by decide) (by decide) rfl, k 8 0 (by decide) (by decide) rfl, k 9 1 (by decide) (by decide) rfl, k 10 2 (by decide) (by decide) rfl, k 11 3 (by decide) (by decide) rfl, k 12 2 (by decide) (by decide) rfl, k 13 1 (by decide) (by decide) rfl, k 14 0 (by decide) (by decide) rfl, k 15 3 (by decide) (by decide) rfl] <;> rfl

/-- A sum of products of bytes and weights of which all partial sums fit in 16 bits. -/
structure Moderate (c : Nat → Int) : Prop where
  centre : c 8 ≤ 127
  pos : 2 * (max (c 0) 0 + max (c 1) 0 + max (c 2) 0 + max (c 3) 0 + max (c 4) 0 + max (c 5) 0 + max (c 6) 0 + max (c 7) 0) + max (c 8) 0 ≤ 128
  neg : 2 * (max (-c 0) 0 + max (-c 1) 0 + max (-c 2) 0 + max (-c 3) 0 + max (-c 4) 0 + max (-c 5) 0 + max (-c 6) 0 + max (-c 7) 0) + max (-c 8) 0 ≤ 128

theorem prod_bound (u k : Int) (hu : 0 ≤ u ∧ u ≤ 255) : -255 * max (-k) 0 ≤ u * k ∧ u * k ≤ 255 * max k 0 := by
  obtain ⟨h0, h1⟩ := hu
  rcases le_total 0 k with h | h
  · rw [max_eq_right (by omega : -k ≤ 0), max_eq_left h]; constructor <;> nlinarith
  · rw [max_eq_left (by omega : 0 ≤ -k), max_eq_right h]; constructor <;> nlinarith

theorem alf_nosat {c : Nat → Int} (hc : Moderate c) {a0 b0 a1 b1 a2 b2 a3 b3 a4 b4 a5 b5 a6 b6 a7 b7 a8 : Int}
    (h0 : -255 * max (-c 0) 0 ≤ a0 ∧ a0 ≤ 255 * max (c 0) 0) (h0' : -255 * max (-c 0) 0 ≤ b0 ∧ b0 ≤ 255 * max (c 0) 0)
    (h1 : -255 * max (-c 1) 0 ≤ a1 ∧ a1 ≤ 255 * max (c 1) 0) (h1' : -255 * max (-c 1) 0 ≤ b1 ∧ b1 ≤ 255 * max (c 1) 0)
    (h2 : -255 * max (-c 2) 0 ≤ a2 ∧ a2 ≤ 255 * max (c 2) 0) (h2' : -255 * max (-c 2) 0 ≤ b2 ∧ b2 ≤ 255 * max (c 2) 0)
    (h3 : -255 * max (-c 3) 0 ≤ a3 ∧ a3 ≤ 255 * max (c 3) 0) (h3' : -255 * max (-c 3) 0 ≤ b3 ∧ b3 ≤ 255 * max (c 3) 0)
    (h4 : -255 * max (-c 4) 0 ≤ a4 ∧ a4 ≤ 255 * max (c 4) 0) (h4' : -255 * max (-c 4) 0 ≤ b4 ∧ b4 ≤ 255 * max (c 4) 0)
    (h5 : -255 * max (-c 5) 0 ≤ a5 ∧ a5 ≤ 255 * max (c 5) 0) (h5' : -255 * max (-c 5) 0 ≤ b5 ∧ b5 ≤ 255 * max (c 5) 0)
    (h6 : -255 * max (-c 6) 0 ≤ a6 ∧ a6 ≤ 255 * max (c 6) 0) (h6' : -255 * max (-c 6) 0 ≤ b6 ∧ b6 ≤ 255 * max (c 6) 0)
    (h7 : -255 * max (-c 7) 0 ≤ a7 ∧ a7 ≤ 255 * max (c 7) 0) (h7' : -255 * max (-c 7) 0 ≤ b7 ∧ b7 ≤ 255 * max (c 7) 0)
    (h8 : -255 * max (-c 8) 0 ≤ a8 ∧ a8 ≤ 255 * max (c 8) 0) :
    sat16 (sat16 (sat16 (sat16 (a4 + b4) + sat16 (sat16 (sat16 (a5 + a6) + sat16 (a7 + a8)) + sat16 (sat16 (b7 + b6) + sat16 (b5 + 0)))) +
      sat16 (sat16 (sat16 (a3 + b3) + sat16 (a2 + b2)) + sat16 (sat16 (a0 + b0) + sat16 (a1 + b1)))) + 32) =
    a0 + b0 + (a1 + b1) + (a2 + b2) + (a3 + b3) + (a4 + b4) + (a5 + b5) + (a6 + b6) + (a7 + b7) + a8 + 32 := by
  obtain ⟨-, hp, hn⟩ := hc
  have x0 : 0 ≤ max (c 0) 0 := le_max_right _ _
  have y0 : 0 ≤ max (-c 0) 0 := le_max_right _ _
  have x1 : 0 ≤ max (c 1) 0 := le_max_right _ _
  have y1 : 0 ≤ max (-c 1) 0 := le_max_right _ _
  have x2 : 0 ≤ max (c 2) 0 := le_max_right _ _
  have y2 : 0 ≤ max (-c 2) 0 := le_max_right _ _
  have x3 : 0 ≤ max (c 3) 0 := le_max_right _ _
  have y3 : 0 ≤ max (-c 3) 0 := le_max_right _ _
  have x4 : 0 ≤ max (c 4) 0 := le_max_right _ _
  have y4 : 0 ≤ max (-c 4) 0 := le_max_right _ _
  have x5 : 0 ≤ max (c 5) 0 := le_max_right _ _
  have y5 : 0 ≤ max (-c 5) 0 := le_max_right _ _
  have x6 : 0 ≤ max (c 6) 0 := le_max_right _ _
  have y6 : 0 ≤ max (-c 6) 0 := le_max_right _ _
  have x7 : 0 ≤ max (c 7) 0 := le_max_right _ _
  have y7 : 0 ≤ max (-c 7) 0 := le_max_right _ _
  have x8 : 0 ≤ max (c 8) 0 := le_max_right _ _
  have y8 : 0 ≤ max (-c 8) 0 := le_max_right _ _
  rw [sat16_id (x := a4 + b4) ⟨by linarith, by linarith⟩]
  rw [sat16_id (x := a5 + a6) ⟨by linarith, by linarith⟩]
  rw [sat16_id (x := a7 + a8) ⟨by linarith, by linarith⟩]
  rw [sat16_id (x := a5 + a6 + (a7 + a8)) ⟨by linarith, by linarith⟩]
  rw [sat16_id (x := b7 + b6) ⟨by linarith, by linarith⟩]
  rw [sat16_id (x := b5 + 0) ⟨by linarith, by linarith⟩]
  rw [sat16_id (x := b7 + b6 + (b5 + 0)) ⟨by linarith, by linarith⟩]
  rw [sat16_id (x := a5 + a6 + (a7 + a8) + (b7 + b6 + (b5 + 0))) ⟨by linarith, by linarith⟩]
  rw [sat16_id (x := a4 + b4 + (a5 + a6 + (a7 + a8) + (b7 + b6 + (b5 + 0)))) ⟨by linarith, by linarith⟩]
  rw [sat16_id (x := a3 + b3) ⟨by linarith, by linarith⟩]
  rw [sat16_id (x := a2 + b2) ⟨by linarith, by linarith⟩]
  rw [sat16_id (x := a3 + b3 + (a2 + b2)) ⟨by linarith, by linarith⟩]
  rw [sat16_id (x := a0 + b0) ⟨by linarith, by linarith⟩]
  rw [sat16_id (x := a1 + b1) ⟨by linarith, by linarith⟩]
  rw [sat16_id (x := a0 + b0 + (a1 + b1)) ⟨by linarith, by linarith⟩]
  rw [sat16_id (x := a3 + b3 + (a2 + b2) + (a0 + b0 + (a1 + b1))) ⟨by linarith, by linarith⟩]
  rw [sat16_id (x := a4 + b4 + (a5 + a6 + (a7 + a8) + (b7 + b6 + (b5 + 0))) + (a3 + b3 + (a2 + b2) + (a0 + b0 + (a1 + b1)))) ⟨by linarith, by linarith⟩]
  rw [sat16_id (x := a4 + b4 + (a5 + a6 + (a7 + a8) + (b7 + b6 + (b5 + 0))) + (a3 + b3 + (a2 + b2) + (a0 + b0 + (a1 + b1))) + 32) ⟨by linarith, by linarith⟩]
  ring

theorem Moderate.range {c : Nat → Int} (hc : Moderate c) (k : Nat) (hk : k ≤ 8) : -128 ≤ c k ∧ c k ≤ 127 := by
  obtain ⟨h8, hp, hn⟩ := hc
  have x : ∀ k, 0 ≤ max (c k) 0 := fun _ => le_max_right _ _
  have y : ∀ k, 0 ≤ max (-c k) 0 := fun _ => le_max_right _ _
  have x' : ∀ k, c k ≤ max (c k) 0 := fun _ => le_max_left _ _
  have y' : ∀ k, -c k ≤ max (-c k) 0 := fun _ => le_max_left _ _
  have := x 0; have := x 1; have := x 2; have := x 3; have := x 4; have := x 5; have := x 6; have := x 7; have := x 8
  have := y 0; have := y 1; have := y 2; have := y 3; have := y 4; have := y 5; have := y 6; have := y 7; have := y 8
  have := x' k; have := y' k
  interval_cases k <;> constructor <;> linarith

theorem i8_set1 {x : Int} (h : -128 ≤ x ∧ x ≤ 127) (j : Nat) : i8 (set1_8 x) j = x := by
  unfold set1_8; rw [i8_ofB]; omega

/-- A lane of the sum of all products. -/
theorem w16_half {c : Nat → Int} (hc : Moderate c) (unpack : V → V → V) {i i' : Nat} (hi : i < 8)
    (hu : ∀ a b, u8 (unpack a b) (2 * i) = u8 a i' ∧ u8 (unpack a b) (2 * i + 1) = u8 b i')
    (A0 B0 A1 B1 A2 B2 A3 B3 A4 B4 t : V) :
    w16 (alfSum 8 (maddubs (unpack A0 B0) (set1_8 (c 0))) (maddubs (unpack A1 B1) (set1_8 (c 1))) (maddubs (unpack A2 B2) (set1_8 (c 2)))
      (maddubs (unpack A3 B3) (set1_8 (c 3))) (maddubs (unpack A4 B4) (set1_8 (c 4))) (alfLine c t)) i =
    saturate 8 ((c 0 * (u8 B0 i' + u8 A0 i') + c 1 * (u8 B1 i' + u8 A1 i') + c 2 * (u8 B2 i' + u8 A2 i') + c 3 * (u8 B3 i' + u8 A3 i') +
      c 4 * (u8 B4 i' + u8 A4 i') + c 5 * (u8 t (i + 6) + u8 t i) + c 6 * (u8 t (i + 5) + u8 t (i + 1)) + c 7 * (u8 t (i + 4) + u8 t (i + 2)) +
      c 8 * u8 t (i + 3) + 32) / 64) := by
  unfold alfSum
  simp only [w16_max16, w16_min16, w16_srai16, w16_adds16, w16_set1, w16_maddubs, w16_alfLine c t i hi]
  rw [(hu A0 B0).1, (hu A0 B0).2, (hu A1 B1).1, (hu A1 B1).2, (hu A2 B2).1, (hu A2 B2).2, (hu A3 B3).1, (hu A3 B3).2, (hu A4 B4).1, (hu A4 B4).2]
  simp only [i8_set1 (hc.range 0 (by omega)), i8_set1 (hc.range 1 (by omega)), i8_set1 (hc.range 2 (by omega)), i8_set1 (hc.range 3 (by omega)),
    i8_set1 (hc.range 4 (by omega)), lim_id (hc.range 5 (by omega)), lim_id (hc.range 6 (by omega)), lim_id (hc.range 7 (by omega)),
    lim_id (hc.range 8 (by omega)), Int.zero_mul, show wrap16 32 = 32 from rfl]
  have b := fun (v : V) j k => prod_bound (u8 v j) (c k) (u8_range v j)
  rw [alf_nosat hc (b A0 i' 0) (b B0 i' 0) (b A1 i' 1) (b B1 i' 1) (b A2 i' 2) (b B2 i' 2) (b A3 i' 3) (b B3 i' 3) (b A4 i' 4) (b B4 i' 4)
    (b t i 5) (b t (i + 6) 5) (b t (i + 1) 6) (b t (i + 5) 6) (b t (i + 2) 7) (b t (i + 4) 7) (b t (i + 3) 8)]
  rw [show wrap16 ((2 : Int) ^ 8 - 1) = 255 from rfl, show wrap16 0 = 0 from rfl]
  unfold saturate
  rw [show ((2 : Int) ^ 8 - 1) = 255 from rfl, show ((2 : Int) ^ 6) = 64 from rfl, max_comm, min_comm]
  congr 3
  ring

/-- Samples are bytes. -/
def Bytes (src : Plane) : Prop := ∀ x y, 0 ≤ src x y ∧ src x y ≤ 255

/-- A byte of the result. -/
theorem u8_alfVec {c : Nat → Int} (hc : Moderate c) {src : Plane} (hs : Bytes src) {w h x y : Int} {j : Nat} (hj : j < 16)
    (hx : 0 ≤ x + j ∧ x + j < w) :
    some (u8 (alfVec 8 c src h x y) j) = Al.sample1 8 c src w h (x + j) y := by
  have l : ∀ (x y : Int) (k : Nat), u8 (load src x y) k = src (x + k) y := fun x y k => u8_load _ _ _ _ (hs _ _)
  have cx : ∀ d : Int, -3 ≤ d → d ≤ 3 → clip3 (-3) (w - 1 + 3) (x + j + d) = x + j + d := by
    intro d h1 h2; unfold clip3; omega
  have r : ∀ k ≤ 8, -128 ≤ c k ∧ c k ≤ 127 := hc.range
  unfold Al.sample1
  dsimp only
  simp only [sub_eq_add_neg (x + (j : Int))]
  rw [cx 1 (by omega) (by omega), cx (-1) (by omega) (by omega), cx 2 (by omega) (by omega), cx (-2) (by omega) (by omega),
    cx 3 (by omega) (by omega), cx (-3) (by omega) (by omega)]
  rw [Al.pixel_some (fun k hk => by have := r k (by omega); omega) (by have := r 8 (by omega); omega) (by
    intro s h
    simp only [List.mem_cons, List.not_mem_nil, or_false] at h
    have two : ∀ x y x' y', 0 ≤ src x y + src x' y' ∧ src x y + src x' y' ≤ 2046 := by
      intro x y x' y'; have := hs x y; have := hs x' y'; omega
    rcases h with e | e | e | e | e | e | e | e <;> rw [e] <;> exact two _ _ _ _) (by have := hs (x + j) y; omega)]
  unfold alfVec
  dsimp only
  rw [u8_packus16]
  have s8 : ∀ v, satu8 (saturate 8 v) = saturate 8 v := by intro v; unfold satu8 saturate; omega
  congr 1
  by_cases h8 : j < 8
  · rw [if_pos h8, w16_half hc unpacklo8 h8 (fun a b => u8_unpacklo a b j), s8]
    simp only [l]
    congr 2
    simp only [sub_eq_add_neg]
    push_cast
    rw [show x + -1 + (j : Int) = x + j + -1 by ring, show x + 1 + (j : Int) = x + j + 1 by ring,
      show x + -3 + ((j : Int) + 6) = x + j + 3 by ring, show x + -3 + (j : Int) = x + j + -3 by ring,
      show x + -3 + ((j : Int) + 5) = x + j + 2 by ring, show x + -3 + ((j : Int) + 1) = x + j + -2 by ring,
      show x + -3 + ((j : Int) + 4) = x + j + 1 by ring, show x + -3 + ((j : Int) + 2) = x + j + -1 by ring,
      show x + -3 + ((j : Int) + 3) = x + j by ring]
  · rw [if_neg h8, w16_half hc unpackhi8 (by omega) (fun a b => u8_unpackhi a b (j - 8)), s8]
    simp only [l]
    congr 2
    obtain ⟨i, rfl⟩ : ∃ i, j = 8 + i := ⟨j - 8, by omega⟩
    simp only [sub_eq_add_neg, Nat.add_sub_cancel_left]
    push_cast
    rw [show x + -1 + (8 + (i : Int)) = x + (8 + i) + -1 by ring, show x + 1 + (8 + (i : Int)) = x + (8 + i) + 1 by ring,
      show x + 5 + ((i : Int) + 6) = x + (8 + i) + 3 by ring, show x + 5 + (i : Int) = x + (8 + i) + -3 by ring,
      show x + 5 + ((i : Int) + 5) = x + (8 + i) + 2 by ring, show x + 5 + ((i : Int) + 1) = x + (8 + i) + -2 by ring,
      show x + 5 + ((i : Int) + 4) = x + (8 + i) + 1 by ring, show x + 5 + ((i : Int) + 2) = x + (8 + i) + -1 by ring,
      show x + 5 + ((i : Int) + 3) = x + (8 + i) by ring]

/-- The byte stored in column `x`. -/
def alfCol (c : Nat → Int) (src : Plane) (h x y : Int) : Int := u8 (alfVec 8 c src h (16 * (x / 16)) y) (x % 16).toNat

/-- Row `y` is filtered in the columns up to `n`. -/
def Upto (c : Nat → Int) (src : Plane) (h y n : Int) (dst d : Plane) : Prop :=
  ∀ x' y', d x' y' = if y' = y ∧ 0 ≤ x' ∧ x' < n then alfCol c src h x' y else dst x' y'

variable {c : Nat → Int} {src : Plane} {w h px : Int}

theorem Upto.store {y i : Int} {dst d : Plane} (hi : 0 ≤ i) (hd : Upto c src h y (16 * i) dst d) :
    Upto c src h y (16 * (i + 1)) dst (store d (16 * i) y (alfVec 8 c src h (16 * i) y)) := by
  intro x' y'
  unfold Vc.store
  by_cases hx : y' = y ∧ 16 * i ≤ x' ∧ x' < 16 * i + 16
  · rw [if_pos hx, if_pos (by omega)]
    unfold alfCol
    rw [show x' / 16 = i by omega, show (x' - 16 * i).toNat = (x' % 16).toNat by omega]
  · rw [if_neg hx, hd]
    by_cases hx2 : y' = y ∧ 0 ≤ x' ∧ x' < 16 * i
    · rw [if_pos hx2, if_pos (by omega)]
    · rw [if_neg hx2, if_neg (by omega)]

theorem Upto.mask {y i : Int} {dst d : Plane} {m : V} (hi : 0 ≤ i) (hm : maskRow (w % 16 - 1) = some m) (hw : 16 * i = w - w % 16)
    (hd : Upto c src h y (16 * i) dst d) :
    Upto c src h y w dst (maskmove d (16 * i) y (alfVec 8 c src h (16 * i) y) m) := by
  intro x' y'
  unfold maskmove
  have e := maskRow_msb hm (x' - 16 * i).toNat
  by_cases hx : y' = y ∧ 16 * i ≤ x' ∧ x' < 16 * i + 16 ∧ (m (x' - 16 * i).toNat).msb = true
  · have := e.1 hx.2.2.2
    rw [if_pos hx, if_pos (by omega)]
    unfold alfCol
    rw [show x' / 16 = i by omega, show (x' - 16 * i).toNat = (x' % 16).toNat by omega]
  · rw [if_neg hx, hd]
    by_cases hx2 : y' = y ∧ 0 ≤ x' ∧ x' < 16 * i
    · rw [if_pos hx2, if_pos (by omega)]
    · rw [if_neg hx2, if_neg]
      intro hc
      refine hx ⟨hc.1, by omega, by omega, e.2 (by omega)⟩

/-- Without masked store, whole vectors are written. -/
theorem alfRow_full (hp : w ≤ px + w - w % 16) (y : Int) (dst : Plane) :
    Upto c src h y (16 * max 0 ((w + 15) / 16)) dst (alfRow 8 c src h w px y dst) := by
  unfold alfRow
  have key := loop_inv (a := 0) (b := (w + 15) / 16) (f := fun i st => alfStep 8 c src h w px y (16 * i) st) (s := (dst, true))
    (P := fun i (st : Plane × Bool) => st.2 = true ∧ Upto c src h y (16 * i) dst st.1)
    ⟨rfl, fun x' y' => by rw [if_neg (by omega)]⟩ (by
      intro i st h0 h1 ⟨hb, hd⟩
      unfold alfStep
      rw [if_neg (by rw [hb]; decide), if_pos (by omega)]
      exact ⟨rfl, hd.store h0⟩)
  exact key.2

/-- With the masked store at its right place, the width is respected. -/
theorem alfRow_mask (hw : 0 < w) (hm : w % 16 ≠ 0) (y : Int) (dst : Plane) :
    Upto c src h y w dst (alfRow 8 c src h w 0 y dst) := by
  unfold alfRow
  obtain ⟨m, em⟩ : ∃ m, maskRow (w % 16 - 1) = some m := by unfold maskRow; rw [if_pos (by omega)]; exact ⟨_, rfl⟩
  have key := loop_inv (a := 0) (b := (w + 15) / 16) (f := fun i st => alfStep 8 c src h w 0 y (16 * i) st) (s := (dst, true))
    (P := fun i (st : Plane × Bool) => (16 * i ≤ w ∧ st.2 = true ∧ Upto c src h y (16 * i) dst st.1) ∨
      (st.2 = false ∧ Upto c src h y w dst st.1))
    (Or.inl ⟨by omega, rfl, fun x' y' => by rw [if_neg (by omega)]⟩) (by
      intro i st h0 h1 hor
      unfold alfStep
      rcases hor with ⟨hl, hb, hd⟩ | ⟨hb, hd⟩
      · rw [if_neg (by rw [hb]; decide)]
        by_cases hx : 16 * i ≠ 0 + w - w % 16
        · rw [if_pos hx]
          exact Or.inl ⟨by omega, rfl, hd.store h0⟩
        · rw [if_neg hx, em]
          exact Or.inr ⟨rfl, hd.mask h0 em (by omega)⟩
      · rw [if_pos hb]
        exact Or.inr ⟨hb, hd⟩)
  rcases key with ⟨hl, -, hd⟩ | ⟨-, hd⟩
  · omega
  · exact hd

/-- All rows. -/
theorem alfBlock_eq {n : Int} (hr : ∀ y d, Upto c src h y n d (alfRow 8 c src h w px y d)) (dst : Plane) (x y : Int) :
    alfBlock 8 c src h w px dst x y = if 0 ≤ x ∧ x < n ∧ 0 ≤ y ∧ y < h then alfCol c src h x y else dst x y := by
  unfold alfBlock
  have key := loop_inv (a := 0) (b := h) (f := fun y dst => alfRow 8 c src h w px y dst) (s := dst)
    (P := fun y (d : Plane) => ∀ x' y', d x' y' = if 0 ≤ x' ∧ x' < n ∧ 0 ≤ y' ∧ y' < y then alfCol c src h x' y' else dst x' y')
    (fun x' y' => by rw [if_neg (by omega)]) (by
      intro y d h0 h1 hd x' y'
      rw [hr y d x' y']
      by_cases hx : y' = y ∧ 0 ≤ x' ∧ x' < n
      · rw [if_pos hx, if_pos (by omega), hx.1]
      · rw [if_neg hx, hd]
        by_cases hx2 : 0 ≤ x' ∧ x' < n ∧ 0 ≤ y' ∧ y' < y
        · rw [if_pos hx2, if_pos (by omega)]
        · rw [if_neg hx2, if_neg (by omega)])
  rw [key x y]
  by_cases hx : 0 ≤ x ∧ x < n ∧ 0 ≤ y ∧ y < h
  · rw [if_pos hx, if_pos (by omega)]
  · rw [if_neg hx, if_neg (by omega)]

theorem alfCol_sample (hc : Moderate c) (hs : Bytes src) {x y : Int} (h0 : 0 ≤ x) {w' : Int} (hw : x < w') :
    some (alfCol c src h x y) = Al.sample1 8 c src w' h x y := by
  unfold alfCol
  have e : 16 * (x / 16) + ((x % 16).toNat : Int) = x := by omega
  rw [u8_alfVec hc hs (w := w') (by omega) (by omega), e]

end Davs2.Vc
