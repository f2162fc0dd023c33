import Verif.Model.IntraFast
import Mathlib.Tactic.IntervalCases
import Mathlib.Tactic.Ring
/-
Lemmas for the equality of the specialised and the general directional predictors.
-/
namespace Davs2.Ip

/-- The interpolation along the top row, from sample `p` on. -/
def tap (t : Border) (c p : Int) : Int :=
  (t p * (32 - c) + t (p + 1) * (64 - c) + t (p + 2) * (32 + c) + t (p + 3) * c + 64) / 128

/-- The interpolation down the left column, from sample `p` on. -/
def tapm (t : Border) (c p : Int) : Int :=
  (t p * (32 - c) + t (p - 1) * (64 - c) + t (p - 2) * (32 + c) + t (p - 3) * c + 64) / 128

theorem ctxPos_add (a m k d : Nat) :
    ctxPos a m (2 ^ (dir a m).2 * k + d) = (dir a m).1 * k + ctxPos a m d := by
  simp only [ctxPos]
  rw [Nat.add_mul, show 2 ^ (dir a m).2 * k * (dir a m).1 = 2 ^ (dir a m).2 * ((dir a m).1 * k) by ring,
    Nat.mul_add_div (Nat.pow_pos (by decide))]

theorem ctxOff_add (a m k d : Nat) :
    ctxOff a m (2 ^ (dir a m).2 * k + d) = ctxOff a m d := by
  simp only [ctxOff]
  rw [ctxPos_add, Nat.add_mul, Nat.add_mul,
    show 2 ^ (dir a m).2 * k * (dir a m).1 * 32 = 2 ^ (dir a m).2 * ((dir a m).1 * k * 32) by ring,
    Nat.mul_add_div (Nat.pow_pos (by decide))]
  omega

theorem ctx_period (a m P M n : Nat) (hd : dir a m = (M, P)) :
    ctxPos a m (n + 1) = M * (n / 2 ^ P) + ctxPos a m (n % 2 ^ P + 1) ∧
    ctxOff a m (n + 1) = ctxOff a m (n % 2 ^ P + 1) := by
  have e : n + 1 = 2 ^ (dir a m).2 * (n / 2 ^ P) + (n % 2 ^ P + 1) := by
    have := Nat.div_add_mod n (2 ^ P)
    rw [hd]
    dsimp only
    omega
  constructor
  · conv => lhs; rw [e]
    rw [ctxPos_add, hd]
  · conv => lhs; rw [e]
    rw [ctxOff_add]

theorem up_up (s : Border) (i j : Int) : up (up s i) j = up s (j + i) := by
  funext k
  simp only [up]
  congr 1
  omega

theorem tap_up (s : Border) (i c p : Int) : tap (up s i) c p = tap s c (p + i) := by
  simp only [tap, up]
  rw [Int.add_right_comm p 1 i, Int.add_right_comm p 2 i, Int.add_right_comm p 3 i]

theorem tapm_up (s : Border) (i c p : Int) : tapm (up s i) c p = tapm s c (p + i) := by
  simp only [tapm, up]
  rw [show p - 1 + i = p + i - 1 by omega, show p - 2 + i = p + i - 2 by omega, show p - 3 + i = p + i - 3 by omega]

theorem angX_up (s : Border) (m x y P M : Nat) (hd : dir 0 m = (M, P)) :
    angX s m x y = tap (up s ((y / 2 ^ P * M + x : Nat) : Int)) (ctxOff 0 m (y % 2 ^ P + 1)) (ctxPos 0 m (y % 2 ^ P + 1)) := by
  obtain ⟨h1, h2⟩ := ctx_period 0 m P M y hd
  rw [tap_up]
  have e : ((M * (y / 2 ^ P) + ctxPos 0 m (y % 2 ^ P + 1) : Nat) : Int) + (x : Int)
      = (ctxPos 0 m (y % 2 ^ P + 1) : Int) + ((y / 2 ^ P * M + x : Nat) : Int) := by
    push_cast; ring
  show tap s (ctxOff 0 m (y + 1)) (ctxPos 0 m (y + 1) + x) = _
  rw [h1, h2, e]

theorem angY_up (s : Border) (m x y P M : Nat) (hd : dir 1 m = (M, P)) :
    angY s m x y = tapm (up s (-((y + x / 2 ^ P * M : Nat) : Int))) (ctxOff 1 m (x % 2 ^ P + 1)) (-(ctxPos 1 m (x % 2 ^ P + 1) : Int)) := by
  obtain ⟨h1, h2⟩ := ctx_period 1 m P M x hd
  rw [tapm_up]
  have e : -((y : Int) + ((M * (x / 2 ^ P) + ctxPos 1 m (x % 2 ^ P + 1) : Nat) : Int))
      = -(ctxPos 1 m (x % 2 ^ P + 1) : Int) + -((y + x / 2 ^ P * M : Nat) : Int) := by
    push_cast; ring
  show tapm s (ctxOff 1 m (x + 1)) (-((y : Int) + ctxPos 1 m (x + 1))) = _
  rw [h1, h2, e]

macro "line_tac" : tactic =>
  `(tactic| (simp [tap, tapm, ctxOff, ctxPos, dir, dirDxDy] <;> omega))

theorem x3Line_eq (t : Border) (r : Nat) (hr : r < 4) :
    x3Line r t = tap t (ctxOff 0 3 (r + 1)) (ctxPos 0 3 (r + 1)) := by
  interval_cases r <;> simp only [x3Line] <;> line_tac

theorem x5Line_eq (t : Border) (r : Nat) (hr : r < 8) :
    x5Line r t = tap t (ctxOff 0 5 (r + 1)) (ctxPos 0 5 (r + 1)) := by
  interval_cases r <;> simp only [x5Line] <;> line_tac

theorem x7Line_eq (t : Border) (r : Nat) (hr : r < 8) :
    x7Line r t = tap t (ctxOff 0 7 (r + 1)) (ctxPos 0 7 (r + 1)) := by
  interval_cases r <;> simp only [x7Line] <;> line_tac

theorem x8Line_eq (t : Border) (r : Nat) (hr : r < 2) :
    x8Line r t = tap t (ctxOff 0 8 (r + 1)) (ctxPos 0 8 (r + 1)) := by
  interval_cases r <;> simp only [x8Line] <;> line_tac

theorem x9Line_eq (t : Border) (r : Nat) (hr : r < 8) :
    x9Line r t = tap t (ctxOff 0 9 (r + 1)) (ctxPos 0 9 (r + 1)) := by
  interval_cases r <;> simp only [x9Line] <;> line_tac

theorem x10Line_eq (t : Border) (r : Nat) (hr : r < 4) :
    x10Line r t = tap t (ctxOff 0 10 (r + 1)) (ctxPos 0 10 (r + 1)) := by
  interval_cases r <;> simp only [x10Line] <;> line_tac

theorem x11Line_eq (t : Border) (r : Nat) (hr : r < 8) :
    x11Line r t = tap t (ctxOff 0 11 (r + 1)) (ctxPos 0 11 (r + 1)) := by
  interval_cases r <;> simp only [x11Line] <;> line_tac

theorem y25Col_eq (t : Border) (r : Nat) (hr : r < 8) :
    y25Col r t = tapm t (ctxOff 1 25 (r + 1)) (-(ctxPos 1 25 (r + 1) : Int)) := by
  interval_cases r <;> simp only [y25Col] <;> line_tac

theorem y26Col_eq (t : Border) (r : Nat) (hr : r < 4) :
    y26Col r t = tapm t (ctxOff 1 26 (r + 1)) (-(ctxPos 1 26 (r + 1) : Int)) := by
  interval_cases r <;> simp only [y26Col] <;> line_tac

theorem y27Col_eq (t : Border) (r : Nat) (hr : r < 8) :
    y27Col r t = tapm t (ctxOff 1 27 (r + 1)) (-(ctxPos 1 27 (r + 1) : Int)) := by
  interval_cases r <;> simp only [y27Col] <;> line_tac

theorem y28Col_eq (t : Border) (r : Nat) (hr : r < 2) :
    y28Col r t = tapm t (ctxOff 1 28 (r + 1)) (-(ctxPos 1 28 (r + 1) : Int)) := by
  interval_cases r <;> simp only [y28Col] <;> line_tac

theorem y29Col_eq (t : Border) (r : Nat) (hr : r < 8) :
    y29Col r t = tapm t (ctxOff 1 29 (r + 1)) (-(ctxPos 1 29 (r + 1) : Int)) := by
  interval_cases r <;> simp only [y29Col] <;> line_tac

theorem y31Col_eq (t : Border) (r : Nat) (hr : r < 8) :
    y31Col r t = tapm t (ctxOff 1 31 (r + 1)) (-(ctxPos 1 31 (r + 1) : Int)) := by
  interval_cases r <;> simp only [y31Col] <;> line_tac

theorem xy13Line_eq (t : Border) (r : Nat) (hr : r < 8) :
    xy13Line r t = tapm t (ctxOff 0 13 (r + 1)) (2 - (ctxPos 0 13 (r + 1) : Int)) := by
  interval_cases r <;> simp only [xy13Line] <;> line_tac

theorem xy13Left_eq (t : Border) (r : Nat) (hr : r < 8) :
    xy13Left r t = tap t 0 (6 - (r : Int)) := by
  interval_cases r <;> simp only [xy13Left] <;> line_tac

theorem xy14Line_eq (t : Border) (r : Nat) (hr : r < 4) :
    xy14Line r t = tapm t (ctxOff 0 14 (r + 1)) (2 - (ctxPos 0 14 (r + 1) : Int)) := by
  interval_cases r <;> simp only [xy14Line] <;> line_tac

theorem xy14Left_eq (t : Border) (r : Nat) (hr : r < 4) :
    xy14Left r t = tap t 0 (2 - (r : Int)) := by
  interval_cases r <;> simp only [xy14Left] <;> line_tac

theorem xy16Line_eq (t : Border) (r : Nat) (hr : r < 2) :
    xy16Line r t = tapm t (ctxOff 0 16 (r + 1)) (2 - (ctxPos 0 16 (r + 1) : Int)) := by
  interval_cases r <;> simp only [xy16Line] <;> line_tac

theorem xy16Left_eq (t : Border) (r : Nat) (hr : r < 2) :
    xy16Left r t = tap t 0 (0 - (r : Int)) := by
  interval_cases r <;> simp only [xy16Left] <;> line_tac

theorem xy20Col_eq (t : Border) (r : Nat) (hr : r < 2) :
    xy20Col r t = tap t (ctxOff 1 20 (r + 1)) ((ctxPos 1 20 (r + 1) : Int) - 1) := by
  interval_cases r <;> simp only [xy20Col] <;> line_tac

theorem xy22Col_eq (t : Border) (r : Nat) (hr : r < 4) :
    xy22Col r t = tap t (ctxOff 1 22 (r + 1)) ((ctxPos 1 22 (r + 1) : Int) - 1) := by
  interval_cases r <;> simp only [xy22Col] <;> line_tac

theorem xy23Col_eq (t : Border) (r : Nat) (hr : r < 8) :
    xy23Col r t = tap t (ctxOff 1 23 (r + 1)) ((ctxPos 1 23 (r + 1) : Int) - 1) := by
  interval_cases r <;> simp only [xy23Col] <;> line_tac

theorem xy22Small_eq (t : Border) (r : Nat) (hr : r < 4) :
    xy22Small r t = tap t (ctxOff 1 22 (r + 1)) ((ctxPos 1 22 (r + 1) : Int) - 2) := by
  interval_cases r <;> simp only [xy22Small] <;> line_tac

theorem xy23Small_eq (t : Border) (r : Nat) (hr : r < 8) :
    xy23Small r t = tap t (ctxOff 1 23 (r + 1)) ((ctxPos 1 23 (r + 1) : Int) - 2) := by
  interval_cases r <;> simp only [xy23Small] <;> line_tac

theorem tap_zero (t : Border) (p : Int) : tap t 0 p = (t p + t (p + 1) * 2 + t (p + 2) + 2) / 4 := by
  simp only [tap]
  omega

theorem tapm_zero (t : Border) (p : Int) : tapm t 0 p = (t (p - 2) + t (p - 1) * 2 + t p + 2) / 4 := by
  simp only [tapm]
  omega

theorem lineAt_pos {size : Nat} {f : Nat → Int} {n : Nat} (h : n < size) : lineAt size f n = some (f n) := if_pos h

theorem angXY_eq (s : Border) (m x y : Nat) :
    angXY s m x y =
      if y < ctxPos 1 m (x + 1) then tapm s (ctxOff 0 m (y + 1)) (x + 2 - (ctxPos 0 m (y + 1) : Int))
      else tap s (ctxOff 1 m (x + 1)) ((ctxPos 1 m (x + 1) : Int) - y - 2) := by
  by_cases h : y < ctxPos 1 m (x + 1)
  · rw [if_pos h]
    simp only [angXY, tapm]
    rw [if_pos (by omega)]
    rw [show (x : Int) + 2 - (ctxPos 0 m (y + 1) : Int) = -(ctxPos 0 m (y + 1) : Int) + x + 2 by omega,
      show -(ctxPos 0 m (y + 1) : Int) + x + 2 - 1 = -(ctxPos 0 m (y + 1) : Int) + x + 1 by omega,
      show -(ctxPos 0 m (y + 1) : Int) + x + 2 - 2 = -(ctxPos 0 m (y + 1) : Int) + x by omega,
      show -(ctxPos 0 m (y + 1) : Int) + x + 2 - 3 = -(ctxPos 0 m (y + 1) : Int) + x - 1 by omega]
  · rw [if_neg h]
    simp only [angXY, tap]
    rw [if_neg (by omega)]
    rw [show (ctxPos 1 m (x + 1) : Int) - y - 2 = -((y : Int) - ctxPos 1 m (x + 1)) - 2 by omega,
      show -((y : Int) - ctxPos 1 m (x + 1)) - 2 + 1 = -((y : Int) - ctxPos 1 m (x + 1)) - 1 by omega,
      show -((y : Int) - ctxPos 1 m (x + 1)) - 2 + 2 = -((y : Int) - ctxPos 1 m (x + 1)) by omega,
      show -((y : Int) - ctxPos 1 m (x + 1)) - 2 + 3 = -((y : Int) - ctxPos 1 m (x + 1)) + 1 by omega]

/-! ### From the top row -/

variable {s : Border} {bsx bsy x y : Nat}

theorem angX_whole (s : Border) (m x y M : Nat) (hd : dir 0 m = (M, 0)) :
    angX s m x y = (s (M * (y + 1) + x) + s (M * (y + 1) + x + 1) * 2 + s (M * (y + 1) + x + 2) + 2) / 4 := by
  show tap s (ctxOff 0 m (y + 1)) (ctxPos 0 m (y + 1) + x) = _
  have hp : ctxPos 0 m (y + 1) = M * (y + 1) := by simp [ctxPos, hd, Nat.mul_comm]
  have ho : ctxOff 0 m (y + 1) = 0 := by simp [ctxOff, hp, hd, Nat.mul_comm]
  rw [ho, hp]
  push_cast
  exact tap_zero _ _

theorem angY_whole (s : Border) (m x y M : Nat) (hd : dir 1 m = (M, 0)) :
    angY s m x y = (s (-(y + M * (x + 1)) - 2) + s (-(y + M * (x + 1)) - 1) * 2 + s (-(y + M * (x + 1))) + 2) / 4 := by
  show tapm s (ctxOff 1 m (x + 1)) (-((y : Int) + ctxPos 1 m (x + 1))) = _
  have hp : ctxPos 1 m (x + 1) = M * (x + 1) := by simp [ctxPos, hd, Nat.mul_comm]
  have ho : ctxOff 1 m (x + 1) = 0 := by simp [ctxOff, hp, hd, Nat.mul_comm]
  rw [ho, hp]
  push_cast
  exact tapm_zero _ _

theorem x3_eq (hx : x < bsx) (hy : y < bsy) (h4 : bsy % 4 = 0) : x3 s bsx bsy x y = some (angX s 3 x y) := by
  rw [x3, if_pos (by omega), lineAt_pos (by omega), x3Line_eq _ _ (by omega), angX_up s 3 x y 2 11 rfl]
  rfl

theorem x4_eq (hx : x < bsx) (hy : y < bsy) : x4 s bsx bsy x y = some (angX s 4 x y) := by
  simp only [x4]
  rw [lineAt_pos (by omega), angX_whole s 4 x y 2 rfl]
  simp only [up, Nat.cast_add, Nat.cast_mul, Nat.cast_ofNat]
  rw [show (2 : Int) * (y + 1) + x = -1 + (2 * y + x) + 3 by omega,
    show -1 + ((2 : Int) * y + x) + 3 + 1 = 0 + (2 * y + x) + 3 by omega,
    show -1 + ((2 : Int) * y + x) + 3 + 2 = 1 + (2 * y + x) + 3 by omega]

theorem x6_eq (hx : x < bsx) (hy : y < bsy) : x6 s bsx bsy x y = some (angX s 6 x y) := by
  simp only [x6]
  rw [lineAt_pos (by omega), angX_whole s 6 x y 1 rfl]
  simp only [up, Nat.cast_add, Nat.cast_one]
  rw [show (1 : Int) * (y + 1) + x = 1 + (y + x) by omega,
    show 1 + ((y : Int) + x) + 1 = 2 + (y + x) by omega,
    show 1 + ((y : Int) + x) + 2 = 3 + (y + x) by omega]

theorem x7_eq (hy : y < bsy) : x7 s bsx bsy x y = some (angX s 7 x y) := by
  have key : y < 8 → x7Line y (up s x) = angX s 7 x y := by
    intro h
    rw [x7Line_eq _ _ h, tap_up]
    rfl
  simp only [x7]
  by_cases h4 : bsy = 4
  · rw [if_pos h4, if_pos (by omega), key (by omega)]
  · by_cases h8 : bsy = 8
    · rw [if_neg h4, if_pos h8, if_pos (by omega), key (by omega)]
    · rw [if_neg h4, if_neg h8]

theorem x8_eq (hx : x < bsx) (hy : y < bsy) (h2 : bsy % 2 = 0) : x8 s bsx bsy x y = some (angX s 8 x y) := by
  rw [x8, if_pos (by omega), lineAt_pos (by omega), x8Line_eq _ _ (by omega), angX_up s 8 x y 1 1 rfl, Nat.mul_one]
  rfl

theorem x9_eq (hy : y < bsy) (h : 8 ≤ bsy ∨ bsy ≤ 4) : x9 s bsx bsy x y = some (angX s 9 x y) := by
  have key : y < 8 → x9Line y (up s x) = angX s 9 x y := by
    intro h
    rw [x9Line_eq _ _ h, tap_up]
    rfl
  simp only [x9]
  by_cases h1 : bsy > 8
  · rw [if_pos h1]
  · by_cases h8 : bsy = 8
    · rw [if_neg h1, if_pos h8, if_pos (by omega), key (by omega)]
    · rw [if_neg h1, if_neg h8, if_pos (by omega), key (by omega)]

theorem x10_eq (hx : x < bsx) (hy : y < bsy) (h4 : bsy % 4 = 0) : x10 s bsx bsy x y = some (angX s 10 x y) := by
  simp only [x10]
  by_cases h : bsy = 4
  · rw [if_neg (by omega), if_pos (by omega), x10Line_eq _ _ (by omega), tap_up]
    rfl
  · rw [if_pos h, if_pos (by omega), lineAt_pos (by omega), x10Line_eq _ _ (by omega), angX_up s 10 x y 2 1 rfl, Nat.mul_one]
    rfl

theorem x11_eq (hx : x < bsx) (hy : y < bsy) (h8 : bsy % 8 = 0 ∨ bsy ≤ 4) : x11 s bsx bsy x y = some (angX s 11 x y) := by
  have key : y < 8 → x11Line y (up s x) = angX s 11 x y := by
    intro h
    rw [x11Line_eq _ _ h, tap_up]
    rfl
  simp only [x11]
  by_cases h1 : bsy > 8
  · rw [if_pos h1, if_pos (by omega), lineAt_pos (by omega), x11Line_eq _ _ (by omega), angX_up s 11 x y 3 1 rfl, Nat.mul_one]
    rfl
  · by_cases h2 : bsy = 8
    · rw [if_neg h1, if_pos h2, if_pos (by omega), key (by omega)]
    · rw [if_neg h1, if_neg h2, if_pos (by omega), key (by omega)]

/-- The border repeats its last top-right sample: what `x5` relies on for 8x32 and 4x16. -/
def PaddedR (s : Border) (w : Nat) : Prop := ∀ i : Int, 2 * w ≤ i → i < (w + w * 4 * 11 / 8 + 3 : Nat) → s i = s (2 * w)

theorem x5_line (h : y < 8) : x5Line y (up s x) = angX s 5 x y := by
  rw [x5Line_eq _ _ h, tap_up]
  rfl

theorem tap_flat {t : Border} {c p v : Int} (h0 : t p = v) (h1 : t (p + 1) = v) (h2 : t (p + 2) = v)
    (h3 : t (p + 3) = v) : tap t c p = v := by
  simp only [tap, h0, h1, h2, h3]
  have : v * (32 - c) + v * (64 - c) + v * (32 + c) + v * c + 64 = 128 * v + 64 := by ring
  rw [this]
  omega

/-- Where the four samples read all lie in the repeated part, the interpolation returns that sample. -/
theorem angX5_pad (w : Nat) (hp : ∀ i : Int, 2 * w ≤ i → i < (w + w * 4 * 11 / 8 + 3 : Nat) → s i = s (2 * w))
    (h1 : 2 * w ≤ (y + 1) * 11 / 8 + x) (h2 : (y + 1) * 11 / 8 + x + 3 < w + w * 4 * 11 / 8 + 3) :
    angX s 5 x y = s (2 * w) := by
  have e : ctxPos 0 5 (y + 1) = (y + 1) * 11 / 8 := rfl
  show tap s (ctxOff 0 5 (y + 1)) (ctxPos 0 5 (y + 1) + x) = _
  rw [e]
  apply tap_flat <;> apply hp <;> omega

theorem x5_8x32 (hp : PaddedR s 8) (hx : x < 8) (hy : y < 32) : x5 s 8 32 x y = some (angX s 5 x y) := by
  have a8 : y = 8 → angX s 5 x y = tap s 12 (12 + x) := fun h => by subst h; rfl
  have a9 : y = 9 → angX s 5 x y = tap s 24 (13 + x) := fun h => by subst h; rfl
  have a10 : y = 10 → angX s 5 x y = tap s 4 (15 + x) := fun h => by subst h; rfl
  simp only [x5]
  rw [if_neg (by omega), if_neg (by omega), if_pos trivial]
  by_cases hy8 : y < 8
  · rw [if_pos hy8, x5_line hy8]
  rw [if_neg hy8, if_pos trivial]
  simp only [up_up]
  simp only [up]
  split
  · next h => rw [a8 h.1, h.2]; simp only [tap]; simp; omega
  split
  · next h => rw [a8 h.1, h.2]; simp only [tap]; simp; omega
  split
  · next h => rw [a8 h.1, h.2]; simp only [tap]; simp; omega
  split
  · next h => rw [a8 h.1, h.2]; simp only [tap]; simp; omega
  split
  · next h => rw [a9 h.1, h.2]; simp only [tap]; simp; omega
  split
  · next h => rw [a9 h.1, h.2]; simp only [tap]; simp; omega
  split
  · next h => rw [a9 h.1, h.2]; simp only [tap]; simp; omega
  split
  · next h => rw [a10 h.1, h.2]; simp only [tap]; simp; omega
  rw [angX5_pad 8 hp (by omega) (by omega)]
  rfl

theorem x5_4x16 (hp : PaddedR s 4) (hx : x < 4) (hy : y < 16) : x5 s 4 16 x y = some (angX s 5 x y) := by
  have a4 : y = 4 → angX s 5 x y = tap s 28 (6 + x) := fun h => by subst h; rfl
  simp only [x5]
  rw [if_neg (by omega), if_neg (by omega), if_neg (by omega)]
  by_cases hy4 : y < 4
  · rw [if_pos hy4, x5_line (by omega)]
  rw [if_neg hy4, if_pos trivial]
  simp only [up_up]
  simp only [up]
  split
  · next h => rw [a4 h.1, h.2]; simp only [tap]; simp; omega
  split
  · next h => rw [a4 h.1, h.2]; simp only [tap]; simp; omega
  rw [angX5_pad 4 hp (by omega) (by omega)]
  rfl

theorem x5_eq (hx : x < bsx) (hy : y < bsy) (hs : (bsx, bsy) ∈ shapes) (hp : bsx < bsy → PaddedR s bsx) :
    x5 s bsx bsy x y = some (angX s 5 x y) := by
  simp only [shapes, List.mem_cons, Prod.mk.injEq, List.not_mem_nil, or_false] at hs
  by_cases hw : bsy > 4 ∧ bsx > 8
  · rw [x5, if_pos hw, if_pos (by omega), lineAt_pos (by omega), x5Line_eq _ _ (by omega), angX_up s 5 x y 3 11 rfl]
    rfl
  by_cases h1 : bsx = 8 ∧ bsy = 32
  · obtain ⟨rfl, rfl⟩ := h1
    exact x5_8x32 (hp (by omega)) hx hy
  by_cases h2 : bsx = 4 ∧ bsy = 16
  · obtain ⟨rfl, rfl⟩ := h2
    exact x5_4x16 (hp (by omega)) hx hy
  rw [x5, if_neg hw]
  by_cases h16 : bsx = 16
  · rw [if_pos h16, if_pos (by omega), x5_line (by omega)]
  rw [if_neg h16]
  by_cases h8 : bsx = 8
  · rw [if_pos h8, if_pos (by omega), x5_line (by omega)]
  · rw [if_neg h8, if_pos (by omega), x5_line (by omega)]

/-! ### From the left column -/

theorem stepSize_le (a b : Nat) (hb : 0 < b) : a ≤ stepSize a b := by
  unfold stepSize
  have h := Nat.div_add_mod (a + b - 1) b
  have h2 := Nat.mod_lt (a + b - 1) hb
  rw [Nat.mul_comm] at h
  omega

theorem y_step (m P : Nat) (f : Nat → Border → Int) (hd : dir 1 m = (1, P))
    (hf : ∀ t r, r < 2 ^ P → f r t = tapm t (ctxOff 1 m (r + 1)) (-(ctxPos 1 m (r + 1) : Int)))
    (hx : x < bsx) (hy : y < bsy) :
    lineAt (stepSize (bsx + (bsy - 1) * 2 ^ P) (2 ^ P)) (fun n => f (n % 2 ^ P) (up s (-(n / 2 ^ P : Nat)))) (2 ^ P * y + x)
      = some (angY s m x y) := by
  have hP : 0 < 2 ^ P := Nat.pow_pos (by decide)
  have hl : 2 ^ P * y + x < stepSize (bsx + (bsy - 1) * 2 ^ P) (2 ^ P) := by
    refine Nat.lt_of_lt_of_le ?_ (stepSize_le _ _ hP)
    have : 2 ^ P * y ≤ (bsy - 1) * 2 ^ P := by
      rw [Nat.mul_comm]
      exact Nat.mul_le_mul_right _ (by omega)
    omega
  rw [lineAt_pos hl, hf _ _ (Nat.mod_lt _ hP), angY_up s m x y P 1 hd]
  simp only [Nat.mul_add_mod, Nat.mul_add_div hP, Nat.mul_one]

theorem y_small (m P : Nat) (f : Nat → Border → Int)
    (hf : ∀ t r, r < 2 ^ P → f r t = tapm t (ctxOff 1 m (r + 1)) (-(ctxPos 1 m (r + 1) : Int)))
    (hx : x < 2 ^ P) : f x (up s (-y)) = angY s m x y := by
  rw [hf _ _ hx, tapm_up]
  show _ = tapm s (ctxOff 1 m (x + 1)) (-((y : Int) + ctxPos 1 m (x + 1)))
  rw [show -(ctxPos 1 m (x + 1) : Int) + -(y : Int) = -((y : Int) + ctxPos 1 m (x + 1)) by omega]

theorem y25_eq (hx : x < bsx) (hy : y < bsy) (h : 8 ≤ bsx ∨ bsx ≤ 4) : y25 s bsx bsy x y = some (angY s 25 x y) := by
  have key (h : x < 8) := y_small (s := s) (y := y) 25 3 y25Col (fun t r hr => y25Col_eq t r hr) h
  simp only [y25]
  by_cases h1 : bsx > 8
  · rw [if_pos h1, if_pos hy]
    exact y_step 25 3 y25Col rfl (fun t r hr => y25Col_eq t r hr) hx hy
  · by_cases h2 : bsx = 8
    · rw [if_neg h1, if_pos h2, if_pos (by omega), key (by omega)]
    · rw [if_neg h1, if_neg h2, if_pos (by omega), key (by omega)]

theorem y26_eq (hx : x < bsx) (hy : y < bsy) : y26 s bsx bsy x y = some (angY s 26 x y) := by
  simp only [y26]
  by_cases h1 : bsx = 4
  · rw [if_neg (by omega), if_pos (by omega), y_small 26 2 y26Col (fun t r hr => y26Col_eq t r hr) (by omega)]
  · rw [if_pos h1, if_pos hy]
    exact y_step 26 2 y26Col rfl (fun t r hr => y26Col_eq t r hr) hx hy

theorem y27_eq (hx : x < bsx) (hy : y < bsy) (h : 8 ≤ bsx ∨ bsx ≤ 4) : y27 s bsx bsy x y = some (angY s 27 x y) := by
  have key (h : x < 8) := y_small (s := s) (y := y) 27 3 y27Col (fun t r hr => y27Col_eq t r hr) h
  simp only [y27]
  by_cases h1 : bsx > 8
  · rw [if_pos h1]
  · by_cases h2 : bsx = 8
    · rw [if_neg h1, if_pos h2, if_pos (by omega), key (by omega)]
    · rw [if_neg h1, if_neg h2, if_pos (by omega), key (by omega)]

theorem y28_eq (hx : x < bsx) (hy : y < bsy) : y28 s bsx bsy x y = some (angY s 28 x y) := by
  simp only [y28]
  rw [if_pos hy]
  exact y_step 28 1 y28Col rfl (fun t r hr => y28Col_eq t r hr) hx hy

theorem y29_eq (hx : x < bsx) (hy : y < bsy) (h : 8 ≤ bsx ∨ bsx ≤ 4) : y29 s bsx bsy x y = some (angY s 29 x y) := by
  have key (h : x < 8) := y_small (s := s) (y := y) 29 3 y29Col (fun t r hr => y29Col_eq t r hr) h
  simp only [y29]
  by_cases h1 : bsx > 8
  · rw [if_pos h1]
  · by_cases h2 : bsx = 8
    · rw [if_neg h1, if_pos h2, if_pos (by omega), key (by omega)]
    · rw [if_neg h1, if_neg h2, if_pos (by omega), key (by omega)]

theorem y30_eq (hx : x < bsx) (hy : y < bsy) : y30 s bsx bsy x y = some (angY s 30 x y) := by
  simp only [y30]
  rw [lineAt_pos (by omega), angY_whole s 30 x y 1 rfl]
  simp only [up, Nat.cast_add, Nat.cast_one]
  rw [show -((y : Int) + 1 * (x + 1)) - 2 = -1 + -(y + x) + -2 by omega,
    show -((y : Int) + 1 * (x + 1)) - 1 = 0 + -(y + x) + -2 by omega,
    show -((y : Int) + 1 * (x + 1)) = 1 + -(y + x) + -2 by omega]

theorem y32_eq (hx : x < bsx) (hy : y < bsy) (h2 : bsy % 2 = 0) : y32 s bsx bsy x y = some (angY s 32 x y) := by
  simp only [y32]
  rw [if_pos (by omega), lineAt_pos (by omega), angY_whole s 32 x y 2 rfl]
  simp only [up_up]
  rcases Nat.mod_two_eq_zero_or_one y with h | h
  · have hy2 : (y : Int) = 2 * (y / 2 : Nat) := by omega
    rw [h]
    simp only [y32Line, up]
    rw [show -((y : Int) + (2 : Nat) * (x + 1)) - 2 = -1 + (-2 * (y / 2 + x : Nat) + -3) by push_cast; omega,
      show -((y : Int) + (2 : Nat) * (x + 1)) - 1 = 0 + (-2 * (y / 2 + x : Nat) + -3) by push_cast; omega,
      show -((y : Int) + (2 : Nat) * (x + 1)) = 1 + (-2 * (y / 2 + x : Nat) + -3) by push_cast; omega]
    congr 2
    omega
  · have hy2 : (y : Int) = 2 * (y / 2 : Nat) + 1 := by omega
    rw [h]
    simp only [y32Line, up]
    rw [show -((y : Int) + (2 : Nat) * (x + 1)) - 2 = -2 + (-2 * (y / 2 + x : Nat) + -3) by push_cast; omega,
      show -((y : Int) + (2 : Nat) * (x + 1)) - 1 = -1 + (-2 * (y / 2 + x : Nat) + -3) by push_cast; omega,
      show -((y : Int) + (2 : Nat) * (x + 1)) = 0 + (-2 * (y / 2 + x : Nat) + -3) by push_cast; omega]
    congr 2
    omega

/-- The general predictor from the left column is the one from the top row on the mirrored border. -/
theorem angY_mirror (s : Border) (x y : Nat) : angY s 31 x y = angX (fun i => s (-i)) 5 y x := by
  have hp : ctxPos 1 31 (x + 1) = ctxPos 0 5 (x + 1) := rfl
  have ho : ctxOff 1 31 (x + 1) = ctxOff 0 5 (x + 1) := rfl
  simp only [angY, angX, hp, ho]
  rw [show -((y : Int) + ctxPos 0 5 (x + 1)) = -((ctxPos 0 5 (x + 1) : Int) + y) by omega,
    show -((ctxPos 0 5 (x + 1) : Int) + y) - 1 = -((ctxPos 0 5 (x + 1) : Int) + y + 1) by omega,
    show -((ctxPos 0 5 (x + 1) : Int) + y) - 2 = -((ctxPos 0 5 (x + 1) : Int) + y + 2) by omega,
    show -((ctxPos 0 5 (x + 1) : Int) + y) - 3 = -((ctxPos 0 5 (x + 1) : Int) + y + 3) by omega]

theorem shape_cases (p : Nat × Nat → Prop) (h : ∀ q ∈ shapes, p q) {a b : Nat} (hs : (a, b) ∈ shapes) : p (a, b) := h _ hs

theorem shape_swap (hs : (bsx, bsy) ∈ shapes) : (bsy, bsx) ∈ shapes :=
  shape_cases (fun q => (q.2, q.1) ∈ shapes) (by decide) hs

theorem shape_ratio (hs : (bsx, bsy) ∈ shapes) : bsy < bsx → bsx = 4 * bsy :=
  shape_cases (fun q => q.2 < q.1 → q.1 = 4 * q.2) (by decide) hs

theorem shape_short (hs : (bsx, bsy) ∈ shapes) : bsx < bsy → bsx = 4 ∨ bsx = 8 :=
  shape_cases (fun q => q.1 < q.2 → q.1 = 4 ∨ q.1 = 8) (by decide) hs

theorem y31_eq (junk : Border) (hx : x < bsx) (hy : y < bsy) (hs : (bsx, bsy) ∈ shapes)
    (hp : bsy < bsx → PaddedR (fun i => s (-i)) bsy) : y31 junk s bsx bsy x y = some (angY s 31 x y) := by
  have key (h : x < 8) := y_small (s := s) (y := y) 31 3 y31Col (fun t r hr => y31Col_eq t r hr) h
  simp only [y31]
  by_cases h1 : bsx ≥ bsy
  · rw [if_pos h1]
    have h4 := shape_ratio hs
    rw [x5_eq hy hx (shape_swap hs), angY_mirror]
    · congr 1
      have e : ctxPos 0 5 (x + 1) = (x + 1) * 11 / 8 := rfl
      simp only [angX, e]
      rw [if_pos (by omega), if_pos (by omega), if_pos (by omega), if_pos (by omega)]
    · intro h i h2 h3
      have h5 := hp h i h2 h3
      dsimp only
      rw [if_pos (by omega), if_pos (by omega)]
      exact h5
  · have h4 := shape_short hs (by omega)
    by_cases h2 : bsx = 8
    · rw [if_neg h1, if_pos h2, if_pos (by omega), key (by omega)]
    · rw [if_neg h1, if_neg h2, if_pos (by omega), key (by omega)]

/-! ### Between the top row and the left column -/

theorem xy_two (m P : Nat) (f g : Nat → Border → Int) (hd0 : dir 0 m = (1, P)) (hd1 : dir 1 m = (2 ^ P, 0))
    (hf : ∀ t r, r < 2 ^ P → f r t = tap t 0 ((2 ^ P - 2 : Int) - r))
    (hg : ∀ t r, r < 2 ^ P → g r t = tapm t (ctxOff 0 m (r + 1)) (2 - (ctxPos 0 m (r + 1) : Int)))
    (hx : x < bsx) (hy : y < bsy) (hb : bsy % 2 ^ P = 0) :
    twoPart s (-((bsy : Int) - (2 ^ P : Nat))) (bsx + bsy / 2 ^ P - 1 - bsx) (bsx + bsy / 2 ^ P - 1) (2 ^ P)
      (f (y % 2 ^ P)) (g (y % 2 ^ P)) (bsx + bsy / 2 ^ P - 1 - bsx - y / 2 ^ P + x) = some (angXY s m x y) := by
  have hP : 0 < 2 ^ P := Nat.pow_pos (by decide)
  have hr := Nat.mod_lt y hP
  have hyd := Nat.div_add_mod y (2 ^ P)
  have hbd := Nat.div_add_mod bsy (2 ^ P)
  rw [hb, Nat.add_zero] at hbd
  have hk : y / 2 ^ P < bsy / 2 ^ P := by
    by_contra hc
    have : 2 ^ P * (bsy / 2 ^ P) ≤ 2 ^ P * (y / 2 ^ P) := Nat.mul_le_mul_left _ (by omega)
    omega
  obtain ⟨hp0, ho0⟩ := ctx_period 0 m P 1 y hd0
  have hp1 : ctxPos 1 m (x + 1) = 2 ^ P * (x + 1) := by simp [ctxPos, hd1, Nat.mul_comm]
  have ho1 : ctxOff 1 m (x + 1) = 0 := by simp [ctxOff, hp1, hd1, Nat.mul_comm]
  have hcond : y < ctxPos 1 m (x + 1) ↔ ¬ x < y / 2 ^ P := by
    rw [hp1, Nat.mul_comm, ← Nat.div_lt_iff_lt_mul hP]
    omega
  rw [angXY_eq, twoPart]
  have hn : (bsx + bsy / 2 ^ P - 1 - bsx - y / 2 ^ P + x < bsx + bsy / 2 ^ P - 1 - bsx) ↔ x < y / 2 ^ P := by omega
  have hPI : ((2 ^ P : Nat) : Int) = 2 ^ P := by push_cast; rfl
  by_cases h : x < y / 2 ^ P
  · rw [if_pos (hn.mpr h), if_neg (by rw [hcond]; simpa using h), hf _ _ hr, tap_up, ho1, hp1]
    congr 2
    have e : (bsx + bsy / 2 ^ P - 1 - bsx - y / 2 ^ P + x : Nat) = bsy / 2 ^ P - 1 - (y / 2 ^ P) + x := by omega
    rw [e]
    have e2 : ((bsy / 2 ^ P - 1 - (y / 2 ^ P) + x : Nat) : Int) = (bsy / 2 ^ P : Nat) - 1 - (y / 2 ^ P : Nat) + x := by omega
    rw [e2]
    have e3 : (bsy : Int) = 2 ^ P * (bsy / 2 ^ P : Nat) := by
      rw [← hPI]; exact_mod_cast hbd.symm
    have e4 : (y : Int) = 2 ^ P * (y / 2 ^ P : Nat) + (y % 2 ^ P : Nat) := by
      rw [← hPI]; exact_mod_cast hyd.symm
    rw [Nat.cast_mul, hPI]
    generalize hb' : ((bsy / 2 ^ P : Nat) : Int) = B at *
    generalize hy' : ((y / 2 ^ P : Nat) : Int) = Y at *
    generalize hr' : ((y % 2 ^ P : Nat) : Int) = R at *
    rw [e3, e4]
    push_cast
    ring
  · rw [if_neg (by rw [hn]; exact h), if_pos (by omega), if_pos (hcond.mpr h), hg _ _ hr, tapm_up, hp0, ho0]
    congr 2
    have e : (bsx + bsy / 2 ^ P - 1 - bsx - y / 2 ^ P + x - (bsx + bsy / 2 ^ P - 1 - bsx) : Nat) = x - y / 2 ^ P := by omega
    rw [e, show (bsx + bsy / 2 ^ P - 1 - bsx : Nat) = bsy / 2 ^ P - 1 by omega]
    have e2 : ((bsy / 2 ^ P - 1 : Nat) : Int) = (bsy / 2 ^ P : Nat) - 1 := by omega
    have e5 : ((x - y / 2 ^ P : Nat) : Int) = x - (y / 2 ^ P : Nat) := by omega
    have e3 : (bsy : Int) = 2 ^ P * (bsy / 2 ^ P : Nat) := by
      rw [← hPI]; exact_mod_cast hbd.symm
    rw [e2, e5, hPI, Nat.cast_add, Nat.cast_mul]
    generalize ((bsy / 2 ^ P : Nat) : Int) = B at *
    rw [e3]
    push_cast
    ring

theorem xy_small_top (m P : Nat) (g : Nat → Border → Int) (hd1 : dir 1 m = (2 ^ P, 0))
    (hg : ∀ t r, r < 2 ^ P → g r t = tapm t (ctxOff 0 m (r + 1)) (2 - (ctxPos 0 m (r + 1) : Int)))
    (hy : y < 2 ^ P) : g y (up s x) = angXY s m x y := by
  have hp1 : ctxPos 1 m (x + 1) = 2 ^ P * (x + 1) := by simp [ctxPos, hd1, Nat.mul_comm]
  have : 2 ^ P * 1 ≤ 2 ^ P * (x + 1) := Nat.mul_le_mul_left _ (by omega)
  rw [angXY_eq, if_pos (by omega), hg _ _ hy, tapm_up]
  congr 1
  omega

theorem xy13_eq (hx : x < bsx) (hy : y < bsy) (h : bsy % 8 = 0 ∨ bsy ≤ 4) : xy13 s bsx bsy x y = some (angXY s 13 x y) := by
  have key (h : y < 8) := xy_small_top (s := s) (x := x) 13 3 xy13Line rfl (fun t r hr => xy13Line_eq t r hr) h
  simp only [xy13]
  by_cases h1 : bsy > 8
  · rw [if_pos h1, if_pos (by omega)]
    exact xy_two 13 3 xy13Left xy13Line rfl rfl (fun t r hr => xy13Left_eq t r hr)
      (fun t r hr => xy13Line_eq t r hr) hx hy (by omega)
  · by_cases h2 : bsy = 8
    · rw [if_neg h1, if_pos h2, if_pos (by omega), key (by omega)]
    · rw [if_neg h1, if_neg h2, if_pos (by omega), key (by omega)]

theorem xy14_eq (hx : x < bsx) (hy : y < bsy) (h : bsy % 4 = 0) : xy14 s bsx bsy x y = some (angXY s 14 x y) := by
  simp only [xy14]
  by_cases h1 : bsy = 4
  · rw [if_neg (by omega), if_pos (by omega),
      xy_small_top 14 2 xy14Line rfl (fun t r hr => xy14Line_eq t r hr) (by omega)]
  · rw [if_pos h1, if_pos (by omega)]
    exact xy_two 14 2 xy14Left xy14Line rfl rfl (fun t r hr => xy14Left_eq t r hr)
      (fun t r hr => xy14Line_eq t r hr) hx hy (by omega)

theorem xy16_eq (hx : x < bsx) (hy : y < bsy) (h : bsy % 2 = 0) : xy16 s bsx bsy x y = some (angXY s 16 x y) := by
  simp only [xy16]
  rw [if_pos (by omega)]
  exact xy_two 16 1 xy16Left xy16Line rfl rfl (fun t r hr => xy16Left_eq t r hr)
    (fun t r hr => xy16Line_eq t r hr) hx hy (by omega)

theorem xy18_eq (hx : x < bsx) (hy : y < bsy) : xy18 s bsx bsy x y = some (angXY s 18 x y) := by
  simp only [xy18]
  have hp (a d : Nat) (ha : a = 0 ∨ a = 1) : ctxPos a 18 d = d := by
    rcases ha with rfl | rfl <;> simp [ctxPos, dir, dirDxDy]
  have ho (a d : Nat) (ha : a = 0 ∨ a = 1) : ctxOff a 18 d = 0 := by
    rcases ha with rfl | rfl <;> simp [ctxOff, ctxPos, dir, dirDxDy]
  rw [if_pos hy, lineAt_pos (by omega), angXY_eq, hp _ _ (by simp), hp _ _ (by simp), ho _ _ (by simp), ho _ _ (by simp)]
  have e : ((bsy - 1 - y + x : Nat) : Int) = bsy - 1 - y + x := by omega
  simp only [up_up]
  simp only [up]
  rw [e]
  split
  · rw [Nat.cast_zero, tapm_zero]
    congr 4
    · congr 1
      · congr 1; omega
      · congr 2; omega
    · congr 1; omega
  · rw [Nat.cast_zero, tap_zero]
    congr 4
    · congr 1
      · congr 1; omega
      · congr 2; omega
    · congr 1; omega

theorem ctxPos_one (m P d : Nat) (hd : dir 1 m = (1, P)) : ctxPos 1 m d = d / 2 ^ P := by
  simp [ctxPos, hd]

theorem ctx_whole (m M d : Nat) (hd : dir 0 m = (M, 0)) : ctxPos 0 m d = M * d ∧ ctxOff 0 m d = 0 := by
  constructor
  · simp [ctxPos, hd, Nat.mul_comm]
  · simp [ctxOff, ctxPos, hd]

theorem stepSize_full (n P : Nat) (hn : 0 < n) (h1P : 1 ≤ P) : stepSize (2 ^ P * n - 1) (2 ^ P) = 2 ^ P * n := by
  have hP : 0 < 2 ^ P := Nat.pow_pos (by decide)
  have h1 : 2 ^ P * 1 ≤ 2 ^ P * n := Nat.mul_le_mul_left _ hn
  unfold stepSize
  rw [Nat.mul_comm]
  congr 1
  have h2 : 2 ^ 1 ≤ 2 ^ P := Nat.pow_le_pow_right (by decide) h1P
  have e : 2 ^ P * n - 1 + 2 ^ P - 1 = 2 ^ P * n + (2 ^ P - 2) := by omega
  rw [e, Nat.mul_add_div hP, Nat.div_eq_of_lt (by omega)]
  rfl

theorem xy_step (m P : Nat) (f : Nat → Border → Int) (hd0 : dir 0 m = (2 ^ P, 0)) (hd1 : dir 1 m = (1, P))
    (hf : ∀ t r, r < 2 ^ P → f r t = tap t (ctxOff 1 m (r + 1)) ((ctxPos 1 m (r + 1) : Int) - 1))
    (h1P : 1 ≤ P) (hx : x < bsx) (hy : y < bsy) :
    stepped s bsy (2 ^ P * bsy - 1) (2 ^ P * bsy + bsx - 2 ^ P) (2 ^ P) f (2 ^ P * (bsy - 1 - y) + x)
      = some (angXY s m x y) := by
  have hP : 0 < 2 ^ P := Nat.pow_pos (by decide)
  obtain ⟨hp0, ho0⟩ := ctx_whole m (2 ^ P) (y + 1) hd0
  obtain ⟨hp1, ho1⟩ := ctx_period 1 m P 1 x hd1
  have hp1' := ctxPos_one m P (x + 1) hd1
  have hm : 2 ^ P * (bsy - 1 - y) + 2 ^ P * (y + 1) = 2 ^ P * bsy := by
    rw [← Nat.mul_add]
    congr 1
    omega
  have hb : 2 ^ P * 1 ≤ 2 ^ P * (y + 1) := Nat.mul_le_mul_left _ (by omega)
  rw [angXY_eq, stepped, stepSize_full _ _ (by omega) h1P]
  by_cases h : 2 ^ P * (bsy - 1 - y) + x < 2 ^ P * bsy - 1
  · have hc : ¬ y < ctxPos 1 m (x + 1) := by
      rw [hp1']
      have : (x + 1) / 2 ^ P < y + 1 := by
        rw [Nat.div_lt_iff_lt_mul hP, Nat.mul_comm]
        omega
      omega
    rw [if_pos h, if_neg hc, Nat.mul_add_mod, Nat.mul_add_div hP, hf _ _ (Nat.mod_lt _ hP), tap_up, ho1, hp1]
    congr 2
    omega
  · have hc : y < ctxPos 1 m (x + 1) := by
      rw [hp1', ← Nat.succ_le_iff, Nat.le_div_iff_mul_le hP, Nat.mul_comm]
      show 2 ^ P * (y + 1) ≤ x + 1
      omega
    rw [if_neg h, if_pos (by omega), if_pos hc, ho0, hp0, Nat.cast_zero, tapm_zero, Nat.mul_div_cancel_left _ hP]
    have e : ((2 ^ P * (bsy - 1 - y) + x - (2 ^ P * bsy - 1) : Nat) : Int) = (x : Int) + 1 - (2 ^ P * (y + 1) : Nat) := by omega
    simp only [up]
    rw [e]
    congr 4
    · congr 1
      · congr 1; omega
      · congr 2; omega
    · congr 1; omega

theorem xy_small_left (m P : Nat) (f : Nat → Border → Int) (hd0 : dir 0 m = (2 ^ P, 0)) (hd1 : dir 1 m = (1, P))
    (hf : ∀ t r, r < 2 ^ P → f r t = tap t (ctxOff 1 m (r + 1)) ((ctxPos 1 m (r + 1) : Int) - 2))
    (hx : x < 2 ^ P) : f x (up s (-y)) = angXY s m x y := by
  have hP : 0 < 2 ^ P := Nat.pow_pos (by decide)
  obtain ⟨hp0, ho0⟩ := ctx_whole m (2 ^ P) (y + 1) hd0
  have hp1 := ctxPos_one m P (x + 1) hd1
  rw [angXY_eq, hf _ _ hx, tap_up]
  by_cases h : y < ctxPos 1 m (x + 1)
  · have h1 : (x + 1) / 2 ^ P ≤ 1 := by
      rw [Nat.div_le_iff_le_mul hP]
      omega
    have hy0 : y = 0 := by omega
    have hx1 : x + 1 = 2 ^ P := by
      by_contra hne
      rw [hp1, Nat.div_eq_of_lt (by omega)] at h
      omega
    have ho1 : ctxOff 1 m (x + 1) = 0 := by
      simp only [ctxOff, hp1, hd1]
      rw [hx1, Nat.div_self hP]
      simp [Nat.mul_div_cancel_left _ hP]
    have hp2 : ctxPos 1 m (x + 1) = 1 := by omega
    rw [if_pos h, ho0, hp0, ho1, hp2, hy0, Nat.cast_zero, tap_zero, tapm_zero]
    rw [show (x : Int) + 2 - ((2 ^ P * (0 + 1) : Nat) : Int) = 1 by omega]
    norm_num
  · rw [if_neg h]
    congr 1
    omega

theorem xy20_eq (hx : x < bsx) (hy : y < bsy) : xy20 s bsx bsy x y = some (angXY s 20 x y) := by
  simp only [xy20]
  rw [if_pos hy]
  have h := xy_step (s := s) 20 1 xy20Col rfl rfl (fun t r hr => xy20Col_eq t r hr) (by decide) hx hy
  rw [show (bsy - 1) * 2 + 1 = 2 ^ 1 * bsy - 1 by omega,
    show 2 ^ 1 * bsy - 1 + (bsx - 1) = 2 ^ 1 * bsy + bsx - 2 ^ 1 by omega,
    show 2 ^ 1 * bsy - 1 - 1 - 2 * y + x = 2 ^ 1 * (bsy - 1 - y) + x by omega]
  exact h

theorem xy22_eq (hx : x < bsx) (hy : y < bsy) (h4 : 4 ≤ bsx) : xy22 s bsx bsy x y = some (angXY s 22 x y) := by
  simp only [xy22]
  by_cases h1 : bsx = 4
  · rw [if_neg (by omega), if_pos (by omega),
      xy_small_left 22 2 xy22Small rfl rfl (fun t r hr => xy22Small_eq t r hr) (by omega)]
  · rw [if_pos h1, if_pos hy]
    have h := xy_step (s := s) 22 2 xy22Col rfl rfl (fun t r hr => xy22Col_eq t r hr) (by decide) hx hy
    rw [show (bsy - 1) * 4 + 3 = 2 ^ 2 * bsy - 1 by omega,
      show 2 ^ 2 * bsy - 1 + (bsx - 3) = 2 ^ 2 * bsy + bsx - 2 ^ 2 by omega,
      show 2 ^ 2 * bsy - 1 - 3 - 4 * y + x = 2 ^ 2 * (bsy - 1 - y) + x by omega]
    exact h

theorem xy23_eq (hx : x < bsx) (hy : y < bsy) (h : 8 ≤ bsx ∨ bsx ≤ 4) : xy23 s bsx bsy x y = some (angXY s 23 x y) := by
  have key (h : x < 8) := xy_small_left (s := s) (y := y) 23 3 xy23Small rfl rfl (fun t r hr => xy23Small_eq t r hr) h
  simp only [xy23]
  by_cases h1 : bsx > 8
  · rw [if_pos h1, if_pos hy]
    have h := xy_step (s := s) 23 3 xy23Col rfl rfl (fun t r hr => xy23Col_eq t r hr) (by decide) hx hy
    rw [show bsy * 8 - 1 = 2 ^ 3 * bsy - 1 by omega,
      show 2 ^ 3 * bsy - 1 + (bsx - 7) = 2 ^ 3 * bsy + bsx - 2 ^ 3 by omega,
      show 2 ^ 3 * bsy - 1 - 7 - 8 * y + x = 2 ^ 3 * (bsy - 1 - y) + x by omega]
    exact h
  · by_cases h2 : bsx = 8
    · rw [if_neg h1, if_pos h2, if_pos (by omega), key (by omega)]
    · rw [if_neg h1, if_neg h2, if_pos (by omega), key (by omega)]

end Davs2.Ip
