import Verif.Model.Mv
/-
Inverse transforms, /repo/source/common/transform.cc:55-845 (the C functions; vector code is not modelled), for
8-bit video (`g_bit_depth` = 8, `coeff_t` = `int16_t`).

`int` overflow is `none`.  A call of `partialButterflyInverseN_c` reads one buffer and writes another; it is
represented by the function computing one sample of the result.
-/
namespace Davs2.Tr

/-- `g_T4`, transform.cc:56-61. -/
def gT4 : List (List Int) :=
  [[32, 32, 32, 32],
   [42, 17, -17, -42],
   [32, -32, -32, 32],
   [17, -42, 42, -17]]

/-- `g_T8`, transform.cc:65-74. -/
def gT8 : List (List Int) :=
  [[32, 32, 32, 32, 32, 32, 32, 32],
   [44, 38, 25, 9, -9, -25, -38, -44],
   [42, 17, -17, -42, -42, -17, 17, 42],
   [38, -9, -44, -25, 25, 44, 9, -38],
   [32, -32, -32, 32, 32, -32, -32, 32],
   [25, -44, 9, 38, -38, -9, 44, -25],
   [17, -42, 42, -17, -17, 42, -42, 17],
   [9, -25, 38, -44, 44, -38, 25, -9]]

/-- `g_T16`, transform.cc:78-95. -/
def gT16 : List (List Int) :=
  [[32, 32, 32, 32, 32, 32, 32, 32, 32, 32, 32, 32, 32, 32, 32, 32],
   [45, 43, 40, 35, 29, 21, 13, 4, -4, -13, -21, -29, -35, -40, -43, -45],
   [44, 38, 25, 9, -9, -25, -38, -44, -44, -38, -25, -9, 9, 25, 38, 44],
   [43, 29, 4, -21, -40, -45, -35, -13, 13, 35, 45, 40, 21, -4, -29, -43],
   [42, 17, -17, -42, -42, -17, 17, 42, 42, 17, -17, -42, -42, -17, 17, 42],
   [40, 4, -35, -43, -13, 29, 45, 21, -21, -45, -29, 13, 43, 35, -4, -40],
   [38, -9, -44, -25, 25, 44, 9, -38, -38, 9, 44, 25, -25, -44, -9, 38],
   [35, -21, -43, 4, 45, 13, -40, -29, 29, 40, -13, -45, -4, 43, 21, -35],
   [32, -32, -32, 32, 32, -32, -32, 32, 32, -32, -32, 32, 32, -32, -32, 32],
   [29, -40, -13, 45, -4, -43, 21, 35, -35, -21, 43, 4, -45, 13, 40, -29],
   [25, -44, 9, 38, -38, -9, 44, -25, -25, 44, -9, -38, 38, 9, -44, 25],
   [21, -45, 29, 13, -43, 35, 4, -40, 40, -4, -35, 43, -13, -29, 45, -21],
   [17, -42, 42, -17, -17, 42, -42, 17, 17, -42, 42, -17, -17, 42, -42, 17],
   [13, -35, 45, -40, 21, 4, -29, 43, -43, 29, -4, -21, 40, -45, 35, -13],
   [9, -25, 38, -44, 44, -38, 25, -9, -9, 25, -38, 44, -44, 38, -25, 9],
   [4, -13, 21, -29, 35, -40, 43, -45, 45, -43, 40, -35, 29, -21, 13, -4]]

/-- `g_T32`, transform.cc:99-132. -/
def gT32 : List (List Int) :=
  [[32, 32, 32, 32, 32, 32, 32, 32, 32, 32, 32, 32, 32, 32, 32, 32, 32, 32, 32, 32, 32, 32, 32, 32, 32, 32, 32, 32, 32, 32, 32, 32],
   [45, 45, 44, 43, 41, 39, 36, 34, 30, 27, 23, 19, 15, 11, 7, 2, -2, -7, -11, -15, -19, -23, -27, -30, -34, -36, -39, -41, -43, -44, -45, -45],
   [45, 43, 40, 35, 29, 21, 13, 4, -4, -13, -21, -29, -35, -40, -43, -45, -45, -43, -40, -35, -29, -21, -13, -4, 4, 13, 21, 29, 35, 40, 43, 45],
   [45, 41, 34, 23, 11, -2, -15, -27, -36, -43, -45, -44, -39, -30, -19, -7, 7, 19, 30, 39, 44, 45, 43, 36, 27, 15, 2, -11, -23, -34, -41, -45],
   [44, 38, 25, 9, -9, -25, -38, -44, -44, -38, -25, -9, 9, 25, 38, 44, 44, 38, 25, 9, -9, -25, -38, -44, -44, -38, -25, -9, 9, 25, 38, 44],
   [44, 34, 15, -7, -27, -41, -45, -39, -23, -2, 19, 36, 45, 43, 30, 11, -11, -30, -43, -45, -36, -19, 2, 23, 39, 45, 41, 27, 7, -15, -34, -44],
   [43, 29, 4, -21, -40, -45, -35, -13, 13, 35, 45, 40, 21, -4, -29, -43, -43, -29, -4, 21, 40, 45, 35, 13, -13, -35, -45, -40, -21, 4, 29, 43],
   [43, 23, -7, -34, -45, -36, -11, 19, 41, 44, 27, -2, -30, -45, -39, -15, 15, 39, 45, 30, 2, -27, -44, -41, -19, 11, 36, 45, 34, 7, -23, -43],
   [42, 17, -17, -42, -42, -17, 17, 42, 42, 17, -17, -42, -42, -17, 17, 42, 42, 17, -17, -42, -42, -17, 17, 42, 42, 17, -17, -42, -42, -17, 17, 42],
   [41, 11, -27, -45, -30, 7, 39, 43, 15, -23, -45, -34, 2, 36, 44, 19, -19, -44, -36, -2, 34, 45, 23, -15, -43, -39, -7, 30, 45, 27, -11, -41],
   [40, 4, -35, -43, -13, 29, 45, 21, -21, -45, -29, 13, 43, 35, -4, -40, -40, -4, 35, 43, 13, -29, -45, -21, 21, 45, 29, -13, -43, -35, 4, 40],
   [39, -2, -41, -36, 7, 43, 34, -11, -44, -30, 15, 45, 27, -19, -45, -23, 23, 45, 19, -27, -45, -15, 30, 44, 11, -34, -43, -7, 36, 41, 2, -39],
   [38, -9, -44, -25, 25, 44, 9, -38, -38, 9, 44, 25, -25, -44, -9, 38, 38, -9, -44, -25, 25, 44, 9, -38, -38, 9, 44, 25, -25, -44, -9, 38],
   [36, -15, -45, -11, 39, 34, -19, -45, -7, 41, 30, -23, -44, -2, 43, 27, -27, -43, 2, 44, 23, -30, -41, 7, 45, 19, -34, -39, 11, 45, 15, -36],
   [35, -21, -43, 4, 45, 13, -40, -29, 29, 40, -13, -45, -4, 43, 21, -35, -35, 21, 43, -4, -45, -13, 40, 29, -29, -40, 13, 45, 4, -43, -21, 35],
   [34, -27, -39, 19, 43, -11, -45, 2, 45, 7, -44, -15, 41, 23, -36, -30, 30, 36, -23, -41, 15, 44, -7, -45, -2, 45, 11, -43, -19, 39, 27, -34],
   [32, -32, -32, 32, 32, -32, -32, 32, 32, -32, -32, 32, 32, -32, -32, 32, 32, -32, -32, 32, 32, -32, -32, 32, 32, -32, -32, 32, 32, -32, -32, 32],
   [30, -36, -23, 41, 15, -44, -7, 45, -2, -45, 11, 43, -19, -39, 27, 34, -34, -27, 39, 19, -43, -11, 45, 2, -45, 7, 44, -15, -41, 23, 36, -30],
   [29, -40, -13, 45, -4, -43, 21, 35, -35, -21, 43, 4, -45, 13, 40, -29, -29, 40, 13, -45, 4, 43, -21, -35, 35, 21, -43, -4, 45, -13, -40, 29],
   [27, -43, -2, 44, -23, -30, 41, 7, -45, 19, 34, -39, -11, 45, -15, -36, 36, 15, -45, 11, 39, -34, -19, 45, -7, -41, 30, 23, -44, 2, 43, -27],
   [25, -44, 9, 38, -38, -9, 44, -25, -25, 44, -9, -38, 38, 9, -44, 25, 25, -44, 9, 38, -38, -9, 44, -25, -25, 44, -9, -38, 38, 9, -44, 25],
   [23, -45, 19, 27, -45, 15, 30, -44, 11, 34, -43, 7, 36, -41, 2, 39, -39, -2, 41, -36, -7, 43, -34, -11, 44, -30, -15, 45, -27, -19, 45, -23],
   [21, -45, 29, 13, -43, 35, 4, -40, 40, -4, -35, 43, -13, -29, 45, -21, -21, 45, -29, -13, 43, -35, -4, 40, -40, 4, 35, -43, 13, 29, -45, 21],
   [19, -44, 36, -2, -34, 45, -23, -15, 43, -39, 7, 30, -45, 27, 11, -41, 41, -11, -27, 45, -30, -7, 39, -43, 15, 23, -45, 34, 2, -36, 44, -19],
   [17, -42, 42, -17, -17, 42, -42, 17, 17, -42, 42, -17, -17, 42, -42, 17, 17, -42, 42, -17, -17, 42, -42, 17, 17, -42, 42, -17, -17, 42, -42, 17],
   [15, -39, 45, -30, 2, 27, -44, 41, -19, -11, 36, -45, 34, -7, -23, 43, -43, 23, 7, -34, 45, -36, 11, 19, -41, 44, -27, -2, 30, -45, 39, -15],
   [13, -35, 45, -40, 21, 4, -29, 43, -43, 29, -4, -21, 40, -45, 35, -13, -13, 35, -45, 40, -21, -4, 29, -43, 43, -29, 4, 21, -40, 45, -35, 13],
   [11, -30, 43, -45, 36, -19, -2, 23, -39, 45, -41, 27, -7, -15, 34, -44, 44, -34, 15, 7, -27, 41, -45, 39, -23, 2, 19, -36, 45, -43, 30, -11],
   [9, -25, 38, -44, 44, -38, 25, -9, -9, 25, -38, 44, -44, 38, -25, 9, 9, -25, 38, -44, 44, -38, 25, -9, -9, 25, -38, 44, -44, 38, -25, 9],
   [7, -19, 30, -39, 44, -45, 43, -36, 27, -15, 2, 11, -23, 34, -41, 45, -45, 41, -34, 23, -11, -2, 15, -27, 36, -43, 45, -44, 39, -30, 19, -7],
   [4, -13, 21, -29, 35, -40, 43, -45, 45, -43, 40, -35, 29, -21, 13, -4, -4, 13, -21, 29, -35, 40, -43, 45, -45, 43, -40, 35, -29, 21, -13, 4],
   [2, -7, 11, -15, 19, -23, 27, -30, 34, -36, 39, -41, 43, -44, 45, -45, 45, -45, 44, -43, 41, -39, 36, -34, 30, -27, 23, -19, 15, -11, 7, -2]]

/-- Table lookup. -/
def tab (t : List (List Int)) (i k : Nat) : Int := (t.getD i []).getD k 0

/-- `int` addition, subtraction and multiplication. -/
def add32 (x y : Option Int) : Option Int := x.bind fun a => y.bind fun b => i32 (a + b)
def subO32 (x y : Option Int) : Option Int := x.bind fun a => y.bind fun b => i32 (a - b)
def mul32 (c : Int) (y : Option Int) : Option Int := y.bind fun b => i32 (c * b)

/-- A buffer of coefficients. -/
abbrev Buf := Nat → Option Int

/-- The sums `t[i0] * s[i0] + t[i1] * s[i1] + …`, added from left to right. -/
def dot (t : Nat → Int) (s : Buf) : Option Int → List Nat → Option Int
  | acc, [] => acc
  | acc, i :: is => dot t s (add32 acc (mul32 (t i) (s i))) is

/-- `O`, `E`, … : the sum over the rows `is` of the table. -/
def part (t : List (List Int)) (s : Buf) (is : List Nat) (k : Nat) : Option Int :=
  dot (fun i => tab t i k) s (some 0) is

/-- The combining loops: `n` sums `e` and `n` sums `o` give `2 n` values. -/
def combine (n : Nat) (e o : Nat → Option Int) (k : Nat) : Option Int :=
  if k < n then add32 (e k) (o k) else subO32 (e (2 * n - 1 - k)) (o (2 * n - 1 - k))

/-- `partialButterflyInverse4_c`, transform.cc:171-183, before rounding; `s i` is `src[i * line]`. -/
def bf4 (s : Buf) : Nat → Option Int :=
  combine 2 (part gT4 s [0, 2]) (part gT4 s [1, 3])

/-- `partialButterflyInverse8_c`, transform.cc:225-248. -/
def bf8 (s : Buf) : Nat → Option Int :=
  let e := combine 2 (part gT8 s [0, 4]) (part gT8 s [2, 6])
  combine 4 e (part gT8 s [1, 3, 5, 7])

/-- `partialButterflyInverse16_c`, transform.cc:292-331. -/
def bf16 (s : Buf) : Nat → Option Int :=
  let ee := combine 2 (part gT16 s [0, 8]) (part gT16 s [4, 12])
  let e := combine 4 ee (part gT16 s [2, 6, 10, 14])
  combine 8 e (part gT16 s [1, 3, 5, 7, 9, 11, 13, 15])

/-- `partialButterflyInverse32_c`, transform.cc:377-440. -/
def bf32 (s : Buf) : Nat → Option Int :=
  let eee := combine 2 (part gT32 s [0, 16]) (part gT32 s [8, 24])
  let ee := combine 4 eee (part gT32 s [4, 12, 20, 28])
  let e := combine 8 ee (part gT32 s [2, 6, 10, 14, 18, 22, 26, 30])
  combine 16 e (part gT32 s [1, 3, 5, 7, 9, 11, 13, 15, 17, 19, 21, 23, 25, 27, 29, 31])

/-- Rounding, shifting, clipping to `depth` bits and conversion to `coeff_t`. -/
def fin (shift depth : Nat) (v : Option Int) : Option Int :=
  (add32 v (some (2 ^ (shift - 1)))).map fun t =>
    toInt16 (clip3 (-2 ^ (depth - 1)) (2 ^ (depth - 1) - 1) (t / 2 ^ shift))

/-- One call of `partialButterflyInverseN_c` (`bf`, `n`): column `j` of the source (rows of length `line`) gives
row `j` of the destination (rows of length `n`). -/
def pass (bf : Buf → Nat → Option Int) (n shift line depth : Nat) (src : Buf) : Buf := fun a =>
  fin shift depth (bf (fun i => src (i * line + a / n)) (a % n))

/-- The butterfly of size `n`. -/
def bfOf (n : Nat) : Buf → Nat → Option Int :=
  if n = 4 then bf4 else if n = 8 then bf8 else if n = 16 then bf16 else bf32

/-- `idct_4x4_c` … `idct_8x32_c`, transform.cc:191-208, 257-274, 341-358, 451-473, 537-634: blocks of width `w` and height
`h`; `wl` is the wavelet flag (lowest bit of `i_dst`).  Every caller passes `i_dst = w`, so the
rows are stored one after the other. -/
def idct (w h wl : Nat) (src : Buf) : Buf :=
  pass (bfOf w) w (12 - wl) h (9 + wl) (pass (bfOf h) h 5 w 16 src)

/-- `>> 1` and conversion to `coeff_t`. -/
def half (v : Option Int) : Option Int := v.map fun a => toInt16 (a / 2)

/-- One iteration of "vertical transform", transform.cc:488-512, 651-675, 710-734, column `x`: the
source has rows of length `w`, the destination (the same buffer) rows of length `2 w`; `h` is the number of
rows written. `pExt` is represented by its even entries `e` (after `>>= 1`); the writes of the last loop go to distinct
addresses. -/
def vertStep (w h : Nat) (m : Buf) (x : Nat) : Buf :=
  let e := fun y => half (m (x + (if y = h then h - 2 else y) / 2 * w))
  fun a =>
    if a % (2 * w) = x ∧ a / (2 * w) < h then
      if a / (2 * w) % 2 = 0 then e (a / (2 * w)) else half (add32 (e (a / (2 * w) - 1)) (e (a / (2 * w) + 1)))
    else m a

/-- One iteration of "horizontal transform", transform.cc:515-531, 678-694, 737-753, row `y`. -/
def horStep (w : Nat) (m : Buf) (y : Nat) : Buf :=
  let e := fun x => m (2 * w * y + (if x = 2 * w then 2 * w - 2 else x) / 2)
  fun a =>
    if a / (2 * w) = y then
      if a % (2 * w) % 2 = 0 then e (a % (2 * w)) else half (add32 (e (a % (2 * w) - 1)) (e (a % (2 * w) + 1)))
    else m a

/-- Both loops for a destination of `2 w` × `h`; `nx` is the number of columns visited. -/
def wavelet (w h nx : Nat) (m : Buf) : Buf :=
  (List.range h).foldl (horStep w) ((List.range nx).foldl (vertStep w h) m)

/-- The buffer after `idct_32x32_c` and the like: the first `w * h` entries are replaced. -/
def store (w h : Nat) (src blk : Buf) : Buf := fun a => if a < w * h then blk a else src a

/-- `idct_64x64_c`, transform.cc:477-532: the first loop visits all 64 columns although the source has 32. -/
def idct64x64 (m : Buf) : Buf := wavelet 32 64 64 (store 32 32 m (idct 32 32 1 m))

/-- `idct_64x16_c`, transform.cc:640-695. -/
def idct64x16 (m : Buf) : Buf := wavelet 32 16 32 (store 32 8 m (idct 32 8 1 m))

/-- `idct_16x64_c`, transform.cc:699-754. -/
def idct16x64 (m : Buf) : Buf := wavelet 8 64 8 (store 8 32 m (idct 8 32 1 m))

/-- `g_2T`, transform.cc:136-141. -/
def g2T : List (List Int) := [[123, -35, -8, -3], [-32, -120, 30, 10], [14, 25, 123, -22], [8, 13, 19, 126]]

/-- `g_2T_C`, transform.cc:145-150. -/
def g2TC : List (List Int) := [[34, 58, 72, 81], [77, 69, -7, -75], [79, -33, -75, 58], [55, -84, 73, -28]]

/-- The inner sum of `xTr2nd_4_1d_Inv_Ver/Hor`: starts at the rounding constant. -/
def sum4 (t : List (List Int)) (i shift : Nat) (s : Buf) : Option Int :=
  dot (fun k => tab t k i) s (some (2 ^ (shift - 1))) [0, 1, 2, 3]

/-- `xTr2nd_4_1d_Inv_Ver`, transform.cc:758-779. -/
def tr2Ver (stride shift : Nat) (t : List (List Int)) (m : Buf) : Buf := fun a =>
  let i := a / stride
  let j := a % stride
  if i < 4 ∧ j < 4 then
    (sum4 t i shift fun k => m (k * stride + j)).map fun v => toInt16 (clip3 (-32768) 32767 (v / 2 ^ shift))
  else m a

/-- `xTr2nd_4_1d_Inv_Hor`, transform.cc:783-806. -/
def tr2Hor (stride shift depth : Nat) (t : List (List Int)) (m : Buf) : Buf := fun a =>
  let j := a / stride
  let i := a % stride
  if i < 4 ∧ j < 4 then
    (sum4 t i shift fun k => m (j * stride + k)).map fun v =>
      toInt16 (clip3 (-2 ^ (depth - 1)) (2 ^ (depth - 1) - 1) (v / 2 ^ shift))
  else m a

/-- `inv_transform_4x4_2nd_c`, transform.cc:810-818. -/
def inv4x4Second (stride : Nat) (m : Buf) : Buf := tr2Hor stride 14 9 g2TC (tr2Ver stride 5 g2TC m)

/-- `inv_transform_2nd_c`, transform.cc:826-837. -/
def invSecond (stride : Nat) (mode : Int) (top left : Bool) (m : Buf) : Buf :=
  let vt := 0 ≤ mode ∧ mode ≤ 23
  let ht := (13 ≤ mode ∧ mode ≤ 32) ∨ (0 ≤ mode ∧ mode ≤ 2)
  let m1 := if ht ∧ left then tr2Hor stride 7 16 g2T m else m
  if vt ∧ top then tr2Ver stride 7 g2T m1 else m1

end Davs2.Tr
