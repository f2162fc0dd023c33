import Verif.Model.VecSao
import Verif.Model.Mc
/-
Vector versions of the interpolation (8-bit samples): source/common/vec/intrinsic_inter_pred.cc (SSE4) and
intrinsic_inter_pred_avx2.cc (AVX2), the average of two predictions (intrinsic_pixel.cc) and their selection (source/common/mc.cc:502-562,
698-765; USE_NEW_INTPL is 0, defines.h:61).

Sample `(0, 0)` of `src` and of `dst` is the one the pointer of that name has at entry; the two do not overlap.  The array `tmp_res` on the
stack is a plane of words whose row 0 is the first row written.  Reads beyond the samples used are made by the loads, and what
they find does not matter; that they stay within memory is not stated here.
-/
namespace Davs2.Vc
open Davs2.Sa (Plane)

/-- `for (i = 0; i < n; i++)`. -/
def times {α : Type} (f : Nat → α → α) : Nat → α → α
  | 0, s => s
  | n + 1, s => f n (times f n s)

/-- Coefficient `i`. -/
def tap (c : List Int) (i : Nat) : Int := c.getD i 0

/-! ### Arithmetic -/

/-- Rounding and packing at the end, e.g. intrinsic_inter_pred.cc:69-70: `offset = 32`, `shift = 6`. -/
def round16 (v : V) : V := srai16 (add16 v (set1_16 32)) 6
def fin8 (v : V) : V := packus16 (round16 v) (round16 v)

/-- The shuffle masks of the luma filter, intrinsic_inter_pred.cc:102-105, and of the chroma filter, 51-52. -/
def swL1 : List Int := [0, 1, 2, 3, 4, 5, 6, 7, 1, 2, 3, 4, 5, 6, 7, 8]
def swL2 : List Int := [2, 3, 4, 5, 6, 7, 8, 9, 3, 4, 5, 6, 7, 8, 9, 10]
def swL3 : List Int := [4, 5, 6, 7, 8, 9, 10, 11, 5, 6, 7, 8, 9, 10, 11, 12]
def swL4 : List Int := [6, 7, 8, 9, 10, 11, 12, 13, 7, 8, 9, 10, 11, 12, 13, 14]
def swC1 : List Int := [0, 1, 2, 3, 1, 2, 3, 4, 2, 3, 4, 5, 3, 4, 5, 6]
def swC2 : List Int := [4, 5, 6, 7, 5, 6, 7, 8, 6, 7, 8, 9, 7, 8, 9, 10]

/-- Eight (in each half) horizontal sums, intrinsic_inter_pred.cc:119-124, intrinsic_inter_pred_avx2.cc:80-87. -/
def horL (c : List Int) (s : V) : V :=
  let t1 := maddubs (shuffle8y s (setrBoth swL1)) (set1_c8 c)
  let t2 := maddubs (shuffle8y s (setrBoth swL2)) (set1_c8 c)
  let t3 := maddubs (shuffle8y s (setrBoth swL3)) (set1_c8 c)
  let t4 := maddubs (shuffle8y s (setrBoth swL4)) (set1_c8 c)
  hadd16 (hadd16 t1 t2) (hadd16 t3 t4)

/-- The same for chroma, intrinsic_inter_pred.cc:65-68, intrinsic_inter_pred_avx2.cc:1118-1121. -/
def horC (c : List Int) (s : V) : V :=
  hadd16 (maddubs (shuffle8y s (setrBoth swC1)) (set1_c4 c)) (maddubs (shuffle8y s (setrBoth swC2)) (set1_c4 c))

/-- Four products of pairs of rows and their sum: the rows `t i` interleaved by `un` (`_mm_unpacklo_epi8`, `_mm256_unpackhi_epi8`, …),
symmetric filter and general filter, intrinsic_inter_pred.cc:3660-3665 and 3790-3795, intrinsic_inter_pred_avx2.cc:191-203 and 232-244. -/
def verL (un : V → V → V) (c : List Int) (t : Nat → V) : V :=
  if tap c 1 = tap c 6 then
    add16 (add16 (maddubs (un (t 0) (t 7)) (set1_8 (tap c 0))) (maddubs (un (t 1) (t 6)) (set1_8 (tap c 1))))
      (add16 (maddubs (un (t 2) (t 5)) (set1_8 (tap c 2))) (maddubs (un (t 3) (t 4)) (set1_8 (tap c 3))))
  else
    add16 (add16 (maddubs (un (t 0) (t 1)) (set1_c2 (tap c 0) (tap c 1))) (maddubs (un (t 2) (t 3)) (set1_c2 (tap c 2) (tap c 3))))
      (add16 (maddubs (un (t 4) (t 5)) (set1_c2 (tap c 4) (tap c 5))) (maddubs (un (t 6) (t 7)) (set1_c2 (tap c 6) (tap c 7))))

/-- The same for chroma, intrinsic_inter_pred.cc:3248-3254 and 3441-3447, intrinsic_inter_pred_avx2.cc:1196-1203 and 1224-1231. -/
def verC (un : V → V → V) (c : List Int) (t : Nat → V) : V :=
  if tap c 1 = tap c 2 then
    add16 (maddubs (un (t 0) (t 3)) (set1_8 (tap c 0))) (maddubs (un (t 1) (t 2)) (set1_8 (tap c 1)))
  else
    add16 (maddubs (un (t 0) (t 1)) (set1_c2 (tap c 0) (tap c 1))) (maddubs (un (t 2) (t 3)) (set1_c2 (tap c 2) (tap c 3)))

/-- `intpl_luma_block_ver0_sse128`, intrinsic_inter_pred.cc:3937-3944; the outer four coefficients are not read but built in. -/
def ver0 (c : List Int) (t : Nat → V) : V :=
  let t00 := adds16 (cvtepu8_16 (t 0)) (cvtepu8_16 (t 7))
  let t10 := adds16 (cvtepu8_16 (t 1)) (cvtepu8_16 (t 6))
  let t10 := subs16 (slli16 t10 2) (cvtepu8_16 (t 6))
  let t20 := maddubs (unpacklo8y (t 2) (t 3)) (set1_c2 (tap c 2) (tap c 3))
  let t30 := maddubs (unpacklo8y (t 4) (t 5)) (set1_c2 (tap c 4) (tap c 5))
  add16 (sub16 t10 t00) (add16 t20 t30)

/-- `intpl_luma_block_ver1_sse128`, intrinsic_inter_pred.cc:4014-4020. -/
def ver1 (c : List Int) (t : Nat → V) : V :=
  let t00 := adds16 (cvtepu8_16 (t 0)) (cvtepu8_16 (t 7))
  let t10 := adds16 (cvtepu8_16 (t 1)) (cvtepu8_16 (t 6))
  let t10 := slli16 t10 2
  let t20 := maddubs (unpacklo8y (t 2) (t 5)) (set1_8 (tap c 2))
  let t30 := maddubs (unpacklo8y (t 3) (t 4)) (set1_8 (tap c 3))
  add16 (sub16 t10 t00) (add16 t20 t30)

/-- `intpl_luma_block_ver2_sse128`, intrinsic_inter_pred.cc:4091-4097. -/
def ver2 (c : List Int) (t : Nat → V) : V :=
  let t00 := adds16 (cvtepu8_16 (t 0)) (cvtepu8_16 (t 7))
  let t60 := adds16 (cvtepu8_16 (t 1)) (cvtepu8_16 (t 6))
  let t10 := subs16 (slli16 t60 2) (cvtepu8_16 (t 1))
  let t20 := maddubs (unpacklo8y (t 2) (t 3)) (set1_c2 (tap c 2) (tap c 3))
  let t30 := maddubs (unpacklo8y (t 4) (t 5)) (set1_c2 (tap c 4) (tap c 5))
  add16 (sub16 t10 t00) (add16 t20 t30)

/-- Rounding of the second pass, intrinsic_inter_pred.cc:4469-4470: `shift = 12`. -/
def round32 (v : V) : V := srai32 (add32 v (set1_32 2048)) 12

/-- Second pass of luma on the words interleaved by `un`, symmetric and general, intrinsic_inter_pred.cc:4446-4470 and 4700 ff.,
intrinsic_inter_pred_avx2.cc:868-881 and 977-1008; `sym` is `bsymy`. -/
def extL (un : V → V → V) (sym : Prop) [Decidable sym] (c : List Int) (t : Nat → V) : V :=
  if sym then
    round32 (add32 (add32 (madd16 (un (t 0) (t 7)) (set1_16 (tap c 0))) (madd16 (un (t 1) (t 6)) (set1_16 (tap c 1))))
      (add32 (madd16 (un (t 2) (t 5)) (set1_16 (tap c 2))) (madd16 (un (t 3) (t 4)) (set1_16 (tap c 3)))))
  else
    round32 (add32 (add32 (madd16 (un (t 0) (t 1)) (cvtepi8_16 (set1_c2 (tap c 0) (tap c 1))))
        (madd16 (un (t 2) (t 3)) (cvtepi8_16 (set1_c2 (tap c 2) (tap c 3)))))
      (add32 (madd16 (un (t 4) (t 5)) (cvtepi8_16 (set1_c2 (tap c 4) (tap c 5))))
        (madd16 (un (t 6) (t 7)) (cvtepi8_16 (set1_c2 (tap c 6) (tap c 7))))))

/-- Second pass of chroma, intrinsic_inter_pred.cc:4200-4223 and 4308-4329, intrinsic_inter_pred_avx2.cc:1436-1444 and 1465-1473. -/
def extC (un : V → V → V) (sym : Prop) [Decidable sym] (c : List Int) (t : Nat → V) : V :=
  if sym then
    round32 (add32 (madd16 (un (t 0) (t 3)) (set1_16 (tap c 0))) (madd16 (un (t 1) (t 2)) (set1_16 (tap c 1))))
  else
    round32 (add32 (madd16 (un (t 0) (t 1)) (cvtepi8_16 (set1_c2 (tap c 0) (tap c 1))))
      (madd16 (un (t 2) (t 3)) (cvtepi8_16 (set1_c2 (tap c 2) (tap c 3)))))

/-! ### Blocks with SSE4

`k r x` is the register with the samples of row `y + r` from column `x` on. -/

/-- `n` rows from `y` on: eight columns at a time, then the rest under a mask, e.g. intrinsic_inter_pred.cc:62-86 (`n = 1`) and
3646-3770 (`n = 4`).  The mask is loaded at the beginning, for a width that is a multiple of 8 from before the table; it is not
used then. -/
def group8 (n w : Nat) (k : Nat → Int → V) (y : Int) (d : Plane) : Plane :=
  let d := times (fun c d => times (fun r d => storel d (8 * c) (y + r) (k r (8 * c))) n d) (w / 8) d
  if w % 8 = 0 then d
  else times (fun r d => storeMask d (8 * (w / 8)) (y + r) (k r (8 * (w / 8))) (w % 8 - 1)) n d

/-- Index of the row of masks that is loaded at the beginning, e.g. intrinsic_inter_pred.cc:54. -/
def maskIndex (w : Nat) : Int := (w % 8 : Nat) - 1

variable (src : Plane)

/-- `intpl_luma_block_hor_sse128`, intrinsic_inter_pred.cc:94-150. -/
def lumaHorS (c : List Int) (w h : Nat) (d : Plane) : Plane :=
  times (fun y d => group8 1 w (fun r x => fin8 (horL c (load src (x - 3) (y + r)))) y d) h d

/-- `intpl_chroma_block_hor_sse128`, intrinsic_inter_pred.cc:45-90. -/
def chromaHorS (c : List Int) (w h : Nat) (d : Plane) : Plane :=
  times (fun y d => group8 1 w (fun r x => fin8 (horC c (load src (x - 1) (y + r)))) y d) h d

/-- `intpl_luma_block_ver_sse128`, intrinsic_inter_pred.cc:3625-3903: four rows at a time, `row < height - 3`. -/
def lumaVerS (c : List Int) (w h : Nat) (d : Plane) : Plane :=
  times (fun g d => group8 4 w (fun r x => fin8 (verL unpacklo8y c fun i => load src x (4 * g - 3 + (r + i : Nat)))) (4 * g) d) (h / 4) d

/-- `intpl_luma_block_ver0_sse128` (and `ver1`, `ver2`), intrinsic_inter_pred.cc:3907-4133; `k` is the sum. -/
def lumaVer3S (k : List Int → (Nat → V) → V) (c : List Int) (w h : Nat) (d : Plane) : Plane :=
  times (fun y d => group8 1 w (fun r x => fin8 (k c fun i => load src x (y - 3 + (r + i : Nat)))) y d) h d

/-- `intpl_chroma_block_ver_sse128`, intrinsic_inter_pred.cc:3222-3621: four rows at a time, then the others one by one. -/
def chromaVerS (c : List Int) (w h : Nat) (d : Plane) : Plane :=
  let d := times (fun g d => group8 4 w (fun r x => fin8 (verC unpacklo8y c fun i => load src x (4 * g - 1 + (r + i : Nat)))) (4 * g) d)
    (h / 4) d
  times (fun y d => group8 1 w (fun r x => fin8 (verC unpacklo8y c fun i => load src x (4 * (h / 4 : Nat) + y - 1 + (r + i : Nat))))
    (4 * (h / 4 : Nat) + y) d) (h % 4) d

/-- First pass of `intpl_luma_block_ext_sse128`, intrinsic_inter_pred.cc:4400-4416: `height + 7` rows, eight columns at a time. -/
def lumaTmpS (c : List Int) (w h : Nat) (t : Plane) : Plane :=
  times (fun y t => times (fun k t => storeW t (8 * k) y (horL c (load src (8 * k - 3) (y - 3))) 8) ((w + 7) / 8) t) (h + 7) t

/-- `intpl_luma_block_ext_sse128`, intrinsic_inter_pred.cc:4372-4964; `t0` is what the stack holds. -/
def lumaExtS (t0 : Plane) (cx cy : List Int) (w h : Nat) (d : Plane) : Plane :=
  let t := lumaTmpS src cx w h t0
  times (fun g d => group8 4 w (fun r x =>
    let T := fun i : Nat => loadW t x (4 * g + (r + i : Nat))
    let v := packs32y (extL unpacklo16y (tap cy 1 = tap cy 6) cy T) (extL unpackhi16y (tap cy 1 = tap cy 6) cy T)
    packus16 v v) (4 * g) d) (h / 4) d

/-- First pass of `intpl_chroma_block_ext_sse128`, intrinsic_inter_pred.cc:4156-4183: `height + 3` rows. -/
def chromaTmpS (c : List Int) (w h : Nat) (t : Plane) : Plane :=
  if w > 4 then
    times (fun y t => times (fun k t => storeW t (8 * k) y (horC c (load src (8 * k - 1) (y - 1))) 8) ((w + 7) / 8) t) (h + 3) t
  else
    times (fun y t =>
      let t0 := maddubs (shuffle8y (load src (-1) (y - 1)) (setrBoth swC1)) (set1_c4 c)
      storeW t 0 y (hadd16 t0 t0) 4) (h + 3) t

/-- `intpl_chroma_block_ext_sse128`, intrinsic_inter_pred.cc:4137-4368, two rows at a time; `sym` is `bsymy`.  In the branch for
`bsymy` the masked store of the second row stores the first row again (4270-4271). -/
def chromaExtS (t0 : Plane) (sym : Prop) [Decidable sym] (cx cy : List Int) (w h : Nat) (d : Plane) : Plane :=
  let t := chromaTmpS src cx w h t0
  let k := fun (y : Int) (r : Nat) (x : Int) =>
    let T := fun i : Nat => loadW t x (y + (r + i : Nat))
    let v := packs32y (extC unpacklo16y sym cy T) (extC unpackhi16y sym cy T)
    packus16 v v
  times (fun g d =>
    if sym then
      let y : Int := 2 * g
      let d := times (fun c d => times (fun r d => storel d (8 * c) (y + r) (k y r (8 * c))) 2 d) (w / 8) d
      if w % 8 = 0 then d
      else times (fun r d => storeMask d (8 * (w / 8)) (y + r) (k y 0 (8 * (w / 8))) (w % 8 - 1)) 2 d
    else group8 2 w (k (2 * g)) (2 * g) d) ((h + 1) / 2) d

/-! ### Blocks with AVX2 -/

/-- Rows of blocks of 16 columns, e.g. intrinsic_inter_pred_avx2.cc:73-96. -/
def rows16 (w h : Nat) (k : Int → Int → V) (d : Plane) : Plane :=
  times (fun y d => times (fun c d => maskstore d (16 * c) y (k (16 * c) y) 4) ((w + 15) / 16) d) h d

/-- `intpl_luma_block_hor_w16_avx2`, intrinsic_inter_pred_avx2.cc:49-96. -/
def lumaHorW16 (c : List Int) (w h : Nat) (d : Plane) : Plane :=
  rows16 w h (fun x y =>
    let s := round16 (horL c (permute4x64 0x94 (load src (x - 3) y)))
    permute4x64 0xd8 (packus16y s s)) d

/-- `mSwitch1` and `mSwitch2` of the 24 columns, intrinsic_inter_pred_avx2.cc:107-108. -/
def swA1 : List Int := [0, 1, 2, 3, 4, 5, 6, 7, 1, 2, 3, 4, 5, 6, 7, 8, 2, 3, 4, 5, 6, 7, 8, 9, 3, 4, 5, 6, 7, 8, 9, 10]
def swA2 : List Int := [4, 5, 6, 7, 8, 9, 10, 11, 5, 6, 7, 8, 9, 10, 11, 12, 6, 7, 8, 9, 10, 11, 12, 13, 7, 8, 9, 10, 11, 12, 13, 14]

/-- `intpl_luma_block_hor_w24_avx2`, intrinsic_inter_pred_avx2.cc:100-154. -/
def lumaHorW24 (c : List Int) (h : Nat) (d : Plane) : Plane :=
  times (fun y d =>
    let s0 := load src (-3) y
    let s1 := permute4x64 0x99 s0
    let t0 := maddubs (shuffle8y s1 (setr8 swA1)) (set1_c8 c)
    let t1 := maddubs (shuffle8y s1 (setr8 swA2)) (set1_c8 c)
    let t0 := hadd16 t0 t1
    let sum1 := round16 (horL c s0)
    let sum2 := round16 (hadd16 t0 t0)
    let sum2 := permutevar8x32 sum2 [0, 4, 1, 5, 2, 6, 3, 7]
    maskstore d 0 y (packus16y sum1 sum2) 6) h d

/-- The 32 columns from `x` on of `intpl_luma_block_ver_w32_avx2` and others, intrinsic_inter_pred_avx2.cc:182-210. -/
def verL32 (c : List Int) (x y : Int) : V :=
  let t := fun i : Nat => load src x (y - 3 + i)
  packus16y (round16 (verL unpacklo8y c t)) (round16 (verL unpackhi8y c t))

/-- `intpl_luma_block_ver_w32_avx2`, intrinsic_inter_pred_avx2.cc:158-253. -/
def lumaVerW32 (c : List Int) (h : Nat) (d : Plane) : Plane := times (fun y d => store32 d 0 y (verL32 src c 0 y)) h d

/-- `intpl_luma_block_ver_w64_avx2`, intrinsic_inter_pred_avx2.cc:257-408. -/
def lumaVerW64 (c : List Int) (h : Nat) (d : Plane) : Plane :=
  times (fun y d => store32 (store32 d 0 y (verL32 src c 0 y)) 32 y (verL32 src c 32 y)) h d

/-- `intpl_luma_block_ver_w24_avx2`, intrinsic_inter_pred_avx2.cc:534-629. -/
def lumaVerW24 (c : List Int) (h : Nat) (d : Plane) : Plane := times (fun y d => maskstore d 0 y (verL32 src c 0 y) 6) h d

/-- `intpl_luma_block_ver_w48_avx2`, intrinsic_inter_pred_avx2.cc:633-785. -/
def lumaVerW48 (c : List Int) (h : Nat) (d : Plane) : Plane :=
  times (fun y d => maskstore (store32 d 0 y (verL32 src c 0 y)) 32 y (verL32 src c 32 y) 4) h d

/-- `intpl_luma_block_ver_w16_avx2`, intrinsic_inter_pred_avx2.cc:413-530: two rows at a time, the first in the upper half. -/
def lumaVerW16 (c : List Int) (h : Nat) (d : Plane) : Plane :=
  times (fun g d =>
    let y : Int := 2 * g
    let s := fun i : Nat => load src 0 (y - 3 + i)
    let t := fun i : Nat => setm128 (s i) (s (i + 1))
    storeu2 d 0 y 0 (y + 1) (packus16y (round16 (verL unpacklo8y c t)) (round16 (verL unpackhi8y c t)))) ((h + 1) / 2) d

/-- First pass of `intpl_luma_block_ext_w16_avx2`, intrinsic_inter_pred_avx2.cc:825-844. -/
def lumaTmpW16 (c : List Int) (w h : Nat) (t : Plane) : Plane :=
  times (fun y t => times (fun k t => storeW t (16 * k) y (horL c (permute4x64 0x94 (load src (16 * k - 3) (y - 3)))) 16) ((w + 15) / 16) t)
    (h + 7) t

/-- `intpl_luma_block_ext_w16_avx2`, intrinsic_inter_pred_avx2.cc:789-889; the general filter is always used. -/
def lumaExtW16 (t0 : Plane) (cx cy : List Int) (w h : Nat) (d : Plane) : Plane :=
  let t := lumaTmpW16 src cx w h t0
  times (fun y d => times (fun k d =>
    let T := fun i : Nat => loadW t (16 * k) (y + i)
    let v := packs32y (extL unpacklo16y False cy T) (extL unpackhi16y False cy T)
    store d (16 * k) y (low128 (permute4x64 0xd8 (packus16y v v)))) ((w + 15) / 16) d) h d

/-- `mSwitch1` and `mSwitch2` of `intpl_luma_block_ext_w24_avx2`, intrinsic_inter_pred_avx2.cc:914-915. -/
def swB1 : List Int := [0, 1, 2, 3, 4, 5, 6, 7, 1, 2, 3, 4, 5, 6, 7, 8, 4, 5, 6, 7, 8, 9, 10, 11, 5, 6, 7, 8, 9, 10, 11, 12]
def swB2 : List Int := [2, 3, 4, 5, 6, 7, 8, 9, 3, 4, 5, 6, 7, 8, 9, 10, 6, 7, 8, 9, 10, 11, 12, 13, 7, 8, 9, 10, 11, 12, 13, 14]

/-- First pass of `intpl_luma_block_ext_w24_avx2`, intrinsic_inter_pred_avx2.cc:930-955. -/
def lumaTmpW24 (c : List Int) (h : Nat) (t : Plane) : Plane :=
  times (fun y t =>
    let s0 := load src (-3) (y - 3)
    let s1 := permute4x64 0x99 s0
    let t0 := maddubs (shuffle8y s1 (setr8 swB1)) (set1_c8 c)
    let t1 := maddubs (shuffle8y s1 (setr8 swB2)) (set1_c8 c)
    let t0 := hadd16 t0 t1
    let sum1 := horL c s0
    let sum2 := permute2x128_13 sum1 (permute4x64 0xd8 (hadd16 t0 t0))
    storeW (storeW t 0 y (low128 sum1) 8) 8 y sum2 16) (h + 7) t

/-- `intpl_luma_block_ext_w24_avx2`, intrinsic_inter_pred_avx2.cc:894-1094. -/
def lumaExtW24 (t0 : Plane) (cx cy : List Int) (h : Nat) (d : Plane) : Plane :=
  let t := lumaTmpW24 src cx h t0
  times (fun y d =>
    let T := fun i : Nat => loadW t 0 (y + i)
    let T' := fun i : Nat => loadW t 16 (y + i)
    let sym := tap cy 1 = tap cy 6
    let v := packs32y (extL unpacklo16y sym cy T) (extL unpackhi16y sym cy T)
    let v' := packs32y (extL unpacklo16y sym cy T') (extL unpackhi16y sym cy T')
    maskstore d 0 y (permute4x64 0xd8 (packus16y v v')) 6) h d

/-- `intpl_chroma_block_hor_w16_avx2`, intrinsic_inter_pred_avx2.cc:1098-1129. -/
def chromaHorW16 (c : List Int) (w h : Nat) (d : Plane) : Plane :=
  rows16 w h (fun x y =>
    let s := round16 (horC c (permute4x64 0x94 (load src (x - 1) y)))
    permute4x64 0xd8 (packus16y s s)) d

/-- `mSwitch` of the 24 columns, intrinsic_inter_pred_avx2.cc:1139. -/
def swD : List Int := [0, 1, 2, 3, 1, 2, 3, 4, 2, 3, 4, 5, 3, 4, 5, 6, 4, 5, 6, 7, 5, 6, 7, 8, 6, 7, 8, 9, 7, 8, 9, 10]

/-- `intpl_chroma_block_hor_w24_avx2`, intrinsic_inter_pred_avx2.cc:1133-1168. -/
def chromaHorW24 (c : List Int) (h : Nat) (d : Plane) : Plane :=
  times (fun y d =>
    let s := load src (-1) y
    let t2 := maddubs (shuffle8y (permute4x64 0x99 s) (setr8 swD)) (set1_c4 c)
    let sum1 := round16 (horC c s)
    let sum2 := round16 (hadd16 t2 t2)
    maskstore d 0 y (permutevar8x32 (packus16y sum1 sum2) [0, 1, 2, 6, 4, 5, 3, 7]) 6) h d

/-- The columns of `intpl_chroma_block_ver_w32_avx2` and `…_w24_avx2`, intrinsic_inter_pred_avx2.cc:1190-1206. -/
def verC32 (c : List Int) (y : Int) : V :=
  let t := fun i : Nat => load src 0 (y - 1 + i)
  packus16y (round16 (verC unpacklo8y c t)) (round16 (verC unpackhi8y c t))

/-- `intpl_chroma_block_ver_w32_avx2`, intrinsic_inter_pred_avx2.cc:1172-1233. -/
def chromaVerW32 (c : List Int) (h : Nat) (d : Plane) : Plane := times (fun y d => store32 d 0 y (verC32 src c y)) h d

/-- `intpl_chroma_block_ver_w24_avx2`, intrinsic_inter_pred_avx2.cc:1237-1298. -/
def chromaVerW24 (c : List Int) (h : Nat) (d : Plane) : Plane := times (fun y d => maskstore d 0 y (verC32 src c y) 6) h d

/-- `intpl_chroma_block_ver_w16_avx2`, intrinsic_inter_pred_avx2.cc:1302-1381. -/
def chromaVerW16 (c : List Int) (h : Nat) (d : Plane) : Plane :=
  times (fun g d =>
    let y : Int := 2 * g
    let s := fun i : Nat => load src 0 (y - 1 + i)
    let t := fun i : Nat => setm128 (s i) (s (i + 1))
    storeu2 d 0 y 0 (y + 1) (packus16y (round16 (verC unpacklo8y c t)) (round16 (verC unpackhi8y c t)))) ((h + 1) / 2) d

/-- First pass of `intpl_chroma_block_ext_w16_avx2`, intrinsic_inter_pred_avx2.cc:1403-1418. -/
def chromaTmpW16 (c : List Int) (w h : Nat) (t : Plane) : Plane :=
  times (fun y t => times (fun k t => storeW t (16 * k) y (horC c (permute4x64 0x94 (load src (16 * k - 1) (y - 1)))) 16) ((w + 15) / 16) t)
    (h + 3) t

/-- `intpl_chroma_block_ext_w16_avx2`, intrinsic_inter_pred_avx2.cc:1385-1481; `sym` is `bsymy`.  The second operand of the packing is
`mVal1`; what it gives is not stored. -/
def chromaExtW16 (t0 : Plane) (sym : Prop) [Decidable sym] (cx cy : List Int) (w h : Nat) (d : Plane) : Plane :=
  let t := chromaTmpW16 src cx w h t0
  times (fun y d => times (fun k d =>
    let T := fun i : Nat => loadW t (16 * k) (y + i)
    let v1 := extC unpacklo16y sym cy T
    let v := packs32y v1 (extC unpackhi16y sym cy T)
    store d (16 * k) y (low128 (permute4x64 0xd8 (packus16y v v1)))) ((w + 15) / 16) d) h d

/-- First pass of `intpl_chroma_block_ext_w24_avx2`, intrinsic_inter_pred_avx2.cc:1509-1526. -/
def chromaTmpW24 (c : List Int) (h : Nat) (t : Plane) : Plane :=
  times (fun y t =>
    let s := load src (-1) (y - 1)
    let t2 := maddubs (shuffle8y (permute4x64 0x99 s) (setr8 swD)) (set1_c4 c)
    let t0 := horC c s
    let t2 := permute2x128_13 t0 (permute4x64 0xd8 (hadd16 t2 t2))
    storeW (storeW t 0 y (low128 t0) 8) 8 y t2 16) (h + 3) t

/-- `intpl_chroma_block_ext_w24_avx2`, intrinsic_inter_pred_avx2.cc:1485-1609. -/
def chromaExtW24 (t0 : Plane) (sym : Prop) [Decidable sym] (cx cy : List Int) (h : Nat) (d : Plane) : Plane :=
  let t := chromaTmpW24 src cx h t0
  times (fun y d =>
    let T := fun i : Nat => loadW t 0 (y + i)
    let T' := fun i : Nat => loadW t 16 (y + i)
    let v := packs32y (extC unpacklo16y sym cy T) (extC unpackhi16y sym cy T)
    let v' := packs32y (extC unpacklo16y sym cy T') (extC unpackhi16y sym cy T')
    maskstore d 0 y (permute4x64 0xd8 (packus16y v v')) 6) h d

/-! ### Selection -/

inductive Cpu where
  | sse4
  | avx2

/-- `MC_PART_INDEX`, primitives.h:48 (8 bits), and the table of functions, mc.cc:698-762: entry 1 is replaced with AVX2. -/
def useAvx2 (cpu : Cpu) (w : Nat) : Bool := match cpu with
  | .sse4 => false
  | .avx2 => decide (w > 8)

/-- `intpl_luma_hor`, intrinsic_inter_pred_avx2.cc:1616-1631. -/
def lumaHor (cpu : Cpu) (c : List Int) (w h : Nat) (d : Plane) : Plane :=
  if useAvx2 cpu w = true then
    match w / 4 - 1 with
    | 3 | 7 | 11 | 15 => lumaHorW16 src c w h d
    | 5 => lumaHorW24 src c h d
    | _ => lumaHorS src c w h d
  else lumaHorS src c w h d

/-- `intpl_luma_ver`, mc.cc:736-741 and intrinsic_inter_pred_avx2.cc:1660-1731 (the three functions are the same): `dy` from 1 to 3. -/
def lumaVer (cpu : Cpu) (dy : Nat) (c : List Int) (w h : Nat) (d : Plane) : Plane :=
  if useAvx2 cpu w = true then
    match w / 4 - 1 with
    | 3 => lumaVerW16 src c h d
    | 5 => lumaVerW24 src c h d
    | 7 => lumaVerW32 src c h d
    | 11 => lumaVerW48 src c h d
    | 15 => lumaVerW64 src c h d
    | _ => lumaVerS src c w h d
  else
    match dy with
    | 1 => lumaVer3S src ver0 c w h d
    | 2 => lumaVer3S src ver1 c w h d
    | _ => lumaVer3S src ver2 c w h d

/-- `intpl_luma_ext`, intrinsic_inter_pred_avx2.cc:1735-1750. -/
def lumaExt (cpu : Cpu) (t0 : Plane) (cx cy : List Int) (w h : Nat) (d : Plane) : Plane :=
  if useAvx2 cpu w = true then
    match w / 4 - 1 with
    | 3 | 7 | 11 | 15 => lumaExtW16 src t0 cx cy w h d
    | 5 => lumaExtW24 src t0 cx cy h d
    | _ => lumaExtS src t0 cx cy w h d
  else lumaExtS src t0 cx cy w h d

/-- `intpl_chroma_hor`, intrinsic_inter_pred_avx2.cc:1754-1767. -/
def chromaHor (cpu : Cpu) (c : List Int) (w h : Nat) (d : Plane) : Plane :=
  if useAvx2 cpu w = true then
    match w / 2 - 1 with
    | 7 | 15 => chromaHorW16 src c w h d
    | 11 => chromaHorW24 src c h d
    | _ => chromaHorS src c w h d
  else chromaHorS src c w h d

/-- `intpl_chroma_block_ver_c` for a block, mc.cc:190-204 (used with SSE4, the vector version being commented out, mc.cc:712 and 721). -/
def chromaVerCBlock (c : List Int) (w h : Nat) (d : Plane) : Plane := fun x y =>
  if 0 ≤ x ∧ x < w ∧ 0 ≤ y ∧ y < h then
    clip1 ((src x (y - 1) * tap c 0 + src x y * tap c 1 + src x (y + 1) * tap c 2 + src x (y + 2) * tap c 3 + 32) / 64)
  else d x y

/-- `intpl_chroma_ver`, intrinsic_inter_pred_avx2.cc:1771-1786. -/
def chromaVer (cpu : Cpu) (c : List Int) (w h : Nat) (d : Plane) : Plane :=
  if useAvx2 cpu w = true then
    match w / 2 - 1 with
    | 7 => chromaVerW16 src c h d
    | 11 => chromaVerW24 src c h d
    | 15 => chromaVerW32 src c h d
    | _ => chromaVerS src c w h d
  else chromaVerCBlock src c w h d

/-- `intpl_chroma_ext`, intrinsic_inter_pred_avx2.cc:1790-1803. -/
def chromaExt (cpu : Cpu) (t0 : Plane) (sym : Prop) [Decidable sym] (cx cy : List Int) (w h : Nat) (d : Plane) : Plane :=
  if useAvx2 cpu w = true then
    match w / 2 - 1 with
    | 7 | 15 => chromaExtW16 src t0 sym cx cy w h d
    | 11 => chromaExtW24 src t0 sym cx cy h d
    | _ => chromaExtS src t0 sym cx cy w h d
  else chromaExtS src t0 sym cx cy w h d

/-- `coef_y[6]` where `coef_y` is row `dy` of `INTPL_FILTERS_C`: entry `4 * dy + 6` of the table of 32 entries; for `dy = 7` it is behind the
end, and `beyond` stands for what is there. -/
def coefY6 (beyond : Int) (dy : Nat) : Int := if 4 * dy + 6 < 32 then tap intplFiltersC.flatten (4 * dy + 6) else beyond

/-- The samples of the reference as the functions see them: address `a` is that of sample (0, 0). -/
def view (mem : Int → Int) (stride a : Int) : Plane := fun x y => mem (a + (y * stride + x))

/-- `mc_luma`, mc.cc:502-533, for a position with a fraction (the copy of a block is not modelled). -/
def mcLumaV (cpu : Cpu) (mem : Int → Int) (t0 : Plane) (stride posx posy : Int) (w h : Nat) (d : Plane) : Plane :=
  let dx := (posx % 4).toNat
  let dy := (posy % 4).toNat
  let src := view mem stride (posy / 4 * stride + posx / 4)
  if dx = 0 then lumaVer src cpu dy (intplFilters.getD dy []) w h d
  else if dy = 0 then lumaHor src cpu (intplFilters.getD dx []) w h d
  else lumaExt src cpu t0 (intplFilters.getD dx []) (intplFilters.getD dy []) w h d

/-- `mc_chroma`, mc.cc:537-562, likewise. -/
def mcChromaV (cpu : Cpu) (beyond : Int) (mem : Int → Int) (t0 : Plane) (stride posx posy : Int) (w h : Nat) (d : Plane) : Plane :=
  let dx := (posx % 8).toNat
  let dy := (posy % 8).toNat
  let src := view mem stride (posy / 8 * stride + posx / 8)
  if dx = 0 then chromaVer src cpu (intplFiltersC.getD dy []) w h d
  else if dy = 0 then chromaHor src cpu (intplFiltersC.getD dx []) w h d
  else chromaExt src cpu t0 (tap (intplFiltersC.getD dy []) 1 = coefY6 beyond dy) (intplFiltersC.getD dx []) (intplFiltersC.getD dy []) w h d

/-! ### Average -/

/-- `avs_pixel_average_sse128`, intrinsic_pixel.cc:76-113, with `src0` and `dst` the same block as in its three calls, cu.cc:1047, 1085 and
1095; `s1` is the other prediction. -/
def averageV (s1 : Plane) (w h : Nat) (d : Plane) : Plane :=
  times (fun y d =>
    let d := times (fun c d => store d (16 * c) y (avgu8 (load d (16 * c) y) (load s1 (16 * c) y))) (w / 16) d
    if w % 16 = 0 then d
    else storeMask d (16 * (w / 16)) y (avgu8 (load d (16 * (w / 16)) y) (load s1 (16 * (w / 16)) y)) (w % 16 - 1)) h d

end Davs2.Vc
