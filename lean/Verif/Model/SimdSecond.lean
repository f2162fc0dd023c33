import Verif.Model.SimdProg
import Verif.Model.Transform
/-
Vector versions of the secondary transforms, source/common/vec/intrinsic_idct.cc:6917-7075.  The tables `g_2T` and `g_2T_C` of that file
(lines 59-64 and 68-73) have the entries of those of source/common/transform.cc.

The coefficients are a total function of the address; the loads of eight words from a row with four of them read further, the words beyond
are not used.
-/
namespace Davs2.Si

open Davs2.Vc
open Davs2.Tr (tab g2T g2TC)

/-- Eight entries of a 4 x 4 table from the entry `off` in row order. -/
def loadT (t : List (List Int)) (off : Nat) : V := ofW fun i => if i < 8 then tab t ((off + i) / 4) ((off + i) % 4) else 0

/-- `_mm_min_epi32`, `_mm_max_epi32`. -/
def min32 (a b : V) : V := ofD fun i => min (d32 a i) (d32 b i)
def max32 (a b : V) : V := ofD fun i => max (d32 a i) (d32 b i)

/-- The four products and their sum, for example intrinsic_idct.cc:6935-6941. -/
def dot4 (a b : Nat → V) : V :=
  Vc.add32 (Vc.add32 (madd16 (a 0) (b 0)) (madd16 (a 1) (b 1))) (Vc.add32 (madd16 (a 2) (b 2)) (madd16 (a 3) (b 3)))

/-- `tmpCoef0` to `tmpCoef3`, intrinsic_idct.cc:6926-6931. -/
def coefRow (t : List (List Int)) (k : Nat) : V :=
  if k % 2 = 0 then unpacklo16y (loadT t (8 * (k / 2))) zero else unpackhi16y (loadT t (8 * (k / 2))) zero

/-- Row `j` of `inv_2nd_trans_hor_sse128`, intrinsic_idct.cc:6933-6950; `clip` stands for the limiting that only the 4 x 4 function does. -/
def horVec (stride shift : Nat) (clip : V → V) (t : List (List Int)) (j : Nat) (m : Nat → Int) : V :=
  packs32y (clip (srai32 (Vc.add32 (dot4 (coefRow t) fun k => set1_32 (m (j * stride + k))) (set1_32 (2 ^ (shift - 1)))) shift)) zero

/-- `inv_2nd_trans_hor_sse128`, intrinsic_idct.cc:6917-6951. -/
def hor2nd (stride shift : Nat) (clip : V → V) (t : List (List Int)) (m : Nat → Int) : Nat → Int :=
  (List.range 4).foldl (fun m' j => storeC 4 m' (j * stride) (horVec stride shift clip t j m')) m

/-- Row `i` of `inv_2nd_trans_ver_sse128`, intrinsic_idct.cc:6971-6983: the rows are loaded before the loop. -/
def verVec (stride shift : Nat) (t : List (List Int)) (m : Nat → Int) (i : Nat) : V :=
  packs32y (srai32 (Vc.add32 (dot4 (fun k => set1_32 (tab t k i)) fun k => unpacklo16y (loadC 8 m (k * stride)) zero)
    (set1_32 (2 ^ (shift - 1)))) shift) zero

/-- `inv_2nd_trans_ver_sse128`, intrinsic_idct.cc:6955-6989. -/
def ver2nd (stride shift : Nat) (t : List (List Int)) (m : Nat → Int) : Nat → Int :=
  (List.range 4).foldl (fun m' i => storeC 4 m' (i * stride) (verVec stride shift t m i)) m

/-- `inv_transform_2nd_sse128`, intrinsic_idct.cc:6993-7004. -/
def second (stride : Nat) (mode : Int) (top left : Bool) (m : Nat → Int) : Nat → Int :=
  let vt := 0 ≤ mode ∧ mode ≤ 23
  let ht := (13 ≤ mode ∧ mode ≤ 32) ∨ (0 ≤ mode ∧ mode ≤ 2)
  let m1 := if ht ∧ left then hor2nd stride 7 id g2T m else m
  if vt ∧ top then ver2nd stride 7 g2T m1 else m1

/-- `inv_transform_4x4_2nd_sse128`, intrinsic_idct.cc:7008-7075, with 8 bits per sample. -/
def second4x4 (stride : Nat) (m : Nat → Int) : Nat → Int :=
  hor2nd stride 14 (fun v => max32 (min32 v (set1_32 255)) (set1_32 (-256))) g2TC (ver2nd stride 5 g2TC m)

end Davs2.Si
