import Verif.Model.Vec
import Verif.Model.Alf
/-
`alf_filter_block_sse128`, source/common/vec/intrinsic_alf.cc:43-205, which replaces `alf_filter_block1` on processors with SSE4 (alf.cc:505-525).
Planes as in Model/Alf.lean, relative to the corner of the filtered region; `px` is `lcu_pix_x`.
-/
namespace Davs2.Vc
open Davs2.Sa (Plane loop)

/-- `C33`, intrinsic_alf.cc:81-85: the weights 5, 6, 7, 8, 7, 6, 5, 8 of a line, twice. -/
def alfC33 (c : Nat → Int) : V :=
  let c30 := load32 fun i => c (5 + i)
  let c31 := packs32 c30 c30
  let c32 := packs16 c31 c31
  shuffle8 c32 (setr8 [0, 1, 2, 3, 2, 1, 0, 3, 0, 1, 2, 3, 2, 1, 0, 3])

/-- `mSwitch2` to `mSwitch5`, intrinsic_alf.cc:86-89. -/
def alfSwitch2 : V := setr8 [0, 1, 2, 3, 4, 5, 6, -1, 1, 2, 3, 4, 5, 6, 7, -1]
def alfSwitch3 : V := setr8 [2, 3, 4, 5, 6, 7, 8, -1, 3, 4, 5, 6, 7, 8, 9, -1]
def alfSwitch4 : V := setr8 [4, 5, 6, 7, 8, 9, 10, -1, 5, 6, 7, 8, 9, 10, 11, -1]
def alfSwitch5 : V := setr8 [6, 7, 8, 9, 10, 11, 12, -1, 7, 8, 9, 10, 11, 12, 13, -1]

/-- `S5` and `S6`, intrinsic_alf.cc:148-174: the line through eight samples; `t` is `T50` or `T51`. -/
def alfLine (c : Nat → Int) (t : V) : V :=
  hadds16
    (hadds16 (maddubs (shuffle8 t alfSwitch2) (alfC33 c)) (maddubs (shuffle8 t alfSwitch3) (alfC33 c)))
    (hadds16 (maddubs (shuffle8 t alfSwitch4) (alfC33 c)) (maddubs (shuffle8 t alfSwitch5) (alfC33 c)))

/-- `SS1` and `SS2`, intrinsic_alf.cc:176-198: the five pairs of rows and the line are added, rounded and limited. -/
def alfSum (bd : Nat) (s0 s1 s2 s3 s4 s5 : V) : V :=
  let ss := adds16 (adds16 s4 s5) (adds16 (adds16 s3 s2) (adds16 s0 s1))
  max16 (min16 (srai16 (adds16 ss (set1_16 32)) 6) (set1_16 (2 ^ bd - 1))) (set1_16 0)

section
variable (bd : Nat) (c : Nat → Int) (src : Plane) (h : Int)

/-- The result `S` for 16 samples from `(x, y)` on, intrinsic_alf.cc:93-199.  `h - 1` is `lcu_height` after line 73. -/
def alfVec (x y : Int) : V :=
  let lo := clip3 0 (h - 1)
  let pair := fun (unpack : V → V → V) (k : Nat) (a b : V) => maddubs (unpack a b) (set1_8 (c k))
  let half := fun (unpack : V → V → V) (t5 : V) =>
    alfSum bd
      (pair unpack 0 (load src x (lo (y - 3))) (load src x (lo (y + 3))))
      (pair unpack 1 (load src x (lo (y - 2))) (load src x (lo (y + 2))))
      (pair unpack 2 (load src (x - 1) (lo (y - 1))) (load src (x + 1) (lo (y + 1))))
      (pair unpack 3 (load src x (lo (y - 1))) (load src x (lo (y + 1))))
      (pair unpack 4 (load src (x + 1) (lo (y - 1))) (load src (x - 1) (lo (y + 1))))
      (alfLine c t5)
  packus16 (half unpacklo8 (load src (x - 3) y)) (half unpackhi8 (load src (x + 5) y))

/-- One round of the loop over `x`, intrinsic_alf.cc:117-206, with the test against `xPosEnd16` (line 66) as it is written;
the second component is false after the `break`.  If the masked store were reached with a multiple of 16 as width, nothing would be stored. -/
def alfStep (w px y x : Int) (st : Plane × Bool) : Plane × Bool :=
  if st.2 = false then st
  else if x ≠ px + w - w % 16 then (store st.1 x y (alfVec bd c src h x y), true)
  else (match maskRow (w % 16 - 1) with
    | some m => maskmove st.1 x y (alfVec bd c src h x y) m
    | none => st.1, false)

/-- A row: `for (x = 0; x < lcu_width; x += 16)`. -/
def alfRow (w px y : Int) (dst : Plane) : Plane :=
  (loop 0 ((w + 15) / 16) (fun i st => alfStep bd c src h w px y (16 * i) st) (dst, true)).1

/-- The whole function. -/
def alfBlock (w px : Int) (dst : Plane) : Plane :=
  loop 0 h (fun y dst => alfRow bd c src h w px y dst) dst

end

end Davs2.Vc
