import Verif.Model.Basic
/-
Border expansion of a decoded picture: `pad_line_pixel` and `pad_line_lcu`,
/repo/source/common/frame.cc:46-140 (8-bit samples, 64-bit stores).

A plane is a linear memory of bytes addressed relative to its sample (0, 0), as in the C code, where the
rows are `stride` apart and the padding of one row is adjacent to that of the next.
-/
namespace Davs2

/-- Bytes around a plane's origin. -/
abbrev PlaneMem := Int → Nat

/-- `l4 = (l4 << 24) | (l4 << 16) | (l4 << 8) | l4`, frame.cc:66. -/
def bcast4 (v : Nat) : Nat := (v <<< 24) ||| (v <<< 16) ||| (v <<< 8) ||| v

/-- `l64 = ((uint64_t)(l4) << 32) | l4`, frame.cc:69. -/
def bcast8 (v : Nat) : Nat := (bcast4 v <<< 32) ||| bcast4 v

/-- A 64-bit store (little endian; the bytes are all equal in the only use). -/
def store64 (m : PlaneMem) (a : Int) (w : Nat) : PlaneMem := fun x =>
  if a ≤ x ∧ x < a + 8 then w >>> (8 * (x - a).toNat) % 256 else m x

/-- Loop of `pad_line_pixel`, frame.cc:78-81. -/
def padLoop (m : PlaneMem) (pl pr : Int) (l r : Nat) : Nat → PlaneMem
  | 0 => m
  | n + 1 => padLoop (store64 (store64 m pl l) pr r) (pl + 8) (pr + 8) l r n

/-- `pad_line_pixel`, frame.cc:46-89. -/
def padLinePixel (m : PlaneMem) (pix : Int) (width pad : Nat) : PlaneMem :=
  padLoop m (pix - pad) (pix + width) (bcast8 (m pix)) (bcast8 (m (pix + width - 1))) (pad / 8)

/-- `for (j = start; j < end; j++)`, frame.cc:114-117: `n` rows from row `start`. -/
def padRows (m : PlaneMem) (stride width pad : Nat) (start : Int) : Nat → PlaneMem
  | 0 => m
  | n + 1 => padRows (padLinePixel m (start * stride) width pad) stride width pad (start + 1) n

/-- `memcpy` between areas that do not overlap. -/
def copyMem (m : PlaneMem) (dst src : Int) (n : Nat) : PlaneMem := fun x =>
  if dst ≤ x ∧ x < dst + n then m (x - dst + src) else m x

/-- Rows above the picture, frame.cc:123-126. -/
def padUp (m : PlaneMem) (stride : Nat) (pix : Int) : Nat → PlaneMem
  | 0 => m
  | n + 1 => padUp (copyMem m (pix - stride) pix stride) stride (pix - stride) n

/-- Rows below the picture, frame.cc:133-136. -/
def padDown (m : PlaneMem) (stride : Nat) (pix : Int) : Nat → PlaneMem
  | 0 => m
  | n + 1 => padDown (copyMem m (pix + stride) pix stride) stride (pix + stride) n

/-- One plane: `shift` is `chroma_shift`, `rows` is `i_height_in_lcu`. -/
structure PadCfg where
  stride : Nat
  width : Nat
  lines : Nat
  pad : Nat
  lcuLevel : Nat
  shift : Nat
  rows : Nat

/-- First row padded with coding-tree row `y`, frame.cc:100,107-109. -/
def PadCfg.start (c : PadCfg) (y : Nat) : Int :=
  ((y * 2 ^ c.lcuLevel / 2 ^ c.shift : Nat) : Int) - (if 0 < y then 4 else 0)

/-- End of the rows padded with coding-tree row `y`, frame.cc:101,110-112. -/
def PadCfg.stop (c : PadCfg) (y : Nat) : Int :=
  (((y + 1) * 2 ^ c.lcuLevel / 2 ^ c.shift : Nat) : Int) - (if y + 1 < c.rows then 4 else 0)

/-- `pad_line_lcu` for one plane, frame.cc:99-139. -/
def padLineLcu (c : PadCfg) (m : PlaneMem) (y : Nat) : PlaneMem :=
  let m := padRows m c.stride c.width c.pad (c.start y) (c.stop y - c.start y).toNat
  let m := if y = 0 then padUp m c.stride (-(c.pad : Int)) c.pad else m
  if y + 1 = c.rows then padDown m c.stride (((c.lines : Int) - 1) * c.stride - c.pad) c.pad else m

/-- `pad_line_lcu` for the coding-tree rows `0 .. n - 1` in order. -/
def padPicture (c : PadCfg) (m : PlaneMem) : Nat → PlaneMem
  | 0 => m
  | n + 1 => padLineLcu c (padPicture c m n) n

end Davs2
