import Verif.Model.MemAsm
import Verif.Model.Padding
/-
The copy of a row of coding trees into the scratch picture of SAO and ALF, `davs2_frame_copy_lcurow`, source/common/frame.cc:466-517, and the expansion of the
borders, `pad_line_lcu`, frame.cc:94-140, on bytes of memory and with the assembler helpers that the table of functions holds on x86-64 (`Model/MemAsm.lean`); 8 bits
per sample.  One plane at a time: the three planes are treated alike, with sizes of their own.

Addresses do not wrap around.  The line of `pad_line_pixel` is that of `Model/Padding.lean`.
-/
namespace Davs2.Rcp
open Davs2.Ma (Mem Byte)

/-- Bytes as numbers, and back. -/
def nats (m : Mem) : PlaneMem := fun a => (m a).toNat
def bytes (p : PlaneMem) : Mem := fun a => BitVec.ofNat 8 (p a)

/-- `pad_line_pixel`, frame.cc:46-89, on memory. -/
def padLine (m : Mem) (pix : Int) (width pad : Nat) : Mem := bytes (padLinePixel (nats m) pix width pad)

/-- The loop over the lines, frame.cc:479-486; `reg k`: what the vector registers hold when `k` more lines follow. -/
def copyLines (reg : Nat → Nat → Nat → Byte) (stride width pad : Nat) : Nat → Mem → Int → Int → Mem
  | 0, m, _, _ => m
  | n + 1, m, dst, src =>
    let m := Ma.fastMemcpy (reg n) m dst src (BitVec.ofNat 64 width)
    let m := if pad ≠ 0 then padLine m dst width pad else m
    copyLines reg stride width pad n m (dst + stride) (src + stride)

/-- `davs2_frame_copy_lcurow`, frame.cc:466-517, one plane: `level` is `i_lcu_level` (one less for chroma), `height` the number of lines, `D` and `S` the addresses of
the first sample of the plane in the destination and in the source. -/
def copyLcurow (reg : Nat → Nat → Nat → Byte) (stride width height level pad j : Nat) (off : Int) (m : Mem) (D S : Int) : Mem :=
  let pix_y : Int := j * 2 ^ level + off
  let lcu_h : Int := min (height : Int) ((j + 1) * 2 ^ level) - pix_y
  copyLines reg stride width pad lcu_h.toNat m (D + pix_y * stride) (S + pix_y * stride)

/-- `for (j = start; j < end; j++)`, frame.cc:114-117. -/
def padRowsMem (m : Mem) (stride width pad : Nat) (start : Int) : Nat → Mem
  | 0 => m
  | n + 1 => padRowsMem (padLine m (start * stride) width pad) stride width pad (start + 1) n

/-- Rows above, frame.cc:123-126, with `memcpy_aligned`; `none`: `fuel` does not suffice. -/
def padUpMem (fuel : Nat) (reg : Nat → Nat → Nat → Byte) (stride : Nat) : Nat → Mem → Int → Option Mem
  | 0, m, _ => some m
  | n + 1, m, pix => (Ma.memcpyAligned fuel (reg n) m (pix - stride) pix (BitVec.ofNat 64 stride)).bind fun m => padUpMem fuel reg stride n m (pix - stride)

/-- Rows below, frame.cc:133-136. -/
def padDownMem (fuel : Nat) (reg : Nat → Nat → Nat → Byte) (stride : Nat) : Nat → Mem → Int → Option Mem
  | 0, m, _ => some m
  | n + 1, m, pix => (Ma.memcpyAligned fuel (reg n) m (pix + stride) pix (BitVec.ofNat 64 stride)).bind fun m => padDownMem fuel reg stride n m (pix + stride)

/-- `pad_line_lcu` for one plane, frame.cc:99-139; the plane begins at address 0. -/
def padLineLcuMem (fuel : Nat) (reg : Nat → Nat → Nat → Byte) (c : PadCfg) (m : Mem) (y : Nat) : Option Mem :=
  let m := padRowsMem m c.stride c.width c.pad (c.start y) (c.stop y - c.start y).toNat
  (if y = 0 then padUpMem fuel reg c.stride c.pad m (-(c.pad : Int)) else some m).bind fun m =>
    if y + 1 = c.rows then padDownMem fuel reg c.stride c.pad m (((c.lines : Int) - 1) * c.stride - c.pad) else some m

/-- `pad_line_lcu` for the coding-tree rows `0 .. n - 1` in order. -/
def padPictureMem (fuel : Nat) (reg : Nat → Nat → Nat → Byte) (c : PadCfg) (m : Mem) : Nat → Option Mem
  | 0 => some m
  | n + 1 => (padPictureMem fuel reg c m n).bind fun m => padLineLcuMem fuel reg c m n

end Davs2.Rcp
