import Verif.Model.SeqHeader
/-
The parts of the sample player that report on pictures and write them: /repo/source/test/psnr.h (comparison with a
reference file), /repo/source/test/utils.h:147-209 (output file), /repo/source/test/test.c:104-170, parse_args.h:200-216.

Memory is a list; a read outside is the result `none`.  Sample values are natural numbers; the 8-bit and the 16-bit
functions of psnr.h have the same text and differ in the element type only.
-/
namespace Davs2.Tl

/-! ### Comparison -/

/-- `int t = dst[i] - rec[i]; t * t`, psnr.h:76-77; `none` if the product does not fit into `int`. -/
def square (a b : Nat) : Option Nat :=
  let t : Int := (a : Int) - b
  if t * t ≤ 2147483647 then some (t * t).toNat else none

/-- One row of cal_ssd_8bit / cal_ssd_16bit, psnr.h:75-78; `ro`, `dO` are the offsets of the rows. -/
def ssdRow (rec dst : List Nat) (ro dO : Nat) : Nat → Nat → Nat → Option Nat
  | 0, _, d => some d
  | n + 1, i, d => do
    let a ← dst[dO + i]?
    let b ← rec[ro + i]?
    let t ← square a b
    ssdRow rec dst ro dO n (i + 1) ((d + t) % 2 ^ 64)

/-- The loop over the rows, psnr.h:74-82. -/
def ssdRows (w : Nat) (rec : List Nat) (rs : Nat) (dst : List Nat) (ds : Nat) : Nat → Nat → Nat → Nat → Option Nat
  | 0, _, _, d => some d
  | n + 1, ro, dO, d => do
    let d ← ssdRow rec dst ro dO w 0 d
    ssdRows w rec rs dst ds n (ro + rs) (dO + ds) d

/-- `memcmp(dst, rec, n samples) == 0`. -/
def sameMem (rec dst : List Nat) (n : Nat) : Option Bool :=
  if n ≤ rec.length ∧ n ≤ dst.length then some (decide (rec.take n = dst.take n)) else none

/-- cal_ssd, psnr.h:62-140. -/
def ssd (w h : Nat) (rec : List Nat) (rs : Nat) (dst : List Nat) (ds : Nat) : Option Nat :=
  if rs = ds then do
    let e ← sameMem rec dst (rs * h)
    if e then some 0 else ssdRows w rec rs dst ds h 0 0 0
  else ssdRows w rec rs dst ds h 0 0 0

/-- One row of find_first_mismatch_point_8bit / _16bit, psnr.h:155-162: the column at which the loop is left. -/
def scanRow (rec dst : List Nat) (ro dO : Nat) : Nat → Nat → Option (Option Nat)
  | 0, _ => some none
  | n + 1, i => do
    let a ← dst[dO + i]?
    let b ← rec[ro + i]?
    if a ≠ b then some (some i) else scanRow rec dst ro dO n (i + 1)

/-- `*x` and `*y` after a row. -/
def keep (r : Option Nat) (j : Nat) (best : Option (Nat × Nat)) : Option (Nat × Nat) :=
  match r with
  | some i => some (i, j)
  | none => best

/-- find_first_mismatch_point, psnr.h:144-167: `j` is the row, `best` the values of `*x` and `*y` (`none`: -1, -1). -/
def scan (w : Nat) (rec : List Nat) (rs : Nat) (dst : List Nat) (ds : Nat) :
    Nat → Nat → Option (Nat × Nat) → Option (Option (Nat × Nat))
  | 0, _, best => some best
  | n + 1, j, best => do
    let r ← scanRow rec dst (j * rs) (j * ds) w 0
    scan w rec rs dst ds n (j + 1) (keep r j best)

def mismatch (w h : Nat) (rec : List Nat) (rs : Nat) (dst : List Nat) (ds : Nat) : Option (Option (Nat × Nat)) :=
  scan w rec rs dst ds h 0 none

/-! ### Output file -/

/-- write_frame_plane, utils.h:150-159, from offset `p` of the memory of the plane on. -/
def writePlane (mem : List Byte) (w bps stride : Nat) : Nat → Nat → Option (List Byte)
  | 0, _ => some []
  | n + 1, p =>
    if p + w * bps ≤ mem.length then do
      let rest ← writePlane mem w bps stride n (p + stride)
      some ((mem.drop p).take (w * bps) ++ rest)
    else none

/-- A plane of `davs2_picture_t`. -/
structure Plane where
  mem : List Byte
  width : Nat
  lines : Nat
  stride : Nat

/-- write_frame, utils.h:190-209. -/
def writeFrame (y4m : Bool) (bps : Nat) (planes : Plane × Option (Plane × Plane)) : Option (List Byte) := do
  let head : List Byte := if y4m then [70, 82, 65, 77, 69, 10] else []
  let y ← writePlane planes.1.mem planes.1.width bps planes.1.stride planes.1.lines 0
  match planes.2 with
  | none => some (head ++ y)
  | some (u, v) => do
    let u ← writePlane u.mem u.width bps u.stride u.lines 0
    let v ← writePlane v.mem v.width bps v.stride v.lines 0
    some (head ++ y ++ u ++ v)

/-- The table of output_decoded_frame, test.c:120-130. -/
def frameRates : List (Nat × Nat) :=
  [(0, 1), (24000, 1001), (24, 1), (25, 1), (30000, 1001), (30, 1), (50, 1), (60000, 1001), (60, 1)]

/-- Frame rate written into the header of a y4m file, test.c:131-132; `none` if the table is read outside. -/
def y4mRate (s : SeqHdr) : Option (Nat × Nat) := frameRates[s.frameRateId.toNat]?

/-- The file name examined after the output file was opened, parse_args.h:202-216: `given` is the argument of `-o`,
`opened` tells whether `fopen` succeeded.  The result is `b_y4m`; `none` stands for `strlen` of a null pointer. -/
def outputKind (given : Option String) (opened : Bool) : Option Bool :=
  match given with
  | some f =>
    if f ≠ "stdout" ∧ opened = false then some false
    else some (decide (4 < f.length ∧ f.toList.drop (f.length - 4) = ".y4m".toList) || decide (f = "stdout"))
  | none => none

end Davs2.Tl
