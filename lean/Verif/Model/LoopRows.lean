import Verif.Model.Alf
import Verif.Model.Deblock
/-
In-loop filtering of a picture, one row of coding trees after the other: decoder.cc:397-500
(decode_one_lcu_row), sao.cc:452-640 (regions and sao_lcurow), alf.cc:279-297 and 424-505.

One plane of `W` × `H` samples with coding trees of `L` samples (for chroma all three are halved).
Slice numbers (`scu_data[].i_slice_nr`) are kept per coding tree: all units of a tree have the number of
the slice that is current when the tree starts.  4:0:0 pictures are left out.
-/
namespace Davs2.Lr
open Davs2.Sa (Plane Avail)

/-- Number of coding trees along an axis. -/
def trees (size lcu : Nat) : Nat := (size + lcu - 1) / lcu

/-! ### Availability and regions -/

/-- `scu_data[].i_slice_nr` as seen while row `j` is filtered: rows up to `j` belong to this picture, the
others still hold the numbers of the previous picture decoded with the same handle (the loop that would
clear them, decoder.cc:88-91, is commented out). -/
def seen (old new : Nat → Nat → Int) (j : Nat) : Nat → Nat → Int := fun i' j' => if j' ≤ j then new i' j' else old i' j'

/-- `b_top` of sao_get_neighbor_avail, sao.cc:466-477, and of deriveBoundaryAvail, alf.cc:282-294, for
tree `(i, j)`. -/
def top (cross : Bool) (s : Nat → Nat → Int) (i j : Nat) : Bool := decide (j ≠ 0) && (cross || decide (s i j = s i (j - 1)))

/-- `b_down` of sao_get_neighbor_avail, sao.cc:469 and 478-481. -/
def down (cross : Bool) (s : Nat → Nat → Int) (n i j : Nat) : Bool := decide (j + 1 < n) && (cross || decide (s i (j + 1) = s i j))

/-- `b_down` of deriveBoundaryAvail, alf.cc:283: the comparison of slices is commented out. -/
def alfDown (n j : Nat) : Bool := decide (j + 1 < n)

structure Rect where
  x : Int
  y : Int
  w : Int
  h : Int

/-- Layout of a picture: sizes, cross_loop_filter_flag, and the slice number of every tree. -/
structure Lay where
  W : Nat
  H : Nat
  L : Nat
  cross : Bool
  old : Nat → Nat → Int
  new : Nat → Nat → Int

def Lay.nW (l : Lay) : Nat := trees l.W l.L
def Lay.nH (l : Lay) : Nat := trees l.H l.L

def Lay.left (_ : Lay) (i : Nat) : Bool := decide (i ≠ 0)
def Lay.right (l : Lay) (i : Nat) : Bool := decide (i + 1 < l.nW)
def Lay.saoTop (l : Lay) (i j : Nat) : Bool := top l.cross (seen l.old l.new j) i j
def Lay.saoDown (l : Lay) (i j : Nat) : Bool := down l.cross (seen l.old l.new j) l.nH i j

/-- Availability flags of tree `(i, j)`, sao.cc:466-489. -/
def Lay.avail (l : Lay) (i j : Nat) : Avail :=
  let t := l.saoTop i j
  let d := l.saoDown i j
  ⟨t, d, l.left i, l.right i, t && l.left i, t && l.right i, d && l.left i, d && l.right i⟩

/-- Region of tree `(i, j)` for SAO, sao.cc:490-533. -/
def Lay.sao (l : Lay) (i j : Nat) : Rect :=
  let rx := Sa.region l.W l.L i (l.left i) (l.right i)
  let ry := Sa.region l.H l.L j (l.saoTop i j) (l.saoDown i j)
  ⟨rx.1, ry.1, rx.2, ry.2⟩

/-- Region of tree `(i, j)` for ALF, alf.cc:432-435 and 102-109. -/
def Lay.alf (l : Lay) (i j : Nat) : Rect :=
  let x : Int := i * l.L
  let y : Int := j * l.L
  let w := if x + l.L > l.W then l.W - x else l.L
  let h := if y + l.L > l.H then l.H - y else l.L
  let y0 := if top l.cross (seen l.old l.new j) i j then y - 4 else y
  let y1 := if alfDown l.nH j then y + h - 4 else y + h
  ⟨x, y0, w, y1 - y0⟩

def Rect.Has (r : Rect) (x y : Int) : Prop := r.x ≤ x ∧ x < r.x + r.w ∧ r.y ≤ y ∧ y < r.y + r.h

instance (r : Rect) (x y : Int) : Decidable (r.Has x y) := by unfold Rect.Has; infer_instance

/-! ### The filters of one tree -/

def shift (p : Plane) (x0 y0 : Int) : Plane := fun x y => p (x + x0) (y + y0)

/-- SAO parameters of one component of a tree: `typeIdc` (0-3 edge, 4 band) and the offsets. -/
structure SaoPrm where
  type : Nat
  off : Int → Int

/-- Body of the loop of sao_lcurow, sao.cc:594-632, for one component; `prm` is `none` if
`slice_sao_on` is 0 or the mode is off.  `junk` is the uninitialised line buffer. -/
def saoTree (bd : Nat) (l : Lay) (junk : Int → Int) (prm : Nat → Nat → Option SaoPrm) (i j : Nat) (src dst : Plane) : Plane :=
  match prm i j with
  | none => dst
  | some p =>
    let r := l.sao i j
    let av := l.avail i j
    let s := shift src r.x r.y
    let d := shift dst r.x r.y
    let res := if p.type = 0 then Sa.eo0 bd p.off av s r.w r.h d
      else if p.type = 1 then Sa.eo90 bd p.off av s r.w r.h d
      else if p.type = 2 then Sa.eo135 bd p.off av s r.w r.h junk d
      else if p.type = 3 then Sa.eo45 bd p.off av s r.w r.h junk d
      else Sa.bo bd p.off s r.w r.h d
    shift res (-r.x) (-r.y)

/-- alf_lcu_block for one component, alf.cc:424-485; `c` is `none` if the filter is off in the tree.  A
sample whose computation overflows is given the value 0. -/
def alfTree (bd : Nat) (l : Lay) (c : Nat → Nat → Option (Nat → Int)) (i j : Nat) (src dst : Plane) : Plane :=
  match c i j with
  | none => dst
  | some c =>
    let r := l.alf i j
    let res := Al.filter bd c (shift src r.x r.y) r.w r.h (fun x y => some (shift dst r.x r.y x y))
    shift (fun x y => (res x y).getD 0) (-r.x) (-r.y)

/-- decode_lcu_recon writes the samples of tree `(i, j)` straight into the picture, decoder.cc:446
(rowrec_store_lcu_recon_samples is empty). -/
def writeTree (l : Lay) (recon : Plane) (i j : Nat) (dst : Plane) : Plane := fun x y =>
  if (i * l.L : Int) ≤ x ∧ x < min (l.W : Int) ((i + 1) * l.L) ∧ (j * l.L : Int) ≤ y ∧ y < min (l.H : Int) ((j + 1) * l.L) then recon x y
  else dst x y

/-- davs2_frame_copy_lcurow, frame.cc:466-517, with pix_offset -4 for row `j`, one plane; each copied line
is extended by `pad` samples at both ends. -/
def copyRow (l : Lay) (pad : Int) (j : Nat) (src dst : Plane) : Plane := fun x y =>
  if (j * l.L : Int) - 4 ≤ y ∧ y < min (l.H : Int) ((j + 1) * l.L) ∧ -pad ≤ x ∧ x < l.W + pad then src (max 0 (min (l.W - 1) x)) y
  else dst x y

/-- The parameters that sao_lcurow uses, sao.cc:594-606: `own` are those read for every tree with the
`slice_sao_on` of its slice, `on`; but the flag that is tested for the whole row is the one of the slice
that is current at the end of the row. -/
def saoRowEnd (nW : Nat) (on : Nat → Nat → Bool) (own : Nat → Nat → Option SaoPrm) : Nat → Nat → Option SaoPrm :=
  fun i j => if on (nW - 1) j then own i j else none

/-! ### The picture -/

/-- What is to be done with a plane of a picture. -/
structure Job where
  bd : Nat
  lay : Lay
  recon : Plane
  /-- deblocking of one edge of an 8x8 block (the identity if deblocking is off) -/
  deb : Db.Dir × Nat × Nat → Plane → Plane
  /-- size of the plane and of a coding tree in 8x8 luma blocks -/
  bw : Nat
  bh : Nat
  bn : Nat
  saoOn : Bool
  sao : Nat → Nat → Option SaoPrm
  alfOn : Bool
  alf : Nat → Nat → Option (Nat → Int)

structure Planes where
  dec : Plane
  sao : Plane
  alf : Plane

/-- davs2_lcu_deblock for tree `(i, j)`. -/
def Job.debTree (b : Job) (i j : Nat) (m : Plane) : Plane := (Db.lcuDeblock b.bw b.bh b.bn i j).foldl (fun m e => b.deb e m) m

/-- The loop over the trees of row `j`, decoder.cc:409-475, as far as it changes the plane. -/
def Job.recRow (b : Job) (j : Nat) (m : Plane) : Plane :=
  (List.range b.lay.nW).foldl (fun m i => b.debTree i j (writeTree b.lay b.recon i j m)) m

def Job.saoRow (b : Job) (junk : Int → Int) (j : Nat) (src dst : Plane) : Plane :=
  (List.range b.lay.nW).foldl (fun d i => saoTree b.bd b.lay junk b.sao i j src d) dst

def Job.alfRow (b : Job) (j : Nat) (src dst : Plane) : Plane :=
  (List.range b.lay.nW).foldl (fun d i => alfTree b.bd b.lay b.alf i j src d) dst

/-- decode_one_lcu_row without errors, decoder.cc:397-489. -/
def Job.row (b : Job) (junk : Int → Int) (p : Planes) (j : Nat) : Planes :=
  let dec := b.recRow j p.dec
  let ts := if b.saoOn then copyRow b.lay 0 j dec p.sao else p.sao
  let dec := if b.saoOn then b.saoRow junk j ts dec else dec
  let ta := if b.alfOn then copyRow b.lay 8 j dec p.alf else p.alf
  let dec := if b.alfOn then b.alfRow j ta dec else dec
  ⟨dec, ts, ta⟩

/-- All rows. -/
def Job.run (b : Job) (junk : Int → Int) (p : Planes) : Planes := (List.range b.lay.nH).foldl (b.row junk) p

end Davs2.Lr
