import Verif.Model.Quadtree
import Verif.Model.IntraFast
import Verif.Model.Units
/-
Reconstruction of one plane of a picture as far as intra prediction sees it: source/common/intra.cc:259-300 and 2505-2575 (neighbours of a block),
source/common/decoder.cc:120-160 and 397-470 (rows and columns saved before in-loop filtering), source/common/cu.cc:1107-1376.

A plane is indexed by column and row, from the top-left sample of the picture, negative numbers being the padding.
-/
namespace Davs2.Rp
open Davs2.Ip

/-- Size of the picture (`h->i_width`, `h->i_height`), level of a coding tree, plane (`s = 0` luma, `s = 1` chroma in 4:2:0 format), sample depth. -/
structure Pic where
  w : Nat
  h : Nat
  lcu : Nat
  s : Nat
  bd : Nat

abbrev Plane := Int → Int → Int

/-- What is coded for a coding unit in this plane. `intra trans tu`: transform split, and for each block the prediction mode and what is made of
a predicted sample given the availability of the row above and the column on the left (the residual, cu.cc:1118-1136 and transform.cc:839-914;
the availability selects the secondary transform, transform.cc:858). `inter val`: motion compensation plus residual, cu.cc:1138-1155, which reads
other pictures only. -/
inductive Content where
  | intra (trans : Nat) (tu : Nat → Nat × (Bool → Bool → Nat → Nat → Int → Int))
  | inter (val : Nat → Nat → Int)

/-- The coded picture: split flags, content of the coding units and number of the slice of each coding tree (`i_slice_index`). -/
structure Coded where
  split : Nat → Nat → Nat → Bool
  cu : Qt.Cu → Content
  slice : Nat → Nat → Nat

/-- What else has an influence on memory: the in-loop filters run after each coding tree (and, the last one of a row, on the whole row) may change
the plane in any way (decoder.cc:459-486), local arrays hold anything (`row_rec` in decoder.cc:404, `buf_edge_pixels`, the buffers of the
specialised predictors). -/
structure Env where
  filt : Nat → Nat → Plane → Plane
  rowTop : Nat → Int → Int
  scratch : Qt.Cu → Nat → Border × Border

/-- `plane` is `h->fdec->planes[s]`, `top` is `row_rec.ctu_border[s].rec_top` (negative indices: `rec_left`, common.h:994-997), `bottom` is
`h->intra_border[s]`, `slice` is `scu_data[].i_slice_nr`, `err` is `h->decoding_error`. `inTab` becomes false if an availability table is read
outside its bounds. `out` is not in the code: the samples of each coding tree as the in-loop filters find them. -/
structure St where
  plane : Plane
  top : Int → Int
  bottom : Int → Int
  slice : Nat → Nat → Int
  err : Bool
  inTab : Bool
  out : Plane

/-- A block, in samples of the plane relative to the coding tree. -/
structure Blk where
  x : Nat
  y : Nat
  w : Nat
  h : Nat
  deriving DecidableEq, Repr

/-- `(int8_t)`, cu.cc:1228. -/
def int8 (n : Nat) : Int := ((n : Int) + 128) % 256 - 128

/-- `is_block_available`, intra.cc:263-273. -/
def isAvail (p : Pic) (slice : Nat → Nat → Int) (x4 y4 dx dy cur : Int) : Bool :=
  let x2 := x4 + dx
  let y2 := y4 + dy
  if x2 < 0 ∨ y2 < 0 ∨ x2 ≥ p.w / 4 ∨ y2 ≥ p.h / 4 then false
  else cur == slice (y2.toNat / 2) (x2.toNat / 2)

/-- The table entries of `get_intra_neighbors`, intra.cc:288-297. -/
def tabs (p : Pic) (x4 y4 bsx bsy : Nat) : Option (Bool × Bool) := do
  let dl ← Qt.availDL p.lcu x4 y4 (bsy / 4)
  let tr ← Qt.availTR p.lcu x4 y4 (bsx / 4)
  pure (dl, tr)

/-- `get_intra_neighbors`, intra.cc:277-303. `scu_data` is indexed by row and column here. -/
def neighbors (p : Pic) (slice : Nat → Nat → Int) (x4 y4 bsx bsy : Nat) (cur : Int) : Avail :=
  let t := (tabs p x4 y4 bsx bsy).getD (false, false)
  { left := isAvail p slice x4 y4 (-1) 0 cur
    top := isAvail p slice x4 y4 0 (-1) cur
    topLeft := isAvail p slice x4 y4 (-1) (-1) cur
    topRight := isAvail p slice x4 y4 ((bsx / 2 : Nat) - 1) (-1) cur && t.2
    leftDown := isAvail p slice x4 y4 (-1) ((bsy / 2 : Nat) - 1) cur && t.1 }

/-- Position of the coding tree in this plane: `i_pix_x`, `i_pix_y` (`_c`), cu.cc:1245-1248. -/
def Pic.org (p : Pic) (l : Nat) : Nat := l * 2 ^ (p.lcu - p.s)

/-- `i_ctu_w`, `i_ctu_h` (`_c`), cu.cc:1250-1253. -/
def Pic.ctuW (p : Pic) (lx : Nat) : Nat := min (p.w - lx * 2 ^ p.lcu) (2 ^ p.lcu) / 2 ^ p.s
def Pic.ctuH (p : Pic) (ly : Nat) : Nat := min (p.h - ly * 2 ^ p.lcu) (2 ^ p.lcu) / 2 ^ p.s

/-- Write a block of samples. -/
def write (m : Plane) (x y w h : Nat) (f : Nat → Nat → Int) : Plane := fun X Y =>
  if (x : Int) ≤ X ∧ X < x + w ∧ (y : Int) ≤ Y ∧ Y < y + h then f (X - x).toNat (Y - y).toNat else m X Y

/-- `davs2_get_intra_pred`, intra.cc:2507-2532, and `davs2_get_intra_pred_chroma`, 2538-2575, followed by the residual. `cur` is
`p_cu->i_slice_nr`. `g_dc_value` is half the sample range. The predictors are those of the C code, for all modes and shapes defined (C63). -/
def intraBlk (p : Pic) (lx ly : Nat) (cur : Int) (scratch : Border × Border) (mode : Nat) (fin : Bool → Bool → Nat → Nat → Int → Int)
    (st : St) (b : Blk) : St :=
  let x4 := b.x * 2 ^ p.s / 4 + lx * 2 ^ (p.lcu - 2)
  let y4 := b.y * 2 ^ p.s / 4 + ly * 2 ^ (p.lcu - 2)
  let av := neighbors p st.slice x4 y4 (b.w * 2 ^ p.s) (b.h * 2 ^ p.s) cur
  let X := p.org lx + b.x
  let Y := p.org ly + b.y
  let src : Source := ⟨fun i => st.top (b.x - b.y + i), fun i j => st.plane (X - 1 + i) (Y - 1 + j)⟩
  let ep := fillEdge (b.x == 0) (b.y == 0) src av (2 ^ (p.bd - 1)) b.w b.h scratch.1
  let pred := fun x y => (table p.bd av.top av.left scratch.2 ep mode b.w b.h x y).getD 0
  { st with
    plane := write st.plane X Y b.w b.h fun x y => fin av.top av.left x y (pred x y)
    inTab := st.inTab && (tabs p x4 y4 (b.w * 2 ^ p.s) (b.h * 2 ^ p.s)).isSome }

/-- The blocks of an intra coding unit: `cu_recon`, cu.cc:1118-1136 (luma: one block or the four transform units), `davs2_get_intra_pred_chroma`
(one block of half the size). -/
def cuBlks (p : Pic) (lx ly : Nat) (c : Qt.Cu) (trans : Nat) : List Blk :=
  let x := c.x - lx * 2 ^ p.lcu
  let y := c.y - ly * 2 ^ p.lcu
  if p.s = 0 then ((Un.tuUnits trans c.l).take (if trans = 0 then 1 else 4)).map fun u => ⟨x + u.x, y + u.y, u.w, u.h⟩
  else [⟨x / 2, y / 2, 2 ^ (c.l - 1), 2 ^ (c.l - 1)⟩]

/-- `cu_recon`, cu.cc:1107-1177, as called by `decode_lcu_recon`, 1361-1372 (C45_recon shows that the coding units come in the order in which they
were parsed): a coding unit whose slice number is −1 is taken for one that could not be parsed. -/
def cuRecon (p : Pic) (k : Coded) (env : Env) (lx ly : Nat) (st : St) (c : Qt.Cu) : St :=
  let cur := st.slice (c.y / 8) (c.x / 8)
  if cur = -1 then { st with err := true }
  else match k.cu c with
    | .intra tr tu => (cuBlks p lx ly c tr).zipIdx.foldl (fun st b =>
        intraBlk p lx ly cur (env.scratch c b.2) (tu b.2).1 (tu b.2).2 st b.1) st
    | .inter val =>
      let n := 2 ^ (c.l - p.s)
      { st with plane := write st.plane (c.x / 2 ^ p.s) (c.y / 2 ^ p.s) n n val }

/-- `decode_lcu_init`, cu.cc:1219-1231: slice number of the coding tree. -/
def lcuInit (p : Pic) (k : Coded) (lx ly : Nat) (st : St) : St :=
  let n := 2 ^ (p.lcu - 3)
  let wS := min ((p.w - lx * 2 ^ p.lcu) / 8) n
  let hS := min ((p.h - ly * 2 ^ p.lcu) / 8) n
  { st with slice := fun sy sx =>
      if lx * n ≤ sx ∧ sx < lx * n + wS ∧ ly * n ≤ sy ∧ sy < ly * n + hS then int8 (k.slice lx ly) else st.slice sy sx }

/-- "cache CTU top border for intra prediction", decoder.cc:436-440. -/
def firstTop (p : Pic) (lx : Nat) (st : St) : St :=
  if lx = 0 then { st with top := put st.top 1 (p.ctuW lx * 2) fun i => st.bottom (i - 1) } else st

/-- `davs2_cache_lcu_border` (`_uv`), decoder.cc:124-158, called from 446-453. -/
def cacheBorder (p : Pic) (lx ly : Nat) (st : St) : St :=
  let e : Int := p.org lx + p.ctuW lx - 1
  let t := put st.top 0 (2 * p.ctuW lx + 1) fun i => st.bottom (e + i)
  { st with top := put t (-(p.ctuH ly)) (p.ctuH ly) fun i => st.plane e (p.org ly - 1 - i) }

/-- "backup bottom row pixels", decoder.cc:456-460. -/
def backup (p : Pic) (lx ly : Nat) (st : St) : St :=
  if ly < (p.h + 2 ^ p.lcu - 1) / 2 ^ p.lcu - 1 then
    { st with bottom := put st.bottom (p.org lx) (p.ctuW lx) fun i => st.plane i (p.org ly + p.ctuH ly - 1) }
  else st

/-- One round of the loop of `decode_one_lcu_row`, decoder.cc:407-470. Parsing (which only gives `k`) is left out. -/
def lcuStep (p : Pic) (k : Coded) (env : Env) (ly : Nat) (st : St) (lx : Nat) : St :=
  if st.err then st
  else
    let st := firstTop p lx (lcuInit p k lx ly st)
    let st := (Qt.parse p.w p.h k.split (p.lcu - 3) (lx * 2 ^ p.lcu) (ly * 2 ^ p.lcu)).foldl (cuRecon p k env lx ly) st
    let st := { st with out := write st.out (p.org lx) (p.org ly) (p.ctuW lx) (p.ctuH ly) fun x y => st.plane (p.org lx + x) (p.org ly + y) }
    let st := backup p lx ly (cacheBorder p lx ly st)
    { st with plane := env.filt lx ly st.plane }

/-- `decode_one_lcu_row`, decoder.cc:397-470; `row_rec` is a local variable. -/
def row (p : Pic) (k : Coded) (env : Env) (st : St) (ly : Nat) : St :=
  (List.range ((p.w + 2 ^ p.lcu - 1) / 2 ^ p.lcu)).foldl (lcuStep p k env ly) { st with top := env.rowTop ly }

/-- All rows of a picture. -/
def run (p : Pic) (k : Coded) (env : Env) (st : St) : St :=
  (List.range ((p.h + 2 ^ p.lcu - 1) / 2 ^ p.lcu)).foldl (row p k env) { st with err := false }

end Davs2.Rp
