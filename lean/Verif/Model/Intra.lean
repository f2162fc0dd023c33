import Verif.Model.Mv
/-
Intra sample prediction: the border of a block, the non-directional predictors and the general
directional predictors.  source/common/intra.cc 52-120, 306-676, 2222-2502 and intra.h 40-56 with
BUGFIX_PREDICTION_INTRA = 1 (defines.h:63).

A border is the array `EP`, indexed from the top-left corner sample: positive indices run along the
top row, negative ones down the left column.  Samples are unbounded integers; the casts to `pel_t`
are left out (C48_legal shows that every stored value fits).
-/
namespace Davs2.Ip

abbrev Border := Int → Int

/-- tab_log2size, intra.cc:124-134 (the table holds -1 for every other size). -/
def log2size : Nat → Nat
  | 4 => 2 | 8 => 3 | 16 => 4 | 32 => 5 | 64 => 6 | _ => 0

/-- tab_auc_dir_dxdy, intra.cc:100-120. -/
def dirDxDy : List (List (Nat × Nat)) := [
  [(0, 0), (0, 0), (0, 0), (11, 2), (2, 0),
   (11, 3), (1, 0), (93, 7), (1, 1), (93, 8),
   (1, 2), (1, 3), (0, 0), (1, 3), (1, 2),
   (93, 8), (1, 1), (93, 7), (1, 0), (11, 3),
   (2, 0), (11, 2), (4, 0), (8, 0), (0, 0),
   (8, 0), (4, 0), (11, 2), (2, 0), (11, 3),
   (1, 0), (93, 7), (1, 1)],
  [(0, 0), (0, 0), (0, 0), (93, 8), (1, 1),
   (93, 7), (1, 0), (11, 3), (2, 0), (11, 2),
   (4, 0), (8, 0), (0, 0), (8, 0), (4, 0),
   (11, 2), (2, 0), (11, 3), (1, 0), (93, 7),
   (1, 1), (93, 8), (1, 2), (1, 3), (0, 0),
   (1, 3), (1, 2), (93, 8), (1, 1), (93, 7),
   (1, 0), (11, 3), (2, 0)]]

def dir (axis mode : Nat) : Nat × Nat := (dirDxDy.getD axis []).getD mode (0, 0)

/-- get_context_pixel, intra.cc:525-534: whole and fractional (1/32) displacement.  All operands are
non-negative, so the shifts are divisions of naturals. -/
def ctxPos (axis mode d : Nat) : Nat := d * (dir axis mode).1 / 2 ^ (dir axis mode).2
def ctxOff (axis mode d : Nat) : Nat :=
  d * (dir axis mode).1 * 32 / 2 ^ (dir axis mode).2 - ctxPos axis mode d * 32

/-- intra_pred_ver_c, intra.cc:327-338. -/
def ver (s : Border) (x : Nat) : Int := s (1 + x)

/-- intra_pred_hor_c, intra.cc:342-355. -/
def hor (s : Border) (y : Nat) : Int := s (-1 - y)

/-- Sum of `f 0 … f (n-1)`: the accumulation loops of DC and plane. -/
def sum (f : Nat → Int) : Nat → Int
  | 0 => 0
  | n + 1 => sum f n + f n

/-- intra_pred_dc_c, intra.cc:359-408; `bd` is g_bit_depth. -/
def dc (bd : Nat) (top left : Bool) (s : Border) (w h : Nat) : Int :=
  let v : Int :=
    if left then
      if top then
        (sum (fun y => s (-1 - y)) h + sum (fun x => s (1 + x)) w + ((w + h) / 2 : Nat))
          * (512 / (w + h) : Nat) / 512
      else (sum (fun y => s (-1 - y)) h + (h / 2 : Nat)) / h
    else
      if top then (sum (fun x => s (1 + x)) w + (w / 2 : Nat)) / w
      else 2 ^ (bd - 1)
  clip3 0 (2 ^ bd - 1) v

/-- ib_mult and ib_shift, intra.cc:414-415. -/
def planeMult : Nat → Int | 0 => 13 | 1 => 17 | 2 => 5 | 3 => 11 | _ => 23
def planeShift : Nat → Nat | 0 => 7 | 1 => 10 | 2 => 11 | 3 => 15 | _ => 19

/-- A variable that starts at `a` and has `d` added `n` times. -/
def acc (a d : Int) : Nat → Int
  | 0 => a
  | n + 1 => acc a d n + d

/-- intra_pred_plane_c, intra.cc:412-460. -/
def planeB (s : Border) (w : Nat) : Int :=
  let ih := sum (fun i => ((i : Int) + 1) * (s (1 + (w / 2 - 1 : Nat) + (i + 1)) - s (1 + (w / 2 - 1 : Nat) - (i + 1)))) (w / 2)
  (ih * 32 * planeMult (log2size w - 2) + 2 ^ (planeShift (log2size w - 2) - 1))
    / 2 ^ planeShift (log2size w - 2)

def planeC (s : Border) (h : Nat) : Int :=
  let iv := sum (fun i => ((i : Int) + 1) * (s (-1 - (h / 2 - 1 : Nat) - (i + 1)) - s (-1 - (h / 2 - 1 : Nat) + (i + 1)))) (h / 2)
  (iv * 32 * planeMult (log2size h - 2) + 2 ^ (planeShift (log2size h - 2) - 1))
    / 2 ^ planeShift (log2size h - 2)

def planeA (s : Border) (w h : Nat) : Int := (s (-1 - (h - 1 : Nat)) + s (1 + w - 1)) * 16

def plane (bd : Nat) (s : Border) (w h x y : Nat) : Int :=
  let b := planeB s w
  let c := planeC s h
  let t := planeA s w h - (h / 2 - 1 : Nat) * c - (w / 2 - 1 : Nat) * b + 16
  clip3 0 (2 ^ bd - 1) (acc (acc t c y) b x / 32)

/-- The corner value `c` of intra_pred_bilinear_c, intra.cc:493. -/
def biCorner (a b : Int) (w h : Nat) : Int :=
  if w = h then (a + b + 1) / 2
  else ((a * 2 ^ log2size w + b * 2 ^ log2size h) * 13 + 2 ^ (min (log2size w) (log2size h) + 5))
    / 2 ^ (min (log2size w) (log2size h) + 6)

/-- `pTop[x]` after `n` rows; itr_t is 16 bits wide in the 8-bit build (common.h:69), so every store
wraps.  The stores are modelled in the order they occur. -/
def biTop (top b : Int) (sy : Nat) : Nat → Int
  | 0 => toInt16 (top * 2 ^ sy)
  | n + 1 => toInt16 (biTop top b sy n + toInt16 (b - top))

/-- intra_pred_bilinear_c, intra.cc:464-521. -/
def bilinear (bd : Nat) (s : Border) (w h x y : Nat) : Int :=
  let sx := log2size w
  let sy := log2size h
  let a := toInt16 (s (1 + (w - 1 : Nat)))
  let b := toInt16 (s (-1 - (h - 1 : Nat)))
  let wt := biCorner a b w h * 2 - a - b
  let left := toInt16 (s (-1 - y))
  let top := toInt16 (s (1 + x))
  let wy := toInt16 (acc 0 wt y)
  let predx := acc (toInt16 (left * 2 ^ sx)) (toInt16 (a - left)) (x + 1)
  let wxy := acc (-wy) wy (x + 1)
  clip3 0 (2 ^ bd - 1)
    ((predx * 2 ^ sy + biTop top b sy (y + 1) * 2 ^ sx + wxy + 2 ^ (sx + sy)) / 2 ^ (sx + sy + 1))

/-- intra_pred_ang_x_c, intra.cc:538-584. -/
def angX (s : Border) (mode x y : Nat) : Int :=
  let p : Int := ctxPos 0 mode (y + 1) + x
  let c : Int := ctxOff 0 mode (y + 1)
  (s p * (32 - c) + s (p + 1) * (64 - c) + s (p + 2) * (32 + c) + s (p + 3) * c + 64) / 128

/-- intra_pred_ang_y_c, intra.cc:589-631. -/
def angY (s : Border) (mode x y : Nat) : Int :=
  let p : Int := -((y : Int) + ctxPos 1 mode (x + 1))
  let c : Int := ctxOff 1 mode (x + 1)
  (s p * (32 - c) + s (p - 1) * (64 - c) + s (p - 2) * (32 + c) + s (p - 3) * c + 64) / 128

/-- intra_pred_ang_xy_c, intra.cc:636-675. -/
def angXY (s : Border) (mode x y : Nat) : Int :=
  let px : Int := -(ctxPos 0 mode (y + 1) : Int) + x
  let cx : Int := ctxOff 0 mode (y + 1)
  let py : Int := (y : Int) - ctxPos 1 mode (x + 1)
  let cy : Int := ctxOff 1 mode (x + 1)
  if py ≤ -1 then
    (s (px + 2) * (32 - cx) + s (px + 1) * (64 - cx) + s px * (32 + cx) + s (px - 1) * cx + 64) / 128
  else
    (s (-py - 2) * (32 - cy) + s (-py - 1) * (64 - cy) + s (-py) * (32 + cy) + s (-py + 1) * cy + 64) / 128

/-- The table of general predictors, davs2_intra_pred_init intra.cc:2589-2605, called by intra_pred
(intra.h:42-54), which hands DC the availability of the top and left neighbours. -/
def general (bd : Nat) (top left : Bool) (s : Border) (mode w h x y : Nat) : Int :=
  if mode = 0 then dc bd top left s w h
  else if mode = 1 then plane bd s w h x y
  else if mode = 2 then bilinear bd s w h x y
  else if mode < 12 then angX s mode x y
  else if mode = 12 then ver s x
  else if mode < 24 then angXY s mode x y
  else if mode = 24 then hor s y
  else angY s mode x y

/-- The block shapes intra prediction is called with: square blocks of 4 to 64 samples and the short
distance shapes 16x4, 4x16, 32x8 and 8x32. -/
def shapes : List (Nat × Nat) :=
  [(4, 4), (8, 8), (16, 16), (32, 32), (64, 64), (16, 4), (4, 16), (32, 8), (8, 32)]

/-! ### The border, intra.cc:2222-2502 -/

/-- mem_repeat_p, intra.cc:308-313, and memcpy: `n` cells from `a` on are overwritten. -/
def put (ep : Border) (a : Int) (n : Nat) (f : Int → Int) : Border :=
  fun i => if a ≤ i ∧ i < a + n then f i else ep i

/-- Availability of the five neighbours (IS_NEIGHBOR_AVAIL of MD_I_*). -/
structure Avail where
  left : Bool
  top : Bool
  topLeft : Bool
  topRight : Bool
  leftDown : Bool

/-- Where the samples come from: the row above and column left of the coding tree unit saved before
in-loop filtering (`pLcuEP`, indexed as a border), and the picture around the block (`pTL`, indexed
by column and row relative to the sample above and left of the block). -/
structure Source where
  lcu : Int → Int
  pic : Int → Int → Int

/-- Default value, top, top-right and right padding: the first half of the four functions,
e.g. intra.cc:2227-2252. -/
def fillTop (top : Int → Int) (av : Avail) (g : Int) (w h : Nat) (ep : Border) : Border :=
  let ep := put ep (-(h * 2)) ((h + w) * 2 + 1) fun _ => g
  let ep := if av.top then put ep 1 w top else ep
  let ep := if av.topRight then put ep (w + 1) w top else put ep (w + 1) w (fun _ => ep w)
  let padR : Int := (h * 11 / 4 : Nat) - (w : Int) + 4
  if 0 < padR then put ep (2 * w + 1) padR.toNat (fun _ => ep (2 * w)) else ep

/-- Left and left-down, e.g. intra.cc:2254-2265. -/
def fillLeft (left : Int → Int) (av : Avail) (h : Nat) (ep : Border) : Border :=
  let ep := if av.left then put ep (-h) h left else ep
  if av.leftDown then put ep (-2 * h) h left else put ep (-(h * 2)) h (fun _ => ep (-h))

/-- The corner, e.g. intra.cc:2267-2274. -/
def fillCorner (own above beside : Int) (av : Avail) (ep : Border) : Border :=
  if av.topLeft then put ep 0 1 (fun _ => own)
  else if av.top then put ep 0 1 (fun _ => above)
  else if av.left then put ep 0 1 (fun _ => beside) else ep

/-- Padding below, e.g. intra.cc:2276-2280. -/
def fillDown (w h : Nat) (ep : Border) : Border :=
  let padL : Int := (w * 11 / 4 : Nat) - (h : Int) + 4
  if 0 < padL then put ep (-2 * h - padL) padL.toNat (fun _ => ep (-2 * h)) else ep

/-- fill_reference_samples_0_c / _x_c / _y_c / _xy_c, intra.cc:2222-2502.  `onLeft` / `onTop`: the block
touches the left / top edge of its coding tree unit; the four functions differ only in which of the
two sources each access uses.  `g` is g_dc_value. -/
def fillEdge (onLeft onTop : Bool) (src : Source) (av : Avail) (g : Int) (w h : Nat) (ep : Border) : Border :=
  let top (i : Int) := if onTop then src.lcu i else src.pic i 0
  let left (i : Int) := if onLeft then src.lcu i else src.pic 0 (-i)
  let corner := if onTop || onLeft then src.lcu 0 else src.pic 0 0
  fillDown w h (fillCorner corner (top 1) (left (-1)) av (fillLeft left av h (fillTop top av g w h ep)))

end Davs2.Ip
