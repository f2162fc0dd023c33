import Verif.Model.Mv
/-
Sample adaptive offset.  source/common/sao.cc 119-350 (block filters), 352-445 (parameters), 450-540
(regions), aec.cc 2226-2415 (syntax).

A plane is a function of column and row relative to the corner of the block: `p_src[y * i_src + x]` is
`src x y`.  Rows of a plane are at least 80 samples apart from each other's ends (frame.cc:241), so
different `(x, y)` used here are different addresses.  Source and destination are different frames.
-/
namespace Davs2.Sa

abbrev Plane := Int → Int → Int

/-- `for (x = a; x < b; x++) s = f x s`. -/
def loopN {σ : Type} (f : Int → σ → σ) : Nat → Int → σ → σ
  | 0, _, s => s
  | n + 1, x, s => loopN f n (x + 1) (f x s)

def loop {σ : Type} (a b : Int) (f : Int → σ → σ) (s : σ) : σ := loopN f (b - a).toNat a s

def set (p : Plane) (x y v : Int) : Plane := fun x' y' => if x' = x ∧ y' = y then v else p x' y'

/-- `pel_diff > 0 ? 1 : (pel_diff < 0 ? -1 : 0)`. -/
def sgn (d : Int) : Int := if d > 0 then 1 else if d < 0 then -1 else 0

/-- `lcu_avail`, sao.cc:62-71. -/
structure Avail where
  t : Bool
  d : Bool
  l : Bool
  r : Bool
  tl : Bool
  tr : Bool
  dl : Bool
  dr : Bool

section
variable (bd : Nat) (off : Int → Int) (av : Avail) (src : Plane) (w h : Int)

/-- `(pel_t)DAVS2_CLIP3(0, max_pel_val, p_src[x] + sao_offset[edge_type])`. -/
def out (x y e : Int) : Int := clip3 0 (2 ^ bd - 1) (src x y + off e)

def sx : Int := if av.l then 0 else 1
def ex : Int := if av.r then w else w - 1

/-- sao_block_eo_0_c, sao.cc:123-149: one row. -/
def eo0Row (y : Int) (dst : Plane) : Plane :=
  (loop (sx av) (ex av w) (fun x (st : Int × Plane) =>
    let rs := sgn (src x y - src (x + 1) y)
    (-rs, set st.2 x y (out bd off src x y (st.1 + rs + 2))))
    (sgn (src (sx av) y - src (sx av - 1) y), dst)).2

def eo0 (dst : Plane) : Plane := loop 0 h (fun y dst => eo0Row bd off av src w y dst) dst

/-- sao_block_eo_90_c, sao.cc:154-176: one column. -/
def eo90Col (x : Int) (dst : Plane) : Plane :=
  let sy : Int := if av.t then 0 else 1
  let ey : Int := if av.d then h else h - 1
  (loop sy ey (fun y (st : Int × Plane) =>
    let ds := sgn (src x y - src x (y + 1))
    (-ds, set st.2 x y (out bd off src x y (ds + st.1 + 2))))
    (sgn (src x sy - src x (sy - 1)), dst)).2

def eo90 (dst : Plane) : Plane := loop 0 w (fun x dst => eo90Col bd off av src h x dst) dst

/-- One cell of the line buffer `UPROW_S` is written. -/
def put (up : Int → Int) (i v : Int) : Int → Int := fun j => if j = i then v else up j

/-- sao_block_eo_135_c, sao.cc:205-210: the line buffer; `junk` is the uninitialised array. -/
def init135 (junk : Int → Int) : Int → Int :=
  loop (sx av) (ex av w) (fun x up => put up (x + 1) (sgn (src (x + 1) 1 - src x 0))) junk

/-- First row, sao.cc:212-220. -/
def first135 (up : Int → Int) (dst : Plane) : Plane :=
  loop (if av.tl then 0 else 1) (if av.t then (if av.r then w else w - 1) else 1) (fun x dst =>
    set dst x 0 (out bd off src x 0 (sgn (src x 0 - src (x - 1) (-1)) - up (x + 1) + 2))) dst

/-- A middle row, sao.cc:223-240; the state is the line buffer, `reg` and the destination. -/
def mid135 (y : Int) (st : (Int → Int) × Int × Plane) : (Int → Int) × Int × Plane :=
  loop (sx av) (ex av w) (fun x st =>
    let up := if x = sx av then put st.1 x (sgn (src x y - src (x - 1) (y - 1))) else st.1
    let ds := sgn (src x y - src (x + 1) (y + 1))
    (put up x st.2.1, -ds, set st.2.2 x y (out bd off src x y (ds + up x + 2)))) st

/-- Last row, sao.cc:242-258. -/
def last135 (y : Int) (st : (Int → Int) × Plane) : (Int → Int) × Plane :=
  loop (if av.d then (if av.l then 0 else 1) else w - 1) (if av.dr then w else w - 1) (fun x st =>
    let up := if x = sx av then put st.1 x (sgn (src x y - src (x - 1) (y - 1))) else st.1
    let ds := sgn (src x y - src (x + 1) (y + 1))
    (up, set st.2 x y (out bd off src x y (ds + up x + 2)))) st

/-- sao_block_eo_135_c, sao.cc:181-252.  After the first row and the middle rows the row pointer is
incremented once more, so the last row is row `max 1 (h - 1)`. -/
def eo135 (junk : Int → Int) (dst : Plane) : Plane :=
  let up := init135 av src w junk
  let dst := first135 bd off av src w up dst
  let st := loop 1 (h - 1) (fun y st => mid135 bd off av src w y st) (up, 0, dst)
  (last135 bd off av src w (max 1 (h - 1)) (st.1, st.2.2)).2

/-- sao_block_eo_45_c, sao.cc:278-283. -/
def init45 (junk : Int → Int) : Int → Int :=
  loop (sx av) (ex av w) (fun x up => put up (x - 1) (sgn (src (x - 1) 1 - src x 0))) junk

/-- First row, sao.cc:285-293. -/
def first45 (up : Int → Int) (dst : Plane) : Plane :=
  loop (if av.t then (if av.l then 0 else 1) else w - 1) (if av.tr then w else w - 1) (fun x dst =>
    set dst x 0 (out bd off src x 0 (sgn (src x 0 - src (x + 1) (-1)) - up (x - 1) + 2))) dst

/-- A middle row, sao.cc:296-312. -/
def mid45 (y : Int) (st : (Int → Int) × Plane) : (Int → Int) × Plane :=
  loop (sx av) (ex av w) (fun x st =>
    let up := if x = ex av w - 1 then put st.1 x (sgn (src x y - src (x + 1) (y - 1))) else st.1
    let ds := sgn (src x y - src (x - 1) (y + 1))
    (put up (x - 1) (-ds), set st.2 x y (out bd off src x y (ds + up x + 2)))) st

/-- Last row, sao.cc:314-330. -/
def last45 (y : Int) (st : (Int → Int) × Plane) : (Int → Int) × Plane :=
  loop (if av.dl then 0 else 1) (if av.d then (if av.r then w else w - 1) else 1) (fun x st =>
    let up := if x = ex av w - 1 then put st.1 x (sgn (src x y - src (x + 1) (y - 1))) else st.1
    let ds := sgn (src x y - src (x - 1) (y + 1))
    (up, set st.2 x y (out bd off src x y (ds + up x + 2)))) st

/-- sao_block_eo_45_c, sao.cc:257-326. -/
def eo45 (junk : Int → Int) (dst : Plane) : Plane :=
  let up := init45 av src w junk
  let dst := first45 bd off av src w up dst
  let st := loop 1 (h - 1) (fun y st => mid45 bd off av src w y st) (up, dst)
  (last45 bd off av src w (max 1 (h - 1)) st).2

/-- sao_block_bo_c, sao.cc:331-351 (band_shift is g_bit_depth - 5). -/
def bo (dst : Plane) : Plane :=
  loop 0 h (fun y dst => loop 0 w (fun x dst => set dst x y (out bd off src x y (src x y / 2 ^ (bd - 5)))) dst) dst

end

/-! ### Parameters -/

/-- read_sao_mergeflag and aec_read_sao_mergeflag, aec.cc:2226-2261; `b i` is the i-th decoded symbol. -/
def mergeFlag (left up : Bool) (b0 b1 : Bool) : Nat :=
  let ctx := left.toNat + up.toNat
  let sym := if ctx = 1 then b0.toNat else if ctx = 2 then (if b0 then 1 else b1.toNat * 2) else 0
  let ml := if left then sym % 2 else 0
  let idx := if left then sym / 2 else sym
  let mt := if up ∧ ml = 0 then idx % 2 else 0
  ml * 2 + mt

/-- aec_read_sao_mode, aec.cc:2265-2279. -/
def saoMode (b0 b1 : Bool) : Nat := if b0 then 0 else 1 + (if b1 then 0 else 2)

/-- `EO_OFFSET_INV__MAP`, aec.cc:75. -/
def eoMap : List Int := [1, 0, 2, -1, 3, 4, 5, 6]

/-- `saoclip[offset_type][2]`, sao.cc:52-60. -/
def saoMax : List Nat := [7, 1, 0, 1, 7, 7]

/-- The counting loop of read_sao_offset, aec.cc:2288-2300: `bits` are the symbols still to be decoded;
the loop ends at a symbol 1 or when the counter reaches the maximum. -/
def countZeros (max : Nat) : List Bool → Nat → Nat × List Bool
  | [], cnt => (cnt, [])
  | b :: bs, cnt => if b then (cnt, bs) else if cnt + 1 = max then (cnt + 1, bs) else countZeros max bs (cnt + 1)

/-- read_sao_offset, aec.cc:2282-2319, for class `type` (5 is a band); `none` if the mapping table is
indexed outside. -/
def readOffset (type : Nat) (bits : List Bool) : Option (Int × List Bool) := do
  let (cnt, bits) := countZeros (saoMax.getD type 0) bits 0
  let v ← if type = 0 then eoMap[cnt]? else if type = 4 then eoMap[cnt]?.map (- ·)
    else if type = 3 then some (-(cnt : Int)) else some (cnt : Int)
  if type = 5 ∧ v ≠ 0 then
    match bits with
    | [] => some (v, [])
    | b :: bs => some (if b then -v else v, bs)
  else some (v, bits)

/-- The exp-Golomb part of read_sao_type, aec.cc:2360-2386: prefix loop. -/
def typePrefix : Nat → Nat → List Bool → Nat × Nat × List Bool
  | order, act, [] => (order, act, [])
  | order, act, b :: bs =>
    if b then (order, act, bs)
    else if order + 1 = 4 then (0, act + 2 ^ order, bs) else typePrefix (order + 1) (act + 2 ^ order) bs

/-- `rest`, most significant bit first. -/
def typeRest : Nat → List Bool → Nat
  | 0, _ => 0
  | _ + 1, [] => 0
  | n + 1, b :: bs => b.toNat * 2 ^ n + typeRest n bs

/-- read_sao_type(…, 2), the distance of the two bands. -/
def readDelta (bits : List Bool) : Nat :=
  let (order, act, bits) := typePrefix 1 0 bits
  act + typeRest order bits

/-- read_sao_type(…, 0 or 1): `length` bits, least significant first. -/
def readFixed : Nat → Nat → List Bool → Nat
  | 0, _, _ => 0
  | _ + 1, _, [] => 0
  | n + 1, i, b :: bs => b.toNat * 2 ^ i + readFixed n (i + 1) bs

/-- Offsets of the 32 bands, sao.cc:414-425. -/
def bandTable (saoType : Nat) (o0 o1 o2 o3 : Int) : Nat → Int :=
  let db := saoType / 32
  let s0 := saoType - db * 32
  let s1 := (s0 + db) % 32
  let upd (f : Nat → Int) (i : Nat) (v : Int) : Nat → Int := fun j => if j = i then v else f j
  upd (upd (upd (upd (fun _ => 0) s0 o0) ((s0 + 1) % 32) o1) s1 o2) ((s1 + 1) % 32) o3

/-- Offsets of the five classes, sao.cc:427-434. -/
def edgeTable (o0 o1 o2 o3 : Int) : Int → Int :=
  fun e => if e = 0 then o0 else if e = 1 then o1 else if e = 3 then o2 else if e = 4 then o3 else 0

/-! ### Regions -/

/-- One axis of sao_get_neighbor_avail, sao.cc:452-533, for a plane of `size` samples, trees of `lcu`
samples, tree `i`; `before`, `after` are b_left and b_right (or b_top and b_down): first sample and extent. -/
def region (size lcu : Int) (i : Int) (before after : Bool) : Int × Int :=
  let pix := i * lcu
  let n := min lcu (size - pix)
  let n := if after then n else n + 4
  let pix' := if before then pix - 4 else pix
  let n := if before then n else n - 4
  (pix', min n (size - pix'))

end Davs2.Sa
