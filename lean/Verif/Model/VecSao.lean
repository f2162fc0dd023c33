import Verif.Model.Vec
/-
Sample adaptive offset with vector instructions: source/common/vec/intrinsic_sao.cc (SSE4) and
source/common/vec/intrinsic_sao_avx2.cc (AVX2), chosen in `davs2_sao_init`, sao.cc:640-663.  8-bit build.

Planes as in Model/Sao.  The functions read up to 32 samples beyond the block; planes are total here.
-/
namespace Davs2.Vc
open Davs2.Sa (Plane Avail loop sx ex)

/-! ### 16 samples at once -/

/-- `t0` and `t3`: sign of `s1 - s0`, intrinsic_sao.cc:100-108; in both places the comparison of `s1` comes first. -/
def eoSign (s1 s0 : V) : V := subs8 (cmpeq8 (minu8 s0 s1) s1) (cmpeq8 (minu8 s0 s1) s0)

/-- `etype`, intrinsic_sao.cc:100-110; `s0`, `s1`, `s2`: one neighbour, the sample, the other neighbour. -/
def eoType (s0 s1 s2 : V) : V := adds8 (eoSign s1 s0) (eoSign s1 s2)

/-- The offsets of 16 samples, intrinsic_sao.cc:112-127. -/
def eoOffs (off : Int → Int) (s0 s1 s2 : V) : V :=
  let sel := fun (k e : Int) => and (cmpeq8 (eoType s0 s1 s2) (set1_8 k)) (set1_8 (off e))
  let t0 := adds8 (sel (-2) 0) (sel (-1) 1)
  let t2 := adds8 (sel 0 2) (sel 1 3)
  adds8 (adds8 t0 (sel 2 4)) t2

/-- Offsets are added in words and the sums limited to bytes, intrinsic_sao.cc:129-138. -/
def addOffs (s1 o : V) : V :=
  packus16 (adds16 (cvtepi8_16 o) (unpacklo8 s1 zero)) (adds16 (cvtepi8_16 (srliB o 8)) (unpackhi8 s1 zero))

def eoVec (off : Int → Int) (s0 s1 s2 : V) : V := addOffs s1 (eoOffs off s0 s1 s2)

/-- `src1`, intrinsic_sao.cc:701, and the offset of each sample, 703-716; `b1`, `b2` are `startBand`, `startBand2`. -/
def boOffs (off : Int → Int) (b1 b2 : Int) (src1 : V) : V :=
  let sel := fun (b : Int) => and (cmpeq8 src1 (set1_8 b)) (set1_8 (off b))
  or (or (sel b1) (sel ((b1 + 1) % 32))) (or (sel b2) (sel ((b2 + 1) % 32)))

def boVec (off : Int → Int) (b1 b2 : Int) (s : V) : V := addOffs s (boOffs off b1 b2 (and (srai16 s 3) (set1_8 31)))

/-! ### 32 samples at once -/

/-- `off`, intrinsic_sao_avx2.cc:82-87. -/
def offTable (off : Int → Int) : V :=
  both128 (packs16 (packs32 (load32 fun i => off i) (set32 0 0 0 (off 4))) zero)

/-- The offsets, intrinsic_sao_avx2.cc:97-111. -/
def eoOffs32 (off : Int → Int) (s0 s1 s2 : V) : V := shuffle8y (offTable off) (adds8 (eoType s0 s1 s2) (set1_8 2))

/-- Lines 114-122. -/
def addOffs32 (s1 o : V) : V :=
  permute4x64_d8 (packus16y (adds16 (cvtepi8_16 (low128 o)) (cvtepu8_16 (low128 s1))) (adds16 (cvtepi8_16 (high128 o)) (cvtepu8_16 (high128 s1))))

def eoVec32 (off : Int → Int) (s0 s1 s2 : V) : V := addOffs32 s1 (eoOffs32 off s0 s1 s2)

/-- Lines 640-661: as for 16 samples, but with a logical shift and additions without saturation. -/
def boVec32 (off : Int → Int) (b1 b2 : Int) (s : V) : V :=
  let o := boOffs off b1 b2 (and (srli16 s 3) (set1_8 31))
  permute4x64_d8 (packus16y (add16 (cvtepi8_16 (low128 o)) (cvtepu8_16 (low128 s))) (add16 (cvtepi8_16 (high128 o)) (cvtepu8_16 (high128 s))))

/-! ### Rows

`vec x` is the result for the samples from column `x` on. -/

/-- A store under row `k` of the table of masks; nothing is stored if there is no such row. -/
def storeMask (p : Plane) (x y : Int) (v : V) (k : Int) : Plane := match maskRow k with
  | some m => maskmove p x y v m
  | none => p

/-- One round of a loop over `x` up to `b`, intrinsic_sao.cc:140-146: `full` is the condition for a full store, `k` the row of the
mask; the second component is false after the `break`. -/
def step16 (full : Int → Prop) [DecidablePred full] (k : Int) (vec : Int → V) (y x : Int) (st : Plane × Bool) : Plane × Bool :=
  if st.2 = false then st
  else if full x then (store st.1 x y (vec x), true)
  else (storeMask st.1 x y (vec x) k, false)

/-- `for (x = a; x < b; x += 16)` with `end_x_16`, intrinsic_sao.cc:90-147. -/
def row16 (vec : Int → V) (a b y : Int) (dst : Plane) : Plane :=
  let e := b - (b - a) % 16
  (loop 0 ((b - a + 15) / 16) (fun i st => step16 (fun x => x ≠ e) (b - e - 1) vec y (a + 16 * i) st) (dst, true)).1

/-- The loops of the vertical and band filters, intrinsic_sao.cc:170, 190-243 and 674, 698-731: `end_x_16` is `w - 15`.  (The band
filter has no `break`; the masked store is in the last round anyway.) -/
def row16w (vec : Int → V) (w y : Int) (dst : Plane) : Plane :=
  (loop 0 ((w + 15) / 16) (fun i st => step16 (fun x => x < w - 15) (w % 16 - 1) vec y (16 * i) st) (dst, true)).1

/-- One round with 32 samples, intrinsic_sao_avx2.cc:124-139. -/
def step32 (b e : Int) (vec : Int → V) (y x : Int) (st : Plane × Bool) : Plane × Bool :=
  if st.2 = false then st
  else if x ≠ e then (store32 st.1 x y (vec x), true)
  else if b - x ≥ 16 then
    let p := store st.1 x y (low128 (vec x))
    (if b - x > 16 then storeMask p (x + 16) y (high128 (vec x)) (b - e - 17) else p, false)
  else (storeMask st.1 x y (low128 (vec x)) (b - e - 1), false)

/-- `for (x = a; x < b; x += 32)`; the vertical and band filters have `a = 0`, `b = i_block_w`.  The band filter tests
`x < end_x_32`, which is the same for `x` from 0 to `end_x_32` in steps of 32. -/
def row32 (vec : Int → V) (a b y : Int) (dst : Plane) : Plane :=
  let e := b - (b - a) % 32
  (loop 0 ((b - a + 31) / 32) (fun i st => step32 b e vec y (a + 32 * i) st) (dst, true)).1

/-! ### Blocks -/

section
variable (row : (Int → V) → Int → Int → Int → Plane → Plane) (vec : V → V → V → V) (src : Plane)

/-- The three loads of a round and the result. -/
def edgeVec (dx dy y x : Int) : V := vec (load src (x - dx) (y - dy)) (load src x y) (load src (x + dx) (y + dy))

/-- `SAO_on_block_eo_0`, intrinsic_sao.cc:64-152, intrinsic_sao_avx2.cc:63-143. -/
def eo0V (av : Avail) (w h : Int) (dst : Plane) : Plane :=
  loop 0 h (fun y dst => row (edgeVec vec src 1 0 y) (sx av) (ex av w) y dst) dst

/-- `SAO_on_block_eo_90`, intrinsic_sao.cc:156-246, intrinsic_sao_avx2.cc:147-228; `row` has the bounds 0 and `w`. -/
def eo90V (av : Avail) (w h : Int) (dst : Plane) : Plane :=
  loop (if av.t then 0 else 1) (if av.d then h else h - 1) (fun y dst => row (edgeVec vec src 0 1 y) 0 w y dst) dst

/-- First row, middle rows, last row with their bounds: `SAO_on_block_eo_135` and `SAO_on_block_eo_45`.  The row pointer is
incremented after the first row and after each middle row, so the last row is row `max 1 (h - 1)`. -/
def eoDiagV (dx dy : Int) (a0 b0 a b an bn h : Int) (dst : Plane) : Plane :=
  let dst := row (edgeVec vec src dx dy 0) a0 b0 0 dst
  let dst := loop 1 (h - 1) (fun y dst => row (edgeVec vec src dx dy y) a b y dst) dst
  row (edgeVec vec src dx dy (max 1 (h - 1))) an bn (max 1 (h - 1)) dst

/-- `SAO_on_block_eo_135`, intrinsic_sao.cc:250-455, intrinsic_sao_avx2.cc:232-417. -/
def eo135V (av : Avail) (w h : Int) (dst : Plane) : Plane :=
  eoDiagV row vec src 1 1 (if av.tl then 0 else 1) (if av.t then (if av.r then w else w - 1) else 1) (sx av) (ex av w)
    (if av.d then (if av.l then 0 else 1) else w - 1) (if av.dr then w else w - 1) h dst

/-- `SAO_on_block_eo_45`, intrinsic_sao.cc:459-662, intrinsic_sao_avx2.cc:421-605. -/
def eo45V (av : Avail) (w h : Int) (dst : Plane) : Plane :=
  eoDiagV row vec src (-1) 1 (if av.t then (if av.l then 0 else 1) else w - 1) (if av.tr then w else w - 1) (sx av) (ex av w)
    (if av.dl then 0 else 1) (if av.d then (if av.r then w else w - 1) else 1) h dst

/-- `SAO_on_block_bo`, intrinsic_sao.cc:666-735, intrinsic_sao_avx2.cc:609-687. -/
def boV (bvec : V → V) (w h : Int) (dst : Plane) : Plane :=
  loop 0 h (fun y dst => row (fun x => bvec (load src x y)) 0 w y dst) dst

end

/-- The SSE4 functions for vertical neighbours and bands use `row16w`. -/
def rowW (vec : Int → V) (_ b y : Int) (dst : Plane) : Plane := row16w vec b y dst

end Davs2.Vc
