import Verif.Model.VecInter
import Verif.Model.Intra
/-
Vector versions of the intra prediction without direction (8-bit samples): border, DC, plane and bilinear.
source/common/vec/intrinsic_intra-filledge.cc, intrinsic_intra-pred.cc:179-540 (SSE4) and intrinsic_intra-pred_avx2.cc:136-520
(AVX2); selection in source/common/intra.cc:2640-2712.

Sample `(0, 0)` of the destination is the one the pointer `dst` has at entry, and the border is indexed from the corner, as in `Ip`.  Loads
may read beyond the samples used; that they stay within memory, and the alignment some stores ask for, are not stated here.
-/
namespace Davs2.Vc
open Davs2.Sa (Plane)
open Davs2.Ip (Border Source Avail put log2size planeMult planeShift biCorner)

/-! ### Further instructions -/

/-- `_mm_loadu_si128` (and `_mm256_loadu_si256`) of samples of a border, and stores of the first `n` bytes of a register to it. -/
def ldB (s : Int → Int) (a : Int) : V := ofB fun j => s (a + j)
def stB (ep : Border) (a : Int) (n : Nat) (v : V) : Border := put ep a n fun i => u8 v (i - a).toNat

/-- `_mm_set_epi16 (7, …, 0)`, `_mm256_set_epi16 (15, …, 0)`, `_mm_set_epi32 (3, 2, 1, 0)`, `_mm256_set_epi32 (7, …, 0)`. -/
def iota16 : V := ofW fun i => i
def iota32 : V := ofD fun i => i

def mullo32 (a b : V) : V := ofD fun i => d32 a i * d32 b i
def slli32 (a : V) (n : Nat) : V := ofD fun i => d32 a i * 2 ^ n
/-- `_mm_cvtepi16_epi32`, `_mm256_cvtepi16_epi32`. -/
def cvt16_32 (a : V) : V := ofD fun i => w16 a i
def satu16 (x : Int) : Int := max 0 (min 65535 x)
/-- `_mm_packus_epi32`, `_mm256_packus_epi32` (each half for itself). -/
def packus32y (a b : V) : V := ofW fun i =>
  if i % 8 < 4 then satu16 (d32 a (4 * (i / 8) + i % 8)) else satu16 (d32 b (4 * (i / 8) + (i % 8 - 4)))
/-- `_mm256_permute2x128_si256 (a, b, 0x20)` and `(a, b, 0x31)`. -/
def perm2x128_20 (a b : V) : V := fun j => if j < 16 then a j else b (j - 16)
def perm2x128_31 (a b : V) : V := fun j => if j < 16 then a (16 + j) else b j
/-- `_mm_loadl_epi64` of a register's memory: the upper half is 0. -/
def low64 (a : V) : V := fun j => if j < 8 then a j else 0

/-- An array `itr_t a[MAX_CU_SIZE + 32]` of 16-bit words; loads of a register from it and stores of the first `n` words of a register. -/
abbrev Words := Nat → Int
def loadA (t : Words) (x : Nat) : V := ofW fun i => t (x + i)
def storeA (t : Words) (x : Nat) (v : V) (n : Nat) : Words := fun i => if x ≤ i ∧ i < x + n then w16 v (i - x) else t i

/-! ### The border, intrinsic_intra-filledge.cc -/

/-- Copying `n` samples, e.g. intrinsic_intra-filledge.cc:75-85: memcpy for 4, the lower half of a register for 8, whole registers
otherwise. -/
def copyV (n : Nat) (f : Int → Int) (a : Int) (ep : Border) : Border :=
  if n = 4 then put ep a n f
  else if n = 8 then stB ep a 8 (ldB f a)
  else times (fun k ep => stB ep (a + 16 * k) 16 (ldB f (a + 16 * k))) ((n + 15) / 16) ep

/-- Repeating a sample `n` times, e.g. intrinsic_intra-filledge.cc:102-112. -/
def repeatV (n : Nat) (v : Int) (a : Int) (ep : Border) : Border :=
  if n = 4 then put ep a n fun _ => v
  else if n = 8 then stB ep a 8 (set1_8 v)
  else times (fun k ep => stB ep (a + 16 * k) 16 (set1_8 v)) ((n + 15) / 16) ep

/-- The default value, e.g. intrinsic_intra-filledge.cc:55-63; memset covers one sample more than there is. -/
def defaultV (g : Int) (w h : Nat) (ep : Border) : Border :=
  let k := (h + w) * 2 + 1
  let j := k / 16 * 16
  let ep := times (fun i ep => stB ep (-(h * 2) + 16 * i) 16 (set1_8 g)) (j / 16) ep
  let ep := put ep (-(h * 2) + j) (k - j + 1) fun _ => g
  put ep (2 * w) 1 fun _ => g

/-- Top, top-right and padding, e.g. intrinsic_intra-filledge.cc:70-118. -/
def topV (top : Int → Int) (av : Avail) (w h : Nat) (ep : Border) : Border :=
  let ep := if av.top then copyV w top 1 ep else ep
  let ep := if av.topRight then copyV w top (w + 1) ep else repeatV w (ep w) (w + 1) ep
  let padR : Int := (h * 11 / 4 : Nat) - (w : Int) + 4
  if 0 < padR then put ep (2 * w + 1) padR.toNat (fun _ => ep (2 * w)) else ep

/-- `n` samples of the left column from distance `o` on: memcpy from the saved column (`_0`, `_y`: intrinsic_intra-filledge.cc:123, 128) or a loop
down the picture (`_x`, `_xy`: 240-243, 249-253). -/
def columnV (onLeft : Bool) (src : Source) (o n : Nat) (ep : Border) : Border :=
  if onLeft then put ep (-(o + n : Nat)) n src.lcu
  else times (fun y ep => put ep (-o - 1 - y) 1 fun _ => src.pic 0 (1 + o + y)) n ep

/-- Left, left-down and padding, e.g. intrinsic_intra-filledge.cc:120-149. -/
def leftV (onLeft : Bool) (src : Source) (av : Avail) (w h : Nat) (ep : Border) : Border :=
  let ep := if av.left then columnV onLeft src 0 h ep else ep
  let ep := if av.leftDown then columnV onLeft src h h ep else repeatV h (ep (-h)) (-(h * 2)) ep
  let padL : Int := (w * 11 / 4 : Nat) - (h : Int) + 4
  if 0 < padL then put ep (-2 * h - padL) padL.toNat (fun _ => ep (-2 * h)) else ep

/-- fill_edge_samples_0_sse128 / _x / _y / _xy, intrinsic_intra-filledge.cc:46-524; the parameters are those of `Ip.fillEdge`.  The corner is
set last. -/
def fillV (onLeft onTop : Bool) (src : Source) (av : Avail) (g : Int) (w h : Nat) (ep : Border) : Border :=
  let top (i : Int) := if onTop then src.lcu i else src.pic i 0
  let ep := leftV onLeft src av w h (topV top av w h (defaultV g w h ep))
  if av.topLeft then put ep 0 1 fun _ => if onTop || onLeft then src.lcu 0 else src.pic 0 0
  else if av.top then put ep 0 1 fun _ => top 1
  else if av.left then put ep 0 1 fun _ => if onLeft then src.lcu (-1) else src.pic 0 1
  else ep

/-! ### DC -/

/-- The sum of `n` samples from `a` on, intrinsic_intra-pred.cc:193-217 and 219-243. -/
def sum4 (v : V) : Int := u16 v 0 + u16 v 1 + u16 v 2 + u16 v 3
def sumStep (s : Border) (a : Int) (k : Nat) (p : V) : V :=
  add16 p (add16 (unpacklo8 (ldB s (a + 16 * k)) zero) (unpackhi8 (ldB s (a + 16 * k)) zero))
def sumV (s : Border) (a : Int) (n : Nat) : Int :=
  if n = 4 then s a + s (a + 1) + s (a + 2) + s (a + 3)
  else if n = 8 then
    let p := unpacklo8 (ldB s a) zero
    sum4 (add16 p (srliB p 8))
  else
    let p := times (sumStep s a) ((n - 8 + 15) / 16) zero
    sum4 (add16 p (srliB p 8))

/-- The value, intrinsic_intra-pred.cc:245-254; `davs2_log2u` counts trailing zeros, which for the sizes there are is `log2size`. -/
def dcValueS (top left : Bool) (s : Border) (w h : Nat) : Int :=
  if left && top then (sumV s 1 w + sumV s (-h) h + ((w + h) / 2 : Nat)) * (512 / (w + h) : Nat) / 2 ^ 9
  else if left then (sumV s (-h) h + (h / 2 : Nat)) / 2 ^ log2size h
  else if top then (sumV s 1 w + (w / 2 : Nat)) / 2 ^ log2size w
  else 128

/-- intra_pred_dc_sse128, intrinsic_intra-pred.cc:179-269. -/
def dcS (top left : Bool) (s : Border) (w h : Nat) (d : Plane) : Plane :=
  let v := set1_8 (dcValueS top left s w h)
  times (fun y d =>
    if w = 8 then storel d 0 y v
    else if w = 4 then store4 d 0 y v 0
    else times (fun k d => store d (16 * k : Nat) y v) ((w - 8 + 15) / 16) d) h d

/-- The value, intrinsic_intra-pred_avx2.cc:143-178. -/
def dcValueA (top left : Bool) (s : Border) (w h : Nat) : Int :=
  if left then
    if top then (Ip.sum (fun y => s (-1 - y)) h + Ip.sum (fun x => s (1 + x)) w + ((w + h) / 2 : Nat)) * (512 / (w + h) : Nat) / 512
    else (Ip.sum (fun y => s (-1 - y)) h + (h / 2 : Nat)) / h
  else if top then (Ip.sum (fun x => s (1 + x)) w + (w / 2 : Nat)) / w else 128

/-- intra_pred_dc_avx, intrinsic_intra-pred_avx2.cc:136-219. -/
def dcA (top left : Bool) (s : Border) (w h : Nat) (d : Plane) : Plane :=
  if w ≤ 8 ∧ h ≤ 8 then dcS top left s w h d
  else
    let v := set1_8 (dcValueA top left s w h)
    times (fun y d =>
      if 32 ≤ w then
        let d := store32 d 0 y v
        if 32 < w then store32 d 32 y v else d
      else if w % 16 ≠ 0 then
        storeMask (times (fun k d => store d (16 * k : Nat) y v) (w / 16) d) (16 * (w / 16) : Nat) y v (w % 16 - 1 : Nat)
      else store d 0 y v) h d

/-! ### Plane -/

/-- `iB` and `iC`, intrinsic_intra-pred.cc:291-305 and intrinsic_intra-pred_avx2.cc:240-254: `p` is `rpSrc`, `e` the direction. -/
def slopeV (s : Border) (p e : Int) (n : Nat) : Int :=
  (Ip.sum (fun i => ((i : Int) + 1) * (s (p + e * (i + 1)) - s (p - e * (i + 1)))) (n / 2) * 32 * planeMult (log2size n - 2)
    + 2 ^ (planeShift (log2size n - 2) - 1)) / 2 ^ planeShift (log2size n - 2)

/-- What both versions begin with: `T_Start`, `TB` (times the number of lanes `L`) and `TC`, intrinsic_intra-pred.cc:303-318,
intrinsic_intra-pred_avx2.cc:252-269. -/
structure PlaneRegs where
  start : V
  tb : V
  tc : V
def planeRegs (L : Nat) (s : Border) (w h : Nat) : PlaneRegs :=
  let b := slopeV s (w / 2 : Nat) 1 w
  let c := slopeV s (-(h / 2 : Nat)) (-1) h
  let t := (s (-1 - (h - 1 : Nat)) + s (1 + w - 1)) * 16 - ((h / 2 : Nat) - 1) * c - ((w / 2 : Nat) - 1) * b + 16
  ⟨add16 (mullo16 (set1_16 b) iota16) (set1_16 t), mullo16 (set1_16 b) (set1_16 L), set1_16 c⟩

/-- Rows of blocks of at most `L` columns: `out` packs and stores, e.g. intrinsic_intra-pred.cc:320-337. -/
def planeNarrow (r : PlaneRegs) (out : V → Plane → Nat → Plane) (h : Nat) (d : Plane) : Plane :=
  (times (fun y (p : V × Plane) => (add16 p.1 r.tc, out (srai16 p.1 5) p.2 y)) h (r.start, d)).2

/-- Rows of wider blocks, two registers at a time, intrinsic_intra-pred.cc:338-351, intrinsic_intra-pred_avx2.cc:300-315. -/
def planeWide (L : Nat) (r : PlaneRegs) (out : V → V → Plane → Nat → Nat → Plane) (w h : Nat) (d : Plane) : Plane :=
  (times (fun y (p : V × Plane) => (add16 p.1 r.tc,
    (times (fun k (q : V × Plane) =>
      let t := add16 q.1 r.tb
      (add16 t r.tb, out (srai16 q.1 5) (srai16 t 5) q.2 k y)) ((w + 2 * L - 1) / (2 * L)) (p.1, p.2)).2)) h (r.start, d)).2

/-- intra_pred_plane_sse128, intrinsic_intra-pred.cc:272-352. -/
def planeS (s : Border) (w h : Nat) (d : Plane) : Plane :=
  let r := planeRegs 8 s w h
  if w = 4 then planeNarrow r (fun v d y => store4 d 0 y (packus16 v v) 0) h d
  else if w = 8 then planeNarrow r (fun v d y => storel d 0 y (packus16 v v)) h d
  else planeWide 8 r (fun v v1 d k y => store d (16 * k : Nat) y (packus16 v v1)) w h d

/-- intra_pred_plane_avx, intrinsic_intra-pred_avx2.cc:221-317.  The masks are rows 3, 7 and 15 of `intrinsic_mask_256_8bit`
(intrinsic.cc:65-136), whose first 4, 8 and 16 bytes are −1. -/
def planeA (s : Border) (w h : Nat) (d : Plane) : Plane :=
  let r := planeRegs 16 s w h
  if w = 4 then planeNarrow r (fun v d y => maskstore d 0 y (packus16y v v) 1) h d
  else if w = 8 then planeNarrow r (fun v d y => maskstore d 0 y (packus16y v v) 2) h d
  else if w = 16 then planeNarrow r (fun v d y => maskstore d 0 y (permute4x64 8 (packus16y v v)) 4) h d
  else planeWide 16 r (fun v v1 d k y => store32 d (32 * k : Nat) y (permute4x64 0xd8 (packus16y v v1))) w h d

/-! ### Bilinear -/

/-- The arrays, intrinsic_intra-pred.cc:372-376. -/
structure BiArr where
  pTop : Words
  pT : Words
  pLeft : Words
  pL : Words
  wy : Words

/-- The row above as words, intrinsic_intra-pred.cc:380-387 and intrinsic_intra-pred_avx2.cc:344-351. -/
def biRowS (s : Border) (w : Nat) (t : Words) : Words :=
  times (fun k t =>
    let T := ldB s (1 + (16 * k : Nat))
    storeA (storeA t (16 * k) (unpacklo8 T zero) 8) (16 * k + 8) (unpackhi8 T zero) 8) ((w + 15) / 16) t
def biRowA (s : Border) (w : Nat) (t : Words) : Words :=
  times (fun k t =>
    let T := ldB s (1 + (32 * k : Nat))
    let T1 := unpacklo8y T zero
    let T2 := unpackhi8y T zero
    storeA (storeA t (32 * k) (perm2x128_20 T1 T2) 16) (32 * k + 16) (perm2x128_31 T1 T2) 16) ((w + 31) / 32) t

/-- The left column, intrinsic_intra-pred.cc:388-390. -/
def biColumn (s : Border) (h : Nat) (t : Words) : Words :=
  times (fun y t i => if i = y then wrap16 (s (-1 - y)) else t i) h t

/-- The differences to `v` and the shift by `sh`, in place, intrinsic_intra-pred.cc:403-419; `L` words at a time. -/
def biDiff (L : Nat) (v : Int) (sh n : Nat) (p : Words × Words) : Words × Words :=
  times (fun k (p : Words × Words) =>
    let T1 := loadA p.1 (L * k)
    (storeA p.1 (L * k) (slli16 T1 sh) L, storeA p.2 (L * k) (sub16 (set1_16 v) T1) L)) ((n + L - 1) / L) p

/-- The multiples of `wt`, intrinsic_intra-pred.cc:421-428. -/
def biMult (L : Nat) (wt : Int) (h : Nat) (t : Words) : Words :=
  (times (fun k (p : V × Words) => (add16 p.1 (set1_16 (L * wt)), storeA p.2 (L * k) p.1 L)) ((h + L - 1) / L)
    (mullo16 (set1_16 wt) iota16, t)).2

/-- Everything before the rows, intrinsic_intra-pred.cc:379-428, intrinsic_intra-pred_avx2.cc:342-411. -/
def biPrep (L : Nat) (row : Words → Words) (s : Border) (w h : Nat) (j : BiArr) : BiArr :=
  let pTop := row j.pTop
  let pLeft := biColumn s h j.pLeft
  let a := pTop (w - 1)
  let b := pLeft (h - 1)
  let wt := biCorner a b w h * 2 - a - b
  let t := biDiff L b (log2size h) w (pTop, j.pT)
  let l := biDiff L a (log2size w) h (pLeft, j.pL)
  ⟨t.1, t.2, l.1, l.2, biMult L wt h j.wy⟩

/-- `add` and `val` of a row, e.g. intrinsic_intra-pred.cc:437-441. -/
def biAdd (r : BiArr) (h y : Nat) : Int := r.pL y * 2 ^ log2size h + r.wy y
def biVal (r : BiArr) (w h y : Nat) : Int := r.pLeft y * 2 ^ log2size h + 2 ^ (log2size w + log2size h) + r.pL y * 2 ^ log2size h
def biStart (r : BiArr) (w h y : Nat) : V := add32 (mullo32 iota32 (set1_32 (biAdd r h y))) (set1_32 (biVal r w h y))
/-- Shift, sum and shift back, e.g. intrinsic_intra-pred.cc:446-450. -/
def biSample (w h : Nat) (t add : V) : V := srai32 (add32 (slli32 t (log2size w)) add) (log2size w + log2size h + 1)

/-- Rows of blocks of 4 columns, and of 8 with AVX2: `out` packs and stores, intrinsic_intra-pred.cc:433-459,
intrinsic_intra-pred_avx2.cc:416-469. -/
def biNarrow (r : BiArr) (cvt : V → V) (pTT : V) (out : V → Plane → Nat → Plane) (w h : Nat) (t0 : V) (d : Plane) : Plane :=
  (times (fun y (p : V × Plane) =>
    let t := add16 p.1 pTT
    (t, out (biSample w h (cvt16_32 (cvt t)) (biStart r w h y)) p.2 y)) h (t0, d)).2

/-- Rows of blocks of 8 columns with SSE4, intrinsic_intra-pred.cc:460-496. -/
def bi8S (r : BiArr) (w h : Nat) (d : Plane) : Plane :=
  (times (fun y (p : V × Plane) =>
    let t3 := mullo32 (set1_32 4) (set1_32 (biAdd r h y))
    let t := add16 p.1 (loadA r.pT 0)
    let t1 := biSample w h (cvt16_32 t) (biStart r w h y)
    let t2 := biSample w h (cvt16_32 (srliB t 8)) (add32 (biStart r w h y) t3)
    let v := packus32y t1 t2
    (t, storel p.2 0 y (packus16 v v))) h (loadA r.pTop 0, d)).2

/-- Rows of wider blocks, two registers of `L` double words at a time, intrinsic_intra-pred.cc:510-545, intrinsic_intra-pred_avx2.cc:487-518.
`tt` is the array `TT` at the beginning and `ptt` the array `PTT`. -/
def biWide (L : Nat) (r : BiArr) (tt ptt : Nat → V) (out : V → V → Plane → Nat → Nat → Plane) (w h : Nat) (d : Plane) : Plane :=
  (times (fun y (p : (Nat → V) × Plane) =>
    let t3 := mullo32 (set1_32 L) (set1_32 (biAdd r h y))
    let q := times (fun k (q : (Nat → V) × V × Plane) =>
      let u0 := add32 (q.1 (2 * k)) (ptt (2 * k))
      let u1 := add32 (q.1 (2 * k + 1)) (ptt (2 * k + 1))
      let add1 := add32 q.2.1 t3
      (fun i => if i = 2 * k then u0 else if i = 2 * k + 1 then u1 else q.1 i, add32 add1 t3,
        out (biSample w h u0 q.2.1) (biSample w h u1 add1) q.2.2 k y)) ((w + 2 * L - 1) / (2 * L)) (p.1, biStart r w h y, p.2)
    (q.1, q.2.2)) h (tt, d)).2

/-- The arrays `TT` and `PTT`, intrinsic_intra-pred.cc:498-509, intrinsic_intra-pred_avx2.cc:475-486; entry `i` is given by its index, the
entries the code leaves unset are not used. -/
def ttS (r : BiArr) (i : Nat) : V :=
  if i % 2 = 0 then unpacklo16 (loadA r.pTop (8 * (i / 2))) zero else unpackhi16 (loadA r.pTop (8 * (i / 2))) zero
def pttS (r : BiArr) (i : Nat) : V :=
  if i % 2 = 0 then cvt16_32 (loadA r.pT (8 * (i / 2))) else cvt16_32 (srliB (loadA r.pT (8 * (i / 2))) 8)
def ttA (r : BiArr) (i : Nat) : V :=
  let m := loadA r.pTop (16 * (i / 2))
  if i % 2 = 0 then perm2x128_20 (unpacklo16y m zero) (unpackhi16y m zero) else perm2x128_31 (unpacklo16y m zero) (unpackhi16y m zero)
def pttA (r : BiArr) (i : Nat) : V :=
  if i % 2 = 0 then cvt16_32 (low128 (loadA r.pT (16 * (i / 2)))) else cvt16_32 (high128 (loadA r.pT (16 * (i / 2))))

/-- intra_pred_bilinear_sse128, intrinsic_intra-pred.cc:356-540; `j` is what the arrays hold at the beginning. -/
def bilinearS (j : BiArr) (s : Border) (w h : Nat) (d : Plane) : Plane :=
  let r := biPrep 8 (biRowS s w) s w h j
  if w = 4 then
    biNarrow r id (low64 (loadA r.pT 0)) (fun v d y => store4 d 0 y (packus16 (packus32y v v) (packus32y v v)) 0) w h (low64 (loadA r.pTop 0)) d
  else if w = 8 then bi8S r w h d
  else biWide 4 r (ttS r) (pttS r)
    (fun v v1 d k y => storel d (8 * k : Nat) y (packus16 (packus32y v v1) (packus32y v v1))) w h d

/-- intra_pred_bilinear_avx, intrinsic_intra-pred_avx2.cc:319-520. -/
def bilinearA (j : BiArr) (s : Border) (w h : Nat) (d : Plane) : Plane :=
  let r := biPrep 16 (biRowA s w) s w h j
  if w = 4 then
    biNarrow r low128 (loadA r.pT 0) (fun v d y => maskstore d 0 y (packus16y (packus32y v v) (packus32y v v)) 1) w h (loadA r.pTop 0) d
  else if w = 8 then
    biNarrow r low128 (loadA r.pT 0) (fun v d y =>
      let v := permute4x64 8 (packus32y v v)
      maskstore d 0 y (packus16y v v) 2) w h (loadA r.pTop 0) d
  else biWide 8 r (ttA r) (pttA r)
    (fun v v1 d k y => maskstore d (16 * k : Nat) y
      (permutevar8x32 (packus16y (packus32y v v1) (packus32y v v1)) [0, 4, 1, 5, 0, 1, 2, 3]) 4) w h d

/-! ### The tables -/

/-- Modes 0, 1 and 2 of the table of predictors with SSE4, intra.cc:2637-2639, and with AVX2, intra.cc:2680-2685; DC gets the availability of
the top and left neighbours (intra.h:47-51). -/
def sseFlat (j : BiArr) (top left : Bool) (s : Border) (mode w h : Nat) (d : Plane) : Plane :=
  if mode = 0 then dcS top left s w h d else if mode = 1 then planeS s w h d else bilinearS j s w h d
def avxFlat (j : BiArr) (top left : Bool) (s : Border) (mode w h : Nat) (d : Plane) : Plane :=
  if mode = 0 then dcA top left s w h d else if mode = 1 then planeA s w h d else bilinearA j s w h d

end Davs2.Vc
