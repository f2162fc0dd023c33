import Verif.Model.Vec
import Verif.Model.Deblock
/-
The vector versions of the deblocking filter of one edge, source/common/vec/intrinsic_deblock.cc:43-826, which replace the C versions
on processors with SSE4 (deblock.cc:555-575).  The four functions contain the same computation on eight lines at a time; it is
modelled once, with parameters where they differ: `sub` is `_mm_sub_epi16` (vertical edges) or `_mm_subs_epi16` (horizontal edges).
`T3` (lines 159 and 178, 406 and 420) is computed but never used and left out.
-/
namespace Davs2.Vc
open Davs2.Sa (Plane)
open Davs2.Db (EdgePrm Dir)

/-- The samples at distances 3 to 1 on both sides of an edge, for eight lines. -/
structure Lines where
  l2 : V
  l1 : V
  l0 : V
  r0 : V
  r1 : V
  r2 : V

/-- `_mm_subabs_epu16`, intrinsic_deblock.cc:102. -/
def subabs (a b : V) : V := abs16 (subs16 a b)

def c16 (n : Int) : V := set1_16 n

/-- `FLT_L` and `FLT_R`, lines 111-121, 361-371, 529-539, 735-745. -/
def dbFlat (beta t0 t1 t2 : V) : V :=
  add16 (and (cmpgt16 beta (subabs t2 t0)) (c16 1)) (and (cmpgt16 beta (subabs t1 t0)) (c16 2))

/-- `FS`, lines 104-137, 355-385, 523-555, 728-758; `m` is `M0` before it is combined with the thresholds. -/
def dbStrength (sub : V → V → V) (chroma : Bool) (alpha beta m : V) (s : Lines) : V :=
  let t0 := subabs s.l0 s.r0
  let m0 := and m (and (cmpgt16 t0 (c16 1)) (cmpgt16 alpha t0))
  let fltL := dbFlat beta s.l0 s.l1 s.l2
  let fltR := dbFlat beta s.r0 s.r1 s.r2
  let flt := add16 fltL fltR
  let m1 := and (cmpeq16 s.r0 s.r1) (cmpeq16 s.l0 s.l1)
  let fs56 := if chroma then blendv (sub flt (c16 4)) (sub flt (c16 3)) m1 else blendv (sub flt (c16 3)) (sub flt (c16 2)) m1
  let fs4 := if chroma then blendv (c16 0) (c16 1) (cmpeq16 fltL (c16 2)) else blendv (c16 1) (c16 2) (cmpeq16 fltL (c16 2))
  let fs3 := blendv (c16 0) (c16 1) (cmpgt16 beta (subabs s.l1 s.r1))
  let fs := blendv (c16 0) fs56 (cmpgt16 flt (c16 4))
  let fs := blendv fs fs4 (cmpeq16 flt (c16 4))
  let fs := if chroma then fs else blendv fs fs3 (cmpeq16 flt (c16 3))
  and fs m0

/-- Strengths 1 and 2, lines 147-174, 394-415, 564-590, 767-784: the sample at distance 1 of the side `a`; `t2` is `L0 + R0 + 2`. -/
def dbWeak1 (a0 t2 : V) : V := srli16 (add16 (slli16 a0 1) t2) 2
def dbWeak2 (a0 a1 b0 t2 : V) : V :=
  srli16 (add16 (add16 (slli16 a0 3) (add16 (add16 (slli16 a1 1) (add16 a1 b0)) (slli16 t2 1))) (c16 4)) 4
/-- Strength 3, lines 176-206, 418-443, 592-621, 787-810. -/
def dbWeak3 (a0 a1 a2 b1 t2 : V) : V :=
  srli16 (add16 (slli16 a0 1) (add16 (add16 (slli16 a1 2) (add16 a2 b1)) (slli16 (slli16 t2 1) 1))) 4
def dbSecond3 (a0 a1 a2 b0 : V) : V :=
  srli16 (add16 (add16 (add16 (add16 (add16 a2 b0) (slli16 a2 1)) (slli16 a1 3)) (slli16 a0 2)) (c16 8)) 4
/-- Strength 4, lines 208-250, 623-664. -/
def dbStrong0 (a0 a2 b0 b2 : V) : V :=
  srli16 (add16 (add16 (add16 (slli16 (add16 (add16 a0 a2) b0) 3) (c16 16)) (add16 a0 a2)) (add16 (slli16 b2 1) (slli16 b2 2))) 5
def dbStrong1 (a0 a2 b0 : V) : V :=
  srli16 (add16 (add16 (slli16 (add16 a2 b0) 1) (sub16 (slli16 a0 3) a0)) (add16 (slli16 a2 2) (add16 b0 (c16 8)))) 4
def dbStrong2 (a0 a2 b0 : V) : V :=
  srli16 (add16 (add16 (slli16 a2 1) a2) (add16 (add16 (slli16 a0 2) b0) (c16 4))) 3

/-- `_mm_testz_si128(FS, _mm_set1_epi16(-1))`: all bits are 0. -/
def testz (v : V) : Bool := (List.range 16).all fun j => v j == 0

/-- The samples after filtering with the strengths `fs`. -/
def dbFilter (chroma : Bool) (fs : V) (s : Lines) : Lines :=
  let t2 := add16 (add16 s.l0 s.r0) (c16 2)
  let eq := fun n => cmpeq16 fs (c16 n)
  let l0 := blendv (blendv (blendv s.l0 (dbWeak1 s.l0 t2) (eq 1)) (dbWeak2 s.l0 s.l1 s.r0 t2) (eq 2)) (dbWeak3 s.l0 s.l1 s.l2 s.r1 t2) (eq 3)
  let r0 := blendv (blendv (blendv s.r0 (dbWeak1 s.r0 t2) (eq 1)) (dbWeak2 s.r0 s.r1 s.l0 t2) (eq 2)) (dbWeak3 s.r0 s.r1 s.r2 s.l1 t2) (eq 3)
  let l1 := blendv s.l1 (dbSecond3 s.l0 s.l1 s.l2 s.r0) (eq 3)
  let r1 := blendv s.r1 (dbSecond3 s.r0 s.r1 s.r2 s.l0) (eq 3)
  if chroma = false ∧ testz (eq 4) = false then
    { l0 := blendv l0 (dbStrong0 s.l0 s.l2 s.r0 s.r2) (eq 4)
      r0 := blendv r0 (dbStrong0 s.r0 s.r2 s.l0 s.l2) (eq 4)
      l1 := blendv l1 (dbStrong1 s.l0 s.l2 s.r0) (eq 4)
      r1 := blendv r1 (dbStrong1 s.r0 s.r2 s.l0) (eq 4)
      l2 := blendv s.l2 (dbStrong2 s.l0 s.l2 s.r0) (eq 4)
      r2 := blendv s.r2 (dbStrong2 s.r0 s.r2 s.l0) (eq 4) }
  else { s with l0 := l0, r0 := r0, l1 := l1, r1 := r1 }

def dbLines (sub : V → V → V) (chroma : Bool) (alpha beta m : V) (s : Lines) : Lines :=
  dbFilter chroma (dbStrength sub chroma alpha beta m s) s

/-- `flt_flag[k] ? -1 : 0`. -/
def flagInt (b : Bool) : Int := if b then -1 else 0

/-- `M0`, lines 108 and 526; 358 and 732. -/
def maskLuma (p : EdgePrm) : V := set32 (flagInt p.flag1) (flagInt p.flag1) (flagInt p.flag0) (flagInt p.flag0)
def maskChroma (p : EdgePrm) : V := set32 (flagInt p.flag1) (flagInt p.flag0) (flagInt p.flag1) (flagInt p.flag0)

/-- Eight rows of eight bytes become eight columns of eight words, lines 68-100 and 316-351. -/
def transposeIn (t : Nat → V) : V × V × V × V × V × V × V × V :=
  let p0 := unpacklo8 (t 0) (t 1)
  let p1 := unpacklo8 (t 2) (t 3)
  let p2 := unpacklo8 (t 4) (t 5)
  let p3 := unpacklo8 (t 6) (t 7)
  let p4 := unpacklo16 p0 p1
  let p5 := unpacklo16 p2 p3
  let p6 := unpackhi16 p0 p1
  let p7 := unpackhi16 p2 p3
  let t0 := unpacklo32 p4 p5
  let t1 := unpackhi32 p4 p5
  let t2 := unpacklo32 p6 p7
  let t3 := unpackhi32 p6 p7
  (unpacklo8 t0 (c16 0), unpackhi8 t0 (c16 0), unpacklo8 t1 (c16 0), unpackhi8 t1 (c16 0),
   unpacklo8 t2 (c16 0), unpackhi8 t2 (c16 0), unpacklo8 t3 (c16 0), unpackhi8 t3 (c16 0))

/-- The way back, lines 252-270 and 445-463: row `2 k` is the lower half of register `k`, row `2 k + 1` the upper half. -/
def transposeOut (l3 l2 l1 l0 r0 r1 r2 r3 : V) : Nat → V :=
  let t0 := packus16 l3 r0
  let t1 := packus16 l2 r1
  let t2 := packus16 l1 r2
  let t3 := packus16 l0 r3
  let p4 := unpacklo8 t0 t1
  let p5 := unpacklo8 t2 t3
  let p6 := unpackhi8 t0 t1
  let p7 := unpackhi8 t2 t3
  let v0 := unpacklo16 p4 p5
  let v1 := unpacklo16 p6 p7
  let v2 := unpackhi16 p4 p5
  let v3 := unpackhi16 p6 p7
  let q := fun (k : Nat) => if k = 0 then unpacklo32 v0 v1 else if k = 1 then unpackhi32 v0 v1 else if k = 2 then unpacklo32 v2 v3 else unpackhi32 v2 v3
  fun i => if i % 2 = 0 then q (i / 2) else srliB (q (i / 2)) 8

/-- `deblock_edge_ver_sse128`, lines 43-289. -/
def edgeVer (p : EdgePrm) (x y : Int) (m : Plane) : Plane :=
  let (l3, l2, l1, l0, r0, r1, r2, r3) := transposeIn fun i => loadl m (x - 4) (y + i)
  let s := dbLines sub16 false (set1_16 (p.alpha % 256)) (set1_16 (p.beta % 256)) (maskLuma p) ⟨l2, l1, l0, r0, r1, r2⟩
  let out := transposeOut l3 s.l2 s.l1 s.l0 s.r0 s.r1 s.r2 r3
  (List.range 8).foldl (fun m (i : Nat) => storel m (x - 4) (y + i) (out i)) m

/-- `deblock_edge_ver_c_sse128`, lines 291-478: both chroma planes. -/
def edgeVerC (p : EdgePrm) (x y : Int) (uv : Plane × Plane) : Plane × Plane :=
  let (l3, l2, l1, l0, r0, r1, r2, r3) := transposeIn fun i =>
    if i < 4 then loadl uv.1 (x - 4) (y + i) else loadl uv.2 (x - 4) (y + (i - 4))
  let s := dbLines sub16 true (set1_16 (p.alpha % 256)) (set1_16 (p.beta % 256)) (maskChroma p) ⟨l2, l1, l0, r0, r1, r2⟩
  let out := transposeOut l3 s.l2 s.l1 s.l0 s.r0 s.r1 s.r2 r3
  ((List.range 4).foldl (fun m (i : Nat) => storel m (x - 4) (y + i) (out i)) uv.1,
   (List.range 4).foldl (fun m (i : Nat) => storel m (x - 4) (y + i) (out (4 + i))) uv.2)

/-- `_mm_unpacklo_epi8(_mm_loadl_epi64(…), c_0)`, lines 507-519. -/
def loadRow (m : Plane) (x y : Int) : V := unpacklo8 (loadl m x y) (c16 0)

/-- The strengths of `deblock_edge_hor_sse128`, whose thresholds are cast to `short`, lines 497-498. -/
def horFs (p : EdgePrm) (s : Lines) : V := dbStrength subs16 false (set1_16 p.alpha) (set1_16 p.beta) (maskLuma p) s

/-- `deblock_edge_hor_sse128`, lines 480-684; the samples at distance 3 are stored only if some line has strength 4. -/
def edgeHor (p : EdgePrm) (x y : Int) (m : Plane) : Plane :=
  let s : Lines := ⟨loadRow m x (y - 3), loadRow m x (y - 2), loadRow m x (y - 1), loadRow m x y, loadRow m x (y + 1), loadRow m x (y + 2)⟩
  let o := dbFilter false (horFs p s) s
  let put := fun (m : Plane) (y : Int) (v : V) => storel m x y (packus16 v (c16 0))
  let m := put (put (put (put m (y - 1) o.l0) y o.r0) (y - 2) o.l1) (y + 1) o.r1
  if testz (cmpeq16 (horFs p s) (c16 4)) = false then put (put m (y - 3) o.l2) (y + 2) o.r2 else m

/-- `deblock_edge_hor_c_sse128`, lines 686-826. -/
def edgeHorC (p : EdgePrm) (x y : Int) (uv : Plane × Plane) : Plane × Plane :=
  let ld := fun y => unpacklo8 (load4x2 uv.1 uv.2 x y) (c16 0)
  let s : Lines := ⟨ld (y - 3), ld (y - 2), ld (y - 1), ld y, ld (y + 1), ld (y + 2)⟩
  let o := dbLines subs16 true (set1_16 (p.alpha % 256)) (set1_16 (p.beta % 256)) (maskChroma p) s
  let put := fun (k : Nat) (m : Plane) => store4 (store4 (store4 (store4 m x (y - 1) (packus16 o.l0 (c16 0)) k)
    x y (packus16 o.r0 (c16 0)) k) x (y - 2) (packus16 o.l1 (c16 0)) k) x (y + 1) (packus16 o.r1 (c16 0)) k
  (put 0 uv.1, put 1 uv.2)

/-- Luma part of `lf_scu_deblock`, deblock.cc:431-456, with the functions set in `davs2_deblock_init`, deblock.cc:556-571. -/
def scuLumaV (prm : Dir → Nat → Nat → Option EdgePrm) (e : Dir × Nat × Nat) (m : Plane) : Plane :=
  match prm e.1 e.2.1 e.2.2 with
  | none => m
  | some p => match e.1 with
    | .ver => edgeVer p (8 * e.2.1) (8 * e.2.2) m
    | .hor => edgeHor p (8 * e.2.1) (8 * e.2.2) m

/-- Chroma part, deblock.cc:459-487, with the vector versions: both planes at once. -/
def scuChromaV (prm : Dir → Nat → Nat → Option EdgePrm) (e : Dir × Nat × Nat) (uv : Plane × Plane) : Plane × Plane :=
  if (e.2.2 % 2 = 0 ∧ e.1 = .hor) ∨ (e.2.1 % 2 = 0 ∧ e.1 = .ver) then
    match prm e.1 e.2.1 e.2.2 with
    | none => uv
    | some p => match e.1 with
      | .ver => edgeVerC p (4 * e.2.1) (4 * e.2.2) uv
      | .hor => edgeHorC p (4 * e.2.1) (4 * e.2.2) uv
  else uv

/-- Deblocking of the two chroma planes of a picture, in the order of `Db.picDeblock`. -/
def deblockPair (step : Dir × Nat × Nat → Plane × Plane → Plane × Plane) (w h n : Nat) (uv : Plane × Plane) : Plane × Plane :=
  (Db.picDeblock w h n).foldl (fun uv e => step e uv) uv

end Davs2.Vc
