import Verif.Model.Mc
import Verif.Model.Transform
import Verif.Model.Recon
import Verif.Model.IntraPicture
/-
Reconstruction of an inter coding unit: `davs2_get_inter_pred` and `cu_recon`, source/common/cu.cc:944-1177, `davs2_get_recons`,
source/common/transform.cc:886-928.

Planes are indexed by column and row of the picture as in Model/IntraPicture: positions relative to the coding tree (`ctu_x`, `p_fdec`) are
replaced by positions in the picture, the origin of a coding tree being even.  `none` is a memory fault.  Waiting for other threads
(`decoder_wait_row`) is the subject of C24 and C52.
-/
namespace Davs2.Ir

abbrev Mv := Int × Int

/-- A reference picture (`davs2_frame_t`): memory relative to the top-left sample and stride of the planes Y, U, V. -/
structure Frame where
  plane : Nat → SampleMem
  stride : Nat → Int

/-- Fields of `davs2_t`: size of the picture, `i_frame_type` (B = 2), `fref[AVS2_MAX_REFS]`, common.h:1097 (`none` is `NULL`), and whether
`i_chroma_format` is `CHROMA_420`. -/
structure Ctx where
  w : Nat
  h : Nat
  frame : Nat
  fref : Nat → Option Frame
  c420 : Bool

/-- Fields of `cu_t` with the position of the unit: `i_cu_type`, `i_md_directskip_mode`, `b8pdir[]` (forward 0, backward 1, symmetrical 2,
bidirectional 3, dual 4), `mv[][2]`, `ref_idx[].r[2]`, `i_dmh_mode`, `i_trans_size`, `i_cbp`, and the coefficients from
`get_quanted_coeffs` on, transform.cc:869-883: luma for block 0, both chroma blocks. -/
structure Cu where
  x : Nat
  y : Nat
  level : Nat
  mode : Nat
  ds : Nat
  dir : Nat → Nat
  mv : Nat → Nat → Mv
  ref : Nat → Nat → Int
  dmh : Nat
  trans : Nat
  cbp : Nat
  coefY : Nat → Int
  coefC : Nat → Nat → Int

abbrev Planes := Nat → Rp.Plane

/-- `h->fref[i]`; an index outside the array is a fault. -/
def frefAt (k : Ctx) (i : Int) : Option (Option Frame) := if 0 ≤ i ∧ i < 4 then some (k.fref i.toNat) else none

structure Picked where
  ref1 : Option Frame
  ref2 : Option Frame
  mv1 : Mv
  mv2 : Mv

/-- `mv.x + d`, stored in an `int16_t`. -/
def addMv (v d : Mv) : Mv := (toInt16 (v.1 + d.1), toInt16 (v.2 + d.2))

/-- Selection of references and vectors, cu.cc:961-1012; `B_BWD` = 0 and `B_FWD` = 1, common.h:310-311. A value of `i_dmh_mode` outside
`dmh_pos` is not modelled (displacement zero). -/
def pick (k : Ctx) (u : Cu) (i : Nat) : Option Picked :=
  let dir := u.dir i
  if dir = 1 then some ⟨k.fref 0, none, u.mv i 1, (0, 0)⟩
  else if dir = 2 ∨ dir = 3 then some ⟨k.fref 1, k.fref 0, u.mv i 0, u.mv i 1⟩
  else if k.frame = 2 then some ⟨k.fref 1, none, u.mv i 0, (0, 0)⟩
  else if dir = 4 then do
    let f1 ← frefAt k (u.ref i 0)
    let f2 ← frefAt k (u.ref i 1)
    some ⟨f1, f2, u.mv i 0, u.mv i 1⟩
  else if u.dmh ≠ 0 then do
    let f ← frefAt k (u.ref i 0)
    let d := dmhPos.getD u.dmh ((0, 0), (0, 0))
    some ⟨f, f, addMv (u.mv i 0) d.1, addMv (u.mv i 0) d.2⟩
  else do
    let f ← frefAt k (u.ref i 0)
    some ⟨f, none, u.mv i 0, (0, 0)⟩

/-- The samples of a block computed by `mc_luma` or `mc_chroma`: a fault if one of them reads outside memory. -/
def mcBlk (w h : Nat) (g : Nat → Nat → Option Int) : Option (Nat → Nat → Int) :=
  if ∀ y < h, ∀ x < w, (g x y).isSome = true then some fun x y => (g x y).getD 0 else none

/-- `block_avg` of the block in the picture with the block in `row_rec->pred_blk`, in place: `davs2_pixel_average_c`, mc.cc:573-586. -/
def blockAvg (m : Rp.Plane) (x y w h : Nat) (t : Nat → Nat → Int) : Rp.Plane :=
  Rp.write m x y w h fun a b => pixelAverage (m (x + a : Nat) (y + b : Nat)) (t a b)

/-- Prediction of one plane from one or two blocks: cu.cc:1030-1048 (luma), 1061-1073 and 1074-1096 (chroma). -/
def predPlane (st : Planes) (c x y w h : Nat) (g1 : Nat → Nat → Option Int) (g2 : Option (Nat → Nat → Option Int)) : Option Planes := do
  let p1 ← mcBlk w h g1
  let m := Rp.write (st c) x y w h p1
  match g2 with
  | none => some (Function.update st c m)
  | some g2 => do
    let p2 ← mcBlk w h g2
    some (Function.update st c (blockAvg m x y w h p2))

/-- Body of the loop of `davs2_get_inter_pred`, cu.cc:952-1098, for unit `i` at `b`; the result is false where it returns −1.
All luma planes are read with the stride of `fref[0]` (cu.cc:1032), both chroma blocks with the stride of the first reference. -/
def predPu (k : Ctx) (u : Cu) (st : Planes) (i : Nat) (b : Un.Cb) : Option (Planes × Bool) := do
  let p ← pick k u i
  let x := u.x + b.x
  let y := u.y + b.y
  let v1 : Mv := (cuGetMcPosMv k.w b.w x p.mv1.1, cuGetMcPosMv k.h b.h y p.mv1.2)
  let v2 : Mv := (cuGetMcPosMv k.w b.w x p.mv2.1, cuGetMcPosMv k.h b.h y p.mv2.2)
  match p.ref1 with
  | none => some (st, false)
  | some f1 => do
    let f0 ← k.fref 0
    let st ← predPlane st 0 x y b.w b.h (mcLuma (f1.plane 0) (f0.stride 0) v1.1 v1.2)
      (p.ref2.map fun f2 => mcLuma (f2.plane 0) (f0.stride 0) v2.1 v2.2)
    if k.c420 then do
      let st ← predPlane st 1 (x / 2) (y / 2) (b.w / 2) (b.h / 2) (mcChroma (f1.plane 1) (f1.stride 1) v1.1 v1.2)
        (p.ref2.map fun f2 => mcChroma (f2.plane 1) (f1.stride 1) v2.1 v2.2)
      let st ← predPlane st 2 (x / 2) (y / 2) (b.w / 2) (b.h / 2) (mcChroma (f1.plane 2) (f1.stride 2) v1.1 v1.2)
        (p.ref2.map fun f2 => mcChroma (f2.plane 2) (f1.stride 2) v2.1 v2.2)
      some (st, true)
    else some (st, true)

/-- The loop of `davs2_get_inter_pred`, cu.cc:952-1098: it is left at the first unit without a reference. -/
def predLoop (k : Ctx) (u : Cu) : List (Un.Cb × Nat) → Planes → Option (Planes × Bool)
  | [], st => some (st, true)
  | (b, i) :: l, st => do
    let (st, ok) ← predPu k u st i b
    if ok then predLoop k u l st else some (st, false)

/-- `davs2_get_inter_pred`, cu.cc:944-1101, for the units of `cu_init_prediction_units`. -/
def interPred (k : Ctx) (u : Cu) (st : Planes) : Option (Planes × Bool) :=
  predLoop k u (Un.puUnits k.frame u.ds u.mode u.level).zipIdx st

/-- `inv_transform` of an inter block, transform.cc:839-862: the C functions of the table `idct`, transform.cc:941-953 (C95: the vector functions
leave the same).  Blocks with a side of 64 have a wavelet stage. -/
def idctOf (w h : Nat) : Tr.Buf → Tr.Buf :=
  if w = 64 ∧ h = 64 then Tr.idct64x64
  else if w = 64 then Tr.idct64x16
  else if h = 64 then Tr.idct16x64
  else Tr.idct w h 0

/-- `davs2_get_recons`, transform.cc:886-928: inverse transform in place of the coefficients from `off` on, addition to the plane. -/
def recons (m : Rp.Plane) (coef : Nat → Int) (off x y w h : Nat) : Option (Rp.Plane × (Nat → Int)) :=
  let r := idctOf w h fun a => some (coef (off + a))
  if ∀ a < w * h, (r a).isSome = true then
    let coef := fun a => if off ≤ a ∧ a < off + w * h then (r (a - off)).getD 0 else coef a
    some (Rp.write m x y w h fun a b => clip1 (m (x + a : Nat) (y + b : Nat) + coef (off + (b * w + a))), coef)
  else none

/-- The loop over the transform units, cu.cc:1151-1155; the offset of block `b` is `b << ((level - 1) << 1)`, transform.cc:875. -/
def lumaLoop (u : Cu) : List (Un.Cb × Nat) → Rp.Plane → (Nat → Int) → Option Rp.Plane
  | [], m, _ => some m
  | (b, i) :: l, m, coef =>
    if u.cbp.testBit i then do
      let (m, coef) ← recons m coef (i * 2 ^ ((u.level - 1) * 2)) (u.x + b.x) (u.y + b.y) b.w b.h
      lumaLoop u l m coef
    else lumaLoop u l m coef

/-- Residual of the luma blocks of an inter unit, cu.cc:1145-1156. -/
def lumaRes (u : Cu) (m : Rp.Plane) : Option Rp.Plane :=
  if u.trans = 0 then
    if u.cbp % 16 ≠ 0 then (recons m u.coefY 0 u.x u.y (2 ^ u.level) (2 ^ u.level)).map Prod.fst else some m
  else lumaLoop u (Un.tuUnits u.trans u.level).zipIdx m u.coefY

/-- Residual of chroma block `c` (0 or 1), cu.cc:1159-1174. -/
def chromaRes (u : Cu) (c : Nat) (m : Rp.Plane) : Option Rp.Plane :=
  if u.cbp.testBit (4 + c) then
    (recons m (u.coefC c) 0 (u.x / 2) (u.y / 2) (2 ^ (u.level - 1)) (2 ^ (u.level - 1))).map Prod.fst
  else some m

/-- `cu_recon` of an inter unit, cu.cc:1103-1177; the result is false where it returns −1. -/
def cuReconInter (k : Ctx) (u : Cu) (st : Planes) : Option (Planes × Bool) := do
  let (st, ok) ← interPred k u st
  if ok then do
    let m ← lumaRes u (st 0)
    let st := Function.update st 0 m
    if k.c420 then do
      let m ← chromaRes u 0 (st 1)
      let st := Function.update st 1 m
      let m ← chromaRes u 1 (st 2)
      some (Function.update st 2 m, true)
    else some (st, true)
  else some (st, false)

/-- The leaf of `decode_lcu_recon` for an inter unit, cu.cc:1362-1372, with `h->decoding_error`: the value returned by `cu_recon` is not used. -/
def leafRecon (k : Ctx) (u : Cu) (sliceNr : Int) (err : Bool) (st : Planes) : Option (Planes × Bool) :=
  if sliceNr = -1 then some (st, true)
  else do
    let (st, _) ← cuReconInter k u st
    some (st, err)

end Davs2.Ir
