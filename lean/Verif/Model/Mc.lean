import Verif.Model.Basic
/-
Motion compensation: position clipping (/repo/source/common/cu.cc:919-942) and the interpolation functions
(/repo/source/common/mc.cc:57-126, 170-313, 494-586), 8-bit samples.

The reference plane is a linear memory `rd` addressed relative to sample (0, 0); a read that is not backed by
memory is `none`.  The loops over the samples of a block are independent of each other and are represented by
the function computing one sample.  Function pointers to vector code are not modelled.
-/
namespace Davs2

/-- Conversion to `int16_t`. -/
def toInt16 (x : Int) : Int := (x + 32768) % 65536 - 32768

/-- `cu_get_mc_pos`, cu.cc:919-932; position of a block in quarter samples.  `mv >> 2` is the floor and
`mv & 7` the remainder modulo 8. -/
def cuGetMcPos (img blk pos mv : Int) : Int :=
  let imv := mv / 4
  let fmv := mv % 8
  if pos + imv < -blk - 8 then (-blk - 8) * 4 + fmv
  else if pos + imv > img + 4 then (img + 4) * 4 + fmv
  else pos * 4 + mv

/-- One component of `cu_get_mc_pos_mv`, cu.cc:937-942. -/
def cuGetMcPosMv (img blk pos mv : Int) : Int := toInt16 (cuGetMcPos img blk pos mv)

/-- `dmh_pos`, cu.cc:77-87: offsets `(x, y)` of the first and of the second block. -/
def dmhPos : List ((Int × Int) × (Int × Int)) :=
  [((0, 0), (0, 0)), ((-1, 0), (1, 0)), ((0, -1), (0, 1)), ((-1, 1), (1, -1)), ((-1, -1), (1, 1)),
   ((-2, 0), (2, 0)), ((0, -2), (0, 2)), ((-2, 2), (2, -2)), ((-2, -2), (2, 2))]

/-- `INTPL_FILTERS`, mc.cc:59-65. -/
def intplFilters : List (List Int) :=
  [[0, 0, 0, 64, 0, 0, 0, 0],
   [-1, 4, -10, 57, 19, -7, 3, -1],
   [-1, 4, -11, 40, 40, -11, 4, -1],
   [-1, 3, -7, 19, 57, -10, 4, -1]]

/-- `INTPL_FILTERS_C`, mc.cc:68-78. -/
def intplFiltersC : List (List Int) :=
  [[0, 64, 0, 0],
   [-4, 62, 6, 0],
   [-6, 56, 15, -1],
   [-5, 47, 25, -3],
   [-4, 36, 36, -4],
   [-3, 25, 47, -5],
   [-1, 15, 56, -6],
   [0, 6, 62, -4]]

abbrev SampleMem := Int → Option Int

/-- The sums `FLT_8TAP_HOR` … `FLT_4TAP_VER`, mc.cc:88-126: coefficients `c` applied to the samples from
address `a` on at distance `step`. -/
def flt (rd : SampleMem) (step : Int) : List Int → Int → Option Int
  | [], _ => some 0
  | c :: cs, a =>
    match rd a, flt rd step cs (a + step) with
    | some v, some s => some (v * c + s)
    | _, _ => none

/-- `DAVS2_CLIP1` with `max_pel_value = 255`, common.h:109; the cast to `pel_t` keeps the low byte. -/
def clip1 (v : Int) : Int := (if v > 255 then 255 else if v < 0 then 0 else v) % 256

/-- `intpl_luma_block_hor_c` and `intpl_chroma_block_hor_c`, mc.cc:172-186 and 242-256: sample at address `a`;
`o` is the number of samples left of it that are read. -/
def intplHor (rd : SampleMem) (o : Int) (c : List Int) (a : Int) : Option Int :=
  (flt rd 1 c (a - o)).map fun v => clip1 ((v + 32) / 64)

/-- `intpl_luma_block_ver_c` and `intpl_chroma_block_ver_c`, mc.cc:190-204 and 260-274. -/
def intplVer (rd : SampleMem) (stride o : Int) (c : List Int) (a : Int) : Option Int :=
  (flt rd stride c (a - o * stride)).map fun v => clip1 ((v + 32) / 64)

/-- First loop of `intpl_luma_block_ext_c`, mc.cc:291-299, one entry of `tmp`: `shift1 = 0`, `add1 = 0` for
8 bits; `conv` is the conversion to the type of `tmp` (`mct_t`, 16 bits, for luma; `int32_t` for chroma). -/
def intplTmp (rd : SampleMem) (conv : Int → Int) (o : Int) (c : List Int) (a : Int) : Option Int :=
  (flt rd 1 c (a - o)).map fun v => conv v

/-- `intpl_luma_block_ext_c` and `intpl_chroma_block_ext_c`, mc.cc:208-238 and 278-313: sample at address `a`.
`tmp` is read at the positions around `(x, y)`, its rows being those of the source. -/
def intplExt (rd : SampleMem) (stride o : Int) (conv : Int → Int) (ch cv : List Int) (a : Int) : Option Int :=
  (flt (fun k => intplTmp rd conv o ch (a + k * stride)) 1 cv (-o)).map fun v => clip1 ((v + 2048) / 4096)

/-- `mc_luma`, mc.cc:502-533: sample `(x, y)` of the block. -/
def mcLuma (rd : SampleMem) (stride : Int) (posx posy : Int) (x y : Nat) : Option Int :=
  let dx := (posx % 4).toNat
  let dy := (posy % 4).toNat
  let a := posy / 4 * stride + posx / 4 + (y * stride + x)
  if dx = 0 ∧ dy = 0 then rd a
  else if dx = 0 then intplVer rd stride 3 (intplFilters.getD dy []) a
  else if dy = 0 then intplHor rd 3 (intplFilters.getD dx []) a
  else intplExt rd stride 3 toInt16 (intplFilters.getD dx []) (intplFilters.getD dy []) a

/-- `mc_chroma`, mc.cc:537-562. -/
def mcChroma (rd : SampleMem) (stride : Int) (posx posy : Int) (x y : Nat) : Option Int :=
  let dx := (posx % 8).toNat
  let dy := (posy % 8).toNat
  let a := posy / 8 * stride + posx / 8 + (y * stride + x)
  if dx = 0 ∧ dy = 0 then rd a
  else if dx = 0 then intplVer rd stride 1 (intplFiltersC.getD dy []) a
  else if dy = 0 then intplHor rd 1 (intplFiltersC.getD dx []) a
  else intplExt rd stride 1 id (intplFiltersC.getD dx []) (intplFiltersC.getD dy []) a

/-- `davs2_pixel_average_c`, mc.cc:573-586, one sample; the cast to `pel_t` keeps the low byte. -/
def pixelAverage (a b : Int) : Int := (a + b + 1) / 2 % 256

end Davs2
