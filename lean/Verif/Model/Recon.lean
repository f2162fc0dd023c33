import Verif.Model.Mc
/-
Reconstruction: `add_ps` of source/common/pixel.cc as called by `davs2_get_recons`, transform.cc:926, and
`davs2_clip_pixel`, `davs2_sign2`, `davs2_sign3`, `davs2_median` of common.h.
-/
namespace Davs2.Rec

/-- Store one sample. -/
def store (m : Int → Int) (a v : Int) : Int → Int := fun x => if x = a then v else m x

/-- One iteration of the inner loop of `PIXEL_ADD_PS_C`, pixel.cc:76: `a[x] = CLIP1(b0[x] + b1[x])` with
`b0 = a` (transform.cc:926).  The sum of a sample and a 16-bit residual cannot overflow an `int`. -/
def addPsStep (coef : Int → Int) (m : Int → Int) (a c : Int) : Int → Int := store m a (clip1 (m a + coef c))

/-- Inner loop, pixel.cc:74-76. -/
def addPsRow (coef : Int → Int) (w : Nat) (m : Int → Int) (a c : Int) : Int → Int :=
  (List.range w).foldl (fun m (x : Nat) => addPsStep coef m (a + x) (c + x)) m

/-- `davs2_pixel_add_ps_WxH`, pixel.cc:70-82, called in place: `a` address of the block, `ds` its stride, `c` address
of the residual, `ss` its stride. -/
def addPs (coef : Int → Int) (w h : Nat) (m : Int → Int) (a ds c ss : Int) : Int → Int :=
  (List.range h).foldl (fun m (y : Nat) => addPsRow coef w m (a + y * ds) (c + y * ss)) m

/-- `davs2_clip_pixel`, common.h:1351-1354, 8-bit: bit operations on 32-bit words; `none`: `-x` overflows. -/
def clipPixel (x : BitVec 32) : Option (BitVec 32) :=
  if x &&& ~~~255#32 ≠ 0#32 then
    if x = BitVec.intMin 32 then none else some (((-x).sshiftRight 31) &&& 255#32)
  else some x

/-- `davs2_sign2`, common.h:1375-1378. -/
def sign2 (v : BitVec 32) : BitVec 32 := ((v.sshiftRight 31) <<< 1) + 1

/-- `davs2_sign3`, common.h:1381-1384 (`(uint32_t)-val`: the overflow of `-INT_MIN` is `none`). -/
def sign3 (v : BitVec 32) : Option (BitVec 32) :=
  if v = BitVec.intMin 32 then none else some ((v.sshiftRight 31) ||| ((-v) >>> 31))

/-- 32-bit signed subtraction, `none` on overflow. -/
def subv (a b : BitVec 32) : Option (BitVec 32) := if a.ssubOverflow b then none else some (a - b)

/-- 32-bit signed addition, `none` on overflow. -/
def addv (a b : BitVec 32) : Option (BitVec 32) := if a.saddOverflow b then none else some (a + b)

/-- `(a - b) & ((a - b) >> 31)`, common.h:1363, 1367, 1368. -/
def negPart (a b : BitVec 32) : Option (BitVec 32) := (subv a b).map fun d => d &&& (d.sshiftRight 31)

/-- `davs2_median`, common.h:1361-1371. -/
def median (a b c : BitVec 32) : Option (BitVec 32) := do
  let t ← negPart a b
  let a ← subv a t
  let b ← addv b t
  let b ← subv b (← negPart b c)
  addv b (← negPart a b)

end Davs2.Rec
