import Verif.Model.DeblockEdge
import Verif.Spec.Tiling
/-
Which edges between samples are to be deblocked, sample by sample and without recursion: the edge between a sample and its left
or upper neighbour.
-/
namespace Davs2.De.Spec

open Db (Dir)
open Davs2.Spec (inRect)

/-- The two samples are in different units. -/
def apart (us : List Un.Cb) (q p : Nat × Nat) : Bool :=
  us.any fun u => inRect u.x u.y u.w u.h q.1 q.2 && !inRect u.x u.y u.w u.h p.1 p.2

/-- The left or upper neighbour of a sample. -/
def before (d : Dir) (X Y : Nat) : Nat × Nat := match d with
  | .ver => (X - 1, Y)
  | .hor => (X, Y - 1)

/-- The distance of a sample from the left or upper border. -/
def along (d : Dir) (X Y : Nat) : Nat := match d with
  | .ver => X
  | .hor => Y

/-- For an edge inside a coding unit, at the sample `(X, Y)` of the unit: 2 if it separates prediction units with their own chroma
prediction, 1 if it separates intra strips or the transform units of a unit that has coefficients, else 0. The parts
of skipped and direct units do not count. -/
def inner (c : CuInfo) (d : Dir) (X Y : Nat) : Nat :=
  let pu := apart (Un.puUnits 0 0 c.type c.level) (X, Y) (before d X Y)
  if pu && c.type < 10 then 2
  else if pu || (c.cbp && apart (Un.tuUnits c.trans c.level) (X, Y) (before d X Y)) then 1
  else 0

/-- How the edge between the sample `(X, Y)` and its left or upper neighbour is to be treated. -/
def kind (p : Pic) (d : Dir) (X Y : Nat) : Nat :=
  if along d X Y = 0 then 0
  else
    let q := before d X Y
    let c := p.cu (X / 8) (Y / 8)
    if !p.cross && c.slice != (p.cu (q.1 / 8) (q.2 / 8)).slice then 0
    else if along d X Y % 2 ^ c.level = 0 then 2
    else inner c d (X % 2 ^ c.level) (Y % 2 ^ c.level)

/-- The filter is left out at the edge between two samples: in a P or F picture, both samples are in coding units without
coefficients, and their 4x4 blocks have the same first reference and nearly the same motion. -/
def same (p : Pic) (q r : Nat × Nat) : Prop :=
  (p.frame = 1 ∨ p.frame = 4) ∧
  (p.cu (q.1 / 8) (q.2 / 8)).cbp = false ∧ (p.cu (r.1 / 8) (r.2 / 8)).cbp = false ∧
  let a := p.motion (q.1 / 4) (q.2 / 4)
  let b := p.motion (r.1 / 4) (r.2 / 4)
  a.ref = b.ref ∧ a.ref ≠ -1 ∧ (-4 < a.x - b.x ∧ a.x - b.x < 4) ∧ -4 < a.y - b.y ∧ a.y - b.y < 4

/-- The quantisers of the coding units of two samples. -/
def qps (p : Pic) (q r : Nat × Nat) : Int × Int := ((p.cu (r.1 / 8) (r.2 / 8)).qp, (p.cu (q.1 / 8) (q.2 / 8)).qp)

/-- The luma sample at line `r` just behind edge `k` of the grid of 8 samples. -/
def sample (d : Dir) (k r : Nat) : Nat × Nat := match d with
  | .ver => (8 * k, r)
  | .hor => (r, 8 * k)

/-- Entry `i` of a table of 64, the first or last for an index outside. -/
def Entry (t : List Int) (i v : Int) : Prop := t[(max 0 (min 63 i)).toNat]? = some v

open Classical in
/-- What deblocking does with luma line `r` of edge `k`, from its two samples. -/
noncomputable def lumaLine (p : Pic) (ao bo : Int) (d : Dir) (k r : Nat) : Db.Line → Db.Line :=
  let q := sample d k r
  let b := before d q.1 q.2
  if kind p d q.1 q.2 = 0 ∨ same p q b then id
  else match Db.lumaThresholds (qps p q b).1 (qps p q b).2 ao bo with
    | some t => Db.filterLine false t.1 t.2 true
    | none => id

open Classical in
/-- The same for chroma line `r` of edge `k` (4:2:0): the luma sample of the chroma sample decides. -/
noncomputable def chromaLine (p : Pic) (delta ao bo : Int) (d : Dir) (k r : Nat) : Db.Line → Db.Line :=
  let q := sample d (2 * k) (2 * r)
  let b := before d q.1 q.2
  if kind p d q.1 q.2 ≠ 2 ∨ same p q b then id
  else match chromaThresholds (qps p q b).1 (qps p q b).2 delta ao bo with
    | some t => Db.filterLine true t.1 t.2 true
    | none => id

end Davs2.De.Spec
