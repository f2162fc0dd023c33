import Verif.Spec.CoeffCode
import Verif.Spec.IntraMode
import Verif.Model.CuSyntax
/-
How whole coding units and coding trees are written: which elements are present, in which order, and what their codes depend
on.  What earlier units contribute is given by maps over the picture (one entry for each 4x4 block), not by the storage of the
decoder.  From Model/CuSyntax only the record of settings `Env` is used.
-/
namespace Davs2.Cs
open Davs2.Sx Davs2.Mo

/-- A unit as the encoder has it.  `type`: -1 skip, 0 direct, 1 to 7 with prediction units (whole, two above each other, two side
by side, four kinds of asymmetric ones), 8 to 11 intra.  `lev i x y`: level at column `x` and row `y` of block `i`, 0 to 3 luma, 4
and 5 chroma.  `cbp`: bit `i` tells whether block `i` has levels. -/
structure CUnit where
  type : Int
  wsm : Nat := 0
  ds : Nat := 0
  dirs : List Int := []
  refs : List (Int × Int) := []
  dmh : Int := 0
  mvd1 : List (Option (Int × Int)) := []
  mvd2 : List (Option (Int × Int)) := []
  trans : Nat := 0
  modes : List Int := []
  cmode : Nat := 0
  cbp : Nat := 0
  dqp : Int := 0
  lev : Nat → Nat → Nat → Int := fun _ _ _ => 0

/-- What is known of the blocks of the slice, by column and row of 4x4 blocks: does the transform block have luma levels; intra
mode (0 if not intra); is the chroma mode other than "as luma"; quantiser; and the last difference of quantisers. -/
structure Maps where
  coded : Int → Int → Bool
  mode : Int → Int → Int
  cm : Int → Int → Bool
  qp : Int → Int → Int
  last : Int

/-- At the start of a slice. -/
def Maps.start (qp : Int) : Maps := ⟨fun _ _ => false, fun _ _ => 0, fun _ _ => false, fun _ _ => qp, 0⟩

/-- Size of a unit in 4x4 blocks. -/
def side (level : Nat) : Nat := 2 ^ (level - 2)

/-- Is the 4x4 block in the unit at `(x, y)` (in 8x8 blocks)? -/
def InUnit (level x y : Nat) (p q : Int) : Prop :=
  2 * (x : Int) ≤ p ∧ p < 2 * x + side level ∧ 2 * (y : Int) ≤ q ∧ q < 2 * y + side level

instance (level x y : Nat) (p q : Int) : Decidable (InUnit level x y p q) := by unfold InUnit; infer_instance

/-- Number of the transform block at column `dx` and row `dy` of the unit: 0 unsplit, 1 four rows, 2 four columns, 3 quarters. -/
def tbIndex (level trans dx dy : Nat) : Nat :=
  if trans = 0 then 0
  else if trans = 1 then 4 * dy / side level
  else if trans = 2 then 4 * dx / side level
  else 2 * dx / side level + 2 * (2 * dy / side level)

/-- First column and row of a transform block. -/
def tbCorner (level trans b : Nat) : Nat × Nat :=
  if trans = 0 then (0, 0)
  else if trans = 1 then (0, side level / 4 * b)
  else if trans = 2 then (side level / 4 * b, 0)
  else (side level / 2 * (b % 2), side level / 2 * (b / 2))

/-- Do the 4x4 blocks to the left of and above the corner of block `b` have levels?  `c` is the pattern of this unit as far as it
has been written. -/
def nearT (P : Maps) (level x y trans b c : Nat) : Bool × Bool :=
  let k := tbCorner level trans b
  (if k.1 = 0 then P.coded (2 * x - 1) (2 * y + k.2) else c.testBit (tbIndex level trans (k.1 - 1) k.2),
   if k.2 = 0 then P.coded (2 * x + k.1) (2 * y - 1) else c.testBit (tbIndex level trans k.1 (k.2 - 1)))

/-- Shape of the transform split of an inter unit. -/
def splitShape (nsqt : Bool) (type : Int) (level : Nat) : Nat :=
  if nsqt ∧ 3 < level ∧ (type = 2 ∨ type = 4 ∨ type = 5) then 1
  else if nsqt ∧ 3 < level ∧ (type = 3 ∨ type = 6 ∨ type = 7) then 2 else 3

/-- Zig-zag order of a rectangle: the diagonals one after the other, alternately downwards and upwards. -/
def zigzagR (w h : Nat) : List (Nat × Nat) :=
  (List.range (w + h - 1)).flatMap fun d =>
    let l := (List.range w).filterMap fun x => if x ≤ d ∧ d - x < h then some (x, d - x) else none
    if d % 2 = 1 then l.reverse else l

/-- Class of an intra mode: vertical modes, horizontal modes, others. -/
def vertMode (m : Int) : Bool := decide (8 ≤ m ∧ m ≤ 16 ∨ m = 32)
def horMode (m : Int) : Bool := decide (m = 3 ∨ m = 4 ∨ 20 ≤ m ∧ m ≤ 28)

/-- Block `i` of a unit.  The largest blocks have 32x32 levels: of a unit of 64x64 samples without split only the lowest
frequencies of a transform are written, and for strips half the width and height.  (The scan of a block of a single group is not used.) -/
def blkOf (level : Nat) (u : CUnit) (i : Nat) : Sx.Blk :=
  let mk (luma diag swap : Bool) (w h : Nat) : Sx.Blk :=
    ⟨luma, diag, swap, u.trans, w, h, if w * h = 16 then zigzagR 2 2 else zigzagR (w / 4) (h / 4)⟩
  if i < 4 then
    let n := if u.trans = 3 then 2 ^ level else min 32 (2 ^ level)
    let mode := u.modes.getD i 0
    let intra := decide (8 ≤ u.type)
    let diag := !intra || !(vertMode mode || horMode mode)
    let swap := intra && horMode mode && decide (u.trans = 0 ∨ u.trans = 3)
    if u.trans = 0 then mk true diag swap n n
    else if u.trans = 1 then mk true diag swap n (n / 4)
    else if u.trans = 2 then mk true diag swap (n / 4) n
    else mk true diag swap (n / 2) (n / 2)
  else mk false true false (2 ^ level / 2) (2 ^ level / 2)

/-- The coded blocks. -/
def codedBlks (u : CUnit) : List Nat := (List.range 6).filter fun i => u.cbp.testBit i

/-- Quantiser of a unit. -/
def qpOf (E : Env) (P : Maps) (x y : Nat) (u : CUnit) : Int :=
  if u.type = -1 ∨ E.dqp then P.qp (2 * x - 1) (2 * y) + u.dqp else E.qp

/-- Pattern, difference of quantisers and levels. -/
def restT (E : Env) (P : Maps) (level x y : Nat) (u : CUnit) (c : List Bin) : Prop :=
  ∃ (split : Bool) (cp cq : List Bin),
    c = cp ++ cq ++ (codedBlks u).flatMap (fun i => blockCode (blkOf level u i) (u.lev i)) ∧
    cbpT (nearT P level x y (if u.type < 8 then splitShape E.nsqt u.type level else u.trans)) u.type.toNat (u.cbp, split) cp ∧
    (u.type < 8 → u.trans = if split then splitShape E.nsqt u.type level else 0) ∧
    (if E.dqp ∧ u.cbp ≠ 0 then u.dqp.natAbs ≤ 32 ∧ cq = dqpCode P.last u.dqp else u.dqp = 0 ∧ cq = []) ∧
    (0 ≤ qpOf E P x y u ∧ qpOf E P x y u ≤ 63) ∧
    ∀ i ∈ codedBlks u, (∀ a b, (u.lev i a b).natAbs ≤ 32767) ∧
      ∃ a < (blkOf level u i).w, ∃ b < (blkOf level u i).h, u.lev i a b ≠ 0

/-- Vectors: one for each direction for which `has` holds. -/
def vecsT (has : Int → Bool) : List Int → List (Option (Int × Int)) → List Bin → Prop
  | [], vs, c => vs = [] ∧ c = []
  | d :: ds, vs, c =>
    if has d then ∃ (v : Int × Int) (vs' : List (Option (Int × Int))) (c' : List Bin), vs = some v :: vs' ∧
      (-32768 ≤ v.1 ∧ v.1 ≤ 32767) ∧ (-32768 ≤ v.2 ∧ v.2 ≤ 32767) ∧
      c = mvdCode .mvd0 v.1 ++ mvdCode .mvd1 v.2 ++ c' ∧ vecsT has ds vs' c'
    else ∃ vs', vs = none :: vs' ∧ vecsT has ds vs' c

/-- Direction of a skipped or direct unit: in B pictures by its mode (temporal: symmetric 2; then bidirectional 3, backward 1,
symmetric 2, forward 0, the order of `direct_skip_mode_e`, common.h:331-347); otherwise dual (4) for weighted skip and for two of the modes. -/
def skipDir (frame wsm ds : Nat) : Int :=
  if frame = 2 then [2, 3, 1, 2, 0].getD ds 0 else if wsm ≠ 0 ∨ ds = 1 ∨ ds = 2 then 4 else 0

/-- Directions and references. -/
def dirsT (E : Env) (level : Nat) (u : CUnit) (c : List Bin) : Prop :=
  if u.type ≤ 0 then c = [] ∧ u.dirs = List.replicate 4 (skipDir E.frame u.wsm u.ds) ∧
    (E.frame = 2 → u.refs = List.replicate 4 (refsB (skipDir E.frame u.wsm u.ds)))
  else if E.frame = 2 then ((u.dirs, u.refs), c) ∈ dirsBT u.type.toNat level
  else interPFT u.type.toNat E.nrefs (decide (E.frame = 4 ∧ 1 < E.nrefs ∧ E.tools.dhp = true ∧ ¬ (level = 3 ∧ 2 ≤ u.type)))
    (u.dirs, u.refs) c

/-- Mode of two hypotheses and vectors: types 1 to 7. -/
def motionT (E : Env) (level : Nat) (u : CUnit) (c : List Bin) : Prop :=
  if u.type ≤ 0 then u.dmh = 0 ∧ u.mvd1 = [] ∧ u.mvd2 = [] ∧ c = []
  else ∃ cd c1 c2, c = cd ++ c1 ++ c2 ∧
    (if E.frame = 4 ∧ (∀ d ∈ u.dirs, d = 0) ∧ ¬ (level = 3 ∧ 2 ≤ u.type) then (u.dmh, cd) ∈ dmhT level
      else u.dmh = 0 ∧ cd = []) ∧
    vecsT (fun d => decide (d ≠ 1)) (u.dirs.take (if u.type = 1 then 1 else 2)) u.mvd1 c1 ∧
    (if E.frame = 2 then vecsT (fun d => decide (d = 1 ∨ d = 3)) (u.dirs.take (if u.type = 1 then 1 else 2)) u.mvd2 c2
      else u.mvd2 = [] ∧ c2 = [])

/-- A rectangle of 4x4 blocks. -/
structure Rect where
  x : Nat
  y : Nat
  w : Nat
  h : Nat

/-- The luma blocks of an intra unit that have modes of their own. -/
def rects (type : Int) (level x y : Nat) : List Rect :=
  let n := side level
  if type = 9 then [⟨2 * x, 2 * y, n / 2, n / 2⟩, ⟨2 * x + n / 2, 2 * y, n / 2, n / 2⟩, ⟨2 * x, 2 * y + n / 2, n / 2, n / 2⟩,
    ⟨2 * x + n / 2, 2 * y + n / 2, n / 2, n / 2⟩]
  else if type = 10 then (List.range 4).map fun k => ⟨2 * x, 2 * y + n / 4 * k, n, n / 4⟩
  else if type = 11 then (List.range 4).map fun k => ⟨2 * x + n / 4 * k, 2 * y, n / 4, n⟩
  else [⟨2 * x, 2 * y, n, n⟩]

/-- The map with mode `v` on a rectangle. -/
def setRect (M : Int → Int → Int) (b : Rect) (v : Int) : Int → Int → Int := fun p q =>
  if (b.x : Int) ≤ p ∧ p < b.x + b.w ∧ (b.y : Int) ≤ q ∧ q < b.y + b.h then v else M p q

/-- Codes of the modes: each is numbered from -2 on, the two probable ones first. -/
def modesT : List Rect → List Int → (Int → Int → Int) → List Bin → Prop
  | [], vs, _, c => vs = [] ∧ c = []
  | b :: bs, vs, M, c => ∃ (v : Int) (vs' : List Int) (k : Nat) (cb c' : List Bin), vs = v :: vs' ∧ c = cb ++ c' ∧
      (Spec.Im.probable (M b.x (b.y - 1)) (M (b.x - 1) b.y) ++ Spec.Im.others (M b.x (b.y - 1)) (M (b.x - 1) b.y))[k]? = some v ∧
      ((k : Int) - 2, cb) ∈ intraPmodeT ∧ modesT bs vs' (setRect M b v) c'

/-- The map with the modes of a unit. -/
def setModes : List (Rect × Int) → (Int → Int → Int) → Int → Int → Int
  | [], M => M
  | (b, v) :: bs, M => setModes bs (setRect M b v)

/-- Chroma mode with the direction of the luma mode: DC, horizontal, vertical, bilinear. -/
def chromaTwin (m : Int) : Option Nat := if m = 0 then some 1 else if m = 24 then some 2 else if m = 12 then some 3
  else if m = 2 then some 4 else none

/-- The type of a unit. -/
def headT (E : Env) (level : Nat) (u : CUnit) (c : List Bin) : Prop :=
  let t := if u.type < 8 then u.type else 9
  if E.frame = 5 then (t, c) ∈ cuTypeST ∧ u.wsm = 0 ∧ u.ds = 0
  else ∃ v : CuType, cuTypeT E.frame level E.nrefs E.tools.amp E.tools.mhp E.tools.wsm (some v) c ∧ v.type = t ∧
    (u.type ≤ 0 → v.wsm = u.wsm ∧ v.ds = u.ds)

/-- A unit of `2 ^ level` samples at `(x, y)`, in 8x8 blocks. -/
def unitT (E : Env) (P : Maps) (level x y : Nat) (u : CUnit) (c : List Bin) : Prop :=
  if u.type < 8 then
    ∃ ct cd cm cr, c = ct ++ cd ++ cm ++ cr ∧ headT E level u ct ∧ dirsT E level u cd ∧ motionT E level u cm ∧
      u.modes = [] ∧ u.cmode = 0 ∧
      (if u.type = -1 then u.trans = 0 ∧ u.cbp = 0 ∧ u.dqp = 0 ∧ cr = [] else restT E P level x y u cr)
  else
    ∃ ct ci cm cc cr, c = ct ++ ci ++ cm ++ cc ++ cr ∧ headT E level u ct ∧
      ((u.type.toNat, some u.trans), ci) ∈ intraTypeT E.tools.sdip level ∧
      modesT (rects u.type level x y) u.modes P.mode cm ∧
      (u.cmode, cc) ∈ chromaModeT (P.cm (2 * x - 1) (2 * y)) (chromaTwin (u.modes.getD 0 0)) ∧
      restT E P level x y u cr

/-- The maps after the unit. -/
def after (E : Env) (P : Maps) (level x y : Nat) (u : CUnit) : Maps where
  coded p q := if InUnit level x y p q then u.cbp.testBit (tbIndex level u.trans (p - 2 * x).toNat (q - 2 * y).toNat) else P.coded p q
  mode := if u.type < 8 then setRect P.mode ⟨2 * x, 2 * y, side level, side level⟩ 0
    else setModes ((rects u.type level x y).zip u.modes) P.mode
  cm p q := if InUnit level x y p q then decide (u.cmode ≠ 0) else P.cm p q
  qp p q := if InUnit level x y p q then qpOf E P x y u else P.qp p q
  last := if u.type = -1 then P.last else u.dqp

/-- A coding tree: a unit, four quarters (left before right, upper before lower), or nothing (outside of the picture). -/
inductive Tree
  | out
  | unit (u : CUnit)
  | node (a b c d : Tree)

/-- A tree of `2 ^ (n + 3)` samples at `(x, y)`: the flag for a split is written only if the square is inside the picture;
otherwise it is split.  Maps before and after. -/
def treeT (E : Env) : Nat → Nat → Nat → Tree → Maps → List Bin → Maps → Prop
  | _, x, y, .out, P, c, P' => (E.w ≤ x ∨ E.h ≤ y) ∧ c = [] ∧ P' = P
  | n, x, y, .unit u, P, c, P' => (x + 2 ^ n ≤ E.w ∧ y + 2 ^ n ≤ E.h) ∧ P' = after E P (n + 3) x y u ∧
      ∃ cs cu, c = cs ++ cu ∧ (if n = 0 then cs = [] else (false, cs) ∈ splitT (n + 3)) ∧ unitT E P (n + 3) x y u cu
  | 0, _, _, .node .., _, _, _ => False
  | n + 1, x, y, .node a b c d, P, co, P' => (x < E.w ∧ y < E.h) ∧
      ∃ cs ca cb cc cd Pa Pb Pc, co = cs ++ ca ++ cb ++ cc ++ cd ∧
        (if x + 2 ^ (n + 1) ≤ E.w ∧ y + 2 ^ (n + 1) ≤ E.h then (true, cs) ∈ splitT (n + 4) else cs = []) ∧
        treeT E n x y a P ca Pa ∧ treeT E n (x + 2 ^ n) y b Pa cb Pb ∧ treeT E n x (y + 2 ^ n) c Pb cc Pc ∧
        treeT E n (x + 2 ^ n) (y + 2 ^ n) d Pc cd P'

/-- What is read of a unit is what was written; `q` is its quantiser. -/
structure Same (E : Env) (level : Nat) (u : CUnit) (q : Int) (r : CuRead) : Prop where
  type : r.type = u.type
  skip : u.type ≤ 0 → r.wsm = u.wsm ∧ r.ds = u.ds
  dirs : u.type < 8 → r.dirs = u.dirs
  refs : 1 ≤ u.type ∧ u.type < 8 ∨ u.type ≤ 0 ∧ E.frame = 2 → r.refs = u.refs
  dmh : u.type < 8 → r.dmh = u.dmh
  mvd : u.type < 8 → r.mvd1 = u.mvd1 ∧ r.mvd2 = u.mvd2
  trans : r.trans = u.trans
  modes : r.modes = u.modes
  cmode : r.cmode = u.cmode
  cbp : r.cbp = u.cbp
  qp : r.qp = q
  blocks : r.coeffs.map (·.1) = codedBlks u
  levels : ∀ i c, (i, c) ∈ r.coeffs → 0 ≤ c.pattern ∧ Delivers (blkOf level u i) (u.lev i)
    (E.deq (if i < 4 then 0 else i - 3) q (if i < 4 ∧ u.trans = 0 then level else level - 1)) c.writes

/-- Units of a tree with positions, levels and quantisers, in order. -/
def leaves (E : Env) : Nat → Nat → Nat → Tree → Maps → List (Leaf (CUnit × Int)) × Maps
  | _, _, _, .out, P => ([], P)
  | n, x, y, .unit u, P => ([⟨x, y, n + 3, u, qpOf E P x y u⟩], after E P (n + 3) x y u)
  | 0, _, _, .node .., P => ([], P)
  | n + 1, x, y, .node a b c d, P =>
    let ra := leaves E n x y a P
    let rb := leaves E n (x + 2 ^ n) y b ra.2
    let rc := leaves E n x (y + 2 ^ n) c rb.2
    let rd := leaves E n (x + 2 ^ n) (y + 2 ^ n) d rc.2
    (ra.1 ++ rb.1 ++ rc.1 ++ rd.1, rd.2)

end Davs2.Cs
