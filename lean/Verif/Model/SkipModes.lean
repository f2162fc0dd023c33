import Verif.Model.Motion
/-
The spatial skip modes statement by statement: /repo/source/common/predict.cc:256-320 (`get_mv_bskip_spatial`) and 403-482
(`get_mv_fskip_spatial`).  Model/Motion has both functions in closed form; C91 shows that the two forms agree, and that they take the
candidates in the order of the neighbours F, G, C, A, B, D.
-/
namespace Davs2.Mo

/-- `p[i] = v` for an array with one entry for each skip mode. -/
def put {α : Type} (f : Nat → α) (i : Nat) (v : α) : Nat → α := fun k => if k = i then v else f k

/-- Local variables of `get_mv_bskip_spatial` (predict.cc:258-265): the arrays `mv_tskip_1st`, `mv_tskip_2nd` and the counters. -/
structure BSt where
  m1 : Nat → Option Vec
  m2 : Nat → Option Vec
  bid : Nat
  bw : Nat
  fw : Nat
  sym : Nat
  bid2 : Nat

/-- Body of the loop, predict.cc:268-285: neighbour `j`. -/
def bLoop (s : BSt) (j : Nat) (b : Blk) : BSt :=
  if b.dir = 3 then
    { s with m2 := put s.m2 1 b.v2, m1 := put s.m1 1 b.v1, bid := s.bid + 1, bid2 := if s.bid + 1 = 1 then j else s.bid2 }
  else if b.dir = 2 then { s with m2 := put s.m2 3 b.v2, m1 := put s.m1 3 b.v1, sym := s.sym + 1 }
  else if b.dir = 1 then { s with m2 := put s.m2 2 b.v2, bw := s.bw + 1 }
  else if b.dir = 0 then { s with m1 := put s.m1 4 b.v1, fw := s.fw + 1 }
  else s

/-- The loop over the neighbours `ns` from index `j` on, predict.cc:267. -/
def bLoops : List Blk → Nat → BSt → BSt
  | [], _, s => s
  | b :: ns, j, s => bLoops ns (j + 1) (bLoop s j b)

/-- `p_neighbors[j]`, vectors. -/
def vecs (ns : List Blk) (j : Nat) : Option Vec × Option Vec := (ns[j]?).elim (none, none) fun b => (b.v1, b.v2)

/-- predict.cc:288-291 -/
def bBid (s : BSt) : BSt :=
  if s.bid = 0 ∧ s.fw ≠ 0 ∧ s.bw ≠ 0 then { s with m2 := put s.m2 1 (s.m2 2), m1 := put s.m1 1 (s.m1 4) } else s

/-- predict.cc:293-304 -/
def bSym (ns : List Blk) (s : BSt) : BSt :=
  if s.sym = 0 ∧ s.bid > 1 then { s with m2 := put s.m2 3 (vecs ns s.bid2).2, m1 := put s.m1 3 (vecs ns s.bid2).1 }
  else if s.sym = 0 ∧ s.bw ≠ 0 then { s with m2 := put s.m2 3 (s.m2 2), m1 := put s.m1 3 ((s.m2 2).map negVec) }
  else if s.sym = 0 ∧ s.fw ≠ 0 then { s with m2 := put s.m2 3 ((s.m1 4).map negVec), m1 := put s.m1 3 (s.m1 4) }
  else s

/-- predict.cc:306-310 -/
def bBwd (ns : List Blk) (s : BSt) : BSt :=
  if s.bw = 0 ∧ s.bid > 1 then { s with m2 := put s.m2 2 (vecs ns s.bid2).2 }
  else if s.bw = 0 ∧ s.bid ≠ 0 then { s with m2 := put s.m2 2 (s.m2 1) }
  else s

/-- predict.cc:312-316 -/
def bFwd (ns : List Blk) (s : BSt) : BSt :=
  if s.fw = 0 ∧ s.bid > 1 then { s with m1 := put s.m1 4 (vecs ns s.bid2).1 }
  else if s.fw = 0 ∧ s.bid ≠ 0 then { s with m1 := put s.m1 4 (s.m1 1) }
  else s

/-- `get_mv_bskip_spatial`, predict.cc:256-320, for the neighbours `ns` (six in the code) and the skip mode `ds`. -/
def bskipCode (ns : List Blk) (ds : Nat) : Option Vec × Option Vec :=
  let s0 : BSt := ⟨fun _ => some (0, 0), fun _ => some (0, 0), 0, 0, 0, 0, 0⟩
  let s := bFwd ns (bBwd ns (bSym ns (bBid (bLoops ns 0 s0))))
  (s.m1 ds, s.m2 ds)

/-- Local variables of `get_mv_fskip_spatial`, predict.cc:408-415: the arrays `ref_skip_1st`, `ref_skip_2nd`, `mv_tskip_1st`, `mv_tskip_2nd`. -/
structure FSt where
  r1 : Nat → Int
  r2 : Nat → Int
  m1 : Nat → Option Vec
  m2 : Nat → Option Vec
  bid : Nat
  fw : Nat
  bid2 : Nat
  fw2 : Nat

/-- Body of the loop, predict.cc:418-434. -/
def fLoop (s : FSt) (j : Nat) (b : Blk) : FSt :=
  if b.r1 ≠ -1 ∧ b.r2 ≠ -1 then
    { s with r1 := put s.r1 1 b.r1, r2 := put s.r2 1 b.r2, m1 := put s.m1 1 b.v1, m2 := put s.m2 1 b.v2, bid := s.bid + 1,
             bid2 := if s.bid + 1 = 1 then j else s.bid2 }
  else if b.r1 ≠ -1 ∧ b.r2 = -1 then
    { s with r1 := put s.r1 3 b.r1, m1 := put s.m1 3 b.v1, fw := s.fw + 1, fw2 := if s.fw + 1 = 1 then j else s.fw2 }
  else s

/-- The loop over the neighbours from index `j` on, predict.cc:417. -/
def fLoops : List Blk → Nat → FSt → FSt
  | [], _, s => s
  | b :: ns, j, s => fLoops ns (j + 1) (fLoop s j b)

/-- `p_neighbors[j]`, references. -/
def refsOf (ns : List Blk) (j : Nat) : Int × Int := (ns[j]?).elim (-1, -1) fun b => (b.r1, b.r2)

/-- predict.cc:437-443 -/
def fDual1 (ns : List Blk) (s : FSt) : FSt :=
  if s.bid = 0 ∧ s.fw > 1 then
    { s with r1 := put s.r1 1 (s.r1 3), r2 := put s.r2 1 (refsOf ns s.fw2).1, m1 := put s.m1 1 (s.m1 3), m2 := put s.m2 1 (vecs ns s.fw2).1 }
  else s

/-- predict.cc:445-456 -/
def fDual2 (ns : List Blk) (s : FSt) : FSt :=
  if s.bid > 1 then
    { s with r1 := put s.r1 2 (refsOf ns s.bid2).1, r2 := put s.r2 2 (refsOf ns s.bid2).2, m1 := put s.m1 2 (vecs ns s.bid2).1,
             m2 := put s.m2 2 (vecs ns s.bid2).2 }
  else if s.bid = 1 ∧ s.fw > 1 then
    { s with r1 := put s.r1 2 (s.r1 3), r2 := put s.r2 2 (refsOf ns s.fw2).1, m1 := put s.m1 2 (s.m1 3), m2 := put s.m2 2 (vecs ns s.fw2).1 }
  else s

/-- predict.cc:458-467 -/
def fSingle1 (ns : List Blk) (s : FSt) : FSt :=
  let s := { s with r2 := put s.r2 3 (-1), m2 := put s.m2 3 (some (0, 0)) }
  if s.fw = 0 ∧ s.bid > 1 then { s with r1 := put s.r1 3 (refsOf ns s.bid2).1, m1 := put s.m1 3 (vecs ns s.bid2).1 }
  else if s.fw = 0 ∧ s.bid = 1 then { s with r1 := put s.r1 3 (s.r1 1), m1 := put s.m1 3 (s.m1 1) }
  else s

/-- predict.cc:469-481 -/
def fSingle2 (ns : List Blk) (s : FSt) : FSt :=
  let s := { s with r2 := put s.r2 4 (-1), m2 := put s.m2 4 (some (0, 0)) }
  if s.fw > 1 then { s with r1 := put s.r1 4 (refsOf ns s.fw2).1, m1 := put s.m1 4 (vecs ns s.fw2).1 }
  else if s.bid > 1 then { s with r1 := put s.r1 4 (refsOf ns s.bid2).2, m1 := put s.m1 4 (vecs ns s.bid2).2 }
  else if s.bid = 1 then { s with r1 := put s.r1 4 (s.r2 1), m1 := put s.m1 4 (s.m2 1) }
  else s

/-- `get_mv_fskip_spatial`, predict.cc:403-482: entry `ds` of the arrays. -/
def fskipCode (ns : List Blk) (ds : Nat) : Mv :=
  let s0 : FSt := ⟨fun _ => 0, fun _ => 0, fun _ => some (0, 0), fun _ => some (0, 0), 0, 0, 0, 0⟩
  let s := fSingle2 ns (fSingle1 ns (fDual2 ns (fDual1 ns (fLoops ns 0 s0))))
  ⟨s.r1 ds, s.r2 ds, s.m1 ds, s.m2 ds⟩

end Davs2.Mo
