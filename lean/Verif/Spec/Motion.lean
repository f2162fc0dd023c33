import Verif.Model.Motion
import Verif.Props.AecSyntax
import Verif.Props.Units
/-
What C85 and C86 are stated with: syntax elements as the reader delivers them, motion data that is complete, reference pictures that are usable.
-/
namespace Davs2.Mo
open Davs2.Sx Davs2.Un

/-- The saved motion of a reference picture: each block has no reference, or one of the references the picture had, and then a vector. -/
def Saved.Ok (w h : Nat) (f : Saved) : Prop :=
  ∀ x y, x < w → y < h → f.ref x y = -1 ∨ (0 ≤ f.ref x y ∧ f.ref x y < f.nrefs ∧ (f.mv x y).isSome)

/-- A P, F or B picture with one to four reference pictures (B: two), size a multiple of 8 samples, coding trees of 16 to 64 samples. -/
structure Pic.Ok (p : Pic) : Prop where
  frame : p.frame = 1 ∨ p.frame = 2 ∨ p.frame = 4
  some : 0 < p.refs.length
  four : p.refs.length ≤ 4
  two : p.frame = 2 → p.refs.length = 2
  saved : ∀ f ∈ p.refs, f.Ok p.w p.h
  w : 2 ∣ p.w
  h : 2 ∣ p.h
  lcu : 4 ≤ p.lcu ∧ p.lcu ≤ 6

/-- The coding units of the coding tree at `l`, for given split decisions. -/
def tree (p : Pic) (sy : Syn) (l : Nat × Nat) : List Qt.Cu := Qt.parse (4 * p.w) (4 * p.h) sy.split (p.lcu - 3) (l.1 * 2 ^ p.lcu) (l.2 * 2 ^ p.lcu)

/-- The coding tree of a block. -/
def lcuOf (p : Pic) (X Y : Nat) : Nat × Nat := (4 * X / 2 ^ p.lcu, 4 * Y / 2 ^ p.lcu)

/-- Number of prediction units of a type that is not skip. -/
def numUnits (mode : Nat) : Nat := if mode = 1 then 1 else 2

/-- Syntax elements of a coding unit of level `l` within the ranges of the syntax. -/
structure Delivered (p : Pic) (l : Nat) (s : Sym) : Prop where
  mode : s.mode < 12
  type : TypeAt s.mode l
  ds : s.ds ≤ 4
  dmh : s.dmh ≤ 8
  dmhSkip : s.mode = 0 → s.dmh = 0
  skipB : s.mode = 0 → p.frame = 2 → s.dirs = List.replicate 4 (pdirBskip.getD s.ds 0)
  skipPF : s.mode = 0 → p.frame ≠ 2 → (s.wsm = 0 ∨ s.wsm < p.refs.length) ∧ (s.ds ≠ 0 → p.frame = 4 ∧ s.wsm = 0) ∧
    s.dirs = List.replicate 4 (if s.wsm ≠ 0 ∨ s.ds = 1 ∨ s.ds = 2 then 4 else 0)
  interB : 1 ≤ s.mode → s.mode ≤ 7 → p.frame = 2 → ∀ i < numUnits s.mode, ∃ d r, s.dirs[i]? = some d ∧ s.refs[i]? = some r ∧
    0 ≤ d ∧ d ≤ 3 ∧ BRefOk d r
  interPF : 1 ≤ s.mode → s.mode ≤ 7 → p.frame ≠ 2 → ∀ i < numUnits s.mode, ∃ d r, s.dirs[i]? = some d ∧ s.refs[i]? = some r ∧
    (d = 0 ∨ d = 4) ∧ PRefOk p.refs.length d r

/-- Complete motion data of a block.  P and F pictures: intra, or a reference and perhaps a second one, both in the list, with vectors.  B pictures: references according to the
direction (entry 1 is the forward reference, entry 0 the backward one), with vectors for those in use. -/
def BlkOk (p : Pic) (b : Blk) : Prop :=
  if p.frame = 2 then
    (-1 ≤ b.dir ∧ b.dir ≤ 3) ∧ (b.r1 = if b.dir = -1 ∨ b.dir = 1 then -1 else 1) ∧ (b.r2 = if b.dir = -1 ∨ b.dir = 0 then -1 else 0) ∧
    (b.r1 ≠ -1 → b.v1.isSome) ∧ (b.r2 ≠ -1 → b.v2.isSome)
  else (b.r1 = -1 ∧ b.r2 = -1) ∨
    ((0 ≤ b.r1 ∧ b.r1 < p.refs.length) ∧ (b.r2 = -1 ∨ (0 ≤ b.r2 ∧ b.r2 < p.refs.length)) ∧ b.v1.isSome ∧ b.v2.isSome)

/-- The references unit `i` is predicted from, as the syntax has it.  B pictures: forward (entry 1), backward (entry 0), or both; P and F pictures: one, two, or the same one twice (`dmh`). -/
def syntaxRefs (p : Pic) (s : Sym) (i : Nat) : List Int :=
  let d := s.dirs.getD i (-1)
  let r := s.refs.getD i (-1, -1)
  if p.frame = 2 then (if d = 0 then [1] else if d = 1 then [0] else [1, 0])
  else if d = 4 then [r.1, r.2] else if s.dmh = 0 then [r.1] else [r.1, r.1]

/-- The record of a coding unit with `n` prediction units after it has been decoded: an intra unit is not predicted from references; otherwise each prediction unit is predicted from one or two references of
the list; for a skipped unit the number is that of its direction (symmetric 2, bidirectional 3, dual 4); for B pictures or with references in the bit stream they are the ones named there. -/
structure Predicted (p : Pic) (s : Sym) (n : Nat) (r : CuRec) : Prop where
  intra : 8 ≤ s.mode → r.use = []
  count : s.mode < 8 → r.use.length = n
  range : ∀ us ∈ r.use, (us.length = 1 ∨ us.length = 2) ∧ ∀ u ∈ us, u.ref < p.refs.length
  skip : s.mode = 0 → ∀ us ∈ r.use, us.length = if s.dirs.getD 0 (-1) = 2 ∨ s.dirs.getD 0 (-1) = 3 ∨ s.dirs.getD 0 (-1) = 4 then 2 else 1
  exact : s.mode < 8 → s.mode ≠ 0 ∨ p.frame = 2 → r.use.map (List.map fun e => (e.ref : Int)) = (List.range n).map (syntaxRefs p s)

/-- The computation ends with a result that satisfies `Q`; the only thing that can go wrong is an overflow in scaling a vector (C34). -/
def Fine {α : Type} (m : M α) (Q : α → Prop) : Prop :=
  match m with
  | .ok a => Q a
  | .error e => e = .overflow

end Davs2.Mo
