import Verif.Spec.Alf
/-
The three in-loop filters of a picture, each applied to the whole result of the one before.  Only the
case in which slices do not limit filtering.
-/
namespace Davs2.Spec

abbrev Pic := Int → Int → Int

/-- The coding tree whose parameters the filters use at position `x` of an axis of `S` samples in trees of
`L`: borders between trees count four samples early. -/
def shiftedTree (S L : Nat) (x : Int) : Nat := min ((S + L - 1) / L - 1) ((x + 4) / L).toNat

/-- Directions of the four edge classes. -/
def saoDir : Nat → Int × Int
  | 0 => (1, 0)
  | 1 => (0, 1)
  | 2 => (1, 1)
  | _ => (-1, 1)

/-- One sample: classes 0 to 3 are edge offsets, the others band offset. -/
def saoSample (bd : Nat) (type : Nat) (off : Int → Int) (see : Int → Int → Prop) [∀ x y, Decidable (see x y)] (s : Pic) (x y : Int) : Int :=
  if type < 4 then (edgeOffset bd off (saoDir type).1 (saoDir type).2 see s x y).getD (s x y) else bandOffset bd off (s x y)

/-- Sample adaptive offset of a picture; neighbours may be looked at if they are in the picture. -/
def saoPicture (bd W H L : Nat) (prm : Nat → Nat → Option (Nat × (Int → Int))) (s : Pic) : Pic := fun x y =>
  match prm (shiftedTree W L x) (shiftedTree H L y) with
  | none => s x y
  | some p => saoSample bd p.1 p.2 (fun x y => (0 ≤ x ∧ x < W) ∧ 0 ≤ y ∧ y < H) s x y

/-- First line whose tree, counted four samples early, is `j`. -/
def firstLine (L j : Nat) : Int := if j = 0 then 0 else j * L - 4

/-- First line after those whose tree is `j`. -/
def lastLine (S L j : Nat) : Int := if j + 1 < (S + L - 1) / L then (j + 1) * L - 4 else S

/-- Lines extended to the left and right by their end samples. -/
def extendLines (W : Nat) (s : Pic) : Pic := fun x y => s (max 0 (min (W - 1) x)) y

/-- Adaptive loop filter of a picture with weights as transmitted for every tree.  Trees count four
samples early from top to bottom, but not from left to right.  Taps never leave the lines of the tree. -/
def alfPicture (bd W H L : Nat) (raw : Nat → Nat → Option (List Int)) (s : Pic) : Pic := fun x y =>
  let i := (x / L).toNat
  let j := shiftedTree H L y
  match raw i j with
  | none => s x y
  | some c =>
    let x0 : Int := i * L
    let y0 := firstLine L j
    alfSample bd c (fun u v => extendLines W s (u + x0) (v + y0)) (min (L : Int) (W - x0)) (lastLine H L j - y0) (x - x0) (y - y0)

end Davs2.Spec
