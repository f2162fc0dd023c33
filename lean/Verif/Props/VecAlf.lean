import Verif.Lemmas.VecAlf
import Verif.Props.Alf
/-
C81: the adaptive loop filter on processors with vector instructions.
-/
namespace Davs2.Vc
open Davs2.Spec Davs2.Sa

variable {c : Nat → Int} {src : Plane} {w h px : Int}

/-- C81, the region itself: wherever the region lies, the vector version leaves in it what the C version leaves.
Missing: weights that are not `Moderate`; see `C81_weight_violated`. -/
theorem C81_inside_partial (hc : Moderate c) (hs : Bytes src) (hw : 0 < w) (hp : px = 0 ∨ w ≤ px) (dst : Plane) (x y : Int)
    (hx : 0 ≤ x ∧ x < w) (hy : 0 ≤ y ∧ y < h) :
    some (alfBlock 8 c src h w px dst x y) = Al.block1 8 c src w h (fun x y => some (dst x y)) x y := by
  rw [Al.block1_eq, if_pos ⟨hx.1, hx.2, hy⟩]
  have nomask : w ≤ px + w - w % 16 → some (alfBlock 8 c src h w px dst x y) = Al.sample1 8 c src w h x y := by
    intro h'
    rw [alfBlock_eq (fun y d => alfRow_full h' y d), if_pos (by omega)]
    exact alfCol_sample hc hs hx.1 hx.2
  by_cases hm : w % 16 = 0
  · exact nomask (by omega)
  · rcases hp with rfl | hp
    · rw [alfBlock_eq (fun y d => alfRow_mask hw hm y d), if_pos ⟨hx.1, hx.2, hy⟩]
      exact alfCol_sample hc hs hx.1 hx.2
    · exact nomask (by omega)

/-- C81, the whole plane: for regions at the left border or of a width that is a multiple of 16 the vector version changes a plane
exactly as the C version does, inside and outside the region.
Missing: other regions (see `C81_outside_violated`) and weights that are not `Moderate`. -/
theorem C81_plane_partial (hc : Moderate c) (hs : Bytes src) (hw : 0 < w) (hp : 0 ≤ px) (hr : px = 0 ∨ w % 16 = 0) (dst : Plane) :
    (fun x y => some (alfBlock 8 c src h w px dst x y)) = Al.block1 8 c src w h (fun x y => some (dst x y)) := by
  funext x y
  rw [Al.block1_eq]
  have fin : ∀ {n}, n = w → (∀ y d, Upto c src h y n d (alfRow 8 c src h w px y d)) → some (alfBlock 8 c src h w px dst x y) =
      if 0 ≤ x ∧ x < w ∧ 0 ≤ y ∧ y < h then Al.sample1 8 c src w h x y else some (dst x y) := by
    rintro n rfl hu
    rw [alfBlock_eq hu]
    split
    · exact alfCol_sample hc hs (by omega) (by omega)
    · rfl
  by_cases hm : w % 16 = 0
  · exact fin (by omega) (fun y d => alfRow_full (by omega) y d)
  · obtain rfl : px = 0 := by omega
    exact fin rfl (fun y d => alfRow_mask hw hm y d)

/-- C81, the filter of the standard: together with the corners, which have no vector version, such a region holds the samples that
the transmitted weights define, and nothing else changes. -/
theorem C81_filter_partial (hs : Bytes src) (hw : 2 ≤ w) (hh : 4 ≤ h) (hp : 0 ≤ px) (hr : px = 0 ∨ w % 16 = 0)
    {raw : List Int} (hraw : Al.Small raw) (dst : Plane) :
    ∃ c, Al.recon raw = some c ∧ (Moderate c → ∀ x y,
      Al.block2 8 c src w h (fun x y => some (alfBlock 8 c src h w px dst x y)) x y =
        if 0 ≤ x ∧ x < w ∧ 0 ≤ y ∧ y < h then some (alfSample 8 raw src w h x y) else some (dst x y)) := by
  obtain ⟨c, e, hf⟩ := Al.C44_filter_partial (bd := 8) (src := src) (by omega) (fun x y => by have := hs x y; omega) hw hh hraw (fun x y => some (dst x y))
  refine ⟨c, e, fun hc x y => ?_⟩
  rw [C81_plane_partial hc hs (by omega) hp hr, ← hf x y]
  rfl

/-- C81 is violated outside the region: for every region that does not start at the left border and whose width is no multiple of 16,
the samples to the right of the region up to the next multiple of 16 columns are overwritten with filtered values, whatever was there. -/
theorem C81_outside_violated (hc : Moderate c) (hs : Bytes src) (hw : 0 < w) (hp : w ≤ px) (dst : Plane) {x y : Int}
    (hx : w ≤ x ∧ x < 16 * ((w + 15) / 16)) (hy : 0 ≤ y ∧ y < h) :
    some (alfBlock 8 c src h w px dst x y) = Al.sample1 8 c src (x + 1) h x y ∧
      Al.block1 8 c src w h (fun x y => some (dst x y)) x y = some (dst x y) := by
  constructor
  · rw [alfBlock_eq (fun y d => alfRow_full (by omega) y d), if_pos (by omega)]
    exact alfCol_sample hc hs (by omega) (by omega)
  · rw [Al.block1_eq, if_neg (by omega)]

/-- The table row that is read unconditionally (intrinsic_alf.cc:71) lies before the table for every multiple of 16. -/
theorem C81_mask_row_violated (w : Int) (hm : w % 16 = 0) : maskRow (w % 16 - 1) = none := by
  unfold maskRow; rw [if_neg (by omega)]

/-- Weights that smooth: one pair of −40, so that the centre weighs 144. -/
def steep : List Int := [-40, 0, 0, 0, 0, 0, 0, 0, 0]

/-- C81 is violated for steep filters: the weights are legal, the area is flat (100 everywhere), the C version leaves it as it is, the
vector version makes it 73. -/
theorem C81_weight_violated : ∃ c, Al.recon steep = some c ∧ c 8 = 144 ∧
    Al.block1 8 c (fun _ _ => 100) 16 16 (fun _ _ => some 0) 5 5 = some 100 ∧
    alfBlock 8 c (fun _ _ => 100) 16 16 0 (fun _ _ => 0) 5 5 = 73 := by
  refine ⟨_, rfl, rfl, ?_, ?_⟩
  · rw [Al.block1_eq]; rfl
  · rw [alfBlock_eq (fun y d => alfRow_full (by omega) y d), if_pos (by omega)]
    unfold alfCol alfVec alfSum
    dsimp only
    rw [u8_packus16, if_pos (by decide)]
    simp only [w16_max16, w16_min16, w16_srai16, w16_adds16, w16_set1, w16_maddubs, show ((5 : Int) % 16).toNat = 5 from rfl]
    rw [w16_alfLine _ _ 5 (by omega)]
    decide +kernel

/-! Concrete cases. -/

/-- A legal filter that meets the bound. -/
def mild : List Int := [2, -3, 4, 5, -6, 3, 2, 4, 1]

example : Al.Small mild := by unfold Al.Small mild; decide
example : ∃ c, Al.recon mild = some c ∧ Moderate c := by
  refine ⟨_, rfl, ?_⟩
  constructor <;> decide

/-- Chroma of 16x16 trees: the second tree of a row changes the first columns of the third. -/
example : ∃ c, Al.recon mild = some c ∧ alfBlock 8 c (fun x _ => 50 + x % 3) 8 8 8 (fun _ _ => 0) 9 2 = 51 := by
  refine ⟨_, rfl, ?_⟩
  apply Option.some.inj
  rw [(C81_outside_violated (by constructor <;> decide) (fun x y => by omega) (by omega) (by omega) _ (by omega) (by omega)).1]
  decide +kernel

end Davs2.Vc
