import Verif.Lemmas.BlockCopy
import Verif.Props.Units
import Verif.Props.AecSyntax
/-
C107: prediction with a vector without fraction copies the block of the reference, on every processor and for every prediction unit; the bytes around it stay.
-/
namespace Davs2.Bc
open Davs2.Ma (Mem Byte)
open Davs2.MemSpec

/-- Every program of the two tables passes the checker for its size. -/
theorem tables_checked : ∀ wh ∈ sizes, (∃ p, sse2Table wh = some p ∧ check wh.1 wh.2 p = true) ∧ ∃ p, avxTable wh = some p ∧ check wh.1 wh.2 p = true := by
  intro wh h
  simp only [sizes, List.mem_cons, List.not_mem_nil, or_false] at h
  rcases h with rfl | rfl | rfl | rfl | rfl | rfl | rfl | rfl | rfl | rfl | rfl | rfl | rfl | rfl | rfl | rfl | rfl | rfl | rfl | rfl | rfl | rfl | rfl | rfl | rfl <;>
    exact ⟨⟨_, rfl, by decide +kernel⟩, ⟨_, rfl, by decide +kernel⟩⟩

/-- **C107.** The copy of a block: for every processor, every size of the table, whatever the registers held, if the lines of the destination do not overlap and the blocks
are apart, the destination holds the block of the source and no other byte changes. -/
theorem C107_copy (c : Cpu) (g : Nat → Int) (v : Nat → Nat → Byte) (w h : Nat) (hs : (w, h) ∈ sizes) (m : Mem) (dst i_dst src i_src : Int)
    (hw : (w : Int) ≤ i_dst) (hd : blocksApart dst i_dst src i_src w h) :
    ∃ m', copyPp c g v w h m dst i_dst src i_src = some m' ∧ blockCopied m m' dst i_dst src i_src w h := by
  unfold copyPp
  rw [if_pos hs]
  obtain ⟨⟨p, hp, hc⟩, ⟨q, hq, hc'⟩⟩ := tables_checked _ hs
  cases c with
  | plain => exact ⟨_, rfl, blockcopyC_spec w h m dst i_dst src i_src hw hd⟩
  | sse2 => exact ⟨_, by simp only [hp]; rfl, check_sound hc g v m dst i_dst src i_src hw hd⟩
  | avx => exact ⟨_, by simp only [hq]; rfl, check_sound hc' g v m dst i_dst src i_src hw hd⟩

/-- The result is determined: two memories that both are copies are equal. -/
theorem blockCopied_unique {m m1 m2 : Mem} {d a s b : Int} {w h : Nat} (h1 : blockCopied m m1 d a s b w h) (h2 : blockCopied m m2 d a s b w h) : m1 = m2 := by
  funext z
  by_cases e : ∃ r c : Nat, r < h ∧ c < w ∧ z = d + r * a + c
  · obtain ⟨r, c, hr, hc, rfl⟩ := e
    rw [h1.1 r c hr hc, h2.1 r c hr hc]
  · have e' : ∀ r c : Nat, r < h → c < w → z ≠ d + r * a + c := fun r c hr hc k => e ⟨r, c, hr, hc, k⟩
    rw [h1.2 z e', h2.2 z e']

/-- **C107.** Every processor leaves the same memory. -/
theorem C107_same (c c' : Cpu) (g g' : Nat → Int) (v v' : Nat → Nat → Byte) (w h : Nat) (m : Mem) (dst i_dst src i_src : Int)
    (hw : (w : Int) ≤ i_dst) (hd : blocksApart dst i_dst src i_src w h) :
    copyPp c g v w h m dst i_dst src i_src = copyPp c' g' v' w h m dst i_dst src i_src := by
  by_cases hs : (w, h) ∈ sizes
  · obtain ⟨m1, e1, h1⟩ := C107_copy c g v w h hs m dst i_dst src i_src hw hd
    obtain ⟨m2, e2, h2⟩ := C107_copy c' g' v' w h hs m dst i_dst src i_src hw hd
    rw [e1, e2, blockCopied_unique h1 h2]
  · unfold copyPp; rw [if_neg hs, if_neg hs]

/-- A type of an inter unit as the bit stream can give it (C32): no asymmetric partition of units of 8x8. -/
def InterType (mode level : Nat) : Prop := mode ≤ 3 ∨ (mode ≤ 7 ∧ 4 ≤ level)

theorem interType_of_parsed {level : Nat} {t : Int} (h : Sx.CuTypeOk level t) (ht : t ≠ 9) : InterType (max 0 t).toNat level := by
  unfold Sx.CuTypeOk at h; unfold InterType; omega

def unitOk (u : Un.Cb) : Bool :=
  sizes.contains (u.w, u.h) && (u.w / 2 == 2 || u.w / 2 == 6 || u.h / 2 == 2 || u.h / 2 == 6 || sizes.contains (u.w / 2, u.h / 2))

theorem units_checked : ((List.range 6).all fun frame => (List.range 5).all fun ds => (List.range 8).all fun mode => (List.range 7).all fun level =>
    level < 3 || (3 < mode && level < 4) || (Un.puUnits frame ds mode level).all unitOk) = true := by
  decide +kernel

theorem sizes_checked {frame ds mode level : Nat} (hf : frame < 6) (hds : ds < 5) (h3 : 3 ≤ level) (h6 : level ≤ 6) (ht : InterType mode level)
    (u : Un.Cb) (hu : u ∈ Un.puUnits frame ds mode level) :
    (u.w, u.h) ∈ sizes ∧ ((u.w / 2 ≠ 2 ∧ u.w / 2 ≠ 6 ∧ u.h / 2 ≠ 2 ∧ u.h / 2 ≠ 6) → (u.w / 2, u.h / 2) ∈ sizes) := by
  have h := units_checked
  simp only [List.all_eq_true, List.mem_range] at h
  unfold InterType at ht
  have h := h frame hf ds hds mode (by omega) level (by omega)
  rw [Bool.or_eq_true, Bool.or_eq_true, Bool.and_eq_true, decide_eq_true_eq, decide_eq_true_eq, decide_eq_true_eq, List.all_eq_true] at h
  rcases h with (h | h) | h
  · omega
  · omega
  · have h := h u hu
    unfold unitOk at h
    simp only [Bool.and_eq_true, Bool.or_eq_true, List.contains_iff_mem, beq_iff_eq] at h
    refine ⟨h.1, fun k => ?_⟩
    rcases h.2 with (((e | e) | e) | e) | e
    · exact absurd e k.1
    · exact absurd e k.2.1
    · exact absurd e k.2.2.1
    · exact absurd e k.2.2.2
    · exact e

/-- **C107.** Luma: every prediction unit of every inter unit has a copy function, and with a vector without fraction the block is the one of the reference at that position. -/
theorem C107_luma (c : Cpu) (g : Nat → Int) (v : Nat → Nat → Byte) (frame ds mode level : Nat) (hf : frame < 6) (hds : ds < 5) (h3 : 3 ≤ level) (h6 : level ≤ 6)
    (ht : InterType mode level) (u : Un.Cb) (hu : u ∈ Un.puUnits frame ds mode level) (m : Mem) (dst i_dst x y fref i_fref : Int) (hw : (u.w : Int) ≤ i_dst)
    (hd : blocksApart dst i_dst (fref + y * i_fref + x) i_fref u.w u.h) :
    ∃ m', mcLumaCopy c g v m dst i_dst (4 * x) (4 * y) u.w u.h fref i_fref = some m' ∧ blockCopied m m' dst i_dst (fref + y * i_fref + x) i_fref u.w u.h := by
  have hs := (sizes_checked hf hds h3 h6 ht u hu).1
  have e : fref + (4 * y / 4 * i_fref + 4 * x / 4) = fref + y * i_fref + x := by
    rw [Int.mul_ediv_cancel_left _ (by decide), Int.mul_ediv_cancel_left _ (by decide)]; omega
  unfold mcLumaCopy
  rw [e]
  exact C107_copy c g v u.w u.h hs m dst i_dst _ i_fref hw hd

/-- **C107.** Chroma: the same for the blocks of half the width and height, where widths and heights of 2 and 6 go to another function. -/
theorem C107_chroma (c : Cpu) (g : Nat → Int) (v : Nat → Nat → Byte) (frame ds mode level : Nat) (hf : frame < 6) (hds : ds < 5) (h3 : 3 ≤ level) (h6 : level ≤ 6)
    (ht : InterType mode level) (u : Un.Cb) (hu : u ∈ Un.puUnits frame ds mode level) (m : Mem) (dst i_dst x y fref i_fref : Int) (hw : ((u.w / 2 : Nat) : Int) ≤ i_dst)
    (hd : blocksApart dst i_dst (fref + y * i_fref + x) i_fref (u.w / 2) (u.h / 2)) :
    ∃ m', mcChromaCopy c g v m dst i_dst (8 * x) (8 * y) (u.w / 2) (u.h / 2) fref i_fref = some m' ∧
      blockCopied m m' dst i_dst (fref + y * i_fref + x) i_fref (u.w / 2) (u.h / 2) := by
  have hs := (sizes_checked hf hds h3 h6 ht u hu).2
  have e : fref + (8 * y / 8 * i_fref + 8 * x / 8) = fref + y * i_fref + x := by
    rw [Int.mul_ediv_cancel_left _ (by decide), Int.mul_ediv_cancel_left _ (by decide)]; omega
  unfold mcChromaCopy
  rw [e]
  by_cases hc : u.w / 2 ≠ 2 ∧ u.w / 2 ≠ 6 ∧ u.h / 2 ≠ 2 ∧ u.h / 2 ≠ 6
  · rw [if_pos hc]; exact C107_copy c g v _ _ (hs hc) m dst i_dst _ i_fref hw hd
  · rw [if_neg hc]; exact ⟨_, rfl, blockCopyRows_spec _ _ m dst i_dst _ i_fref hw hd⟩

/-- The lower unit of a unit of 16x16 split 12 to 4 lines, with AVX: reference at 100000, line distance 512. -/
example (m : Mem) : ∃ m', mcLumaCopy .avx (fun _ => 7) (fun _ _ => 7) m 0 64 (4 * 3) (4 * (-2)) 16 4 100000 512 = some m' ∧ m' (0 + (2 : Nat) * 64 + (5 : Nat)) = m 100008 := by
  obtain ⟨m', h1, h2⟩ := C107_luma .avx (fun _ => 7) (fun _ _ => 7) 1 0 5 4 (by decide) (by decide) (by decide) (by decide) (Or.inr ⟨by decide, by decide⟩) ⟨0, 12, 16, 4⟩ (by decide)
    m 0 64 3 (-2) 100000 512 (by decide) (by intro r c r' c' h1 h2 h3 h4; simp only at h1 h2 h3 h4; omega)
  exact ⟨m', h1, h2.1 2 5 (by decide) (by decide)⟩

/-- Its chroma block is 8x2 and goes through the rows. -/
example (m : Mem) : ∃ m', mcChromaCopy .sse2 (fun _ => 7) (fun _ _ => 7) m 0 64 (8 * 3) (8 * 2) 8 2 100000 256 = some m' ∧ m' (0 + (1 : Nat) * 64 + (7 : Nat)) = m 100778 := by
  obtain ⟨m', h1, h2⟩ := C107_chroma .sse2 (fun _ => 7) (fun _ _ => 7) 1 0 5 4 (by decide) (by decide) (by decide) (by decide) (Or.inr ⟨by decide, by decide⟩) ⟨0, 12, 16, 4⟩ (by decide)
    m 0 64 3 2 100000 256 (by decide) (by intro r c r' c' h1 h2 h3 h4; simp only at h1 h2 h3 h4; omega)
  exact ⟨m', h1, h2.1 1 7 (by decide) (by decide)⟩

/-- The types the bit stream gives are such types: 5 at level 4. -/
example : InterType (max 0 (5 : Int)).toNat 4 := interType_of_parsed (Or.inr (Or.inr ⟨by decide, by decide, by decide⟩)) (by decide)

end Davs2.Bc
