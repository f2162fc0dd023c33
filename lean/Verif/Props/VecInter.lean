import Verif.Lemmas.VecInterAvx
import Verif.Model.Mc
/-
C84: inter prediction with SSE4 and with AVX2 instructions gives what the C functions give.
-/
namespace Davs2.Vc
open Davs2.Sa (Plane)

/-! ### The C functions -/

theorem flt_sum8 (g : Int → Int) (step : Int) (c : List Int) (h : c.length = 8 ∨ c.length = 4) (a : Int) :
    flt (fun a => some (g a)) step c a = some (sum8 c fun k => g (a + k * step)) := by
  rcases h with h | h
  · match c, h with
    | [c0, c1, c2, c3, c4, c5, c6, c7], _ =>
      unfold sum8
      simp only [flt, tap, List.getD_cons_zero, List.getD_cons_succ]
      congr 1
      rw [show a + step + step + step + step + step + step + step = a + ((7 : Nat) : Int) * step by push_cast; ring,
        show a + step + step + step + step + step + step = a + ((6 : Nat) : Int) * step by push_cast; ring,
        show a + step + step + step + step + step = a + ((5 : Nat) : Int) * step by push_cast; ring,
        show a + step + step + step + step = a + ((4 : Nat) : Int) * step by push_cast; ring,
        show a + step + step + step = a + ((3 : Nat) : Int) * step by push_cast; ring,
        show a + step + step = a + ((2 : Nat) : Int) * step by push_cast; ring,
        show a + ((1 : Nat) : Int) * step = a + step by push_cast; ring,
        show a + ((0 : Nat) : Int) * step = a by push_cast; ring]
      ring
  · match c, h with
    | [c0, c1, c2, c3], _ =>
      unfold sum8
      simp only [flt, tap, List.getD_cons_zero, List.getD_cons_succ, List.getD_nil]
      congr 1
      rw [show a + step + step + step = a + ((3 : Nat) : Int) * step by push_cast; ring,
        show a + step + step = a + ((2 : Nat) : Int) * step by push_cast; ring,
        show a + ((1 : Nat) : Int) * step = a + step by push_cast; ring,
        show a + ((0 : Nat) : Int) * step = a by push_cast; ring]
      ring

theorem intplHor_view {mem : Int → Int} {stride a0 o : Int} {c : List Int} (h : c.length = 8 ∨ c.length = 4) (x y : Int) :
    intplHor (fun a => some (mem a)) o c (a0 + (y * stride + x)) = some (horF o c (view mem stride a0) x y) := by
  unfold intplHor
  rw [flt_sum8 _ _ _ h]
  refine congrArg some (clip6 ?_)
  exact sum8_congr fun k _ => congrArg mem (by ring)

theorem intplVer_view {mem : Int → Int} {stride a0 o : Int} {c : List Int} (h : c.length = 8 ∨ c.length = 4) (x y : Int) :
    intplVer (fun a => some (mem a)) stride o c (a0 + (y * stride + x)) = some (verF o c (view mem stride a0) x y) := by
  unfold intplVer
  rw [flt_sum8 _ _ _ h]
  refine congrArg some (clip6 ?_)
  exact sum8_congr fun k _ => congrArg mem (by ring)

theorem intplExt_view {mem : Int → Int} (hm : ∀ a, 0 ≤ mem a ∧ mem a ≤ 255) {stride a0 o : Int} {conv : Int → Int}
    (hconv : ∀ v, -32385 ≤ v ∧ v ≤ 32385 → conv v = v) {ch cv : List Int} (hf : Fit ch) (h : ch.length = 8 ∨ ch.length = 4)
    (h' : cv.length = 8 ∨ cv.length = 4) (x y : Int) :
    intplExt (fun a => some (mem a)) stride o conv ch cv (a0 + (y * stride + x)) = some (extF o ch cv (view mem stride a0) x y) := by
  unfold intplExt
  have e : (fun k => intplTmp (fun a => some (mem a)) conv o ch (a0 + (y * stride + x) + k * stride)) =
      fun k => some (sum8 ch fun i => mem (a0 + (y * stride + x) + k * stride - o + i * 1)) := by
    funext k
    unfold intplTmp
    rw [flt_sum8 _ _ _ h]
    refine congrArg some (hconv _ ?_)
    exact sum8_range hf fun i _ => by have := hm (a0 + (y * stride + x) + k * stride - o + i * 1); omega
  rw [e, flt_sum8 _ _ _ h']
  refine congrArg some (clip12 ?_)
  exact sum8_congr fun k _ => sum8_congr fun i _ => congrArg mem (by ring)

/-! ### The filters -/

theorem luma_filters (d : Nat) (h : 1 ≤ d ∧ d < 4) : Luma (intplFilters.getD d []) ∧ (intplFilters.getD d []).length = 8 := by
  obtain ⟨h1, h2⟩ := h
  interval_cases d <;> exact ⟨⟨by unfold Fit tap; decide, by unfold Sym8 tap; decide⟩, rfl⟩

theorem chroma_filters (d : Nat) (h : 1 ≤ d ∧ d < 8) : Chroma (intplFiltersC.getD d []) ∧ (intplFiltersC.getD d []).length = 4 := by
  obtain ⟨h1, h2⟩ := h
  interval_cases d <;> exact ⟨⟨by unfold Fit tap; decide, by unfold tap; decide, by unfold Sym4 tap; decide⟩, rfl⟩

/-- Only behind the end of the table can the wrong entry be equal. -/
theorem not_sym (beyond : Int) (d : Nat) (h : 1 ≤ d ∧ d < 8) (hd : beyond ≠ 6 ∨ d ≠ 7) :
    ¬ tap (intplFiltersC.getD d []) 1 = coefY6 beyond d := by
  obtain ⟨h1, h2⟩ := h
  by_cases h7 : d = 7
  · subst h7
    have e : tap (intplFiltersC.getD 7 []) 1 = 6 := rfl
    unfold coefY6
    rw [if_neg (by omega), e]
    omega
  · unfold coefY6 tap
    rw [if_pos (by omega)]
    clear hd
    interval_cases d <;> first | omega | decide

/-! ### Selection -/

section
variable {src : Plane} (hb : AllBytes src)
include hb

theorem fills_lumaHor (cpu : Cpu) {c : List Int} (hc : Luma c) (w h : Nat) (hw : w % 4 = 0) (d : Plane) :
    Fills (Rg 0 w 0 h) (horF 3 c src) d (lumaHor src cpu c w h d) := by
  unfold lumaHor
  split
  · split
    · exact fills_lumaHorW16 hb hc w h (by omega) d
    · exact fills_lumaHorW16 hb hc w h (by omega) d
    · exact fills_lumaHorW16 hb hc w h (by omega) d
    · exact fills_lumaHorW16 hb hc w h (by omega) d
    · obtain rfl : w = 24 := by omega
      exact fills_lumaHorW24 hb hc h d
    · exact fills_lumaHorS hb hc w h d
  · exact fills_lumaHorS hb hc w h d

theorem fills_lumaVer (cpu : Cpu) (dy : Nat) (hdy : 1 ≤ dy ∧ dy < 4) (w h : Nat) (hw : w % 4 = 0) (hh : h % 4 = 0) (d : Plane) :
    Fills (Rg 0 w 0 h) (verF 3 (intplFilters.getD dy []) src) d (lumaVer src cpu dy (intplFilters.getD dy []) w h d) := by
  have hc := (luma_filters dy hdy).1
  unfold lumaVer
  split
  · split
    · obtain rfl : w = 16 := by omega
      exact fills_lumaVerW16 hb hc h (by omega) d
    · obtain rfl : w = 24 := by omega
      exact fills_lumaVerW24 hb hc h d
    · obtain rfl : w = 32 := by omega
      exact fills_lumaVerW32 hb hc h d
    · obtain rfl : w = 48 := by omega
      exact fills_lumaVerW48 hb hc h d
    · obtain rfl : w = 64 := by omega
      exact fills_lumaVerW64 hb hc h d
    · exact fills_lumaVerS hb hc w h hh d
  · obtain rfl | rfl | rfl : dy = 1 ∨ dy = 2 ∨ dy = 3 := by omega
    · exact fills_lumaVer3S hb hc ver0 (fun t j hj => w16_ver0 t j hj) w h d
    · exact fills_lumaVer3S hb hc ver1 (fun t j hj => w16_ver1 t j hj) w h d
    · exact fills_lumaVer3S hb hc ver2 (fun t j hj => w16_ver2 t j hj) w h d

theorem fills_lumaExt (cpu : Cpu) {cx cy : List Int} (hx : Luma cx) (hy : Luma cy) (t0 : Plane) (w h : Nat) (hw : w % 4 = 0) (hh : h % 4 = 0)
    (d : Plane) : Fills (Rg 0 w 0 h) (extF 3 cx cy src) d (lumaExt src cpu t0 cx cy w h d) := by
  unfold lumaExt
  split
  · split
    · exact fills_lumaExtW16 hb hx hy t0 w h (by omega) d
    · exact fills_lumaExtW16 hb hx hy t0 w h (by omega) d
    · exact fills_lumaExtW16 hb hx hy t0 w h (by omega) d
    · exact fills_lumaExtW16 hb hx hy t0 w h (by omega) d
    · obtain rfl : w = 24 := by omega
      exact fills_lumaExtW24 hb hx hy t0 h d
    · exact fills_lumaExtS hb hx hy t0 w h hh d
  · exact fills_lumaExtS hb hx hy t0 w h hh d

theorem fills_chromaHor (cpu : Cpu) {c : List Int} (hc : Chroma c) (w h : Nat) (hw : w % 2 = 0) (d : Plane) :
    Fills (Rg 0 w 0 h) (horF 1 c src) d (chromaHor src cpu c w h d) := by
  unfold chromaHor
  split
  · split
    · exact fills_chromaHorW16 hb hc w h (by omega) d
    · exact fills_chromaHorW16 hb hc w h (by omega) d
    · obtain rfl : w = 24 := by omega
      exact fills_chromaHorW24 hb hc h d
    · exact fills_chromaHorS hb hc w h d
  · exact fills_chromaHorS hb hc w h d

omit hb in
theorem fills_chromaVerCBlock {c : List Int} (hc : Chroma c) (w h : Nat) (d : Plane) :
    Fills (Rg 0 w 0 h) (verF 1 c src) d (chromaVerCBlock src c w h d) := by
  intro x y
  unfold Rg chromaVerCBlock
  constructor
  · intro r
    rw [if_pos (by omega)]
    refine clip6 ?_
    unfold sum8
    dsimp only
    rw [hc.four.1, hc.four.2.1, hc.four.2.2.1, hc.four.2.2.2, show y - 1 + ((0 : Nat) : Int) = y - 1 by omega,
      show y - 1 + ((1 : Nat) : Int) = y by omega, show y - 1 + ((2 : Nat) : Int) = y + 1 by omega,
      show y - 1 + ((3 : Nat) : Int) = y + 2 by omega]
    ring
  · intro r
    rw [if_neg (by omega)]

theorem fills_chromaVer (cpu : Cpu) {c : List Int} (hc : Chroma c) (w h : Nat) (hw : w % 2 = 0) (hh : h % 2 = 0) (d : Plane) :
    Fills (Rg 0 w 0 h) (verF 1 c src) d (chromaVer src cpu c w h d) := by
  unfold chromaVer
  split
  · split
    · obtain rfl : w = 16 := by omega
      exact fills_chromaVerW16 hb hc h hh d
    · obtain rfl : w = 24 := by omega
      exact fills_chromaVerW24 hb hc h d
    · obtain rfl : w = 32 := by omega
      exact fills_chromaVerW32 hb hc h d
    · exact fills_chromaVerS hb hc w h d
  · exact fills_chromaVerCBlock hc w h d

theorem fills_chromaExt (cpu : Cpu) {cx cy : List Int} (hx : Chroma cx) (hy : Chroma cy) (t0 : Plane) (sym : Prop) [Decidable sym] (hs : ¬ sym)
    (w h : Nat) (hw : w % 2 = 0) (hh : h % 2 = 0) (d : Plane) : Fills (Rg 0 w 0 h) (extF 1 cx cy src) d (chromaExt src cpu t0 sym cx cy w h d) := by
  unfold chromaExt
  split
  · split
    · exact fills_chromaExtW16 hb hx hy t0 sym hs w h (by omega) d
    · exact fills_chromaExtW16 hb hx hy t0 sym hs w h (by omega) d
    · obtain rfl : w = 24 := by omega
      exact fills_chromaExtW24 hb hx hy t0 sym hs h d
    · exact fills_chromaExtS hb hx hy t0 sym hs w h hh d
  · exact fills_chromaExtS hb hx hy t0 sym hs w h hh d

end

/-! ### The theorems -/

/-- `d'` has the samples that the C function `ref` gives inside the block of `w × h` samples, and is `d` outside. -/
def Predicts (ref : Nat → Nat → Option Int) (w h : Nat) (d d' : Plane) : Prop :=
  (∀ x y : Nat, x < w → y < h → ref x y = some (d' x y)) ∧ ∀ x y : Int, ¬ (0 ≤ x ∧ x < w ∧ 0 ≤ y ∧ y < h) → d' x y = d x y

theorem predicts_of {f d d' : Plane} {w h : Nat} (hF : Fills (Rg 0 w 0 h) f d d') {ref : Nat → Nat → Option Int}
    (hr : ∀ x y : Nat, ref x y = some (f x y)) : Predicts ref w h d d' := by
  constructor
  · intro x y hx hy
    rw [hr, (hF x y).1 (by unfold Rg; omega)]
  · intro x y hn
    exact (hF x y).2 (by unfold Rg; omega)

theorem view_bytes {mem : Int → Int} (hm : ∀ a, 0 ≤ mem a ∧ mem a ≤ 255) (stride a : Int) : AllBytes (view mem stride a) := fun _ _ => hm _

/-- **C84, luma.**  Whatever is in the reference picture (bytes), on the stack and in the destination, and whichever of the two sets of
instructions the processor has: for every position with a fraction and every block whose sides are multiples of four, the block gets the samples
that the C functions give, and nothing else is written. -/
theorem C84_luma (cpu : Cpu) (mem : Int → Int) (hm : ∀ a, 0 ≤ mem a ∧ mem a ≤ 255) (t0 : Plane) (stride posx posy : Int) (w h : Nat)
    (hw : w % 4 = 0) (hh : h % 4 = 0) (hp : ¬ (posx % 4 = 0 ∧ posy % 4 = 0)) (d : Plane) :
    Predicts (mcLuma (fun a => some (mem a)) stride posx posy) w h d (mcLumaV cpu mem t0 stride posx posy w h d) := by
  have hb := view_bytes hm stride (posy / 4 * stride + posx / 4)
  have conv : ∀ v, -32385 ≤ v ∧ v ≤ 32385 → toInt16 v = v := fun v hv => by unfold toInt16; omega
  unfold mcLumaV
  dsimp only
  by_cases hx : (posx % 4).toNat = 0
  · rw [if_pos hx]
    have hy : 1 ≤ (posy % 4).toNat ∧ (posy % 4).toNat < 4 := by omega
    refine predicts_of (fills_lumaVer hb cpu _ hy w h hw hh d) fun x y => ?_
    unfold mcLuma
    dsimp only
    rw [if_neg (by omega), if_pos hx]
    exact intplVer_view (Or.inl (luma_filters _ hy).2) x y
  · rw [if_neg hx]
    have hx' : 1 ≤ (posx % 4).toNat ∧ (posx % 4).toNat < 4 := by omega
    by_cases hy : (posy % 4).toNat = 0
    · rw [if_pos hy]
      refine predicts_of (fills_lumaHor hb cpu (luma_filters _ hx').1 w h hw d) fun x y => ?_
      unfold mcLuma
      dsimp only
      rw [if_neg (by omega), if_neg hx, if_pos hy]
      exact intplHor_view (Or.inl (luma_filters _ hx').2) x y
    · rw [if_neg hy]
      have hy' : 1 ≤ (posy % 4).toNat ∧ (posy % 4).toNat < 4 := by omega
      refine predicts_of (fills_lumaExt hb cpu (luma_filters _ hx').1 (luma_filters _ hy').1 t0 w h hw hh d) fun x y => ?_
      unfold mcLuma
      dsimp only
      rw [if_neg (by omega), if_neg hx, if_neg hy]
      exact intplExt_view hm conv (luma_filters _ hx').1.fit (Or.inl (luma_filters _ hx').2) (Or.inl (luma_filters _ hy').2) x y

/-- **C84, chroma, in part.**  The same for chroma and blocks with even sides, unless the vertical fraction is 7/8 (and there is a horizontal one)
and the byte behind the table of filters, which the code reads then, is 6. -/
theorem C84_chroma_partial (cpu : Cpu) (beyond : Int) (mem : Int → Int) (hm : ∀ a, 0 ≤ mem a ∧ mem a ≤ 255) (t0 : Plane) (stride posx posy : Int)
    (w h : Nat) (hw : w % 2 = 0) (hh : h % 2 = 0) (hp : ¬ (posx % 8 = 0 ∧ posy % 8 = 0)) (hy7 : beyond ≠ 6 ∨ posy % 8 ≠ 7 ∨ posx % 8 = 0)
    (d : Plane) :
    Predicts (mcChroma (fun a => some (mem a)) stride posx posy) w h d (mcChromaV cpu beyond mem t0 stride posx posy w h d) := by
  have hb := view_bytes hm stride (posy / 8 * stride + posx / 8)
  unfold mcChromaV
  dsimp only
  by_cases hx : (posx % 8).toNat = 0
  · rw [if_pos hx]
    have hy : 1 ≤ (posy % 8).toNat ∧ (posy % 8).toNat < 8 := by omega
    refine predicts_of (fills_chromaVer hb cpu (chroma_filters _ hy).1 w h hw hh d) fun x y => ?_
    unfold mcChroma
    dsimp only
    rw [if_neg (by omega), if_pos hx]
    exact intplVer_view (Or.inr (chroma_filters _ hy).2) x y
  · rw [if_neg hx]
    have hx' : 1 ≤ (posx % 8).toNat ∧ (posx % 8).toNat < 8 := by omega
    by_cases hy : (posy % 8).toNat = 0
    · rw [if_pos hy]
      refine predicts_of (fills_chromaHor hb cpu (chroma_filters _ hx').1 w h hw d) fun x y => ?_
      unfold mcChroma
      dsimp only
      rw [if_neg (by omega), if_neg hx, if_pos hy]
      exact intplHor_view (Or.inr (chroma_filters _ hx').2) x y
    · rw [if_neg hy]
      have hy' : 1 ≤ (posy % 8).toNat ∧ (posy % 8).toNat < 8 := by omega
      refine predicts_of (fills_chromaExt hb cpu (chroma_filters _ hx').1 (chroma_filters _ hy').1 t0 _
        (not_sym beyond _ hy' (by omega)) w h hw hh d) fun x y => ?_
      unfold mcChroma
      dsimp only
      rw [if_neg (by omega), if_neg hx, if_neg hy]
      exact intplExt_view hm (fun _ _ => rfl) (chroma_filters _ hx').1.fit (Or.inr (chroma_filters _ hx').2) (Or.inr (chroma_filters _ hy').2) x y

/-- The hypotheses are met by a picture that is not flat, and the sample is not one of the reference. -/
example : Predicts (mcLuma (fun a => some (a * a % 256)) 64 (4 * 10 + 1) (4 * 10 + 3)) 24 16 (fun _ _ => 0)
    (mcLumaV .avx2 (fun a => a * a % 256) (fun _ _ => 12345) 64 (4 * 10 + 1) (4 * 10 + 3) 24 16 (fun _ _ => 0)) :=
  C84_luma .avx2 _ (fun a => by omega) _ 64 _ _ 24 16 (by decide) (by decide) (by decide) _

example : mcLuma (fun a => some (a * a % 256)) 64 (4 * 10 + 1) (4 * 10 + 3) 5 7 = some 152 := by decide +kernel

/-! ### The filter for 7/8 -/

/-- With a byte 6 behind the table, the chroma sample of a picture that is 100 everywhere is predicted as 19; the C function gives 100.  (Any
stack, stride and destination; block of 2 × 2 samples, position (1/8, 7/8).) -/
theorem C84_chroma_violated (cpu : Cpu) (t0 : Plane) (stride : Int) (d : Plane) :
    mcChromaV cpu 6 (fun _ => 100) t0 stride 1 7 2 2 d 0 0 = 19 ∧ mcChroma (fun _ => some 100) stride 1 7 0 0 = some 100 := by
  constructor
  · have hb : AllBytes (view (fun _ => 100) stride (7 / 8 * stride + 1 / 8)) := fun _ _ => by unfold view; dsimp only; omega
    have hx := (chroma_filters 1 (by omega)).1
    have hy := (chroma_filters 7 (by omega)).1
    have hu : useAvx2 cpu 2 = false := by cases cpu <;> rfl
    have hs : tap (intplFiltersC.getD 7 []) 1 = coefY6 6 7 := rfl
    have e : mcChromaV cpu 6 (fun _ => 100) t0 stride 1 7 2 2 d = chromaExt (view (fun _ => 100) stride (7 / 8 * stride + 1 / 8)) cpu t0
        (tap (intplFiltersC.getD 7 []) 1 = coefY6 6 7) (intplFiltersC.getD 1 []) (intplFiltersC.getD 7 []) 2 2 d := by
      unfold mcChromaV
      dsimp only
      rw [if_neg (by decide), if_neg (by decide)]
      rfl
    rw [e]
    unfold chromaExt
    rw [hu, if_neg Bool.false_ne_true]
    obtain ⟨W, hW, ht⟩ := fills_chromaTmpS hb hx 2 2 t0
    unfold chromaExtS
    dsimp only
    generalize chromaTmpS (view (fun _ => 100) stride (7 / 8 * stride + 1 / 8)) (intplFiltersC.getD 1 []) 2 2 t0 = t at ht
    refine ((fills_rows (f := fun _ _ => 19) (x0 := 0) (w := 2) 0 2 ((2 + 1) / 2) (fun g hg d => ?_) d) 0 0).1 (by unfold Rg; omega)
    rw [zero_add, if_pos hs, if_neg (by omega)]
    refine fills_rows1 (2 * g) 2 (fun r hr d => ?_) d
    have hx0 : (8 * (((2 : Nat) : Int) / 8) : Int) = 0 := by decide
    rw [hx0]
    refine fills_storeMask (m := 2) (by omega) (by omega) fun j hj => ?_
    have hd : d32 (extC unpacklo16y (tap (intplFiltersC.getD 7 []) 1 = coefY6 6 7) (intplFiltersC.getD 7 [])
        fun i : Nat => loadW t 0 (2 * g + (0 + i : Nat))) j = 19 := by
      unfold extC
      rw [if_pos hs]
      have hw : ∀ i : Nat, i < 5 → w16 (loadW t 0 (2 * g + (0 + i : Nat))) j = 6400 := by
        intro i hi
        rw [w16_tmp hb hx.fit ht _ _ _ (by omega) (by omega)]
        show sum8 (intplFiltersC.getD 1 []) (fun _ => 100) = 6400
        decide
      have hun : ∀ a b : V, w16 (unpacklo16y a b) (2 * j) = w16 a j ∧ w16 (unpacklo16y a b) (2 * j + 1) = w16 b j := by
        intro a b
        have := w16_lo16y a b j
        rwa [show 8 * (j / 4) + j % 4 = j by omega] at this
      refine (d32_round (x := 76800) ?_).trans (by decide)
      rw [d32_add32, d32_madds hy.fit hun _ _ _ (by omega), d32_madds hy.fit hun _ _ _ (by omega), hw 0 (by omega), hw 1 (by omega),
        hw 2 (by omega), hw 3 (by omega)]
      decide
    rw [u8_packus16, if_pos (by omega), w16_packs32y, if_pos (by omega), show 4 * (j / 8) + j % 8 = j by omega]
    refine (congrArg (fun v => satu8 (sat16 v)) hd).trans ?_
    decide
  · have e : mcChroma (fun a => some ((fun _ => 100) a)) stride 1 7 0 0 = some (extF 1 (intplFiltersC.getD 1 []) (intplFiltersC.getD 7 [])
        (view (fun _ => 100) stride (7 / 8 * stride + 1 / 8)) 0 0) := by
      have hx1 : ((1 : Int) % 8).toNat = 1 := rfl
      have hy7 : ((7 : Int) % 8).toNat = 7 := rfl
      unfold mcChroma
      dsimp only
      simp only [hx1, hy7]
      rw [if_neg (by omega), if_neg (by omega), if_neg (by omega)]
      exact intplExt_view (mem := fun _ => 100) (fun _ => by omega) (fun _ _ => rfl) (chroma_filters 1 (by omega)).1.fit
        (Or.inr (chroma_filters 1 (by omega)).2) (Or.inr (chroma_filters 7 (by omega)).2) 0 0
    refine e.trans ?_
    show some (extF 1 (intplFiltersC.getD 1 []) (intplFiltersC.getD 7 []) (fun _ _ => 100) 0 0) = some 100
    decide

/-- The hypotheses of `C84_chroma_partial` are met also for the fraction 7/8. -/
example : Predicts (mcChroma (fun a => some (a * a % 256)) 64 9 15) 12 6 (fun _ _ => 0)
    (mcChromaV .avx2 0 (fun a => a * a % 256) (fun _ _ => 12345) 64 9 15 12 6 (fun _ _ => 0)) :=
  C84_chroma_partial .avx2 0 _ (fun a => by omega) _ 64 _ _ 12 6 (by decide) (by decide) (by decide) (by decide) _

/-- **C84, the masks.**  For widths that are multiples of 8 a row in front of the table of masks is loaded (it is not used then); for all other
widths the row is in the table. -/
theorem C84_mask_violated (w : Nat) : (maskRow (maskIndex w)).isSome = true ↔ w % 8 ≠ 0 := by
  unfold maskRow maskIndex
  by_cases h : w % 8 = 0
  · rw [if_neg (by omega)]; simp [h]
  · rw [if_pos (by omega)]; simp [h]

example : maskRow (maskIndex 16) = none := rfl

/-! ### Average -/

/-- `d'` is `g` of `d` in the region and `d` elsewhere. -/
def Maps (S : Int → Int → Prop) (g : Int → Int → Int → Int) (d d' : Plane) : Prop :=
  ∀ x y, (S x y → d' x y = g x y (d x y)) ∧ (¬ S x y → d' x y = d x y)

theorem Maps.of_fills {S : Int → Int → Prop} {g : Int → Int → Int → Int} {d d' : Plane} (h : Fills S (fun x y => g x y (d x y)) d d') : Maps S g d d' := h

theorem Maps.trans {S T U : Int → Int → Prop} {g : Int → Int → Int → Int} {d0 d1 d2 : Plane} (a : Maps S g d0 d1) (b : Maps T g d1 d2)
    (h : ∀ x y, U x y ↔ S x y ∨ T x y) (hd : ∀ x y, S x y → ¬ T x y) : Maps U g d0 d2 := by
  intro x y
  constructor
  · intro u
    by_cases s : S x y
    · rw [(b x y).2 (hd x y s), (a x y).1 s]
    · rw [(b x y).1 (((h x y).1 u).resolve_left s), (a x y).2 s]
  · intro u
    rw [(b x y).2 (fun t => u ((h x y).2 (Or.inr t))), (a x y).2 (fun s => u ((h x y).2 (Or.inl s)))]

theorem Maps.congr {S T : Int → Int → Prop} {g : Int → Int → Int → Int} {d0 d : Plane} (a : Maps S g d0 d) (h : ∀ x y, T x y ↔ S x y) : Maps T g d0 d :=
  fun x y => ⟨fun t => (a x y).1 ((h x y).1 t), fun t => (a x y).2 (fun s => t ((h x y).2 s))⟩

theorem maps_times {g : Int → Int → Int → Int} {step : Nat → Plane → Plane} (U : Nat → Int → Int → Prop) (S : Nat → Int → Int → Prop)
    (h0 : ∀ x y, ¬ U 0 x y) (hU : ∀ n x y, U (n + 1) x y ↔ U n x y ∨ S n x y) (hd : ∀ n x y, U n x y → ¬ S n x y) (n : Nat)
    (hs : ∀ i, i < n → ∀ d, Maps (S i) g d (step i d)) (d : Plane) : Maps (U n) g d (times step n d) := by
  induction n with
  | zero => exact fun x y => ⟨fun u => absurd u (h0 x y), fun _ => rfl⟩
  | succ n ih => exact (ih fun i hi => hs i (by omega)).trans (hs n (by omega) _) (hU n) (hd n)

theorem u8_avg (a b : V) (j : Nat) : u8 (avgu8 a b) j = (u8 a j + u8 b j + 1) / 2 := by
  have := u8_range a j
  have := u8_range b j
  unfold avgu8; rw [u8_ofB]; omega

/-- **C84, average.**  The average of two predictions, taken in place, is in every sample of a block of any size what the C function gives,
and nothing else is written. -/
theorem C84_average (s1 d : Plane) (h1 : AllBytes s1) (h0 : AllBytes d) (w h : Nat) (x y : Int) :
    averageV s1 w h d x y = if 0 ≤ x ∧ x < w ∧ 0 ≤ y ∧ y < h then pixelAverage (d x y) (s1 x y) else d x y := by
  have key : Maps (Rg 0 w 0 h) (fun x y v => (v % 256 + s1 x y + 1) / 2) d (averageV s1 w h d) := by
    have lane : ∀ (d : Plane) (x y : Int) (j : Nat), u8 (avgu8 (load d x y) (load s1 x y)) j = (d (x + j) y % 256 + s1 (x + j) y + 1) / 2 := by
      intro d x y j
      rw [u8_avg, u8_ld h1]
      unfold load
      rw [u8_ofB]
    refine maps_times (fun n => Rg 0 w 0 n) (fun n => Rg 0 w n 1) (fun x y => by unfold Rg; omega) (fun n x y => by unfold Rg; omega)
      (fun n x y => by unfold Rg; omega) h (fun y _ d => ?_) d
    have row : Maps (Rg 0 (16 * (w / 16 : Nat)) y 1) (fun x y v => (v % 256 + s1 x y + 1) / 2) d
        (times (fun c d => store d (16 * c) y (avgu8 (load d (16 * c) y) (load s1 (16 * c) y))) (w / 16) d) := by
      refine maps_times (fun n => Rg 0 (16 * n) y 1) (fun n => Rg (16 * n) 16 y 1) (fun x y => by unfold Rg; omega)
        (fun n x y => by unfold Rg; omega) (fun n x y => by unfold Rg; omega) (w / 16) (fun c _ d => ?_) d
      exact Maps.of_fills (fills_store fun j _ => lane d _ _ j)
    dsimp only
    by_cases hw : w % 16 = 0
    · rw [if_pos hw]
      exact row.congr fun x y => by unfold Rg; omega
    · rw [if_neg hw]
      refine row.trans (T := Rg (16 * (w / 16 : Nat)) (w % 16 : Nat) y 1) ?_ (fun x y => by unfold Rg; omega) (fun x y => by unfold Rg; omega)
      generalize times (fun c d => store d (16 * c) y (avgu8 (load d (16 * c) y) (load s1 (16 * c) y))) (w / 16) d = d1
      have := Maps.of_fills (g := fun x y v => (v % 256 + s1 x y + 1) / 2) (fills_storeMask (d := d1) (x := 16 * (w / 16 : Nat)) (y := y)
        (v := avgu8 (load d1 (16 * (w / 16 : Nat)) y) (load s1 (16 * (w / 16 : Nat)) y)) (m := w % 16) (by omega) (by omega)
        fun j _ => lane d1 _ _ j)
      push_cast at this ⊢
      exact this
  by_cases hr : 0 ≤ x ∧ x < w ∧ 0 ≤ y ∧ y < h
  · rw [if_pos hr, (key x y).1 (by unfold Rg; omega)]
    have a := h0 x y
    have b := h1 x y
    unfold pixelAverage
    dsimp only
    omega
  · rw [if_neg hr, (key x y).2 (by unfold Rg; omega)]

example : averageV (fun x y => (x + y) % 256) 20 3 (fun x _ => (7 * x) % 256) 18 2 = 73 := by
  rw [C84_average _ _ (fun x y => by omega) (fun x y => by omega)]; rfl

end Davs2.Vc
