import Verif.Lemmas.Intra
/-
C48, C63, C64: intra prediction.
-/
namespace Davs2.Ip
open Davs2.Spec

variable {w h x y mode : Nat}

theorem shape_pos (hs : (w, h) ∈ shapes) : 4 ≤ w ∧ 4 ≤ h := shape_cases (fun q => 4 ≤ q.1 ∧ 4 ≤ q.2) (by decide) hs

/-- A border that agrees with `s` wherever a block may look and takes the value `v` elsewhere. -/
def cut (w h : Nat) (s : Border) (v : Int) : Border :=
  fun i => if -(reach h w : Int) ≤ i ∧ i ≤ reach w h then s i else v

theorem agree_cut (s : Border) (v : Int) : Agree w h s (cut w h s v) := fun i h0 h1 => by
  unfold cut; rw [if_pos ⟨h0, h1⟩]

theorem cut_range {s : Border} {v lo hi : Int} (h1 : lo ≤ v ∧ v ≤ hi)
    (hs : ∀ i : Int, -(reach h w : Int) ≤ i → i ≤ reach w h → lo ≤ s i ∧ s i ≤ hi) (i : Int) :
    lo ≤ cut w h s v i ∧ cut w h s v i ≤ hi := by
  unfold cut; split
  · rename_i h; exact hs i h.1 h.2
  · exact h1

/-- C48: whatever legal samples surround a block, every mode predicts legal samples. -/
theorem C48_legal (bd : Nat) (top left : Bool) (s : Border) (hs : (w, h) ∈ shapes) (hx : x < w) (hy : y < h) (hm : mode < 33)
    (hl : ∀ i : Int, -(reach h w : Int) ≤ i → i ≤ reach w h → 0 ≤ s i ∧ s i ≤ 2 ^ bd - 1) :
    0 ≤ general bd top left s mode w h x y ∧ general bd top left s mode w h x y ≤ 2 ^ bd - 1 := by
  have hp := shape_pos hs
  have h0 : (0 : Int) ≤ 2 ^ bd - 1 := by have := Int.pow_pos (n := 2) (m := bd) (by decide); omega
  by_cases h3 : 3 ≤ mode
  · rw [general_congr bd top left (agree_cut s 0) (by omega) (by omega) hx hy hm]
    exact directional_range bd top left 0 _ (cut_range ⟨Int.le_refl _, h0⟩ hl) h3
  · simp only [general]
    rcases (by omega : mode = 0 ∨ mode = 1 ∨ mode = 2) with e | e | e <;> subst e <;> simp only [reduceIte, OfNat.ofNat_ne_zero,
      OfNat.ofNat_ne_one, one_ne_zero] <;> exact clip_legal _ _ h0

/-- C48: the directional modes never leave the range of the samples around the block. -/
theorem C48_between (bd : Nat) (top left : Bool) (s : Border) (lo hi : Int) (hs : (w, h) ∈ shapes) (hx : x < w) (hy : y < h)
    (h3 : 3 ≤ mode) (hm : mode < 33) (hl : ∀ i : Int, -(reach h w : Int) ≤ i → i ≤ reach w h → lo ≤ s i ∧ s i ≤ hi) :
    lo ≤ general bd top left s mode w h x y ∧ general bd top left s mode w h x y ≤ hi := by
  have hp := shape_pos hs
  rw [general_congr bd top left (agree_cut s (s 0)) (by omega) (by omega) hx hy hm]
  exact directional_range bd top left lo hi (cut_range (hl 0 (by omega) (by omega)) hl) h3

/-- C48: a flat border predicts a flat block, except for the DC mode with both neighbours and the bilinear
mode on blocks that are not square. -/
theorem C48_flat_partial (top left : Bool) (s : Border) (v : Int) (hv : 0 ≤ v ∧ v ≤ 255) (hs : (w, h) ∈ shapes)
    (hx : x < w) (hy : y < h) (hm : mode < 33) (hl : ∀ i : Int, -(reach h w : Int) ≤ i → i ≤ reach w h → s i = v)
    (hd : mode = 0 → w = h ∨ top = false ∨ left = false) (hg : mode = 0 → top = true ∨ left = true ∨ v = 128)
    (hb : mode = 2 → w = h) :
    general 8 top left s mode w h x y = v := by
  have hp := shape_pos hs
  by_cases h3 : 3 ≤ mode
  · have := C48_between 8 top left s v v hs hx hy h3 hm (fun i a b => by rw [hl i a b]; omega)
    omega
  · rw [general_congr 8 top left (t := fun _ => v) hl (by omega) (by omega) hx hy hm]
    have hv8 : v ≤ 2 ^ 8 - 1 := hv.2
    simp only [general]
    rcases (by omega : mode = 0 ∨ mode = 1 ∨ mode = 2) with e | e | e <;> subst e
    · rw [if_pos rfl]
      cases top <;> cases left
      · simp only [dc]
        have := hg rfl
        simp at this
        subst this
        simp only [reduceIte, Bool.false_eq_true]
        decide
      · simp only [dc, reduceIte, Bool.false_eq_true]
        rw [mean_flat v h (by omega)]
        exact clip_id hv.1 hv8
      · simp only [dc, reduceIte, Bool.false_eq_true]
        rw [mean_flat v w (by omega)]
        exact clip_id hv.1 hv8
      · have e : w = h := by have := hd rfl; simp at this; exact this
        subst e
        exact dc_flat_square 8 v hv.1 hv8 hs
    · rw [if_neg (by decide), if_pos rfl]
      exact plane_flat 8 v hv.1 hv8
    · rw [if_neg (by decide), if_neg (by decide), if_pos rfl]
      have e := hb rfl
      subst e
      rw [bilinear_exact hs hx hy (fun _ => hv)]
      simp only [bilinear8, if_true]
      rw [show (v + v + 1) / 2 = v by omega, show 2 * v - v - v = 0 by omega, Int.sub_self]
      have hw : (0 : Int) < 2 * w * w := Int.mul_pos (by omega) (by omega)
      have e2 : (v * w + 0 * ((x : Int) + 1)) * w + (v * w + 0 * ((y : Int) + 1)) * w + 0 * (x : Int) * y + w * w
          = w * w + v * (2 * w * w) := by ring
      rw [e2, Int.add_mul_ediv_right _ _ (by omega), Int.ediv_eq_zero_of_lt (by positivity) (by
        have : (2 : Int) * w * w = w * w + w * w := by ring
        omega)]
      omega

/-- C48 fails for the DC mode on blocks that are not square: on an all-white border a 16x4 block comes out
as 249 (the quotient 512/20 is truncated), and for the bilinear mode: an all-grey border gives 129. -/
theorem C48_flat_violated :
    (∃ mode w h x y, (w, h) ∈ shapes ∧ x < w ∧ y < h ∧ mode = 0 ∧ general 8 true true (fun _ => 255) mode w h x y ≠ 255) ∧
    (∃ mode w h x y, (w, h) ∈ shapes ∧ x < w ∧ y < h ∧ mode = 2 ∧ general 8 true true (fun _ => 128) mode w h x y ≠ 128) :=
  ⟨⟨0, 16, 4, 0, 0, by decide +kernel⟩, ⟨2, 16, 4, 15, 3, by decide +kernel⟩⟩

/-- C48: the 16-bit working values of the bilinear mode never wrap: the result is the exact one. -/
theorem C48_bilinear (top left : Bool) (s : Border) (hs : (w, h) ∈ shapes) (hx : x < w) (hy : y < h)
    (hl : ∀ i : Int, -(reach h w : Int) ≤ i → i ≤ reach w h → 0 ≤ s i ∧ s i ≤ 255) :
    general 8 top left s 2 w h x y = bilinear8 (s (-1 - y)) (s (1 + x)) (s w) (s (-h)) w h x y := by
  have hp := shape_pos hs
  have hr := reach_ge w h
  have hr' := reach_ge h w
  have ha := agree_cut (w := w) (h := h) s 0
  rw [general_congr 8 top left ha (by omega) (by omega) hx hy (by omega)]
  simp only [general]
  rw [if_neg (by decide), if_neg (by decide), if_pos trivial,
    bilinear_exact hs hx hy (cut_range ⟨by decide, by decide⟩ hl),
    ← ha (-1 - y) (by omega) (by omega), ← ha (1 + x) (by omega) (by omega), ← ha w (by omega) (by omega),
    ← ha (-h) (by omega) (by omega)]

/-- The samples above and to the left of a block, as the code finds them. -/
def Source.row (src : Source) (onLeft onTop : Bool) (k : Nat) : Int :=
  if onTop || (k == 0 && onLeft) then src.lcu k else src.pic k 0
def Source.column (src : Source) (onLeft : Bool) (k : Nat) : Int := if onLeft then src.lcu (-k) else src.pic 0 k

/-- C64: the border a block is predicted from holds the neighbouring samples that are available, with the
missing ones replaced as laid down, whichever of the four cases of the code applies and whatever the
scratch buffer held before. -/
theorem C64_border (onLeft onTop : Bool) (src : Source) (av : Avail) (g : Int) (ep : Border) (hs : (w, h) ∈ shapes)
    (i : Int) (h0 : -(reach h w : Int) ≤ i) (h1 : i ≤ reach w h) :
    fillEdge onLeft onTop src av g w h ep i
      = border av.left av.top av.topLeft av.topRight av.leftDown g w h (src.row onLeft onTop) (src.column onLeft) i := by
  have hp := shape_pos hs
  have arm : ∀ (n f : Bool) (n' : Nat) (p q : Nat → Int) (k : Nat), 0 < n' → 0 < k → (∀ j, 0 < j → p j = q j) →
      borderArm n f g n' p k = borderArm n f g n' q k := by
    intro n f n' p q k hn hk hpq
    simp only [borderArm]
    rw [hpq k hk, hpq (min k (2 * n')) (by omega), hpq n' hn]
  unfold border
  rcases (by omega : 0 < i ∨ i < 0 ∨ i = 0) with hi | hi | hi
  · rw [if_pos hi]
    obtain ⟨k, rfl⟩ : ∃ k : Nat, i = k := ⟨i.toNat, by omega⟩
    rw [fill_top onLeft onTop src av g w h k ep (by omega) (by omega) (by omega), Int.toNat_natCast]
    refine arm _ _ _ _ _ _ (by omega) (by omega) (fun j hj => ?_)
    unfold Source.row
    rw [show (j == 0) = false by simp; omega, Bool.false_and, Bool.or_false]
  · rw [if_neg (by omega), if_pos hi]
    obtain ⟨k, rfl⟩ : ∃ k : Nat, i = -k := ⟨(-i).toNat, by omega⟩
    rw [fill_left onLeft onTop src av g w h k ep (by omega) (by omega) (by omega), Int.neg_neg, Int.toNat_natCast]
    rfl
  · subst hi
    rw [if_neg (by omega), if_neg (by omega), fill_corner]
    simp [Source.row, Source.column]

/-- C63: the predictors the decoder runs (one routine for each direction, with tables, mirrored copies and
repeated rows) give for every direction, block shape and sample what the general formula gives on the
border the decoder has built; `junk` is what an uninitialised scratch line holds. -/
theorem C63_specialised (bd : Nat) (onLeft onTop : Bool) (src : Source) (av : Avail) (g : Int) (ep junk : Border)
    (hs : (w, h) ∈ shapes) (hx : x < w) (hy : y < h) (hm : mode < 33) :
    table bd av.top av.left junk (fillEdge onLeft onTop src av g w h ep) mode w h x y
      = some (general bd av.top av.left (fillEdge onLeft onTop src av g w h ep) mode w h x y) := by
  have hp := shape_pos hs
  have hr := reach_ge w h
  have hr' := reach_ge h w
  have padR : w < h → PaddedR (fillEdge onLeft onTop src av g w h ep) w := by
    intro hwh i hi hi'
    have e4 : h = 4 * w := shape_ratio (shape_swap hs) hwh
    rw [C64_border onLeft onTop src av g ep hs i (by omega) (by omega),
      C64_border onLeft onTop src av g ep hs (2 * w) (by omega) (by omega)]
    simp only [border]
    rw [if_pos (by omega), if_pos (by omega)]
    simp only [borderArm]
    rw [if_neg (show ¬ i.toNat ≤ w by omega), if_neg (show ¬ (2 * (w : Int)).toNat ≤ w by omega),
      show min i.toNat (2 * w) = 2 * w by omega, show min (2 * (w : Int)).toNat (2 * w) = 2 * w by omega]
  have padL : h < w → PaddedR (fun i => fillEdge onLeft onTop src av g w h ep (-i)) h := by
    intro hwh i hi hi'
    have e4 : w = 4 * h := shape_ratio hs hwh
    dsimp only
    rw [C64_border onLeft onTop src av g ep hs (-i) (by omega) (by omega),
      C64_border onLeft onTop src av g ep hs (-(2 * h)) (by omega) (by omega)]
    simp only [border]
    rw [if_neg (show ¬ 0 < -i by omega), if_neg (show ¬ 0 < -(2 * (h : Int)) by omega), if_pos (by omega), if_pos (by omega)]
    simp only [borderArm]
    rw [if_neg (show ¬ (- -i).toNat ≤ h by omega), if_neg (show ¬ (- -(2 * (h : Int))).toNat ≤ h by omega),
      show min (- -i).toNat (2 * h) = 2 * h by omega, show min (- -(2 * (h : Int))).toNat (2 * h) = 2 * h by omega]
  generalize fillEdge onLeft onTop src av g w h ep = s at *
  have h4 : h % 4 = 0 := shape_cases (fun q => q.2 % 4 = 0) (by decide) hs
  have h2 : h % 2 = 0 := by omega
  have h8 : h % 8 = 0 ∨ h ≤ 4 := shape_cases (fun q => q.2 % 8 = 0 ∨ q.2 ≤ 4) (by decide) hs
  have h8' : 8 ≤ h ∨ h ≤ 4 := by omega
  have w8 : 8 ≤ w ∨ w ≤ 4 := shape_cases (fun q => 8 ≤ q.1 ∨ q.1 ≤ 4) (by decide) hs
  match mode, hm with
  | 0, _ | 1, _ | 2, _ | 12, _ | 15, _ | 17, _ | 19, _ | 21, _ | 24, _ => rfl
  | 3, _ => exact x3_eq hx hy h4
  | 4, _ => exact x4_eq hx hy
  | 5, _ => exact x5_eq hx hy hs padR
  | 6, _ => exact x6_eq hx hy
  | 7, _ => exact x7_eq (bsx := w) hy
  | 8, _ => exact x8_eq hx hy h2
  | 9, _ => exact x9_eq (bsx := w) hy h8'
  | 10, _ => exact x10_eq hx hy h4
  | 11, _ => exact x11_eq hx hy h8
  | 13, _ => exact xy13_eq hx hy h8
  | 14, _ => exact xy14_eq hx hy h4
  | 16, _ => exact xy16_eq hx hy h2
  | 18, _ => exact xy18_eq hx hy
  | 20, _ => exact xy20_eq hx hy
  | 22, _ => exact xy22_eq hx hy (by omega)
  | 23, _ => exact xy23_eq hx hy w8
  | 25, _ => exact y25_eq hx hy w8
  | 26, _ => exact y26_eq hx hy
  | 27, _ => exact y27_eq hx hy w8
  | 28, _ => exact y28_eq hx hy
  | 29, _ => exact y29_eq hx hy w8
  | 30, _ => exact y30_eq hx hy
  | 31, _ => exact y31_eq junk hx hy hs padL
  | 32, _ => exact y32_eq hx hy h2
  | n + 33, hm => omega

/-- C64: the prediction is a function of the available neighbours alone: neither what earlier blocks left in
the scratch buffers nor the place the neighbours are read from matters. -/
theorem C64_predict (bd : Nat) (onLeft onTop : Bool) (src : Source) (av : Avail) (g : Int) (ep junk : Border)
    (hs : (w, h) ∈ shapes) (hx : x < w) (hy : y < h) (hm : mode < 33) :
    table bd av.top av.left junk (fillEdge onLeft onTop src av g w h ep) mode w h x y
      = some (general bd av.top av.left
          (border av.left av.top av.topLeft av.topRight av.leftDown g w h (src.row onLeft onTop) (src.column onLeft)) mode w h x y) := by
  have hp := shape_pos hs
  rw [C63_specialised bd onLeft onTop src av g ep junk hs hx hy hm]
  exact congrArg some (general_congr bd _ _ (fun i a b => C64_border onLeft onTop src av g ep hs i a b) (by omega) (by omega) hx hy hm)

/-- C48, for what the decoder runs: if the available neighbours are legal samples, so is the prediction. -/
theorem C48_decoder (bd : Nat) (hbd : 1 ≤ bd) (onLeft onTop : Bool) (src : Source) (av : Avail) (ep junk : Border)
    (hs : (w, h) ∈ shapes) (hx : x < w) (hy : y < h) (hm : mode < 33)
    (hlcu : ∀ i, 0 ≤ src.lcu i ∧ src.lcu i ≤ 2 ^ bd - 1) (hpic : ∀ i j, 0 ≤ src.pic i j ∧ src.pic i j ≤ 2 ^ bd - 1) :
    ∃ v, table bd av.top av.left junk (fillEdge onLeft onTop src av (2 ^ (bd - 1)) w h ep) mode w h x y = some v ∧
      0 ≤ v ∧ v ≤ 2 ^ bd - 1 := by
  refine ⟨_, C64_predict bd onLeft onTop src av _ ep junk hs hx hy hm, C48_legal bd _ _ _ hs hx hy hm (fun i _ _ => ?_)⟩
  have g0 : (0 : Int) ≤ 2 ^ (bd - 1) ∧ (2 : Int) ^ (bd - 1) ≤ 2 ^ bd - 1 := by
    obtain ⟨b, rfl⟩ : ∃ b, bd = b + 1 := ⟨bd - 1, by omega⟩
    have := Int.pow_pos (n := 2) (m := b) (by decide)
    rw [Nat.add_sub_cancel, Int.pow_succ]
    omega
  have r : ∀ k, 0 ≤ src.row onLeft onTop k ∧ src.row onLeft onTop k ≤ 2 ^ bd - 1 := by
    intro k; unfold Source.row; split
    · exact hlcu _
    · exact hpic _ _
  have c : ∀ k, 0 ≤ src.column onLeft k ∧ src.column onLeft k ≤ 2 ^ bd - 1 := by
    intro k; unfold Source.column; split
    · exact hlcu _
    · exact hpic _ _
  have arm : ∀ (a b : Bool) (n k : Nat) (f : Nat → Int), (∀ k, 0 ≤ f k ∧ f k ≤ 2 ^ bd - 1) →
      0 ≤ borderArm a b (2 ^ (bd - 1)) n f k ∧ borderArm a b (2 ^ (bd - 1)) n f k ≤ 2 ^ bd - 1 := by
    intro a b n k f hf
    unfold borderArm
    cases a <;> cases b <;> simp only [reduceIte, Bool.false_eq_true] <;> split <;> first | exact hf _ | exact g0
  unfold border
  split
  · exact arm _ _ _ _ _ r
  split
  · exact arm _ _ _ _ _ c
  · unfold borderCorner
    split
    · exact r 0
    split
    · exact r 1
    split
    · exact c 1
    · exact g0

/-! ### Plane mode on a linear ramp -/

/-- Sum of the squares 1 … n. -/
def squares : Nat → Int
  | 0 => 0
  | n + 1 => squares n + ((n : Int) + 1) * ((n : Int) + 1)

theorem sum_squares (g : Int) (n : Nat) :
    sum (fun i => ((i : Int) + 1) * (2 * g * ((i : Int) + 1))) n = 2 * g * squares n := by
  induction n with
  | zero => simp [sum, squares]
  | succ n ih => rw [sum, ih, squares]; ring

theorem squares_val : squares 2 = 5 ∧ squares 4 = 30 ∧ squares 8 = 204 ∧ squares 16 = 1496 ∧ squares 32 = 11440 := by
  decide +kernel

/-- The slope that the plane mode derives from a ramp, in units of 1/32: off by at most 1/64 of the slope and
half a unit. -/
theorem slope_bound (g : Int) (n : Nat) (hn : n = 4 ∨ n = 8 ∨ n = 16 ∨ n = 32 ∨ n = 64) (b : Int)
    (hb : b = (2 * g * squares (n / 2) * 32 * planeMult (log2size n - 2) + 2 ^ (planeShift (log2size n - 2) - 1))
      / 2 ^ planeShift (log2size n - 2)) : 2 * |b - 32 * g| ≤ |g| + 1 := by
  obtain ⟨h2, h4, h8, h16, h32⟩ := squares_val
  have e : 2 * (b - 32 * g) ≤ |g| + 1 ∧ -(2 * (b - 32 * g)) ≤ |g| + 1 := by
    have h1 := le_abs_self g
    have h2' := neg_abs_le g
    rcases hn with h | h | h | h | h <;> subst h <;>
      simp only [Nat.reduceDiv, log2size, Nat.reduceSub, planeMult, planeShift, h2, h4, h8, h16, h32] at hb <;>
      norm_num at hb <;> omega
  have : |2 * (b - 32 * g)| ≤ |g| + 1 := abs_le.2 ⟨by omega, e.1⟩
  rw [abs_mul] at this
  simpa using this

/-- C48 (plane mode): if the samples around the block lie on a linear ramp, the block continues the ramp.  The
slopes are reproduced to 1/64, so that the deviation stays below the bound given: for example one grey level
for a block of 16x16 and slopes up to 1. -/
theorem C48_plane (bd : Nat) (top left : Bool) (s : Border) (v gx gy : Int) (hs : (w, h) ∈ shapes)
    (hx : x < w) (hy : y < h)
    (ht : ∀ i : Nat, i ≤ w → s i = v + gx * i) (hl : ∀ i : Nat, i ≤ h → s (-(i : Int)) = v + gy * i)
    (h0 : 0 ≤ v + gx * ((x : Int) + 1) + gy * ((y : Int) + 1))
    (h1 : v + gx * ((x : Int) + 1) + gy * ((y : Int) + 1) ≤ 2 ^ bd - 1) :
    128 * |general bd top left s 1 w h x y - (v + gx * ((x : Int) + 1) + gy * ((y : Int) + 1))|
      ≤ w * (|gx| + 1) + h * (|gy| + 1) + 64 := by
  have hsz : (w = 4 ∨ w = 8 ∨ w = 16 ∨ w = 32 ∨ w = 64) ∧ (h = 4 ∨ h = 8 ∨ h = 16 ∨ h = 32 ∨ h = 64) :=
    shape_cases (fun q => (q.1 = 4 ∨ q.1 = 8 ∨ q.1 = 16 ∨ q.1 = 32 ∨ q.1 = 64) ∧
      (q.2 = 4 ∨ q.2 = 8 ∨ q.2 = 16 ∨ q.2 = 32 ∨ q.2 = 64)) (by decide) hs
  obtain ⟨kw, hkw, hkw0⟩ : ∃ k, w = 2 * k ∧ 2 ≤ k := ⟨w / 2, by omega, by omega⟩
  obtain ⟨kh, hkh, hkh0⟩ : ∃ k, h = 2 * k ∧ 2 ≤ k := ⟨h / 2, by omega, by omega⟩
  have eb : planeB s w = (2 * gx * squares (w / 2) * 32 * planeMult (log2size w - 2)
      + 2 ^ (planeShift (log2size w - 2) - 1)) / 2 ^ planeShift (log2size w - 2) := by
    simp only [planeB]
    rw [sum_congr (g := fun i => ((i : Int) + 1) * (2 * gx * ((i : Int) + 1))), sum_squares]
    intro i hi
    have e1 : (1 : Int) + ((w / 2 - 1 : Nat) : Int) + ((i : Int) + 1) = ((w / 2 + i + 1 : Nat) : Int) := by omega
    have e2 : (1 : Int) + ((w / 2 - 1 : Nat) : Int) - ((i : Int) + 1) = ((w / 2 - i - 1 : Nat) : Int) := by omega
    rw [e1, e2, ht _ (by omega), ht _ (by omega)]
    have c1 : ((w / 2 + i + 1 : Nat) : Int) = (kw : Int) + i + 1 := by omega
    have c2 : ((w / 2 - i - 1 : Nat) : Int) = (kw : Int) - i - 1 := by omega
    rw [c1, c2]
    ring
  have ec : planeC s h = (2 * gy * squares (h / 2) * 32 * planeMult (log2size h - 2)
      + 2 ^ (planeShift (log2size h - 2) - 1)) / 2 ^ planeShift (log2size h - 2) := by
    simp only [planeC]
    rw [sum_congr (g := fun i => ((i : Int) + 1) * (2 * gy * ((i : Int) + 1))), sum_squares]
    intro i hi
    have e1 : (-1 : Int) - ((h / 2 - 1 : Nat) : Int) - ((i : Int) + 1) = -((h / 2 + i + 1 : Nat) : Int) := by omega
    have e2 : (-1 : Int) - ((h / 2 - 1 : Nat) : Int) + ((i : Int) + 1) = -((h / 2 - i - 1 : Nat) : Int) := by omega
    rw [e1, e2, hl _ (by omega), hl _ (by omega)]
    have c1 : ((h / 2 + i + 1 : Nat) : Int) = (kh : Int) + i + 1 := by omega
    have c2 : ((h / 2 - i - 1 : Nat) : Int) = (kh : Int) - i - 1 := by omega
    rw [c1, c2]
    ring
  have bb := slope_bound gx w hsz.1 _ eb
  have bc := slope_bound gy h hsz.2 _ ec
  have ea : planeA s w h = (2 * v + gx * w + gy * h) * 16 := by
    simp only [planeA]
    have e1 : (-1 : Int) - ((h - 1 : Nat) : Int) = -(h : Int) := by omega
    have e2 : (1 : Int) + (w : Int) - 1 = (w : Int) := by omega
    rw [e1, e2, hl h (by omega), ht w (by omega)]
    ring
  simp only [general]
  rw [if_neg (by decide), if_pos trivial]
  simp only [plane]
  rw [acc_eq, acc_eq, ea]
  generalize planeB s w = b at *
  generalize planeC s h = c at *
  obtain ⟨p, hp⟩ : ∃ p, p = b - 32 * gx := ⟨_, rfl⟩
  obtain ⟨q, hq⟩ : ∃ q, q = c - 32 * gy := ⟨_, rfl⟩
  rw [← hp] at bb
  rw [← hq] at bc
  have cw : ((w / 2 - 1 : Nat) : Int) = (kw : Int) - 1 := by omega
  have ch : ((h / 2 - 1 : Nat) : Int) = (kh : Int) - 1 := by omega
  have ww : (w : Int) = 2 * kw := by omega
  have hh : (h : Int) = 2 * kh := by omega
  obtain ⟨I, hI⟩ : ∃ I, I = v + gx * ((x : Int) + 1) + gy * ((y : Int) + 1) := ⟨_, rfl⟩
  rw [← hI] at h0 h1 ⊢
  have key : (2 * v + gx * w + gy * h) * 16 - ((h / 2 - 1 : Nat) : Int) * c - ((w / 2 - 1 : Nat) : Int) * b + 16 + c * y + b * x
      = 32 * I + 16 + (q * ((y : Int) - kh + 1) + p * ((x : Int) - kw + 1)) := by
    rw [cw, ch, ww, hh, hI, show b = p + 32 * gx by omega, show c = q + 32 * gy by omega]
    ring
  rw [key]
  have bp : |p * ((x : Int) - kw + 1)| ≤ |p| * kw := by
    rw [abs_mul]
    exact mul_le_mul_of_nonneg_left (abs_le.2 ⟨by omega, by omega⟩) (abs_nonneg p)
  have bq : |q * ((y : Int) - kh + 1)| ≤ |q| * kh := by
    rw [abs_mul]
    exact mul_le_mul_of_nonneg_left (abs_le.2 ⟨by omega, by omega⟩) (abs_nonneg q)
  have bp2 : 2 * (|p| * kw) ≤ (|gx| + 1) * kw := by
    rw [← mul_assoc]
    exact mul_le_mul_of_nonneg_right bb (by omega)
  have bq2 : 2 * (|q| * kh) ≤ (|gy| + 1) * kh := by
    rw [← mul_assoc]
    exact mul_le_mul_of_nonneg_right bc (by omega)
  have t1 := abs_le.1 bp
  have t2 := abs_le.1 bq
  have ew : (w : Int) * (|gx| + 1) = 2 * ((|gx| + 1) * kw) := by rw [ww]; ring
  have eh : (h : Int) * (|gy| + 1) = 2 * ((|gy| + 1) * kh) := by rw [hh]; ring
  rw [ew, eh]
  generalize (|gx| + 1) * (kw : Int) = X at *
  generalize (|gy| + 1) * (kh : Int) = Y at *
  generalize p * ((x : Int) - kw + 1) = P at *
  generalize q * ((y : Int) - kh + 1) = Q at *
  generalize |p| * (kw : Int) = P' at *
  generalize |q| * (kh : Int) = Q' at *
  have fin : ∀ r : Int, (64 * (r - I) ≤ X + Y + 32 ∧ -(64 * (r - I)) ≤ X + Y + 32) →
      128 * |r - I| ≤ 2 * X + 2 * Y + 64 := by
    intro r hr
    rcases abs_cases (r - I) with ⟨h, _⟩ | ⟨h, _⟩ <;> rw [h] <;> omega
  apply fin
  unfold clip3
  split
  · omega
  · split <;> omega

/-- A ramp that the plane mode meets. -/
example : |general 8 true true (fun i => if 0 ≤ i then 100 + 3 * i else 100 - 2 * i) 1 16 16 7 9
    - (100 + 3 * 8 + 2 * 10)| ≤ 1 := by decide +kernel

/-! ### Cases -/

/-- A border that is not flat. -/
def ramp : Border := fun i => (i * 7 + 3000) % 256

/-- A block on the left edge of its coding tree unit with no neighbours below or top-right. -/
def someSource : Source := ⟨fun i => (i * i + 5) % 256, fun i j => (i * 3 + j * 11) % 256⟩

example : ∀ i : Int, -(reach 4 16 : Int) ≤ i → i ≤ reach 16 4 → 0 ≤ ramp i ∧ ramp i ≤ 2 ^ 8 - 1 := by
  intro i _ _; unfold ramp; omega

example : general 8 true true ramp 3 8 8 0 0 ≠ general 8 true true ramp 3 8 8 5 6 := by decide +kernel
example : general 8 true true ramp 2 8 32 3 17 = bilinear8 (ramp (-18)) (ramp 4) (ramp 8) (ramp (-32)) 8 32 3 17 := by
  decide +kernel
example : table 8 true true (fun _ => 77) (fillEdge true false someSource ⟨true, true, true, false, false⟩ 128 16 4 (fun _ => 99)) 31 16 4 15 3
    = table 8 true true (fun _ => 0) (fillEdge true false someSource ⟨true, true, true, false, false⟩ 128 16 4 (fun _ => 0)) 31 16 4 15 3 := by
  decide +kernel
example : fillEdge true false someSource ⟨true, true, true, false, false⟩ 128 8 8 (fun _ => 99) 12 = (8 * 3) % 256 := by decide +kernel
example : fillEdge true false someSource ⟨true, true, true, false, false⟩ 128 8 8 (fun _ => 99) (-13) = (64 + 5) % 256 := by decide +kernel

end Davs2.Ip
