import Verif.Model.Mc
import Verif.Spec.Interp
import Mathlib.Tactic.Ring
import Mathlib.Tactic.IntervalCases
import Verif.Props.Padding
/-
C36, C37: motion compensation reads only the padded reference picture and computes the interpolation of the
infinitely extended picture; flat areas, range.
-/
namespace Davs2
open Spec

theorem flt_eq (rd : SampleMem) (step : Int) (p : Int → Int) : ∀ (cs : List Int) (a b : Int),
    (∀ i : Nat, i < cs.length → rd (a + i * step) = some (p (b + i))) → flt rd step cs a = some (conv cs p b) := by
  intro cs
  induction cs with
  | nil => intro a b _; rfl
  | cons c cs ih =>
    intro a b h
    have h0 := h 0 (by simp)
    simp only [Nat.cast_zero, zero_mul, add_zero] at h0
    have h1 := ih (a + step) (b + 1) (by
      intro i hi
      have := h (i + 1) (by simpa using hi)
      rw [show a + step + i * step = a + ((i + 1 : Nat) : Int) * step from by push_cast; ring,
        show b + 1 + i = b + ((i + 1 : Nat) : Int) from by push_cast; ring]
      exact this)
    simp only [flt, h0, h1, conv]
    congr 1
    ring

theorem clip1_eq (v : Int) : clip1 v = limit8 v := by
  unfold clip1 limit8
  split
  · omega
  · split <;> omega

theorem conv_shift (cs : List Int) : ∀ (p q : Int → Int) (a b : Int),
    (∀ i : Nat, i < cs.length → p (a + i) = q (b + i)) → conv cs p a = conv cs q b := by
  induction cs with
  | nil => intros; rfl
  | cons c cs ih =>
    intro p q a b h
    have h0 := h 0 (by simp)
    simp only [Nat.cast_zero, add_zero] at h0
    simp only [conv, h0]
    congr 1
    apply ih
    intro i hi
    have := h (i + 1) (by simpa using hi)
    rw [show a + 1 + i = a + ((i + 1 : Nat) : Int) from by push_cast; ring,
      show b + 1 + i = b + ((i + 1 : Nat) : Int) from by push_cast; ring]
    exact this

/-- What is used of the filter tables. -/
structure FilterOk (n L : Nat) (o : Int) (F : Nat → List Int) (tbl : List (List Int)) (cast : Int → Int) : Prop where
  n0 : 0 < n
  zero : ∀ p a, conv (F 0) p a = 64 * p (a + o)
  len : ∀ k, (F k).length = L
  o0 : 0 ≤ o
  oL : o < L
  tbl : ∀ k, k < n → tbl.getD k [] = F k
  cast : ∀ k p a, (∀ c, 0 ≤ p c ∧ p c ≤ 255) → cast (conv (F k) p a) = conv (F k) p a

theorem lumaFilterOk : FilterOk 4 8 3 lumaFilter intplFilters toInt16 where
  n0 := by omega
  zero := by intro p a; simp [lumaFilter, conv, add_assoc]
  len := by intro k; unfold lumaFilter; split <;> rfl
  o0 := by omega
  oL := by omega
  tbl := by decide
  cast := by
    intro k p a hp
    have h0 := hp a
    have h1 := hp (a + 1)
    have h2 := hp (a + 1 + 1)
    have h3 := hp (a + 1 + 1 + 1)
    have h4 := hp (a + 1 + 1 + 1 + 1)
    have h5 := hp (a + 1 + 1 + 1 + 1 + 1)
    have h6 := hp (a + 1 + 1 + 1 + 1 + 1 + 1)
    have h7 := hp (a + 1 + 1 + 1 + 1 + 1 + 1 + 1)
    unfold toInt16
    have : -32768 ≤ conv (lumaFilter k) p a ∧ conv (lumaFilter k) p a ≤ 32767 := by
      unfold lumaFilter
      split <;> simp only [conv] <;> omega
    omega

theorem chromaFilterOk : FilterOk 8 4 1 chromaFilter intplFiltersC id where
  n0 := by omega
  zero := by intro p a; simp [chromaFilter, conv]
  len := by intro k; unfold chromaFilter; split <;> rfl
  o0 := by omega
  oL := by omega
  tbl := by decide
  cast := by intros; rfl

/-- One sample, whatever filters: if the samples around the position are in memory, the result is the
interpolation. -/
theorem mc_core {n L : Nat} {o : Int} {F : Nat → List Int} {tbl : List (List Int)} {cast : Int → Int}
    (hF : FilterOk n L o F tbl cast) (rd : SampleMem) (stride : Int) (P : Int → Int → Int) (X Y : Int) (x y : Nat)
    (hP : ∀ c r, 0 ≤ P c r ∧ P c r ≤ 255)
    (hrd : ∀ i j : Nat, i < L → j < L →
      rd ((Y / n + y - o + j) * stride + (X / n + x - o + i)) = some (P (X / n + x - o + i) (Y / n + y - o + j))) :
    let dx := (X % n).toNat
    let dy := (Y % n).toNat
    let a := Y / n * stride + X / n + (y * stride + x)
    (if dx = 0 ∧ dy = 0 then rd a
      else if dx = 0 then intplVer rd stride o (tbl.getD dy []) a
      else if dy = 0 then intplHor rd o (tbl.getD dx []) a
      else intplExt rd stride o cast (tbl.getD dx []) (tbl.getD dy []) a) =
    some (interp n F o P (X + n * x) (Y + n * y)) := by
  intro dx dy a
  have hn : (0 : Int) < n := by have := hF.n0; omega
  have ex : (X + n * x) / n = X / n + x := by rw [Int.add_mul_ediv_left _ _ (by omega)]
  have ey : (Y + n * y) / n = Y / n + y := by rw [Int.add_mul_ediv_left _ _ (by omega)]
  have emx : (X + n * x) % n = X % n := by rw [Int.add_mul_emod_self_left]
  have emy : (Y + n * y) % n = Y % n := by rw [Int.add_mul_emod_self_left]
  have hdx : dx < n := by have := Int.emod_lt_of_pos X hn; have := Int.emod_nonneg X (by omega : (n : Int) ≠ 0); omega
  have hdy : dy < n := by have := Int.emod_lt_of_pos Y hn; have := Int.emod_nonneg Y (by omega : (n : Int) ≠ 0); omega
  obtain ⟨on, hon⟩ := Int.eq_ofNat_of_zero_le hF.o0
  have honL : on < L := by have := hF.oL; omega
  unfold interp
  rw [ex, ey, emx, emy]
  simp only [show (X % (n : Int)).toNat = dx from rfl, show (Y % (n : Int)).toNat = dy from rfl]
  -- a row of the horizontal filter
  have hrow : ∀ j : Nat, j < L → flt rd 1 (F dx) (a + (j - o) * stride - o) =
      some (conv (F dx) (fun c => P c (Y / n + y - o + j)) (X / n + x - o)) := by
    intro j hj
    apply flt_eq
    intro i hi
    rw [hF.len] at hi
    rw [← hrd i j hi hj]
    congr 1
    simp only [a]
    ring
  by_cases h1 : dx = 0 ∧ dy = 0
  · rw [if_pos h1, h1.1, h1.2]
    simp only [hF.zero]
    have h := hrd on on honL honL
    rw [← hon] at h
    rw [show a = (Y / n + y - o + o) * stride + (X / n + x - o + o) from by simp only [a]; ring, h]
    congr 1
    rw [show X / n + x - o + o = X / n + x from by ring, show Y / n + y - o + o = Y / n + y from by ring]
    have := hP (X / n + x) (Y / n + y)
    unfold limit8
    omega
  · rw [if_neg h1]
    by_cases h2 : dx = 0
    · rw [if_pos h2, h2]
      unfold intplVer
      rw [hF.tbl _ hdy, flt_eq rd stride (fun r => P (X / n + x) r) (F dy) (a - o * stride) (Y / n + y - o)]
      · simp only [Option.map_some, clip1_eq, hF.zero]
        congr 2
        have e : conv (F dy) (fun r => 64 * P (X / n + x - o + o) r) (Y / n + y - o) =
            64 * conv (F dy) (fun r => P (X / n + x) r) (Y / n + y - o) := by
          rw [show X / n + x - o + o = X / n + x from by ring]
          generalize Y / n + y - o = b
          generalize F dy = cs
          induction cs generalizing b with
          | nil => rfl
          | cons c cs ih => simp only [conv, ih]; ring
        rw [e]
        omega
      · intro j hj
        rw [hF.len] at hj
        have h := hrd on j honL hj
        rw [← hon] at h
        rw [show a - o * stride + j * stride = (Y / n + y - o + j) * stride + (X / n + x - o + o) from by
          simp only [a]; ring, h]
        congr 2
        ring
    · rw [if_neg h2]
      by_cases h3 : dy = 0
      · rw [if_pos h3, h3]
        unfold intplHor
        have := hrow on honL
        rw [← hon, show a + (o - o) * stride - o = a - o from by ring] at this
        rw [hF.tbl _ hdx, this]
        simp only [Option.map_some, clip1_eq, hF.zero]
        congr 2
        omega
      · rw [if_neg h3]
        unfold intplExt
        rw [hF.tbl _ hdx, hF.tbl _ hdy]
        rw [flt_eq _ 1 (fun r => conv (F dx) (fun c => P c r) (X / n + x - o)) (F dy) (-o) (Y / n + y - o)]
        · simp only [Option.map_some, clip1_eq]
        · intro j hj
          rw [hF.len] at hj
          unfold intplTmp
          rw [show -o + (j : Int) * 1 = j - o from by ring, hrow j hj]
          simp only [Option.map_some]
          rw [hF.cast _ _ _ (fun c => hP _ _)]

/-- Interpolations at positions with the same fraction agree if the samples around them do. -/
theorem interp_congr {n L : Nat} {o : Int} {F : Nat → List Int} (hlen : ∀ k, (F k).length = L)
    (P Q : Int → Int → Int) {A B C D : Int} (hx : A % n = C % n) (hy : B % n = D % n)
    (h : ∀ i j : Nat, i < L → j < L → P (A / n - o + i) (B / n - o + j) = Q (C / n - o + i) (D / n - o + j)) :
    interp n F o P A B = interp n F o Q C D := by
  unfold interp
  rw [hx, hy]
  congr 3
  apply conv_shift
  intro j hj
  rw [hlen] at hj
  apply conv_shift
  intro i hi
  rw [hlen] at hi
  exact h i j hi hj

/-- The clipped position: fraction kept, inside the padding, and showing the same samples of the extended
picture as the position asked for.  `m` is 4 for luma and 8 for chroma. -/
theorem mcPos_luma (img blk pos mv : Int) (hi : 1 ≤ img) (hi2 : img ≤ 8184) (hb : 4 ≤ blk) (hb2 : blk ≤ 64) (hp : 0 ≤ pos)
    (hp2 : pos + blk ≤ img) :
    let X := cuGetMcPosMv img blk pos mv
    X % 4 = (pos * 4 + mv) % 4 ∧
    ∀ t : Int, -3 ≤ t → t < blk + 4 → -80 ≤ X / 4 + t ∧ X / 4 + t < img + 80 ∧
      nearest (X / 4 + t) img.toNat = nearest ((pos * 4 + mv) / 4 + t) img.toNat := by
  intro X
  have hX : X = cuGetMcPos img blk pos mv := by
    simp only [X, cuGetMcPosMv, toInt16]
    have : -32768 ≤ cuGetMcPos img blk pos mv ∧ cuGetMcPos img blk pos mv ≤ 32767 := by
      simp only [cuGetMcPos]
      split
      · omega
      · split <;> omega
    omega
  rw [hX]
  simp only [cuGetMcPos]
  split
  · refine ⟨by omega, fun t h1 h2 => ⟨by omega, by omega, ?_⟩⟩
    unfold nearest
    rw [if_pos (by omega), if_pos (by omega)]
  · split
    · refine ⟨by omega, fun t h1 h2 => ⟨by omega, by omega, ?_⟩⟩
      unfold nearest
      rw [if_neg (by omega), if_neg (by omega), if_neg (by omega), if_neg (by omega)]
    · exact ⟨rfl, fun t h1 h2 => ⟨by omega, by omega, rfl⟩⟩

theorem mcPos_chroma (img blk pos mv : Int) (hi : 8 ≤ img) (hi2 : img ≤ 8184) (hie : img % 2 = 0) (hb : 4 ≤ blk)
    (hb2 : blk ≤ 64) (hbe : blk % 2 = 0) (hp : 0 ≤ pos) (hpe : pos % 2 = 0) (hp2 : pos + blk ≤ img) :
    let X := cuGetMcPosMv img blk pos mv
    X % 8 = (pos * 4 + mv) % 8 ∧
    ∀ t : Int, -1 ≤ t → t < blk / 2 + 2 → -40 ≤ X / 8 + t ∧ X / 8 + t < img / 2 + 40 ∧
      nearest (X / 8 + t) (img / 2).toNat = nearest ((pos * 4 + mv) / 8 + t) (img / 2).toNat := by
  intro X
  have hX : X = cuGetMcPos img blk pos mv := by
    simp only [X, cuGetMcPosMv, toInt16]
    have : -32768 ≤ cuGetMcPos img blk pos mv ∧ cuGetMcPos img blk pos mv ≤ 32767 := by
      simp only [cuGetMcPos]
      split
      · omega
      · split <;> omega
    omega
  rw [hX]
  simp only [cuGetMcPos]
  split
  · refine ⟨by omega, fun t h1 h2 => ⟨by omega, by omega, ?_⟩⟩
    unfold nearest
    rw [if_pos (by omega), if_pos (by omega)]
  · split
    · refine ⟨by omega, fun t h1 h2 => ⟨by omega, by omega, ?_⟩⟩
      unfold nearest
      rw [if_neg (by omega), if_neg (by omega), if_neg (by omega), if_neg (by omega)]
    · exact ⟨rfl, fun t h1 h2 => ⟨by omega, by omega, rfl⟩⟩

/-- The memory `rd` holds a plane of `w` by `h` samples with `pad` samples of padding around it, and nothing
else need be readable. -/
def Padded (rd : SampleMem) (stride : Int) (w h : Nat) (pad : Int) (pic : Int → Int → Int) : Prop :=
  ∀ r c : Int, -pad ≤ r → r < h + pad → -pad ≤ c → c < w + pad →
    rd (r * stride + c) = some (extend pic w h c r)

/-- **C36**, luma (partial: pictures up to 8184 samples wide and high).  For every block of the picture and every
motion vector, predicting a sample reads only the padded picture, and gives the interpolation of the infinitely
extended picture at exactly the place the vector points to, however far outside. -/
theorem C36_luma_partial (rd : SampleMem) (stride : Int) (w h : Nat) (pic : Int → Int → Int)
    (hpic : ∀ x y, 0 ≤ pic x y ∧ pic x y ≤ 255) (hrd : Padded rd stride w h 80 pic)
    (hw : w ≤ 8184) (hh : h ≤ 8184) (bx bY bw bh : Nat) (hbw : 4 ≤ bw ∧ bw ≤ 64) (hbh : 4 ≤ bh ∧ bh ≤ 64)
    (hx : bx + bw ≤ w) (hy : bY + bh ≤ h) (mvx mvy : Int) (x y : Nat) (hxb : x < bw) (hyb : y < bh) :
    mcLuma rd stride (cuGetMcPosMv w bw bx mvx) (cuGetMcPosMv h bh bY mvy) x y =
      some (interpLuma (extend pic w h) (4 * (bx + x : Nat) + mvx) (4 * (bY + y : Nat) + mvy)) := by
  obtain ⟨fx, px⟩ := mcPos_luma w bw bx mvx (by omega) (by omega) (by omega) (by omega) (by omega) (by omega)
  obtain ⟨fy, py⟩ := mcPos_luma h bh bY mvy (by omega) (by omega) (by omega) (by omega) (by omega) (by omega)
  have hb : ∀ c r, 0 ≤ extend pic w h c r ∧ extend pic w h c r ≤ 255 := fun c r => hpic _ _
  have key := mc_core lumaFilterOk rd stride (extend pic w h) (cuGetMcPosMv w bw bx mvx) (cuGetMcPosMv h bh bY mvy) x y hb
    (by
      intro i j hi hj
      have h1 := px (x + i - 3) (by omega) (by omega)
      have h2 := py (y + j - 3) (by omega) (by omega)
      simp only [Nat.cast_ofNat]
      apply hrd <;> omega)
  have e : mcLuma rd stride (cuGetMcPosMv w bw bx mvx) (cuGetMcPosMv h bh bY mvy) x y = _ := key
  rw [e]
  congr 1
  unfold interpLuma
  apply interp_congr lumaFilterOk.len
  · push_cast
    omega
  · push_cast
    omega
  · intro i j hi hj
    have h1 := (px (x + i - 3) (by omega) (by omega)).2.2
    have h2 := (py (y + j - 3) (by omega) (by omega)).2.2
    simp only [Int.toNat_natCast] at h1 h2
    unfold extend
    congr 1
    · rw [show (cuGetMcPosMv w bw bx mvx + (4 : Nat) * x) / (4 : Nat) - 3 + i = cuGetMcPosMv w bw bx mvx / 4 + (x + i - 3) from by
        push_cast; omega, h1]
      congr 1
      push_cast; omega
    · rw [show (cuGetMcPosMv h bh bY mvy + (4 : Nat) * y) / (4 : Nat) - 3 + j = cuGetMcPosMv h bh bY mvy / 4 + (y + j - 3) from by
        push_cast; omega, h2]
      congr 1
      push_cast; omega

/-- **C36**, chroma of 4:2:0 pictures: same, with half the size, half the padding, and eighth-sample positions.
`w`, `h`, the block and `x`, `y` are given in luma samples, chroma samples, chroma samples. -/
theorem C36_chroma_partial (rd : SampleMem) (stride : Int) (w h : Nat) (pic : Int → Int → Int)
    (hpic : ∀ x y, 0 ≤ pic x y ∧ pic x y ≤ 255) (hwe : w % 2 = 0) (hhe : h % 2 = 0)
    (hrd : Padded rd stride (w / 2) (h / 2) 40 pic)
    (hw : 8 ≤ w ∧ w ≤ 8184) (hh : 8 ≤ h ∧ h ≤ 8184) (bx bY bw bh : Nat) (hbw : 4 ≤ bw ∧ bw ≤ 64) (hbh : 4 ≤ bh ∧ bh ≤ 64)
    (he : bx % 2 = 0 ∧ bY % 2 = 0 ∧ bw % 2 = 0 ∧ bh % 2 = 0)
    (hx : bx + bw ≤ w) (hy : bY + bh ≤ h) (mvx mvy : Int) (x y : Nat) (hxb : x < bw / 2) (hyb : y < bh / 2) :
    mcChroma rd stride (cuGetMcPosMv w bw bx mvx) (cuGetMcPosMv h bh bY mvy) x y =
      some (interpChroma (extend pic (w / 2) (h / 2)) (8 * (bx / 2 + x : Nat) + mvx) (8 * (bY / 2 + y : Nat) + mvy)) := by
  obtain ⟨fx, px⟩ := mcPos_chroma w bw bx mvx (by omega) (by omega) (by omega) (by omega) (by omega) (by omega) (by omega) (by omega) (by omega)
  obtain ⟨fy, py⟩ := mcPos_chroma h bh bY mvy (by omega) (by omega) (by omega) (by omega) (by omega) (by omega) (by omega) (by omega) (by omega)
  have hb : ∀ c r, 0 ≤ extend pic (w / 2) (h / 2) c r ∧ extend pic (w / 2) (h / 2) c r ≤ 255 := fun c r => hpic _ _
  have key := mc_core chromaFilterOk rd stride (extend pic (w / 2) (h / 2)) (cuGetMcPosMv w bw bx mvx)
    (cuGetMcPosMv h bh bY mvy) x y hb
    (by
      intro i j hi hj
      have h1 := px (x + i - 1) (by omega) (by omega)
      have h2 := py (y + j - 1) (by omega) (by omega)
      simp only [Nat.cast_ofNat]
      apply hrd <;> omega)
  have e : mcChroma rd stride (cuGetMcPosMv w bw bx mvx) (cuGetMcPosMv h bh bY mvy) x y = _ := key
  rw [e]
  congr 1
  unfold interpChroma
  apply interp_congr chromaFilterOk.len
  · push_cast
    omega
  · push_cast
    omega
  · intro i j hi hj
    have h1 := (px (x + i - 1) (by omega) (by omega)).2.2
    have h2 := (py (y + j - 1) (by omega) (by omega)).2.2
    rw [show ((w : Int) / 2).toNat = w / 2 from by omega] at h1
    rw [show ((h : Int) / 2).toNat = h / 2 from by omega] at h2
    unfold extend
    congr 1
    · rw [show (cuGetMcPosMv w bw bx mvx + (8 : Nat) * x) / (8 : Nat) - 1 + i = cuGetMcPosMv w bw bx mvx / 8 + (x + i - 1) from by
        push_cast; omega, h1]
      congr 1
      push_cast; omega
    · rw [show (cuGetMcPosMv h bh bY mvy + (8 : Nat) * y) / (8 : Nat) - 1 + j = cuGetMcPosMv h bh bY mvy / 8 + (y + j - 1) from by
        push_cast; omega, h2]
      congr 1
      push_cast; omega

/-- The padding functions of the decoder produce such a memory (C24), so C36 applies to decoded pictures. -/
theorem padded_of_padPicture (c : PadCfg) (hc : c.Ok) (m : PlaneMem) (hm : ∀ x, m x < 256) :
    Padded (fun a => some (padPicture c m c.rows a : Int)) c.stride c.width c.lines c.pad
      (fun x y => (m (y * c.stride + x) : Int)) := by
  intro r x h1 h2 h3 h4
  simp only [Spec.extend]
  rw [(C24_padding c hc m hm).1 r x h1 h2 h3 h4]

/-- A padded picture whose left half is black and whose right half is white, in memory of exactly its size. -/
def halfMem (w h : Nat) (a : Int) : Option Int :=
  let r := (a + 80) / (w + 160)
  let c := (a + 80) % (w + 160) - 80
  if -80 ≤ r ∧ r < h + 80 then some (if c < w / 2 then 0 else 255) else none

theorem halfMem_padded (w h : Nat) (hw : 2 ≤ w) :
    Padded (halfMem w h) (w + 160) w h 80 (fun x _ => if x < w / 2 then 0 else 255) := by
  intro r c h1 h2 h3 h4
  unfold halfMem
  have e : r * ((w : Int) + 160) + c + 80 = (c + 80) + ((w : Int) + 160) * r := by ring
  have hd : (r * ((w : Int) + 160) + c + 80) / ((w : Int) + 160) = r := by
    rw [e, Int.add_mul_ediv_left _ _ (by omega), Int.ediv_eq_zero_of_lt (by omega) (by omega)]; omega
  have hm : (r * ((w : Int) + 160) + c + 80) % ((w : Int) + 160) = c + 80 := by
    rw [e, Int.add_mul_emod_self_left, Int.emod_eq_of_lt (by omega) (by omega)]
  simp only [hd, hm]
  rw [if_pos ⟨h1, h2⟩]
  congr 1
  unfold extend nearest
  simp only []
  split <;> split <;> split <;> first | rfl | omega | (split <;> first | rfl | omega)

/-- C36 does not hold for every accepted picture: at a height of 8192, a block in the last row with a vector of
64 samples downwards is predicted from memory far outside of the picture. -/
theorem C36_high_violated :
    ∃ (w h bx bY bw bh : Nat) (mvx mvy : Int), w ≤ 16383 ∧ h ≤ 16383 ∧ bx + bw ≤ w ∧ bY + bh ≤ h ∧ bw ≤ 64 ∧ bh ≤ 64 ∧
      -32768 ≤ mvy ∧ mvy ≤ 32767 ∧ -32768 ≤ mvx ∧ mvx ≤ 32767 ∧
      mcLuma (halfMem w h) (w + 160) (cuGetMcPosMv w bw bx mvx) (cuGetMcPosMv h bh bY mvy) 0 0 = none :=
  ⟨64, 8192, 0, 8128, 64, 64, 0, 256, by decide⟩

/-- The same at a width of 8192: the prediction is taken from the wrong place (black instead of white). -/
theorem C36_wide_violated :
    ∃ (w h bx bY bw bh : Nat) (mvx mvy : Int), w ≤ 16383 ∧ h ≤ 16383 ∧ bx + bw ≤ w ∧ bY + bh ≤ h ∧ bw ≤ 64 ∧ bh ≤ 64 ∧
      -32768 ≤ mvy ∧ mvy ≤ 32767 ∧ -32768 ≤ mvx ∧ mvx ≤ 32767 ∧
      mcLuma (halfMem w h) (w + 160) (cuGetMcPosMv w bw bx mvx) (cuGetMcPosMv h bh bY mvy) 0 0 = some 0 ∧
      interpLuma (extend (fun x _ => if x < w / 2 then 0 else 255) w h) (4 * bx + mvx) (4 * bY + mvy) = 255 :=
  ⟨8192, 64, 8128, 0, 64, 64, 256, 0, by decide⟩

/-- C36 on a small picture, vector far to the left and fractional. -/
example : mcLuma (halfMem 64 64) 224 (cuGetMcPosMv 64 8 16 (-1003)) (cuGetMcPosMv 64 8 16 7) 3 2 =
    some (interpLuma (extend (fun x _ => if x < 64 / 2 then 0 else 255) 64 64) (4 * (16 + 3 : Nat) + -1003) (4 * (16 + 2 : Nat) + 7)) :=
  C36_luma_partial (halfMem 64 64) 224 64 64 _ (by intro x y; split <;> omega) (halfMem_padded 64 64 (by omega)) (by omega) (by omega)
    16 16 8 8 (by omega) (by omega) (by omega) (by omega) (-1003) 7 3 2 (by omega) (by omega)

/-- A case that is not constant: a vector to the middle of the picture. -/
example : mcLuma (halfMem 64 64) 224 (cuGetMcPosMv 64 8 16 62) (cuGetMcPosMv 64 8 16 7) 0 0 = some 128 := by decide

/-- **C37.** A flat area is predicted as the same flat area, at every position and fraction, luma and chroma. -/
theorem C37_flat (v : Int) (hv : 0 ≤ v ∧ v ≤ 255) (stride posx posy : Int) (x y : Nat) :
    mcLuma (fun _ => some v) stride posx posy x y = some v ∧
    mcChroma (fun _ => some v) stride posx posy x y = some v := by
  constructor
  · have := mc_core lumaFilterOk (fun _ => some v) stride (fun _ _ => v) posx posy x y (fun _ _ => hv) (fun _ _ _ _ => rfl)
    have e : mcLuma (fun _ => some v) stride posx posy x y = _ := this
    rw [e]
    congr 1
    have hc : ∀ k u a, conv (lumaFilter k) (fun _ => u) a = 64 * u := by
      intro k u a
      unfold lumaFilter
      split <;> simp only [conv] <;> ring
    unfold interp limit8
    rw [show (fun r => conv (lumaFilter ((posx + (4 : Nat) * x) % (4 : Nat)).toNat) (fun c => v)
      ((posx + (4 : Nat) * x) / (4 : Nat) - 3)) = fun _ => 64 * v from funext fun r => hc _ _ _, hc]
    omega
  · have := mc_core chromaFilterOk (fun _ => some v) stride (fun _ _ => v) posx posy x y (fun _ _ => hv) (fun _ _ _ _ => rfl)
    have e : mcChroma (fun _ => some v) stride posx posy x y = _ := this
    rw [e]
    congr 1
    have hc : ∀ k u a, conv (chromaFilter k) (fun _ => u) a = 64 * u := by
      intro k u a
      unfold chromaFilter
      split <;> simp only [conv] <;> ring
    unfold interp limit8
    rw [show (fun r => conv (chromaFilter ((posx + (8 : Nat) * x) % (8 : Nat)).toNat) (fun c => v)
      ((posx + (8 : Nat) * x) / (8 : Nat) - 1)) = fun _ => 64 * v from funext fun r => hc _ _ _, hc]
    omega

theorem clip1_range (v : Int) : 0 ≤ clip1 v ∧ clip1 v ≤ 255 := by unfold clip1; omega

/-- **C37.** Whatever the samples, every predicted sample is a legal sample; so is the average of two
predictions, which is their mean rounded up. -/
theorem C37_range (rd : SampleMem) (hrd : ∀ a v, rd a = some v → 0 ≤ v ∧ v ≤ 255) (stride posx posy : Int) (x y : Nat) (s : Int) :
    (mcLuma rd stride posx posy x y = some s → 0 ≤ s ∧ s ≤ 255) ∧
    (mcChroma rd stride posx posy x y = some s → 0 ≤ s ∧ s ≤ 255) ∧
    (∀ a b : Int, 0 ≤ a → a ≤ 255 → 0 ≤ b → b ≤ 255 →
      a + b ≤ 2 * pixelAverage a b ∧ 2 * pixelAverage a b ≤ a + b + 1 ∧ 0 ≤ pixelAverage a b ∧ pixelAverage a b ≤ 255) := by
  have hm : ∀ (o : Option Int) (f : Int → Int), (o.map fun v => clip1 (f v)) = some s → 0 ≤ s ∧ s ≤ 255 := by
    intro o f h
    cases o with
    | none => simp at h
    | some v => simp at h; rw [← h]; exact clip1_range _
  refine ⟨?_, ?_, ?_⟩
  · unfold mcLuma intplVer intplHor intplExt
    simp only []
    intro h
    split at h
    · exact hrd _ _ h
    · split at h
      · exact hm _ _ h
      · split at h <;> exact hm _ _ h
  · unfold mcChroma intplVer intplHor intplExt
    simp only []
    intro h
    split at h
    · exact hrd _ _ h
    · split at h
      · exact hm _ _ h
      · split at h <;> exact hm _ _ h
  · intro a b h1 h2 h3 h4
    unfold pixelAverage
    omega

/-- A sum of products is bounded by the bounds of the samples. -/
theorem flt_bound (rd : SampleMem) (step B : Int) (hB : 0 ≤ B) (hrd : ∀ a v, rd a = some v → -B ≤ v ∧ v ≤ B) :
    ∀ (cs : List Int) (a s : Int), flt rd step cs a = some s →
      -(B * (cs.map fun c => (c.natAbs : Int)).sum) ≤ s ∧ s ≤ B * (cs.map fun c => (c.natAbs : Int)).sum := by
  intro cs
  induction cs with
  | nil => intro a s h; simp [flt] at h; subst h; simp
  | cons c cs ih =>
    intro a s h
    simp only [flt] at h
    cases hr : rd a with
    | none => simp [hr] at h
    | some v =>
      cases hf : flt rd step cs (a + step) with
      | none => simp [hr, hf] at h
      | some t =>
        simp [hr, hf] at h
        have h1 := hrd a v hr
        have h2 := ih _ _ hf
        simp only [List.map_cons, List.sum_cons]
        have h3 : -(B * (c.natAbs : Int)) ≤ v * c ∧ v * c ≤ B * (c.natAbs : Int) := by
          rcases le_total 0 c with hc | hc
          · rw [show (c.natAbs : Int) = c from by omega]
            constructor <;> nlinarith
          · rw [show (c.natAbs : Int) = -c from by omega]
            constructor <;> nlinarith
        rw [mul_add]
        omega

/-- **C37.** No intermediate value overflows: every partial sum of a first-stage filter fits 16 bits (so the
16-bit intermediate buffer loses nothing), and every partial sum of the second stage, and the sums with the
rounding constants, fit 32 bits. -/
theorem C37_no_overflow (rd : SampleMem) (step a s : Int) (c : List Int) (hc : c ∈ intplFilters ∨ c ∈ intplFiltersC) (n : Nat)
    (h : flt rd step (c.take n) a = some s) :
    ((∀ a v, rd a = some v → 0 ≤ v ∧ v ≤ 255) → -32768 ≤ s ∧ s ≤ 32767) ∧
    ((∀ a v, rd a = some v → -32768 ≤ v ∧ v ≤ 32767) → -2 ^ 31 ≤ s ∧ s + 2048 < 2 ^ 31) := by
  have hs : ((c.take n).map fun c => (c.natAbs : Int)).sum ≤ 112 := by
    have h2 : ((c.take n).map fun c => (c.natAbs : Int)).sum ≤ (c.map fun c => (c.natAbs : Int)).sum := by
      clear h hc
      generalize c = l
      induction l generalizing n with
      | nil => simp
      | cons x l ih =>
        cases n with
        | zero =>
          simp only [List.take_zero, List.map_nil, List.sum_nil, List.map_cons, List.sum_cons]
          have := ih 0
          simp only [List.take_zero, List.map_nil, List.sum_nil] at this
          omega
        | succ n => simp only [List.take_succ_cons, List.map_cons, List.sum_cons]; have := ih n; omega
    have h3 : ∀ c ∈ intplFilters ++ intplFiltersC, (c.map fun c => (c.natAbs : Int)).sum ≤ 112 := by decide
    have := h3 c (by simpa using hc)
    omega
  constructor
  · intro hr
    have := flt_bound rd step 255 (by omega) (fun a v hv => by have := hr a v hv; omega) _ _ _ h
    omega
  · intro hr
    have := flt_bound rd step 32768 (by omega) (fun a v hv => by have := hr a v hv; omega) _ _ _ h
    omega

example : flt (fun _ => some 255) 1 ((intplFilters.getD 2 []).take 6) 0 = some 15555 := by decide

end Davs2
