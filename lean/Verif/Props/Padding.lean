import Verif.Spec.Nearest
import Verif.Model.Padding
import Verif.Props.Layout
/-
Property C24: after all coding-tree rows have been padded each sample of the padding area equals the
nearest sample of the picture.
-/
namespace Davs2

/-- The byte broadcast puts the sample into each of the eight bytes. -/
theorem bcast8_byte (v : Nat) (hv : v < 256) (k : Nat) (hk : k < 8) : bcast8 v >>> (8 * k) % 256 = v := by
  have : ∀ v : Fin 256, ∀ k : Fin 8, bcast8 v.val >>> (8 * k.val) % 256 = v.val := by decide +kernel
  exact this ⟨v, hv⟩ ⟨k, hk⟩

theorem store64_bcast (m : PlaneMem) (a : Int) (v : Nat) (hv : v < 256) (x : Int) :
    store64 m a (bcast8 v) x = if a ≤ x ∧ x < a + 8 then v else m x := by
  unfold store64
  split
  · exact bcast8_byte v hv _ (by omega)
  · rfl

theorem padLoop_spec (n : Nat) (m : PlaneMem) (pl pr : Int) (l r : Nat) (hl : l < 256) (hr : r < 256)
    (h : pl + 8 * n ≤ pr) (x : Int) :
    padLoop m pl pr (bcast8 l) (bcast8 r) n x =
      if pl ≤ x ∧ x < pl + 8 * n then l else if pr ≤ x ∧ x < pr + 8 * n then r else m x := by
  induction n generalizing m pl pr with
  | zero =>
    simp only [padLoop]
    rw [if_neg (by omega), if_neg (by omega)]
  | succ n ih =>
    simp only [padLoop]
    rw [ih _ _ _ (by omega), store64_bcast _ _ _ hr, store64_bcast _ _ _ hl]
    push_cast
    split <;> split <;> (try split) <;> (try split) <;> (try split) <;> (try split) <;>
      first
        | rfl
        | (exfalso; omega)

/-- One row: sample `c` of row `r` after padding row `r'`. -/
def padRowSpec (m : PlaneMem) (stride width pad : Nat) (r' r c : Int) : Nat :=
  if r = r' then
    (if c < 0 then m (r' * stride) else if width ≤ c ∧ c < width + pad then m (r' * stride + width - 1)
     else m (r * stride + c))
  else m (r * stride + c)

theorem row_lt {stride : Nat} {r r' : Int} (h : r < r') : r * stride + stride ≤ r' * stride := by
  have : (r + 1) * (stride : Int) ≤ r' * stride := Int.mul_le_mul_of_nonneg_right (by omega) (by omega)
  rw [Int.add_mul] at this
  omega

theorem padLinePixel_spec (m : PlaneMem) (stride width pad : Nat) (r' r c : Int)
    (hm : ∀ x, m x < 256) (h8 : pad % 8 = 0) (hs : width + 2 * pad ≤ stride) (hc : -(pad : Int) ≤ c)
    (hc2 : c < stride - pad) :
    padLinePixel m (r' * stride) width pad (r * stride + c) = padRowSpec m stride width pad r' r c := by
  unfold padLinePixel
  rw [padLoop_spec _ _ _ _ _ _ (hm _) (hm _) (by omega)]
  have e : (8 * ((pad / 8 : Nat) : Int)) = pad := by omega
  rw [e]
  unfold padRowSpec
  rcases Int.lt_trichotomy r r' with h | h | h
  · have := row_lt (stride := stride) h
    rw [if_neg (by omega), if_neg (by omega), if_neg (by omega)]
  · subst h
    rw [if_pos rfl]
    by_cases h0 : c < 0
    · rw [if_pos (by omega), if_pos h0]
    · rw [if_neg (by omega), if_neg h0]
      by_cases h1 : (width : Int) ≤ c ∧ c < width + pad
      · rw [if_pos (by omega), if_pos h1]
      · rw [if_neg (by omega), if_neg h1]
  · have := row_lt (stride := stride) h
    rw [if_neg (by omega), if_neg (by omega), if_neg (by omega)]

/-- Samples stay bytes. -/
theorem padLinePixel_lt (m : PlaneMem) (pix : Int) (width pad : Nat) (hm : ∀ x, m x < 256) (x : Int) :
    padLinePixel m pix width pad x < 256 := by
  unfold padLinePixel
  generalize bcast8 (m pix) = l
  generalize bcast8 (m (pix + width - 1)) = r
  generalize pix - (pad : Int) = pl
  generalize pix + (width : Int) = pr
  generalize pad / 8 = n
  induction n generalizing m pl pr with
  | zero => exact hm x
  | succ n ih =>
    simp only [padLoop]
    apply ih
    intro y
    unfold store64
    split
    · omega
    · split
      · omega
      · exact hm y

theorem padRows_lt (n : Nat) (m : PlaneMem) (stride width pad : Nat) (s : Int) (hm : ∀ x, m x < 256) (x : Int) :
    padRows m stride width pad s n x < 256 := by
  induction n generalizing m s with
  | zero => exact hm x
  | succ n ih =>
    simp only [padRows]
    exact ih _ _ (padLinePixel_lt m _ _ _ hm)

/-- `n` rows from row `s`. -/
theorem padRows_spec (n : Nat) (m : PlaneMem) (stride width pad : Nat) (s r c : Int)
    (hm : ∀ x, m x < 256) (h8 : pad % 8 = 0) (hw : 0 < width) (hs : width + 2 * pad ≤ stride)
    (hc : -(pad : Int) ≤ c) (hc2 : c < stride - pad) :
    padRows m stride width pad s n (r * stride + c) =
      if s ≤ r ∧ r < s + n then padRowSpec m stride width pad r r c else m (r * stride + c) := by
  induction n generalizing m s with
  | zero =>
    simp only [padRows]
    rw [if_neg (by omega)]
  | succ n ih =>
    simp only [padRows]
    rw [ih _ _ (padLinePixel_lt m _ _ _ hm)]
    by_cases h : s + 1 ≤ r ∧ r < s + 1 + n
    · rw [if_pos h, if_pos (by omega)]
      have q : ∀ c : Int, -(pad : Int) ≤ c → c < stride - pad →
          padLinePixel m (s * stride) width pad (r * stride + c) = m (r * stride + c) := by
        intro c h1 h2
        rw [padLinePixel_spec m stride width pad s r c hm h8 hs h1 h2]
        unfold padRowSpec
        rw [if_neg (by omega)]
      have q0 := q 0 (by omega) (by omega)
      have q1 := q ((width : Int) - 1) (by omega) (by omega)
      rw [Int.add_zero] at q0
      rw [show r * (stride : Int) + (width - 1) = r * stride + width - 1 by omega] at q1
      unfold padRowSpec
      rw [q c hc hc2, q0, q1]
    · rw [if_neg h, padLinePixel_spec m stride width pad s r c hm h8 hs hc hc2]
      by_cases h2 : r = s
      · subst h2
        rw [if_pos (by omega)]
      · rw [if_neg (by omega)]
        unfold padRowSpec
        rw [if_neg h2]

theorem copyMem_row (m : PlaneMem) (stride pad : Nat) (r1 r2 r c : Int) (hc : -(pad : Int) ≤ c)
    (hc2 : c < stride - pad) :
    copyMem m (r1 * stride - pad) (r2 * stride - pad) stride (r * stride + c) =
      if r = r1 then m (r2 * stride + c) else m (r * stride + c) := by
  unfold copyMem
  rcases Int.lt_trichotomy r r1 with h | h | h
  · have := row_lt (stride := stride) h
    rw [if_neg (by omega), if_neg (by omega)]
  · subst h
    rw [if_pos (by omega), if_pos rfl]
    congr 1
    omega
  · have := row_lt (stride := stride) h
    rw [if_neg (by omega), if_neg (by omega)]

theorem padUp_spec (n : Nat) (m : PlaneMem) (stride pad : Nat) (r0 r c : Int) (hc : -(pad : Int) ≤ c)
    (hc2 : c < stride - pad) :
    padUp m stride (r0 * stride - pad) n (r * stride + c) =
      if r0 - n ≤ r ∧ r < r0 then m (r0 * stride + c) else m (r * stride + c) := by
  induction n generalizing m r0 with
  | zero =>
    simp only [padUp]
    rw [if_neg (by omega)]
  | succ n ih =>
    simp only [padUp]
    have e : r0 * (stride : Int) - pad - stride = (r0 - 1) * stride - pad := by
      rw [Int.sub_mul]; omega
    rw [e, ih, copyMem_row m stride pad _ _ _ _ hc hc2, copyMem_row m stride pad _ _ _ _ hc hc2, if_pos rfl]
    push_cast
    by_cases h : r0 - (n + 1) ≤ r ∧ r < r0
    · rw [if_pos h]
      by_cases h2 : r = r0 - 1
      · rw [if_neg (by omega), if_pos h2]
      · rw [if_pos (by omega)]
    · rw [if_neg h, if_neg (by omega), if_neg (by omega)]

theorem padDown_spec (n : Nat) (m : PlaneMem) (stride pad : Nat) (r0 r c : Int) (hc : -(pad : Int) ≤ c)
    (hc2 : c < stride - pad) :
    padDown m stride (r0 * stride - pad) n (r * stride + c) =
      if r0 < r ∧ r ≤ r0 + n then m (r0 * stride + c) else m (r * stride + c) := by
  induction n generalizing m r0 with
  | zero =>
    simp only [padDown]
    rw [if_neg (by omega)]
  | succ n ih =>
    simp only [padDown]
    have e : r0 * (stride : Int) - pad + stride = (r0 + 1) * stride - pad := by
      rw [Int.add_mul]; omega
    rw [e, ih, copyMem_row m stride pad _ _ _ _ hc hc2, copyMem_row m stride pad _ _ _ _ hc hc2, if_pos rfl]
    push_cast
    by_cases h : r0 < r ∧ r ≤ r0 + (n + 1)
    · rw [if_pos h]
      by_cases h2 : r = r0 + 1
      · rw [if_neg (by omega), if_pos h2]
      · rw [if_pos (by omega)]
    · rw [if_neg h, if_neg (by omega), if_neg (by omega)]

theorem copyMem_lt (m : PlaneMem) (d s : Int) (n : Nat) (hm : ∀ x, m x < 256) (x : Int) :
    copyMem m d s n x < 256 := by
  unfold copyMem; split <;> exact hm _

theorem padUp_lt (n : Nat) (m : PlaneMem) (stride : Nat) (p : Int) (hm : ∀ x, m x < 256) (x : Int) :
    padUp m stride p n x < 256 := by
  induction n generalizing m p with
  | zero => exact hm x
  | succ n ih => exact ih _ _ (copyMem_lt m _ _ _ hm)

theorem padDown_lt (n : Nat) (m : PlaneMem) (stride : Nat) (p : Int) (hm : ∀ x, m x < 256) (x : Int) :
    padDown m stride p n x < 256 := by
  induction n generalizing m p with
  | zero => exact hm x
  | succ n ih => exact ih _ _ (copyMem_lt m _ _ _ hm)

/-- What the plane's dimensions satisfy for the picture formats the decoder accepts (see
`padCfg_ok`): rows with their padding do not overlap, and the coding-tree rows cover the lines with less
excess than the padding. -/
structure PadCfg.Ok (c : PadCfg) : Prop where
  width : 0 < c.width
  pad8 : c.pad % 8 = 0
  stride : c.width + 2 * c.pad ≤ c.stride
  rows : 0 < c.rows
  block : 8 ≤ 2 ^ c.lcuLevel / 2 ^ c.shift
  exact : 2 ^ c.shift ∣ 2 ^ c.lcuLevel
  low : (c.rows - 1) * (2 ^ c.lcuLevel / 2 ^ c.shift) < c.lines
  high : c.lines ≤ c.rows * (2 ^ c.lcuLevel / 2 ^ c.shift)
  excess : c.rows * (2 ^ c.lcuLevel / 2 ^ c.shift) ≤ c.lines + c.pad

/-- End of the rows that are done before coding-tree row `k` is padded. -/
def PadCfg.done (c : PadCfg) (k : Nat) : Int := if k = 0 then 0 else if k < c.rows then c.start k else c.lines

/-- State after padding the coding-tree rows below `k`. -/
structure PadInv (c : PadCfg) (m m' : PlaneMem) (k : Nat) : Prop where
  lt : ∀ x, m' x < 256
  inner : ∀ r x : Int, 0 ≤ r → r < c.lines → 0 ≤ x → x < c.width →
    m' (r * c.stride + x) = m (r * c.stride + x)
  rowsDone : ∀ r x : Int, 0 ≤ r → r < c.done k → -(c.pad : Int) ≤ x → x < c.width + c.pad →
    m' (r * c.stride + x) = m (r * c.stride + nearest x c.width)
  top : 0 < k → ∀ r x : Int, -(c.pad : Int) ≤ r → r < 0 → -(c.pad : Int) ≤ x → x < c.width + c.pad →
    m' (r * c.stride + x) = m (nearest x c.width)
  outside : ∀ r x : Int, -(c.pad : Int) ≤ x → x < c.stride - c.pad → (r < -(c.pad : Int) ∨ c.lines + c.pad ≤ r) →
    m' (r * c.stride + x) = m (r * c.stride + x)

theorem PadCfg.start_eq (c : PadCfg) (h : c.Ok) (k : Nat) (hk : 0 < k) :
    c.start k = ((k * (2 ^ c.lcuLevel / 2 ^ c.shift) : Nat) : Int) - 4 := by
  unfold PadCfg.start
  rw [if_pos hk, Nat.mul_div_assoc _ h.exact]

theorem PadCfg.stop_eq (c : PadCfg) (h : c.Ok) (k : Nat) :
    c.stop k = (((k + 1) * (2 ^ c.lcuLevel / 2 ^ c.shift) : Nat) : Int) - (if k + 1 < c.rows then 4 else 0) := by
  unfold PadCfg.stop
  rw [Nat.mul_div_assoc _ h.exact]

theorem nearest_le {x : Int} {n : Nat} (h : 0 < n) : 0 ≤ nearest x n ∧ nearest x n < n := by
  unfold nearest
  split
  · omega
  · split <;> omega

/-- `padRowSpec` on a row of the picture. -/
theorem padRowSpec_nearest (m : PlaneMem) (c : PadCfg) (h : c.Ok) (r x : Int) (hx : -(c.pad : Int) ≤ x)
    (hx2 : x < c.width + c.pad) :
    padRowSpec m c.stride c.width c.pad r r x = m (r * c.stride + nearest x c.width) := by
  have := h.width
  unfold padRowSpec nearest
  rw [if_pos rfl]
  by_cases h0 : x < 0
  · rw [if_pos h0, if_pos h0, Int.add_zero]
  · rw [if_neg h0, if_neg h0]
    by_cases h1 : (c.width : Int) ≤ x
    · rw [if_pos (by omega), if_neg (by omega)]
      congr 1
      omega
    · rw [if_neg (by omega), if_pos (by omega)]

/-- The rows part of one call. -/
theorem padInv_rows (c : PadCfg) (h : c.Ok) (m m' : PlaneMem) (k : Nat) (hk : k < c.rows) (i : PadInv c m m' k) :
    let m2 := padRows m' c.stride c.width c.pad (c.start k) (c.stop k - c.start k).toNat
    (∀ x, m2 x < 256) ∧
    (∀ r x : Int, 0 ≤ r → r < c.lines → 0 ≤ x → x < c.width →
      m2 (r * c.stride + x) = m (r * c.stride + x)) ∧
    (∀ r x : Int, 0 ≤ r → r < c.done (k + 1) → -(c.pad : Int) ≤ x → x < c.width + c.pad →
      m2 (r * c.stride + x) = m (r * c.stride + nearest x c.width)) ∧
    (∀ r x : Int, r < 0 → -(c.pad : Int) ≤ x → x < c.stride - c.pad →
      m2 (r * c.stride + x) = m' (r * c.stride + x)) ∧
    (∀ r x : Int, c.lines + c.pad ≤ r → -(c.pad : Int) ≤ x → x < c.stride - c.pad →
      m2 (r * c.stride + x) = m' (r * c.stride + x)) := by
  intro m2
  have hw := h.width
  have hst := h.stride
  have hb := h.block
  have hlow := h.low
  have hhigh := h.high
  have hex := h.excess
  generalize hB : 2 ^ c.lcuLevel / 2 ^ c.shift = B at *
  -- start and stop in terms of the block size
  have hs0 : 0 ≤ c.start k := by
    by_cases h0 : 0 < k
    · rw [c.start_eq h k h0, hB]
      have : 1 * B ≤ k * B := Nat.mul_le_mul_right B h0
      omega
    · have : k = 0 := by omega
      subst this
      simp [PadCfg.start]
  have hstop := c.stop_eq h k
  rw [hB] at hstop
  have hkB : (k + 1) * B ≤ c.rows * B := Nat.mul_le_mul_right B hk
  have hse : c.start k ≤ c.stop k := by
    rw [hstop]
    by_cases h0 : 0 < k
    · rw [c.start_eq h k h0, hB, Nat.succ_mul]
      split <;> omega
    · have : k = 0 := by omega
      subst this
      simp only [PadCfg.start, Nat.zero_mul, Nat.zero_div, Nat.lt_irrefl, if_false]
      split <;> omega
  have hstopmax : c.stop k ≤ c.lines + c.pad := by
    rw [hstop]
    split <;> omega
  have hdone : ∀ r : Int, 0 ≤ r → r < c.done (k + 1) → r < c.lines ∧ r < c.stop k ∧ (r < c.start k → r < c.done k) := by
    intro r hr0 hr
    unfold PadCfg.done at hr
    rw [if_neg (by omega)] at hr
    have hd : r < c.start k → r < c.done k := by
      intro hlt
      unfold PadCfg.done
      by_cases h0 : k = 0
      · rw [if_pos h0]
        subst h0
        simp [PadCfg.start] at hlt
        omega
      · rw [if_neg h0, if_pos hk]
        exact hlt
    by_cases h1 : k + 1 < c.rows
    · rw [if_pos h1, c.start_eq h (k + 1) (by omega), hB] at hr
      have : (k + 1) * B ≤ (c.rows - 1) * B := Nat.mul_le_mul_right B (by omega)
      rw [hstop, if_pos h1]
      exact ⟨by omega, by omega, hd⟩
    · rw [if_neg h1] at hr
      have : k + 1 = c.rows := by omega
      rw [hstop, if_neg h1, this]
      exact ⟨hr, by omega, hd⟩
  have spec := fun (r x : Int) => padRows_spec (c.stop k - c.start k).toNat m' c.stride c.width c.pad
    (c.start k) r x i.lt h.pad8 hw hst
  have e : c.start k + ((c.stop k - c.start k).toNat : Int) = c.stop k := by omega
  simp only [e] at spec
  refine ⟨fun x => padRows_lt _ _ _ _ _ _ i.lt x, ?_, ?_, ?_, ?_⟩
  · intro r x hr hr2 hx hx2
    show padRows _ _ _ _ _ _ _ = _
    rw [spec r x (by omega) (by omega)]
    split
    · rw [padRowSpec_nearest m' c h r x (by omega) (by omega)]
      unfold nearest
      rw [if_neg (by omega), if_pos (by omega)]
      exact i.inner r x hr hr2 hx hx2
    · exact i.inner r x hr hr2 hx hx2
  · intro r x hr hr2 hx hx2
    obtain ⟨d1, d2, d3⟩ := hdone r hr hr2
    show padRows _ _ _ _ _ _ _ = _
    rw [spec r x (by omega) (by omega)]
    by_cases hin : c.start k ≤ r
    · rw [if_pos ⟨hin, d2⟩, padRowSpec_nearest m' c h r x hx hx2]
      have hn := nearest_le (x := x) hw
      exact i.inner r _ hr d1 hn.1 hn.2
    · rw [if_neg (by omega)]
      exact i.rowsDone r x hr (d3 (by omega)) hx hx2
  · intro r x hr hx hx2
    show padRows _ _ _ _ _ _ _ = _
    rw [spec r x (by omega) (by omega), if_neg (by omega)]
  · intro r x hr hx hx2
    show padRows _ _ _ _ _ _ _ = _
    rw [spec r x (by omega) (by omega), if_neg (by omega)]

theorem PadCfg.done_succ_pos (c : PadCfg) (h : c.Ok) (k : Nat) : 0 < c.done (k + 1) := by
  have hb := h.block
  have hlow := h.low
  unfold PadCfg.done
  rw [if_neg (by omega)]
  split
  · rw [c.start_eq h (k + 1) (by omega)]
    have : 1 * (2 ^ c.lcuLevel / 2 ^ c.shift) ≤ (k + 1) * (2 ^ c.lcuLevel / 2 ^ c.shift) :=
      Nat.mul_le_mul_right _ (by omega)
    omega
  · omega

/-- The rows above the picture. -/
def padTopStep (c : PadCfg) (m : PlaneMem) (y : Nat) : PlaneMem :=
  if y = 0 then padUp m c.stride (-(c.pad : Int)) c.pad else m

theorem padLineLcu_eq (c : PadCfg) (m : PlaneMem) (y : Nat) :
    padLineLcu c m y =
      let m2 := padTopStep c (padRows m c.stride c.width c.pad (c.start y) (c.stop y - c.start y).toNat) y
      if y + 1 = c.rows then padDown m2 c.stride (((c.lines : Int) - 1) * c.stride - c.pad) c.pad else m2 := rfl

/-- Everything except the rows below the picture. -/
theorem padInv_top (c : PadCfg) (h : c.Ok) (m m' : PlaneMem) (k : Nat) (hk : k < c.rows) (i : PadInv c m m' k) :
    PadInv c m (padTopStep c (padRows m' c.stride c.width c.pad (c.start k) (c.stop k - c.start k).toNat) k)
      (k + 1) := by
  have hw := h.width
  have hst := h.stride
  obtain ⟨a1, a2, a3, a4, a5⟩ := padInv_rows c h m m' k hk i
  have hpos := c.done_succ_pos h k
  have hdl : c.done (k + 1) ≤ c.lines := by
    have hlow := h.low
    unfold PadCfg.done
    rw [if_neg (by omega)]
    split
    · rename_i hlt
      rw [c.start_eq h (k + 1) (by omega)]
      have : (k + 1) * (2 ^ c.lcuLevel / 2 ^ c.shift) ≤ (c.rows - 1) * (2 ^ c.lcuLevel / 2 ^ c.shift) :=
        Nat.mul_le_mul_right _ (by omega)
      omega
    · omega
  generalize padRows m' c.stride c.width c.pad (c.start k) (c.stop k - c.start k).toNat = m2 at *
  by_cases h0 : k = 0
  · subst h0
    unfold padTopStep
    rw [if_pos rfl]
    have up := fun (r x : Int) => padUp_spec c.pad m2 c.stride c.pad 0 r x
    simp only [Int.zero_mul, Int.zero_sub, Int.zero_add] at up
    refine ⟨fun x => padUp_lt _ _ _ _ a1 x, ?_, ?_, ?_, ?_⟩
    · intro r x hr hr2 hx hx2
      rw [up r x (by omega) (by omega), if_neg (by omega)]
      exact a2 r x hr hr2 hx hx2
    · intro r x hr hr2 hx hx2
      rw [up r x (by omega) (by omega), if_neg (by omega)]
      exact a3 r x hr hr2 hx hx2
    · intro _ r x hr hr2 hx hx2
      rw [up r x (by omega) (by omega), if_pos (by omega)]
      have := a3 0 x (by omega) hpos hx hx2
      simpa using this
    · intro r x hx hx2 hr
      rw [up r x (by omega) (by omega), if_neg (by omega)]
      rcases hr with hr | hr
      · rw [a4 r x (by omega) hx hx2]
        exact i.outside r x hx hx2 (Or.inl hr)
      · rw [a5 r x hr hx hx2]
        exact i.outside r x hx hx2 (Or.inr hr)
  · unfold padTopStep
    rw [if_neg h0]
    refine ⟨a1, a2, a3, ?_, ?_⟩
    · intro _ r x hr hr2 hx hx2
      rw [a4 r x hr2 hx (by omega)]
      exact i.top (by omega) r x hr hr2 hx hx2
    · intro r x hx hx2 hr
      rcases hr with hr | hr
      · rw [a4 r x (by omega) hx hx2]
        exact i.outside r x hx hx2 (Or.inl hr)
      · rw [a5 r x hr hx hx2]
        exact i.outside r x hx hx2 (Or.inr hr)

theorem padInv_all (c : PadCfg) (h : c.Ok) (m : PlaneMem) (hm : ∀ x, m x < 256) (k : Nat) (hk : k < c.rows) :
    PadInv c m (padPicture c m k) k := by
  induction k with
  | zero =>
    refine ⟨hm, fun _ _ _ _ _ _ => rfl, ?_, fun h => absurd h (Nat.lt_irrefl 0), fun _ _ _ _ _ => rfl⟩
    intro r x hr hr2
    simp [PadCfg.done] at hr2
    omega
  | succ k ih =>
    have := padInv_top c h m _ k (by omega) (ih (by omega))
    simp only [padPicture]
    rw [padLineLcu_eq]
    simp only
    rw [if_neg (by omega)]
    exact this

/-- **C24.** After all coding-tree rows have been padded, each sample of the padding area (up to `pad` rows
and columns outside the picture) equals the nearest sample of the picture, the picture itself is unchanged,
and nothing outside the padding area is written. -/
theorem C24_padding (c : PadCfg) (h : c.Ok) (m : PlaneMem) (hm : ∀ x, m x < 256) :
    (∀ r x : Int, -(c.pad : Int) ≤ r → r < c.lines + c.pad → -(c.pad : Int) ≤ x → x < c.width + c.pad →
      padPicture c m c.rows (r * c.stride + x) = m (nearest r c.lines * c.stride + nearest x c.width)) ∧
    (∀ a : Int, a < -(c.pad : Int) * c.stride - c.pad ∨ (c.lines + c.pad : Int) * c.stride - c.pad ≤ a →
      padPicture c m c.rows a = m a) := by
  have hw := h.width
  have hst := h.stride
  have hlow := h.low
  obtain ⟨n, hn⟩ : ∃ n, c.rows = n + 1 := ⟨c.rows - 1, by have := h.rows; omega⟩
  have i := padInv_top c h m _ n (by omega) (padInv_all c h m hm n (by omega))
  rw [hn]
  simp only [padPicture]
  rw [padLineLcu_eq]
  simp only
  rw [if_pos (by omega)]
  generalize padTopStep c _ n = m2 at *
  have down := fun (r x : Int) => padDown_spec c.pad m2 c.stride c.pad ((c.lines : Int) - 1) r x
  have hdone : c.done (n + 1) = c.lines := by
    unfold PadCfg.done
    rw [if_neg (by omega), if_neg (by omega)]
  constructor
  · intro r x hr hr2 hx hx2
    rw [down r x (by omega) (by omega)]
    by_cases h1 : (c.lines : Int) ≤ r
    · rw [if_pos (by omega)]
      rw [i.rowsDone _ x (by omega) (by rw [hdone]; omega) hx hx2]
      have : nearest r c.lines = (c.lines : Int) - 1 := by
        unfold nearest; rw [if_neg (by omega), if_neg (by omega)]
      rw [this]
    · rw [if_neg (by omega)]
      by_cases h0 : r < 0
      · rw [i.top (by omega) r x hr h0 hx hx2]
        have : nearest r c.lines = 0 := by unfold nearest; rw [if_pos h0]
        rw [this, Int.zero_mul, Int.zero_add]
      · rw [i.rowsDone r x (by omega) (by rw [hdone]; omega) hx hx2]
        have : nearest r c.lines = r := by
          unfold nearest; rw [if_neg h0, if_pos (by omega)]
        rw [this]
  · intro a ha
    have hspos : 0 < (c.stride : Int) := by omega
    have hd := Int.emod_add_mul_ediv (a + c.pad) c.stride
    have h1 := Int.emod_nonneg (a + c.pad) (by omega : (c.stride : Int) ≠ 0)
    have h2 := Int.emod_lt_of_pos (a + c.pad) hspos
    generalize hq : (a + c.pad) / (c.stride : Int) = q at *
    generalize (a + c.pad) % (c.stride : Int) = x at *
    rw [Int.mul_comm] at hd
    have ea : a = q * c.stride + (x - c.pad) := by omega
    have hr : q < -(c.pad : Int) ∨ (c.lines : Int) + c.pad ≤ q := by
      rcases ha with ha | ha
      · left
        by_cases hcon : q < -(c.pad : Int)
        · exact hcon
        · exfalso
          have : -(c.pad : Int) * c.stride ≤ q * c.stride :=
            Int.mul_le_mul_of_nonneg_right (by omega) (by omega)
          omega
      · right
        by_cases hcon : (c.lines : Int) + c.pad ≤ q
        · exact hcon
        · exfalso
          have : (q + 1) * (c.stride : Int) ≤ ((c.lines : Int) + c.pad) * c.stride :=
            Int.mul_le_mul_of_nonneg_right (by omega) (by omega)
          rw [Int.add_mul, Int.one_mul] at this
          omega
    rw [ea, down q _ (by omega) (by omega), if_neg (by omega)]
    exact i.outside q _ (by omega) (by omega) hr

/-- Plane `i` of a 4:2:0 picture, with the strides and sizes of the frame allocator and the padding of
frame.cc:103-105. -/
def padCfgOf (d : FrameDims) (lcuLevel : Nat) (chroma : Bool) : PadCfg :=
  { stride := if chroma then d.strideC else d.strideL
    width := if chroma then d.widthC else d.width
    lines := if chroma then d.heightC else d.height
    pad := if chroma then 40 else 80
    lcuLevel := lcuLevel
    shift := chroma.toNat
    rows := (d.height + (2 ^ lcuLevel - 1)) / 2 ^ lcuLevel }

/-- The hypotheses of `C24_padding` hold for each plane of every 4:2:0 picture (sizes are multiples of 8,
coding trees of 16, 32 or 64) and for the luma plane of the others. -/
theorem padCfg_ok (d : FrameDims) (lvl : Nat) (chroma : Bool) (hl : lvl = 4 ∨ lvl = 5 ∨ lvl = 6)
    (hw : 8 ≤ d.width) (hh : 8 ≤ d.height) (h8 : d.height % 8 = 0) (h420 : chroma = true → d.is420 = true) :
    (padCfgOf d lvl chroma).Ok := by
  have sL := (C23_frame_layout ⟨0, 0⟩ d 0).2.2.2.2
  cases chroma with
  | false =>
    rcases hl with rfl | rfl | rfl <;>
      (constructor <;> simp only [padCfgOf, Bool.toNat, cond, Bool.false_eq_true, if_false] <;>
        first
          | (norm_num; omega)
          | omega)
  | true =>
    have h4 := h420 rfl
    have e : d.heightC = d.height / 2 := by simp [FrameDims.heightC, h4]
    have ew : d.widthC = d.width / 2 := rfl
    rcases hl with rfl | rfl | rfl <;>
      (constructor <;> simp only [padCfgOf, Bool.toNat, cond, if_true, e, ew] at * <;>
        first
          | (norm_num; omega)
          | omega)

example : (padCfgOf ⟨1920, 1080, true, true⟩ 6 true).Ok :=
  padCfg_ok _ 6 true (by decide) (by decide) (by decide) (by decide) (fun _ => rfl)

end Davs2
