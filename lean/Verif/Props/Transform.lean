import Verif.Lemmas.Transform
import Mathlib.Order.Interval.Set.Defs
/-
C38: the inverse transforms.
-/
namespace Davs2.Tr
open Spec Finset

theorem limitBits_range {d : Nat} (v : Int) : -2 ^ (d - 1) ≤ limitBits d v ∧ limitBits d v ≤ 2 ^ (d - 1) - 1 := by
  unfold limitBits
  have : (0 : Int) < 2 ^ (d - 1) := by positivity
  generalize (2 : Int) ^ (d - 1) = p at *
  omega

theorem clip3_limitBits (d : Nat) (v : Int) : clip3 (-2 ^ (d - 1)) (2 ^ (d - 1) - 1) v = limitBits d v := by
  unfold clip3 limitBits
  have : (0 : Int) < 2 ^ (d - 1) := by positivity
  generalize (2 : Int) ^ (d - 1) = p at *
  split <;> [skip; split] <;> omega

theorem toInt16_id {v : Int} (h1 : -32768 ≤ v) (h2 : v ≤ 32767) : toInt16 v = v := by
  unfold toInt16; omega

theorem toInt16_limitBits {d : Nat} (hd : d ≤ 16) (v : Int) : toInt16 (limitBits d v) = limitBits d v := by
  have h := limitBits_range (d := d) v
  have : (2 : Int) ^ (d - 1) ≤ 2 ^ 15 := pow_le_pow_right₀ (by omega) (by omega)
  apply toInt16_id <;> omega

theorem fin_ev {v : Option Int} {w B : Int} {shift depth : Nat} (h : Ev v w B) (hB : B + 2 ^ (shift - 1) < 2 ^ 31)
    (hd : depth ≤ 16) :
    fin shift depth v = some (limitBits depth (roundShift shift w)) := by
  have := ev_add h (y := some (2 ^ (shift - 1))) (w := 2 ^ (shift - 1)) (C := 2 ^ (shift - 1))
    ⟨rfl, by rw [abs_of_nonneg (by positivity)]⟩ hB
  unfold fin
  rw [this.1, Option.map_some, clip3_limitBits, toInt16_limitBits hd]
  rfl

theorem limitBits_abs (d : Nat) (v : Int) : |limitBits d v| ≤ 2 ^ (d - 1) := by
  have h := limitBits_range (d := d) v
  exact abs_le.mpr ⟨by omega, by omega⟩

/-- Sizes of transforms. -/
def IsSize (n : Nat) : Prop := n = 4 ∨ n = 8 ∨ n = 16 ∨ n = 32

theorem bfOf_ev {n : Nat} (hn : IsSize n) {s : Buf} {f : Nat → Int} (hs : ∀ i < n, Ev (s i) (f i) 32768) :
    ∀ k < n, Ev (bfOf n s k) (∑ i ∈ range n, dctMat n i k * f i) 47185920 := by
  intro k hk
  rcases hn with rfl | rfl | rfl | rfl
  · exact (bf4_ev hs k hk).mono (by decide)
  · exact (bf8_ev hs k hk).mono (by decide)
  · exact (bf16_ev hs k hk).mono (by decide)
  · exact (bf32_ev hs k hk).mono (by decide)

theorem pass_eq {n : Nat} (hn : IsSize n) {shift line depth : Nat} (hsh : shift ≤ 24) (hd : depth ≤ 16) {src : Buf}
    {c : Nat → Int} (hs : ∀ a < n * line, Ev (src a) (c a) 32768) {j k : Nat} (hj : j < line) (hk : k < n) :
    pass (bfOf n) n shift line depth src (j * n + k) =
      some (limitBits depth (roundShift shift (∑ i ∈ range n, dctMat n i k * c (i * line + j)))) := by
  unfold pass
  have e1 : (j * n + k) / n = j := by
    rw [mul_comm, Nat.mul_add_div (by omega), Nat.div_eq_of_lt hk, add_zero]
  have e2 : (j * n + k) % n = k := by rw [mul_comm, Nat.mul_add_mod, Nat.mod_eq_of_lt hk]
  rw [e1, e2]
  refine fin_ev (bfOf_ev hn (f := fun i => c (i * line + j)) ?_ k hk) ?_ hd
  · intro i hi
    apply hs
    calc i * line + j < i * line + line := by omega
      _ = (i + 1) * line := by ring
      _ ≤ n * line := Nat.mul_le_mul_right _ hi
  · have : (2 : Int) ^ (shift - 1) ≤ 2 ^ 23 := pow_le_pow_right₀ (by omega) (by omega)
    omega

/-- A block of 16-bit coefficients. -/
def IsBlock (n : Nat) (c : Nat → Int) (m : Buf) : Prop := ∀ a < n, m a = some (c a) ∧ -32768 ≤ c a ∧ c a ≤ 32767

theorem IsBlock.ev {n : Nat} {c : Nat → Int} {m : Buf} (h : IsBlock n c m) : ∀ a < n, Ev (m a) (c a) 32768 := by
  intro a ha
  obtain ⟨h1, h2, h3⟩ := h a ha
  exact ⟨h1, abs_le.mpr ⟨by omega, by omega⟩⟩

/-- **C38 (fast transforms).** For every block of 16-bit coefficients, in every block shape of width and height
4, 8, 16 or 32, the two butterfly stages compute, without overflow, exactly the product with the cosine matrix in each
direction, rounded and limited. -/
theorem C38_idct {w h wl : Nat} (hw : IsSize w) (hh : IsSize h) (hwl : wl ≤ 1) {m : Buf} {c : Nat → Int}
    (hm : IsBlock (w * h) c m) {y x : Nat} (hy : y < h) (hx : x < w) :
    idct w h wl m (y * w + x) = some (invDct w h wl c y x) := by
  unfold idct invDct
  have h1 : ∀ j < w, ∀ y < h, pass (bfOf h) h 5 w 16 m (j * h + y) = some (invVert w h c y j) := by
    intro j hj y hy
    exact pass_eq hh (by omega) (by omega) (by rw [mul_comm]; exact hm.ev) hj hy
  have h2 := pass_eq (n := w) hw (shift := 12 - wl) (line := h) (depth := 9 + wl) (by omega) (by omega)
    (src := pass (bfOf h) h 5 w 16 m) (c := fun a => invVert w h c (a % h) (a / h)) (j := y) (k := x) ?_ hy hx
  · rw [h2]
    have : ∀ j ∈ range w, dctMat w j x * invVert w h c ((j * h + y) % h) ((j * h + y) / h) =
        dctMat w j x * invVert w h c y j := by
      intro j _
      rw [mul_comm j h, Nat.mul_add_mod, Nat.mod_eq_of_lt hy, Nat.mul_add_div (by omega), Nat.div_eq_of_lt hy, add_zero]
    rw [Finset.sum_congr rfl this]
  · intro a ha
    have hp : 0 < h := by omega
    have := h1 (a / h) (Nat.div_lt_of_lt_mul (by rw [mul_comm h w]; exact ha)) (a % h) (Nat.mod_lt _ hp)
    rw [mul_comm (a / h) h, Nat.div_add_mod] at this
    exact ⟨this, limitBits_abs 16 _⟩

/-- **C38 (range).** The residual has nine bits. -/
theorem C38_range (w h : Nat) (c : Nat → Int) (y x : Nat) :
    -256 ≤ invDct w h 0 c y x ∧ invDct w h 0 c y x ≤ 255 := by
  unfold invDct; exact limitBits_range (d := 9) _

theorem half_ev {x : Option Int} {v : Int} (h : Ev x v 32768) : half x = some (v / 2) := by
  unfold half
  obtain ⟨h1, h2⟩ := abs_le.mp h.2
  rw [h.1, Option.map_some, toInt16_id (by omega) (by omega)]

theorem half_add {x y : Option Int} {v w : Int} (h : Ev x v 16384) (h' : Ev y w 16384) :
    half (add32 x y) = some ((v + w) / 2) :=
  half_ev (ev_add h h' (by decide))

/-- The column loop: whatever the number of columns visited beyond the source, the first `w` columns of the
destination are the interpolated columns of the source. -/
theorem vert_fold {w hh : Nat} (hw : 0 < w) (hhh : 0 < hh) {m0 : Buf} {B : Nat → Nat → Int}
    (h0 : ∀ i < hh, ∀ j < w, Ev (m0 (i * w + j)) (B i j) 16384) :
    ∀ n ≤ 2 * w, 
      (∀ x < n, x < w → ∀ y < 2 * hh,
        (List.range n).foldl (vertStep w (2 * hh)) m0 (2 * w * y + x) = some (lift hh (fun i => B i x / 2) y)) ∧
      (∀ j, n ≤ j → j < w → ∀ i < hh, (List.range n).foldl (vertStep w (2 * hh)) m0 (i * w + j) = m0 (i * w + j)) := by
  intro n
  induction n with
  | zero => intro _; exact ⟨fun x hx => by omega, fun j _ _ i _ => rfl⟩
  | succ n ih =>
    intro hn
    obtain ⟨ih1, ih2⟩ := ih (by omega)
    simp only [List.range_succ, List.foldl_append, List.foldl_cons, List.foldl_nil]
    generalize (List.range n).foldl (vertStep w (2 * hh)) m0 = m at *
    have addr : ∀ y x, x < w → (2 * w * y + x) % (2 * w) = x ∧ (2 * w * y + x) / (2 * w) = y := by
      intro y x hx
      refine ⟨?_, ?_⟩
      · rw [Nat.mul_add_mod, Nat.mod_eq_of_lt (by omega)]
      · rw [Nat.mul_add_div (by omega), Nat.div_eq_of_lt (by omega), add_zero]
    constructor
    · intro x hx hxw y hy
      obtain ⟨a1, a2⟩ := addr y x hxw
      unfold vertStep
      simp only [a1, a2]
      by_cases hxn : x = n
      · subst hxn
        rw [if_pos ⟨rfl, hy⟩]
        have he : ∀ i < hh, Ev (m (x + i * w)) (B i x) 16384 := by
          intro i hi
          rw [add_comm, ih2 x (le_refl x) hxw i hi]
          exact h0 i hi x hxw
        have hev : ∀ i < hh, half (m (x + i * w)) = some (B i x / 2) := fun i hi => half_ev ((he i hi).mono (by decide))
        have hb : ∀ i < hh, |B i x / 2| ≤ 16384 := by
          intro i hi
          obtain ⟨b1, b2⟩ := abs_le.mp (he i hi).2
          exact abs_le.mpr ⟨by omega, by omega⟩
        unfold lift
        split
        · rw [if_neg (by omega), hev _ (by omega)]
        · rename_i hodd
          rw [if_neg (by omega)]
          rw [show (y - 1) / 2 = y / 2 by omega]
          have e2 : (if y + 1 = 2 * hh then 2 * hh - 2 else y + 1) / 2 = min (y / 2 + 1) (hh - 1) := by
            split <;> omega
          rw [e2]
          refine half_add ⟨hev _ (by omega), hb _ (by omega)⟩ ⟨hev _ (by omega), hb _ (by omega)⟩
      · rw [if_neg (by omega)]
        exact ih1 x (by omega) hxw y hy
    · intro j hj hjw i hi
      unfold vertStep
      simp only []
      rw [if_neg]
      · exact ih2 j (by omega) hjw i hi
      · rintro ⟨h1, _⟩
        have hi2 : i * w + j = 2 * w * (i / 2) + ((i % 2) * w + j) := by
          have : i = 2 * (i / 2) + i % 2 := by omega
          calc i * w + j = (2 * (i / 2) + i % 2) * w + j := by rw [← this]
            _ = _ := by ring
        rw [hi2, Nat.mul_add_mod] at h1
        have : i % 2 = 0 ∨ i % 2 = 1 := by omega
        rcases this with h | h <;> rw [h] at h1
        · rw [Nat.mod_eq_of_lt (by omega)] at h1; omega
        · rw [Nat.mod_eq_of_lt (by omega)] at h1; omega

/-- The row loop. -/
theorem hor_fold {w : Nat} (hw : 0 < w) {m0 : Buf} {V : Nat → Nat → Int} {H : Nat}
    (h0 : ∀ y < H, ∀ j < w, Ev (m0 (2 * w * y + j)) (V y j) 16384) :
    ∀ n ≤ H,
      (∀ y < n, ∀ x < 2 * w, (List.range n).foldl (horStep w) m0 (2 * w * y + x) = some (lift w (fun j => V y j) x)) ∧
      (∀ y, n ≤ y → ∀ x < 2 * w, (List.range n).foldl (horStep w) m0 (2 * w * y + x) = m0 (2 * w * y + x)) := by
  intro n
  induction n with
  | zero => intro _; exact ⟨fun x hx => by omega, fun j _ _ _ => rfl⟩
  | succ n ih =>
    intro hn
    obtain ⟨ih1, ih2⟩ := ih (by omega)
    simp only [List.range_succ, List.foldl_append, List.foldl_cons, List.foldl_nil]
    generalize (List.range n).foldl (horStep w) m0 = m at *
    have addr : ∀ y x, x < 2 * w → (2 * w * y + x) % (2 * w) = x ∧ (2 * w * y + x) / (2 * w) = y := by
      intro y x hx
      refine ⟨?_, ?_⟩
      · rw [Nat.mul_add_mod, Nat.mod_eq_of_lt (by omega)]
      · rw [Nat.mul_add_div (by omega), Nat.div_eq_of_lt (by omega), add_zero]
    constructor
    · intro y hy x hx
      obtain ⟨a1, a2⟩ := addr y x hx
      unfold horStep
      simp only [a1, a2]
      by_cases hyn : y = n
      · subst hyn
        rw [if_pos rfl]
        have he : ∀ j < w, Ev (m (2 * w * y + j)) (V y j) 16384 := by
          intro j hj
          rw [ih2 y (le_refl y) j (by omega)]
          exact h0 y (by omega) j hj
        unfold lift
        split
        · rw [if_neg (by omega), (he _ (by omega)).1]
        · rename_i hodd
          rw [if_neg (by omega)]
          rw [show (x - 1) / 2 = x / 2 by omega]
          have e2 : (if x + 1 = 2 * w then 2 * w - 2 else x + 1) / 2 = min (x / 2 + 1) (w - 1) := by
            split <;> omega
          rw [e2]
          exact half_add (he _ (by omega)) (he _ (by omega))
      · rw [if_neg hyn]
        exact ih1 y (by omega) x hx
    · intro y hy x hx
      obtain ⟨a1, a2⟩ := addr y x hx
      unfold horStep
      simp only [a2]
      rw [if_neg (by omega)]
      exact ih2 y (by omega) x hx

theorem wavelet_eq {w hh nx : Nat} (hw : IsSize w) (hh' : IsSize hh) (hn1 : w ≤ nx) (hn2 : nx ≤ 2 * w) {m : Buf}
    {c : Nat → Int} (hm : IsBlock (w * hh) c m) {y x : Nat} (hy : y < 2 * hh) (hx : x < 2 * w) :
    wavelet w (2 * hh) nx (store w hh m (idct w hh 1 m)) (2 * w * y + x) = some (invWavelet w hh c y x) := by
  have hw0 : 0 < w := by rcases hw with rfl | rfl | rfl | rfl <;> decide
  have hh0 : 0 < hh := by rcases hh' with rfl | rfl | rfl | rfl <;> decide
  have hB : ∀ i j, |invDct w hh 1 c i j| ≤ 512 := fun i j => limitBits_abs 10 _
  have h0 : ∀ i < hh, ∀ j < w, Ev (store w hh m (idct w hh 1 m) (i * w + j)) (invDct w hh 1 c i j) 16384 := by
    intro i hi j hj
    unfold store
    rw [if_pos]
    · exact ⟨C38_idct hw hh' (by omega) hm hi hj, (hB i j).trans (by omega)⟩
    · calc i * w + j < i * w + w := by omega
        _ = w * (i + 1) := by ring
        _ ≤ w * hh := Nat.mul_le_mul_left _ hi
  unfold wavelet
  have h1 := (vert_fold hw0 hh0 h0 nx hn2).1
  generalize (List.range nx).foldl (vertStep w (2 * hh)) (store w hh m (idct w hh 1 m)) = m1 at h1
  have hV : ∀ y < 2 * hh, ∀ j < w, Ev (m1 (2 * w * y + j)) (lift hh (fun i => invDct w hh 1 c i j / 2) y) 16384 := by
    intro y hy j hj
    refine ⟨h1 j (by omega) hj y hy, ?_⟩
    unfold lift
    have b1 := abs_le.mp (hB (y / 2) j)
    have b2 := abs_le.mp (hB (min (y / 2 + 1) (hh - 1)) j)
    dsimp only
    split <;> exact abs_le.mpr ⟨by omega, by omega⟩
  exact (hor_fold hw0 hV (2 * hh) (le_refl _)).1 y hy x hx

/-- **C38 (64-wide blocks).** The in-place wavelet loops, which read and write the same buffer with different row lengths
and visit 64 columns of a source that has 32, compute the inverse wavelet of the inverse transform. -/
theorem C38_64x64 {m : Buf} {c : Nat → Int} (hm : IsBlock 1024 c m) {y x : Nat} (hy : y < 64) (hx : x < 64) :
    idct64x64 m (64 * y + x) = some (invWavelet 32 32 c y x) :=
  wavelet_eq (hh := 32) (by unfold IsSize; omega) (by unfold IsSize; omega) (by omega) (by omega) hm (by omega) (by omega)

theorem C38_64x16 {m : Buf} {c : Nat → Int} (hm : IsBlock 256 c m) {y x : Nat} (hy : y < 16) (hx : x < 64) :
    idct64x16 m (64 * y + x) = some (invWavelet 32 8 c y x) :=
  wavelet_eq (hh := 8) (by unfold IsSize; omega) (by unfold IsSize; omega) (by omega) (by omega) hm (by omega) (by omega)

theorem C38_16x64 {m : Buf} {c : Nat → Int} (hm : IsBlock 256 c m) {y x : Nat} (hy : y < 64) (hx : x < 16) :
    idct16x64 m (16 * y + x) = some (invWavelet 8 32 c y x) :=
  wavelet_eq (hh := 32) (by unfold IsSize; omega) (by unfold IsSize; omega) (by omega) (by omega) hm (by omega) (by omega)

/-- **C38 (range, 64-wide blocks).** -/
theorem C38_range64 (w h : Nat) (c : Nat → Int) (y x : Nat) :
    -256 ≤ invWavelet w h c y x ∧ invWavelet w h c y x ≤ 255 := by
  have hB : ∀ i j, -512 ≤ invDct w h 1 c i j ∧ invDct w h 1 c i j ≤ 511 := fun i j => limitBits_range (d := 10) _
  have hL : ∀ n (f : Nat → Int), (∀ i, -256 ≤ f i ∧ f i ≤ 255) → ∀ y, -256 ≤ lift n f y ∧ lift n f y ≤ 255 := by
    intro n f hf y
    unfold lift
    have h1 := hf (y / 2)
    have h2 := hf (min (y / 2 + 1) (n - 1))
    split <;> omega
  unfold invWavelet
  apply hL
  intro j
  apply hL
  intro i
  have := hB i j
  omega

theorem sum4_ev {t : List (List Int)} (ht : ∀ k < 4, ∀ i < 4, |tab t k i| ≤ 126) {s : Buf} {f : Nat → Int}
    (hs : ∀ k < 4, Ev (s k) (f k) 32768) {i shift : Nat} (hi : i < 4) (hsh : shift ≤ 24) :
    sum4 t i shift s = some (2 ^ (shift - 1) + mat4 (tab t) f i) := by
  have hp : (0 : Int) ≤ 2 ^ (shift - 1) := by positivity
  have hq : (2 : Int) ^ (shift - 1) ≤ 2 ^ 23 := pow_le_pow_right₀ (by omega) (by omega)
  have := ev_dot (t := fun k => tab t k i) (s := s) (f := f) (M := 126) (C := 32768) (by norm_num) [0, 1, 2, 3]
    (some (2 ^ (shift - 1))) (2 ^ (shift - 1)) (2 ^ (shift - 1)) ⟨rfl, by rw [abs_of_nonneg hp]⟩
    (by
      intro k hk
      have hk' : k < 4 := by simp at hk; omega
      exact ⟨ht k hk' i hi, hs k hk'⟩) (by simp; omega) hp
  unfold sum4
  rw [this.1]
  unfold mat4
  simp [Finset.sum_range_succ, add_assoc]

theorem g2T_le : ∀ k < 4, ∀ i < 4, |tab g2T k i| ≤ 126 := by decide
theorem g2TC_le : ∀ k < 4, ∀ i < 4, |tab g2TC k i| ≤ 126 := by decide

/-- One step of a secondary transform along the columns. -/
theorem tr2Ver_eq {t : List (List Int)} (ht : ∀ k < 4, ∀ i < 4, |tab t k i| ≤ 126) {m : Buf} {c : Nat → Nat → Int}
    {stride shift : Nat} (hst : 4 ≤ stride) (hsh : shift ≤ 24)
    (hm : ∀ i < 4, ∀ j < 4, Ev (m (i * stride + j)) (c i j) 32768) :
    (∀ i < 4, ∀ j < 4, tr2Ver stride shift t m (i * stride + j) =
      some (limitBits 16 (roundShift shift (mat4 (tab t) (fun k => c k j) i)))) ∧
    (∀ a, ¬ (a / stride < 4 ∧ a % stride < 4) → tr2Ver stride shift t m a = m a) := by
  constructor
  · intro i hi j hj
    unfold tr2Ver
    have e1 : (i * stride + j) / stride = i := by
      rw [mul_comm, Nat.mul_add_div (by omega), Nat.div_eq_of_lt (by omega), add_zero]
    have e2 : (i * stride + j) % stride = j := by rw [mul_comm, Nat.mul_add_mod, Nat.mod_eq_of_lt (by omega)]
    simp only [e1, e2]
    rw [if_pos ⟨hi, hj⟩, sum4_ev ht (f := fun k => c k j) (fun k hk => hm k hk j hj) hi hsh, Option.map_some]
    have := clip3_limitBits 16
    norm_num at this
    rw [this, toInt16_limitBits (by omega), add_comm]
    rfl
  · intro a ha
    unfold tr2Ver
    simp only []
    rw [if_neg ha]

/-- One step of a secondary transform along the rows. -/
theorem tr2Hor_eq {t : List (List Int)} (ht : ∀ k < 4, ∀ i < 4, |tab t k i| ≤ 126) {m : Buf} {c : Nat → Nat → Int}
    {stride shift depth : Nat} (hst : 4 ≤ stride) (hsh : shift ≤ 24) (hd : depth ≤ 16)
    (hm : ∀ i < 4, ∀ j < 4, Ev (m (i * stride + j)) (c i j) 32768) :
    (∀ i < 4, ∀ j < 4, tr2Hor stride shift depth t m (i * stride + j) =
      some (limitBits depth (roundShift shift (mat4 (tab t) (fun k => c i k) j)))) ∧
    (∀ a, ¬ (a / stride < 4 ∧ a % stride < 4) → tr2Hor stride shift depth t m a = m a) := by
  constructor
  · intro i hi j hj
    unfold tr2Hor
    have e1 : (i * stride + j) / stride = i := by
      rw [mul_comm, Nat.mul_add_div (by omega), Nat.div_eq_of_lt (by omega), add_zero]
    have e2 : (i * stride + j) % stride = j := by rw [mul_comm, Nat.mul_add_mod, Nat.mod_eq_of_lt (by omega)]
    simp only [e1, e2]
    rw [if_pos ⟨hj, hi⟩, sum4_ev ht (f := fun k => c i k) (fun k hk => hm i hi k hk) hj hsh, Option.map_some,
      clip3_limitBits, toInt16_limitBits hd, add_comm]
    rfl
  · intro a ha
    unfold tr2Hor
    simp only []
    rw [if_neg (fun h => ha ⟨h.2, h.1⟩)]

/-- **C38 (secondary transform of 4x4 blocks).** Without overflow, the product with the secondary matrix along columns,
then along rows, each rounded and limited. -/
theorem C38_second4x4 {m : Buf} {c : Nat → Nat → Int} {stride : Nat} (hst : 4 ≤ stride)
    (hm : ∀ i < 4, ∀ j < 4, Ev (m (i * stride + j)) (c i j) 32768) :
    ∀ i < 4, ∀ j < 4, inv4x4Second stride m (i * stride + j) =
      some (limitBits 9 (roundShift 14 (mat4 (tab g2TC)
        (fun l => limitBits 16 (roundShift 5 (mat4 (tab g2TC) (fun k => c k l) i))) j))) := by
  intro i hi j hj
  have h1 := (tr2Ver_eq g2TC_le hst (by omega : 5 ≤ 24) hm).1
  unfold inv4x4Second
  exact (tr2Hor_eq g2TC_le hst (by omega) (by omega) (fun i hi j hj => ⟨h1 i hi j hj, limitBits_abs 16 _⟩)).1 i hi j hj

/-- **C38 (secondary transform of larger blocks).** In each direction enabled by the prediction mode and by the available
neighbours the 4 × 4 lowest frequencies are multiplied by the secondary matrix, rounded and limited; nothing overflows and all
other coefficients keep their values. -/
theorem C38_second {m : Buf} {c : Nat → Nat → Int} {stride : Nat} (hst : 4 ≤ stride) (mode : Int) (top left : Bool)
    (hm : ∀ i < 4, ∀ j < 4, Ev (m (i * stride + j)) (c i j) 32768) :
    let d : Nat → Nat → Int := fun i j =>
      if (mode ∈ Set.Icc 13 32 ∨ mode ∈ Set.Icc 0 2) ∧ left = true then
        limitBits 16 (roundShift 7 (mat4 (tab g2T) (fun k => c i k) j)) else c i j
    (∀ i < 4, ∀ j < 4, invSecond stride mode top left m (i * stride + j) =
      some (if mode ∈ Set.Icc 0 23 ∧ top = true then
        limitBits 16 (roundShift 7 (mat4 (tab g2T) (fun k => d k j) i)) else d i j)) ∧
    (∀ a, ¬ (a / stride < 4 ∧ a % stride < 4) → invSecond stride mode top left m a = m a) := by
  intro d
  simp only [Set.mem_Icc] at d ⊢
  have h1 := tr2Hor_eq g2T_le hst (by omega : 7 ≤ 24) (le_refl 16) hm
  let m1 := if ((13 ≤ mode ∧ mode ≤ 32) ∨ (0 ≤ mode ∧ mode ≤ 2)) ∧ left = true then tr2Hor stride 7 16 g2T m else m
  have hm1 : ∀ i < 4, ∀ j < 4, Ev (m1 (i * stride + j)) (d i j) 32768 := by
    intro i hi j hj
    simp only [m1, d, Set.mem_Icc]
    split
    · exact ⟨h1.1 i hi j hj, limitBits_abs 16 _⟩
    · exact hm i hi j hj
  have hm1' : ∀ a, ¬ (a / stride < 4 ∧ a % stride < 4) → m1 a = m a := by
    intro a ha
    simp only [m1]
    split
    · exact h1.2 a ha
    · rfl
  have h2 := tr2Ver_eq g2T_le hst (by omega : 7 ≤ 24) hm1
  have he : invSecond stride mode top left m =
      if (0 ≤ mode ∧ mode ≤ 23) ∧ top = true then tr2Ver stride 7 g2T m1 else m1 := rfl
  rw [he]
  constructor
  · intro i hi j hj
    split
    · exact h2.1 i hi j hj
    · exact (hm1 i hi j hj).1
  · intro a ha
    split
    · rw [h2.2 a ha, hm1' a ha]
    · exact hm1' a ha

example : ∃ m c, IsBlock (8 * 4) c m ∧ idct 8 4 0 m (3 * 8 + 5) = some (invDct 8 4 0 c 3 5) := by
  have h : IsBlock (8 * 4) (fun a => (a : Int) - 16) (fun a => some ((a : Int) - 16)) := by
    intro a ha; dsimp only; exact ⟨rfl, by omega, by omega⟩
  exact ⟨_, _, h, C38_idct (by unfold IsSize; omega) (by unfold IsSize; omega) (by omega) h (by omega) (by omega)⟩

/-- A coefficient at frequency zero gives a flat residual; a large coefficient at the next frequency a limited one. -/
example : idct 8 8 0 (fun a => if a = 0 then some 16000 else some 0) 27 = some 125 := by decide +kernel
example : idct 8 8 0 (fun a => if a = 1 then some 32000 else some 0) 24 = some 255 := by decide +kernel

end Davs2.Tr
