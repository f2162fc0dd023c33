import Verif.Model.SimdTable
import Verif.Lemmas.SimdCheck16
import Verif.Lemmas.SimdCheck32
import Verif.Lemmas.SimdCheck32a
import Verif.Lemmas.SimdCheck32h
import Verif.Lemmas.SimdCheckW
import Verif.Lemmas.SimdSecond
import Verif.Props.AecCoeffs
/-
C95: the vector versions of the inverse transforms.
-/
namespace Davs2.Si

open Davs2.Vc Davs2.Spec

/-- Number of coefficients in a row and in a column: a side of 64 has half as many. -/
def Part.w : Part → Nat
  | .p4x4 => 4 | .p8x8 => 8 | .p16x16 => 16 | .p32x32 => 32 | .p64x64 => 32 | .p64x16 => 32 | .p16x64 => 8
  | .p4x16 => 4 | .p8x32 => 8 | .p16x4 => 16 | .p32x8 => 32
def Part.h : Part → Nat
  | .p4x4 => 4 | .p8x8 => 8 | .p16x16 => 16 | .p32x32 => 32 | .p64x64 => 32 | .p64x16 => 8 | .p16x64 => 32
  | .p4x16 => 16 | .p8x32 => 32 | .p16x4 => 4 | .p32x8 => 8

/-- Blocks with a side of 64 have a wavelet stage. -/
def Part.wave : Part → Bool
  | .p64x64 => true | .p64x16 => true | .p16x64 => true | _ => false

/-- Width and height of the residual. -/
def Part.outW (p : Part) : Nat := if p.wave then 2 * p.w else p.w
def Part.outH (p : Part) : Nat := if p.wave then 2 * p.h else p.h

/-- The inverse transform as defined. -/
def Part.result (p : Part) (c : Nat → Int) (y x : Nat) : Int :=
  if p.wave then invWavelet p.w p.h c y x else invDct p.w p.h 0 c y x

/-- The part of the sides of large square blocks in which a partial transform looks for coefficients. -/
def Part.share (p : Part) (pat : Pat) : Nat :=
  match p, pat with
  | _, .full => 1
  | .p16x16, .half => 2 | .p32x32, .half => 2 | .p64x64, .half => 2
  | .p16x16, .quad => 4 | .p32x32, .quad => 4 | .p64x64, .quad => 4
  | _, _ => 1

/-- Coefficients of 16 bits, none outside the upper left part `1 / n` of both sides. -/
structure IsCoeffs (w h n : Nat) (c : Nat → Int) : Prop where
  range : ∀ a < w * h, -32768 ≤ c a ∧ c a ≤ 32767
  area : ∀ i < h, ∀ j < w, h / n ≤ i ∨ w / n ≤ j → c (i * w + j) = 0

/-- The program turns the coefficients in the array into the residual and writes nothing behind it. -/
def Computes (part : Part) (n : Nat) (p : List S) : Prop :=
  ∀ (c : Nat → Int) (s : St), IsCoeffs part.w part.h n c → (∀ a < part.w * part.h, s.mem a = c a) →
    (∀ y < part.outH, ∀ x < part.outW, (exec p s).mem (y * part.outW + x) = part.result c y x) ∧
      ∀ a, part.outW * part.outH ≤ a → (exec p s).mem a = s.mem a

theorem exec_append (p q : List S) (s : St) : exec (p ++ q) s = exec q (exec p s) := List.foldl_append

/-- Programs without wavelet. -/
theorem computes_dct {part : Part} {n : Nat} {p : List S} {t1 t2} (hv : part.wave = false)
    (ht1 : tabOk part.h (part.h / n) 16 t1) (ht2 : tabOk part.w (part.w / n) (2 ^ (11 - 0)) t2)
    (hp : check (mkCx part.w part.h (part.h / n) (part.w / n) 0 t1 t2) p = true) : Computes part n p := by
  intro c s hc hs
  have hw : part.w ≤ 32 ∧ part.h ≤ 32 ∧ part.w * part.h % 8 = 0 := by cases part <;> decide
  have := idct_of_check hw.1 hw.2.1 (by omega) (Nat.div_le_self _ _) (Nat.div_le_self _ _) ht1 ht2 hw.2.2 hp hc.range hc.area hs
  unfold Part.outW Part.outH Part.result
  simp only [hv, Bool.false_eq_true, if_false]
  exact this

/-- Programs with wavelet. -/
theorem computes_wave {part : Part} {n : Nat} {p q : List S} {t1 t2} (hv : part.wave = true)
    (ht1 : tabOk part.h (part.h / n) 16 t1) (ht2 : tabOk part.w (part.w / n) (2 ^ (11 - 1)) t2)
    (hp : check (mkCx part.w part.h (part.h / n) (part.w / n) 1 t1 t2) p = true)
    (hq : checkW ⟨part.w, part.h⟩ q = true) : Computes part n (p ++ q) := by
  intro c s hc hs
  have hw : part.w ≤ 32 ∧ part.h ≤ 32 ∧ part.w * part.h % 8 = 0 ∧ 0 < part.w ∧ 0 < part.h := by cases part <;> decide
  obtain ⟨h1, h2⟩ := idct_of_check hw.1 hw.2.1 (by omega) (Nat.div_le_self _ _) (Nat.div_le_self _ _) ht1 ht2 hw.2.2.1 hp
    hc.range hc.area hs
  rw [exec_append]
  generalize exec p s = s1 at h1 h2 ⊢
  have cell : ∀ i < part.h, ∀ j < part.w, (i * part.w + j) / part.w = i ∧ (i * part.w + j) % part.w = j := by
    intro i _ j hj
    rw [mul_comm]
    exact ⟨by rw [Nat.mul_add_div (by omega), Nat.div_eq_of_lt hj, add_zero], by rw [Nat.mul_add_mod, Nat.mod_eq_of_lt hj]⟩
  obtain ⟨h3, h4⟩ := wavelet_of_check hw.2.2.2.1 hw.1 hw.2.2.2.2 hw.2.1 hw.2.2.1 hq
    (b := fun a => invDct part.w part.h 1 c (a / part.w) (a % part.w)) (s := s1)
    (fun a _ => by
      have := Davs2.Tr.limitBits_range (d := 10) (roundShift 11 (∑ j ∈ Finset.range part.w, dctMat part.w j (a % part.w) * invVert part.w part.h c (a / part.w) j))
      change -512 ≤ invDct part.w part.h 1 c (a / part.w) (a % part.w) ∧ invDct part.w part.h 1 c (a / part.w) (a % part.w) ≤ 511 at this
      omega)
    (fun a ha => by
      have hd : a / part.w < part.h := Nat.div_lt_of_lt_mul ha
      have := h1 (a / part.w) hd (a % part.w) (Nat.mod_lt _ hw.2.2.2.1)
      rwa [mul_comm, Nat.div_add_mod] at this)
  unfold Part.outW Part.outH Part.result
  simp only [hv, if_true]
  refine ⟨fun y hy x hx => ?_, fun a ha => ?_⟩
  · rw [h3 y hy x hx]
    unfold invWavelet
    unfold lift
    have hl : ∀ i < part.h, ∀ j < part.w,
        invDct part.w part.h 1 c ((i * part.w + j) / part.w) ((i * part.w + j) % part.w) = invDct part.w part.h 1 c i j := by
      intro i hi j hj
      rw [(cell i hi j hj).1, (cell i hi j hj).2]
    dsimp only
    rw [hl (y / 2) (by omega) (x / 2) (by omega), hl (y / 2) (by omega) (min (x / 2 + 1) (part.w - 1)) (by omega),
      hl (min (y / 2 + 1) (part.h - 1)) (by omega) (x / 2) (by omega),
      hl (min (y / 2 + 1) (part.h - 1)) (by omega) (min (x / 2 + 1) (part.w - 1)) (by omega)]
  · have : 2 * part.w * (2 * part.h) = 4 * (part.w * part.h) := by ring
    rw [h4 a (by omega), h2 a (by omega)]

/-! ### The functions one by one -/

theorem idct_4x4_computes : Computes .p4x4 1 idct_4x4 :=
  computes_dct rfl tab_4_4_16_ok tab_4_4_2048_ok idct_4x4_check
theorem idct_8x8_computes : Computes .p8x8 1 idct_8x8 :=
  computes_dct rfl tab_8_8_16_ok tab_8_8_2048_ok idct_8x8_check
theorem idct_16x16_computes : Computes .p16x16 1 idct_16x16 :=
  computes_dct rfl tab_16_16_16_ok tab_16_16_2048_ok idct_16x16_check
theorem idct_16x16_half_computes : Computes .p16x16 2 idct_16x16_half :=
  computes_dct rfl tab_16_8_16_ok tab_16_8_2048_ok idct_16x16_half_check
theorem idct_16x16_quad_computes : Computes .p16x16 4 idct_16x16_quad :=
  computes_dct rfl tab_16_4_16_ok tab_16_4_2048_ok idct_16x16_quad_check
theorem idct_4x16_computes : Computes .p4x16 1 idct_4x16 :=
  computes_dct rfl tab_16_16_16_ok tab_4_4_2048_ok idct_4x16_check
theorem idct_16x4_computes : Computes .p16x4 1 idct_16x4 :=
  computes_dct rfl tab_4_4_16_ok tab_16_16_2048_ok idct_16x4_check
theorem idct_32x32_0_computes : Computes .p32x32 1 (idct_32x32 0) :=
  computes_dct rfl tab_32_32_16_ok tab_32_32_2048_ok idct_32x32_0_check
theorem idct_32x32_half_0_computes : Computes .p32x32 2 (idct_32x32_half 0) :=
  computes_dct rfl tab_32_16_16_ok tab_32_16_2048_ok idct_32x32_half_0_check
theorem idct_32x32_quad_0_computes : Computes .p32x32 4 (idct_32x32_quad 0) :=
  computes_dct rfl tab_32_8_16_ok tab_32_8_2048_ok idct_32x32_quad_0_check
theorem idct_32x8_0_computes : Computes .p32x8 1 (idct_32x8 0) :=
  computes_dct rfl tab_8_8_16_ok tab_32_32_2048_ok idct_32x8_0_check
theorem idct_8x32_0_computes : Computes .p8x32 1 (idct_8x32 0) :=
  computes_dct rfl tab_32_32_16_ok tab_8_8_2048_ok idct_8x32_0_check
theorem idct_8x8_avx2_computes : Computes .p8x8 1 idct_8x8_avx2 :=
  computes_dct rfl tab_8_8_16_ok tab_8_8_2048_ok idct_8x8_avx2_check
theorem idct_16x16_avx2_computes : Computes .p16x16 1 idct_16x16_avx2 :=
  computes_dct rfl tab_16_16_16_ok tab_16_16_2048_ok idct_16x16_avx2_check
theorem idct_32x32_avx2_0_computes : Computes .p32x32 1 (idct_32x32_avx2 0) :=
  computes_dct rfl tab_32_32_16_ok tab_32_32_2048_ok idct_32x32_avx2_0_check
theorem idct_64x64_computes : Computes .p64x64 1 idct_64x64 :=
  computes_wave rfl tab_32_32_16_ok tab_32_32_1024_ok idct_32x32_1_check wavelet_64x64_check
theorem idct_64x64_half_computes : Computes .p64x64 2 idct_64x64_half :=
  computes_wave rfl tab_32_16_16_ok tab_32_16_1024_ok idct_32x32_half_1_check wavelet_64x64_check
theorem idct_64x64_quad_computes : Computes .p64x64 4 idct_64x64_quad :=
  computes_wave rfl tab_32_8_16_ok tab_32_8_1024_ok idct_32x32_quad_1_check wavelet_64x64_check
theorem idct_64x16_computes : Computes .p64x16 1 idct_64x16 :=
  computes_wave rfl tab_8_8_16_ok tab_32_32_1024_ok idct_32x8_1_check wavelet_64x16_check
theorem idct_16x64_computes : Computes .p16x64 1 idct_16x64 :=
  computes_wave rfl tab_32_32_16_ok tab_8_8_1024_ok idct_8x32_1_check wavelet_16x64_check
theorem idct_64x64_avx2_computes : Computes .p64x64 1 idct_64x64_avx2 :=
  computes_wave rfl tab_32_32_16_ok tab_32_32_1024_ok idct_32x32_avx2_1_check wavelet_64x64_avx2_check
theorem idct_64x16_avx2_computes : Computes .p64x16 1 idct_64x16_avx2 :=
  computes_wave rfl tab_8_8_16_ok tab_32_32_1024_ok idct_32x8_1_check wavelet_64x16_avx2_check
theorem idct_16x64_avx2_computes : Computes .p16x64 1 idct_16x64_avx2 :=
  computes_wave rfl tab_32_32_16_ok tab_8_8_1024_ok idct_8x32_1_check wavelet_16x64_avx2_check

/-! ### The table -/

/-- The entry is not a program, or it computes the transform of coefficients in that part. -/
def Entry.Good (part : Part) (n : Nat) (e : Entry) : Prop := ∀ p, e = .prog p → Computes part n p

theorem good_prog {part : Part} {n : Nat} {p : List S} (h : Computes part n p) : (Entry.prog p).Good part n := by
  intro q e
  cases e
  exact h

theorem good_sse2 (part : Part) : (tableSse2 part).Good part 1 := by
  cases part <;> simp only [tableSse2]
  · intro p e; cases e
  · intro p e; cases e
  · exact good_prog idct_16x16_computes
  · exact good_prog idct_32x32_0_computes
  · exact good_prog idct_64x64_computes
  · exact good_prog idct_64x16_computes
  · exact good_prog idct_16x64_computes
  · exact good_prog idct_4x16_computes
  · exact good_prog idct_8x32_0_computes
  · exact good_prog idct_16x4_computes
  · exact good_prog idct_32x8_0_computes

theorem good_partial (part : Part) (pat : Pat) (e : Entry) (h : e.Good part 1) : (tablePartial part pat e).Good part (part.share pat) := by
  cases pat
  · cases part <;> exact h
  · cases part
    · exact h
    · exact good_prog idct_8x8_computes
    · exact good_prog idct_16x16_half_computes
    · exact good_prog idct_32x32_half_0_computes
    · exact good_prog idct_64x64_half_computes
    · exact good_prog idct_64x16_computes
    · exact good_prog idct_16x64_computes
    · exact good_prog idct_4x16_computes
    · exact good_prog idct_8x32_0_computes
    · exact good_prog idct_16x4_computes
    · exact good_prog idct_32x8_0_computes
  · cases part
    · exact h
    · exact good_prog idct_8x8_computes
    · exact good_prog idct_16x16_quad_computes
    · exact good_prog idct_32x32_quad_0_computes
    · exact good_prog idct_64x64_quad_computes
    · exact good_prog idct_64x16_computes
    · exact good_prog idct_16x64_computes
    · exact good_prog idct_4x16_computes
    · exact good_prog idct_8x32_0_computes
    · exact good_prog idct_16x4_computes
    · exact good_prog idct_32x8_0_computes

theorem good_avx2 (part : Part) (pat : Pat) (e : Entry) (h : e.Good part (part.share pat)) : (tableAvx2 part pat e).Good part (part.share pat) := by
  cases pat
  · cases part
    · exact h
    · exact good_prog idct_8x8_avx2_computes
    · exact good_prog idct_16x16_avx2_computes
    · exact good_prog idct_32x32_avx2_0_computes
    · exact good_prog idct_64x64_avx2_computes
    · exact good_prog idct_64x16_avx2_computes
    · exact good_prog idct_16x64_avx2_computes
    · exact h
    · exact h
    · exact h
    · exact h
  · cases part <;> exact h
  · cases part <;> exact h

/-- Coefficients within the part that a partial transform looks at are coefficients of the block. -/
theorem Computes.mono {part : Part} {pat : Pat} {p : List S} (h : Computes part 1 p) : Computes part (part.share pat) p := by
  intro c s hc hs
  refine h c s ⟨hc.range, fun i hi j hj hh => ?_⟩ hs
  simp only [Nat.div_one] at hh
  omega

/-- **C95 (table).**  On every processor, for every shape of block and every pattern: the vector function in the table, started with arbitrary
registers on arbitrary coefficients of 16 bits within the area of the pattern, leaves exactly the inverse transform as defined in the array and changes nothing
behind the block. -/
theorem C95_table (cpu : Cpu) (part : Part) (pat : Pat) (p : List S) (h : table cpu part pat = .prog p) : Computes part (part.share pat) p := by
  refine (?_ : (table cpu part pat).Good part (part.share pat)) p h
  have h0 : (Entry.c).Good part 1 := fun p e => by cases e
  unfold table
  dsimp only
  have h1 : (if cpu.sse2 then tableSse2 part else Entry.c).Good part 1 := by
    split
    · exact good_sse2 part
    · exact h0
  generalize (if cpu.sse2 then tableSse2 part else Entry.c) = e at h1
  have h2 : (if cpu.ssse3 then (if part = .p8x8 then Entry.asm else e) else e).Good part 1 := by
    split
    · split
      · exact fun p e => by cases e
      · exact h1
    · exact h1
  generalize (if cpu.ssse3 then (if part = .p8x8 then Entry.asm else e) else e) = e at h2
  have h3 : (if cpu.sse2 then tablePartial part pat e else e).Good part (part.share pat) := by
    split
    · exact good_partial part pat e h2
    · exact fun p e => (h2 p e).mono
  generalize (if cpu.sse2 then tablePartial part pat e else e) = e at h3
  split
  · exact good_avx2 part pat e h3
  · exact h3

/-- The C functions of the table, transform.cc:941-953. -/
def cIdct : Part → Tr.Buf → Tr.Buf
  | .p64x64 => Davs2.Tr.idct64x64
  | .p64x16 => Davs2.Tr.idct64x16
  | .p16x64 => Davs2.Tr.idct16x64
  | part => Davs2.Tr.idct part.w part.h 0

/-- **C95 (agreement with the C functions).**  The vector function and the C function leave the same residual. -/
theorem C95_same_as_c (cpu : Cpu) (part : Part) (pat : Pat) (p : List S) (h : table cpu part pat = .prog p) (c : Nat → Int) (s : St)
    (m : Davs2.Tr.Buf) (hc : IsCoeffs part.w part.h (part.share pat) c) (hs : ∀ a < part.w * part.h, s.mem a = c a)
    (hm : ∀ a < part.w * part.h, m a = some (c a)) :
    ∀ y < part.outH, ∀ x < part.outW, cIdct part m (y * part.outW + x) = some ((exec p s).mem (y * part.outW + x)) := by
  intro y hy x hx
  rw [(C95_table cpu part pat p h c s hc hs).1 y hy x hx]
  have hb : Davs2.Tr.IsBlock (part.w * part.h) c m := fun a ha => ⟨hm a ha, hc.range a ha⟩
  have hsz : Davs2.Tr.IsSize part.w ∧ Davs2.Tr.IsSize part.h := by
    unfold Davs2.Tr.IsSize
    cases part <;> decide
  cases part
  case p64x64 =>
    have := Davs2.Tr.C38_64x64 hb hy hx
    rw [mul_comm] at this
    exact this
  case p64x16 =>
    have := Davs2.Tr.C38_64x16 hb hy hx
    rw [mul_comm] at this
    exact this
  case p16x64 =>
    have := Davs2.Tr.C38_16x64 hb hy hx
    rw [mul_comm] at this
    exact this
  all_goals exact Davs2.Tr.C38_idct hsz.1 hsz.2 (by omega) hb hy hx

/-- The pattern returned with the coefficients of a block (aec.cc:2146-2159). -/
def patOf (v : Int) : Pat := if v = 1 then .half else if v = 2 then .quad else .full

/-- **C95 (area).**  The coefficients that the decoder writes for a block (C33) lie in the area of the pattern it returns. -/
theorem C95_area (part : Part) (v : Sx.Coeffs) (hv : Sx.GoodCoeffs part.w part.h v) (c : Nat → Int)
    (hr : ∀ a < part.w * part.h, -32768 ≤ c a ∧ c a ≤ 32767)
    (hc : ∀ i < part.h, ∀ j < part.w, (∀ k ∈ v.writes, ¬ (k.x = j ∧ k.y = i)) → c (i * part.w + j) = 0) :
    IsCoeffs part.w part.h (part.share (patOf v.pattern)) c := by
  refine ⟨hr, fun i hi j hj h => hc i hi j hj fun k hk e => ?_⟩
  obtain ⟨_, _, _, h1, h2⟩ := hv
  unfold patOf at h
  split at h
  · rename_i hp
    have := h1 hp k hk
    unfold Sx.InHalf at this
    rw [e.1, e.2] at this
    cases part <;> simp only [Part.share, Part.w, Part.h, Nat.div_one, le_refl, forall_const] at h this hi hj <;> omega
  · split at h
    · rename_i hp
      have := h2 hp k hk
      unfold Sx.InQuarter at this
      rw [e.1, e.2] at this
      cases part <;> simp only [Part.share, Part.w, Part.h, Nat.div_one, le_refl, forall_const] at h this hi hj <;> omega
    · cases part <;> simp only [Part.share, Part.w, Part.h, Nat.div_one] at h hi hj <;> omega

/-! ### Secondary transforms -/

open Davs2.Tr (tab g2T g2TC g2T_le g2TC_le)

theorem hor2nd_eq {t : List (List Int)} (ht : ∀ k < 4, ∀ i < 4, |tab t k i| ≤ 126) {clip : V → V} {depth stride shift : Nat}
    (hst : 4 ≤ stride) (hc : Clips clip depth) (hs : shift ≤ 24) {m : Nat → Int}
    (hm : ∀ i < 4, ∀ j < 4, -32768 ≤ m (i * stride + j) ∧ m (i * stride + j) ≤ 32767) :
    (∀ i < 4, ∀ j < 4, hor2nd stride shift clip t m (i * stride + j) =
      limitBits depth (roundShift shift (mat4 (tab t) (fun k => m (i * stride + k)) j))) ∧
    ∀ a, ¬ (a / stride < 4 ∧ a % stride < 4) → hor2nd stride shift clip t m a = m a := by
  refine rows_eq hst (val := fun i j => limitBits depth (roundShift shift (mat4 (tab t) (fun k => m (i * stride + k)) j))) ?_ 4 (le_refl 4)
  intro i hi m' hm' j hj
  rw [horVec_eq ht hc hs (fun k hk => by rw [hm' k hk]; exact hm i hi k hk) hj]
  have : mat4 (tab t) (fun k => m' (i * stride + k)) j = mat4 (tab t) (fun k => m (i * stride + k)) j := by
    unfold mat4
    exact Finset.sum_congr rfl fun k hk => by dsimp only; rw [hm' k (Finset.mem_range.mp hk)]
  rw [this]

theorem ver2nd_eq {t : List (List Int)} (ht : ∀ k < 4, ∀ i < 4, |tab t k i| ≤ 126) {stride shift : Nat}
    (hst : 4 ≤ stride) (hs : shift ≤ 24) {m : Nat → Int}
    (hm : ∀ i < 4, ∀ j < 4, -32768 ≤ m (i * stride + j) ∧ m (i * stride + j) ≤ 32767) :
    (∀ i < 4, ∀ j < 4, ver2nd stride shift t m (i * stride + j) =
      limitBits 16 (roundShift shift (mat4 (tab t) (fun k => m (k * stride + j)) i))) ∧
    ∀ a, ¬ (a / stride < 4 ∧ a % stride < 4) → ver2nd stride shift t m a = m a := by
  refine rows_eq hst (g := fun i _ => verVec stride shift t m i)
    (val := fun i j => limitBits 16 (roundShift shift (mat4 (tab t) (fun k => m (k * stride + j)) i))) ?_ 4 (le_refl 4)
  intro i hi m' _ j hj
  exact verVec_eq ht hs hj (fun k hk => hm k hk j hj) hi

theorem limit16 (v : Int) : -32768 ≤ limitBits 16 v ∧ limitBits 16 v ≤ 32767 := Davs2.Tr.limitBits_range (d := 16) v

/-- **C95 (secondary transform of 4x4 blocks).**  As C38, for the vector function; nothing else is written. -/
theorem C95_second4x4 {stride : Nat} (hst : 4 ≤ stride) {m : Nat → Int} {c : Nat → Nat → Int}
    (hc : ∀ i < 4, ∀ j < 4, -32768 ≤ c i j ∧ c i j ≤ 32767) (hm : ∀ i < 4, ∀ j < 4, m (i * stride + j) = c i j) :
    (∀ i < 4, ∀ j < 4, second4x4 stride m (i * stride + j) =
      limitBits 9 (roundShift 14 (mat4 (tab g2TC)
        (fun l => limitBits 16 (roundShift 5 (mat4 (tab g2TC) (fun k => c k l) i))) j))) ∧
    ∀ a, ¬ (a / stride < 4 ∧ a % stride < 4) → second4x4 stride m a = m a := by
  obtain ⟨h1, h2⟩ := ver2nd_eq g2TC_le hst (by omega : 5 ≤ 24) (m := m) (fun i hi j hj => by rw [hm i hi j hj]; exact hc i hi j hj)
  obtain ⟨h3, h4⟩ := hor2nd_eq g2TC_le hst clips_9 (by omega : 14 ≤ 24) (m := ver2nd stride 5 g2TC m)
    (fun i hi j hj => by rw [h1 i hi j hj]; exact limit16 _)
  unfold second4x4
  refine ⟨fun i hi j hj => ?_, fun a ha => by rw [h4 a ha, h2 a ha]⟩
  rw [h3 i hi j hj]
  congr 2
  unfold mat4
  refine Finset.sum_congr rfl fun l hl => ?_
  dsimp only
  rw [h1 i hi l (Finset.mem_range.mp hl)]
  congr 3
  unfold mat4
  exact Finset.sum_congr rfl fun k hk => by dsimp only; rw [hm k (Finset.mem_range.mp hk) l (Finset.mem_range.mp hl)]

/-- **C95 (secondary transform of larger blocks).**  As C38, for the vector function. -/
theorem C95_second {stride : Nat} (hst : 4 ≤ stride) (mode : Int) (top left : Bool) {m : Nat → Int} {c : Nat → Nat → Int}
    (hc : ∀ i < 4, ∀ j < 4, -32768 ≤ c i j ∧ c i j ≤ 32767) (hm : ∀ i < 4, ∀ j < 4, m (i * stride + j) = c i j) :
    let d : Nat → Nat → Int := fun i j =>
      if (mode ∈ Set.Icc 13 32 ∨ mode ∈ Set.Icc 0 2) ∧ left = true then
        limitBits 16 (roundShift 7 (mat4 (tab g2T) (fun k => c i k) j)) else c i j
    (∀ i < 4, ∀ j < 4, second stride mode top left m (i * stride + j) =
      if mode ∈ Set.Icc 0 23 ∧ top = true then
        limitBits 16 (roundShift 7 (mat4 (tab g2T) (fun k => d k j) i)) else d i j) ∧
    (∀ a, ¬ (a / stride < 4 ∧ a % stride < 4) → second stride mode top left m a = m a) := by
  intro d
  have hmr : ∀ i < 4, ∀ j < 4, -32768 ≤ m (i * stride + j) ∧ m (i * stride + j) ≤ 32767 :=
    fun i hi j hj => by rw [hm i hi j hj]; exact hc i hi j hj
  have h1 := hor2nd_eq g2T_le hst clips_id (by omega : 7 ≤ 24) hmr
  let m1 := if ((13 ≤ mode ∧ mode ≤ 32) ∨ (0 ≤ mode ∧ mode ≤ 2)) ∧ left = true then hor2nd stride 7 id g2T m else m
  have hm1 : ∀ i < 4, ∀ j < 4, m1 (i * stride + j) = d i j := by
    intro i hi j hj
    simp only [m1, d, Set.mem_Icc]
    split
    · rw [h1.1 i hi j hj]
      congr 2
      unfold mat4
      exact Finset.sum_congr rfl fun k hk => by dsimp only; rw [hm i hi k (Finset.mem_range.mp hk)]
    · exact hm i hi j hj
  have hd : ∀ i < 4, ∀ j < 4, -32768 ≤ d i j ∧ d i j ≤ 32767 := by
    intro i hi j hj
    simp only [d]
    split
    · exact limit16 _
    · exact hc i hi j hj
  have hm1' : ∀ a, ¬ (a / stride < 4 ∧ a % stride < 4) → m1 a = m a := by
    intro a ha
    simp only [m1]
    split
    · exact h1.2 a ha
    · rfl
  have h2 := ver2nd_eq g2T_le hst (by omega : 7 ≤ 24) (m := m1) (fun i hi j hj => by rw [hm1 i hi j hj]; exact hd i hi j hj)
  have he : second stride mode top left m = if (0 ≤ mode ∧ mode ≤ 23) ∧ top = true then ver2nd stride 7 g2T m1 else m1 := rfl
  rw [he]
  simp only [Set.mem_Icc]
  constructor
  · intro i hi j hj
    split
    · rw [h2.1 i hi j hj]
      congr 2
      unfold mat4
      exact Finset.sum_congr rfl fun k hk => by dsimp only; rw [hm1 k (Finset.mem_range.mp hk) j hj]
    · exact hm1 i hi j hj
  · intro a ha
    split
    · rw [h2.2 a ha, hm1' a ha]
    · exact hm1' a ha

/-- The secondary transform leaves the coefficients in the area of the pattern: it changes only the 4 x 4 lowest frequencies. -/
theorem C95_second_area (part : Part) (pat : Pat) (h4 : part ≠ .p4x4) (mode : Int) (top left : Bool) {c : Nat → Int}
    (hc : IsCoeffs part.w part.h (part.share pat) c) : IsCoeffs part.w part.h (part.share pat) (second part.w mode top left c) := by
  have hw : 4 ≤ part.w ∧ 4 ≤ part.h ∧ 4 ≤ part.w / part.share pat ∧ 4 ≤ part.h / part.share pat := by
    cases part <;> cases pat <;> simp [Part.w, Part.h, Part.share] at h4 ⊢
  have in44 : ∀ i < 4, ∀ j < 4, i * part.w + j < part.w * part.h := by
    intro i hi j hj
    have : i * part.w ≤ 3 * part.w := Nat.mul_le_mul_right _ (by omega)
    have : part.w * 4 ≤ part.w * part.h := Nat.mul_le_mul_left _ hw.2.1
    omega
  obtain ⟨h1, h2⟩ := C95_second hw.1 mode top left (m := c) (c := fun i j => c (i * part.w + j))
    (fun i hi j hj => hc.range _ (in44 i hi j hj)) (fun _ _ _ _ => rfl)
  refine ⟨fun a ha => ?_, fun i hi j hj h => ?_⟩
  · by_cases hq : a / part.w < 4 ∧ a % part.w < 4
    · have e := h1 _ hq.1 _ hq.2
      have ea : a / part.w * part.w + a % part.w = a := by rw [mul_comm]; exact Nat.div_add_mod a part.w
      rw [ea] at e
      rw [e]
      dsimp only
      split
      · exact limit16 _
      · split
        · exact limit16 _
        · rw [ea]; exact hc.range a ha
    · rw [h2 a hq]; exact hc.range a ha
  · rw [h2]
    · exact hc.area i hi j hj h
    · have e1 : (i * part.w + j) / part.w = i := by
        rw [mul_comm, Nat.mul_add_div (by omega), Nat.div_eq_of_lt hj, add_zero]
      have e2 : (i * part.w + j) % part.w = j := by rw [mul_comm, Nat.mul_add_mod, Nat.mod_eq_of_lt hj]
      rw [e1, e2]
      omega

/-- The secondary transform as defined (C38): the 4 x 4 lowest frequencies times a matrix along rows, then along columns, as the prediction mode and
the neighbours say. -/
def lowFreq (w : Nat) (mode : Int) (top left : Bool) (c : Nat → Int) : Nat → Int := fun a =>
  let rows (i j : Nat) : Int := if (mode ∈ Set.Icc 13 32 ∨ mode ∈ Set.Icc 0 2) ∧ left = true then
    limitBits 16 (roundShift 7 (mat4 (tab g2T) (fun k => c (i * w + k)) j)) else c (i * w + j)
  if a / w < 4 ∧ a % w < 4 then
    if mode ∈ Set.Icc 0 23 ∧ top = true then
      limitBits 16 (roundShift 7 (mat4 (tab g2T) (fun k => rows k (a % w)) (a / w))) else rows (a / w) (a % w)
  else c a

/-- What is left of a block of 4 x 4 coefficients with the secondary transform (C38). -/
def second4 (c : Nat → Int) (y x : Nat) : Int :=
  limitBits 9 (roundShift 14 (mat4 (tab g2TC) (fun l => limitBits 16 (roundShift 5 (mat4 (tab g2TC) (fun k => c (k * 4 + l)) y))) x))

/-- **C95 (one transform block).**  Whatever the processor, the residual of a transform block is the inverse transform as defined, after the secondary
transform as defined where that is in use. -/
theorem C95_transform (cpu : Cpu) (part : Part) (pat : Pat) (sec : Bool) (mode : Int) (top left : Bool) (s : St) (r c : Nat → Int)
    (h : invTransform cpu part pat part.w sec mode top left s = some r) (hc : IsCoeffs part.w part.h (part.share pat) c)
    (hs : ∀ a < part.w * part.h, s.mem a = c a) :
    (∀ y < part.outH, ∀ x < part.outW, r (y * part.outW + x) =
      if sec = false then part.result c y x
      else if part = .p4x4 then second4 c y x
      else part.result (lowFreq part.w mode top left c) y x) ∧
    ∀ a, part.outW * part.outH ≤ a → r a = s.mem a := by
  have run : ∀ (m d : Nat → Int), (match table cpu part pat with
      | .prog p => some (exec p { s with mem := m }).mem
      | _ => none) = some r → IsCoeffs part.w part.h (part.share pat) d → (∀ a < part.w * part.h, m a = d a) →
      (∀ y < part.outH, ∀ x < part.outW, r (y * part.outW + x) = part.result d y x) ∧ ∀ a, part.outW * part.outH ≤ a → r a = m a := by
    intro m d e hd hm
    split at e
    · rename_i p hp
      cases e
      exact C95_table cpu part pat p hp d { s with mem := m } hd hm
    · cases e
  unfold invTransform at h
  dsimp only at h
  cases sec with
  | false =>
    simp only [Bool.false_eq_true, if_false] at h
    rw [ite_self] at h
    simp only [if_true]
    exact run s.mem c h hc hs
  | true =>
    simp only [if_true] at h
    simp only [Bool.true_eq_false, if_false]
    by_cases h4 : part = .p4x4
    · subst h4
      simp only [if_true] at h ⊢
      cases h
      have := C95_second4x4 (le_refl 4) (m := s.mem) (c := fun i j => c (i * 4 + j))
        (fun i hi j hj => hc.range _ (by show _ < 4 * 4; omega)) (fun i hi j hj => hs _ (by show _ < 4 * 4; omega))
      exact ⟨this.1, fun a ha => this.2 a (by
        have : 4 * 4 ≤ a := ha
        omega)⟩
    · rw [if_neg h4] at h
      simp only [if_neg h4]
      have hw : 4 ≤ part.w ∧ 4 ≤ part.h ∧ part.w * part.h ≤ part.outW * part.outH ∧ 4 * part.w ≤ part.w * part.h := by
        cases part <;> simp [Part.w, Part.h, Part.outW, Part.outH, Part.wave] at h4 ⊢
      have in44 : ∀ i < 4, ∀ j < 4, i * part.w + j < part.w * part.h := by
        intro i hi j hj
        have : i * part.w ≤ 3 * part.w := Nat.mul_le_mul_right _ (by omega)
        omega
      obtain ⟨h1, h2⟩ := C95_second hw.1 mode top left (m := s.mem) (c := fun i j => c (i * part.w + j))
        (fun i hi j hj => hc.range _ (in44 i hi j hj)) (fun i hi j hj => hs _ (in44 i hi j hj))
      obtain ⟨g1, g2⟩ := C95_second hw.1 mode top left (m := c) (c := fun i j => c (i * part.w + j))
        (fun i hi j hj => hc.range _ (in44 i hi j hj)) (fun i hi j hj => rfl)
      have e1 : ∀ a < part.w * part.h, second part.w mode top left s.mem a = lowFreq part.w mode top left c a := by
        intro a ha
        have ea : a / part.w * part.w + a % part.w = a := by rw [mul_comm]; exact Nat.div_add_mod a part.w
        unfold lowFreq
        by_cases hq : a / part.w < 4 ∧ a % part.w < 4
        · have e := h1 _ hq.1 _ hq.2
          rw [ea] at e
          simp only [e, if_pos hq]
        · simp only [if_neg hq]
          rw [h2 a hq, hs a ha]
      have e2 : ∀ a < part.w * part.h, second part.w mode top left c a = lowFreq part.w mode top left c a := by
        intro a ha
        have ea : a / part.w * part.w + a % part.w = a := by rw [mul_comm]; exact Nat.div_add_mod a part.w
        unfold lowFreq
        by_cases hq : a / part.w < 4 ∧ a % part.w < 4
        · have e := g1 _ hq.1 _ hq.2
          rw [ea] at e
          simp only [e, if_pos hq]
        · simp only [if_neg hq]
          rw [g2 a hq]
      have hd := C95_second_area part pat h4 mode top left hc
      have hd' : IsCoeffs part.w part.h (part.share pat) (lowFreq part.w mode top left c) := by
        refine ⟨fun a ha => by rw [← e2 a ha]; exact hd.range a ha, fun i hi j hj hh => ?_⟩
        rw [← e2 _ ?_]
        · exact hd.area i hi j hj hh
        · calc i * part.w + j < i * part.w + part.w := by omega
            _ = (i + 1) * part.w := by ring
            _ ≤ part.h * part.w := Nat.mul_le_mul_right _ hi
            _ = part.w * part.h := mul_comm _ _
      obtain ⟨f1, f2⟩ := run _ _ h hd' e1
      refine ⟨f1, fun a ha => ?_⟩
      rw [f2 a ha, h2 a]
      rintro ⟨q1, q2⟩
      have ea : a / part.w * part.w + a % part.w = a := by rw [mul_comm]; exact Nat.div_add_mod a part.w
      have := in44 _ q1 _ q2
      omega

/-! ### Examples -/

/-- With AVX2 a block of 32 x 32 with few coefficients goes to the half function, with all coefficients to the AVX2 function. -/
example : table ⟨true, true, true⟩ .p32x32 .half = .prog (idct_32x32_half 0) ∧ table ⟨true, true, true⟩ .p32x32 .full = .prog (idct_32x32_avx2 0) ∧
    table ⟨true, true, false⟩ .p32x32 .full = .prog (idct_32x32 0) := ⟨rfl, rfl, rfl⟩

/-- A coefficient at frequency 0 gives a flat residual, whatever the registers hold before and whatever follows the block in memory. -/
example (reg : Nat → V) (rest : Nat → Int) :
    (exec idct_8x8_avx2 ⟨reg, fun a => if a = 0 then 16000 else if a < 64 then 0 else rest a⟩).mem 27 = 125 := by
  have h := idct_8x8_avx2_computes (fun a => if a = 0 then 16000 else 0) ⟨reg, fun a => if a = 0 then 16000 else if a < 64 then 0 else rest a⟩
    ⟨fun a _ => by split <;> omega, fun i hi j hj hh => by
      simp only [Part.w, Part.h, Nat.div_one] at hi hj hh
      omega⟩
    (fun a ha => by
      have : a < 64 := ha
      dsimp only
      rw [if_pos this])
  have := h.1 3 (by decide) 3 (by decide)
  rw [show (3 * Part.p8x8.outW + 3) = 27 from rfl] at this
  rw [this]
  decide +kernel

/-- A block of 64 x 64 with one coefficient, within the quarter. -/
example (reg : Nat → V) (rest : Nat → Int) :
    (exec idct_64x64_quad ⟨reg, fun a => if a = 33 then 8000 else if a < 1024 then 0 else rest a⟩).mem (64 * 10 + 7) =
      invWavelet 32 32 (fun a => if a = 33 then 8000 else 0) 10 7 := by
  have h := idct_64x64_quad_computes (fun a => if a = 33 then 8000 else 0) ⟨reg, fun a => if a = 33 then 8000 else if a < 1024 then 0 else rest a⟩
    ⟨fun a _ => by split <;> omega, fun i hi j hj hh => by
      simp only [Part.w, Part.h] at hi hj hh
      have : i * Part.p64x64.w + j ≠ 33 := by
        simp only [Part.w]
        omega
      rw [if_neg this]⟩
    (fun a ha => by
      have : a < 1024 := by
        simp only [Part.w, Part.h] at ha
        omega
      dsimp only
      rw [if_pos this])
  have := h.1 10 (by decide) 7 (by decide)
  rw [show 10 * Part.p64x64.outW + 7 = 64 * 10 + 7 by decide] at this
  rw [this]
  rfl

/-- Outside the area of the pattern the partial function would ignore a coefficient: the specification has it. -/
example : invDct 16 16 0 (fun a => if a = 8 then 1000 else 0) 0 0 ≠ 0 ∧ invDct 16 16 0 (fun _ => 0) 0 0 = 0 := by decide +kernel

end Davs2.Si
