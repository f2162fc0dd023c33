import Verif.Model.RowCopy
import Verif.Model.LoopRows
import Verif.Props.MemAsm
import Verif.Props.Padding
/-
C108: what the in-loop filters read and what motion compensation reads around a picture is, byte by byte, what the picture says, when the rows are copied and the
borders expanded with the assembler helpers.
-/
namespace Davs2.Rcp
open Davs2.Ma (Mem Byte)
open Davs2.MemSpec

/-! ### The scratch picture of SAO and ALF -/

/-- The nearest column of the picture. -/
def col (w : Nat) (x : Int) : Int := max 0 (min ((w : Int) - 1) x)

/-- `pad_line_pixel` on memory. -/
theorem padLine_spec (m : Mem) (d : Int) (w pad : Nat) (h8 : pad % 8 = 0) (a : Int) :
    padLine m d w pad a = if d - pad ≤ a ∧ a < d then m d else if d + w ≤ a ∧ a < d + w + pad then m (d + w - 1) else m a := by
  unfold padLine bytes padLinePixel
  have e : (8 * ((pad / 8 : Nat) : Int)) = pad := by omega
  have h1 : nats m d < 256 := (m d).isLt
  have h2 : nats m (d + w - 1) < 256 := (m (d + w - 1)).isLt
  rw [padLoop_spec _ _ _ _ _ _ h1 h2 (by omega), e]
  have k : ∀ z, BitVec.ofNat 8 (nats m z) = m z := fun z => BitVec.eq_of_toNat_eq (Nat.mod_eq_of_lt (m z).isLt)
  by_cases c1 : d - pad ≤ a ∧ a < d
  · rw [if_pos (by omega), if_pos c1, k]
  · rw [if_neg (by omega), if_neg c1]
    by_cases c2 : d + w ≤ a ∧ a < d + w + pad
    · rw [if_pos c2, if_pos c2, k]
    · rw [if_neg c2, if_neg c2, k]

/-- One line. -/
theorem line_spec (reg : Nat → Nat → Byte) (m : Mem) (d s : Int) (w pad : Nat) (hw : 0 < w) (hb : w < 2 ^ 63) (h8 : pad % 8 = 0)
    (hap : d + w + pad ≤ s ∨ s + w ≤ d - pad) (a : Int) :
    (let m := Ma.fastMemcpy reg m d s (BitVec.ofNat 64 w)
     if pad ≠ 0 then padLine m d w pad else m) a = if d - pad ≤ a ∧ a < d + w + pad then m (s + col w (a - d)) else m a := by
  have e : (BitVec.ofNat 64 w).toNat = w := by rw [BitVec.toNat_ofNat]; omega
  have hc : Ma.fastMemcpy reg m d s (BitVec.ofNat 64 w) = copied m d s w := by
    have := Ma.C106_memcpy reg m d s (BitVec.ofNat 64 w) (by omega) (by unfold apart; omega)
    rwa [e] at this
  simp only [hc]
  by_cases hp : pad = 0
  · subst hp
    simp only [ne_eq, not_true_eq_false, if_false, copied]
    by_cases h : d ≤ a ∧ a < d + w
    · rw [if_pos h, if_pos (by omega)]; congr 2; unfold col; omega
    · rw [if_neg h, if_neg (by omega)]
  · rw [if_pos hp, padLine_spec _ _ _ _ h8]
    simp only [copied]
    by_cases h1 : d - pad ≤ a ∧ a < d
    · rw [if_pos h1, if_pos (by omega), if_pos (by omega)]; congr 1; unfold col; omega
    · rw [if_neg h1]
      by_cases h2 : d + w ≤ a ∧ a < d + w + pad
      · rw [if_pos h2, if_pos (by omega), if_pos (by omega)]; congr 1; unfold col; omega
      · rw [if_neg h2]
        by_cases h : d ≤ a ∧ a < d + w
        · rw [if_pos h, if_pos (by omega)]; congr 2; unfold col; omega
        · rw [if_neg h, if_neg (by omega)]

/-- The lines from `y0` on: what stands at column `x` of line `y`, where the columns of a line run from `-P` to `stride - P`. -/
theorem copyLines_spec (reg : Nat → Nat → Nat → Byte) (stride w pad P : Nat) (D S : Int) (hw : 0 < w) (hb : w < 2 ^ 63) (h8 : pad % 8 = 0)
    (hP : pad ≤ P) (hst : w + 2 * P ≤ stride) : ∀ (n : Nat) (m : Mem) (y0 : Int),
    (∀ r r' : Int, y0 ≤ r → r < y0 + n → y0 ≤ r' → r' < y0 + n →
      D + r * stride + w + pad ≤ S + r' * stride ∨ S + r' * stride + w ≤ D + r * stride - pad) →
    ∀ x y : Int, -(P : Int) ≤ x → x < stride - P →
    copyLines reg stride w pad n m (D + y0 * stride) (S + y0 * stride) (D + y * stride + x) =
      if (y0 ≤ y ∧ y < y0 + n) ∧ -(pad : Int) ≤ x ∧ x < w + pad then m (S + y * stride + col w x) else m (D + y * stride + x)
  | 0, m, y0, _, x, y, _, _ => by
    rw [if_neg (by omega)]; rfl
  | n + 1, m, y0, hap, x, y, hx, hx2 => by
    have ed : D + y0 * (stride : Int) + stride = D + (y0 + 1) * stride := by rw [Int.add_mul]; omega
    have es : S + y0 * (stride : Int) + stride = S + (y0 + 1) * stride := by rw [Int.add_mul]; omega
    unfold copyLines
    simp only []
    rw [ed, es]
    have L := line_spec (reg n) m (D + y0 * stride) (S + y0 * stride) w pad hw hb h8 (hap y0 y0 (by omega) (by omega) (by omega) (by omega))
    simp only [] at L
    generalize (if pad ≠ 0 then padLine (Ma.fastMemcpy (reg n) m (D + y0 * stride) (S + y0 * stride) (BitVec.ofNat 64 w)) (D + y0 * stride) w pad
      else Ma.fastMemcpy (reg n) m (D + y0 * stride) (S + y0 * stride) (BitVec.ofNat 64 w)) = m1 at L ⊢
    rw [copyLines_spec reg stride w pad P D S hw hb h8 hP hst n m1 (y0 + 1) (fun r r' a b c d => hap r r' (by omega) (by omega) (by omega) (by omega)) x y hx hx2]
    rcases Int.lt_trichotomy y y0 with h | h | h
    · have := row_lt (stride := stride) h
      rw [if_neg (by omega), if_neg (by omega), L, if_neg (by omega)]
    · subst h
      rw [if_neg (by omega), L]
      by_cases hx : -(pad : Int) ≤ x ∧ x < w + pad
      · rw [if_pos (by omega), if_pos ⟨by omega, hx⟩]; congr 3; omega
      · rw [if_neg (by omega), if_neg (fun q => hx q.2)]
    · have := row_lt (stride := stride) h
      by_cases hc : (y0 ≤ y ∧ y < y0 + (n + 1 : Nat)) ∧ -(pad : Int) ≤ x ∧ x < w + pad
      · rw [if_pos (by omega), if_pos hc, L]
        have := hap y0 y (by omega) (by omega) (by omega) (by omega)
        have : 0 ≤ col w x ∧ col w x < w := by unfold col; omega
        rw [if_neg (by omega)]
      · rw [if_neg (by omega), if_neg hc, L, if_neg (by omega)]

/-- A plane as the filters see it: its first sample is at address `B`. -/
def view (m : Mem) (stride : Nat) (B : Int) : Sa.Plane := fun x y => ((m (B + y * stride + x)).toNat : Int)

/-- **C108, scratch picture.** After the copy of row `j` of coding trees the scratch plane is what `Lr.copyRow` says, which the theorems about SAO and ALF use: the
lines from four above the row to its end hold the samples of the picture, continued by `pad` samples on both sides, and every other byte of memory is as before
(every address is a column `x` of a line `y`).  `P` is the padding of the planes: 80 for luma, 40 for chroma. -/
theorem C108_copy (reg : Nat → Nat → Nat → Byte) (l : Lr.Lay) (level : Nat) (hL : l.L = 2 ^ level) (stride pad P : Nat) (hw : 0 < l.W) (hb : l.W < 2 ^ 63)
    (h8 : pad % 8 = 0) (hP : pad ≤ P) (hst : l.W + 2 * P ≤ stride) (j : Nat) (m : Mem) (D S : Int)
    (hap : ∀ r r' : Int, -4 ≤ r → r < l.H → -4 ≤ r' → r' < l.H →
      D + r * stride + l.W + pad ≤ S + r' * stride ∨ S + r' * stride + l.W ≤ D + r * stride - pad)
    (x y : Int) (hx : -(P : Int) ≤ x) (hx2 : x < stride - P) :
    view (copyLcurow reg stride l.W l.H level pad j (-4) m D S) stride D x y = Lr.copyRow l pad j (view m stride S) (view m stride D) x y := by
  unfold view copyLcurow
  have hj : (0 : Int) ≤ j * 2 ^ level := Int.mul_nonneg (by omega) (Int.pow_nonneg (by decide))
  have hLc : (l.L : Int) = 2 ^ level := by rw [hL]; exact Int.natCast_pow 2 level
  rw [copyLines_spec reg stride l.W pad P D S hw hb h8 hP hst _ m _ (fun r r' a b c d => hap r r' (by omega) (by omega) (by omega) (by omega)) x y hx hx2]
  unfold Lr.copyRow col
  rw [hLc]
  by_cases hc : ((j : Int) * 2 ^ level + -4 ≤ y ∧ y < j * 2 ^ level + -4 + ((min (l.H : Int) ((j + 1) * 2 ^ level) - (j * 2 ^ level + -4)).toNat : Int)) ∧ -(pad : Int) ≤ x ∧ x < l.W + pad
  · rw [if_pos hc, if_pos (by omega)]
  · rw [if_neg hc, if_neg (by omega)]

/-- A picture of 40 by 24 with trees of 16 and planes 64 KiB apart, second row, ALF: the hypotheses hold. -/
example (reg : Nat → Nat → Nat → Byte) (m : Mem) (x y : Int) (hx : -80 ≤ x) (hx2 : x < 144) :
    view (copyLcurow reg 224 40 24 4 8 1 (-4) m 100000 20000) 224 100000 x y =
      Lr.copyRow ⟨40, 24, 16, true, fun _ _ => 0, fun _ _ => 0⟩ 8 1 (view m 224 20000) (view m 224 100000) x y :=
  C108_copy reg ⟨40, 24, 16, true, fun _ _ => 0, fun _ _ => 0⟩ 4 rfl 224 8 80 (by decide) (by decide) (by decide) (by decide) (by decide) 1 m 100000 20000
    (fun r r' a b c d => by simp only at b d ⊢; omega) x y hx (by omega)

/-- The planes of a frame are wide enough: 80 columns of padding for luma, 40 for chroma (ALF needs 8), and the lines are a multiple of 32 apart. -/
theorem C108_strides (d : FrameDims) :
    (d.width + 2 * 80 ≤ d.strideL ∧ d.strideL % 32 = 0) ∧ d.widthC + 2 * 40 ≤ d.strideC ∧ d.strideC % 32 = 0 := by
  have a := alignStride_spec (d.width + 80 * 2)
  have b := alignStride_spec (d.widthC + 80)
  unfold FrameDims.strideL FrameDims.strideC
  omega

example : (FrameDims.mk 40 24 true false).strideL = 224 := by decide

/-! ### The borders -/

theorem nats_bytes (p : PlaneMem) (h : ∀ a, p a < 256) : nats (bytes p) = p := by
  funext a
  exact Nat.mod_eq_of_lt (h a)

theorem padRowsMem_eq (stride w pad : Nat) : ∀ (n : Nat) (m : Mem) (s : Int), nats (padRowsMem m stride w pad s n) = padRows (nats m) stride w pad s n
  | 0, _, _ => rfl
  | n + 1, m, s => by
    unfold padRowsMem padRows
    rw [padRowsMem_eq stride w pad n]
    have hm : ∀ a, nats m a < 256 := fun a => (m a).isLt
    unfold padLine
    rw [nats_bytes _ (padLinePixel_lt _ _ _ _ hm)]

theorem copy_eq (fuel : Nat) (reg : Nat → Nat → Byte) (m : Mem) (stride : Nat) (hs : stride % 16 = 0) (hb : stride < 2 ^ 31) (hf : stride ≤ 32 * fuel)
    (d s : Int) (h : d + stride ≤ s ∨ s + stride ≤ d) :
    ∃ m', Ma.memcpyAligned fuel reg m d s (BitVec.ofNat 64 stride) = some m' ∧ nats m' = copyMem (nats m) d s stride := by
  have e : (BitVec.ofNat 64 stride).toNat = stride := by rw [BitVec.toNat_ofNat]; omega
  refine ⟨_, Ma.C106_memcpy_aligned fuel reg m d s _ (by omega) (by omega) (by omega) (by unfold apart; omega), ?_⟩
  funext a
  unfold nats copied copyMem
  rw [e]
  by_cases h : d ≤ a ∧ a < d + stride
  · rw [if_pos h, if_pos h]; congr 2; omega
  · rw [if_neg h, if_neg h]

theorem padUpMem_eq (fuel : Nat) (reg : Nat → Nat → Nat → Byte) (stride : Nat) (hs : stride % 16 = 0) (hb : stride < 2 ^ 31) (hf : stride ≤ 32 * fuel) :
    ∀ (n : Nat) (m : Mem) (pix : Int), ∃ m', padUpMem fuel reg stride n m pix = some m' ∧ nats m' = padUp (nats m) stride pix n
  | 0, m, _ => ⟨m, rfl, rfl⟩
  | n + 1, m, pix => by
    obtain ⟨m1, h1, e1⟩ := copy_eq fuel (reg n) m stride hs hb hf (pix - stride) pix (by omega)
    obtain ⟨m2, h2, e2⟩ := padUpMem_eq fuel reg stride hs hb hf n m1 (pix - stride)
    refine ⟨m2, ?_, ?_⟩
    · unfold padUpMem; rw [h1]; exact h2
    · rw [e2, e1]; rfl

theorem padDownMem_eq (fuel : Nat) (reg : Nat → Nat → Nat → Byte) (stride : Nat) (hs : stride % 16 = 0) (hb : stride < 2 ^ 31) (hf : stride ≤ 32 * fuel) :
    ∀ (n : Nat) (m : Mem) (pix : Int), ∃ m', padDownMem fuel reg stride n m pix = some m' ∧ nats m' = padDown (nats m) stride pix n
  | 0, m, _ => ⟨m, rfl, rfl⟩
  | n + 1, m, pix => by
    obtain ⟨m1, h1, e1⟩ := copy_eq fuel (reg n) m stride hs hb hf (pix + stride) pix (by omega)
    obtain ⟨m2, h2, e2⟩ := padDownMem_eq fuel reg stride hs hb hf n m1 (pix + stride)
    refine ⟨m2, ?_, ?_⟩
    · unfold padDownMem; rw [h1]; exact h2
    · rw [e2, e1]; rfl

theorem padLineLcuMem_eq (fuel : Nat) (reg : Nat → Nat → Nat → Byte) (c : PadCfg) (hs : c.stride % 16 = 0) (hb : c.stride < 2 ^ 31) (hf : c.stride ≤ 32 * fuel)
    (m : Mem) (y : Nat) : ∃ m', padLineLcuMem fuel reg c m y = some m' ∧ nats m' = padLineLcu c (nats m) y := by
  have e1 := padRowsMem_eq c.stride c.width c.pad (c.stop y - c.start y).toNat m (c.start y)
  unfold padLineLcuMem padLineLcu
  simp only []
  generalize padRowsMem m c.stride c.width c.pad (c.start y) (c.stop y - c.start y).toNat = m1 at e1 ⊢
  rw [← e1]
  obtain ⟨m2, h2, e2⟩ : ∃ m2, (if y = 0 then padUpMem fuel reg c.stride c.pad m1 (-(c.pad : Int)) else some m1) = some m2 ∧
      nats m2 = if y = 0 then padUp (nats m1) c.stride (-(c.pad : Int)) c.pad else nats m1 := by
    split
    · exact padUpMem_eq fuel reg c.stride hs hb hf _ m1 _
    · exact ⟨m1, rfl, rfl⟩
  rw [h2, ← e2]
  simp only [Option.bind_some]
  split
  · exact padDownMem_eq fuel reg c.stride hs hb hf _ m2 _
  · exact ⟨m2, rfl, rfl⟩

theorem padPictureMem_eq (fuel : Nat) (reg : Nat → Nat → Nat → Byte) (c : PadCfg) (hs : c.stride % 16 = 0) (hb : c.stride < 2 ^ 31) (hf : c.stride ≤ 32 * fuel)
    (m : Mem) : ∀ n, ∃ m', padPictureMem fuel reg c m n = some m' ∧ nats m' = padPicture c (nats m) n
  | 0 => ⟨m, rfl, rfl⟩
  | n + 1 => by
    obtain ⟨m1, h1, e1⟩ := padPictureMem_eq fuel reg c hs hb hf m n
    obtain ⟨m2, h2, e2⟩ := padLineLcuMem_eq fuel reg c hs hb hf m1 n
    refine ⟨m2, ?_, ?_⟩
    · unfold padPictureMem; rw [h1]; exact h2
    · rw [e2, e1]; rfl

/-- **C108, borders.** With the assembler copy, too, every byte up to `pad` lines and columns outside the picture is the nearest sample of the picture afterwards, and
nothing outside the plane is written.  The copy needs lines that are a multiple of 16 apart (`C108_strides`). -/
theorem C108_borders (fuel : Nat) (reg : Nat → Nat → Nat → Byte) (c : PadCfg) (h : c.Ok) (hs : c.stride % 16 = 0) (hb : c.stride < 2 ^ 31)
    (hf : c.stride ≤ 32 * fuel) (m : Mem) :
    ∃ m', padPictureMem fuel reg c m c.rows = some m' ∧
      (∀ r x : Int, -(c.pad : Int) ≤ r → r < c.lines + c.pad → -(c.pad : Int) ≤ x → x < c.width + c.pad →
        m' (r * c.stride + x) = m (nearest r c.lines * c.stride + nearest x c.width)) ∧
      ∀ a : Int, a < -(c.pad : Int) * c.stride - c.pad ∨ (c.lines + c.pad : Int) * c.stride - c.pad ≤ a → m' a = m a := by
  obtain ⟨m', h1, e⟩ := padPictureMem_eq fuel reg c hs hb hf m c.rows
  obtain ⟨p, q⟩ := C24_padding c h (nats m) fun a => (m a).isLt
  refine ⟨m', h1, fun r x a b d f => ?_, fun a ha => ?_⟩
  · apply BitVec.eq_of_toNat_eq
    have := congrFun e (r * c.stride + x)
    rw [p r x a b d f] at this
    exact this
  · apply BitVec.eq_of_toNat_eq
    have := congrFun e a
    rw [q a ha] at this
    exact this

/-- **C108, borders of every picture.** The planes the frame allocator lays out meet the conditions: sizes that are multiples of 8, trees of 16, 32 or 64. -/
theorem C108_frame (reg : Nat → Nat → Nat → Byte) (d : FrameDims) (lvl : Nat) (chroma : Bool) (hl : lvl = 4 ∨ lvl = 5 ∨ lvl = 6)
    (hw : 8 ≤ d.width) (hw2 : d.width < 2 ^ 30) (hh : 8 ≤ d.height) (h8 : d.height % 8 = 0) (h420 : chroma = true → d.is420 = true) (m : Mem) :
    ∃ fuel m', padPictureMem fuel reg (padCfgOf d lvl chroma) m (padCfgOf d lvl chroma).rows = some m' ∧
      (let pad := if chroma then 40 else 80
       let w := if chroma then d.widthC else d.width
       let lines := if chroma then d.heightC else d.height
       let stride := if chroma then d.strideC else d.strideL
       ∀ r x : Int, -(pad : Int) ≤ r → r < lines + pad → -(pad : Int) ≤ x → x < w + pad →
        m' (r * stride + x) = m (nearest r lines * stride + nearest x w)) := by
  have ok := padCfg_ok d lvl chroma hl hw hh h8 h420
  have hs := C108_strides d
  have a := alignStride_spec (d.width + 80 * 2)
  have b := alignStride_spec (d.widthC + 80)
  have e : d.widthC = d.width / 2 := rfl
  have c : (padCfgOf d lvl chroma).stride % 16 = 0 ∧ (padCfgOf d lvl chroma).stride < 2 ^ 31 := by
    cases chroma
    · have : (padCfgOf d lvl false).stride = alignStride (d.width + 80 * 2) := rfl
      rw [this]; omega
    · have : (padCfgOf d lvl true).stride = alignStride (d.widthC + 80) := rfl
      rw [this]; omega
  obtain ⟨m', h, p, _⟩ := C108_borders (padCfgOf d lvl chroma).stride reg _ ok c.1 c.2 (by omega) m
  refine ⟨_, m', h, fun r x q1 q2 q3 q4 => ?_⟩
  cases chroma
  · exact p r x q1 q2 q3 q4
  · exact p r x q1 q2 q3 q4

/-- Chroma of 1920x1080 with trees of 64: the byte before the first is a copy of it. -/
example (reg : Nat → Nat → Nat → Byte) (m : Mem) :
    ∃ fuel m', padPictureMem fuel reg (padCfgOf ⟨1920, 1080, true, true⟩ 6 true) m (padCfgOf ⟨1920, 1080, true, true⟩ 6 true).rows = some m' ∧ m' (-1) = m 0 := by
  obtain ⟨fuel, m', h, p⟩ := C108_frame reg ⟨1920, 1080, true, true⟩ 6 true (by decide) (by decide) (by decide) (by decide) (by decide) (fun _ => rfl) m
  refine ⟨fuel, m', h, ?_⟩
  have := p 0 (-1) (by decide) (by decide) (by decide) (by decide)
  simpa [nearest, FrameDims.heightC] using this

end Davs2.Rcp
