import Verif.Model.Layout
import Mathlib.Tactic.Linarith
/-
Property C23: the areas carved out of one allocation do not overlap and fit.
-/
namespace Davs2

/-- A byte range. -/
structure Area where
  start : Nat
  len : Nat

def Area.Within (x : Area) (a n : Nat) : Prop := a ≤ x.start ∧ x.start + x.len ≤ a + n

/-- Pairwise disjoint, in ascending order. -/
def Ordered : List Area → Prop
  | [] => True
  | [_] => True
  | x :: y :: l => x.start + x.len ≤ y.start ∧ Ordered (y :: l)

/-- Bytes touched in a plane with `lines` rows of `width` samples when `pad` samples are added on each side:
rows `-pad .. lines + pad - 1`, columns from `-pad` on, `stride` apart. -/
def paddedArea (plane stride lines pad : Nat) : Area :=
  ⟨plane - pad * stride - pad, (lines + 2 * pad) * stride⟩

theorem align32_spec (p : Nat) : p ≤ align32 p ∧ align32 p < p + 32 ∧ align32 p % 32 = 0 := by
  unfold align32; omega

theorem alignStride_spec (x : Nat) :
    x ≤ alignStride x ∧ alignStride x < x + 64 ∧ alignStride x % 32 = 0 := by
  unfold alignStride
  simp only
  split <;> omega

theorem alignPlaneSize_spec (x : Nat) : x ≤ alignPlaneSize x ∧ alignPlaneSize x ≤ x + 128 := by
  unfold alignPlaneSize; split <;> omega

/-- The areas of one picture buffer, in memory order. -/
def frameAreas (z : Sizes) (d : FrameDims) (a : Nat) : List Area :=
  let f := frameNew z d a
  [⟨f.handle, z.frame⟩,
   paddedArea f.plane0 d.strideL d.height 80,
   paddedArea f.plane1 d.strideC d.heightC 40,
   paddedArea f.plane2 d.strideC d.heightC 40,
   ⟨f.refbuf, d.extraSize⟩, ⟨f.mvbuf, 4 * d.extraSize⟩, ⟨f.conds, z.cond * d.lcuRows⟩,
   ⟨f.status, 4 * d.lcuRows⟩]

/-- One padded plane in its part of the buffer. -/
theorem plane_fits (b stride lines pad : Nat) :
    let p := align32 (b + stride * pad + pad)
    b ≤ (paddedArea p stride lines pad).start ∧
    (paddedArea p stride lines pad).start + (paddedArea p stride lines pad).len ≤
      b + (stride * (lines + 2 * pad) + 32) ∧
    pad * stride + pad ≤ p := by
  simp only [paddedArea]
  have h := align32_spec (b + stride * pad + pad)
  have e1 : pad * stride = stride * pad := Nat.mul_comm _ _
  have e2 : (lines + 2 * pad) * stride = stride * (lines + 2 * pad) := Nat.mul_comm _ _
  rw [e1, e2]
  omega

/-- **C23.** In every picture buffer (any size, with or without the motion buffers, at any address) the
handle, the three padded planes, the motion buffers and the synchronisation objects are pairwise disjoint,
and everything lies inside the size that was computed for it; rows with their padding do not overlap. -/
theorem C23_frame_layout (z : Sizes) (d : FrameDims) (a : Nat) :
    Ordered (frameAreas z d a) ∧ (∀ x ∈ frameAreas z d a, x.Within a (frameGetSize z d)) ∧
    a ≤ (frameNew z d a).stop ∧ (frameNew z d a).stop ≤ a + frameGetSize z d ∧
    d.width + 2 * 80 ≤ d.strideL ∧ d.widthC + 2 * 40 ≤ d.strideC := by
  have h0 := align32_spec (a + z.frame)
  have hsL : d.strideL * (d.height + 80 * 2) + 32 ≤ d.sizeL := (alignPlaneSize_spec _).1
  have hsC : d.strideC * (d.heightC + 80) + 32 ≤ d.sizeC := (alignPlaneSize_spec _).1
  have p0 := plane_fits (align32 (a + z.frame)) d.strideL d.height 80
  have p1 := plane_fits (align32 (a + z.frame) + d.sizeL) d.strideC d.heightC 40
  have p2 := plane_fits (align32 (a + z.frame) + d.sizeL + d.sizeC) d.strideC d.heightC 40
  simp only [show 2 * 80 = 80 * 2 from rfl, show 2 * 40 = 80 from rfl] at p0 p1 p2
  have hstr : d.width + 2 * 80 ≤ d.strideL := (alignStride_spec _).1
  have hstrC : d.widthC + 2 * 40 ≤ d.strideC := (alignStride_spec _).1
  have hex : d.extra = false → d.extraSize = 0 := by
    intro h; simp [FrameDims.extraSize, h]
  simp only [frameAreas, Ordered, List.mem_cons, List.not_mem_nil, or_false, forall_eq_or_imp, forall_eq,
    Area.Within, frameNew, frameGetSize]
  generalize hb0 : align32 (a + z.frame) = b0 at *
  generalize hA0 : paddedArea (align32 (b0 + d.strideL * 80 + 80)) d.strideL d.height 80 = A0 at *
  generalize hA1 : paddedArea (align32 (b0 + d.sizeL + d.strideC * 40 + 40)) d.strideC d.heightC 40 = A1 at *
  generalize hA2 : paddedArea (align32 (b0 + d.sizeL + d.sizeC + d.strideC * 40 + 40)) d.strideC d.heightC 40
    = A2 at *
  generalize d.strideL * (d.height + 80 * 2) = x0 at *
  generalize d.strideC * (d.heightC + 80) = x1 at *
  generalize z.cond * d.lcuRows = c at *
  generalize d.extraSize = e at *
  have hm3 : b0 + (d.sizeL + d.sizeC * 2) + e ≤
      (if d.extra = true then align32 (b0 + (d.sizeL + d.sizeC * 2) + e)
        else b0 + (d.sizeL + d.sizeC * 2)) ∧
      (if d.extra = true then align32 (b0 + (d.sizeL + d.sizeC * 2) + e)
        else b0 + (d.sizeL + d.sizeC * 2)) < b0 + (d.sizeL + d.sizeC * 2) + e + 32 := by
    split
    · exact ⟨(align32_spec _).1, (align32_spec _).2.1⟩
    · rename_i h
      have := hex (by simpa using h)
      omega
  generalize (if d.extra = true then align32 (b0 + (d.sizeL + d.sizeC * 2) + e)
    else b0 + (d.sizeL + d.sizeC * 2)) = m3 at *
  have hm4 : m3 + 4 * e ≤ (if d.extra = true then align32 (m3 + 4 * e) else m3) ∧
      (if d.extra = true then align32 (m3 + 4 * e) else m3) < m3 + 4 * e + 32 := by
    split
    · exact ⟨(align32_spec _).1, (align32_spec _).2.1⟩
    · rename_i h
      have := hex (by simpa using h)
      omega
  generalize (if d.extra = true then align32 (m3 + 4 * e) else m3) = m4 at *
  have h5 := align32_spec (m4 + c)
  generalize align32 (m4 + c) = m5 at *
  have h6 := align32_spec (m5 + 4 * d.lcuRows)
  generalize align32 (m5 + 4 * d.lcuRows) = m6 at *
  obtain ⟨q0, q0', _⟩ := p0
  obtain ⟨q1, q1', _⟩ := p1
  obtain ⟨q2, q2', _⟩ := p2
  refine ⟨?_, ?_, ?_, ?_, hstr, hstrC⟩
  · refine ⟨by omega, by omega, by omega, by omega, by omega, by omega, by omega, trivial⟩
  · refine ⟨?_, ?_, ?_, ?_, ?_, ?_, ?_, ?_⟩ <;> omega
  · omega
  · omega

example : Ordered (frameAreas ⟨200, 48⟩ ⟨1920, 1080, true, true⟩ 4103) ∧
    (frameNew ⟨200, 48⟩ ⟨1920, 1080, true, true⟩ 4103).stop = 4103 + 4540505 := by
  refine ⟨(C23_frame_layout _ _ _).1, ?_⟩
  decide

/-- Areas of all picture buffers of the pool. -/
theorem dpbAddrs_fit (z : Sizes) (d : FrameDims) (n p : Nat) (hp : p % 32 = 0) :
    (∀ (i : Nat) q, (dpbAddrs z d n p)[i]? = some q →
      p ≤ q ∧ (frameNew z d q).stop ≤ p + frameGetSize z d * n) ∧
    (∀ (i j : Nat) q r, i < j → (dpbAddrs z d n p)[i]? = some q → (dpbAddrs z d n p)[j]? = some r →
      (frameNew z d q).stop ≤ r) := by
  induction n generalizing p with
  | zero => simp [dpbAddrs]
  | succ n ih =>
    obtain ⟨_, _, h3, h4, _⟩ := C23_frame_layout z d p
    have hal : align32 (frameNew z d p).stop = (frameNew z d p).stop := by
      have : (frameNew z d p).stop % 32 = 0 := (align32_spec _).2.2
      unfold align32
      omega
    have hmod : (frameNew z d p).stop % 32 = 0 := (align32_spec _).2.2
    obtain ⟨i1, i2⟩ := ih (frameNew z d p).stop hmod
    rw [Nat.mul_succ]
    simp only [dpbAddrs, hal]
    constructor
    · intro i q hq
      cases i with
      | zero =>
        simp only [List.getElem?_cons_zero, Option.some.injEq] at hq
        subst hq
        omega
      | succ i =>
        simp only [List.getElem?_cons_succ] at hq
        have := i1 i q hq
        omega
    · intro i j q r hij hq hr
      obtain ⟨j, rfl⟩ : ∃ k, j = k + 1 := ⟨j - 1, by omega⟩
      simp only [List.getElem?_cons_succ] at hr
      cases i with
      | zero =>
        simp only [List.getElem?_cons_zero, Option.some.injEq] at hq
        subst hq
        exact (i1 j r hr).1
      | succ i =>
        simp only [List.getElem?_cons_succ] at hq
        exact i2 i j q r (by omega) hq hr

theorem dpbAddrs_length (z : Sizes) (d : FrameDims) (n p : Nat) : (dpbAddrs z d n p).length = n := by
  induction n generalizing p with
  | zero => rfl
  | succ n ih => simp [dpbAddrs, ih]

/-- **C23.** All picture buffers of the pool lie behind the pointer table and inside the block requested
for it, whatever the address of the block, and no two of them overlap. -/
theorem C23_pool_layout (z : Sizes) (d : FrameDims) (n a : Nat) :
    (createDpb z d n a).length = n ∧
    (∀ q ∈ createDpb z d n a, a + n * 8 ≤ q ∧
      (frameNew z { d with extra := true } q).stop ≤ a + dpbSize z d n) ∧
    (∀ (i j : Nat) q r, i < j → (createDpb z d n a)[i]? = some q → (createDpb z d n a)[j]? = some r →
      (frameNew z { d with extra := true } q).stop ≤ r) := by
  have h := align32_spec (a + n * 8)
  obtain ⟨h1, h2⟩ := dpbAddrs_fit z { d with extra := true } n (align32 (a + n * 8)) h.2.2
  refine ⟨dpbAddrs_length _ _ _ _, ?_, h2⟩
  intro q hq
  obtain ⟨i, hi⟩ := List.getElem?_of_mem hq
  have := h1 i q hi
  unfold dpbSize
  omega

example : (createDpb ⟨200, 48⟩ ⟨64, 64, true, true⟩ 3 1000).length = 3 := (C23_pool_layout _ _ 3 _).1

/-- **C23.** `int` is wide enough for every size computed for an accepted picture format. -/
theorem C23_no_overflow (z : Sizes) (d : FrameDims) (hw : d.width ≤ 16384) (hh : d.height ≤ 16384)
    (hz : z.frame ≤ 65536 ∧ z.cond ≤ 1024) : frameGetSize z d + 64 < 2 ^ 31 := by
  have hsl : d.strideL < 16384 + 160 + 64 := by
    have := (alignStride_spec (d.width + 80 * 2)).2.1
    unfold FrameDims.strideL
    omega
  have hsc : d.strideC < 8192 + 80 + 64 := by
    have := (alignStride_spec (d.widthC + 80)).2.1
    unfold FrameDims.strideC FrameDims.widthC at *
    omega
  have hhc : d.heightC ≤ 16384 := by unfold FrameDims.heightC; split <;> omega
  have m1 : d.strideL * (d.height + 80 * 2) ≤ 16607 * 16544 := Nat.mul_le_mul (by omega) (by omega)
  have m2 : d.strideC * (d.heightC + 80) ≤ 8335 * 16464 := Nat.mul_le_mul (by omega) (by omega)
  have s1 := (alignPlaneSize_spec (d.strideL * (d.height + 80 * 2) + 32)).2
  have s2 := (alignPlaneSize_spec (d.strideC * (d.heightC + 80) + 32)).2
  have e : d.extraSize ≤ 4096 * 4096 := by
    unfold FrameDims.extraSize
    split
    · exact Nat.mul_le_mul (by omega) (by omega)
    · omega
  have r : d.lcuRows ≤ 1025 := by unfold FrameDims.lcuRows; omega
  have c : z.cond * d.lcuRows ≤ 1024 * 1025 := Nat.mul_le_mul hz.2 r
  unfold frameGetSize FrameDims.sizeL FrameDims.sizeC
  omega

example : frameGetSize ⟨200, 48⟩ ⟨16384, 16384, false, true⟩ + 64 < 2 ^ 31 :=
  C23_no_overflow _ _ (by decide) (by decide) (by decide)

/-- Areas with given start addresses and sizes. -/
def zipAreas (a n : List Nat) : List Area := List.zipWith Area.mk a n

theorem carve_spec (l : List Nat) (p : Nat) :
    Ordered (zipAreas (carve l p).1 l) ∧ (carve l p).1.length = l.length ∧
    (∀ x ∈ zipAreas (carve l p).1 l, p ≤ x.start ∧ x.start + x.len ≤ (carve l p).2) ∧
    p ≤ (carve l p).2 ∧ (carve l p).2 ≤ p + l.sum + 31 * l.length ∧
    (l ≠ [] → (carve l p).2 % 32 = 0) := by
  induction l generalizing p with
  | nil => simp [carve, zipAreas, Ordered]
  | cons n l ih =>
    obtain ⟨i1, i2, i3, i4, i5, i6⟩ := ih (align32 (p + n))
    have h := align32_spec (p + n)
    simp only [carve, zipAreas, List.zipWith_cons_cons, List.length_cons, i2, List.sum_cons, List.mem_cons,
      forall_eq_or_imp]
    refine ⟨?_, trivial, ⟨⟨by omega, by omega⟩, ?_⟩, by omega, by omega, ?_⟩
    · cases l with
      | nil => simp [carve, Ordered]
      | cons m l =>
        simp only [carve, List.zipWith_cons_cons, Ordered]
        refine ⟨h.1, ?_⟩
        simpa [carve, zipAreas] using i1
    · intro x hx
      have := i3 x hx
      omega
    · intro _
      cases l with
      | nil => simp [carve, h.2.2]
      | cons m l => exact i6 (by simp)

theorem carveFrames_spec (z : Sizes) (l : List FrameDims) (p : Nat) (hp : p % 32 = 0) :
    (carveFrames z l p).1.length = l.length ∧ p ≤ (carveFrames z l p).2 ∧
    (carveFrames z l p).2 ≤ p + (l.map (frameGetSize z)).sum ∧
    (∀ (i : Nat) q d, (carveFrames z l p).1[i]? = some q → l[i]? = some d →
      p ≤ q ∧ (frameNew z d q).stop ≤ (carveFrames z l p).2) ∧
    (∀ (i j : Nat) q r d, i < j → (carveFrames z l p).1[i]? = some q → l[i]? = some d →
      (carveFrames z l p).1[j]? = some r → (frameNew z d q).stop ≤ r) := by
  induction l generalizing p with
  | nil => simp [carveFrames]
  | cons d l ih =>
    obtain ⟨_, _, h3, h4, _⟩ := C23_frame_layout z d p
    have hmod : (frameNew z d p).stop % 32 = 0 := (align32_spec _).2.2
    have hal : align32 (frameNew z d p).stop = (frameNew z d p).stop := by
      unfold align32
      omega
    obtain ⟨i1, i2, i3, i4, i5⟩ := ih (frameNew z d p).stop hmod
    simp only [carveFrames, hal, List.length_cons, i1, List.map_cons, List.sum_cons]
    refine ⟨trivial, by omega, by omega, ?_, ?_⟩
    · intro i q e hq he
      cases i with
      | zero =>
        simp only [List.getElem?_cons_zero, Option.some.injEq] at hq he
        subst hq he
        omega
      | succ i =>
        simp only [List.getElem?_cons_succ] at hq he
        have := i4 i q e hq he
        omega
    · intro i j q r e hij hq he hr
      obtain ⟨j, rfl⟩ : ∃ k, j = k + 1 := ⟨j - 1, by omega⟩
      simp only [List.getElem?_cons_succ] at hr
      cases i with
      | zero =>
        simp only [List.getElem?_cons_zero, Option.some.injEq] at hq he
        subst hq he
        have hlt : j < l.length := by
          rw [← i1]
          exact (List.getElem?_eq_some_iff.1 hr).1
        exact (i4 j r l[j] hr (List.getElem?_eq_getElem hlt)).1
      | succ i =>
        simp only [List.getElem?_cons_succ] at hq he
        exact i5 i j q r e (by omega) hq he hr

/-- **C23.** The work areas of one decoding task and its private frames are pairwise disjoint and inside the
block requested for them, for every picture format, coding tree size and choice of loop filters. -/
theorem C23_task_layout (z : Sizes) (c : ExtraCfg) (a : Nat) :
    let r := allocExtra z c a
    Ordered (zipAreas r.1 c.areas) ∧ r.1.length = c.areas.length ∧ r.2.1.length = c.frames.length ∧
    (∀ x ∈ zipAreas r.1 c.areas, x.Within a (c.request z)) ∧
    (∀ (i : Nat) q d, r.2.1[i]? = some q → c.frames[i]? = some d →
      (∀ x ∈ zipAreas r.1 c.areas, x.start + x.len ≤ q) ∧
      (frameNew z d q).stop ≤ a + c.request z) ∧
    (∀ (i j : Nat) q s d, i < j → r.2.1[i]? = some q → c.frames[i]? = some d → r.2.1[j]? = some s →
      (frameNew z d q).stop ≤ s) := by
  obtain ⟨i1, i2, i3, i4, i5, i6⟩ := carve_spec c.areas a
  obtain ⟨f1, f2, f3, f4, f5⟩ := carveFrames_spec z c.frames (carve c.areas a).2 (i6 (by simp [ExtraCfg.areas]))
  have key : c.areas.sum + 31 * c.areas.length + (c.frames.map (frameGetSize z)).sum ≤ c.request z := by
    have e : (c.frames.map (frameGetSize z)).sum = 2 * frameGetSize z { c.dims with extra := true } +
        (c.alf.toNat + c.sao.toNat) * frameGetSize z { c.dims with extra := false } := by
      unfold ExtraCfg.frames
      cases c.alf <;> cases c.sao <;> simp <;> omega
    have e2 : c.szCu * c.scu = c.scu * c.szCu := Nat.mul_comm _ _
    rw [e]
    simp only [ExtraCfg.areas, List.sum_cons, List.sum_nil, List.length_cons, List.length_nil,
      ExtraCfg.request, e2]
    have e3 : c.dims.width / 8 * (c.dims.height / 8) = c.scu := rfl
    rw [e3]
    omega
  simp only [allocExtra]
  refine ⟨i1, i2, f1, ?_, ?_, f5⟩
  · intro x hx
    have := i3 x hx
    unfold Area.Within
    omega
  · intro i q d hq hd
    have h := f4 i q d hq hd
    refine ⟨fun x hx => ?_, by omega⟩
    have := i3 x hx
    omega

example : (allocExtra ⟨200, 48⟩ ⟨⟨64, 64, true, true⟩, 4, true, false, 100, 200, 1000⟩ 4096).2.1.length = 3 :=
  (C23_task_layout ⟨200, 48⟩ ⟨⟨64, 64, true, true⟩, 4, true, false, 100, 200, 1000⟩ 4096).2.2.1

/-- **C23.** Every access to the prediction mode table, one row above and sixteen columns left of the
picture included, is inside the table (the pointer is moved by one row and 16, decoder.cc:846). -/
theorem C23_mode_table (w h : Nat) (x y : Int) (hx : -16 ≤ x) (hx2 : x < w) (hy : -1 ≤ y) (hy2 : y < h) :
    0 ≤ ((w : Int) + 16) + 16 + (y * (w + 16) + x) ∧
    ((w : Int) + 16) + 16 + (y * (w + 16) + x) < (w + 16) * (h + 1) := by
  constructor
  · nlinarith
  · nlinarith

example : (0 : Int) ≤ ((8 : Int) + 16) + 16 + (-1 * (8 + 16) + -16) := by decide

/-- **C23.** The address handed out by the allocation function is aligned, lies behind the hidden pointer
and leaves the requested number of bytes inside the block. -/
theorem C23_malloc (buf size : Nat) :
    mallocAddr buf % 32 = 0 ∧ buf + 8 ≤ mallocAddr buf ∧ mallocAddr buf + size ≤ buf + (size + 31 + 8) := by
  unfold mallocAddr
  omega

/-- **C23.** The planes of an output picture do not overlap and fit the request. -/
theorem C23_output_picture (w h : Nat) :
    let p := allocPicture w h
    Ordered [⟨p.p0, w * h⟩, ⟨p.p1, w / 2 * (h / 2)⟩, ⟨p.p2, w / 2 * (h / 2)⟩] ∧
    p.p2 + w / 2 * (h / 2) ≤ p.size := by
  have key : 4 * (w / 2 * (h / 2)) ≤ w * h := by
    have e : 4 * (w / 2 * (h / 2)) = (2 * (w / 2)) * (2 * (h / 2)) := by
      rw [Nat.mul_mul_mul_comm]
    rw [e]
    exact Nat.mul_le_mul (by omega) (by omega)
  simp only [allocPicture, Ordered]
  generalize w * h = x at *
  generalize w / 2 * (h / 2) = y at *
  refine ⟨⟨by omega, by omega, trivial⟩, by omega⟩

end Davs2
