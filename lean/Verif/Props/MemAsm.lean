import Verif.Lemmas.MemAsm
import Verif.Props.Layout
/-
C106: the memory helpers in assembler copy, clear and fill exactly the bytes they are asked for — `memcpy_aligned` only for sizes that are multiples of 16,
`fast_memset` only for values that fit in a signed byte; the picture strides are such sizes.
-/
namespace Davs2.Ma
open Davs2.MemSpec

/-- **C106.** `fast_memcpy` copies `n` bytes and changes no other, whatever the registers held. -/
theorem C106_memcpy (reg : Nat → Nat → Byte) (m : Mem) (d s : Int) (n : BitVec 64) (hn : n.toNat < 2 ^ 63) (h : apart d s n.toNat) :
    fastMemcpy reg m d s n = copied m d s n.toNat := by
  unfold fastMemcpy
  by_cases h0 : n = 0
  · subst h0; exact (copied_zero m d s).symm
  · rw [if_neg h0]
    simp only [guarded_eq]
    have e3 := and7 n
    have e2 := sar3 hn
    have e4 := and7 (n.sshiftRight 3)
    have e5 := sar3 (x := n.sshiftRight 3) (by omega)
    rw [e2] at e4 e5
    rw [e3, e4, e5]
    obtain ⟨a1, a2, a3⟩ := iter_copies copies64 (n.toNat / 8 / 8) ⟨m, d, s, reg⟩ n.toNat h (by omega)
    generalize ((exec copy64)^[n.toNat / 8 / 8]) ⟨m, d, s, reg⟩ = t at *
    simp only at a1 a2 a3
    obtain ⟨b1, b2, b3⟩ := iter_copies copies8 (n.toNat / 8 % 8) t (n.toNat - n.toNat / 8 / 8 * 64)
      (by rw [a2, a3]; unfold apart at *; omega) (by omega)
    rw [a1, a2, a3, copied_comp h (by omega)] at b1
    rw [a2] at b2
    rw [a3] at b3
    generalize ((exec copy8)^[n.toNat / 8 % 8]) t = u at *
    obtain ⟨c1, -, -⟩ := iter_copies copies1 (n.toNat % 8) u (n.toNat % 8) (by rw [b2, b3]; unfold apart at *; omega) (by omega)
    rw [c1, b1, b2, b3]
    have r0 : d + ((n.toNat / 8 / 8 * 64 : Nat) : Int) + ((n.toNat / 8 % 8 * 8 : Nat) : Int) = d + ((n.toNat / 8 / 8 * 64 + n.toNat / 8 % 8 * 8 : Nat) : Int) := by omega
    have r1 : s + ((n.toNat / 8 / 8 * 64 : Nat) : Int) + ((n.toNat / 8 % 8 * 8 : Nat) : Int) = s + ((n.toNat / 8 / 8 * 64 + n.toNat / 8 % 8 * 8 : Nat) : Int) := by omega
    rw [r0, r1, copied_comp h (by omega)]
    congr 1; omega

/-- 141 bytes: two rounds of 64, one of 8, five single bytes. -/
example (reg : Nat → Nat → Byte) (m : Mem) : fastMemcpy reg m 1000 5000 141 1140 = m 5140 ∧ fastMemcpy reg m 1000 5000 141 1141 = m 1141 := by
  rw [C106_memcpy reg m 1000 5000 141 (by decide) (by unfold apart; decide)]
  exact ⟨rfl, rfl⟩

/-- **C106.** `memcpy_aligned` ends and copies `n` bytes and no other, if `n` is a multiple of 16. -/
theorem C106_memcpy_aligned (fuel : Nat) (reg : Nat → Nat → Byte) (m : Mem) (d s : Int) (n : BitVec 64) (hn : n.toNat < 2 ^ 31)
    (h16 : n.toNat % 16 = 0) (hf : n.toNat ≤ 32 * fuel) (h : apart d s n.toNat) :
    memcpyAligned fuel reg m d s n = some (copied m d s n.toNat) := by
  have e : alignedLen n.toNat = n.toNat := if_pos h16
  have hd : d + (n.toNat : Int) - (n.toNat : Int) = d := by omega
  have hs : s + (n.toNat : Int) - (n.toNat : Int) = s := by omega
  have := memcpyAligned_eq fuel reg m d s n hn hf (by rw [e, hd, hs]; exact h)
  rwa [e, hd, hs] at this

example (reg : Nat → Nat → Byte) (m : Mem) : memcpyAligned 3 reg m 1000 2000 80 = some (copied m 1000 2000 80) :=
  C106_memcpy_aligned 3 reg m 1000 2000 80 (by decide) (by decide) (by decide) (by unfold apart; decide)

/-- For every other size it writes 32 - n % 16 bytes in front of the destination too: the byte before it gets the byte before the source. -/
theorem C106_aligned_needs16 (fuel : Nat) (reg : Nat → Nat → Byte) (m : Mem) (d s : Int) (n : BitVec 64) (hn : n.toNat < 2 ^ 31)
    (h16 : n.toNat % 16 ≠ 0) (hf : n.toNat ≤ 32 * fuel) (h : apart d s (n.toNat + 32)) :
    ∃ m', memcpyAligned fuel reg m d s n = some m' ∧
      (∀ i : Nat, i < 32 - n.toNat % 16 → m' (d - 1 - i) = m (s - 1 - i)) ∧ ∀ i : Nat, i < n.toNat → m' (d + i) = m (s + i) := by
  have e : alignedLen n.toNat = n.toNat - n.toNat % 16 + 32 := if_neg h16
  refine ⟨_, memcpyAligned_eq fuel reg m d s n hn hf (by unfold apart at *; omega), ?_, ?_⟩
  · intro i hi
    simp only [copied]
    rw [if_pos (by omega)]; congr 1; omega
  · intro i hi
    simp only [copied]
    rw [if_pos (by omega)]; congr 1; omega

/-- 24 bytes: the byte before the destination is overwritten. -/
example : ∃ m', memcpyAligned 1 (fun _ _ => 0) (fun a => if a < 4000 then 0 else 9) 1000 5000 24 = some m' ∧ m' 999 = 9 ∧ m' 976 = 9 ∧ m' 975 = 0 :=
  ⟨_, rfl, by decide, by decide, by decide⟩

/-- **C106.** The rows copied above and below a picture (frame.cc:125, 135): one whole stride of samples of `b` = 1 or 2 bytes, to the row before or after. -/
theorem C106_stride (d : FrameDims) (b : Nat) (stride : Nat) (hst : stride = d.strideL ∨ stride = d.strideC)
    (hn : stride * b < 2 ^ 31) (reg : Nat → Nat → Byte) (m : Mem) (pix : Int) :
    memcpyAligned (stride * b) reg m (pix - (stride * b : Nat)) pix (BitVec.ofNat 64 (stride * b)) = some (copied m (pix - (stride * b : Nat)) pix (stride * b)) ∧
    memcpyAligned (stride * b) reg m (pix + (stride * b : Nat)) pix (BitVec.ofNat 64 (stride * b)) = some (copied m (pix + (stride * b : Nat)) pix (stride * b)) := by
  have h32 : stride % 32 = 0 := by
    rcases hst with rfl | rfl
    · exact (alignStride_spec _).2.2
    · exact (alignStride_spec _).2.2
  have h16 : stride * b % 16 = 0 := by
    obtain ⟨k, hk⟩ := Nat.dvd_of_mod_eq_zero h32
    rw [hk, Nat.mul_assoc, show 32 * (k * b) = 16 * (2 * (k * b)) by omega]; exact Nat.mul_mod_right _ _
  have e : (BitVec.ofNat 64 (stride * b)).toNat = stride * b := by rw [BitVec.toNat_ofNat]; omega
  constructor
  · have := C106_memcpy_aligned (stride * b) reg m (pix - (stride * b : Nat)) pix (BitVec.ofNat 64 (stride * b)) (by rw [e]; exact hn)
      (by rw [e]; exact h16) (by rw [e]; omega) (by rw [e]; left; omega)
    rwa [e] at this
  · have := C106_memcpy_aligned (stride * b) reg m (pix + (stride * b : Nat)) pix (BitVec.ofNat 64 (stride * b)) (by rw [e]; exact hn)
      (by rw [e]; exact h16) (by rw [e]; omega) (by rw [e]; right; omega)
    rwa [e] at this

theorem guarded_set8 (c : BitVec 64) (s : St) (v : Byte) (h : c ≠ 0 → s.reg 0 = fun _ => v) :
    guarded set8 c s = ⟨filled s.mem s.r0 (c.toNat * 8) v, s.r0 + (c.toNat * 8 : Nat), s.r1, s.reg⟩ := by
  by_cases h0 : c = 0
  · subst h0
    change s = _
    have : filled s.mem s.r0 ((0 : BitVec 64).toNat * 8) v = s.mem := filled_zero ..
    rw [this]; simp
  · rw [guarded_eq]; exact set_iter set8_run _ s (h h0)

/-- What the two loops leave. -/
theorem fill_eq (reg : Nat → Nat → Byte) (m : Mem) (d : Int) (n : BitVec 64) (hn : n.toNat < 2 ^ 63) (v w : Byte) :
    (guarded set1 (n &&& 7) { guarded set8 (n.sshiftRight 3) ⟨m, d, 0, if n.sshiftRight 3 = 0 then reg else fun k => if k = 0 then fun _ => v else reg k⟩ with
      reg := fun k => if k = 1 then fun _ => w else (guarded set8 (n.sshiftRight 3) ⟨m, d, 0, if n.sshiftRight 3 = 0 then reg else fun k => if k = 0 then fun _ => v else reg k⟩).reg k }).mem =
    filled (filled m d (n.toNat / 8 * 8) v) (d + (n.toNat / 8 * 8 : Nat)) (n.toNat % 8) w := by
  rw [guarded_set8 _ _ v (fun h => by simp only [if_neg h]; rfl), guarded_eq, set_iter set1_run (v := w) _ _ (by rfl), and7, sar3 hn]
  simp only [Nat.mul_one]

/-- **C106.** `fast_memzero` clears `n` bytes and changes no other. -/
theorem C106_memzero (reg : Nat → Nat → Byte) (m : Mem) (d : Int) (n : BitVec 64) (hn : n.toNat < 2 ^ 63) :
    fastMemzero reg m d n = filled m d n.toNat 0 := by
  unfold fastMemzero
  by_cases h0 : n = 0
  · subst h0; exact (filled_zero m d 0).symm
  · rw [if_neg h0]
    refine (fill_eq reg m d n hn 0 0).trans ?_
    rw [filled_comp]; congr 1; omega

example (reg : Nat → Nat → Byte) (m : Mem) : fastMemzero reg m 1000 21 1020 = 0 ∧ fastMemzero reg m 1000 21 1021 = m 1021 := by
  rw [C106_memzero reg m 1000 21 (by decide)]; exact ⟨rfl, rfl⟩

/-- **C106, in part.** `fast_memset` gives what `memset` gives for values from -128 to 127.  Missing: 128 to 255, where it does not. -/
theorem C106_memset_partial (reg : Nat → Nat → Byte) (m : Mem) (d : Int) (val : Int) (hv : -128 ≤ val ∧ val ≤ 127) (n : BitVec 64) (hn : n.toNat < 2 ^ 63) :
    fastMemset reg m d (BitVec.ofInt 32 val) n = filled m d n.toNat (BitVec.ofInt 8 val) := by
  have hw : (BitVec.ofInt 32 val).setWidth 8 = BitVec.ofInt 8 val := by
    apply BitVec.eq_of_toNat_eq
    rw [BitVec.toNat_setWidth, BitVec.toNat_ofInt, BitVec.toNat_ofInt]; omega
  have hi : ((BitVec.ofInt 32 val).setWidth 16).toInt = val := by
    have : (BitVec.ofInt 32 val).setWidth 16 = BitVec.ofInt 16 val := by
      apply BitVec.eq_of_toNat_eq
      rw [BitVec.toNat_setWidth, BitVec.toNat_ofInt, BitVec.toNat_ofInt]; omega
    rw [this, BitVec.toInt_ofInt_eq_self] <;> omega
  have hp : packByte (BitVec.ofInt 32 val) = BitVec.ofInt 8 val := by
    unfold packByte; rw [hi]; congr 1; omega
  unfold fastMemset
  by_cases h0 : n = 0
  · subst h0; exact (filled_zero m d _).symm
  · rw [if_neg h0]
    refine (fill_eq reg m d n hn _ _).trans ?_
    rw [hw, hp, filled_comp]; congr 1; omega

example (reg : Nat → Nat → Byte) (m : Mem) : fastMemset reg m 1000 (BitVec.ofInt 32 (-3)) 21 = filled m 1000 21 (BitVec.ofInt 8 (-3)) :=
  C106_memset_partial reg m 1000 (-3) (by decide) 21 (by decide)

/-- **C106 fails** for the values from 128 to 255 and 8 bytes or more: the first byte becomes 127. -/
theorem C106_memset_violated (reg : Nat → Nat → Byte) (m : Mem) (d : Int) (val : Nat) (hv : 128 ≤ val ∧ val ≤ 255) (n : BitVec 64) (h8 : 8 ≤ n.toNat) (hn : n.toNat < 2 ^ 63) :
    fastMemset reg m d (BitVec.ofNat 32 val) n d = 127 ∧ filled m d n.toNat (BitVec.ofNat 8 val) d = BitVec.ofNat 8 val ∧ BitVec.ofNat 8 val ≠ 127 := by
  have hi : ((BitVec.ofNat 32 val).setWidth 16).toInt = val := by
    rw [BitVec.toInt_eq_toNat_of_lt] <;> rw [BitVec.toNat_setWidth, BitVec.toNat_ofNat] <;> omega
  have hp : packByte (BitVec.ofNat 32 val) = 127 := by
    unfold packByte; rw [hi, show max (-128) (min 127 (val : Int)) = 127 by omega]; rfl
  refine ⟨?_, ?_, ?_⟩
  · unfold fastMemset
    rw [if_neg (by rintro rfl; simp at h8)]
    refine (congrFun (fill_eq reg m d n hn _ _) d).trans ?_
    simp only [filled]
    rw [if_neg (by omega), if_pos (by omega)]; exact hp
  · simp only [filled]; rw [if_pos (by omega)]
  · intro e
    have := congrArg BitVec.toNat e
    rw [BitVec.toNat_ofNat] at this
    change val % 256 = 127 at this; omega

example : fastMemset (fun _ _ => 0) (fun _ => 0) 0 128 8 0 = 127 :=
  (C106_memset_violated (fun _ _ => 0) (fun _ => 0) 0 128 (by decide) 8 (by decide) (by decide)).1

end Davs2.Ma
