import Verif.Model.MemAsm
import Verif.Spec.MemCopy
import Mathlib.Tactic.SplitIfs
import Mathlib.Data.Nat.Bitwise
/- Lemmas for C106: straight-line bodies, loops, counters. -/
namespace Davs2.Ma
open Davs2.MemSpec

/-- A body that copies `w` bytes and moves both pointers by `w`. -/
def Copies (p : List I) (w : Nat) : Prop :=
  ∀ s, (exec p s).mem = copied s.mem s.r0 s.r1 w ∧ (exec p s).r0 = s.r0 + w ∧ (exec p s).r1 = s.r1 + w

theorem copied_comp {m : Mem} {d s : Int} {n k N : Nat} (h : apart d s N) (hN : n + k ≤ N) :
    copied (copied m d s n) (d + n) (s + n) k = copied m d s (n + k) := by
  funext a
  unfold apart at h
  simp only [copied, Int.natCast_add]
  split_ifs <;> first | omega | rfl | (congr 1; omega)

theorem copied_comp_back {m : Mem} {d s : Int} {n k N : Nat} (h : apart d s N) (hN : n + k ≤ N) :
    copied (copied m (d + n) (s + n) k) d s n = copied m d s (n + k) := by
  funext a
  unfold apart at h
  simp only [copied, Int.natCast_add]
  split_ifs <;> first | omega | rfl | (congr 1; omega)

theorem copied_zero (m : Mem) (d s : Int) : copied m d s 0 = m := by
  funext a; simp only [copied]; split_ifs <;> first | omega | rfl

theorem exec_append (p q : List I) (s : St) : exec (p ++ q) s = exec q (exec p s) := List.foldl_append ..

theorem loads_run (k : Nat) (s : St) :
    (exec ((List.range k).map fun i : Nat => I.ld 8 i (8 * i)) s).mem = s.mem ∧
    (exec ((List.range k).map fun i : Nat => I.ld 8 i (8 * i)) s).r0 = s.r0 ∧
    (exec ((List.range k).map fun i : Nat => I.ld 8 i (8 * i)) s).r1 = s.r1 ∧
    ∀ i < k, ∀ j < 8, (exec ((List.range k).map fun i : Nat => I.ld 8 i (8 * i)) s).reg i j = s.mem (s.r1 + 8 * i + j) := by
  induction k with
  | zero => exact ⟨rfl, rfl, rfl, fun i h => by omega⟩
  | succ k ih =>
    obtain ⟨h1, h2, h3, h4⟩ := ih
    rw [List.range_succ, List.map_append, exec_append]
    refine ⟨h1, h2, h3, ?_⟩
    intro i hi j hj
    simp only [List.map_cons, List.map_nil, exec, List.foldl_cons, List.foldl_nil, I.run] at h1 h3 h4 ⊢
    by_cases e : i = k
    · subst e; rw [if_pos rfl, if_pos hj, h1, h3]
    · rw [if_neg e]; exact h4 i (by omega) j hj

theorem stores_run (k : Nat) (s : St) (m : Mem) (src : Int) (h : ∀ i < k, ∀ j < 8, s.reg i j = m (src + 8 * i + j)) (hm : s.mem = m) :
    (exec ((List.range k).map fun i : Nat => I.st 8 (8 * i) i) s).mem = copied m s.r0 src (8 * k) ∧
    (exec ((List.range k).map fun i : Nat => I.st 8 (8 * i) i) s).r0 = s.r0 ∧
    (exec ((List.range k).map fun i : Nat => I.st 8 (8 * i) i) s).r1 = s.r1 ∧
    (exec ((List.range k).map fun i : Nat => I.st 8 (8 * i) i) s).reg = s.reg := by
  induction k with
  | zero => exact ⟨by rw [Nat.mul_zero, copied_zero]; exact hm, rfl, rfl, rfl⟩
  | succ k ih =>
    obtain ⟨h1, h2, h3, h4⟩ := ih (fun i hi => h i (by omega))
    rw [List.range_succ, List.map_append, exec_append]
    generalize exec ((List.range k).map fun i : Nat => I.st 8 (8 * i) i) s = t at *
    refine ⟨?_, h2, h3, h4⟩
    funext a
    simp only [List.map_cons, List.map_nil, exec, List.foldl_cons, List.foldl_nil, I.run]
    rw [h1, h2, h4]
    simp only [copied]
    by_cases c : s.r0 + 8 * (k : Int) ≤ a ∧ a < s.r0 + 8 * (k : Int) + (8 : Nat)
    · rw [if_pos c, if_pos (by omega), h k (by omega) _ (by omega)]
      congr 1; omega
    · rw [if_neg c]
      split_ifs <;> first | omega | rfl

theorem copies64 : Copies copy64 64 := by
  intro s
  have e : copy64 = (((List.range 8).map fun i : Nat => I.ld 8 i (8 * i)) ++ (List.range 8).map fun i : Nat => I.st 8 (8 * i) i) ++ [.add1 64, .add0 64] := rfl
  rw [e, exec_append, exec_append]
  obtain ⟨h1, h2, h3, h4⟩ := loads_run 8 s
  generalize exec ((List.range 8).map fun i : Nat => I.ld 8 i (8 * i)) s = t at *
  obtain ⟨g1, g2, g3, g4⟩ := stores_run 8 t s.mem s.r1 h4 h1
  generalize exec ((List.range 8).map fun i : Nat => I.st 8 (8 * i) i) t = u at *
  refine ⟨?_, ?_, ?_⟩
  · change u.mem = _; rw [g1, h2]
  · change u.r0 + 64 = _; rw [g2, h2]; rfl
  · change u.r1 + 64 = _; rw [g3, h3]; rfl

theorem copies8 : Copies copy8 8 := by
  intro s
  refine ⟨?_, rfl, rfl⟩
  funext a
  simp [exec, copy8, I.run, copied]
  split_ifs <;> first | omega | rfl | (congr 1; omega)

theorem copies1 : Copies copy1 1 := by
  intro s
  refine ⟨?_, rfl, rfl⟩
  funext a
  simp [exec, copy1, I.run, copied]
  split_ifs <;> first | omega | rfl | (congr 1; omega)

theorem iter_copies {p : List I} {w : Nat} (hp : Copies p w) (c : Nat) :
    ∀ s N, apart s.r0 s.r1 N → c * w ≤ N →
      (((exec p)^[c]) s).mem = copied s.mem s.r0 s.r1 (c * w) ∧
      (((exec p)^[c]) s).r0 = s.r0 + (c * w : Nat) ∧ (((exec p)^[c]) s).r1 = s.r1 + (c * w : Nat) := by
  induction c with
  | zero => intro s N _ _; simp [copied_zero]
  | succ c ih =>
    intro s N h hN
    rw [Function.iterate_succ_apply']
    rw [Nat.succ_mul] at hN ⊢
    obtain ⟨i1, i2, i3⟩ := ih s N h (by omega)
    obtain ⟨j1, j2, j3⟩ := hp (((exec p)^[c]) s)
    refine ⟨?_, ?_, ?_⟩
    · rw [j1, i1, i2, i3]; exact copied_comp h hN
    · rw [j2, i2]; push_cast; omega
    · rw [j3, i3]; push_cast; omega

theorem guarded_eq (p : List I) (c : BitVec 64) (s : St) : guarded p c s = ((exec p)^[c.toNat]) s := by
  unfold guarded loop
  by_cases h : c = 0
  · subst h; rfl
  · simp only [h, if_false]

theorem sar3 {x : BitVec 64} (h : x.toNat < 2 ^ 63) : (x.sshiftRight 3).toNat = x.toNat / 8 := by
  rw [BitVec.sshiftRight_eq_of_msb_false]
  · rw [BitVec.toNat_ushiftRight, Nat.shiftRight_eq_div_pow]
  · rw [BitVec.msb_eq_false_iff_two_mul_lt]; omega

theorem and7 (x : BitVec 64) : (x &&& 7).toNat = x.toNat % 8 := by
  rw [BitVec.toNat_and]; exact Nat.and_two_pow_sub_one_eq_mod x.toNat 3

/-! ### memcpy_aligned -/

theorem aligned_body4 (s : St) (r : Int) :
    (exec (alignedBody 4 r) s).mem = copied s.mem (s.r0 + r - 32) (s.r1 + r - 32) 32 ∧
    (exec (alignedBody 4 r) s).r0 = s.r0 ∧ (exec (alignedBody 4 r) s).r1 = s.r1 := by
  refine ⟨?_, rfl, rfl⟩
  funext a
  simp [exec, alignedBody, List.range_succ, I.run, copied]
  split_ifs <;> first | omega | rfl | (congr 1; omega)

theorem aligned_body2 (s : St) (r : Int) :
    (exec (alignedBody 2 r) s).mem = copied s.mem (s.r0 + r - 16) (s.r1 + r - 16) 16 ∧
    (exec (alignedBody 2 r) s).r0 = s.r0 ∧ (exec (alignedBody 2 r) s).r1 = s.r1 := by
  refine ⟨?_, rfl, rfl⟩
  funext a
  simp [exec, alignedBody, List.range_succ, I.run, copied]
  split_ifs <;> first | omega | rfl | (congr 1; omega)

theorem low32 {r : BitVec 64} (h : r.toNat < 2 ^ 31) : (r.setWidth 32).toNat = r.toNat := by
  rw [BitVec.toNat_setWidth]; omega

theorem low32_int {r : BitVec 64} (h : r.toNat < 2 ^ 31) : (r.setWidth 32).toInt = r.toNat := by
  rw [BitVec.toInt_eq_toNat_of_lt] <;> rw [low32 h]; omega

theorem sub32_nat {r : BitVec 64} {k : BitVec 32} (h : r.toNat < 2 ^ 31) (hk : k.toNat ≤ r.toNat) :
    (sub32 r k).toNat = r.toNat - k.toNat := by
  unfold sub32
  rw [BitVec.toNat_setWidth, BitVec.toNat_sub_of_le]
  · rw [low32 h]; omega
  · rw [BitVec.le_def, low32 h]; exact hk

/-- Number of bytes the loop copies when `r` are left. -/
def up32 (r : Nat) : Nat := (r + 31) / 32 * 32

theorem copy4_eq (fuel : Nat) : ∀ (r : BitVec 64) (s : St) (N : Nat), 0 < r.toNat → r.toNat < 2 ^ 31 → r.toNat ≤ 32 * fuel →
    up32 r.toNat ≤ N → apart (s.r0 + r.toNat - up32 r.toNat) (s.r1 + r.toNat - up32 r.toNat) N →
    (copy4 fuel r s).map (·.mem) =
      some (copied s.mem (s.r0 + r.toNat - up32 r.toNat) (s.r1 + r.toNat - up32 r.toNat) (up32 r.toNat)) := by
  induction fuel with
  | zero => intro r s N h1 _ h3; omega
  | succ fuel ih =>
    intro r s N h1 h2 h3 h4 h5
    obtain ⟨j1, j2, j3⟩ := aligned_body4 s r.toNat
    simp only [copy4]
    rw [low32_int h2]
    by_cases hc : (32 : Int) < r.toNat
    · rw [if_pos hc]
      have hs : (sub32 r 32).toNat = r.toNat - 32 := sub32_nat h2 (by change 32 ≤ _; omega)
      have hu : up32 r.toNat = up32 (r.toNat - 32) + 32 := by unfold up32; omega
      have hd : s.r0 + ((r.toNat - 32 : Nat) : Int) - up32 (r.toNat - 32) = s.r0 + r.toNat - up32 r.toNat := by omega
      have he : s.r1 + ((r.toNat - 32 : Nat) : Int) - up32 (r.toNat - 32) = s.r1 + r.toNat - up32 r.toNat := by omega
      have := ih (sub32 r 32) (exec (alignedBody 4 r.toNat) s) N (by omega) (by omega) (by omega) (by rw [hs]; omega)
        (by rw [hs, j2, j3, hd, he]; exact h5)
      rw [this, hs, j1, j2, j3, hd, he]
      have hx := copied_comp_back (m := s.mem) (k := 32) (n := up32 (r.toNat - 32)) h5 (by omega)
      rw [← hu] at hx
      rw [← hx]
      congr 3 <;> omega
    · rw [if_neg hc]
      have hu : up32 r.toNat = 32 := by unfold up32; omega
      rw [hu, Option.map_some, j1]; rfl

/-- Bytes `memcpy_aligned` copies. -/
def alignedLen (n : Nat) : Nat := if n % 16 = 0 then n else n - n % 16 + 32

theorem and16 (x : BitVec 32) : (x &&& 16#32 = 0) ↔ x.toNat % 32 < 16 := by
  rw [BitVec.toNat_eq.trans Iff.rfl, BitVec.toNat_and]
  change x.toNat &&& 2 ^ 4 = 0 ↔ _
  rw [Nat.and_two_pow, Nat.testBit_eq_decide_div_mod_eq]
  by_cases h : x.toNat / 2 ^ 4 % 2 = 1 <;> simp <;> omega

theorem memcpyAligned_eq (fuel : Nat) (reg : Nat → Nat → Byte) (m : Mem) (d s : Int) (n : BitVec 64) (hn : n.toNat < 2 ^ 31)
    (hf : n.toNat ≤ 32 * fuel)
    (h : apart (d + n.toNat - alignedLen n.toNat) (s + n.toNat - alignedLen n.toNat) (alignedLen n.toNat)) :
    memcpyAligned fuel reg m d s n =
      some (copied m (d + n.toNat - alignedLen n.toNat) (s + n.toNat - alignedLen n.toNat) (alignedLen n.toNat)) := by
  unfold memcpyAligned
  simp only [and16, low32 hn]
  by_cases hc : n.toNat % 32 < 16
  · simp only [if_pos hc]
    by_cases h0 : n.setWidth 32 = 0#32
    · have : n.toNat = 0 := by rw [← low32 hn, h0]; rfl
      rw [if_pos h0, this]
      exact congrArg some (copied_zero _ _ _).symm
    · have hz : n.toNat ≠ 0 := fun e => h0 (by apply BitVec.eq_of_toNat_eq; rw [low32 hn, e]; rfl)
      rw [if_neg h0]
      have hu : up32 n.toNat = alignedLen n.toNat := by unfold up32 alignedLen; split_ifs <;> omega
      rw [← hu] at h ⊢
      exact copy4_eq fuel n ⟨m, d, s, reg⟩ _ (by omega) hn hf (Nat.le_refl _) h
  · simp only [if_neg hc]
    have hs : (sub32 n 16).toNat = n.toNat - 16 := sub32_nat hn (by change 16 ≤ _; omega)
    obtain ⟨j1, j2, j3⟩ := aligned_body2 ⟨m, d, s, reg⟩ n.toNat
    by_cases h0 : (sub32 n 16).setWidth 32 = 0#32
    · have : n.toNat = 16 := by
        have := low32 (r := sub32 n 16) (by omega)
        rw [h0, hs] at this; change 0 = _ at this; omega
      rw [if_pos h0, j1]
      have ha : alignedLen n.toNat = 16 := by rw [this]; rfl
      rw [ha]; rfl
    · have hz : (sub32 n 16).toNat ≠ 0 := fun e => h0 (by
        apply BitVec.eq_of_toNat_eq; rw [low32 (by omega), e]; rfl)
      rw [if_neg h0]
      have hu : alignedLen n.toNat = up32 (n.toNat - 16) + 16 := by unfold up32 alignedLen; split_ifs <;> omega
      have hd : d + ((n.toNat - 16 : Nat) : Int) - up32 (n.toNat - 16) = d + n.toNat - alignedLen n.toNat := by omega
      have he : s + ((n.toNat - 16 : Nat) : Int) - up32 (n.toNat - 16) = s + n.toNat - alignedLen n.toNat := by omega
      have := copy4_eq fuel (sub32 n 16) (exec (alignedBody 2 n.toNat) ⟨m, d, s, reg⟩) (alignedLen n.toNat) (by omega) (by omega)
        (by omega) (by rw [hs]; omega) (by rw [hs, j2, j3]; simp only [hd, he]; exact h)
      rw [this, hs, j1, j2, j3]
      simp only [hd, he]
      have hx := copied_comp_back (m := m) (k := 16) (n := up32 (n.toNat - 16)) h (by omega)
      rw [← hu] at hx
      rw [← hx]
      congr 3 <;> omega

/-! ### filling -/

theorem set_iter {p : List I} {w k : Nat} {v : Byte} (hp : ∀ s : St, exec p s = ⟨fun a => if s.r0 ≤ a ∧ a < s.r0 + w then s.reg k (a - s.r0).toNat else s.mem a, s.r0 + w, s.r1, s.reg⟩)
    (c : Nat) : ∀ s : St, s.reg k = (fun _ => v) → ((exec p)^[c]) s = ⟨filled s.mem s.r0 (c * w) v, s.r0 + (c * w : Nat), s.r1, s.reg⟩ := by
  induction c with
  | zero =>
    intro s _
    have : filled s.mem s.r0 (0 * w) v = s.mem := by
      funext a; simp only [filled, Nat.zero_mul]; split_ifs <;> first | omega | rfl
    rw [this]; simp
  | succ c ih =>
    intro s h
    rw [Function.iterate_succ_apply', ih s h, hp]
    simp only [h, Nat.succ_mul]
    congr 1
    · funext a
      simp only [filled, Int.natCast_add]
      split_ifs <;> first | omega | rfl
    · push_cast; omega

theorem set8_run (s : St) : exec set8 s = ⟨fun a => if s.r0 ≤ a ∧ a < s.r0 + (8 : Nat) then s.reg 0 (a - s.r0).toNat else s.mem a, s.r0 + (8 : Nat), s.r1, s.reg⟩ := by
  simp [exec, set8, I.run]

theorem set1_run (s : St) : exec set1 s = ⟨fun a => if s.r0 ≤ a ∧ a < s.r0 + (1 : Nat) then s.reg 1 (a - s.r0).toNat else s.mem a, s.r0 + (1 : Nat), s.r1, s.reg⟩ := by
  simp [exec, set1, I.run]

theorem filled_comp (m : Mem) (d : Int) (n k : Nat) (v : Byte) : filled (filled m d n v) (d + n) k v = filled m d (n + k) v := by
  funext a
  simp only [filled, Int.natCast_add]
  split_ifs <;> first | omega | rfl

theorem filled_zero (m : Mem) (d : Int) (v : Byte) : filled m d 0 v = m := by
  funext a; simp only [filled]; split_ifs <;> first | omega | rfl

end Davs2.Ma
