import Verif.Lemmas.AsmIdct
import Verif.Lemmas.SimdTabs
/-
The programs of Model/AsmIdct.lean pass the check; the rows of the second pass with SSSE3.
-/
namespace Davs2.Si

open Davs2.Vc Davs2.Spec Finset

theorem asm_4x4_check : checkHalf (mkCx 4 4 4 4 0 tab_4_4_16 tab_4_4_2048) asm_4x4 = true := by decide +kernel

theorem asm_4x4_raw : Raw 4 4 fun s => (exec asm_4x4 s).mem :=
  raw_of_check (by decide) (by decide) tab_4_4_16_ok tab_4_4_2048_ok (by decide) asm_4x4_check (by decide +kernel) (by decide +kernel) (by decide +kernel)

theorem asm_8x8_sse2_check : checkHalf (mkCx 8 8 8 8 0 tab_8_8_16 tab_8_8_2048) asm_8x8_sse2 = true := by decide +kernel

theorem asm_8x8_sse2_raw : Raw 8 8 fun s => (exec asm_8x8_sse2 s).mem :=
  raw_of_check (by decide) (by decide) tab_8_8_16_ok tab_8_8_2048_ok (by decide) asm_8x8_sse2_check (by decide +kernel) (by decide +kernel) (by decide +kernel)

/-! ### First pass with SSSE3 -/

/-- Four lanes with results of the first pass: row `y`, columns from `x` on. -/
def goodRow (y x : Nat) : Option AV → Bool
  | some (.h [o]) => Nat.beq o.f 0 && Nat.beq o.c0 (64 * (64 + y) + (x + 1)) && Nat.beq o.c1 (64 * (64 + y) + (x + 1 + 1)) &&
      Nat.beq o.c2 (64 * (64 + y) + (x + 2 + 1)) && Nat.beq o.c3 (64 * (64 + y) + (x + 3 + 1))
  | _ => false

noncomputable def allRow (m : Tr AV) : Nat → Bool
  | 0 => true
  | k + 1 => goodRow (Nat.div k 2) (4 * Nat.mod k 2) (m.get (Nat.add 16 k)) && allRow m k

noncomputable def checkPass1 (cx : Cx) (p : List S) : Bool :=
  match absExec cx (p.map S.nf) ⟨.e, initMem cx.w (Nat.div cx.n 8)⟩ with
  | none => false
  | some s => allRow s.reg 16

theorem allRow_get {m : Tr AV} : ∀ {n : Nat}, allRow m n = true → ∀ k < n, goodRow (k / 2) (4 * (k % 2)) (m.get (16 + k)) = true := by
  intro n
  induction n with
  | zero => intro _ k hk; omega
  | succ n ih =>
    intro h k hk
    simp only [allRow, Bool.and_eq_true] at h
    by_cases hq : k = n
    · subst hq; exact h.1
    · exact ih h.2 k (by omega)

theorem pass1_check : checkPass1 (mkCx 8 8 8 8 0 tab_8_8_16 tab_8_8_2048) (ssse3Pass1 0 ++ ssse3Pass1 1) = true := by decide +kernel

theorem pass1_mem (p : List S) (hp : (p.all fun | .set _ _ => true | _ => false) = true) (s : St) : (exec p s).mem = s.mem := by
  induction p generalizing s with
  | nil => rfl
  | cons i p ih =>
    rw [List.all_cons, Bool.and_eq_true] at hp
    show (exec p (i.run s)).mem = s.mem
    rw [ih hp.2]
    cases i with
    | set r e => rfl
    | st n off e => simp at hp
    | st2 hi lo e => simp at hp

/-- After the first pass the halves of the temporary array hold its results. -/
theorem pass1_reg {c : Nat → Int} {s : St} (hc : ∀ a < 8 * 8, -32768 ≤ c a ∧ c a ≤ 32767) (hs : ∀ a < 8 * 8, s.mem a = c a) :
    ∀ y < 8, ∀ x < 8, w16 (unpacklo64y ((exec (ssse3Pass1 0 ++ ssse3Pass1 1) s).reg (16 + 2 * y)) ((exec (ssse3Pass1 0 ++ ssse3Pass1 1) s).reg (17 + 2 * y))) x =
      invVert 8 8 c y x := by
  have ok := vals_ok (w := 8) (h := 8) (by decide) (by decide) (show 0 ≤ 1 by omega) (le_refl 8) (le_refl 8) tab_8_8_16_ok tab_8_8_2048_ok hc
    (fun i hi j hj hh => by omega)
  have h := pass1_check
  unfold checkPass1 at h
  split at h
  · cases h
  · next t ht =>
    have R := (exec_sound ok (start (s := s) (by decide) (code_eq (by decide) (by decide) hs)) ht).1
    rw [exec_nf] at R
    have key : ∀ k < 16, ∀ j < 4, w16 ((exec (ssse3Pass1 0 ++ ssse3Pass1 1) s).reg (16 + k)) j = invVert 8 8 c (k / 2) (4 * (k % 2) + j) := by
      intro k hk j hj
      have g := allRow_get h k hk
      unfold goodRow at g
      split at g
      · next o ho =>
        simp only [Bool.and_eq_true] at g
        obtain ⟨⟨⟨⟨hf, h0⟩, h1⟩, h2⟩, h3⟩ := g
        have hv := R.reg _ _ ho 0 o rfl j (by omega)
        rw [Nat.mul_zero, Nat.zero_add, beq_eq hf] at hv
        rw [hv]
        show vals 8 8 0 c (o.lane j) = _
        have := lane4 (P := fun j => o.lane j = 64 * (64 + k / 2) + (4 * (k % 2) + j + 1)) (beq_eq h0) (beq_eq h1) (beq_eq h2) (beq_eq h3) j hj
        rw [this, vals1 (by omega) (by omega), if_pos (by omega)]
      · cases g
    intro y hy x hx
    have e := w16_lo64 ((exec (ssse3Pass1 0 ++ ssse3Pass1 1) s).reg (16 + 2 * y)) ((exec (ssse3Pass1 0 ++ ssse3Pass1 1) s).reg (17 + 2 * y)) 0 x hx
    rw [Nat.mul_zero, Nat.zero_add] at e
    rw [e]
    by_cases hq : x < 4
    · rw [if_pos hq]
      have := key (2 * y) (by omega) x hq
      rw [show 2 * y / 2 = y by omega, show 4 * (2 * y % 2) + x = x by omega] at this
      simpa using this
    · rw [if_neg hq]
      have := key (2 * y + 1) (by omega) (x - 4) (by omega)
      rw [show (2 * y + 1) / 2 = y by omega, show 4 * ((2 * y + 1) % 2) + (x - 4) = x by omega, show 16 + (2 * y + 1) = 17 + 2 * y by omega] at this
      simpa using this

/-! ### Second pass with SSSE3 -/

theorem w16_shuf {v : V} {l : List Int} {i j : Nat} (h0 : (setr8 l (2 * i)) = BitVec.ofNat 8 (2 * j)) (h1 : (setr8 l (2 * i + 1)) = BitVec.ofNat 8 (2 * j + 1)) (hj : j < 8) :
    w16 (shuffle8 v (setr8 l)) i = w16 v j := by
  have hm : ∀ k < 16, (BitVec.ofNat 8 k).msb = false ∧ (BitVec.ofNat 8 k).toNat % 16 = k := by decide
  refine w16_bytes ?_ ?_
  · unfold shuffle8
    rw [h0, (hm _ (by omega)).1, (hm _ (by omega)).2]
    rfl
  · unfold shuffle8
    rw [h1, (hm _ (by omega)).1, (hm _ (by omega)).2]
    rfl

theorem d32_pshufd (imm : Nat) (a : V) (i : Nat) : d32 (pshufd imm a) i = d32 a (imm / 4 ^ i % 4) := by
  refine d32_bytes fun t ht => ?_
  unfold pshufd
  rw [show (4 * i + t) / 4 = i by omega, show (4 * i + t) % 4 = t by omega]

theorem wrap32_id {x : Int} (h : -2000000000 ≤ x ∧ x ≤ 2000000000) : wrap32 x = x := by unfold wrap32; omega

theorem d32_phaddd (a b : V) (i : Nat) : d32 (phaddd a b) i =
    wrap32 (if i < 2 then d32 a (2 * i) + d32 a (2 * i + 1) else d32 b (2 * (i - 2)) + d32 b (2 * (i - 2) + 1)) := d32_ofD _ _
theorem d32_phsubd (a b : V) (i : Nat) : d32 (phsubd a b) i =
    wrap32 (if i < 2 then d32 a (2 * i) - d32 a (2 * i + 1) else d32 b (2 * (i - 2)) - d32 b (2 * (i - 2) + 1)) := d32_ofD _ _

theorem d32_hi64 (a b : V) (i : Nat) (hi : i < 4) : d32 (unpackhi64y a b) i = if i < 2 then d32 a (2 + i) else d32 b i := by
  split
  · refine d32_bytes fun t ht => ?_
    unfold unpackhi64y
    rw [if_pos (by omega)]; congr 1; omega
  · refine d32_bytes fun t ht => ?_
    unfold unpackhi64y
    rw [if_neg (by omega)]; congr 1; omega

theorem d32_madd (a b : V) (i : Nat) : d32 (madd16 a b) i = wrap32 (w16 a (2 * i) * w16 b (2 * i) + w16 a (2 * i + 1) * w16 b (2 * i + 1)) := d32_ofD _ _
theorem d32_add (a b : V) (i : Nat) : d32 (add32 a b) i = wrap32 (d32 a i + d32 b i) := d32_ofD _ _
theorem d32_sub (a b : V) (i : Nat) : d32 (sub32 a b) i = wrap32 (d32 a i - d32 b i) := d32_ofD _ _

/-- Even part: the sums and differences of the lanes 0, 2, 4, 6, with the rounding. -/
theorem row_even {r : Nat → Int} (hr : ∀ j < 8, -32768 ≤ r j ∧ r j ≤ 32767) (m5 v : V) (hv : ∀ j < 8, w16 v j = r j) :
    let q := madd16 (shuffle8 v pbEven) tabIdct8_1
    let e := add32 (unpackhi64y (phaddd (pshufd 0x4E q) (pshufd 0x4E q)) (phsubd m5 q)) (set1_32 2048)
    d32 e 0 = 32 * r 0 + 42 * r 2 + 32 * r 4 + 17 * r 6 + 2048 ∧ d32 e 1 = 32 * r 0 + 17 * r 2 - 32 * r 4 - 42 * r 6 + 2048 ∧
    d32 e 2 = 32 * r 0 - 17 * r 2 - 32 * r 4 + 42 * r 6 + 2048 ∧ d32 e 3 = 32 * r 0 - 42 * r 2 + 32 * r 4 - 17 * r 6 + 2048 := by
  intro q e
  have r0 := hr 0 (by omega)
  have r2 := hr 2 (by omega)
  have r4 := hr 4 (by omega)
  have r6 := hr 6 (by omega)
  have s0 : w16 (shuffle8 v pbEven) 0 = r 0 := (w16_shuf (by decide) (by decide) (by omega)).trans (hv 0 (by omega))
  have s1 : w16 (shuffle8 v pbEven) 1 = r 4 := (w16_shuf (by decide) (by decide) (by omega)).trans (hv 4 (by omega))
  have s2 : w16 (shuffle8 v pbEven) 2 = r 2 := (w16_shuf (by decide) (by decide) (by omega)).trans (hv 2 (by omega))
  have s3 : w16 (shuffle8 v pbEven) 3 = r 6 := (w16_shuf (by decide) (by decide) (by omega)).trans (hv 6 (by omega))
  have s4 : w16 (shuffle8 v pbEven) 4 = r 0 := (w16_shuf (by decide) (by decide) (by omega)).trans (hv 0 (by omega))
  have s5 : w16 (shuffle8 v pbEven) 5 = r 4 := (w16_shuf (by decide) (by decide) (by omega)).trans (hv 4 (by omega))
  have s6 : w16 (shuffle8 v pbEven) 6 = r 2 := (w16_shuf (by decide) (by decide) (by omega)).trans (hv 2 (by omega))
  have s7 : w16 (shuffle8 v pbEven) 7 = r 6 := (w16_shuf (by decide) (by decide) (by omega)).trans (hv 6 (by omega))
  have t : ∀ i < 8, w16 tabIdct8_1 i = [32, -32, 17, -42, 32, 32, 42, 17].getD i 0 := by
    intro i hi
    unfold tabIdct8_1
    rw [w16_ofW]
    interval_cases i <;> decide
  have q0 : d32 q 0 = 32 * r 0 - 32 * r 4 := by
    rw [d32_madd, s0, s1, t 0 (by omega), t 1 (by omega)]; simp; rw [wrap32_id] <;> omega
  have q1 : d32 q 1 = 17 * r 2 - 42 * r 6 := by
    rw [d32_madd, s2, s3, t 2 (by omega), t 3 (by omega)]; simp; rw [wrap32_id] <;> omega
  have q2 : d32 q 2 = 32 * r 0 + 32 * r 4 := by
    rw [d32_madd, s4, s5, t 4 (by omega), t 5 (by omega)]; simp; rw [wrap32_id] <;> omega
  have q3 : d32 q 3 = 42 * r 2 + 17 * r 6 := by
    rw [d32_madd, s6, s7, t 6 (by omega), t 7 (by omega)]; simp; rw [wrap32_id] <;> omega
  have k : ∀ i, d32 (set1_32 2048) i = 2048 := by
    intro i
    unfold set1_32
    rw [d32_ofD]
    decide
  refine ⟨?_, ?_, ?_, ?_⟩
  · rw [d32_add, k, d32_hi64 _ _ 0 (by omega), if_pos (by omega), d32_phaddd, if_neg (by omega), d32_pshufd, d32_pshufd]
    show wrap32 (wrap32 (d32 q 2 + d32 q 3) + 2048) = _
    rw [q2, q3, wrap32_id (x := 32 * r 0 + 32 * r 4 + _) (by omega), wrap32_id] <;> omega
  · rw [d32_add, k, d32_hi64 _ _ 1 (by omega), if_pos (by omega), d32_phaddd, if_neg (by omega), d32_pshufd, d32_pshufd]
    show wrap32 (wrap32 (d32 q 0 + d32 q 1) + 2048) = _
    rw [q0, q1, wrap32_id (x := 32 * r 0 - 32 * r 4 + _) (by omega), wrap32_id] <;> omega
  · rw [d32_add, k, d32_hi64 _ _ 2 (by omega), if_neg (by omega), d32_phsubd, if_neg (by omega)]
    show wrap32 (wrap32 (d32 q 0 - d32 q 1) + 2048) = _
    rw [q0, q1, wrap32_id (x := 32 * r 0 - 32 * r 4 - _) (by omega), wrap32_id] <;> omega
  · rw [d32_add, k, d32_hi64 _ _ 3 (by omega), if_neg (by omega), d32_phsubd, if_neg (by omega)]
    show wrap32 (wrap32 (d32 q 2 - d32 q 3) + 2048) = _
    rw [q2, q3, wrap32_id (x := 32 * r 0 + 32 * r 4 - _) (by omega), wrap32_id] <;> omega

/-- Odd part. -/
theorem row_odd {r : Nat → Int} (hr : ∀ j < 8, -32768 ≤ r j ∧ r j ≤ 32767) (v : V) (hv : ∀ j < 8, w16 v j = r j) :
    let o := phaddd (madd16 (shuffle8 v pbOdd) tabIdct8_2a) (madd16 (shuffle8 v pbOdd) tabIdct8_2b)
    d32 o 0 = 44 * r 1 + 38 * r 3 + 25 * r 5 + 9 * r 7 ∧ d32 o 1 = 38 * r 1 - 9 * r 3 - 44 * r 5 - 25 * r 7 ∧
    d32 o 2 = 25 * r 1 - 44 * r 3 + 9 * r 5 + 38 * r 7 ∧ d32 o 3 = 9 * r 1 - 25 * r 3 + 38 * r 5 - 44 * r 7 := by
  intro o
  have r1 := hr 1 (by omega)
  have r3 := hr 3 (by omega)
  have r5 := hr 5 (by omega)
  have r7 := hr 7 (by omega)
  have s0 : w16 (shuffle8 v pbOdd) 0 = r 1 := (w16_shuf (by decide) (by decide) (by omega)).trans (hv 1 (by omega))
  have s1 : w16 (shuffle8 v pbOdd) 1 = r 3 := (w16_shuf (by decide) (by decide) (by omega)).trans (hv 3 (by omega))
  have s2 : w16 (shuffle8 v pbOdd) 2 = r 5 := (w16_shuf (by decide) (by decide) (by omega)).trans (hv 5 (by omega))
  have s3 : w16 (shuffle8 v pbOdd) 3 = r 7 := (w16_shuf (by decide) (by decide) (by omega)).trans (hv 7 (by omega))
  have s4 : w16 (shuffle8 v pbOdd) 4 = r 1 := (w16_shuf (by decide) (by decide) (by omega)).trans (hv 1 (by omega))
  have s5 : w16 (shuffle8 v pbOdd) 5 = r 3 := (w16_shuf (by decide) (by decide) (by omega)).trans (hv 3 (by omega))
  have s6 : w16 (shuffle8 v pbOdd) 6 = r 5 := (w16_shuf (by decide) (by decide) (by omega)).trans (hv 5 (by omega))
  have s7 : w16 (shuffle8 v pbOdd) 7 = r 7 := (w16_shuf (by decide) (by decide) (by omega)).trans (hv 7 (by omega))
  have ta : ∀ i < 8, w16 tabIdct8_2a i = [44, 38, 25, 9, 38, -9, -44, -25].getD i 0 := by
    intro i hi
    unfold tabIdct8_2a
    rw [w16_ofW]
    interval_cases i <;> decide
  have tb : ∀ i < 8, w16 tabIdct8_2b i = [25, -44, 9, 38, 9, -25, 38, -44].getD i 0 := by
    intro i hi
    unfold tabIdct8_2b
    rw [w16_ofW]
    interval_cases i <;> decide
  refine ⟨?_, ?_, ?_, ?_⟩
  · rw [d32_phaddd, if_pos (by omega), d32_madd, d32_madd, s0, s1, ta 0 (by omega), ta 1 (by omega), s2, s3, ta 2 (by omega), ta 3 (by omega)]
    simp only [List.getD_cons_zero, List.getD_cons_succ]
    rw [wrap32_id (x := r 1 * _ + _) (by omega), wrap32_id (x := r 5 * _ + _) (by omega), wrap32_id] <;> omega
  · rw [d32_phaddd, if_pos (by omega), d32_madd, d32_madd, s4, s5, ta 4 (by omega), ta 5 (by omega), s6, s7, ta 6 (by omega), ta 7 (by omega)]
    simp only [List.getD_cons_zero, List.getD_cons_succ]
    rw [wrap32_id (x := r 1 * _ + _) (by omega), wrap32_id (x := r 5 * _ + _) (by omega), wrap32_id] <;> omega
  · rw [d32_phaddd, if_neg (by omega), d32_madd, d32_madd, s0, s1, tb 0 (by omega), tb 1 (by omega), s2, s3, tb 2 (by omega), tb 3 (by omega)]
    simp only [List.getD_cons_zero, List.getD_cons_succ]
    rw [wrap32_id (x := r 1 * _ + _) (by omega), wrap32_id (x := r 5 * _ + _) (by omega), wrap32_id] <;> omega
  · rw [d32_phaddd, if_neg (by omega), d32_madd, d32_madd, s4, s5, tb 4 (by omega), tb 5 (by omega), s6, s7, tb 6 (by omega), tb 7 (by omega)]
    simp only [List.getD_cons_zero, List.getD_cons_succ]
    rw [wrap32_id (x := r 1 * _ + _) (by omega), wrap32_id (x := r 5 * _ + _) (by omega), wrap32_id] <;> omega

/-- One row of the second pass. -/
theorem row_eq {r : Nat → Int} (hr : ∀ j < 8, -32768 ≤ r j ∧ r j ≤ 32767) (m5 v : V) (hv : ∀ j < 8, w16 v j = r j) :
    ∀ x < 8, w16 (ssse3Row m5 v).2 x = sat16 (roundShift 12 (∑ j ∈ range 8, dctMat 8 j x * r j)) := by
  obtain ⟨e0, e1, e2, e3⟩ := row_even hr m5 v hv
  obtain ⟨o0, o1, o2, o3⟩ := row_odd hr v hv
  have r0 := hr 0 (by omega)
  have r1 := hr 1 (by omega)
  have r2 := hr 2 (by omega)
  have r3 := hr 3 (by omega)
  have r4 := hr 4 (by omega)
  have r5 := hr 5 (by omega)
  have r6 := hr 6 (by omega)
  have r7 := hr 7 (by omega)
  have hs : ∀ x, ∑ j ∈ range 8, dctMat 8 j x * r j = dctMat 8 0 x * r 0 + dctMat 8 1 x * r 1 + dctMat 8 2 x * r 2 + dctMat 8 3 x * r 3 +
      dctMat 8 4 x * r 4 + dctMat 8 5 x * r 5 + dctMat 8 6 x * r 6 + dctMat 8 7 x * r 7 := by
    intro x
    simp only [sum_range_succ, sum_range_zero, zero_add]
  have hm : ∀ x < 8, ∀ j < 8, dctMat 8 j x =
      ([[32, 32, 32, 32, 32, 32, 32, 32], [44, 38, 25, 9, -9, -25, -38, -44], [42, 17, -17, -42, -42, -17, 17, 42], [38, -9, -44, -25, 25, 44, 9, -38],
        [32, -32, -32, 32, 32, -32, -32, 32], [25, -44, 9, 38, -38, -9, 44, -25], [17, -42, 42, -17, -17, 42, -42, 17],
        [9, -25, 38, -44, 44, -38, 25, -9]].getD j []).getD x 0 := by decide +kernel
  intro x hx
  unfold ssse3Row
  dsimp only at e0 e1 e2 e3 o0 o1 o2 o3 ⊢
  generalize add32 (unpackhi64y (phaddd (pshufd 0x4E (madd16 (shuffle8 v pbEven) tabIdct8_1)) (pshufd 0x4E (madd16 (shuffle8 v pbEven) tabIdct8_1)))
    (phsubd m5 (madd16 (shuffle8 v pbEven) tabIdct8_1))) (set1_32 2048) = e at e0 e1 e2 e3 ⊢
  generalize phaddd (madd16 (shuffle8 v pbOdd) tabIdct8_2a) (madd16 (shuffle8 v pbOdd) tabIdct8_2b) = o at o0 o1 o2 o3 ⊢
  rw [w16_packsy, hs, hm x hx 0 (by omega), hm x hx 1 (by omega), hm x hx 2 (by omega), hm x hx 3 (by omega), hm x hx 4 (by omega), hm x hx 5 (by omega),
    hm x hx 6 (by omega), hm x hx 7 (by omega)]
  unfold roundShift
  interval_cases x
  all_goals
    simp only [d32_srai, d32_pshufd, d32_add, d32_sub, List.getD_cons_zero, List.getD_cons_succ, Nat.reduceMod, Nat.reduceDiv, Nat.reducePow, Nat.reduceMul,
      Nat.reduceLT, if_true, if_false, Nat.reduceAdd, Nat.reduceSub, e0, e1, e2, e3, o0, o1, o2, o3]
    rw [wrap32_id (by omega)]
    refine congrArg (fun t : Int => sat16 (t / 2 ^ 12)) ?_
    rw [show (2 : Int) ^ (12 - 1) = 2048 from rfl]
    omega

/-- The second pass with SSSE3 writes all rows. -/
theorem pass2_rows {reg : Nat → V} {f : Nat → Nat → Int}
    (hf : ∀ y < 8, ∀ m5, ∀ x < 8, w16 (ssse3Row m5 (unpacklo64y (reg (16 + 2 * y)) (reg (17 + 2 * y)))).2 x = f y x) (m : Nat → Int) (m5 : V) :
    ∀ n ≤ 8, (∀ y < n, ∀ x < 8, ((List.range n).foldl (ssse3Step reg) (m, m5)).1 (y * 8 + x) = f y x) ∧
      ∀ a, 8 * n ≤ a → ((List.range n).foldl (ssse3Step reg) (m, m5)).1 a = m a := by
  intro n
  induction n with
  | zero => exact fun _ => ⟨fun y hy => absurd hy (by omega), fun _ _ => rfl⟩
  | succ n ih =>
    intro hn
    obtain ⟨h1, h2⟩ := ih (by omega)
    rw [List.range_succ, List.foldl_append]
    generalize (List.range n).foldl (ssse3Step reg) (m, m5) = q at h1 h2
    show (∀ y < n + 1, ∀ x < 8, storeC 8 q.1 (8 * n) (ssse3Row q.2 (unpacklo64y (reg (16 + 2 * n)) (reg (17 + 2 * n)))).2 (y * 8 + x) = f y x) ∧
      ∀ a, 8 * (n + 1) ≤ a → storeC 8 q.1 (8 * n) (ssse3Row q.2 (unpacklo64y (reg (16 + 2 * n)) (reg (17 + 2 * n)))).2 a = m a
    constructor
    · intro y hy x hx
      unfold storeC
      by_cases e : y = n
      · subst e
        rw [if_pos (by omega), show y * 8 + x - 8 * y = x by omega]
        exact hf y (by omega) _ x hx
      · rw [if_neg (by omega)]
        exact h1 y (by omega) x hx
    · intro a ha
      unfold storeC
      rw [if_neg (by omega)]
      exact h2 a (by omega)

theorem asm_8x8_ssse3_raw : Raw 8 8 asm_8x8_ssse3 := by
  intro c s hc hs
  have hr := pass1_reg hc hs
  have hmem := pass1_mem (ssse3Pass1 0 ++ ssse3Pass1 1) (by decide +kernel) s
  unfold asm_8x8_ssse3
  generalize exec (ssse3Pass1 0 ++ ssse3Pass1 1) s = t at hr hmem
  have := pass2_rows (reg := t.reg) (f := rawDct 8 8 c) (fun y hy m5 x hx => by
    rw [row_eq (fun j _ => invVert_range 8 8 c y j) m5 _ (fun j hj => hr y hy j hj) x hx]
    exact raw_sat (by decide) c y x) t.mem (t.reg 5) 8 (le_refl 8)
  rw [hmem] at this
  rw [hmem]
  exact ⟨this.1, fun a ha => this.2 a ha⟩

end Davs2.Si
