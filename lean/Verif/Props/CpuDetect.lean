import Verif.Model.CpuDetect
import Verif.Spec.CpuFeatures
import Mathlib.Tactic.SplitIfs
import Mathlib.Tactic.Cases
/-
C109: the decoder uses exactly the instruction sets that processor and operating system offer, asks only questions that have an answer, and the text it makes of
the result fits its buffer.  C110: which decoder's wish about AVX counts.
-/
namespace Davs2.Cd
open Davs2.CpuSpec (usable avxUsable Answers)

/-- The answers as the specification takes them. -/
def answers (h : Hw) : Answers := ⟨(h.leaf 0).eax.toNat, (h.leaf 1).ecx, (h.leaf 1).edx, (h.leaf 7).ebx, h.xcr0⟩

/-- The flags that choose functions. -/
def flagOf : CpuSpec.Set → F
  | .sse2 => .sse2 | .sse3 => .sse3 | .ssse3 => .ssse3 | .sse41 => .sse4 | .sse42 => .sse42 | .avx => .avx | .avx2 => .avx2

theorem test_bit (x : BitVec 32) (i : Nat) (m : BitVec 32) (hm : m = BitVec.twoPow 32 i) (hi : i < 32) : test x m = x.getLsbD i := by
  subst hm
  unfold test
  rw [BitVec.and_twoPow]
  by_cases h : x.getLsbD i
  · rw [if_pos h, h]
    have : BitVec.twoPow 32 i ≠ 0#32 := fun e => by
      have := congrArg (fun v => v.getLsbD i) e
      simp [BitVec.getLsbD_twoPow, hi] at this
    exact bne_iff_ne.2 this
  · rw [if_neg h]
    simp only [Bool.not_eq_true] at h
    rw [h]; rfl

theorem two_bits (x : BitVec 32) (i j : Nat) (m : BitVec 32) (hm : m = BitVec.twoPow 32 i ||| BitVec.twoPow 32 j) (hi : i < 32) (hj : j < 32) :
    x &&& m = m ↔ x.getLsbD i = true ∧ x.getLsbD j = true := by
  subst hm
  constructor
  · intro e
    constructor
    · have := congrArg (fun v => v.getLsbD i) e
      simpa [BitVec.getLsbD_twoPow, hi] using this
    · have := congrArg (fun v => v.getLsbD j) e
      simpa [BitVec.getLsbD_twoPow, hj] using this
  · rintro ⟨a, b⟩
    apply BitVec.eq_of_getLsbD_eq
    intro k hk
    simp only [BitVec.getLsbD_and, BitVec.getLsbD_or, BitVec.getLsbD_twoPow]
    by_cases h1 : i = k
    · subst h1; simp [a]
    · by_cases h2 : j = k
      · subst h2; simp [b]
      · simp [h1, h2]

theorem on_ne {c : Flags} {l : List F} {f : F} (h : f ∉ l) : c.on l f = c f := by simp [Flags.on, h]
theorem off_ne {c : Flags} {l : List F} {f : F} (h : f ∉ l) : c.off l f = c f := by simp [Flags.off, h]

theorem ite_on {p : Prop} [Decidable p] {c : Flags} {l : List F} {f : F} (h : f ∉ l) : (if p then c.on l else c) f = c f := by
  split
  · exact on_ne h
  · rfl

/-! ### The questions have answers -/

theorem cpuid_zero (h : Hw) : h.cpuid 0 = some (h.leaf 0) := by simp [Hw.cpuid]
theorem cpuid_ext (h : Hw) : h.cpuid 0x80000000#32 = some (h.leaf 0x80000000#32) := by simp [Hw.cpuid]
theorem cpuid_basic (h : Hw) (k : BitVec 32) (hk : k.toNat < 2 ^ 31) (hm : k.toNat ≤ (h.leaf 0).eax.toNat) : h.cpuid k = some (h.leaf k) := by
  unfold Hw.cpuid; rw [if_pos (Or.inr (Or.inr (Or.inl ⟨hk, hm⟩)))]
theorem cpuid_extended (h : Hw) (k : BitVec 32) (hk : 2 ^ 31 ≤ k.toNat) (hm : k.toNat ≤ (h.leaf 0x80000000#32).eax.toNat) : h.cpuid k = some (h.leaf k) := by
  unfold Hw.cpuid; rw [if_pos (Or.inr (Or.inr (Or.inr ⟨hk, hm⟩)))]
theorem cpuid_one (h : Hw) (h0 : (h.leaf 0).eax ≠ 0) : h.cpuid 1 = some (h.leaf 1) :=
  cpuid_basic h 1 (by decide) (by
    have : (h.leaf 0).eax.toNat ≠ 0 := fun e => h0 (BitVec.eq_of_toNat_eq e)
    show 1 ≤ _; omega)

/-! ### The stages -/

instance (a : Answers) : Decidable (avxUsable a) := by unfold avxUsable; infer_instance

theorem osAvx_spec (h : Hw) (c : Flags) : ∃ c', osAvx h (h.leaf 1) c = some c' ∧ c' .avx = (c .avx || decide (avxUsable (answers h))) ∧
    ∀ f, f ∉ [F.avx, F.fma3] → c' f = c f := by
  unfold osAvx
  have e := two_bits (h.leaf 1).ecx 27 28 0x18000000 (by decide) (by decide) (by decide)
  by_cases h1 : (h.leaf 1).ecx &&& 0x18000000 = 0x18000000
  · rw [if_pos h1]
    have b := e.1 h1
    unfold Hw.xgetbv
    rw [if_pos b.1]
    simp only [Option.bind_some]
    have e2 := two_bits h.xcr0 1 2 6 (by decide) (by decide) (by decide)
    by_cases h2 : h.xcr0 &&& 6 = 6
    · rw [if_pos h2]
      have u : avxUsable (answers h) := ⟨b.2, b.1, (e2.1 h2).1, (e2.1 h2).2⟩
      refine ⟨_, rfl, ?_, fun f hf => ?_⟩
      · rw [decide_eq_true u]
        split <;> simp [Flags.on]
      · simp only [List.mem_cons, List.not_mem_nil, or_false, not_or] at hf
        split <;> simp [Flags.on, hf.1, hf.2]
    · rw [if_neg h2]
      have u : ¬ avxUsable (answers h) := fun u => h2 (e2.2 ⟨u.2.2.1, u.2.2.2⟩)
      exact ⟨c, rfl, by simp [u], fun _ _ => rfl⟩
  · rw [if_neg h1]
    have u : ¬ avxUsable (answers h) := fun u => h1 (e.2 ⟨u.2.1, u.1⟩)
    exact ⟨c, rfl, by simp [u], fun _ _ => rfl⟩

theorem leaf7_spec (h : Hw) (c : Flags) : ∃ c', leaf7 h (h.leaf 0).eax c = some c' ∧
    c' .avx2 = (c .avx2 || (c .avx && decide (7 ≤ (answers h).maxLeaf) && (answers h).ebx7.getLsbD 5)) ∧
    ∀ f, f ∉ [F.avx2, F.bmi1, F.bmi2] → c' f = c f := by
  unfold leaf7
  by_cases h7 : 7 ≤ (h.leaf 0).eax.toNat
  · rw [if_pos h7, cpuid_basic h 7 (by decide) h7]
    simp only [Option.bind_some]
    refine ⟨_, rfl, ?_, fun f hf => ?_⟩
    · have e := test_bit (h.leaf 7).ebx 5 0x00000020 (by decide) (by decide)
      have d : decide (7 ≤ (answers h).maxLeaf) = true := decide_eq_true h7
      rw [d, Bool.and_true]
      change _ = (c .avx2 || (c .avx && (h.leaf 7).ebx.getLsbD 5))
      rw [← e]
      generalize (c .avx && test (h.leaf 7).ebx 0x00000020) = b
      cases b <;> simp [Flags.on] <;> split_ifs <;> simp [Flags.on]
    · simp only [List.mem_cons, List.not_mem_nil, or_false, not_or] at hf
      split_ifs <;> simp [Flags.on, hf.1, hf.2.1, hf.2.2]
  · rw [if_neg h7]
    have d : decide (7 ≤ (answers h).maxLeaf) = false := decide_eq_false h7
    exact ⟨c, rfl, by rw [d]; simp, fun _ _ => rfl⟩

theorem amdFamily_frame (r : Regs) (c : Flags) (f : F) (hf : f ∉ [F.sse2Fast, F.sse2Slow, F.slowPalignr, F.slowPshufb]) : amdFamily r c f = c f := by
  simp only [List.mem_cons, List.not_mem_nil, or_false, not_or] at hf
  unfold amdFamily
  split_ifs <;> simp [Flags.on, Flags.off, hf.1, hf.2.1, hf.2.2.1, hf.2.2.2]

theorem amdFamily_excl (r : Regs) (c : Flags) (hx : c .sse2Slow = false) : (amdFamily r c .sse2Slow && amdFamily r c .sse2Fast) = false := by
  unfold amdFamily
  split_ifs <;> simp [Flags.on, Flags.off, hx]

theorem amd_frame (r : Regs) (c : Flags) (f : F) (hf : f ∉ [F.mmx2, F.slowCtz, F.sse2Slow]) : amd r c f = c f := by
  simp only [List.mem_cons, List.not_mem_nil, or_false, not_or] at hf
  unfold amd
  rw [ite_on (by simp [hf.2.2]), ite_on (by simp [hf.2.1]), ite_on (by simp [hf.1])]

theorem amd_excl (r : Regs) (c : Flags) (hx : (c .sse2Slow && c .sse2Fast) = false) : (amd r c .sse2Slow && amd r c .sse2Fast) = false := by
  rw [amd_frame r c .sse2Fast (by decide)]
  unfold amd
  generalize hc : (if (!(if test r.edx 0x00400000 then c.on [.mmx2] else c) .lzcnt) = true then (if test r.edx 0x00400000 then c.on [.mmx2] else c).on [.slowCtz]
    else (if test r.edx 0x00400000 then c.on [.mmx2] else c)) = c2
  have hf : c2 .sse2Fast = c .sse2Fast := by rw [← hc, ite_on (by decide), ite_on (by decide)]
  have hs : c2 .sse2Slow = c .sse2Slow := by rw [← hc, ite_on (by decide), ite_on (by decide)]
  by_cases q : (c2 .sse2 && !c2 .sse2Fast) = true
  · rw [hf] at q
    have : c .sse2Fast = false := by simpa using (Bool.and_eq_true_iff.1 q).2
    rw [this]; simp
  · rw [if_neg q, hs]; exact hx

/-- The stages after leaf 7 in one: which flags they may touch, and what excludes what. -/
theorem extended_spec (h : Hw) (r0 : Regs) (c : Flags) (hx : c .sse2Slow = false) : ∃ c', extended h r0 (h.leaf 0x80000000#32).eax c = some c' ∧
    (c' .sse2Slow && c' .sse2Fast) = false ∧
    ∀ f, f ∉ [F.lzcnt, F.sse2Fast, F.sse2Slow, F.slowPalignr, F.slowPshufb, F.xop, F.fma4, F.mmx2, F.slowCtz] → c' f = c f := by
  unfold extended
  by_cases hm : 0x80000001 ≤ (h.leaf 0x80000000#32).eax.toNat
  · rw [if_pos hm, cpuid_extended h 0x80000001#32 (by decide) hm]
    simp only [Option.bind_some]
    generalize h.leaf 0x80000001#32 = r
    have e1 : (if test r.ecx 0x00000020 then c.on [.lzcnt] else c) .sse2Slow = false := by rw [ite_on (by decide)]; exact hx
    have f1 : ∀ f, f ∉ [F.lzcnt] → (if test r.ecx 0x00000020 then c.on [.lzcnt] else c) f = c f := fun f hf => ite_on hf
    generalize (if test r.ecx 0x00000020 then c.on [.lzcnt] else c) = c1 at e1 f1 ⊢
    have e2 := amdFamily_excl r c1 e1
    have f2 := amdFamily_frame r c1
    generalize amdFamily r c1 = c2 at e2 f2 ⊢
    obtain ⟨c3, hc3, f3⟩ : ∃ c3, (if c2 .avx then (if test r.ecx 0x00010000 then (if test r.ecx 0x00000800 then c2.on [.xop] else c2).on [.fma4]
        else (if test r.ecx 0x00000800 then c2.on [.xop] else c2)) else c2) = c3 ∧ ∀ f, f ∉ [F.xop, F.fma4] → c3 f = c2 f := by
      refine ⟨_, rfl, fun f hf => ?_⟩
      simp only [List.mem_cons, List.not_mem_nil, or_false, not_or] at hf
      split
      · rw [ite_on (by simp [hf.2]), ite_on (by simp [hf.1])]
      · rfl
    simp only [hc3]
    have e3 : (c3 .sse2Slow && c3 .sse2Fast) = false := by rw [f3 _ (by decide), f3 _ (by decide)]; exact e2
    refine ⟨_, rfl, ?_, fun f hf => ?_⟩
    · split
      · exact amd_excl r c3 e3
      · exact e3
    · simp only [List.mem_cons, List.not_mem_nil, or_false, not_or] at hf
      obtain ⟨a1, a2, a3, a4, a5, a6, a7, a8, a9⟩ := hf
      have : c3 f = c f := by
        rw [f3 f (by simp [a6, a7]), f2 f (by simp [a2, a3, a4, a5]), f1 f (by simp [a1])]
      split
      · rw [amd_frame r c3 f (by simp [a8, a9, a3]), this]
      · exact this
  · rw [if_neg hm]
    exact ⟨c, rfl, by simp [hx], fun _ _ => rfl⟩

/-- Intel's Pentium M and Core models whose SSE2 is not to be used. -/
def oldIntel (h : Hw) : Bool := isIntel (h.leaf 0) && decide (family (h.leaf 1).eax = 6) &&
  (decide (model (h.leaf 1).eax = 9) || decide (model (h.leaf 1).eax = 13) || decide (model (h.leaf 1).eax = 14))

theorem intel_spec (h : Hw) (h0 : (h.leaf 0).eax ≠ 0) (c : Flags) (ha : c .slowAtom = false) (hs : c .slowShuffle = false) :
    ∃ c', intel h (h.leaf 0) c = some c' ∧ (c' .slowAtom && c' .slowShuffle) = false ∧
      c' .sse2 = (c .sse2 && !oldIntel h) ∧ c' .sse3 = (c .sse3 && !oldIntel h) ∧
      ∀ f, f ∉ [F.sse2, F.sse3, F.slowAtom, F.slowCtz, F.slowPshufb, F.slowShuffle] → c' f = c f := by
  unfold intel
  by_cases hi : isIntel (h.leaf 0) = true
  · rw [if_pos hi, cpuid_one h h0]
    simp only [Option.bind_some]
    by_cases hf : family (h.leaf 1).eax = 6
    · rw [if_pos hf]
      by_cases hm : model (h.leaf 1).eax = 9 ∨ model (h.leaf 1).eax = 13 ∨ model (h.leaf 1).eax = 14
      · rw [if_pos hm]
        have ho : oldIntel h = true := by
          unfold oldIntel; rw [hi, decide_eq_true hf]
          rcases hm with e | e | e <;> rw [e] <;> rfl
        refine ⟨_, rfl, ?_, ?_, ?_, fun f q => ?_⟩
        · rw [off_ne (by decide), ha]; rfl
        · rw [ho]; simp [Flags.off]
        · rw [ho]; simp [Flags.off]
        · simp only [List.mem_cons, List.not_mem_nil, or_false, not_or] at q
          exact off_ne (by simp [q.1, q.2.1])
      · rw [if_neg hm]
        have ho : oldIntel h = false := by
          unfold oldIntel
          simp only [not_or] at hm
          rw [decide_eq_false hm.1, decide_eq_false hm.2.1, decide_eq_false hm.2.2]; simp
        rw [ho]
        simp only [Bool.not_false, Bool.and_true]
        split_ifs
        · refine ⟨_, rfl, by simp [Flags.on, hs], by simp [Flags.on], by simp [Flags.on], fun f q => ?_⟩
          simp only [List.mem_cons, List.not_mem_nil, or_false, not_or] at q
          simp [Flags.on, q.2.2.1, q.2.2.2.1, q.2.2.2.2.1]
        · refine ⟨_, rfl, by simp [Flags.on, ha], by simp [Flags.on], by simp [Flags.on], fun f q => ?_⟩
          simp only [List.mem_cons, List.not_mem_nil, or_false, not_or] at q
          simp [Flags.on, q.2.2.2.2.2]
        · exact ⟨c, rfl, by simp [ha], rfl, rfl, fun _ _ => rfl⟩
    · rw [if_neg hf]
      have ho : oldIntel h = false := by unfold oldIntel; rw [decide_eq_false hf]; simp
      exact ⟨c, rfl, by simp [ha], by simp [ho], by simp [ho], fun _ _ => rfl⟩
  · rw [if_neg hi]
    have ho : oldIntel h = false := by unfold oldIntel; simp only [Bool.not_eq_true] at hi; rw [hi]; simp
    exact ⟨c, rfl, by simp [ha], by simp [ho], by simp [ho], fun _ _ => rfl⟩

theorem cacheLine_spec (h : Hw) (h0 : (h.leaf 0).eax ≠ 0) (c : Flags) (h32 : c .cache32 = false) (h64 : c .cache64 = false) :
    ∃ c', cacheLine h (h.leaf 0) (h.leaf 0).eax (h.leaf 0x80000000#32).eax c = some c' ∧ (c' .cache32 && c' .cache64) = false ∧
      (c .sse42 = true → c' .cache32 = false ∧ c' .cache64 = false) ∧ ∀ f, f ∉ [F.cache32, F.cache64] → c' f = c f := by
  unfold cacheLine
  by_cases hi : ((isIntel (h.leaf 0) || isCyrix (h.leaf 0)) && !c .sse42) = true
  · rw [if_pos hi, cpuid_one h h0]
    have h42 : c .sse42 = false := by simpa using (Bool.and_eq_true_iff.1 hi).2
    simp only [Option.bind_some]
    obtain ⟨k, hk⟩ : ∃ k, (if (h.leaf 1).ebx.toNat / 2 ^ 8 % 256 * 8 = 0 ∧ 0x80000006 ≤ (h.leaf 0x80000000#32).eax.toNat then
        (h.cpuid 0x80000006#32).map fun r => r.ecx.toNat % 256 else some ((h.leaf 1).ebx.toNat / 2 ^ 8 % 256 * 8)) = some k := by
      split
      · rename_i q; rw [cpuid_extended h 0x80000006#32 (by decide) q.2]; exact ⟨_, rfl⟩
      · exact ⟨_, rfl⟩
    rw [hk]
    simp only [Option.bind_some]
    obtain ⟨k2, hk2⟩ : ∃ k2, (if k = 0 ∧ 2 ≤ (h.leaf 0).eax.toNat then (h.cpuid 2).map fun _ => h.leaf2 else some k) = some k2 := by
      split
      · rename_i q; rw [cpuid_basic h 2 (by decide) q.2]; exact ⟨_, rfl⟩
      · exact ⟨_, rfl⟩
    rw [hk2]
    simp only [Option.bind_some]
    refine ⟨_, rfl, ?_, fun q => (by rw [h42] at q; cases q), fun f q => ?_⟩
    · split_ifs <;> simp [Flags.on, h32, h64]
    · simp only [List.mem_cons, List.not_mem_nil, or_false, not_or] at q
      split_ifs <;> simp [Flags.on, q.1, q.2]
  · rw [if_neg hi]
    exact ⟨c, rfl, by simp [h32], fun _ => ⟨h32, h64⟩, fun _ _ => rfl⟩

theorem ite_on_eq {p : Bool} {c : Flags} {l : List F} {f : F} (h : f ∈ l) : (if p then c.on l else c) f = (c f || p) := by
  cases p <;> simp [Flags.on, h]

theorem simd_spec (r : Regs) (c : Flags) :
    simd r c .sse2 = (c .sse2 || r.edx.getLsbD 26) ∧ simd r c .sse3 = (c .sse3 || r.ecx.getLsbD 0) ∧ simd r c .ssse3 = (c .ssse3 || r.ecx.getLsbD 9) ∧
    simd r c .sse4 = (c .sse4 || r.ecx.getLsbD 19) ∧ simd r c .sse42 = (c .sse42 || r.ecx.getLsbD 20) ∧
    ∀ f, f ∉ [F.sse2, F.sse3, F.ssse3, F.sse4, F.sse42] → simd r c f = c f := by
  have a := test_bit r.edx 26 0x04000000 (by decide) (by decide)
  have b := test_bit r.ecx 0 0x00000001 (by decide) (by decide)
  have d := test_bit r.ecx 9 0x00000200 (by decide) (by decide)
  have e := test_bit r.ecx 19 0x00080000 (by decide) (by decide)
  have g := test_bit r.ecx 20 0x00100000 (by decide) (by decide)
  unfold simd
  refine ⟨?_, ?_, ?_, ?_, ?_, fun f hf => ?_⟩
  · rw [ite_on (by decide), ite_on (by decide), ite_on (by decide), ite_on (by decide), ite_on_eq (by decide), a]
  · rw [ite_on (by decide), ite_on (by decide), ite_on (by decide), ite_on_eq (by decide), ite_on (by decide), b]
  · rw [ite_on (by decide), ite_on (by decide), ite_on_eq (by decide), ite_on (by decide), ite_on (by decide), d]
  · rw [ite_on (by decide), ite_on_eq (by decide), ite_on (by decide), ite_on (by decide), ite_on (by decide), e]
  · rw [ite_on_eq (by decide), ite_on (by decide), ite_on (by decide), ite_on (by decide), ite_on (by decide), g]
  · simp only [List.mem_cons, List.not_mem_nil, or_false, not_or] at hf
    rw [ite_on (by simp [hf]), ite_on (by simp [hf]), ite_on (by simp [hf]), ite_on (by simp [hf]), ite_on (by simp [hf])]

/-- The processor answers `cpuid` and has MMX and conditional moves, as every 64-bit processor does. -/
def basics (h : Hw) : Bool := (h.leaf 0).eax != 0 && (h.leaf 1).edx.getLsbD 23 && (h.leaf 1).edx.getLsbD 15

/-- What excludes what among the flags that have a name. -/
structure Excl (c : Flags) : Prop where
  speed : (c .sse2Slow && c .sse2Fast) = false
  atom : (c .slowAtom && c .slowShuffle) = false
  lines : (c .cache32 && c .cache64) = false
  new : c .sse42 = true → c .cache32 = false ∧ c .cache64 = false
  stack : c .stackMod4 = false

theorem detect_spec (h : Hw) : ∃ c, detect h = some c ∧ Excl c ∧
    c .sse2 = (basics h && (h.leaf 1).edx.getLsbD 26 && !oldIntel h) ∧
    c .sse3 = (basics h && (h.leaf 1).ecx.getLsbD 0 && !oldIntel h) ∧
    c .ssse3 = (basics h && (h.leaf 1).ecx.getLsbD 9) ∧
    c .sse4 = (basics h && (h.leaf 1).ecx.getLsbD 19) ∧
    c .sse42 = (basics h && (h.leaf 1).ecx.getLsbD 20) ∧
    c .avx = (basics h && decide (avxUsable (answers h))) ∧
    c .avx2 = (basics h && (decide (avxUsable (answers h)) && decide (7 ≤ (answers h).maxLeaf) && (answers h).ebx7.getLsbD 5)) := by
  unfold detect
  rw [cpuid_zero]
  simp only [Option.bind_some]
  by_cases h0 : (h.leaf 0).eax = 0
  · rw [if_pos h0]
    have hb : basics h = false := by unfold basics; rw [h0]; rfl
    rw [hb]
    exact ⟨_, rfl, ⟨rfl, rfl, rfl, (fun q => by cases q), rfl⟩, rfl, rfl, rfl, rfl, rfl, rfl, rfl⟩
  · rw [if_neg h0, cpuid_one h h0]
    simp only [Option.bind_some]
    rw [test_bit (h.leaf 1).edx 23 0x00800000 (by decide) (by decide), test_bit (h.leaf 1).edx 15 0x00008000 (by decide) (by decide)]
    by_cases h23 : (h.leaf 1).edx.getLsbD 23 = true
    · rw [h23]
      simp only [Bool.not_true, Bool.false_eq_true, if_false]
      have f1 : ∀ f, f ∉ [F.mmx, F.mmx2, F.sse] → (if test (h.leaf 1).edx 0x02000000 then (Flags.on (fun _ => false) [.mmx]).on [.mmx2, .sse] else Flags.on (fun _ => false) [.mmx]) f = false := by
        intro f hf
        simp only [List.mem_cons, List.not_mem_nil, or_false, not_or] at hf
        split <;> simp [Flags.on, hf]
      generalize (if test (h.leaf 1).edx 0x02000000 then (Flags.on (fun _ => false) [.mmx]).on [.mmx2, .sse] else Flags.on (fun _ => false) [.mmx]) = c1 at f1 ⊢
      by_cases h15 : (h.leaf 1).edx.getLsbD 15 = true
      · rw [h15]
        simp only [Bool.not_true, Bool.false_eq_true, if_false]
        have hb : basics h = true := by
          unfold basics; rw [h23, h15]; simpa using h0
        rw [hb]
        simp only [Bool.true_and]
        have f2 : ∀ f, f ∉ [F.mmx, F.mmx2, F.sse, F.cmov] → (c1.on [.cmov]) f = false := by
          intro f hf
          simp only [List.mem_cons, List.not_mem_nil, or_false, not_or] at hf
          rw [on_ne (by simp [hf]), f1 f (by simp [hf])]
        generalize c1.on [.cmov] = c2 at f2 ⊢
        obtain ⟨s1, s2, s3, s4, s5, f3⟩ := simd_spec (h.leaf 1) c2
        generalize simd (h.leaf 1) c2 = c3 at s1 s2 s3 s4 s5 f3 ⊢
        obtain ⟨c4, e4, v4, f4⟩ := osAvx_spec h c3
        rw [e4]
        simp only [Option.bind_some]
        obtain ⟨c5, e5, v5, f5⟩ := leaf7_spec h c4
        rw [e5]
        simp only [Option.bind_some]
        have f6 : ∀ f, f ∉ [F.sse2Fast] → (if c5 .ssse3 then c5.on [.sse2Fast] else c5) f = c5 f := fun f hf => ite_on hf
        generalize (if c5 .ssse3 then c5.on [.sse2Fast] else c5) = c6 at f6 ⊢
        rw [cpuid_ext]
        simp only [Option.bind_some]
        have up : ∀ f, f ∉ [F.mmx, F.mmx2, F.sse, F.cmov, F.sse2, F.sse3, F.ssse3, F.sse4, F.sse42, F.avx, F.fma3, F.avx2, F.bmi1, F.bmi2, F.sse2Fast] → c6 f = false := by
          intro f hf
          simp only [List.mem_cons, List.not_mem_nil, or_false, not_or] at hf
          rw [f6 f (by simp [hf]), f5 f (by simp [hf]), f4 f (by simp [hf]), f3 f (by simp [hf]), f2 f (by simp [hf])]
        obtain ⟨c7, e7, x7, f7⟩ := extended_spec h (h.leaf 0) c6 (up _ (by decide))
        rw [e7]
        simp only [Option.bind_some]
        obtain ⟨c8, e8, x8, v8, w8, f8⟩ := intel_spec h h0 c7 (by rw [f7 _ (by decide)]; exact up _ (by decide)) (by rw [f7 _ (by decide)]; exact up _ (by decide))
        rw [e8]
        simp only [Option.bind_some]
        obtain ⟨c9, e9, x9, y9, f9⟩ := cacheLine_spec h h0 c8 (by rw [f8 _ (by decide), f7 _ (by decide)]; exact up _ (by decide))
          (by rw [f8 _ (by decide), f7 _ (by decide)]; exact up _ (by decide))
        refine ⟨c9, e9, ⟨?_, ?_, x9, ?_, ?_⟩, ?_, ?_, ?_, ?_, ?_, ?_, ?_⟩
        · rw [f9 _ (by decide), f9 _ (by decide), f8 _ (by decide), f8 _ (by decide)]; exact x7
        · rw [f9 _ (by decide), f9 _ (by decide)]; exact x8
        · rw [f9 _ (by decide)]; exact y9
        · rw [f9 _ (by decide), f8 _ (by decide), f7 _ (by decide)]; exact up _ (by decide)
        · rw [f9 _ (by decide), v8, f7 _ (by decide), f6 _ (by decide), f5 _ (by decide), f4 _ (by decide), s1, f2 _ (by decide)]; rfl
        · rw [f9 _ (by decide), w8, f7 _ (by decide), f6 _ (by decide), f5 _ (by decide), f4 _ (by decide), s2, f2 _ (by decide)]; rfl
        · rw [f9 _ (by decide), f8 _ (by decide), f7 _ (by decide), f6 _ (by decide), f5 _ (by decide), f4 _ (by decide), s3, f2 _ (by decide)]; rfl
        · rw [f9 _ (by decide), f8 _ (by decide), f7 _ (by decide), f6 _ (by decide), f5 _ (by decide), f4 _ (by decide), s4, f2 _ (by decide)]; rfl
        · rw [f9 _ (by decide), f8 _ (by decide), f7 _ (by decide), f6 _ (by decide), f5 _ (by decide), f4 _ (by decide), s5, f2 _ (by decide)]; rfl
        · rw [f9 _ (by decide), f8 _ (by decide), f7 _ (by decide), f6 _ (by decide), f5 _ (by decide), v4, f3 _ (by decide), f2 _ (by decide)]; rfl
        · rw [f9 _ (by decide), f8 _ (by decide), f7 _ (by decide), f6 _ (by decide), v5, f4 _ (by decide), f3 _ (by decide), f2 _ (by decide), v4,
            f3 _ (by decide), f2 _ (by decide)]; rfl
      · have h15' : (h.leaf 1).edx.getLsbD 15 = false := by simpa using h15
        have hb : basics h = false := by unfold basics; rw [h15']; simp
        rw [h15', hb]
        simp only [Bool.not_false, if_true, Bool.false_and]
        refine ⟨c1, rfl, ⟨?_, ?_, ?_, fun q => ?_, ?_⟩, ?_, ?_, ?_, ?_, ?_, ?_, ?_⟩
        · rw [f1 _ (by decide)]; rfl
        · rw [f1 _ (by decide)]; rfl
        · rw [f1 _ (by decide)]; rfl
        · rw [f1 _ (by decide)] at q; cases q
        all_goals exact f1 _ (by decide)
    · have h23' : (h.leaf 1).edx.getLsbD 23 = false := by simpa using h23
      have hb : basics h = false := by unfold basics; rw [h23']; simp
      rw [h23', hb]
      exact ⟨_, rfl, ⟨rfl, rfl, rfl, (fun q => by cases q), rfl⟩, rfl, rfl, rfl, rfl, rfl, rfl, rfl⟩

/-- **C109, instruction sets.** For every processor and operating system the detection finishes without asking for a leaf that does not exist and without executing an
instruction that faults, and it gives the flag of an instruction set exactly if that set may be used (AVX and AVX2: including support by the operating system) —
except that SSE2 and SSE3 are also refused on three old models of Intel, where they are slow. -/
theorem C109_exact (h : Hw) (hb : basics h) : ∃ c, detect h = some c ∧ ∀ s, (c (flagOf s) = true ↔ usable (answers h) s ∧ ((s = .sse2 ∨ s = .sse3) → oldIntel h = false)) := by
  obtain ⟨c, e, -, a1, a2, a3, a4, a5, a6, a7⟩ := detect_spec h
  rw [hb] at a1 a2 a3 a4 a5 a6 a7
  simp only [Bool.true_and] at a1 a2 a3 a4 a5 a6 a7
  refine ⟨c, e, fun s => ?_⟩
  cases s
  · show c .sse2 = true ↔ (h.leaf 1).edx.getLsbD 26 = true ∧ _
    rw [a1]; simp
  · show c .sse3 = true ↔ (h.leaf 1).ecx.getLsbD 0 = true ∧ _
    rw [a2]; simp
  · show c .ssse3 = true ↔ (h.leaf 1).ecx.getLsbD 9 = true ∧ _
    rw [a3]; simp
  · show c .sse4 = true ↔ (h.leaf 1).ecx.getLsbD 19 = true ∧ _
    rw [a4]; simp
  · show c .sse42 = true ↔ (h.leaf 1).ecx.getLsbD 20 = true ∧ _
    rw [a5]; simp
  · show c .avx = true ↔ avxUsable (answers h) ∧ _
    rw [a6]; simp
  · show c .avx2 = true ↔ (avxUsable (answers h) ∧ 7 ≤ (answers h).maxLeaf ∧ (answers h).ebx7.getLsbD 5 = true) ∧ _
    rw [a7]; simp [and_assoc]

/-- **C109, old processors.** Without `cpuid`, MMX or conditional moves no instruction set is used. -/
theorem C109_none (h : Hw) (hb : basics h = false) : ∃ c, detect h = some c ∧ ∀ s, c (flagOf s) = false := by
  obtain ⟨c, e, -, a1, a2, a3, a4, a5, a6, a7⟩ := detect_spec h
  rw [hb] at a1 a2 a3 a4 a5 a6 a7
  exact ⟨c, e, fun s => match s with
    | .sse2 => a1 | .sse3 => a2 | .ssse3 => a3 | .sse41 => a4 | .sse42 => a5 | .avx => a6 | .avx2 => a7⟩

/-- **C109, `disable_avx`.** With the switch neither AVX nor AVX2 is in the set, without it the set is that of the detection. -/
theorem C109_param (c : Flags) : withParam true c .avx = false ∧ withParam true c .avx2 = false ∧ (∀ f, f ∉ [F.avx, F.avx2] → withParam true c f = c f) ∧ withParam false c = c :=
  ⟨by simp [withParam, Flags.off], by simp [withParam, Flags.off], fun _ hf => off_ne hf, rfl⟩

/-! ### The text -/

/-- What one entry adds to the text. -/
def piece (c : Flags) (prev : Option (List F)) (n : String) (fs : List F) : Nat :=
  (if !leftOut c n && fs.all c && decide (prev ≠ some fs) then " " ++ n else "").length

theorem piece_le (c : Flags) (prev : Option (List F)) (n : String) (fs : List F) : piece c prev n fs ≤ n.length + 1 := by
  unfold piece
  split
  · rw [String.length_append, show (" " : String).length = 1 from rfl]; omega
  · exact Nat.zero_le _

theorem piece_out {c : Flags} {prev : Option (List F)} {n : String} {fs : List F} (h : leftOut c n = true) : piece c prev n fs = 0 := by
  unfold piece; rw [h]; rfl

theorem piece_off {c : Flags} {prev : Option (List F)} {n : String} {fs : List F} (f : F) (hf : f ∈ fs) (h : c f = false) : piece c prev n fs = 0 := by
  unfold piece
  have : fs.all c = false := by
    rw [List.all_eq_false]; exact ⟨f, hf, by simp [h]⟩
  rw [this, Bool.and_false]; rfl

theorem piece_same {c : Flags} {n : String} {fs : List F} : piece c (some fs) n fs = 0 := by
  unfold piece; simp

theorem textGo_cons (c : Flags) (prev : Option (List F)) (n : String) (fs : List F) (l : List (String × List F)) :
    (textGo c prev ((n, fs) :: l)).length = piece c prev n fs + (textGo c (some fs) l).length := by
  rw [textGo, String.length_append]; rfl

theorem textGo_length {c : Flags} (e : Excl c) : (textGo c none names).length ≤ 104 := by
  have total : (textGo c none names).length =
      piece c none "MMX2" (fMmx2) +
      piece c (some (fMmx2)) "MMXEXT" (fMmx2) +
      piece c (some (fMmx2)) "SSE" (fMmx2 ++ [.sse]) +
      piece c (some (fMmx2 ++ [.sse])) "SSE2Slow" (fSse2 ++ [.sse2Slow]) +
      piece c (some (fSse2 ++ [.sse2Slow])) "SSE2" (fSse2) +
      piece c (some (fSse2)) "SSE2Fast" (fSse2 ++ [.sse2Fast]) +
      piece c (some (fSse2 ++ [.sse2Fast])) "SSE3" (fSse2 ++ [.sse3]) +
      piece c (some (fSse2 ++ [.sse3])) "SSSE3" (fSse2 ++ [.sse3, .ssse3]) +
      piece c (some (fSse2 ++ [.sse3, .ssse3])) "SSE4.1" (fSse4) +
      piece c (some (fSse4)) "SSE4" (fSse4) +
      piece c (some (fSse4)) "SSE4.2" (fSse4 ++ [.sse42]) +
      piece c (some (fSse4 ++ [.sse42])) "AVX" (fAvx) +
      piece c (some (fAvx)) "XOP" (fAvx ++ [.xop]) +
      piece c (some (fAvx ++ [.xop])) "FMA4" (fAvx ++ [.fma4]) +
      piece c (some (fAvx ++ [.fma4])) "AVX2" (fAvx ++ [.avx2]) +
      piece c (some (fAvx ++ [.avx2])) "FMA3" (fAvx ++ [.fma3]) +
      piece c (some (fAvx ++ [.fma3])) "Cache32" ([.cache32]) +
      piece c (some ([.cache32])) "Cache64" ([.cache64]) +
      piece c (some ([.cache64])) "LZCNT" ([.lzcnt]) +
      piece c (some ([.lzcnt])) "BMI1" ([.bmi1]) +
      piece c (some ([.bmi1])) "BMI2" ([.bmi1, .bmi2]) +
      piece c (some ([.bmi1, .bmi2])) "SlowCTZ" ([.slowCtz]) +
      piece c (some ([.slowCtz])) "SlowAtom" ([.slowAtom]) +
      piece c (some ([.slowAtom])) "SlowPshufb" ([.slowPshufb]) +
      piece c (some ([.slowPshufb])) "SlowPalignr" ([.slowPalignr]) +
      piece c (some ([.slowPalignr])) "SlowShuffle" ([.slowShuffle]) +
      piece c (some ([.slowShuffle])) "UnalignedStack" ([.stackMod4]) := by
    unfold names
    simp only [textGo_cons]
    rw [textGo, show ("" : String).length = 0 from rfl]
    omega
  rw [total]
  have l0 := piece_le c none "MMX2" (fMmx2)
  have l1 := piece_le c (some (fMmx2)) "MMXEXT" (fMmx2)
  have l2 := piece_le c (some (fMmx2)) "SSE" (fMmx2 ++ [.sse])
  have l3 := piece_le c (some (fMmx2 ++ [.sse])) "SSE2Slow" (fSse2 ++ [.sse2Slow])
  have l4 := piece_le c (some (fSse2 ++ [.sse2Slow])) "SSE2" (fSse2)
  have l5 := piece_le c (some (fSse2)) "SSE2Fast" (fSse2 ++ [.sse2Fast])
  have l6 := piece_le c (some (fSse2 ++ [.sse2Fast])) "SSE3" (fSse2 ++ [.sse3])
  have l7 := piece_le c (some (fSse2 ++ [.sse3])) "SSSE3" (fSse2 ++ [.sse3, .ssse3])
  have l8 := piece_le c (some (fSse2 ++ [.sse3, .ssse3])) "SSE4.1" (fSse4)
  have l9 := piece_le c (some (fSse4)) "SSE4" (fSse4)
  have l10 := piece_le c (some (fSse4)) "SSE4.2" (fSse4 ++ [.sse42])
  have l11 := piece_le c (some (fSse4 ++ [.sse42])) "AVX" (fAvx)
  have l12 := piece_le c (some (fAvx)) "XOP" (fAvx ++ [.xop])
  have l13 := piece_le c (some (fAvx ++ [.xop])) "FMA4" (fAvx ++ [.fma4])
  have l14 := piece_le c (some (fAvx ++ [.fma4])) "AVX2" (fAvx ++ [.avx2])
  have l15 := piece_le c (some (fAvx ++ [.avx2])) "FMA3" (fAvx ++ [.fma3])
  have l16 := piece_le c (some (fAvx ++ [.fma3])) "Cache32" ([.cache32])
  have l17 := piece_le c (some ([.cache32])) "Cache64" ([.cache64])
  have l18 := piece_le c (some ([.cache64])) "LZCNT" ([.lzcnt])
  have l19 := piece_le c (some ([.lzcnt])) "BMI1" ([.bmi1])
  have l20 := piece_le c (some ([.bmi1])) "BMI2" ([.bmi1, .bmi2])
  have l21 := piece_le c (some ([.bmi1, .bmi2])) "SlowCTZ" ([.slowCtz])
  have l22 := piece_le c (some ([.slowCtz])) "SlowAtom" ([.slowAtom])
  have l23 := piece_le c (some ([.slowAtom])) "SlowPshufb" ([.slowPshufb])
  have l24 := piece_le c (some ([.slowPshufb])) "SlowPalignr" ([.slowPalignr])
  have l25 := piece_le c (some ([.slowPalignr])) "SlowShuffle" ([.slowShuffle])
  have l26 := piece_le c (some ([.slowShuffle])) "UnalignedStack" ([.stackMod4])
  rw [(by decide : "MMX2".length = 4)] at l0
  have z1 : piece c (some (fMmx2)) "MMXEXT" (fMmx2) = 0 := piece_same
  have z9 : piece c (some (fSse4)) "SSE4" (fSse4) = 0 := piece_same
  have z26 : piece c (some ([.slowShuffle])) "UnalignedStack" ([.stackMod4]) = 0 := piece_off .stackMod4 (by decide) e.stack
  have ex3 : piece c (some (fMmx2)) "SSE" (fMmx2 ++ [.sse]) = 0 ∨ (piece c (some (fMmx2 ++ [.sse])) "SSE2Slow" (fSse2 ++ [.sse2Slow]) = 0 ∧ piece c (some (fSse2 ++ [.sse2Slow])) "SSE2" (fSse2) = 0 ∧ piece c (some (fSse2)) "SSE2Fast" (fSse2 ++ [.sse2Fast]) = 0) := by
    cases q : c .sse2
    · exact .inr ⟨piece_off .sse2 (by decide) q, piece_off .sse2 (by decide) q, piece_off .sse2 (by decide) q⟩
    · exact .inl (piece_out (by simp [leftOut, q]))
  have ex4 : piece c (some (fMmx2 ++ [.sse])) "SSE2Slow" (fSse2 ++ [.sse2Slow]) = 0 ∨ (piece c (some (fSse2 ++ [.sse2Slow])) "SSE2" (fSse2) = 0 ∧ piece c (some (fSse2)) "SSE2Fast" (fSse2 ++ [.sse2Fast]) = 0) := by
    cases q : c .sse2Slow
    · exact .inl (piece_off .sse2Slow (by decide) q)
    · exact .inr ⟨piece_out (by simp [leftOut, q]), piece_off .sse2Fast (by decide) (by have := e.speed; rw [q] at this; simpa using this)⟩
  have ex5 : piece c (some (fSse2 ++ [.sse2Slow])) "SSE2" (fSse2) = 0 ∨ piece c (some (fSse2)) "SSE2Fast" (fSse2 ++ [.sse2Fast]) = 0 := by
    cases q : c .sse2Fast
    · exact .inr (piece_off .sse2Fast (by decide) q)
    · exact .inl (piece_out (by simp [leftOut, q]))
  have ex6 : piece c (some (fSse2 ++ [.sse2Fast])) "SSE3" (fSse2 ++ [.sse3]) = 0 ∨ piece c (some (fSse2 ++ [.sse3])) "SSSE3" (fSse2 ++ [.sse3, .ssse3]) = 0 := by
    cases q : c .ssse3
    · exact .inr (piece_off .ssse3 (by decide) q)
    · exact .inl (piece_out (by simp [leftOut, q]))
  have ex7 : (piece c (some (fSse4)) "SSE4.2" (fSse4 ++ [.sse42]) = 0 ∧ piece c (some (fSse4 ++ [.sse42])) "AVX" (fAvx) = 0 ∧ piece c (some (fAvx)) "XOP" (fAvx ++ [.xop]) = 0 ∧ piece c (some (fAvx ++ [.xop])) "FMA4" (fAvx ++ [.fma4]) = 0 ∧
      piece c (some (fAvx ++ [.fma4])) "AVX2" (fAvx ++ [.avx2]) = 0 ∧ piece c (some (fAvx ++ [.avx2])) "FMA3" (fAvx ++ [.fma3]) = 0) ∨
      (piece c (some (fSse2 ++ [.sse3, .ssse3])) "SSE4.1" (fSse4) = 0 ∧ piece c (some (fAvx ++ [.fma3])) "Cache32" ([.cache32]) = 0 ∧ piece c (some ([.cache32])) "Cache64" ([.cache64]) = 0) := by
    cases q : c .sse42
    · exact .inl ⟨piece_off .sse42 (by decide) q, piece_off .sse42 (by decide) q, piece_off .sse42 (by decide) q, piece_off .sse42 (by decide) q,
        piece_off .sse42 (by decide) q, piece_off .sse42 (by decide) q⟩
    · exact .inr ⟨piece_out (by simp [leftOut, q]), piece_off .cache32 (by decide) (e.new q).1, piece_off .cache64 (by decide) (e.new q).2⟩
  have ex8 : piece c (some (fAvx ++ [.fma3])) "Cache32" ([.cache32]) = 0 ∨ piece c (some ([.cache32])) "Cache64" ([.cache64]) = 0 := by
    cases q : c .cache32
    · exact .inl (piece_off .cache32 (by decide) q)
    · exact .inr (piece_off .cache64 (by decide) (by have := e.lines; rw [q] at this; simpa using this))
  have ex9 : piece c (some ([.lzcnt])) "BMI1" ([.bmi1]) = 0 ∨ piece c (some ([.bmi1])) "BMI2" ([.bmi1, .bmi2]) = 0 := by
    cases q : c .bmi2
    · exact .inr (piece_off .bmi2 (by decide) q)
    · exact .inl (piece_out (by simp [leftOut, q]))
  have ex10 : piece c (some ([.slowCtz])) "SlowAtom" ([.slowAtom]) = 0 ∨ piece c (some ([.slowPalignr])) "SlowShuffle" ([.slowShuffle]) = 0 := by
    cases q : c .slowAtom
    · exact .inl (piece_off .slowAtom (by decide) q)
    · exact .inr (piece_off .slowShuffle (by decide) (by have := e.atom; rw [q] at this; simpa using this))
  simp only [(by decide : "MMXEXT".length = 6), (by decide : "SSE".length = 3), (by decide : "SSE2Slow".length = 8), (by decide : "SSE2".length = 4), (by decide : "SSE2Fast".length = 8), (by decide : "SSE3".length = 4), (by decide : "SSSE3".length = 5), (by decide : "SSE4.1".length = 6), (by decide : "SSE4".length = 4), (by decide : "SSE4.2".length = 6), (by decide : "AVX".length = 3), (by decide : "XOP".length = 3), (by decide : "FMA4".length = 4), (by decide : "AVX2".length = 4), (by decide : "FMA3".length = 4), (by decide : "Cache32".length = 7), (by decide : "Cache64".length = 7), (by decide : "LZCNT".length = 5), (by decide : "BMI1".length = 4), (by decide : "BMI2".length = 4), (by decide : "SlowCTZ".length = 7), (by decide : "SlowAtom".length = 8), (by decide : "SlowPshufb".length = 10), (by decide : "SlowPalignr".length = 11), (by decide : "SlowShuffle".length = 11), (by decide : "UnalignedStack".length = 14)] at l1 l2 l3 l4 l5 l6 l7 l8 l9 l10 l11 l12 l13 l14 l15 l16 l17 l18 l19 l20 l21 l22 l23 l24 l25 l26
  generalize g0 : piece c none "MMX2" (fMmx2) = x0 at *
  generalize g1 : piece c (some (fMmx2)) "MMXEXT" (fMmx2) = x1 at *
  generalize g2 : piece c (some (fMmx2)) "SSE" (fMmx2 ++ [.sse]) = x2 at *
  generalize g3 : piece c (some (fMmx2 ++ [.sse])) "SSE2Slow" (fSse2 ++ [.sse2Slow]) = x3 at *
  generalize g4 : piece c (some (fSse2 ++ [.sse2Slow])) "SSE2" (fSse2) = x4 at *
  generalize g5 : piece c (some (fSse2)) "SSE2Fast" (fSse2 ++ [.sse2Fast]) = x5 at *
  generalize g6 : piece c (some (fSse2 ++ [.sse2Fast])) "SSE3" (fSse2 ++ [.sse3]) = x6 at *
  generalize g7 : piece c (some (fSse2 ++ [.sse3])) "SSSE3" (fSse2 ++ [.sse3, .ssse3]) = x7 at *
  generalize g8 : piece c (some (fSse2 ++ [.sse3, .ssse3])) "SSE4.1" (fSse4) = x8 at *
  generalize g9 : piece c (some (fSse4)) "SSE4" (fSse4) = x9 at *
  generalize g10 : piece c (some (fSse4)) "SSE4.2" (fSse4 ++ [.sse42]) = x10 at *
  generalize g11 : piece c (some (fSse4 ++ [.sse42])) "AVX" (fAvx) = x11 at *
  generalize g12 : piece c (some (fAvx)) "XOP" (fAvx ++ [.xop]) = x12 at *
  generalize g13 : piece c (some (fAvx ++ [.xop])) "FMA4" (fAvx ++ [.fma4]) = x13 at *
  generalize g14 : piece c (some (fAvx ++ [.fma4])) "AVX2" (fAvx ++ [.avx2]) = x14 at *
  generalize g15 : piece c (some (fAvx ++ [.avx2])) "FMA3" (fAvx ++ [.fma3]) = x15 at *
  generalize g16 : piece c (some (fAvx ++ [.fma3])) "Cache32" ([.cache32]) = x16 at *
  generalize g17 : piece c (some ([.cache32])) "Cache64" ([.cache64]) = x17 at *
  generalize g18 : piece c (some ([.cache64])) "LZCNT" ([.lzcnt]) = x18 at *
  generalize g19 : piece c (some ([.lzcnt])) "BMI1" ([.bmi1]) = x19 at *
  generalize g20 : piece c (some ([.bmi1])) "BMI2" ([.bmi1, .bmi2]) = x20 at *
  generalize g21 : piece c (some ([.bmi1, .bmi2])) "SlowCTZ" ([.slowCtz]) = x21 at *
  generalize g22 : piece c (some ([.slowCtz])) "SlowAtom" ([.slowAtom]) = x22 at *
  generalize g23 : piece c (some ([.slowAtom])) "SlowPshufb" ([.slowPshufb]) = x23 at *
  generalize g24 : piece c (some ([.slowPshufb])) "SlowPalignr" ([.slowPalignr]) = x24 at *
  generalize g25 : piece c (some ([.slowPalignr])) "SlowShuffle" ([.slowShuffle]) = x25 at *
  generalize g26 : piece c (some ([.slowShuffle])) "UnalignedStack" ([.stackMod4]) = x26 at *
  clear total g0 g1 g2 g3 g4 g5 g6 g7 g8 g9 g10 g11 g12 g13 g14 g15 g16 g17 g18 g19 g20 g21 g22 g23 g24 g25 g26
  omega

theorem withParam_excl {c : Flags} (d : Bool) (e : Excl c) : Excl (withParam d c) := by
  have f : ∀ f, f ∉ [F.avx, F.avx2] → withParam d c f = c f := by
    intro f hf
    cases d
    · rfl
    · exact off_ne hf
  exact ⟨by rw [f _ (by decide), f _ (by decide)]; exact e.speed, by rw [f _ (by decide), f _ (by decide)]; exact e.atom,
    by rw [f _ (by decide), f _ (by decide)]; exact e.lines, by rw [f _ (by decide), f _ (by decide), f _ (by decide)]; exact e.new, by rw [f _ (by decide)]; exact e.stack⟩

/-- **C109, the text.** For every processor and either value of `disable_avx` the text with its end mark fits into the 120 bytes it is written to. -/
theorem C109_text (h : Hw) (d : Bool) {hex : String} (hx : hex.length ≤ 8) : ∃ c, detect h = some c ∧ (text (withParam d c) hex).length + 1 ≤ bufSize := by
  obtain ⟨c, e, x, -⟩ := detect_spec h
  refine ⟨c, e, ?_⟩
  have := textGo_length (withParam_excl d x)
  unfold text bufSize
  simp only []
  split
  · rw [String.length_append, show (" none! 0x" : String).length = 9 from rfl]; omega
  · omega

/-- That is a matter of what the detection can report: with every flag set the text would not fit. -/
theorem C109_text_all : bufSize < (text (fun _ => true) "").length := by decide +kernel

/-! ### Cases for the theorems above -/

/-- A processor of Intel (family 6, model 60) with AVX2, under an operating system that saves its registers, and the same under one that does not. -/
def exHw (os : Bool) : Hw where
  leaf op := if op = 0 then ⟨13, 0x756e6547, 0x6c65746e, 0x49656e69⟩ else
    if op = 1 then ⟨0x000306c3, 0x00100800, if os then 0x7ffafbbf else 0x73fafbbf, 0xbfebfbff⟩ else
    if op = 7 then ⟨0, 0x000027ab, 0, 0⟩ else if op = 0x80000000#32 then ⟨0x80000008, 0, 0, 0⟩ else
    if op = 0x80000001#32 then ⟨0, 0, 0x21, 0x2c100800⟩ else ⟨0, 0, 0, 0⟩
  xcr0 := 7
  leaf2 := 64

example : basics (exHw true) ∧ ((detect (exHw true)).map fun c => (c .sse2, c .sse42, c .avx, c .avx2)) = some (true, true, true, true) := by decide +kernel
example : basics (exHw false) ∧ ((detect (exHw false)).map fun c => (c .sse2, c .sse42, c .avx, c .avx2)) = some (true, true, false, false) := by decide +kernel
example : ((detect (exHw true)).map fun c => text c "") = some " MMX2 SSE2Fast SSSE3 SSE4.2 AVX AVX2 FMA3 LZCNT BMI2" := by decide +kernel
example : ((detect (exHw true)).map fun c => text (withParam true c) "") = some " MMX2 SSE2Fast SSSE3 SSE4.2 LZCNT BMI2" := by decide +kernel

/-- A Pentium M (family 6, model 13): SSE2 is there and not used. -/
def exOld : Hw where
  leaf op := if op = 0 then ⟨2, 0x756e6547, 0x6c65746e, 0x49656e69⟩ else if op = 1 then ⟨0x000006d8, 0x00000800, 0x00000180, 0xafe9fbff⟩ else ⟨0, 0, 0, 0⟩
  xcr0 := 0
  leaf2 := 64

example : basics exOld ∧ oldIntel exOld = true ∧ usable (answers exOld) .sse2 ∧ ((detect exOld).map fun c => c .sse2) = some false := by
  refine ⟨by decide +kernel, by decide +kernel, ?_, by decide +kernel⟩
  show (exOld.leaf 1).edx.getLsbD 26 = true
  decide +kernel

/-! ### One table for all decoders -/

/-- Before the first decoder is opened. -/
def fresh : Prim := ⟨0, none⟩

theorem openDec_next (hw : Flags) (d : Bool) {p : Prim} (h : p.count ≠ 0) : openDec hw d p = { p with count := p.count + 1 } := by
  unfold openDec init; rw [if_pos h]

theorem opens_spec (hw : Flags) : ∀ (ds : List Bool) (p : Prim), 0 < p.count.toNat → p.count.toNat + ds.length < 2 ^ 32 →
    (ds.foldl (fun p d => openDec hw d p) p).chosen = p.chosen := by
  intro ds
  induction ds with
  | nil => intro p _ _; rfl
  | cons d ds ih =>
    intro p h0 h1
    simp only [List.length_cons] at h1
    have hn : p.count ≠ 0 := by intro q; rw [q] at h0; simp at h0
    have e : (p.count + 1).toNat = p.count.toNat + 1 := by
      rw [BitVec.toNat_add]; simp; omega
    rw [List.foldl_cons, openDec_next hw d hn, ih _ (by show 0 < (p.count + 1).toNat; omega) (by show (p.count + 1).toNat + ds.length < 2 ^ 32; omega)]

/-- **C110, the first decoder.** Whatever decoders are opened later (fewer than 2^32 in all), all of them work with the functions chosen for the first one: its `disable_avx`
is honoured for ever, those of the others are not looked at.  Missing: that each decoder's own switch is honoured, which is false (`C110_violated`). -/
theorem C110_first_partial (hw : Flags) (d : Bool) (ds : List Bool) (hl : ds.length + 1 < 2 ^ 32) :
    ((d :: ds).foldl (fun p d => openDec hw d p) fresh).chosen = some (withParam d hw) := by
  rw [List.foldl_cons]
  have e : openDec hw d fresh = ⟨1, some (withParam d hw)⟩ := by unfold openDec init fresh; rw [if_neg (by simp)]
  rw [e, opens_spec hw ds _ (by show 0 < (1 : BitVec 32).toNat; decide) (by show (1 : BitVec 32).toNat + ds.length < 2 ^ 32; simp; omega)]

/-- A program that asks for no AVX in every decoder gets none. -/
theorem C110_all_off_partial (hw : Flags) (n : Nat) (hn : n + 1 < 2 ^ 32) :
    ∃ c, ((List.replicate (n + 1) true).foldl (fun p d => openDec hw d p) fresh).chosen = some c ∧ c .avx = false ∧ c .avx2 = false := by
  rw [List.replicate_succ]
  exact ⟨_, C110_first_partial hw true _ (by rw [List.length_replicate]; exact hn), (C109_param hw).1, (C109_param hw).2.1⟩

/-- **C110, violated.** A decoder opened with `disable_avx = 1` after one opened with 0, on a processor with AVX2, uses the AVX2 functions. -/
theorem C110_violated : ∃ (h : Hw) (c : Flags), detect h = some c ∧
    ∃ t, (openDec c true (openDec c false fresh)).chosen = some t ∧ t .avx2 = true := by
  obtain ⟨c, e, hc⟩ := C109_exact (exHw true) (by decide +kernel)
  refine ⟨_, c, e, _, C110_first_partial c false [true] (by decide), ?_⟩
  have : usable (answers (exHw true)) .avx2 := by
    refine ⟨⟨?_, ?_, ?_, ?_⟩, ?_, ?_⟩ <;> decide +kernel
  exact (hc .avx2).2 ⟨this, fun q => by rcases q with q | q <;> cases q⟩

/-- **C110, two threads, violated.** If two threads open the first two decoders at the same time, the second can go on and decode while no function is set. -/
theorem C110_race_violated (c : Flags) : ∃ p1 a1 p2, tstep fresh (.check c) = (p1, a1) ∧ tstep p1 (.check c) = (p2, .ready) ∧ p2.chosen = none := by
  refine ⟨⟨1, none⟩, .fill c, ⟨2, none⟩, ?_, ?_, rfl⟩
  · unfold tstep fresh; simp
  · unfold tstep; simp

/-- One after the other they do not: the first sets the functions before the second looks. -/
theorem C110_serial_partial (c c' : Flags) : ∃ p1 a1 p2 p3, tstep fresh (.check c) = (p1, a1) ∧ tstep p1 a1 = (p2, .ready) ∧ tstep p2 (.check c') = (p3, .ready) ∧ p3.chosen = some c := by
  refine ⟨⟨1, none⟩, .fill c, ⟨1, some c⟩, ⟨2, some c⟩, ?_, rfl, ?_, rfl⟩
  · unfold tstep fresh; simp
  · unfold tstep; simp

example (hw : Flags) : ([true, false, false].foldl (fun p d => openDec hw d p) fresh).chosen = some (withParam true hw) := C110_first_partial hw true [false, false] (by decide)

end Davs2.Cd
