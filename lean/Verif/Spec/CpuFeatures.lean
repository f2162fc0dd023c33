/- When a program may use an instruction set of x86, after the processor manuals: bits of `cpuid` leaves 1 and 7 and of XCR0. -/
namespace Davs2.CpuSpec

/-- What processor and operating system say: highest basic leaf, `ecx` and `edx` of leaf 1, `ebx` of leaf 7, XCR0. -/
structure Answers where
  maxLeaf : Nat
  ecx1 : BitVec 32
  edx1 : BitVec 32
  ebx7 : BitVec 32
  xcr0 : BitVec 32

/-- Instruction sets. -/
inductive Set | sse2 | sse3 | ssse3 | sse41 | sse42 | avx | avx2

/-- AVX needs the operating system: OSXSAVE, and XMM and YMM state enabled. -/
def avxUsable (a : Answers) : Prop := a.ecx1.getLsbD 28 ∧ a.ecx1.getLsbD 27 ∧ a.xcr0.getLsbD 1 ∧ a.xcr0.getLsbD 2

def usable (a : Answers) : Set → Prop
  | .sse2 => a.edx1.getLsbD 26
  | .sse3 => a.ecx1.getLsbD 0
  | .ssse3 => a.ecx1.getLsbD 9
  | .sse41 => a.ecx1.getLsbD 19
  | .sse42 => a.ecx1.getLsbD 20
  | .avx => avxUsable a
  | .avx2 => avxUsable a ∧ 7 ≤ a.maxLeaf ∧ a.ebx7.getLsbD 5

end Davs2.CpuSpec
