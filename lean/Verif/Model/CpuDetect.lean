/-
Which instruction sets are used: `davs2_cpu_detect`, source/common/cpu.cc:175-378 (x86-64), the text of `davs2_get_simd_capabilities`, cpu.cc:84-167, the switch
`disable_avx` and the buffer of the text in `davs2_decoder_open`, source/common/davs2.cc:443, 468-480, and the guard of `init_all_primitives`, source/common/primitives.cc:51-73.

Simplified: the set of flags (a `uint32_t`) is a function from the names of the bits (defines.h:258-290) to `Bool`, so `|=` and `&= ~` set and clear members.
The cache line size from leaf 2 (cpu.cc:339-362) is any number `leaf2`.  `BROKEN_STACK_ALIGNMENT` is defined nowhere.
-/
namespace Davs2.Cd

/-- The bits of `cpuid`, defines.h:258-290. -/
inductive F
  | cmov | mmx | mmx2 | sse | sse2 | sse3 | ssse3 | sse4 | sse42 | lzcnt | avx | xop | fma4 | avx2 | fma3 | bmi1 | bmi2
  | cache32 | cache64 | sse2Slow | sse2Fast | slowShuffle | stackMod4 | slowCtz | slowAtom | slowPshufb | slowPalignr
deriving DecidableEq

abbrev Flags := F → Bool

/-- `cpuid |= …`, `cpuid &= ~(…)`. -/
def Flags.on (s : Flags) (l : List F) : Flags := fun f => s f || decide (f ∈ l)
def Flags.off (s : Flags) (l : List F) : Flags := fun f => s f && !decide (f ∈ l)

structure Regs where
  eax : BitVec 32
  ebx : BitVec 32
  ecx : BitVec 32
  edx : BitVec 32

/-- A processor with its operating system: what `cpuid` answers for each leaf, what `xgetbv` answers, and the cache line size of leaf 2. -/
structure Hw where
  leaf : BitVec 32 → Regs
  xcr0 : BitVec 32
  leaf2 : Nat

/-- `davs2_cpu_cpuid`, cpu-a.asm:37-55; `none`: a leaf the processor does not have, whose answer means nothing. -/
def Hw.cpuid (h : Hw) (op : BitVec 32) : Option Regs :=
  if op = 0 ∨ op = 0x80000000#32 ∨ (op.toNat < 2 ^ 31 ∧ op.toNat ≤ (h.leaf 0).eax.toNat) ∨
      (2 ^ 31 ≤ op.toNat ∧ op.toNat ≤ (h.leaf 0x80000000#32).eax.toNat) then some (h.leaf op) else none

/-- `davs2_cpu_xgetbv(0, …)`, cpu-a.asm:60-69: `eax`; `none`: the instruction faults, since the operating system has not enabled it (bit 27 of `ecx` of leaf 1). -/
def Hw.xgetbv (h : Hw) : Option (BitVec 32) := if (h.leaf 1).ecx.getLsbD 27 then some h.xcr0 else none

/-- `if (x & m)`. -/
def test (x m : BitVec 32) : Bool := x &&& m != 0

/-- cpu.cc:213-227. -/
def simd (r : Regs) (c : Flags) : Flags :=
  let c := if test r.edx 0x04000000 then c.on [.sse2] else c
  let c := if test r.ecx 0x00000001 then c.on [.sse3] else c
  let c := if test r.ecx 0x00000200 then c.on [.ssse3] else c
  let c := if test r.ecx 0x00080000 then c.on [.sse4] else c
  if test r.ecx 0x00100000 then c.on [.sse42] else c

/-- cpu.cc:229-239. -/
def osAvx (h : Hw) (r : Regs) (c : Flags) : Option Flags :=
  if r.ecx &&& 0x18000000 = 0x18000000 then
    h.xgetbv.bind fun x =>
      if x &&& 6 = 6 then some (if test r.ecx 0x00001000 then (c.on [.avx]).on [.fma3] else c.on [.avx]) else some c
  else some c

/-- cpu.cc:241-253. -/
def leaf7 (h : Hw) (maxBasic : BitVec 32) (c : Flags) : Option Flags :=
  if 7 ≤ maxBasic.toNat then
    (h.cpuid 7).bind fun r =>
      let c := if c .avx && test r.ebx 0x00000020 then c.on [.avx2] else c
      some (if test r.ebx 0x00000008 then (if test r.ebx 0x00000100 then (c.on [.bmi1]).on [.bmi2] else c.on [.bmi1]) else c)
  else some c

/-- `((eax >> 8) & 0xf) + ((eax >> 20) & 0xff)` and `((eax >> 4) & 0xf) + ((eax >> 12) & 0xf0)`. -/
def family (eax : BitVec 32) : Nat := eax.toNat / 2 ^ 8 % 16 + eax.toNat / 2 ^ 20 % 256
def model (eax : BitVec 32) : Nat := eax.toNat / 2 ^ 4 % 16 + eax.toNat / 2 ^ 12 % 256 / 16 * 16

/-- `strcmp((char *)vendor, …)` with the registers of leaf 0, cpu.cc:190. -/
def isAmd (r : Regs) : Bool := r.ebx = 0x68747541 && r.edx = 0x69746e65 && r.ecx = 0x444d4163
def isIntel (r : Regs) : Bool := r.ebx = 0x756e6547 && r.edx = 0x49656e69 && r.ecx = 0x6c65746e
def isCyrix (r : Regs) : Bool := r.ebx = 0x69727943 && r.edx = 0x736e4978 && r.ecx = 0x64616574

/-- SSE4a, cpu.cc:268-281. -/
def amdFamily (r : Regs) (c : Flags) : Flags :=
  if test r.ecx 0x00000040 then
    let c := c.on [.sse2Fast]
    let c := if family r.eax = 0x14 then ((c.off [.sse2Fast]).on [.sse2Slow]).on [.slowPalignr] else c
    if family r.eax = 0x16 then c.on [.slowPshufb] else c
  else c

/-- cpu.cc:293-303. -/
def amd (r : Regs) (c : Flags) : Flags :=
  let c := if test r.edx 0x00400000 then c.on [.mmx2] else c
  let c := if !c .lzcnt then c.on [.slowCtz] else c
  if c .sse2 && !c .sse2Fast then c.on [.sse2Slow] else c

/-- cpu.cc:259-304. -/
def extended (h : Hw) (r0 : Regs) (maxExt : BitVec 32) (c : Flags) : Option Flags :=
  if 0x80000001 ≤ maxExt.toNat then
    (h.cpuid 0x80000001#32).bind fun r =>
      let c := if test r.ecx 0x00000020 then c.on [.lzcnt] else c
      let c := amdFamily r c
      let c := if c .avx then
          let c := if test r.ecx 0x00000800 then c.on [.xop] else c
          if test r.ecx 0x00010000 then c.on [.fma4] else c
        else c
      some (if isAmd r0 then amd r c else c)
  else some c

/-- cpu.cc:306-326. -/
def intel (h : Hw) (r0 : Regs) (c : Flags) : Option Flags :=
  if isIntel r0 then
    (h.cpuid 1).bind fun r =>
      if family r.eax = 6 then
        if model r.eax = 9 ∨ model r.eax = 13 ∨ model r.eax = 14 then some (c.off [.sse2, .sse3])
        else if model r.eax = 28 then some (((c.on [.slowAtom]).on [.slowCtz]).on [.slowPshufb])
        else if c .ssse3 && !c .sse4 && decide (model r.eax < 23) then some (c.on [.slowShuffle])
        else some c
      else some c
  else some c

/-- cpu.cc:328-371. -/
def cacheLine (h : Hw) (r0 : Regs) (maxBasic maxExt : BitVec 32) (c : Flags) : Option Flags :=
  if (isIntel r0 || isCyrix r0) && !c .sse42 then
    (h.cpuid 1).bind fun r =>
      let cache := r.ebx.toNat / 2 ^ 8 % 256 * 8
      (if cache = 0 ∧ 0x80000006 ≤ maxExt.toNat then (h.cpuid 0x80000006#32).map fun r => r.ecx.toNat % 256 else some cache).bind fun cache =>
        (if cache = 0 ∧ 2 ≤ maxBasic.toNat then (h.cpuid 2).map fun _ => h.leaf2 else some cache).bind fun cache =>
          some (if cache = 32 then c.on [.cache32] else if cache = 64 then c.on [.cache64] else c)
  else some c

/-- `davs2_cpu_detect`, cpu.cc:175-378; `none`: an answer without meaning is used, or an instruction faults. -/
def detect (h : Hw) : Option Flags :=
  (h.cpuid 0).bind fun r0 =>
  if r0.eax = 0 then some fun _ => false else
  (h.cpuid 1).bind fun r1 =>
  let c : Flags := fun _ => false
  if !test r1.edx 0x00800000 then some c else
  let c := c.on [.mmx]
  let c := if test r1.edx 0x02000000 then c.on [.mmx2, .sse] else c
  if !test r1.edx 0x00008000 then some c else
  (osAvx h r1 (simd r1 (c.on [.cmov]))).bind fun c =>
  (leaf7 h r0.eax c).bind fun c =>
  let c := if c .ssse3 then c.on [.sse2Fast] else c
  (h.cpuid 0x80000000#32).bind fun rx =>
  (extended h r0 rx.eax c).bind fun c =>
  (intel h r0 c).bind fun c =>
  cacheLine h r0 r0.eax rx.eax c

/-- `cpuid &= ~(AVX | AVX2)`, davs2.cc:470-472. -/
def withParam (disableAvx : Bool) (c : Flags) : Flags := if disableAvx then c.off [.avx, .avx2] else c

/-! ### The text -/

def fMmx2 : List F := [.mmx, .mmx2, .cmov]
def fSse2 : List F := fMmx2 ++ [.sse, .sse2]
def fSse4 : List F := fSse2 ++ [.sse3, .ssse3, .sse4]
def fAvx : List F := fSse4 ++ [.sse42, .avx]

/-- `davs2_cpu_names`, cpu.cc:84-128. -/
def names : List (String × List F) := [
  ("MMX2", fMmx2), ("MMXEXT", fMmx2), ("SSE", fMmx2 ++ [.sse]), ("SSE2Slow", fSse2 ++ [.sse2Slow]), ("SSE2", fSse2), ("SSE2Fast", fSse2 ++ [.sse2Fast]),
  ("SSE3", fSse2 ++ [.sse3]), ("SSSE3", fSse2 ++ [.sse3, .ssse3]), ("SSE4.1", fSse4), ("SSE4", fSse4), ("SSE4.2", fSse4 ++ [.sse42]),
  ("AVX", fAvx), ("XOP", fAvx ++ [.xop]), ("FMA4", fAvx ++ [.fma4]), ("AVX2", fAvx ++ [.avx2]), ("FMA3", fAvx ++ [.fma3]),
  ("Cache32", [.cache32]), ("Cache64", [.cache64]), ("LZCNT", [.lzcnt]), ("BMI1", [.bmi1]), ("BMI2", [.bmi1, .bmi2]), ("SlowCTZ", [.slowCtz]),
  ("SlowAtom", [.slowAtom]), ("SlowPshufb", [.slowPshufb]), ("SlowPalignr", [.slowPalignr]), ("SlowShuffle", [.slowShuffle]), ("UnalignedStack", [.stackMod4])]

/-- The names that are left out, cpu.cc:141-155. -/
def leftOut (c : Flags) (n : String) : Bool :=
  (n == "SSE" && c .sse2) || (n == "SSE2" && (c .sse2Fast || c .sse2Slow)) || (n == "SSE3" && (c .ssse3 || !c .cache64)) ||
  (n == "SSE4.1" && c .sse42) || (n == "BMI1" && c .bmi2)

/-- The loop of `davs2_get_simd_capabilities`, cpu.cc:140-159; `prev` are the flags of the entry before. -/
def textGo (c : Flags) : Option (List F) → List (String × List F) → String
  | _, [] => ""
  | prev, (n, fs) :: l =>
    (if !leftOut c n && fs.all c && decide (prev ≠ some fs) then " " ++ n else "") ++ textGo c (some fs) l

/-- `davs2_get_simd_capabilities`, cpu.cc:136-167: the text without its end mark; `%x` of a set without names is at most 8 digits, given here as `hex`. -/
def text (c : Flags) (hex : String) : String := let t := textGo c none names; if t = "" then " none! 0x" ++ hex else t

/-- `char buf_cpu[120]`, davs2.cc:443. -/
def bufSize : Nat := 120

/-! ### The table of functions -/

/-- `gf_davs2`: how often it was initialised (`uint32_t`) and for which flags its functions were chosen (`none`: no function is set). -/
structure Prim where
  count : BitVec 32
  chosen : Option Flags

/-- `init_all_primitives`, primitives.cc:51-73. -/
def init (c : Flags) (p : Prim) : Prim := if p.count ≠ 0 then { p with count := p.count + 1 } else ⟨1, some c⟩

/-- The part of `davs2_decoder_open` that chooses functions, davs2.cc:468-474. -/
def openDec (hw : Flags) (disableAvx : Bool) (p : Prim) : Prim := init (withParam disableAvx hw) p

/-- The same as the steps two threads can interleave: `.check` reads the counter and writes it, `.fill` sets the functions (primitives.cc:53-59 and 60-71);
a thread that finds the counter set goes on. -/
inductive Pc | check (c : Flags) | fill (c : Flags) | ready

def tstep (p : Prim) : Pc → Prim × Pc
  | .check c => if p.count ≠ 0 then ({ p with count := p.count + 1 }, .ready) else ({ p with count := 1 }, .fill c)
  | .fill c => ({ p with chosen := some c }, .ready)
  | .ready => (p, .ready)

end Davs2.Cd
