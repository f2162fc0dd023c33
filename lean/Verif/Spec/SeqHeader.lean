import Verif.Spec.Bits
/-
Specification: the sequence header of AVS2 as a list of syntax elements with their widths, in the order
in which they are transmitted.  Nothing here refers to the parser.
-/
namespace Davs2.Spec

/-- A reference set of the sequence header. -/
structure RpsSyntax where
  refd : Nat
  refs : List Nat
  removes : List Nat

structure SeqSyntax where
  profile : Nat
  level : Nat
  progressive : Nat
  fieldCoded : Nat
  width : Nat
  height : Nat
  chroma : Nat
  samplePrec : Nat
  encPrec : Nat
  aspect : Nat
  frameRate : Nat
  bitRateLower : Nat
  bitRateUpper : Nat
  lowDelay : Nat
  temporalId : Nat
  bbv : Nat
  log2Lcu : Nat
  /-- `none`: weighting off; `some none`: default matrices; else the 16 + 64 transmitted entries. -/
  weights : Option (Option (List Nat × List Nat))
  /-- background_picture_disable, mhpskip, dhp, wsm, amp, nsqt, sdip, secondary transform, sao, alf,
  pmvr -/
  bgDisable : Nat
  mhpSkip : Nat
  dhp : Nat
  wsm : Nat
  amp : Nat
  nsqt : Nat
  sdip : Nat
  secT : Nat
  sao : Nat
  alf : Nat
  pmvr : Nat
  rps : List RpsSyntax
  reorderDelay : Nat
  crossLoop : Nat
  reserved : Nat

/-- Bits of one reference set. -/
def RpsSyntax.bits (r : RpsSyntax) : List Bool :=
  List.flatten [bitsOfNat 1 r.refd, bitsOfNat 3 r.refs.length, r.refs.flatMap (bitsOfNat 6),
    bitsOfNat 3 r.removes.length, r.removes.flatMap (bitsOfNat 6), bitsOfNat 1 1]

def SeqSyntax.fmtBits (s : SeqSyntax) : List Bool :=
  List.flatten [bitsOfNat 8 s.profile, bitsOfNat 8 s.level, bitsOfNat 1 s.progressive,
    bitsOfNat 1 s.fieldCoded, bitsOfNat 14 s.width, bitsOfNat 14 s.height, bitsOfNat 2 s.chroma,
    bitsOfNat 3 s.samplePrec, if s.profile = 0x22 then bitsOfNat 3 s.encPrec else []]

def SeqSyntax.rateBits (s : SeqSyntax) : List Bool :=
  List.flatten [bitsOfNat 4 s.aspect, bitsOfNat 4 s.frameRate, bitsOfNat 18 s.bitRateLower,
    bitsOfNat 1 1, bitsOfNat 12 s.bitRateUpper, bitsOfNat 1 s.lowDelay, bitsOfNat 1 1,
    bitsOfNat 1 s.temporalId, bitsOfNat 18 s.bbv]

def SeqSyntax.weightBits (s : SeqSyntax) : List Bool :=
  match s.weights with
  | none => List.flatten [bitsOfNat 1 0]
  | some none => List.flatten [bitsOfNat 1 1, bitsOfNat 1 0]
  | some (some (a, b)) =>
    List.flatten [bitsOfNat 1 1, bitsOfNat 1 1, a.flatMap ueCode, b.flatMap ueCode]

def SeqSyntax.flagBits (s : SeqSyntax) : List Bool :=
  List.flatten [bitsOfNat 1 s.bgDisable, bitsOfNat 1 s.mhpSkip, bitsOfNat 1 s.dhp, bitsOfNat 1 s.wsm,
    bitsOfNat 1 s.amp, bitsOfNat 1 s.nsqt, bitsOfNat 1 s.sdip, bitsOfNat 1 s.secT, bitsOfNat 1 s.sao,
    bitsOfNat 1 s.alf, bitsOfNat 1 s.pmvr]

def SeqSyntax.tailBits (s : SeqSyntax) : List Bool :=
  List.flatten [bitsOfNat 1 1, bitsOfNat 6 s.rps.length, s.rps.flatMap RpsSyntax.bits,
    if s.lowDelay = 0 then bitsOfNat 5 s.reorderDelay else [], bitsOfNat 1 s.crossLoop,
    bitsOfNat 2 s.reserved]

/-- The whole header, start code first. -/
def SeqSyntax.bits (s : SeqSyntax) (startCode : List Bool) : List Bool :=
  List.flatten [startCode, s.fmtBits, s.rateBits, bitsOfNat 3 s.log2Lcu, s.weightBits, s.flagBits,
    s.tailBits]

/-- What a reference set may contain. -/
structure RpsSyntax.Legal (r : RpsSyntax) : Prop where
  refd : r.refd < 2
  nref : r.refs.length ≤ 4
  nrem : r.removes.length ≤ 7
  refs : ∀ x ∈ r.refs, x < 64
  removes : ∀ x ∈ r.removes, x < 64

/-- What the elements may contain: whatever fits their width, except where the format restricts it. -/
structure SeqSyntax.Legal (s : SeqSyntax) : Prop where
  profile : s.profile < 256
  level : s.level < 256
  progressive : s.progressive < 2
  fieldCoded : s.fieldCoded < 2
  width : 16 ≤ s.width ∧ s.width < 16384
  height : 16 ≤ s.height ∧ s.height < 16384
  chroma : s.chroma ≤ 1
  samplePrec : 1 ≤ s.samplePrec ∧ s.samplePrec ≤ 3
  encPrec : 1 ≤ s.encPrec ∧ s.encPrec ≤ 3
  encDefault : s.profile ≠ 0x22 → s.encPrec = 1
  aspect : s.aspect < 16
  frameRate : s.frameRate < 16
  lower : s.bitRateLower < 2 ^ 18
  upper : s.bitRateUpper < 2 ^ 12
  lowDelay : s.lowDelay < 2
  temporalId : s.temporalId < 2
  bbv : s.bbv < 2 ^ 18
  log2Lcu : 4 ≤ s.log2Lcu ∧ s.log2Lcu ≤ 6
  weights : ∀ a b, s.weights = some (some (a, b)) →
    a.length = 16 ∧ b.length = 64 ∧ (∀ x ∈ a, x < 32768) ∧ ∀ x ∈ b, x < 32768
  bgDisable : s.bgDisable < 2
  mhpSkip : s.mhpSkip < 2
  dhp : s.dhp < 2
  wsm : s.wsm < 2
  amp : s.amp < 2
  nsqt : s.nsqt < 2
  sdip : s.sdip < 2
  secT : s.secT < 2
  sao : s.sao < 2
  alf : s.alf < 2
  pmvr : s.pmvr < 2
  nrps : s.rps.length ≤ 32
  rps : ∀ r ∈ s.rps, r.Legal
  reorder : s.reorderDelay < 32
  reorderLow : s.lowDelay ≠ 0 → s.reorderDelay = 0
  crossLoop : s.crossLoop < 2
  reserved : s.reserved < 4

end Davs2.Spec
