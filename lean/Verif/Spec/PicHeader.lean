import Verif.Spec.SeqHeader
/-
Specification: the picture headers of AVS2 as lists of syntax elements.  The parameters of the sequence
that decide which elements are present are `PicEnv`.  Nothing here refers to the parser.
-/
namespace Davs2.Spec

/-- What the sequence header decides. -/
structure PicEnv where
  background : Bool
  temporalId : Bool
  lowDelay : Bool
  fieldCoded : Bool
  alf : Bool
  /-- weighted quantisation is enabled -/
  weighting : Bool
  numRps : Nat

/-- Adaptive loop filter parameters of luma: the first coefficient set and, for each further one, the
distance of its region from the previous one and its coefficients. -/
structure AlfLumaSyntax where
  first : List Int
  more : List (Nat × List Int)

structure PicSyntax where
  bbvDelay : Nat
  coi : Nat
  layer : Nat
  delay : Nat
  /-- index of a set of the sequence header, or a set of its own -/
  rps : Sum Nat RpsSyntax
  bbvCheck : Nat
  progressive : Bool
  /-- picture_structure, transmitted for non-progressive pictures: true for frame -/
  frame : Bool
  tff : Nat
  rff : Nat
  topField : Nat
  fieldReserved : Nat
  fixedQp : Nat
  qp : Nat
  filterDisable : Bool
  /-- offsets of the loop filter, if transmitted -/
  offsets : Option (Int × Int)
  chromaDelta : Option (Int × Int)
  alfY : Option AlfLumaSyntax
  alfU : Option (List Int)
  alfV : Option (List Int)

/-- An element that may be absent. -/
def optBits {α : Type} (enc : α → List Bool) : Option α → List Bool
  | none => []
  | some a => enc a

def PicSyntax.orderBits (e : PicEnv) (s : PicSyntax) : List Bool :=
  List.flatten [bitsOfNat 8 s.coi, if e.temporalId then bitsOfNat 3 s.layer else [],
    if e.lowDelay then [] else ueCode s.delay]

def PicSyntax.rpsBits (s : PicSyntax) : List Bool :=
  match s.rps with
  | .inl i => List.flatten [bitsOfNat 1 1, bitsOfNat 5 i]
  | .inr r => List.flatten [bitsOfNat 1 0, r.bits]

def PicSyntax.structBits (e : PicEnv) (s : PicSyntax) : List Bool :=
  List.flatten [if e.lowDelay then ueCode s.bbvCheck else [],
    bitsOfNat 1 s.progressive.toNat, if s.progressive then [] else bitsOfNat 1 s.frame.toNat,
    bitsOfNat 1 s.tff, bitsOfNat 1 s.rff,
    if e.fieldCoded then List.flatten [bitsOfNat 1 s.topField, bitsOfNat 1 s.fieldReserved] else [],
    bitsOfNat 1 s.fixedQp, bitsOfNat 7 s.qp]

def PicSyntax.filterBits (s : PicSyntax) : List Bool :=
  List.flatten [bitsOfNat 1 s.filterDisable.toNat,
    if s.filterDisable then [] else
      match s.offsets with
      | none => List.flatten [bitsOfNat 1 0]
      | some (a, b) => List.flatten [bitsOfNat 1 1, seCode a, seCode b],
    match s.chromaDelta with
    | none => bitsOfNat 1 1
    | some _ => bitsOfNat 1 0,
    match s.chromaDelta with
    | none => []
    | some (u, v) => List.flatten [seCode u, seCode v]]

/-- With weighted quantisation each picture says whether it has parameters of its own; only pictures without
any are described here. -/
def weightingBits (e : PicEnv) : List Bool := if e.weighting then bitsOfNat 1 0 else []

def AlfLumaSyntax.bits (a : AlfLumaSyntax) : List Bool :=
  List.flatten [ueCode a.more.length, a.first.flatMap seCode,
    a.more.flatMap fun e =>
      List.flatten [if a.more.length + 1 = 16 then [] else ueCode e.1, e.2.flatMap seCode]]

def PicSyntax.alfBits (e : PicEnv) (s : PicSyntax) : List Bool :=
  if e.alf then
    List.flatten [bitsOfNat 1 s.alfY.isSome.toNat, bitsOfNat 1 s.alfU.isSome.toNat,
      bitsOfNat 1 s.alfV.isSome.toNat,
      optBits AlfLumaSyntax.bits s.alfY, optBits (fun c => c.flatMap seCode) s.alfU,
      optBits (fun c => c.flatMap seCode) s.alfV]
  else []

/-- Kind of an intra picture: ordinary, or background with or without output. -/
inductive IntraKind where
  | ordinary | backgroundShown | backgroundHidden
  deriving DecidableEq, Repr

def IntraKind.bits (e : PicEnv) (k : IntraKind) : List Bool :=
  if e.background then
    match k with
    | .ordinary => List.flatten [bitsOfNat 1 0]
    | .backgroundShown => List.flatten [bitsOfNat 1 1, bitsOfNat 1 1]
    | .backgroundHidden => List.flatten [bitsOfNat 1 1, bitsOfNat 1 0]
  else []

/-- Intra picture header. -/
def intraBits (e : PicEnv) (sc : List Bool) (timeCode : Option Nat) (k : IntraKind) (s : PicSyntax) :
    List Bool :=
  List.flatten [sc, bitsOfNat 32 s.bbvDelay, bitsOfNat 1 timeCode.isSome.toNat,
    optBits (bitsOfNat 24) timeCode,
    k.bits e, s.orderBits e, s.rpsBits, s.structBits e, s.filterBits, weightingBits e, s.alfBits e]

/-- Kind of an inter picture.  `S` predicts from the background only; `P` and `F` may refer to it. -/
inductive InterKind where
  | P (ref : Bool)
  | S
  | B
  | F (ref : Bool)
  deriving DecidableEq, Repr

def InterKind.code : InterKind → Nat
  | .P _ => 1
  | .S => 1
  | .B => 2
  | .F _ => 3

def InterKind.bits (e : PicEnv) (k : InterKind) : List Bool :=
  if e.background then
    match k with
    | .P r => List.flatten [bitsOfNat 2 1, bitsOfNat 1 0, bitsOfNat 1 r.toNat]
    | .S => List.flatten [bitsOfNat 2 1, bitsOfNat 1 1]
    | .B => List.flatten [bitsOfNat 2 2]
    | .F r => List.flatten [bitsOfNat 2 3, bitsOfNat 1 r.toNat]
  else List.flatten [bitsOfNat 2 k.code]

/-- Without background pictures there are neither S pictures nor references to the background. -/
def InterKind.Legal (e : PicEnv) : InterKind → Prop
  | .P r => e.background = false → r = false
  | .S => e.background = true
  | .B => True
  | .F r => e.background = false → r = false

/-- Inter picture header. -/
def interBits (e : PicEnv) (sc : List Bool) (k : InterKind) (reserved ra : Nat) (s : PicSyntax) :
    List Bool :=
  List.flatten [sc, bitsOfNat 32 s.bbvDelay, k.bits e, s.orderBits e, s.rpsBits, s.structBits e,
    if k.code = 2 ∧ (s.progressive || s.frame) = true then [] else bitsOfNat 1 reserved,
    bitsOfNat 1 ra, s.filterBits, weightingBits e, s.alfBits e]

/-- A coefficient list: nine numbers that the code can express. -/
def CoeffLegal (c : List Int) : Prop := c.length = 9 ∧ ∀ x ∈ c, x.natAbs ≤ 2 ^ 30 - 1

structure AlfLumaSyntax.Legal (a : AlfLumaSyntax) : Prop where
  first : CoeffLegal a.first
  count : a.more.length ≤ 15
  more : ∀ e ∈ a.more, CoeffLegal e.2
  full : a.more.length = 15 → ∀ e ∈ a.more, e.1 = 1
  sum : (a.more.map (·.1)).sum ≤ 15

structure PicSyntax.Legal (e : PicEnv) (s : PicSyntax) : Prop where
  bbv : s.bbvDelay < 2 ^ 32
  coi : s.coi < 256
  layer : s.layer < 8
  layerAbsent : e.temporalId = false → s.layer = 0
  delay : s.delay < 64
  delayAbsent : e.lowDelay = true → s.delay = 0
  idx : ∀ i, s.rps = .inl i → i < e.numRps ∧ i < 32
  own : ∀ r, s.rps = .inr r → r.Legal
  bbvCheck : s.bbvCheck ≤ 2 ^ 31 - 2
  tff : s.tff < 2
  rff : s.rff < 2
  topField : s.topField < 2
  topFieldAbsent : e.fieldCoded = false → s.topField = 0
  fieldReserved : s.fieldReserved < 2
  fixedQp : s.fixedQp < 2
  qp : s.qp < 128
  offsets : ∀ a b, s.offsets = some (a, b) → a.natAbs ≤ 2 ^ 30 - 1 ∧ b.natAbs ≤ 2 ^ 30 - 1
  chromaDelta : ∀ a b, s.chromaDelta = some (a, b) → a.natAbs ≤ 2 ^ 30 - 1 ∧ b.natAbs ≤ 2 ^ 30 - 1
  alfY : ∀ a, s.alfY = some a → a.Legal
  alfU : ∀ c, s.alfU = some c → CoeffLegal c
  alfV : ∀ c, s.alfV = some c → CoeffLegal c
  alfAbsent : e.alf = false → s.alfY = none ∧ s.alfU = none ∧ s.alfV = none

end Davs2.Spec
