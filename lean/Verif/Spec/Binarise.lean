import Verif.Spec.AecSyntax
/-
How the syntax elements of the coding units are written: the sequence of bins for each value, each bin with the
context that it is coded with.  The tables are written from the encoder's side; nothing here refers to the
functions of Model/AecSyntax.
-/
namespace Davs2.Sx

/-- A bin with the way it is coded: with a context, with equal probabilities, or as an end marker. -/
inductive Bin
  | ctx (a : Arr) (i : Nat) (b : Bool)
  | eq (b : Bool)
  | fin (b : Bool)
  deriving DecidableEq

/-- Does the decoder deliver this bin next?  State afterwards. -/
def hit {σ : Type} (r : Option (Bool × σ)) (b : Bool) : Option σ :=
  match r with
  | some (b', s') => if b' = b then some s' else none
  | none => none

def Machine.step {σ : Type} (m : Machine σ) : Bin → σ → Option σ
  | .ctx a i b, s => hit (m.sym a i s) b
  | .eq b, s => hit (m.eq s) b
  | .fin b, s => hit (m.fin s) b

/-- From state `s` the decoder delivers the bins `c` and is then in the state `s'`; all states on the way are
good (`G`: at least without an error). -/
inductive Produces {σ : Type} (G : σ → Prop) (m : Machine σ) : σ → List Bin → σ → Prop
  | nil {s : σ} : G s → Produces G m s [] s
  | cons {s s1 s2 : σ} {b : Bin} {c : List Bin} : G s → m.step b s = some s1 → Produces G m s1 c s2 →
      Produces G m s (b :: c) s2

/-- `k` as unary code of zeros with a final one, which is omitted at the largest value; the bin after `j` zeros
has the context `f j`. -/
def unary (a : Arr) (f : Nat → Nat) (max k : Nat) : List Bin :=
  (List.range k).map (fun j => .ctx a (f j) false) ++ (if k < max then [.ctx a (f k) true] else [])

/-- Good states are without an error, and in good states the unary loops of the decoder find the unary codes. -/
structure Machine.Lawful {σ : Type} (m : Machine σ) (G : σ → Prop) : Prop where
  err : ∀ s, G s → m.err s = false
  run0 : ∀ a i max k s s', k ≤ max → Produces G m s (unary a (fun _ => i) max k) s' → m.run0 a i max s = some (k, s')
  runExt : ∀ a i inc max k s s', k ≤ max → Produces G m s (unary a (fun j => i + min j inc) max k) s' →
    m.runExt a i inc max s = some (k, s')

/-- A decoder without errors, whose unary loops find nothing but unary codes. -/
structure Machine.Quiet {σ : Type} (m : Machine σ) (G : σ → Prop) : Prop where
  good : ∀ s, G s
  err : ∀ s, m.err s = false
  run0 : ∀ a i max k s s', m.run0 a i max s = some (k, s') →
    k ≤ max ∧ Produces G m s (unary a (fun _ => i) max k) s'
  runExt : ∀ a i inc max k s s', m.runExt a i inc max s = some (k, s') →
    k ≤ max ∧ Produces G m s (unary a (fun j => i + min j inc) max k) s'

/-- The value is found if one of its codes is delivered. -/
def Decodes {σ α : Type} (G : σ → Prop) (m : Machine σ) (p : P σ α) (T : α → List Bin → Prop) : Prop :=
  ∀ v c, T v c → ∀ s s', Produces G m s c s' → p s = .ok (v, s')

/-- The table `T` (value and code) describes exactly what is read: whenever the decoder delivers the code of a
value through good states, this value is found and exactly its bins are used; and nothing but these codes is
accepted. -/
structure Codes {σ α : Type} (G : σ → Prop) (m : Machine σ) (p : P σ α) (T : α → List Bin → Prop) : Prop where
  reads : m.Lawful G → Decodes G m p T
  only : m.Quiet G → ∀ s v s', p s = .ok (v, s') → ∃ c, T v c ∧ Produces G m s c s'

/-- A finite table. -/
def In {α : Type} (L : List (α × List Bin)) (v : α) (c : List Bin) : Prop := (v, c) ∈ L

/-! ### A decoder that delivers a given list of bins -/

/-- Unary loop over a list: `n` further bins at most, `k` zeros so far. -/
def scriptRun (a : Arr) (f : Nat → Nat) : Nat → Nat → List Bin → Option (Nat × List Bin)
  | 0, k, s => some (k, s)
  | n + 1, k, .ctx a' i b :: s =>
    if a' = a ∧ i = f k then (if b then some (k, s) else scriptRun a f n (k + 1) s) else none
  | _ + 1, _, _ => none

def script : Machine (List Bin) where
  sym a i s := match s with
    | .ctx a' i' b :: s => if a' = a ∧ i' = i then some (b, s) else none
    | _ => none
  eq s := match s with
    | .eq b :: s => some (b, s)
    | _ => none
  fin s := match s with
    | .fin b :: s => some (b, s)
    | _ => none
  run0 a i max s := scriptRun a (fun _ => i) max 0 s
  runExt a i inc max s := scriptRun a (fun j => i + min j inc) max 0 s
  err _ := false
  clear s := s

/-! ### Tables of the syntax elements -/

/-- A bin with context `i` of `a` for each digit. -/
def cx (a : Arr) (i : Nat) (b : Nat) : Bin := .ctx a i (b == 1)
def by_ (b : Nat) : Bin := .eq (b == 1)

/-- Split flag of a unit of size `2 ^ level`. -/
def splitT (level : Nat) : List (Bool × List Bin) :=
  [(false, [cx .split (level - 4) 0]), (true, [cx .split (level - 4) 1])]

/-- Mode of the two hypotheses of one block: 0, or one of eight displacements in two rings of four. -/
def dmhT (level : Nat) : List (Int × List Bin) :=
  let i := 3 * (level - 3) + 3
  let p (b : Nat) := cx .puType i b
  let q (b : Nat) := cx .puType (i + 1) b
  let r (b : Nat) := cx .puType (i + 2) b
  [(0, [p 0]),
   (1, [p 1, q 1, r 1, by_ 0, by_ 0]), (2, [p 1, q 1, r 1, by_ 0, by_ 1]),
   (3, [p 1, q 0, by_ 0]), (4, [p 1, q 0, by_ 1]),
   (5, [p 1, q 1, r 1, by_ 1, by_ 0]), (6, [p 1, q 1, r 1, by_ 1, by_ 1]),
   (7, [p 1, q 1, r 0, by_ 0]), (8, [p 1, q 1, r 0, by_ 1])]

/-- Unary code of the values up to `max`. -/
def unaryT (a : Arr) (f : Nat → Nat) (max : Nat) : List (Nat × List Bin) :=
  (List.range (max + 1)).map fun k => (k, unary a f max k)

/-- Weighted skip mode with `n` references. -/
def wpmT (n : Nat) : List (Nat × List Bin) := unaryT .wsm (min · 2) (n - 1)

/-- Direct and skip mode. -/
def dirSkipT : List (Nat × List Bin) := unaryT .subtype id 4

/-- Type and transform split of an intra unit (8: 2Nx2N, 9: NxN, 10: four horizontal, 11: four vertical strips;
split 0 none, 3 in four, 1 horizontal, 2 vertical). -/
def intraTypeT (sdip : Bool) (level : Nat) : List ((Nat × Option Nat) × List Bin) :=
  if level = 3 then [((8, some 0), [cx .tuSplit 1 0]), ((9, some 3), [cx .tuSplit 1 1])]
  else if sdip ∧ level < 6 then
    [((8, some 0), [cx .tuSplit 2 0]), ((10, some 1), [cx .tuSplit 2 1, cx .intraPuType 0 1]),
     ((11, some 2), [cx .tuSplit 2 1, cx .intraPuType 0 0])]
  else [((8, some 0), [])]

/-- Exp-Golomb code of order 0: `k` zeros, a one and the last `k` bits of `n + 1`, where `2 ^ k` is the highest
power in `n + 1`. -/
def expGolomb (n : Nat) : List Bin :=
  let k := Nat.log2 (n + 1)
  List.replicate k (.eq false) ++ [.eq true] ++ (List.range k).reverse.map fun j => .eq ((n + 1).testBit j)

/-- Component of a motion vector difference. -/
def mvdCode (a : Arr) (v : Int) : List Bin :=
  match v.natAbs with
  | 0 => [cx a 0 0]
  | 1 => [cx a 0 1, cx a 1 0, .eq (decide (v < 0))]
  | 2 => [cx a 0 1, cx a 1 1, cx a 2 0, .eq (decide (v < 0))]
  | n + 3 => [cx a 0 1, cx a 1 1, cx a 2 1, .eq (n % 2 == 1)] ++ expGolomb (n / 2) ++ [.eq (decide (v < 0))]

def mvdT (a : Arr) (v : Int) (c : List Bin) : Prop := v.natAbs ≤ 2147483647 ∧ c = mvdCode a v

/-- Level of a coefficient, given the context of the unary part: up to 32 unary, then Exp-Golomb. -/
def levelCode (ctx : Nat) (v : Nat) : List Bin :=
  if v ≤ 32 then .fin false :: unary .level (fun _ => ctx) 31 (v - 1) else .fin true :: expGolomb (v - 33)

/-- Context of a level: it depends on the component, on whether the coefficient is one of the first three of the
block, on the number `n` of levels already read in the group, and on the rank of the largest of them. -/
def levelCtx (luma low : Bool) (rank n : Nat) : Nat :=
  (if luma then 0 else 20) + (if low then 10 else 0) +
    (if n = 0 then min rank 2 else if n ≤ 2 then 2 + min rank 3 else 5 + min rank 4)

def intraPmodeT : List (Int × List Bin) :=
  [(-2, [cx .lumaMode 0 1, cx .lumaMode 6 0]), (-1, [cx .lumaMode 0 1, cx .lumaMode 6 1])] ++
  ((List.range 32).map fun (n : Nat) => ((n : Int), cx .lumaMode 0 0 ::
    [.ctx .lumaMode 1 (n.testBit 4), .ctx .lumaMode 2 (n.testBit 3), .ctx .lumaMode 3 (n.testBit 2),
     .ctx .lumaMode 4 (n.testBit 1), .ctx .lumaMode 5 (n.testBit 0)]))

/-- Type of a unit in a picture other than I and S: -1 skip, 0 direct, 1 to 3 one prediction unit, two above each
other, two side by side, 9 intra.  The last code of the larger units is reserved and read as skip.  With
asymmetric partitions 2 and 3 become 4, 5 and 6, 7. -/
def typeT (level : Nat) (amp : Bool) : List (Int × List Bin) :=
  let z := fun k => (List.range k).map fun j => cx .cuType j 0
  let two := fun t : Int => if level ≥ 4 ∧ amp then
      [(t, [cx .amp 0 1]), (2 * t, [cx .amp 0 0, cx .amp 1 1]), (2 * t + 1, [cx .amp 0 0, cx .amp 1 0])]
    else [(t, [])]
  [(-1, [cx .cuType 0 1]), (0, z 1 ++ [cx .cuType 1 1]), (1, z 2 ++ [cx .cuType 2 1])] ++
  ((two 2).map fun x => (x.1, z 3 ++ [cx .cuType 3 1] ++ x.2)) ++
  ((two 3).map fun x => (x.1, z 4 ++ [cx .cuType 4 1] ++ x.2)) ++
  (if level = 3 then [(9, z 5)] else [(9, z 5 ++ [.fin false]), (-1, z 5 ++ [.fin true])])

/-- Weighted skip mode `w` and direct/skip mode `d` of a unit of type `t`: both only for types -1 and 0; the first
in F pictures (4) with several references, if enabled; the second in B pictures (2), in F pictures if enabled,
and not together with a weighted skip mode. -/
def skipT (frame nrefs : Nat) (mhp wsm : Bool) (t : Int) (v : CuType) (c : List Bin) : Prop :=
  v.type = t ∧ ∃ cw cd, c = cw ++ cd ∧
  (if t ≤ 0 ∧ frame = 4 ∧ wsm ∧ nrefs > 1 then v.wsm < nrefs ∧ cw = unary .wsm (min · 2) (nrefs - 1) v.wsm
    else v.wsm = 0 ∧ cw = []) ∧
  (if t ≤ 0 ∧ v.wsm = 0 ∧ (frame = 2 ∨ frame = 4 ∧ mhp) then v.ds ≤ 4 ∧ cd = unary .subtype id 4 v.ds
    else v.ds = 0 ∧ cd = [])

def cuTypeT (frame level nrefs : Nat) (amp mhp wsm : Bool) (v : Option CuType) (c : List Bin) : Prop :=
  ∃ r t h tail, v = some r ∧ c = h ++ tail ∧ skipT frame nrefs mhp wsm t r tail ∧
    (t, h) ∈ (if frame = 0 then [(9, [])] else typeT level amp)

/-- Type of a unit in an S picture. -/
def cuTypeST : List (Int × List Bin) :=
  [(-1, [cx .cuType 0 1]), (0, [cx .cuType 0 0, cx .cuType 1 1]), (9, [cx .cuType 0 0, cx .cuType 1 0])]

/-- Reference indices of a B picture for a direction: forward 0, backward 1, symmetric 2, both 3. -/
def refsB (d : Int) : Int × Int := if d = 0 then (1, -1) else if d = 1 then (-1, 0) else (1, 0)

/-- Directions and references of a unit with one prediction unit or with two. -/
def wholeB (d : Int) : List Int × List (Int × Int) := ([d, d, d, d], [refsB d, refsB d, refsB d, refsB d])
def halvesB (d e : Int) : List Int × List (Int × Int) := ([d, e, d, e], [refsB d, refsB e, refsB d, refsB e])

/-- Order of the directions in the codes of two prediction units. -/
def orderB : List Int := [3, 1, 0, 2]

/-- Code of the directions in a B picture, types 1 to 7.  In units of 8x8 samples both directions are forward or
backward.  Otherwise the second direction is coded as equal to the first or by its place among the others. -/
def dirsBT (type level : Nat) : List ((List Int × List (Int × Int)) × List Bin) :=
  if type = 1 then (List.range 4).map fun (d : Nat) => (wholeB (d : Int), unary .puType id 3 d)
  else if level = 3 then
    [(halvesB 0 0, [cx .bPuMin 0 1, cx .bPuMin 1 1]), (halvesB 0 1, [cx .bPuMin 0 1, cx .bPuMin 1 0]),
     (halvesB 1 1, [cx .bPuMin 0 0, cx .bPuMin 1 1]), (halvesB 1 0, [cx .bPuMin 0 0, cx .bPuMin 1 0])]
  else (List.range 4).flatMap fun i =>
    let first := unary .puType (3 + ·) 3 i
    (halvesB (orderB.getD i 0) (orderB.getD i 0), first ++ [cx .puType 6 1]) ::
    (List.range 3).map fun j =>
      (halvesB (orderB.getD i 0) (orderB.getD (if j < i then j else j + 1) 0),
        first ++ [cx .puType 6 0] ++ unary .puType (7 + 2 * i + ·) 2 j)

/-- Code of the directions in P and F pictures: single 0 or dual 4; coded if `dhp`. -/
def dirsPFT (type : Nat) (dhp : Bool) : List (List Int × List Bin) :=
  let w := fun d : Int => [d, d, d, d]
  let h := fun d e : Int => [d, e, d, e]
  if type = 1 then (if dhp then [(w 0, [cx .puType 0 0]), (w 4, [cx .puType 0 1])] else [(w 0, [])])
  else if dhp then
    [(h 0 0, [cx .puType 1 0, cx .puType 2 1]), (h 0 4, [cx .puType 1 0, cx .puType 2 0]),
     (h 4 4, [cx .puType 1 1, cx .puType 2 1]), (h 4 0, [cx .puType 1 1, cx .puType 2 0])]
  else [(h 0 0, [])]

/-- Reference index with `n` references, coded if there is a choice. -/
def refCode (n r : Nat) : List Bin := if 1 < n then unary .refIdx (min 2 ·) (n - 1) r else []

/-- Pair of indices for the direction: dual prediction also uses the first other reference. -/
def refPair (d : Int) (r : Nat) : Int × Int := ((r : Int), if d = 4 then (if r = 0 then 1 else 0) else -1)

/-- Directions and references in P and F pictures, types 1 to 7. -/
def interPFT (type nrefs : Nat) (dhp : Bool) (v : List Int × List (Int × Int)) (c : List Bin) : Prop :=
  ∃ cd, (v.1, cd) ∈ dirsPFT type dhp ∧
  if type = 1 then ∃ r, r < nrefs ∧ v.2 = [refPair (v.1.getD 0 0) r] ∧ c = cd ++ refCode nrefs r
  else ∃ r q, r < nrefs ∧ q < nrefs ∧ v.2 = [refPair (v.1.getD 0 0) r, refPair (v.1.getD 1 0) q] ∧
    c = cd ++ refCode nrefs r ++ refCode nrefs q

/-- Difference of the quantiser: 0, 1, -1, 2, -2, ... are numbered; `last` is the previous difference. -/
def dqpNumber (d : Int) : Nat := if d ≤ 0 then 2 * d.natAbs else 2 * d.natAbs - 1

def dqpCode (last d : Int) : List Bin :=
  match dqpNumber d with
  | 0 => [cx .dqp (if last = 0 then 0 else 1) 1]
  | n + 1 => cx .dqp (if last = 0 then 0 else 1) 0 ::
      unary .dqp (fun j => if j = 0 then 2 else 3) 256 n

/-- Which of the chroma blocks have coefficients: 16 for U and 32 for V; `i` is the first context. -/
def chromaCbpT (i : Nat) : List (Nat × List Bin) :=
  [(0, [cx .cbp i 0]), (16, [cx .cbp i 1, cx .cbp (i + 1) 0, cx .cbp (i + 1) 0]),
   (32, [cx .cbp i 1, cx .cbp (i + 1) 0, cx .cbp (i + 1) 1]), (48, [cx .cbp i 1, cx .cbp (i + 1) 1])]

/-- The flags of the four luma blocks; `nb b c` tells whether the left and the upper neighbour of block `b` have
coefficients when the pattern is known up to `c`. -/
def lumaBin (nb : Nat → Nat → Bool × Bool) (b c : Nat) (v : Bool) : Bin :=
  .ctx .cbp ((if (nb b c).1 then 1 else 0) + (if (nb b c).2 then 2 else 0)) v

/-- Pattern: bits 0 to 3 for luma, 4 and 5 for chroma; `c0` is what is known before. -/
def luma4T (nb : Nat → Nat → Bool × Bool) (c0 : Nat) (v : Nat) (c : List Bin) : Prop :=
  ∃ b0 b1 b2 b3 : Bool, v = c0 + b0.toNat + 2 * b1.toNat + 4 * b2.toNat + 8 * b3.toNat ∧
    c = [lumaBin nb 0 0 b0, lumaBin nb 1 (c0 + b0.toNat) b1, lumaBin nb 2 (c0 + b0.toNat + 2 * b1.toNat) b2,
      lumaBin nb 3 (c0 + b0.toNat + 2 * b1.toNat + 4 * b2.toNat) b3]

/-- Coded block pattern and transform split.  An inter unit (types 0 to 7) that is not a direct one (0) may be
without any coefficients; an unsplit inter unit without chroma coefficients has luma coefficients. -/
def cbpT (nb : Nat → Nat → Bool × Bool) (type : Nat) (v : Nat × Bool) (c : List Bin) : Prop :=
  if type < 8 then
    (type ≠ 0 ∧ v = (0, true) ∧ c = [cx .cbp 8 1]) ∨
    ∃ cc u cl, (u, cc) ∈ chromaCbpT 4 ∧
      c = (if type ≠ 0 then [cx .cbp 8 0] else []) ++ [.ctx .tuSplit 0 v.2] ++ cc ++ cl ∧
      (if v.2 then luma4T nb u v.1 cl
       else if u = 0 then v.1 = 1 ∧ cl = []
       else ∃ b, v.1 = u + b.toNat ∧ cl = [lumaBin nb 0 0 b])
  else
    v.2 = false ∧ ∃ l u cl cc, v.1 = l + u ∧ c = cl ++ cc ∧ (u, cc) ∈ chromaCbpT 6 ∧
      (if type = 8 then ∃ b : Bool, l = b.toNat ∧ cl = [lumaBin nb 0 0 b] else luma4T nb 0 l cl)

/-- Chroma mode: 0 as luma, or one of the modes 1 to 4 (unary, all with context 2), where the mode `lm` which is
the same as luma is left out; the longest code then still means 4. -/
def chromaModeT (leftC : Bool) (lm : Option Nat) : List (Nat × List Bin) :=
  let i := if leftC then 1 else 0
  let cand := [1, 2, 3, 4].filter (some · ≠ lm)
  (0, [cx .chromaMode i 1]) ::
  ((List.range cand.length).map fun j => (cand.getD j 0, cx .chromaMode i 0 :: unary .chromaMode (fun _ => 2) 3 j)) ++
  (if cand.length = 3 then [(4, cx .chromaMode i 0 :: unary .chromaMode (fun _ => 2) 3 3)] else [])

end Davs2.Sx
