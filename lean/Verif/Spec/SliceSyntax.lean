import Verif.Spec.CuSyntax
import Verif.Model.SliceSyntax
/-
How the LCUs of a slice are written: parameters of SAO and ALF, coding tree, end mark.  From Model/SliceSyntax only the
records `SaoPl` and `Filt` are used.
-/
namespace Davs2.Cs
open Davs2.Sx Davs2.Mo

/-- `k` zeros and a one, which is omitted at the largest value; equal probabilities. -/
def unaryEq (max k : Nat) : List Bin := List.replicate k (.eq false) ++ (if k < max then [.eq true] else [])

/-- Codes of an offset: 0 full valley, 1 half valley, 3 half peak, 4 full peak, 5 band.  Offsets of the full classes are in the
order 1, 0, 2, -1, 3, 4, 5, 6. -/
def saoOffT (cls : Nat) (v : Int) (c : List Bin) : Prop :=
  if cls = 0 then ∃ k, ([1, 0, 2, -1, 3, 4, 5, 6] : List Int)[k]? = some v ∧ c = unaryEq 7 k
  else if cls = 4 then ∃ k, ([1, 0, 2, -1, 3, 4, 5, 6] : List Int)[k]? = some (-v) ∧ c = unaryEq 7 k
  else if cls = 1 then (v = 0 ∨ v = 1) ∧ c = unaryEq 1 v.natAbs
  else if cls = 3 then (v = 0 ∨ v = -1) ∧ c = unaryEq 1 v.natAbs
  else if v = 0 then c = [.ctx .saoOff 0 true]
  else v.natAbs ≤ 7 ∧ c = .ctx .saoOff 0 false :: unaryEq 6 (v.natAbs - 1) ++ [.eq (decide (v < 0))]

def saoOffsT : List Nat → List Int → List Bin → Prop
  | [], vs, c => vs = [] ∧ c = []
  | t :: ts, vs, c => ∃ v vs' c1 c2, vs = v :: vs' ∧ c = c1 ++ c2 ∧ saoOffT t v c1 ∧ saoOffsT ts vs' c2

/-- A number of `n` bits, least significant bit first. -/
def lsbT (n v : Nat) : List Bin := (List.range n).map fun i => .eq (v.testBit i)

/-- Distance of the two pairs of bands minus two, 0 to 14: groups of 2, 4, 8 and 1 values. -/
def deltaT (d : Nat) : List Bin :=
  if d < 2 then [.eq true, .eq (d.testBit 0)]
  else if d < 6 then [.eq false, .eq true, .eq ((d - 2).testBit 1), .eq ((d - 2).testBit 0)]
  else if d < 14 then [.eq false, .eq false, .eq true, .eq ((d - 6).testBit 2), .eq ((d - 6).testBit 1), .eq ((d - 6).testBit 0)]
  else [.eq false, .eq false, .eq false]

/-- One plane. -/
def saoPlaneT : SaoPl → List Bin → Prop
  | .off, c => c = [.ctx .saoMode 0 true]
  | .band a b offs, c => ∃ d co, a < 32 ∧ d ≤ 14 ∧ b = (a + d + 2) % 32 ∧ saoOffsT [5, 5, 5, 5] offs co ∧
      c = .ctx .saoMode 0 false :: .eq true :: co ++ lsbT 5 a ++ deltaT d
  | .edge dir offs, c => ∃ co, dir < 4 ∧ saoOffsT [0, 1, 3, 4] offs co ∧
      c = .ctx .saoMode 0 false :: .eq false :: co ++ lsbT 2 dir

def saoPlanesT : List Bool → List SaoPl → List Bin → Prop
  | [], ps, c => ps = [] ∧ c = []
  | on :: ons, ps, c => ∃ p ps' c1 c2, ps = p :: ps' ∧ c = c1 ++ c2 ∧ (if on then saoPlaneT p c1 else p = .off ∧ c1 = []) ∧
      saoPlanesT ons ps' c2

/-- The parameters of an LCU: those of the LCU to the left, of the one above (`none`: not in this slice), or new ones. -/
def saoT (on : List Bool) (left up : Option (List SaoPl)) (ps : List SaoPl) (c : List Bin) : Prop :=
  if ∀ b ∈ on, b = false then ps = [.off, .off, .off] ∧ c = []
  else match left, up with
    | none, none => saoPlanesT on ps c
    | some l, none => (ps = l ∧ c = [.ctx .saoMerge 0 true]) ∨ ∃ c', c = .ctx .saoMerge 0 false :: c' ∧ saoPlanesT on ps c'
    | none, some u => (ps = u ∧ c = [.ctx .saoMerge 0 true]) ∨ ∃ c', c = .ctx .saoMerge 0 false :: c' ∧ saoPlanesT on ps c'
    | some l, some u => (ps = l ∧ c = [.ctx .saoMerge 1 true]) ∨ (ps = u ∧ c = [.ctx .saoMerge 1 false, .ctx .saoMerge 2 true]) ∨
        ∃ c', c = .ctx .saoMerge 1 false :: .ctx .saoMerge 2 false :: c' ∧ saoPlanesT on ps c'

def alfT : List Bool → List Bool → List Bin → Prop
  | [], bs, c => bs = [] ∧ c = []
  | on :: ons, bs, c => ∃ b bs' c', bs = b :: bs' ∧ (if on then c = .ctx .alf 0 b :: c' else b = false ∧ c = c') ∧ alfT ons bs' c'

/-- An LCU as the encoder has it. -/
structure LcuW where
  sao : List SaoPl := []
  alf : List Bool := []
  tree : Tree

/-- The LCUs of a slice that starts at the left border with LCU `i0`; `prev` are those of the slice that are written already, `lw`
and `lh` the LCUs in a row and in a column. -/
def sliceT (E : Env) (F : Filt) (n lw lh i0 : Nat) : List LcuW → List LcuW → Maps → List Bin → Prop
  | _, [], _, _ => False
  | prev, l :: ls, P, c =>
    let i := i0 + prev.length
    ∃ cs ca ct P' cr, c = cs ++ ca ++ ct ++ .fin (decide (ls = [])) :: cr ∧ i < lw * lh ∧
      (if F.sao then saoT F.saoOn (if i % lw = 0 then none else (prev[prev.length - 1]?).map (·.sao))
        (if prev.length < lw then none else (prev[prev.length - lw]?).map (·.sao)) l.sao cs else cs = []) ∧
      (if F.alf then alfT F.alfOn l.alf ca else l.alf = [] ∧ ca = []) ∧
      treeT E n (i % lw * 2 ^ n) (i / lw * 2 ^ n) l.tree P ct P' ∧
      (if ls = [] then cr = [] else sliceT E F n lw lh i0 (prev ++ [l]) ls P' cr)

/-- The slices of a picture from row `r` of LCUs on: every slice starts at the left border and has a number of its own (`used` are
those of the earlier ones); size and type of the picture are common to all. -/
def pictureT (w h frame n lw lh : Nat) : Nat → List Int → List (Env × Filt × List LcuW × List Bin) → Prop
  | _, _, [] => True
  | r, used, (E, F, ls, c) :: rest =>
    (E.w = w ∧ E.h = h ∧ E.frame = frame ∧ E.slice ∉ used ∧ (0 ≤ E.qp ∧ E.qp ≤ 63) ∧ (E.frame ≠ 0 → 1 ≤ E.nrefs)) ∧
    sliceT E F n lw lh (lw * r) [] ls (Maps.start E.qp) c ∧ (rest ≠ [] → lw ∣ ls.length) ∧
    pictureT w h frame n lw lh (r + ls.length / lw) (E.slice :: used) rest

/-- What is to be read: parameters of the filters, and units with positions, levels and quantisers. -/
def expected (E : Env) (n lw : Nat) : Nat → List LcuW → Maps → List (LcuW × List (Leaf (CUnit × Int)))
  | _, [], _ => []
  | i, l :: ls, P =>
    let r := leaves E n (i % lw * 2 ^ n) (i / lw * 2 ^ n) l.tree P
    (l, r.1) :: expected E n lw (i + 1) ls r.2

/-- What is to be read of a picture. -/
def expectedPic (n lw : Nat) : Nat → List (Env × Filt × List LcuW × List Bin) →
    List (Env × Filt × List (LcuW × List (Leaf (CUnit × Int))))
  | _, [] => []
  | r, (E, F, ls, _) :: rest =>
    (E, F, expected E n lw (lw * r) ls (Maps.start E.qp)) :: expectedPic n lw (r + ls.length / lw) rest

/-- The unit at this place is read as it was written. -/
def SameLeaf (E : Env) (a : Leaf (CUnit × Int)) (b : Leaf (Option CuRead)) : Prop :=
  b.sx = a.sx ∧ b.sy = a.sy ∧ b.level = a.level ∧ ∃ r, b.val = some r ∧ Same E a.level a.val.1 a.val.2 r

/-- The LCU is read as it was written. -/
def SameLcu (E : Env) (F : Filt) (a : LcuW × List (Leaf (CUnit × Int))) (b : LcuRead) : Prop :=
  (F.sao = true → b.sao = a.1.sao) ∧ b.alf = a.1.alf ∧ List.Forall₂ (SameLeaf E) a.2 b.units

end Davs2.Cs
