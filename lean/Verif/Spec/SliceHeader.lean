import Verif.Spec.Bits
/-
Slice header syntax: the fields in the order of transmission.
-/
namespace Davs2.Spec

structure SliceSyntax where
  /-- coding-tree row and column of the first coding tree -/
  row : Nat
  col : Nat
  fixedQp : Nat
  qp : Nat
  saoY : Nat
  saoU : Nat
  saoV : Nat

/-- Bits of a slice header behind the three start-code bytes. `tall`: more than 144 rows, `wide`: more than 255 columns. -/
def SliceSyntax.bits (s : SliceSyntax) (tall wide fixedPicQp sao : Bool) : List Bool :=
  bitsOfNat 8 (if tall then s.row % 128 else s.row) ++
  ((if tall then bitsOfNat 3 (s.row / 128) else []) ++
  (bitsOfNat 8 (s.col % 256) ++
  ((if wide then bitsOfNat 2 (s.col / 256) else []) ++
  ((if fixedPicQp then [] else bitsOfNat 1 s.fixedQp ++ (bitsOfNat 7 s.qp ++ [])) ++
  (if sao then bitsOfNat 1 s.saoY ++ (bitsOfNat 1 s.saoU ++ (bitsOfNat 1 s.saoV ++ [])) else [])))))

end Davs2.Spec
