import Verif.Model.SeqHeader
/-
Slice headers and the order in which coding trees are filled: source/common/header.cc:766-817, source/common/decoder.cc:348-470.
-/
namespace Davs2.Sl
open Davs2

/-- What `parse_slice_header` reads of the decoder: `i_image_height`, `i_width`, `i_lcu_size`, `b_fixed_picture_qp`,
`i_picture_qp`, `b_sao`. -/
structure Ctx where
  imgH : Nat
  width : Nat
  lcu : Nat
  fixedPicQp : Bool
  picQp : Int
  sao : Bool

/-- What it changes: `b_fixed_slice_qp`, `i_slice_qp` (= `i_qp`), `b_DQP`, `slice_sao_on`. -/
structure State where
  fixedSliceQp : Int
  qp : Int
  dqp : Int
  saoOn : List Int
  deriving DecidableEq, Repr

/-- `parse_slice_header`, header.cc:769-817: the local variables `mb_row`, `slice_horizontal_positon` and the horizontal extension
(never combined, header.cc:792-795), and the changed state. The check of the quantiser (header.cc:808-810) only writes a message. -/
def parse (c : Ctx) (st : State) : Rd ((Int × Int × Int) × State) := do
  rdSkip 24
  let v ← rdU 8
  let ve ← (if c.imgH > 144 * c.lcu then rdU 3 else pure 0)
  let row := if c.imgH > 144 * c.lcu then ve * 128 + v else v
  let hp ← rdU 8
  let he ← (if c.width > 255 * c.lcu then rdU 2 else pure 0)
  let q ← (if !c.fixedPicQp then do
      let f ← rdFlag
      let q ← rdU 7
      pure (f, q, if f = 0 then 1 else 0)
    else pure (st.fixedSliceQp, c.picQp, 0))
  let s ← (if c.sao then rdMany rdFlag 3 else pure st.saoOn)
  pure ((row, hp, he), ⟨q.1, q.2.1, q.2.2, s⟩)

/-- `parse_slice_header` as its caller sees it: the position is dropped. -/
def parseSliceHeader (c : Ctx) (st : State) : Rd State := do
  let r ← parse c st
  pure r.2

/-- A slice in the stream: the position its header declares (as index of a coding tree in raster order) and the coding trees it
contains. -/
structure Slice (α : Type) where
  first : Nat
  trees : List α

/-- `decode_one_lcu_row` for all rows, decoder.cc:397-460, with `check_slice_header`, 351-372: for `n` coding trees in raster order
the data they are decoded from. `cur` is what is left of the current slice; after its last coding tree (`b_slice_checked`) the
next slice header is taken, whatever position it declares. `none` stands for decoding beyond the last slice (the arithmetic decoder
continues behind the end of the data). Simplified: a slice without coding trees cannot be expressed by the syntax, it counts as
one coding tree without data. -/
def place {α : Type} : Nat → List α → List (Slice α) → List (Option α)
  | 0, _, _ => []
  | n + 1, a :: as, rest => some a :: place n as rest
  | n + 1, [], ⟨_, a :: as⟩ :: rest => some a :: place n as rest
  | n + 1, [], ⟨_, []⟩ :: rest => none :: place n [] rest
  | n + 1, [], [] => none :: place n [] []

end Davs2.Sl
