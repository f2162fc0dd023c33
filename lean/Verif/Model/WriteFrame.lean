import Verif.Model.SeqHeader
/-
Delivery of a decoded picture: source/common/decoder.cc:198-222 (get_one_free_picture), 940-1066
(davs2_write_a_frame), source/common/header.cc:821-860 (alloc_picture), source/common/davs2.cc:343-386
(copying out, davs2_decoder_frame_unref).

Both builds are covered: `pel` is `sizeof(pel_t)`, 1 in the normal build and 2 with HIGH_BIT_DEPTH.  A plane is a
function of column and row.
-/
namespace Davs2.Wf

abbrev Plane := Nat → Nat → Nat

/-- Bit depths of a decoded picture: coding (`i_sample_bit_depth`) and output (`i_output_bit_depth`). -/
structure Depths where
  coded : Int
  output : Int
  deriving DecidableEq, Repr

/-- header.cc:1048-1057. -/
def depthsOf (s : SeqHdr) : Depths := ⟨s.decodeDepth, s.deliverDepth⟩

/-- header.cc:1059-1067: the normal build refuses everything but 8-bit coding. -/
def accepted (pel : Nat) (d : Depths) : Bool := pel == 2 || d.coded == 8

/-- `num_bytes_per_sample`, decoder.cc:946. -/
def bytesPerSample (d : Depths) : Nat := if d.output = 8 then 1 else 2

/-- The four ways through davs2_write_a_frame. -/
inductive Way
  | share
  | copy
  | reduce
  | nothing
  deriving DecidableEq, Repr

/-- decoder.cc:961, 970, 1014. -/
def way (pel : Nat) (d : Depths) : Way :=
  if d.coded - d.output = 0 ∧ pel = bytesPerSample d then .share
  else if d.coded - d.output = 0 ∧ d.output = 8 then .copy
  else if d.coded - d.output ≠ 0 ∧ d.output = 8 then .reduce
  else .nothing

/-- `max_pel_value`: common.h:1202 in the normal build, header.cc:1061 otherwise. -/
def maxPel (pel : Nat) (d : Depths) : Int := if pel = 1 then 255 else 2 ^ d.coded.toNat - 1

/-- `(uint8_t)DAVS2_CLIP1((p_src[k] + (1 << (shift1 - 1))) >> shift1)`, decoder.cc:1022; `DAVS2_CLIP1` is
common.h:109.  Defined for `shift1 ≥ 1`. -/
def reduceSample (pel : Nat) (d : Depths) (v : Nat) : Nat :=
  let s := (d.coded - d.output).toNat
  let r : Int := ((v + 2 ^ (s - 1)) / 2 ^ s : Nat)
  let c := if r > maxPel pel d then maxPel pel d else if r < 0 then 0 else r
  (c % 256).toNat

/-- The loops over a plane of `w` by `h` samples, decoder.cc:976-983 and the like; `old` is what the memory of the
picture held before. -/
def fillPlane (f : Nat → Nat) (w h : Nat) (src old : Plane) : Plane :=
  (List.range h).foldl (fun p y => (List.range w).foldl (fun p x => fun x' y' => if x' = x ∧ y' = y then f (src x y) else p x' y') p) old

/-- Contents of a plane of the delivered picture, decoder.cc:961-1058. -/
def writePlane (pel : Nat) (d : Depths) (w h : Nat) (src old : Plane) : Plane :=
  match way pel d with
  | .share => src
  | .copy => fillPlane (fun v => v % 256) w h src old
  | .reduce => fillPlane (reduceSample pel d) w h src old
  | .nothing => old

/-! ### Memory of the picture -/

/-- Where the planes of an output picture object point to: its own memory (alloc_picture, header.cc:844-846) or the
planes of a frame of the decoder (decoder.cc:964-966). -/
inductive Target
  | own
  | frame (f : Nat)
  deriving DecidableEq, Repr

/-- Offset and extent in bytes of plane `i` within the memory of the object, header.cc:844-846. -/
def planeStart (pel w h : Nat) (i : Nat) : Nat :=
  if i = 0 then 0 else if i = 1 then w * h * pel else w * h * pel + w * h / 4 * pel

/-- Bytes reserved for samples, header.cc:828 (`sizeof(pel_t) * w * h * 3 / 2`). -/
def reserved (pel w h : Nat) : Nat := pel * w * h * 3 / 2

/-- Stride announced for a plane that is in the object's own memory, decoder.cc:957-959. -/
def ownStride (d : Depths) (w i : Nat) : Nat := (if i = 0 then w else w / 2) * bytesPerSample d

/-- Bytes of plane `i` a caller reads: all rows at the announced stride. -/
def planeEnd (pel : Nat) (d : Depths) (w h i : Nat) : Nat :=
  planeStart pel w h i + (if i = 0 then h else h / 2) * ownStride d w i

/-- What happens to one output picture object. -/
inductive Ev
  /-- davs2_write_a_frame for frame `f`. -/
  | deliver (f : Nat) (d : Depths)
  /-- davs2_decoder_frame_unref: the object goes to the recycle bin; get_one_free_picture takes it again if the size of the
  pictures has not changed. -/
  | reuse
  deriving DecidableEq, Repr

/-- The frame a write through `planes` changes, if any. -/
def Target.hit : Target → List Nat
  | .own => []
  | .frame g => [g]

/-- The frames whose planes are overwritten while events are processed; the first component is `planes`. -/
def overwritten (pel : Nat) : Target → List Ev → List Nat
  | _, [] => []
  | t, .reuse :: es => overwritten pel t es
  | t, .deliver f d :: es =>
    match way pel d with
    | .share => overwritten pel (.frame f) es
    | .nothing => overwritten pel t es
    | _ => t.hit ++ overwritten pel t es

end Davs2.Wf
