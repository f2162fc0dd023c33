import Verif.Model.SeqHeader
import Verif.Model.StartCode
/-
Model of the picture headers and of the header scan, /repo/source/common/header.cc:290-758 and
1490-1555, with the ALF parameters (/repo/source/common/alf.cc:357-421).

Simplified: the derived deblocking thresholds (`deblock_init_frame_parames`) are not part of the result;
`seq_info.enable_weighted_quant` is set to 0 right before it is tested (header.cc:442, 640), so the
picture weighting branch is dead code and left out; memory exhaustion is left out.
-/
namespace Davs2

/-- Picture types, header.cc:324-346 and 529-537. -/
inductive PicType where
  | I | G | GB | P | B | F | S
  deriving DecidableEq, Repr

/-- ALF parameters of one component, `alf_param_t` (common.h:556-562): the coefficient sets and the set
positions of `filterPattern`. -/
structure AlfComp where
  sets : List (List Int)
  pattern : List Int
  deriving DecidableEq, Repr

/-- What a picture header delivers. -/
structure PicHdr where
  type : PicType
  /-- the transmitted 8-bit coding order -/
  coi8 : Int
  layer : Int
  displayDelay : Int
  rps : RpsH
  frameCoding : Bool
  topFieldFirst : Int
  repeatFirst : Int
  topField : Int
  fixedQp : Int
  qp : Int
  raDecodable : Int
  loopFilter : Bool
  alphaOffset : Int
  betaOffset : Int
  deltaU : Int
  deltaV : Int
  bkgndRef : Int
  alf : List (Option AlfComp)
  deriving DecidableEq, Repr

/-! ## ALF parameters -/

/-- alf.cc:382-394, iteration `f` and the following ones.  `filterPattern` has 16 entries and
`coeffmulti` 16 rows, neither index is checked. -/
def alfLumaLoop (filters : Int) : Nat → Nat → Int → Rd (List (List Int) × List Int)
  | 0, _, _ => pure ([], [])
  | n + 1, f, pre =>
    if f = 0 then do
      let c ← rdMany rdSe 9
      let r ← alfLumaLoop filters n (f + 1) pre
      pure (c :: r.1, r.2)
    else do
      let symbol ← (if filters ≠ 16 then rdUe else pure 1)
      if symbol + pre < 0 ∨ symbol + pre ≥ 16 then rdOob
      else if f ≥ 16 then rdOob
      else do
        let c ← rdMany rdSe 9
        let r ← alfLumaLoop filters n (f + 1) (pre + symbol)
        pure (c :: r.1, (symbol + pre) :: r.2)

/-- `vlc_read_alf_coeff` for luma, alf.cc:371-396. -/
def alfLuma : Rd AlfComp := do
  let n ← rdUe
  let r ← alfLumaLoop (n + 1) (n + 1).toNat 0 0
  pure ⟨r.1, r.2⟩

/-- `vlc_read_alf_coeff` for chroma, alf.cc:364-370. -/
def alfChroma : Rd AlfComp := do
  let c ← rdMany rdSe 9
  pure ⟨[c], []⟩

/-- One component of `alf_read_param`, alf.cc:412-416. -/
def alfOpt (on : Int) (x : Rd AlfComp) : Rd (Option AlfComp) :=
  if on ≠ 0 then do
    let c ← x
    pure (some c)
  else pure none

/-- `alf_read_param`, alf.cc:402-419. -/
def alfParam (alf : Int) : Rd (List (Option AlfComp)) :=
  if alf ≠ 0 then do
    let y ← rdFlag
    let u ← rdFlag
    let v ← rdFlag
    let py ← alfOpt y alfLuma
    let pu ← alfOpt u alfChroma
    let pv ← alfOpt v alfChroma
    pure [py, pu, pv]
  else pure [none, none, none]

/-! ## Parts common to both kinds of picture header -/

/-- The reference set of a picture header, header.cc:363-393 and 557-582.  `checked` tells whether the
number of references is checked: it is in the intra header (373-376), not in the inter header (566). -/
def parsePicRps (checked : Bool) (seq : SeqHdr) : Rd RpsH := do
  let predict ← rdU 1
  if predict ≠ 0 then do
    let index ← rdU 5
    if index ≥ seq.numRps then rdReject
    else if index < 0 then rdOob
    else pure (seq.rps.getD index.toNat ⟨0, [], []⟩)
  else do
    let refd ← rdU 1
    let numRef ← rdU 3
    if numRef > 4 then (if checked then rdReject else rdOob)
    else do
      let refPic ← rdMany (rdU 6) numRef.toNat
      let numRemove ← rdU 3
      if numRemove > 8 then rdOob
      else do
        let removePic ← rdMany (rdU 6) numRemove.toNat
        let _ ← rdU 1
        pure ⟨refd, refPic, removePic⟩

/-- Coding order, layer and output delay, header.cc:348-361 and 539-553. -/
def parsePicOrder (seq : SeqHdr) : Rd (Int × Int × Int) := do
  let coi ← rdU 8
  let layer ← (if seq.rate.temporalId = 1 then rdU 3 else pure 0)
  if seq.rate.lowDelay = 0 then do
    let delay ← rdUe
    if delay ≥ 64 then rdReject else pure (coi, layer, delay)
  else pure (coi, layer, 0)

/-- Picture structure, header.cc:395-416 and 584-604.  The first component is true for `FRAME`. -/
def parsePicStruct (seq : SeqHdr) : Rd (Bool × Int × Int × Int × Int × Int) := do
  let _ ← (if seq.rate.lowDelay ≠ 0 then rdUe else pure 0)
  let progressive ← rdU 1
  let codingType ← (if progressive = 0 then rdU 1 else pure 1)
  let tff ← rdFlag
  let rff ← rdFlag
  let topField ← (if seq.fmt.fieldCoding ≠ 0 then (do
    let t ← rdFlag
    let _ ← rdU 1
    pure t) else pure 0)
  let fixedQp ← rdFlag
  let qp ← rdU 7
  pure (codingType == 1, tff, rff, topField, fixedQp, qp)

/-- Loop filter and chroma quantiser, header.cc:418-440 and 613-637. -/
def parsePicFilter : Rd (Bool × Int × Int × Int × Int) := do
  let disable ← rdU 1
  let ab ← (if disable ≠ 1 then (do
    let flag ← rdU 1
    if flag ≠ 0 then (do
      let a ← rdSe
      let b ← rdSe
      pure (a, b))
    else pure (0, 0)) else pure (0, 0))
  let disableC ← rdFlag
  let uv ← (if disableC = 0 then (do
    let u ← rdSe
    let v ← rdSe
    pure (u, v)) else pure (0, 0))
  pure (disable != 1, ab.1, ab.2, uv.1, uv.2)

/-! ## Intra and inter header -/

/-- Picture type of an intra picture, header.cc:336-346. -/
def parseIntraType (bkgnd : Int) : Rd PicType :=
  if bkgnd ≠ 0 then do
    let flag ← rdU 1
    if flag ≠ 0 then do
      let out ← rdU 1
      pure (if out ≠ 0 then .G else .GB)
    else pure .I
  else pure .I

/-- `parse_picture_header_intra`, header.cc:314-494. -/
def parseIntra (seq : SeqHdr) : Rd PicHdr := do
  rdSkip 32
  let _ ← rdU 32
  let timeCode ← rdU 1
  let _ ← (if timeCode ≠ 0 then rdU 24 else pure 0)
  let type ← parseIntraType seq.flags.background
  let order ← parsePicOrder seq
  let rps ← parsePicRps true seq
  let st ← parsePicStruct seq
  let filt ← parsePicFilter
  let alf ← alfParam seq.flags.alf
  rdAlign
  pure ⟨type, order.1, order.2.1, order.2.2, rps, st.1, st.2.1, st.2.2.1, st.2.2.2.1, st.2.2.2.2.1,
    st.2.2.2.2.2, 0, filt.1, filt.2.1, filt.2.2.1, filt.2.2.2.1, filt.2.2.2.2, 0, alf⟩

/-- Picture type of an inter picture, header.cc:510-537: type, `b_bkgnd_reference`, `i_pic_struct`. -/
def parseInterType (bkgnd : Int) : Rd (PicType × Int × Int) := do
  let code ← rdU 2
  if bkgnd ≠ 0 ∧ (code = 1 ∨ code = 3) then do
    let pred ← (if code = 1 then rdU 1 else pure 0)
    let ref ← (if pred = 0 then rdFlag else pure 0)
    pure (if code = 1 ∧ pred ≠ 0 then .S else if code = 1 then .P else .F, ref, code)
  else
    pure (if code = 1 then .P else if code = 3 then .F else .B, 0, code)

/-- `parse_picture_header_inter`, header.cc:499-692. -/
def parseInter (seq : SeqHdr) : Rd PicHdr := do
  rdSkip 32
  let _ ← rdU 32
  let type ← parseInterType seq.flags.background
  let order ← parsePicOrder seq
  let rps ← parsePicRps false seq
  let st ← parsePicStruct seq
  let _ ← (if type.2.2 = 2 ∧ st.1 = true then pure 0 else rdU 1)
  let ra ← rdFlag
  let filt ← parsePicFilter
  let alf ← alfParam seq.flags.alf
  rdAlign
  pure ⟨type.1, order.1, order.2.1, order.2.2, rps, st.1, st.2.1, st.2.2.1, st.2.2.2.1, st.2.2.2.2.1,
    st.2.2.2.2.2, ra, filt.1, filt.2.1, filt.2.2.1, filt.2.2.2.1, filt.2.2.2.2, type.2.1, alf⟩

/-! ## Coding order and output order -/

/-- The part of the manager the header scan uses: `i_prev_coi`, `i_tr_wrap_cnt`, `outpics.output` and the
current sequence header (`none` when `valid_flag` is 0). -/
structure HMgr where
  prevCoi : Int
  wrapCnt : Int
  output : Int
  seq : Option SeqHdr
  deriving DecidableEq, Repr

/-- State after `davs2_decoder_open` (`decoder_open`, davs2.cc: `i_prev_coi = -1`, `output = -1`). -/
def hmgrInit : HMgr := ⟨-1, 0, -1, none⟩

/-- Unwrapping of the coding order, header.cc:731-738 (`AVS2_COI_CYCLE` 256). -/
def coiStep (prev wrap coi8 : Int) : Int × Int × Int :=
  let wrap' := if coi8 < prev then wrap + 1 else wrap
  (coi8, wrap', coi8 + wrap' * 256)

/-- Output order, header.cc:740-744. -/
def pocOf (seq : SeqHdr) (coi displayDelay : Int) : Int :=
  if seq.rate.lowDelay = 0 then coi + displayDelay - seq.reorderDelay else coi

/-- An accepted picture: header, coding order, output order. -/
structure PicAcc where
  hdr : PicHdr
  coi : Int
  poc : Int
  deriving DecidableEq, Repr

/-- The two start codes of pictures, header.cc:703-719: an inter picture is refused as long as no intra
picture has set the output position. -/
def parsePicKind (mgr : HMgr) (seq : SeqHdr) (intra : Bool) : Rd PicHdr :=
  if intra then parseIntra seq
  else if mgr.output = -1 then rdReject
  else parseInter seq

/-- header.cc:721-757: rejection of field pictures, coding and output order. -/
def finishPic (mgr : HMgr) (seq : SeqHdr) (intra : Bool) (h : PicHdr) : Option (PicAcc × HMgr) :=
  if h.frameCoding = false then none
  else
    let c := coiStep mgr.prevCoi mgr.wrapCnt h.coi8
    let poc := pocOf seq c.2.2 h.displayDelay
    let output := if mgr.output = -1 ∧ intra = true then poc else mgr.output
    some (⟨h, c.2.2, poc⟩, { mgr with prevCoi := c.1, wrapCnt := c.2.1, output := output })

/-- `parse_picture_header`, header.cc:697-758. -/
def parsePicture (mgr : HMgr) (seq : SeqHdr) (intra : Bool) : Rd (PicAcc × HMgr) := do
  let h ← parsePicKind mgr seq intra
  match finishPic mgr seq intra h with
  | some r => pure r
  | none => rdReject

/-- `task_set_sequence_head` on the header state, header.cc:1078-1122. -/
def setSequence (mgr : HMgr) (s : SeqHdr) : HMgr :=
  let same : Bool := match mgr.seq with
    | some old => old.fmt.height == s.fmt.height && old.fmt.width == s.fmt.width
    | none => false
  if same then { mgr with seq := some s }
  else { mgr with seq := some s, prevCoi := -1, wrapCnt := 0 }

/-- `task_decoder_update`, header.cc:992-1075: `none` when it fails.  `high` is the compile-time choice
`HIGH_BIT_DEPTH`; without it only 8-bit streams are decoded (1062-1066). -/
def decoderUpdate (high : Bool) (mgr : HMgr) : Option SeqHdr :=
  match mgr.seq with
  | none => none
  | some s => if high = false ∧ s.decodeDepth ≠ 8 then none else some s

/-- Bytes of the packet from byte `i` on. -/
def memFrom (m : Mem) (i : Nat) : List Byte := (List.range' i (m.len - i)).map m.byte

/-- Result of the header scan. -/
inductive Scan where
  /-- `return 0`: a picture, its header and the bit position behind it -/
  | picture (pic : PicAcc) (pos : Nat)
  /-- `return 1` -/
  | noPicture
  /-- `return -1` -/
  | error
  /-- a store outside a table or another undefined operation -/
  | undefined
  /-- fuel exhausted; ruled out by C20 -/
  | stuck
  deriving DecidableEq, Repr

/-- The loop of `parse_header`, header.cc:1502-1552. -/
def scanLoop (high : Bool) (m : Mem) : Nat → HMgr → Nat → Scan × HMgr
  | 0, mgr, _ => (.stuck, mgr)
  | fuel + 1, mgr, pos =>
    match findStartCode (memFrom m (pos / 8)) with
    | none => (.noPicture, mgr)
    | some k =>
      let at_ := pos / 8 + k
      if at_ + 4 > m.len then (.noPicture, mgr)
      else
        let code := m.byte (at_ + 3)
        if code = 0xB3#8 ∨ code = 0xB6#8 then
          match decoderUpdate high mgr with
          | none => (.error, mgr)
          | some seq =>
            match parsePicture mgr seq (code = 0xB3#8) m (8 * at_) with
            | .ok (r, q) => (.picture r.1 q, r.2)
            | .err => (.error, mgr)
            | .oob => (.undefined, mgr)
            | .ub => (.undefined, mgr)
        else if code = 0xB0#8 then
          match parseSeqHeader m (8 * at_) with
          | .ok (s, q) => scanLoop high m fuel (setSequence mgr s) q
          | .err => (.error, mgr)
          | .oob => (.undefined, mgr)
          | .ub => (.undefined, mgr)
        else scanLoop high m fuel mgr (8 * at_ + 32)

/-- `parse_header`, header.cc:1490-1555, with enough fuel for one pass (C20). -/
def parseHeader (high : Bool) (m : Mem) (mgr : HMgr) (pos : Nat) : Scan × HMgr :=
  if m.len ≤ 4 then (.error, mgr)
  else scanLoop high m (m.len / 4 + 1) mgr pos

end Davs2
