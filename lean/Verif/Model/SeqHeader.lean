import Verif.Model.HeaderReader
/-
Model of `parse_sequence_header`, /repo/source/common/header.cc:126-287.  The function is one piece of
straight-line code; it is cut here into consecutive parts so that each can be reasoned about alone.
-/
namespace Davs2

/-- Conversion of an `int` to a `uint32_t` field. -/
def u32 (x : Int) : Int := x % 4294967296

/-- Conversion of an `int` to a `bool_t` (`uint8_t`, common.h:74). -/
def boolT (x : Int) : Int := x % 256

/-- `x ^ 0x01` for a `bool_t`. -/
def flipT (x : Int) : Int := if x % 2 = 0 then x + 1 else x - 1

/-- Conversion to `int16_t`. -/
def i16 (x : Int) : Int := (x + 32768) % 65536 - 32768

/-- `u_flag`, vlc.h: `(bool_t)vlc_u_v(bs, 1)`. -/
def rdFlag : Rd Int := do
  let x ← rdU 1
  pure (boolT x)

/-- A reference picture set, `rps_t`, common.h:645-652.  The two counts are the lengths of the lists (a
count of -1 from a failed read runs its loop zero times, as 0 does). -/
structure RpsH where
  refd : Int
  refPic : List Int
  removePic : List Int
  deriving DecidableEq, Repr

/-- Part 1, header.cc:134-168: identification, size, chroma format and precision. -/
structure SeqFmt where
  profile : Int
  level : Int
  progressive : Int
  fieldCoding : Int
  width : Int
  height : Int
  chroma : Int
  samplePrec : Int
  encPrec : Int
  deriving DecidableEq, Repr

/-- Part 2, header.cc:175-185. -/
structure SeqRate where
  aspect : Int
  frameRateId : Int
  bitRateLower : Int
  bitRateUpper : Int
  lowDelay : Int
  temporalId : Int
  deriving DecidableEq, Repr

/-- Weighting matrices, header.cc:194-220. -/
inductive SeqWq where
  | off
  | default
  | loaded (m4 m8 : List Int)
  deriving DecidableEq, Repr

/-- Tool flags, header.cc:222-232. -/
structure SeqFlags where
  background : Int
  mhpSkip : Int
  dhp : Int
  wsm : Int
  amp : Int
  nsqt : Int
  sdip : Int
  secT : Int
  sao : Int
  alf : Int
  pmvr : Int
  deriving DecidableEq, Repr

/-- `davs2_seq_t`, common.h:657-688, as filled by the parser. -/
structure SeqHdr where
  fmt : SeqFmt
  rate : SeqRate
  log2Lcu : Int
  wq : SeqWq
  flags : SeqFlags
  /-- `num_of_rps`; -1 if its read failed, else the length of `rps` -/
  numRps : Int
  rps : List RpsH
  reorderDelay : Int
  crossLoop : Int
  deriving DecidableEq, Repr

/-- header.cc:134-168. -/
def parseSeqFmt : Rd SeqFmt := do
  let profile ← rdU 8
  let level ← rdU 8
  let progressive ← rdU 1
  let fieldCoding ← rdFlag
  let width ← rdU 14
  let height ← rdU 14
  if u32 width < 16 ∨ u32 height < 16 then rdReject
  else do
    let chroma ← rdU 2
    if u32 chroma ≠ 1 ∧ u32 chroma ≠ 0 then rdReject
    else do
      let samplePrec ← rdU 3
      let encPrec ← (if u32 profile = 0x22 then rdU 3 else pure 1)
      if samplePrec < 1 ∨ samplePrec > 3 ∨ encPrec < 1 ∨ encPrec > 3 then rdReject
      else pure ⟨u32 profile, u32 level, u32 progressive, fieldCoding, u32 width, u32 height,
                 u32 chroma, samplePrec, encPrec⟩

/-- header.cc:175-185. -/
def parseSeqRate : Rd SeqRate := do
  let aspect ← rdU 4
  let frameRateId ← rdU 4
  let lower ← rdU 18
  let _ ← rdU 1
  let upper ← rdU 12
  let lowDelay ← rdU 1
  let _ ← rdU 1
  let temporalId ← rdFlag
  let _ ← rdU 18
  pure ⟨u32 aspect, u32 frameRateId, lower, upper, u32 lowDelay, temporalId⟩

/-- header.cc:187-192. -/
def parseSeqLcu : Rd Int := do
  let log2Lcu ← rdU 3
  if log2Lcu < 4 ∨ log2Lcu > 6 then rdReject else pure log2Lcu

/-- header.cc:194-220.  The flag is a `bool_t` held in an `int`, so a failed read gives 255 and neither
branch is taken (the matrices stay zero). -/
def parseSeqWq : Rd SeqWq := do
  let enable ← rdFlag
  if enable = 0 then pure .off
  else do
    let load ← rdFlag
    if load = 1 then do
      let m4 ← rdMany rdUe 16
      let m8 ← rdMany rdUe 64
      pure (.loaded (m4.map i16) (m8.map i16))
    else if load = 0 then pure .default
    else pure (.loaded (List.replicate 16 0) (List.replicate 64 0))

/-- header.cc:222-232. -/
def parseSeqFlags : Rd SeqFlags := do
  let bg ← rdFlag
  let a1 ← rdFlag
  let a2 ← rdFlag
  let a3 ← rdFlag
  let a4 ← rdFlag
  let a5 ← rdFlag
  let a6 ← rdFlag
  let a7 ← rdFlag
  let a8 ← rdFlag
  let a9 ← rdFlag
  let a10 ← rdFlag
  pure ⟨flipT bg, a1, a2, a3, a4, a5, a6, a7, a8, a9, a10⟩

/-- One set of the sequence header, header.cc:246-266.  `ref_pic` has 4 entries (`AVS2_MAX_REFS`) and
the count is not checked: entry 4 is a store outside the table. -/
def parseSeqRps : Rd RpsH := do
  let refd ← rdU 1
  let numRef ← rdU 3
  if numRef > 4 then rdOob
  else do
    let refPic ← rdMany (rdU 6) numRef.toNat
    let numRemove ← rdU 3
    if numRemove > 8 then rdOob
    else do
      let removePic ← rdMany (rdU 6) numRemove.toNat
      let _ ← rdU 1
      pure ⟨refd, refPic, removePic⟩

/-- header.cc:234-271. -/
def parseSeqTail (lowDelay : Int) : Rd (Int × List RpsH × Int × Int) := do
  let _ ← rdU 1
  let num ← rdU 6
  if num > 32 then rdReject
  else do
    let rps ← rdMany parseSeqRps num.toNat
    let reorder ← (if lowDelay = 0 then rdU 5 else pure 0)
    let cross ← rdFlag
    let _ ← rdU 2
    rdAlign
    pure (num, rps, reorder, cross)

/-- `parse_sequence_header`, header.cc:126-287. -/
def parseSeqHeader : Rd SeqHdr := do
  rdSkip 32
  let fmt ← parseSeqFmt
  let rate ← parseSeqRate
  let log2Lcu ← parseSeqLcu
  let wq ← parseSeqWq
  let flags ← parseSeqFlags
  let tail ← parseSeqTail rate.lowDelay
  pure ⟨fmt, rate, log2Lcu, wq, flags, tail.1, tail.2.1, tail.2.2.1, tail.2.2.2⟩

/-- `head.internal_bit_depth` and `head.output_bit_depth`, header.cc:170-171. -/
def SeqHdr.announcedDepth (s : SeqHdr) : Int := 6 + s.fmt.encPrec * 2

/-- `head.bytes_per_sample`, header.cc:172. -/
def SeqHdr.bytesPerSample (s : SeqHdr) : Int := if s.announcedDepth > 8 then 2 else 1

/-- `head.frame_rate_id` after clipping, header.cc:273-277. -/
def SeqHdr.frameRateId (s : SeqHdr) : Int :=
  if s.rate.frameRateId < 1 then 1 else if s.rate.frameRateId > 13 then 13 else s.rate.frameRateId

/-- `head.bitrate`, header.cc:279: `int` arithmetic, then converted to `uint32_t`.  Overflow is taken to
wrap, as compilers do in practice. -/
def SeqHdr.bitrate (s : SeqHdr) : Int :=
  u32 ((s.rate.bitRateUpper * 262144 + s.rate.bitRateLower) * 400)

/-- `i_enc_width`, header.cc:282 (`MIN_CU_SIZE` 8). -/
def SeqHdr.encWidth (s : SeqHdr) : Int := (s.fmt.width + 7) / 8 * 8

/-- `i_enc_height`, header.cc:283. -/
def SeqHdr.encHeight (s : SeqHdr) : Int := (s.fmt.height + 7) / 8 * 8

/-- `h->sample_bit_depth` after `task_decoder_update`, header.cc:1047-1055. -/
def SeqHdr.decodeDepth (s : SeqHdr) : Int := if s.fmt.profile = 0x22 then 6 + s.fmt.encPrec * 2 else 8

/-- `h->output_bit_depth` after `task_decoder_update`, header.cc:1046-1054: the depth of the delivered
pictures (`i_output_bit_depth`). -/
def SeqHdr.deliverDepth (s : SeqHdr) : Int := if s.fmt.profile = 0x22 then 6 + s.fmt.samplePrec * 2 else 8

end Davs2
