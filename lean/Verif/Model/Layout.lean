import Verif.Model.Basic
/-
Address arithmetic of the picture buffers: /repo/source/common/frame.cc:149-330, `create_dpb`
(/repo/source/common/header.cc:901-938), `alloc_picture` (header.cc:821-858) and `davs2_malloc`
(/repo/source/common/common.h:1236-1256).

Addresses are natural numbers.  `pel_t` has one byte: with two-byte samples `ALIGN_POINTER(frame->planes[0])`
assigns a `uint8_t *` to a `uint16_t *` and does not compile, so this is the only configuration.  Sizes of
structures whose layout is the compiler's are parameters.
-/
namespace Davs2

/-- `ALIGN_POINTER`, osdep.h:181: round up to a multiple of `CACHE_LINE_SIZE` (32). -/
def align32 (p : Nat) : Nat := (p + 31) / 32 * 32

/-- `align_stride` with `align` 32 and `disalign` 65536, frame.cc:149-158. -/
def alignStride (x : Nat) : Nat :=
  let y := (x + 31) / 32 * 32
  if y % 65536 = 0 then y + 32 else y

/-- `align_plane_size` with `disalign` 65536, frame.cc:162-170. -/
def alignPlaneSize (x : Nat) : Nat := if x % 65536 = 0 then x + 128 else x

/-- Sizes the compiler decides: `sizeof(davs2_frame_t)` and `sizeof(davs2_thread_cond_t)`. -/
structure Sizes where
  frame : Nat
  cond : Nat

/-- Arguments of `davs2_frame_new`: `is420` is `chroma_format == CHROMA_420`. -/
structure FrameDims where
  width : Nat
  height : Nat
  is420 : Bool
  extra : Bool

namespace FrameDims

def widthC (d : FrameDims) : Nat := d.width / 2
/-- frame.cc:178 -/
def heightC (d : FrameDims) : Nat := if d.is420 then d.height / 2 else d.height
/-- frame.cc:181, 4x4 units -/
def extraSize (d : FrameDims) : Nat := if d.extra then d.width / 4 * (d.height / 4) else 0
/-- frame.cc:181, 16x16 coding trees -/
def lcuRows (d : FrameDims) : Nat := (d.height + 15) / 16
/-- `AVS2_PAD` 80 -/
def strideL (d : FrameDims) : Nat := alignStride (d.width + 80 * 2)
def strideC (d : FrameDims) : Nat := alignStride (d.widthC + 80)
def sizeL (d : FrameDims) : Nat := alignPlaneSize (d.strideL * (d.height + 80 * 2) + 32)
def sizeC (d : FrameDims) : Nat := alignPlaneSize (d.strideC * (d.heightC + 80) + 32)

end FrameDims

/-- `davs2_frame_get_size`, frame.cc:175-212. -/
def frameGetSize (z : Sizes) (d : FrameDims) : Nat :=
  z.frame + (d.sizeL + d.sizeC * 2) + d.extraSize + 4 * d.extraSize + z.cond * d.lcuRows +
    4 * d.lcuRows + 32 * 6

/-- The pointers `davs2_frame_new` sets up, frame.cc:258-318. -/
structure FrameMem where
  handle : Nat
  /-- start of the three plane buffers -/
  base0 : Nat
  base1 : Nat
  base2 : Nat
  /-- `planes[i]`: address of sample (0, 0) -/
  plane0 : Nat
  plane1 : Nat
  plane2 : Nat
  refbuf : Nat
  mvbuf : Nat
  conds : Nat
  status : Nat
  /-- the updated `*mem_base` -/
  stop : Nat

/-- `davs2_frame_new` at address `a`, frame.cc:258-325.  Without extra buffers `refbuf` and `mvbuf` are
empty areas at the place where they would start. -/
def frameNew (z : Sizes) (d : FrameDims) (a : Nat) : FrameMem :=
  let b0 := align32 (a + z.frame)
  let b1 := b0 + d.sizeL
  let b2 := b1 + d.sizeC
  let m2 := b0 + (d.sizeL + d.sizeC * 2)
  let m3 := if d.extra then align32 (m2 + d.extraSize) else m2
  let m4 := if d.extra then align32 (m3 + 4 * d.extraSize) else m3
  let m5 := align32 (m4 + z.cond * d.lcuRows)
  { handle := a
    base0 := b0, base1 := b1, base2 := b2
    plane0 := align32 (b0 + d.strideL * 80 + 80)
    plane1 := align32 (b1 + d.strideC * 40 + 40)
    plane2 := align32 (b2 + d.strideC * 40 + 40)
    refbuf := m2, mvbuf := m3, conds := m4, status := m5
    stop := align32 (m5 + 4 * d.lcuRows) }

/-- Loop of `create_dpb`, header.cc:927-935: addresses of the frames, starting at `p`. -/
def dpbAddrs (z : Sizes) (d : FrameDims) : Nat → Nat → List Nat
  | 0, _ => []
  | n + 1, p => p :: dpbAddrs z d n (align32 (frameNew z d p).stop)

/-- Requested size in `create_dpb`, header.cc:913-916 (`sizeof(davs2_frame_t *)` 8). -/
def dpbSize (z : Sizes) (d : FrameDims) (n : Nat) : Nat :=
  n * 8 + frameGetSize z { d with extra := true } * n + frameGetSize z { d with extra := false } +
    32 * (n + 2)

/-- `create_dpb` in a block at address `a`. -/
def createDpb (z : Sizes) (d : FrameDims) (n a : Nat) : List Nat :=
  dpbAddrs z { d with extra := true } n (align32 (a + n * 8))

/-- `davs2_malloc`, common.h:1236-1256: `malloc` returned `buf` for `size + 31 + 8` bytes; the aligned
address handed out (the word in front of it holds `buf`). -/
def mallocAddr (buf : Nat) : Nat := (buf + 31 + 8) - (buf + 31 + 8) % 32

/-- Consecutive areas of the given sizes with `ALIGN_POINTER` after each: start addresses and the end. -/
def carve : List Nat → Nat → List Nat × Nat
  | [], p => ([], p)
  | n :: l, p => let r := carve l (align32 (p + n)); (p :: r.1, r.2)

/-- Picture format as `decoder_alloc_extra_buffer` sees it; the structure sizes are the compiler's. -/
structure ExtraCfg where
  dims : FrameDims
  /-- `i_lcu_level` -/
  lcuLevel : Nat
  alf : Bool
  sao : Bool
  szLcuInfo : Nat
  szCu : Nat
  szAlf : Nat

namespace ExtraCfg
def spu (c : ExtraCfg) : Nat := c.dims.width / 4 * (c.dims.height / 4)
def scu (c : ExtraCfg) : Nat := c.dims.width / 8 * (c.dims.height / 8)
def lcu (c : ExtraCfg) : Nat :=
  (c.dims.width + (2 ^ c.lcuLevel - 1)) / 2 ^ c.lcuLevel *
    ((c.dims.height + (2 ^ c.lcuLevel - 1)) / 2 ^ c.lcuLevel)

/-- Areas M1 to M11 in the order they are carved, decoder.cc:843-905: prediction modes, prediction
directions, reference indices, two motion vector tables, the two deblocking flag tables (one area), coding
tree data, coding unit data, three border rows, loop filter data. -/
def areas (c : ExtraCfg) : List Nat :=
  [(c.dims.width / 4 + 16) * (c.dims.height / 4 + 1), c.spu, 2 * c.spu, 4 * c.spu, 4 * c.spu,
   c.scu + c.scu, c.szLcuInfo * c.lcu, c.scu * c.szCu, c.dims.width, c.dims.width, c.dims.width,
   c.szAlf + c.lcu]

/-- Frames carved behind the areas, decoder.cc:909-926: two with motion buffers, then one for each loop
filter in use. -/
def frames (c : ExtraCfg) : List FrameDims :=
  [{ c.dims with extra := true }, { c.dims with extra := true }] ++
  (if c.alf then [{ c.dims with extra := false }] else []) ++
  (if c.sao then [{ c.dims with extra := false }] else [])

/-- The size requested, decoder.cc:821-838. -/
def request (z : Sizes) (c : ExtraCfg) : Nat :=
  (c.dims.width / 4 + 16) * (c.dims.height / 4 + 1) + c.spu + 2 * c.spu + 4 * c.spu + 4 * c.spu +
    c.dims.width / 8 * (c.dims.height / 8) * 2 + c.szLcuInfo * c.lcu + c.szCu * c.scu + c.dims.width * 3 +
    (c.szAlf + c.lcu) +
    (2 * frameGetSize z { c.dims with extra := true } +
      (c.alf.toNat + c.sao.toNat) * frameGetSize z { c.dims with extra := false }) + 32 * 20
end ExtraCfg

/-- Frames carved one after the other with `ALIGN_POINTER` after each: addresses and the end. -/
def carveFrames (z : Sizes) : List FrameDims → Nat → List Nat × Nat
  | [], p => ([], p)
  | d :: l, p => let r := carveFrames z l (align32 (frameNew z d p).stop); (p :: r.1, r.2)

/-- `decoder_alloc_extra_buffer` in a block at address `a`, decoder.cc:840-926: start addresses of the areas,
start addresses of the frames, end address. -/
def allocExtra (z : Sizes) (c : ExtraCfg) (a : Nat) : List Nat × List Nat × Nat :=
  let r := carve c.areas a
  let f := carveFrames z c.frames r.2
  (r.1, f.1, f.2)

/-- Offsets of the planes of an output picture behind its headers and the size requested for them,
`alloc_picture`, header.cc:827-846. -/
structure OutPlanes where
  p0 : Nat
  p1 : Nat
  p2 : Nat
  size : Nat

def allocPicture (w h : Nat) : OutPlanes :=
  ⟨0, w * h, w * h + w * h / 4, w * h * 3 / 2⟩

end Davs2
