/-
Decoding of luma and chroma intra prediction modes: source/common/cu.cc, aec.cc, decoder.cc.
-/
namespace Davs2.Im

/-- `aec_read_intra_pmode`, aec.cc:1441-1461, as a function of the decoded symbols `s 0, s 1, …` in the order of reading. -/
def readPmode (s : Nat → Bool) : Int :=
  if s 0 then (s 1).toNat - 2
  else (s 1).toNat * 16 + (s 2).toNat * 8 + (s 3).toNat * 4 + (s 4).toNat * 2 + (s 5).toNat

/-- The two most probable modes, cu.cc:341-347 (`DC_PRED` = 0, `BI_PRED` = 2). -/
def mpm (top left : Int) : Int × Int :=
  let a := min top left
  let b := max top left
  if a = b then (0, if b = 0 then 2 else b) else (a, b)

/-- The mode before the check, cu.cc:349. -/
def rawMode (top left coded : Int) : Int :=
  let p := mpm top left
  if coded < 0 then (if coded = -2 then p.1 else p.2)
  else coded + (if p.1 ≤ coded then 1 else 0) + (if p.2 ≤ coded + 1 then 1 else 0)

/-- `real_luma_mode`, cu.cc:349-356 (`NUM_INTRA_MODE` = 33). The cast to `int8_t` does not change values between -2 and 33. -/
def mode (top left coded : Int) : Int :=
  let r := rawMode top left coded
  if r < 0 ∨ 33 ≤ r then max 0 (min r 32) else r

/-- An intra block in units of 4x4 samples. -/
structure Blk where
  x : Nat
  y : Nat
  w : Nat
  h : Nat
  deriving DecidableEq, Repr

/-- The buffer `p_ipredmode`, header.cc (`i_ipredmode = i_width_in_spu + 16`), as linear memory. -/
abbrev Buf := Int → Int

/-- Address of the entry for column `c` and row `r`: `h->p_ipredmode + r * i_ipredmode + c`, relative to `p_ipredmode`. -/
def addr (wspu : Nat) (c r : Int) : Int := r * (wspu + 16) + c

/-- The storing loop, cu.cc:376-383: the last column of each row, the whole last row. -/
def store (wspu : Nat) (m : Buf) (b : Blk) (v : Int) : Buf :=
  (List.range b.h).foldl (fun (m : Buf) (j : Nat) =>
    let i0 : Nat := if j = b.h - 1 then 0 else b.w - 1
    (List.range (b.w - i0)).foldl (fun (m : Buf) (k : Nat) => fun a =>
      if a = addr wspu (b.x + (i0 + k)) (b.y + j) then v else m a) m) m

/-- What the parser meets: the start of a slice in the coding-tree row whose first row of 4x4 blocks is `r` or an intra block with
its coded index. -/
inductive Item
  | start (r : Nat)
  | blk (b : Blk) (coded : Int)
  deriving DecidableEq, Repr

/-- `check_slice_header`, decoder.cc:366-368: the row above the current coding-tree row is set to `DC_PRED`, from 16 entries to the
left of the picture on, `i_ipredmode` entries. -/
def reset (wspu : Nat) (m : Buf) (r : Nat) : Buf := fun a =>
  if addr wspu (-16) (r - 1) ≤ a ∧ a < addr wspu (-16) (r - 1) + (wspu + 16) then 0 else m a

/-- `cu_read_intrapred_mode_luma`, cu.cc:323-387, and `check_slice_header`: the modes of the blocks in decoding order. -/
def run (wspu : Nat) (m : Buf) : List Item → List Int
  | [] => []
  | .start r :: is => run wspu (reset wspu m r) is
  | .blk b c :: is =>
    let v := mode (m (addr wspu b.x (b.y - 1))) (m (addr wspu (b.x - 1) b.y)) c
    v :: run wspu (store wspu m b v) is

/-- `init_frame`, decoder.cc:79: all entries are `DC_PRED`. -/
def initBuf : Buf := fun _ => 0

/-- Sizes of the intra blocks of a coding unit in 4x4 units, cu.cc:361-375; `trans` is `i_trans_size`. -/
def blkSize (level trans : Nat) : Nat × Nat :=
  let n := 2 ^ (level - 3) * 2
  match trans with
  | 1 => (n, n / 4)
  | 2 => (n / 4, n)
  | 3 => (n / 2, n / 2)
  | _ => (n, n)

/-- Intra blocks of a coding unit at `(x, y)` (4x4 units) with their positions, `cu_read_header`, cu.cc:768-802. `type` is the
coding unit type (8 2Nx2N, 9 NxN, 10 2Nxn, 11 nx2N). -/
def cuBlks (x y level type trans : Nat) : List Blk :=
  let s8 := 2 ^ (level - 3)
  let s16 := 2 ^ (level - 4)
  let (w, h) := blkSize level trans
  ⟨x, y, w, h⟩ :: match type with
    | 10 => [⟨x, y + s16, w, h⟩, ⟨x, y + 2 * s16, w, h⟩, ⟨x, y + 3 * s16, w, h⟩]
    | 11 => [⟨x + s16, y, w, h⟩, ⟨x + 2 * s16, y, w, h⟩, ⟨x + 3 * s16, y, w, h⟩]
    | 9 => [⟨x + s8, y, w, h⟩, ⟨x, y + s8, w, h⟩, ⟨x + s8, y + s8, w, h⟩]
    | _ => []

/-- `tab_intra_mode_luma2chroma`, aec.cc:149-153. -/
def luma2chroma (l : Nat) : Option Nat :=
  match l with
  | 0 => some 1 | 2 => some 4 | 12 => some 3 | 24 => some 2 | _ => none

/-- `aec_read_intra_pmode_c`, aec.cc:1693-1719, as a function of the first symbol and of the value `u` (0 to 3) of the truncated
unary code. -/
def chromaMode (luma : Nat) (first : Bool) (u : Nat) : Nat :=
  if first then 0
  else
    let a := u + 1
    match luma2chroma luma with
    | some m => if m ≤ a then (if a = 4 then 4 else a + 1) else a
    | none => a

end Davs2.Im
