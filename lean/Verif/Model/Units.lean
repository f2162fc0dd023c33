/-
Prediction and transform units of a coding unit: source/common/cu.cc.
-/
namespace Davs2.Un

/-- `cb_t`, common.h:595-603: position and size of a block. The four bytes are kept as natural numbers below 256; C50 shows that
they stay below 128, so that the sign of `int8_t` does not matter. -/
structure Cb where
  x : Nat
  y : Nat
  w : Nat
  h : Nat
  deriving DecidableEq, Repr

/-- The member `v` of the union `cb_t`, common.h:602, on a little-endian machine. -/
def Cb.v (c : Cb) : Nat := c.x + c.y * 2 ^ 8 + c.w * 2 ^ 16 + c.h * 2 ^ 24

/-- The structure members of `cb_t` after `v` has been assigned, common.h:595-603. -/
def ofV (v : Nat) : Cb := ⟨v % 256, v / 2 ^ 8 % 256, v / 2 ^ 16 % 256, v / 2 ^ 24 % 256⟩

/-- `v << s` on `uint32_t`. -/
def shl (c : Cb) (s : Nat) : Cb := ofV (c.v * 2 ^ s % 2 ^ 32)

/-- `v >> s` on `uint32_t`. -/
def shr (c : Cb) (s : Nat) : Cb := ofV (c.v / 2 ^ s)

/-- `NUM_PREDICTION_UNIT`, cu.cc:148-161. -/
def numPu : List Nat := [1, 1, 2, 2, 2, 2, 2, 2, 1, 4, 4, 4]

/-- `CODING_BLOCK_INFO`, cu.cc:163-178. -/
def cbInfo : List (List Cb) := [
  [⟨0, 0, 8, 8⟩, ⟨0, 0, 0, 0⟩, ⟨0, 0, 0, 0⟩, ⟨0, 0, 0, 0⟩],
  [⟨0, 0, 8, 8⟩, ⟨0, 0, 0, 0⟩, ⟨0, 0, 0, 0⟩, ⟨0, 0, 0, 0⟩],
  [⟨0, 0, 8, 4⟩, ⟨0, 4, 8, 4⟩, ⟨0, 0, 0, 0⟩, ⟨0, 0, 0, 0⟩],
  [⟨0, 0, 4, 8⟩, ⟨4, 0, 4, 8⟩, ⟨0, 0, 0, 0⟩, ⟨0, 0, 0, 0⟩],
  [⟨0, 0, 8, 2⟩, ⟨0, 2, 8, 6⟩, ⟨0, 0, 0, 0⟩, ⟨0, 0, 0, 0⟩],
  [⟨0, 0, 8, 6⟩, ⟨0, 6, 8, 2⟩, ⟨0, 0, 0, 0⟩, ⟨0, 0, 0, 0⟩],
  [⟨0, 0, 2, 8⟩, ⟨2, 0, 6, 8⟩, ⟨0, 0, 0, 0⟩, ⟨0, 0, 0, 0⟩],
  [⟨0, 0, 6, 8⟩, ⟨6, 0, 2, 8⟩, ⟨0, 0, 0, 0⟩, ⟨0, 0, 0, 0⟩],
  [⟨0, 0, 8, 8⟩, ⟨0, 0, 0, 0⟩, ⟨0, 0, 0, 0⟩, ⟨0, 0, 0, 0⟩],
  [⟨0, 0, 4, 4⟩, ⟨4, 0, 4, 4⟩, ⟨0, 4, 4, 4⟩, ⟨4, 4, 4, 4⟩],
  [⟨0, 0, 8, 2⟩, ⟨0, 2, 8, 2⟩, ⟨0, 4, 8, 2⟩, ⟨0, 6, 8, 2⟩],
  [⟨0, 0, 2, 8⟩, ⟨2, 0, 2, 8⟩, ⟨4, 0, 2, 8⟩, ⟨6, 0, 2, 8⟩],
  [⟨0, 0, 4, 4⟩, ⟨4, 0, 4, 4⟩, ⟨0, 4, 4, 4⟩, ⟨4, 4, 4, 4⟩]]

/-- `cu_init_prediction_units`, cu.cc:143-210: the first `num_pu` elements of `p_cu->pu`. `frame` is `i_frame_type`
(common.h:188-193: I 0, P 1, B 2, G 3, F 4, S 5), `ds` is `i_md_directskip_mode` (`DS_NONE` = 0). Outside the tables there are no
units. -/
def puUnits (frame ds mode level : Nat) : List Cb :=
  if mode = 0 then
    if 3 < level ∧ (frame = 1 ∨ (frame = 4 ∧ ds = 0) ∨ (frame = 2 ∧ ds = 0)) then
      ((cbInfo.getD 12 []).take 4).map (shl · (level - 3))
    else ((cbInfo.getD 0 []).take 1).map (shl · (level - 3))
  else ((cbInfo.getD mode []).take (numPu.getD mode 0)).map (shl · (level - 3))

/-- `TU_SPLIT_INFO`, cu.cc:220-226. -/
def tuInfo : List (List Cb) := [
  [⟨0, 0, 8, 8⟩, ⟨0, 0, 0, 0⟩, ⟨0, 0, 0, 0⟩, ⟨0, 0, 0, 0⟩],
  [⟨0, 0, 8, 2⟩, ⟨0, 2, 8, 2⟩, ⟨0, 4, 8, 2⟩, ⟨0, 6, 8, 2⟩],
  [⟨0, 0, 2, 8⟩, ⟨2, 0, 2, 8⟩, ⟨4, 0, 2, 8⟩, ⟨6, 0, 2, 8⟩],
  [⟨0, 0, 4, 4⟩, ⟨4, 0, 4, 4⟩, ⟨0, 4, 4, 4⟩, ⟨4, 4, 4, 4⟩]]

/-- `cu_init_transform_units`, cu.cc:217-235: the four transform units. `trans` is `i_trans_size`
(common.h:249: 0 not split, 1 horizontal, 2 vertical, 3 cross). -/
def tuUnits (trans level : Nat) : List Cb := (tuInfo.getD trans []).map (shl · (level - 3))

/-- `TU_SPLIT_TYPE` and `cu_set_tu_split_type`, aec.cc:917-945. `nsqt` is `enable_nsqt` for inter and `enable_sdip` for intra
types; `none` stands for `TU_SPLIT_INVALID`. -/
def tuSplit (flag nsqt : Bool) (mode level : Nat) : Option Nat :=
  let tab : List (Option Nat × Option Nat) := [
    (some 3, some 3), (some 3, some 3), (some 3, some 1), (some 3, some 2), (some 3, some 1), (some 3, some 1),
    (some 3, some 2), (some 3, some 2), (some 0, none), (some 3, some 3), (none, some 1), (none, some 2)]
  if flag then
    let e := tab.getD mode (none, none)
    if nsqt ∧ 3 < level then e.2 else e.1
  else some 0

/-- `aec_read_intra_cu_type`, aec.cc:949-983, from the two symbols it reads: type of the coding unit and transform split. -/
def intraType (sdip : Bool) (level : Nat) (split sym : Bool) : Nat × Option Nat :=
  let b := sdip && (level == 5 || level == 4)
  let fl := (level == 3 || b) && split
  let t := if !fl then 8 else if b then (if sym then 10 else 11) else 9
  (t, tuSplit fl sdip t level)

/-- The size of the blocks read by `cu_read_all_coeffs`, cu.cc:630-658: one block of at most 32x32 for an unsplit unit, else the
transform units, halved when the wavelet transform is applied. -/
def coeffUnits (trans level : Nat) : List Cb :=
  if trans = 0 then
    let n := 2 ^ (min 3 (level - 2) + 2)
    [⟨0, 0, n, n⟩]
  else (tuUnits trans level).map (shr · (if level = 6 ∧ trans ≠ 3 then 1 else 0))

/-- Range of the coefficient buffer of a coding unit used by block `b` of `cu_read_all_coeffs`, cu.cc:682-692: first index and
number of coefficients (`coeff_y + (b8 << ((bit_size - 1) << 1))`, `bsx * bsy`). -/
def coeffRange (level : Nat) (c : Cb) (b : Nat) : Nat × Nat := (b * 2 ^ ((level - 1) * 2), c.w * c.h)

/-- `cu_store_references`, cu.cc:392-428: two loops over the 4x4 blocks of each prediction unit; memory is indexed by column and
row, `(x, y)` is the position of the coding unit in 4x4 blocks, `val i` is what is stored for unit `i`. -/
def storeUnit {α : Type} (m : Nat → Nat → α) (x y : Nat) (u : Cb) (val : α) : Nat → Nat → α :=
  (List.range u.h).foldl (fun m r => (List.range u.w).foldl (fun m c => fun X Y =>
    if X = x + u.x + c ∧ Y = y + u.y + r then val else m X Y) m) m

def storeReferences {α : Type} (m : Nat → Nat → α) (x y : Nat) (us : List Cb) (val : Nat → α) : Nat → Nat → α :=
  us.zipIdx.foldl (fun m p => storeUnit m x y (shr p.1 2) (val p.2)) m

end Davs2.Un
