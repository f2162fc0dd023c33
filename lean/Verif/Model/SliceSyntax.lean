import Verif.Model.CuSyntax
import Verif.Model.Sao
/-
The loop over the largest coding units (LCUs) of a slice with the parameters of the in-loop filters that are read
before each of them, and the start of a slice: `check_slice_header`, `decode_one_lcu_row`, `sao_read_lcu_param`, `sao_read_lcu`,
`decode_lcu_init`, /repo/source/common/decoder.cc:349-372 and 396-468, /repo/source/common/sao.cc:355-448,
/repo/source/common/cu.cc:1193-1232, /repo/source/common/aec.cc:796-799, 2192-2424.

Not modelled: what happens when the end of a slice is announced and no slice header follows (the loop then goes on with the same
arithmetic decoder), and the search for the next header (Model/Slice).  Reconstruction and filters read no symbols.
-/
namespace Davs2.Cs
open Davs2.Sx Davs2.Mo

/-- Parameters of SAO for one plane, `sao_param_t`, common.h:538-544.  What is left over from earlier pictures in a plane with mode
off is not kept.  The table of offsets is `Sa.bandTable` or `Sa.edgeTable` of the four offsets. -/
inductive SaoPl
  | off
  | edge (dir : Nat) (offs : List Int)
  | band (first second : Nat) (offs : List Int)
  deriving DecidableEq

/-- `b_sao`, `slice_sao_on`, `b_alf`, `pic_alf_on`. -/
structure Filt where
  sao : Bool
  saoOn : List Bool
  alf : Bool
  alfOn : List Bool

/-- An LCU as it was read. -/
structure LcuRead where
  sao : List SaoPl
  alf : List Bool
  units : List (Leaf (Option CuRead))

/-- Units, modes, and `lcu_infos[].sao_param` by the number of the LCU. -/
structure SlState where
  pic : Pic
  sao : Nat → List SaoPl

section
variable {σ : Type} (m : Machine σ)

/-- The loop of `read_sao_offset`, aec.cc:2294-2300, after the first symbol; `n` is what may still be counted. -/
def saoMore : Nat → P σ Nat
  | 0 => pure 0
  | n + 1 => do
    if ← eqp m then pure 0
    else
      let k ← saoMore n
      pure (k + 1)

/-- `read_sao_offset`, aec.cc:2282-2319. -/
def saoOffset (type : Nat) : P σ Int := do
  let s ← (if type = 5 then sym m .saoOff 0 else eqp m)
  let cnt ← (if s then pure 0 else do
    let k ← saoMore m (Sa.saoMax.getD type 0 - 1)
    pure (k + 1))
  let v : Int ← (if type = 0 then tab Sa.eoMap cnt
    else if type = 4 then do
      let v ← tab Sa.eoMap cnt
      pure (-v)
    else if type = 3 then pure (-(cnt : Int)) else pure (cnt : Int))
  if type = 5 ∧ v ≠ 0 then
    let s ← eqp m
    pure (if s then -v else v)
  else pure v

/-- `aec_read_sao_offsets`, aec.cc:2323-2338: classes of the four offsets. -/
def saoOffsets : List Nat → P σ (List Int)
  | [] => pure []
  | t :: ts => do
    let v ← saoOffset m t
    let vs ← saoOffsets ts
    pure (v :: vs)

/-- `read_sao_type(…, 0 or 1)`, aec.cc:2388-2392: `length` bits from bit `i` on. -/
def saoBits : Nat → Nat → P σ Nat
  | 0, _ => pure 0
  | n + 1, i => do
    let b ← eqp m
    let r ← saoBits n (i + 1)
    pure ((if b then 2 ^ i else 0) + r)

/-- The first loop of `read_sao_type(…, 2)`, aec.cc:2360-2374; the first argument is `4 - golomb_order`.  `none` on an error. -/
def saoPrefix : Nat → Nat → Nat → P σ (Option (Nat × Nat))
  | 0, _, acc => pure (some (0, acc))
  | n + 1, order, acc => do
    let t ← eqp m
    if ← failed m then pure none
    else if t then pure (some (order, acc)) else saoPrefix n (order + 1) (acc + 2 ^ order)

/-- The second loop, aec.cc:2376-2383. -/
def saoRest : Nat → P σ Nat
  | 0 => pure 0
  | n + 1 => do
    let b ← eqp m
    let r ← saoRest n
    pure ((if b then 2 ^ n else 0) + r)

/-- `read_sao_type(…, 2)`, aec.cc:2356-2386. -/
def saoDelta : P σ Int := do
  match ← saoPrefix m 3 1 0 with
  | none => pure (-1)
  | some (order, acc) =>
    let r ← saoRest m order
    pure ((acc + r : Nat) : Int)

/-- One plane with SAO in `sao_read_lcu`, sao.cc:386-435; `aec_read_sao_mode`, aec.cc:2265-2279; `aec_read_sao_type`,
aec.cc:2400-2415. -/
def saoPlane : P σ SaoPl := do
  if ← sym m .saoMode 0 then pure .off
  else if ← eqp m then
    let offs ← saoOffsets m [5, 5, 5, 5]
    let s ← saoBits m 5 0
    let d ← saoDelta m
    pure (.band s (((s : Int) + (d + 2)).toNat % 32) offs)
  else
    let offs ← saoOffsets m [0, 1, 3, 4]
    let d ← saoBits m 2 0
    pure (.edge d offs)

/-- The planes, sao.cc:386-390. -/
def saoPlanes : List Bool → P σ (List SaoPl)
  | [] => pure []
  | on :: ons => do
    let p ← (if on then saoPlane m else pure .off)
    let ps ← saoPlanes ons
    pure (p :: ps)

/-- `read_sao_mergeflag` and `aec_read_sao_mergeflag`, aec.cc:2226-2261: 2 left, 1 above, 0 none. -/
def saoMerge (left up : Bool) : P σ Nat := do
  if left = true ∧ up = true then
    let b0 ← sym m .saoMerge 1
    let b1 ← (if b0 then pure false else sym m .saoMerge 2)
    pure (Sa.mergeFlag left up b0 b1)
  else
    let b0 ← sym m .saoMerge 0
    pure (Sa.mergeFlag left up b0 false)

/-- `sao_read_lcu_param` and `sao_read_lcu`, sao.cc:355-448, for LCU `i` with its corner at `(x, y)`; `lw` LCUs in a row.  The LCU
itself has the number of the current slice (`decode_lcu_init`). -/
def saoLcu (E : Env) (F : Filt) (lw i x y : Nat) (S : SlState) : P σ (List SaoPl) := do
  if F.saoOn.any id then
    let up := decide (0 < y ∧ (S.pic.cu x (y - 1)).slice = E.slice)
    let left := decide (0 < x ∧ (S.pic.cu (x - 1) y).slice = E.slice)
    let k ← (if left = true ∨ up = true then saoMerge m left up else pure 0)
    if k = 2 then pure (S.sao (i - 1))
    else if k = 0 then saoPlanes m F.saoOn
    else pure (S.sao (i - lw))
  else pure [.off, .off, .off]

/-- `aec_read_alf_lcu_ctrl`, aec.cc:2419-2424, for the planes with ALF, decoder.cc:429-437. -/
def alfLcu : List Bool → P σ (List Bool)
  | [] => pure []
  | on :: ons => do
    let b ← (if on then sym m .alf 0 else pure false)
    let bs ← alfLcu ons
    pure (b :: bs)

/-- One turn of the loop over the LCUs up to `decode_lcu_parse`, decoder.cc:417-440; LCUs of `2 ^ (n + 3)` samples.  Without `b_sao`
the parameters of SAO keep their content. -/
def readLcu (E : Env) (F : Filt) (n lw i : Nat) (S : SlState) : P σ (LcuRead × SlState) := do
  let x := i % lw * 2 ^ n
  let y := i / lw * 2 ^ n
  let sao ← (if F.sao then saoLcu m E F lw i x y S else pure (S.sao i))
  let alf ← (if F.alf then alfLcu m F.alfOn else pure [])
  let r ← readTree m E n x y S.pic
  pure (⟨sao, alf, r.1⟩, ⟨r.2, fun j => if j = i then sao else S.sao j⟩)

/-- The LCUs of a slice from number `i` on, decoder.cc:408-474; at most `k` are left in the picture.  Ends after an LCU that is
followed by the end mark (`aec_startcode_follows`, aec.cc:2192-2208). -/
def readSlice (E : Env) (F : Filt) (n lw : Nat) : Nat → Nat → SlState → P σ (List LcuRead × SlState)
  | 0, _, S => pure ([], S)
  | k + 1, i, S => do
    let r ← readLcu m E F n lw i S
    let e ← fin m
    if e then pure ([r.1], r.2)
    else
      let q ← readSlice E F n lw k (i + 1) r.2
      pure (r.1 :: q.1, q.2)

/-- Start of a slice at LCU `i`: `i_last_dquant` (aec.cc:798) and the row of intra modes above (decoder.cc:366-368). -/
def startSlice (w n lw i : Nat) (S : SlState) : SlState :=
  let row : Int := (i / lw * (2 * 2 ^ n) : Nat) - 1
  { S with pic := { S.pic with
      last := 0
      modes := fun a => if Im.addr (2 * w) (-16) row ≤ a ∧ a < Im.addr (2 * w) (2 * w) row then 0 else S.pic.modes a } }

/-- The slices of a picture one after the other; each has its own arithmetic decoder, `total` LCUs in the picture. -/
def readPicture (n lw total : Nat) : List (Env × Filt × σ) → Nat → SlState → Except Fault (List (List LcuRead) × SlState)
  | [], _, S => .ok ([], S)
  | (E, F, s) :: rest, i, S =>
    match readSlice m E F n lw (total - i) i (startSlice E.w n lw i S) s with
    | .error e => .error e
    | .ok ((ls, S'), _) =>
      match readPicture n lw total rest (i + ls.length) S' with
      | .error e => .error e
      | .ok (r, S'') => .ok (ls :: r, S'')

end

end Davs2.Cs
