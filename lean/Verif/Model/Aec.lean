import Verif.Model.AecRead
import Verif.Model.AecCtx
/-
The arithmetic decoder, /repo/source/common/aec.cc:356-778.  Structure `aec_t`,
/repo/source/common/common.h:618-640.

Registers are `uint32_t`; sums, differences and shifts are taken modulo 2^32.  The result of a function is
`none` for undefined behaviour or a loop that does not end.  A context is passed by value and returned.
-/
namespace Davs2

structure Aec where
  rd : AecRd
  /-- `b_bit_error` -/
  err : Bool
  /-- `b_val_bound` -/
  bound : Bool
  /-- `b_val_domain` -/
  dom : Bool
  /-- `i_s1` -/
  s1 : Nat
  /-- `i_t1` -/
  t1 : Nat
  /-- `i_value_s` -/
  vs : Nat
  /-- `i_value_t` -/
  vt : Nat

def add32 (a b : Nat) : Nat := (a + b) % 2 ^ 32
def sub32 (a b : Nat) : Nat := (a + 2 ^ 32 - b) % 2 ^ 32

/-- `aec_get_next_bit`, aec.cc:157-211: the bit goes to the value register; the flag is the return value. -/
def Aec.nextBit (a : Aec) : Option (Aec × Bool) :=
  match aecNextBit a.rd with
  | .bit b r => some ({ a with rd := r, vt := (2 * a.vt + b.toNat) % 2 ^ 32 }, false)
  | .eos r => some ({ a with rd := r, err := true }, true)
  | .ub => none

/-- Loop of `aec_get_next_n_bit`, aec.cc:229-231; the return values are ignored. -/
def Aec.nextLoop : Nat → Aec → Option Aec
  | 0, a => some a
  | n + 1, a =>
    match a.nextBit with
    | none => none
    | some (a, _) => Aec.nextLoop n a

/-- `aec_get_next_n_bit`, aec.cc:217-234. -/
def Aec.nextN (a : Aec) (n : Nat) : Option (Aec × Bool) :=
  if a.rd.toGo ≥ n then
    let tg := toInt8 (a.rd.toGo - n)
    if tg < 64 then
      some ({ a with rd := { a.rd with toGo := tg }
                     vt := (a.vt * 2 ^ n + a.rd.byteBuf / 2 ^ tg.toNat % 2 ^ n) % 2 ^ 32 }, false)
    else none
  else
    match Aec.nextLoop n a with
    | none => none
    | some a => some (a, a.err)

/-- `aec_start_decoding`, aec.cc:356-379; `old` is the previous content of `aec_t` (`i_byte_buf` and
`b_val_bound` are not set). -/
def aecStart (buf : List Byte) (pos len : Nat) (old : Aec) : Option Aec :=
  let a : Aec := ⟨aecRdStart buf pos len old.rd.byteBuf, false, old.bound, true, 0, 255, 0, 0⟩
  (a.nextN 9).map (·.1)

/-- The loop `while (i_value_t < QUARTER && i_value_s < AEC_VALUE_BOUND)`, aec.cc:406-411 and its copies;
at most 254 rounds.  The last component tells whether a read failed. -/
def Aec.fill : Nat → Aec → Nat → Option (Aec × Nat × Bool)
  | 0, a, vs => some (a, vs, false)
  | fuel + 1, a, vs =>
    if a.vt < 256 ∧ vs < 254 then
      match a.nextBit with
      | none => none
      | some (a, true) => some (a, vs, true)
      | some (a, false) => Aec.fill fuel a (vs + 1)
    else some (a, vs, false)

/-- The test whether the value is in the R domain. -/
def Aec.inR (a : Aec) : Bool := a.dom || (a.s1 == 254 && a.bound)

/-- First block of the decoding functions, aec.cc:402-415 and its copies; `vs` is the local variable or the
member, whichever the function uses. -/
def Aec.enter (a : Aec) (vs : Nat) : Option (Aec × Nat × Bool) :=
  if a.inR then
    match Aec.fill 254 { a with s1 := 0 } 0 with
    | none => none
    | some (a, vs, true) => some (a, vs, true)
    | some (a, vs, false) => some ({ a with bound := decide (a.vt < 256), vt := a.vt % 256 }, vs, false)
  else some (a, vs, false)

/-- The block of the less probable symbol, aec.cc:432-457 and its copies, from the adjustment of the value to
the new range, without the context update. -/
def Aec.lps (a : Aec) (vs s2 t2 trlps : Nat) : Option (Aec × Bool) :=
  let adj : Option (Aec × Bool) :=
    if s2 = vs then some ({ a with vt := sub32 a.vt t2 }, false)
    else match a.nextBit with
      | none => none
      | some (a, true) => some (a, true)
      | some (a, false) => some ({ a with vt := add32 a.vt (sub32 256 t2) }, false)
  match adj with
  | none => none
  | some (a, true) => some (a, true)
  | some (a, false) =>
    match renorm 9 trlps with
    | none => none
    | some (t, n) =>
      match (if n = 0 then some (a, false) else a.nextN n) with
      | none => none
      | some (a, true) => some (a, true)
      | some (a, false) => some ({ a with s1 := 0, t1 := t % 256 }, false)

/-- `biari_decode_symbol`, aec.cc:390-468: state, context and symbol. -/
def biariSymbol (a : Aec) (ctx : Nat) : Option (Aec × Nat × Nat) :=
  let lg := ctxLg ctx / 4
  let mps := ctxMps ctx
  match a.enter a.vs with
  | none => none
  | some (b, _, true) => some (b, ctx, 0)
  | some (b, vs, false) =>
    if b.vs > 254 then some ({ b with err := true, vs := vs }, ctx, 0)
    else
      let sf := if b.t1 < lg then 1 else 0
      let s2 := add32 b.s1 sf
      let t2 := add32 (sub32 b.t1 lg) (256 * sf)
      let isLps := (decide (s2 > vs) || (s2 == vs && decide (b.vt ≥ t2))) && !b.bound
      if isLps then
        let trlps := if sf = 0 then lg else add32 b.t1 lg
        match Aec.lps { b with dom := true } vs s2 t2 trlps with
        | none => none
        | some (c, true) => some (c, ctx, 0)
        | some (c, false) => some ({ c with vs := vs }, updateCtx true ctx, 1 - mps)
      else some ({ b with dom := false, s1 := s2, t1 := t2, vs := vs }, updateCtx false ctx, mps)

/-- `biari_decode_symbol_eq_prob`, aec.cc:473-512: state and symbol. -/
def biariEq (a : Aec) : Option (Aec × Nat) :=
  if a.inR then
    match Aec.nextBit { a with s1 := 0 } with
    | none => none
    | some (b, true) => some (b, 0)
    | some (b, false) =>
      if b.vt ≥ add32 256 b.t1 then some ({ b with vt := sub32 b.vt (add32 256 b.t1) }, 1) else some (b, 0)
  else
    let s2 := add32 a.s1 1
    let t2 := a.t1
    let isLps := decide (s2 > a.vs) || ((s2 == a.vs && decide (a.vt ≥ t2)) && !a.bound)
    if isLps then
      let a := { a with dom := true }
      if s2 = a.vs then some ({ a with vt := sub32 a.vt t2 }, 1)
      else
        match a.nextBit with
        | none => none
        | some (b, true) => some (b, 0)
        | some (b, false) => some ({ b with vt := add32 b.vt (sub32 256 t2) }, 1)
    else some ({ a with dom := false, s1 := s2, t1 := t2 }, 0)

/-- `biari_decode_final`, aec.cc:516-584: state and symbol. -/
def biariFinal (a : Aec) : Option (Aec × Nat) :=
  match a.enter a.vs with
  | none => none
  | some (b, vs, true) => some ({ b with vs := vs }, 0)
  | some (b, vs, false) =>
    let b := { b with vs := vs }
    let sf := if b.t1 < 1 then 1 else 0
    let s2 := add32 b.s1 sf
    let t2 := add32 (sub32 b.t1 1) (256 * sf)
    let isLps := (decide (s2 > vs) || (s2 == vs && decide (b.vt ≥ t2))) && !b.bound
    if isLps then
      match Aec.lps { b with dom := true } vs s2 t2 1 with
      | none => none
      | some (c, true) => some (c, 0)
      | some (c, false) => some ({ c with t1 := 0 }, 1)
    else some ({ b with dom := false, s1 := s2, t1 := t2 }, 0)

/-- Loop of `biari_decode_symbol_continue0`, aec.cc:598-668.  `vs` is the local variable, `i` the number of
symbols decoded, `n` the number still allowed; the last component tells whether the function has returned
from inside the loop (with value 0). -/
def continue0Loop : Nat → Aec → Nat → Nat → Nat → Option (Aec × Nat × Nat × Nat × Nat × Bool)
  | 0, a, ctx, vs, i => some (a, ctx, vs, i, 0, false)
  | n + 1, a, ctx, vs, i =>
    let lg := ctxLg ctx / 4
    let mps := ctxMps ctx
    match a.enter vs with
    | none => none
    | some (b, vs, true) => some (b, ctx, vs, i, 0, true)
    | some (b, vs, false) =>
      let sf := if b.t1 < lg then 1 else 0
      let s2 := add32 b.s1 sf
      let t2 := add32 (sub32 b.t1 lg) (256 * sf)
      if vs > 254 then some ({ b with err := true }, ctx, vs, i, 0, true)
      else
        let isLps := (decide (s2 > vs) || (s2 == vs && decide (b.vt ≥ t2))) && !b.bound
        if isLps then
          let trlps := if sf = 0 then lg else add32 b.t1 lg
          match Aec.lps { b with dom := true } vs s2 t2 trlps with
          | none => none
          | some (c, true) => some (c, ctx, vs, i, 0, true)
          | some (c, false) =>
            if mps = 0 then some (c, updateCtx true ctx, vs, i + 1, 1, false)
            else continue0Loop n c (updateCtx true ctx) vs (i + 1)
        else
          let c := { b with dom := false, s1 := s2, t1 := t2 }
          if mps = 0 then continue0Loop n c (updateCtx false ctx) vs (i + 1)
          else some (c, updateCtx false ctx, vs, i + 1, 1, false)

/-- `biari_decode_symbol_continue0`, aec.cc:591-672: state, context and result. -/
def continue0 (a : Aec) (ctx max : Nat) : Option (Aec × Nat × Nat) :=
  match continue0Loop max a ctx a.vs 0 with
  | none => none
  | some (a, ctx, _, _, _, true) => some (a, ctx, 0)
  | some (a, ctx, vs, i, bit, false) => some ({ a with vs := vs }, ctx, i - bit)

/-- The loop of aec.cc:736-742 with its reads. -/
def Aec.renormExt : Nat → Aec → Nat → Option (Aec × Nat × Bool)
  | 0, _, _ => none
  | fuel + 1, a, t =>
    if t < 256 then
      match a.nextBit with
      | none => none
      | some (a, true) => some (a, t, true)
      | some (a, false) => Aec.renormExt fuel a (t <<< 1)
    else some (a, t, false)

/-- The block of the less probable symbol in `biari_decode_symbol_continu0_ext`, aec.cc:723-745. -/
def Aec.lpsExt (a : Aec) (s2 t2 trlps : Nat) : Option (Aec × Bool) :=
  let adj : Option (Aec × Bool) :=
    if s2 = a.vs then some ({ a with vt := sub32 a.vt t2 }, false)
    else match a.nextBit with
      | none => none
      | some (a, true) => some (a, true)
      | some (a, false) => some ({ a with vt := add32 a.vt (sub32 256 t2) }, false)
  match adj with
  | none => none
  | some (a, true) => some (a, true)
  | some (a, false) =>
    match Aec.renormExt 9 a trlps with
    | none => none
    | some (a, _, true) => some (a, true)
    | some (a, t, false) => some ({ a with s1 := 0, t1 := t % 256 }, false)

/-- Loop of `biari_decode_symbol_continu0_ext`, aec.cc:682-752; `ctx` holds the contexts used, `i` is the
number of symbols decoded. -/
def contExtLoop (inc : Nat) : Nat → Aec → (Nat → Nat) → Nat → Option (Aec × (Nat → Nat) × Nat × Nat × Bool)
  | 0, a, ctx, i => some (a, ctx, i, 0, false)
  | n + 1, a, ctx, i =>
    let k := min i inc
    let lg := ctxLg (ctx k) / 4
    let mps := ctxMps (ctx k)
    match a.enter a.vs with
    | none => none
    | some (b, vs, true) => some ({ b with vs := vs }, ctx, i, 0, true)
    | some (b, vs, false) =>
      let b := { b with vs := vs }
      let sf := if b.t1 < lg then 1 else 0
      let s2 := add32 b.s1 sf
      let t2 := add32 (sub32 b.t1 lg) (256 * sf)
      if b.vs > 254 then some ({ b with err := true }, ctx, i, 0, true)
      else
        let isLps := (decide (s2 > b.vs) || (s2 == b.vs && decide (b.vt ≥ t2))) && !b.bound
        if isLps then
          let trlps := if sf = 0 then lg else add32 b.t1 lg
          match Aec.lpsExt { b with dom := true } s2 t2 trlps with
          | none => none
          | some (c, true) => some (c, ctx, i, 0, true)
          | some (c, false) =>
            let ctx' := tabSet ctx k (updateCtx true (ctx k))
            if mps = 0 then some (c, ctx', i + 1, 1, false) else contExtLoop inc n c ctx' (i + 1)
        else
          let c := { b with dom := false, s1 := s2, t1 := t2 }
          let ctx' := tabSet ctx k (updateCtx false (ctx k))
          if mps = 0 then contExtLoop inc n c ctx' (i + 1) else some (c, ctx', i + 1, 1, false)

/-- `biari_decode_symbol_continu0_ext`, aec.cc:676-755. -/
def contExt (a : Aec) (ctx : Nat → Nat) (inc max : Nat) : Option (Aec × (Nat → Nat) × Nat) :=
  match contExtLoop inc max a ctx 0 with
  | none => none
  | some (a, ctx, _, _, true) => some (a, ctx, 0)
  | some (a, ctx, i, bit, false) => some (a, ctx, i - bit)

/-- `unary_bin_max_decode`, aec.cc:761-778, with the context of the first symbol and that of the others. -/
def unaryBinMax (a : Aec) (c0 c1 maxSym : Nat) (same : Bool) : Option (Aec × Nat × Nat × Nat) :=
  match biariSymbol a c0 with
  | none => none
  | some (a, c0, sym) =>
    if sym = 1 then some (a, c0, if same then c0 else c1, 0)
    else if maxSym = 1 then some (a, c0, if same then c0 else c1, sym)
    else
      match continue0 a (if same then c0 else c1) (maxSym - 1) with
      | none => none
      | some (a, c, k) => some (a, if same then c else c0, c, 1 + k)

end Davs2
