import Verif.Model.Basic
/-
Adaptive probability states of the entropy decoder and their transition tables,
/repo/source/common/aec.cc:46-63, 121-127, 242-350, 782-792; `context_t`,
/repo/source/common/common.h:479-486.

A state is the 16-bit number `v` of the union: `cycno` in bits 0-1, `MPS` in bit 2, `LG_PMPS` in bits 3-13.
-/
namespace Davs2

/-- `MAKE_CONTEXT`, aec.cc:47. -/
def mkCtx (lg mps cyc : Nat) : Nat := cyc + 4 * mps + 8 * lg

/-- The bit fields of `context_t`. -/
def ctxCyc (v : Nat) : Nat := v % 4
def ctxMps (v : Nat) : Nat := v / 4 % 2
def ctxLg (v : Nat) : Nat := v / 8 % 2048

/-- `tab_cwr`, aec.cc:121-123; indexed with a 2-bit number. -/
def tabCwr (cyc : Nat) : Nat := [3, 3, 4, 5].getD cyc 5

/-- `tab_lg_pmps_offset`, aec.cc:125-127. -/
def tabLgOffset (cwr : Nat) : Nat := [0, 0, 0, 197, 95, 46].getD cwr 0

/-- A store into a table. -/
def tabSet (t : Nat → Nat) (i v : Nat) : Nat → Nat := fun j => if j = i then v else t j

/-- Inner loop of the first table, aec.cc:321-326. -/
def mpsInner (cyc mps : Nat) (t : Nat → Nat) : Nat → Nat :=
  (List.range 1025).foldl (fun t lg =>
    tabSet t (mkCtx lg mps cyc)
      (mkCtx (lg - ((lg >>> tabCwr cyc) + (lg >>> (tabCwr cyc + 2)))) mps (max cyc 1))) t

/-- Inner loop of the second table, aec.cc:338-346.  `ctx_o.MPS` is a variable set outside of the loop and
changed inside. -/
def lpsInner (cyc mps : Nat) (t : Nat → Nat) : Nat → Nat :=
  ((List.range 1025).foldl (fun (p : Nat × (Nat → Nat)) lg =>
    let x := lg + tabLgOffset (tabCwr cyc)
    if 1024 ≤ x then
      (1 - mps, tabSet p.2 (mkCtx lg mps cyc) (mkCtx (2047 - x) (1 - mps) (min (cyc + 1) 3)))
    else (p.1, tabSet p.2 (mkCtx lg mps cyc) (mkCtx x p.1 (min (cyc + 1) 3)))) (mps, t)).2

/-- `init_aec_context_tab`, aec.cc:311-327: the table `g_tab_ctx_mps`. -/
def mpsTab : Nat → Nat :=
  [(0, 0), (0, 1), (1, 0), (1, 1), (2, 0), (2, 1), (3, 0), (3, 1)].foldl
    (fun t p => mpsInner p.1 p.2 t) (fun _ => 0)

/-- aec.cc:329-348: the table `g_tab_ctx_lps`. -/
def lpsTab : Nat → Nat :=
  [(0, 0), (0, 1), (1, 0), (1, 1), (2, 0), (2, 1), (3, 0), (3, 1)].foldl
    (fun t p => lpsInner p.1 p.2 t) (fun _ => 0)

/-- `update_ctx_mps` and `update_ctx_lps`, aec.cc:246-287 (with `CTRL_OPT_AEC`). -/
def updateCtx (lps : Bool) (v : Nat) : Nat := if lps then lpsTab v else mpsTab v

/-- Start value of every state, aec.cc:784-786. -/
def initCtx : Nat := mkCtx 1023 0 0

/-- The loop `while (t_rlps < QUARTER) { t_rlps <<= 1; n_bits++; }`, aec.cc:446-449, with a bound on the
number of rounds; `none` if the loop is still running then. -/
def renorm : Nat → Nat → Option (Nat × Nat)
  | 0, _ => none
  | fuel + 1, t =>
    if t < 256 then (renorm fuel (t <<< 1)).map fun (t', n) => (t', n + 1) else some (t, 0)

end Davs2
