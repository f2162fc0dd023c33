import Verif.Lemmas.SliceSyntax
import Verif.Lemmas.CuAccept
import Verif.Props.AecCoeffs
/-
C96: the coding data of whole pictures are read as they were written.  C97: what is read of a slice does not depend on earlier
pictures and other slices (partly).  C98: units that are accepted have complete residual data (partly).
-/
namespace Davs2.Cs
open Davs2.Sx Davs2.Mo

variable {σ : Type} {m : Machine σ} {G : σ → Prop}

/-- **C96 (picture).**  A picture of any size with slices that start at the left border, whatever the units held before: if the
arithmetic decoders of the slices deliver the bins of a well-formed picture, then every slice has the LCUs that were
written, with the parameters of SAO and ALF, and in each LCU the units with position, size, type, prediction directions, references,
vector differences, intra modes, transform split, pattern, quantiser and levels. -/
theorem C96_picture (hm : m.Lawful G) {w h frame n lw lh : Nat} (geo : Geo w h n lw lh) (sl : List (Env × Filt × List LcuW × List Bin))
    (hp : pictureT w h frame n lw lh 0 [] sl) {S : SlState} (hc : ∀ a, S.pic.modes a = 0)
    (hs : frame = 5 → ∀ i j, (S.pic.cu i j).wsm = 0) {st : List (Env × Filt × σ)}
    (hst : List.Forall₂ (fun a b => b.1 = a.1 ∧ b.2.1 = a.2.1 ∧ ∃ s', Produces G m b.2.2 a.2.2.2 s') sl st) :
    ∃ rs S', readPicture m n lw (lw * lh) st 0 S = .ok (rs, S') ∧
      List.Forall₂ (fun a b => List.Forall₂ (SameLcu a.1 a.2.1) a.2.2 b) (expectedPic n lw 0 sl) rs := by
  have := reads_picture hm geo sl (idle_start hc hs) hp hst
  rwa [Nat.mul_zero] at this

/-- **C96 (arithmetic decoder).**  The same for the arithmetic decoder in good states (for example at the start of a payload), if it
delivers the bins one by one without an error. -/
theorem C96_decoder {w h frame n lw lh : Nat} (geo : Geo w h n lw lh) (sl : List (Env × Filt × List LcuW × List Bin))
    (hp : pictureT w h frame n lw lh 0 [] sl) {S : SlState} (hc : ∀ a, S.pic.modes a = 0)
    (hs : frame = 5 → ∀ i j, (S.pic.cu i j).wsm = 0) {st : List (Env × Filt × Sx.St)}
    (hst : List.Forall₂ (fun a b => b.1 = a.1 ∧ b.2.1 = a.2.1 ∧ GoodSt b.2.2 ∧ ∃ s', Produces noError aecMachine b.2.2 a.2.2.2 s') sl st) :
    ∃ rs S', readPicture aecMachine n lw (lw * lh) st 0 S = .ok (rs, S') ∧
      List.Forall₂ (fun a b => List.Forall₂ (SameLcu a.1 a.2.1) a.2.2 b) (expectedPic n lw 0 sl) rs :=
  C96_picture aecMachine_lawful geo sl hp hc hs
    (hst.imp fun _ _ ⟨h1, h2, g, s', h3⟩ => ⟨h1, h2, s', g.produces h3⟩)

/-- **C96 (slice).**  One slice with LCUs from row `r` on: exactly the bins of the slice are used, and the decoder is in the state
after them. -/
theorem C96_slice (hm : m.Lawful G) {E : Env} {F : Filt} (hq : 0 ≤ E.qp ∧ E.qp ≤ 63) (hn : E.frame ≠ 0 → 1 ≤ E.nrefs)
    {n lw lh r : Nat} (geo : Geo E.w E.h n lw lh) {used : List Int} (hu : E.slice ∉ used) {ls : List LcuW} {S : SlState} {c : List Bin}
    (id : Idle E.w E.h E.frame n r used S) (h : sliceT E F n lw lh (lw * r) [] ls (Maps.start E.qp) c) :
    ∃ rs S', (∀ s s', Produces G m s c s' →
        readSlice m E F n lw (lw * lh - lw * r) (lw * r) (startSlice E.w n lw (lw * r) S) s = .ok ((rs, S'), s')) ∧
      List.Forall₂ (SameLcu E F) (expected E n lw (lw * r) ls (Maps.start E.qp)) rs := by
  obtain ⟨rs, S', h1, h2, _⟩ := reads_whole_slice hm hq hn geo hu id h
  exact ⟨rs, S', h1, h2⟩

/-- **C96 (uniqueness).**  Two slices that are written with the same bins, or one with the first bins of the other, are
the same: what is read agrees with both, and nothing is left over. -/
theorem C96_unique {E : Env} {F : Filt} (hq : 0 ≤ E.qp ∧ E.qp ≤ 63) (hn : E.frame ≠ 0 → 1 ≤ E.nrefs)
    {n lw lh r : Nat} (geo : Geo E.w E.h n lw lh) {used : List Int} (hu : E.slice ∉ used) {ls ls' : List LcuW} {S : SlState} {c c' d d' : List Bin}
    (id : Idle E.w E.h E.frame n r used S) (h : sliceT E F n lw lh (lw * r) [] ls (Maps.start E.qp) c)
    (h' : sliceT E F n lw lh (lw * r) [] ls' (Maps.start E.qp) c') (e : c ++ d = c' ++ d') :
    c = c' ∧ ls.length = ls'.length ∧ ∃ rs, List.Forall₂ (SameLcu E F) (expected E n lw (lw * r) ls (Maps.start E.qp)) rs ∧
      List.Forall₂ (SameLcu E F) (expected E n lw (lw * r) ls' (Maps.start E.qp)) rs := by
  obtain ⟨rs, S1, h1, h2⟩ := C96_slice script_lawful hq hn geo hu id h
  obtain ⟨rs', S2, h1', h2'⟩ := C96_slice script_lawful hq hn geo hu id h'
  have e1 := h1 _ _ (script_produces.mpr (rfl : c ++ d = _))
  have e2 := h1' _ _ (script_produces.mpr (rfl : c' ++ d' = _))
  rw [e, e2] at e1
  have e3 := Except.ok.inj e1
  rw [Prod.mk.injEq, Prod.mk.injEq] at e3
  obtain ⟨⟨rfl, _⟩, rfl⟩ := e3
  refine ⟨List.append_cancel_right e, ?_, rs', h2, h2'⟩
  rw [← expected_len E n lw ls (lw * r) (Maps.start E.qp), forall2_len h2, ← forall2_len h2', expected_len]

/-! ### C97 -/

/-- **C97 (partial).**  Other than in S pictures, and for slices that start at the left border: whatever the units, modes and
parameters of SAO hold from earlier pictures and earlier slices (`Idle`), the slice is read as the same LCUs. -/
theorem C97_independent_partial (hm : m.Lawful G) {E : Env} {F : Filt} (hq : 0 ≤ E.qp ∧ E.qp ≤ 63) (hn : E.frame ≠ 0 → 1 ≤ E.nrefs)
    {n lw lh r : Nat} (geo : Geo E.w E.h n lw lh) {used used' : List Int} (hu : E.slice ∉ used) (hu' : E.slice ∉ used') {ls : List LcuW}
    {S S' : SlState} {c : List Bin} (hf : E.frame ≠ 5)
    (h1 : ∀ a b, a < E.w → b < E.h → b < r * 2 ^ n → (S.pic.cu a b).slice ∈ used)
    (h1' : ∀ a b, a < E.w → b < E.h → b < r * 2 ^ n → (S'.pic.cu a b).slice ∈ used')
    (h2 : ∀ x y : Int, -1 ≤ x → x < 2 * E.w → ((2 * (r * 2 ^ n) : Nat) : Int) ≤ y → y < 2 * E.h →
      S.pic.modes (Im.addr (2 * E.w) x y) = 0 ∧ S'.pic.modes (Im.addr (2 * E.w) x y) = 0)
    (h : sliceT E F n lw lh (lw * r) [] ls (Maps.start E.qp) c) {s s' : σ} (hp : Produces G m s c s') :
    ∃ rs rs' S1 S1', readSlice m E F n lw (lw * lh - lw * r) (lw * r) (startSlice E.w n lw (lw * r) S) s = .ok ((rs, S1), s') ∧
      readSlice m E F n lw (lw * lh - lw * r) (lw * r) (startSlice E.w n lw (lw * r) S') s = .ok ((rs', S1'), s') ∧
      List.Forall₂ (SameLcu E F) (expected E n lw (lw * r) ls (Maps.start E.qp)) rs ∧
      List.Forall₂ (SameLcu E F) (expected E n lw (lw * r) ls (Maps.start E.qp)) rs' := by
  have i1 : Idle E.w E.h E.frame n r used S := ⟨h1, fun x y a b c d => (h2 x y a b c d).1, fun h => absurd h hf⟩
  have i2 : Idle E.w E.h E.frame n r used' S' := ⟨h1', fun x y a b c d => (h2 x y a b c d).2, fun h => absurd h hf⟩
  obtain ⟨rs, S1, a, b⟩ := C96_slice hm hq hn geo hu i1 h
  obtain ⟨rs', S1', a', b'⟩ := C96_slice hm hq hn geo hu' i2 h
  exact ⟨rs, rs', S1, S1', a s s' hp, a' s s' hp, b, b'⟩

/-- Settings for the examples: a picture of `w` by `h` blocks of 8x8 samples. -/
def exEnv (frame w h : Nat) (slice : Int) : Env :=
  ⟨frame, 1, ⟨false, false, false, false, false⟩, false, false, 32, slice, w, h, fun _ _ => [], fun _ _ _ v => v⟩

def noFilt : Filt := ⟨false, [], false, []⟩

/-- A state at the start of a picture; `k` is what `i_weighted_skipmode` is left at. -/
def exState (k : Nat) : SlState := ⟨⟨fun _ _ => ⟨-1, 3, 0, 0, 0, 0, k⟩, fun _ => 0, 0⟩, fun _ => []⟩

/-- Directions and intra modes of all units, by slice. -/
def summary : Except Fault (List (List LcuRead) × SlState) → List (List (List Int × List Int))
  | .error _ => []
  | .ok r => r.1.map fun ls => ls.flatMap fun l => l.units.map fun u => match u.val with
    | none => ([], [])
    | some c => (c.dirs, c.modes)

/-- **C97 violated (S pictures).**  A skipped unit of an S picture: the same bins are read as a unit with one reference, or as one
with two if `i_weighted_skipmode` of an earlier picture is left over at its place (aec.cc:1415 tests it, aec.cc:1079-1105 does
not set it). -/
theorem C97_S_violated : ∃ c : List Bin, ∃ k : Nat,
    summary (readPicture script 1 1 1 [(exEnv 5 2 2 0, noFilt, c)] 0 (exState 0)) = [[([0, 0, 0, 0], [])]] ∧
    summary (readPicture script 1 1 1 [(exEnv 5 2 2 0, noFilt, c)] 0 (exState k)) = [[([4, 4, 4, 4], [])]] :=
  ⟨[.ctx .split 0 false, .ctx .cuType 0 true, .fin true], 1, by decide +kernel, by decide +kernel⟩

/-- **C97 violated (slices that start within a row).**  Two pictures of two LCUs and two slices each, the second slices with the
same bins: the intra mode that is read in the second slice depends on the unit in the first one to the left of it, because only
the row above is cleared (decoder.cc:366-368). -/
theorem C97_column_violated : ∃ c c' d : List Bin,
    summary (readPicture script 1 2 2 [(exEnv 0 4 2 0, noFilt, c), (exEnv 0 4 2 1, noFilt, d)] 0 (exState 0)) =
      [[([-1, -1, -1, -1], [0])], [([-1, -1, -1, -1], [2])]] ∧
    summary (readPicture script 1 2 2 [(exEnv 0 4 2 0, noFilt, c'), (exEnv 0 4 2 1, noFilt, d)] 0 (exState 0)) =
      [[([-1, -1, -1, -1], [12])], [([-1, -1, -1, -1], [12])]] :=
  ⟨[.ctx .split 0 false, cx .lumaMode 0 1, cx .lumaMode 6 0, cx .chromaMode 0 1, cx .cbp 0 0, cx .cbp 6 0, .fin true],
   [.ctx .split 0 false, cx .lumaMode 0 0, cx .lumaMode 1 0, cx .lumaMode 2 1, cx .lumaMode 3 0, cx .lumaMode 4 1, cx .lumaMode 5 0,
     cx .chromaMode 0 1, cx .cbp 0 0, cx .cbp 6 0, .fin true],
   [.ctx .split 0 false, cx .lumaMode 0 1, cx .lumaMode 6 1, cx .chromaMode 0 1, cx .cbp 0 0, cx .cbp 6 0, .fin true],
   by decide +kernel, by decide +kernel⟩

/-! ### C98 -/

/-- **C98 (partial).**  Whatever the decoder delivers: of an accepted unit every block that is listed was read to its end, with the
exception of the luma block of a unit without transform split. -/
theorem C98_complete_partial (m : Machine σ) (E : Env) (level sx sy : Nat) (S S' : Pic) (s s' : σ) (r : CuRead)
    (h : readCu m E level sx sy S s = .ok ((some r, S'), s')) (i : Nat) (c : Coeffs) (hc : (i, c) ∈ r.coeffs) (hi : i ≠ 0 ∨ r.trans ≠ 0) :
    0 ≤ c.pattern :=
  post_cu E level sx sy S s _ s' h r rfl i c hc hi

/-- **C98 violated.**  The payload 109, 116, 17 ends within the luma block of an 8x8 intra unit; the unit is accepted all
the same, with the pattern -1, which later selects the function of the inverse transform (transform.cc:846).  `cu_read_all_coeffs`
tests the pattern of the other blocks only (cu.cc:643-647, 687, 723). -/
theorem C98_violated : ∃ s r S' s' c, startState [109, 116, 17] = some s ∧
    readCu aecMachine (exEnv 0 2 2 0) 3 0 0 (exState 0).pic s = .ok ((some r, S'), s') ∧ (0, c) ∈ r.coeffs ∧ c.pattern = -1 := by
  have h : ((startState [109, 116, 17]).any fun s => match readCu aecMachine (exEnv 0 2 2 0) 3 0 0 (exState 0).pic s with
      | .ok ((some r, _), _) => match r.coeffs with
        | [(0, c)] => decide (c.pattern = -1)
        | _ => false
      | _ => false) = true := by decide +kernel
  rw [Option.any_eq_true] at h
  obtain ⟨s, e, h⟩ := h
  split at h
  · rename_i r S' s' e1
    split at h
    · rename_i c e2
      exact ⟨s, r, S', s', c, e, e1, by rw [e2]; exact List.mem_singleton.mpr rfl, of_decide_eq_true h⟩
    · cases h
  · cases h

/-! ### A picture that meets the hypotheses -/

/-- An intra unit of 16x16 samples with a vertical mode and one luma level; then four of 8x8 samples, with and without
transform split. -/
def exBig : CUnit := { type := 8, modes := [12], cbp := 1, lev := fun _ x y => if x = 0 ∧ y = 0 then 5 else 0 }
def exSmall (v : Int) : CUnit := { type := 8, modes := [v] }
def exFour : CUnit := { type := 9, trans := 3, modes := [1, 1, 0, 12], cmode := 2 }

def exFilt : Filt := ⟨true, [true, false, true], true, [true, false, false]⟩

/-- 16x32 samples, two slices of one LCU. -/
def exLcus : List LcuW :=
  [⟨[.band 30 1 [0, 3, -7, 0], .off, .edge 2 [2, 1, 0, -1]], [true, false, false], .unit exBig⟩,
   ⟨[.off, .off, .off], [false, false, false], .node (.unit (exSmall 0)) (.unit (exSmall 5)) (.unit (exSmall 5)) (.unit exFour)⟩]

example : Geo 2 4 1 1 2 := ⟨by decide, by decide, by decide, by decide, by decide, by decide, by decide⟩

theorem ex_mem {α : Type} {l : List (α × List Bin)} {v : α} [DecidableEq α] (h : l.any (fun e => decide (e.1 = v)) = true) :
    ∃ c, (v, c) ∈ l := by
  obtain ⟨e, he, h⟩ := List.any_eq_true.mp h
  exact ⟨e.2, by rw [← of_decide_eq_true h]; exact he⟩

/-- Can the modes be written? -/
def modesB : List Rect → List Int → (Int → Int → Int) → Bool
  | [], vs, _ => vs.isEmpty
  | _ :: _, [], _ => false
  | b :: bs, v :: vs, M => (List.range 34).any (fun k => decide ((Spec.Im.probable (M b.x (b.y - 1)) (M (b.x - 1) b.y) ++
      Spec.Im.others (M b.x (b.y - 1)) (M (b.x - 1) b.y))[k]? = some v)) && modesB bs vs (setRect M b v)

theorem ex_modes : ∀ (bs : List Rect) (vs : List Int) (M : Int → Int → Int), modesB bs vs M = true → ∃ c, modesT bs vs M c
  | [], vs, M, h => ⟨[], List.isEmpty_iff.mp h, rfl⟩
  | _ :: _, [], _, h => nomatch h
  | b :: bs, v :: vs, M, h => by
    unfold modesB at h
    rw [Bool.and_eq_true] at h
    obtain ⟨k, hk, hv⟩ := List.any_eq_true.mp h.1
    obtain ⟨c, hc⟩ := ex_modes bs vs _ h.2
    have : ∀ k : Nat, k < 34 → intraPmodeT.any (fun e => decide (e.1 = (k : Int) - 2)) = true := by decide +kernel
    obtain ⟨cb, hcb⟩ := ex_mem (this k (List.mem_range.mp hk))
    exact ⟨cb ++ c, v, vs, k, cb, c, rfl, rfl, of_decide_eq_true hv, hcb, hc⟩

theorem ex_rest {P : Maps} {w h : Nat} {sl : Int} {level x y : Nat} {u : CUnit} (ht : u.type = 8 ∧ u.cbp < 2 ∨ u.type = 9 ∧ u.cbp = 0) (hd : u.dqp = 0)
    (hl : u.cbp = 1 → (∀ a b, (u.lev 0 a b).natAbs ≤ 32767) ∧ u.lev 0 0 0 ≠ 0 ∧ u.trans = 0) : ∃ c, restT (exEnv 0 w h sl) P level x y u c := by
  have hc : ∃ c, cbpT (nearT P level x y (if u.type < 8 then splitShape (exEnv 0 w h sl).nsqt u.type level else u.trans)) u.type.toNat (u.cbp, false) c := by
    rcases ht with ⟨ht, hc⟩ | ⟨ht, hc⟩
    · have hb : u.cbp = (decide (u.cbp = 1)).toNat := by
        rcases (show u.cbp = 0 ∨ u.cbp = 1 by omega) with h | h <;> rw [h] <;> rfl
      rw [ht]
      exact ⟨_, rfl, _, 0, _, _, (Nat.add_zero _).symm, rfl, List.mem_cons_self, decide (u.cbp = 1), hb, rfl⟩
    · rw [ht, hc]
      exact ⟨_, rfl, 0, 0, _, _, rfl, rfl, List.mem_cons_self, false, false, false, false, rfl, rfl⟩
  obtain ⟨cp, hcp⟩ := hc
  refine ⟨_, false, cp, [], rfl, hcp, fun h => by omega, ?_, ?_, ?_⟩
  · rw [if_neg (by simp [exEnv])]
    exact ⟨hd, rfl⟩
  · unfold qpOf
    rw [if_neg (by simp [exEnv]; omega)]
    show (0 : Int) ≤ 32 ∧ (32 : Int) ≤ 63
    decide
  · intro i hi
    unfold codedBlks at hi
    rcases (show u.cbp = 0 ∨ u.cbp = 1 by omega) with h | h
    · rw [h] at hi
      simp at hi
    · rw [h] at hi
      obtain ⟨h1, h2, h3⟩ := hl h
      have e0 : i = 0 := by
        rw [show ((List.range 6).filter fun i => Nat.testBit 1 i) = [0] by decide] at hi
        exact List.mem_singleton.mp hi
      subst e0
      refine ⟨h1, 0, ?_, 0, ?_, h2⟩
      · unfold blkOf
        rw [if_pos (by decide), h3]
        dsimp only
        rw [if_pos rfl, if_neg (by decide)]
        dsimp only
        exact lt_min (by decide) (Nat.pow_pos (by decide))
      · unfold blkOf
        rw [if_pos (by decide), h3]
        dsimp only
        rw [if_pos rfl, if_neg (by decide)]
        dsimp only
        exact lt_min (by decide) (Nat.pow_pos (by decide))

theorem ex_unit {P : Maps} {w h : Nat} {sl : Int} {level x y : Nat} {u : CUnit} (ht : u.type = 8 ∧ u.cbp < 2 ∨ u.type = 9 ∧ u.cbp = 0) (hd : u.dqp = 0)
    (hl : u.cbp = 1 → (∀ a b, (u.lev 0 a b).natAbs ≤ 32767) ∧ u.lev 0 0 0 ≠ 0 ∧ u.trans = 0)
    (h1 : (intraTypeT false level).any (fun e => decide (e.1 = (u.type.toNat, some u.trans))) = true)
    (h2 : modesB (rects u.type level x y) u.modes P.mode = true)
    (h3 : (chromaModeT (P.cm (2 * x - 1) (2 * y)) (chromaTwin (u.modes.getD 0 0))).any (fun e => decide (e.1 = u.cmode)) = true) :
    ∃ c, unitT (exEnv 0 w h sl) P level x y u c := by
  obtain ⟨ci, h1⟩ := ex_mem h1
  obtain ⟨cm, h2⟩ := ex_modes _ _ _ h2
  obtain ⟨cc, h3⟩ := ex_mem h3
  obtain ⟨cr, h4⟩ := ex_rest (w := w) (h := h) (sl := sl) (P := P) (level := level) (x := x) (y := y) ht hd hl
  refine ⟨[] ++ ci ++ cm ++ cc ++ cr, ?_⟩
  unfold unitT
  rw [if_neg (by omega)]
  refine ⟨[], ci, cm, cc, cr, rfl, ?_, h1, h2, h3, h4⟩
  unfold headT
  dsimp only
  rw [if_neg (by simp [exEnv])]
  refine ⟨⟨9, 0, 0⟩, ⟨⟨9, 0, 0⟩, 9, [], [], rfl, rfl, ⟨rfl, [], [], rfl, ?_, ?_⟩, ?_⟩, ?_, fun h => by omega⟩
  · rw [if_neg (by omega)]; exact ⟨rfl, rfl⟩
  · rw [if_neg (by omega)]; exact ⟨rfl, rfl⟩
  · exact List.mem_cons_self
  · rw [if_neg (by omega)]

/-- The picture is well-formed. -/
theorem ex_picture : ∃ c d, pictureT 2 4 0 1 1 2 0 []
    [(exEnv 0 2 4 0, exFilt, exLcus.take 1, c), (exEnv 0 2 4 1, exFilt, exLcus.drop 1, d)] := by
  let E0 := exEnv 0 2 4 0
  let E1 := exEnv 0 2 4 1
  let P0 := Maps.start 32
  let Pa := after E1 P0 3 0 2 (exSmall 0)
  let Pb := after E1 Pa 3 1 2 (exSmall 5)
  let Pc := after E1 Pb 3 0 3 (exSmall 5)
  obtain ⟨c0, u0⟩ : ∃ c, unitT E0 P0 4 0 0 exBig c := ex_unit (.inl ⟨rfl, by decide⟩) rfl
    (fun _ => ⟨fun a b => by unfold exBig; dsimp only; split <;> decide, by decide, rfl⟩) (by decide +kernel) (by decide +kernel) (by decide +kernel)
  obtain ⟨ca, ua⟩ : ∃ c, unitT E1 P0 3 0 2 (exSmall 0) c := ex_unit (.inl ⟨rfl, by decide⟩) rfl
    (fun h => nomatch h) (by decide +kernel) (by decide +kernel) (by decide +kernel)
  obtain ⟨cb, ub⟩ : ∃ c, unitT E1 Pa 3 1 2 (exSmall 5) c := ex_unit (.inl ⟨rfl, by decide⟩) rfl
    (fun h => nomatch h) (by decide +kernel) (by decide +kernel) (by decide +kernel)
  obtain ⟨cc, uc⟩ : ∃ c, unitT E1 Pb 3 0 3 (exSmall 5) c := ex_unit (.inl ⟨rfl, by decide⟩) rfl
    (fun h => nomatch h) (by decide +kernel) (by decide +kernel) (by decide +kernel)
  obtain ⟨cd, ud⟩ : ∃ c, unitT E1 Pc 3 1 3 exFour c := ex_unit (.inr ⟨rfl, by decide⟩) rfl
    (fun h => nomatch h) (by decide +kernel) (by decide +kernel) (by decide +kernel)
  have t0 : treeT E0 1 0 0 (.unit exBig) P0 _ _ := ⟨by decide, rfl, [cx .split 0 0], c0, rfl, by rw [if_neg (by decide)]; decide, u0⟩
  have ta : treeT E1 0 0 2 (.unit (exSmall 0)) P0 _ _ := ⟨by decide, rfl, [], ca, rfl, rfl, ua⟩
  have tb : treeT E1 0 1 2 (.unit (exSmall 5)) Pa _ _ := ⟨by decide, rfl, [], cb, rfl, rfl, ub⟩
  have tc : treeT E1 0 0 3 (.unit (exSmall 5)) Pb _ _ := ⟨by decide, rfl, [], cc, rfl, rfl, uc⟩
  have td : treeT E1 0 1 3 (.unit exFour) Pc _ _ := ⟨by decide, rfl, [], cd, rfl, rfl, ud⟩
  have t1 : treeT E1 1 0 2 (.node (.unit (exSmall 0)) (.unit (exSmall 5)) (.unit (exSmall 5)) (.unit exFour)) P0 _ _ :=
    ⟨by decide, [cx .split 0 1], _, _, _, _, Pa, Pb, Pc, rfl, by rw [if_pos (by decide)]; decide, ta, tb, tc, td⟩
  have s0 : ∃ c, saoT [true, false, true] none none [.band 30 1 [0, 3, -7, 0], .off, .edge 2 [2, 1, 0, -1]] c := by
    suffices h : ∃ c, saoPlanesT [true, false, true] [.band 30 1 [0, 3, -7, 0], .off, .edge 2 [2, 1, 0, -1]] c by
      obtain ⟨c, h⟩ := h
      exact ⟨c, by unfold saoT; rw [if_neg (by decide)]; exact h⟩
    have o1 : ∃ c, saoOffsT [5, 5, 5, 5] [0, 3, -7, 0] c :=
      ⟨_, 0, _, _, _, rfl, rfl, rfl, 3, _, _, _, rfl, rfl, ⟨by decide, rfl⟩, -7, _, _, _, rfl, rfl, ⟨by decide, rfl⟩, 0, _, _, _, rfl, rfl, rfl, rfl, rfl⟩
    have o2 : ∃ c, saoOffsT [0, 1, 3, 4] [2, 1, 0, -1] c :=
      ⟨_, 2, _, _, _, rfl, rfl, ⟨2, rfl, rfl⟩, 1, _, _, _, rfl, rfl, ⟨by decide, rfl⟩, 0, _, _, _, rfl, rfl, ⟨by decide, rfl⟩, -1, _, _, _, rfl, rfl,
        ⟨0, rfl, rfl⟩, rfl, rfl⟩
    obtain ⟨k1, o1⟩ := o1
    obtain ⟨k2, o2⟩ := o2
    exact ⟨_, _, _, _, _, rfl, rfl, ⟨1, k1, by decide, by decide, rfl, o1, rfl⟩, _, _, _, _, rfl, rfl, ⟨rfl, rfl⟩, _, _, _, _, rfl, rfl,
      ⟨k2, by decide, o2, rfl⟩, rfl, rfl⟩
  have s1 : ∃ c, saoT [true, false, true] none none [.off, .off, .off] c := by
    suffices h : ∃ c, saoPlanesT [true, false, true] [.off, .off, .off] c by
      obtain ⟨c, h⟩ := h
      exact ⟨c, by unfold saoT; rw [if_neg (by decide)]; exact h⟩
    exact ⟨_, _, _, _, _, rfl, rfl, rfl, _, _, _, _, rfl, rfl, ⟨rfl, rfl⟩, _, _, _, _, rfl, rfl, rfl, rfl, rfl⟩
  have a0 : ∃ c, alfT [true, false, false] [true, false, false] c := ⟨_, _, _, _, rfl, rfl, _, _, _, rfl, ⟨rfl, rfl⟩, _, _, _, rfl, ⟨rfl, rfl⟩, rfl, rfl⟩
  have a1 : ∃ c, alfT [true, false, false] [false, false, false] c := ⟨_, _, _, _, rfl, rfl, _, _, _, rfl, ⟨rfl, rfl⟩, _, _, _, rfl, ⟨rfl, rfl⟩, rfl, rfl⟩
  obtain ⟨k0, s0⟩ := s0
  obtain ⟨k1, s1⟩ := s1
  obtain ⟨l0, a0⟩ := a0
  obtain ⟨l1, a1⟩ := a1
  refine ⟨_, _, ⟨rfl, rfl, rfl, by decide, by decide, by decide⟩, ⟨k0, l0, _, _, [], rfl, by decide, s0, a0, t0, rfl⟩, fun _ => by decide,
    ⟨rfl, rfl, rfl, by decide, by decide, by decide⟩, ⟨k1, l1, _, _, [], rfl, by decide, s1, a1, t1, rfl⟩, fun h => absurd rfl h, trivial⟩

/-- So it is read as it was written. -/
example : ∃ c d rs S', readPicture script 1 1 2 [(exEnv 0 2 4 0, exFilt, c), (exEnv 0 2 4 1, exFilt, d)] 0 (exState 0) = .ok (rs, S') ∧
    List.Forall₂ (fun a b => List.Forall₂ (SameLcu a.1 a.2.1) a.2.2 b) (expectedPic 1 1 0
      [(exEnv 0 2 4 0, exFilt, exLcus.take 1, c), (exEnv 0 2 4 1, exFilt, exLcus.drop 1, d)]) rs := by
  obtain ⟨c, d, h⟩ := ex_picture
  obtain ⟨rs, S', h1, h2⟩ := C96_picture script_lawful (lh := 2) ⟨by decide, by decide, by decide, by decide, by decide, by decide, by decide⟩ _ h
    (S := exState 0) (fun _ => rfl) (fun h => nomatch h) (st := [(exEnv 0 2 4 0, exFilt, c), (exEnv 0 2 4 1, exFilt, d)])
    (.cons ⟨rfl, rfl, [], script_produces.mpr (List.append_nil _).symm⟩ (.cons ⟨rfl, rfl, [], script_produces.mpr (List.append_nil _).symm⟩ .nil))
  exact ⟨c, d, rs, S', h1, h2⟩

/-- A unit with motion: 16x16 samples in an F picture, one reference, second hypothesis displaced, vector difference (5, -3). -/
def exInter : CUnit := { type := 1, dirs := [0, 0, 0, 0], refs := [refPair 0 0], dmh := 3, mvd1 := [some (5, -3)], trans := 3 }

example : ∃ c, unitT (exEnv 4 2 4 0) (Maps.start 32) 4 0 0 exInter c := by
  have hr : ∃ c, restT (exEnv 4 2 4 0) (Maps.start 32) 4 0 0 exInter c :=
    ⟨_, true, _, [], rfl, .inl ⟨by decide, rfl, rfl⟩, fun _ => rfl, ⟨rfl, rfl⟩, by decide, fun i hi => by
      rw [show codedBlks exInter = [] by decide] at hi; cases hi⟩
  have hm : ∃ c, motionT (exEnv 4 2 4 0) 4 exInter c :=
    ⟨_, _, _, [], rfl, List.mem_cons_of_mem _ (List.mem_cons_of_mem _ (List.mem_cons_of_mem _ List.mem_cons_self)),
      ⟨(5, -3), [], [], rfl, by decide, by decide, rfl, rfl, rfl⟩, rfl, rfl⟩
  obtain ⟨cr, hr⟩ := hr
  obtain ⟨cm, hm⟩ := hm
  have hd : dirsT (exEnv 4 2 4 0) 4 exInter (refCode 1 0) := ⟨[], List.mem_cons_self, 0, by decide, rfl, rfl⟩
  have hh : headT (exEnv 4 2 4 0) 4 exInter ([cx .cuType 0 0, cx .cuType 1 0, cx .cuType 2 1] ++ ([] ++ [])) :=
    ⟨⟨1, 0, 0⟩, ⟨⟨1, 0, 0⟩, 1, _, _, rfl, rfl, ⟨rfl, [], [], rfl, ⟨rfl, rfl⟩, ⟨rfl, rfl⟩⟩, by decide⟩, rfl, fun h => absurd h (by decide)⟩
  exact ⟨_, _, _, _, _, rfl, hh, hd, hm, rfl, rfl, hr⟩

end Davs2.Cs
