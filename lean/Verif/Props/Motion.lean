import Verif.Lemmas.Motion7
import Verif.Model.MotionSyntax
/-
C85: the derivation of motion vectors and references never leaves its tables.
C86: the motion of a slice depends on nothing but the slice and the reference pictures.
C87: what is saved of the motion of a picture for the pictures after it.
-/
namespace Davs2
open Mo Sx Un

namespace Mo

/-! ### C85 -/

/-- **C85, partial** (P, F and B pictures with at least one reference, coding units read without error; see `C85_no_reference_violated`, `C85_scene_violated`).  Whatever the split decisions, the
slices, the contents left over from earlier pictures and the syntax elements: deriving the motion of a picture never follows a null pointer, never leaves the list of references or a table and
never uses motion data that has not been written in this picture; only scaling a vector can overflow (C34).  Afterwards the motion of every block is complete, every prediction unit is predicted from
references of the list, which are those the syntax names, and the motion saved for later pictures is usable again. -/
theorem C85_partial (p : Pic) (hp : p.Ok) (sy : Syn) (hd : ∀ l ∈ lcus p, ∀ c ∈ tree p sy l, Delivered p c.l (sy.sym c))
    (slice : Nat → Nat → Int) (cu : Nat → Nat → CuRec) :
    Fine (picMotion p sy slice cu) fun st =>
      (∀ X Y, X < p.w → Y < p.h → ∃ b, st.mot X Y = some b ∧ BlkOk p b) ∧
      (∀ l ∈ lcus p, ∀ c ∈ tree p sy l,
        Predicted p (sy.sym c) (puUnits p.frame (sy.sym c).ds (sy.sym c).mode c.l).length (st.cu (c.x / 8) (c.y / 8))) ∧
      (save p st).Ok p.w p.h := by
  refine (fine_pic hp hd slice cu).mono fun st h => ?_
  have hb : ∀ X Y, X < p.w → Y < p.h → At st (BlkOk p) X Y := fun X Y hX hY => h.blk X Y ⟨hX, hY, block_lcu hX hY⟩
  exact ⟨hb, h.pred, save_ok hp hb⟩

/-- An I picture has no motion, and can be a reference. -/
theorem C85_I_picture (w h : Nat) (mv : Nat → Nat → Option Vec) (dist : Nat → Int) (n : Nat) : Saved.Ok w h ⟨fun _ _ => -1, mv, dist, n⟩ :=
  fun _ _ _ _ => Or.inl rfl

/-- Saved motion that can occur: of an I picture, or of a picture of this size whose references are such. -/
inductive Occurs (w h : Nat) : Saved → Prop
  | intra (mv : Nat → Nat → Option Vec) (dist : Nat → Int) (n : Nat) : Occurs w h ⟨fun _ _ => -1, mv, dist, n⟩
  | inter (p : Pic) (sy : Syn) (slice : Nat → Nat → Int) (cu : Nat → Nat → CuRec) (st : St) : p.w = w → p.h = h → (p.frame = 1 ∨ p.frame = 2 ∨ p.frame = 4) →
      0 < p.refs.length → p.refs.length ≤ 4 → (p.frame = 2 → p.refs.length = 2) → 2 ∣ p.w → 2 ∣ p.h → 4 ≤ p.lcu ∧ p.lcu ≤ 6 → (∀ f ∈ p.refs, Occurs w h f) →
      (∀ l ∈ lcus p, ∀ c ∈ tree p sy l, Delivered p c.l (sy.sym c)) → picMotion p sy slice cu = .ok st → Occurs w h (save p st)

/-- **C85, sequences, partial** (no S pictures).  In a sequence of pictures of one size the motion of all pictures that have been decoded can be used: the assumption about reference pictures in `C85_partial`
always holds. -/
theorem C85_sequence_partial (w h : Nat) (f : Saved) (hf : Occurs w h f) : f.Ok w h := by
  induction hf with
  | intra mv dist n => exact C85_I_picture w h mv dist n
  | inter p sy slice cu st e1 e2 h1 h2 h3 h4 h5 h6 h7 _ h9 h10 ih =>
    subst e1
    subst e2
    have q := C85_partial p ⟨h1, h2, h3, h4, ih, h5, h6, h7⟩ sy h9 slice cu
    rw [h10] at q
    exact q.2.2

/-- A saved picture without motion (an I picture), used in examples. -/
def iSaved : Saved := ⟨fun _ _ => -1, fun _ _ => none, fun _ => 1, 0⟩

theorem iSaved_ok : iSaved.Ok 4 4 := fun _ _ _ _ => Or.inl rfl

/-- A picture of 16x16 samples in one coding tree of 16x16. -/
def pic16 (frame : Nat) (refs : List Saved) : Pic := ⟨frame, 4, 4, 4, refs, fun i => 2 * (i + 1 : Int), false, false, false, false, 8⟩

/-- Not divided, or divided into four units of 8x8. -/
def syn16 (split : Bool) (sym : Qt.Cu → Sym) : Syn := ⟨fun _ _ _ => split, fun _ _ => 0, sym⟩

def noMvd : Nat → Vec := fun _ => (0, 0)

def rec0 : Nat → Nat → CuRec := fun _ _ => ⟨[], [], []⟩

/-- F picture with two references: two prediction units (2NxN), the first with two references and a vector difference, the second with one. -/
def symF : Sym := ⟨2, 0, 0, 0, [4, 0, 4, 0], [(0, 1), (1, -1)], fun i => if i = 0 then (8, -4) else (0, 0), noMvd⟩

theorem pic16_ok (frame : Nat) (refs : List Saved) (h : frame = 1 ∨ frame = 2 ∨ frame = 4) (h1 : 0 < refs.length) (h4 : refs.length ≤ 4) (h2 : frame = 2 → refs.length = 2)
    (hs : ∀ f ∈ refs, f.Ok 4 4) : (pic16 frame refs).Ok :=
  ⟨h, h1, h4, h2, hs, ⟨2, rfl⟩, ⟨2, rfl⟩, by show 4 ≤ 4 ∧ 4 ≤ 6; omega⟩

example : (pic16 4 [iSaved, iSaved]).Ok ∧ ∀ c : Qt.Cu, c.l ≥ 4 → Delivered (pic16 4 [iSaved, iSaved]) c.l symF := by
  refine ⟨pic16_ok _ _ (by decide) (by decide) (by decide) (by decide) ?_, fun c hc => ?_⟩
  · intro f hf
    rw [List.mem_cons, List.mem_singleton, or_self] at hf
    subst hf
    exact iSaved_ok
  · refine ⟨by decide, ⟨fun h => hc, fun h => absurd h (by decide), fun h => absurd h (by decide)⟩, by decide, by decide, by decide, by decide, by decide, ?_, ?_⟩
    · intro _ _ h
      exact absurd h (by decide)
    · intro _ _ _ i hi
      have : i = 0 ∨ i = 1 := by
        have : numUnits symF.mode = 2 := rfl
        omega
      rcases this with rfl | rfl
      · exact ⟨4, (0, 1), rfl, rfl, Or.inr rfl, by unfold PRefOk; decide⟩
      · exact ⟨0, (1, -1), rfl, rfl, Or.inl rfl, by unfold PRefOk; decide⟩

/-- The result for this picture: the blocks of the upper unit, of the lower one, and the references used. -/
def show16 (m : M St) : Option (Option Blk × Option Blk × List (List Use)) :=
  match m with
  | .ok st => some (st.mot 0 0, st.mot 3 3, (st.cu 0 0).use)
  | .error _ => none

example : show16 (picMotion (pic16 4 [iSaved, iSaved]) (syn16 false fun _ => symF) (fun _ _ => 0) rec0) =
    some (some ⟨4, 0, 1, some (8, -4), some (16, -8)⟩, some ⟨0, 1, -1, some (16, -8), some (0, 0)⟩, [[⟨0, (8, -4)⟩, ⟨1, (16, -8)⟩], [⟨1, (16, -8)⟩]]) := by
  decide +kernel

/-- Four skipped units in a B picture after one with a vector. -/
def symB (c : Qt.Cu) : Sym :=
  if c.x = 0 ∧ c.y = 0 then ⟨1, 0, 0, 0, [2, 2, 2, 2], [(1, 0), (1, 0), (1, 0), (1, 0)], fun _ => (4, 4), noMvd⟩
  else ⟨0, 3, 0, 0, [2, 2, 2, 2], [(1, 0), (1, 0), (1, 0), (1, 0)], noMvd, noMvd⟩

example : show16 (picMotion (pic16 2 [iSaved, iSaved]) (syn16 true symB) (fun _ _ => 0) rec0) =
    some (some ⟨2, 1, 0, some (4, 4), some (-2, -2)⟩, some ⟨2, 1, 0, some (4, 4), some (-2, -2)⟩, [[⟨1, (4, 4)⟩, ⟨0, (-2, -2)⟩]]) := by
  decide +kernel

/-- An intra unit of 16x16. -/
def symI : Sym := ⟨8, 0, 0, 0, [-1, -1, -1, -1], [(-1, -1), (-1, -1), (-1, -1), (-1, -1)], noMvd, noMvd⟩

/-- A skipped unit without side information. -/
def symS : Sym := ⟨0, 0, 0, 0, [0, 0, 0, 0], [], noMvd, noMvd⟩

theorem symI_delivered (p : Pic) (l : Nat) : Delivered p l symI := by
  refine ⟨by decide, ⟨fun h => absurd h (by decide), fun h => absurd h (by decide), fun h => absurd h (by decide)⟩, by decide, by decide, by decide, ?_, ?_, ?_, ?_⟩
  · intro h
    exact absurd h (by decide)
  · intro h
    exact absurd h (by decide)
  · intro _ h
    exact absurd h (by decide)
  · intro _ h
    exact absurd h (by decide)

theorem symS_delivered (p : Pic) (h2 : p.frame ≠ 2) (l : Nat) : Delivered p l symS := by
  refine ⟨by decide, ⟨fun h => absurd h (by decide), fun h => absurd h (by decide), fun h => absurd h (by decide)⟩, by decide, by decide, fun _ => rfl, ?_, ?_, ?_, ?_⟩
  · intro _ h
    exact absurd h h2
  · intro _ _
    exact ⟨Or.inl rfl, fun h => absurd rfl h, rfl⟩
  · intro h
    exact absurd h (by decide)
  · intro h
    exact absurd h (by decide)

/-- **C85 violated (no reference).**  The header of a P picture may announce no reference pictures (header.cc:372-378 has an upper limit only; the number is checked for B pictures only): a
skipped coding unit then follows a null pointer. -/
theorem C85_no_reference_violated : ∃ (p : Pic) (sy : Syn), p.frame = 1 ∧ p.refs = [] ∧
    (∀ l ∈ lcus p, ∀ c ∈ tree p sy l, Delivered p c.l (sy.sym c)) ∧ ∀ slice cu, picMotion p sy slice cu = .error .null := by
  refine ⟨pic16 1 [], syn16 false fun _ => symS, rfl, rfl, fun l _ c _ => symS_delivered _ (by decide) _, ?_⟩
  intro slice cu
  rfl

/-- The records of the coding units after a picture. -/
def recsOf (m : M St) : Nat → Nat → CuRec :=
  match m with
  | .ok st => st.cu
  | .error _ => rec0

/-- **C85 violated (S pictures).**  A skipped coding unit of an S picture has the reference index and vector that a unit at the same place of an earlier picture has left in the same decoding context
(predict.cc:611-660 does nothing for S pictures).  After an intra unit the reference index is -1, which is outside the list of references; after an inter unit the picture is
predicted with the vector of that unit. -/
theorem C85_scene_violated :
    (∃ (p0 p : Pic) (sy0 sy : Syn), p0.Ok ∧ p.frame = 5 ∧ p.refs.length = 1 ∧ (∀ l ∈ lcus p0, ∀ c ∈ tree p0 sy0 l, Delivered p0 c.l (sy0.sym c)) ∧
      ∀ slice cu, picMotion p sy slice (recsOf (picMotion p0 sy0 slice cu)) = .error .index) ∧
    (∃ (p : Pic) (sy : Syn) (cu cu' : Nat → Nat → CuRec), p.frame = 5 ∧
      show16 (picMotion p sy (fun _ _ => 0) cu) ≠ none ∧ show16 (picMotion p sy (fun _ _ => 0) cu') ≠ none ∧
      show16 (picMotion p sy (fun _ _ => 0) cu) ≠ show16 (picMotion p sy (fun _ _ => 0) cu')) := by
  refine ⟨⟨pic16 1 [iSaved], pic16 5 [iSaved], syn16 false fun _ => symI, syn16 false fun _ => symS, ?_, rfl, rfl, ?_, ?_⟩,
    ⟨pic16 5 [iSaved], syn16 false fun _ => symS, fun _ _ => ⟨[(0, -1)], [(some (4, 0), some (0, 0))], []⟩, fun _ _ => ⟨[(0, -1)], [(some (0, 8), some (0, 0))], []⟩, rfl, ?_, ?_, ?_⟩⟩
  · refine pic16_ok _ _ (by decide) (by decide) (by decide) (by decide) ?_
    intro f hf
    rw [List.mem_singleton] at hf
    subst hf
    exact iSaved_ok
  · exact fun l _ c _ => symI_delivered _ _
  · intro slice cu
    rfl
  · decide +kernel
  · decide +kernel
  · decide +kernel

/-! The syntax elements come from the reader. -/

variable {σ : Type} {m : Machine σ}

theorem forall2_get {α β : Type} {R : α → β → Prop} {l : List α} {l' : List β} (h : List.Forall₂ R l l') : ∀ (i : Nat), i < l.length → ∃ a b, l[i]? = some a ∧ l'[i]? = some b ∧ R a b := by
  induction h with
  | nil => intro i hi; simp at hi
  | cons h _ ih =>
    intro i hi
    cases i with
    | zero => exact ⟨_, _, rfl, rfl, h⟩
    | succ i => exact ih i (by simpa using hi)

theorem within_skipB {F : Fault → Prop} (level nrefs wsm ds : Nat) (dhp : Bool) (old : List (Int × Int)) (hds : ds ≤ 4) :
    Within F (interPredDir m 2 0 level nrefs wsm ds dhp old) fun r => r.1 = List.replicate 4 (pdirBskip.getD ds 0) := by
  unfold interPredDir
  rw [if_pos rfl, if_neg (by omega)]
  refine Within.bind (R := fun v => v = 0) (Within.pure rfl) fun pdir _ => ?_
  unfold setPdirB
  rw [if_pos rfl]
  refine Within.bind (R := fun l => l = List.replicate 4 (pdirBskip.getD ds 0)) ?_ fun l hl => Within.bind (within_refsOf l ?_) fun rs _ => Within.pure hl
  · refine Within.bind (within_tab_lt (by omega) (by simp only [pdirBskip, List.length_cons, List.length_nil]; omega)) fun d hd => Within.pure ?_
    rw [List.getD_eq_getElem?_getD]
    rw [Int.toNat_natCast] at hd
    rw [hd]
    rfl
  · intro d hd
    rw [hl] at hd
    have := List.eq_of_mem_replicate hd
    obtain rfl | rfl | rfl | rfl | rfl : ds = 0 ∨ ds = 1 ∨ ds = 2 ∨ ds = 3 ∨ ds = 4 := by omega
    all_goals
      subst this
      decide

theorem within_skipPF {F : Fault → Prop} (frame level nrefs wsm ds : Nat) (hf : frame ≠ 2) (dhp : Bool) (old : List (Int × Int)) :
    Within F (interPredDir m frame 0 level nrefs wsm ds dhp old) fun r => r.1 = List.replicate 4 (if wsm ≠ 0 ∨ ds = 1 ∨ ds = 2 then 4 else 0) := by
  unfold interPredDir
  rw [if_neg hf, if_pos rfl]
  refine Within.bind (R := fun l => l = List.replicate 4 (if wsm ≠ 0 ∨ ds = 1 ∨ ds = 2 then 4 else 0)) (Within.pure rfl) fun l hl => ?_
  rw [if_neg (by omega)]
  exact Within.pure hl

/-- **C85 (reader).**  If the payload has no error, the syntax elements of each coding unit of a picture with references are read within the ranges that `C85_partial` assumes. -/
theorem C85_reader (hm : m.Ok) (hno : NoErr m) (p : Pic) (hp : p.Ok) (t : Tools) (level : Nat) (h : 3 ≤ level ∧ level ≤ 6) (old : List (Int × Int)) (mvd1 mvd2 : Nat → Vec) :
    Within Rd (readSym m t p.frame level p.refs.length old mvd1 mvd2) fun r => ∀ s, r = some s → Delivered p level s := by
  unfold readSym
  refine Within.bind (C32_cuType hm p.frame level p.refs.length t.amp t.mhp t.wsm h) fun r hr => ?_
  match r, hr with
  | none, _ => exact Within.pure (by intro s hs; cases hs)
  | some c, hr =>
    obtain ⟨c1, c2, c3, c4, c5⟩ := hr c rfl
    dsimp only
    refine Within.ite (fun h7 => ?_) fun h7 => ?_
    · have hk : ∃ k : Nat, (max 0 c.type).toNat = k ∧ k ≤ 7 ∧ (4 ≤ k → 4 ≤ level) := by
        refine ⟨_, rfl, ?_, ?_⟩ <;> unfold CuTypeOk at c1 <;> omega
      obtain ⟨k, ek, k7, k4⟩ := hk
      rw [ek]
      have type : TypeAt k level := ⟨fun h => k4 h.1, fun h => by omega, fun h => by omega⟩
      refine Within.bind (R := fun r : List Int × List (Int × Int) =>
        (k = 0 → p.frame = 2 → r.1 = List.replicate 4 (pdirBskip.getD c.ds 0)) ∧ (k = 0 → p.frame ≠ 2 → r.1 = List.replicate 4 (if c.wsm ≠ 0 ∨ c.ds = 1 ∨ c.ds = 2 then 4 else 0)) ∧
        (1 ≤ k → p.frame = 2 → ∀ i < numUnits k, ∃ d q, r.1[i]? = some d ∧ r.2[i]? = some q ∧ 0 ≤ d ∧ d ≤ 3 ∧ BRefOk d q) ∧
        (1 ≤ k → p.frame ≠ 2 → ∀ i < numUnits k, ∃ d q, r.1[i]? = some d ∧ r.2[i]? = some q ∧ (d = 0 ∨ d = 4) ∧ PRefOk p.refs.length d q)) ?_ fun r hr => ?_
      · by_cases h2 : p.frame = 2
        · rw [h2]
          by_cases k0 : k = 0
          · rw [k0]
            exact (within_skipB level _ _ _ _ _ c3).mono fun r hr => ⟨fun _ _ => hr, fun _ h => absurd rfl h, fun h => absurd h (by omega), fun h => absurd h (by omega)⟩
          · refine (C32_interB hm k level _ _ _ _ _ k7 c3).mono fun r hr => ⟨fun h => absurd h k0, fun h => absurd h k0, fun _ _ i hi => ?_, fun _ h => absurd rfl h⟩
            have : numUnits k ≤ 2 := by unfold numUnits; split_ifs <;> omega
            obtain ⟨d, q, e1, e2, e3⟩ := forall2_get hr.2 i (by rw [hr.1.1]; omega)
            have := hr.1.2 d (List.mem_of_getElem? e1)
            exact ⟨d, q, e1, e2, this.1, this.2, e3⟩
        · by_cases k0 : k = 0
          · rw [k0]
            exact (within_skipPF _ level _ _ _ h2 _ _).mono fun r hr => ⟨fun _ h => absurd h h2, fun _ _ => hr, fun h => absurd h (by omega), fun h => absurd h (by omega)⟩
          · refine (C32_interPF_partial hno p.frame k level p.refs.length c.wsm c.ds t.dhp old (by have := hp.frame; omega) ⟨by omega, k7⟩ hp.some).mono fun r hr =>
              ⟨fun h => absurd h k0, fun h => absurd h k0, fun _ h => absurd h h2, fun _ _ i hi => ?_⟩
            have hl : (r.1.take (if k = 1 then 1 else 2)).length = numUnits k := by
              rw [List.length_take, hr.1.1]
              unfold numUnits
              split_ifs <;> rfl
            obtain ⟨d, q, e1, e2, e3⟩ := forall2_get hr.2 i (by rw [hl]; exact hi)
            have e1' : r.1[i]? = some d := by
              rw [List.getElem?_take] at e1
              split_ifs at e1 <;> first | exact e1 | cases e1
            exact ⟨d, q, e1', e2, hr.1.2 d (List.mem_of_getElem? e1'), e3⟩
      · obtain ⟨r1, r2, r3, r4⟩ := hr
        refine Within.bind (R := fun v => v ≤ 8 ∧ (k = 0 → v = 0)) ?_ fun d hd => Within.pure ?_
        · by_cases hdm : hasDmh p.frame k level r.1 = true
          · rw [if_pos hdm]
            have := (of_decide_eq_true hdm).2.1
            exact (C32_dmhMode level h).mono fun v hv => ⟨hv.2, fun h => absurd h this⟩
          · rw [if_neg hdm]
            exact Within.pure ⟨by omega, fun _ => rfl⟩
        · intro s hs
          cases hs
          refine ⟨by dsimp only; omega, type, c3, by dsimp only; omega, fun h0 => by dsimp only; rw [hd.2 h0]; rfl, r1, ?_, fun h1 _ => r3 h1, fun h1 _ => r4 h1⟩
          intro h0 h2
          refine ⟨?_, ?_, r2 h0 h2⟩
          · by_cases hw : c.wsm = 0
            · exact Or.inl hw
            · exact Or.inr (c4 hw).2.1
          · intro hds
            refine ⟨(c5 hds).resolve_right h2, ?_⟩
            by_contra hw
            exact hds (c4 hw).2.2
    · unfold intraCuType
      dsimp only
      refine Within.bind (R := fun v : Nat × Option Nat => ∃ b b', v = intraType t.sdip level b b') ?_ fun r hr => Within.pure ?_
      · refine Within.bind (R := fun _ => True) ?_ fun a _ => Within.bind (R := fun _ => True) ?_ fun b _ => Within.pure ⟨a, b, rfl⟩
        · refine Within.ite (fun _ => within_sym rd ?_) fun _ => Within.pure trivial
          simp only [Arr.size]
          cases (decide (level = 5 ∨ level = 4) && t.sdip) <;> decide
        · refine Within.ite (fun _ => within_sym rd ?_) fun _ => Within.pure trivial
          simp only [Arr.size]
          omega
      · intro s hs
        cases hs
        obtain ⟨b, b', e⟩ := hr
        have c50 := C50_intra t.sdip b b' level h.1 h.2 0 0
        dsimp only at c50
        have h8 : 8 ≤ (intraType t.sdip level b b').1 := by
          obtain rfl | rfl | rfl | rfl : level = 3 ∨ level = 4 ∨ level = 5 ∨ level = 6 := by omega
          all_goals cases t.sdip <;> cases b <;> cases b' <;> decide
        rw [e]
        refine ⟨c50.1, c50.2.1, by dsimp only; omega, by dsimp only; omega, fun _ => rfl, ?_, ?_, ?_, ?_⟩ <;> dsimp only <;> intro h0
        · omega
        · omega
        · intro h; omega
        · intro h; omega

/-! ### C86 -/

/-- **C86, partial** (P, F and B pictures with references, coding units read without error).  Slices are independent: two pictures with the same reference pictures and the same division into
slices, with the same syntax in slice `s` but any other syntax elsewhere, and decoded after anything, have the same motion, references and predictions in slice `s`. -/
theorem C86_slices_partial (p : Pic) (hp : p.Ok) (sy sy' : Syn) (hd : ∀ l ∈ lcus p, ∀ c ∈ tree p sy l, Delivered p c.l (sy.sym c))
    (hd' : ∀ l ∈ lcus p, ∀ c ∈ tree p sy' l, Delivered p c.l (sy'.sym c)) (hsl : ∀ l ∈ lcus p, sy'.slice l.1 l.2 = sy.slice l.1 l.2) (s : Int)
    (hsy : ∀ l ∈ lcus p, sy.slice l.1 l.2 = s → tree p sy' l = tree p sy l ∧ ∀ c ∈ tree p sy l, sy'.sym c = sy.sym c)
    (slice slice' : Nat → Nat → Int) (cu cu' : Nat → Nat → CuRec) (st st' : St) (h : picMotion p sy slice cu = .ok st) (h' : picMotion p sy' slice' cu' = .ok st') :
    (∀ X Y, X < p.w → Y < p.h → sy.slice (lcuOf p X Y).1 (lcuOf p X Y).2 = s → st.mot X Y = st'.mot X Y) ∧
    ∀ l ∈ lcus p, sy.slice l.1 l.2 = s → ∀ c ∈ tree p sy l, st.cu (c.x / 8) (c.y / 8) = st'.cu (c.x / 8) (c.y / 8) := by
  have q := slices_step hp hd hd' hsl hsy h h'
  exact ⟨fun X Y hX hY hs => q.mot X Y hX hY (Or.inr hs), q.cu⟩

/-- **C86, no state, partial** (as before).  The motion of a picture, or the overflow that stops it, depends on the syntax and the reference pictures only, not on what the slice numbers and records of coding
units contained before; the same holds for the motion saved for later pictures. -/
theorem C86_stateless_partial (p : Pic) (hp : p.Ok) (sy : Syn) (hd : ∀ l ∈ lcus p, ∀ c ∈ tree p sy l, Delivered p c.l (sy.sym c))
    (slice slice' : Nat → Nat → Int) (cu cu' : Nat → Nat → CuRec) :
    (∃ e, picMotion p sy slice cu = .error e ∧ picMotion p sy slice' cu' = .error e) ∨
    ∃ st st', picMotion p sy slice cu = .ok st ∧ picMotion p sy slice' cu' = .ok st' ∧ (∀ X Y, X < p.w → Y < p.h → st.mot X Y = st'.mot X Y) ∧
      (∀ l ∈ lcus p, ∀ c ∈ tree p sy l, st.cu (c.x / 8) (c.y / 8) = st'.cu (c.x / 8) (c.y / 8)) ∧
      ∀ X Y, X < p.w → Y < p.h → (save p st).ref X Y = (save p st').ref X Y ∧ (save p st).mv X Y = (save p st').mv X Y := by
  have q := same_step hp hd slice slice' cu cu'
  match e1 : picMotion p sy slice cu, e2 : picMotion p sy slice' cu' with
  | .error e, .error e' =>
    rw [e1, e2] at q
    have q' : e = e' := q
    exact Or.inl ⟨e, rfl, by rw [q']⟩
  | .error e, .ok st' => rw [e1, e2] at q; exact q.elim
  | .ok st, .error e' => rw [e1, e2] at q; exact q.elim
  | .ok st, .ok st' =>
    have q' := q.ok e1 e2
    have hm : ∀ X Y, X < p.w → Y < p.h → st.mot X Y = st'.mot X Y := fun X Y hX hY => q'.mot X Y hX hY (Or.inr trivial)
    refine Or.inr ⟨st, st', rfl, rfl, hm, fun l hl => q'.cu l hl trivial, fun X Y hX hY => ?_⟩
    unfold save
    dsimp only
    rw [hm _ _ (savePos_lt hX) (savePos_lt hY)]
    exact ⟨rfl, rfl⟩

/-- A picture of 32x16 samples in two coding trees, each a slice. -/
def pic32 : Pic := ⟨1, 8, 4, 4, [iSaved], fun i => 2 * (i + 1 : Int), false, false, false, false, 8⟩

/-- The second coding tree has a unit with a vector difference, the first one has another one. -/
def syn32 (v : Vec) : Syn := ⟨fun _ _ _ => false, fun lx _ => lx, fun c => ⟨1, 0, 0, 0, [0], [(0, -1)], fun _ => if c.x = 0 then v else (4, 4), noMvd⟩⟩

/-- Vectors of the two coding trees. -/
def show32 (one : Bool) (v : Vec) : Option (Option Vec × Option Vec) :=
  match picMotion pic32 (if one then { syn32 v with slice := fun _ _ => 0 } else syn32 v) (fun _ _ => 0) rec0 with
  | .ok st => some ((st.mot 0 0).bind (·.v1), (st.mot 4 0).bind (·.v1))
  | .error _ => none

/-- With different vectors in the first slice the second one is the same; in one slice it is not. -/
example : show32 false (8, 0) = some (some (8, 0), some (4, 4)) ∧ show32 false (0, 12) = some (some (0, 12), some (4, 4)) ∧
    show32 true (8, 0) = some (some (8, 0), some (12, 4)) ∧ show32 true (0, 12) ≠ show32 true (8, 0) := by
  decide +kernel

/-! ### C87 -/

/-- **C87.**  The motion saved for a block is that of one block for each group of 4x4 blocks (16x16 samples) aligned to the picture: the block at offset (2, 2) of the group, or, at the right and lower edge, the
middle one of those inside the picture.  It lies in the picture and in the same group, so that all blocks of a group get the same motion and saving a row of coding trees needs
no other row. -/
theorem C87_saved_motion (p : Pic) (st : St) (x y : Nat) (hx : x < p.w) (hy : y < p.h) :
    ∃ X Y, X < p.w ∧ Y < p.h ∧ X / 4 = x / 4 ∧ Y / 4 = y / 4 ∧ X = (if x / 4 * 4 + 2 < p.w then x / 4 * 4 + 2 else (x / 4 * 4 + p.w) / 2) ∧ Y = (if y / 4 * 4 + 2 < p.h then y / 4 * 4 + 2 else (y / 4 * 4 + p.h) / 2) ∧
      (∀ b, st.mot X Y = some b → (save p st).ref x y = b.r1 ∧ (save p st).mv x y = b.v1) ∧
      (∀ x' y', x' / 4 = x / 4 → y' / 4 = y / 4 → (save p st).ref x' y' = (save p st).ref x y ∧ (save p st).mv x' y' = (save p st).mv x y) := by
  refine ⟨savePos p.w x, savePos p.h y, savePos_lt hx, savePos_lt hy, ?_, ?_, ?_, ?_, ?_, ?_⟩
  · unfold savePos
    split_ifs <;> omega
  · unfold savePos
    split_ifs <;> omega
  · unfold savePos
    split_ifs <;> omega
  · unfold savePos
    split_ifs <;> omega
  · intro b hb
    unfold save
    dsimp only
    rw [hb]
    exact ⟨rfl, rfl⟩
  · intro x' y' h1 h2
    have e1 : savePos p.w x' = savePos p.w x := by unfold savePos; rw [h1]
    have e2 : savePos p.h y' = savePos p.h y := by unfold savePos; rw [h2]
    unfold save
    dsimp only
    rw [e1, e2]
    exact ⟨rfl, rfl⟩

/-- Motion of a picture of 24x8 samples: in the last group of blocks, which is 2 blocks wide, block 5 is the one. -/
example : let p : Pic := { pic16 1 [iSaved] with w := 6, h := 2 }
    let st : St := ⟨fun X Y => some ⟨0, 0, -1, some (X, Y), none⟩, fun _ _ => 0, rec0⟩
    (save p st).mv 0 1 = some (2, 1) ∧ (save p st).mv 3 0 = some (2, 1) ∧ (save p st).mv 4 0 = some (5, 1) := by
  decide +kernel

end Mo
end Davs2
