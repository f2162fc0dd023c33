import Verif.Lemmas.CuHead
/-
Whole units.
-/
namespace Davs2.Cs
open Davs2.Sx Davs2.Mo

variable {σ : Type} {m : Machine σ} {G : σ → Prop}

/-- Decoded positions after a unit. -/
def More (D : Int → Int → Prop) (level sx sy : Nat) : Int → Int → Prop := fun p q => D p q ∨ InUnit level sx sy p q

theorem Rel.modeRel {E : Env} {S : Pic} {P : Maps} {D : Int → Int → Prop} (rel : Rel E S P D) : ModeRel E S.modes P.mode D :=
  ⟨rel.edge, rel.fresh⟩

theorem half_in {level sx : Nat} (h : 3 ≤ level) {x : Nat} :
    (sx ≤ x / 2 ∧ x / 2 < sx + 2 ^ (level - 3)) ↔ (2 * (sx : Int) ≤ x ∧ (x : Int) < 2 * sx + side level) := by
  rw [side_eq h]
  omega

theorem fill_in {S : Pic} {level sx sy : Nat} (h : 3 ≤ level) {c : Cell} {x y : Nat} (hi : InUnit level sx sy x y) :
    (S.fill level sx sy c).cu (x / 2) (y / 2) = c := by
  unfold InUnit at hi
  have h1 := (half_in (sx := sx) h (x := x)).mpr ⟨hi.1, hi.2.1⟩
  have h2 := (half_in (sx := sy) h (x := y)).mpr ⟨hi.2.2.1, hi.2.2.2⟩
  exact if_pos ⟨h1.1, h1.2, h2.1, h2.2⟩

theorem fill_out {S : Pic} {level sx sy : Nat} (h : 3 ≤ level) {c : Cell} {x y : Nat} (hi : ¬ InUnit level sx sy x y) :
    (S.fill level sx sy c).cu (x / 2) (y / 2) = S.cu (x / 2) (y / 2) := by
  refine if_neg fun hh => hi ?_
  have h1 := (half_in (sx := sx) h (x := x)).mp ⟨hh.1, hh.2.1⟩
  have h2 := (half_in (sx := sy) h (x := y)).mp ⟨hh.2.2.1, hh.2.2.2⟩
  exact ⟨h1.1, h1.2, h2.1, h2.2⟩

theorem setModes_out {p q : Int} (bs : List Rect) : ∀ (vs : List Int) (M : Int → Int → Int), ¬ InAny bs p q →
    setModes (bs.zip vs) M p q = M p q := by
  induction bs with
  | nil => intro vs M _; rfl
  | cons b bs ih =>
    intro vs M h
    cases vs with
    | nil => rfl
    | cons v vs =>
      show setModes (bs.zip vs) (setRect M b v) p q = M p q
      rw [ih vs _ fun ⟨b', hb, h'⟩ => h ⟨b', List.mem_cons_of_mem _ hb, h'⟩]
      exact setRect_out fun h' => h ⟨b, List.mem_cons_self, h'⟩

/-- What a step does to the records of the units: those in `A` belong to the slice now, the others are as before. -/
def Step (E : Env) (S S' : Pic) (A : Nat → Nat → Prop) : Prop :=
  ∀ i j, (A i j → (S'.cu i j).slice = E.slice) ∧ (¬ A i j → S'.cu i j = S.cu i j)

/-- 8x8 blocks of a square. -/
def Square (n x y i j : Nat) : Prop := x ≤ i ∧ i < x + 2 ^ n ∧ y ≤ j ∧ j < y + 2 ^ n

theorem Step.fill {E : Env} {S : Pic} {level sx sy : Nat} {c : Cell} (h : c.slice = E.slice) (buf : Im.Buf) (l : Int) :
    Step E S (Pic.fill { S with modes := buf, last := l } level sx sy c) (Square (level - 3) sx sy) := by
  intro i j
  unfold Square Pic.fill
  dsimp only
  refine ⟨fun hA => ?_, fun hA => ?_⟩
  · rw [if_pos hA]; exact h
  · rw [if_neg hA]

/-- The relation after a unit. -/
theorem rel_after {E : Env} {S : Pic} {P : Maps} {D : Int → Int → Prop} (rel : Rel E S P D) {level sx sy : Nat}
    (sp : Spot E D level sx sy) {u : CUnit} {c : Cell} {buf : Im.Buf} {l : Int} (hs : c.slice = E.slice) (hl : c.level = level)
    (ht : c.trans = u.trans) (hsh : ShapeOk level u.trans) (hc : c.cbp = u.cbp) (hm : c.cmode = u.cmode)
    (hqp : c.qp = qpOf E P sx sy u) (hbuf : ModeRel E buf (after E P level sx sy u).mode (More D level sx sy))
    (hlast : E.dqp = true → l = (after E P level sx sy u).last) (hw : E.frame = 5 → c.wsm = 0)
    (hany : 8 ≤ u.type → ∀ p q, InAny (rects u.type level sx sy) p q ↔ InUnit level sx sy p q) :
    Rel E (Pic.fill { S with modes := buf, last := l } level sx sy c) (after E P level sx sy u) (More D level sx sy) := by
  have inx := sp.inx
  have iny := sp.iny
  have hse := side_eq sp.lo
  refine ⟨?_, ?_, hbuf.edge, hbuf.fresh, hlast, ?_, ?_⟩
  · intro x y ho
    have hn : ¬ InUnit level sx sy x y := by unfold InUnit; omega
    obtain ⟨h1, h2, h3, h4⟩ := rel.out x y ho
    refine ⟨Or.inl h1, ?_, ?_, ?_⟩
    · exact (if_neg hn).trans h2
    · exact (if_neg hn).trans h3
    · exact (if_neg hn).trans h4
  · intro x y hx hy hD
    by_cases hi : InUnit level sx sy x y
    · rw [fill_in sp.lo hi, if_pos hs]
      refine ⟨?_, ?_, ?_⟩
      · show _ = if InUnit level sx sy x y then _ else _
        rw [if_pos hi]
        unfold InUnit at hi
        have e := cellFlag_own sp.lo sp.hi sp.alx sp.aly c hl (by rw [ht]; exact hsh) (dx := x - 2 * sx) (dy := y - 2 * sy)
          (by omega) (by omega)
        rw [show 2 * sx + (x - 2 * sx) = x by omega, show 2 * sy + (y - 2 * sy) = y by omega] at e
        rw [e, hc, ht, show ((x : Int) - 2 * sx).toNat = x - 2 * sx by omega, show ((y : Int) - 2 * sy).toNat = y - 2 * sy by omega]
      · show _ = if InUnit level sx sy x y then _ else _
        rw [if_pos hi, hm]
      · show _ = if InUnit level sx sy x y then _ else _
        rw [if_pos hi, hqp]
    · rw [fill_out sp.lo hi]
      have e1 : (after E P level sx sy u).coded x y = P.coded x y := if_neg hi
      have e2 : (after E P level sx sy u).cm x y = P.cm x y := if_neg hi
      have e3 : (after E P level sx sy u).qp x y = P.qp x y := if_neg hi
      rw [e1, e2, e3]
      exact rel.cell x y hx hy (hD.resolve_right hi)
  · intro h5 i j
    show (if _ then c else S.cu i j).wsm = 0
    split
    · exact hw h5
    · exact rel.stale h5 i j
  · intro x y hx
    have hn : ¬ InUnit level sx sy x y := by unfold InUnit; omega
    show (if u.type < 8 then _ else _ : Int → Int → Int) x y = 0
    split
    · rw [setRect_out (by rw [inRect_unit]; exact hn)]
      exact rel.bord x y hx
    · rw [setModes_out _ _ _ (by rw [hany (by omega)]; exact hn)]
      exact rel.bord x y hx

theorem twin_eq {v : Int} (h : 0 ≤ v ∧ v < 33) : Im.luma2chroma v.toNat = chromaTwin v := by
  have : ∀ k < 33, Im.luma2chroma k = chromaTwin (k : Nat) := by decide
  have := this v.toNat (by omega)
  rwa [Int.toNat_of_nonneg h.1] at this

theorem chromaTwin_range {v : Int} (l : Nat) (h : chromaTwin v = some l) : 1 ≤ l ∧ l ≤ 4 := by
  unfold chromaTwin at h
  split at h
  · obtain rfl := Option.some.inj h; decide
  · split at h
    · obtain rfl := Option.some.inj h; decide
    · split at h
      · obtain rfl := Option.some.inj h; decide
      · split at h
        · obtain rfl := Option.some.inj h; decide
        · exact absurd h (by simp)

/-- A unit that is written at its place is read, and the maps describe the state of the decoder afterwards. -/
theorem reads_cu (hm : m.Lawful G) {E : Env} {S : Pic} {P : Maps} {D : Int → Int → Prop} (rel : Rel E S P D)
    {level sx sy : Nat} (sp : Spot E D level sx sy) (hq : 0 ≤ E.qp ∧ E.qp ≤ 63) (hn : E.frame ≠ 0 → 1 ≤ E.nrefs) {u : CUnit}
    {c : List Bin} (h : unitT E P level sx sy u c) :
    ∃ r S', Reads G m (readCu m E level sx sy S) (some r, S') c ∧ Same E level u (qpOf E P sx sy u) r ∧
      Rel E S' (after E P level sx sy u) (More D level sx sy) ∧ Step E S S' (Square (level - 3) sx sy) := by
  have hl := And.intro sp.lo sp.hi
  have hse := side_eq sp.lo
  unfold unitT at h
  by_cases h8 : u.type < 8
  · rw [if_pos h8] at h
    obtain ⟨ct, cd, cm, cr, rfl, hh, hd, hmo, hmodes, hcm, hr⟩ := h
    obtain ⟨r, ok, hr0⟩ := reads_type hm hl hh (S.cu sx sy).wsm (fun h5 => rel.stale h5 sx sy)
    obtain ⟨refs, hrefs, hdir⟩ := reads_dirs hm hl hn h8 ok hd (E.old sx sy)
    have ht : r.type = u.type := by rw [ok.type, if_pos h8]
    have hlo := ok.lo
    have hvec : Reads G m (if (max 0 r.type).toNat = 0 then pure (some (0, [], []))
        else readMotion m E level (max 0 r.type).toNat u.dirs) (some (u.dmh, u.mvd1, u.mvd2)) cm := by
      rw [ht]
      by_cases h0 : u.type ≤ 0
      · rw [if_pos (by omega)]
        unfold motionT at hmo
        rw [if_pos h0] at hmo
        obtain ⟨e1, e2, e3, rfl⟩ := hmo
        rw [e1, e2, e3]
        exact Reads.pure _
      · rw [if_neg (by omega), show (max 0 u.type).toNat = u.type.toNat by omega]
        exact reads_motion hm hl (by omega) h8 (fun h5 => ok.still (Or.inl h5) (by omega)) hd hmo
    have hmode : ModeRel E S.modes (after E P level sx sy u).mode (More D level sx sy) := by
      have e : (after E P level sx sy u).mode = setRect P.mode ⟨2 * sx, 2 * sy, side level, side level⟩ 0 := if_pos h8
      rw [e]
      have hin := sp.inx
      have hiny := sp.iny
      refine (ModeRel.skip rel.modeRel (b := ⟨2 * sx, 2 * sy, side level, side level⟩) ⟨?_, ?_⟩ ?_).congr fun p q => ?_
      · show 2 * sx + side level ≤ _; omega
      · show 2 * sy + side level ≤ _; omega
      · intro p q hp; exact sp.own p q (inRect_unit.mp hp)
      · unfold More; rw [inRect_unit]
    have hwsm : E.frame = 5 → r.wsm = 0 := ok.zero
    by_cases hsk : u.type = -1
    · rw [if_pos hsk] at hr
      obtain ⟨htr, hcb, hdq, rfl⟩ := hr
      have hqe : (leftOf E S sx sy).2 = qpOf E P sx sy u := by
        rw [leftOf_eq rel sp hq]
        unfold qpOf
        rw [if_pos (Or.inl hsk), hdq, Int.add_zero]
      refine ⟨⟨r.type, r.wsm, r.ds, u.dirs, refs, u.dmh, u.mvd1, u.mvd2, 0, [], 0, 0, (leftOf E S sx sy).2, []⟩,
        S.fill level sx sy ⟨E.slice, level, 0, 0, 0, (leftOf E S sx sy).2, r.wsm⟩, ?_, ?_, ?_, Step.fill rfl _ _⟩
      · unfold readCu
        rw [List.append_nil, List.append_assoc]
        refine Reads.bind hr0 ?_
        dsimp only
        rw [if_pos (by omega)]
        unfold readInter
        dsimp only
        refine Reads.bind hdir (Reads.bind0 (Reads.failed hm) ?_)
        rw [if_neg (by decide)]
        refine Reads.last hvec ?_
        dsimp only
        rw [if_pos (by omega)]
        refine Reads.bind0 (Reads.failed hm) ?_
        rw [if_neg (by decide)]
        exact Reads.pure _
      · refine ⟨ht, fun _ => ok.skip (by omega), fun _ => rfl, fun h => hrefs ?_, fun _ => rfl, fun _ => ⟨rfl, rfl⟩, htr.symm,
          hmodes.symm, hcm.symm, hcb.symm, hqe, ?_, ?_⟩
        · rcases h with h | h
          · exact Or.inl h.1
          · exact Or.inr h.2
        · unfold codedBlks
          rw [hcb]
          rfl
        · intro i c hi; exact absurd hi (List.not_mem_nil)
      · have := rel_after rel sp (u := u) (c := ⟨E.slice, level, 0, 0, 0, (leftOf E S sx sy).2, r.wsm⟩) (buf := S.modes) (l := S.last)
          rfl rfl htr.symm (by rw [htr]; exact ⟨by decide, by omega⟩) hcb.symm hcm.symm hqe hmode ?_ hwsm (fun h => absurd h8 (by omega))
        · exact this
        · intro hdqp
          rw [rel.last hdqp]
          exact (if_pos hsk).symm
    · rw [if_neg hsk] at hr
      have rok : RestOk level u := ⟨sp.lo, sp.hi, by omega, fun h => absurd h8 (by omega), fun i => by rw [hmodes]; simp⟩
      obtain ⟨cs, l, hcs, hcb, hll, hsh, hrest⟩ := reads_rest hm rel sp hq rok hr 0 (fun h => absurd h8 (by omega))
      refine ⟨⟨r.type, r.wsm, r.ds, u.dirs, refs, u.dmh, u.mvd1, u.mvd2, u.trans, [], 0, u.cbp, qpOf E P sx sy u, cs⟩,
        Pic.fill { S with last := l } level sx sy ⟨E.slice, level, u.trans, u.cbp, 0, qpOf E P sx sy u, r.wsm⟩, ?_, ?_, ?_, Step.fill rfl _ _⟩
      · unfold readCu
        rw [List.append_assoc, List.append_assoc]
        refine Reads.bind hr0 ?_
        dsimp only
        rw [if_pos (by omega)]
        unfold readInter
        dsimp only
        refine Reads.bind hdir (Reads.bind0 (Reads.failed hm) ?_)
        rw [if_neg (by decide)]
        refine Reads.bind hvec ?_
        dsimp only
        rw [if_neg (by omega)]
        rw [hmodes, show u.type.toNat = (max 0 r.type).toNat by omega] at hrest
        exact Reads.last hrest (Reads.pure _)
      · refine ⟨ht, ok.skip, fun _ => rfl, fun h => hrefs ?_, fun _ => rfl, fun _ => ⟨rfl, rfl⟩, rfl,
          hmodes.symm, hcm.symm, rfl, rfl, hcs, ?_⟩
        · rcases h with h | h
          · exact Or.inl h.1
          · exact Or.inr h.2
        · intro i c hi; exact hcb (i, c) hi
      · have := rel_after rel sp (u := u) (c := ⟨E.slice, level, u.trans, u.cbp, 0, qpOf E P sx sy u, r.wsm⟩) (buf := S.modes) (l := l)
          rfl rfl rfl hsh rfl hcm.symm rfl hmode ?_ hwsm (fun h => absurd h8 (by omega))
        · exact this
        · intro hdqp
          rw [hll hdqp]
          exact (if_neg hsk).symm
  · rw [if_neg h8] at h
    obtain ⟨ct, ci, cm, cc, cr, rfl, hh, hty, hmo, hch, hr⟩ := h
    obtain ⟨r, ok, hr0⟩ := reads_type hm hl hh (S.cu sx sy).wsm (fun h5 => rel.stale h5 sx sy)
    have ht : r.type = 9 := by rw [ok.type, if_neg h8]
    have hcast : ((u.type.toNat : Nat) : Int) = u.type := Int.toNat_of_nonneg (by omega)
    obtain ⟨chain, hany⟩ := rects_chain sp hty
    have hblk := cuBlks_eq sp.lo sp.hi hty sx sy
    rw [hcast] at chain hany hblk
    obtain ⟨buf, hmread, hmrel, hlen, hvals⟩ := reads_modes hm _ rel.modeRel chain hmo
    have hgetD : ∀ i, 0 ≤ u.modes.getD i 0 ∧ u.modes.getD i 0 < 33 := by
      intro i
      rw [List.getD_eq_getElem?_getD]
      cases e : u.modes[i]? with
      | none => simp
      | some v => exact hvals v (List.mem_of_getElem? e)
    have hsh : ShapeOk level u.trans ∧ (u.trans = 0 ↔ u.type = 8) := by
      rcases intra_cases sp.lo sp.hi hty with h | h | h
      · exact ⟨⟨by omega, by omega⟩, by omega⟩
      · exact ⟨⟨by omega, by omega⟩, by omega⟩
      · exact ⟨⟨by omega, by omega⟩, by omega⟩
    have rok : RestOk level u := ⟨sp.lo, sp.hi, by omega, fun _ => ⟨intra_unitOk sp.lo sp.hi hty, hsh.1, hsh.2⟩, hgetD⟩
    obtain ⟨cs, l, hcs, hcb, hll, _, hrest⟩ := reads_rest hm rel sp hq rok hr u.trans (fun _ => rfl)
    refine ⟨⟨(u.type.toNat : Nat), (S.cu sx sy).wsm, r.ds, [-1, -1, -1, -1], [], 0, [], [], u.trans, u.modes, u.cmode, u.cbp,
        qpOf E P sx sy u, cs⟩,
      Pic.fill { S with modes := buf, last := l } level sx sy
        ⟨E.slice, level, u.trans, u.cbp, u.cmode, qpOf E P sx sy u, (S.cu sx sy).wsm⟩, ?_, ?_, ?_, Step.fill rfl _ _⟩
    · unfold readCu
      rw [List.append_assoc, List.append_assoc, List.append_assoc]
      refine Reads.bind hr0 ?_
      dsimp only
      rw [if_neg (by omega)]
      unfold readIntra
      dsimp only
      refine Reads.bind ((C79_intraCuType (G := G) _ level hl).at hm hty) (Reads.bind0 (Reads.failed hm) ?_)
      rw [if_neg (by decide)]
      dsimp only [Option.getD_some]
      rw [hblk]
      refine Reads.bind hmread ?_
      dsimp only
      refine Reads.bind (a := u.cmode) ?_ (Reads.bind0 (Reads.failed hm) ?_)
      · have e : leftOf E { S with modes := buf } sx sy = leftOf E S sx sy := rfl
        rw [e, leftOf_eq rel sp hq, twin_eq (hgetD 0)]
        exact (C79_intraPmodeC (G := G) _ _ chromaTwin_range).at hm hch
      · rw [if_neg (by decide)]
        have e : readRest m E { S with modes := buf } level sx sy u.type.toNat u.trans u.modes =
          readRest m E S level sx sy u.type.toNat u.trans u.modes := rfl
        rw [e]
        exact Reads.last hrest (Reads.pure _)
    · refine ⟨hcast, fun h => absurd h8 (by omega), fun h => absurd h h8, fun h => absurd h8 (by omega), fun h => absurd h h8,
        fun h => absurd h h8, rfl, rfl, rfl, rfl, rfl, hcs, ?_⟩
      intro i c hi; exact hcb (i, c) hi
    · refine rel_after rel sp (u := u) rfl rfl rfl hsh.1 rfl rfl rfl ?_ ?_ (fun h5 => rel.stale h5 sx sy) (fun _ => hany)
      · have e : (after E P level sx sy u).mode = setModes ((rects u.type level sx sy).zip u.modes) P.mode := if_neg h8
        rw [e]
        exact hmrel.congr fun p q => by unfold More; rw [hany]
      · intro hdqp
        rw [hll hdqp]
        exact (if_neg (by omega)).symm

end Davs2.Cs
