import Verif.Lemmas.PicHeader
/-
Properties C19 (coding order), C20 (header scan), C21 (reference tables of picture headers).
-/
namespace Davs2
open Spec

/-! ## Coding order -/

/-- `parsePicture` in terms of the header it read. -/
theorem parsePicture_ok (mgr mgr' : HMgr) (seq : SeqHdr) (intra : Bool) (m : Mem) (p q : Nat) (a : PicAcc)
    (h : parsePicture mgr seq intra m p = .ok ((a, mgr'), q)) :
    a.hdr.frameCoding = true ∧
    a.coi = a.hdr.coi8 + mgr'.wrapCnt * 256 ∧
    a.poc = (if seq.rate.lowDelay = 0 then a.coi + a.hdr.displayDelay - seq.reorderDelay else a.coi) ∧
    mgr'.prevCoi = a.hdr.coi8 ∧
    mgr'.wrapCnt = (if a.hdr.coi8 < mgr.prevCoi then mgr.wrapCnt + 1 else mgr.wrapCnt) := by
  unfold parsePicture at h
  obtain ⟨hd, p1, h1, h⟩ := rd_bind_ok _ _ _ _ _ h
  unfold finishPic at h
  by_cases hf : hd.frameCoding = false
  · rw [if_pos hf] at h
    cases h
  · rw [if_neg hf] at h
    have e := rd_pure_ok _ _ _ _ h
    simp only [Prod.mk.injEq] at e
    obtain ⟨⟨rfl, rfl⟩, rfl⟩ := e
    refine ⟨by simpa using hf, ?_⟩
    simp [coiStep, pocOf]

/-- Pictures accepted one after the other within a sequence, from any packets. -/
inductive PicRun (seq : SeqHdr) : HMgr → List PicAcc → HMgr → Prop
  | nil (mgr : HMgr) : PicRun seq mgr [] mgr
  | snoc {mgr mgr1 mgr2 : HMgr} {as : List PicAcc} {a : PicAcc} {m : Mem} {intra : Bool} {p q : Nat} :
      PicRun seq mgr as mgr1 → parsePicture mgr1 seq intra m p = .ok ((a, mgr2), q) →
      PicRun seq mgr (as ++ [a]) mgr2

/-- The transmitted number was read completely. -/
def PicAcc.Has8 (a : PicAcc) : Prop := 0 ≤ a.hdr.coi8 ∧ a.hdr.coi8 < 256

theorem picRun_last (seq : SeqHdr) (mgr mgr' : HMgr) (as : List PicAcc) (a : PicAcc)
    (h : PicRun seq mgr (as ++ [a]) mgr') :
    mgr'.prevCoi = a.hdr.coi8 ∧ a.coi = a.hdr.coi8 + mgr'.wrapCnt * 256 := by
  generalize hl : as ++ [a] = l at h
  cases h with
  | nil => simp at hl
  | snoc _ hp =>
    have hh := List.append_inj' hl rfl
    simp only [List.cons.injEq, and_true] at hh
    obtain ⟨rfl, rfl⟩ := hh
    obtain ⟨_, h2, _, h4, _⟩ := parsePicture_ok _ _ _ _ _ _ _ _ hp
    exact ⟨h4, h2⟩

/-- **C19 (partial).** Along any run of accepted pictures: the coding order is congruent to the
transmitted number, the output order is coding order plus delay minus reorder delay (or the coding order
itself in low-delay sequences), and from picture to picture the coding order grows by the difference of
the transmitted numbers modulo 256, hence strictly whenever two consecutive numbers differ.  Missing:
equal consecutive numbers, see `C19_not_monotone_violated`. -/
theorem C19_coding_order_partial (seq : SeqHdr) (mgr mgr' : HMgr) (as : List PicAcc)
    (h : PicRun seq mgr as mgr') (h8 : ∀ a ∈ as, a.Has8) :
    (∀ a ∈ as, a.coi % 256 = a.hdr.coi8 ∧
      a.poc = (if seq.rate.lowDelay = 0 then a.coi + a.hdr.displayDelay - seq.reorderDelay
        else a.coi)) ∧
    (∀ (i : Nat) a b, as[i]? = some a → as[i + 1]? = some b →
      b.coi - a.coi = (b.hdr.coi8 - a.hdr.coi8) % 256 ∧
      (a.hdr.coi8 ≠ b.hdr.coi8 → a.coi < b.coi)) := by
  induction h with
  | nil => simp
  | @snoc mgr1 mgr2 as a m intra p q hrun hp ih =>
    have h8' : ∀ b ∈ as, b.Has8 := fun b hb => h8 b (by simp [hb])
    obtain ⟨ih1, ih2⟩ := ih h8'
    obtain ⟨e1, e2, e3, e4, e5⟩ := parsePicture_ok _ _ _ _ _ _ _ _ hp
    have ha8 := h8 a (by simp)
    unfold PicAcc.Has8 at ha8
    constructor
    · intro b hb
      rcases List.mem_append.1 hb with hb | hb
      · exact ih1 b hb
      · simp only [List.mem_singleton] at hb
        subst hb
        exact ⟨by omega, e3⟩
    · intro i x y hx hy
      rcases Nat.lt_or_ge (i + 1) as.length with hlt | hge
      · rw [List.getElem?_append_left (by omega)] at hx
        rw [List.getElem?_append_left hlt] at hy
        exact ih2 i x y hx hy
      · have hi : i + 1 = as.length := by
          have := (List.getElem?_eq_some_iff.1 hy).1
          simp at this
          omega
        rw [List.getElem?_append_left (by omega)] at hx
        rw [List.getElem?_append_right hge, hi, Nat.sub_self] at hy
        simp only [List.getElem?_cons_zero, Option.some.injEq] at hy
        subst hy
        have hxm := h8' x (List.mem_of_getElem? hx)
        unfold PicAcc.Has8 at hxm
        obtain ⟨init, hinit⟩ : ∃ init, as = init ++ [x] := by
          refine ⟨as.take i, ?_⟩
          have := List.take_succ_eq_append_getElem (l := as) (i := i) (by omega)
          rw [hi, List.take_length] at this
          rw [this]
          congr 2
          have h2 := List.getElem?_eq_getElem (l := as) (i := i) (by omega)
          rw [hx] at h2
          simpa using h2.symm
        rw [hinit] at hrun
        obtain ⟨f1, f2⟩ := picRun_last _ _ _ _ _ hrun
        rw [f1] at e5
        split at e5
        · refine ⟨by omega, fun _ => by omega⟩
        · refine ⟨by omega, fun _ => by omega⟩

/-- Right after a reset the coding order is the transmitted number. -/
theorem C19_first (mgr mgr' : HMgr) (seq : SeqHdr) (intra : Bool) (m : Mem) (p q : Nat) (a : PicAcc)
    (hm : mgr.prevCoi = -1 ∧ mgr.wrapCnt = 0) (h8 : a.Has8)
    (h : parsePicture mgr seq intra m p = .ok ((a, mgr'), q)) : a.coi = a.hdr.coi8 := by
  obtain ⟨_, e2, _, _, e5⟩ := parsePicture_ok _ _ _ _ _ _ _ _ h
  unfold PicAcc.Has8 at h8
  rw [if_neg (by omega)] at e5
  omega

/-! ## Header scan -/

/-- The scan never runs out of fuel when the fuel exceeds a quarter of the bytes left. -/
theorem scanLoop_not_stuck (high : Bool) (m : Mem) (fuel : Nat) (mgr : HMgr) (pos : Nat)
    (hf : (m.len - pos / 8) / 4 < fuel) : (scanLoop high m fuel mgr pos).1 ≠ .stuck := by
  induction fuel generalizing mgr pos with
  | zero => omega
  | succ fuel ih =>
    unfold scanLoop
    split
    · simp
    · rename_i k hk
      obtain ⟨hlen, _⟩ := findStartCode_mem m _ _ hk
      simp only
      rw [if_neg (by omega)]
      split
      · split
        · simp
        · split <;> simp
      · split
        · split
          · rename_i s q hs
            have := parseSeqHeader_progress _ _ _ _ hs
            exact ih _ _ (by omega)
          · simp
          · simp
          · simp
        · exact ih _ _ (by omega)

/-- **C20 (partial).** The header scan ends for every packet, after at most one search step per four bytes
(the fuel of `parseHeader`), and reports a picture, no picture or an error unless the parse of a header is
undefined.  Missing: headers that make the parser undefined, see `C20_undefined_violated`. -/
theorem C20_scan_ends_partial (high : Bool) (m : Mem) (mgr : HMgr) (pos : Nat) :
    (parseHeader high m mgr pos).1 ≠ .stuck := by
  unfold parseHeader
  split
  · simp
  · apply scanLoop_not_stuck
    have : (m.len - pos / 8) / 4 ≤ m.len / 4 := Nat.div_le_div_right (by omega)
    omega

theorem scanLoop_picture (high : Bool) (m : Mem) (fuel : Nat) (mgr mgr' : HMgr) (pos : Nat) (a : PicAcc)
    (q : Nat) (h : scanLoop high m fuel mgr pos = (.picture a q, mgr')) :
    ∃ k mgr1 seq, pos / 8 ≤ k ∧ k + 4 ≤ m.len ∧ m.byte k = 0#8 ∧ m.byte (k + 1) = 0#8 ∧
      m.byte (k + 2) = 1#8 ∧ (m.byte (k + 3) = 0xB3#8 ∨ m.byte (k + 3) = 0xB6#8) ∧
      mgr1.seq = some seq ∧
      parsePicture mgr1 seq (m.byte (k + 3) = 0xB3#8) m (8 * k) = .ok ((a, mgr'), q) := by
  induction fuel generalizing mgr pos with
  | zero => cases h
  | succ fuel ih =>
    unfold scanLoop at h
    split at h
    · cases h
    · rename_i k hk
      obtain ⟨hlen, b0, b1, b2⟩ := findStartCode_mem m _ _ hk
      simp only at h
      rw [if_neg (by omega)] at h
      split at h
      · rename_i hcode
        split at h
        · cases h
        · rename_i seq hseq
          split at h
          · rename_i r q' hp
            simp only [Prod.mk.injEq, Scan.picture.injEq] at h
            obtain ⟨⟨rfl, rfl⟩, rfl⟩ := h
            refine ⟨pos / 8 + k, mgr, seq, by omega, hlen, b0, b1, b2, hcode, ?_, hp⟩
            unfold decoderUpdate at hseq
            split at hseq
            · cases hseq
            · split at hseq
              · cases hseq
              · rename_i s hs _
                rw [hs]
                exact hseq
          · cases h
          · cases h
          · cases h
      · split at h
        · split at h
          · rename_i s q' hs
            have := parseSeqHeader_progress _ _ _ _ hs
            obtain ⟨k', rest⟩ := ih _ _ h
            obtain ⟨mgr1, seq, h1, h2⟩ := rest
            exact ⟨k', mgr1, seq, by omega, h2⟩
          · cases h
          · cases h
          · cases h
        · obtain ⟨k', mgr1, seq, h1, h2⟩ := ih _ _ h
          exact ⟨k', mgr1, seq, by omega, h2⟩

/-- **C20.** A reported picture stands in the packet: at a picture start code, under a sequence header that
has been accepted. -/
theorem C20_picture_sound (high : Bool) (m : Mem) (mgr mgr' : HMgr) (pos : Nat) (a : PicAcc) (q : Nat)
    (h : parseHeader high m mgr pos = (.picture a q, mgr')) :
    ∃ k mgr1 seq, pos / 8 ≤ k ∧ k + 4 ≤ m.len ∧ m.byte k = 0#8 ∧ m.byte (k + 1) = 0#8 ∧
      m.byte (k + 2) = 1#8 ∧ (m.byte (k + 3) = 0xB3#8 ∨ m.byte (k + 3) = 0xB6#8) ∧
      mgr1.seq = some seq ∧
      parsePicture mgr1 seq (m.byte (k + 3) = 0xB3#8) m (8 * k) = .ok ((a, mgr'), q) := by
  unfold parseHeader at h
  split at h
  · cases h
  · exact scanLoop_picture _ _ _ _ _ _ _ _ h

/-- **C20.** Before the first intra picture no inter picture is reported. -/
theorem C20_starts_with_intra (mgr : HMgr) (seq : SeqHdr) (m : Mem) (p : Nat) (h : mgr.output = -1) :
    parsePicture mgr seq false m p = .err := by
  unfold parsePicture parsePicKind
  simp only [Bool.false_eq_true, if_false, if_pos h]
  rfl

end Davs2
