import Verif.Props.PicHeader
import Verif.Props.SeqHeader
import Verif.Spec.PicHeader
/-
Property C56: picture headers are read back element by element.
-/
namespace Davs2
open Spec

/-- What a sequence header decides about its picture headers. -/
def SeqSyntax.env (q : SeqSyntax) : PicEnv :=
  ⟨q.bgDisable == 0, q.temporalId == 1, q.lowDelay != 0, q.fieldCoded != 0, q.alf != 0, q.weights.isSome, q.rps.length⟩

theorem Reads.raw (bits : List Bool) :
    Reads (rdU bits.length) bits ((bits.foldl pushBit 0#32).toInt) := by
  intro m p hb hl
  unfold rdU
  rw [mReadLoop_eq, if_neg (by unfold Refused; omega), hb]

theorem Reads.raw32 (v : Nat) : Reads (rdU 32) (bitsOfNat 32 v)
    (((bitsOfNat 32 v).foldl pushBit 0#32).toInt) := by
  have h := Reads.raw (bitsOfNat 32 v)
  rw [bitsOfNat_length] at h
  exact h

/-- One bit as a truth value. -/
theorem Reads.bool (b : Bool) : Reads (rdU 1) (bitsOfNat 1 b.toNat) (b.toNat : Int) :=
  Reads.u 1 _ (by omega) (by cases b <;> decide)

theorem Reads.boolFlag (b : Bool) : Reads rdFlag (bitsOfNat 1 b.toNat) (b.toNat : Int) :=
  Reads.flag _ (by cases b <;> decide)

theorem reads_seList (c : List Int) (h : CoeffLegal c) : Reads (rdMany rdSe 9) (c.flatMap seCode) c := by
  have := Reads.manyMap (α := Int) (x := rdSe) c seCode id 9 h.1.symm fun x hx => Reads.se x (h.2 x hx)
  simpa using this

/-! ## ALF -/

/-- Positions of the regions: sums of the distances. -/
def alfPositions : Nat → List (Nat × List Int) → List Int
  | _, [] => []
  | pre, e :: l => ((pre + e.1 : Nat) : Int) :: alfPositions (pre + e.1) l

theorem reads_alfLoop (filters : Nat) (l : List (Nat × List Int)) (f pre : Nat) (hf : 1 ≤ f)
    (hfl : f + l.length = filters) (h16 : filters ≤ 16) (hc : ∀ e ∈ l, CoeffLegal e.2)
    (hone : filters = 16 → ∀ e ∈ l, e.1 = 1) (hs : pre + (l.map (·.1)).sum ≤ 15) :
    Reads (alfLumaLoop (filters : Int) l.length f (pre : Int))
      (l.flatMap fun e => List.flatten [if filters = 16 then [] else ueCode e.1, e.2.flatMap seCode])
      (l.map (·.2), alfPositions pre l) := by
  induction l generalizing f pre with
  | nil => exact Reads.pure _
  | cons e l ih =>
    simp only [List.length_cons] at hfl
    simp only [List.map_cons, List.sum_cons] at hs
    simp only [List.length_cons, List.flatMap_cons, List.map_cons, List.flatten_cons, List.flatten_nil,
      List.append_nil, List.append_assoc]
    unfold alfLumaLoop
    rw [if_neg (by omega)]
    have tail : Reads (if (e.1 : Int) + pre < 0 ∨ (e.1 : Int) + pre ≥ 16 then rdOob
        else if f ≥ 16 then rdOob
        else do
          let c ← rdMany rdSe 9
          let r ← alfLumaLoop (filters : Int) l.length (f + 1) ((pre : Int) + e.1)
          pure (c :: r.1, ((e.1 : Int) + pre) :: r.2))
        (e.2.flatMap seCode ++ l.flatMap fun e =>
          List.flatten [if filters = 16 then [] else ueCode e.1, e.2.flatMap seCode])
        (e.2 :: l.map (·.2), alfPositions pre (e :: l)) := by
      refine Reads.ite_false (by omega) ?_
      refine Reads.ite_false (by omega) ?_
      refine Reads.bind (reads_seList e.2 (hc e (by simp))) ?_
      rw [← List.append_nil (l.flatMap _)]
      have hi := ih (f + 1) (pre + e.1) (by omega) (by omega)
        (fun x hx => hc x (by simp [hx])) (fun h x hx => hone h x (by simp [hx])) (by omega)
      rw [Int.natCast_add] at hi
      refine Reads.bind hi ?_
      refine Reads.cast (Reads.pure _) ?_
      simp only [alfPositions, Prod.mk.injEq, true_and, List.cons.injEq, and_true]
      omega
    simp only [List.flatten_cons, List.flatten_nil, List.append_nil] at tail
    by_cases h : filters = 16
    · have h1 := hone h e (by simp)
      rw [if_neg (by omega), if_pos h]
      refine Reads.bind (Reads.pure _) ?_
      rw [h1] at tail
      exact tail
    · rw [if_pos (by omega), if_neg h]
      refine Reads.bind (Reads.ue e.1 (by omega)) tail

theorem reads_alfLuma (a : AlfLumaSyntax) (h : a.Legal) :
    Reads alfLuma a.bits ⟨a.first :: a.more.map (·.2), alfPositions 0 a.more⟩ := by
  unfold alfLuma AlfLumaSyntax.bits
  have hcount := h.count
  simp only [List.flatten_cons, List.flatten_nil]
  refine Reads.bind (Reads.ue _ (by omega)) ?_
  rw [show ((a.more.length : Int) + 1).toNat = a.more.length + 1 by omega]
  unfold alfLumaLoop
  rw [if_pos rfl]
  rw [← List.append_assoc]
  refine Reads.bind (a := (a.first :: a.more.map (·.2), alfPositions 0 a.more)) ?_ (Reads.pure _)
  refine Reads.bind (reads_seList a.first h.first) ?_
  have := reads_alfLoop (a.more.length + 1) a.more 1 0 (by omega) (by omega) (by omega) h.more
    (fun e => h.full (by omega)) (by have := h.sum; omega)
  simp only [List.flatten_cons, List.flatten_nil] at this
  rw [← List.append_nil (List.flatMap _ _)]
  exact Reads.bind this (Reads.pure _)

theorem reads_alfChroma (c : List Int) (h : CoeffLegal c) :
    Reads alfChroma (c.flatMap seCode) ⟨[c], []⟩ := by
  unfold alfChroma
  rw [← List.append_nil (List.flatMap _ _)]
  exact Reads.bind (reads_seList c h) (Reads.pure _)

theorem reads_alfOpt {α : Type} (o : Option α) (enc : α → List Bool) (f : α → AlfComp) (x : Rd AlfComp)
    (h : ∀ a, o = some a → Reads x (enc a) (f a)) :
    Reads (alfOpt (o.isSome.toNat : Int) x) (optBits enc o) (o.map f) := by
  unfold alfOpt
  cases o with
  | none => exact Reads.ite_false (by simp) (Reads.pure _)
  | some a =>
    refine Reads.ite_true (by simp) ?_
    rw [← List.append_nil (optBits enc (some a))]
    exact Reads.bind (h a rfl) (Reads.pure _)

/-- ALF parameters to be delivered. -/
def PicSyntax.expectAlf (s : PicSyntax) : List (Option AlfComp) :=
  [s.alfY.map fun a => ⟨a.first :: a.more.map (·.2), alfPositions 0 a.more⟩,
   s.alfU.map fun c => ⟨[c], []⟩, s.alfV.map fun c => ⟨[c], []⟩]

theorem reads_alf (q : SeqSyntax) (s : PicSyntax) (hq : q.Legal) (h : s.Legal (SeqSyntax.env q)) :
    Reads (alfParam (SeqSyntax.expect q).flags.alf) (s.alfBits (SeqSyntax.env q))
      (PicSyntax.expectAlf s) := by
  unfold alfParam PicSyntax.alfBits
  show Reads (if (q.alf : Int) ≠ 0 then _ else _) (if (q.alf != 0) = true then _ else _) _
  by_cases ha : q.alf = 0
  · rw [if_neg (by simp [ha]), if_neg (by simp [ha])]
    obtain ⟨h1, h2, h3⟩ := h.alfAbsent (by simp [SeqSyntax.env, ha])
    refine Reads.cast (Reads.pure _) ?_
    simp [PicSyntax.expectAlf, h1, h2, h3]
  · rw [if_pos (by omega), if_pos (by simpa using ha)]
    simp only [List.flatten_cons, List.flatten_nil]
    refine Reads.bind (Reads.boolFlag _) ?_
    refine Reads.bind (Reads.boolFlag _) ?_
    refine Reads.bind (Reads.boolFlag _) ?_
    refine Reads.bind (reads_alfOpt s.alfY AlfLumaSyntax.bits _ _
      fun a e => reads_alfLuma a (h.alfY a e)) ?_
    refine Reads.bind (reads_alfOpt s.alfU (fun c => c.flatMap seCode) _ _
      fun a e => reads_alfChroma a (h.alfU a e)) ?_
    refine Reads.bind (reads_alfOpt s.alfV (fun c => c.flatMap seCode) _ _
      fun a e => reads_alfChroma a (h.alfV a e)) ?_
    exact Reads.pure _

/-! ## Order, reference set, structure, filter -/

theorem reads_order (q : SeqSyntax) (s : PicSyntax) (hq : q.Legal) (h : s.Legal (SeqSyntax.env q)) :
    Reads (parsePicOrder (SeqSyntax.expect q)) (s.orderBits (SeqSyntax.env q))
      ((s.coi : Int), (s.layer : Int), (s.delay : Int)) := by
  unfold parsePicOrder PicSyntax.orderBits
  simp only [List.flatten_cons, List.flatten_nil]
  refine Reads.bind (Reads.u 8 _ (by omega) h.coi) ?_
  have hd := h.delay
  have fin : Reads (if (SeqSyntax.expect q).rate.lowDelay = 0 then (do
        let delay ← rdUe
        if delay ≥ 64 then rdReject else pure ((s.coi : Int), (s.layer : Int), delay))
      else pure ((s.coi : Int), (s.layer : Int), 0))
      ((if (SeqSyntax.env q).lowDelay = true then [] else ueCode s.delay) ++ [])
      ((s.coi : Int), (s.layer : Int), (s.delay : Int)) := by
    show Reads (if (q.lowDelay : Int) = 0 then _ else _) ((if (q.lowDelay != 0) = true then _ else _) ++ []) _
    by_cases hl : q.lowDelay = 0
    · rw [if_pos (by omega), if_neg (by simp [hl])]
      refine Reads.bind (Reads.ue _ (by omega)) ?_
      exact Reads.ite_false (by omega) (Reads.pure _)
    · rw [if_neg (by omega), if_pos (by simpa using hl)]
      have := h.delayAbsent (by simpa [SeqSyntax.env] using hl)
      rw [this]
      exact Reads.pure _
  by_cases ht : q.temporalId = 1
  · have e1 : (SeqSyntax.expect q).rate.temporalId = 1 := by
      show (q.temporalId : Int) = 1
      omega
    have e2 : (SeqSyntax.env q).temporalId = true := by simp [SeqSyntax.env, ht]
    rw [if_pos e1, if_pos e2]
    exact Reads.bind (Reads.u 3 _ (by omega) h.layer) fin
  · have e1 : ¬ (SeqSyntax.expect q).rate.temporalId = 1 := by
      show ¬ (q.temporalId : Int) = 1
      omega
    have e2 : (SeqSyntax.env q).temporalId = false := by simp [SeqSyntax.env, ht]
    rw [if_neg e1, if_neg (by simp [e2])]
    have hl := h.layerAbsent e2
    rw [hl] at fin ⊢
    exact Reads.bind (Reads.pure _) fin

/-- Reference set to be delivered. -/
def PicSyntax.expectRps (q : SeqSyntax) (s : PicSyntax) : RpsH :=
  match s.rps with
  | .inl i => ((q.rps[i]?).map RpsSyntax.expect).getD ⟨0, [], []⟩
  | .inr r => RpsSyntax.expect r

theorem reads_picRps (checked : Bool) (q : SeqSyntax) (s : PicSyntax) (h : s.Legal (SeqSyntax.env q)) :
    Reads (parsePicRps checked (SeqSyntax.expect q)) s.rpsBits (PicSyntax.expectRps q s) := by
  unfold parsePicRps PicSyntax.rpsBits PicSyntax.expectRps
  rcases hr : s.rps with i | r
  · obtain ⟨h1, h2⟩ := h.idx i hr
    have hn : (SeqSyntax.expect q).numRps = q.rps.length := rfl
    have h1' : i < q.rps.length := h1
    simp only [List.flatten_cons, List.flatten_nil]
    refine Reads.bind (Reads.u 1 1 (by omega) (by omega)) ?_
    refine Reads.ite_true (by omega) ?_
    refine Reads.bind (Reads.u 5 i (by omega) (by omega)) ?_
    refine Reads.ite_false (by rw [hn]; omega) ?_
    refine Reads.ite_false (by omega) ?_
    refine Reads.cast (Reads.pure _) ?_
    simp [SeqSyntax.expect, List.getD_eq_getElem?_getD]
  · have hl := h.own r hr
    have h1 := hl.nref
    have h2 := hl.nrem
    simp only [List.flatten_cons, List.flatten_nil, List.append_nil, RpsSyntax.bits]
    refine Reads.bind (Reads.u 1 0 (by omega) (by omega)) ?_
    refine Reads.ite_false (by omega) ?_
    refine Reads.bind (Reads.u 1 _ (by omega) hl.refd) ?_
    refine Reads.bind (Reads.u 3 _ (by omega) (by omega)) ?_
    refine Reads.ite_false (by omega) ?_
    refine Reads.bind (Reads.manyMap r.refs (bitsOfNat 6) Int.ofNat _ (by simp)
      fun x hx => Reads.u 6 x (by omega) (hl.refs x hx)) ?_
    refine Reads.bind (Reads.u 3 _ (by omega) (by omega)) ?_
    refine Reads.ite_false (by omega) ?_
    refine Reads.bind (Reads.manyMap r.removes (bitsOfNat 6) Int.ofNat _ (by simp)
      fun x hx => Reads.u 6 x (by omega) (hl.removes x hx)) ?_
    rw [← List.append_nil (bitsOfNat 1 1)]
    refine Reads.bind (Reads.u 1 1 (by omega) (by omega)) ?_
    exact Reads.pure _

theorem reads_struct (q : SeqSyntax) (s : PicSyntax) (h : s.Legal (SeqSyntax.env q)) :
    Reads (parsePicStruct (SeqSyntax.expect q)) (s.structBits (SeqSyntax.env q))
      ((s.progressive || s.frame), (s.tff : Int), (s.rff : Int), (s.topField : Int), (s.fixedQp : Int),
        (s.qp : Int)) := by
  unfold parsePicStruct PicSyntax.structBits
  simp only [List.flatten_cons, List.flatten_nil]
  have step1 : ∃ a, Reads (if (SeqSyntax.expect q).rate.lowDelay ≠ 0 then rdUe else pure 0)
      (if (SeqSyntax.env q).lowDelay = true then ueCode s.bbvCheck else []) a := by
    show ∃ a, Reads (if (q.lowDelay : Int) ≠ 0 then _ else _) (if (q.lowDelay != 0) = true then _ else _) a
    by_cases hl : q.lowDelay = 0
    · rw [if_neg (by omega), if_neg (by simp [hl])]
      exact ⟨_, Reads.pure _⟩
    · rw [if_pos (by omega), if_pos (by simpa using hl)]
      exact ⟨_, Reads.ue _ h.bbvCheck⟩
  obtain ⟨_, step1⟩ := step1
  refine Reads.bind step1 ?_
  refine Reads.bind (Reads.bool s.progressive) ?_
  have step2 : Reads (if (s.progressive.toNat : Int) = 0 then rdU 1 else pure 1)
      (if s.progressive = true then [] else bitsOfNat 1 s.frame.toNat)
      (((s.progressive || s.frame).toNat : Nat) : Int) := by
    cases hp : s.progressive with
    | true => exact Reads.pure _
    | false => exact Reads.bool s.frame
  refine Reads.bind step2 ?_
  refine Reads.bind (Reads.flag _ h.tff) ?_
  refine Reads.bind (Reads.flag _ h.rff) ?_
  have step3 : Reads (if (SeqSyntax.expect q).fmt.fieldCoding ≠ 0 then (do
        let t ← rdFlag
        let _ ← rdU 1
        pure t) else pure 0)
      (if (SeqSyntax.env q).fieldCoded = true then
        bitsOfNat 1 s.topField ++ (bitsOfNat 1 s.fieldReserved ++ []) else []) (s.topField : Int) := by
    show Reads (if (q.fieldCoded : Int) ≠ 0 then _ else _) (if (q.fieldCoded != 0) = true then _ else _) _
    by_cases hl : q.fieldCoded = 0
    · rw [if_neg (by omega), if_neg (by simp [hl])]
      have := h.topFieldAbsent (by simp [SeqSyntax.env, hl])
      rw [this]
      exact Reads.pure _
    · rw [if_pos (by omega), if_pos (by simpa using hl)]
      refine Reads.bind (Reads.flag _ h.topField) ?_
      refine Reads.bind (Reads.u 1 _ (by omega) h.fieldReserved) ?_
      exact Reads.pure _
  refine Reads.bind step3 ?_
  refine Reads.bind (Reads.flag _ h.fixedQp) ?_
  refine Reads.bind (Reads.u 7 _ (by omega) h.qp) ?_
  refine Reads.cast (Reads.pure _) ?_
  cases s.progressive <;> cases s.frame <;> simp

/-- Loop filter parameters to be delivered. -/
def PicSyntax.expectFilter (s : PicSyntax) : Bool × Int × Int × Int × Int :=
  let ab := if s.filterDisable then (0, 0) else s.offsets.getD (0, 0)
  let uv := s.chromaDelta.getD (0, 0)
  (!s.filterDisable, ab.1, ab.2, uv.1, uv.2)

theorem reads_filter (e : PicEnv) (s : PicSyntax) (h : s.Legal e) :
    Reads parsePicFilter s.filterBits (PicSyntax.expectFilter s) := by
  unfold parsePicFilter PicSyntax.filterBits
  simp only [List.flatten_cons, List.flatten_nil]
  refine Reads.bind (Reads.bool s.filterDisable) ?_
  have step1 : Reads (if (s.filterDisable.toNat : Int) ≠ 1 then (do
        let flag ← rdU 1
        if flag ≠ 0 then (do
          let a ← rdSe
          let b ← rdSe
          pure (a, b))
        else pure (0, 0)) else pure (0, 0))
      (if s.filterDisable = true then [] else
        match s.offsets with
        | none => bitsOfNat 1 0 ++ []
        | some (a, b) => bitsOfNat 1 1 ++ (seCode a ++ (seCode b ++ [])))
      (if s.filterDisable then (0, 0) else s.offsets.getD (0, 0)) := by
    cases hd : s.filterDisable with
    | true => exact Reads.pure _
    | false =>
      rcases ho : s.offsets with _ | ⟨a, b⟩
      · refine Reads.ite_true (by simp) ?_
        refine Reads.bind (Reads.u 1 0 (by omega) (by omega)) ?_
        refine Reads.ite_false (by omega) (Reads.pure _)
      · refine Reads.ite_true (by simp) ?_
        refine Reads.bind (Reads.u 1 1 (by omega) (by omega)) ?_
        refine Reads.ite_true (by omega) ?_
        refine Reads.bind (Reads.se a (h.offsets a b ho).1) ?_
        refine Reads.bind (Reads.se b (h.offsets a b ho).2) ?_
        exact Reads.pure _
  refine Reads.bind step1 ?_
  have hc : ((s.filterDisable.toNat : Int) != 1) = !s.filterDisable := by cases s.filterDisable <;> rfl
  rw [hc]
  rcases hd : s.chromaDelta with _ | ⟨u, v⟩
  · refine Reads.bind (Reads.flag 1 (by omega)) ?_
    refine Reads.bind (Reads.ite_false (by omega) (Reads.pure _)) ?_
    refine Reads.cast (Reads.pure _) ?_
    simp [PicSyntax.expectFilter, hd]
  · refine Reads.bind (Reads.flag 0 (by omega)) ?_
    simp only
    refine Reads.bind (a := (u, v)) (Reads.ite_true (by omega) ?_) ?_
    · refine Reads.bind (Reads.se u (h.chromaDelta u v hd).1) ?_
      refine Reads.bind (Reads.se v (h.chromaDelta u v hd).2) ?_
      exact Reads.pure _
    · refine Reads.cast (Reads.pure _) ?_
      simp [PicSyntax.expectFilter, hd]

/-! ## Whole headers -/

/-- What the parser is to deliver. -/
def PicSyntax.expect (q : SeqSyntax) (s : PicSyntax) (type : PicType) (ra bkgndRef : Nat) : PicHdr :=
  ⟨type, s.coi, s.layer, s.delay, PicSyntax.expectRps q s, s.progressive || s.frame, s.tff, s.rff,
    s.topField, s.fixedQp, s.qp, ra, (PicSyntax.expectFilter s).1, (PicSyntax.expectFilter s).2.1,
    (PicSyntax.expectFilter s).2.2.1, (PicSyntax.expectFilter s).2.2.2.1,
    (PicSyntax.expectFilter s).2.2.2.2, bkgndRef, PicSyntax.expectAlf s⟩

def IntraKind.expect : IntraKind → PicType
  | .ordinary => .I
  | .backgroundShown => .G
  | .backgroundHidden => .GB

def InterKind.expect : InterKind → PicType × Nat
  | .P r => (.P, r.toNat)
  | .S => (.S, 0)
  | .B => (.B, 0)
  | .F r => (.F, r.toNat)

theorem reads_intraType (q : SeqSyntax) (hq : q.Legal) (k : IntraKind)
    (hk : (SeqSyntax.env q).background = false → k = .ordinary) :
    Reads (parseIntraType (SeqSyntax.expect q).flags.background) (k.bits (SeqSyntax.env q))
      (IntraKind.expect k) := by
  unfold parseIntraType IntraKind.bits
  have hb := hq.bgDisable
  show Reads (if 1 - (q.bgDisable : Int) ≠ 0 then _ else _) (if (q.bgDisable == 0) = true then _ else _) _
  by_cases h0 : q.bgDisable = 0
  · rw [if_pos (by omega), if_pos (by simp [h0])]
    cases k with
    | ordinary =>
      simp only [List.flatten_cons, List.flatten_nil]
      refine Reads.bind (Reads.u 1 0 (by omega) (by omega)) ?_
      exact Reads.ite_false (by omega) (Reads.pure _)
    | backgroundShown =>
      simp only [List.flatten_cons, List.flatten_nil]
      refine Reads.bind (Reads.u 1 1 (by omega) (by omega)) ?_
      refine Reads.ite_true (by omega) ?_
      refine Reads.bind (Reads.u 1 1 (by omega) (by omega)) ?_
      exact Reads.pure _
    | backgroundHidden =>
      simp only [List.flatten_cons, List.flatten_nil]
      refine Reads.bind (Reads.u 1 1 (by omega) (by omega)) ?_
      refine Reads.ite_true (by omega) ?_
      refine Reads.bind (Reads.u 1 0 (by omega) (by omega)) ?_
      exact Reads.pure _
  · rw [if_neg (by omega), if_neg (by simpa using h0)]
    rw [hk (by simpa [SeqSyntax.env] using h0)]
    exact Reads.pure _

theorem reads_interType (q : SeqSyntax) (hq : q.Legal) (k : InterKind) (hk : k.Legal (SeqSyntax.env q)) :
    Reads (parseInterType (SeqSyntax.expect q).flags.background) (k.bits (SeqSyntax.env q))
      ((InterKind.expect k).1, ((InterKind.expect k).2 : Int), (k.code : Int)) := by
  unfold parseInterType InterKind.bits
  have hb := hq.bgDisable
  show Reads (do
    let code ← rdU 2
    if 1 - (q.bgDisable : Int) ≠ 0 ∧ (code = 1 ∨ code = 3) then _ else _)
    (if (q.bgDisable == 0) = true then _ else _) _
  by_cases h0 : q.bgDisable = 0
  · rw [if_pos (by simp [h0])]
    cases k with
    | P r =>
      simp only [List.flatten_cons, List.flatten_nil]
      refine Reads.bind (Reads.u 2 1 (by omega) (by omega)) ?_
      refine Reads.ite_true ⟨by omega, Or.inl rfl⟩ ?_
      refine Reads.bind (Reads.ite_true rfl (Reads.u 1 0 (by omega) (by omega))) ?_
      refine Reads.bind (Reads.ite_true rfl (Reads.boolFlag r)) ?_
      exact Reads.pure _
    | S =>
      simp only [List.flatten_cons, List.flatten_nil]
      refine Reads.bind (Reads.u 2 1 (by omega) (by omega)) ?_
      refine Reads.ite_true ⟨by omega, Or.inl rfl⟩ ?_
      refine Reads.bind (Reads.ite_true rfl (Reads.u 1 1 (by omega) (by omega))) ?_
      refine Reads.bind (Reads.ite_false (by omega) (Reads.pure _)) ?_
      exact Reads.pure _
    | B =>
      simp only [List.flatten_cons, List.flatten_nil]
      refine Reads.bind (Reads.u 2 2 (by omega) (by omega)) ?_
      refine Reads.ite_false (by omega) ?_
      exact Reads.pure _
    | F r =>
      simp only [List.flatten_cons, List.flatten_nil]
      refine Reads.bind (Reads.u 2 3 (by omega) (by omega)) ?_
      refine Reads.ite_true ⟨by omega, Or.inr rfl⟩ ?_
      rw [← List.nil_append (bitsOfNat 1 r.toNat ++ [])]
      refine Reads.bind (Reads.ite_false (by omega) (Reads.pure _)) ?_
      refine Reads.bind (Reads.ite_true rfl (Reads.boolFlag r)) ?_
      exact Reads.pure _
  · rw [if_neg (by simpa using h0)]
    have hbg : (SeqSyntax.env q).background = false := by simpa [SeqSyntax.env] using h0
    simp only [List.flatten_cons, List.flatten_nil]
    cases k with
    | P r =>
      refine Reads.bind (Reads.u 2 1 (by omega) (by omega)) ?_
      refine Reads.ite_false (by omega) ?_
      rw [hk hbg]
      exact Reads.pure _
    | S =>
      rw [InterKind.Legal, hbg] at hk
      cases hk
    | B =>
      refine Reads.bind (Reads.u 2 2 (by omega) (by omega)) ?_
      refine Reads.ite_false (by omega) ?_
      exact Reads.pure _
    | F r =>
      refine Reads.bind (Reads.u 2 3 (by omega) (by omega)) ?_
      refine Reads.ite_false (by omega) ?_
      rw [hk hbg]
      exact Reads.pure _

/-- **C56 (partial).** In sequences without weighted quantisation every legal intra picture header, written down element by element as the format prescribes, is
accepted and read back element by element, and the reader ends on the next byte boundary.  Missing: sequences
with weighted quantisation, see `C56_weighting_violated`. -/
theorem C56_intra_header_roundtrip_partial (q : SeqSyntax) (hq : q.Legal) (hw : q.weights = none) (s : PicSyntax)
    (hs : s.Legal (SeqSyntax.env q)) (k : IntraKind)
    (hk : (SeqSyntax.env q).background = false → k = .ordinary) (timeCode : Option Nat)
    (ht : ∀ t, timeCode = some t → t < 2 ^ 24) (sc : List Bool) (hsc : sc.length = 32) (m : Mem) (p : Nat)
    (hb : memBits m p (intraBits (SeqSyntax.env q) sc timeCode k s).length =
      intraBits (SeqSyntax.env q) sc timeCode k s)
    (hl : p + (intraBits (SeqSyntax.env q) sc timeCode k s).length ≤ 8 * m.len) :
    parseIntra (SeqSyntax.expect q) m p = .ok (PicSyntax.expect q s (IntraKind.expect k) 0 0,
      (p + (intraBits (SeqSyntax.env q) sc timeCode k s).length + 7) / 8 * 8) := by
  have key : ReadsA (parseIntra (SeqSyntax.expect q)) (intraBits (SeqSyntax.env q) sc timeCode k s)
      (PicSyntax.expect q s (IntraKind.expect k) 0 0) := by
    unfold parseIntra intraBits
    have hwb : weightingBits (SeqSyntax.env q) = [] := by simp [weightingBits, SeqSyntax.env, hw]
    simp only [List.flatten_cons, List.flatten_nil, hwb, List.nil_append]
    rw [← hsc]
    refine ReadsA.bind (Reads.skip sc) ?_
    rw [hsc]
    refine ReadsA.bind (Reads.raw32 _) ?_
    refine ReadsA.bind (Reads.bool _) ?_
    have step : ∃ a, Reads (if (timeCode.isSome.toNat : Int) ≠ 0 then rdU 24 else pure 0)
        (optBits (bitsOfNat 24) timeCode) a := by
      cases timeCode with
      | none => exact ⟨_, Reads.pure _⟩
      | some t => exact ⟨_, Reads.u 24 t (by omega) (ht t rfl)⟩
    obtain ⟨_, step⟩ := step
    refine ReadsA.bind step ?_
    refine ReadsA.bind (reads_intraType q hq k hk) ?_
    refine ReadsA.bind (reads_order q s hq hs) ?_
    refine ReadsA.bind (reads_picRps true q s hs) ?_
    refine ReadsA.bind (reads_struct q s hs) ?_
    refine ReadsA.bind (reads_filter _ s hs) ?_
    refine ReadsA.bind (reads_alf q s hq hs) ?_
    exact ReadsA.align _
  exact key m p hb hl

/-- **C56 (partial).** The same for inter picture headers. -/
theorem C56_inter_header_roundtrip_partial (q : SeqSyntax) (hq : q.Legal) (hw : q.weights = none) (s : PicSyntax)
    (hs : s.Legal (SeqSyntax.env q)) (k : InterKind) (hk : k.Legal (SeqSyntax.env q))
    (reserved ra : Nat) (hr : reserved < 2) (hra : ra < 2)
    (sc : List Bool) (hsc : sc.length = 32) (m : Mem) (p : Nat)
    (hb : memBits m p (interBits (SeqSyntax.env q) sc k reserved ra s).length =
      interBits (SeqSyntax.env q) sc k reserved ra s)
    (hl : p + (interBits (SeqSyntax.env q) sc k reserved ra s).length ≤ 8 * m.len) :
    parseInter (SeqSyntax.expect q) m p =
      .ok (PicSyntax.expect q s (InterKind.expect k).1 ra (InterKind.expect k).2,
        (p + (interBits (SeqSyntax.env q) sc k reserved ra s).length + 7) / 8 * 8) := by
  have key : ReadsA (parseInter (SeqSyntax.expect q)) (interBits (SeqSyntax.env q) sc k reserved ra s)
      (PicSyntax.expect q s (InterKind.expect k).1 ra (InterKind.expect k).2) := by
    unfold parseInter interBits
    have hwb : weightingBits (SeqSyntax.env q) = [] := by simp [weightingBits, SeqSyntax.env, hw]
    simp only [List.flatten_cons, List.flatten_nil, hwb, List.nil_append]
    rw [← hsc]
    refine ReadsA.bind (Reads.skip sc) ?_
    rw [hsc]
    refine ReadsA.bind (Reads.raw32 _) ?_
    refine ReadsA.bind (reads_interType q hq k hk) ?_
    refine ReadsA.bind (reads_order q s hq hs) ?_
    refine ReadsA.bind (reads_picRps false q s hs) ?_
    refine ReadsA.bind (reads_struct q s hs) ?_
    have step : ∃ a, Reads (if (k.code : Int) = 2 ∧ (s.progressive || s.frame) = true then pure 0
          else rdU 1)
        (if k.code = 2 ∧ (s.progressive || s.frame) = true then [] else bitsOfNat 1 reserved) a := by
      by_cases hc : k.code = 2 ∧ (s.progressive || s.frame) = true
      · rw [if_pos hc, if_pos ⟨by omega, hc.2⟩]
        exact ⟨_, Reads.pure _⟩
      · rw [if_neg hc, if_neg (fun h => hc ⟨by omega, h.2⟩)]
        exact ⟨_, Reads.u 1 _ (by omega) hr⟩
    obtain ⟨_, step⟩ := step
    refine ReadsA.bind step ?_
    refine ReadsA.bind (Reads.flag _ hra) ?_
    refine ReadsA.bind (reads_filter _ s hs) ?_
    refine ReadsA.bind (reads_alf q s hq hs) ?_
    exact ReadsA.align _
  exact key m p hb hl

/-! ## Concrete headers -/

/-- A picture of the example sequence with its own reference set and ALF parameters. -/
def picExample : PicSyntax where
  bbvDelay := 0xFFFFFFFF
  coi := 7
  layer := 0
  delay := 3
  rps := .inr ⟨1, [1, 2], [5]⟩
  bbvCheck := 0
  progressive := true
  frame := true
  tff := 1
  rff := 0
  topField := 0
  fieldReserved := 0
  fixedQp := 1
  qp := 32
  filterDisable := false
  offsets := some (-2, 3)
  chromaDelta := none
  alfY := some ⟨[0, 1, 2, 3, 4, 5, -6, 7, 64], [(2, [1, 1, 1, 1, 1, 1, 1, 1, 60])]⟩
  alfU := none
  alfV := some [0, 0, 0, 0, 0, 0, 0, 0, 64]

theorem picExample_legal : picExample.Legal (SeqSyntax.env hdrExample) where
  bbv := by decide
  coi := by decide
  layer := by decide
  layerAbsent := by decide
  delay := by decide
  delayAbsent := by decide
  idx := by intro i h; cases h
  own := by
    intro r h
    cases h
    constructor <;> decide
  bbvCheck := by decide
  tff := by decide
  rff := by decide
  topField := by decide
  topFieldAbsent := by decide
  fieldReserved := by decide
  fixedQp := by decide
  qp := by decide
  offsets := by intro a b h; cases h; decide
  chromaDelta := by intro a b h; cases h
  alfY := by
    intro a h
    cases h
    constructor
    · constructor <;> decide
    · decide
    · intro e he
      simp only [List.mem_cons, List.not_mem_nil, or_false] at he
      subst he
      constructor <;> decide
    · decide
    · decide
  alfU := by intro a h; cases h
  alfV := by intro c h; cases h; constructor <;> decide
  alfAbsent := by decide

/-- Start code and header of the example as intra picture. -/
def intraExample : Mem :=
  memOfBits (intraBits (SeqSyntax.env hdrExample) (bitsOfNat 32 0x1B3) none .ordinary picExample)

/-- The same elements as B picture with output delay 0 and coding order 8. -/
def interExample : Mem :=
  memOfBits (interBits (SeqSyntax.env hdrExample) (bitsOfNat 32 0x1B6) .B 0 0
    { picExample with coi := 8, delay := 0 })

/-- The hypotheses of C56 are met by a real packet. -/
example : ∃ q, parseIntra (SeqSyntax.expect hdrExample) intraExample 0 =
    .ok (PicSyntax.expect hdrExample picExample .I 0 0, q) :=
  ⟨_, C56_intra_header_roundtrip_partial hdrExample hdrExample_legal rfl picExample picExample_legal .ordinary
    (by decide) none (by decide) (bitsOfNat 32 0x1B3) (by decide) intraExample 0
    (memOfBits_bits _ _) (by decide +kernel)⟩

example : ∃ q, parseInter (SeqSyntax.expect hdrExample) interExample 0 =
    .ok (PicSyntax.expect hdrExample { picExample with coi := 8, delay := 0 } .B 0 0, q) :=
  ⟨_, C56_inter_header_roundtrip_partial hdrExample hdrExample_legal rfl { picExample with coi := 8, delay := 0 }
    { picExample_legal with coi := by decide, delay := by decide, delayAbsent := by decide }
    .B trivial 0 0 (by decide) (by decide) (bitsOfNat 32 0x1B6) (by decide) interExample 0
    (memOfBits_bits _ _) (by decide +kernel)⟩

/-- The example sequence with weighted quantisation (default matrices). -/
def hdrWeighted : SeqSyntax := { hdrExample with weights := some none }

/-- **C56 (violated).** In a sequence that enables weighted quantisation the picture header's flag for it is taken
for the first flag of the adaptive loop filter: the header of a picture with luma filter parameters is not read
back. -/
theorem C56_weighting_violated : hdrWeighted.Legal ∧ picExample.Legal (SeqSyntax.env hdrWeighted) ∧
    ∀ pos, parseIntra (SeqSyntax.expect hdrWeighted) (memOfBits (intraBits (SeqSyntax.env hdrWeighted)
      (bitsOfNat 32 0x1B3) none .ordinary picExample)) 0 ≠
      .ok (PicSyntax.expect hdrWeighted picExample .I 0 0, pos) := by
  refine ⟨{ hdrExample_legal with weights := by intro a b h; cases h },
    { picExample_legal with }, ?_⟩
  intro pos h
  have : (match parseIntra (SeqSyntax.expect hdrWeighted) (memOfBits (intraBits (SeqSyntax.env hdrWeighted)
      (bitsOfNat 32 0x1B3) none .ordinary picExample)) 0 with
    | .ok (a, _) => (a.alf.map Option.isSome).head?
    | _ => some false) = some false := by decide +kernel
  rw [h] at this
  have e : (PicSyntax.expect hdrWeighted picExample .I 0 0).alf.map Option.isSome = [true, false, true] := by decide
  dsimp only at this
  rw [e] at this
  cases this

/-- The manager after the example sequence header. -/
def mgrExample : HMgr := setSequence hmgrInit (SeqSyntax.expect hdrExample)

/-- A run of two pictures: the hypotheses of C19 and C20 are met. -/
theorem run_example : ∃ a b mgr', PicRun (SeqSyntax.expect hdrExample) mgrExample [a, b] mgr' ∧
    a.Has8 ∧ b.Has8 ∧ a.coi = 7 ∧ a.poc = 8 ∧ b.coi = 8 ∧ b.poc = 6 := by
  have h1 : ∃ a mgr1 q, parsePicture mgrExample (SeqSyntax.expect hdrExample) true intraExample 0 =
      .ok ((a, mgr1), q) ∧ a.hdr.coi8 = 7 ∧ a.coi = 7 ∧ a.poc = 8 ∧ mgr1 = ⟨7, 0, 8,
        some (SeqSyntax.expect hdrExample)⟩ :=
    ⟨⟨PicSyntax.expect hdrExample picExample .I 0 0, 7, 8⟩, _, 8 * intraExample.len, by decide +kernel,
      rfl, rfl, rfl, rfl⟩
  obtain ⟨a, mgr1, q, h1, c1, c2, c3, rfl⟩ := h1
  have h2 : ∃ b mgr2 q, parsePicture ⟨7, 0, 8, some (SeqSyntax.expect hdrExample)⟩
      (SeqSyntax.expect hdrExample) false interExample 0 =
      .ok ((b, mgr2), q) ∧ b.hdr.coi8 = 8 ∧ b.coi = 8 ∧ b.poc = 6 :=
    ⟨⟨PicSyntax.expect hdrExample { picExample with coi := 8, delay := 0 } .B 0 0, 8, 6⟩,
      ⟨8, 0, 8, some (SeqSyntax.expect hdrExample)⟩, 8 * interExample.len, by decide +kernel, rfl, rfl, rfl⟩
  obtain ⟨b, mgr2, q2, h2, d1, d2, d3⟩ := h2
  refine ⟨a, b, mgr2, PicRun.snoc (as := [a]) (PicRun.snoc (as := []) (PicRun.nil _) h1) h2, ?_, ?_, c2,
    c3, d2, d3⟩
  · unfold PicAcc.Has8; omega
  · unfold PicAcc.Has8; omega

/-- **C19 (violated).** Two consecutive accepted pictures with the same transmitted number get the same
coding order (also when 256 pictures lie between them). -/
theorem C19_not_monotone_violated : ∃ a b mgr', PicRun (SeqSyntax.expect hdrExample) mgrExample [a, b] mgr' ∧
    a.Has8 ∧ b.Has8 ∧ b.coi = a.coi := by
  have h1 : ∃ a mgr1 q, parsePicture mgrExample (SeqSyntax.expect hdrExample) true intraExample 0 =
      .ok ((a, mgr1), q) ∧ a.hdr.coi8 = 7 ∧ a.coi = 7 ∧ mgr1 = ⟨7, 0, 8,
        some (SeqSyntax.expect hdrExample)⟩ :=
    ⟨⟨PicSyntax.expect hdrExample picExample .I 0 0, 7, 8⟩, _, 8 * intraExample.len, by decide +kernel,
      rfl, rfl, rfl⟩
  obtain ⟨a, mgr1, q, h1, c1, c2, rfl⟩ := h1
  have h2 : ∃ b mgr2 q, parsePicture ⟨7, 0, 8, some (SeqSyntax.expect hdrExample)⟩
      (SeqSyntax.expect hdrExample) true intraExample 0 =
      .ok ((b, mgr2), q) ∧ b.hdr.coi8 = 7 ∧ b.coi = 7 :=
    ⟨⟨PicSyntax.expect hdrExample picExample .I 0 0, 7, 8⟩,
      ⟨7, 0, 8, some (SeqSyntax.expect hdrExample)⟩, 8 * intraExample.len, by decide +kernel, rfl, rfl⟩
  obtain ⟨b, mgr2, q2, h2, d1, d2⟩ := h2
  refine ⟨a, b, mgr2, PicRun.snoc (as := [a]) (PicRun.snoc (as := []) (PicRun.nil _) h1) h2, ?_, ?_,
    by omega⟩
  · unfold PicAcc.Has8; omega
  · unfold PicAcc.Has8; omega

/-- The scan finds the example picture in a packet that begins with the sequence header. -/
def packetExample : Mem :=
  let h := hdrExample.bits (bitsOfNat 32 0x1B0)
  memOfBits (h ++ List.replicate ((8 - h.length % 8) % 8) false ++
    intraBits (SeqSyntax.env hdrExample) (bitsOfNat 32 0x1B3) none .ordinary picExample)

example : ∃ a q mgr', parseHeader true packetExample hmgrInit 0 = (.picture a q, mgr') ∧ a.coi = 7 :=
  ⟨⟨PicSyntax.expect hdrExample picExample .I 0 0, 7, 8⟩, 8 * packetExample.len,
    ⟨7, 0, 8, some (SeqSyntax.expect hdrExample)⟩, by decide +kernel, rfl⟩

/-! ## Reference tables of pictures -/

theorem parsePicRps_ok (checked : Bool) (seq : SeqHdr) (m : Mem) (p : Nat) (r : RpsH) (q : Nat)
    (hseq : ∀ r ∈ seq.rps, r.refPic.length ≤ 4 ∧ r.removePic.length ≤ 8)
    (h : parsePicRps checked seq m p = .ok (r, q)) :
    r.refPic.length ≤ 4 ∧ r.removePic.length ≤ 8 := by
  unfold parsePicRps at h
  obtain ⟨a1, p1, h1, h⟩ := rd_bind_ok _ _ _ _ _ h
  split at h
  · obtain ⟨a2, p2, h2, h⟩ := rd_bind_ok _ _ _ _ _ h
    split at h
    · cases h
    split at h
    · cases h
    have e := rd_pure_ok _ _ _ _ h
    simp only [Prod.mk.injEq] at e
    obtain ⟨rfl, rfl⟩ := e
    rw [List.getD_eq_getElem?_getD]
    rcases hx : seq.rps[a2.toNat]? with _ | r
    · simp
    · exact hseq r (List.mem_of_getElem? hx)
  · obtain ⟨a2, p2, h2, h⟩ := rd_bind_ok _ _ _ _ _ h
    obtain ⟨a3, p3, h3, h⟩ := rd_bind_ok _ _ _ _ _ h
    split at h
    · split at h <;> cases h
    obtain ⟨a4, p4, h4, h⟩ := rd_bind_ok _ _ _ _ _ h
    obtain ⟨a5, p5, h5, h⟩ := rd_bind_ok _ _ _ _ _ h
    split at h
    · cases h
    obtain ⟨a6, p6, h6, h⟩ := rd_bind_ok _ _ _ _ _ h
    obtain ⟨a7, p7, h7, h⟩ := rd_bind_ok _ _ _ _ _ h
    have e := rd_pure_ok _ _ _ _ h
    simp only [Prod.mk.injEq] at e
    obtain ⟨rfl, rfl⟩ := e
    have l3 := (rdMany_ok _ (fun _ => True) (fun _ _ _ _ _ => trivial) _ _ _ _ _ h4).1
    have l5 := (rdMany_ok _ (fun _ => True) (fun _ _ _ _ _ => trivial) _ _ _ _ _ h6).1
    simp only
    omega

/-- **C21 (partial).** The reference set of an accepted picture has at most 4 references and 8 removals.
Missing: the inter header does not check the number of references, see
`C21_inter_overflow_violated`, and a truncated header reads the set in front of the table, see
`C21_index_underflow_violated`. -/
theorem C21_pic_tables_partial (mgr mgr' : HMgr) (seq : SeqHdr) (intra : Bool) (m : Mem) (p q : Nat)
    (a : PicAcc) (hseq : ∀ r ∈ seq.rps, r.refPic.length ≤ 4 ∧ r.removePic.length ≤ 8)
    (h : parsePicture mgr seq intra m p = .ok ((a, mgr'), q)) :
    a.hdr.rps.refPic.length ≤ 4 ∧ a.hdr.rps.removePic.length ≤ 8 := by
  unfold parsePicture at h
  obtain ⟨hd, p1, h1, h⟩ := rd_bind_ok _ _ _ _ _ h
  have key : hd.rps.refPic.length ≤ 4 ∧ hd.rps.removePic.length ≤ 8 := by
    unfold parsePicKind at h1
    split at h1
    · unfold parseIntra at h1
      obtain ⟨a0, p0, h0, h1⟩ := rd_bind_ok _ _ _ _ _ h1
      obtain ⟨a1, p1, _, h1⟩ := rd_bind_ok _ _ _ _ _ h1
      obtain ⟨a2, p2, _, h1⟩ := rd_bind_ok _ _ _ _ _ h1
      obtain ⟨a3, p3, _, h1⟩ := rd_bind_ok _ _ _ _ _ h1
      obtain ⟨a4, p4, _, h1⟩ := rd_bind_ok _ _ _ _ _ h1
      obtain ⟨a5, p5, _, h1⟩ := rd_bind_ok _ _ _ _ _ h1
      obtain ⟨a6, p6, h6, h1⟩ := rd_bind_ok _ _ _ _ _ h1
      obtain ⟨a7, p7, _, h1⟩ := rd_bind_ok _ _ _ _ _ h1
      obtain ⟨a8, p8, _, h1⟩ := rd_bind_ok _ _ _ _ _ h1
      obtain ⟨a9, p9, _, h1⟩ := rd_bind_ok _ _ _ _ _ h1
      obtain ⟨a10, p10, _, h1⟩ := rd_bind_ok _ _ _ _ _ h1
      have e := rd_pure_ok _ _ _ _ h1
      simp only [Prod.mk.injEq] at e
      obtain ⟨rfl, rfl⟩ := e
      exact parsePicRps_ok _ _ _ _ _ _ hseq h6
    · split at h1
      · cases h1
      · unfold parseInter at h1
        obtain ⟨a0, p0, h0, h1⟩ := rd_bind_ok _ _ _ _ _ h1
        obtain ⟨a1, p1, _, h1⟩ := rd_bind_ok _ _ _ _ _ h1
        obtain ⟨a2, p2, _, h1⟩ := rd_bind_ok _ _ _ _ _ h1
        obtain ⟨a5, p5, _, h1⟩ := rd_bind_ok _ _ _ _ _ h1
        obtain ⟨a6, p6, h6, h1⟩ := rd_bind_ok _ _ _ _ _ h1
        obtain ⟨a7, p7, _, h1⟩ := rd_bind_ok _ _ _ _ _ h1
        obtain ⟨a8, p8, _, h1⟩ := rd_bind_ok _ _ _ _ _ h1
        obtain ⟨a9, p9, _, h1⟩ := rd_bind_ok _ _ _ _ _ h1
        obtain ⟨a10, p10, _, h1⟩ := rd_bind_ok _ _ _ _ _ h1
        obtain ⟨a11, p11, _, h1⟩ := rd_bind_ok _ _ _ _ _ h1
        obtain ⟨a12, p12, _, h1⟩ := rd_bind_ok _ _ _ _ _ h1
        have e := rd_pure_ok _ _ _ _ h1
        simp only [Prod.mk.injEq] at e
        obtain ⟨rfl, rfl⟩ := e
        exact parsePicRps_ok _ _ _ _ _ _ hseq h6
  unfold finishPic at h
  by_cases hf : hd.frameCoding = false
  · rw [if_pos hf] at h
    cases h
  · rw [if_neg hf] at h
    have e := rd_pure_ok _ _ _ _ h
    simp only [Prod.mk.injEq] at e
    obtain ⟨⟨rfl, rfl⟩, rfl⟩ := e
    exact key

/-- **C21 (violated).** An inter picture header with five references makes the parser store outside the
four-entry table. -/
theorem C21_inter_overflow_violated : ∃ m, parsePicture ⟨7, 0, 8, some (SeqSyntax.expect hdrExample)⟩
    (SeqSyntax.expect hdrExample) false m 0 = .oob :=
  ⟨memOfBits (interBits (SeqSyntax.env hdrExample) (bitsOfNat 32 0x1B6) .B 0 0
    { picExample with rps := .inr ⟨1, [1, 2, 3, 4, 5], []⟩ }), by decide +kernel⟩

/-- **C21 (violated).** An inter picture header that ends right behind the flag announcing the index of a
set reads the set with index -1. -/
theorem C21_index_underflow_violated : ∃ m, 0 + 32 ≤ 8 * m.len ∧
    parsePicture ⟨7, 0, 8, some (SeqSyntax.expect hdrExample)⟩
      (SeqSyntax.expect hdrExample) false m 0 = .oob :=
  ⟨{ memOfBits (interBits (SeqSyntax.env hdrExample) (bitsOfNat 32 0x1B6) .B 0 0
    { picExample with rps := .inl 1, delay := 6 }) with len := 9 }, by decide, by decide +kernel⟩

/-- **C20 (violated).** A packet that contains nothing but a sequence header with five references in its
first set has no defined outcome. -/
theorem C20_undefined_violated : ∃ m, (parseHeader true m hmgrInit 0).1 = .undefined :=
  ⟨memOfBits (hdrFiveRefs.bits (bitsOfNat 32 0x1B0)), by decide +kernel⟩

end Davs2
