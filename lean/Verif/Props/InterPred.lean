import Verif.Lemmas.InterPred
/-
C99: the samples of an inter coding unit.
-/
namespace Davs2.Ir
open Davs2.Spec Davs2.Un

/-- Coefficients are 16-bit numbers (`coeff_t`). -/
def Coefs16 (u : Cu) : Prop := (∀ a, -32768 ≤ u.coefY a ∧ u.coefY a ≤ 32767) ∧ ∀ c a, -32768 ≤ u.coefC c a ∧ u.coefC c a ≤ 32767

/-- Point `(X, Y)` of a plane with one sample for `2 ^ s` in each direction is in the block at `(x, y)` of `w` by `h` luma samples. -/
def Within (s x y w h : Nat) (X Y : Int) : Prop :=
  (x / 2 ^ s : Nat) ≤ X ∧ X < (x / 2 ^ s : Nat) + (w / 2 ^ s : Nat) ∧ (y / 2 ^ s : Nat) ≤ Y ∧ Y < (y / 2 ^ s : Nat) + (h / 2 ^ s : Nat)

instance (s x y w h : Nat) (X Y : Int) : Decidable (Within s x y w h X Y) := by unfold Within; infer_instance

theorem even_units {k : Ctx} {u : Cu} (hf : Fits k u) : ∀ b ∈ puUnits k.frame u.ds u.mode u.level, (1 = 1 → b.x % 2 = 0 ∧ b.y % 2 = 0 ∧ b.w % 2 = 0 ∧ b.h % 2 = 0) := by
  intro b hb _
  have h := pu_fits k.frame u.ds u.mode u.level (by have := hf.mode; omega) hf.type hf.level.1 hf.level.2 b hb
  have h1 := h.x; have h2 := h.y; have h3 := h.w4; have h4 := h.h4
  omega

theorem even_pow {l : Nat} (h : 3 ≤ l) : 2 ^ l % 2 = 0 := by
  obtain ⟨n, rfl⟩ := Nat.exists_eq_add_of_le' (show 1 ≤ l by omega)
  rw [pow_succ]; omega

/-- After prediction: samples of the unit are the predicted ones, others are as before. -/
theorem interPred_eq {k : Ctx} {stride : Nat → Int} {pic : Nat → Nat → Int → Int → Int} (hr : Refs k stride pic) (h0 : (k.fref 0).isSome = true)
    {u : Cu} (hf : Fits k u) (hp : ∀ i < (puUnits k.frame u.ds u.mode u.level).length, PuOk k u i) (st : Planes) :
    ∃ st', interPred k u st = some (st', true) ∧ ∀ c X Y,
      ((¬ Within (min c 1) u.x u.y (2 ^ u.level) (2 ^ u.level) X Y ∨ ¬ (c = 0 ∨ k.c420 = true ∧ c < 3)) → st' c X Y = st c X Y) ∧
      ∀ i b, (puUnits k.frame u.ds u.mode u.level)[i]? = some b → Within (min c 1) (u.x + b.x) (u.y + b.y) b.w b.h X Y →
        (c = 0 → st' c X Y = predLuma k.w k.h (pic 0) (srcOf k u i) X Y) ∧
        (k.c420 = true ∧ 0 < c ∧ c < 3 → st' c X Y = predChroma (k.w / 2) (k.h / 2) (pic c) (srcOf k u i) X Y) := by
  have hm : u.mode < 12 := by have := hf.mode; omega
  have hall : ∀ p ∈ (puUnits k.frame u.ds u.mode u.level).zipIdx, PuFits (2 ^ u.level) p.1 ∧ PuOk k u p.2 := by
    rintro ⟨b, i⟩ h
    have h := List.mem_zipIdx_iff_getElem?.mp h
    dsimp only at h
    exact ⟨pu_fits _ _ _ _ hm hf.type hf.level.1 hf.level.2 b (List.mem_of_getElem? h), hp i (List.getElem?_eq_some_iff.mp h).1⟩
  refine ⟨_, predLoop_eq hr h0 hf _ hall st, fun c X Y => ?_⟩
  -- one point of one plane
  let F : Cb × Nat → Int × Int → Int → Int := fun p z v =>
    if c = 0 then predLuma k.w k.h (pic 0) (srcOf k u p.2) z.1 z.2
    else if k.c420 = true ∧ c < 3 then predChroma (k.w / 2) (k.h / 2) (pic c) (srcOf k u p.2) z.1 z.2 else v
  have hfold : ∀ (l : List (Cb × Nat)) (st : Planes), (l.foldl (fun st p => puPlanes k u pic st p.2 p.1) st) c X Y =
      l.foldl (fun m p => fun z => if inCb u (min c 1) p.1 z then F p z (m z) else m z) (fun z => st c z.1 z.2) (X, Y) := by
    intro l
    induction l with
    | nil => intro st; rfl
    | cons p l ih =>
      intro st
      rw [List.foldl_cons, List.foldl_cons, ih]
      rfl
  rw [hfold]
  have hs : min c 1 = 0 ∨ min c 1 = 1 := by omega
  have hcov := covered (C50_prediction k.frame u.ds u.mode u.level hm hf.level.1 hf.level.2) (u := u) hs
    (fun b hb _ => even_units hf b hb rfl) ⟨hf.x.1, hf.y.1⟩ (even_pow hf.level.1) X Y
  obtain ⟨f0, f1⟩ := fold_once (fun (p : Cb × Nat) z => inCb u (min c 1) p.1 z) F (X, Y) (puUnits k.frame u.ds u.mode u.level).zipIdx (fun z => st c z.1 z.2)
  refine ⟨fun h => ?_, fun i b hb hin => ?_⟩
  · by_cases hw : Within (min c 1) u.x u.y (2 ^ u.level) (2 ^ u.level) X Y
    · have hc := h.resolve_left (not_not.mpr hw)
      have hF : F = fun _ _ v => v := by
        funext p z v
        dsimp only [F]
        rw [if_neg (fun e => hc (Or.inl e)), if_neg (fun e => hc (Or.inr e))]
      rw [hF]
      simp only [ite_self]
      generalize (puUnits k.frame u.ds u.mode u.level).zipIdx = l
      induction l with
      | nil => rfl
      | cons p l ih => rw [List.foldl_cons]; exact ih
    · exact f0 (by rw [hcov]; exact if_neg hw)
  · have hmem : (b, i) ∈ (puUnits k.frame u.ds u.mode u.level).zipIdx := List.mem_zipIdx_iff_getElem?.mpr hb
    have hP : inCb u (min c 1) b (X, Y) = true := by unfold inCb; exact decide_eq_true hin
    have h1 : (puUnits k.frame u.ds u.mode u.level).zipIdx.countP (fun p => inCb u (min c 1) p.1 (X, Y)) = 1 := by
      have : 0 < (puUnits k.frame u.ds u.mode u.level).zipIdx.countP (fun p => inCb u (min c 1) p.1 (X, Y)) :=
        List.countP_pos_iff.mpr ⟨(b, i), hmem, hP⟩
      rw [hcov] at this ⊢
      split at this
      · rw [if_pos (by assumption)]
      · omega
    have := f1 h1 (b, i) hmem hP
    rw [this]
    dsimp only [F]
    exact ⟨fun e => by rw [if_pos e], fun e => by rw [if_neg (by omega), if_pos ⟨e.1, e.2.2⟩]⟩

/-- Residual of luma sample `(X, Y)` if it is in transform unit `j` at `b`. -/
def lumaResidual (u : Cu) (j : Nat) (b : Cb) (X Y : Int) : Int :=
  if (if u.trans = 0 then u.cbp % 16 ≠ 0 else u.cbp.testBit j = true) then
    blockResidual b.w b.h (fun a => u.coefY (j * (2 ^ u.level * 2 ^ u.level / 4) + a)) (Y - (u.y + b.y : Nat)).toNat (X - (u.x + b.x : Nat)).toNat
  else 0

theorem quarter_pow {l : Nat} (h : 1 ≤ l) : 2 ^ ((l - 1) * 2) = 2 ^ l * 2 ^ l / 4 := by
  obtain ⟨n, rfl⟩ := Nat.exists_eq_add_of_le' h
  rw [Nat.add_sub_cancel, pow_succ, show 2 ^ n * 2 * (2 ^ n * 2) = 2 ^ n * 2 ^ n * 4 by ring, Nat.mul_div_cancel _ (by omega), ← pow_add]
  congr 1; omega

theorem limit_same {v : Int} (h : 0 ≤ v ∧ v ≤ 255) : limit8 (v + 0) = v := by unfold limit8; omega

theorem unsplit_unit : ∀ k, k < 4 → tuUnits 0 (3 + k) = [⟨0, 0, 2 ^ (3 + k), 2 ^ (3 + k)⟩, ⟨0, 0, 0, 0⟩, ⟨0, 0, 0, 0⟩, ⟨0, 0, 0, 0⟩] := by decide

/-- After the luma residual. -/
theorem lumaRes_eq {k : Ctx} {u : Cu} (hf : Fits k u) (hc : Coefs16 u) (m : Rp.Plane)
    (hm : ∀ X Y, Within 0 u.x u.y (2 ^ u.level) (2 ^ u.level) X Y → 0 ≤ m X Y ∧ m X Y ≤ 255) :
    ∃ m', lumaRes u m = some m' ∧ ∀ X Y,
      (¬ Within 0 u.x u.y (2 ^ u.level) (2 ^ u.level) X Y → m' X Y = m X Y) ∧
      ∀ j b, (tuUnits u.trans u.level)[j]? = some b → Within 0 (u.x + b.x) (u.y + b.y) b.w b.h X Y →
        m' X Y = limit8 (m X Y + lumaResidual u j b X Y) := by
  unfold lumaRes
  by_cases ht : u.trans = 0
  · rw [if_pos ht]
    have htu := unsplit_unit (u.level - 3) (by have := hf.level; omega)
    rw [show 3 + (u.level - 3) = u.level by have := hf.level; omega] at htu
    have only : ∀ j b X Y, (tuUnits u.trans u.level)[j]? = some b → Within 0 (u.x + b.x) (u.y + b.y) b.w b.h X Y →
        j = 0 ∧ b = ⟨0, 0, 2 ^ u.level, 2 ^ u.level⟩ := by
      intro j b X Y hb hin
      rw [ht, htu] at hb
      match j with
      | 0 => exact ⟨rfl, by simpa using hb.symm⟩
      | 1 | 2 | 3 =>
        simp only [List.getElem?_cons_succ, List.getElem?_cons_zero, Option.some.injEq] at hb
        subst hb
        unfold Within at hin
        simp only [Nat.zero_div] at hin
        omega
      | j + 4 => simp at hb
    by_cases hb : u.cbp % 16 ≠ 0
    · rw [if_pos hb]
      have hs : TuSize (2 ^ u.level) (2 ^ u.level) := by
        have : ∀ l, l < 4 → TuSize (2 ^ (3 + l)) (2 ^ (3 + l)) := by decide
        have := this (u.level - 3) (by have := hf.level; omega)
        rwa [show 3 + (u.level - 3) = u.level by have := hf.level; omega] at this
      obtain ⟨co, e, _⟩ := recons_eq hs m (coef := u.coefY) (off := 0) (fun a _ => hc.1 _) u.x u.y
      rw [e]
      refine ⟨_, rfl, fun X Y => ⟨fun h => ?_, fun j b hj hin => ?_⟩⟩
      · unfold Within at h
        simp only [pow_zero, Nat.div_one] at h
        dsimp only
        exact if_neg h
      · obtain ⟨rfl, rfl⟩ := only j b X Y hj hin
        unfold Within at hin
        simp only [pow_zero, Nat.div_one, Nat.add_zero] at hin
        dsimp only
        rw [if_pos hin]
        unfold lumaResidual
        simp only [ht, if_true, if_pos hb, Nat.zero_mul, Nat.zero_add, Nat.add_zero]
    · rw [if_neg hb]
      refine ⟨m, rfl, fun X Y => ⟨fun _ => rfl, fun j b hj hin => ?_⟩⟩
      obtain ⟨rfl, rfl⟩ := only j b X Y hj hin
      unfold lumaResidual
      simp only [ht, if_true, if_neg hb]
      rw [limit_same (hm X Y hin)]
  · rw [if_neg ht]
    have hN := quarter_pow (show 1 ≤ u.level by have := hf.level; omega)
    have htab : ∀ b ∈ tuUnits u.trans u.level, TuSize b.w b.h ∧ b.w * b.h = 2 ^ ((u.level - 1) * 2) := by
      have := tu_tab (u.level - 3) (by have := hf.level; omega) u.trans hf.trans.1 ⟨by omega, fun h => by have := hf.trans.2 h; omega⟩
      rw [show 3 + (u.level - 3) = u.level by have := hf.level; omega] at this
      intro b hb
      simpa using List.all_eq_true.mp this b hb
    rw [lumaLoop_eq u _ rfl hc.1 (tuUnits u.trans u.level) 0 htab m u.coefY (fun _ _ => rfl)]
    refine ⟨_, rfl, fun X Y => ?_⟩
    let F : Cb × Nat → Int × Int → Int → Int := fun p z v =>
      if u.cbp.testBit p.2 then limit8 (v + blockResidual p.1.w p.1.h (fun a => u.coefY (p.2 * 2 ^ ((u.level - 1) * 2) + a))
        (z.2 - (u.y + p.1.y : Nat)).toNat (z.1 - (u.x + p.1.x : Nat)).toNat) else v
    have hfold : ∀ (l : List (Cb × Nat)) (m : Rp.Plane), (l.foldl (fun m p => tuPlane u m p.2 p.1) m) X Y =
        l.foldl (fun m p => fun z => if inCb u 0 p.1 z then F p z (m z) else m z) (fun z => m z.1 z.2) (X, Y) := by
      intro l
      induction l with
      | nil => intro m; rfl
      | cons p l ih =>
        intro m
        rw [List.foldl_cons, List.foldl_cons, ih]
        rfl
    rw [hfold]
    have hcov := covered (C50_transform u.trans u.level hf.trans.1 hf.level.1 hf.level.2) (u := u) (s := 0) (Or.inl rfl)
      (fun b hb h => by omega) ⟨hf.x.1, hf.y.1⟩ (even_pow hf.level.1) X Y
    obtain ⟨f0, f1⟩ := fold_once (fun (p : Cb × Nat) z => inCb u 0 p.1 z) F (X, Y) (tuUnits u.trans u.level).zipIdx (fun z => m z.1 z.2)
    refine ⟨fun h => f0 (by rw [hcov]; exact if_neg h), fun j b hb hin => ?_⟩
    have hmem : (b, j) ∈ (tuUnits u.trans u.level).zipIdx := List.mem_zipIdx_iff_getElem?.mpr hb
    have hP : inCb u 0 b (X, Y) = true := by unfold inCb; exact decide_eq_true hin
    have hpos : 0 < (tuUnits u.trans u.level).zipIdx.countP (fun p => inCb u 0 p.1 (X, Y)) := List.countP_pos_iff.mpr ⟨(b, j), hmem, hP⟩
    have hw : Within 0 u.x u.y (2 ^ u.level) (2 ^ u.level) X Y := by
      rw [hcov] at hpos
      split at hpos
      · assumption
      · omega
    rw [f1 (by rw [hcov]; exact if_pos hw) (b, j) hmem hP]
    dsimp only [F]
    unfold lumaResidual
    simp only [if_neg ht]
    by_cases hbit : u.cbp.testBit j = true
    · rw [if_pos hbit, if_pos hbit, hN]
    · rw [if_neg hbit, if_neg hbit, limit_same (hm X Y hw)]

/-- Residual of sample `(X, Y)` of chroma plane `c`. -/
def chromaResidual (u : Cu) (c : Nat) (X Y : Int) : Int :=
  if u.cbp.testBit (4 + c) = true then
    blockResidual (2 ^ u.level / 2) (2 ^ u.level / 2) (u.coefC c) (Y - (u.y / 2 : Nat)).toNat (X - (u.x / 2 : Nat)).toNat
  else 0

theorem chromaRes_eq {k : Ctx} {u : Cu} (hf : Fits k u) (hc : Coefs16 u) (c : Nat) (m : Rp.Plane)
    (hm : ∀ X Y, Within 1 u.x u.y (2 ^ u.level) (2 ^ u.level) X Y → 0 ≤ m X Y ∧ m X Y ≤ 255) :
    ∃ m', chromaRes u c m = some m' ∧ ∀ X Y,
      (¬ Within 1 u.x u.y (2 ^ u.level) (2 ^ u.level) X Y → m' X Y = m X Y) ∧
      (Within 1 u.x u.y (2 ^ u.level) (2 ^ u.level) X Y → m' X Y = limit8 (m X Y + chromaResidual u c X Y)) := by
  have hl : 2 ^ (u.level - 1) = 2 ^ u.level / 2 := by
    obtain ⟨n, h⟩ := Nat.exists_eq_add_of_le' (show 1 ≤ u.level by have := hf.level; omega)
    rw [h, Nat.add_sub_cancel, pow_succ, Nat.mul_div_cancel _ (by omega)]
  unfold chromaRes chromaResidual
  by_cases hb : u.cbp.testBit (4 + c) = true
  · simp only [if_pos hb]
    have hs : TuSize (2 ^ u.level / 2) (2 ^ u.level / 2) := by
      have : ∀ l, l < 4 → TuSize (2 ^ (3 + l) / 2) (2 ^ (3 + l) / 2) := by decide
      have := this (u.level - 3) (by have := hf.level; omega)
      rwa [show 3 + (u.level - 3) = u.level by have := hf.level; omega] at this
    rw [hl]
    obtain ⟨co, e, _⟩ := recons_eq hs m (coef := u.coefC c) (off := 0) (fun a _ => hc.2 _ _) (u.x / 2) (u.y / 2)
    rw [e]
    unfold Within
    simp only [pow_one]
    refine ⟨_, rfl, fun X Y => ⟨fun h => if_neg h, fun h => ?_⟩⟩
    simp only [if_pos h, Nat.zero_add]
  · simp only [if_neg hb]
    exact ⟨m, rfl, fun X Y => ⟨fun _ => rfl, fun h => (limit_same (hm X Y h)).symm⟩⟩

theorem mean_range (l : List Int) (h : ∀ v ∈ l, 0 ≤ v ∧ v ≤ 255) : 0 ≤ mean l ∧ mean l ≤ 255 := by
  match l with
  | [] => simp [mean]
  | [a] => exact h a (by simp)
  | [a, b] =>
    have h1 := h a (by simp)
    have h2 := h b (by simp)
    show 0 ≤ (a + b + 1) / 2 ∧ (a + b + 1) / 2 ≤ 255
    omega
  | a :: b :: c :: l => simp [mean]

/-- A point of the unit is in one of its blocks. -/
theorem exists_block {n : Nat} {us : List Cb} (ht : Tiles n (us.map Cb.rect)) {u : Cu} {s : Nat} (hs : s = 0 ∨ s = 1)
    (he : ∀ b ∈ us, s = 1 → b.x % 2 = 0 ∧ b.y % 2 = 0 ∧ b.w % 2 = 0 ∧ b.h % 2 = 0) (hu : u.x % 8 = 0 ∧ u.y % 8 = 0) (hn : n % 2 = 0) {X Y : Int}
    (hw : Within s u.x u.y n n X Y) : ∃ (i : Nat) (b : Cb), us[i]? = some b ∧ Within s (u.x + b.x) (u.y + b.y) b.w b.h X Y := by
  have hcov := covered ht hs he hu hn X Y
  replace hcov := hcov.trans (if_pos hw)
  obtain ⟨⟨b, i⟩, hm, hP⟩ := List.countP_pos_iff.mp (show 0 < _ by rw [hcov]; omega)
  exact ⟨i, b, List.mem_zipIdx_iff_getElem?.mp hm, by unfold inCb at hP; exact of_decide_eq_true hP⟩

/-- **C99** (partial: pictures up to 8184 samples wide and high, no displaced vector leaving 16 bits).  Reconstruction of an inter coding unit reads
no memory outside the padded references and sets each luma sample of the unit to the prediction of the prediction unit it belongs to plus the
residual of the transform unit it belongs to, each chroma sample to the prediction with the same pictures and vectors plus the chroma residual,
limited to the range of samples.  No other sample is changed.  The prediction is the interpolation of the pictures selected by the direction at the
place the vector points to, or the mean of two rounded up. -/
theorem C99_partial {k : Ctx} {stride : Nat → Int} {pic : Nat → Nat → Int → Int → Int} (hr : Refs k stride pic) (h0 : (k.fref 0).isSome = true)
    {u : Cu} (hf : Fits k u) (hp : ∀ i < (puUnits k.frame u.ds u.mode u.level).length, PuOk k u i) (hc : Coefs16 u) (st : Planes) :
    ∃ st', cuReconInter k u st = some (st', true) ∧ ∀ X Y : Int,
      (¬ Within 0 u.x u.y (2 ^ u.level) (2 ^ u.level) X Y → st' 0 X Y = st 0 X Y) ∧
      (∀ i b j t, (puUnits k.frame u.ds u.mode u.level)[i]? = some b → Within 0 (u.x + b.x) (u.y + b.y) b.w b.h X Y →
        (tuUnits u.trans u.level)[j]? = some t → Within 0 (u.x + t.x) (u.y + t.y) t.w t.h X Y →
        st' 0 X Y = limit8 (predLuma k.w k.h (pic 0) (srcOf k u i) X Y + lumaResidual u j t X Y)) ∧
      ∀ c, 0 < c → 
        ((¬ Within 1 u.x u.y (2 ^ u.level) (2 ^ u.level) X Y ∨ k.c420 = false ∨ 3 ≤ c) → st' c X Y = st c X Y) ∧
        (k.c420 = true → c < 3 → ∀ i b, (puUnits k.frame u.ds u.mode u.level)[i]? = some b → Within 1 (u.x + b.x) (u.y + b.y) b.w b.h X Y →
          st' c X Y = limit8 (predChroma (k.w / 2) (k.h / 2) (pic c) (srcOf k u i) X Y + chromaResidual u (c - 1) X Y)) := by
  have hm : u.mode < 12 := by have := hf.mode; omega
  have hT := C50_prediction k.frame u.ds u.mode u.level hm hf.level.1 hf.level.2
  obtain ⟨s1, e1, p1⟩ := interPred_eq hr h0 hf hp st
  -- predicted samples are samples
  have r0 : ∀ X Y, Within 0 u.x u.y (2 ^ u.level) (2 ^ u.level) X Y → 0 ≤ s1 0 X Y ∧ s1 0 X Y ≤ 255 := by
    intro X Y hw
    obtain ⟨i, b, hb, hin⟩ := exists_block hT (Or.inl rfl) (fun b hb h => by omega) ⟨hf.x.1, hf.y.1⟩ (even_pow hf.level.1) hw
    rw [((p1 0 X Y).2 i b hb hin).1 rfl]
    refine mean_range _ fun v hv => ?_
    obtain ⟨s, _, rfl⟩ := List.mem_map.mp hv
    exact interp_range ..
  have r1 : k.c420 = true → ∀ c, 0 < c → c < 3 → ∀ X Y, Within 1 u.x u.y (2 ^ u.level) (2 ^ u.level) X Y → 0 ≤ s1 c X Y ∧ s1 c X Y ≤ 255 := by
    intro h c hc0 hc3 X Y hw
    obtain ⟨i, b, hb, hin⟩ := exists_block hT (Or.inr rfl) (fun b hb _ => even_units hf b hb rfl) ⟨hf.x.1, hf.y.1⟩ (even_pow hf.level.1) hw
    rw [((p1 c X Y).2 i b hb (by rwa [show min c 1 = 1 by omega])).2 ⟨h, hc0, hc3⟩]
    refine mean_range _ fun v hv => ?_
    obtain ⟨s, _, rfl⟩ := List.mem_map.mp hv
    exact interp_range ..
  obtain ⟨m0, e0, q0⟩ := lumaRes_eq hf hc (s1 0) r0
  -- a point of a prediction unit is in the coding unit
  have inside : ∀ (s i : Nat) (b : Cb) (X Y : Int), s = 0 ∨ s = 1 → (puUnits k.frame u.ds u.mode u.level)[i]? = some b →
      Within s (u.x + b.x) (u.y + b.y) b.w b.h X Y → Within s u.x u.y (2 ^ u.level) (2 ^ u.level) X Y := by
    intro s i b X Y hs hb hin
    have hcov := covered hT (u := u) hs (fun b hb _ => even_units hf b hb rfl) ⟨hf.x.1, hf.y.1⟩ (even_pow hf.level.1) X Y
    by_contra hn
    replace hcov := List.countP_eq_zero.mp (hcov.trans (if_neg hn))
    exact hcov (b, i) (List.mem_zipIdx_iff_getElem?.mpr hb) (by unfold inCb; exact decide_eq_true hin)
  unfold cuReconInter
  rw [e1]
  simp only [Option.bind_eq_bind, Option.bind_some, if_true]
  rw [e0]
  simp only [Option.bind_some]
  by_cases h4 : k.c420 = true
  · rw [if_pos h4]
    obtain ⟨m1, e2, q1⟩ := chromaRes_eq hf hc 0 (s1 1) (r1 h4 1 (by omega) (by omega))
    obtain ⟨m2, e3, q2⟩ := chromaRes_eq hf hc 1 (s1 2) (r1 h4 2 (by omega) (by omega))
    rw [Function.update_of_ne (by omega : (1 : Nat) ≠ 0), e2]
    simp only [Option.bind_some]
    rw [Function.update_of_ne (by omega : (2 : Nat) ≠ 1), Function.update_of_ne (by omega : (2 : Nat) ≠ 0), e3]
    refine ⟨_, rfl, fun X Y => ⟨fun h => ?_, fun i b j t hb hin ht htin => ?_, fun c hc0 => ⟨fun h => ?_, fun _ hc3 i b hb hin => ?_⟩⟩⟩
    · rw [Function.update_of_ne (by omega), Function.update_of_ne (by omega), Function.update_self, (q0 X Y).1 h, (p1 0 X Y).1 (Or.inl h)]
    · rw [Function.update_of_ne (by omega), Function.update_of_ne (by omega), Function.update_self, (q0 X Y).2 j t ht htin,
        ((p1 0 X Y).2 i b hb hin).1 rfl]
    · have hP := (p1 c X Y).1
      rw [show min c 1 = 1 by omega] at hP
      rcases h with h | h | h
      · match c, hc0 with
        | 1, _ => rw [Function.update_of_ne (by omega), Function.update_self, (q1 X Y).1 h, hP (Or.inl h)]
        | 2, _ => rw [Function.update_self, (q2 X Y).1 h, hP (Or.inl h)]
        | c + 3, _ => 
          rw [Function.update_of_ne (by omega), Function.update_of_ne (by omega), Function.update_of_ne (by omega), hP (Or.inl h)]
      · rw [h4] at h; cases h
      · rw [Function.update_of_ne (by omega), Function.update_of_ne (by omega), Function.update_of_ne (by omega), hP (Or.inr (by omega))]
    · have hin' := inside 1 i b X Y (Or.inr rfl) hb hin
      have hP := ((p1 c X Y).2 i b hb (by rwa [show min c 1 = 1 by omega])).2 ⟨h4, hc0, hc3⟩
      match c, hc0 with
      | 1, _ => rw [Function.update_of_ne (by omega), Function.update_self, (q1 X Y).2 hin', hP]
      | 2, _ => rw [Function.update_self, (q2 X Y).2 hin', hP]
  · rw [if_neg h4]
    refine ⟨_, rfl, fun X Y => ⟨fun h => ?_, fun i b j t hb hin ht htin => ?_, fun c hc0 => ⟨fun h => ?_, fun h => absurd h h4⟩⟩⟩
    · rw [Function.update_self, (q0 X Y).1 h, (p1 0 X Y).1 (Or.inl h)]
    · rw [Function.update_self, (q0 X Y).2 j t ht htin, ((p1 0 X Y).2 i b hb hin).1 rfl]
    · rw [Function.update_of_ne (by omega), (p1 c X Y).1 (Or.inr (by simp [h4]; omega))]

/-- **C99 (composition).**  The samples of the unit do not depend on what the planes held before: reconstruction writes one block of fixed content
into each plane.  This is what reconstruction of a picture takes for granted about inter units (`Content.inter`, C88, C89). -/
theorem C99_content {k : Ctx} {stride : Nat → Int} {pic : Nat → Nat → Int → Int → Int} (hr : Refs k stride pic) (h0 : (k.fref 0).isSome = true)
    {u : Cu} (hf : Fits k u) (hp : ∀ i < (puUnits k.frame u.ds u.mode u.level).length, PuOk k u i) (hc : Coefs16 u) :
    ∃ val : Nat → Nat → Nat → Int, ∀ st, ∃ st', cuReconInter k u st = some (st', true) ∧
      st' 0 = Rp.write (st 0) u.x u.y (2 ^ u.level) (2 ^ u.level) (val 0) ∧
      ∀ c, 0 < c → c < 3 → k.c420 = true → st' c = Rp.write (st c) (u.x / 2) (u.y / 2) (2 ^ u.level / 2) (2 ^ u.level / 2) (val c) := by
  obtain ⟨s0, e0, p0⟩ := C99_partial hr h0 hf hp hc (fun _ _ _ => 0)
  have hm : u.mode < 12 := by have := hf.mode; omega
  have hT := C50_prediction k.frame u.ds u.mode u.level hm hf.level.1 hf.level.2
  have hT' := C50_transform u.trans u.level hf.trans.1 hf.level.1 hf.level.2
  refine ⟨fun c a b => if c = 0 then s0 0 (u.x + a : Nat) (u.y + b : Nat) else s0 c (u.x / 2 + a : Nat) (u.y / 2 + b : Nat), fun st => ?_⟩
  obtain ⟨s1, e1, p1⟩ := C99_partial hr h0 hf hp hc st
  refine ⟨s1, e1, ?_, fun c hc0 hc3 h4 => ?_⟩
  · funext X Y
    unfold Rp.write
    by_cases hw : Within 0 u.x u.y (2 ^ u.level) (2 ^ u.level) X Y
    · obtain ⟨i, b, hb, hin⟩ := exists_block hT (Or.inl rfl) (fun b hb h => by omega) ⟨hf.x.1, hf.y.1⟩ (even_pow hf.level.1) hw
      obtain ⟨j, t, ht, htin⟩ := exists_block hT' (Or.inl rfl) (fun b hb h => by omega) ⟨hf.x.1, hf.y.1⟩ (even_pow hf.level.1) hw
      have hw' : (u.x : Int) ≤ X ∧ X < u.x + (2 ^ u.level : Nat) ∧ (u.y : Int) ≤ Y ∧ Y < u.y + (2 ^ u.level : Nat) := by
        unfold Within at hw
        simpa only [pow_zero, Nat.div_one] using hw
      rw [if_pos hw', (p1 X Y).2.1 i b j t hb hin ht htin]
      dsimp only
      rw [if_pos rfl, ← (p0 X Y).2.1 i b j t hb hin ht htin]
      congr 1 <;> omega
    · rw [(p1 X Y).1 hw, if_neg]
      unfold Within at hw
      simpa only [pow_zero, Nat.div_one] using hw
  · funext X Y
    unfold Rp.write
    by_cases hw : Within 1 u.x u.y (2 ^ u.level) (2 ^ u.level) X Y
    · obtain ⟨i, b, hb, hin⟩ := exists_block hT (Or.inr rfl) (fun b hb _ => even_units hf b hb rfl) ⟨hf.x.1, hf.y.1⟩ (even_pow hf.level.1) hw
      have hw' : ((u.x / 2 : Nat) : Int) ≤ X ∧ X < (u.x / 2 : Nat) + (2 ^ u.level / 2 : Nat) ∧ ((u.y / 2 : Nat) : Int) ≤ Y ∧
          Y < (u.y / 2 : Nat) + (2 ^ u.level / 2 : Nat) := by
        unfold Within at hw
        simpa only [pow_one] using hw
      rw [if_pos hw', ((p1 X Y).2.2 c hc0).2 h4 hc3 i b hb hin]
      dsimp only
      rw [if_neg (by omega), ← ((p0 X Y).2.2 c hc0).2 h4 hc3 i b hb hin]
      congr 1 <;> omega
    · rw [((p1 X Y).2.2 c hc0).1 (Or.inl hw), if_neg]
      unfold Within at hw
      simpa only [pow_one] using hw

/-- A reference picture of `w` by `h` samples, the left half black, the right half white; chroma is 77. -/
def exFrame (w h : Nat) : Frame where
  plane c := if c = 0 then halfMem w h else fun _ => some 77
  stride c := if c = 0 then w + 160 else w / 2 + 80

def exCtx : Ctx := ⟨64, 64, 4, fun i => if i < 2 then some (exFrame 64 64) else none, true⟩

def exPic : Nat → Nat → Int → Int → Int := fun c _ x _ => if c = 0 then (if x < 64 / 2 then 0 else 255) else 77

theorem exRefs : Refs exCtx (fun c => if c = 0 then 224 else 112) exPic where
  same i _ f hf c _ := by
    have : f = exFrame 64 64 := by
      simp only [exCtx] at hf
      split at hf
      · exact (Option.some.inj hf).symm
      · cases hf
    subst this
    rfl
  luma i _ f hf := by
    have : f = exFrame 64 64 := by
      simp only [exCtx] at hf
      split at hf
      · exact (Option.some.inj hf).symm
      · cases hf
    subst this
    exact halfMem_padded 64 64 (by omega)
  chroma i _ f hf c _ hc := by
    have : f = exFrame 64 64 := by
      simp only [exCtx] at hf
      split at hf
      · exact (Option.some.inj hf).symm
      · cases hf
    subst this
    intro r c' _ _ _ _
    simp only [exFrame, if_neg (show c ≠ 0 by omega)]
    unfold extend exPic
    rw [if_neg (show c ≠ 0 by omega)]
  range c i x y := by unfold exPic; split <;> [split; skip] <;> omega

/-- A unit of an F picture, 8x8 at (24, 16), two prediction units of 8x4; displacement mode 7; two vectors pointing to the edge
in the middle of the picture; four transform units, the last one with a residual; a residual in the second chroma plane. -/
def exUnit (v : Mv) : Cu where
  x := 24
  y := 16
  level := 3
  mode := 2
  ds := 0
  dir _ := 0
  mv i _ := if i = 0 then v else (19, 1)
  ref i _ := i
  dmh := 7
  trans := 3
  cbp := 8 + 32
  coefY a := if a = 48 then -320 else 0
  coefC _ a := if a = 0 then 64 else 0

theorem exFits (v : Mv) : Fits exCtx (exUnit v) := by
  constructor <;> simp only [exCtx, exUnit] <;> first | omega | decide

theorem exOk (v : Mv) (hv : -32766 ≤ v.1 ∧ v.1 ≤ 32765 ∧ -32766 ≤ v.2 ∧ v.2 ≤ 32765) :
    ∀ i < (puUnits exCtx.frame (exUnit v).ds (exUnit v).mode (exUnit v).level).length, PuOk exCtx (exUnit v) i := by
  intro i hi
  have hi2 : i < 2 := hi
  refine ⟨by simp [exUnit], by simp [exUnit], fun j _ => by simp [exUnit], fun s hs => ?_⟩
  have e : srcOf exCtx (exUnit v) i = [(i, (((exUnit v).mv i 0).1 - 2, ((exUnit v).mv i 0).2 - -2)), (i, (((exUnit v).mv i 0).1 + 2, ((exUnit v).mv i 0).2 + -2))] := by
    simp [srcOf, sources, exUnit, exCtx, hypothesis]
  rw [e] at hs
  have hmv : -32766 ≤ ((exUnit v).mv i 0).1 ∧ ((exUnit v).mv i 0).1 ≤ 32765 ∧ -32766 ≤ ((exUnit v).mv i 0).2 ∧ ((exUnit v).mv i 0).2 ≤ 32765 := by
    simp only [exUnit]
    split
    · exact hv
    · omega
  simp only [List.mem_cons, List.not_mem_nil, or_false] at hs
  rcases hs with rfl | rfl
  · exact ⟨by dsimp only; omega, by simp [exCtx]; omega, by dsimp only; omega, by dsimp only; omega, by dsimp only; omega, by dsimp only; omega⟩
  · exact ⟨by dsimp only; omega, by simp [exCtx]; omega, by dsimp only; omega, by dsimp only; omega, by dsimp only; omega, by dsimp only; omega⟩

theorem exCoefs (v : Mv) : Coefs16 (exUnit v) := by
  constructor
  · intro a; simp only [exUnit]; split <;> omega
  · intro c a; simp only [exUnit]; split <;> omega

/-- The hypotheses of C99 hold for the unit. -/
example : ∃ st', cuReconInter exCtx (exUnit (17, 2)) (fun _ _ _ => 0) = some (st', true) :=
  let ⟨s, h, _⟩ := C99_partial exRefs rfl (exFits _) (exOk _ (by decide)) (exCoefs _) (fun _ _ _ => 0); ⟨s, h⟩

/-- Some samples of a row after reconstruction. -/
def exRow (v : Mv) (c : Nat) (y : Int) (x n : Nat) : Option (List Int × Bool) :=
  (cuReconInter exCtx (exUnit v) (fun _ _ _ => 9)).map fun r => ((List.range n).map fun i => r.1 c (x + i : Nat) y, r.2)


example : exRow (17, 2) 0 22 26 7 = some ([28, 156, 247, 247, 253, 253, 9], true) := by decide +kernel

/-- C99 does not hold for every coded vector: a vector near the end of the range of 16 bits, displaced, points to the other side of the picture; a
white area is predicted as grey. -/
theorem C99_wrap_violated : ∃ (k : Ctx) (stride : Nat → Int) (pic : Nat → Nat → Int → Int → Int) (u : Cu), Refs k stride pic ∧ Fits k u ∧ Coefs16 u ∧
    (∀ i < 2, -32768 ≤ (u.mv i 0).1 ∧ (u.mv i 0).1 ≤ 32767 ∧ -32768 ≤ (u.mv i 0).2 ∧ (u.mv i 0).2 ≤ 32767) ∧
    ((cuReconInter k u fun _ _ _ => 9).map fun r => (r.1 0 28 18, r.2)) = some (128, true) ∧
    predLuma k.w k.h (pic 0) (srcOf k u 0) 28 18 = 255 := by
  refine ⟨exCtx, _, exPic, exUnit (32767, 2), exRefs, exFits _, exCoefs _, fun i _ => ?_, by decide +kernel, by decide +kernel⟩
  simp only [exUnit]
  split <;> simp

/-- Prediction is given up at the first prediction unit without reference. -/
theorem missing_first {k : Ctx} {u : Cu} {b : Cb} {l : List Cb} (hb : puUnits k.frame u.ds u.mode u.level = b :: l) {p : Picked}
    (hp : pick k u 0 = some p) (h : p.ref1 = none) (st : Planes) : cuReconInter k u st = some (st, false) := by
  unfold cuReconInter interPred
  rw [hb, List.zipIdx_cons]
  unfold predLoop predPu
  rw [hp]
  simp only [Option.bind_eq_bind, Option.bind_some]
  rw [h]
  rfl

/-- **C100** (partial: units that could not be parsed).  A unit that was not parsed is reported as an error and leaves the planes as they are. -/
theorem C100_unparsed_partial (k : Ctx) (u : Cu) (err : Bool) (st : Planes) : leafRecon k u (-1) err st = some (st, true) := by
  simp [leafRecon]

/-- C100 does not hold for units without reference: in a picture without references (a P picture may have none) every forward unit is left as the
memory of an earlier picture happens to be, and no error is reported. -/
theorem C100_violated {k : Ctx} (hk : ∀ i, k.fref i = none) (hB : k.frame = 1) {u : Cu} (hm : u.mode < 8) (ht : TypeAt u.mode u.level)
    (h3 : 3 ≤ u.level) (h6 : u.level ≤ 6) (hd : u.dir 0 = 0) (hr : u.ref 0 0 = 0) {s : Int} (hs : s ≠ -1) (st : Planes) :
    leafRecon k u s false st = some (st, false) := by
  have hT := C50_prediction k.frame u.ds u.mode u.level (by omega) h3 h6
  obtain ⟨b, l, hb⟩ : ∃ b l, puUnits k.frame u.ds u.mode u.level = b :: l := by
    cases h : puUnits k.frame u.ds u.mode u.level with
    | nil =>
      have := hT 0 0
      rw [h] at this
      simp at this
    | cons b l => exact ⟨b, l, rfl⟩
  have hp : ∃ p, pick k u 0 = some p ∧ p.ref1 = none := by
    unfold pick
    simp only [hd, hr, hB, frefAt, hk]
    by_cases h : u.dmh = 0
    · simp [h]
    · simp [h]
  obtain ⟨p, hp, h1⟩ := hp
  unfold leafRecon
  rw [if_neg hs, missing_first hb hp h1]
  rfl

example : leafRecon ⟨64, 64, 1, fun _ => none, true⟩ { exUnit (0, 0) with ref := fun _ _ => 0 } 0 false (fun _ _ _ => 9) = some (fun _ _ _ => 9, false) :=
  C100_violated (fun _ => rfl) rfl (by decide) (by decide) (by decide) (by decide) rfl rfl (by decide) _

end Davs2.Ir
