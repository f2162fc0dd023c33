import Verif.Lemmas.SaoSyntax
/-
Slices.
-/
namespace Davs2.Cs
open Davs2.Sx Davs2.Mo

variable {σ : Type} {m : Machine σ} {G : σ → Prop}

/-- Pictures of `w` by `h` blocks of 8x8 samples have `lw` by `lh` LCUs of `2 ^ n` by `2 ^ n` such blocks. -/
structure Geo (w h n lw lh : Nat) : Prop where
  hi : n ≤ 3
  lw0 : 0 < lw
  lh0 : 0 < lh
  w1 : w ≤ lw * 2 ^ n
  w2 : (lw - 1) * 2 ^ n < w
  h1 : h ≤ lh * 2 ^ n
  h2 : (lh - 1) * 2 ^ n < h

/-- What is decoded when the LCU at `(X, Y)` is next; `N` is the size of an LCU in 8x8 blocks. -/
def Done (w h N X Y : Nat) (p q : Int) : Prop :=
  (p < 0 ∨ q < 0 ∨ 2 * (w : Int) ≤ p ∨ 2 * (h : Int) ≤ q) ∨ q < 2 * Y ∨ (q < 2 * Y + 2 * N ∧ p < 2 * X)

/-- Invariant of the loop over the LCUs of a slice; `used` are the numbers of the earlier slices. -/
structure Inv (E : Env) (F : Filt) (n lw r0 : Nat) (used : List Int) (prev : List LcuW) (P : Maps) (S : SlState) : Prop where
  rel : Rel E S.pic P (Done E.w E.h (2 ^ n) (prev.length % lw * 2 ^ n) ((r0 + prev.length / lw) * 2 ^ n))
  mine : ∀ a b, a < E.w → b < E.h →
    Done E.w E.h (2 ^ n) (prev.length % lw * 2 ^ n) ((r0 + prev.length / lw) * 2 ^ n) (2 * a : Nat) (2 * b : Nat) →
    if r0 * 2 ^ n ≤ b then (S.pic.cu a b).slice = E.slice else (S.pic.cu a b).slice ∈ used
  sao : F.sao = true → ∀ j l, prev[j]? = some l → S.sao (lw * r0 + j) = l.sao

theorem Reads.fin (hm : m.Lawful G) (b : Bool) : Reads G m (Sx.fin m) b [.fin b] := codes_fin.at hm (In_two.mpr rfl)

theorem next_pos {lw k : Nat} (h : 0 < lw) :
    (k % lw + 1 < lw ∧ (k + 1) % lw = k % lw + 1 ∧ (k + 1) / lw = k / lw) ∨
    (k % lw + 1 = lw ∧ (k + 1) % lw = 0 ∧ (k + 1) / lw = k / lw + 1) := by
  have e := Nat.div_add_mod k lw
  have hlt := Nat.mod_lt k h
  by_cases hc : k % lw + 1 < lw
  · left
    have := (Nat.div_mod_unique (a := k + 1) (d := k / lw) (c := k % lw + 1) h).mpr ⟨by omega, hc⟩
    exact ⟨hc, this.2, this.1⟩
  · right
    have := (Nat.div_mod_unique (a := k + 1) (d := k / lw + 1) (c := 0) h).mpr ⟨by rw [Nat.mul_add]; omega, h⟩
    exact ⟨by omega, this.2, this.1⟩

/-- The LCU at the next position: it is inside of the picture and can be read. -/
theorem lcu_spot {E : Env} {n lw lh r0 k : Nat} (geo : Geo E.w E.h n lw lh) (hk : lw * r0 + k < lw * lh) :
    let X := k % lw * 2 ^ n
    let Y := (r0 + k / lw) * 2 ^ n
    (X < E.w ∧ Y < E.h) ∧ TSpot E (Done E.w E.h (2 ^ n) X Y) n X Y := by
  intro X Y
  have hN : 0 < 2 ^ n := Nat.pow_pos (by decide)
  have hX : X < E.w := by
    have h1 : k % lw ≤ lw - 1 := by have := Nat.mod_lt k geo.lw0; omega
    have := Nat.mul_le_mul_right (2 ^ n) h1
    have := geo.w2
    omega
  have hY : Y < E.h := by
    have h1 : r0 + k / lw < lh := by
      have e : (lw * r0 + k) / lw = r0 + k / lw := Nat.mul_add_div geo.lw0 r0 k
      rw [← e]
      exact Nat.div_lt_of_lt_mul hk
    have h2 : r0 + k / lw ≤ lh - 1 := by omega
    have := Nat.mul_le_mul_right (2 ^ n) h2
    have := geo.h2
    omega
  refine ⟨⟨hX, hY⟩, geo.hi, Nat.dvd_mul_left _ _, Nat.dvd_mul_left _ _, ?_, ?_, ?_⟩
  · intro p q ha h1 h2 hd
    unfold Area at ha
    rw [← pow_cast] at ha
    unfold Done at hd
    omega
  · intro j hj
    unfold Done
    omega
  · intro j hj
    unfold Done
    omega

theorem done_next {w h n lw lh r0 k : Nat} (geo : Geo w h n lw lh) (p q : Int) :
    (Done w h (2 ^ n) (k % lw * 2 ^ n) ((r0 + k / lw) * 2 ^ n) p q ∨ Area n (k % lw * 2 ^ n) ((r0 + k / lw) * 2 ^ n) p q) ↔
      Done w h (2 ^ n) ((k + 1) % lw * 2 ^ n) ((r0 + (k + 1) / lw) * 2 ^ n) p q := by
  have hw := geo.w1
  have hN : 0 < 2 ^ n := Nat.pow_pos (by decide)
  unfold Area
  rw [← pow_cast]
  unfold Done
  rcases next_pos (k := k) geo.lw0 with ⟨h1, h2, h3⟩ | ⟨h1, h2, h3⟩
  · rw [h2, h3, Nat.add_mul (k % lw) 1, Nat.one_mul]
    generalize k % lw * 2 ^ n = X
    generalize (r0 + k / lw) * 2 ^ n = Y
    generalize 2 ^ n = N at *
    push_cast
    omega
  · have hX : k % lw * 2 ^ n + 2 ^ n = lw * 2 ^ n := by
      have := congrArg (· * 2 ^ n) h1
      simpa [Nat.add_mul] using this
    rw [h2, h3, ← Nat.add_assoc, Nat.add_mul (r0 + k / lw) 1, Nat.one_mul, Nat.zero_mul]
    generalize k % lw * 2 ^ n = X at *
    generalize (r0 + k / lw) * 2 ^ n = Y
    generalize lw * 2 ^ n = W at *
    generalize 2 ^ n = N at *
    push_cast
    omega

/-- One LCU. -/
theorem reads_lcu (hm : m.Lawful G) {E : Env} {F : Filt} (hq : 0 ≤ E.qp ∧ E.qp ≤ 63) (hn : E.frame ≠ 0 → 1 ≤ E.nrefs)
    {n lw lh r0 : Nat} (geo : Geo E.w E.h n lw lh) {used : List Int} (hu : E.slice ∉ used) {prev : List LcuW} {P P' : Maps} {S : SlState}
    (inv : Inv E F n lw r0 used prev P S) {l : LcuW} {cs ca ct : List Bin} (hi : lw * r0 + prev.length < lw * lh)
    (hs : if F.sao then saoT F.saoOn (if (lw * r0 + prev.length) % lw = 0 then none else (prev[prev.length - 1]?).map (·.sao))
        (if prev.length < lw then none else (prev[prev.length - lw]?).map (·.sao)) l.sao cs else cs = [])
    (ha : if F.alf then alfT F.alfOn l.alf ca else l.alf = [] ∧ ca = [])
    (ht : treeT E n ((lw * r0 + prev.length) % lw * 2 ^ n) ((lw * r0 + prev.length) / lw * 2 ^ n) l.tree P ct P') :
    ∃ r S', Reads G m (readLcu m E F n lw (lw * r0 + prev.length) S) (r, S') (cs ++ ca ++ ct) ∧
      SameLcu E F (l, (leaves E n ((lw * r0 + prev.length) % lw * 2 ^ n) ((lw * r0 + prev.length) / lw * 2 ^ n) l.tree P).1) r ∧
      (leaves E n ((lw * r0 + prev.length) % lw * 2 ^ n) ((lw * r0 + prev.length) / lw * 2 ^ n) l.tree P).2 = P' ∧
      Inv E F n lw r0 used (prev ++ [l]) P' S' := by
  have em : (lw * r0 + prev.length) % lw = prev.length % lw := Nat.mul_add_mod _ _ _
  have ed : (lw * r0 + prev.length) / lw = r0 + prev.length / lw := Nat.mul_add_div geo.lw0 _ _
  obtain ⟨hin, sp⟩ := lcu_spot geo hi
  have hN : 0 < 2 ^ n := Nat.pow_pos (by decide)
  rw [em] at hs
  rw [em, ed] at ht ⊢
  obtain ⟨ls, S1, hr, hf, hl, hrel, hst⟩ := reads_tree hm hq hn n inv.rel sp hin ht
  have hY0 : r0 * 2 ^ n ≤ (r0 + prev.length / lw) * 2 ^ n := Nat.mul_le_mul_right _ (Nat.le_add_right _ _)
  have hsao : ∃ sao, Reads G m (if F.sao then saoLcu m E F lw (lw * r0 + prev.length) (prev.length % lw * 2 ^ n)
      ((r0 + prev.length / lw) * 2 ^ n) S else pure (S.sao (lw * r0 + prev.length))) sao cs ∧ (F.sao = true → sao = l.sao) := by
    by_cases hF : F.sao = true
    · rw [if_pos hF] at hs
      refine ⟨l.sao, ?_, fun _ => rfl⟩
      rw [if_pos hF]
      have hlen := Nat.div_add_mod prev.length lw
      refine reads_sao hm ?_ ?_ ?_ ?_ hs
      · by_cases h0 : prev.length % lw = 0
        · rw [if_pos h0, h0, Nat.zero_mul]
          constructor
          · intro h; omega
          · intro h; exact absurd h (by decide)
        · rw [if_neg h0]
          have hx : 2 ^ n ≤ prev.length % lw * 2 ^ n := Nat.le_mul_of_pos_left _ (by omega)
          have h1 := inv.mine (prev.length % lw * 2 ^ n - 1) ((r0 + prev.length / lw) * 2 ^ n) (by omega) hin.2
            (by unfold Done; right; right; constructor <;> omega)
          rw [if_pos hY0] at h1
          have : prev.length - 1 < prev.length := by
            have : prev.length ≠ 0 := by intro h; rw [h] at h0; exact h0 (Nat.zero_mod _)
            omega
          constructor
          · intro _
            rw [List.getElem?_eq_getElem this]; rfl
          · intro _
            exact ⟨by omega, h1⟩
      · by_cases h0 : prev.length < lw
        · rw [if_pos h0]
          refine ⟨fun ⟨h1, h2⟩ => ?_, fun h => absurd h (by decide)⟩
          have e : prev.length / lw = 0 := Nat.div_eq_of_lt h0
          rw [e, Nat.add_zero] at h1 h2
          have h3 := inv.mine (prev.length % lw * 2 ^ n) (r0 * 2 ^ n - 1) hin.1 (by omega)
            (by unfold Done; right; left; rw [e, Nat.add_zero]; omega)
          rw [if_neg (by omega)] at h3
          rw [h2] at h3
          exact absurd h3 hu
        · rw [if_neg h0]
          have e : 1 ≤ prev.length / lw := by rw [Nat.le_div_iff_mul_le geo.lw0]; omega
          have hY : (r0 + 1) * 2 ^ n ≤ (r0 + prev.length / lw) * 2 ^ n := Nat.mul_le_mul_right _ (by omega)
          rw [Nat.add_mul, Nat.one_mul] at hY
          have h3 := inv.mine (prev.length % lw * 2 ^ n) ((r0 + prev.length / lw) * 2 ^ n - 1) hin.1 (by omega)
            (by unfold Done; right; left; omega)
          rw [if_pos (by omega)] at h3
          have hlw := geo.lw0
          constructor
          · intro _
            rw [List.getElem?_eq_getElem (by omega)]; rfl
          · intro _
            exact ⟨by omega, h3⟩
      · intro v hv
        by_cases h0 : prev.length % lw = 0
        · rw [if_pos h0] at hv; exact absurd hv (by simp)
        · rw [if_neg h0] at hv
          obtain ⟨l', hl', rfl⟩ := Option.map_eq_some_iff.mp hv
          have hlt := (List.getElem?_eq_some_iff.mp hl').1
          have := inv.sao hF _ _ hl'
          rwa [show lw * r0 + (prev.length - 1) = lw * r0 + prev.length - 1 by omega] at this
      · intro v hv
        by_cases h0 : prev.length < lw
        · rw [if_pos h0] at hv; exact absurd hv (by simp)
        · rw [if_neg h0] at hv
          obtain ⟨l', hl', rfl⟩ := Option.map_eq_some_iff.mp hv
          have := inv.sao hF _ _ hl'
          rwa [show lw * r0 + (prev.length - lw) = lw * r0 + prev.length - lw by omega] at this
    · rw [if_neg hF] at hs ⊢
      subst hs
      exact ⟨_, Reads.pure _, fun h => absurd h hF⟩
  obtain ⟨sao, hsr, hse⟩ := hsao
  have half : Reads G m (if F.alf then alfLcu m F.alfOn else pure []) l.alf ca := by
    by_cases hF : F.alf = true
    · rw [if_pos hF] at ha ⊢
      exact reads_alf hm _ ha
    · rw [if_neg hF] at ha ⊢
      rw [ha.1, ha.2]
      exact Reads.pure _
  refine ⟨⟨sao, l.alf, ls⟩, ⟨S1, fun j => if j = lw * r0 + prev.length then sao else S.sao j⟩, ?_, ⟨hse, rfl, hf⟩, hl, ?_, ?_, ?_⟩
  · unfold readLcu
    dsimp only
    rw [em, ed, List.append_assoc]
    exact Reads.bind hsr (Reads.bind half (Reads.last hr (Reads.pure _)))
  · rw [List.length_append, List.length_singleton]
    exact hrel.congr fun p q => done_next geo p q
  · intro a b hA hB hd
    rw [List.length_append, List.length_singleton, ← done_next geo] at hd
    have h1 := hst a b
    show if r0 * 2 ^ n ≤ b then (S1.cu a b).slice = E.slice else (S1.cu a b).slice ∈ used
    by_cases hI : Inside E n (prev.length % lw * 2 ^ n) ((r0 + prev.length / lw) * 2 ^ n) a b
    · have := hI.1.2.2.1
      rw [if_pos (by omega)]
      exact h1.1 hI
    · rw [h1.2 hI]
      refine inv.mine a b hA hB (hd.resolve_right fun har => hI ?_)
      unfold Area at har
      rw [← pow_cast] at har
      exact ⟨⟨by omega, by omega, by omega, by omega⟩, hA, hB⟩
  · intro hF j l' hj
    show (if lw * r0 + j = lw * r0 + prev.length then sao else S.sao (lw * r0 + j)) = l'.sao
    by_cases hjl : j = prev.length
    · subst hjl
      rw [if_pos rfl, hse hF]
      rw [List.getElem?_concat_length] at hj
      rw [Option.some.inj hj]
    · rw [if_neg (by omega)]
      have hlt := (List.getElem?_eq_some_iff.mp hj).1
      rw [List.length_append, List.length_singleton] at hlt
      rw [List.getElem?_append_left (by omega)] at hj
      exact inv.sao hF j l' hj

/-- All LCUs of a slice. -/
theorem reads_slice (hm : m.Lawful G) {E : Env} {F : Filt} (hq : 0 ≤ E.qp ∧ E.qp ≤ 63) (hn : E.frame ≠ 0 → 1 ≤ E.nrefs)
    {n lw lh r0 : Nat} (geo : Geo E.w E.h n lw lh) {used : List Int} (hu : E.slice ∉ used) (ls : List LcuW) :
    ∀ {prev : List LcuW} {P : Maps} {S : SlState} {c : List Bin}, Inv E F n lw r0 used prev P S →
      sliceT E F n lw lh (lw * r0) prev ls P c →
      ∃ rs S' P', Reads G m (readSlice m E F n lw (lw * lh - (lw * r0 + prev.length)) (lw * r0 + prev.length) S) (rs, S') c ∧
        List.Forall₂ (SameLcu E F) (expected E n lw (lw * r0 + prev.length) ls P) rs ∧ Inv E F n lw r0 used (prev ++ ls) P' S' := by
  induction ls with
  | nil => intro prev P S c _ h; exact h.elim
  | cons l ls ih =>
    intro prev P S c inv h
    unfold sliceT at h
    obtain ⟨cs, ca, ct, P1, cr, rfl, hi, hs, ha, ht, hr⟩ := h
    obtain ⟨r, S1, hread, hsame, hleaf, inv1⟩ := reads_lcu hm hq hn geo hu inv hi hs ha ht
    obtain ⟨k, hk⟩ : ∃ k, lw * lh - (lw * r0 + prev.length) = k + 1 := ⟨lw * lh - (lw * r0 + prev.length) - 1, by omega⟩
    by_cases he : ls = []
    · subst he
      rw [if_pos rfl] at hr
      subst hr
      refine ⟨[r], S1, P1, ?_, ?_, inv1⟩
      · rw [hk]
        unfold readSlice
        refine Reads.bind hread (Reads.last (Reads.fin hm true) (Reads.pure _))
      · unfold expected expected
        exact List.Forall₂.cons hsame List.Forall₂.nil
    · rw [if_neg he] at hr
      obtain ⟨rs, S2, P2, hread2, hf2, inv2⟩ := ih inv1 hr
      rw [List.length_append, List.length_singleton, ← Nat.add_assoc] at hread2 hf2
      refine ⟨r :: rs, S2, P2, ?_, ?_, ?_⟩
      · rw [hk]
        unfold readSlice
        rw [show lw * lh - (lw * r0 + prev.length + 1) = k by omega] at hread2
        rw [decide_eq_false he]
        refine Reads.bind hread (Reads.bind (c := [.fin false]) (Reads.fin hm false) ?_)
        rw [if_neg (by decide)]
        exact Reads.last hread2 (Reads.pure _)
      · unfold expected
        dsimp only
        rw [hleaf]
        exact List.Forall₂.cons hsame hf2
      · rwa [List.append_assoc] at inv2

/-- Between two slices: row `r` of LCUs is next. -/
structure Idle (w h frame n r : Nat) (used : List Int) (S : SlState) : Prop where
  seen : ∀ a b, a < w → b < h → b < r * 2 ^ n → (S.pic.cu a b).slice ∈ used
  clear : ∀ x y : Int, -1 ≤ x → x < 2 * w → ((2 * (r * 2 ^ n) : Nat) : Int) ≤ y → y < 2 * h → S.pic.modes (Im.addr (2 * w) x y) = 0
  stale : frame = 5 → ∀ i j, (S.pic.cu i j).wsm = 0

/-- The state at the start of a picture: no modes, whatever the units were before. -/
theorem idle_start {w h frame n : Nat} {S : SlState} (hm : ∀ a, S.pic.modes a = 0) (hw : frame = 5 → ∀ i j, (S.pic.cu i j).wsm = 0) :
    Idle w h frame n 0 [] S :=
  ⟨fun a b _ _ h => by omega, fun x y _ _ _ _ => hm _, hw⟩

theorem inv_start {E : Env} {F : Filt} {n lw r : Nat} (hlw : 0 < lw) {used : List Int} (hu : E.slice ∉ used) {S : SlState}
    (id : Idle E.w E.h E.frame n r used S) :
    Inv E F n lw r used [] (Maps.start E.qp) (startSlice E.w n lw (lw * r) S) := by
  have hr : lw * r / lw = r := Nat.mul_div_cancel_left r hlw
  have hz : ∀ x y : Int, -1 ≤ x → x < 2 * E.w → y < 2 * E.h → ((2 * (r * 2 ^ n) : Nat) : Int) - 1 ≤ y →
      (startSlice E.w n lw (lw * r) S).pic.modes (Im.addr (2 * E.w) x y) = 0 := by
    intro x y h1 h2 h3 h4
    unfold startSlice
    dsimp only
    rw [hr]
    by_cases hy : y = ((2 * (r * 2 ^ n) : Nat) : Int) - 1
    · rw [if_pos]
      rw [hy, show r * (2 * 2 ^ n) = 2 * (r * 2 ^ n) by rw [Nat.mul_left_comm]]
      unfold Im.addr
      constructor <;> omega
    · have := id.clear x y h1 h2 (by omega) h3
      rw [this, ite_self]
  have hc : (startSlice E.w n lw (lw * r) S).pic.cu = S.pic.cu := rfl
  have hD : ∀ p q : Int, Done E.w E.h (2 ^ n) (([] : List LcuW).length % lw * 2 ^ n) ((r + ([] : List LcuW).length / lw) * 2 ^ n) p q ↔
      (p < 0 ∨ q < 0 ∨ 2 * (E.w : Int) ≤ p ∨ 2 * (E.h : Int) ≤ q) ∨ q < ((2 * (r * 2 ^ n) : Nat) : Int) := by
    intro p q
    rw [List.length_nil, Nat.zero_mod, Nat.zero_div, Nat.zero_mul, Nat.add_zero]
    unfold Done
    push_cast
    omega
  refine ⟨Rel.congr (D := fun p q => (p < 0 ∨ q < 0 ∨ 2 * (E.w : Int) ≤ p ∨ 2 * (E.h : Int) ≤ q) ∨ q < ((2 * (r * 2 ^ n) : Nat) : Int))
    ?_ (fun p q => (hD p q).symm), ?_, ?_⟩
  · refine ⟨fun x y h => ⟨.inl h, rfl, rfl, rfl⟩, ?_, ?_, ?_, fun _ => rfl, ?_, fun _ _ _ => rfl⟩
    · intro x y h1 h2 hd
      rw [hc, if_neg]
      · exact ⟨rfl, rfl, rfl⟩
      · have := id.seen (x / 2) (y / 2) (by omega) (by omega) (by omega)
        intro he
        rw [he] at this
        exact hu this
    · intro x y h1 h2 h3 h4 hd hn
      refine ⟨hz x y h1 h2 h4 ?_, le_refl _, by show (0 : Int) < 33; decide⟩
      omega
    · intro x y h1 h2 h3 h4 hd
      exact hz x y (by omega) h2 h4 (by omega)
    · exact id.stale
  · intro a b h1 h2 hd
    rw [hD] at hd
    rw [hc]
    have hb : b < r * 2 ^ n := by omega
    rw [if_neg (by omega)]
    exact id.seen a b h1 h2 hb
  · intro _ j l h
    simp at h

theorem idle_end {E : Env} {F : Filt} {n lw r k : Nat} (hw : 0 < E.w) {used : List Int} {ls : List LcuW} (hk : ls.length = lw * k)
    {P : Maps} {S : SlState} (inv : Inv E F n lw r used ls P S) : Idle E.w E.h E.frame n (r + ls.length / lw) (E.slice :: used) S := by
  have e1 : ls.length % lw = 0 := by rw [hk]; exact Nat.mul_mod_right _ _
  have hD : ∀ p q : Int, Done E.w E.h (2 ^ n) (ls.length % lw * 2 ^ n) ((r + ls.length / lw) * 2 ^ n) p q ↔
      (p < 0 ∨ q < 0 ∨ 2 * (E.w : Int) ≤ p ∨ 2 * (E.h : Int) ≤ q) ∨ q < ((2 * ((r + ls.length / lw) * 2 ^ n) : Nat) : Int) := by
    intro p q
    rw [e1, Nat.zero_mul]
    unfold Done
    push_cast
    omega
  refine ⟨?_, ?_, inv.rel.stale⟩
  · intro a b h1 h2 h3
    have := inv.mine a b h1 h2 ((hD _ _).mpr (by omega))
    by_cases hb : r * 2 ^ n ≤ b
    · rw [if_pos hb] at this; rw [this]; exact List.mem_cons_self
    · rw [if_neg hb] at this; exact List.mem_cons_of_mem _ this
  · intro x y h1 h2 h3 h4
    by_cases hx : x < 0
    · have := inv.rel.edge x y h1 h2 (by omega) h4 ((hD _ _).mpr (by omega)) (.inl (by rw [hD]; omega))
      rw [this.1]
      exact inv.rel.bord x y hx
    · exact inv.rel.fresh x y (by omega) h2 (by omega) h4 (by rw [hD]; omega)

/-- A slice of a picture that starts at the left border. -/
theorem reads_whole_slice (hm : m.Lawful G) {E : Env} {F : Filt} (hq : 0 ≤ E.qp ∧ E.qp ≤ 63) (hn : E.frame ≠ 0 → 1 ≤ E.nrefs)
    {n lw lh r : Nat} (geo : Geo E.w E.h n lw lh) {used : List Int} (hu : E.slice ∉ used) {ls : List LcuW} {S : SlState} {c : List Bin}
    (id : Idle E.w E.h E.frame n r used S) (h : sliceT E F n lw lh (lw * r) [] ls (Maps.start E.qp) c) :
    ∃ rs S', Reads G m (readSlice m E F n lw (lw * lh - lw * r) (lw * r) (startSlice E.w n lw (lw * r) S)) (rs, S') c ∧
      List.Forall₂ (SameLcu E F) (expected E n lw (lw * r) ls (Maps.start E.qp)) rs ∧
      (lw ∣ ls.length → Idle E.w E.h E.frame n (r + ls.length / lw) (E.slice :: used) S') := by
  obtain ⟨rs, S', P', h1, h2, h3⟩ := reads_slice hm hq hn geo hu ls (inv_start geo.lw0 hu id) h
  refine ⟨rs, S', h1, h2, ?_⟩
  rintro ⟨k, hk⟩
  exact idle_end (Nat.lt_of_le_of_lt (Nat.zero_le _) geo.w2) hk h3

theorem forall2_len {α β : Type} {R : α → β → Prop} {a : List α} {b : List β} (h : List.Forall₂ R a b) : a.length = b.length := by
  induction h with
  | nil => rfl
  | cons _ _ ih => rw [List.length_cons, List.length_cons, ih]

theorem expected_len (E : Env) (n lw : Nat) (ls : List LcuW) : ∀ i P, (expected E n lw i ls P).length = ls.length := by
  induction ls with
  | nil => intro i P; rfl
  | cons l ls ih => intro i P; unfold expected; rw [List.length_cons, List.length_cons, ih]

/-- All slices of a picture. -/
theorem reads_picture (hm : m.Lawful G) {w h frame n lw lh : Nat} (geo : Geo w h n lw lh) (sl : List (Env × Filt × List LcuW × List Bin)) :
    ∀ {r used S} {st : List (Env × Filt × σ)}, Idle w h frame n r used S → pictureT w h frame n lw lh r used sl →
      List.Forall₂ (fun a b => b.1 = a.1 ∧ b.2.1 = a.2.1 ∧ ∃ s', Produces G m b.2.2 a.2.2.2 s') sl st →
      ∃ rs S', readPicture m n lw (lw * lh) st (lw * r) S = .ok (rs, S') ∧
        List.Forall₂ (fun a b => List.Forall₂ (SameLcu a.1 a.2.1) a.2.2 b) (expectedPic n lw r sl) rs := by
  induction sl with
  | nil =>
    intro r used S st id _ hst
    cases hst
    exact ⟨[], S, rfl, List.Forall₂.nil⟩
  | cons a sl ih =>
    intro r used S st id h hst
    obtain ⟨E, F, ls, c⟩ := a
    cases hst with
    | @cons _ b _ st' hb hst' =>
      obtain ⟨E', F', s⟩ := b
      obtain ⟨h1, h2, s', hp⟩ := hb
      dsimp only at h1 h2 hp
      subst h1 h2
      unfold pictureT at h
      obtain ⟨⟨rfl, rfl, rfl, hu, hq, hn⟩, hs, hd, hrest⟩ := h
      obtain ⟨rs, S1, hread, hf, hid⟩ := reads_whole_slice hm hq hn geo hu id hs
      have hlen : rs.length = ls.length := by rw [← forall2_len hf, expected_len]
      by_cases he : sl = []
      · subst he
        cases hst'
        refine ⟨[rs], S1, ?_, List.Forall₂.cons hf List.Forall₂.nil⟩
        unfold readPicture
        rw [hread s s' hp]
        rfl
      · obtain ⟨k, hk⟩ := hd he
        obtain ⟨rs2, S2, hr2, hf2⟩ := ih (hid ⟨k, hk⟩) hrest hst'
        refine ⟨rs :: rs2, S2, ?_, List.Forall₂.cons hf hf2⟩
        have e : lw * (r + ls.length / lw) = lw * r + rs.length := by
          rw [hlen, hk, Nat.mul_div_cancel_left _ geo.lw0, Nat.mul_add]
        rw [e] at hr2
        unfold readPicture
        rw [hread s s' hp]
        dsimp only
        rw [hr2]

end Davs2.Cs
