import Verif.Lemmas.RpBlock
/-
C88: the flags computed for a block are the availability of its five groups of neighbours.
-/
namespace Davs2.Rp
open Davs2.Spec Davs2.Ip

theorem lc_at {p : Pic} {l X : Nat} (h1 : p.org l ≤ X) (h2 : X < p.org l + p.T) : p.lc X = l := lc_eq.mpr ⟨h1, h2⟩

theorem lc_prev {p : Pic} {l X : Nat} (h0 : X < p.org l) (h1 : p.org l ≤ X + p.T) : 0 < l ∧ p.lc X = l - 1 := by
  cases l with
  | zero => unfold Pic.org at h0; omega
  | succ l =>
    have e : p.org (l + 1) = l * p.T + p.T := by unfold Pic.org Pic.T; rw [Nat.add_mul]; omega
    exact ⟨by omega, by rw [Nat.add_sub_cancel]; apply lc_eq.mpr; omega⟩

theorem lc_next {p : Pic} {l X : Nat} (h0 : p.org l + p.T ≤ X) (h1 : X < p.org l + 2 * p.T) : p.lc X = l + 1 := by
  apply lc_eq.mpr
  have e : (l + 1) * p.T = p.org l + p.T := by unfold Pic.org Pic.T; rw [Nat.add_mul]; omega
  omega

/-- Units of a coordinate of a block. -/
theorem unit4 {p : Pic} (hp : p.Ok) {l x : Nat} (h : 2 ^ (2 - p.s) ∣ x) :
    ∃ m, x * 2 ^ p.s / 4 + l * 2 ^ (p.lcu - 2) = m ∧ p.org l + x = 2 ^ (2 - p.s) * m := by
  have hT : p.T = 2 ^ (2 - p.s) * 2 ^ (p.lcu - 2) := by
    have := hp.s; have := hp.lo
    unfold Pic.T
    rw [← Nat.pow_add]; congr 1; omega
  refine ⟨_, rfl, ?_⟩
  have e : p.org l = 2 ^ (2 - p.s) * (l * 2 ^ (p.lcu - 2)) := by
    show l * p.T = _
    rw [hT]; ring
  rw [e]
  obtain ⟨a, rfl⟩ := h
  rcases s01 hp with h0 | h0 <;> rw [h0] <;> omega

theorem shape_le {w h : Nat} (hs : (w, h) ∈ shapes) : 0 < w ∧ 0 < h := by
  unfold shapes at hs
  simp only [List.mem_cons, Prod.mk.injEq, List.not_mem_nil, or_false] at hs
  omega

theorem all_false {n : Nat} (hn : 0 < n) {f : Nat → Bool} (h : ∀ i, f i = false) : (List.range n).all f = false := by
  rw [Bool.eq_false_iff]
  intro h'
  rw [List.all_eq_true] at h'
  exact absurd (h' 0 (List.mem_range.mpr hn)) (by rw [h]; simp)

/-- The availability of the neighbours of a block, as specified. -/
def specAvail (p : Pic) (k : Coded) (u : Part) (cur X Y w h : Nat) : Avail where
  left := down (setting p k) u cur (X - 1) Y h
  top := across (setting p k) u cur X (Y - 1) w
  topLeft := usable (setting p k) u cur (X - 1) (Y - 1)
  topRight := across (setting p k) u cur (X + w) (Y - 1) w
  leftDown := down (setting p k) u cur (X - 1) (Y + h) h

variable {p : Pic} {k : Coded} {lx ly : Nat} {R : Nat → Nat → Prop} {st : St} {u : Part} {b : Blk} {dl tr : Bool}

theorem not_bef_self : ¬ Bef lx ly lx ly := by unfold Bef; omega

theorem flag_left (hp : p.Ok) (hk : SlicesOk p k) (I : Inv p k lx ly R st u) (hc : k.slice lx ly < 255) (G : Geo p lx ly R b dl tr) :
    isAvail p st.slice (b.x * 2 ^ p.s / 4 + lx * 2 ^ (p.lcu - 2) : Nat) (b.y * 2 ^ p.s / 4 + ly * 2 ^ (p.lcu - 2) : Nat) (-1) 0 (int8 (k.slice lx ly))
      = down (setting p k) u (k.slice lx ly) ((p.org lx + b.x : Nat) - 1) (p.org ly + b.y : Nat) b.h := by
  obtain ⟨m, e1, e2⟩ := unit4 hp (l := lx) G.dx
  obtain ⟨n, e3, e4⟩ := unit4 hp (l := ly) G.dy
  obtain ⟨hw0, hh0⟩ := shape_le G.shape
  have gx := G.x2; have gy := G.y2; have iw := G.inw; have ih := G.inh
  unfold down
  rw [e1, e3]
  by_cases hX : p.org lx + b.x = 0
  · have : m = 0 := by
      have := Nat.two_pow_pos (2 - p.s)
      rcases Nat.mul_eq_zero.mp (e2.symm.trans hX) with h | h <;> omega
    rw [isAvail_neg (by omega), all_false hh0]
    intro i
    exact usable_neg (by omega)
  · have hx : ((p.org lx + b.x : Nat) : Int) - 1 = ((p.org lx + b.x - 1 : Nat) : Int) := by omega
    rw [← Bool.and_true (isAvail _ _ _ _ _ _ _)]
    rw [group hp hk I hc (fun i => (p.org lx + b.x - 1, p.org ly + b.y + i)) b.h 0 hh0 true]
    · congr 1
      funext i
      rw [hx]
      push_cast
      rfl
    · dsimp only
      rcases s01 hp with h0 | h0 <;> rw [h0] at e2 e4 ⊢ <;> omega
    · dsimp only
      rcases s01 hp with h0 | h0 <;> rw [h0] at e2 e4 ⊢ <;> omega
    · intro h1 h2 i hi
      exact ⟨h1, by dsimp only; omega⟩
    · intro h1 h2
      simp only [true_iff]
      intro i hi
      by_cases hb : b.x = 0
      · left
        obtain ⟨g1, g2⟩ := lc_prev (p := p) (l := lx) (X := p.org lx + b.x - 1) (by omega) (by omega)
        rw [g2, lc_at (l := ly) (by omega) (by omega)]
        unfold Bef; omega
      · exact Or.inr (G.left (by omega) i hi)
    · intro h1 h2 _ i hi
      refine ⟨rfl, ?_⟩
      dsimp only
      rw [lc_at (l := ly) (by omega) (by omega), lc_at (l := ly) (by omega) (by omega)]

theorem flag_top (hp : p.Ok) (hk : SlicesOk p k) (I : Inv p k lx ly R st u) (hc : k.slice lx ly < 255) (G : Geo p lx ly R b dl tr) :
    isAvail p st.slice (b.x * 2 ^ p.s / 4 + lx * 2 ^ (p.lcu - 2) : Nat) (b.y * 2 ^ p.s / 4 + ly * 2 ^ (p.lcu - 2) : Nat) 0 (-1) (int8 (k.slice lx ly))
      = across (setting p k) u (k.slice lx ly) (p.org lx + b.x : Nat) ((p.org ly + b.y : Nat) - 1) b.w := by
  obtain ⟨m, e1, e2⟩ := unit4 hp (l := lx) G.dx
  obtain ⟨n, e3, e4⟩ := unit4 hp (l := ly) G.dy
  obtain ⟨hw0, hh0⟩ := shape_le G.shape
  have gx := G.x2; have gy := G.y2; have iw := G.inw; have ih := G.inh
  unfold across
  rw [e1, e3]
  by_cases hY : p.org ly + b.y = 0
  · have : n = 0 := by
      have := Nat.two_pow_pos (2 - p.s)
      rcases Nat.mul_eq_zero.mp (e4.symm.trans hY) with h | h <;> omega
    rw [isAvail_neg (by omega), all_false hw0]
    intro i
    exact usable_neg (by omega)
  · have hy : ((p.org ly + b.y : Nat) : Int) - 1 = ((p.org ly + b.y - 1 : Nat) : Int) := by omega
    rw [← Bool.and_true (isAvail _ _ _ _ _ _ _)]
    rw [group hp hk I hc (fun i => (p.org lx + b.x + i, p.org ly + b.y - 1)) b.w 0 hw0 true]
    · congr 1
      funext i
      rw [hy]
      push_cast
      rfl
    · dsimp only
      rcases s01 hp with h0 | h0 <;> rw [h0] at e2 e4 ⊢ <;> omega
    · dsimp only
      rcases s01 hp with h0 | h0 <;> rw [h0] at e2 e4 ⊢ <;> omega
    · intro h1 h2 i hi
      exact ⟨by dsimp only; omega, h2⟩
    · intro h1 h2
      simp only [true_iff]
      intro i hi
      by_cases hb : b.y = 0
      · left
        obtain ⟨g1, g2⟩ := lc_prev (p := p) (l := ly) (X := p.org ly + b.y - 1) (by omega) (by omega)
        rw [g2]
        unfold Bef; omega
      · exact Or.inr (G.top (by omega) i hi)
    · intro h1 h2 _ i hi
      refine ⟨?_, rfl⟩
      dsimp only
      rw [lc_at (l := lx) (by omega) (by omega), lc_at (l := lx) (by omega) (by omega)]

theorem flag_corner (hp : p.Ok) (hk : SlicesOk p k) (I : Inv p k lx ly R st u) (hc : k.slice lx ly < 255) (G : Geo p lx ly R b dl tr) :
    isAvail p st.slice (b.x * 2 ^ p.s / 4 + lx * 2 ^ (p.lcu - 2) : Nat) (b.y * 2 ^ p.s / 4 + ly * 2 ^ (p.lcu - 2) : Nat) (-1) (-1) (int8 (k.slice lx ly))
      = usable (setting p k) u (k.slice lx ly) ((p.org lx + b.x : Nat) - 1) ((p.org ly + b.y : Nat) - 1) := by
  obtain ⟨m, e1, e2⟩ := unit4 hp (l := lx) G.dx
  obtain ⟨n, e3, e4⟩ := unit4 hp (l := ly) G.dy
  obtain ⟨hw0, hh0⟩ := shape_le G.shape
  have gx := G.x2; have gy := G.y2; have iw := G.inw; have ih := G.inh
  rw [e1, e3]
  by_cases hX : p.org lx + b.x = 0 ∨ p.org ly + b.y = 0
  · have : m = 0 ∨ n = 0 := by
      have := Nat.two_pow_pos (2 - p.s)
      rcases hX with hX | hX
      · rcases Nat.mul_eq_zero.mp (e2.symm.trans hX) with h | h <;> omega
      · rcases Nat.mul_eq_zero.mp (e4.symm.trans hX) with h | h <;> omega
    rw [isAvail_neg (by omega), usable_neg (by omega)]
  · have hx : ((p.org lx + b.x : Nat) : Int) - 1 = ((p.org lx + b.x - 1 : Nat) : Int) := by omega
    have hy : ((p.org ly + b.y : Nat) : Int) - 1 = ((p.org ly + b.y - 1 : Nat) : Int) := by omega
    rw [← Bool.and_true (isAvail _ _ _ _ _ _ _)]
    rw [group hp hk I hc (fun _ => (p.org lx + b.x - 1, p.org ly + b.y - 1)) 1 0 (by omega) true]
    · rw [hx, hy]
      simp
    · dsimp only
      rcases s01 hp with h0 | h0 <;> rw [h0] at e2 e4 ⊢ <;> omega
    · dsimp only
      rcases s01 hp with h0 | h0 <;> rw [h0] at e2 e4 ⊢ <;> omega
    · intro h1 h2 i hi
      exact ⟨h1, h2⟩
    · intro h1 h2
      simp only [true_iff]
      intro i hi
      by_cases hb : b.y = 0
      · left
        obtain ⟨g1, g2⟩ := lc_prev (p := p) (l := ly) (X := p.org ly + b.y - 1) (by omega) (by omega)
        rw [g2]
        unfold Bef; omega
      · by_cases hb' : b.x = 0
        · left
          obtain ⟨g1, g2⟩ := lc_prev (p := p) (l := lx) (X := p.org lx + b.x - 1) (by omega) (by omega)
          rw [g2, lc_at (l := ly) (by omega) (by omega)]
          unfold Bef; omega
        · exact Or.inr (G.corner (by omega) (by omega))
    · intro h1 h2 _ i hi
      exact ⟨rfl, rfl⟩

theorem flag_topRight (hp : p.Ok) (hk : SlicesOk p k) (I : Inv p k lx ly R st u) (hc : k.slice lx ly < 255) (G : Geo p lx ly R b dl tr) :
    (isAvail p st.slice (b.x * 2 ^ p.s / 4 + lx * 2 ^ (p.lcu - 2) : Nat) (b.y * 2 ^ p.s / 4 + ly * 2 ^ (p.lcu - 2) : Nat)
        ((b.w * 2 ^ p.s / 2 : Nat) - 1) (-1) (int8 (k.slice lx ly)) && tr)
      = across (setting p k) u (k.slice lx ly) ((p.org lx + b.x : Nat) + b.w) ((p.org ly + b.y : Nat) - 1) b.w := by
  obtain ⟨m, e1, e2⟩ := unit4 hp (l := lx) G.dx
  obtain ⟨n, e3, e4⟩ := unit4 hp (l := ly) G.dy
  obtain ⟨hw0, hh0⟩ := shape_le G.shape
  have gx := G.x2; have gy := G.y2; have iw := G.inw; have ih := G.inh; have wr := G.wr
  obtain ⟨uw, euw⟩ := G.dw
  unfold across
  rw [e1, e3]
  by_cases hY : p.org ly + b.y = 0
  · have : n = 0 := by
      have := Nat.two_pow_pos (2 - p.s)
      rcases Nat.mul_eq_zero.mp (e4.symm.trans hY) with h | h <;> omega
    rw [isAvail_neg (by omega), all_false hw0]
    · rfl
    intro i
    exact usable_neg (by omega)
  · have hy : ((p.org ly + b.y : Nat) : Int) - 1 = ((p.org ly + b.y - 1 : Nat) : Int) := by omega
    rw [group hp hk I hc (fun i => (p.org lx + b.x + b.w + i, p.org ly + b.y - 1)) b.w (b.w - 1) (by omega) tr]
    · congr 1
      funext i
      rw [hy]
      push_cast
      rfl
    · dsimp only
      rcases s01 hp with h0 | h0 <;> rw [h0] at e2 e4 euw ⊢ <;> omega
    · dsimp only
      rcases s01 hp with h0 | h0 <;> rw [h0] at e2 e4 ⊢ <;> omega
    · intro h1 h2 i hi
      dsimp only at h1 ⊢
      exact ⟨by omega, h2⟩
    · intro h1 h2
      dsimp only at h1 h2 ⊢
      rw [G.tr (by omega)]
      by_cases hb : b.y = 0
      · simp only [hb, true_or, true_iff]
        intro i hi
        left
        obtain ⟨g1, g2⟩ := lc_prev (p := p) (l := ly) (X := p.org ly + 0 - 1) (by omega) (by omega)
        rw [g2]
        unfold Bef; omega
      · have ey : p.lc (p.org ly + b.y - 1) = ly := lc_at (by omega) (by omega)
        constructor
        · rintro (h | ⟨_, h⟩)
          · omega
          · exact fun i hi => Or.inr (h i hi)
        · intro h
          right
          by_cases hx : b.x + 2 * b.w ≤ p.T
          · refine ⟨hx, fun i hi => ?_⟩
            rcases h i hi with h' | h'
            · rw [ey, lc_at (l := lx) (by omega) (by omega)] at h'
              exact absurd h' not_bef_self
            · exact h'
          · exfalso
            have en : p.lc (p.org lx + b.x + b.w + 0) = lx + 1 := lc_next (by omega) (by omega)
            rcases h 0 hw0 with h' | h'
            · rw [ey, en] at h'
              unfold Bef at h'; omega
            · have := (I.inR _ _ h').1
              omega
    · intro h1 h2 _ i hi
      refine ⟨?_, rfl⟩
      dsimp only
      by_cases hx : b.x + 2 * b.w ≤ p.T
      · rw [lc_at (l := lx) (by omega) (by omega), lc_at (l := lx) (by omega) (by omega)]
      · rw [lc_next (l := lx) (by omega) (by omega), lc_next (l := lx) (by omega) (by omega)]

theorem flag_leftDown (hp : p.Ok) (hk : SlicesOk p k) (I : Inv p k lx ly R st u) (hc : k.slice lx ly < 255) (G : Geo p lx ly R b dl tr) :
    (isAvail p st.slice (b.x * 2 ^ p.s / 4 + lx * 2 ^ (p.lcu - 2) : Nat) (b.y * 2 ^ p.s / 4 + ly * 2 ^ (p.lcu - 2) : Nat)
        (-1) ((b.h * 2 ^ p.s / 2 : Nat) - 1) (int8 (k.slice lx ly)) && dl)
      = down (setting p k) u (k.slice lx ly) ((p.org lx + b.x : Nat) - 1) ((p.org ly + b.y : Nat) + b.h) b.h := by
  obtain ⟨m, e1, e2⟩ := unit4 hp (l := lx) G.dx
  obtain ⟨n, e3, e4⟩ := unit4 hp (l := ly) G.dy
  obtain ⟨hw0, hh0⟩ := shape_le G.shape
  have gx := G.x2; have gy := G.y2; have iw := G.inw; have ih := G.inh; have hd := G.hd
  obtain ⟨uh, euh⟩ := G.dh
  unfold down
  rw [e1, e3]
  by_cases hX : p.org lx + b.x = 0
  · have : m = 0 := by
      have := Nat.two_pow_pos (2 - p.s)
      rcases Nat.mul_eq_zero.mp (e2.symm.trans hX) with h | h <;> omega
    rw [isAvail_neg (by omega), all_false hh0]
    · rfl
    intro i
    exact usable_neg (by omega)
  · have hx : ((p.org lx + b.x : Nat) : Int) - 1 = ((p.org lx + b.x - 1 : Nat) : Int) := by omega
    rw [group hp hk I hc (fun i => (p.org lx + b.x - 1, p.org ly + b.y + b.h + i)) b.h (b.h - 1) (by omega) dl]
    · congr 1
      funext i
      rw [hx]
      push_cast
      rfl
    · dsimp only
      rcases s01 hp with h0 | h0 <;> rw [h0] at e2 e4 ⊢ <;> omega
    · dsimp only
      rcases s01 hp with h0 | h0 <;> rw [h0] at e2 e4 euh ⊢ <;> omega
    · intro h1 h2 i hi
      dsimp only at h2 ⊢
      exact ⟨h1, by omega⟩
    · intro h1 h2
      dsimp only at h1 h2 ⊢
      rw [G.dl (by omega)]
      by_cases hy : b.y + 2 * b.h ≤ p.T
      · have ey : ∀ i < b.h, p.lc (p.org ly + b.y + b.h + i) = ly := fun i hi => lc_at (by omega) (by omega)
        by_cases hb : b.x = 0
        · simp only [hy, hb, true_or, and_true, true_iff]
          intro i hi
          left
          obtain ⟨g1, g2⟩ := lc_prev (p := p) (l := lx) (X := p.org lx + 0 - 1) (by omega) (by omega)
          rw [g2, ey i hi]
          unfold Bef; omega
        · have ex : p.lc (p.org lx + b.x - 1) = lx := lc_at (by omega) (by omega)
          constructor
          · rintro ⟨_, h | h⟩
            · omega
            · exact fun i hi => Or.inr (h i hi)
          · intro h
            refine ⟨hy, Or.inr fun i hi => ?_⟩
            rcases h i hi with h' | h'
            · rw [ex, ey i hi] at h'
              exact absurd h' not_bef_self
            · exact h'
      · constructor
        · rintro ⟨h, _⟩
          omega
        · intro h
          exfalso
          have en : p.lc (p.org ly + b.y + b.h + 0) = ly + 1 := lc_next (by omega) (by omega)
          rcases h 0 hh0 with h' | h'
          · rw [en] at h'
            unfold Bef at h'; omega
          · have := (I.inR _ _ h').2
            omega
    · intro h1 h2 hdl i hi
      refine ⟨rfl, ?_⟩
      dsimp only at h2 ⊢
      have hy := ((G.dl (by omega)).mp hdl).1
      rw [lc_at (l := ly) (by omega) (by omega), lc_at (l := ly) (by omega) (by omega)]

/-- The flags of a block are the availability of its neighbours. -/
theorem flags (hp : p.Ok) (hk : SlicesOk p k) (I : Inv p k lx ly R st u) (hc : k.slice lx ly < 255) (G : Geo p lx ly R b dl tr) :
    neighbors p st.slice (b.x * 2 ^ p.s / 4 + lx * 2 ^ (p.lcu - 2)) (b.y * 2 ^ p.s / 4 + ly * 2 ^ (p.lcu - 2)) (b.w * 2 ^ p.s) (b.h * 2 ^ p.s)
        (int8 (k.slice lx ly))
      = specAvail p k u (k.slice lx ly) (p.org lx + b.x) (p.org ly + b.y) b.w b.h := by
  unfold neighbors specAvail
  rw [G.tabs]
  dsimp only [Option.getD]
  rw [flag_left hp hk I hc G, flag_top hp hk I hc G, flag_corner hp hk I hc G, flag_topRight hp hk I hc G, flag_leftDown hp hk I hc G]

end Davs2.Rp
