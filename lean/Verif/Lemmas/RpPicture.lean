import Verif.Lemmas.RpGeo
/-
C88: coding trees, rows and the picture.
-/
namespace Davs2.Rp
open Davs2.Spec Davs2.Ip Davs2.Qt

variable {p : Pic} {k : Coded} {lx ly : Nat}

/-- The blocks of a coding tree and of the plane, in decoding order. -/
def treeSpec (p : Pic) (k : Coded) (lx ly : Nat) : List Block :=
  (parse p.w p.h k.split (p.lcu - 3) (lx * 2 ^ p.lcu) (ly * 2 ^ p.lcu)).flatMap (cuSpec p k lx ly)

def rowSpec (p : Pic) (k : Coded) (ly : Nat) : List Block := (List.range ((p.w + 2 ^ p.lcu - 1) / 2 ^ p.lcu)).flatMap fun lx => treeSpec p k lx ly

def blocks (p : Pic) (k : Coded) : List Block := (List.range ((p.h + 2 ^ p.lcu - 1) / 2 ^ p.lcu)).flatMap (rowSpec p k)

/-- What holds before coding tree `lx` of row `ly`. -/
structure Top (p : Pic) (k : Coded) (lx ly : Nat) (st : St) (u : Part) : Prop where
  err : st.err = false
  slice : ∀ X Y, X < p.pw → Y < p.ph → Bef (p.lc X) (p.lc Y) lx ly → st.slice (Y * 2 ^ p.s / 8) (X * 2 ^ p.s / 8) = int8 (k.slice (p.lc X) (p.lc Y))
  done : ∀ X Y : Nat, X < p.pw → Y < p.ph → (u.done X Y = true ↔ Bef (p.lc X) (p.lc Y) lx ly)
  out : ∀ X Y : Nat, X < p.pw → Y < p.ph → Bef (p.lc X) (p.lc Y) lx ly → st.out X Y = u.val X Y
  old : ∀ X : Nat, X < p.pw → lx ≤ p.lc X → 0 < ly → ly * p.T < p.ph → st.bottom X = u.val X (p.org ly - 1 : Nat)
  new : ∀ X : Nat, X < p.pw → p.lc X < lx → (ly + 1) * p.T < p.ph → st.bottom X = u.val X (p.org (ly + 1) - 1 : Nat)
  cache : 0 < lx → p.org lx < p.pw → CacheOk p lx ly st.top u.val

theorem count_iff {w n l : Nat} (hn : 0 < n) : l < (w + n - 1) / n ↔ l * n < w := by
  rw [Nat.lt_iff_add_one_le, Nat.le_div_iff_mul_le hn, Nat.add_mul]
  omega

theorem in_iff (hp : p.Ok) {w l : Nat} (hw : 8 ∣ w) : l * 2 ^ p.lcu < w ↔ l * p.T < w / 2 ^ p.s := by
  rw [pow_ts hp, ← Nat.mul_assoc]
  obtain ⟨a, rfl⟩ := hw
  rcases s01 hp with h0 | h0 <;> rw [h0] <;> omega

theorem scu_lc (hp : p.Ok) (X l : Nat) : (l * 2 ^ (p.lcu - 3) ≤ X * 2 ^ p.s / 8 ∧ X * 2 ^ p.s / 8 < l * 2 ^ (p.lcu - 3) + 2 ^ (p.lcu - 3)) ↔ p.lc X = l := by
  rw [lc_eq]
  have e : p.T * 2 ^ p.s = 8 * 2 ^ (p.lcu - 3) := by
    rw [← pow_ts hp, show (8 : Nat) = 2 ^ 3 by rfl, ← Nat.pow_add]
    have := hp.lo
    congr 1; omega
  have e2 : l * p.T * 2 ^ p.s = 8 * (l * 2 ^ (p.lcu - 3)) := by rw [Nat.mul_assoc, e, Nat.mul_left_comm]
  rcases s01 hp with h0 | h0 <;> rw [h0] at e e2 ⊢ <;> omega

theorem ctu_eq (hp : p.Ok) {w l : Nat} (hw : 8 ∣ w) (h : l * 2 ^ p.lcu < w) :
    min (w - l * 2 ^ p.lcu) (2 ^ p.lcu) / 2 ^ p.s = min (w / 2 ^ p.s - p.org l) p.T := by
  have e := pow_ts hp
  have o := org_luma hp l
  obtain ⟨a, rfl⟩ := hw
  rcases s01 hp with h0 | h0 <;> rw [h0] at e o ⊢ <;> omega

theorem slice_init (hp : p.Ok) (h1 : lx * 2 ^ p.lcu < p.w) (h2 : ly * 2 ^ p.lcu < p.h) {st : St} {u : Part} (G : Top p k lx ly st u) :
    SliceOk p k lx ly (lcuInit p k lx ly st).slice := by
  intro X Y hX hY h
  unfold lcuInit
  dsimp only
  have sx := scu_lc hp X lx
  have sy := scu_lc hp Y ly
  have e : 2 ^ p.lcu = 8 * 2 ^ (p.lcu - 3) := by
    have := hp.lo
    rw [show (8 : Nat) = 2 ^ 3 by rfl, ← Nat.pow_add]; congr 1; omega
  rcases h with h | ⟨rfl, rfl⟩
  · rw [if_neg, G.slice X Y hX hY h]
    rintro ⟨a1, a2, a3, a4⟩
    have ex : p.lc X = lx := sx.mp ⟨a1, by omega⟩
    have ey : p.lc Y = ly := sy.mp ⟨a3, by omega⟩
    unfold Bef at h
    omega
  · obtain ⟨a1, a2⟩ := sx.mpr rfl
    obtain ⟨b1, b2⟩ := sy.mpr rfl
    rw [if_pos]
    have hXw : X * 2 ^ p.s < p.w := by
      unfold Pic.pw at hX
      rcases s01 hp with h0 | h0 <;> rw [h0] at hX ⊢ <;> omega
    have hYh : Y * 2 ^ p.s < p.h := by
      unfold Pic.ph at hY
      rcases s01 hp with h0 | h0 <;> rw [h0] at hY ⊢ <;> omega
    obtain ⟨w', hw'⟩ := hp.w
    obtain ⟨h', hh'⟩ := hp.h
    have m1 : p.lc X * 2 ^ p.lcu = 8 * (p.lc X * 2 ^ (p.lcu - 3)) := by rw [e, Nat.mul_left_comm]
    have m2 : p.lc Y * 2 ^ p.lcu = 8 * (p.lc Y * 2 ^ (p.lcu - 3)) := by rw [e, Nat.mul_left_comm]
    rw [m1, m2]
    omega

theorem cache_init (hp : p.Ok) (h1 : lx * 2 ^ p.lcu < p.w) (h2 : ly * 2 ^ p.lcu < p.h) {st : St} {u : Part} (G : Top p k lx ly st u) :
    CacheOk p lx ly (firstTop p lx (lcuInit p k lx ly st)).top u.val := by
  unfold firstTop
  by_cases h0 : lx = 0
  · subst h0
    rw [if_pos rfl]
    refine ⟨fun h => absurd h (by omega), ?_, fun h => absurd h (by omega)⟩
    intro hly i i1 i2 i3
    have hw : p.ctuW 0 = min (p.w / 2 ^ p.s - p.org 0) p.T := ctu_eq hp hp.w h1
    have ho : p.org 0 = 0 := Nat.zero_mul _
    rw [ho] at i3 hw ⊢
    have hpw : p.pw = p.w / 2 ^ p.s := rfl
    show put st.top 1 (p.ctuW 0 * 2) (fun i => st.bottom (i - 1)) i = _
    unfold put
    rw [if_pos (by rw [hw, ← hpw]; omega)]
    obtain ⟨n, rfl⟩ : ∃ n : Nat, i = n + 1 := ⟨(i - 1).toNat, by omega⟩
    have oly : 0 < p.org ly := Nat.mul_pos hly (Nat.two_pow_pos _)
    have := G.old n (by omega) (by omega) hly ((in_iff hp hp.h).mp h2)
    show st.bottom ((n : Int) + 1 - 1) = _
    rw [show (n : Int) + 1 - 1 = n by omega, this]
    congr 1 <;> omega
  · rw [if_neg h0]
    exact G.cache (by omega) ((in_iff hp hp.w).mp h1)

/-- All samples of a coding tree that lie in the picture. -/
theorem cus_all (hp : p.Ok) (h1 : lx * 2 ^ p.lcu < p.w) (h2 : ly * 2 ^ p.lcu < p.h) {X Y : Nat} (hX : X < p.pw) (hY : Y < p.ph) :
    Cus p (parse p.w p.h k.split (p.lcu - 3) (lx * 2 ^ p.lcu) (ly * 2 ^ p.lcu)) X Y ↔ p.lc X = lx ∧ p.lc Y = ly := by
  have hT := pow_ts hp
  have ox := org_luma hp lx
  have oy := org_luma hp ly
  have e : p.lcu - 3 + 3 = p.lcu := by have := hp.lo; omega
  have ox' : p.org lx = lx * p.T := rfl
  have oy' : p.org ly = ly * p.T := rfl
  rw [lc_eq, lc_eq, ← ox', ← oy']
  unfold Pic.pw at hX
  unfold Pic.ph at hY
  constructor
  · rintro ⟨d, hd, g⟩
    have f := tree_fits hp.w hp.h (show 3 ≤ p.lcu by omega) k.split h1 h2 d hd
    have := f.x1; have := f.x2; have := f.y1; have := f.y2
    unfold Cu.has at g
    rcases s01 hp with h0 | h0 <;> rw [h0] at hT ox oy g <;> omega
  · intro h
    apply parse_cover
    · rcases s01 hp with h0 | h0 <;> rw [h0] at hT ox oy ⊢ <;> omega
    · rw [e]; rcases s01 hp with h0 | h0 <;> rw [h0] at hT ox oy ⊢ <;> omega
    · rcases s01 hp with h0 | h0 <;> rw [h0] at hT ox oy ⊢ <;> omega
    · rw [e]; rcases s01 hp with h0 | h0 <;> rw [h0] at hT ox oy ⊢ <;> omega
    · rcases s01 hp with h0 | h0 <;> rw [h0] at hX ⊢ <;> omega
    · rcases s01 hp with h0 | h0 <;> rw [h0] at hY ⊢ <;> omega

theorem bef_succ {a b : Nat} : Bef a b (lx + 1) ly ↔ Bef a b lx ly ∨ (a = lx ∧ b = ly) := by unfold Bef; omega

theorem tree_step (hp : p.Ok) (hk : SlicesOk p k) (env : Env) (h1 : lx * 2 ^ p.lcu < p.w) (h2 : ly * 2 ^ p.lcu < p.h)
    (hc : ∀ c ∈ parse p.w p.h k.split (p.lcu - 3) (lx * 2 ^ p.lcu) (ly * 2 ^ p.lcu), ContentOk k c) {st : St} {u : Part} (G : Top p k lx ly st u) :
    Top p k (lx + 1) ly (lcuStep p k env ly st lx) ((treeSpec p k lx ly).foldl (Block.step (setting p k)) u) ∧
      (lcuStep p k env ly st lx).inTab = st.inTab := by
  have I0 : Inv p k lx ly (Cus p []) (firstTop p lx (lcuInit p k lx ly st)) u := by
    have no : ∀ X Y, ¬ Cus p [] X Y := by rintro X Y ⟨d, hd, _⟩; cases hd
    refine ⟨?_, ?_, fun X Y h => absurd h (no X Y), fun X Y h => absurd h (no X Y), cache_init hp h1 h2 G⟩
    · have : (firstTop p lx (lcuInit p k lx ly st)).slice = (lcuInit p k lx ly st).slice := by
        unfold firstTop
        by_cases h0 : lx = 0
        · rw [if_pos h0]
        · rw [if_neg h0]
      rw [this]
      exact slice_init hp h1 h2 G
    · intro X Y hX hY
      rw [G.done X Y hX hY, or_iff_left (no X Y)]
  obtain ⟨I, K, F⟩ := tree_fold hp hk env h1 h2 hc _ [] _ u rfl I0
  rw [List.nil_append] at I
  have kb : (firstTop p lx (lcuInit p k lx ly st)).bottom = st.bottom ∧ (firstTop p lx (lcuInit p k lx ly st)).err = st.err ∧
      (firstTop p lx (lcuInit p k lx ly st)).inTab = st.inTab ∧ (firstTop p lx (lcuInit p k lx ly st)).out = st.out := by
    unfold firstTop
    by_cases h0 : lx = 0
    · rw [if_pos h0]; exact ⟨rfl, rfl, rfl, rfl⟩
    · rw [if_neg h0]; exact ⟨rfl, rfl, rfl, rfl⟩
  obtain ⟨kb1, kb2, kb3, kb4⟩ := kb
  have Kb := K.bottom.trans kb1
  have Ke := K.err.trans (kb2.trans G.err)
  have Ki := K.inTab.trans kb3
  have Ko := K.out.trans kb4
  clear K kb1 kb2 kb3 kb4 I0
  unfold lcuStep treeSpec
  rw [G.err, if_neg (by decide)]
  dsimp only
  generalize (parse p.w p.h k.split (p.lcu - 3) (lx * 2 ^ p.lcu) (ly * 2 ^ p.lcu)).foldl (cuRecon p k env lx ly)
    (firstTop p lx (lcuInit p k lx ly st)) = s1 at I Kb Ke Ki Ko ⊢
  generalize ((parse p.w p.h k.split (p.lcu - 3) (lx * 2 ^ p.lcu) (ly * 2 ^ p.lcu)).flatMap (cuSpec p k lx ly)).foldl (Block.step (setting p k)) u = u' at I F ⊢
  have hW : p.ctuW lx = min (p.pw - p.org lx) p.T := ctu_eq hp hp.w h1
  have hH : p.ctuH ly = min (p.ph - p.org ly) p.T := ctu_eq hp hp.h h2
  have ox' : p.org lx = lx * p.T := rfl
  have oy' : p.org ly = ly * p.T := rfl
  have nx' : p.org (lx + 1) = p.org lx + p.T := Nat.succ_mul _ _
  have ny' : p.org (ly + 1) = p.org ly + p.T := Nat.succ_mul _ _
  have hw1 : p.org lx < p.pw := (in_iff hp hp.w).mp h1
  have hh1 : p.org ly < p.ph := (in_iff hp hp.h).mp h2
  have hTp := T_pos p
  have lcX : ∀ X, p.lc X = lx ↔ p.org lx ≤ X ∧ X < p.org lx + p.T := fun X => lc_eq
  have lcY : ∀ X, p.lc X = ly ↔ p.org ly ≤ X ∧ X < p.org ly + p.T := fun X => lc_eq
  have pl : ∀ X Y : Nat, X < p.pw → Y < p.ph → p.lc X = lx → p.lc Y = ly → s1.plane X Y = u'.val X Y := fun X Y a b c d =>
    I.same X Y ((cus_all hp h1 h2 a b).mpr ⟨c, d⟩)
  have last : ly < (p.h + 2 ^ p.lcu - 1) / 2 ^ p.lcu - 1 ↔ (ly + 1) * p.T < p.ph := by
    have := count_iff (w := p.h) (l := ly + 1) (Nat.two_pow_pos p.lcu)
    have e := in_iff (l := ly + 1) hp hp.h
    have hph : p.ph = p.h / 2 ^ p.s := rfl
    rw [hph, ← e, ← this]
    omega
  have pb : ∀ s : St, (backup p lx ly s).err = s.err ∧ (backup p lx ly s).slice = s.slice ∧ (backup p lx ly s).out = s.out ∧ (backup p lx ly s).top = s.top ∧
      (backup p lx ly s).inTab = s.inTab ∧ (backup p lx ly s).bottom = if (ly + 1) * p.T < p.ph then put s.bottom (p.org lx) (p.ctuW lx) fun i => s.plane i (p.org ly + p.ctuH ly - 1) else s.bottom := by
    intro s
    unfold backup
    by_cases h0 : (ly + 1) * p.T < p.ph
    · rw [if_pos (last.mpr h0), if_pos h0]; exact ⟨rfl, rfl, rfl, rfl, rfl, rfl⟩
    · rw [if_neg (fun h => h0 (last.mp h)), if_neg h0]; exact ⟨rfl, rfl, rfl, rfl, rfl, rfl⟩
  obtain ⟨b1, b2, b3, b4, b5, b6⟩ := pb (cacheBorder p lx ly { s1 with out := write s1.out (p.org lx) (p.org ly) (p.ctuW lx) (p.ctuH ly) fun x y => s1.plane (p.org lx + x) (p.org ly + y) })
  refine ⟨⟨b1.trans Ke, ?_, ?_, ?_, ?_, ?_, ?_⟩, b5.trans Ki⟩
  · intro X Y hX hY h
    show (backup p lx ly _).slice _ _ = _
    rw [b2]
    exact I.slice X Y hX hY (bef_succ.mp h)
  · intro X Y hX hY
    rw [I.done X Y hX hY, cus_all hp h1 h2 hX hY, bef_succ]
  · intro X Y hX hY h
    show (backup p lx ly _).out _ _ = _
    rw [b3]
    show write s1.out (p.org lx) (p.org ly) (p.ctuW lx) (p.ctuH ly) (fun x y => s1.plane (p.org lx + x) (p.org ly + y)) X Y = _
    unfold write
    by_cases hin : p.lc X = lx ∧ p.lc Y = ly
    · have hx := (lcX X).mp hin.1
      have hy := (lcY Y).mp hin.2
      rw [if_pos (by omega), ← pl X Y hX hY hin.1 hin.2]
      dsimp only
      congr 1 <;> omega
    · rw [if_neg, Ko, G.out X Y hX hY ((bef_succ.mp h).resolve_right hin), F X Y hin]
      intro hh
      exact hin ⟨(lcX X).mpr (by omega), (lcY Y).mpr (by omega)⟩
  · intro X hX hl hly _
    have hpo : 0 < p.org ly := Nat.mul_pos hly hTp
    show (backup p lx ly _).bottom _ = _
    have ne : ¬ (p.lc X = lx ∧ p.lc (p.org ly - 1) = ly) := by omega
    rw [b6, F X _ ne, ← G.old X hX (by omega) hly hh1, ← Kb]
    by_cases h0 : (ly + 1) * p.T < p.ph
    · rw [if_pos h0]
      unfold put
      rw [if_neg]
      · rfl
      · intro hh
        have := (lcX X).mpr (by omega)
        omega
    · rw [if_neg h0]
      rfl
  · intro X hX hl h0
    show (backup p lx ly _).bottom _ = _
    rw [b6, if_pos h0]
    have h0' : p.org (ly + 1) < p.ph := h0
    unfold put
    by_cases he : p.lc X = lx
    · have hx := (lcX X).mp he
      rw [if_pos (by omega)]
      have := pl X (p.org (ly + 1) - 1) hX (by omega) he ((lcY _).mpr (by omega))
      rw [← this]
      show s1.plane _ _ = _
      congr 1
      omega
    · rw [if_neg]
      · show s1.bottom X = _
        rw [Kb, G.new X hX (by omega) h0, F X _ (by omega)]
      · intro hh
        exact he ((lcX X).mpr (by omega))
  · intro _ hnx
    show CacheOk p (lx + 1) ly (backup p lx ly _).top u'.val
    rw [b4]
    have eW : p.ctuW lx = p.T := by omega
    have top_eq : ∀ i : Int, (cacheBorder p lx ly { s1 with out := write s1.out (p.org lx) (p.org ly) (p.ctuW lx) (p.ctuH ly) fun x y => s1.plane (p.org lx + x) (p.org ly + y) }).top i =
        put (put s1.top 0 (2 * p.T + 1) fun i => s1.bottom (p.org lx + p.T - 1 + i)) (-(p.ctuH ly)) (p.ctuH ly) (fun i => s1.plane (p.org lx + p.T - 1) (p.org ly - 1 - i)) i := by
      intro i
      unfold cacheBorder
      dsimp only
      rw [eW]
    have bot : 0 < ly → ∀ X : Nat, X < p.pw → lx ≤ p.lc X → s1.bottom X = u'.val X (p.org ly - 1 : Nat) := by
      intro hly X hX hl
      have hpo : 0 < p.org ly := Nat.mul_pos hly hTp
      rw [Kb, G.old X hX hl hly hh1, F X]
      intro hh
      have := (lcY _).mp hh.2
      omega
    have lcl : p.lc (p.org lx + p.T - 1) = lx := (lcX _).mpr (by omega)
    refine ⟨?_, ?_, ?_⟩
    · intro _ hly
      have hpo : 0 < p.org ly := Nat.mul_pos hly hTp
      rw [top_eq]
      unfold put
      rw [if_neg (by omega), if_pos (by omega)]
      have := bot hly (p.org lx + p.T - 1) (by omega) (by omega)
      dsimp only
      rw [show (p.org lx : Int) + p.T - 1 + 0 = (p.org lx + p.T - 1 : Nat) by omega, this]
      congr 1 <;> omega
    · intro hly i i1 i2 i3
      have hpo : 0 < p.org ly := Nat.mul_pos hly hTp
      rw [top_eq]
      unfold put
      rw [if_neg (by omega), if_pos (by omega)]
      obtain ⟨n, rfl⟩ : ∃ n : Nat, i = n := ⟨i.toNat, by omega⟩
      have lcn : lx ≤ p.lc (p.org lx + p.T - 1 + n) := by
        exact Nat.le_trans (Nat.le_of_eq lcl.symm) (Nat.div_le_div_right (by omega))
      have := bot hly (p.org lx + p.T - 1 + n) (by omega) lcn
      dsimp only
      rw [show (p.org lx : Int) + p.T - 1 + n = (p.org lx + p.T - 1 + n : Nat) by omega, this]
      congr 1 <;> omega
    · intro _ i i1 i2 i3
      rw [top_eq]
      unfold put
      rw [if_pos (by omega)]
      obtain ⟨n, rfl⟩ : ∃ n : Nat, i = n := ⟨i.toNat, by omega⟩
      have := pl (p.org lx + p.T - 1) (p.org ly + n - 1) (by omega) (by omega) lcl ((lcY _).mpr (by omega))
      rw [show (p.org (lx + 1) : Int) - 1 = (p.org lx + p.T - 1 : Nat) by omega, show (p.org ly : Int) - 1 + n = (p.org ly + n - 1 : Nat) by omega, ← this]
      dsimp only
      congr 1 <;> omega

theorem row_fold (hp : p.Ok) (hk : SlicesOk p k) (env : Env) (h2 : ly * 2 ^ p.lcu < p.h)
    (hc : ∀ lx, lx * 2 ^ p.lcu < p.w → ∀ c ∈ parse p.w p.h k.split (p.lcu - 3) (lx * 2 ^ p.lcu) (ly * 2 ^ p.lcu), ContentOk k c)
    {st : St} {u : Part} (G : Top p k 0 ly st u) : ∀ n, n ≤ (p.w + 2 ^ p.lcu - 1) / 2 ^ p.lcu →
      Top p k n ly ((List.range n).foldl (lcuStep p k env ly) st) (((List.range n).flatMap fun lx => treeSpec p k lx ly).foldl (Block.step (setting p k)) u) ∧
        ((List.range n).foldl (lcuStep p k env ly) st).inTab = st.inTab := by
  intro n
  induction n with
  | zero => intro _; exact ⟨G, rfl⟩
  | succ n ih =>
    intro hn
    obtain ⟨G', e⟩ := ih (by omega)
    have hw : n * 2 ^ p.lcu < p.w := (count_iff (Nat.two_pow_pos p.lcu)).mp (by omega)
    have key := tree_step hp hk env hw h2 (hc n hw) G'
    rw [List.range_succ, List.foldl_append, List.flatMap_append, List.foldl_append]
    simp only [List.foldl_cons, List.foldl_nil, List.flatMap_cons, List.flatMap_nil, List.append_nil]
    exact ⟨key.1, key.2.trans e⟩

theorem row_step (hp : p.Ok) (hk : SlicesOk p k) (env : Env) (h2 : ly * 2 ^ p.lcu < p.h)
    (hc : ∀ lx, lx * 2 ^ p.lcu < p.w → ∀ c ∈ parse p.w p.h k.split (p.lcu - 3) (lx * 2 ^ p.lcu) (ly * 2 ^ p.lcu), ContentOk k c)
    {st : St} {u : Part} (G : Top p k 0 ly st u) :
    Top p k 0 (ly + 1) (row p k env st ly) ((rowSpec p k ly).foldl (Block.step (setting p k)) u) ∧ (row p k env st ly).inTab = st.inTab := by
  have G0 : Top p k 0 ly { st with top := env.rowTop ly } u :=
    ⟨G.err, G.slice, G.done, G.out, G.old, G.new, fun h => absurd h (by omega)⟩
  obtain ⟨R, e⟩ := row_fold hp hk env h2 hc G0 _ (Nat.le_refl _)
  have cnt : ∀ X, X < p.pw → p.lc X < (p.w + 2 ^ p.lcu - 1) / 2 ^ p.lcu := fun X hX =>
    (count_iff (Nat.two_pow_pos p.lcu)).mpr (lc_in hp hX)
  have bef : ∀ X Y, X < p.pw → (Bef (p.lc X) (p.lc Y) 0 (ly + 1) ↔ Bef (p.lc X) (p.lc Y) ((p.w + 2 ^ p.lcu - 1) / 2 ^ p.lcu) ly) := by
    intro X Y hX
    have := cnt X hX
    unfold Bef
    omega
  refine ⟨⟨R.err, ?_, ?_, ?_, ?_, ?_, fun h => absurd h (by omega)⟩, e⟩
  · intro X Y hX hY h
    exact R.slice X Y hX hY ((bef X Y hX).mp h)
  · intro X Y hX hY
    rw [bef X Y hX]
    exact R.done X Y hX hY
  · intro X Y hX hY h
    exact R.out X Y hX hY ((bef X Y hX).mp h)
  · intro X hX _ _ h
    exact R.new X hX (cnt X hX) h
  · intro X _ h; omega

theorem rows_fold (hp : p.Ok) (hk : SlicesOk p k) (env : Env)
    (hc : ∀ lx ly, lx * 2 ^ p.lcu < p.w → ly * 2 ^ p.lcu < p.h → ∀ c ∈ parse p.w p.h k.split (p.lcu - 3) (lx * 2 ^ p.lcu) (ly * 2 ^ p.lcu), ContentOk k c)
    {st : St} {u : Part} (G : Top p k 0 0 st u) : ∀ n, n ≤ (p.h + 2 ^ p.lcu - 1) / 2 ^ p.lcu →
      Top p k 0 n ((List.range n).foldl (row p k env) st) (((List.range n).flatMap (rowSpec p k)).foldl (Block.step (setting p k)) u) ∧
        ((List.range n).foldl (row p k env) st).inTab = st.inTab := by
  intro n
  induction n with
  | zero => intro _; exact ⟨G, rfl⟩
  | succ n ih =>
    intro hn
    obtain ⟨G', e⟩ := ih (by omega)
    have hh : n * 2 ^ p.lcu < p.h := (count_iff (Nat.two_pow_pos p.lcu)).mp (by omega)
    have key := row_step hp hk env hh (fun lx hx => hc lx n hx hh) G'
    rw [List.range_succ, List.foldl_append, List.flatMap_append, List.foldl_append]
    simp only [List.foldl_cons, List.foldl_nil, List.flatMap_cons, List.flatMap_nil, List.append_nil]
    exact ⟨key.1, key.2.trans e⟩

theorem start (st : St) : Top p k 0 0 { st with err := false } ⟨fun _ _ => 0, fun _ _ => false⟩ := by
  refine ⟨rfl, ?_, ?_, ?_, ?_, ?_, ?_⟩
  · intro X Y _ _ h; unfold Bef at h; omega
  · intro X Y _ _
    constructor
    · intro h; cases h
    · intro h; unfold Bef at h; omega
  · intro X Y _ _ h; unfold Bef at h; omega
  · intro X _ _ h; omega
  · intro X _ h; omega
  · intro h; omega

theorem picture (hp : p.Ok) (hk : SlicesOk p k) (env : Env)
    (hc : ∀ lx ly, lx * 2 ^ p.lcu < p.w → ly * 2 ^ p.lcu < p.h → ∀ c ∈ parse p.w p.h k.split (p.lcu - 3) (lx * 2 ^ p.lcu) (ly * 2 ^ p.lcu), ContentOk k c)
    (st : St) : (run p k env st).err = false ∧ (run p k env st).inTab = st.inTab ∧
      ∀ X Y : Nat, X < p.pw → Y < p.ph → (run p k env st).out X Y = (reconstruct (setting p k) (blocks p k)).val X Y ∧
        (reconstruct (setting p k) (blocks p k)).done X Y = true := by
  obtain ⟨R, e⟩ := rows_fold hp hk env hc (start st) _ (Nat.le_refl _)
  refine ⟨R.err, e, ?_⟩
  intro X Y hX hY
  have b : Bef (p.lc X) (p.lc Y) 0 ((p.h + 2 ^ p.lcu - 1) / 2 ^ p.lcu) := Or.inl ((count_iff (Nat.two_pow_pos p.lcu)).mpr (lc_in hp hY))
  exact ⟨R.out X Y hX hY b, (R.done X Y hX hY).mpr b⟩

theorem done_block {s : Setting} {X Y : Int} : ∀ (bs : List Block) (u : Part), (bs.foldl (Block.step s) u).done X Y = true →
    u.done X Y = true ∨ ∃ b ∈ bs, (b.x : Int) ≤ X ∧ X < b.x + b.w ∧ (b.y : Int) ≤ Y ∧ Y < b.y + b.h := by
  intro bs
  induction bs with
  | nil => intro u h; exact Or.inl h
  | cons b bs ih =>
    intro u h
    rcases ih _ h with h | ⟨b', hb, h⟩
    · unfold Block.step at h
      dsimp only at h
      rw [Bool.or_eq_true, decide_eq_true_eq] at h
      rcases h with h | h
      · exact Or.inr ⟨b, by simp, h⟩
      · exact Or.inl h
    · exact Or.inr ⟨b', by simp [hb], h⟩

end Davs2.Rp
