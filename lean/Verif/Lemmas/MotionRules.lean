import Verif.Lemmas.MotionAgain
import Verif.Lemmas.SkipModes
import Verif.Spec.MotionRules
/-
Lemmas for C92 to C94: neighbours in the finished picture, values of the blocks of a skipped coding unit.
-/
namespace Davs2.Mo
open Davs2.Un Davs2.Qt Davs2.Spec

variable {α β : Type}

theorem ok_bind {m : M α} {f : α → M β} {b : β} (h : (m >>= f) = .ok b) : ∃ a, m = .ok a ∧ f a = .ok b := by
  cases hm : m with
  | error x => rw [hm] at h; cases h
  | ok a => rw [hm] at h; exact ⟨a, rfl, h⟩

theorem ok_pure {a b : α} (h : (pure a : M α) = .ok b) : a = b := by cases h; rfl

theorem env_mono {p : Pic} {D E : Nat → Nat → Prop} {cx cy n : Nat} (e : Env p D cx cy n) (h : ∀ X Y, D X Y → E X Y)
    (ho : ∀ X Y, E X Y → ¬ (cx ≤ X ∧ X < cx + n ∧ cy ≤ Y ∧ Y < cy + n)) : Env p E cx cy n := by
  refine ⟨e.pos, e.inw, e.inh, fun X Y a b => h _ _ (e.left X Y a b), fun X Y a b => h _ _ (e.top X Y a b), fun x y bw a b c d f g => ?_, ho⟩
  obtain ⟨t, h1, h2⟩ := e.tr x y bw a b c d f g
  exact ⟨t, h1, fun a b c => h _ _ (h2 a b c)⟩

/-- All that a coding unit needs is outside of it. -/
theorem tree_env {p : Pic} (hp : p.Ok) {sy : Syn} {l : Nat × Nat} (lm : l ∈ lcus p) {c : Cu} (cm : c ∈ tree p sy l) :
    Env p (fun X Y => ¬ Cu.InB c X Y) (c.x / 4) (c.y / 4) (2 ^ c.l / 4) := by
  obtain ⟨prec, postc, hc⟩ := List.append_of_mem cm
  have e := env_ok hp (Dl := fun X Y => ¬ (l.1 * 2 ^ p.lcu ≤ 4 * X ∧ 4 * X < l.1 * 2 ^ p.lcu + 2 ^ p.lcu ∧ l.2 * 2 ^ p.lcu ≤ 4 * Y ∧ 4 * Y < l.2 * 2 ^ p.lcu + 2 ^ p.lcu))
    ((mem_lcus p l).mp lm).1 ((mem_lcus p l).mp lm).2 (fun X Y _ _ h => by omega) (fun X Y h => h) hc
  refine env_mono e (fun X Y h hi => e.out X Y h hi) (fun X Y h => h)

theorem erase_sim {c : Cu} {F : St} {s : Int} : Sim s (fun X Y => ¬ Cu.InB c X Y) (erase c F) F :=
  fun _ _ h => ⟨rfl, fun _ => erase_out h⟩

theorem neighbor_ok {p : Pic} {F : St} {s x y : Int} {o : Option Blk} (h : neighbor p F s x y = .ok o) : o = Mo.Spec.visible p F s x y := by
  unfold neighbor at h
  unfold Mo.Spec.visible
  by_cases h1 : y < 0 ∨ y ≥ p.h ∨ x < 0 ∨ x ≥ p.w
  · rw [if_pos h1] at h
    rw [if_neg (by omega)]
    exact (ok_pure h).symm
  · rw [if_neg h1] at h
    by_cases h2 : F.slice (x.toNat / 2) (y.toNat / 2) ≠ s
    · rw [if_pos h2] at h
      rw [if_neg fun q => h2 q.2.2.2.2]
      exact (ok_pure h).symm
    · rw [if_neg h2] at h
      rw [if_pos ⟨by omega, by omega, by omega, by omega, not_not.mp h2⟩]
      cases hm : F.mot x.toNat y.toNat with
      | none => rw [hm] at h; cases h
      | some b => rw [hm] at h; exact (ok_pure h).symm

theorem visible_off {p : Pic} {F : St} {s y : Int} : Mo.Spec.visible p F s (-1) y = none := by
  unfold Mo.Spec.visible
  rw [if_neg (by omega)]

/-- The list of neighbours of the code. -/
theorem neighbors_ok {p : Pic} {F : St} {s : Int} {x y n : Nat} {ns : List Blk} (h : neighbors p F s x y n = .ok ns) :
    ∃ t, Qt.availTR p.lcu x y n = some t ∧ ns.reverse =
      [Spec.visible p F s (x - 1) (y + n - 1), Spec.visible p F s (x + n - 1) (y - 1), if t then Spec.visible p F s (x + n) (y - 1) else none,
        Spec.visible p F s (x - 1) y, Spec.visible p F s x (y - 1), Spec.visible p F s (x - 1) (y - 1)].map (·.getD noBlk) := by
  unfold neighbors at h
  obtain ⟨t, h0, h⟩ := ok_bind h
  obtain ⟨tl, h1, h⟩ := ok_bind h
  obtain ⟨tt, h2, h⟩ := ok_bind h
  obtain ⟨ll, h3, h⟩ := ok_bind h
  obtain ⟨r, h4, h⟩ := ok_bind h
  obtain ⟨t2, h5, h⟩ := ok_bind h
  obtain ⟨l2, h6, h⟩ := ok_bind h
  obtain ⟨_, h7, h⟩ := ok_bind h
  refine ⟨t, ?_, ?_⟩
  · unfold trAvail at h0
    cases ha : Qt.availTR p.lcu x y n with
    | none => rw [ha] at h0; cases h0
    | some b => rw [ha] at h0; rw [ok_pure h0]
  · rw [← ok_pure h, neighbor_ok h1, neighbor_ok h2, neighbor_ok h3, neighbor_ok h4, neighbor_ok h5, neighbor_ok h6]
    rw [show ((if t = true then (x : Int) + n - 1 + 1 else -1)) = if t then (x : Int) + n else -1 by split <;> omega]
    cases t
    · rw [if_neg (by decide), if_neg (by decide), visible_off]
      rfl
    · rfl

theorem cons_some {b : Blk} {os : List (Option Blk)} : (some b :: os).filterMap id = b :: os.filterMap id := rfl

/-- Neighbours that are not there do not count. -/
theorem first_present {k : Blk → Bool} (hk : k noBlk = false) (os : List (Option Blk)) : Spec.first k (os.map (·.getD noBlk)) = Spec.first k (os.filterMap id) := by
  unfold Spec.first
  induction os with
  | nil => rfl
  | cons o os ih =>
    cases o with
    | none => rw [List.map_cons, List.find?_cons, List.filterMap_cons_none rfl]; simp only [Option.getD_none, hk]; exact ih
    | some b =>
      rw [List.map_cons, List.find?_cons, cons_some, List.find?_cons]
      simp only [Option.getD_some]
      rw [ih]

theorem last_present {k : Blk → Bool} (hk : k noBlk = false) (os : List (Option Blk)) : Spec.last k (os.map (·.getD noBlk)) = Spec.last k (os.filterMap id) := by
  unfold Spec.last
  generalize (none : Option Blk) = i
  induction os generalizing i with
  | nil => rfl
  | cons o os ih =>
    cases o with
    | none => rw [List.map_cons, List.foldl_cons, List.filterMap_cons_none rfl]; simp only [Option.getD_none, hk]; exact ih i
    | some b =>
      rw [List.map_cons, List.foldl_cons, cons_some, List.foldl_cons]
      simp only [Option.getD_some]
      rw [ih]

theorem any_present {k : Blk → Bool} (hk : k noBlk = false) (os : List (Option Blk)) : (os.map (·.getD noBlk)).any k = (os.filterMap id).any k := by
  induction os with
  | nil => rfl
  | cons o os ih =>
    cases o with
    | none => rw [List.map_cons, List.any_cons, List.filterMap_cons_none rfl]; simp only [Option.getD_none, hk, Bool.false_or]; exact ih
    | some b =>
      rw [List.map_cons, List.any_cons, cons_some, List.any_cons]
      simp only [Option.getD_some]
      rw [ih]

theorem two_present {k : Blk → Bool} (hk : k noBlk = false) (os : List (Option Blk)) : Spec.two k (os.map (·.getD noBlk)) = Spec.two k (os.filterMap id) := by
  unfold Spec.two
  induction os with
  | nil => rfl
  | cons o os ih =>
    cases o with
    | none =>
      rw [List.map_cons, List.filterMap_cons_none rfl, Option.getD_none, List.dropWhile_cons, if_pos (by rw [hk]; rfl)]
      exact ih
    | some b =>
      rw [List.map_cons, cons_some, Option.getD_some, List.dropWhile_cons, List.dropWhile_cons]
      cases hb : k b
      · rw [if_pos (by decide), if_pos (by decide)]
        exact ih
      · rw [if_neg (by decide), if_neg (by decide)]
        exact any_present hk os

theorem bSkip_present (os : List (Option Blk)) (ds : Nat) : Spec.bSkip (os.map (·.getD noBlk)) ds = Spec.bSkip (os.filterMap id) ds := by
  unfold Spec.bSkip
  dsimp only
  rw [first_present (by decide), first_present (by decide), first_present (by decide), first_present (by decide), last_present (by decide), two_present (by decide)]

theorem fSkip_present (os : List (Option Blk)) (ds : Nat) : Spec.fSkip (os.map (·.getD noBlk)) ds = Spec.fSkip (os.filterMap id) ds := by
  unfold Spec.fSkip
  dsimp only
  rw [first_present (by decide), first_present (by decide), last_present (by decide), last_present (by decide), two_present (by decide), two_present (by decide)]

/-- The blocks of the units of a skipped coding unit. -/
theorem skipUnits_val {C : Nat → Nat → Prop} {cx cy : Nat} {dir : Option Int} {get : St → Nat → Nat → M Mv} {a : St}
    (hget : ∀ st, Frame C a st → ∀ X Y, get st X Y = get a X Y) : ∀ (us : List (Cb × Nat)) (st : St) (r : St × List (Mv × Nat)), Frame C a st →
    (∀ q ∈ us, ∀ X Y, InU cx cy q.1 X Y → C X Y) → (∀ X Y, us.Pairwise (fun q r => ¬ (InU cx cy q.1 X Y ∧ InU cx cy r.1 X Y))) →
    skipUnits cx cy dir get st us = .ok r →
    (∀ X Y, (∀ q ∈ us, ¬ InU cx cy q.1 X Y) → r.1.mot X Y = st.mot X Y) ∧
    ∀ q ∈ us, ∃ m, get a (cx + q.1.x / 4) (cy + q.1.y / 4) = .ok m ∧
      ∀ X Y, InU cx cy q.1 X Y → ∃ d, r.1.mot X Y = some ⟨dir.getD d, m.r1, m.r2, m.v1, m.v2⟩ := by
  intro us
  induction us with
  | nil =>
    intro st r _ _ _ h
    cases ok_pure h
    exact ⟨fun _ _ _ => rfl, fun q hq => by cases hq⟩
  | cons q us ih =>
    intro st r h0 hu hp h
    unfold skipUnits at h
    obtain ⟨m, hm, h⟩ := ok_bind h
    obtain ⟨r', hr', h⟩ := ok_bind h
    cases ok_pure h
    obtain ⟨i1, i2⟩ := ih _ r' (h0.rect (hu _ (List.mem_cons_self ..)) _) (fun q hq => hu q (List.mem_cons_of_mem _ hq)) (fun X Y => (List.pairwise_cons.mp (hp X Y)).2) hr'
    refine ⟨fun X Y hX => ?_, fun q' hq' => ?_⟩
    · refine (i1 X Y fun q hq => hX q (List.mem_cons_of_mem _ hq)).trans ?_
      dsimp only
      exact rect_out (hX _ (List.mem_cons_self ..))
    · rcases List.mem_cons.mp hq' with rfl | hq'
      · refine ⟨m, (hget st h0 _ _).symm.trans hm, fun X Y hX => ?_⟩
        refine ⟨((st.mot X Y).map (·.dir)).getD (-1), (i1 X Y fun q hq hi => (List.pairwise_cons.mp (hp X Y)).1 q hq ⟨hX, hi⟩).trans ?_⟩
        dsimp only
        exact rect_in hX
      · exact i2 q' hq'

/-- In the finished picture: the units of a coding unit, derived again. -/
theorem again_units {p : Pic} (hp : p.Ok) {sy : Syn} (hd : ∀ l ∈ lcus p, ∀ c ∈ tree p sy l, Delivered p c.l (sy.sym c)) {slice : Nat → Nat → Int} {cu : Nat → Nat → CuRec} {F : St}
    (hF : picMotion p sy slice cu = .ok F) {l : Nat × Nat} (lm : l ∈ lcus p) {c : Cu} (cm : c ∈ tree p sy l) :
    ∃ r, cuUnits p (erase c F) (sy.slice l.1 l.2) (c.x / 4) (c.y / 4) (2 ^ c.l / 4) (puUnits p.frame (sy.sym c).ds (sy.sym c).mode c.l).zipIdx (F.cu (c.x / 8) (c.y / 8)) (sy.sym c) = .ok r ∧
      r.1.mot = F.mot := by
  obtain ⟨h, hs⟩ := again hp hd hF lm cm
  unfold cuMotion at h
  obtain ⟨r, hr, h⟩ := ok_bind h
  obtain ⟨use, -, h⟩ := ok_bind h
  refine ⟨r, ?_, ?_⟩
  · rw [← hs]
    exact hr
  · have := congrArg St.mot (ok_pure h)
    exact this

theorem split_unique {c : Cu} {B B' : List Cu} : ∀ A A' : List Cu, (A ++ c :: B).Nodup → A ++ c :: B = A' ++ c :: B' → A = A' := by
  intro A
  induction A with
  | nil =>
    intro A' hn h
    cases A' with
    | nil => rfl
    | cons a A' =>
      rw [List.nil_append, List.cons_append, List.cons.injEq] at h
      rw [List.nil_append, List.nodup_cons, h.2] at hn
      exact absurd (by simp) hn.1
  | cons a A ih =>
    intro A' hn h
    cases A' with
    | nil =>
      rw [List.nil_append, List.cons_append, List.cons.injEq] at h
      rw [List.cons_append, List.nodup_cons, h.1] at hn
      exact absurd (by simp) hn.1
    | cons a' A' =>
      rw [List.cons_append, List.cons_append, List.cons.injEq] at h
      rw [List.cons_append, List.nodup_cons] at hn
      rw [h.1, ih A' hn.2 h.2]

theorem order_nodup {p : Pic} (hp : p.Ok) (sy : Syn) : (Spec.order p sy).Nodup := by
  unfold Spec.order List.Nodup
  rw [List.pairwise_flatMap]
  constructor
  · intro l lm
    refine List.Pairwise.imp_of_mem ?_ (tree_disj (sy := sy) hp lm)
    rintro c d hc hd h rfl
    exact h _ _ (corner_in hp lm hc) (corner_in hp lm hc)
  · refine List.Pairwise.imp_of_mem ?_ (lcus_sorted p)
    rintro l l' lm lm' hlt c hc d hd rfl
    have h1 := corner_lcu hp lm hc
    rw [corner_lcu hp lm' hd] at h1
    subst h1
    unfold Lt at hlt
    omega

/-- The top right neighbour of a coding unit is used if it has been decoded. -/
theorem tr_decoded {p : Pic} (hp : p.Ok) {sy : Syn} {l : Nat × Nat} (lm : l ∈ lcus p) {c : Cu} (cm : c ∈ tree p sy l) {t : Bool}
    (ht : Qt.availTR p.lcu (c.x / 4) (c.y / 4) (2 ^ c.l / 4) = some t) (hy : 0 < c.y / 4) (hx : c.x / 4 + 2 ^ c.l / 4 < p.w) :
    t = true ↔ Spec.Decoded p sy c (c.x / 4 + 2 ^ c.l / 4) (c.y / 4 - 1) := by
  have hw : 8 ∣ 4 * p.w := by obtain ⟨k, hk⟩ := hp.w; exact ⟨k, by omega⟩
  have hh : 8 ∣ 4 * p.h := by obtain ⟨k, hk⟩ := hp.h; exact ⟨k, by omega⟩
  have hlcu := hp.lcu
  obtain ⟨l1, l2⟩ := (mem_lcus p l).mp lm
  have fc := tree_fit hp lm cm
  obtain ⟨f1, f2, ⟨a, ha⟩, ⟨b, hb⟩, f5, f6, f7, f8, f9, f10⟩ := id fc
  have e := pow_four f1
  have pos := Nat.two_pow_pos c.l
  rw [e, Nat.mul_assoc] at ha hb
  obtain ⟨prec, postc, hc⟩ := List.append_of_mem cm
  obtain ⟨pre, post, hl⟩ := List.append_of_mem lm
  obtain ⟨b', e1, e2⟩ := C46_top_right (4 * p.w) (4 * p.h) p.lcu l.1 l.2 hw hh hlcu.1 hlcu.2 sy.split l1 l2 prec postc c hc (c.x / 4) (c.y / 4) (2 ^ c.l / 4)
    (by omega) (by omega) (by omega) (by omega) (by omega) (by omega)
  rw [ht] at e1
  obtain rfl : t = b' := Option.some.inj e1
  have ord : Spec.order p sy = (pre.flatMap (tree p sy) ++ prec) ++ c :: (postc ++ post.flatMap (tree p sy)) := by
    unfold Spec.order
    rw [hl, List.flatMap_append, List.flatMap_cons, hc, List.append_assoc, List.append_assoc, List.cons_append]
  have nd := order_nodup hp sy
  have hT := Nat.two_pow_pos p.lcu
  have pos' := Nat.two_pow_pos (c.l - 3)
  have ml : (l.1 + 1) * 2 ^ p.lcu = l.1 * 2 ^ p.lcu + 2 ^ p.lcu := by ring
  have mpre : ∀ q ∈ pre, q ∈ lcus p := fun q hq => by rw [hl]; simp [hq]
  have srt := lcus_sorted p
  rw [hl, List.pairwise_append, List.pairwise_cons] at srt
  obtain ⟨-, ⟨s2, -⟩, s3⟩ := srt
  rw [e2]
  constructor
  · rintro (h | ⟨h1, ⟨d, hd, hd'⟩ | ⟨h2, -⟩⟩)
    · -- above the coding tree
      have hX : c.x / 4 + 2 ^ c.l / 4 < p.w := hx
      have hY : c.y / 4 - 1 < p.h := by omega
      have lm' := block_lcu hX hY
      have q := lcuOf_eq.mp (rfl : lcuOf p (c.x / 4 + 2 ^ c.l / 4) (c.y / 4 - 1) = _)
      have inpre : lcuOf p (c.x / 4 + 2 ^ c.l / 4) (c.y / 4 - 1) ∈ pre := by
        have := lm'
        change lcuOf p _ _ ∈ lcus p at this
        have lt : (lcuOf p (c.x / 4 + 2 ^ c.l / 4) (c.y / 4 - 1)).2 < l.2 := by
          unfold lcuOf
          dsimp only
          rw [Nat.div_lt_iff_lt_mul hT]
          omega
        rw [hl, List.mem_append, List.mem_cons] at this
        rcases this with h | h | h
        · exact h
        · rw [h] at lt
          exact absurd lt (lt_irrefl _)
        · have := s2 _ h
          unfold Lt at this
          omega
      generalize lcuOf p (c.x / 4 + 2 ^ c.l / 4) (c.y / 4 - 1) = l' at *
      obtain ⟨d, hd, g1, g2, g3, g4⟩ := parse_cover (w := 4 * p.w) (h := 4 * p.h) sy.split (p.lcu - 3) (l'.1 * 2 ^ p.lcu) (l'.2 * 2 ^ p.lcu) (4 * (c.x / 4 + 2 ^ c.l / 4)) (4 * (c.y / 4 - 1))
        q.1.1 (by rw [show p.lcu - 3 + 3 = p.lcu by omega]; exact q.1.2) q.2.1 (by rw [show p.lcu - 3 + 3 = p.lcu by omega]; exact q.2.2) (by omega) (by omega)
      refine ⟨_, _, d, ord, ?_, ⟨g1, g2⟩, g3, g4⟩
      rw [List.mem_append, List.mem_flatMap]
      exact Or.inl ⟨l', inpre, hd⟩
    · obtain ⟨g1, g2, g3, g4⟩ := hd'
      exact ⟨_, _, d, ord, by rw [List.mem_append]; exact Or.inr hd, ⟨g1, g2⟩, g3, g4⟩
    · obtain ⟨g1, g2, g3, g4⟩ := h2
      omega
  · rintro ⟨A, B, d, hA, hd, ⟨g1, g2⟩, g3, g4⟩
    have eA := split_unique _ A (by rw [← ord]; exact nd) (ord.symm.trans hA)
    rw [← eA, List.mem_append, List.mem_flatMap] at hd
    rcases hd with ⟨l', hl', hd⟩ | hd
    · left
      have fd := tree_fit hp (mpre l' hl') hd
      have q := lcuOf_eq.mp (tree_in hp (mpre l' hl') hd ((has_block fd _ _).mp ⟨g1, g2, g3, g4⟩)).2.2
      have lt := s3 l' hl' l (by simp)
      have lt2 : l'.2 < l.2 := by
        rcases lt with h | ⟨h, h'⟩
        · exact h
        · exfalso
          have : (l'.1 + 1) * 2 ^ p.lcu ≤ l.1 * 2 ^ p.lcu := Nat.mul_le_mul_right _ h'
          rw [Nat.add_mul, Nat.one_mul] at this
          omega
      have : (l'.2 + 1) * 2 ^ p.lcu ≤ l.2 * 2 ^ p.lcu := Nat.mul_le_mul_right _ lt2
      rw [Nat.add_mul, Nat.one_mul] at this
      have e8 : l.2 * 2 ^ p.lcu = 8 * (l.2 * 2 ^ (p.lcu - 3)) := by
        rw [pow_four (show 3 ≤ p.lcu by omega)]
        ring
      omega
    · right
      have hd' : d ∈ tree p sy l := by rw [hc]; simp [hd]
      have fd := tree_fit hp lm hd'
      have q := lcuOf_eq.mp (tree_in hp lm hd' ((has_block fd _ _).mp ⟨g1, g2, g3, g4⟩)).2.2
      exact ⟨by omega, Or.inl ⟨d, hd, g1, g2, g3, g4⟩⟩

theorem skip_table : ∀ k ∈ [0, 1, 2, 3], ∀ f ∈ [1, 2, 4], ∀ u ∈ puUnits f 0 0 (3 + k),
    (k = 0 → u.x / 4 = 0 ∧ u.y / 4 = 0) ∧
    (0 < k → (u.x / 4 = 0 ∨ u.x / 4 = 2 ^ (3 + k) / 4 / 2) ∧ (u.y / 4 = 0 ∨ u.y / 4 = 2 ^ (3 + k) / 4 / 2) ∧ u.w / 4 = 2 ^ (3 + k) / 4 / 2 ∧ u.h / 4 = 2 ^ (3 + k) / 4 / 2) := by
  decide +kernel

/-- Position of the unit of a block in a skipped coding unit without spatial mode. -/
theorem quarter_unit {p : Pic} (hp : p.Ok) {level cx cy : Nat} (h3 : 3 ≤ level) (h6 : level ≤ 6) {q : Cb × Nat} (hq : q ∈ (puUnits p.frame 0 0 level).zipIdx) {X Y : Nat}
    (hX : InU cx cy q.1 X Y) : cx + q.1.x / 4 = Spec.quarter cx (2 ^ level / 4) X ∧ cy + q.1.y / 4 = Spec.quarter cy (2 ^ level / 4) Y := by
  obtain ⟨k, rfl⟩ := Nat.exists_eq_add_of_le h3
  have t := skip_table k (by simp; omega) p.frame (by have := hp.frame; simp; omega) q.1 (zip_mem hq).1
  obtain ⟨t1, t2⟩ := t
  obtain ⟨g1, g2, g3, g4⟩ := hX
  unfold Spec.quarter
  by_cases hk : k = 0
  · subst hk
    obtain ⟨a, b⟩ := t1 rfl
    rw [if_pos (by decide), if_pos (by decide), a, b]
    exact ⟨rfl, rfl⟩
  · obtain ⟨a, b, c, d⟩ := t2 (by omega)
    have hn : 4 ≤ 2 ^ (3 + k) / 4 := by
      have : (2 : Nat) ^ 4 ≤ 2 ^ (3 + k) := Nat.pow_le_pow_right (by omega) (by omega)
      omega
    have n2 : ¬ 2 ^ (3 + k) / 4 ≤ 2 := by omega
    have mp : 0 < 2 ^ (3 + k) / 4 / 2 := by omega
    simp only [if_neg n2]
    generalize 2 ^ (3 + k) / 4 / 2 = m at *
    refine ⟨?_, ?_⟩
    · by_cases hx : X < cx + m
      · rw [if_pos hx]; omega
      · rw [if_neg hx]; omega
    · by_cases hx : Y < cy + m
      · rw [if_pos hx]; omega
      · rw [if_neg hx]; omega

theorem stored_int16 (x : Int) : Spec.Stored (toInt16 x) x := by
  unfold Spec.Stored IsMv toInt16
  omega

theorem clip_int16 (x : Int) : clip3 (-32768) 32767 (toInt16 x) = toInt16 x := by
  have : IsMv (toInt16 x) := (stored_int16 x).1
  unfold IsMv at this
  unfold clip3
  rw [if_neg (by omega), if_neg (by omega)]

theorem twice_int16 (x : Int) : toInt16 (toInt16 x) = toInt16 x := by
  unfold toInt16
  omega

theorem arith_ok {o : Option α} {a : α} (h : arith o = .ok a) : o = some a := by
  cases o with
  | none => cases h
  | some b => rw [ok_pure h]

theorem i32_val {x y : Int} (h : i32 x = some y) : y = x := by
  unfold i32 at h
  split at h <;> cases h
  rfl

theorem skip_cont {v w dst src : Int} (h : scaleMvSkip v dst (distScale src) = some w) : Spec.Cont v w dst src := by
  unfold scaleMvSkip at h
  simp only [Option.bind_eq_bind, Option.bind_eq_some_iff, Option.some.injEq] at h
  obtain ⟨a, ha, b, hb, c, hc, rfl⟩ := h
  rw [clip_int16, twice_int16, i32_val hc, i32_val hb, i32_val ha]
  unfold Spec.Cont roundUp14 distScale
  rw [mul_assoc]
  exact stored_int16 _

theorem sign3_sign (v : Int) : sign3 v = v.sign := by
  unfold sign3
  split
  · rw [Int.sign_eq_neg_one_of_neg ‹_›]
  · split
    · subst_vars; rfl
    · rw [Int.sign_eq_one_of_pos (by omega)]

theorem biskip_cont {v w dst src : Int} (h : scaleMvBiskip v dst (distScale src) = some w) : Spec.ContB v w dst src := by
  unfold scaleMvBiskip at h
  simp only [Option.bind_eq_bind, Option.bind_eq_some_iff, Option.some.injEq] at h
  obtain ⟨a, ha, b, hb, c, hc, d, hd, e, he, rfl⟩ := h
  rw [clip_int16, twice_int16, i32_val he, i32_val hd, i32_val hc, i32_val hb, i32_val ha, sign3_sign]
  exact stored_int16 _

theorem skipScale_ok {p : Pic} {v w : Vec} {dst src : Int} (h : skipScale p v dst src = .ok w) :
    Spec.Cont v.1 w.1 dst src ∧ (p.field = false → Spec.Cont v.2 w.2 dst src) := by
  unfold skipScale at h
  obtain ⟨x, hx, h⟩ := ok_bind h
  obtain ⟨y, hy, h⟩ := ok_bind h
  cases ok_pure h
  refine ⟨skip_cont (arith_ok hx), fun hf => ?_⟩
  have := arith_ok hy
  unfold scaleMvY at this
  rw [hf, if_neg (by decide)] at this
  exact skip_cont this

theorem biskipScale_ok {p : Pic} {v w : Vec} {dst src : Int} (h : biskipScale p v dst src = .ok w) :
    Spec.ContB v.1 w.1 dst src ∧ (p.field = false → Spec.ContB v.2 w.2 dst src) := by
  unfold biskipScale at h
  obtain ⟨x, hx, h⟩ := ok_bind h
  obtain ⟨y, hy, h⟩ := ok_bind h
  cases ok_pure h
  refine ⟨biskip_cont (arith_ok hx), fun hf => ?_⟩
  have := arith_ok hy
  unfold scaleMvY at this
  rw [hf, if_neg (by decide)] at this
  exact biskip_cont this

theorem known_ok {o : Option α} {a : α} (h : known o = .ok a) : o = some a := by
  cases o with
  | none => cases h
  | some b => rw [ok_pure h]

theorem distAt_ok {p : Pic} {k d : Int} (h : distAt p k = .ok d) : d = p.dist k.toNat := by
  unfold distAt at h
  split at h
  · exact (ok_pure h).symm
  · cases h

theorem sdistAt_ok {f : Saved} {k d : Int} (h : f.distAt k = .ok d) : d = f.dist k.toNat := by
  unfold Saved.distAt at h
  split at h
  · exact (ok_pure h).symm
  · cases h

theorem fref_ok {p : Pic} {k : Int} {f : Saved} (h : fref p k = .ok f) : p.refs[k.toNat]? = some f := by
  unfold fref at h
  split at h
  · cases hr : p.refs[k.toNat]? with
    | none => rw [hr] at h; cases h
    | some g => rw [hr] at h; rw [ok_pure h]
  · cases h

end Davs2.Mo
