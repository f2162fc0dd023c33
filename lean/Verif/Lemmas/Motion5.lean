import Verif.Lemmas.Motion4
/-
Lemmas for C85: coding trees and pictures.
-/
namespace Davs2.Mo
open Davs2.Qt Davs2.Spec

theorem fine_fold {α β : Type} {f : β → α → M β} {l : List α} (I : List α → β → Prop) :
    ∀ post pre b, l = pre ++ post → I pre b →
      (∀ pre a post b, l = pre ++ a :: post → I pre b → Fine (f b a) (I (pre ++ [a]))) → Fine (post.foldlM f b) (I l) := by
  intro post
  induction post with
  | nil =>
    intro pre b e h _
    rw [List.append_nil] at e
    subst e
    exact Fine.pure h
  | cons a post ih =>
    intro pre b e h step
    rw [List.foldlM_cons]
    exact Fine.bind (step pre a post b e h) fun b' h' => ih (pre ++ [a]) b' (by rw [e]; simp) h' step

theorem pow_four {l : Nat} (h : 3 ≤ l) : 2 ^ l = 8 * 2 ^ (l - 3) := by
  rw [show (8 : Nat) = 2 ^ 3 from rfl, ← Nat.pow_add]
  congr 1
  omega

/-- Blocks of a coding unit and its samples. -/
theorem has_block {w h L x y : Nat} {d : Cu} (f : Fits w h L x y d) (X Y : Nat) : d.has (4 * X) (4 * Y) ↔ InC (d.x / 4) (d.y / 4) (2 ^ d.l / 4) X Y := by
  have e := pow_four f.lo
  obtain ⟨a, ha⟩ := f.dx
  obtain ⟨b, hb⟩ := f.dy
  have ha' : d.x = 8 * (2 ^ (d.l - 3) * a) := by rw [ha, e, Nat.mul_assoc]
  have hb' : d.y = 8 * (2 ^ (d.l - 3) * b) := by rw [hb, e, Nat.mul_assoc]
  unfold InC Cu.has
  rw [e]
  omega

theorem corner_eq {w h L x y L' x' y' : Nat} {c d : Cu} (f : Fits w h L x y c) (g : Fits w h L' x' y' d) (h1 : d.x / 8 = c.x / 8) (h2 : d.y / 8 = c.y / 8) :
    d.x = c.x ∧ d.y = c.y := by
  have e := pow_four f.lo
  have e' := pow_four g.lo
  obtain ⟨a, ha⟩ := f.dx
  obtain ⟨b, hb⟩ := f.dy
  obtain ⟨a', ha'⟩ := g.dx
  obtain ⟨b', hb'⟩ := g.dy
  have q1 : c.x = 8 * (2 ^ (c.l - 3) * a) := by rw [ha, e, Nat.mul_assoc]
  have q2 : c.y = 8 * (2 ^ (c.l - 3) * b) := by rw [hb, e, Nat.mul_assoc]
  have q3 : d.x = 8 * (2 ^ (d.l - 3) * a') := by rw [ha', e', Nat.mul_assoc]
  have q4 : d.y = 8 * (2 ^ (d.l - 3) * b') := by rw [hb', e', Nat.mul_assoc]
  omega

/-- In a coding unit of a coding tree, the blocks it needs are there. -/
theorem env_ok {p : Pic} (hp : p.Ok) {sy : Syn} {l : Nat × Nat} {Dl : Nat → Nat → Prop} (l1 : l.1 * 2 ^ p.lcu < 4 * p.w) (l2 : l.2 * 2 ^ p.lcu < 4 * p.h)
    (hT : ∀ X Y, X < p.w → Y < p.h → (4 * Y < l.2 * 2 ^ p.lcu ∨ (4 * Y < l.2 * 2 ^ p.lcu + 2 ^ p.lcu ∧ 4 * X < l.1 * 2 ^ p.lcu)) → Dl X Y)
    (hN : ∀ X Y, Dl X Y → ¬ (l.1 * 2 ^ p.lcu ≤ 4 * X ∧ 4 * X < l.1 * 2 ^ p.lcu + 2 ^ p.lcu ∧ l.2 * 2 ^ p.lcu ≤ 4 * Y ∧ 4 * Y < l.2 * 2 ^ p.lcu + 2 ^ p.lcu))
    {pre post : List Cu} {c : Cu} (hl : tree p sy l = pre ++ c :: post) :
    Env p (fun X Y => Dl X Y ∨ ∃ d ∈ pre, InC (d.x / 4) (d.y / 4) (2 ^ d.l / 4) X Y) (c.x / 4) (c.y / 4) (2 ^ c.l / 4) := by
  have hw : 8 ∣ 4 * p.w := by obtain ⟨k, hk⟩ := hp.w; exact ⟨k, by omega⟩
  have hh : 8 ∣ 4 * p.h := by obtain ⟨k, hk⟩ := hp.h; exact ⟨k, by omega⟩
  have hlcu := hp.lcu
  unfold tree at hl
  have fit : ∀ d ∈ pre ++ c :: post, Fits (4 * p.w) (4 * p.h) p.lcu (l.1 * 2 ^ p.lcu) (l.2 * 2 ^ p.lcu) d := by
    intro d hd
    rw [← hl] at hd
    exact tree_fits hw hh (by omega) sy.split l1 l2 d hd
  have fc := fit c (by simp)
  have fpre : ∀ d ∈ pre, Fits (4 * p.w) (4 * p.h) p.lcu (l.1 * 2 ^ p.lcu) (l.2 * 2 ^ p.lcu) d := fun d hd => fit d (by simp [hd])
  have ec := pow_four fc.lo
  have x4 : 4 * (c.x / 4) = c.x := by
    obtain ⟨a, ha⟩ := fc.dx
    rw [ec, Nat.mul_assoc] at ha
    omega
  have y4 : 4 * (c.y / 4) = c.y := by
    obtain ⟨a, ha⟩ := fc.dy
    rw [ec, Nat.mul_assoc] at ha
    omega
  have n4 : 4 * (2 ^ c.l / 4) = 2 ^ c.l := by omega
  have hpos := Nat.two_pow_pos c.l
  obtain ⟨f1, f2, f3, f4, f5, f6, f7, f8, f9, f10⟩ := id fc
  -- a block to the left of or above the coding unit
  have done : ∀ X Y, X < p.w → Y < p.h → 4 * X < c.x + 2 ^ c.l → 4 * Y < c.y + 2 ^ c.l → ¬ c.has (4 * X) (4 * Y) →
      Dl X Y ∨ ∃ d ∈ pre, InC (d.x / 4) (d.y / 4) (2 ^ d.l / 4) X Y := by
    intro X Y hX hY h1 h2 h3
    by_cases b1 : 4 * Y < l.2 * 2 ^ p.lcu
    · exact Or.inl (hT X Y hX hY (Or.inl b1))
    · by_cases b2 : 4 * X < l.1 * 2 ^ p.lcu
      · exact Or.inl (hT X Y hX hY (Or.inr ⟨by omega, b2⟩))
      · obtain ⟨d, hd, hd'⟩ := earlier hw hh (by omega) sy.split l1 l2 pre post c hl (px := 4 * X) (py := 4 * Y) (ax := c.x + 2 ^ c.l - 1) (ay := c.y + 2 ^ c.l - 1)
          (by omega) (by omega) (by omega) (by omega) ⟨by omega, by omega, by omega, by omega⟩ h3
        exact Or.inr ⟨d, hd, (has_block (fpre d hd) X Y).mp hd'⟩
  refine ⟨by omega, by omega, by omega, ?_, ?_, ?_, ?_⟩
  · intro X Y h1 h2
    exact done X Y (by omega) (by omega) (by omega) (by omega) fun h => by have := h.1; omega
  · intro X Y h1 h2
    exact done X Y (by omega) (by omega) (by omega) (by omega) fun h => by have := h.2.2.1; omega
  · intro x y bw hb h1 h2 h3 h4 h5
    obtain ⟨b, hb'⟩ := tr_some hw hh hlcu.1 hlcu.2 sy.split l1 l2 c (by rw [hl]; simp) x y bw hb (by omega) (by omega)
    refine ⟨b, hb', fun ht hy hx => ?_⟩
    obtain ⟨b', e1, e2⟩ := C46_top_right (4 * p.w) (4 * p.h) p.lcu l.1 l.2 hw hh hlcu.1 hlcu.2 sy.split l1 l2 pre post c hl x y bw hb (by omega) (by omega) (by omega) (by omega) (by omega)
    rw [hb'] at e1
    obtain rfl : b = b' := Option.some.inj e1
    rcases e2.mp ht with q | ⟨q, ⟨d, hd, hd'⟩ | ⟨q1, q2⟩⟩
    · exact Or.inl (hT _ _ hx (by omega) (Or.inl (by omega)))
    · exact Or.inr ⟨d, hd, (has_block (fpre d hd) _ _).mp hd'⟩
    · exfalso
      obtain ⟨q3, q4, q5, q6⟩ := q1
      omega
  · intro X Y h hin
    obtain ⟨i1, i2, i3, i4⟩ := id hin
    rcases h with h | ⟨d, hd, hd'⟩
    · exact hN X Y h ⟨by omega, by omega, by omega, by omega⟩
    · have bef := tree_before hw hh (show 3 ≤ p.lcu by omega) sy.split l1 l2
      rw [hl, List.pairwise_append] at bef
      have := bef.2.2 d hd c (by simp) (4 * X) (4 * Y) (4 * X) (4 * Y) ((has_block (fpre d hd) X Y).mpr hd') ((has_block fc X Y).mpr hin)
      omega

/-- Decoded coding trees: their blocks and the records of their coding units. -/
structure Good (p : Pic) (sy : Syn) (pre : List (Nat × Nat)) (st : St) : Prop where
  blk : Inv p (fun X Y => X < p.w ∧ Y < p.h ∧ (4 * X / 2 ^ p.lcu, 4 * Y / 2 ^ p.lcu) ∈ pre) st
  pred : ∀ l ∈ pre, ∀ c ∈ tree p sy l, Predicted p (sy.sym c) (Un.puUnits p.frame (sy.sym c).ds (sy.sym c).mode c.l).length (st.cu (c.x / 8) (c.y / 8))

/-- Raster order of coding trees. -/
def Lt (a b : Nat × Nat) : Prop := a.2 < b.2 ∨ (a.2 = b.2 ∧ a.1 < b.1)

theorem lcus_sorted (p : Pic) : (lcus p).Pairwise Lt := by
  unfold lcus
  rw [List.pairwise_flatMap]
  constructor
  · intro y _
    rw [List.pairwise_map]
    exact List.pairwise_lt_range.imp fun h => Or.inr ⟨rfl, h⟩
  · refine List.pairwise_lt_range.imp ?_
    intro a b hab q hq r hr
    obtain ⟨_, _, rfl⟩ := List.mem_map.mp hq
    obtain ⟨_, _, rfl⟩ := List.mem_map.mp hr
    exact Or.inl hab

theorem ceil_lt {n T a : Nat} (hT : 0 < T) : a < (n + T - 1) / T ↔ a * T < n := by
  rw [Nat.lt_div_iff_mul_lt hT]
  constructor <;> intro h
  · omega
  · omega

theorem mem_lcus (p : Pic) (l : Nat × Nat) : l ∈ lcus p ↔ l.1 * 2 ^ p.lcu < 4 * p.w ∧ l.2 * 2 ^ p.lcu < 4 * p.h := by
  have hT := Nat.two_pow_pos p.lcu
  unfold lcus
  simp only [List.mem_flatMap, List.mem_map, List.mem_range]
  rw [← ceil_lt hT, ← ceil_lt hT]
  constructor
  · rintro ⟨y, hy, x, hx, rfl⟩
    exact ⟨hx, hy⟩
  · rintro ⟨h1, h2⟩
    exact ⟨l.2, h2, l.1, h1, rfl⟩

theorem mem_div {T a x : Nat} (hT : 0 < T) : x / T = a ↔ a * T ≤ x ∧ x < a * T + T := by
  rw [Nat.div_eq_iff hT]
  omega

theorem block_lcu {p : Pic} {X Y : Nat} (hX : X < p.w) (hY : Y < p.h) : (4 * X / 2 ^ p.lcu, 4 * Y / 2 ^ p.lcu) ∈ lcus p := by
  rw [mem_lcus]
  have h1 := Nat.div_mul_le_self (4 * X) (2 ^ p.lcu)
  have h2 := Nat.div_mul_le_self (4 * Y) (2 ^ p.lcu)
  exact ⟨by dsimp only; omega, by dsimp only; omega⟩

theorem fine_lcu {p : Pic} (hp : p.Ok) {sy : Syn} (hd : ∀ l ∈ lcus p, ∀ c ∈ tree p sy l, Delivered p c.l (sy.sym c)) {pre post : List (Nat × Nat)} {l : Nat × Nat} {st : St}
    (hl : lcus p = pre ++ l :: post) (hg : Good p sy pre st) : Fine (lcuMotion p sy st l) (Good p sy (pre ++ [l])) := by
  have hT := Nat.two_pow_pos p.lcu
  have hw : 8 ∣ 4 * p.w := by obtain ⟨k, hk⟩ := hp.w; exact ⟨k, by omega⟩
  have hh : 8 ∣ 4 * p.h := by obtain ⟨k, hk⟩ := hp.h; exact ⟨k, by omega⟩
  have hlcu := hp.lcu
  have lm : l ∈ lcus p := by rw [hl]; simp
  obtain ⟨l1, l2⟩ := (mem_lcus p l).mp lm
  have srt := lcus_sorted p
  rw [hl, List.pairwise_append, List.pairwise_cons] at srt
  obtain ⟨-, ⟨s2, -⟩, s3⟩ := srt
  have notin : ∀ q ∈ pre, ¬ q = l := by
    intro q hq e
    have := s3 q hq l (by simp)
    subst e
    unfold Lt at this
    omega
  have before : ∀ q ∈ lcus p, Lt q l → q ∈ pre := by
    intro q hq hlt
    rw [hl, List.mem_append, List.mem_cons] at hq
    rcases hq with hq | rfl | hq
    · exact hq
    · unfold Lt at hlt
      omega
    · have := s2 q hq
      unfold Lt at this hlt
      omega
  have fit : ∀ q ∈ lcus p, ∀ c ∈ tree p sy q, Fits (4 * p.w) (4 * p.h) p.lcu (q.1 * 2 ^ p.lcu) (q.2 * 2 ^ p.lcu) c := by
    intro q hq c hc
    obtain ⟨m1, m2⟩ := (mem_lcus p q).mp hq
    exact tree_fits hw hh (by omega) sy.split m1 m2 c hc
  -- the coding units one after the other
  have main : Fine (lcuMotion p sy st l) fun st' =>
      Inv p (fun X Y => (X < p.w ∧ Y < p.h ∧ (4 * X / 2 ^ p.lcu, 4 * Y / 2 ^ p.lcu) ∈ pre) ∨ ∃ d ∈ tree p sy l, InC (d.x / 4) (d.y / 4) (2 ^ d.l / 4) X Y) st' ∧
      (∀ q ∈ pre, ∀ c ∈ tree p sy q, Predicted p (sy.sym c) (Un.puUnits p.frame (sy.sym c).ds (sy.sym c).mode c.l).length (st'.cu (c.x / 8) (c.y / 8))) ∧
      ∀ c ∈ tree p sy l, Predicted p (sy.sym c) (Un.puUnits p.frame (sy.sym c).ds (sy.sym c).mode c.l).length (st'.cu (c.x / 8) (c.y / 8)) := by
    unfold lcuMotion
    refine fine_fold (l := tree p sy l) (I := fun pc st' =>
      Inv p (fun X Y => (X < p.w ∧ Y < p.h ∧ (4 * X / 2 ^ p.lcu, 4 * Y / 2 ^ p.lcu) ∈ pre) ∨ ∃ d ∈ pc, InC (d.x / 4) (d.y / 4) (2 ^ d.l / 4) X Y) st' ∧
      (∀ q ∈ pre, ∀ c ∈ tree p sy q, Predicted p (sy.sym c) (Un.puUnits p.frame (sy.sym c).ds (sy.sym c).mode c.l).length (st'.cu (c.x / 8) (c.y / 8))) ∧
      ∀ c ∈ pc, Predicted p (sy.sym c) (Un.puUnits p.frame (sy.sym c).ds (sy.sym c).mode c.l).length (st'.cu (c.x / 8) (c.y / 8))) _ [] _ rfl ?_ ?_
    · refine ⟨?_, hg.pred, by simp⟩
      intro X Y h
      exact hg.blk X Y (h.resolve_right (by simp))
    · intro pc c qc st' e h
      obtain ⟨i1, i2, i3⟩ := h
      have cm : c ∈ tree p sy l := by rw [e]; simp
      have fc := fit l lm c cm
      have env := env_ok hp (Dl := fun X Y => X < p.w ∧ Y < p.h ∧ (4 * X / 2 ^ p.lcu, 4 * Y / 2 ^ p.lcu) ∈ pre) l1 l2 ?_ ?_ e
      · refine (fine_cuMotion hp env fc.lo (by have := fc.hi; omega) (hd l lm c cm) i1).mono fun st2 h2 => ?_
        refine ⟨?_, ?_, ?_⟩
        · intro X Y hX
          apply h2.inv
          rcases hX with hX | ⟨d, hd, hd'⟩
          · exact Or.inl (Or.inl hX)
          · rcases List.mem_append.mp hd with hd | hd
            · exact Or.inl (Or.inr ⟨d, hd, hd'⟩)
            · rw [List.mem_singleton] at hd
              subst hd
              exact Or.inr hd'
        · intro q hq d hd
          rw [h2.cu]
          · exact i2 q hq d hd
          · rintro ⟨e1, e2⟩
            have qm : q ∈ lcus p := by rw [hl]; simp [hq]
            have fd := fit q qm d hd
            obtain ⟨e3, e4⟩ := corner_eq fc fd e1 e2
            apply notin q hq
            have a1 := fd.x1
            have a2 := fd.x2
            have a3 := fd.y1
            have a4 := fd.y2
            have a5 := fc.x1
            have a6 := fc.x2
            have a7 := fc.y1
            have a8 := fc.y2
            have p1 := Nat.two_pow_pos c.l
            have p2 := Nat.two_pow_pos d.l
            have b1 := (mem_div (T := 2 ^ p.lcu) (a := q.1) (x := d.x) hT).mpr ⟨by omega, by omega⟩
            have b2 := (mem_div (T := 2 ^ p.lcu) (a := l.1) (x := c.x) hT).mpr ⟨by omega, by omega⟩
            have b3 := (mem_div (T := 2 ^ p.lcu) (a := q.2) (x := d.y) hT).mpr ⟨by omega, by omega⟩
            have b4 := (mem_div (T := 2 ^ p.lcu) (a := l.2) (x := c.y) hT).mpr ⟨by omega, by omega⟩
            rw [e3] at b1
            rw [e4] at b3
            exact Prod.ext (b1.symm.trans b2) (b3.symm.trans b4)
        · intro d hd
          rcases List.mem_append.mp hd with hd | hd
          · rw [h2.cu]
            · exact i3 d hd
            · rintro ⟨e1, e2⟩
              have fd := fit l lm d (by rw [e]; simp [hd])
              obtain ⟨e3, e4⟩ := corner_eq fc fd e1 e2
              have bef := tree_before hw hh (show 3 ≤ p.lcu by omega) sy.split l1 l2
              unfold tree at e
              rw [e, List.pairwise_append] at bef
              have p1 := Nat.two_pow_pos c.l
              have p2 := Nat.two_pow_pos d.l
              have := bef.2.2 d hd c (by simp) d.x d.y c.x c.y ⟨by omega, by omega, by omega, by omega⟩ ⟨by omega, by omega, by omega, by omega⟩
              rw [e3, e4] at this
              omega
          · rw [List.mem_singleton] at hd
            subst hd
            exact h2.pred
      · intro X Y hX hY h
        refine ⟨hX, hY, before _ (block_lcu hX hY) ?_⟩
        unfold Lt
        dsimp only
        rw [Nat.div_lt_iff_lt_mul hT, Nat.div_lt_iff_lt_mul hT]
        rcases h with h | ⟨h, h'⟩
        · exact Or.inl h
        · by_cases hy : 4 * Y < l.2 * 2 ^ p.lcu
          · exact Or.inl hy
          · exact Or.inr ⟨(mem_div hT).mpr ⟨by omega, h⟩, h'⟩
      · intro X Y h hin
        obtain ⟨n1, n2, n3, n4⟩ := hin
        have e1 := (mem_div (a := l.1) hT).mpr ⟨n1, n2⟩
        have e2 := (mem_div (a := l.2) hT).mpr ⟨n3, n4⟩
        exact notin _ h.2.2 (Prod.ext e1 e2)
  refine main.mono fun st' h => ?_
  obtain ⟨i1, i2, i3⟩ := h
  refine ⟨?_, ?_⟩
  · intro X Y hX
    apply i1
    obtain ⟨h1, h2, h3⟩ := hX
    rcases List.mem_append.mp h3 with h3 | h3
    · exact Or.inl ⟨h1, h2, h3⟩
    · rw [List.mem_singleton] at h3
      have e1 := (mem_div (a := l.1) hT).mp (congrArg Prod.fst h3)
      have e2 := (mem_div (a := l.2) hT).mp (congrArg Prod.snd h3)
      have e : p.lcu - 3 + 3 = p.lcu := by omega
      obtain ⟨c, hc, hc'⟩ := parse_cover (w := 4 * p.w) (h := 4 * p.h) sy.split (p.lcu - 3) (l.1 * 2 ^ p.lcu) (l.2 * 2 ^ p.lcu) (4 * X) (4 * Y)
        e1.1 (by rw [e]; exact e1.2) e2.1 (by rw [e]; exact e2.2) (by omega) (by omega)
      exact Or.inr ⟨c, hc, (has_block (fit l lm c hc) X Y).mp hc'⟩
  · intro q hq
    rcases List.mem_append.mp hq with hq | hq
    · exact i2 q hq
    · rw [List.mem_singleton] at hq
      subst hq
      exact i3

theorem fine_pic {p : Pic} (hp : p.Ok) {sy : Syn} (hd : ∀ l ∈ lcus p, ∀ c ∈ tree p sy l, Delivered p c.l (sy.sym c)) (slice : Nat → Nat → Int) (cu : Nat → Nat → CuRec) :
    Fine (picMotion p sy slice cu) (Good p sy (lcus p)) := by
  unfold picMotion
  refine fine_fold (l := lcus p) (I := Good p sy) _ [] _ rfl ⟨?_, by simp⟩ fun pre l post st e h => fine_lcu hp hd e h
  intro X Y h
  simp at h

theorem savePos_lt {n i : Nat} (h : i < n) : savePos n i < n := by
  unfold savePos
  split_ifs <;> omega

theorem save_ok {p : Pic} (hp : p.Ok) {st : St} (h : ∀ X Y, X < p.w → Y < p.h → At st (BlkOk p) X Y) : (save p st).Ok p.w p.h := by
  intro x y hx hy
  obtain ⟨b, hb, hb'⟩ := h _ _ (savePos_lt hx) (savePos_lt hy)
  unfold save
  dsimp only
  rw [hb]
  simp only [Option.map_some, Option.getD_some, Option.bind_some]
  unfold BlkOk at hb'
  by_cases h2 : p.frame = 2
  · rw [if_pos h2] at hb'
    have := hp.two h2
    obtain ⟨-, h3, -, h5, -⟩ := hb'
    by_cases hr : b.r1 = -1
    · exact Or.inl hr
    · refine Or.inr ⟨?_, ?_, h5 hr⟩ <;> split_ifs at h3 <;> omega
  · rw [if_neg h2] at hb'
    rcases hb' with h3 | h3
    · exact Or.inl h3.1
    · exact Or.inr ⟨h3.1.1, h3.1.2, h3.2.2.1⟩

end Davs2.Mo
