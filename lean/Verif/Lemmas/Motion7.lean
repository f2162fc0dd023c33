import Verif.Lemmas.Motion6
/-
Lemmas for C86: two runs side by side, coding trees and pictures.
-/
namespace Davs2.Mo
open Davs2.Un Davs2.Qt Davs2.Spec

theorem rel_fold {α β : Type} {f g : β → α → M β} {l : List α} (I : List α → β → β → Prop) :
    ∀ post pre b b', l = pre ++ post → I pre b b' →
      (∀ pre a post b b', l = pre ++ a :: post → I pre b b' → Rel (I (pre ++ [a])) (f b a) (g b' a)) → Rel (I l) (post.foldlM f b) (post.foldlM g b') := by
  intro post
  induction post with
  | nil =>
    intro pre b b' e h _
    rw [List.append_nil] at e
    subst e
    exact Rel.pure h
  | cons a post ih =>
    intro pre b b' e h step
    rw [List.foldlM_cons, List.foldlM_cons]
    exact Rel.bind (step pre a post b b' e h) fun c c' h' => ih (pre ++ [a]) c c' (by rw [e]; simp) h' step

theorem ok_fold {α β : Type} {f g : β → α → M β} {l : List α} (I : List α → β → β → Prop) :
    ∀ post pre b b' r r', l = pre ++ post → I pre b b' → post.foldlM f b = .ok r → post.foldlM g b' = .ok r' →
      (∀ pre a post b b' c c', l = pre ++ a :: post → I pre b b' → f b a = .ok c → g b' a = .ok c' → I (pre ++ [a]) c c') → I l r r' := by
  intro post
  induction post with
  | nil =>
    intro pre b b' r r' e h h1 h2 _
    rw [List.append_nil] at e
    subst e
    cases h1
    cases h2
    exact h
  | cons a post ih =>
    intro pre b b' r r' e h h1 h2 step
    rw [List.foldlM_cons] at h1 h2
    cases hf : f b a with
    | error e => rw [hf] at h1; cases h1
    | ok c =>
      cases hg : g b' a with
      | error e => rw [hg] at h2; cases h2
      | ok c' =>
        rw [hf] at h1
        rw [hg] at h2
        exact ih (pre ++ [a]) c c' r r' (by rw [e]; simp) (step pre a post b b' c c' e h hf hg) h1 h2 step

theorem lcuOf_eq {p : Pic} {l : Nat × Nat} {X Y : Nat} : lcuOf p X Y = l ↔
    (l.1 * 2 ^ p.lcu ≤ 4 * X ∧ 4 * X < l.1 * 2 ^ p.lcu + 2 ^ p.lcu) ∧ (l.2 * 2 ^ p.lcu ≤ 4 * Y ∧ 4 * Y < l.2 * 2 ^ p.lcu + 2 ^ p.lcu) := by
  have hT := Nat.two_pow_pos p.lcu
  rw [← mem_div hT, ← mem_div hT]
  unfold lcuOf
  constructor
  · intro h
    exact ⟨congrArg Prod.fst h, congrArg Prod.snd h⟩
  · intro h
    exact Prod.ext h.1 h.2

theorem init_slice {p : Pic} (hp : p.Ok) {l : Nat × Nat} {n : Int} {st : St} {X Y : Nat} (hX : X < p.w) (hY : Y < p.h) :
    (lcuInit p l.1 l.2 n st).slice (X / 2) (Y / 2) = if lcuOf p X Y = l then n else st.slice (X / 2) (Y / 2) := by
  have e := pow_four (show 3 ≤ p.lcu by have := hp.lcu; omega)
  obtain ⟨a, ha⟩ := hp.w
  obtain ⟨b, hb⟩ := hp.h
  have e1 : l.1 * 2 ^ p.lcu = 8 * (l.1 * 2 ^ (p.lcu - 3)) := by rw [e]; ring
  have e2 : l.2 * 2 ^ p.lcu = 8 * (l.2 * 2 ^ (p.lcu - 3)) := by rw [e]; ring
  have e3 : (l.1 + 1) * 2 ^ (p.lcu - 3) = l.1 * 2 ^ (p.lcu - 3) + 2 ^ (p.lcu - 3) := by ring
  have e4 : (l.2 + 1) * 2 ^ (p.lcu - 3) = l.2 * 2 ^ (p.lcu - 3) + 2 ^ (p.lcu - 3) := by ring
  unfold lcuInit
  dsimp only
  by_cases h : lcuOf p X Y = l
  · rw [if_pos h, if_pos]
    rw [lcuOf_eq, e1, e2] at h
    rw [e3, e4]
    omega
  · rw [if_neg h, if_neg]
    rw [lcuOf_eq, e1, e2] at h
    rw [e3, e4]
    omega

/-- Two runs over one coding tree. -/
structure LcuStep (p : Pic) (sy : Syn) (l : Nat × Nat) (pc : List Cu) (a a' st st' : St) : Prop where
  slice : st.slice = (lcuInit p l.1 l.2 (sy.slice l.1 l.2) a).slice
  slice' : st'.slice = (lcuInit p l.1 l.2 (sy.slice l.1 l.2) a').slice
  out : ∀ X Y, lcuOf p X Y ≠ l → st.mot X Y = a.mot X Y ∧ st'.mot X Y = a'.mot X Y
  inn : ∀ X Y, X < p.w → Y < p.h → lcuOf p X Y = l → st.mot X Y = st'.mot X Y
  cu : ∀ c ∈ pc, st.cu (c.x / 8) (c.y / 8) = st'.cu (c.x / 8) (c.y / 8)
  cuOut : ∀ X Y, lcuOf p (2 * X) (2 * Y) ≠ l → st.cu X Y = a.cu X Y ∧ st'.cu X Y = a'.cu X Y

theorem corner_lcu {p : Pic} (hp : p.Ok) {sy : Syn} {l : Nat × Nat} (lm : l ∈ lcus p) {c : Cu} (hc : c ∈ tree p sy l) : lcuOf p (2 * (c.x / 8)) (2 * (c.y / 8)) = l := by
  have hw : 8 ∣ 4 * p.w := by obtain ⟨k, hk⟩ := hp.w; exact ⟨k, by omega⟩
  have hh : 8 ∣ 4 * p.h := by obtain ⟨k, hk⟩ := hp.h; exact ⟨k, by omega⟩
  obtain ⟨l1, l2⟩ := (mem_lcus p l).mp lm
  have fc := tree_fits hw hh (show 3 ≤ p.lcu by have := hp.lcu; omega) sy.split l1 l2 c hc
  obtain ⟨f1, f2, ⟨a, ha⟩, ⟨b, hb⟩, f5, f6, f7, f8, f9, f10⟩ := fc
  have e := pow_four f1
  have pos := Nat.two_pow_pos c.l
  rw [e, Nat.mul_assoc] at ha hb
  rw [lcuOf_eq]
  omega

theorem rel_lcu {p : Pic} (hp : p.Ok) {sy sy' : Syn} {pre post : List (Nat × Nat)} {l : Nat × Nat} (hl : lcus p = pre ++ l :: post)
    (ht : tree p sy' l = tree p sy l) (hsym : ∀ c ∈ tree p sy l, sy'.sym c = sy.sym c) (hsl : sy'.slice l.1 l.2 = sy.slice l.1 l.2)
    (hd : ∀ c ∈ tree p sy l, Delivered p c.l (sy.sym c)) {a a' : St}
    (hs : Sim (sy.slice l.1 l.2) (fun X Y => X < p.w ∧ Y < p.h ∧ lcuOf p X Y ∈ pre) a a')
    (hm : ∀ X Y, X < p.w → Y < p.h → lcuOf p X Y = l → a.mot X Y = a'.mot X Y) :
    Rel (LcuStep p sy l (tree p sy l) a a') (lcuMotion p sy a l) (lcuMotion p sy' a' l) := by
  have hT := Nat.two_pow_pos p.lcu
  have hw : 8 ∣ 4 * p.w := by obtain ⟨k, hk⟩ := hp.w; exact ⟨k, by omega⟩
  have hh : 8 ∣ 4 * p.h := by obtain ⟨k, hk⟩ := hp.h; exact ⟨k, by omega⟩
  have hlcu := hp.lcu
  have lm : l ∈ lcus p := by rw [hl]; simp
  obtain ⟨l1, l2⟩ := (mem_lcus p l).mp lm
  have srt := lcus_sorted p
  rw [hl, List.pairwise_append, List.pairwise_cons] at srt
  obtain ⟨-, ⟨s2, -⟩, s3⟩ := srt
  have notin : ¬ l ∈ pre := by
    intro hq
    have := s3 l hq l (by simp)
    unfold Lt at this
    omega
  have before : ∀ q ∈ lcus p, Lt q l → q ∈ pre := by
    intro q hq hlt
    rw [hl, List.mem_append, List.mem_cons] at hq
    rcases hq with hq | rfl | hq
    · exact hq
    · unfold Lt at hlt
      omega
    · have := s2 q hq
      unfold Lt at this hlt
      omega
  have fit : ∀ c ∈ tree p sy l, Fits (4 * p.w) (4 * p.h) p.lcu (l.1 * 2 ^ p.lcu) (l.2 * 2 ^ p.lcu) c := fun c hc => tree_fits hw hh (by omega) sy.split l1 l2 c hc
  have blkIn : ∀ c ∈ tree p sy l, ∀ X Y, InC (c.x / 4) (c.y / 4) (2 ^ c.l / 4) X Y → X < p.w ∧ Y < p.h ∧ lcuOf p X Y = l := by
    intro c hc X Y h
    have fc := fit c hc
    obtain ⟨g1, g2, g3, g4⟩ := (has_block fc X Y).mpr h
    obtain ⟨f1, f2, -, -, f5, f6, f7, f8, f9, f10⟩ := fc
    rw [lcuOf_eq]
    omega
  unfold lcuMotion
  change Rel _ (List.foldlM _ _ (tree p sy l)) (List.foldlM _ _ (tree p sy' l))
  rw [ht, hsl]
  refine rel_fold (l := tree p sy l) (I := fun pc st st' => LcuStep p sy l pc a a' st st') _ [] _ _ rfl ?_ ?_
  · exact ⟨rfl, rfl, fun _ _ _ => ⟨rfl, rfl⟩, hm, fun c hc => absurd hc List.not_mem_nil, fun _ _ _ => ⟨rfl, rfl⟩⟩
  · intro pc c qc st st' e h
    have cm : c ∈ tree p sy l := by rw [e]; simp
    have fc := fit c cm
    rw [hsym c cm]
    have sl : ∀ X Y, X < p.w → Y < p.h → lcuOf p X Y = l → st.slice (X / 2) (Y / 2) = sy.slice l.1 l.2 ∧ st'.slice (X / 2) (Y / 2) = sy.slice l.1 l.2 := by
      intro X Y hX hY hin
      rw [h.slice, h.slice', init_slice hp hX hY, init_slice hp hX hY, if_pos hin, if_pos hin]
      exact ⟨rfl, rfl⟩
    have env := env_ok hp (Dl := fun X Y => X < p.w ∧ Y < p.h ∧ lcuOf p X Y ∈ pre) l1 l2 ?_ ?_ e
    · have ec := pow_four fc.lo
      have cs := corner_lcu hp lm cm
      have cx2 : 2 * (c.x / 8) < p.w := by
        have := fc.inw
        have := Nat.two_pow_pos c.l
        omega
      have cy2 : 2 * (c.y / 8) < p.h := by
        have := fc.inh
        have := Nat.two_pow_pos c.l
        omega
      have s0 := sl _ _ cx2 cy2 cs
      rw [Nat.mul_div_cancel_left _ (by omega), Nat.mul_div_cancel_left _ (by omega)] at s0
      refine (rel_cuMotion hp env fc.lo (by have := fc.hi; omega) (hd c cm) (slice := sy.slice l.1 l.2) ?_ s0.1 s0.2 ?_ ?_).mono fun r r' hr => ?_
      · intro X Y hX
        by_cases hin : lcuOf p X Y = l
        · rcases hX with hX | ⟨d, hd', hd''⟩
          · rw [hin] at hX
            exact absurd hX.2.2 notin
          · obtain ⟨q1, q2, q3⟩ := blkIn d (by rw [e]; simp [hd']) X Y hd''
            obtain ⟨q4, q5⟩ := sl X Y q1 q2 q3
            exact ⟨q4.trans q5.symm, fun _ => h.inn X Y q1 q2 q3⟩
        · rcases hX with hX | ⟨d, hd', hd''⟩
          · rw [h.slice, h.slice', init_slice hp hX.1 hX.2.1, init_slice hp hX.1 hX.2.1, if_neg hin, if_neg hin, (h.out X Y hin).1, (h.out X Y hin).2]
            exact hs X Y hX
          · exact absurd (blkIn d (by rw [e]; simp [hd']) X Y hd'').2.2 hin
      · intro X Y hX
        obtain ⟨q1, q2, q3⟩ := blkIn c cm X Y hX
        exact sl X Y q1 q2 q3
      · intro X Y hX
        obtain ⟨q1, q2, q3⟩ := blkIn c cm X Y hX
        exact h.inn X Y q1 q2 q3
      · refine ⟨hr.slice.trans h.slice, hr.slice'.trans h.slice', ?_, ?_, ?_, ?_⟩
        · intro X Y hX
          have hn : ¬ InC (c.x / 4) (c.y / 4) (2 ^ c.l / 4) X Y := fun hi => hX (blkIn c cm X Y hi).2.2
          rw [(hr.out X Y hn).1, (hr.out X Y hn).2]
          exact h.out X Y hX
        · intro X Y hX hY hin
          by_cases hi : InC (c.x / 4) (c.y / 4) (2 ^ c.l / 4) X Y
          · exact hr.inn X Y hi
          · rw [(hr.out X Y hi).1, (hr.out X Y hi).2]
            exact h.inn X Y hX hY hin
        · intro d hd'
          by_cases hx : d.x / 8 = c.x / 8 ∧ d.y / 8 = c.y / 8
          · rw [hx.1, hx.2]
            exact hr.same
          · rw [(hr.cu _ _ hx).1, (hr.cu _ _ hx).2]
            rcases List.mem_append.mp hd' with hd' | hd'
            · exact h.cu d hd'
            · rw [List.mem_singleton] at hd'
              subst hd'
              exact absurd ⟨rfl, rfl⟩ hx
        · intro X Y hX
          have hx : ¬ (X = c.x / 8 ∧ Y = c.y / 8) := by
            rintro ⟨rfl, rfl⟩
            exact hX cs
          rw [(hr.cu _ _ hx).1, (hr.cu _ _ hx).2]
          exact h.cuOut X Y hX
    · intro X Y hX hY h
      refine ⟨hX, hY, before _ (block_lcu hX hY) ?_⟩
      unfold Lt lcuOf
      dsimp only
      rw [Nat.div_lt_iff_lt_mul hT, Nat.div_lt_iff_lt_mul hT]
      rcases h with h | ⟨h, h'⟩
      · exact Or.inl h
      · by_cases hy : 4 * Y < l.2 * 2 ^ p.lcu
        · exact Or.inl hy
        · exact Or.inr ⟨(mem_div hT).mpr ⟨by omega, h⟩, h'⟩
    · intro X Y h hin
      obtain ⟨n1, n2, n3, n4⟩ := hin
      have := lcuOf_eq.mpr ⟨⟨n1, n2⟩, n3, n4⟩
      rw [this] at h
      exact notin h.2.2

/-- Two runs over the coding trees `pre`, which agree in slice `s`. -/
structure PicStep (p : Pic) (sy : Syn) (S : Int → Prop) (pre : List (Nat × Nat)) (st st' : St) : Prop where
  slice : ∀ X Y, X < p.w → Y < p.h → lcuOf p X Y ∈ pre → st.slice (X / 2) (Y / 2) = sy.slice (lcuOf p X Y).1 (lcuOf p X Y).2 ∧ st'.slice (X / 2) (Y / 2) = sy.slice (lcuOf p X Y).1 (lcuOf p X Y).2
  mot : ∀ X Y, X < p.w → Y < p.h → (lcuOf p X Y ∉ pre ∨ S (sy.slice (lcuOf p X Y).1 (lcuOf p X Y).2)) → st.mot X Y = st'.mot X Y
  cu : ∀ l ∈ pre, S (sy.slice l.1 l.2) → ∀ c ∈ tree p sy l, st.cu (c.x / 8) (c.y / 8) = st'.cu (c.x / 8) (c.y / 8)

theorem PicStep.init (p : Pic) (sy : Syn) (S : Int → Prop) (slice slice' : Nat → Nat → Int) (cu cu' : Nat → Nat → CuRec) :
    PicStep p sy S [] (initFrame slice cu) (initFrame slice' cu') :=
  ⟨fun X Y _ _ h => absurd h (List.not_mem_nil), fun _ _ _ _ _ => rfl, fun l h => absurd h (List.not_mem_nil)⟩

theorem PicStep.sim {p : Pic} {sy : Syn} {S : Int → Prop} {pre : List (Nat × Nat)} {st st' : St} (h : PicStep p sy S pre st st') {s : Int} (hs : S s) :
    Sim s (fun X Y => X < p.w ∧ Y < p.h ∧ lcuOf p X Y ∈ pre) st st' := by
  intro X Y hX
  obtain ⟨h1, h2⟩ := h.slice X Y hX.1 hX.2.1 hX.2.2
  refine ⟨h1.trans h2.symm, fun e => h.mot X Y hX.1 hX.2.1 (Or.inr ?_)⟩
  rw [h1] at e
  rw [e]
  exact hs

theorem not_in {p : Pic} {pre post : List (Nat × Nat)} {l : Nat × Nat} (hl : lcus p = pre ++ l :: post) : ¬ l ∈ pre := by
  have srt := lcus_sorted p
  rw [hl, List.pairwise_append] at srt
  intro hq
  have := srt.2.2 l hq l (by simp)
  unfold Lt at this
  omega

/-- A coding tree of a slice that is to agree. -/
theorem PicStep.next {p : Pic} (hp : p.Ok) {sy sy' : Syn} {S : Int → Prop} {pre post : List (Nat × Nat)} {l : Nat × Nat} (hl : lcus p = pre ++ l :: post) {st st' r r' : St}
    (h : PicStep p sy S pre st st') (hsl : sy'.slice l.1 l.2 = sy.slice l.1 l.2)
    (hr : (∃ b b', LcuStep p sy l (tree p sy l) st b r b') ∧ (∃ b b', LcuStep p sy' l (tree p sy' l) b st' b' r'))
    (hS : S (sy.slice l.1 l.2) → LcuStep p sy l (tree p sy l) st st' r r') : PicStep p sy S (pre ++ [l]) r r' := by
  obtain ⟨⟨b1, b2, hb⟩, b3, b4, hb'⟩ := hr
  have hn := not_in hl
  refine ⟨?_, ?_, ?_⟩
  · intro X Y hX hY hin
    rw [hb.slice, hb'.slice', init_slice hp hX hY, init_slice hp hX hY]
    by_cases he : lcuOf p X Y = l
    · rw [if_pos he, if_pos he, he, hsl]
      exact ⟨rfl, rfl⟩
    · rw [if_neg he, if_neg he]
      refine h.slice X Y hX hY ?_
      rcases List.mem_append.mp hin with hin | hin
      · exact hin
      · exact absurd (List.mem_singleton.mp hin) he
  · intro X Y hX hY hin
    by_cases he : lcuOf p X Y = l
    · rw [he] at hin
      rcases hin with hin | hin
      · exact absurd (by simp) hin
      · exact (hS hin).inn X Y hX hY he
    · rw [(hb.out X Y he).1, (hb'.out X Y he).2]
      refine h.mot X Y hX hY (hin.imp_left fun h1 h2 => h1 ?_)
      exact List.mem_append_left _ h2
  · intro q hq hs c hc
    rcases List.mem_append.mp hq with hq' | hq
    · have qm : q ∈ lcus p := by rw [hl]; simp [hq']
      have := corner_lcu hp qm hc
      have hne : lcuOf p (2 * (c.x / 8)) (2 * (c.y / 8)) ≠ l := by
        rw [this]
        intro e
        rw [e] at hq'
        exact hn hq'
      rw [(hb.cuOut _ _ hne).1, (hb'.cuOut _ _ hne).2]
      exact h.cu q hq' hs c hc
    · rw [List.mem_singleton] at hq
      subst hq
      exact (hS hs).cu c hc

theorem Rel.ok {α β : Type} {R : α → β → Prop} {m : M α} {m' : M β} {a : α} {b : β} (h : Rel R m m') (h1 : m = .ok a) (h2 : m' = .ok b) : R a b := by
  subst h1
  subst h2
  exact h

theorem slices_step {p : Pic} (hp : p.Ok) {sy sy' : Syn} (hd : ∀ l ∈ lcus p, ∀ c ∈ tree p sy l, Delivered p c.l (sy.sym c)) (hd' : ∀ l ∈ lcus p, ∀ c ∈ tree p sy' l, Delivered p c.l (sy'.sym c))
    (hsl : ∀ l ∈ lcus p, sy'.slice l.1 l.2 = sy.slice l.1 l.2) {s : Int}
    (hsy : ∀ l ∈ lcus p, sy.slice l.1 l.2 = s → tree p sy' l = tree p sy l ∧ ∀ c ∈ tree p sy l, sy'.sym c = sy.sym c)
    {slice slice' : Nat → Nat → Int} {cu cu' : Nat → Nat → CuRec} {st st' : St} (h : picMotion p sy slice cu = .ok st) (h' : picMotion p sy' slice' cu' = .ok st') :
    PicStep p sy (· = s) (lcus p) st st' := by
  unfold picMotion at h h'
  refine ok_fold (l := lcus p) (I := PicStep p sy (· = s)) _ [] _ _ _ _ rfl (PicStep.init ..) h h' ?_
  intro pre l post b b' c c' e hb hc hc'
  have lm : l ∈ lcus p := by rw [e]; simp
  have self : ∀ (sy : Syn) (b c : St), (∀ c ∈ tree p sy l, Delivered p c.l (sy.sym c)) → lcuMotion p sy b l = .ok c → LcuStep p sy l (tree p sy l) b b c c :=
    fun sy b c hd h => (rel_lcu hp e rfl (fun _ _ => rfl) rfl hd (fun X Y _ => ⟨rfl, fun _ => rfl⟩) fun _ _ _ _ _ => rfl).ok h h
  refine hb.next hp e (hsl l lm) ⟨⟨b, c, self sy b c (hd l lm) hc⟩, b', c', self sy' b' c' (hd' l lm) hc'⟩ fun hs => ?_
  obtain ⟨t1, t2⟩ := hsy l lm hs
  refine (rel_lcu hp e t1 t2 (hsl l lm) (hd l lm) (hb.sim hs) fun X Y hX hY he => hb.mot X Y hX hY (Or.inl ?_)).ok hc hc'
  rw [he]
  exact not_in e

theorem same_step {p : Pic} (hp : p.Ok) {sy : Syn} (hd : ∀ l ∈ lcus p, ∀ c ∈ tree p sy l, Delivered p c.l (sy.sym c))
    (slice slice' : Nat → Nat → Int) (cu cu' : Nat → Nat → CuRec) :
    Rel (PicStep p sy (fun _ => True) (lcus p)) (picMotion p sy slice cu) (picMotion p sy slice' cu') := by
  unfold picMotion
  refine rel_fold (l := lcus p) (I := PicStep p sy fun _ => True) _ [] _ _ rfl (PicStep.init ..) ?_
  intro pre l post b b' e hb
  have lm : l ∈ lcus p := by rw [e]; simp
  refine (rel_lcu hp e rfl (fun _ _ => rfl) rfl (hd l lm) (hb.sim trivial) fun X Y hX hY he => hb.mot X Y hX hY (Or.inl ?_)).mono fun r r' hr => ?_
  · rw [he]
    exact not_in e
  · exact hb.next hp e rfl ⟨⟨b', r', hr⟩, b, r, hr⟩ fun _ => hr

end Davs2.Mo
