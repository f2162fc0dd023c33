import Verif.Model.StartCode
import Verif.Spec.StartCode
/- Auxiliary lemmas about start-code searches. -/
namespace Davs2
open Spec

theorem startAt_succ (b : Byte) (l : List Byte) (k : Nat) (c : Byte) :
    StartAt (b :: l) (k + 1) c ↔ StartAt l k c := by
  simp [StartAt, show k + 1 + 1 = (k + 1) + 1 by omega, show k + 1 + 2 = (k + 2) + 1 by omega,
    show k + 1 + 3 = (k + 3) + 1 by omega]

theorem isStart4_iff (l : List Byte) : isStart4 l = true ↔ ∃ c, StartAt l 0 c := by
  unfold isStart4 StartAt
  split
  · rename_i a b c d rest
    simp [and_assoc]
  · rename_i h
    constructor
    · simp
    · rintro ⟨x, h0, h1, h2, h3⟩
      match l with
      | [] => simp at h0
      | [_] => simp at h1
      | [_, _] => simp at h2
      | [_, _, _] => simp at h3
      | a :: b :: c :: d :: r => exact absurd rfl (h a b c d r)

theorem startAt_lt (l : List Byte) (k : Nat) (c : Byte) (h : StartAt l k c) : k + 4 ≤ l.length := by
  have := List.getElem?_eq_some_iff.mp h.2.2.2
  obtain ⟨h, _⟩ := this
  omega

theorem findStartCode_spec (l : List Byte) :
    (∀ k, findStartCode l = some k ↔ Least (fun k => ∃ c, StartAt l k c) k) ∧
    (findStartCode l = none ↔ ∀ k c, ¬ StartAt l k c) := by
  induction l with
  | nil =>
    constructor
    · intro k
      simp [findStartCode, Least, StartAt]
    · simp [findStartCode, StartAt]
  | cons b l ih =>
    obtain ⟨ih1, ih2⟩ := ih
    unfold findStartCode
    by_cases hlen : (b :: l).length ≥ 4
    · by_cases hs : isStart4 (b :: l) = true
      · obtain ⟨c0, hc0⟩ := (isStart4_iff _).mp hs
        rw [if_neg (by simp [hs]), if_pos hlen]
        constructor
        · intro k
          constructor
          · intro h
            simp only [Option.some.injEq] at h
            subst h
            exact ⟨⟨c0, hc0⟩, by omega⟩
          · rintro ⟨_, h⟩
            rcases Nat.eq_zero_or_pos k with h0 | h0
            · rw [h0]
            · exact absurd ⟨c0, hc0⟩ (h 0 h0)
        · constructor
          · simp
          · intro h; exact absurd hc0 (h 0 c0)
      · rw [if_pos ⟨hlen, hs⟩]
        have hno : ¬ ∃ c, StartAt (b :: l) 0 c := fun h => hs ((isStart4_iff _).mpr h)
        constructor
        · intro k
          rw [Option.map_eq_some_iff]
          constructor
          · rintro ⟨a, ha, rfl⟩
            obtain ⟨⟨c, hc⟩, hl⟩ := (ih1 a).mp ha
            refine ⟨⟨c, (startAt_succ _ _ _ _).mpr hc⟩, ?_⟩
            intro j hj
            cases j with
            | zero => exact hno
            | succ j =>
              rintro ⟨c', hc'⟩
              exact hl j (by omega) ⟨c', (startAt_succ _ _ _ _).mp hc'⟩
          · rintro ⟨⟨c, hc⟩, hl⟩
            cases k with
            | zero => exact absurd ⟨c, hc⟩ hno
            | succ k =>
              refine ⟨k, (ih1 k).mpr ⟨⟨c, (startAt_succ _ _ _ _).mp hc⟩, ?_⟩, rfl⟩
              rintro j hj ⟨c', hc'⟩
              exact hl (j + 1) (by omega) ⟨c', (startAt_succ _ _ _ _).mpr hc'⟩
        · rw [Option.map_eq_none_iff, ih2]
          constructor
          · intro h k c hc
            cases k with
            | zero => exact hno ⟨c, hc⟩
            | succ k => exact h k c ((startAt_succ _ _ _ _).mp hc)
          · intro h k c hc
            exact h (k + 1) c ((startAt_succ _ _ _ _).mpr hc)
    · rw [if_neg (by simp only [not_and]; intro h; exact absurd h hlen), if_neg hlen]
      have hno : ∀ k c, ¬ StartAt (b :: l) k c := by
        intro k c hc
        have := startAt_lt _ _ _ hc
        omega
      constructor
      · intro k
        constructor
        · simp
        · rintro ⟨⟨c, hc⟩, _⟩; exact absurd hc (hno k c)
      · exact ⟨fun _ => hno, fun _ => rfl⟩

theorem startAt_drop (l : List Byte) (i k : Nat) (c : Byte) :
    StartAt (l.drop i) k c ↔ StartAt l (i + k) c := by
  simp [StartAt, List.getElem?_drop, Nat.add_assoc]

theorem isPicCode_iff (c : Byte) : isPicCode c = true ↔ PicCode c := by
  simp [isPicCode, PicCode, or_assoc]

theorem picStartAt_drop (l : List Byte) (i k : Nat) :
    PicStartAt (l.drop i) k ↔ PicStartAt l (i + k) := by
  simp [PicStartAt, startAt_drop]

theorem drop_of_startAt (l : List Byte) (i : Nat) (c : Byte) (h : StartAt l i c) :
    l.drop i = 0#8 :: 0#8 :: 1#8 :: c :: l.drop (i + 4) := by
  obtain ⟨h0, h1, h2, h3⟩ := h
  have key : ∀ k x, l[k]? = some x → l.drop k = x :: l.drop (k + 1) := by
    intro k x hk
    obtain ⟨hlt, he⟩ := List.getElem?_eq_some_iff.mp hk
    rw [List.drop_eq_getElem_cons hlt, he]
  rw [key _ _ h0, key _ _ h1, key _ _ h2, key _ _ h3]

/-- Two picture-code positions can not both be where a start code stands three bytes apart unless the code
in between is 00. -/
theorem startAt_near (l : List Byte) (i j : Nat) (c d : Byte) (hi : StartAt l i c) (hj : StartAt l j d)
    (h1 : i < j) (h2 : j < i + 4) : j = i + 3 ∧ c = 0#8 := by
  obtain ⟨a0, a1, a2, a3⟩ := hi
  obtain ⟨b0, b1, b2, b3⟩ := hj
  have : j = i + 1 ∨ j = i + 2 ∨ j = i + 3 := by omega
  rcases this with h | h | h <;> subst h
  · rw [show i + 1 + 1 = i + 2 by omega, a2] at b1; simp at b1
  · rw [a2] at b0; simp at b0
  · rw [a3] at b0; simp at b0; exact ⟨rfl, b0⟩

/-- Soundness: what the loop returns is a picture start. -/
theorem findPicLoop_sound (l : List Byte) (i : Nat) (h : findPicLoop l = some i) : PicStartAt l i := by
  fun_induction findPicLoop l generalizing i with
  | case1 => simp at h
  | case2 data i0 hf a b c x rest hd hp =>
    simp only [Option.some.injEq] at h
    subst h
    obtain ⟨⟨c', hc'⟩, _⟩ := ((findStartCode_spec data).1 i0).mp hf
    have := drop_of_startAt _ _ _ hc'
    rw [hd] at this
    simp only [List.cons.injEq] at this
    obtain ⟨_, _, _, hx, _⟩ := this
    subst hx
    exact ⟨_, hc', (isPicCode_iff _).mp hp⟩
  | case3 data i0 hf a b c x rest hd hp ih =>
    rw [Option.map_eq_some_iff] at h
    obtain ⟨k, hk, rfl⟩ := h
    have hr : rest = data.drop (i0 + 4) := by
      rw [← List.drop_drop, hd]; rfl
    have := ih k hk
    rw [hr, picStartAt_drop] at this
    rwa [Nat.add_comm] at this
  | case4 => simp at h

/-- No start code immediately follows the code value 00. -/
def NoOverlap (l : List Byte) : Prop := ∀ k c, StartAt l k 0#8 → ¬ StartAt l (k + 3) c

theorem noOverlap_drop (l : List Byte) (i : Nat) (h : NoOverlap l) : NoOverlap (l.drop i) := by
  intro k c h1 h2
  rw [startAt_drop] at h1 h2
  exact h (i + k) c h1 (by rwa [Nat.add_assoc])

theorem findPicLoop_complete (l : List Byte) (h : NoOverlap l) :
    match findPicLoop l with
    | some i => Least (PicStartAt l) i
    | none => ∀ k, ¬ PicStartAt l k := by
  fun_induction findPicLoop l with
  | case1 data hf =>
    rintro k ⟨c, hc, _⟩
    exact ((findStartCode_spec data).2.mp hf) k c hc
  | case2 data i0 hf a b c x rest hd hp =>
    have hs : PicStartAt data i0 := by
      obtain ⟨⟨c', hc'⟩, _⟩ := ((findStartCode_spec data).1 i0).mp hf
      have := drop_of_startAt _ _ _ hc'
      rw [hd] at this
      simp only [List.cons.injEq] at this
      obtain ⟨_, _, _, hx, _⟩ := this
      subst hx
      exact ⟨_, hc', (isPicCode_iff _).mp hp⟩
    refine ⟨hs, ?_⟩
    rintro j hj ⟨c', hc', _⟩
    exact (((findStartCode_spec data).1 i0).mp hf).2 j hj ⟨c', hc'⟩
  | case3 data i0 hf a b c x rest hd hp ih =>
    obtain ⟨⟨c', hc'⟩, hleast⟩ := ((findStartCode_spec data).1 i0).mp hf
    have hdr := drop_of_startAt _ _ _ hc'
    rw [hd] at hdr
    simp only [List.cons.injEq] at hdr
    obtain ⟨_, _, _, hx, hrest⟩ := hdr
    subst hx
    have hlow : ∀ j, j < i0 + 4 → ¬ PicStartAt data j := by
      rintro j hj ⟨d, hd', hpd⟩
      rcases Nat.lt_trichotomy j i0 with hlt | heq | hgt
      · exact hleast j hlt ⟨d, hd'⟩
      · subst heq
        have : d = x := by
          have h1 := hd'.2.2.2; have h2 := hc'.2.2.2
          rw [h1] at h2; simpa using h2
        subst this
        exact hp ((isPicCode_iff _).mpr hpd)
      · obtain ⟨e1, e2⟩ := startAt_near _ _ _ _ _ hc' hd' hgt hj
        subst e1; subst e2
        exact h _ _ hc' hd'
    have ih' := ih (by rw [hrest]; exact noOverlap_drop _ _ h)
    cases hfp : findPicLoop rest with
    | none =>
      rw [hfp] at ih'
      simp only [Option.map_none]
      intro k hk
      rcases Nat.lt_or_ge k (i0 + 4) with hlt | hge
      · exact hlow k hlt hk
      · apply ih' (k - (i0 + 4))
        rw [hrest, picStartAt_drop]
        rwa [show i0 + 4 + (k - (i0 + 4)) = k by omega]
    | some m =>
      rw [hfp] at ih'
      simp only [Option.map_some]
      obtain ⟨h1, h2⟩ := ih'
      rw [hrest, picStartAt_drop] at h1
      refine ⟨by rwa [show m + (i0 + 4) = i0 + 4 + m by omega], ?_⟩
      intro j hj hjp
      rcases Nat.lt_or_ge j (i0 + 4) with hlt | hge
      · exact hlow j hlt hjp
      · apply h2 (j - (i0 + 4)) (by omega)
        rw [hrest, picStartAt_drop]
        rwa [show i0 + 4 + (j - (i0 + 4)) = j by omega]
  | case4 data i0 hf hno =>
    obtain ⟨⟨c', hc'⟩, _⟩ := ((findStartCode_spec data).1 i0).mp hf
    exact absurd (drop_of_startAt _ _ _ hc') (by intro hh; exact hno _ _ _ _ _ hh)

end Davs2
