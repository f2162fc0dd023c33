import Verif.Lemmas.StartCode
/-
C07 and C08: start-code search.  Specification: Verif/Spec/StartCode.lean.
-/
namespace Davs2
open Spec

/-- C07.  The search returns `k` exactly when `k` is the lowest offset of a start code lying completely
inside the data, and reports failure exactly when there is none. -/
theorem C07_find_start_code (l : List Byte) :
    (∀ k, findStartCode l = some k ↔ Least (fun k => ∃ c, StartAt l k c) k) ∧
    (findStartCode l = none ↔ ∀ k c, ¬ StartAt l k c) :=
  findStartCode_spec l

example : findStartCode [5, 0, 0, 0, 1, 0xB3, 0, 0, 1, 0] = some 2 := by decide
example : findStartCode [5, 0, 0, 0, 1] = none := by decide

theorem getStartCodeLoop_spec (buf : List Byte) (left p : Nat) (h : p + left = buf.length) :
    (∃ q, getStartCodeLoop buf left p = .ok q ∧ p ≤ q ∧ (∃ c, StartAt buf q c) ∧
      ∀ j, p ≤ j → j < q → ∀ c, ¬ StartAt buf j c) ∨
    (getStartCodeLoop buf left p = .err ∧ ∀ j, p ≤ j → ∀ c, ¬ StartAt buf j c) := by
  induction left generalizing p with
  | zero =>
    right
    refine ⟨by rw [getStartCodeLoop]; simp, ?_⟩
    intro j hj c hc
    have := startAt_lt _ _ _ hc
    omega
  | succ n ih =>
    rw [getStartCodeLoop]
    by_cases h4 : n + 1 ≥ 4
    · rw [if_pos h4]
      have hl : (buf.drop p).length ≥ 4 := by rw [List.length_drop]; omega
      match hd : buf.drop p, hl with
      | a :: b :: c :: d :: rest, _ =>
        have hat : ∀ x, StartAt buf p x ↔ (a = 0#8 ∧ b = 0#8 ∧ c = 1#8 ∧ d = x) := by
          intro x
          have := startAt_drop buf p 0 x
          rw [Nat.add_zero] at this
          rw [← this, hd]
          simp [StartAt]
        simp only [load4, hd]
        by_cases hc : a = 0#8 ∧ b = 0#8 ∧ c = 1#8
        · rw [if_pos hc]
          left
          refine ⟨p, rfl, Nat.le_refl _, ⟨d, (hat d).mpr ⟨hc.1, hc.2.1, hc.2.2, rfl⟩⟩, ?_⟩
          intro j h1 h2; omega
        · rw [if_neg hc]
          simp only [Nat.add_sub_cancel]
          have hno : ∀ x, ¬ StartAt buf p x := fun x hx => by
            obtain ⟨h1, h2, h3, _⟩ := (hat x).mp hx
            exact hc ⟨h1, h2, h3⟩
          rcases ih (p + 1) (by omega) with ⟨q, e, hq, hs, hl'⟩ | ⟨e, hl'⟩
          · left
            refine ⟨q, e, by omega, hs, ?_⟩
            intro j h1 h2
            rcases Nat.eq_or_lt_of_le h1 with h | h
            · subst h; exact hno
            · exact hl' j h h2
          · right
            refine ⟨e, ?_⟩
            intro j h1
            rcases Nat.eq_or_lt_of_le h1 with h | h
            · subst h; exact hno
            · exact hl' j h
    · rw [if_neg h4]
      right
      refine ⟨rfl, ?_⟩
      intro j hj c hc
      have := startAt_lt _ _ _ hc
      omega

/-- C07 for the reader-based search, at a byte boundary inside the data: it returns the code of the first
start code at or after the current position and moves to it, or fails when there is none; it never reads
outside. -/
theorem C07_get_start_code_partial (bs : Bs) (i : Nat) (hpos : bs.pos = 8 * i) (hi : i ≤ bs.buf.length) :
    (∃ q c, bsGetStartCode bs = .ok (c, { bs with pos := 8 * q }) ∧ i ≤ q ∧ StartAt bs.buf q c ∧
      ∀ j, i ≤ j → j < q → ∀ c, ¬ StartAt bs.buf j c) ∨
    (bsGetStartCode bs = .err ∧ ∀ j, i ≤ j → ∀ c, ¬ StartAt bs.buf j c) := by
  have e1 : bs.pos / 8 = i := by omega
  have e2 : (bs.pos + 7) / 8 = i := by omega
  rcases getStartCodeLoop_spec bs.buf (bs.buf.length - i) i (by omega) with ⟨q, e, hq, ⟨c, hc⟩, hl⟩ | ⟨e, hl⟩
  · left
    refine ⟨q, c, ?_, hq, hc, hl⟩
    unfold bsGetStartCode
    rw [e1, e2, e]
    simp only [load4, drop_of_startAt _ _ _ hc]
    rw [hpos, show 8 * i + 8 * (q - i) = 8 * q by omega]
  · right
    refine ⟨?_, hl⟩
    unfold bsGetStartCode
    rw [e1, e2, e]

example : ∃ bs : Bs, bs.pos = 8 * 1 ∧ 1 ≤ bs.buf.length ∧
    bsGetStartCode bs = .ok (0xB3#8, { bs with pos := 16 }) :=
  ⟨⟨[1, 7, 0, 0, 1, 0xB3], 8⟩, rfl, by decide, by decide +kernel⟩

/-- At other positions the search can look past the end: the bytes left are counted from the byte that is
already partly consumed. -/
theorem C07_get_start_code_violated :
    ∃ bs : Bs, bs.pos ≤ 8 * bs.buf.length ∧ bsGetStartCode bs = .oob :=
  ⟨⟨[1, 2, 3, 4], 1⟩, by decide, by decide +kernel⟩

/-- The probe for a slice header in the next four bytes has no bound check either. -/
theorem C07_found_slice_header_violated :
    ∃ bs : Bs, bs.pos ≤ 8 * bs.buf.length ∧ foundSliceHeader bs = .oob :=
  ⟨⟨[1, 2, 3, 4, 5, 6], 8⟩, by decide, by decide +kernel⟩

/-- With seven bytes left the probe stays inside and answers whether a slice start code begins at one of
the next four bytes. -/
theorem C07_found_slice_header_partial (bs : Bs) (h : (bs.pos + 7) / 8 + 7 ≤ bs.buf.length) :
    ∃ b bs', foundSliceHeader bs = .ok (b, bs') ∧
      (b = true ↔ ∃ k < 4, ∃ c : Byte, c.toNat ≤ 0x8F ∧ StartAt bs.buf ((bs.pos + 7) / 8 + k) c) := by
  have key : ∀ n (bs : Bs), (bs.pos + 7) / 8 + n + 3 ≤ bs.buf.length →
      ∃ b bs', foundSliceHeaderLoop n bs = .ok (b, bs') ∧
      (b = true ↔ ∃ k < n, ∃ c : Byte, c.toNat ≤ 0x8F ∧ StartAt bs.buf ((bs.pos + 7) / 8 + k) c) := by
    intro n
    induction n with
    | zero => intro bs _; exact ⟨false, bs, rfl, by simp⟩
    | succ n ih =>
      intro bs hb
      have hl : (bs.buf.drop ((bs.pos + 7) / 8)).length ≥ 4 := by rw [List.length_drop]; omega
      rw [foundSliceHeaderLoop]
      match hd : bs.buf.drop ((bs.pos + 7) / 8), hl with
      | a :: b :: c :: d :: rest, _ =>
        have hat : ∀ x, StartAt bs.buf ((bs.pos + 7) / 8) x ↔ (a = 0#8 ∧ b = 0#8 ∧ c = 1#8 ∧ d = x) := by
          intro x
          have : StartAt (bs.buf.drop ((bs.pos + 7) / 8)) 0 x ↔ StartAt bs.buf ((bs.pos + 7) / 8) x := by
            simpa only [Nat.add_zero] using startAt_drop bs.buf ((bs.pos + 7) / 8) 0 x
          rw [← this, hd]
          simp [StartAt]
        simp only [load4, hd]
        by_cases hc : a = 0#8 ∧ b = 0#8 ∧ c = 1#8 ∧ d.toNat ≤ 0x8F
        · rw [if_pos hc]
          refine ⟨true, bs, rfl, ?_⟩
          simp only [true_iff]
          exact ⟨0, by omega, d, hc.2.2.2, by
            rw [Nat.add_zero]; exact (hat d).mpr ⟨hc.1, hc.2.1, hc.2.2.1, rfl⟩⟩
        · rw [if_neg hc]
          have e : (bs.pos + 8 + 7) / 8 = (bs.pos + 7) / 8 + 1 := by omega
          obtain ⟨b', bs', e', hb'⟩ := ih { bs with pos := bs.pos + 8 } (by simp only; omega)
          refine ⟨b', bs', e', ?_⟩
          rw [hb']
          simp only [e]
          constructor
          · rintro ⟨k, hk, x, hx, hs⟩
            exact ⟨k + 1, by omega, x, hx, by rwa [show (bs.pos + 7) / 8 + (k + 1) =
              (bs.pos + 7) / 8 + 1 + k by omega]⟩
          · rintro ⟨k, hk, x, hx, hs⟩
            cases k with
            | zero =>
              exfalso
              rw [Nat.add_zero] at hs
              obtain ⟨h1, h2, h3, h4⟩ := (hat x).mp hs
              subst h4
              exact hc ⟨h1, h2, h3, hx⟩
            | succ k =>
              exact ⟨k, by omega, x, hx, by rwa [show (bs.pos + 7) / 8 + 1 + k =
                (bs.pos + 7) / 8 + (k + 1) by omega]⟩
  exact key 4 bs (by omega)

example : foundSliceHeader ⟨[0xff, 0, 0, 1, 0, 9, 9, 9], 3⟩ =
    .ok (true, ⟨[0xff, 0, 0, 1, 0, 9, 9, 9], 3⟩) := by decide +kernel

/-! ### C08 -/

/-- C08, soundness, for every input: a reported position is a picture start (counted from the piece, so it
may be up to three bytes before it). -/
theorem C08_pic_start_sound (p3 p2 p1 : Byte) (data : List Byte)
    (h : findPicStartCode p3 p2 p1 data ≠ data.length + 1) :
    -3 ≤ findPicStartCode p3 p2 p1 data ∧
    PicStartAt (p3 :: p2 :: p1 :: data) (findPicStartCode p3 p2 p1 data + 3).toNat := by
  have htail : picTail data ≠
      data.length + 1 →
      -3 ≤ picTail data ∧
      PicStartAt (p3 :: p2 :: p1 :: data)
        (picTail data + 3).toNat := by
    intro hne
    unfold picTail at hne ⊢
    cases hf : findPicLoop data with
    | none => rw [hf] at hne; exact absurd rfl hne
    | some i =>
      have hs := findPicLoop_sound data i hf
      refine ⟨by simp only; omega, ?_⟩
      have : ((i : Int) + 3).toNat = 3 + i := by omega
      simp only [this]
      have := picStartAt_drop (p3 :: p2 :: p1 :: data) 3 i
      exact this.mp hs
  unfold findPicStartCode at h ⊢
  simp only at h ⊢
  split
  · rename_i hp
    obtain ⟨hl, h3, h2, h1⟩ := hp
    rw [if_pos ⟨hl, h3, h2, h1⟩] at h
    split
    · rename_i x rest
      simp only at h
      by_cases hx : isPicCode x = true
      · rw [if_pos hx]
        refine ⟨by omega, x, ?_, (isPicCode_iff _).mp hx⟩
        subst h1; subst h2; subst h3
        simp [StartAt]
      · rw [if_neg hx] at h ⊢
        exact htail h
    · rename_i hno
      cases data with
      | nil => simp at hl
      | cons x r => exact absurd rfl (hno x r)
  · rename_i hp
    rw [if_neg hp] at h
    split
    · rename_i a x rest
      simp only at h
      by_cases hq : p2 = 0#8 ∧ p1 = 0#8 ∧ a = 1#8
      · rw [if_pos hq] at h ⊢
        by_cases hx : isPicCode x = true
        · rw [if_pos hx]
          refine ⟨by omega, x, ?_, (isPicCode_iff _).mp hx⟩
          obtain ⟨h2, h1, h0⟩ := hq
          subst h1; subst h2; subst h0
          simp [StartAt]
        · rw [if_neg hx] at h ⊢
          exact htail h
      · rw [if_neg hq] at h ⊢
        split
        · rename_i y rest'
          simp only at h
          by_cases hr : p1 = 0#8 ∧ a = 0#8 ∧ x = 1#8
          · rw [if_pos hr] at h ⊢
            by_cases hx : isPicCode y = true
            · rw [if_pos hx]
              refine ⟨by omega, y, ?_, (isPicCode_iff _).mp hx⟩
              obtain ⟨h1, h0, h0'⟩ := hr
              subst h1; subst h0; subst h0'
              simp [StartAt]
            · rw [if_neg hx] at h ⊢
              exact htail h
          · rw [if_neg hr] at h ⊢
            exact htail h
        · simp only at h
          exact htail h
    · rename_i hno
      match data with
      | [] => exact htail h
      | [x] => exact htail h
      | a :: x :: r => exact absurd rfl (hno a x r)

/-- Completeness fails: a picture start that begins with the code value 00 of a slice start code is
skipped. -/
theorem C08_pic_start_violated :
    ∃ data : List Byte, PicStartAt data 3 ∧
      findPicStartCode 0xFF#8 0xFF#8 0xFF#8 data = data.length + 1 := by
  refine ⟨[0, 0, 1, 0, 0, 1, 0xB3], ⟨0xB3#8, by decide, by decide⟩, ?_⟩
  have hd : findPicLoop [0#8, 0#8, 1#8, 0#8, 0#8, 1#8, 0xB3#8] = none := by
    decide +kernel
  simp [findPicStartCode, picTail, hd]

/-- C08, completeness for data in which no start code begins with the code value 00 of another one: the
result is the first picture start whose code value lies in the piece; "none" is reported only if there is
none.  Missing for the full statement: the overlapping case, where it is false. -/
theorem C08_pic_start_first_partial (p3 p2 p1 : Byte) (data : List Byte) (hno : NoOverlap data) :
    (∃ k : Nat, findPicStartCode p3 p2 p1 data = (k : Int) - 3 ∧
      Least (PicStartAt (p3 :: p2 :: p1 :: data)) k) ∨
    (findPicStartCode p3 p2 p1 data = data.length + 1 ∧
      ∀ k, ¬ PicStartAt (p3 :: p2 :: p1 :: data) k) := by
  have hpic : ∀ x, isPicCode x = true ↔ PicCode x := isPicCode_iff
  have hcomp := findPicLoop_complete data hno
  -- starts inside the piece are starts of the extended data three bytes later
  have hsh : ∀ i, PicStartAt (p3 :: p2 :: p1 :: data) (i + 3) ↔ PicStartAt data i := by
    intro i
    have := picStartAt_drop (p3 :: p2 :: p1 :: data) 3 i
    rw [show i + 3 = 3 + i by omega]
    exact this.symm
  -- when none of the three straddling positions is a picture start, the loop decides
  have htail : (∀ j < 3, ¬ PicStartAt (p3 :: p2 :: p1 :: data) j) →
      ∀ r : Int, r = picTail data →
      (∃ k : Nat, r = (k : Int) - 3 ∧ Least (PicStartAt (p3 :: p2 :: p1 :: data)) k) ∨
      (r = data.length + 1 ∧ ∀ k, ¬ PicStartAt (p3 :: p2 :: p1 :: data) k) := by
    intro h3 r hr
    unfold picTail at hr
    cases hf : findPicLoop data with
    | none =>
      rw [hf] at hcomp hr
      right
      refine ⟨hr, ?_⟩
      intro k hk
      rcases Nat.lt_or_ge k 3 with h | h
      · exact h3 k h hk
      · rw [show k = (k - 3) + 3 by omega, hsh] at hk
        exact hcomp _ hk
    | some i =>
      rw [hf] at hcomp hr
      left
      refine ⟨i + 3, by simp only at hr; omega, (hsh i).mpr hcomp.1, ?_⟩
      intro j hj hjp
      rcases Nat.lt_or_ge j 3 with h | h
      · exact h3 j h hjp
      · rw [show j = (j - 3) + 3 by omega, hsh] at hjp
        exact hcomp.2 (j - 3) (by omega) hjp
  -- the straddling positions, explicitly
  have s0 : PicStartAt (p3 :: p2 :: p1 :: data) 0 ↔
      p3 = 0#8 ∧ p2 = 0#8 ∧ p1 = 1#8 ∧ ∃ x, data[0]? = some x ∧ PicCode x := by
    constructor
    · rintro ⟨c, ⟨h0, h1, h2, h3⟩, hc⟩
      simp at h0 h1 h2 h3
      exact ⟨h0, h1, h2, c, by simpa using h3, hc⟩
    · rintro ⟨h0, h1, h2, c, h3, hc⟩
      exact ⟨c, ⟨by simp [h0], by simp [h1], by simp [h2], by simpa using h3⟩, hc⟩
  have s1 : PicStartAt (p3 :: p2 :: p1 :: data) 1 ↔
      p2 = 0#8 ∧ p1 = 0#8 ∧ data[0]? = some 1#8 ∧ ∃ x, data[1]? = some x ∧ PicCode x := by
    constructor
    · rintro ⟨c, ⟨h0, h1, h2, h3⟩, hc⟩
      simp at h0 h1 h2 h3
      exact ⟨h0, h1, by simpa using h2, c, by simpa using h3, hc⟩
    · rintro ⟨h0, h1, h2, c, h3, hc⟩
      exact ⟨c, ⟨by simp [h0], by simp [h1], by simpa using h2, by simpa using h3⟩, hc⟩
  have s2 : PicStartAt (p3 :: p2 :: p1 :: data) 2 ↔
      p1 = 0#8 ∧ data[0]? = some 0#8 ∧ data[1]? = some 1#8 ∧ ∃ x, data[2]? = some x ∧ PicCode x := by
    constructor
    · rintro ⟨c, ⟨h0, h1, h2, h3⟩, hc⟩
      simp at h0 h1 h2 h3
      exact ⟨h0, by simpa using h1, by simpa using h2, c, by simpa using h3, hc⟩
    · rintro ⟨h0, h1, h2, c, h3, hc⟩
      exact ⟨c, ⟨by simp [h0], by simpa using h1, by simpa using h2, by simpa using h3⟩, hc⟩
  have lt3 : ∀ j, j < 3 → j = 0 ∨ j = 1 ∨ j = 2 := by omega
  unfold findPicStartCode
  simp only
  split
  · rename_i hp
    obtain ⟨hl, h3, h2, h1⟩ := hp
    have n1 : ¬ PicStartAt (p3 :: p2 :: p1 :: data) 1 := by
      rw [s1]; rintro ⟨_, h, _⟩; rw [h1] at h; exact absurd h (by decide)
    have n2 : ¬ PicStartAt (p3 :: p2 :: p1 :: data) 2 := by
      rw [s2]; rintro ⟨h, _⟩; rw [h1] at h; exact absurd h (by decide)
    match data, hl with
    | x :: rest, _ =>
      simp only
      by_cases hx : isPicCode x = true
      · rw [if_pos hx]
        left
        exact ⟨0, by simp, s0.mpr ⟨h3, h2, h1, x, rfl, (hpic x).mp hx⟩, by intro j hj; omega⟩
      · rw [if_neg hx]
        refine htail ?_ _ rfl
        intro j hj
        rcases lt3 j hj with h | h | h <;> subst h
        · rw [s0]; rintro ⟨_, _, _, y, hy, hpy⟩
          simp at hy; subst hy; exact hx ((hpic _).mpr hpy)
        · exact n1
        · exact n2
  · rename_i hp
    have n0 : ¬ PicStartAt (p3 :: p2 :: p1 :: data) 0 := by
      rw [s0]; rintro ⟨a, b, c, x, hx, _⟩
      apply hp
      refine ⟨?_, a, b, c⟩
      obtain ⟨h, _⟩ := List.getElem?_eq_some_iff.mp hx
      omega
    match data with
    | [] =>
      refine htail ?_ _ rfl
      intro j hj
      rcases lt3 j hj with h | h | h <;> subst h
      · exact n0
      · rw [s1]; simp
      · rw [s2]; simp
    | [a] =>
      refine htail ?_ _ rfl
      intro j hj
      rcases lt3 j hj with h | h | h <;> subst h
      · exact n0
      · rw [s1]; simp
      · rw [s2]; simp
    | a :: x :: rest =>
      simp only
      by_cases hq : p2 = 0#8 ∧ p1 = 0#8 ∧ a = 1#8
      · obtain ⟨h2, h1, h0⟩ := hq
        rw [if_pos ⟨h2, h1, h0⟩]
        have n2 : ¬ PicStartAt (p3 :: p2 :: p1 :: a :: x :: rest) 2 := by
          rw [s2]; rintro ⟨_, h, _⟩; simp [h0] at h
        by_cases hx : isPicCode x = true
        · rw [if_pos hx]
          left
          refine ⟨1, by simp, s1.mpr ⟨h2, h1, by simp [h0], x, rfl, (hpic x).mp hx⟩, ?_⟩
          intro j hj
          have : j = 0 := by omega
          subst this; exact n0
        · rw [if_neg hx]
          refine htail ?_ _ rfl
          intro j hj
          rcases lt3 j hj with h | h | h <;> subst h
          · exact n0
          · rw [s1]; rintro ⟨_, _, _, y, hy, hpy⟩
            simp at hy; subst hy; exact hx ((hpic _).mpr hpy)
          · exact n2
      · rw [if_neg hq]
        have n1 : ¬ PicStartAt (p3 :: p2 :: p1 :: a :: x :: rest) 1 := by
          rw [s1]; rintro ⟨h2, h1, h0, _⟩; simp at h0; exact hq ⟨h2, h1, h0⟩
        match rest with
        | [] =>
          refine htail ?_ _ rfl
          intro j hj
          rcases lt3 j hj with h | h | h <;> subst h
          · exact n0
          · exact n1
          · rw [s2]; simp
        | y :: rest' =>
          simp only
          by_cases hr : p1 = 0#8 ∧ a = 0#8 ∧ x = 1#8
          · obtain ⟨h1, h0, h0'⟩ := hr
            rw [if_pos ⟨h1, h0, h0'⟩]
            by_cases hy : isPicCode y = true
            · rw [if_pos hy]
              left
              refine ⟨2, by simp, s2.mpr ⟨h1, by simp [h0], by simp [h0'], y, rfl, (hpic y).mp hy⟩, ?_⟩
              intro j hj
              have : j = 0 ∨ j = 1 := by omega
              rcases this with h | h <;> subst h
              · exact n0
              · exact n1
            · rw [if_neg hy]
              refine htail ?_ _ rfl
              intro j hj
              rcases lt3 j hj with h | h | h <;> subst h
              · exact n0
              · exact n1
              · rw [s2]; rintro ⟨_, _, _, z, hz, hpz⟩
                simp at hz; subst hz; exact hy ((hpic _).mpr hpz)
          · rw [if_neg hr]
            refine htail ?_ _ rfl
            intro j hj
            rcases lt3 j hj with h | h | h <;> subst h
            · exact n0
            · exact n1
            · rw [s2]; rintro ⟨h1, h0, h0', _⟩; simp at h0 h0'; exact hr ⟨h1, h0, h0'⟩

/-- C08, cutting: let a stream be cut so that `pre`, whose last three bytes are `p3 p2 p1`, comes before a
piece `data` and `post` after it.  Scanning the piece reports a picture start exactly when the whole stream
has one whose code value lies in the piece, and the position reported is that of the first one. -/
theorem C08_cut_independent_partial (pre data post : List Byte) (p3 p2 p1 : Byte) (hno : NoOverlap data) :
    let stream := pre ++ [p3, p2, p1] ++ data ++ post
    let inPiece := fun k => PicStartAt stream k ∧ pre.length ≤ k ∧ k + 3 < pre.length + 3 + data.length
    (findPicStartCode p3 p2 p1 data = data.length + 1 ↔ ¬ ∃ k, inPiece k) ∧
    (findPicStartCode p3 p2 p1 data ≠ data.length + 1 →
      ∃ k : Nat, (k : Int) = pre.length + 3 + findPicStartCode p3 p2 p1 data ∧ Least inPiece k) := by
  intro stream inPiece
  have hget : ∀ k, k < data.length + 3 → stream[pre.length + k]? = (p3 :: p2 :: p1 :: data)[k]? := by
    intro k hk
    have : stream = pre ++ ((p3 :: p2 :: p1 :: data) ++ post) := by simp [stream]
    rw [this, List.getElem?_append_right (by omega), Nat.add_sub_cancel_left,
      List.getElem?_append_left (by simp; omega)]
  have hiff : ∀ k, inPiece (pre.length + k) ↔ PicStartAt (p3 :: p2 :: p1 :: data) k := by
    intro k
    constructor
    · rintro ⟨⟨c, ⟨h0, h1, h2, h3⟩, hc⟩, _, hk⟩
      refine ⟨c, ⟨?_, ?_, ?_, ?_⟩, hc⟩
      · rw [← hget k (by omega)]; exact h0
      · rw [← hget (k + 1) (by omega)]; exact h1
      · rw [← hget (k + 2) (by omega)]; exact h2
      · rw [← hget (k + 3) (by omega)]; exact h3
    · rintro ⟨c, hs, hc⟩
      have hlt := startAt_lt _ _ _ hs
      simp only [List.length_cons] at hlt
      obtain ⟨h0, h1, h2, h3⟩ := hs
      refine ⟨⟨c, ⟨?_, ?_, ?_, ?_⟩, hc⟩, by omega, by omega⟩
      · rw [hget k (by omega)]; exact h0
      · rw [Nat.add_assoc, hget (k + 1) (by omega)]; exact h1
      · rw [Nat.add_assoc, hget (k + 2) (by omega)]; exact h2
      · rw [Nat.add_assoc, hget (k + 3) (by omega)]; exact h3
  rcases C08_pic_start_first_partial p3 p2 p1 data hno with ⟨k, e, h1, h2⟩ | ⟨e, h1⟩
  · have hlt : k + 4 ≤ data.length + 3 := by
      obtain ⟨c, hs, _⟩ := h1
      have := startAt_lt _ _ _ hs
      simpa using this
    constructor
    · rw [e]
      constructor
      · intro h; omega
      · intro h; exact absurd ⟨_, (hiff k).mpr h1⟩ h
    · intro _
      refine ⟨pre.length + k, by rw [e]; omega, (hiff k).mpr h1, ?_⟩
      intro j hj hin
      obtain ⟨hp, hge, hlt'⟩ := hin
      have hin : inPiece (pre.length + (j - pre.length)) := by
        rw [show pre.length + (j - pre.length) = j by omega]; exact ⟨hp, hge, hlt'⟩
      exact h2 (j - pre.length) (by omega) ((hiff _).mp hin)
  · constructor
    · rw [e]
      simp only [true_iff]
      rintro ⟨j, hp, hge, hlt'⟩
      have hin : inPiece (pre.length + (j - pre.length)) := by
        rw [show pre.length + (j - pre.length) = j by omega]; exact ⟨hp, hge, hlt'⟩
      exact h1 _ ((hiff _).mp hin)
    · intro h; exact absurd e h

/-- A piece meeting the hypothesis, with a start code that straddles the cut. -/
example : NoOverlap [1, 0xB6, 7, 0, 0, 1, 0xB3] ∧ findPicStartCode 9 0 0 [1, 0xB6, 7, 0, 0, 1, 0xB3] = -2 := by
  refine ⟨?_, by simp [findPicStartCode, isPicCode]⟩
  intro k c h _
  have h3 := h.2.2.2
  have := startAt_lt _ _ _ h
  simp only [List.length_cons, List.length_nil] at this
  have : k = 0 ∨ k = 1 ∨ k = 2 ∨ k = 3 := by omega
  obtain ⟨h0, h1, h2, h3⟩ := h
  rcases this with h | h | h | h <;> subst h <;> simp at h0 h3

end Davs2
