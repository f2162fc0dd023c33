import Verif.Spec.Dpb

namespace Davs2

theorem firstIdx_some {p : DFrame → Bool} {l : List DFrame} {j : Nat} (h : firstIdx p l = some j) :
    ∃ f, l[j]? = some f ∧ p f = true := by
  induction l generalizing j with
  | nil => simp [firstIdx] at h
  | cons a l ih =>
    simp only [firstIdx] at h
    split at h
    · rename_i hp
      cases h
      exact ⟨a, rfl, hp⟩
    · cases hl : firstIdx p l with
      | none => rw [hl] at h; simp at h
      | some k =>
        rw [hl] at h
        simp only [Option.map_some, Option.some.injEq] at h
        subst h
        obtain ⟨f, hf, hp⟩ := ih hl
        exact ⟨f, by simpa using hf, hp⟩

theorem firstIdx_none {p : DFrame → Bool} {l : List DFrame} (h : firstIdx p l = none) :
    ∀ (j : Nat) (f : DFrame), l[j]? = some f → p f = false := by
  induction l with
  | nil => simp
  | cons a l ih =>
    simp only [firstIdx] at h
    split at h
    · cases h
    · rename_i hp
      cases hl : firstIdx p l with
      | some k => rw [hl] at h; simp at h
      | none =>
        intro j f hf
        cases j with
        | zero =>
          simp only [List.getElem?_cons_zero, Option.some.injEq] at hf
          subst hf
          simpa using hp
        | succ j => exact ih hl j f (by simpa using hf)

theorem usable_iff (f : DFrame) (w : Int) :
    f.usable w = true ↔ f.coi = w ∧ 0 ≤ w ∧ f.poc ≠ -1 ∧ f.refd = true ∧ f.disp = 0 := by
  unfold DFrame.usable DFrame.valid
  simp only [Bool.and_eq_true, bne_iff_ne, ne_eq, decide_eq_true_eq, beq_iff_eq]
  constructor
  · rintro ⟨⟨⟨⟨⟨h1, h2⟩, h3⟩, h4⟩, h5⟩, h6⟩
    exact ⟨h4.symm, by omega, h2, h6, h5⟩
  · rintro ⟨h1, h2, h3, h4, h5⟩
    exact ⟨⟨⟨⟨⟨by omega, h3⟩, by omega⟩, h1.symm⟩, h5⟩, h4⟩

/-- Adding a number of uses to each frame. -/
def bump (js : List Nat) (l : List DFrame) : List DFrame :=
  l.mapIdx fun i f => { f with rc := f.rc + js.count i }

theorem bump_getElem? (js : List Nat) (l : List DFrame) (i : Nat) :
    (bump js l)[i]? = l[i]?.map fun f => { f with rc := f.rc + js.count i } := by
  simp [bump]

theorem bump_nil (l : List DFrame) : bump [] l = l := by
  apply List.ext_getElem?
  intro i
  rw [bump_getElem?]
  simp

theorem bump_snoc (js : List Nat) (j : Nat) (l : List DFrame) :
    (bump js l).modify j (fun f => { f with rc := f.rc + 1 }) = bump (js ++ [j]) l := by
  apply List.ext_getElem?
  intro i
  rw [List.getElem?_modify, bump_getElem?, bump_getElem?]
  by_cases h : j = i
  · subst h
    cases l[j]? with
    | none => rfl
    | some f => simp [List.count_append, Nat.add_assoc]
  · have h0 : [j].count i = 0 := by simp [List.count_cons, h]
    simp only [if_neg h, id_map', List.count_append, h0, Nat.add_zero]

theorem firstIdx_bump (js : List Nat) (l : List DFrame) (w : Int) :
    firstIdx (·.usable w) (bump js l) = firstIdx (·.usable w) l := by
  have aux : ∀ (g : Nat → Nat) (l : List DFrame),
      firstIdx (·.usable w) (l.mapIdx fun i f => { f with rc := f.rc + g i }) =
      firstIdx (·.usable w) l := by
    intro g l
    induction l generalizing g with
    | nil => rfl
    | cons a l ih =>
      simp only [List.mapIdx_cons, firstIdx]
      have : DFrame.usable { a with rc := a.rc + g 0 } w = a.usable w := rfl
      rw [this, ih (fun i => g (i + 1))]
  exact aux (fun i => js.count i) l

theorem storedRef_iff (l : List DFrame) (w : Int) (j : Nat) :
    StoredRef l w j ↔ ∃ f, l[j]? = some f ∧ f.usable w = true := by
  simp only [StoredRef, usable_iff]

/-- What the reference search does. -/
theorem searchRefs_spec (l : List DFrame) (ws : List Int) (acc : List Nat) :
    (∃ js, searchRefs (bump acc l) ws acc = .inl (bump (acc ++ js) l, acc ++ js) ∧
      js.length = ws.length ∧
      ∀ (i : Nat) w j, ws[i]? = some w → js[i]? = some j → StoredRef l w j) ∨
    (∃ js w, searchRefs (bump acc l) ws acc = .inr (bump (acc ++ js) l, acc ++ js) ∧
      (∀ j ∈ js, ∃ w, StoredRef l w j) ∧ w ∈ ws ∧ ∀ j, ¬ StoredRef l w j) := by
  induction ws generalizing acc with
  | nil =>
    left
    exact ⟨[], by simp [searchRefs], rfl, by simp⟩
  | cons w ws ih =>
    cases hf : firstIdx (·.usable w) l with
    | none =>
      right
      refine ⟨[], w, ?_, by simp, by simp, ?_⟩
      · simp only [searchRefs, firstIdx_bump, hf, List.append_nil]
      · intro j hj
        rw [storedRef_iff] at hj
        obtain ⟨f, h1, h2⟩ := hj
        have h3 := firstIdx_none hf j f h1
        rw [h2] at h3
        cases h3
    | some k =>
      have hk : StoredRef l w k := by
        rw [storedRef_iff]; exact firstIdx_some hf
      have hstep : searchRefs (bump acc l) (w :: ws) acc =
          searchRefs (bump (acc ++ [k]) l) ws (acc ++ [k]) := by
        simp only [searchRefs, firstIdx_bump, hf, bump_snoc]
      rw [hstep]
      rcases ih (acc ++ [k]) with ⟨js, h1, h2, h3⟩ | ⟨js, w', h1, h2, h3, h4⟩
      · left
        refine ⟨k :: js, ?_, by simp [h2], ?_⟩
        · rw [h1]; simp
        · intro i w' j hw hj
          cases i with
          | zero =>
            simp only [List.getElem?_cons_zero, Option.some.injEq] at hw hj
            subst hw hj
            exact hk
          | succ i => exact h3 i w' j (by simpa using hw) (by simpa using hj)
      · right
        refine ⟨k :: js, w', ?_, ?_, List.mem_cons_of_mem _ h3, h4⟩
        · rw [h1]; simp
        · intro j hj
          rcases List.mem_cons.1 hj with rfl | hj
          · exact ⟨w, hk⟩
          · exact h2 j hj

theorem releaseAll_bump (l : List DFrame) (js : List Nat)
    (h : ∀ j ∈ js, ∃ w, StoredRef l w j) : releaseAll (bump js l) js = l := by
  induction js with
  | nil => simp [releaseAll, bump_nil]
  | cons j js ih =>
    simp only [releaseAll]
    have hj := h j (List.mem_cons_self ..)
    obtain ⟨w, f, hf, _, _, _, _, hd⟩ := hj
    have : (bump (j :: js) l).modify j (fun f => (releaseFrame f).getD f) = bump js l := by
      apply List.ext_getElem?
      intro i
      rw [List.getElem?_modify, bump_getElem?, bump_getElem?]
      by_cases hij : j = i
      · subst hij
        simp only [hf, Option.map_some, if_true, List.count_cons_self, Option.some.injEq]
        simp [releaseFrame, hd]
      · have h0 : (j :: js).count i = js.count i := by simp [List.count_cons, hij]
        simp only [if_neg hij, h0, id_map']
    rw [this]
    exact ih (fun j' hj' => h j' (List.mem_cons_of_mem _ hj'))

theorem useCounts_bump (js : List Nat) (l : List DFrame) (i : Nat) :
    (useCounts (bump js l))[i]? = (useCounts l)[i]?.map (· + js.count i) := by
  simp only [useCounts, List.getElem?_map, bump_getElem?, Option.map_map]
  rfl

theorem retireFrame_rc' (f : DFrame) : (retireFrame f).rc = f.rc := by
  unfold retireFrame cleanFrame
  split <;> simp

theorem useCounts_cleanOld (l : List DFrame) (poc : Int) :
    useCounts (cleanOld l poc) = useCounts l := by
  simp only [useCounts, cleanOld, List.map_map]
  apply List.map_congr_left
  intro f _
  simp only [Function.comp]
  split
  · exact retireFrame_rc' f
  · rfl

theorem useCounts_removeCoi (l : List DFrame) (c : Int) : useCounts (removeCoi l c) = useCounts l := by
  unfold removeCoi
  split
  · rename_i j _
    apply List.ext_getElem?
    intro i
    simp only [useCounts, List.getElem?_map, List.getElem?_modify]
    cases l[i]? with
    | none => rfl
    | some f =>
      simp only [Option.map_some, Option.some.injEq]
      split
      · exact congrArg some (retireFrame_rc' f)
      · rfl
  · rfl

theorem useCounts_removeAll (cs : List Int) (l : List DFrame) :
    useCounts (cs.foldl removeCoi l) = useCounts l := by
  induction cs generalizing l with
  | nil => rfl
  | cons c cs ih =>
    simp only [List.foldl_cons]
    rw [ih, useCounts_removeCoi]

end Davs2
