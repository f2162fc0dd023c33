import Verif.Spec.Dpb

namespace Davs2

/-- Each use count is the number of users plus the leaked uses. -/
structure DpbInv (s : DpbSt) : Prop where
  rc : ∀ j f, s.frames[j]? = some f → f.rc = usersOf s j + s.leaked.count j
  setup : ∀ t, s.setup = some t → t.fdec = none → t.out = none
  bound : ∀ j, s.frames[j]? = none → usersOf s j + s.leaked.count j = 0

theorem tasksUses_set {ts : List DTask} {t : Nat} {k : DTask} (k' : DTask) (j : Nat)
    (h : ts[t]? = some k) : tasksUses (ts.set t k') j + k.uses j = tasksUses ts j + k'.uses j := by
  induction ts generalizing t with
  | nil => simp at h
  | cons a ts ih =>
    cases t with
    | zero =>
      simp only [List.getElem?_cons_zero, Option.some.injEq] at h
      subst h
      simp only [List.set_cons_zero, tasksUses]
      omega
    | succ t =>
      simp only [List.getElem?_cons_succ] at h
      have := ih h
      simp only [List.set_cons_succ, tasksUses]
      omega

theorem releaseFrame_rc {f f' : DFrame} (h : releaseFrame f = some f') : f.rc = f'.rc + 1 := by
  unfold releaseFrame at h
  split at h
  · cases h
  · simp only [Option.some.injEq] at h
    rw [← h]
    split <;> simp [cleanFrame] <;> omega

theorem retireFrame_rc (f : DFrame) : (retireFrame f).rc = f.rc := by
  unfold retireFrame cleanFrame
  split <;> simp

/-- Changing one frame and the users consistently. -/
theorem DpbInv.update {s s' : DpbSt} (h : DpbInv s) (j : Nat) (f f' : DFrame)
    (hf : s.frames[j]? = some f) (hframes : s'.frames = s.frames.set j f')
    (hother : ∀ i, i ≠ j → usersOf s' i + s'.leaked.count i = usersOf s i + s.leaked.count i)
    (hset : ∀ t, s'.setup = some t → t.fdec = none → t.out = none)
    (hj : f'.rc + (usersOf s j + s.leaked.count j) = f.rc + (usersOf s' j + s'.leaked.count j)) :
    DpbInv s' := by
  have hlt : j < s.frames.length := (List.getElem?_eq_some_iff.1 hf).1
  constructor
  · intro i g hg
    rw [hframes] at hg
    by_cases hi : i = j
    · subst hi
      rw [List.getElem?_set_self hlt] at hg
      cases hg
      have := h.rc _ _ hf
      omega
    · rw [List.getElem?_set_ne (Ne.symm hi)] at hg
      rw [hother i hi]
      exact h.rc i g hg
  · exact hset
  · intro i hi
    rw [hframes] at hi
    by_cases hij : i = j
    · subst hij
      rw [List.getElem?_set_self hlt] at hi
      cases hi
    · rw [List.getElem?_set_ne (Ne.symm hij)] at hi
      rw [hother i hij]
      exact h.bound i hi

/-- Moving uses around without touching frames. -/
theorem DpbInv.move {s s' : DpbSt} (h : DpbInv s) (hframes : s'.frames = s.frames)
    (hset : ∀ t, s'.setup = some t → t.fdec = none → t.out = none)
    (hall : ∀ i, usersOf s' i + s'.leaked.count i = usersOf s i + s.leaked.count i) :
    DpbInv s' := by
  constructor
  · intro i g hg
    rw [hframes] at hg
    rw [hall i]
    exact h.rc i g hg
  · exact hset
  · intro i hi
    rw [hframes] at hi
    rw [hall i]
    exact h.bound i hi

theorem dpbInit_inv (n : Nat) : DpbInv (dpbInit n) := by
  constructor
  · intro j f hf
    simp only [dpbInit, List.getElem?_replicate] at hf
    split at hf <;> cases hf
    simp [freshFrame, usersOf, dpbInit, tasksUses]
  · simp [dpbInit]
  · intro j _
    simp [usersOf, dpbInit, tasksUses]

theorem count_single (i j : Nat) : [j].count i = if i = j then 1 else 0 := by
  by_cases h : i = j
  · subst h; simp
  · rw [if_neg h]; simp [List.count_cons, Ne.symm h]

theorem count_cons' (i j : Nat) (l : List Nat) :
    (j :: l).count i = l.count i + if i = j then 1 else 0 := by
  rw [List.count_cons]
  by_cases h : i = j
  · simp [h]
  · simp [h, Ne.symm h]

theorem count_erase' (i j : Nat) (l : List Nat) (h : j ∈ l) :
    (l.erase j).count i + (if i = j then 1 else 0) = l.count i := by
  have := (List.perm_cons_erase h).count_eq i
  rw [count_cons'] at this
  omega

theorem take_inv {s : DpbSt} (h : DpbInv s) {t : DTask} {f f' : DFrame} {j : Nat}
    (h0 : s.setup = some t) (hf : s.frames[j]? = some f) (hn : t.fdec = none)
    (hrc : f'.rc = f.rc + 2) :
    DpbInv { setFrame s j f' with setup := some { t with fdec := some j, out := some j } } := by
  have ho := h.setup t h0 hn
  refine h.update j f _ hf rfl (fun i hi => ?_) ?_ ?_
  · simp [usersOf, setFrame, h0, DTask.uses, hn, ho, Ne.symm hi]
  · intro t' ht'
    cases ht'
    simp
  · simp only [usersOf, setFrame, h0, DTask.uses, hn, ho, Option.elim, Option.toList_none,
      Option.toList_some, List.count_nil, count_single, if_true]
    omega

theorem task_update {s s' : DpbSt} (h : DpbInv s) {t : Nat} {k k' : DTask} {f f' : DFrame} {j : Nat}
    (hk : s.tasks[t]? = some k) (hf : s.frames[j]? = some f) (hr : releaseFrame f = some f')
    (huse : ∀ i, k.uses i = k'.uses i + if i = j then 1 else 0)
    (hs : s' = { setFrame s j f' with tasks := s.tasks.set t k' }) : DpbInv s' := by
  subst hs
  have hrc := releaseFrame_rc hr
  refine h.update j f f' hf rfl (fun i hi => ?_) h.setup ?_
  · have h1 := tasksUses_set k' i hk
    have h2 := huse i
    rw [if_neg hi] at h2
    simp only [usersOf, setFrame]
    omega
  · have h1 := tasksUses_set k' j hk
    have h2 := huse j
    rw [if_pos rfl] at h2
    simp only [usersOf, setFrame]
    omega

theorem dpbStep_inv {s s' : DpbSt} {a : DpbAct} (h : DpbInv s) (hs : dpbStep s a = some s') :
    DpbInv s' := by
  cases a with
  | begin =>
    simp only [dpbStep] at hs
    split at hs
    · rename_i h0
      cases hs
      refine DpbInv.move h rfl ?_ ?_
      · intro t ht; cases ht; simp
      · intro i
        simp [usersOf, h0, DTask.uses]
    · cases hs
  | retire j =>
    simp only [dpbStep] at hs
    split at hs
    · rename_i t f h0 hf
      split at hs
      · cases hs
        refine h.update j f (retireFrame f) hf rfl (fun i _ => rfl) h.setup ?_
        rw [retireFrame_rc]
        rfl
      · cases hs
    · cases hs
  | addRef j want =>
    simp only [dpbStep] at hs
    split at hs
    · rename_i t f h0 hf
      split at hs
      · cases hs
        refine h.update j f { f with rc := f.rc + 1 } hf rfl (fun i hi => ?_) ?_ ?_
        · simp only [usersOf, setFrame, h0, Option.elim, DTask.uses, List.count_append, count_single,
            if_neg hi]
          omega
        · intro t' ht' hn
          cases ht'
          exact h.setup t h0 hn
        · simp only [usersOf, setFrame, h0, Option.elim, DTask.uses, List.count_append, count_single,
            if_true]
          omega
      · cases hs
    · cases hs
  | take j poc coi refd =>
    simp only [dpbStep] at hs
    split at hs
    · rename_i t f h0 hf
      split at hs
      · rename_i hc
        cases hs
        exact take_inv h h0 hf hc.1 rfl
      · cases hs
    · cases hs
  | force j poc coi refd =>
    simp only [dpbStep] at hs
    split at hs
    · rename_i t f h0 hf
      split at hs
      · rename_i hc
        cases hs
        exact take_inv h h0 hf hc.1 rfl
      · cases hs
    · cases hs
  | launch =>
    simp only [dpbStep] at hs
    split at hs
    · rename_i t h0
      split at hs
      · cases hs
      · cases hs
        refine DpbInv.move h rfl (by simp) (fun i => ?_)
        simp only [usersOf, h0, Option.elim, tasksUses]
        omega
    · cases hs
  | fail =>
    simp only [dpbStep] at hs
    split at hs
    · rename_i t h0
      split at hs
      · cases hs
        refine DpbInv.move h rfl (by simp) (fun i => ?_)
        simp only [usersOf, h0, Option.elim, tasksUses]
        omega
      · cases hs
    · cases hs
  | finish t =>
    simp only [dpbStep] at hs
    split at hs
    · rename_i k hk
      split at hs
      · rename_i j hj
        cases hs
        refine DpbInv.move h rfl h.setup (fun i => ?_)
        have h1 := tasksUses_set { k with out := none } i hk
        simp only [DTask.uses, hj, Option.toList_some, Option.toList_none, count_single,
          List.count_nil] at h1
        simp only [usersOf, count_cons']
        omega
      · cases hs
    · cases hs
  | releaseRef t =>
    simp only [dpbStep] at hs
    split at hs
    · rename_i k hk
      split at hs
      · rename_i j rest ho hr
        split at hs
        · rename_i f hf
          split at hs
          · rename_i f' hrel
            simp only [Option.some.injEq] at hs
            refine task_update (k' := { k with refs := rest }) h hk hf hrel (fun i => ?_) hs.symm
            simp only [DTask.uses, hr, count_cons']
            omega
          · cases hs
        · cases hs
      · cases hs
    · cases hs
  | releaseFdec t =>
    simp only [dpbStep] at hs
    split at hs
    · rename_i k hk
      split at hs
      · rename_i j ho hr hd
        split at hs
        · rename_i f hf
          split at hs
          · rename_i f' hrel
            simp only [Option.some.injEq] at hs
            refine task_update (k' := { k with fdec := none }) h hk hf hrel (fun i => ?_) hs.symm
            simp only [DTask.uses, hd, Option.toList_some, Option.toList_none, count_single,
              List.count_nil]
            omega
          · cases hs
        · cases hs
      · cases hs
    · cases hs
  | lose t =>
    simp only [dpbStep] at hs
    split at hs
    · rename_i k hk
      split at hs
      · rename_i j hj
        cases hs
        refine DpbInv.move h rfl h.setup (fun i => ?_)
        have h1 := tasksUses_set ⟨[], none, none⟩ i hk
        simp only [DTask.uses, hj, Option.toList_some, Option.toList_none, count_single,
          List.count_nil] at h1
        simp only [usersOf, count_cons', List.count_append]
        omega
      · cases hs
    · cases hs
  | releaseOut j =>
    simp only [dpbStep] at hs
    split at hs
    · rename_i hm
      split at hs
      · rename_i f hf
        split at hs
        · rename_i f' hrel
          cases hs
          have hrc := releaseFrame_rc hrel
          refine h.update j f f' hf rfl (fun i hi => ?_) h.setup ?_
          · have := count_erase' i j s.outs hm
            rw [if_neg hi] at this
            simp only [usersOf, setFrame]
            omega
          · have := count_erase' j j s.outs hm
            rw [if_pos rfl] at this
            simp only [usersOf, setFrame]
            omega
        · cases hs
      · cases hs
    · cases hs

theorem dpbRun_inv {s s' : DpbSt} {as : List DpbAct} (h : DpbInv s) (hr : dpbRun s as = some s') :
    DpbInv s' := by
  induction as generalizing s with
  | nil => cases hr; exact h
  | cons a as ih =>
    simp only [dpbRun] at hr
    split at hr
    · rename_i s1 h1
      exact ih (dpbStep_inv h h1) hr
    · cases hr

end Davs2
