import Verif.Model.Resize

/- C113: a sequence header with another picture size while pictures are in progress. -/
namespace Davs2.Rz

/-- Pools before the current one are freed, the current one and those to come are not; references point into pools that exist. -/
structure Inv (s : St) : Prop where
  old : ∀ p, p < s.cur → (s.pools p).freed = true
  now : (s.pools s.cur).freed = false
  ref : ∀ r ∈ s.held, r.1 ≤ s.cur ∧ (r.1 = s.cur → r.2 < (s.pools s.cur).frames.length)
  count : ∀ (i : Nat) (f : Fr), (s.pools s.cur).frames[i]? = some f → f.refCount = s.held.count (s.cur, i)

theorem opened_inv : Inv opened :=
  ⟨fun p hp => absurd hp (Nat.not_lt_zero p), rfl, fun r hr => absurd hr (by simp [opened]), fun i f h => by simp [opened] at h⟩

theorem get_stale {s : St} (hi : Inv s) {r : Nat × Nat} (h : r.1 < s.cur) : get s r = none := by
  unfold get; rw [hi.old r.1 h]; rfl

theorem get_now {s : St} (hi : Inv s) {r : Nat × Nat} (hm : r ∈ s.held) (h : r.1 = s.cur) : ∃ f, get s r = some f ∧ (s.pools s.cur).frames[r.2]? = some f := by
  have := (hi.ref r hm).2 h
  refine ⟨(s.pools s.cur).frames[r.2], ?_, List.getElem?_eq_getElem this⟩
  unfold get; rw [h, hi.now]; simp [this]

theorem acquire_inv {s : St} (hi : Inv s) {i : Nat} {f : Fr} (hf : (s.pools s.cur).frames[i]? = some f) :
    Inv { setFrame s (s.cur, i) { f with refCount := f.refCount + 1 } with held := s.held ++ [(s.cur, i)] } := by
  have hlt : i < (s.pools s.cur).frames.length := (List.getElem?_eq_some_iff.1 hf).1
  refine ⟨fun p hp => ?_, ?_, fun r hr => ?_, fun j g hg => ?_⟩
  · show (setPool s.pools s.cur _ p).freed = true
    rw [setPool, if_neg (by have : p < s.cur := hp; omega)]; exact hi.old p hp
  · show (setPool s.pools s.cur _ s.cur).freed = false
    rw [setPool, if_pos rfl]; exact hi.now
  · show r.1 ≤ s.cur ∧ (r.1 = s.cur → r.2 < (setPool s.pools s.cur _ s.cur).frames.length)
    rw [setPool, if_pos rfl, List.length_set]
    rcases List.mem_append.1 hr with hr | hr
    · exact hi.ref r hr
    · rw [List.mem_singleton] at hr
      subst hr
      exact ⟨Nat.le_refl _, fun _ => hlt⟩
  · change (setPool s.pools s.cur _ s.cur).frames[j]? = some g at hg
    rw [setPool, if_pos rfl] at hg
    show g.refCount = (s.held ++ [(s.cur, i)]).count (s.cur, j)
    rw [List.count_append, List.count_singleton]
    by_cases e : i = j
    · subst e
      simp only [List.getElem?_set_self hlt, Option.some.injEq] at hg
      subst hg
      simp [hi.count i f hf]
    · simp only [List.getElem?_set_ne e] at hg
      rw [hi.count j g hg]
      simp [e]

theorem release_inv {s : St} (hi : Inv s) {k : Nat} {r : Nat × Nat} (hk : s.held[k]? = some r) (hr : r.1 = s.cur) {f : Fr} (hf : (s.pools s.cur).frames[r.2]? = some f) (d : Nat) :
    Inv { setFrame s r ⟨f.refCount - 1, d⟩ with held := s.held.eraseIdx k } := by
  obtain ⟨p, i⟩ := r
  obtain rfl : p = s.cur := hr
  have hlt : i < (s.pools s.cur).frames.length := (List.getElem?_eq_some_iff.1 hf).1
  have hc : ∀ x, (s.held.eraseIdx k).count x + [(s.cur, i)].count x = s.held.count x := by
    intro x
    have hl : k < s.held.length := (List.getElem?_eq_some_iff.1 hk).1
    have hp : s.held[k] = (s.cur, i) := (List.getElem?_eq_some_iff.1 hk).2
    have e1 : s.held = s.held.take k ++ (s.cur, i) :: s.held.drop (k + 1) := by
      rw [← hp, ← List.drop_eq_getElem_cons hl, List.take_append_drop]
    rw [List.eraseIdx_eq_take_drop_succ, List.count_append]
    have e2 := congrArg (fun l => l.count x) e1
    simp only [List.count_append, List.count_cons] at e2
    rw [List.count_singleton]
    omega
  refine ⟨fun p hp => ?_, ?_, fun r hr => ?_, fun j g hg => ?_⟩
  · show (setPool s.pools s.cur _ p).freed = true
    rw [setPool, if_neg (by have : p < s.cur := hp; omega)]; exact hi.old p hp
  · show (setPool s.pools s.cur _ s.cur).freed = false
    rw [setPool, if_pos rfl]; exact hi.now
  · show r.1 ≤ s.cur ∧ (r.1 = s.cur → r.2 < (setPool s.pools s.cur _ s.cur).frames.length)
    rw [setPool, if_pos rfl, List.length_set]
    exact hi.ref r (List.mem_of_mem_eraseIdx hr)
  · change (setPool s.pools s.cur _ s.cur).frames[j]? = some g at hg
    rw [setPool, if_pos rfl] at hg
    show g.refCount = (s.held.eraseIdx k).count (s.cur, j)
    have h2 := hc (s.cur, j)
    rw [List.count_singleton] at h2
    by_cases e : i = j
    · subst e
      simp only [List.getElem?_set_self hlt, Option.some.injEq] at hg
      subst hg
      have := hi.count i f hf
      simp at h2
      show f.refCount - 1 = _
      omega
    · simp only [List.getElem?_set_ne e] at hg
      rw [hi.count j g hg]
      simp [e] at h2
      omega

theorem header_inv {s : St} (hi : Inv s) (w h n : Nat) : ∃ s', step s (.header w h n) = some s' ∧ Inv s' ∧ s'.held = s.held ∧ s'.width = w ∧ s'.height = h ∧
    (s'.cur = if s.width ≠ w ∨ s.height ≠ h then s.cur + 1 else s.cur) := by
  simp only [step]
  split
  · rename_i hne
    refine ⟨_, rfl, ⟨fun p hp => ?_, ?_, fun r hr => ?_, fun i f hf => ?_⟩, rfl, rfl, rfl, rfl⟩
    · have hp' : p < s.cur + 1 := hp
      show (setPool (setPool s.pools s.cur _) (s.cur + 1) _ p).freed = true
      rw [setPool, if_neg (by omega), setPool]
      split
      · rfl
      · exact hi.old p (by omega)
    · show (setPool _ (s.cur + 1) _ (s.cur + 1)).freed = false
      rw [setPool, if_pos rfl]; rfl
    · have := (hi.ref r hr).1
      exact ⟨Nat.le_succ_of_le this, fun q => by have q' : r.1 = s.cur + 1 := q; omega⟩
    · change (setPool _ (s.cur + 1) _ (s.cur + 1)).frames[i]? = some f at hf
      rw [setPool, if_pos rfl] at hf
      simp only [newPool, List.getElem?_replicate] at hf
      split at hf
      · cases hf
        show 0 = s.held.count (s.cur + 1, i)
        refine (List.count_eq_zero.2 fun hm => ?_).symm
        have := (hi.ref _ hm).1
        simp only at this
        omega
      · cases hf
  · refine ⟨_, rfl, ⟨hi.old, hi.now, hi.ref, hi.count⟩, rfl, rfl, rfl, rfl⟩

theorem step_inv {s s' : St} (hi : Inv s) (o : Op) (e : step s o = some s') : Inv s' := by
  cases o with
  | acquire i =>
    simp only [step] at e
    split at e
    · rename_i f hf
      cases e
      exact acquire_inv hi hf
    · cases e; exact hi
  | use k =>
    simp only [step] at e
    split at e
    · rename_i r hk
      cases hg : get s r with
      | none => rw [hg] at e; cases e
      | some f => rw [hg] at e; cases e; exact hi
    · cases e; exact hi
  | release k =>
    simp only [step] at e
    split at e
    · rename_i r hk
      have hm : r ∈ s.held := List.mem_of_getElem? hk
      rcases Nat.lt_or_ge r.1 s.cur with hlt | hge
      · rw [get_stale hi hlt] at e; cases e
      · obtain ⟨f, hg, hf⟩ := get_now hi hm (Nat.le_antisymm (hi.ref r hm).1 hge)
        rw [hg] at e
        cases e
        exact release_inv hi hk (Nat.le_antisymm (hi.ref r hm).1 hge) hf _
    · cases e; exact hi
  | header w h n =>
    obtain ⟨t, e', ht, -⟩ := header_inv hi w h n
    rw [e'] at e
    cases e
    exact ht

theorem run_inv {l : List Op} : ∀ {s s' : St}, Inv s → run s l = some s' → Inv s' := by
  induction l with
  | nil => intro s s' hi e; cases e; exact hi
  | cons o l ih =>
    intro s s' hi e
    rw [run] at e
    cases h : step s o with
    | none => rw [h] at e; cases e
    | some t => rw [h] at e; exact ih (step_inv hi o h) e

/-- The size changes while references are held. -/
def badHeader (s : St) : Op → Prop
  | .header w h _ => (s.width ≠ w ∨ s.height ≠ h) ∧ s.held ≠ []
  | _ => False

/-- No header of another size arrives while references are held. -/
def Calm (s : St) : List Op → Prop
  | [] => True
  | o :: l => ¬ badHeader s o ∧ ∀ s', step s o = some s' → Calm s' l

theorem calm_run {l : List Op} : ∀ {s : St}, Inv s → (∀ r ∈ s.held, r.1 = s.cur) → Calm s l → ∃ s', run s l = some s' := by
  induction l with
  | nil => intro s _ _ _; exact ⟨s, rfl⟩
  | cons o l ih =>
    intro s hi hh hc
    have key : ∃ t, step s o = some t ∧ ∀ r ∈ t.held, r.1 = t.cur := by
      cases o with
      | acquire i =>
        simp only [step]
        split
        · refine ⟨_, rfl, fun r hr => ?_⟩
          rcases List.mem_append.1 hr with hr | hr
          · exact hh r hr
          · rw [List.mem_singleton] at hr; subst hr; rfl
        · exact ⟨s, rfl, hh⟩
      | use k =>
        simp only [step]
        split
        · rename_i r hk
          have hm := List.mem_of_getElem? hk
          obtain ⟨f, hg, -⟩ := get_now hi hm (hh r hm)
          rw [hg]
          exact ⟨s, rfl, hh⟩
        · exact ⟨s, rfl, hh⟩
      | release k =>
        simp only [step]
        split
        · rename_i r hk
          have hm := List.mem_of_getElem? hk
          obtain ⟨f, hg, -⟩ := get_now hi hm (hh r hm)
          rw [hg]
          exact ⟨_, rfl, fun q hq => hh q (List.mem_of_mem_eraseIdx hq)⟩
        · exact ⟨s, rfl, hh⟩
      | header w h n =>
        obtain ⟨t, e, -, e1, -, -, e2⟩ := header_inv hi w h n
        refine ⟨t, e, fun r hr => ?_⟩
        rw [e1] at hr
        by_cases hne : s.width ≠ w ∨ s.height ≠ h
        · have : s.held = [] := Decidable.byContradiction fun q => hc.1 ⟨hne, q⟩
          rw [this] at hr; simp at hr
        · rw [e2, if_neg hne]; exact hh r hr
    obtain ⟨t, e, ht⟩ := key
    obtain ⟨u, eu⟩ := ih (step_inv hi o e) ht (hc.2 t e)
    exact ⟨u, by rw [run, e]; exact eu⟩

/-- **C113, the part that holds.** If every header of another size arrives when no picture is being decoded and none waits for delivery or is held, no freed frame is ever touched, whatever
the history.  Missing: headers that arrive earlier, where it is false (`C113_violated`). -/
theorem C113_calm_partial (l : List Op) (hc : Calm opened l) : ∃ s, run opened l = some s :=
  calm_run opened_inv (fun r hr => absurd hr (by simp [opened])) hc

/-- **C113, violated, always.** In every reachable state with a frame in use, a header of another size frees the memory of that frame: the next use and the release of it are undefined. -/
theorem C113_violated (l : List Op) {s : St} (e : run opened l = some s) {w h : Nat} (n : Nat) (hne : s.width ≠ w ∨ s.height ≠ h) {k : Nat} (hk : k < s.held.length) :
    ∃ t, step s (.header w h n) = some t ∧ step t (.use k) = none ∧ step t (.release k) = none := by
  have hi := run_inv opened_inv e
  obtain ⟨t, et, ht, e1, -, -, e2⟩ := header_inv hi w h n
  have hk' : t.held[k]? = some s.held[k] := by rw [e1, List.getElem?_eq_getElem hk]
  have hlt : (s.held[k]).1 < t.cur := by
    have := (hi.ref _ (List.getElem_mem hk)).1
    rw [e2, if_pos hne]; omega
  exact ⟨t, et, by simp only [step, hk', get_stale ht hlt, Option.map_none], by simp only [step, hk', get_stale ht hlt, Option.map_none]⟩

/-- The code could tell: the reference counts of the pool are zero exactly if nothing is held of it. -/
theorem C113_counts (l : List Op) {s : St} (e : run opened l = some s) (i : Nat) {f : Fr} (hf : (s.pools s.cur).frames[i]? = some f) : f.refCount = s.held.count (s.cur, i) :=
  (run_inv opened_inv e).count i f hf

/-- Such a history: a header, a frame taken by a task; and a calm one with a change of size. -/
example : ∃ s, run opened [.header 64 64 4, .acquire 2] = some s ∧ 0 < s.held.length ∧ (s.width ≠ 32 ∨ s.height ≠ 32) := ⟨_, rfl, by decide, by decide⟩
example : run opened [.header 64 64 4, .acquire 2, .header 32 32 4, .use 0] = none := rfl
example : ∃ s, run opened [.header 64 64 4, .acquire 2, .use 0, .header 64 64 9, .use 0, .release 0, .header 32 32 4, .acquire 1, .use 0] = some s ∧ s.held = [(2, 1)] := ⟨_, rfl, rfl⟩
example : Calm opened [.header 64 64 4, .acquire 2, .use 0, .release 0, .header 32 32 4] := by
  refine ⟨fun q => q.2 rfl, fun s e => ?_⟩
  cases e
  refine ⟨id, fun s e => ?_⟩
  cases e
  refine ⟨id, fun s e => ?_⟩
  cases e
  refine ⟨id, fun s e => ?_⟩
  cases e
  exact ⟨fun q => q.2 rfl, fun _ _ => trivial⟩

end Davs2.Rz
