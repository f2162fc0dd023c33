import Verif.Lemmas.Dpb
import Verif.Lemmas.GetRefs

/-!
# C16, C17: picture buffers and references
-/

namespace Davs2

/-- C16: under every interleaving, each buffer's use count is the number of its
users plus the uses lost by tasks without slice data. -/
theorem C16_use_counts (n : Nat) (acts : List DpbAct) (s : DpbSt)
    (hr : dpbRun (dpbInit n) acts = some s) (j : Nat) (f : DFrame) (hf : s.frames[j]? = some f) :
    f.rc = usersOf s j + s.leaked.count j :=
  (dpbRun_inv (dpbInit_inv n) hr).rc j f hf

/-- `lose` is the only action that leaks. -/
theorem dpbStep_leaked {s s' : DpbSt} {a : DpbAct} (hs : dpbStep s a = some s')
    (ha : ∀ t, a ≠ .lose t) : s'.leaked = s.leaked := by
  cases a with
  | lose id => exact absurd rfl (ha id)
  | _ =>
    simp only [dpbStep] at hs
    repeat' split at hs
    all_goals first | cases hs | skip
    all_goals rfl

theorem dpbRun_leaked {s s' : DpbSt} {as : List DpbAct} (hr : dpbRun s as = some s')
    (ha : ∀ t, DpbAct.lose t ∉ as) : s'.leaked = s.leaked := by
  induction as generalizing s with
  | nil => cases hr; rfl
  | cons a as ih =>
    simp only [dpbRun] at hr
    split at hr
    · rename_i s1 h1
      rw [ih hr (fun id h => ha id (List.mem_cons_of_mem _ h))]
      exact dpbStep_leaked h1 (fun id h => ha id (h ▸ List.mem_cons_self ..))
    · cases hr

/-- C16 (no task without slice data): the use count is exactly the number of
users. -/
theorem C16_use_counts_exact_partial (n : Nat) (acts : List DpbAct) (s : DpbSt)
    (hr : dpbRun (dpbInit n) acts = some s) (hno : ∀ t, DpbAct.lose t ∉ acts)
    (j : Nat) (f : DFrame) (hf : s.frames[j]? = some f) : f.rc = usersOf s j := by
  have h := C16_use_counts n acts s hr j f hf
  have hl : s.leaked = [] := dpbRun_leaked hr hno
  rw [h, hl]
  simp

/-- C16: a buffer handed out as decoding target, by the normal search or by the
forced choice, has no user at that moment. -/
theorem C16_not_recycled_in_use (n : Nat) (acts : List DpbAct) (s s' : DpbSt)
    (hr : dpbRun (dpbInit n) acts = some s) (j : Nat) (poc coi : Int) (refd : Bool)
    (hs : dpbStep s (.take j poc coi refd) = some s' ∨ dpbStep s (.force j poc coi refd) = some s') :
    usersOf s j = 0 := by
  have hi := dpbRun_inv (dpbInit_inv n) hr
  have key : ∀ f, s.frames[j]? = some f → f.rc = 0 → usersOf s j = 0 := by
    intro f hf h0
    have := hi.rc j f hf
    omega
  rcases hs with hs | hs
  · simp only [dpbStep] at hs
    split at hs
    · rename_i t f h0 hf
      split at hs
      · rename_i hc
        exact key f hf hc.2.1
      · cases hs
    · cases hs
  · simp only [dpbStep] at hs
    split at hs
    · rename_i t f h0 hf
      split at hs
      · rename_i hc
        exact key f hf hc.2
      · cases hs
    · cases hs

/-- C16: while a buffer is in use its picture order count and coding order do not
change (so the order in the waiting list stays meaningful). -/
theorem C16_identity_stable (n : Nat) (acts : List DpbAct) (s s' : DpbSt) (a : DpbAct)
    (hr : dpbRun (dpbInit n) acts = some s) (hs : dpbStep s a = some s') (j : Nat) (f : DFrame)
    (hf : s.frames[j]? = some f) (hu : 0 < usersOf s j) (hu' : 0 < usersOf s' j) :
    ∃ f', s'.frames[j]? = some f' ∧ f'.poc = f.poc ∧ f'.coi = f.coi := by
  have hi := dpbRun_inv (dpbInit_inv n) hr
  have hi' := dpbStep_inv hi hs
  have hrc := hi.rc j f hf
  have hpos : f.rc ≠ 0 := by omega
  have hrel : ∀ g g', releaseFrame g = some g' → 0 < g'.rc → g'.poc = g.poc ∧ g'.coi = g.coi := by
    intro g g' hg hp
    unfold releaseFrame at hg
    split at hg
    · cases hg
    · simp only [Option.some.injEq] at hg
      subst hg
      split at hp
      · rename_i hc
        simp [cleanFrame] at hp
        omega
      · rename_i hc
        rw [if_neg hc]
        exact ⟨rfl, rfl⟩
  -- one frame replaced by `g'` with the same identity
  have key : ∀ (i : Nat) (g g' : DFrame), s.frames[i]? = some g →
      s'.frames = s.frames.set i g' →
      (i = j → 0 < g'.rc → 0 < g.rc → g'.poc = g.poc ∧ g'.coi = g.coi) →
      ∃ f', s'.frames[j]? = some f' ∧ f'.poc = f.poc ∧ f'.coi = f.coi := by
    intro i g g' hg hfr hsame
    by_cases hij : i = j
    · subst hij
      rw [hf] at hg
      cases hg
      have hlt : i < s.frames.length := (List.getElem?_eq_some_iff.1 hf).1
      have hget : s'.frames[i]? = some g' := by rw [hfr, List.getElem?_set_self hlt]
      have hrc' := hi'.rc i g' hget
      have := hsame rfl (by omega) (by omega)
      exact ⟨g', hget, this.1, this.2⟩
    · exact ⟨f, by rw [hfr, List.getElem?_set_ne hij]; exact hf, rfl, rfl⟩
  cases a with
  | begin | launch | fail | finish _ | lose _ =>
    simp only [dpbStep] at hs
    repeat' split at hs
    all_goals first | cases hs | skip
    all_goals exact ⟨f, hf, rfl, rfl⟩
  | retire i =>
    simp only [dpbStep] at hs
    split at hs
    · rename_i t g h0 hg
      split at hs
      · cases hs
        refine key i g _ hg rfl (fun _ _ hp => ?_)
        unfold retireFrame
        rw [if_neg (by omega)]
        exact ⟨rfl, rfl⟩
      · cases hs
    · cases hs
  | addRef i want =>
    simp only [dpbStep] at hs
    split at hs
    · rename_i t g h0 hg
      split at hs
      · cases hs
        exact key i g _ hg rfl (fun _ _ _ => ⟨rfl, rfl⟩)
      · cases hs
    · cases hs
  | take i poc coi refd =>
    simp only [dpbStep] at hs
    split at hs
    · rename_i t g h0 hg
      split at hs
      · rename_i hc
        cases hs
        exact key i g _ hg rfl (fun _ _ hp => by omega)
      · cases hs
    · cases hs
  | force i poc coi refd =>
    simp only [dpbStep] at hs
    split at hs
    · rename_i t g h0 hg
      split at hs
      · rename_i hc
        cases hs
        exact key i g _ hg rfl (fun _ _ hp => by omega)
      · cases hs
    · cases hs
  | releaseRef t =>
    simp only [dpbStep] at hs
    split at hs
    · split at hs
      · split at hs
        · rename_i g hg
          split at hs
          · rename_i g' hrl
            cases hs
            exact key _ g g' hg rfl (fun _ hp _ => hrel g g' hrl hp)
          · cases hs
        · cases hs
      · cases hs
    · cases hs
  | releaseFdec t =>
    simp only [dpbStep] at hs
    split at hs
    · split at hs
      · split at hs
        · rename_i g hg
          split at hs
          · rename_i g' hrl
            cases hs
            exact key _ g g' hg rfl (fun _ hp _ => hrel g g' hrl hp)
          · cases hs
        · cases hs
      · cases hs
    · cases hs
  | releaseOut i =>
    simp only [dpbStep] at hs
    split at hs
    · split at hs
      · rename_i g hg
        split at hs
        · rename_i g' hrl
          cases hs
          exact key _ g g' hg rfl (fun _ hp _ => hrel g g' hrl hp)
        · cases hs
      · cases hs
    · cases hs

theorem uses_pos_frame {s : DpbSt} (h : DpbInv s) {j : Nat} (hu : 0 < usersOf s j) :
    ∃ f f', s.frames[j]? = some f ∧ releaseFrame f = some f' := by
  cases hf : s.frames[j]? with
  | none =>
    have := h.bound j hf
    omega
  | some f =>
    have := h.rc j f hf
    cases hrel : releaseFrame f with
    | some f' => exact ⟨f, f', rfl, hrel⟩
    | none =>
      unfold releaseFrame at hrel
      rw [if_neg (by omega)] at hrel
      cases hrel

theorem tasksUses_ge {ts : List DTask} {t : Nat} {k : DTask} (h : ts[t]? = some k) (j : Nat) :
    k.uses j ≤ tasksUses ts j := by
  have := tasksUses_set ⟨[], none, none⟩ j h
  simp only [DTask.uses, List.count_nil, Option.toList_none] at this
  simp only [DTask.uses]
  omega

/-- C16: no release ever finds a use count of zero: a task that has handed its
picture on can always drop its references one by one, then its target; the output
stage and the caller can always drop a picture they own. -/
theorem C16_release_defined (n : Nat) (acts : List DpbAct) (s : DpbSt)
    (hr : dpbRun (dpbInit n) acts = some s) :
    (∀ t k j rest, s.tasks[t]? = some k → k.out = none → k.refs = j :: rest →
      ∃ s', dpbStep s (.releaseRef t) = some s') ∧
    (∀ t k j, s.tasks[t]? = some k → k.out = none → k.refs = [] → k.fdec = some j →
      ∃ s', dpbStep s (.releaseFdec t) = some s') ∧
    (∀ j ∈ s.outs, ∃ s', dpbStep s (.releaseOut j) = some s') := by
  have hi := dpbRun_inv (dpbInit_inv n) hr
  refine ⟨?_, ?_, ?_⟩
  · intro t k j rest hk ho hrf
    have hu : 0 < usersOf s j := by
      have := tasksUses_ge hk j
      simp only [DTask.uses, hrf, count_cons', if_true] at this
      simp only [usersOf]
      omega
    obtain ⟨f, f', hf, hrel⟩ := uses_pos_frame hi hu
    simp only [dpbStep, hk, ho, hrf, hf, hrel]
    exact ⟨_, rfl⟩
  · intro t k j hk ho hrf hd
    have hu : 0 < usersOf s j := by
      have := tasksUses_ge hk j
      simp only [DTask.uses, hd, Option.toList_some, count_single, if_true] at this
      simp only [usersOf]
      omega
    obtain ⟨f, f', hf, hrel⟩ := uses_pos_frame hi hu
    simp only [dpbStep, hk, ho, hrf, hd, hf, hrel]
    exact ⟨_, rfl⟩
  · intro j hj
    have hu : 0 < usersOf s j := by
      have := List.count_pos_iff.2 hj
      simp only [usersOf]
      omega
    obtain ⟨f, f', hf, hrel⟩ := uses_pos_frame hi hu
    simp only [dpbStep, hj, hf, hrel, if_true]
    exact ⟨_, rfl⟩

/-- A pool in which a picture is decoded from one reference while the reference
is still owned by the caller. -/
def dpbDemo : List DpbAct :=
  [.begin, .take 0 0 0 true, .launch, .finish 0, .releaseFdec 0,
   .begin, .addRef 0 0, .take 1 1 1 false, .launch]

example : (dpbRun (dpbInit 3) dpbDemo).map (fun s => (s.frames.map (·.rc), usersOf s 0, usersOf s 1))
    = some ([2, 2, 0], 2, 2) := by decide

/-- C16 fails as stated for damaged streams: after a picture without slice data
its buffers keep a use count nobody will ever drop ... -/
theorem C16_leak_violated :
    ∃ s, dpbRun (dpbInit 3) (dpbDemo ++ [.lose 0]) = some s ∧
      s.frames[1]?.map (·.rc) = some 2 ∧ usersOf s 1 = 0 := by
  refine ⟨_, rfl, ?_, ?_⟩ <;> decide

theorem dpbStep_leaked_mono {s s' : DpbSt} {a : DpbAct} (hs : dpbStep s a = some s') (j : Nat) :
    s.leaked.count j ≤ s'.leaked.count j := by
  cases a with
  | lose t =>
    simp only [dpbStep] at hs
    split at hs
    · split at hs
      · cases hs
        simp only [count_cons', List.count_append]
        omega
      · cases hs
    · cases hs
  | _ =>
    rw [dpbStep_leaked hs (by simp)]
    exact Nat.le_refl _

/-- ... and such a buffer is never handed out again, whatever happens later. -/
theorem C16_leak_is_permanent (n : Nat) (acts more : List DpbAct) (s s1 : DpbSt)
    (hr : dpbRun (dpbInit n) acts = some s) (j : Nat) (hl : 0 < s.leaked.count j)
    (hm : dpbRun s more = some s1) (poc coi : Int) (refd : Bool) :
    dpbStep s1 (.take j poc coi refd) = none ∧ dpbStep s1 (.force j poc coi refd) = none := by
  have hi := dpbRun_inv (dpbInit_inv n) hr
  have hmono : ∀ (as : List DpbAct) (a b : DpbSt), dpbRun a as = some b →
      a.leaked.count j ≤ b.leaked.count j := by
    intro as
    induction as with
    | nil => intro a b h; cases h; exact Nat.le_refl _
    | cons x xs ih =>
      intro a b h
      simp only [dpbRun] at h
      split at h
      · rename_i a1 h1
        exact Nat.le_trans (dpbStep_leaked_mono h1 j) (ih a1 b h)
      · cases h
  have hi1 := dpbRun_inv hi hm
  have hc := hmono _ _ _ hm
  have hrc : ∀ f, s1.frames[j]? = some f → f.rc ≠ 0 := by
    intro f hf
    have := hi1.rc j f hf
    omega
  constructor
  · simp only [dpbStep]
    split
    · rename_i t f h0 hf
      rw [if_neg (by intro h; exact hrc f hf h.2.1)]
    · rfl
  · simp only [dpbStep]
    split
    · rename_i t f h0 hf
      rw [if_neg (by intro h; exact hrc f hf h.2)]
    · rfl

/-- The stored pictures once the removals announced by the previous picture are
carried out. -/
def afterRemovals (frames : List DFrame) (removeList : List Int) : List DFrame :=
  removeList.foldl removeCoi frames

/-- The two ways `getReferences` ends. -/
theorem getReferences_cases (frames : List DFrame) (rl : List Int) (p : PicReq) :
    (∃ refs, getReferences frames rl p =
        (cleanOld (bump refs (afterRemovals frames rl)) p.poc,
          p.rps.removePic.map (fun d => p.coi - d), some refs) ∧
      refs.length = p.rps.refPic.length ∧
      (∀ (i : Nat) d j, p.rps.refPic[i]? = some d → refs[i]? = some j →
        StoredRef (afterRemovals frames rl) (p.coi - d) j) ∧
      badB (bump refs (afterRemovals frames rl)) p refs = false) ∨
    (getReferences frames rl p = (afterRemovals frames rl, rl, none) ∧
      ((∃ d ∈ p.rps.refPic, ∀ j, ¬ StoredRef (afterRemovals frames rl) (p.coi - d) j) ∨
       (∃ refs, refs.length = p.rps.refPic.length ∧
         (∀ (i : Nat) d j, p.rps.refPic[i]? = some d → refs[i]? = some j →
            StoredRef (afterRemovals frames rl) (p.coi - d) j) ∧
         badB (bump refs (afterRemovals frames rl)) p refs = true))) := by
  have hs := searchRefs_spec (afterRemovals frames rl) (p.rps.refPic.map fun d => p.coi - d) []
  rw [bump_nil] at hs
  rcases hs with ⟨js, h1, h2, h3⟩ | ⟨js, w, h1, h2, h3, h4⟩
  · simp only [List.nil_append] at h1
    have h3' : ∀ (i : Nat) d j, p.rps.refPic[i]? = some d → js[i]? = some j →
        StoredRef (afterRemovals frames rl) (p.coi - d) j := by
      intro i d j hd hj
      exact h3 i (p.coi - d) j (by simp [List.getElem?_map, hd]) hj
    have h2' : js.length = p.rps.refPic.length := by simpa using h2
    cases hb : badB (bump js (afterRemovals frames rl)) p js with
    | false =>
      left
      refine ⟨js, ?_, h2', h3', hb⟩
      unfold getReferences
      rw [show rl.foldl removeCoi frames = afterRemovals frames rl from rfl]
      simp only [h1]
      simp [hb]
    | true =>
      right
      refine ⟨?_, Or.inr ⟨js, h2', h3', hb⟩⟩
      have hall : ∀ j ∈ js, ∃ w, StoredRef (afterRemovals frames rl) w j := by
        intro j hj
        obtain ⟨i, hi⟩ := List.getElem?_of_mem hj
        have hlt : i < p.rps.refPic.length := by
          rw [← h2']
          exact (List.getElem?_eq_some_iff.1 hi).1
        exact ⟨_, h3' i _ j (List.getElem?_eq_getElem hlt) hi⟩
      unfold getReferences
      rw [show rl.foldl removeCoi frames = afterRemovals frames rl from rfl]
      simp only [h1]
      simp [hb, releaseAll_bump _ _ hall]
  · simp only [List.nil_append] at h1
    right
    refine ⟨?_, Or.inl ?_⟩
    · unfold getReferences
      rw [show rl.foldl removeCoi frames = afterRemovals frames rl from rfl]
      simp only [h1]
      simp [releaseAll_bump _ _ h2]
    · obtain ⟨d, hd, rfl⟩ := List.mem_map.1 h3
      exact ⟨d, hd, h4⟩

theorem pocAt_bump (js : List Nat) (l : List DFrame) (j : Nat) : pocAt (bump js l) j = pocAt l j := by
  simp only [pocAt, bump_getElem?, Option.map_map]
  rfl

/-- C17: an accepted picture gets, for each entry of its reference set, a stored
picture with exactly that coding order that was announced as reference and not
given up; each use is counted; and a B picture has one later and one earlier
reference. -/
theorem C17_references_as_asked (frames frames' : List DFrame) (rl rl' : List Int) (p : PicReq)
    (refs : List Nat) (h : getReferences frames rl p = (frames', rl', some refs)) :
    refs.length = p.rps.refPic.length ∧
    (∀ (i : Nat) d j, p.rps.refPic[i]? = some d → refs[i]? = some j →
      StoredRef (afterRemovals frames rl) (p.coi - d) j) ∧
    (∀ i : Nat, (useCounts frames')[i]? = (useCounts frames)[i]?.map (· + refs.count i)) ∧
    (p.isB = true → ∃ a b, refs = [a, b] ∧ p.poc < pocAt (afterRemovals frames rl) a ∧
      pocAt (afterRemovals frames rl) b < p.poc) := by
  rcases getReferences_cases frames rl p with ⟨refs', h1, h2, h3, h4⟩ | ⟨h1, _⟩
  · rw [h1] at h
    simp only [Prod.mk.injEq, Option.some.injEq] at h
    obtain ⟨rfl, _, rfl⟩ := h
    refine ⟨h2, h3, ?_, ?_⟩
    · intro i
      rw [useCounts_cleanOld, useCounts_bump]
      rw [show useCounts (afterRemovals frames rl) = useCounts frames from
        useCounts_removeAll rl frames]
    · intro hB
      unfold badB at h4
      rw [hB] at h4
      simp only [Bool.true_and] at h4
      split at h4
      · rename_i a b
        simp only [Bool.or_eq_false_iff, decide_eq_false_iff_not, pocAt_bump] at h4
        exact ⟨a, b, rfl, by omega, by omega⟩
      · cases h4
  · rw [h1] at h
    cases h

/-- C17: a picture one of whose references is not stored is rejected, no use
count changes and the pending removals stay as they were. -/
theorem C17_missing_rejected (frames : List DFrame) (rl : List Int) (p : PicReq) (d : Int)
    (hd : d ∈ p.rps.refPic) (hm : ∀ j, ¬ StoredRef (afterRemovals frames rl) (p.coi - d) j) :
    ∃ frames', getReferences frames rl p = (frames', rl, none) ∧
      useCounts frames' = useCounts frames := by
  rcases getReferences_cases frames rl p with ⟨refs', h1, h2, h3, h4⟩ | ⟨h1, _⟩
  · exfalso
    obtain ⟨i, hi⟩ := List.getElem?_of_mem hd
    have hlt : i < refs'.length := by
      rw [h2]
      exact (List.getElem?_eq_some_iff.1 hi).1
    exact hm _ (h3 i d _ hi (List.getElem?_eq_getElem hlt))
  · exact ⟨_, h1, useCounts_removeAll rl frames⟩

/-- C17: every rejection leaves the use counts alone and has a reason the stream
can be blamed for: a missing reference, or a B picture without one later and one
earlier reference. -/
theorem C17_rejected_only_if (frames frames' : List DFrame) (rl rl' : List Int) (p : PicReq)
    (h : getReferences frames rl p = (frames', rl', none)) :
    useCounts frames' = useCounts frames ∧ rl' = rl ∧
    ((∃ d ∈ p.rps.refPic, ∀ j, ¬ StoredRef (afterRemovals frames rl) (p.coi - d) j) ∨
      p.isB = true) := by
  rcases getReferences_cases frames rl p with ⟨refs', h1, _⟩ | ⟨h1, h2⟩
  · rw [h1] at h; cases h
  · rw [h1] at h
    simp only [Prod.mk.injEq, and_true] at h
    obtain ⟨rfl, rfl⟩ := h
    refine ⟨useCounts_removeAll rl frames, rfl, ?_⟩
    rcases h2 with h2 | ⟨refs, _, _, hb⟩
    · exact Or.inl h2
    · right
      unfold badB at hb
      cases hB : p.isB
      · rw [hB] at hb; simp at hb
      · rfl

theorem removeCoi_other (frames : List DFrame) (c : Int) (j : Nat) (f : DFrame) (hf : frames[j]? = some f)
    (hc : f.coi ≠ c) : (removeCoi frames c)[j]? = some f := by
  unfold removeCoi
  split
  · rename_i i hi
    obtain ⟨g, hg, hp⟩ := firstIdx_some hi
    by_cases h : i = j
    · subst h
      rw [hf] at hg
      cases hg
      simp only [Bool.and_eq_true, beq_iff_eq] at hp
      exact absurd hp.2 hc
    · simp [List.getElem?_modify, h, hf]
  · exact hf

theorem afterRemovals_other (rl : List Int) (frames : List DFrame) (j : Nat) (f : DFrame)
    (hf : frames[j]? = some f) (hc : f.coi ∉ rl) : (afterRemovals frames rl)[j]? = some f := by
  induction rl generalizing frames with
  | nil => exact hf
  | cons c rl ih =>
    simp only [List.mem_cons, not_or] at hc
    exact ih _ (removeCoi_other frames c j f hf hc.1) hc.2

/-- C17: choosing references gives up no other picture.  A stored picture whose
removal was not announced and which is fewer than 128 pictures away in output order
keeps its identity and stays available; only its use count may grow. -/
theorem C17_others_kept (frames frames' : List DFrame) (rl rl' : List Int) (p : PicReq)
    (r : Option (List Nat)) (h : getReferences frames rl p = (frames', rl', r)) (j : Nat) (f : DFrame)
    (hf : frames[j]? = some f) (hc : f.coi ∉ rl) (hd : f.poc - p.poc < 128 ∧ p.poc - f.poc < 128) :
    ∃ f', frames'[j]? = some f' ∧ f'.poc = f.poc ∧ f'.coi = f.coi ∧ f'.refd = f.refd ∧ f'.disp = f.disp ∧
      f.rc ≤ f'.rc := by
  have h0 := afterRemovals_other rl frames j f hf hc
  rcases getReferences_cases frames rl p with ⟨refs, h1, _⟩ | ⟨h1, _⟩
  · rw [h1] at h
    simp only [Prod.mk.injEq] at h
    obtain ⟨rfl, _, _⟩ := h
    unfold cleanOld
    rw [List.getElem?_map, bump_getElem?, h0]
    simp only [Option.map_some]
    rw [if_neg (by simp; omega)]
    exact ⟨_, rfl, rfl, rfl, rfl, rfl, by simp⟩
  · rw [h1] at h
    simp only [Prod.mk.injEq] at h
    obtain ⟨rfl, _, _⟩ := h
    exact ⟨f, h0, rfl, rfl, rfl, rfl, Nat.le_refl _⟩

theorem retireFrame_not_ref (f : DFrame) : (retireFrame f).disp = 1 ∨ (retireFrame f).poc = -1 := by
  unfold retireFrame cleanFrame
  split <;> simp

/-- C17: a picture that was given up is not used again: with coding orders of the
stored pictures pairwise different, no removed coding order is available. -/
theorem C17_removed_gone (frames : List DFrame) (c : Int)
    (hu : ∀ (i j : Nat) f g, frames[i]? = some f → frames[j]? = some g → f.valid = true → g.valid = true →
      f.coi = g.coi → i = j) (k : Nat) : ¬ StoredRef (removeCoi frames c) c k := by
  rintro ⟨f, hf, hcoi, _, hpoc, _, hdisp⟩
  unfold removeCoi at hf
  split at hf
  · rename_i i hi
    obtain ⟨g, hg, hp⟩ := firstIdx_some hi
    simp only [Bool.and_eq_true, beq_iff_eq] at hp
    rw [List.getElem?_modify] at hf
    by_cases h : i = k
    · simp only [h, if_true] at hf
      cases hk : frames[k]? with
      | none => simp [hk] at hf
      | some g' =>
        simp only [hk, Option.map_eq_map, Option.map_some, Option.some.injEq] at hf
        subst hf
        rcases retireFrame_not_ref g' with h2 | h2 <;> omega
    · have hf' : frames[k]? = some f := by simpa [h] using hf
      exact h (hu i k g f hg hf' hp.1 (by simp [DFrame.valid, hpoc]; omega) (by omega))
  · rename_i hi
    have := firstIdx_none hi k f hf
    simp [DFrame.valid, hpoc, hcoi] at this
    omega

/-- A picture far away in output order is given up, a near one is kept. -/
example :
    getReferences [⟨400, 1, 0, true, 0⟩, ⟨120, 0, 0, true, 1⟩, ⟨7, 5, 0, true, 0⟩] []
      ⟨7, 8, false, ⟨[2], [], false⟩⟩
      = ([⟨-1, -1, 0, false, 0⟩, ⟨120, 0, 0, true, 1⟩, ⟨7, 5, 0, true, 1⟩], [], some [2]) := by decide

/-- A B picture between two stored pictures, and the same picture after the
earlier one has been removed. -/
example :
    getReferences [⟨4, 1, 0, true, 0⟩, ⟨0, 0, 0, true, 1⟩, freshFrame] []
      ⟨2, 2, true, ⟨[1, 2], [], false⟩⟩
      = ([⟨4, 1, 0, true, 1⟩, ⟨0, 0, 0, true, 2⟩, freshFrame], [], some [0, 1]) ∧
    (getReferences [⟨4, 1, 0, true, 0⟩, ⟨0, 0, 0, true, 1⟩, freshFrame] [0]
      ⟨2, 2, true, ⟨[1, 2], [], false⟩⟩).2.2 = none := by decide

end Davs2
