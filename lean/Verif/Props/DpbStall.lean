import Verif.Props.Dpb

/- C115: damaged pictures and the pool of frames. -/
namespace Davs2

theorem dpbRun_snoc (as bs : List DpbAct) : ∀ s : DpbSt, dpbRun s (as ++ bs) = (dpbRun s as).bind fun s => dpbRun s bs := by
  induction as with
  | nil => intro s; rfl
  | cons a as ih =>
    intro s
    rw [List.cons_append, dpbRun, dpbRun]
    cases dpbStep s a with
    | none => rfl
    | some u => exact ih u

theorem dpbStep_length {s t : DpbSt} {a : DpbAct} (e : dpbStep s a = some t) : t.frames.length = s.frames.length := by
  cases a <;> simp only [dpbStep] at e <;> repeat' split at e
  all_goals first
    | (cases e; done)
    | (cases e; rfl)
    | (cases e; exact List.length_set ..)

theorem dpbRun_length {as : List DpbAct} : ∀ {s t : DpbSt}, dpbRun s as = some t → t.frames.length = s.frames.length := by
  induction as with
  | nil => intro s t e; cases e; rfl
  | cons a as ih =>
    intro s t e
    rw [dpbRun] at e
    cases h : dpbStep s a with
    | none => rw [h] at e; cases e
    | some u => rw [h] at e; exact (ih e).trans (dpbStep_length h)

/-- The actions of threads that finish their work, of the output stage and of the caller: nothing new is begun. -/
def isRelease : DpbAct → Prop
  | .finish _ | .releaseRef _ | .releaseFdec _ | .releaseOut _ => True
  | _ => False

/-- Steps a task still has to do. -/
def taskLeft (k : DTask) : Nat := k.refs.length + k.fdec.toList.length + 2 * k.out.toList.length

def tasksLeft : List DTask → Nat
  | [] => 0
  | k :: ts => taskLeft k + tasksLeft ts

def left (s : DpbSt) : Nat := tasksLeft s.tasks + s.outs.length

theorem tasksLeft_set {ts : List DTask} {t : Nat} {k : DTask} (k' : DTask) (h : ts[t]? = some k) :
    tasksLeft (ts.set t k') + taskLeft k = tasksLeft ts + taskLeft k' := by
  induction ts generalizing t with
  | nil => simp at h
  | cons a ts ih =>
    cases t with
    | zero => simp only [List.getElem?_cons_zero, Option.some.injEq] at h; subst h; simp only [List.set_cons_zero, tasksLeft]; omega
    | succ t =>
      simp only [List.getElem?_cons_succ] at h
      have := ih h
      simp only [List.set_cons_succ, tasksLeft]
      omega

theorem tasksLeft_pos {ts : List DTask} (h : tasksLeft ts ≠ 0) : ∃ (t : Nat) (k : DTask), ts[t]? = some k ∧ taskLeft k ≠ 0 := by
  induction ts with
  | nil => exact absurd rfl h
  | cons a ts ih =>
    by_cases ha : taskLeft a = 0
    · obtain ⟨t, k, h1, h2⟩ := ih (by simp only [tasksLeft] at h; omega)
      exact ⟨t + 1, k, h1, h2⟩
    · exact ⟨0, a, rfl, ha⟩

theorem tasksUses_zero {ts : List DTask} (h : tasksLeft ts = 0) (j : Nat) : tasksUses ts j = 0 := by
  induction ts with
  | nil => rfl
  | cons a ts ih =>
    simp only [tasksLeft] at h
    have h1 : taskLeft a = 0 := by omega
    simp only [taskLeft] at h1
    have r : a.refs = [] := List.length_eq_zero_iff.1 (by omega)
    have d : a.fdec.toList = [] := List.length_eq_zero_iff.1 (by omega)
    have o : a.out.toList = [] := List.length_eq_zero_iff.1 (by omega)
    simp only [tasksUses, DTask.uses, r, d, o, List.count_nil, ih (by omega)]

theorem release_less {s t : DpbSt} {a : DpbAct} (ha : isRelease a) (e : dpbStep s a = some t) : t.setup = s.setup ∧ left t < left s := by
  cases a <;> try exact ha.elim
  case finish n =>
    simp only [dpbStep] at e
    split at e
    · rename_i k hk
      split at e
      · rename_i j ho
        cases e
        have := tasksLeft_set { k with out := none } hk
        simp only [taskLeft, ho, Option.toList_some, Option.toList_none, List.length_cons, List.length_nil] at this
        exact ⟨rfl, by simp only [left, List.length_cons]; omega⟩
      · cases e
    · cases e
  case releaseRef n =>
    simp only [dpbStep] at e
    split at e
    · rename_i k hk
      split at e
      · rename_i j rest ho hr
        split at e
        · split at e
          · cases e
            have := tasksLeft_set { k with refs := rest } hk
            simp only [taskLeft, hr, List.length_cons] at this
            exact ⟨rfl, by show tasksLeft (s.tasks.set n { k with refs := rest }) + s.outs.length < tasksLeft s.tasks + s.outs.length; omega⟩
          · cases e
        · cases e
      · cases e
    · cases e
  case releaseFdec n =>
    simp only [dpbStep] at e
    split at e
    · rename_i k hk
      split at e
      · rename_i j ho hr hd
        split at e
        · split at e
          · cases e
            have := tasksLeft_set { k with fdec := none } hk
            simp only [taskLeft, hd, Option.toList_some, Option.toList_none, List.length_cons, List.length_nil] at this
            exact ⟨rfl, by show tasksLeft (s.tasks.set n { k with fdec := none }) + s.outs.length < tasksLeft s.tasks + s.outs.length; omega⟩
          · cases e
        · cases e
      · cases e
    · cases e
  case releaseOut j =>
    simp only [dpbStep] at e
    split at e
    · rename_i hj
      split at e
      · split at e
        · cases e
          have h1 := List.length_erase_of_mem hj
          have h2 := List.length_pos_of_mem hj
          exact ⟨rfl, by show tasksLeft s.tasks + (s.outs.erase j).length < tasksLeft s.tasks + s.outs.length; omega⟩
        · cases e
      · cases e
    · cases e

/-- As long as a task or the output stage has something to do, one of them can do it. -/
theorem release_enabled (n : Nat) (acts : List DpbAct) {s : DpbSt} (hr : dpbRun (dpbInit n) acts = some s) (h : left s ≠ 0) :
    ∃ a t, isRelease a ∧ dpbStep s a = some t := by
  obtain ⟨h1, h2, h3⟩ := C16_release_defined n acts s hr
  by_cases ho : s.outs = []
  · have ht : tasksLeft s.tasks ≠ 0 := by simp only [left, ho, List.length_nil] at h; omega
    obtain ⟨t, k, hk, hl⟩ := tasksLeft_pos ht
    cases hout : k.out with
    | some j => exact ⟨.finish t, _, trivial, by simp only [dpbStep, hk, hout]; rfl⟩
    | none =>
      cases hrf : k.refs with
      | cons j rest => obtain ⟨u, e⟩ := h1 t k j rest hk hout hrf; exact ⟨.releaseRef t, u, trivial, e⟩
      | nil =>
        cases hd : k.fdec with
        | some j => obtain ⟨u, e⟩ := h2 t k j hk hout hrf hd; exact ⟨.releaseFdec t, u, trivial, e⟩
        | none => exact absurd (by simp [taskLeft, hout, hrf, hd]) hl
  · cases e : s.outs with
    | nil => exact absurd e ho
    | cons j l => obtain ⟨u, e⟩ := h3 j (by rw [e]; exact List.mem_cons_self); exact ⟨.releaseOut j, u, trivial, e⟩

theorem dpbDrain (n : Nat) : ∀ (m : Nat) (acts : List DpbAct) {s : DpbSt}, dpbRun (dpbInit n) acts = some s → left s ≤ m →
    ∃ more t, (∀ a ∈ more, isRelease a) ∧ dpbRun s more = some t ∧ left t = 0 ∧ t.setup = s.setup := by
  intro m
  induction m with
  | zero => intro acts s _ h; exact ⟨[], s, by simp, rfl, by omega, rfl⟩
  | succ m ih =>
    intro acts s hr h
    by_cases h0 : left s = 0
    · exact ⟨[], s, by simp, rfl, h0, rfl⟩
    · obtain ⟨a, u, ha, e⟩ := release_enabled n acts hr h0
      obtain ⟨hs, hl⟩ := release_less ha e
      have hu : dpbRun (dpbInit n) (acts ++ [a]) = some u := by
        rw [dpbRun_snoc, hr]; show dpbRun s [a] = some u; simp only [dpbRun, e]
      obtain ⟨more, t, h1, h2, h3, h4⟩ := ih _ hu (by omega)
      refine ⟨a :: more, t, ?_, by simp only [dpbRun, e]; exact h2, h3, h4.trans hs⟩
      intro b hb
      rcases List.mem_cons.1 hb with q | q
      · exact q ▸ ha
      · exact h1 b q

/-- **C115 as far as it holds.** If every picture begun so far had slice data: whatever the decoder is doing when the frame for a new picture is looked for, the work under way and the
release of delivered pictures lead to a state in which any frame that is not a reference of the new picture itself can be taken. -/
theorem C115_partial (n : Nat) (acts : List DpbAct) {s : DpbSt} (hr : dpbRun (dpbInit n) acts = some s) (hno : ∀ t, DpbAct.lose t ∉ acts)
    {k : DTask} (hk : s.setup = some k) (hd : k.fdec = none) {j : Nat} (hj : j < n) (hjr : j ∉ k.refs) (poc coi : Int) (refd : Bool) :
    ∃ more t, (∀ a ∈ more, isRelease a) ∧ dpbRun s more = some t ∧ ∃ u, dpbStep t (.force j poc coi refd) = some u := by
  obtain ⟨more, t, h1, h2, h3, h4⟩ := dpbDrain n _ acts hr (Nat.le_refl _)
  refine ⟨more, t, h1, h2, ?_⟩
  have ht : dpbRun (dpbInit n) (acts ++ more) = some t := by rw [dpbRun_snoc, hr]; exact h2
  have hno2 : ∀ i, DpbAct.lose i ∉ acts ++ more := by
    intro i hi
    rcases List.mem_append.1 hi with q | q
    · exact hno i q
    · exact h1 _ q
  have hlen : t.frames.length = n := (dpbRun_length ht).trans (List.length_replicate ..)
  have hf : t.frames[j]? = some (t.frames[j]'(by omega)) := List.getElem?_eq_getElem _
  have hrc := C16_use_counts_exact_partial n _ t ht hno2 j _ hf
  have hset : t.setup = some k := h4.trans hk
  have hout : k.out = none := (dpbRun_inv (dpbInit_inv n) ht).setup k hset hd
  have hl1 : tasksLeft t.tasks = 0 := by simp only [left] at h3; omega
  have hl2 : t.outs = [] := List.length_eq_zero_iff.1 (by simp only [left] at h3; omega)
  have h0 : usersOf t j = 0 := by
    simp only [usersOf, hset, Option.elim, DTask.uses, hd, hout, Option.toList_none, List.count_nil, hl2, tasksUses_zero hl1, List.count_eq_zero.2 hjr]
  rw [h0] at hrc
  exact ⟨_, by simp only [dpbStep, hset, hf]; rw [if_pos ⟨hd, hrc⟩]⟩

/-- A picture header that is not followed by a slice: a frame is taken, the task gives nothing back (decoder.cc 1169-1188). -/
def damaged (j : Nat) : List DpbAct := [.begin, .take j j j true, .launch, .lose 0]

/-- `n` such pictures. -/
def damagedUpTo : Nat → List DpbAct
  | 0 => []
  | k + 1 => damagedUpTo k ++ damaged k

theorem damaged_run {s : DpbSt} (hs : s.setup = none) {j : Nat} (hf : s.frames[j]? = some freshFrame) :
    ∃ t, dpbRun s (damaged j) = some t ∧ t.setup = none ∧ t.leaked = j :: j :: s.leaked ∧ ∀ i, i ≠ j → t.frames[i]? = s.frames[i]? := by
  refine ⟨⟨s.frames.set j (takeFrame freshFrame j j true), none, ⟨[], none, none⟩ :: s.tasks, s.outs, j :: j :: s.leaked⟩, ?_, rfl, rfl, fun i hi => List.getElem?_set_ne (Ne.symm hi)⟩
  simp [damaged, dpbRun, dpbStep, hs, hf, freshFrame, setFrame]

theorem damagedUpTo_run (n : Nat) : ∀ k, k ≤ n → ∃ s, dpbRun (dpbInit n) (damagedUpTo k) = some s ∧ s.setup = none ∧ (∀ j, j < k → 0 < s.leaked.count j) ∧
    ∀ j, k ≤ j → j < n → s.frames[j]? = some freshFrame := by
  intro k
  induction k with
  | zero =>
    intro _
    refine ⟨_, rfl, rfl, fun j h => absurd h (Nat.not_lt_zero _), fun j _ h => ?_⟩
    show (List.replicate n freshFrame)[j]? = _
    rw [List.getElem?_replicate, if_pos h]
  | succ k ih =>
    intro h
    obtain ⟨s, e, h1, h2, h3⟩ := ih (by omega)
    obtain ⟨t, et, t1, t2, t3⟩ := damaged_run h1 (h3 k (Nat.le_refl _) (by omega))
    refine ⟨t, by rw [damagedUpTo, dpbRun_snoc, e]; exact et, t1, fun j hj => ?_, fun j hj hn => ?_⟩
    · rw [t2]
      by_cases hjk : j = k
      · subst hjk; simp
      · have := h2 j (by omega)
        simp only [List.count_cons]
        omega
    · rw [t3 j (by omega)]; exact h3 j (by omega) hn

/-- **C115 fails.** With a pool of any size `n`, `n` pictures whose slices are missing stop the decoder: whatever is sent, decoded, delivered and released afterwards, no frame is
ever found for another picture, neither by the search nor by the forced choice (until the picture size changes, which makes a new pool, Model/Resize). -/
theorem C115_violated (n : Nat) : ∃ s, dpbRun (dpbInit n) (damagedUpTo n) = some s ∧ ∀ more t, dpbRun s more = some t → ∀ j poc coi refd,
    dpbStep t (.take j poc coi refd) = none ∧ dpbStep t (.force j poc coi refd) = none := by
  obtain ⟨s, e, -, h2, -⟩ := damagedUpTo_run n n (Nat.le_refl _)
  refine ⟨s, e, fun more t hm j poc coi refd => ?_⟩
  by_cases hj : j < n
  · exact C16_leak_is_permanent n _ more s t e j (h2 j hj) hm poc coi refd
  · have hlen : t.frames.length = n := (dpbRun_length hm).trans ((dpbRun_length e).trans (List.length_replicate ..))
    have hf : t.frames[j]? = none := List.getElem?_eq_none (by omega)
    constructor <;> (simp only [dpbStep, hf]; split <;> first | rfl | (rename_i h; cases h))

/-- C115_partial applies while a picture is decoded and its reference is still with the caller. -/
example : ∃ s k, dpbRun (dpbInit 3) (dpbDemo ++ [.begin, .addRef 0 0]) = some s ∧ s.setup = some k ∧ k.fdec = none ∧ k.refs = [0] ∧ 1 ∉ k.refs ∧
    dpbStep s (.force 1 2 2 true) = none := ⟨_, _, rfl, rfl, rfl, rfl, by decide, by decide⟩
example : (dpbRun (dpbInit 2) (damagedUpTo 2 ++ [.begin])).map (fun s => s.frames.map (·.rc)) = some [2, 2] := by decide

end Davs2
