import Verif.Model.PoolExit

/- C114: threads of the pool do not sleep while there is work, and closing ends them. -/
namespace Davs2.Px

structure Inv (s : St) : Prop where
  awake : .asleep ∈ s.ws → s.jobs = 0 ∨ 0 < s.pending
  exited : s.exit = true → .asleep ∉ s.ws

theorem mem_set {l : List W} {k : Nat} {v w : W} (h : w ∈ l.set k v) : w ∈ l ∨ w = v := List.mem_or_eq_of_mem_set h

theorem asleep_set {l : List W} {k : Nat} {v : W} (hv : v ≠ .asleep) (h : .asleep ∈ l.set k v) : .asleep ∈ l := (mem_set h).resolve_right fun q => hv q.symm

theorem asleep_wake (l : List W) : .asleep ∉ l.map wake := by
  intro h
  obtain ⟨w, -, e⟩ := List.mem_map.1 h
  unfold wake at e
  split at e
  · cases e
  · rename_i hn; exact hn e

theorem start_inv (n : Nat) : Inv (start n) :=
  ⟨fun _ => .inl rfl, fun h => by cases h⟩

theorem step_inv {s t : St} (hi : Inv s) {o : Op} (e : step s o = some t) : Inv t := by
  cases o with
  | work k =>
    simp only [step] at e
    split at e
    · cases e
      have hv : (if s.exit then W.ended else W.crit) ≠ .asleep := by split <;> decide
      exact ⟨fun h => hi.awake (asleep_set hv h), fun hx h => hi.exited hx (asleep_set hv h)⟩
    · split at e
      · rename_i hj
        cases e
        refine ⟨fun h => ?_, fun hx h => hi.exited hx (asleep_set (by decide) h)⟩
        rcases hi.awake (asleep_set (by decide) h) with q | q
        · exact absurd q hj
        · exact .inr q
      · rename_i hj
        have hj0 : s.jobs = 0 := Decidable.not_not.1 hj
        split at e
        · cases e
          exact ⟨fun h => hi.awake (asleep_set (by decide) h), fun hx h => hi.exited hx (asleep_set (by decide) h)⟩
        · rename_i hx
          cases e
          exact ⟨fun _ => .inl hj0, fun q => absurd q hx⟩
    · cases e; exact ⟨fun h => hi.awake (asleep_set (by decide) h), fun hx h => hi.exited hx (asleep_set (by decide) h)⟩
    · cases e; exact ⟨fun h => hi.awake (asleep_set (by decide) h), fun hx h => hi.exited hx (asleep_set (by decide) h)⟩
    · cases e
  | spurious k =>
    simp only [step] at e
    split at e
    · cases e; exact ⟨fun h => hi.awake (asleep_set (by decide) h), fun hx h => hi.exited hx (asleep_set (by decide) h)⟩
    · cases e
  | submit => cases e; exact ⟨fun _ => .inr (Nat.succ_pos _), hi.exited⟩
  | signal =>
    simp only [step] at e
    split at e
    · cases e
    · cases e; exact ⟨fun h => absurd h (asleep_wake _), fun _ => asleep_wake _⟩
  | delete => cases e; exact ⟨fun h => absurd h (asleep_wake _), fun _ => asleep_wake _⟩

theorem run_inv {l : List Op} : ∀ {s t : St}, Inv s → run s l = some t → Inv t := by
  induction l with
  | nil => intro s t hi e; cases e; exact hi
  | cons o l ih =>
    intro s t hi e
    rw [run] at e
    cases h : step s o with
    | none => rw [h] at e; cases e
    | some u => rw [h] at e; exact ih (step_inv hi h) e

/-- **C114, no sleeping over work.** With any number of threads, in every interleaving: if jobs are queued and no submission is under way, no thread of the pool is asleep. -/
theorem C114_awake (n : Nat) (l : List Op) {s : St} (e : run (start n) l = some s) (hj : s.jobs ≠ 0) (hp : s.pending = 0) : .asleep ∉ s.ws := by
  intro h
  rcases (run_inv (start_inv n) e).awake h with q | q
  · exact hj q
  · omega

/-- The steps a thread still has to do after the exit flag is set. -/
def rest : W → Nat
  | .ended => 0 | .top => 1 | .job => 2 | .crit => 3 | .woken => 4 | .asleep => 5

def total : List W → Nat
  | [] => 0
  | w :: l => rest w + total l

theorem total_set : ∀ (l : List W) (k : Nat) (v w : W), l[k]? = some w → total (l.set k v) + rest w = total l + rest v := by
  intro l
  induction l with
  | nil => intro k v w h; simp at h
  | cons a l ih =>
    intro k v w h
    cases k with
    | zero => simp only [List.getElem?_cons_zero, Option.some.injEq] at h; subst h; simp only [List.set_cons_zero, total]; omega
    | succ k =>
      simp only [List.getElem?_cons_succ] at h
      have := ih k v w h
      simp only [List.set_cons_succ, total]
      omega

theorem total_le : ∀ l : List W, .asleep ∉ l → total l ≤ 4 * l.length := by
  intro l
  induction l with
  | nil => intro _; exact Nat.le_refl _
  | cons a l ih =>
    intro h
    have := ih fun q => h (List.mem_cons_of_mem _ q)
    have ha : rest a ≤ 4 := by
      cases a <;> first | exact absurd List.mem_cons_self h | decide
    simp only [total, List.length_cons]
    omega

theorem work_less {s t : St} (hx : s.exit = true) {k : Nat} (e : step s (.work k) = some t) : t.exit = true ∧ total t.ws < total s.ws := by
  simp only [step] at e
  split at e
  · rename_i hk
    rw [hx] at e
    cases e
    have := total_set s.ws k .ended .top hk
    simp only [rest] at this
    exact ⟨rfl, by show total (s.ws.set k .ended) < _; omega⟩
  · rename_i hk
    split at e
    · cases e
      have := total_set s.ws k .job .crit hk
      simp only [rest] at this
      exact ⟨hx, by show total (s.ws.set k .job) < _; omega⟩
    · simp only [hx, if_true] at e
      cases e
      have := total_set s.ws k .top .crit hk
      simp only [rest] at this
      exact ⟨rfl, by show total (s.ws.set k .top) < _; omega⟩
  · rename_i hk
    cases e
    have := total_set s.ws k .crit .woken hk
    simp only [rest] at this
    exact ⟨hx, by show total (s.ws.set k .crit) < _; omega⟩
  · rename_i hk
    cases e
    have := total_set s.ws k .top .job hk
    simp only [rest] at this
    exact ⟨hx, by show total (s.ws.set k .top) < _; omega⟩
  · cases e

theorem works_bound : ∀ (ks : List Nat) {s t : St}, s.exit = true → run s (ks.map .work) = some t → t.exit = true ∧ ks.length + total t.ws ≤ total s.ws := by
  intro ks
  induction ks with
  | nil => intro s t hx e; cases e; exact ⟨hx, by simp⟩
  | cons k ks ih =>
    intro s t hx e
    rw [List.map_cons, run] at e
    cases h : step s (.work k) with
    | none => rw [h] at e; cases e
    | some u =>
      rw [h] at e
      obtain ⟨hu, hl⟩ := work_less hx h
      obtain ⟨ht, hl2⟩ := ih hu e
      exact ⟨ht, by rw [List.length_cons]; omega⟩

theorem step_len {s t : St} {o : Op} (e : step s o = some t) : t.ws.length = s.ws.length := by
  cases o <;> simp only [step] at e
  case submit => cases e; rfl
  case delete => cases e; exact List.length_map ..
  case signal => split at e <;> cases e; exact List.length_map ..
  case spurious => split at e <;> cases e; exact List.length_set ..
  case work =>
    split at e
    · cases e; exact List.length_set ..
    · split at e
      · cases e; exact List.length_set ..
      · split at e <;> (cases e; exact List.length_set ..)
    · cases e; exact List.length_set ..
    · cases e; exact List.length_set ..
    · cases e

theorem run_len {l : List Op} : ∀ {s t : St}, run s l = some t → t.ws.length = s.ws.length := by
  induction l with
  | nil => intro s t e; cases e; rfl
  | cons o l ih =>
    intro s t e
    rw [run] at e
    cases h : step s o with
    | none => rw [h] at e; cases e
    | some u => rw [h] at e; exact (ih e).trans (step_len h)

/-- **C114, closing ends.** Whatever the pool was doing when it is deleted, in every schedule the `n` threads take at most `4 n` steps after it, and as long as one of them has not
ended it can take its next step: the joining in `davs2_threadpool_delete` returns. -/
theorem C114_ends (n : Nat) (l : List Op) {s : St} (e : run (start n) l = some s) :
    ∃ t, step s .delete = some t ∧ ∀ (ks : List Nat) (u : St), run t (ks.map .work) = some u →
      ks.length ≤ 4 * n ∧ u.ws.length = n ∧ (∀ k w, u.ws[k]? = some w → w ≠ .ended → ∃ v, step u (.work k) = some v) := by
  refine ⟨_, rfl, fun ks u eu => ?_⟩
  have hi := run_inv (start_inv n) e
  have hd : Inv { s with exit := true, ws := s.ws.map wake } := step_inv (o := .delete) hi rfl
  have hb := works_bound ks rfl eu
  have hu := run_inv hd eu
  have hn : s.ws.length = n := (run_len e).trans (List.length_replicate ..)
  refine ⟨?_, (run_len eu).trans ((List.length_map ..).trans hn), fun k w hk hw => ?_⟩
  · have := total_le (s.ws.map wake) (asleep_wake _)
    rw [List.length_map, hn] at this
    have h3 : ks.length + total u.ws ≤ total (s.ws.map wake) := hb.2
    omega
  · have hm : w ∈ u.ws := List.mem_of_getElem? hk
    cases w with
    | ended => exact absurd rfl hw
    | asleep => exact absurd hm (hu.exited hb.1)
    | top => simp only [step, hk]; exact ⟨_, rfl⟩
    | crit =>
      simp only [step, hk]
      split
      · exact ⟨_, rfl⟩
      · split <;> exact ⟨_, rfl⟩
    | woken => simp only [step, hk]; exact ⟨_, rfl⟩
    | job => simp only [step, hk]; exact ⟨_, rfl⟩

/-- Two threads asleep, a job is submitted; one takes it; the pool is deleted while it runs. -/
def exOps : List Op := [.work 0, .work 0, .work 1, .work 1, .submit, .signal, .work 0, .work 0, .submit, .signal]
example : ∃ s, run (start 2) exOps = some s ∧ s.jobs ≠ 0 ∧ s.pending = 0 ∧ s.ws = [.job, .woken] := ⟨_, rfl, by decide, rfl, rfl⟩
example : ∃ s, run (start 2) (exOps ++ [.delete, .work 0, .work 0, .work 1, .work 1, .work 1, .work 1]) = some s ∧ s.ws = [.ended, .ended] ∧ s.jobs = 0 := ⟨_, rfl, rfl, rfl⟩
example : ∃ s, run (start 2) ([.submit, .signal, .submit, .signal, .submit, .signal] ++ [.delete, .work 0, .work 1]) = some s ∧ s.ws = [.ended, .ended] ∧ s.jobs = 3 := ⟨_, rfl, rfl, rfl⟩

end Davs2.Px
