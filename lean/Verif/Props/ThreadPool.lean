import Verif.Model.ThreadPool
import Mathlib.Tactic.Tauto
/-
Property C25: the worker pool runs every job once, in submission order.
-/
namespace Davs2

/-- The array holds the jobs of `l`, followed by null pointers. -/
def ArrRep (a : JobArr) (l : List Nat) : Prop := a.size = l.length ∧ ∀ i, a.arr i = l[i]?

theorem ArrRep.push {a : JobArr} {l : List Nat} (h : ArrRep a l) (j : Nat) (hl : l.length < 128) :
    ∃ b, a.push j = some b ∧ ArrRep b (l ++ [j]) := by
  refine ⟨⟨a.size + 1, setAt a.arr a.size (some j)⟩, ?_, ?_, ?_⟩
  · unfold JobArr.push
    rw [if_neg (by rw [h.1]; omega)]
  · simp [h.1]
  · intro i
    simp only [setAt, h.1]
    split
    · rename_i hi
      subst hi
      simp
    · rename_i hi
      rw [h.2 i]
      by_cases hlt : i < l.length
      · rw [List.getElem?_append_left hlt]
      · rw [List.getElem?_eq_none (by omega), List.getElem?_eq_none (by simp; omega)]

theorem ArrRep.push_inv {a b : JobArr} {l : List Nat} (h : ArrRep a l) (hm : l.length ≤ 128) (j : Nat)
    (hp : a.push j = some b) : l.length < 128 ∧ ArrRep b (l ++ [j]) := by
  have hlt : l.length < 128 := by
    unfold JobArr.push at hp
    split at hp
    · cases hp
    · have := h.1
      omega
  obtain ⟨b', hb, hr⟩ := h.push j hlt
  rw [hb] at hp
  cases hp
  exact ⟨hlt, hr⟩

theorem ArrRep.pop {a : JobArr} {l : List Nat} (h : ArrRep a l) (hl : l ≠ []) :
    ∃ b j l', a.pop = some (b, j) ∧ l = l' ++ [j] ∧ ArrRep b l' := by
  rcases List.eq_nil_or_concat l with rfl | ⟨l', j, rfl⟩
  · exact absurd rfl hl
  · rw [List.concat_eq_append] at *
    have hs : a.size = l'.length + 1 := by rw [h.1]; simp
    refine ⟨⟨a.size - 1, setAt a.arr (a.size - 1) none⟩, j, l', ?_, rfl, ?_, ?_⟩
    · unfold JobArr.pop
      rw [if_neg (by omega), h.2]
      simp [hs]
    · simp [hs]
    · intro i
      simp only [setAt, hs]
      split
      · rename_i hi
        rw [List.getElem?_eq_none (by omega)]
      · rename_i hi
        rw [h.2 i]
        by_cases hlt : i < l'.length
        · rw [List.getElem?_append_left hlt]
        · rw [List.getElem?_eq_none (by simp; omega), List.getElem?_eq_none (by omega)]

/-- The shift loop moves everything behind index `i` down by one. -/
theorem shiftFrom_spec (n : Nat) (a : Nat → Option Nat) (i fuel : Nat) (hsome : ∀ k, k < n → a (i + k) ≠ none)
    (hnone : ∀ k, n ≤ k → a (i + k) = none) (hf : n < fuel) :
    ∃ b, shiftFrom a i fuel = some b ∧ ∀ k, b k = if k < i then a k else a (k + 1) := by
  induction n generalizing a i fuel with
  | zero =>
    obtain ⟨f, rfl⟩ : ∃ f, fuel = f + 1 := ⟨fuel - 1, by omega⟩
    have h0 : a i = none := hnone 0 (Nat.le_refl _)
    refine ⟨a, by simp [shiftFrom, h0], ?_⟩
    intro k
    split
    · rfl
    · have h1 := hnone (k - i) (Nat.zero_le _)
      have h2 := hnone (k + 1 - i) (Nat.zero_le _)
      rw [show i + (k - i) = k by omega] at h1
      rw [show i + (k + 1 - i) = k + 1 by omega] at h2
      rw [h1, h2]
  | succ n ih =>
    obtain ⟨f, rfl⟩ : ∃ f, fuel = f + 1 := ⟨fuel - 1, by omega⟩
    have h0 : a i ≠ none := hsome 0 (by omega)
    obtain ⟨v, hv⟩ := Option.ne_none_iff_exists'.1 h0
    have hset : ∀ k, setAt a i (a (i + 1)) (i + 1 + k) = a (i + (k + 1)) := by
      intro k
      simp only [setAt]
      rw [if_neg (by omega)]
      congr 1
      omega
    obtain ⟨b, hb, hspec⟩ := ih (setAt a i (a (i + 1))) (i + 1) f
      (fun k hk => by rw [hset]; exact hsome (k + 1) (by omega))
      (fun k hk => by rw [hset]; exact hnone (k + 1) (by omega)) (by omega)
    refine ⟨b, by simp [shiftFrom, hv, hb], ?_⟩
    intro k
    rw [hspec k]
    simp only [setAt]
    by_cases h1 : k < i
    · rw [if_pos (by omega), if_pos h1, if_neg (by omega)]
    · rw [if_neg h1]
      by_cases h2 : k = i
      · subst h2
        rw [if_pos (by omega), if_pos rfl]
      · rw [if_neg (by omega), if_neg (by omega)]

/-- `davs2_job_shift` at index `i` removes the `i`-th job and stays inside the array. -/
theorem ArrRep.shift {a : JobArr} {l : List Nat} (h : ArrRep a l) (hm : l.length ≤ 128) (i : Nat)
    (hi : i < l.length) :
    ∃ b, a.shift i = some (b, l[i]) ∧ ArrRep b (l.eraseIdx i) := by
  obtain ⟨b, hb, hspec⟩ := shiftFrom_spec (l.length - i) a.arr i (130 - i)
    (fun k hk => by rw [h.2, List.getElem?_eq_getElem (by omega)]; simp)
    (fun k hk => by rw [h.2, List.getElem?_eq_none (by omega)]) (by omega)
  have ha : a.arr i = some l[i] := by rw [h.2, List.getElem?_eq_getElem hi]
  refine ⟨⟨a.size - 1, b⟩, by simp [JobArr.shift, ha, hb], ?_, ?_⟩
  · simp only [h.1]
    rw [List.length_eraseIdx, if_pos hi]
  · intro k
    show b k = _
    rw [hspec k, List.getElem?_eraseIdx, h.2, h.2]

theorem findJob_spec (jobs : Nat → PJob) (a : JobArr) (l : List Nat) (h : ArrRep a l) (a1 a2 i n k : Nat)
    (hf : findJob jobs a.arr a1 a2 i n = some k) :
    ∃ j, l[k]? = some j ∧ (jobs j).req.arg1 = a1 ∧ (jobs j).req.arg2 = a2 := by
  induction n generalizing i with
  | zero => simp [findJob] at hf
  | succ n ih =>
    simp only [findJob] at hf
    cases hj : a.arr i with
    | none => simp [hj] at hf
    | some j =>
      simp only [hj] at hf
      split at hf
      · rename_i hc
        simp only [Option.some.injEq] at hf
        subst hf
        exact ⟨j, by rw [← h.2]; exact hj, hc.1, hc.2⟩
      · exact ih (i + 1) hf

theorem findJob_none (jobs : Nat → PJob) (a : JobArr) (l : List Nat) (h : ArrRep a l) (a1 a2 i n : Nat)
    (hin : i + n ≤ l.length) (hf : findJob jobs a.arr a1 a2 i n = none) (k j : Nat) (hk : i ≤ k)
    (hk2 : k < i + n) (hj : l[k]? = some j) : ¬ ((jobs j).req.arg1 = a1 ∧ (jobs j).req.arg2 = a2) := by
  induction n generalizing i with
  | zero => omega
  | succ n ih =>
    simp only [findJob] at hf
    have hai : a.arr i = some l[i] := by rw [h.2, List.getElem?_eq_getElem]
    simp only [hai] at hf
    split at hf
    · cases hf
    · rename_i hne
      by_cases hki : k = i
      · subst hki
        rw [List.getElem?_eq_getElem (by omega)] at hj
        cases hj
        exact hne
      · exact ih (i + 1) (by omega) hf (by omega) (by omega)

/-- Where the jobs are. -/
structure PoolLists where
  u : List Nat
  r : List Nat
  d : List Nat

/-- Number of places job `j` is in. -/
def places (s : Pool) (l : PoolLists) (j : Nat) : Nat :=
  l.u.count j + l.r.count j + l.d.count j + s.filling.count j + s.working.count j + s.finished.count j +
    s.returning.count j

/-- Jobs that carry a submission not yet handed back. -/
def live (s : Pool) (l : PoolLists) (j : Nat) : Prop :=
  j ∈ l.r ∨ j ∈ s.working ∨ j ∈ s.finished ∨ j ∈ l.d

structure PoolInv (s : Pool) (l : PoolLists) : Prop where
  uRep : ArrRep s.uninit l.u
  rRep : ArrRep s.run l.r
  dRep : ArrRep s.done l.d
  once : ∀ j, places s l j = if j < 128 then 1 else 0
  started : s.started = List.range s.started.length
  queued : l.r.map (fun j => (s.jobs j).ticket) = List.range' s.started.length l.r.length
  count : s.submitted.length = s.started.length + l.r.length
  req : ∀ j, live s l j → s.submitted[(s.jobs j).ticket]? = some (s.jobs j).req
  inj : ∀ i j, live s l i → live s l j → (s.jobs i).ticket = (s.jobs j).ticket → i = j
  workLt : ∀ j, j ∈ s.working ∨ j ∈ s.finished ∨ j ∈ l.d → (s.jobs j).ticket < s.started.length
  exNodup : (s.executed.map (·.1)).Nodup
  exLt : ∀ t ∈ s.executed.map (·.1), t < s.started.length
  exWork : ∀ j ∈ s.working, (s.jobs j).ticket ∉ s.executed.map (·.1)
  exCount : s.executed.length + s.working.length = s.started.length
  fin : ∀ j, j ∈ s.finished ∨ j ∈ l.d → ((s.jobs j).ticket, (s.jobs j).ret) ∈ s.executed
  doneWait : ∀ j ∈ l.d, (s.jobs j).req.wait = true
  wNodup : (s.waits.map (·.1)).Nodup
  wLive : ∀ j, live s l j → (s.jobs j).ticket ∉ s.waits.map (·.1)
  wOk : ∀ w ∈ s.waits, (w.1, w.2.1) ∈ s.executed ∧
    ∃ q, s.submitted[w.1]? = some q ∧ q.arg1 = w.2.2.1 ∧ q.arg2 = w.2.2.2 ∧ q.wait = true

theorem setJob_ne (jobs : Nat → PJob) (j k : Nat) (v : PJob) (h : k ≠ j) : setJob jobs j v k = jobs k := by
  simp [setJob, h]

theorem setJob_eq (jobs : Nat → PJob) (j : Nat) (v : PJob) : setJob jobs j v j = v := by
  simp [setJob]

theorem poolInv_init (jobs : Nat → PJob) : PoolInv (poolInit jobs) ⟨List.range 128, [], []⟩ := by
  have hc : ∀ j, (List.range 128).count j = if j < 128 then 1 else 0 := by
    intro j
    rw [List.nodup_range.count]
    simp only [List.mem_range]
  constructor
  · refine ⟨by simp [poolInit], ?_⟩
    intro i
    simp only [poolInit]
    split
    · rename_i h
      rw [List.getElem?_range h]
    · rename_i h
      rw [List.getElem?_eq_none (by simp; omega)]
  · exact ⟨rfl, fun i => by simp [poolInit]⟩
  · exact ⟨rfl, fun i => by simp [poolInit]⟩
  · intro j
    simp only [places, poolInit, List.count_nil, Nat.add_zero]
    exact hc j
  all_goals simp [poolInit, live]

/-- Everything the pool owns, as one list. -/
def allJobs (s : Pool) (l : PoolLists) : List Nat :=
  l.u ++ l.r ++ l.d ++ s.filling ++ s.working ++ s.finished ++ s.returning

theorem PoolInv.total {s : Pool} {l : PoolLists} (i : PoolInv s l) :
    l.u.length + l.r.length + l.d.length + s.filling.length + s.working.length + s.finished.length +
      s.returning.length = 128 := by
  have hp : (allJobs s l).Perm (List.range 128) := by
    rw [List.perm_iff_count]
    intro j
    have h := i.once j
    have hr : (List.range 128).count j = if j < 128 then 1 else 0 := by
      rw [List.nodup_range.count]
      simp only [List.mem_range]
    rw [hr, ← h]
    simp only [allJobs, List.count_append, places]
  have := hp.length_eq
  simp only [allJobs, List.length_append, List.length_range] at this
  exact this

theorem pos_count {l : List Nat} {j : Nat} : j ∈ l ↔ 0 < l.count j := List.count_pos_iff.symm

/-- Only one place per job. -/
theorem PoolInv.le_one {s : Pool} {l : PoolLists} (i : PoolInv s l) (j : Nat) : places s l j ≤ 1 := by
  rw [i.once j]; split <;> omega

theorem PoolInv.step_fill {s s' : Pool} {l : PoolLists} (i : PoolInv s l) (q : Req)
    (h : poolStep s (.fill q) = some s') : ∃ l', PoolInv s' l' := by
  simp only [poolStep] at h
  have hne : l.u ≠ [] := by
    intro he
    have : s.uninit.size = 0 := by rw [i.uRep.1, he]; rfl
    simp [JobArr.pop, this] at h
  obtain ⟨b, j, u', hp, hl, hr⟩ := i.uRep.pop hne
  rw [hp] at h
  simp only [Option.map_some, Option.some.injEq] at h
  subst h
  have hone := i.le_one j
  have hnl : ∀ k, live s l k → k ≠ j := by
    rintro k hk rfl
    simp only [places, hl, List.count_append, List.count_cons_self, List.count_nil] at hone
    unfold live at hk
    simp only [pos_count] at hk
    omega
  refine ⟨⟨u', l.r, l.d⟩, hr, i.rRep, i.dRep, ?_, i.started, ?_, i.count, ?_, ?_, ?_, i.exNodup, i.exLt, ?_,
    i.exCount, ?_, ?_, i.wNodup, ?_, i.wOk⟩
  · intro k
    rw [← i.once k]
    simp only [places, hl, List.count_append, List.count_cons, List.count_nil]
    omega
  · rw [← i.queued]
    apply List.map_congr_left
    intro k hk
    show (setJob _ _ _ k).ticket = _
    rw [setJob_ne _ _ _ _ (hnl k (Or.inl hk))]
  · intro k hk
    show s.submitted[(setJob _ _ _ k).ticket]? = some (setJob _ _ _ k).req
    rw [setJob_ne _ _ _ _ (hnl k hk)]
    exact i.req k hk
  · intro k m hk hm
    show (setJob _ _ _ k).ticket = (setJob _ _ _ m).ticket → _
    rw [setJob_ne _ _ _ _ (hnl k hk), setJob_ne _ _ _ _ (hnl m hm)]
    exact i.inj k m hk hm
  · intro k hk
    show (setJob _ _ _ k).ticket < _
    rw [setJob_ne _ _ _ _ (hnl k (Or.inr hk))]
    exact i.workLt k hk
  · intro k hk
    show (setJob _ _ _ k).ticket ∉ _
    rw [setJob_ne _ _ _ _ (hnl k (Or.inr (Or.inl hk)))]
    exact i.exWork k hk
  · intro k hk
    show ((setJob _ _ _ k).ticket, (setJob _ _ _ k).ret) ∈ _
    rw [setJob_ne _ _ _ _ (hnl k (Or.inr (Or.inr hk)))]
    exact i.fin k hk
  · intro k hk
    show (setJob _ _ _ k).req.wait = true
    rw [setJob_ne _ _ _ _ (hnl k (Or.inr (Or.inr (Or.inr hk))))]
    exact i.doneWait k hk
  · intro k hk
    show (setJob _ _ _ k).ticket ∉ _
    rw [setJob_ne _ _ _ _ (hnl k hk)]
    exact i.wLive k hk

theorem PoolInv.queued_lt {s : Pool} {l : PoolLists} (i : PoolInv s l) (k : Nat) (hk : k ∈ l.r) :
    s.started.length ≤ (s.jobs k).ticket ∧ (s.jobs k).ticket < s.submitted.length := by
  have h : (s.jobs k).ticket ∈ l.r.map (fun j => (s.jobs j).ticket) := List.mem_map_of_mem hk
  rw [i.queued, List.mem_range'_1] at h
  have := i.count
  omega

theorem PoolInv.live_lt {s : Pool} {l : PoolLists} (i : PoolInv s l) (k : Nat) (hk : live s l k) :
    (s.jobs k).ticket < s.submitted.length := by
  rcases hk with hk | hk
  · exact (i.queued_lt k hk).2
  · have := i.workLt k hk
    have := i.count
    omega

theorem PoolInv.step_submit {s s' : Pool} {l : PoolLists} (i : PoolInv s l) (j : Nat)
    (h : poolStep s (.submit j) = some s') : ∃ l', PoolInv s' l' := by
  simp only [poolStep] at h
  split at h
  · rename_i hj
    have htot := i.total
    cases hp : s.run.push j with
    | none => rw [hp] at h; cases h
    | some b =>
      obtain ⟨hlt, hr⟩ := i.rRep.push_inv (by omega) j hp
      rw [hp] at h
      simp only [Option.map_some, Option.some.injEq] at h
      subst h
      have hone := i.le_one j
      have hfc := pos_count.1 hj
      have hnl : ∀ k, live s l k → k ≠ j := by
        rintro k hk rfl
        simp only [places] at hone
        unfold live at hk
        simp only [pos_count] at hk
        omega
      have hlive : ∀ k, live { s with run := b, filling := s.filling.erase j, submitted := s.submitted ++ [(s.jobs j).req], jobs := setJob s.jobs j { s.jobs j with ticket := s.submitted.length } } ⟨l.u, l.r ++ [j], l.d⟩ k → k = j ∨ live s l k := by
        intro k hk
        unfold live at hk ⊢
        simp only [List.mem_append, List.mem_singleton] at hk
        tauto
      have hwl : ∀ t ∈ s.waits.map (·.1), t < s.submitted.length := by
        intro t ht
        obtain ⟨w, hw, rfl⟩ := List.mem_map.1 ht
        obtain ⟨_, q, hq, _⟩ := i.wOk w hw
        exact (List.getElem?_eq_some_iff.1 hq).1
      refine ⟨⟨l.u, l.r ++ [j], l.d⟩, i.uRep, hr, i.dRep, ?_, i.started, ?_, ?_, ?_, ?_, ?_, i.exNodup, i.exLt, ?_,
        i.exCount, ?_, ?_, i.wNodup, ?_, ?_⟩
      · intro k
        rw [← i.once k]
        simp only [places, List.count_append, List.count_cons, List.count_nil, List.count_erase]
        split
        · rename_i hkj
          simp only [beq_iff_eq] at hkj
          subst hkj
          simp
          omega
        · simp
      · rw [List.map_append, List.length_append, List.length_singleton, List.range'_concat]
        congr 1
        · rw [← i.queued]
          apply List.map_congr_left
          intro k hk
          show (setJob _ _ _ k).ticket = _
          rw [setJob_ne _ _ _ _ (hnl k (Or.inl hk))]
        · simp [setJob_eq, i.count]
      · simp [i.count]
        omega
      · intro k hk
        show (s.submitted ++ [(s.jobs j).req])[(setJob _ _ _ k).ticket]? = some (setJob _ _ _ k).req
        rcases hlive k hk with rfl | hk'
        · rw [setJob_eq]
          simp
        · rw [setJob_ne _ _ _ _ (hnl k hk'), List.getElem?_append_left (i.live_lt k hk')]
          exact i.req k hk'
      · intro k m hk hm
        show (setJob _ _ _ k).ticket = (setJob _ _ _ m).ticket → _
        intro he
        rcases hlive k hk with rfl | hk' <;> rcases hlive m hm with rfl | hm'
        · rfl
        · rw [setJob_eq, setJob_ne _ _ _ _ (hnl m hm')] at he
          have := i.live_lt m hm'
          simp only at he
          omega
        · rw [setJob_eq, setJob_ne _ _ _ _ (hnl k hk')] at he
          have := i.live_lt k hk'
          simp only at he
          omega
        · rw [setJob_ne _ _ _ _ (hnl k hk'), setJob_ne _ _ _ _ (hnl m hm')] at he
          exact i.inj k m hk' hm' he
      · intro k hk
        show (setJob _ _ _ k).ticket < _
        rw [setJob_ne _ _ _ _ (hnl k (Or.inr hk))]
        exact i.workLt k hk
      · intro k hk
        show (setJob _ _ _ k).ticket ∉ _
        rw [setJob_ne _ _ _ _ (hnl k (Or.inr (Or.inl hk)))]
        exact i.exWork k hk
      · intro k hk
        show ((setJob _ _ _ k).ticket, (setJob _ _ _ k).ret) ∈ _
        rw [setJob_ne _ _ _ _ (hnl k (Or.inr (Or.inr hk)))]
        exact i.fin k hk
      · intro k hk
        show (setJob _ _ _ k).req.wait = true
        rw [setJob_ne _ _ _ _ (hnl k (Or.inr (Or.inr (Or.inr hk))))]
        exact i.doneWait k hk
      · intro k hk
        show (setJob _ _ _ k).ticket ∉ _
        rcases hlive k hk with rfl | hk'
        · rw [setJob_eq]
          intro hm
          have := hwl _ hm
          simp only at this
          omega
        · rw [setJob_ne _ _ _ _ (hnl k hk')]
          exact i.wLive k hk'
      · intro w hw
        obtain ⟨h1, q, h2, h3⟩ := i.wOk w hw
        refine ⟨h1, q, ?_, h3⟩
        rw [List.getElem?_append_left (List.getElem?_eq_some_iff.1 h2).1]
        exact h2
  · cases h

theorem PoolInv.step_fetch {s s' : Pool} {l : PoolLists} (i : PoolInv s l)
    (h : poolStep s .fetch = some s') : ∃ l', PoolInv s' l' := by
  simp only [poolStep] at h
  split at h
  · cases h
  · rename_i hsz
    have htot := i.total
    obtain ⟨u, r, d⟩ := l
    simp only at *
    have hr0 := i.rRep.1
    cases r with
    | nil => simp at hr0; omega
    | cons j r =>
      obtain ⟨b, hb, hrep⟩ := i.rRep.shift (by show (j :: r).length ≤ 128; omega) 0 (by simp)
      rw [hb] at h
      simp only [List.getElem_cons_zero, Option.map_some, Option.some.injEq, List.eraseIdx_zero, List.tail_cons] at h hrep
      subst h
      have hq := i.queued
      simp only [List.map_cons, List.length_cons, List.range'_succ, List.cons.injEq] at hq
      have hone := i.le_one j
      have hlive : ∀ k, live { s with run := b, working := j :: s.working, started := s.started ++ [(s.jobs j).ticket] } ⟨u, r, d⟩ k → live s ⟨u, j :: r, d⟩ k := by
        intro k hk
        unfold live at hk ⊢
        simp only [List.mem_cons] at hk ⊢
        tauto
      have hjl : live s ⟨u, j :: r, d⟩ j := Or.inl (by simp)
      refine ⟨⟨u, r, d⟩, i.uRep, hrep, i.dRep, ?_, ?_, ?_, ?_, ?_, ?_, ?_, i.exNodup, ?_, ?_,
        ?_, i.fin, i.doneWait, i.wNodup, ?_, i.wOk⟩
      · intro k
        rw [← i.once k]
        simp only [places, List.count_cons]
        omega
      · show s.started ++ [(s.jobs j).ticket] = List.range (s.started ++ [(s.jobs j).ticket]).length
        rw [List.length_append, List.length_singleton, List.range_succ, ← i.started, hq.1]
      · simp only [List.length_append, List.length_singleton]
        exact hq.2
      · have := i.count
        simp at this ⊢
        omega
      · intro k hk
        exact i.req k (hlive k hk)
      · intro k m hk hm
        exact i.inj k m (hlive k hk) (hlive m hm)
      · intro k hk
        simp only [List.length_append, List.length_singleton]
        simp only [List.mem_cons] at hk
        show (s.jobs k).ticket < _
        rcases hk with (rfl | hk) | hk
        · omega
        · have := i.workLt k (Or.inl hk)
          omega
        · have := i.workLt k (Or.inr hk)
          omega
      · intro t ht
        have := i.exLt t ht
        simp only [List.length_append, List.length_singleton]
        omega
      · intro k hk
        simp only [List.mem_cons] at hk
        show (s.jobs k).ticket ∉ _
        rcases hk with rfl | hk
        · intro hm
          have := i.exLt _ hm
          omega
        · exact i.exWork k hk
      · have := i.exCount
        simp
        omega
      · intro k hk
        exact i.wLive k (hlive k hk)

theorem PoolInv.step_exec {s s' : Pool} {l : PoolLists} (i : PoolInv s l) (j v : Nat)
    (h : poolStep s (.exec j v) = some s') : ∃ l', PoolInv s' l' := by
  simp only [poolStep] at h
  split at h
  · rename_i hj
    simp only [Option.some.injEq] at h
    subst h
    have hone := i.le_one j
    have hjc := pos_count.1 hj
    have hjl : live s l j := Or.inr (Or.inl hj)
    have hex : s.executed.map (·.1) = s.executed.map (·.1) := rfl
    -- tickets and requests do not change
    have ht : ∀ k, (setJob s.jobs j { s.jobs j with ret := v } k).ticket = (s.jobs k).ticket := by
      intro k
      unfold setJob
      split
      · rename_i hk; rw [hk]
      · rfl
    have hq : ∀ k, (setJob s.jobs j { s.jobs j with ret := v } k).req = (s.jobs k).req := by
      intro k
      unfold setJob
      split
      · rename_i hk; rw [hk]
      · rfl
    have hlive : ∀ k, live { s with working := s.working.erase j, finished := j :: s.finished, executed := s.executed ++ [((s.jobs j).ticket, v)], jobs := setJob s.jobs j { s.jobs j with ret := v } } l k → live s l k := by
      intro k hk
      unfold live at hk ⊢
      simp only [List.mem_cons] at hk
      rcases hk with hk | hk | (rfl | hk) | hk
      · exact Or.inl hk
      · exact Or.inr (Or.inl (List.mem_of_mem_erase hk))
      · exact Or.inr (Or.inl hj)
      · exact Or.inr (Or.inr (Or.inl hk))
      · exact Or.inr (Or.inr (Or.inr hk))
    have hne : ∀ k, k ∈ s.working.erase j → k ≠ j := by
      rintro k hk rfl
      have h1 := pos_count.1 hk
      rw [List.count_erase_self] at h1
      simp only [places] at hone
      omega
    refine ⟨l, i.uRep, i.rRep, i.dRep, ?_, i.started, ?_, i.count, ?_, ?_, ?_, ?_, ?_, ?_,
      ?_, ?_, ?_, i.wNodup, ?_, ?_⟩
    · intro k
      rw [← i.once k]
      simp only [places, List.count_cons, List.count_erase]
      split
      · rename_i hkj
        simp only [beq_iff_eq] at hkj
        subst hkj
        simp
        omega
      · simp
    · rw [← i.queued]
      apply List.map_congr_left
      intro k _
      exact ht k
    · intro k hk
      show s.submitted[(setJob _ _ _ k).ticket]? = some (setJob _ _ _ k).req
      rw [ht, hq]
      exact i.req k (hlive k hk)
    · intro k m hk hm
      show (setJob _ _ _ k).ticket = (setJob _ _ _ m).ticket → _
      rw [ht, ht]
      exact i.inj k m (hlive k hk) (hlive m hm)
    · intro k hk
      show (setJob _ _ _ k).ticket < _
      rw [ht]
      apply i.workLt k
      simp only [List.mem_cons] at hk
      rcases hk with hk | (rfl | hk) | hk
      · exact Or.inl (List.mem_of_mem_erase hk)
      · exact Or.inl hj
      · exact Or.inr (Or.inl hk)
      · exact Or.inr (Or.inr hk)
    · show ((s.executed ++ [((s.jobs j).ticket, v)]).map (·.1)).Nodup
      rw [List.map_append, List.nodup_append]
      refine ⟨i.exNodup, by simp, ?_⟩
      rintro a ha b hb rfl
      simp only [List.map_cons, List.map_nil, List.mem_singleton] at hb
      subst hb
      exact i.exWork j hj ha
    · intro t htm
      simp only [List.map_append, List.map_cons, List.map_nil, List.mem_append, List.mem_singleton] at htm
      rcases htm with htm | rfl
      · exact i.exLt t htm
      · exact i.workLt j (Or.inl hj)
    · intro k hk
      show (setJob _ _ _ k).ticket ∉ _
      rw [ht]
      simp only [List.map_append, List.map_cons, List.map_nil, List.mem_append, List.mem_singleton, not_or]
      have hkw := List.mem_of_mem_erase hk
      refine ⟨i.exWork k hkw, ?_⟩
      intro he
      exact hne k hk (i.inj k j (Or.inr (Or.inl hkw)) hjl he)
    · have := i.exCount
      have h2 := List.length_erase_of_mem hj
      have h3 : 0 < s.working.length := List.length_pos_of_mem hj
      simp only [List.length_append, List.length_singleton]
      omega
    · intro k hk
      show ((setJob _ _ _ k).ticket, (setJob _ _ _ k).ret) ∈ s.executed ++ [_]
      by_cases hkj : k = j
      · subst hkj
        rw [setJob_eq]
        simp
      · rw [setJob_ne _ _ _ _ hkj]
        simp only [List.mem_cons] at hk
        apply List.mem_append_left
        apply i.fin
        rcases hk with (rfl | hk) | hk
        · exact absurd rfl hkj
        · exact Or.inl hk
        · exact Or.inr hk
    · intro k hk
      show (setJob _ _ _ k).req.wait = true
      rw [hq]
      exact i.doneWait k hk
    · intro k hk
      show (setJob _ _ _ k).ticket ∉ _
      rw [ht]
      exact i.wLive k (hlive k hk)
    · intro w hw
      obtain ⟨h1, h2⟩ := i.wOk w hw
      exact ⟨List.mem_append_left _ h1, h2⟩
  · cases h

theorem count_erase_add {l : List Nat} {j : Nat} (hj : j ∈ l) (k : Nat) :
    (l.erase j).count k + [j].count k = l.count k := by
  have hp := List.perm_cons_erase hj
  have := hp.count_eq k
  rw [this, List.count_cons]
  simp [List.count_cons]

theorem PoolInv.step_store {s s' : Pool} {l : PoolLists} (i : PoolInv s l) (j : Nat)
    (h : poolStep s (.store j) = some s') : ∃ l', PoolInv s' l' := by
  simp only [poolStep] at h
  split at h
  · rename_i hj
    have htot := i.total
    split at h
    · rename_i hw
      cases hp : s.done.push j with
      | none => rw [hp] at h; cases h
      | some b =>
        obtain ⟨hlt, hr⟩ := i.dRep.push_inv (by omega) j hp
        rw [hp] at h
        simp only [Option.map_some, Option.some.injEq] at h
        subst h
        have hlive : ∀ k, live { s with done := b, finished := s.finished.erase j } ⟨l.u, l.r, l.d ++ [j]⟩ k → live s l k := by
          intro k hk
          unfold live at hk ⊢
          simp only [List.mem_append, List.mem_singleton] at hk
          rcases hk with hk | hk | hk | hk | rfl
          · exact Or.inl hk
          · exact Or.inr (Or.inl hk)
          · exact Or.inr (Or.inr (Or.inl (List.mem_of_mem_erase hk)))
          · exact Or.inr (Or.inr (Or.inr hk))
          · exact Or.inr (Or.inr (Or.inl hj))
        refine ⟨⟨l.u, l.r, l.d ++ [j]⟩, i.uRep, i.rRep, hr, ?_, i.started, i.queued, i.count,
          fun k hk => i.req k (hlive k hk), fun k m hk hm => i.inj k m (hlive k hk) (hlive m hm), ?_, i.exNodup,
          i.exLt, i.exWork, i.exCount, ?_, ?_, i.wNodup, fun k hk => i.wLive k (hlive k hk), i.wOk⟩
        · intro k
          rw [← i.once k]
          have := count_erase_add hj k
          simp only [places, List.count_append]
          omega
        · intro k hk
          apply i.workLt k
          simp only [List.mem_append, List.mem_singleton] at hk
          rcases hk with hk | hk | hk | rfl
          · exact Or.inl hk
          · exact Or.inr (Or.inl (List.mem_of_mem_erase hk))
          · exact Or.inr (Or.inr hk)
          · exact Or.inr (Or.inl hj)
        · intro k hk
          apply i.fin k
          simp only [List.mem_append, List.mem_singleton] at hk
          rcases hk with hk | hk | rfl
          · exact Or.inl (List.mem_of_mem_erase hk)
          · exact Or.inr hk
          · exact Or.inl hj
        · intro k hk
          simp only [List.mem_append, List.mem_singleton] at hk
          rcases hk with hk | rfl
          · exact i.doneWait k hk
          · exact hw
    · cases hp : s.uninit.push j with
      | none => rw [hp] at h; cases h
      | some b =>
        obtain ⟨hlt, hr⟩ := i.uRep.push_inv (by omega) j hp
        rw [hp] at h
        simp only [Option.map_some, Option.some.injEq] at h
        subst h
        have hlive : ∀ k, live { s with uninit := b, finished := s.finished.erase j } ⟨l.u ++ [j], l.r, l.d⟩ k → live s l k := by
          intro k hk
          unfold live at hk ⊢
          rcases hk with hk | hk | hk | hk
          · exact Or.inl hk
          · exact Or.inr (Or.inl hk)
          · exact Or.inr (Or.inr (Or.inl (List.mem_of_mem_erase hk)))
          · exact Or.inr (Or.inr (Or.inr hk))
        refine ⟨⟨l.u ++ [j], l.r, l.d⟩, hr, i.rRep, i.dRep, ?_, i.started, i.queued, i.count,
          fun k hk => i.req k (hlive k hk), fun k m hk hm => i.inj k m (hlive k hk) (hlive m hm), ?_, i.exNodup,
          i.exLt, i.exWork, i.exCount, ?_, i.doneWait, i.wNodup, fun k hk => i.wLive k (hlive k hk), i.wOk⟩
        · intro k
          rw [← i.once k]
          have := count_erase_add hj k
          simp only [places, List.count_append]
          omega
        · intro k hk
          apply i.workLt k
          rcases hk with hk | hk | hk
          · exact Or.inl hk
          · exact Or.inr (Or.inl (List.mem_of_mem_erase hk))
          · exact Or.inr (Or.inr hk)
        · intro k hk
          apply i.fin k
          rcases hk with hk | hk
          · exact Or.inl (List.mem_of_mem_erase hk)
          · exact Or.inr hk
  · cases h

theorem count_eraseIdx {l : List Nat} {n : Nat} (hn : n < l.length) (k : Nat) :
    (l.eraseIdx n).count k + [l[n]].count k = l.count k := by
  induction l generalizing n with
  | nil => simp at hn
  | cons a l ih =>
    cases n with
    | zero => simp [List.count_cons]
    | succ n =>
      simp only [List.length_cons] at hn
      have := ih (n := n) (by omega)
      simp only [List.eraseIdx_cons_succ, List.getElem_cons_succ, List.count_cons] at this ⊢
      omega

theorem PoolInv.step_wait {s s' : Pool} {l : PoolLists} (i : PoolInv s l) (a1 a2 : Nat)
    (h : poolStep s (.wait a1 a2) = some s') : ∃ l', PoolInv s' l' := by
  simp only [poolStep] at h
  split at h
  · cases h
  · rename_i n hn
    have htot := i.total
    obtain ⟨j, hj, ha1, ha2⟩ := findJob_spec _ _ _ i.dRep _ _ _ _ _ hn
    have hlt : n < l.d.length := (List.getElem?_eq_some_iff.1 hj).1
    have hjn : l.d[n] = j := (List.getElem?_eq_some_iff.1 hj).2
    obtain ⟨b, hb, hrep⟩ := i.dRep.shift (by omega) n hlt
    rw [hb] at h
    simp only [Option.map_some, Option.some.injEq, hjn] at h
    subst h
    have hjd : j ∈ l.d := List.mem_of_getElem? hj
    have hjl : live s l j := Or.inr (Or.inr (Or.inr hjd))
    have hsub : ∀ k, k ∈ l.d.eraseIdx n → k ∈ l.d := fun k hk => List.mem_of_mem_eraseIdx hk
    have hlive : ∀ k, live { s with done := b, returning := j :: s.returning, waits := s.waits ++ [((s.jobs j).ticket, (s.jobs j).ret, a1, a2)] } ⟨l.u, l.r, l.d.eraseIdx n⟩ k → live s l k ∧ k ≠ j := by
      intro k hk
      have hl : live s l k := by
        unfold live at hk ⊢
        rcases hk with hk | hk | hk | hk
        · exact Or.inl hk
        · exact Or.inr (Or.inl hk)
        · exact Or.inr (Or.inr (Or.inl hk))
        · exact Or.inr (Or.inr (Or.inr (hsub k hk)))
      refine ⟨hl, ?_⟩
      rintro rfl
      have hone := i.le_one k
      have hc := count_eraseIdx hlt k
      rw [hjn] at hc
      simp only [List.count_cons_self, List.count_nil] at hc
      simp only [places] at hone
      unfold live at hk
      simp only [pos_count] at hk
      omega
    refine ⟨⟨l.u, l.r, l.d.eraseIdx n⟩, i.uRep, i.rRep, hrep, ?_, i.started, i.queued, i.count,
      fun k hk => i.req k (hlive k hk).1, fun k m hk hm => i.inj k m (hlive k hk).1 (hlive m hm).1, ?_, i.exNodup,
      i.exLt, i.exWork, i.exCount, ?_, fun k hk => i.doneWait k (hsub k hk), ?_, ?_, ?_⟩
    · intro k
      rw [← i.once k]
      have := count_eraseIdx hlt k
      rw [hjn] at this
      simp only [places, List.count_cons, List.count_nil] at this ⊢
      omega
    · intro k hk
      apply i.workLt k
      rcases hk with hk | hk | hk
      · exact Or.inl hk
      · exact Or.inr (Or.inl hk)
      · exact Or.inr (Or.inr (hsub k hk))
    · intro k hk
      apply i.fin k
      rcases hk with hk | hk
      · exact Or.inl hk
      · exact Or.inr (hsub k hk)
    · rw [List.map_append, List.nodup_append]
      refine ⟨i.wNodup, by simp, ?_⟩
      rintro a ha c hc rfl
      simp only [List.map_cons, List.map_nil, List.mem_singleton] at hc
      subst hc
      exact i.wLive j hjl ha
    · intro k hk
      obtain ⟨hk1, hk2⟩ := hlive k hk
      simp only [List.map_append, List.map_cons, List.map_nil, List.mem_append, List.mem_singleton, not_or]
      refine ⟨i.wLive k hk1, ?_⟩
      intro he
      exact hk2 (i.inj k j hk1 hjl he)
    · intro w hw
      simp only [List.mem_append, List.mem_singleton] at hw
      rcases hw with hw | rfl
      · exact i.wOk w hw
      · refine ⟨i.fin j (Or.inr hjd), (s.jobs j).req, i.req j hjl, ha1, ha2, i.doneWait j hjd⟩

theorem PoolInv.step_recycle {s s' : Pool} {l : PoolLists} (i : PoolInv s l) (j : Nat)
    (h : poolStep s (.recycle j) = some s') : ∃ l', PoolInv s' l' := by
  simp only [poolStep] at h
  split at h
  · rename_i hj
    have htot := i.total
    cases hp : s.uninit.push j with
    | none => rw [hp] at h; cases h
    | some b =>
      obtain ⟨hlt, hr⟩ := i.uRep.push_inv (by omega) j hp
      rw [hp] at h
      simp only [Option.map_some, Option.some.injEq] at h
      subst h
      refine ⟨⟨l.u ++ [j], l.r, l.d⟩, hr, i.rRep, i.dRep, ?_, i.started, i.queued, i.count,
        i.req, i.inj, i.workLt, i.exNodup,
        i.exLt, i.exWork, i.exCount, i.fin, i.doneWait, i.wNodup, i.wLive, i.wOk⟩
      intro k
      rw [← i.once k]
      have := count_erase_add hj k
      simp only [places, List.count_append]
      omega
  · cases h

theorem PoolInv.step {s s' : Pool} {l : PoolLists} (i : PoolInv s l) (a : PoolAct)
    (h : poolStep s a = some s') : ∃ l', PoolInv s' l' := by
  cases a with
  | fill r => exact i.step_fill r h
  | submit j => exact i.step_submit j h
  | fetch => exact i.step_fetch h
  | exec j v => exact i.step_exec j v h
  | store j => exact i.step_store j h
  | wait a1 a2 => exact i.step_wait a1 a2 h
  | recycle j => exact i.step_recycle j h

/-- Reachable states. -/
def PoolReach (s : Pool) : Prop := ∃ jobs as, poolRun (poolInit jobs) as = some s

theorem poolRun_inv (as : List PoolAct) (s s' : Pool) (l : PoolLists) (i : PoolInv s l)
    (h : poolRun s as = some s') : ∃ l', PoolInv s' l' := by
  induction as generalizing s l with
  | nil =>
    simp only [poolRun, Option.some.injEq] at h
    subst h
    exact ⟨l, i⟩
  | cons a as ih =>
    simp only [poolRun] at h
    split at h
    · rename_i s1 h1
      obtain ⟨l1, i1⟩ := i.step a h1
      exact ih s1 l1 i1 h
    · cases h

theorem PoolReach.inv {s : Pool} (h : PoolReach s) : ∃ l, PoolInv s l := by
  obtain ⟨jobs, as, h⟩ := h
  exact poolRun_inv as _ s _ (poolInv_init jobs) h

/-- **C25.** For every number of submitting, working and waiting threads and every interleaving: jobs are
started in submission order without gap or repetition (the started submissions are numbers 0, 1, 2, …),
every submission that was not started is still queued, and every started one is being executed or was
executed, once. -/
theorem C25_in_order (s : Pool) (h : PoolReach s) :
    s.started = List.range s.started.length ∧
    s.submitted.length = s.started.length + s.run.size ∧
    s.started.length = s.executed.length + s.working.length ∧
    (s.executed.map (·.1)).Nodup ∧ ∀ t ∈ s.executed.map (·.1), t ∈ s.started := by
  obtain ⟨l, i⟩ := h.inv
  refine ⟨i.started, ?_, i.exCount.symm, i.exNodup, ?_⟩
  · rw [i.rRep.1]
    exact i.count
  · intro t ht
    rw [i.started, List.mem_range]
    exact i.exLt t ht

/-- **C25.** The function and arguments a worker executes are those of the submission it stands for. -/
theorem C25_right_job (s : Pool) (h : PoolReach s) (j : Nat) (hj : j ∈ s.working) :
    s.submitted[(s.jobs j).ticket]? = some (s.jobs j).req := by
  obtain ⟨l, i⟩ := h.inv
  exact i.req j (Or.inr (Or.inl hj))

/-- **C25.** What a wait call returns is the value returned by the function of a submission with the
arguments the caller named, and no result is returned to two wait calls. -/
theorem C25_wait_result (s : Pool) (h : PoolReach s) :
    (s.waits.map (·.1)).Nodup ∧
    ∀ w ∈ s.waits, (w.1, w.2.1) ∈ s.executed ∧
      ∃ q, s.submitted[w.1]? = some q ∧ q.arg1 = w.2.2.1 ∧ q.arg2 = w.2.2.2 ∧ q.wait = true := by
  obtain ⟨l, i⟩ := h.inv
  exact ⟨i.wNodup, i.wOk⟩

/-- **C25.** Nothing gets stuck inside the pool: a queued job can be fetched, a job in the hands of a thread
can always be passed on, and the job lists are never full for it; a new job can be submitted unless all
128 are in use; and a wait call finds its job when it is there. -/
theorem C25_no_block (s : Pool) (h : PoolReach s) :
    (s.run.size ≠ 0 → ∃ s', poolStep s .fetch = some s') ∧
    (∀ j ∈ s.filling, ∃ s', poolStep s (.submit j) = some s') ∧
    (∀ j ∈ s.working, ∀ v, ∃ s', poolStep s (.exec j v) = some s') ∧
    (∀ j ∈ s.finished, ∃ s', poolStep s (.store j) = some s') ∧
    (∀ j ∈ s.returning, ∃ s', poolStep s (.recycle j) = some s') ∧
    (s.run.size + s.done.size + s.filling.length + s.working.length + s.finished.length + s.returning.length < 128 →
      ∀ q, ∃ s', poolStep s (.fill q) = some s') ∧
    (∀ a1 a2, (∃ (k : Nat) (j : Nat), k < s.done.size ∧ s.done.arr k = some j ∧ (s.jobs j).req.arg1 = a1 ∧
      (s.jobs j).req.arg2 = a2) → ∃ s', poolStep s (.wait a1 a2) = some s') := by
  obtain ⟨l, i⟩ := h.inv
  have htot := i.total
  refine ⟨?_, ?_, ?_, ?_, ?_, ?_, ?_⟩
  · intro hsz
    have h0 := i.rRep.1
    obtain ⟨b, hb, _⟩ := i.rRep.shift (by omega) 0 (by omega)
    exact ⟨_, by simp only [poolStep]; rw [if_neg hsz, hb]; rfl⟩
  · intro j hj
    have := List.length_pos_of_mem hj
    obtain ⟨b, hb, _⟩ := i.rRep.push j (by omega)
    exact ⟨_, by simp only [poolStep]; rw [if_pos hj, hb]; rfl⟩
  · intro j hj v
    exact ⟨_, by simp only [poolStep]; rw [if_pos hj]⟩
  · intro j hj
    have := List.length_pos_of_mem hj
    by_cases hw : (s.jobs j).req.wait = true
    · obtain ⟨b, hb, _⟩ := i.dRep.push j (by omega)
      exact ⟨_, by simp only [poolStep]; rw [if_pos hj, if_pos hw, hb]; rfl⟩
    · obtain ⟨b, hb, _⟩ := i.uRep.push j (by omega)
      exact ⟨_, by simp only [poolStep]; rw [if_pos hj, if_neg hw, hb]; rfl⟩
  · intro j hj
    have := List.length_pos_of_mem hj
    obtain ⟨b, hb, _⟩ := i.uRep.push j (by omega)
    exact ⟨_, by simp only [poolStep]; rw [if_pos hj, hb]; rfl⟩
  · intro hlt q
    have h1 := i.rRep.1
    have h3 := i.dRep.1
    have hne : l.u ≠ [] := by
      intro he
      rw [he] at htot
      simp only [List.length_nil] at htot
      omega
    obtain ⟨b, j, u', hp, _⟩ := i.uRep.pop hne
    exact ⟨_, by simp only [poolStep]; rw [hp]; rfl⟩
  · rintro a1 a2 ⟨k, j, hk, hj, h1, h2⟩
    have h3 := i.dRep.1
    cases hf : findJob s.jobs s.done.arr a1 a2 0 s.done.size with
    | none =>
      rw [i.dRep.2] at hj
      exact absurd ⟨h1, h2⟩ (findJob_none _ _ _ i.dRep _ _ _ _ (by omega) hf k j (by omega) (by omega) hj)
    | some n =>
      obtain ⟨j', hj', _⟩ := findJob_spec _ _ _ i.dRep _ _ _ _ _ hf
      obtain ⟨b, hb, _⟩ := i.dRep.shift (by omega) n (List.getElem?_eq_some_iff.1 hj').1
      exact ⟨_, by simp only [poolStep, hf]; rw [hb]; rfl⟩

/-- Two jobs overtake each other in finishing, the wait calls still get their own results. -/
example : ∃ s, poolRun (poolInit fun _ => ⟨⟨0, 0, 0, false⟩, 0, 0⟩)
    [.fill ⟨1, 5, 0, true⟩, .fill ⟨1, 6, 0, true⟩, .submit 127, .submit 126, .fetch, .fetch, .exec 126 66, .store 126,
      .exec 127 55, .store 127, .wait 5 0, .wait 6 0] = some s ∧
    s.waits = [(0, 55, 5, 0), (1, 66, 6, 0)] ∧ s.started = [0, 1] := by
  refine ⟨_, rfl, ?_, ?_⟩ <;> decide +kernel

end Davs2
