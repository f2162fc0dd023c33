import Verif.Model.ParseSignal

/- C116: parsing and reconstruction in threads of their own. -/
namespace Davs2.Ps

theorem run_inv {P : St → Prop} {lock : Bool} {n : Nat} (hs : ∀ s o t, P s → step lock n s o = some t → P t) : ∀ (l : List Op) {s t : St}, P s → run lock n s l = some t → P t := by
  intro l
  induction l with
  | nil => intro s t h e; cases e; exact h
  | cons o l ih =>
    intro s t h e
    rw [run] at e
    cases h1 : step lock n s o with
    | none => rw [h1] at e; cases e
    | some u => rw [h1] at e; exact ih (hs s o u h h1) e

theorem run_append (lock : Bool) (n : Nat) (l m : List Op) : ∀ s, run lock n s (l ++ m) = (run lock n s l).bind fun s => run lock n s m := by
  induction l with
  | nil => intro s; rfl
  | cons o l ih =>
    intro s
    rw [List.cons_append, run, run]
    cases step lock n s o with
    | none => rfl
    | some u => exact ih u

theorem step_order {lock : Bool} {n : Nat} (s : St) (o : Op) (t : St) (h : s.done ≤ s.parsed ∧ s.parsed ≤ n) (e : step lock n s o = some t) : t.done ≤ t.parsed ∧ t.parsed ≤ n := by
  cases o <;> simp only [step] at e
  · split at e
    · cases e
    · rename_i hc
      cases e
      have : s.parsed ≠ n := fun q => hc (.inr (.inl q))
      exact ⟨by show s.done ≤ s.parsed + 1; omega, by show s.parsed + 1 ≤ n; omega⟩
  · split at e
    · cases e; exact h
    · cases e
  · split at e
    · cases e
    · split at e
      · cases e
        split
        · exact ⟨by show s.done + 1 ≤ s.parsed; omega, h.2⟩
        · exact h
      · cases e
        split
        · exact ⟨by show s.done + 1 ≤ s.parsed; omega, h.2⟩
        · exact h
      · cases e; exact h
      · cases e
      · cases e; exact h

/-- **C116, the part that holds**: in every order of the steps, no LCU is reconstructed before it has been parsed. -/
theorem C116_order_partial (n : Nat) (l : List Op) {s : St} (e : run false n start l = some s) : s.done ≤ s.parsed ∧ s.parsed ≤ n :=
  run_inv (P := fun s => s.done ≤ s.parsed ∧ s.parsed ≤ n) step_order l ⟨Nat.le_refl _, Nat.zero_le _⟩ e

/-- No thread can go on. -/
def Stuck (lock : Bool) (n : Nat) (s : St) : Prop := ∀ o, step lock n s o = none

/-- Everything is parsed while the other thread has not begun; it reconstructs `k` LCUs. -/
theorem ahead (n : Nat) : ∀ k, k ≤ n → run false n start ((List.replicate k [.store, .wake, .recon]).flatten) = some ⟨k, false, k, .test⟩ := by
  intro k
  induction k with
  | zero => intro _; rfl
  | succ k ih =>
    intro h
    rw [List.replicate_succ', List.flatten_concat, run_append, ih (by omega)]
    have h1 : ¬ k = n := by omega
    simp [run, step, h1]

/-- **C116 fails**: for pictures of every size there is an order of the steps in which the wake-up for the last LCU comes between the test and the sleep of the waiting thread; nothing
can happen any more and the picture is never finished. -/
theorem C116_violated (n : Nat) (hn : 0 < n) : ∃ l s, run false n start l = some s ∧ Stuck false n s ∧ s.parsed = n ∧ s.done < n := by
  obtain ⟨k, rfl⟩ : ∃ k, n = k + 1 := ⟨n - 1, by omega⟩
  refine ⟨(List.replicate k [.store, .wake, .recon]).flatten ++ [.recon, .recon, .store, .wake, .recon], ⟨k + 1, false, k, .asleep⟩, ?_, ?_, rfl, Nat.lt_succ_self _⟩
  · rw [run_append, ahead (k + 1) k (by omega)]
    simp [run, step]
  · intro o
    cases o <;> simp [step]

/-- With the mutex: a sleeping thread has nothing to reconstruct, or the wake-up is still to come. -/
def Good (s : St) : Prop := (s.pc = .sleepy → s.done = s.parsed) ∧ (s.pc = .asleep → s.done = s.parsed ∨ s.pending = true)

theorem step_good {n : Nat} (s : St) (o : Op) (t : St) (h : (s.done ≤ s.parsed ∧ s.parsed ≤ n) ∧ Good s) (e : step true n s o = some t) : (t.done ≤ t.parsed ∧ t.parsed ≤ n) ∧ Good t := by
  refine ⟨step_order s o t h.1 e, ?_⟩
  obtain ⟨⟨ho, -⟩, h1, h2⟩ := h
  cases o <;> simp only [step] at e
  · split at e
    · cases e
    · rename_i hc
      cases e
      exact ⟨fun q => absurd (.inr (.inr ⟨by trivial, .inr q⟩)) hc, fun _ => .inr rfl⟩
  · split at e
    · cases e
      constructor
      · intro q
        simp only at q
        split at q
        · cases q
        · exact h1 q
      · intro q
        simp only at q
        split at q
        · cases q
        · rename_i hn; exact absurd q hn
    · cases e
  · split at e
    · cases e
    · split at e
      · rename_i hp
        cases e
        split
        · exact ⟨fun q => (by rw [hp] at q; cases q), fun q => (by rw [hp] at q; cases q)⟩
        · exact ⟨fun q => (by cases q), fun q => (by cases q)⟩
      · cases e
        split
        · exact ⟨fun q => (by cases q), fun q => (by cases q)⟩
        · exact ⟨fun _ => (by show s.done = s.parsed; omega), fun q => (by cases q)⟩
      · rename_i hp
        cases e
        exact ⟨fun q => (by cases q), fun _ => .inl (h1 hp)⟩
      · cases e
      · cases e
        exact ⟨fun q => (by cases q), fun q => (by cases q)⟩

/-- What is missing in the code is the mutex around the store (as `decoder_signal` has it): with it the threads only stop when the whole picture is reconstructed. -/
theorem C116_locked_partial (n : Nat) (l : List Op) {s : St} (e : run true n start l = some s) (hs : Stuck true n s) : s.done = n := by
  obtain ⟨⟨ho, hb⟩, -, h2⟩ := run_inv (P := fun s => (s.done ≤ s.parsed ∧ s.parsed ≤ n) ∧ Good s) step_good l
    ⟨⟨Nat.le_refl _, Nat.zero_le _⟩, fun q => (by cases q), fun q => (by cases q)⟩ e
  have hw := hs .wake
  have hr := hs .recon
  have hst := hs .store
  simp only [step] at hw hr hst
  have hp : s.pending = false := by
    cases q : s.pending with
    | false => rfl
    | true => rw [if_pos q] at hw; cases hw
  by_cases hd : s.done = n
  · exact hd
  · rw [if_neg hd] at hr
    split at hr <;> try (cases hr; done)
    rename_i hpc
    rcases h2 hpc with r | r
    · rw [if_neg] at hst
      · cases hst
      · rw [hp, hpc]
        rintro (q | q | ⟨-, q | q⟩)
        · cases q
        · omega
        · cases q
        · cases q
    · rw [hp] at r; cases r

example : run false 2 start [.recon, .recon, .recon, .store, .wake, .recon, .recon, .recon, .recon, .store, .wake, .recon] = some ⟨2, false, 1, .asleep⟩ := by decide
example : ∃ s, run true 2 start [.recon, .recon, .recon, .store, .wake, .recon, .recon, .store, .wake, .recon] = some s ∧ s.done = 2 := ⟨_, rfl, rfl⟩

end Davs2.Ps
