import Verif.Model.Open
import Mathlib.Tactic.IntervalCases
/-
C27: opening the decoder always yields a usable thread configuration.
-/
namespace Davs2

/-- Number of processors below `n` the process may run on. -/
def cpusBelow (a : Affinity) (n : Nat) : Nat := ((List.range n).filter a).length

theorem affByte_bits : ∀ b0 b1 b2 b3 b4 b5 b6 b7 : Bool, ∀ i : Fin 8,
    ((BitVec.ofNat 8 (0 + (if b0 then 2 ^ 0 else 0) + (if b1 then 2 ^ 1 else 0) + (if b2 then 2 ^ 2 else 0) +
      (if b3 then 2 ^ 3 else 0) + (if b4 then 2 ^ 4 else 0) + (if b5 then 2 ^ 5 else 0) +
      (if b6 then 2 ^ 6 else 0) + (if b7 then 2 ^ 7 else 0))).toNat >>> i.val) % 2 =
    if [b0, b1, b2, b3, b4, b5, b6, b7][i.val] then 1 else 0 := by
  decide +kernel

theorem affByte_bit (a : Affinity) (k i : Nat) (hi : i < 8) :
    ((affByte a k).toNat >>> i) % 2 = if a (8 * k + i) then 1 else 0 := by
  have h := affByte_bits (a (8 * k + 0)) (a (8 * k + 1)) (a (8 * k + 2)) (a (8 * k + 3)) (a (8 * k + 4))
    (a (8 * k + 5)) (a (8 * k + 6)) (a (8 * k + 7)) ⟨i, hi⟩
  have e : (affByte a k).toNat >>> i % 2 = _ := h
  rw [e]
  interval_cases i <;> rfl

theorem foldl_count (a : Affinity) (l : List Nat) (n : Nat) :
    l.foldl (fun np bit => np + ((affByte a (bit / 8)).toNat >>> (bit % 8)) % 2) n =
      n + (l.filter a).length := by
  induction l generalizing n with
  | nil => rfl
  | cons x l ih =>
    simp only [List.foldl_cons]
    rw [ih, affByte_bit _ _ _ (Nat.mod_lt _ (by omega)), Nat.div_add_mod]
    cases h : a x <;> simp [h]
    omega

theorem cpuNumProcessors_eq (a : Affinity) : cpuNumProcessors a = cpusBelow a 128 := by
  unfold cpuNumProcessors cpusBelow
  rw [foldl_count]; omega

theorem cpusBelow_pos {a : Affinity} {n c : Nat} (hc : c < n) (h : a c = true) : 0 < cpusBelow a n := by
  unfold cpusBelow
  exact List.length_pos_of_mem (List.mem_filter.2 ⟨List.mem_range.2 hc, h⟩)

/-- C27 (part): for every requested number of threads, if it is positive or the process may run on one of the
first 128 processors, opening succeeds with between 1 and 8 worker threads: the requested number, or the
number of those processors, but at most 8.  There is one task more than threads, each in the block allocated,
and all tasks apart from each other.  Missing: processors from number 128 on are not counted. -/
theorem C27_open_partial (p : OpenParam) (a : Affinity)
    (h : 0 < p.threads ∨ ∃ c, c < 128 ∧ a c = true) :
    ∃ c, decoderOpen (some p) a = .opened c ∧
      c.totalThreads = min 8 (if 0 < p.threads then p.threads else (cpusBelow a 128 : Int)) ∧
      1 ≤ c.totalThreads ∧ c.totalThreads ≤ 8 ∧ c.aecThreads = c.totalThreads ∧ c.recThreads = 0 ∧
      c.decoders = c.totalThreads + 1 ∧ c.packets = 64 + c.totalThreads ∧
      ∀ base szMgr szTask, ∀ i : Nat, (i : Int) < c.decoders →
        base + szMgr ≤ mgrTaskAddr base szMgr szTask i ∧
        mgrTaskAddr base szMgr szTask i + szTask ≤ base + mgrBlockSize szMgr szTask ∧
        mgrTaskAddr base szMgr szTask i + szTask = mgrTaskAddr base szMgr szTask (i + 1) := by
  have ht : 0 < (if p.threads ≤ 0 then (cpuNumProcessors a : Int) else p.threads) := by
    rw [cpuNumProcessors_eq]
    split
    · rcases h with h | ⟨c, h1, h2⟩
      · omega
      · have := cpusBelow_pos h1 h2; omega
    · omega
  have he : (if 0 < p.threads then p.threads else (cpusBelow a 128 : Int)) =
      (if p.threads ≤ 0 then (cpuNumProcessors a : Int) else p.threads) := by
    rw [cpuNumProcessors_eq]; split <;> split <;> omega
  rw [he]
  unfold decoderOpen
  simp only []
  generalize (if p.threads ≤ 0 then (cpuNumProcessors a : Int) else p.threads) = t at ht
  have hm : (if t > 8 then (8 : Int) else t) = min 8 t := by omega
  rw [hm]
  have h1 : 1 ≤ min 8 t := by omega
  have h8 : min 8 t ≤ 8 := by omega
  generalize min 8 t = u at *
  rw [if_neg (by omega)]
  refine ⟨_, rfl, rfl, h1, h8, rfl, rfl, rfl, rfl, ?_⟩
  intro base szMgr szTask i hi
  have hi' : i < 9 := by
    have : (i : Int) < u + 1 := hi
    omega
  unfold mgrTaskAddr mgrBlockSize
  have hm : i * szTask + szTask ≤ 16 * szTask := by
    rw [← Nat.succ_mul]; exact Nat.mul_le_mul_right _ (by omega)
  refine ⟨by omega, ?_, ?_⟩
  · omega
  · rw [Nat.add_mul]; omega

example : ∃ c, decoderOpen (some ⟨-3, 0⟩) (fun c => c == 5 || c == 77) = .opened c ∧ c.totalThreads = 2 ∧
    c.decoders = 3 := ⟨⟨2, 2, 0, 3, 66⟩, by decide +kernel⟩

/-- C27 fails for a process bound to processors from number 128 on: with automatic thread count opening
fails, however many processors it may use. -/
theorem C27_high_cpus_violated (p : OpenParam) (hp : p.threads ≤ 0) (a : Affinity)
    (h : ∀ c, c < 128 → a c = false) : decoderOpen (some p) a = .failed := by
  have h0 : cpusBelow a 128 = 0 := by
    unfold cpusBelow
    rw [List.length_eq_zero_iff, List.filter_eq_nil_iff]
    intro c hc; simp [h c (List.mem_range.1 hc)]
  unfold decoderOpen
  simp [hp, cpuNumProcessors_eq, h0]

example : decoderOpen (some ⟨0, 0⟩) (fun c => decide (128 ≤ c ∧ c < 192)) = .failed :=
  C27_high_cpus_violated _ (by decide) _ (fun c hc => by simp; omega)

/-- Opening without parameters is checked for too late. -/
theorem C27_null_param_violated (a : Affinity) : decoderOpen none a = .crash := rfl

end Davs2
