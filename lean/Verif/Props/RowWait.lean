import Verif.Model.RowWait
import Verif.Model.Mc
import Verif.Lemmas.LoopPicture
import Mathlib.Algebra.BigOperators.Group.Finset.Basic
import Mathlib.Algebra.Order.BigOperators.Group.Finset
/-
C52: prediction never uses rows of a reference picture that are not finished, and waiting for a row ends.
-/
namespace Davs2.Rw

/-! ### Shape of the programs -/

/-- The part of a row after its waits. -/
def Tail (k : Nat) (t : List Act) : Prop := t = [] ∨ t = [.recon k] ∨ t = .recon k :: signal k ∨ t = signal k

structure Shape (n : Nat) (l : List Act) where
  R : List Act
  m : Nat
  W : Nat → List Act
  T : Nat → List Act
  eq : l = R ++ (List.range m).flatMap (fun k => W k ++ T k)
  hR : R = [] ∨ R = [.reset]
  hm : m ≤ n
  hW : ∀ k, k < m → ∀ x ∈ W k, ∃ q l, x = .wait q l ∧ l < n
  hT : ∀ k, Tail k (T k)

theorem clipRow_lt {n : Nat} (h : 0 < n) (l : Int) : clipRow n l < n := by unfold clipRow; omega

def shape (n : Nat) (p : Pic) : Shape n (program n p) := by
  unfold program
  by_cases hs : p.slices
  · rw [if_pos hs]
    refine ⟨[.reset], n, fun j => (p.waits j).map (fun r => Act.wait r.1 (clipRow n r.2)),
      fun j => if p.fails j then [] else Act.recon j :: if p.refd then signal j else [], rfl, Or.inr rfl, Nat.le_refl _, ?_, ?_⟩
    · intro k hk x hx
      obtain ⟨r, -, rfl⟩ := List.mem_map.1 hx
      exact ⟨_, _, rfl, clipRow_lt (by omega) _⟩
    · intro k
      unfold Tail
      split
      · simp
      · split <;> simp
  · rw [if_neg hs]
    by_cases hr : p.refd
    · rw [if_pos hr]
      exact ⟨[], n, fun _ => [], signal, by simp, Or.inl rfl, Nat.le_refl _, by simp, fun k => by simp [Tail]⟩
    · rw [if_neg hr]
      exact ⟨[], 0, fun _ => [], signal, by simp, Or.inl rfl, Nat.zero_le _, by simp, fun k => by simp [Tail]⟩

theorem flatMap_at (f : Nat → List Act) : ∀ (m : Nat) (pre : List Act) (x : Act) (r : List Act), (List.range m).flatMap f = pre ++ x :: r →
    ∃ k, k < m ∧ ∃ a b, pre = (List.range k).flatMap f ++ a ∧ f k = a ++ x :: b
  | 0, pre, x, r, h => by simp at h
  | m + 1, pre, x, r, h => by
    rw [List.range_succ, List.flatMap_append] at h
    simp only [List.flatMap_cons, List.flatMap_nil, List.append_nil] at h
    rcases List.append_eq_append_iff.1 h with ⟨a', h1, h2⟩ | ⟨c', h1, h2⟩
    · exact ⟨m, by omega, a', r, h1, h2⟩
    · cases c' with
      | nil => exact ⟨m, by omega, [], r, by simpa using h1.symm, by simpa using h2.symm⟩
      | cons y c' =>
        simp only [List.cons_append, List.cons.injEq] at h2
        obtain ⟨rfl, -⟩ := h2
        obtain ⟨k, hk, a, b, e1, e2⟩ := flatMap_at f m pre x c' h1
        exact ⟨k, by omega, a, b, e1, e2⟩

theorem skip_waits : ∀ (W T a b : List Act) (x : Act), x ∉ W → W ++ T = a ++ x :: b → ∃ a', a = W ++ a' ∧ T = a' ++ x :: b
  | [], T, a, b, x, _, h => ⟨a, rfl, h⟩
  | w :: W, T, a, b, x, hx, h => by
    cases a with
    | nil =>
      simp only [List.cons_append, List.nil_append, List.cons.injEq] at h
      exact absurd h.1 (fun e => hx (by simp [e]))
    | cons y a =>
      simp only [List.cons_append, List.cons.injEq] at h
      obtain ⟨a', rfl, e⟩ := skip_waits W T a b x (fun hm => hx (List.mem_cons_of_mem _ hm)) h.2
      exact ⟨a', by rw [h.1]; rfl, e⟩

section
variable {n : Nat} {l pre r : List Act} (s : Shape n l)
include s

/-- Position of an action. -/
theorem Shape.at (x : Act) (h : l = pre ++ x :: r) :
    (x = .reset ∧ pre = []) ∨ ∃ k, k < s.m ∧ ∃ a b, pre = s.R ++ (List.range k).flatMap (fun k => s.W k ++ s.T k) ++ a ∧ s.W k ++ s.T k = a ++ x :: b := by
  have e := h.symm.trans s.eq
  rcases s.hR with hR | hR
  · rw [hR, List.nil_append] at e
    obtain ⟨k, hk, a, b, e1, e2⟩ := flatMap_at _ _ _ _ _ e.symm
    exact Or.inr ⟨k, hk, a, b, by rw [hR, List.nil_append]; exact e1, e2⟩
  · rw [hR] at e
    cases pre with
    | nil =>
      simp only [List.nil_append, List.cons_append, List.cons.injEq] at e
      exact Or.inl ⟨e.1, rfl⟩
    | cons y pre =>
      simp only [List.nil_append, List.cons_append, List.cons.injEq] at e
      obtain ⟨k, hk, a, b, e1, e2⟩ := flatMap_at _ _ _ _ _ e.2.symm
      refine Or.inr ⟨k, hk, a, b, ?_, e2⟩
      rw [hR, e1, e.1]
      simp

theorem Shape.not_wait {k : Nat} (hk : k < s.m) {x : Act} (hx : ∀ q l, x ≠ .wait q l) : x ∉ s.W k := by
  intro h
  obtain ⟨q, l, e, -⟩ := s.hW k hk x h
  exact hx q l e

theorem Shape.at_tail (x : Act) (h : l = pre ++ x :: r) (hx : ∀ q l, x ≠ .wait q l) (hr : x ≠ .reset) :
    ∃ k, k < s.m ∧ ∃ a b, pre = s.R ++ (List.range k).flatMap (fun k => s.W k ++ s.T k) ++ (s.W k ++ a) ∧ s.T k = a ++ x :: b := by
  rcases s.at x h with ⟨e, -⟩ | ⟨k, hk, a, b, e1, e2⟩
  · exact absurd e hr
  · obtain ⟨a', e3, e4⟩ := skip_waits _ _ _ _ _ (s.not_wait hk hx) e2
    exact ⟨k, hk, a', b, by rw [e1, e3], e4⟩

theorem Shape.mem_tail {k : Nat} (x : Act) (hx : x ∈ s.T k) : x = .recon k ∨ x = .own k ∨ x = .mark k ∨ x = .wake k := by
  rcases s.hT k with h | h | h | h <;> rw [h] at hx <;> simp [signal] at hx <;> tauto

/-- Rows before row `k` do not contain the actions of row `k`. -/
theorem Shape.mark_row {j k : Nat} (hk : k ≤ s.m) (h : Act.mark j ∈ (List.range k).flatMap (fun k => s.W k ++ s.T k)) : j < k := by
  obtain ⟨i, hi, hm⟩ := List.mem_flatMap.1 h
  have hi := List.mem_range.1 hi
  rcases List.mem_append.1 hm with hm | hm
  · exact absurd hm (s.not_wait (by omega) (by simp))
  · have := s.mem_tail _ hm
    simp at this
    omega

theorem Shape.at_mark {j : Nat} (h : l = pre ++ .mark j :: r) : Act.own j ∈ pre ∧ j < n ∧ Act.mark j ∉ pre ∧
    (s.R = [.reset] → s.T j = .recon j :: signal j → Act.recon j ∈ pre) := by
  obtain ⟨k, hk, a, b, e1, e2⟩ := s.at_tail _ h (by simp) (by simp)
  have hj := s.mem_tail (.mark j) (by rw [e2]; simp)
  have hj : j = k := by simpa using hj
  subst hj
  have hm := s.hm
  have key : a = [.recon j, .own j] ∨ a = [.own j] := by
    rcases s.hT j with h | h | h | h <;> rw [h] at e2
    · simp at e2
    · rcases a with _ | ⟨x, _ | ⟨y, a⟩⟩ <;> simp at e2
    · rcases a with _ | ⟨x, _ | ⟨y, _ | ⟨z, _ | ⟨u, a⟩⟩⟩⟩ <;> simp [signal] at e2
      left; simp [e2]
    · rcases a with _ | ⟨x, _ | ⟨y, _ | ⟨z, a⟩⟩⟩ <;> simp [signal] at e2
      right; simp [e2]
  refine ⟨?_, by omega, ?_, ?_⟩
  · rw [e1]; rcases key with h | h <;> simp [h]
  · rw [e1]
    intro hc
    rw [List.mem_append, List.mem_append, List.mem_append] at hc
    rcases hc with (hc | hc) | hc | hc
    · rcases s.hR with h | h <;> rw [h] at hc <;> simp at hc
    · exact absurd (s.mark_row (by omega) hc) (by omega)
    · exact absurd hc (s.not_wait hk (by simp))
    · rcases key with h | h <;> rw [h] at hc <;> simp at hc
  · intro _ hT
    rw [hT] at e2
    rcases key with h | h
    · rw [e1]; simp [h]
    · rw [h] at e2; simp [signal] at e2

theorem Shape.at_wake {j : Nat} (h : l = pre ++ .wake j :: r) : Act.mark j ∈ pre := by
  obtain ⟨k, hk, a, b, e1, e2⟩ := s.at_tail _ h (by simp) (by simp)
  have hj := s.mem_tail (.wake j) (by rw [e2]; simp)
  have hj : j = k := by simpa using hj
  subst hj
  have key : Act.mark j ∈ a := by
    rcases s.hT j with h | h | h | h <;> rw [h] at e2
    · simp at e2
    · rcases a with _ | ⟨x, _ | ⟨y, a⟩⟩ <;> simp at e2
    · rcases a with _ | ⟨x, _ | ⟨y, _ | ⟨z, _ | ⟨u, a⟩⟩⟩⟩ <;> simp [signal] at e2
      simp [e2]
    · rcases a with _ | ⟨x, _ | ⟨y, _ | ⟨z, a⟩⟩⟩ <;> simp [signal] at e2
      simp [e2]
  rw [e1]
  simp [key]

theorem Shape.at_reset (h : l = pre ++ .reset :: r) : pre = [] := by
  rcases s.at _ h with ⟨-, e⟩ | ⟨k, hk, a, b, e1, e2⟩
  · exact e
  · obtain ⟨a', e3, e4⟩ := skip_waits _ _ _ _ _ (s.not_wait hk (by simp)) e2
    have := s.mem_tail .reset (by rw [e4]; simp)
    simp at this

theorem Shape.at_wait {q j : Nat} (h : l = pre ++ .wait q j :: r) : j < n := by
  rcases s.at _ h with ⟨e, -⟩ | ⟨k, hk, a, b, e1, e2⟩
  · simp at e
  · have : Act.wait q j ∈ s.W k ++ s.T k := by rw [e2]; simp
    rcases List.mem_append.1 this with hm | hm
    · obtain ⟨q', l', e, h⟩ := s.hW k hk _ hm
      simp at e
      omega
    · have := s.mem_tail _ hm
      simp at this

theorem Shape.at_own {j : Nat} (h : l = pre ++ .own (j + 1) :: r) : j + 1 < s.m ∧
    ∀ x ∈ s.T j, x ∈ pre := by
  obtain ⟨k, hk, a, b, e1, e2⟩ := s.at_tail _ h (by simp) (by simp)
  have hj := s.mem_tail (.own (j + 1)) (by rw [e2]; simp)
  have hj : j + 1 = k := by simpa using hj
  subst hj
  refine ⟨hk, fun x hx => ?_⟩
  rw [e1]
  apply List.mem_append_left
  apply List.mem_append_right
  exact List.mem_flatMap.2 ⟨j, List.mem_range.2 (by omega), List.mem_append_right _ hx⟩

end

/-! ### Invariant -/

section
variable {c : Cfg}

theorem Cfg.shape' (c : Cfg) (p : Nat) : Nonempty (Shape c.n (c.prog p)) := by
  unfold Cfg.prog
  split
  · exact ⟨shape _ _⟩
  · exact ⟨⟨[], 0, fun _ => [], signal, by simp, Or.inl rfl, Nat.zero_le _, by simp, fun k => by simp [Tail]⟩⟩

/-- What holds in every reachable state; `pre` are the actions already done. -/
structure Inv (c : Cfg) (s : St) (pre : Nat → List Act) : Prop where
  split : ∀ p, c.prog p = pre p ++ s.rest p
  cnt : ∀ p, ∃ k : Nat, s.line p = (k : Int) - 1 ∧ ∀ j, Act.mark j ∈ pre p ↔ j < k
  num : ∀ p j, j < c.n → ((c.w : Int) + 1 ≤ s.num p j ↔ Act.mark j ∈ pre p)
  own : ∀ p j, Act.own (j + 1) ∈ pre p → Act.mark j ∈ pre p
  wait : ∀ p q l, Act.wait q l ∈ pre p → Act.mark l ∈ pre q
  recon : ∀ p j, Act.recon j ∈ pre p → s.recon p j = true
  slp : ∀ p q l, s.asleep p = some (q, l) → Act.wake l ∉ pre q

/-- The counters of frames that are taken again do not look like those of a finished picture. -/
def Cfg.Fresh (c : Cfg) : Prop := ∀ p j, c.stale p j ≤ c.w

theorem inv_init (hf : c.Fresh) : Inv c c.init (fun _ => []) where
  split _ := rfl
  cnt _ := ⟨0, rfl, by simp⟩
  num p j _ := by
    have := hf p j
    have e : c.init.num p j = c.stale p j := rfl
    rw [e]
    simp
    omega
  own := by simp
  wait := by simp
  recon := by simp
  slp := by simp

/-- One more action done. -/
def adv (pre : Nat → List Act) (p : Nat) (a : Act) : Nat → List Act := upd pre p (pre p ++ [a])

theorem mem_adv {pre : Nat → List Act} {p : Nat} {a x : Act} {q : Nat} : x ∈ adv pre p a q ↔ x ∈ pre q ∨ q = p ∧ x = a := by
  unfold adv upd
  split
  · rename_i h; subst h; simp
  · simp [*]

theorem adv_split {s : St} {pre : Nat → List Act} (h : ∀ p, c.prog p = pre p ++ s.rest p) {p : Nat} {a : Act} {r : List Act} (hr : s.rest p = a :: r) :
    ∀ q, c.prog q = adv pre p a q ++ upd s.rest p r q := by
  intro q
  unfold adv upd
  split
  · rename_i e; subst e; rw [h q, hr]; simp
  · exact h q

theorem mark_of_line {s : St} {pre : Nat → List Act} (h : Inv c s pre) {q l : Nat} (hl : (l : Int) ≤ s.line q) : Act.mark l ∈ pre q := by
  obtain ⟨k, e, hk⟩ := h.cnt q
  rw [hk]
  omega

theorem line_keep {s : St} {pre : Nat → List Act} (h : ∀ p, ∃ k : Nat, s.line p = (k : Int) - 1 ∧ ∀ j, Act.mark j ∈ pre p ↔ j < k) {p : Nat} {a : Act} (ha : ∀ j, a ≠ .mark j) :
    ∀ q, ∃ k : Nat, s.line q = (k : Int) - 1 ∧ ∀ j, Act.mark j ∈ adv pre p a q ↔ j < k := by
  intro q
  obtain ⟨k, e, hk⟩ := h q
  refine ⟨k, e, fun j => ?_⟩
  rw [mem_adv, ← hk]
  have := ha j
  constructor
  · rintro (h | ⟨-, h⟩)
    · exact h
    · exact absurd h.symm this
  · exact Or.inl

theorem inv_step {s s' : St} {pre : Nat → List Act} (h : Inv c s pre) (st : Step c s s') : ∃ pre', Inv c s' pre' := by
  cases st with
  | start _ _ => exact ⟨pre, ⟨h.split, h.cnt, h.num, h.own, h.wait, h.recon, h.slp⟩⟩
  | act p a r hp ha hr =>
    obtain ⟨sh⟩ := c.shape' p
    have hs := h.split p
    rw [hr] at hs
    have hs' := adv_split h.split hr
    cases a with
    | reset =>
      have e0 := sh.at_reset hs
      refine ⟨adv pre p .reset, ⟨hs', line_keep h.cnt (by simp), ?_, ?_, ?_, ?_, ?_⟩⟩
      · intro q j hj
        simp only [mem_adv, reduceCtorEq, and_false, or_false]
        by_cases e : q = p
        · subst e
          simp only [Cfg.exec, upd, if_true, hj, e0]
          simp
        · simp only [Cfg.exec, upd, if_neg e]
          exact h.num q j hj
      · intro q j
        simp only [mem_adv, reduceCtorEq, and_false, or_false]
        exact h.own q j
      · intro q q' l
        simp only [mem_adv, reduceCtorEq, and_false, or_false]
        exact h.wait q q' l
      · intro q j
        simp only [mem_adv, reduceCtorEq, and_false, or_false]
        exact h.recon q j
      · intro q q' l
        simp only [mem_adv, reduceCtorEq, and_false, or_false]
        exact h.slp q q' l
    | wait q l =>
      have hl := sh.at_wait hs
      unfold Cfg.exec
      by_cases hb : c.blocked s q l
      · simp only [hb, if_true]
        refine ⟨pre, ⟨h.split, h.cnt, h.num, h.own, h.wait, h.recon, ?_⟩⟩
        intro p' q' l' he
        simp only [upd] at he
        split at he
        · simp only [Option.some.injEq, Prod.mk.injEq] at he
          obtain ⟨rfl, rfl⟩ := he
          simp only [Cfg.blocked, Bool.and_eq_true, decide_eq_true_eq] at hb
          intro hw
          obtain ⟨sh'⟩ := c.shape' q
          obtain ⟨u, v, e⟩ := List.append_of_mem hw
          have hq := h.split q
          rw [e, List.append_assoc, List.cons_append] at hq
          have hm := sh'.at_wake hq
          have := (h.num q l hl).2 (by rw [e]; exact List.mem_append_left _ hm)
          omega
        · exact h.slp p' q' l' he
      · simp only [hb]
        refine ⟨adv pre p (.wait q l), ⟨hs', line_keep h.cnt (by simp), ?_, ?_, ?_, ?_, ?_⟩⟩
        · intro q j hj
          simp only [mem_adv, reduceCtorEq, and_false, or_false]
          exact h.num q j hj
        · intro q j
          simp only [mem_adv, reduceCtorEq, and_false, or_false]
          exact h.own q j
        · intro p' q' l'
          simp only [mem_adv, reduceCtorEq, and_false, or_false, Act.wait.injEq]
          rintro (hm | ⟨-, rfl, rfl⟩)
          · exact h.wait p' q' l' hm
          · simp only [Cfg.blocked, Bool.and_eq_true, decide_eq_true_eq, not_and] at hb
            by_cases c1 : (l' : Int) ≤ s.line q'
            · exact mark_of_line h c1
            · exact (h.num q' l' hl).1 (by have := hb (by omega); omega)
        · intro q j
          simp only [mem_adv, reduceCtorEq, and_false, or_false]
          exact h.recon q j
        · intro q q' l
          simp only [mem_adv, reduceCtorEq, and_false, or_false]
          exact h.slp q q' l
    | recon j0 =>
      refine ⟨adv pre p (.recon j0), ⟨hs', line_keep h.cnt (by simp), ?_, ?_, ?_, ?_, ?_⟩⟩
      · intro q j hj
        simp only [mem_adv, reduceCtorEq, and_false, or_false]
        exact h.num q j hj
      · intro q j
        simp only [mem_adv, reduceCtorEq, and_false, or_false]
        exact h.own q j
      · intro q q' l
        simp only [mem_adv, reduceCtorEq, and_false, or_false]
        exact h.wait q q' l
      · intro q j
        simp only [mem_adv, Act.recon.injEq]
        simp only [Cfg.exec, upd]
        rintro (hm | ⟨rfl, rfl⟩)
        · have := h.recon q j hm
          by_cases e : q = p
          · subst e
            rw [if_pos rfl]
            unfold upd
            split
            · rfl
            · exact this
          · rw [if_neg e]; exact this
        · simp [upd]
      · intro q q' l
        simp only [mem_adv, reduceCtorEq, and_false, or_false]
        exact h.slp q q' l
    | own j0 =>
      unfold Cfg.exec
      by_cases hb : j0 > 0 ∧ s.num p (j0 - 1) < c.w + 1
      · simp only [hb, and_self, if_true]
        refine ⟨pre, ⟨h.split, h.cnt, h.num, h.own, h.wait, h.recon, ?_⟩⟩
        intro p' q' l' he
        simp only [upd] at he
        split at he
        · simp only [Option.some.injEq, Prod.mk.injEq] at he
          obtain ⟨rfl, rfl⟩ := he
          intro hw
          obtain ⟨u, v, e⟩ := List.append_of_mem hw
          have hq := h.split p
          rw [e, List.append_assoc, List.cons_append] at hq
          have hm := sh.at_wake hq
          obtain ⟨j, rfl⟩ : ∃ j, j0 = j + 1 := ⟨j0 - 1, by omega⟩
          have hj := (sh.at_own hs).1
          have := sh.hm
          have := (h.num p (j + 1 - 1) (by omega)).2 (by rw [e]; exact List.mem_append_left _ hm)
          omega
        · exact h.slp p' q' l' he
      · simp only [hb, if_false]
        refine ⟨adv pre p (.own j0), ⟨hs', line_keep h.cnt (by simp), ?_, ?_, ?_, ?_, ?_⟩⟩
        · intro q j hj
          simp only [mem_adv, reduceCtorEq, and_false, or_false]
          exact h.num q j hj
        · intro q j
          simp only [mem_adv, reduceCtorEq, and_false, or_false, Act.own.injEq]
          rintro (hm | ⟨rfl, rfl⟩)
          · exact h.own q j hm
          · have hj := (sh.at_own hs).1
            have := sh.hm
            refine (h.num q j (by omega)).1 ?_
            have : ¬ s.num q j < c.w + 1 := fun hc => hb ⟨by omega, by simpa using hc⟩
            omega
        · intro q q' l
          simp only [mem_adv, reduceCtorEq, and_false, or_false]
          exact h.wait q q' l
        · intro q j
          simp only [mem_adv, reduceCtorEq, and_false, or_false]
          exact h.recon q j
        · intro q q' l
          simp only [mem_adv, reduceCtorEq, and_false, or_false]
          exact h.slp q q' l
    | mark j0 =>
      obtain ⟨m1, m2, m3, -⟩ := sh.at_mark hs
      have hk0 : ∀ k : Nat, (∀ j, Act.mark j ∈ pre p ↔ j < k) → j0 = k := by
        intro k hk
        have h1 : ¬ j0 < k := fun hc => m3 ((hk j0).2 hc)
        cases j0 with
        | zero => omega
        | succ j =>
          have := (hk j).1 (h.own p j m1)
          omega
      refine ⟨adv pre p (.mark j0), ⟨hs', ?_, ?_, ?_, ?_, ?_, ?_⟩⟩
      · intro q
        obtain ⟨k, e, hk⟩ := h.cnt q
        simp only [mem_adv, Act.mark.injEq, Cfg.exec, upd]
        by_cases eq : q = p
        · subst eq
          have := hk0 k hk
          subst this
          refine ⟨j0 + 1, ?_, fun j => ?_⟩
          · simp only [if_true, e]
            omega
          · rw [hk]
            simp only [true_and]
            omega
        · refine ⟨k, by rw [if_neg eq]; exact e, fun j => ?_⟩
          rw [hk]
          simp [eq]
      · intro q j hj
        simp only [mem_adv, Act.mark.injEq, Cfg.exec, upd]
        by_cases eq : q = p
        · subst eq
          simp only [if_true, true_and]
          by_cases ej : j = j0
          · subst ej
            have : upd (s.num q) j ((c.w : Int) + 3) j = c.w + 3 := if_pos rfl
            rw [this]
            simp
          · have : upd (s.num q) j0 ((c.w : Int) + 3) j = s.num q j := if_neg ej
            rw [this, h.num q j hj]
            simp [ej]
        · rw [if_neg eq, h.num q j hj]
          simp [eq]
      · intro q j
        simp only [mem_adv, reduceCtorEq, and_false, or_false]
        exact fun hm => Or.inl (h.own q j hm)
      · intro q q' l
        simp only [mem_adv, reduceCtorEq, and_false, or_false]
        exact fun hm => Or.inl (h.wait q q' l hm)
      · intro q j
        simp only [mem_adv, reduceCtorEq, and_false, or_false]
        exact h.recon q j
      · intro q q' l
        simp only [mem_adv, reduceCtorEq, and_false, or_false]
        exact h.slp q q' l
    | wake j0 =>
      refine ⟨adv pre p (.wake j0), ⟨hs', line_keep h.cnt (by simp), ?_, ?_, ?_, ?_, ?_⟩⟩
      · intro q j hj
        simp only [mem_adv, reduceCtorEq, and_false, or_false]
        exact h.num q j hj
      · intro q j
        simp only [mem_adv, reduceCtorEq, and_false, or_false]
        exact h.own q j
      · intro q q' l
        simp only [mem_adv, reduceCtorEq, and_false, or_false]
        exact h.wait q q' l
      · intro q j
        simp only [mem_adv, reduceCtorEq, and_false, or_false]
        exact h.recon q j
      · intro q q' l he
        simp only [Cfg.exec] at he
        split at he
        · simp at he
        · rename_i hne
          rw [mem_adv]
          rintro (hm | ⟨rfl, e⟩)
          · exact h.slp q q' l he hm
          · simp only [Act.wake.injEq] at e
            subst e
            exact hne he

theorem inv_reach (hf : c.Fresh) {s : St} (h : Reach c s) : ∃ pre, Inv c s pre := by
  induction h with
  | init => exact ⟨_, inv_init hf⟩
  | step _ st ih =>
    obtain ⟨pre, hi⟩ := ih
    exact inv_step hi st

/-! ### Safety -/

/-- The shape of a picture with slices. -/
def sliceShape (n : Nat) (p : Pic) (hs : p.slices = true) : Shape n (program n p) where
  R := [.reset]
  m := n
  W j := (p.waits j).map (fun r => Act.wait r.1 (clipRow n r.2))
  T j := if p.fails j then [] else Act.recon j :: if p.refd then signal j else []
  eq := by unfold program; rw [if_pos hs]; rfl
  hR := Or.inr rfl
  hm := Nat.le_refl _
  hW := by
    intro k hk x hx
    obtain ⟨r, -, rfl⟩ := List.mem_map.1 hx
    exact ⟨_, _, rfl, clipRow_lt (by omega) _⟩
  hT := by
    intro k
    unfold Tail
    split
    · simp
    · split <;> simp

theorem mark_recon {n : Nat} {x : Pic} (hs : x.slices = true) {pre r : List Act} {j : Nat} (h : program n x = pre ++ .mark j :: r) : Act.recon j ∈ pre := by
  refine ((sliceShape n x hs).at_mark h).2.2.2 rfl ?_
  obtain ⟨k, -, a, b, -, e⟩ := (sliceShape n x hs).at_tail _ h (by simp) (by simp)
  have hm : Act.mark j ∈ (sliceShape n x hs).T k := by rw [e]; simp
  have hj := (sliceShape n x hs).mem_tail _ hm
  have hj : j = k := by simpa using hj
  subst hj
  dsimp only [sliceShape] at hm ⊢
  by_cases hf : x.fails j
  · simp [hf] at hm
  · by_cases hr : x.refd
    · simp [hf, hr]
    · simp [hf, hr] at hm

/-- **C52** (safety).  In every state that the threads can reach, in whatever order they run: once the decoding of picture `p` has passed a
wait for row `l` of picture `q`, all rows of `q` up to `l` have been reconstructed, filtered and padded.
What is missing: the counters of the frame must not be left over from an earlier picture (see `C52_stale_violated`), and `q` must have a slice. -/
theorem C52_safe_partial (hf : c.Fresh) {s : St} (h : Reach c s) {p q l : Nat} {done : List Act} (hp : c.prog p = done ++ s.rest p)
    (hw : Act.wait q l ∈ done) {x : Pic} (hx : c.pics[q]? = some x) (hs : x.slices = true) : ∀ j, j ≤ l → s.recon q j = true := by
  obtain ⟨pre, hi⟩ := inv_reach hf h
  have e : done = pre p := List.append_cancel_right (hp.symm.trans (hi.split p))
  have hm := hi.wait p q l (e ▸ hw)
  obtain ⟨k, -, hk⟩ := hi.cnt q
  have hlk := (hk l).1 hm
  intro j hj
  have hmj := (hk j).2 (by omega)
  obtain ⟨u, v, e⟩ := List.append_of_mem hmj
  have hq := hi.split q
  have hpq : c.prog q = program c.n x := by unfold Cfg.prog; rw [hx]
  rw [e, List.append_assoc, List.cons_append, hpq] at hq
  refine hi.recon q j ?_
  rw [e]
  exact List.mem_append_left _ (mark_recon hs hq)

/-! ### Progress -/

/-- A sleeping thread is about to test its condition again. -/
def Head (s : St) : Prop := ∀ p q l, s.asleep p = some (q, l) → ∃ r, s.rest p = .wait q l :: r ∨ (q = p ∧ s.rest p = .own (l + 1) :: r)

theorem head_rest {s : St} (h : Head s) {p : Nat} (ha : s.asleep p = none) (v : List Act) (p' q l : Nat) (he : s.asleep p' = some (q, l)) :
    ∃ r, upd s.rest p v p' = .wait q l :: r ∨ (q = p' ∧ upd s.rest p v p' = .own (l + 1) :: r) := by
  have hne : p' ≠ p := by rintro rfl; rw [ha] at he; simp at he
  have : upd s.rest p v p' = s.rest p' := if_neg hne
  rw [this]
  exact h p' q l he

theorem head_step {s s' : St} (h : Head s) (st : Step c s s') : Head s' := by
  cases st with
  | start _ _ => exact h
  | act p a r hp ha hr =>
    cases a with
    | wait q l =>
      unfold Cfg.exec
      by_cases hb : c.blocked s q l
      · simp only [hb, if_true]
        intro p' q' l' he
        simp only [upd] at he
        split at he
        · rename_i e
          subst e
          simp only [Option.some.injEq, Prod.mk.injEq] at he
          obtain ⟨rfl, rfl⟩ := he
          exact ⟨r, Or.inl hr⟩
        · exact h p' q' l' he
      · simp only [hb]
        exact head_rest h ha r
    | own j0 =>
      unfold Cfg.exec
      by_cases hb : j0 > 0 ∧ s.num p (j0 - 1) < c.w + 1
      · simp only [hb, and_self, if_true]
        intro p' q' l' he
        simp only [upd] at he
        split at he
        · rename_i e
          subst e
          simp only [Option.some.injEq, Prod.mk.injEq] at he
          obtain ⟨rfl, rfl⟩ := he
          refine ⟨r, Or.inr ⟨rfl, ?_⟩⟩
          have : j0 - 1 + 1 = j0 := by omega
          simp only [this]
          exact hr
        · exact h p' q' l' he
      · simp only [hb, if_false]
        exact head_rest h ha r
    | reset => exact head_rest h ha r
    | recon j => exact head_rest h ha r
    | mark j => exact head_rest h ha r
    | wake j =>
      intro p' q l he
      simp only [Cfg.exec] at he
      split at he
      · simp at he
      · exact head_rest h ha r p' q l he

theorem head_reach {s : St} (h : Reach c s) : Head s := by
  induction h with
  | init => intro p q l he; simp [Cfg.init] at he
  | step _ st ih => exact head_step ih st

theorem started_le {s : St} (h : Reach c s) : s.started ≤ c.pics.length := by
  induction h with
  | init => exact Nat.zero_le _
  | step _ st ih =>
    cases st with
    | start h _ => exact h
    | act p a r hp ha hr =>
      cases a with
      | wait q l => unfold Cfg.exec; dsimp only; split <;> exact ih
      | own j => unfold Cfg.exec; dsimp only; split <;> exact ih
      | _ => exact ih

/-- What the pictures have to satisfy: there is a thread, no row of a picture that is referenced is given up, and pictures only wait for
pictures that come earlier and are referenced.  header.cc:1295-1315 refuses other references. -/
structure Cfg.Ordered (c : Cfg) : Prop where
  threads : 0 < c.threads
  whole : ∀ x ∈ c.pics, x.refd = true → ∀ j, j < c.n → x.fails j = false
  refs : ∀ (p : Nat) (x : Pic), c.pics[p]? = some x → ∀ j, j < c.n → ∀ r ∈ x.waits j, r.1 < p ∧ ∃ y, c.pics[r.1]? = some y ∧ y.refd = true

/-- All pictures are decoded. -/
def Cfg.Done (c : Cfg) (s : St) : Prop := s.started = c.pics.length ∧ ∀ p, s.rest p = []

theorem wait_mem {p q l : Nat} (h : Act.wait q l ∈ c.prog p) : ∃ x, c.pics[p]? = some x ∧ ∃ j, j < c.n ∧ ∃ r ∈ x.waits j, r.1 = q ∧ clipRow c.n r.2 = l := by
  unfold Cfg.prog at h
  split at h
  · rename_i x hx
    refine ⟨x, hx, ?_⟩
    unfold program at h
    split at h
    · simp only [List.mem_cons, reduceCtorEq, false_or, List.mem_flatMap, List.mem_range] at h
      obtain ⟨j, hj, hm⟩ := h
      refine ⟨j, hj, ?_⟩
      unfold rowActs at hm
      rcases List.mem_append.1 hm with hm | hm
      · obtain ⟨r, hr, e⟩ := List.mem_map.1 hm
        simp only [Act.wait.injEq] at e
        exact ⟨r, hr, e.1, e.2⟩
      · split at hm
        · simp at hm
        · split at hm <;> simp [signal] at hm
    · split at h
      · simp only [List.mem_flatMap, signal] at h
        simp at h
      · simp at h
  · simp at h

theorem wake_prog {q : Nat} {y : Pic} (hy : c.pics[q]? = some y) (hr : y.refd = true) (hw : ∀ j, j < c.n → y.fails j = false) {l : Nat} (hl : l < c.n) :
    Act.wake l ∈ c.prog q := by
  unfold Cfg.prog
  rw [hy]
  show Act.wake l ∈ program c.n y
  unfold program
  rw [if_pos hr]
  split
  · refine List.mem_cons_of_mem _ (List.mem_flatMap.2 ⟨l, List.mem_range.2 hl, ?_⟩)
    unfold rowActs
    simp [hw l hl, hr, signal]
  · exact List.mem_flatMap.2 ⟨l, List.mem_range.2 hl, by simp [signal]⟩

theorem own_pic {p j : Nat} (h : Act.own j ∈ c.prog p) : ∃ x, c.pics[p]? = some x ∧ x.refd = true := by
  unfold Cfg.prog at h
  split at h
  · rename_i x hx
    refine ⟨x, hx, ?_⟩
    unfold program at h
    split at h
    · simp only [List.mem_cons, reduceCtorEq, false_or, List.mem_flatMap, List.mem_range] at h
      obtain ⟨j, hj, hm⟩ := h
      unfold rowActs at hm
      rcases List.mem_append.1 hm with hm | hm
      · obtain ⟨r, hr, e⟩ := List.mem_map.1 hm
        simp at e
      · split at hm
        · simp at hm
        · by_contra hc
          simp [hc] at hm
    · split at h
      · assumption
      · simp at h
  · simp at h

/-- The wake-up of row `j` precedes row `j + 1`. -/
theorem wake_before {p : Nat} {x : Pic} (hx : c.pics[p]? = some x) (hr : x.refd = true) (hw : ∀ j, j < c.n → x.fails j = false) {pre r : List Act} {j : Nat}
    (h : c.prog p = pre ++ .own (j + 1) :: r) : Act.wake j ∈ pre := by
  have hp : c.prog p = program c.n x := by unfold Cfg.prog; rw [hx]
  rw [hp] at h
  by_cases hs : x.slices = true
  · have := ((sliceShape c.n x hs).at_own h)
    refine this.2 _ ?_
    have hj : j + 1 < c.n := this.1
    dsimp only [sliceShape]
    rw [hw j (by omega), hr]
    simp [signal]
  · let sh : Shape c.n (program c.n x) := ⟨[], c.n, fun _ => [], signal, by unfold program; rw [if_neg hs, if_pos hr]; simp, Or.inl rfl, Nat.le_refl _, by simp, fun k => by simp [Tail]⟩
    exact (sh.at_own h).2 _ (by show _ ∈ signal j; simp [signal])

/-- **C52** (no deadlock).  As long as a picture is not decoded, some thread can go on. -/
theorem C52_progress_partial (hf : c.Fresh) (ho : c.Ordered) {s : St} (h : Reach c s) : c.Done s ∨ ∃ s', Step c s s' := by
  obtain ⟨pre, hi⟩ := inv_reach hf h
  have hhead := head_reach h
  have hle := started_le h
  by_cases hex : ∃ p, p < s.started ∧ s.rest p ≠ []
  · classical
    right
    obtain ⟨hp, hr⟩ := Nat.find_spec hex
    have hmin := fun q => @Nat.find_min _ _ hex q
    generalize Nat.find hex = p at hp hr hmin
    cases ha : s.asleep p with
    | none =>
      cases hr' : s.rest p with
      | nil => exact absurd hr' hr
      | cons a r => exact ⟨_, Step.act s p a r hp ha hr'⟩
    | some v =>
      obtain ⟨q, l⟩ := v
      exfalso
      obtain ⟨r, e | ⟨rfl, e⟩⟩ := hhead p q l ha
      · have hs := hi.split p
        rw [e] at hs
        obtain ⟨sh⟩ := c.shape' p
        have hl := sh.at_wait hs
        obtain ⟨x, hx, j, hj, rr, hrr, e1, -⟩ := wait_mem (c := c) (p := p) (q := q) (l := l) (by rw [hs]; simp)
        obtain ⟨hqp, y, hy, hyr⟩ := ho.refs p x hx j hj rr hrr
        rw [e1] at hqp hy
        have hq : s.rest q = [] := by
          by_contra hc
          exact hmin q hqp ⟨by omega, hc⟩
        have hwk := wake_prog hy hyr (ho.whole y (List.mem_of_getElem? hy) hyr) hl
        rw [hi.split q, hq, List.append_nil] at hwk
        exact hi.slp p q l ha hwk
      · have hs := hi.split q
        rw [e] at hs
        obtain ⟨x, hx, hxr⟩ := own_pic (c := c) (p := q) (j := l + 1) (by rw [hs]; simp)
        exact hi.slp q q l ha (wake_before hx hxr (ho.whole x (List.mem_of_getElem? hx) hxr) hs)
  · have hall : ∀ p, p < s.started → s.rest p = [] := fun p hp => by
      by_contra hc
      exact hex ⟨p, hp, hc⟩
    by_cases hst : s.started < c.pics.length
    · right
      refine ⟨_, Step.start s hst ?_⟩
      have : s.running = 0 := by
        unfold St.running
        rw [List.length_eq_zero_iff, List.filter_eq_nil_iff]
        intro p hp
        rw [hall p (List.mem_range.1 hp)]
        simp
      rw [this]
      exact ho.threads
    · left
      have e : s.started = c.pics.length := by omega
      refine ⟨e, fun p => ?_⟩
      by_cases hp : p < s.started
      · exact hall p hp
      · have := hi.split p
        have hn : c.prog p = [] := by
          unfold Cfg.prog
          rw [List.getElem?_eq_none (by omega)]
        rw [hn] at this
        exact (List.append_eq_nil_iff.1 this.symm).2

/-! ### Termination -/

/-- Bound for the number of steps that remain. -/
def Cfg.measure (c : Cfg) (s : St) : Nat :=
  (∑ p ∈ Finset.range c.pics.length, (s.rest p).length) * (c.pics.length + 1)
    + (∑ p ∈ Finset.range c.pics.length, if s.asleep p = none then 1 else 0) + (c.pics.length - s.started)

theorem awake_le (s : St) : (∑ p ∈ Finset.range c.pics.length, if s.asleep p = none then 1 else 0) ≤ c.pics.length := by
  calc (∑ p ∈ Finset.range c.pics.length, if s.asleep p = none then 1 else 0) ≤ ∑ p ∈ Finset.range c.pics.length, 1 :=
        Finset.sum_le_sum fun p _ => by split <;> omega
    _ = c.pics.length := by simp

theorem rest_sum {s : St} {p : Nat} {a : Act} {r : List Act} (hp : p < c.pics.length) (hr : s.rest p = a :: r) :
    (∑ q ∈ Finset.range c.pics.length, (upd s.rest p r q).length) + 1 = ∑ q ∈ Finset.range c.pics.length, (s.rest q).length := by
  have hm : p ∈ Finset.range c.pics.length := Finset.mem_range.2 hp
  rw [← Finset.add_sum_erase _ _ hm, ← Finset.add_sum_erase (Finset.range c.pics.length) (fun q => (s.rest q).length) hm]
  have e1 : upd s.rest p r p = r := if_pos rfl
  have e2 : ∑ q ∈ (Finset.range c.pics.length).erase p, (upd s.rest p r q).length = ∑ q ∈ (Finset.range c.pics.length).erase p, (s.rest q).length :=
    Finset.sum_congr rfl fun q hq => by
      have : upd s.rest p r q = s.rest q := if_neg (Finset.mem_erase.1 hq).1
      rw [this]
  rw [e1, e2, hr]
  simp only [List.length_cons]
  omega

theorem measure_rest {s s' : St} {p : Nat} {a : Act} {r : List Act} (hp : p < c.pics.length) (hr : s.rest p = a :: r) (h1 : s'.rest = upd s.rest p r)
    (h2 : s'.started = s.started) : c.measure s' < c.measure s := by
  have e := rest_sum (c := c) hp hr
  have ha := awake_le (c := c) s'
  unfold Cfg.measure
  rw [h1, h2, ← e, Nat.add_mul, Nat.one_mul]
  omega

theorem measure_sleep {s : St} {p : Nat} (hp : p < c.pics.length) (ha : s.asleep p = none) (v : Nat × Nat) :
    c.measure { s with asleep := upd s.asleep p (some v) } < c.measure s := by
  have hm : p ∈ Finset.range c.pics.length := Finset.mem_range.2 hp
  unfold Cfg.measure
  dsimp only
  rw [← Finset.add_sum_erase (Finset.range c.pics.length) (fun q => if upd s.asleep p (some v) q = none then 1 else 0) hm,
    ← Finset.add_sum_erase (Finset.range c.pics.length) (fun q => if s.asleep q = none then 1 else 0) hm]
  have e1 : upd s.asleep p (some v) p = some v := if_pos rfl
  have e2 : ∑ q ∈ (Finset.range c.pics.length).erase p, (if upd s.asleep p (some v) q = none then 1 else 0) = ∑ q ∈ (Finset.range c.pics.length).erase p, (if s.asleep q = none then 1 else 0) :=
    Finset.sum_congr rfl fun q hq => by
      have : upd s.asleep p (some v) q = s.asleep q := if_neg (Finset.mem_erase.1 hq).1
      rw [this]
  rw [e1, e2, ha]
  simp

theorem measure_step {s s' : St} (hle : s.started ≤ c.pics.length) (st : Step c s s') : c.measure s' < c.measure s := by
  cases st with
  | start h _ =>
    unfold Cfg.measure
    dsimp only
    omega
  | act p a r hp ha hr =>
    have hp' : p < c.pics.length := by omega
    cases a with
    | wait q l =>
      unfold Cfg.exec
      dsimp only
      split
      · exact measure_sleep hp' ha _
      · exact measure_rest hp' hr rfl rfl
    | own j =>
      unfold Cfg.exec
      dsimp only
      split
      · exact measure_sleep hp' ha _
      · exact measure_rest hp' hr rfl rfl
    | reset => exact measure_rest hp' hr rfl rfl
    | recon j => exact measure_rest hp' hr rfl rfl
    | mark j => exact measure_rest hp' hr rfl rfl
    | wake j => exact measure_rest hp' hr rfl rfl

/-- Runs of `k` steps. -/
inductive Run (c : Cfg) : Nat → St → Prop
  | init : Run c 0 c.init
  | step {k : Nat} {s s' : St} : Run c k s → Step c s s' → Run c (k + 1) s'

theorem Run.reach {k : Nat} {s : St} (h : Run c k s) : Reach c s := by
  induction h with
  | init => exact .init
  | step _ st ih => exact .step ih st

theorem Run.bound {k : Nat} {s : St} (h : Run c k s) : k + c.measure s ≤ c.measure c.init := by
  induction h with
  | init => omega
  | step h st ih =>
    have := measure_step (started_le h.reach) st
    omega

/-- **C52** (waiting ends).  In whatever order the threads run, every run is finite, with a bound known beforehand, and a run that cannot be
continued has decoded all pictures.
What is missing: rows of referenced pictures must not be given up (see `C52_hang_violated`), counters must not be left over. -/
theorem C52_ends_partial (hf : c.Fresh) (ho : c.Ordered) {k : Nat} {s : St} (h : Run c k s) :
    k ≤ c.measure c.init ∧ ((¬ ∃ s', Step c s s') → c.Done s) :=
  ⟨by have := h.bound; omega, fun hn => (C52_progress_partial hf ho h.reach).resolve_right hn⟩

end

/-! ### Rows read by prediction -/

theorem flt_dep {rd rd' : SampleMem} {step : Int} : ∀ (c : List Int) (a : Int), (∀ i : Nat, i < c.length → rd (a + i * step) = rd' (a + i * step)) →
    flt rd step c a = flt rd' step c a
  | [], _, _ => rfl
  | c :: cs, a, h => by
    have h0 := h 0 (by simp)
    simp only [Int.natCast_zero, Int.zero_mul, Int.add_zero] at h0
    have h1 := flt_dep cs (a + step) (rd := rd) (rd' := rd') (fun i hi => by
      have := h (i + 1) (by simp; omega)
      have e : a + ((i + 1 : Nat) : Int) * step = a + step + i * step := by push_cast; ring
      rwa [e] at this)
    unfold flt
    rw [h0, h1]

/-- The three ways of interpolation read the same square. -/
theorem intpl_dep {rd rd' : SampleMem} {stride o r k : Int} {ch cv : List Int} {n : Nat} (hch : ch.length ≤ n) (hcv : cv.length ≤ n) (ho : 0 ≤ o ∧ o < n)
    (h : ∀ i j : Int, -o ≤ i → i < n - o → -o ≤ j → j < n - o → rd ((r + i) * stride + (k + j)) = rd' ((r + i) * stride + (k + j))) (conv : Int → Int) :
    rd (r * stride + k) = rd' (r * stride + k) ∧ intplHor rd o ch (r * stride + k) = intplHor rd' o ch (r * stride + k) ∧
    intplVer rd stride o cv (r * stride + k) = intplVer rd' stride o cv (r * stride + k) ∧
    intplExt rd stride o conv ch cv (r * stride + k) = intplExt rd' stride o conv ch cv (r * stride + k) := by
  have key : ∀ i : Int, -o ≤ i → i < n - o → flt rd 1 ch (r * stride + k + i * stride - o) = flt rd' 1 ch (r * stride + k + i * stride - o) := by
    intro i h1 h2
    refine flt_dep _ _ fun j hj => ?_
    have := h i (j - o) h1 h2 (by omega) (by omega)
    have e : (r + i) * stride + (k + (j - o)) = r * stride + k + i * stride - o + j * 1 := by ring
    rwa [e] at this
  refine ⟨?_, ?_, ?_, ?_⟩
  · have := h 0 0 (by omega) (by omega) (by omega) (by omega)
    simpa using this
  · have := key 0 (by omega) (by omega)
    simp only [Int.zero_mul, Int.add_zero] at this
    unfold intplHor
    rw [this]
  · unfold intplVer
    rw [flt_dep (rd' := rd')]
    intro i hi
    have := h (i - o) 0 (by omega) (by omega) (by omega) (by omega)
    have e : (r + (i - o)) * stride + (k + 0) = r * stride + k - o * stride + i * stride := by ring
    rwa [e] at this
  · unfold intplExt
    rw [flt_dep (rd' := fun k' => intplTmp rd' conv o ch (r * stride + k + k' * stride))]
    intro i hi
    unfold intplTmp
    rw [key _ (by omega) (by omega)]

theorem lumaLen (k : Nat) : (intplFilters.getD k []).length ≤ 8 := by
  have : ∀ l ∈ intplFilters, l.length ≤ 8 := by decide
  rw [List.getD_eq_getElem?_getD]
  cases h : intplFilters[k]? with
  | none => simp
  | some l => simpa using this l (List.mem_of_getElem? h)

theorem chromaLen (k : Nat) : (intplFiltersC.getD k []).length ≤ 4 := by
  have : ∀ l ∈ intplFiltersC, l.length ≤ 4 := by decide
  rw [List.getD_eq_getElem?_getD]
  cases h : intplFiltersC[k]? with
  | none => simp
  | some l => simpa using this l (List.mem_of_getElem? h)

/-- Two memories agree on the first rows of a plane, with `pad` more samples to the left and right. -/
def Agree (rd rd' : SampleMem) (stride : Int) (w pad : Nat) (rows : Int → Prop) : Prop :=
  ∀ r k : Int, rows r → -pad ≤ k → k < w + pad → rd (r * stride + k) = rd' (r * stride + k)

/-- Rows of a plane that are finished when row `line` of `n` rows of trees of `L` samples has been signalled: the loop filters leave the last
four rows of samples to the next row of trees. -/
def Final (n L line : Nat) (r : Int) : Prop := line + 1 = n ∨ r < (line + 1) * L - 4

theorem clip_row {n : Nat} (hn : 0 < n) {L : Nat} (hL : 0 < L) (y r m : Int) (h : r + m ≤ y) (hm : 4 ≤ m) (line : Nat) (hl : line = clipRow n (y / L)) : Final n L line r := by
  have hLp : (0 : Int) < L := by exact_mod_cast hL
  have h2 := Int.lt_mul_ediv_self_add (x := y) (k := (L : Int)) hLp
  unfold clipRow at hl
  unfold Final
  by_cases c : line + 1 = n
  · exact Or.inl c
  · right
    have : y / (L : Int) ≤ line := by omega
    have h3 : (L : Int) * (y / L) ≤ L * line := mul_le_mul_of_nonneg_left this (by omega)
    have e : ((line : Int) + 1) * L = L * line + L := by ring
    omega

theorem mcPos_range (img blk pos mv : Int) (h0 : 0 ≤ blk) (h1 : blk ≤ 64) (h2 : 0 ≤ img) (h3 : img ≤ 8184) :
    -blk - 8 ≤ cuGetMcPosMv img blk pos mv / 4 ∧ cuGetMcPosMv img blk pos mv / 4 ≤ img + 5 ∧
    -blk - 8 ≤ cuGetMcPosMv img blk pos mv / 8 * 2 + 1 ∧ cuGetMcPosMv img blk pos mv / 8 * 2 ≤ img + 5 := by
  unfold cuGetMcPosMv Davs2.toInt16 cuGetMcPos
  dsimp only
  split
  · omega
  · split <;> omega

/-- **C52** (the right row, luma; partial: pictures up to 8184 samples, as C36).  Prediction of a block waits for a row of the reference picture (cu.cc:1038 and 1045) after which
everything it reads is finished: memories that agree on the finished rows give the same prediction. -/
theorem C52_luma_partial {rd rd' : SampleMem} {stride : Int} {w h n lvl : Nat} (hn : 0 < n) (hw : w ≤ 8184) (hh : h ≤ 8184) {bw bh : Nat} (hbw : bw ≤ 64) (hbh : bh ≤ 64)
    {bx bY mvx mvy : Int} {line : Nat} (hline : line = rowOf n lvl (cuGetMcPosMv h bh bY mvy / 4 + bh + 8 + 4))
    (ha : Agree rd rd' stride w 80 (Final n (2 ^ lvl) line)) {x y : Nat} (hx : x < bw) (hy : y < bh) :
    mcLuma rd stride (cuGetMcPosMv w bw bx mvx) (cuGetMcPosMv h bh bY mvy) x y =
      mcLuma rd' stride (cuGetMcPosMv w bw bx mvx) (cuGetMcPosMv h bh bY mvy) x y := by
  obtain ⟨a1, a2, -, -⟩ := mcPos_range w bw bx mvx (by omega) (by omega) (by omega) (by omega)
  generalize cuGetMcPosMv w bw bx mvx = px at *
  generalize cuGetMcPosMv h bh bY mvy = py at *
  have key := intpl_dep (rd := rd) (rd' := rd') (stride := stride) (o := 3) (r := py / 4 + y) (k := px / 4 + x) (n := 8) (lumaLen (px % 4).toNat) (lumaLen (py % 4).toNat) (by omega)
    (fun i j h1 h2 h3 h4 => ha _ _ (clip_row hn (Nat.two_pow_pos lvl) (py / 4 + bh + 8 + 4 + 8) _ 17 (by omega) (by omega) line (by rw [hline]; unfold rowOf; push_cast; rfl))
      (by omega) (by omega)) Davs2.toInt16
  have e : (py / 4 + y) * stride + (px / 4 + x) = py / 4 * stride + px / 4 + (y * stride + x) := by ring
  rw [e] at key
  obtain ⟨k1, k2, k3, k4⟩ := key
  unfold mcLuma
  dsimp only
  rw [k1, k2, k3, k4]

/-- **C52** (the right row, chroma).  Chroma is predicted without a further wait; the one for luma is enough. -/
theorem C52_chroma_partial {rd rd' : SampleMem} {stride : Int} {w h n lvl : Nat} (hn : 0 < n) (hl : 0 < lvl) (hw : w ≤ 8184) (hh : h ≤ 8184) (hw2 : w % 2 = 0) {bw bh : Nat} (hbw : bw ≤ 64) (hbh : bh ≤ 64)
    {bx bY mvx mvy : Int} {line : Nat} (hline : line = rowOf n lvl (cuGetMcPosMv h bh bY mvy / 4 + bh + 8 + 4))
    (ha : Agree rd rd' stride (w / 2) 40 (Final n (2 ^ (lvl - 1)) line)) {x y : Nat} (hx : x < bw / 2) (hy : y < bh / 2) :
    mcChroma rd stride (cuGetMcPosMv w bw bx mvx) (cuGetMcPosMv h bh bY mvy) x y =
      mcChroma rd' stride (cuGetMcPosMv w bw bx mvx) (cuGetMcPosMv h bh bY mvy) x y := by
  obtain ⟨-, -, a1, a2⟩ := mcPos_range w bw bx mvx (by omega) (by omega) (by omega) (by omega)
  generalize cuGetMcPosMv w bw bx mvx = px at *
  generalize cuGetMcPosMv h bh bY mvy = py at *
  have e2 : (2 : Int) ^ lvl = 2 * ((2 ^ (lvl - 1) : Nat) : Int) := by
    obtain ⟨m, rfl⟩ : ∃ m, lvl = m + 1 := ⟨lvl - 1, by omega⟩
    simp only [Nat.add_sub_cancel, pow_succ]
    push_cast
    ring
  have key := intpl_dep (rd := rd) (rd' := rd') (stride := stride) (o := 1) (r := py / 8 + y) (k := px / 8 + x) (n := 4) (chromaLen (px % 8).toNat) (chromaLen (py % 8).toNat) (by omega)
    (fun i j h1 h2 h3 h4 => ha _ _ (clip_row hn (Nat.two_pow_pos (lvl - 1)) ((py / 4 + bh + 8 + 4 + 8) / 2) _ 4 (by omega) (by omega) line (by
        rw [hline]; unfold rowOf; rw [e2, Int.ediv_ediv_of_nonneg (by omega)]))
      (by omega) (by omega)) id
  have e : (py / 8 + y) * stride + (px / 8 + x) = py / 8 * stride + px / 8 + (y * stride + x) := by ring
  rw [e] at key
  obtain ⟨k1, k2, k3, k4⟩ := key
  unfold mcChroma
  dsimp only
  rw [k1, k2, k3, k4]

/-- **C52** (a finished row stays as it is).  After row `line` of trees, the rows of samples counted as finished have the values of the complete
filtered picture; the rest of the picture does not change them. -/
theorem C52_final_partial {b : Lr.Job} {u : Nat} (g : b.Geom u) (hl : b.lay.Ok) (hc : b.lay.cross = true) (junk : Int → Int) (p : Lr.Planes) {line : Nat} (hk : line < b.lay.nH)
    {x y : Int} (h0 : 0 ≤ y) (h1 : y < b.lay.H) (hf : Final b.lay.nH b.lay.L line y) :
    ((List.range (line + 1)).foldl (b.row junk) p).dec x y = (b.run junk p).dec x y := by
  rw [Lr.run_stages g hl hc junk p x y h0 h1]
  refine ((b.eng g hl hc junk).inv_rows p (line + 1) hk).done x y h0 ?_
  show y < Lr.cut b.lay.L b.lay.H b.lay.nH (line + 1)
  unfold Lr.cut
  rw [if_neg (by omega)]
  rcases hf with e | e
  · rw [if_neg (by omega)]
    exact h1
  · split
    · push_cast; exact e
    · exact h1

/-! ### Failures -/

/-- Follow a schedule: `none` takes the next picture, `some p` lets the thread of picture `p` run. -/
def Cfg.follow (c : Cfg) : List (Option Nat) → St → Option St
  | [], s => some s
  | none :: l, s => if s.started < c.pics.length ∧ s.running < c.threads then c.follow l { s with started := s.started + 1 } else none
  | some p :: l, s => if p < s.started ∧ s.asleep p = none then
      (match s.rest p with
      | a :: r => c.follow l (c.exec s p a r)
      | [] => none)
    else none

theorem follow_reach {c : Cfg} : ∀ (l : List (Option Nat)) {s s' : St}, Reach c s → c.follow l s = some s' → Reach c s'
  | [], s, s', h, e => by cases e; exact h
  | none :: l, s, s', h, e => by
    unfold Cfg.follow at e
    split at e
    · rename_i hh
      exact follow_reach l (.step h (.start s hh.1 hh.2)) e
    · cases e
  | some p :: l, s, s', h, e => by
    unfold Cfg.follow at e
    split at e
    · rename_i hh
      split at e
      · rename_i a r hr
        exact follow_reach l (.step h (.act s p a r hh.1 hh.2 hr)) e
      · cases e
    · cases e

/-- Two pictures of one row, the second predicted from the first; the frame of the first was used before. -/
def reused : Cfg where
  pics := [⟨true, true, fun _ => false, fun _ => []⟩, ⟨false, true, fun _ => false, fun _ => [(0, 0)]⟩]
  w := 1
  n := 1
  threads := 2
  stale := fun p _ => if p = 0 then 4 else 0

theorem reused_ordered : reused.Ordered where
  threads := by decide
  whole := by intro x hx; simp [reused] at hx; rcases hx with rfl | rfl <;> simp
  refs := by
    intro p x hp j hj r hr
    match p, hp with
    | 0, hp => simp [reused] at hp; subst hp; simp at hr
    | 1, hp => simp [reused] at hp; subst hp; simp at hr; subst hr; exact ⟨by decide, _, rfl, rfl⟩
    | p + 2, hp => simp [reused] at hp

/-- C52 fails for frames that are used again: the counters still hold the values of the earlier picture until the thread of the new picture clears
them (decoder.cc:1127), and a picture predicted from it that runs before does not wait. -/
theorem C52_stale_violated : ∃ c : Cfg, c.Ordered ∧ ∃ s done, Reach c s ∧ c.prog 1 = done ++ s.rest 1 ∧ Act.wait 0 0 ∈ done ∧ s.recon 0 0 = false :=
  ⟨reused, reused_ordered, _, [.reset, .wait 0 0], follow_reach [none, none, some 1, some 1] .init rfl, by decide +kernel, by decide, by decide +kernel⟩

/-- One picture of two rows whose first row is given up. -/
def givenUp : Cfg where
  pics := [⟨true, true, fun j => j == 0, fun _ => []⟩]
  w := 1
  n := 2
  threads := 4
  stale := fun _ _ => 0

/-- C52 fails if a row of a referenced picture is given up (check_slice_header returns -1, decoder.cc:415-417): the thread waits for its own row 0, which
nobody will signal. -/
theorem C52_hang_violated : ∃ c : Cfg, c.Fresh ∧ 0 < c.threads ∧ (∀ x ∈ c.pics, ∀ j, x.waits j = []) ∧
    ∃ s, Reach c s ∧ ¬ c.Done s ∧ ¬ ∃ s', Step c s s' := by
  refine ⟨givenUp, fun _ _ => show (0 : Int) ≤ 1 by decide, by decide, by simp [givenUp], _, follow_reach [none, some 0, some 0, some 0] .init rfl, ?_, ?_⟩
  · rintro ⟨-, h⟩
    exact absurd (h 0) (by decide +kernel)
  · rintro ⟨s', st⟩
    cases st with
    | start h _ => exact absurd h (by decide +kernel)
    | act p a r hp ha hr =>
      have hp : p = 0 := by
        have : p < 1 := hp
        omega
      subst hp
      exact absurd ha (by decide +kernel)

/-! ### Examples -/

/-- The same two pictures with new frames; the second thread goes to sleep and is woken. -/
def pair : Cfg := { reused with stale := fun _ _ => 0 }

theorem pair_fresh : pair.Fresh := fun _ _ => show (0 : Int) ≤ 1 by decide
theorem pair_ordered : pair.Ordered := ⟨reused_ordered.threads, reused_ordered.whole, reused_ordered.refs⟩

def sleepy : List (Option Nat) := [none, none, some 1, some 1, some 0, some 0, some 0, some 0, some 0, some 1]

example : (pair.follow (sleepy.take 4) pair.init).map (fun s => s.asleep 1) = some (some (0, 0)) := by decide +kernel

example : ∃ s, Reach pair s ∧ s.recon 0 0 = true := by
  obtain ⟨s, hs⟩ : ∃ s, pair.follow sleepy pair.init = some s := ⟨_, rfl⟩
  have hr := follow_reach sleepy .init hs
  refine ⟨s, hr, C52_safe_partial pair_fresh hr (p := 1) (q := 0) (l := 0) (done := [.reset, .wait 0 0]) ?_ (by decide) rfl rfl 0 (by decide)⟩
  cases hs
  decide +kernel

example : ∃ s, Reach pair s ∧ pair.Done s :=
  ⟨_, follow_reach (sleepy ++ [some 1]) .init rfl, by decide +kernel, fun p => match p with
    | 0 => by decide +kernel
    | 1 => by decide +kernel
    | _ + 2 => rfl⟩

example {k : Nat} {s : St} (h : Run pair k s) : k ≤ 28 := by
  have h1 := (C52_ends_partial pair_fresh pair_ordered h).1
  have h2 : pair.measure pair.init = 28 := by decide +kernel
  omega

/-- A 64x64 picture in trees of 16: a block at the top predicted from ten rows below waits for row 2 of the trees, and row 3 may hold anything. -/
example (junk : Int) : mcLuma (fun a => some (a % 7)) 224 (cuGetMcPosMv 64 8 16 3) (cuGetMcPosMv 64 8 0 41) 1 2 =
    mcLuma (fun a => if a < 44 * 224 - 80 then some (a % 7) else some junk) 224 (cuGetMcPosMv 64 8 16 3) (cuGetMcPosMv 64 8 0 41) 1 2 :=
  C52_luma_partial (w := 64) (h := 64) (n := 4) (lvl := 4) (bw := 8) (bh := 8) (by decide) (by decide) (by decide) (by decide) (by decide) (line := 2) (by decide)
    (fun r k hr h1 h2 => by
      have : r < 44 := by rcases hr with h | h; omega; norm_num at h; omega
      rw [if_pos (by omega)]) (by decide) (by decide)

end Davs2.Rw
