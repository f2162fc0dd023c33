import Verif.Model.VecProg
/-
Nothing but the block is written: array 1 changes only where Cfg.addr lets it.
-/
namespace Davs2.Vp

open Vc (V)

section
variable {cfg : Cfg} {jk : Nat → Nat → BitVec 8} {jr : V}

/-- Array 1 is the same outside the rows and columns that may be written. -/
def Fr (cfg : Cfg) (m m' : Mem) : Prop := ∀ k, (∀ y < cfg.rows, ∀ x < cfg.w, k ≠ 64 * y + x) → (m' 1).2 k = (m 1).2 k

theorem Fr.refl (m : Mem) : Fr cfg m m := fun _ _ => rfl
theorem Fr.trans {a b c : Mem} (h : Fr cfg a b) (h' : Fr cfg b c) : Fr cfg a c := fun k hk => (h' k hk).trans (h k hk)

theorem wr_fr {mem mem' : Mem} {p : Ptr} {n : Nat} {r : V} (h : wr cfg mem p n r = some mem') : Fr cfg mem mem' := by
  intro k hk
  simp only [wr, Option.bind_eq_bind, Option.bind_eq_some_iff] at h
  obtain ⟨o, ho, h⟩ := h
  split at h
  · simp at h
  rename_i h0
  simp only [Option.pure_def, Option.some.injEq] at h
  subst h
  by_cases h1 : 1 = p.arr
  · simp only [if_pos h1]
    rw [if_neg]
    intro ⟨a, b⟩
    unfold Cfg.addr at ho
    rw [if_neg h0, if_pos h1.symm] at ho
    split at ho
    · rename_i hc
      simp only [Option.some.injEq] at ho
      exact hk p.off.b.toNat (by omega) (k - 64 * p.off.b.toNat) (by omega) (by omega)
    · simp at ho
  · simp only [if_neg h1]

theorem mstore_fr {p : Ptr} {m r : V} {u : Nat} : ∀ {n q : Nat} {mem mem' : Mem}, mstore cfg p m r u n q mem = some mem' → Fr cfg mem mem'
  | 0, q, mem, mem', h => by simp only [mstore, Option.some.injEq] at h; subst h; exact Fr.refl _
  | n + 1, q, mem, mem', h => by
    unfold mstore at h
    split at h
    · simp only [Option.bind_eq_bind, Option.bind_eq_some_iff] at h
      obtain ⟨m1, h1, h⟩ := h
      exact (wr_fr h1).trans (mstore_fr h)
    · exact mstore_fr h

theorem L_fr {base : Nat} (hb : 2 ≤ base) {l : L} {e e' : Env} {mem mem' : Mem} (h : l.ex cfg jk jr base e mem = some (e', mem')) : Fr cfg mem mem' := by
  cases l with
  | I | P | V =>
    simp only [L.ex, Option.bind_eq_bind, Option.bind_eq_some_iff, Option.pure_def, Option.some.injEq, Prod.mk.injEq] at h
    first
      | (obtain ⟨_, _, _, rfl⟩ := h; exact Fr.refl _)
      | (obtain ⟨_, _, _, _, _, rfl⟩ := h; exact Fr.refl _)
  | alloc k size =>
    simp only [L.ex, Option.some.injEq, Prod.mk.injEq] at h
    obtain ⟨-, rfl⟩ := h
    intro j _
    show (if 1 = base + k then (size, jk 1) else mem 1).2 j = _
    rw [if_neg (show ¬ 1 = base + k by omega)]
  | st | st1 =>
    simp only [L.ex, Option.bind_eq_bind, Option.bind_eq_some_iff, Option.pure_def, Option.some.injEq, Prod.mk.injEq] at h
    obtain ⟨_, _, _, _, _, hw, _, rfl⟩ := h
    exact wr_fr hw
  | mst =>
    simp only [L.ex, Option.bind_eq_bind, Option.bind_eq_some_iff, Option.pure_def, Option.some.injEq, Prod.mk.injEq] at h
    obtain ⟨_, _, _, _, _, _, _, hw, _, rfl⟩ := h
    exact mstore_fr hw
  | cpy =>
    simp only [L.ex, Option.bind_eq_bind, Option.bind_eq_some_iff, Option.pure_def, Option.some.injEq, Prod.mk.injEq] at h
    obtain ⟨_, _, _, _, _, _, _, _, _, hw, _, rfl⟩ := h
    exact wr_fr hw
  | fill =>
    simp only [L.ex, Option.bind_eq_bind, Option.bind_eq_some_iff, Option.pure_def, Option.some.injEq, Prod.mk.injEq] at h
    obtain ⟨_, _, _, _, _, _, _, hw, _, rfl⟩ := h
    exact wr_fr hw
  | bad => simp [L.ex] at h

theorem exL_fr {base : Nat} (hb : 2 ≤ base) : ∀ {l : List L} {e e' : Env} {mem mem' : Mem}, exL cfg jk jr base l e mem = some (e', mem') → Fr cfg mem mem'
  | [], e, e', mem, mem', h => by simp only [exL, Option.some.injEq, Prod.mk.injEq] at h; obtain ⟨-, rfl⟩ := h; exact Fr.refl _
  | l :: ls, e, e', mem, mem', h => by
    simp only [exL, Option.bind_eq_bind, Option.bind_eq_some_iff] at h
    obtain ⟨⟨e1, m1⟩, h1, h⟩ := h
    exact (L_fr hb h1).trans (exL_fr hb h)

theorem iter_fr {c : Cd} {f : Env → Mem → Option (Env × Mem)} (hf : ∀ {e mem e' mem'}, f e mem = some (e', mem') → Fr cfg mem mem') :
    ∀ {n : Nat} {e e' : Env} {mem mem' : Mem}, iter c f n e mem = some (e', mem') → Fr cfg mem mem'
  | 0, e, e', mem, mem', h => by simp [iter] at h
  | n + 1, e, e', mem, mem', h => by
    simp only [iter, Option.bind_eq_bind, Option.bind_eq_some_iff] at h
    obtain ⟨b, -, h⟩ := h
    split at h
    · simp only [Option.bind_eq_some_iff] at h
      obtain ⟨⟨e1, m1⟩, h1, h⟩ := h
      exact (hf h1).trans (iter_fr hf h)
    · simp only [Option.pure_def, Option.some.injEq, Prod.mk.injEq] at h; obtain ⟨-, rfl⟩ := h; exact Fr.refl _

theorem ex_fr (s : Stmt) : ∀ {base : Nat} {e e' : Env} {mem mem' : Mem}, 2 ≤ base → s.ex cfg jk jr base e mem = some (e', mem') → Fr cfg mem mem' := by
  induction s with
  | run l => intro base e e' mem mem' hb h; exact exL_fr hb h
  | seq s t ihs iht =>
    intro base e e' mem mem' hb h
    simp only [Stmt.ex, Option.bind_eq_bind, Option.bind_eq_some_iff] at h
    obtain ⟨⟨e1, m1⟩, h1, h⟩ := h
    exact (ihs hb h1).trans (iht hb h)
  | ite c s t ihs iht =>
    intro base e e' mem mem' hb h
    simp only [Stmt.ex, Option.bind_eq_bind, Option.bind_eq_some_iff] at h
    obtain ⟨b, -, h⟩ := h
    split at h
    · exact ihs hb h
    · exact iht hb h
  | loop c s ih =>
    intro base e e' mem mem' hb h
    unfold Stmt.ex at h
    generalize 4096 = n at h
    exact iter_fr (fun h => ih hb h) h
  | call s src dst stride mode w h ih =>
    intro base e e' mem mem' hb hh
    simp only [Stmt.ex, Option.bind_eq_bind, Option.bind_eq_some_iff, Option.pure_def, Option.some.injEq, Prod.mk.injEq] at hh
    obtain ⟨_, _, _, _, _, _, _, _, _, _, _, _, ⟨e1, m1⟩, h1, _, rfl⟩ := hh
    exact ih (by omega) h1

/-- A run changes the picture only in the rows and columns it may write. -/
theorem exec_fr {s : Stmt} {mode h : Nat} {border : Int → BitVec 8} {pic : Nat → BitVec 8} {mem : Mem}
    (he : exec cfg jk jr s mode h border pic = some mem) {k : Nat} (hk : ∀ y < cfg.rows, ∀ x < cfg.w, k ≠ 64 * y + x) : (mem 1).2 k = pic k := by
  simp only [exec, Option.bind_eq_bind, Option.bind_eq_some_iff, Option.pure_def, Option.some.injEq] at he
  obtain ⟨⟨e1, m1⟩, h1, rfl⟩ := he
  exact ex_fr s (by omega) h1 k hk

end

end Davs2.Vp
