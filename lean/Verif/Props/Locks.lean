import Verif.Model.Locks

/- C117: the mutexes of the decoder never block each other. -/
namespace Davs2.Lk

/-- The order in which the code takes mutexes: what may be held when a mutex is asked for. -/
def Allowed (st : List Lock) : Lock → Prop
  | .aec => st = []
  | .leaf _ => st = []
  | .mgr => st = [] ∨ st = [.aec]
  | .frm j => st = [] ∨ st = [.aec] ∨ st = [.mgr, .aec] ∨ ∃ i, i ≠ j ∧ st = [.frm i, .mgr, .aec]

def Valid (st : List Lock) : List Op → Prop
  | [] => st = []
  | .lock l :: r => Allowed st l ∧ Valid (l :: st) r
  | .unlock l :: r => ∃ t, st = l :: t ∧ Valid t r

theorem valid_alone {st : List Lock} {l : Lock} {r : List Op} (h : Allowed st l) (hr : Valid st r) : Valid st (alone l ++ r) := ⟨h, st, rfl, hr⟩

theorem valid_frames {st : List Lock} (h : ∀ i, Allowed st (.frm i)) {r : List Op} (hr : Valid st r) : ∀ is, Valid st (frames is ++ r) := by
  intro is
  induction is with
  | nil => exact hr
  | cons i is ih =>
    show Valid st ((alone (.frm i) ++ frames is) ++ r)
    rw [List.append_assoc]
    exact valid_alone (h i) ih

theorem valid_force {r : List Op} (hr : Valid [.mgr, .aec] r) : ∀ (f : List Bool) (i : Nat) (fdec : Option Nat), (∀ j, fdec = some j → j < i) → Valid [.mgr, .aec] (force i fdec f ++ r) := by
  intro f
  induction f with
  | nil => intro i fdec _; exact hr
  | cons b f ih =>
    intro i fdec h
    cases b with
    | false =>
      rw [force, List.append_assoc]
      exact valid_alone (.inr (.inr (.inl rfl))) (ih _ _ fun j e => Nat.lt_succ_of_lt (h j e))
    | true =>
      have hn := ih (i + 1) (some i) fun j e => by cases e; exact Nat.lt_succ_self _
      cases fdec with
      | none => exact ⟨.inr (.inr (.inl rfl)), _, rfl, hn⟩
      | some j =>
        have := h j rfl
        exact ⟨.inr (.inr (.inl rfl)), .inr (.inr (.inr ⟨i, by omega, rfl⟩)), _, rfl, _, rfl, hn⟩

theorem valid_round {r : List Op} (hr : Valid [.aec] r) (is : List Nat) (f : List Bool) : Valid [.aec] (round is f ++ r) := by
  rw [round, List.append_assoc, List.append_assoc, List.append_assoc]
  refine ⟨.inr rfl, valid_frames (fun i => .inr (.inr (.inl rfl))) ?_ is⟩
  have hu : Valid [.mgr, .aec] ([.unlock .mgr] ++ r) := ⟨_, rfl, hr⟩
  exact valid_force hu f 0 none fun j e => by cases e

theorem valid_send {r : List Op} (hr : Valid [] r) (rounds : List (List Nat × List Bool)) (rel : List Nat) : Valid [] (send rounds rel ++ r) := by
  rw [send, List.append_assoc, List.append_assoc]
  refine ⟨rfl, ?_⟩
  have hu : Valid [.aec] ([.unlock .aec] ++ r) := ⟨_, rfl, hr⟩
  have hf : Valid [.aec] (frames rel ++ ([.unlock .aec] ++ r)) := valid_frames (fun i => .inr (.inl rfl)) hu rel
  induction rounds with
  | nil => exact hf
  | cons x rounds ih =>
    show Valid [.aec] (((round x.1 x.2 ++ rounds.flatMap fun r => round r.1 r.2) ++ frames rel) ++ ([.unlock .aec] ++ r))
    rw [List.append_assoc, List.append_assoc, ← List.append_assoc (rounds.flatMap _)]
    exact valid_round ih _ _

theorem prog_valid {p : List Op} (h : Prog p) : Valid [] p := by
  induction h with
  | nil => rfl
  | alone l hl _ ih => exact valid_alone (by cases l <;> first | exact absurd rfl hl | exact .inl rfl | rfl) ih
  | send rounds rel _ ih => exact valid_send ih rounds rel

structure Inv (s : St) : Prop where
  valid : ∀ t ∈ s, Valid t.held t.rest
  single : ∀ (a b : Nat) (t u : Th) (l : Lock), s[a]? = some t → s[b]? = some u → l ∈ t.held → l ∈ u.held → a = b

theorem step_inv {s t : St} (hi : Inv s) {k : Nat} (e : step s k = some t) : Inv t := by
  unfold step at e
  split at e
  · rename_i held l r hk
    have hv := hi.valid _ (List.mem_of_getElem? hk)
    have hlt : k < s.length := (List.getElem?_eq_some_iff.1 hk).1
    split at e
    · cases e
    · rename_i hf
      have hfree : ∀ u ∈ s, l ∉ u.held := by
        intro u hu hl
        exact hf (List.any_eq_true.2 ⟨u, hu, List.contains_iff_mem.2 hl⟩)
      cases e
      refine ⟨fun u hu => ?_, fun a b x y m ha hb hx hy => ?_⟩
      · rcases List.mem_or_eq_of_mem_set hu with q | q
        · exact hi.valid u q
        · subst q; exact hv.2
      · by_cases ak : a = k <;> by_cases bk : b = k
        · rw [ak, bk]
        · subst ak
          rw [List.getElem?_set_self hlt] at ha
          rw [List.getElem?_set_ne (Ne.symm bk)] at hb
          cases ha
          rcases List.mem_cons.1 hx with q | q
          · subst q; exact absurd hy (hfree y (List.mem_of_getElem? hb))
          · exact hi.single _ _ _ _ m hk hb q hy
        · subst bk
          rw [List.getElem?_set_self hlt] at hb
          rw [List.getElem?_set_ne (Ne.symm ak)] at ha
          cases hb
          rcases List.mem_cons.1 hy with q | q
          · subst q; exact absurd hx (hfree x (List.mem_of_getElem? ha))
          · exact hi.single _ _ _ _ m ha hk hx q
        · rw [List.getElem?_set_ne (Ne.symm ak)] at ha
          rw [List.getElem?_set_ne (Ne.symm bk)] at hb
          exact hi.single _ _ _ _ m ha hb hx hy
  · rename_i held l r hk
    have hlt : k < s.length := (List.getElem?_eq_some_iff.1 hk).1
    obtain ⟨st, hst, hv⟩ := hi.valid _ (List.mem_of_getElem? hk)
    simp only at hst
    subst hst
    rw [List.erase_cons_head] at e
    cases e
    have old : ∀ (a : Nat) (x : Th) (m : Lock), (s.set k ⟨st, r⟩)[a]? = some x → m ∈ x.held → ∃ y, s[a]? = some y ∧ m ∈ y.held := by
      intro a x m ha hx
      by_cases ak : a = k
      · subst ak
        rw [List.getElem?_set_self hlt] at ha
        cases ha
        exact ⟨_, hk, List.mem_cons_of_mem _ hx⟩
      · rw [List.getElem?_set_ne (Ne.symm ak)] at ha
        exact ⟨x, ha, hx⟩
    refine ⟨fun u hu => ?_, fun a b x y m ha hb hx hy => ?_⟩
    · rcases List.mem_or_eq_of_mem_set hu with q | q
      · exact hi.valid u q
      · subst q; exact hv
    · obtain ⟨x', hx1, hx2⟩ := old a x m ha hx
      obtain ⟨y', hy1, hy2⟩ := old b y m hb hy
      exact hi.single _ _ _ _ m hx1 hy1 hx2 hy2
  · cases e

theorem run_inv : ∀ (ks : List Nat) {s t : St}, Inv s → run s ks = some t → Inv t := by
  intro ks
  induction ks with
  | nil => intro s t h e; cases e; exact h
  | cons k ks ih =>
    intro s t h e
    rw [run] at e
    cases h1 : step s k with
    | none => rw [h1] at e; cases e
    | some u => rw [h1] at e; exact ih (step_inv h h1) e

theorem start_inv {ps : List (List Op)} (h : ∀ p ∈ ps, Prog p) : Inv (start ps) := by
  refine ⟨fun t ht => ?_, fun a b t u l ha _ hl _ => ?_⟩
  · obtain ⟨p, hp, rfl⟩ := List.mem_map.1 ht
    exact prog_valid (h p hp)
  · obtain ⟨p, -, rfl⟩ := List.mem_map.1 (List.mem_of_getElem? ha)
    cases hl

/-- A thread that cannot go on asks for a mutex another thread (or itself) holds. -/
theorem blocked {s : St} (hi : Inv s) {k : Nat} {t : Th} (hk : s[k]? = some t) (hr : t.rest ≠ []) (hb : step s k = none) :
    ∃ l, Allowed t.held l ∧ ∃ (m : Nat) (u : Th), s[m]? = some u ∧ l ∈ u.held := by
  obtain ⟨held, rest⟩ := t
  have hv := hi.valid _ (List.mem_of_getElem? hk)
  cases rest with
  | nil => exact absurd rfl hr
  | cons o r =>
    cases o with
    | unlock l => simp only [step, hk] at hb; cases hb
    | lock l =>
      simp only [step, hk] at hb
      split at hb
      · rename_i hf
        obtain ⟨u, hu, hl⟩ := List.any_eq_true.1 hf
        obtain ⟨m, hm⟩ := List.mem_iff_getElem?.1 hu
        exact ⟨l, hv.1, m, u, hm, List.contains_iff_mem.1 hl⟩
      · cases hb

theorem held_rest {s : St} (hi : Inv s) {t : Th} (ht : t ∈ s) {l : Lock} (hl : l ∈ t.held) : t.rest ≠ [] := by
  intro e
  have := hi.valid t ht
  rw [e] at this
  have h0 : t.held = [] := this
  rw [h0] at hl
  cases hl

theorem allowed_aec {st : List Lock} {l m : Lock} (h : Allowed st l) (hm : m ∈ st) : .aec ∈ st ∧ l ∉ st := by
  cases l with
  | aec => have h : st = [] := h; subst h; cases hm
  | leaf k => have h : st = [] := h; subst h; cases hm
  | mgr =>
    rcases h with h | h <;> subst h
    · cases hm
    · simp
  | frm j =>
    rcases h with h | h | h | ⟨i, hij, h⟩ <;> subst h
    · cases hm
    · simp
    · simp
    · simp [Ne.symm hij]

/-- **C117.** Any number of threads, each running any sections of the code one after the other, in any order of their steps: as long as a thread has not come to its end, one of the
threads can take its next step.  The mutexes never block each other. -/
theorem C117_no_deadlock {ps : List (List Op)} (h : ∀ p ∈ ps, Prog p) (ks : List Nat) {s : St} (e : run (start ps) ks = some s) :
    (∀ t ∈ s, t.rest = [] ∧ t.held = []) ∨ ∃ k t, step s k = some t := by
  have hi := run_inv ks (start_inv h) e
  by_cases hall : ∀ t ∈ s, t.rest = []
  · left
    intro t ht
    have hv := hi.valid t ht
    rw [hall t ht] at hv
    exact ⟨hall t ht, hv⟩
  · right
    refine Classical.byContradiction fun hno => hall fun t ht => Classical.byContradiction fun hr => ?_
    have stuck : ∀ k, step s k = none := fun k => by
      cases q : step s k with
      | none => rfl
      | some u => exact absurd ⟨k, u, q⟩ hno
    obtain ⟨k, hk⟩ := List.mem_iff_getElem?.1 ht
    obtain ⟨l, -, m, u, hm, hl⟩ := blocked hi hk hr (stuck k)
    have hu := List.mem_of_getElem? hm
    obtain ⟨l2, ha2, n, v, hn, hl2⟩ := blocked hi hm (held_rest hi hu hl) (stuck m)
    obtain ⟨hae, hnot⟩ := allowed_aec ha2 hl
    have hv := List.mem_of_getElem? hn
    obtain ⟨l3, ha3, -⟩ := blocked hi hn (held_rest hi hv hl2) (stuck n)
    obtain ⟨hae3, -⟩ := allowed_aec ha3 hl2
    have hmn := hi.single m n u v .aec hm hn hae hae3
    subst hmn
    rw [hm] at hn
    cases hn
    exact hnot hl2

/-- No mutex is ever held by two threads. -/
theorem C117_exclusive {ps : List (List Op)} (h : ∀ p ∈ ps, Prog p) (ks : List Nat) {s : St} (e : run (start ps) ks = some s) (a b : Nat) (t u : Th) (l : Lock)
    (ha : s[a]? = some t) (hb : s[b]? = some u) (ht : l ∈ t.held) (hu : l ∈ u.held) : a = b :=
  (run_inv ks (start_inv h) e).single a b t u l ha hb ht hu

/-- A send with a forced choice, beside a task that releases frame 0: the send has chosen frame 0 and has to wait for its mutex while it holds three others. -/
def exProgs : List (List Op) := [send [([], [true, true])] [] ++ [], alone (.frm 0) ++ []]
example : ∀ p ∈ exProgs, Prog p := by
  intro p hp
  simp only [exProgs, List.mem_cons, List.not_mem_nil, or_false] at hp
  rcases hp with rfl | rfl
  · exact .send _ _ .nil
  · exact .alone _ (by decide) .nil
example : ((run (start exProgs) [0, 0, 0, 0, 1, 0]).bind fun s => s[0]?.map (·.held)) = some [.frm 1, .mgr, .aec] ∧
    ((run (start exProgs) [0, 0, 0, 0, 1, 0]).map fun s => ((step s 0).isSome, (step s 1).isSome)) = some (false, true) := by decide

end Davs2.Lk
