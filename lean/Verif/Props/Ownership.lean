import Verif.Model.Ownership

/- C111: what closing a decoder gives back. -/
namespace Davs2.Own

/-- Every allocated block has exactly one owner. -/
def Inv (s : St) : Prop := ∀ a,
  s.idle.count a + s.cur.toList.count a + s.queued.count a + s.running.count a + (ids s.recycle).count a + (ids s.out).count a + (ids s.user).count a = s.heap.count a ∧
  s.heap.count a ≤ 1 ∧ (s.next ≤ a → s.heap.count a = 0)

theorem free_spec {x : Nat} {heap : List Nat} (h : 1 ≤ heap.count x) : ∃ heap', free x heap = some heap' ∧ ∀ a, heap'.count a = heap.count a - [x].count a := by
  have hm : x ∈ heap := List.count_pos_iff.1 h
  refine ⟨heap.erase x, by unfold free; rw [if_pos hm], fun a => ?_⟩
  rw [List.count_erase, List.count_singleton]

theorem freeAll_spec : ∀ (l heap : List Nat), (∀ a, l.count a ≤ heap.count a) → ∃ heap', freeAll l heap = some heap' ∧ ∀ a, heap'.count a = heap.count a - l.count a := by
  intro l
  induction l with
  | nil => intro heap _; exact ⟨heap, rfl, fun a => by simp⟩
  | cons x l ih =>
    intro heap hl
    have hx := hl x
    rw [List.count_cons_self] at hx
    obtain ⟨h1, e1, c1⟩ := free_spec (x := x) (heap := heap) (by omega)
    obtain ⟨h2, e2, c2⟩ := ih h1 (by
      intro a
      have := hl a
      rw [c1 a, List.count_singleton]
      rw [List.count_cons] at this
      omega)
    refine ⟨h2, by rw [freeAll, e1]; exact e2, fun a => ?_⟩
    rw [c2 a, c1 a, List.count_singleton, List.count_cons]
    omega

theorem ids_cons (p : Pic) (l : List Pic) (a : Nat) : (ids (p :: l)).count a = (ids l).count a + [p.id].count a := by
  show (p.id :: ids l).count a = _
  rw [List.count_cons, List.count_singleton]

theorem ids_append (l r : List Pic) (a : Nat) : (ids (l ++ r)).count a = (ids l).count a + (ids r).count a := by
  unfold ids; rw [List.map_append, List.count_append]

theorem insertPic_count (p : Pic) : ∀ (l : List Pic) (a : Nat), (ids (insertPic p l)).count a = (ids l).count a + [p.id].count a := by
  intro l a
  induction l with
  | nil => rw [insertPic, ids_cons]
  | cons q l ih =>
    rw [insertPic]
    split
    · rw [ids_cons, ih, ids_cons]; omega
    · rw [ids_cons]

theorem getFree_spec (w h : Nat) (poc : Int) (next : Nat) : ∀ (l : List Pic) (heap : List Nat), (∀ a, (ids l).count a ≤ heap.count a) → (∀ a, heap.count a ≤ 1) →
    (∀ a, next ≤ a → heap.count a = 0) →
    ∃ p l' heap' next', getFree w h poc next l heap = some (p, l', heap', next') ∧ p.w = w ∧ p.h = h ∧ next ≤ next' ∧
      ∀ a, heap'.count a + (ids l).count a = heap.count a + (ids l').count a + [p.id].count a ∧ heap'.count a ≤ 1 ∧ (next' ≤ a → heap'.count a = 0) := by
  intro l
  induction l with
  | nil =>
    intro heap _ h1 h0
    refine ⟨_, _, _, _, rfl, rfl, rfl, Nat.le_succ _, fun a => ?_⟩
    have := h1 a
    have := h0 a
    have := h0 next (Nat.le_refl _)
    rw [List.count_cons, List.count_singleton]
    by_cases e : next = a
    · subst e; simp [ids]; omega
    · simp [e, ids]; omega
  | cons p l ih =>
    intro heap hl h1 h0
    rw [getFree]
    split
    · rename_i hs
      refine ⟨_, _, _, _, rfl, hs.1, hs.2, Nat.le_refl _, fun a => ⟨?_, h1 a, h0 a⟩⟩
      show _ = _ + _ + [p.id].count a
      rw [ids_cons]; omega
    · have hp := hl p.id
      rw [ids_cons, List.count_singleton_self] at hp
      obtain ⟨hf, e1, c1⟩ := free_spec (x := p.id) (heap := heap) (by omega)
      rw [e1]
      obtain ⟨q, l', heap', next', e2, w2, h2, n2, c2⟩ := ih hf (by
        intro a
        have := hl a
        rw [ids_cons] at this
        rw [c1 a]; omega) (by intro a; rw [c1 a]; have := h1 a; omega) (by intro a ha; rw [c1 a, h0 a ha]; omega)
      refine ⟨q, l', heap', next', e2, w2, h2, n2, fun a => ⟨?_, (c2 a).2⟩⟩
      have := (c2 a).1
      have := hl a
      rw [ids_cons] at this ⊢
      have := c1 a
      omega

theorem opened_inv (n : Nat) : Inv (opened n) := by
  intro a
  refine ⟨by simp [opened, ids], ?_, fun h => ?_⟩
  · exact List.nodup_iff_count.1 List.nodup_range a
  · show (List.range n).count a = 0
    exact List.count_eq_zero.2 (by rw [List.mem_range]; exact Nat.not_lt.2 h)

theorem submit_inv (ok : Bool) (u : Nat) (s : St) (a : Nat) :
    (submit ok u s).idle.count a + (submit ok u s).queued.count a = s.idle.count a + s.queued.count a + [u].count a ∧ (submit ok u s).heap = s.heap ∧ (submit ok u s).next = s.next ∧
    (submit ok u s).cur = s.cur ∧ (submit ok u s).running = s.running ∧ (submit ok u s).recycle = s.recycle ∧ (submit ok u s).out = s.out ∧ (submit ok u s).user = s.user := by
  cases ok <;> simp [submit, List.count_append] <;> omega

theorem count_toList (u a : Nat) : (some u : Option Nat).toList.count a = [u].count a := rfl

theorem step_inv {s : St} (hi : Inv s) (o : Op) : ∃ s', step s o = some s' ∧ Inv s' := by
  cases o with
  | fetch =>
    simp only [step]
    split
    · rename_i u l hc hd
      refine ⟨_, rfl, fun a => ?_⟩
      have := hi a
      rw [hc, hd, List.count_cons] at this
      simp only [count_toList, List.count_singleton]
      simp only [Option.toList_none, List.count_nil] at this
      omega
    · exact ⟨s, rfl, hi⟩
  | grow =>
    simp only [step]
    split
    · rename_i u hc
      have hu := hi u
      rw [hc, count_toList, List.count_singleton_self] at hu
      obtain ⟨h1, e1, c1⟩ := free_spec (x := u) (heap := s.next :: s.heap) (by rw [List.count_cons]; omega)
      rw [e1]
      refine ⟨_, rfl, fun a => ?_⟩
      have ha := hi a
      have hn := hi s.next
      have := hn.2.2 (Nat.le_refl _)
      have c := c1 a
      simp only [count_toList]
      rw [hc, count_toList] at ha
      rw [List.count_cons, List.count_singleton] at c
      rw [List.count_singleton] at ha ⊢
      by_cases e : s.next = a
      · subst e
        by_cases e2 : u = s.next
        · subst e2; simp at *; omega
        · simp [e2] at *; omega
      · by_cases e2 : u = a
        · subst e2; simp [e] at *; omega
        · simp [e2, e] at *; omega
    · exact ⟨s, rfl, hi⟩
  | pack ok =>
    simp only [step]
    split
    · rename_i u v l hc hd
      refine ⟨_, rfl, fun a => ?_⟩
      obtain ⟨c, e1, e2, e3, e4, e5, e6, e7⟩ := submit_inv ok u { s with cur := some v, idle := l } a
      have ha := hi a
      rw [e1, e2, e3, e4, e5, e6, e7]
      rw [hc, hd, List.count_cons, count_toList] at ha
      simp only [count_toList, List.count_singleton] at c ha ⊢
      omega
    · exact ⟨s, rfl, hi⟩
  | flush ok =>
    simp only [step]
    split
    · rename_i u hc
      refine ⟨_, rfl, fun a => ?_⟩
      obtain ⟨c, e1, e2, e3, e4, e5, e6, e7⟩ := submit_inv ok u { s with cur := none } a
      have ha := hi a
      rw [e1, e2, e3, e4, e5, e6, e7]
      rw [hc, count_toList] at ha
      simp only [Option.toList_none, List.count_nil, List.count_singleton] at c ha ⊢
      omega
    · exact ⟨s, rfl, hi⟩
  | start =>
    simp only [step]
    split
    · rename_i u l hd
      refine ⟨_, rfl, fun a => ?_⟩
      have ha := hi a
      rw [hd, List.count_cons] at ha
      simp only [List.count_append, List.count_singleton]
      omega
    · exact ⟨s, rfl, hi⟩
  | finish k shown =>
    simp only [step]
    split
    · rename_i u hk
      have hm : u ∈ s.running := List.mem_of_getElem? hk
      have hr : ∀ a, (s.running.erase u).count a + [u].count a = s.running.count a := by
        intro a
        rw [List.count_erase, List.count_singleton]
        by_cases e : u = a
        · subst e
          have := List.count_pos_iff.2 hm
          simp; omega
        · simp [e]
      split
      · rename_i w h poc
        obtain ⟨p, l', heap', next', e, -, -, n1, c⟩ := getFree_spec w h poc s.next s.recycle s.heap (fun a => by have := hi a; omega) (fun a => (hi a).2.1) (fun a => (hi a).2.2)
        rw [e]
        refine ⟨_, rfl, fun a => ?_⟩
        have ha := hi a
        have hc := c a
        have h2 := hr a
        simp only [List.count_append, insertPic_count]
        exact ⟨by omega, hc.2⟩
      · refine ⟨_, rfl, fun a => ?_⟩
        have ha := hi a
        have h2 := hr a
        simp only [List.count_append]
        omega
    · exact ⟨s, rfl, hi⟩
  | deliver =>
    simp only [step]
    split
    · rename_i p l hd
      refine ⟨_, rfl, fun a => ?_⟩
      have ha := hi a
      rw [hd, ids_cons] at ha
      simp only [ids_cons]
      omega
    · exact ⟨s, rfl, hi⟩
  | unref k =>
    simp only [step]
    split
    · rename_i p hk
      have hr : ∀ a, (ids (s.user.eraseIdx k)).count a + [p.id].count a = (ids s.user).count a := by
        intro a
        have hlt : k < s.user.length := (List.getElem?_eq_some_iff.1 hk).1
        have hp : s.user[k] = p := (List.getElem?_eq_some_iff.1 hk).2
        have e1 : s.user = s.user.take k ++ p :: s.user.drop (k + 1) := by
          rw [← hp, ← List.drop_eq_getElem_cons hlt, List.take_append_drop]
        rw [List.eraseIdx_eq_take_drop_succ, ids_append]
        have e2 := congrArg (fun l => (ids l).count a) e1
        simp only [ids_append, ids_cons] at e2
        omega
      refine ⟨_, rfl, fun a => ?_⟩
      have ha := hi a
      have h2 := hr a
      simp only [ids_append, ids_cons]
      simp only [ids, List.map_nil, List.count_nil] at *
      omega
    · exact ⟨s, rfl, hi⟩

theorem run_inv {s : St} (hi : Inv s) (l : List Op) : ∃ s', run s l = some s' ∧ Inv s' := by
  induction l generalizing s with
  | nil => exact ⟨s, rfl, hi⟩
  | cons o l ih =>
    obtain ⟨s1, e1, i1⟩ := step_inv hi o
    obtain ⟨s2, e2, i2⟩ := ih i1
    exact ⟨s2, by rw [run, e1]; exact e2, i2⟩

/-- **C111, nothing is freed twice, and exactly what is left.** After any history of calls and task steps no block has been freed twice; closing frees every block once, except
the packets of jobs no thread has begun, the pictures waiting for delivery and the pictures the user has not given back. -/
theorem C111_exact (n : Nat) (l : List Op) : ∃ s, run (opened n) l = some s ∧ (s.running = [] → ∃ left, close s = some left ∧
    ∀ a, left.count a = s.queued.count a + (ids s.out).count a + (ids s.user).count a) := by
  obtain ⟨s, e, hi⟩ := run_inv (opened_inv n) l
  refine ⟨s, e, fun hr => ?_⟩
  obtain ⟨h1, e1, c1⟩ := freeAll_spec s.idle s.heap (fun a => by have := hi a; omega)
  obtain ⟨h2, e2, c2⟩ := freeAll_spec (ids s.recycle) h1 (fun a => by have := hi a; have := c1 a; omega)
  obtain ⟨h3, e3, c3⟩ := freeAll_spec s.cur.toList h2 (fun a => by have := hi a; have := c1 a; have := c2 a; omega)
  refine ⟨h3, by unfold close; rw [e1]; simp only [Option.bind_some]; rw [e2]; exact e3, fun a => ?_⟩
  have := hi a
  have := c1 a
  have := c2 a
  have := c3 a
  have : s.running.count a = 0 := by rw [hr]; rfl
  omega

/-- **C111, closing after everything was fetched and given back leaves nothing allocated.**  Missing: the same without fetching, which is false (`C111_violated`). -/
theorem C111_clean_partial (n : Nat) (l : List Op) {s : St} (e : run (opened n) l = some s) (hr : s.running = []) (hq : s.queued = []) (ho : s.out = []) (hu : s.user = []) :
    close s = some [] := by
  obtain ⟨s', e', h⟩ := C111_exact n l
  obtain rfl : s' = s := Option.some.inj (e'.symm.trans e)
  obtain ⟨left, el, c⟩ := h hr
  rw [el]
  congr 1
  refine List.eq_nil_iff_forall_not_mem.2 fun a ha => ?_
  have := List.count_pos_iff.2 ha
  rw [c a, hq, ho, hu] at this
  simp [ids] at this

/-- Two units, the first a picture; the picture is decoded, delivered and given back, the rest is flushed. -/
def exOps : List Op := [.fetch, .pack true, .start, .finish 0 (some (64, 32, 0)), .deliver, .unref 0, .flush true, .start, .finish 0 (some (32, 32, 1)), .deliver, .unref 0]

example : ∃ s, run (opened 3) exOps = some s ∧ s.running = [] ∧ s.queued = [] ∧ s.out = [] ∧ s.user = [] ∧ s.heap.length = 4 ∧ close s = some [] :=
  ⟨_, rfl, rfl, rfl, rfl, rfl, rfl, rfl⟩

/-- **C111, violated.** A decoder closed while a decoded picture waits for delivery does not free that picture. -/
theorem C111_violated : ∃ (l : List Op) (s : St) (p : Nat), run (opened 3) l = some s ∧ s.running = [] ∧ s.queued = [] ∧ s.user = [] ∧ close s = some [p] :=
  ⟨[.fetch, .pack true, .start, .finish 0 (some (64, 32, 0))], _, 3, rfl, rfl, rfl, rfl, rfl⟩

/-- **C111, violated for packets.** A job that no thread has begun when the decoder is closed keeps its packet. -/
theorem C111_job_violated : ∃ (l : List Op) (s : St) (p : Nat), run (opened 3) l = some s ∧ s.running = [] ∧ s.out = [] ∧ s.user = [] ∧ close s = some [p] :=
  ⟨[.fetch, .pack true], _, 0, rfl, rfl, rfl, rfl, rfl⟩

end Davs2.Own
