import Verif.Model.Xlist
/-
Property C26: the shared lists are queues.
-/
namespace Davs2

/-- `next` links the nodes of `l` in order and ends with a null pointer. -/
def Linked (next : Nat → Option Nat) : List Nat → Prop
  | [] => True
  | [n] => next n = none
  | n :: m :: l => next n = some m ∧ Linked next (m :: l)

/-- The list structure represents the queue `q`. -/
structure XlRep (x : Xlist) (q : List Nat) : Prop where
  head : x.head = q.head?
  tail : x.tail = q.getLast?
  num : x.num = q.length
  linked : Linked x.next q

theorem Linked.congr {f g : Nat → Option Nat} {l : List Nat} (h : ∀ n ∈ l, f n = g n) (hl : Linked f l) :
    Linked g l := by
  induction l with
  | nil => trivial
  | cons n l ih =>
    cases l with
    | nil =>
      simp only [Linked] at hl ⊢
      rw [← h n (by simp)]
      exact hl
    | cons m l =>
      simp only [Linked] at hl ⊢
      rw [← h n (by simp)]
      exact ⟨hl.1, ih (fun k hk => h k (by simp [hk])) hl.2⟩

theorem Linked.snoc {f : Nat → Option Nat} (q : List Nat) (t n : Nat) (hl : Linked f (q ++ [t]))
    (hn : f n = none) (hnd : (q ++ [t]).Nodup) (hne : n ∉ q ++ [t]) :
    Linked (fun m => if m = t then some n else f m) (q ++ [t] ++ [n]) := by
  induction q with
  | nil =>
    simp only [List.nil_append, List.singleton_append, Linked, if_true, true_and]
    simp only [List.nil_append, List.mem_singleton] at hne
    rw [if_neg hne, hn]
  | cons a q ih =>
    have ha : a ≠ t := by
      rintro rfl
      simp at hnd
    cases q with
    | nil =>
      simp only [List.nil_append, List.cons_append, Linked, if_true, true_and] at hl ⊢
      rw [if_neg ha]
      simp only [List.cons_append, List.nil_append, List.mem_cons, List.not_mem_nil, or_false, not_or] at hne
      rw [if_neg hne.2]
      exact ⟨hl.1, hn⟩
    | cons b q =>
      simp only [List.cons_append, Linked] at hl ih ⊢
      rw [if_neg ha]
      refine ⟨hl.1, ih hl.2 (by simpa using (List.nodup_cons.1 hnd).2) ?_⟩
      simp only [List.cons_append, List.mem_cons, not_or] at hne ⊢
      exact hne.2

theorem XlRep.setNext {x : Xlist} {q : List Nat} (h : XlRep x q) (n : Nat) (v : Option Nat) (hn : n ∉ q) :
    XlRep (x.setNext n v) q := by
  refine ⟨h.head, h.tail, h.num, Linked.congr ?_ h.linked⟩
  intro m hm
  simp only [Xlist.setNext]
  rw [if_neg (by rintro rfl; exact hn hm)]

theorem XlRep.append {x : Xlist} {q : List Nat} (h : XlRep x q) (n : Nat) (hn : n ∉ q) (hnd : q.Nodup)
    (hnext : x.next n = none) : XlRep (xlAppend x n) (q ++ [n]) := by
  rcases List.eq_nil_or_concat q with rfl | ⟨q', t, rfl⟩
  · have ht : x.tail = none := h.tail
    have hnum := h.num
    refine ⟨?_, ?_, ?_, ?_⟩ <;> simp [xlAppend, ht, Linked, hnext, hnum]
  · rw [List.concat_eq_append] at *
    have ht : x.tail = some t := by rw [h.tail]; simp
    have hnum := h.num
    have hh := h.head
    refine ⟨?_, ?_, ?_, ?_⟩
    · simp only [xlAppend, ht, Xlist.setNext, hh]
      cases q' <;> simp
    · simp [xlAppend, ht]
    · simp [xlAppend, ht, Xlist.setNext, hnum]
    · simp only [xlAppend, ht, Xlist.setNext]
      exact Linked.snoc q' t n h.linked hnext hnd hn

/-- `xl_remove_head` takes the first node of the queue, or nothing from an empty queue. -/
theorem XlRep.take {x : Xlist} {q : List Nat} (h : XlRep x q) :
    ∃ y, xlTake x = some (y, q.head?) ∧ XlRep y q.tail ∧ y.next = x.next := by
  cases q with
  | nil =>
    refine ⟨x, ?_, h, rfl⟩
    have := h.num
    simp [xlTake, this]
  | cons n q =>
    have hnum : x.num = q.length + 1 := h.num
    have hh : x.head = some n := h.head
    have hl := h.linked
    have hnext : x.next n = q.head? := by
      cases q with
      | nil => exact hl
      | cons m q => exact hl.1
    refine ⟨{ x with head := q.head?, tail := if q.head? = none then none else x.tail, num := x.num - 1 }, ?_, ?_, rfl⟩
    · unfold xlTake
      rw [if_pos (by omega), hh]
      simp [hnext]
    · refine ⟨rfl, ?_, ?_, ?_⟩
      · simp only [List.tail_cons]
        cases q with
        | nil => simp
        | cons m q =>
          have := h.tail
          simp only [List.head?_cons, if_false, reduceCtorEq]
          rw [this]
          simp
      · simp [hnum]
      · cases q with
        | nil => trivial
        | cons m q => exact hl.2

/-- The node a thread is about to append. -/
def XlPc.node : XlPc → Option Nat
  | .appending n => some n
  | _ => none

/-- Invariant: the structure represents a queue which is what was appended and not yet delivered, and each
node is in one place only. -/
structure XlInv (s : XlSys) (q : List Nat) : Prop where
  rep : XlRep s.list q
  hist : s.appended = s.results.reduceOption ++ q
  nodup : q.Nodup
  ownedNodup : s.owned.Nodup
  ownedOut : ∀ n ∈ s.owned, n ∉ q
  pend : ∀ t n, s.pc t = .appending n → n ∉ q ∧ n ∉ s.owned ∧ s.list.next n = none
  pendInj : ∀ t u n, s.pc t = .appending n → s.pc u = .appending n → t = u

theorem xlInv_start (next : Nat → Option Nat) (nodes : List Nat) (h : nodes.Nodup) :
    XlInv (xlStart next nodes) [] := by
  refine ⟨⟨rfl, rfl, rfl, trivial⟩, rfl, List.nodup_nil, h, by simp, ?_, ?_⟩ <;> simp [xlStart]

theorem XlInv.take {s s' : XlSys} {q : List Nat} (i : XlInv s q) (t : Nat) (ht : ∀ n, s.pc t ≠ .appending n)
    (h : s.take t = some s') :
    XlInv s' q.tail ∧ s'.results = s.results ++ [q.head?] ∧ s'.appended = s.appended := by
  obtain ⟨y, hy, hrep, hnx⟩ := i.rep.take
  unfold XlSys.take at h
  simp only [hy, Option.some.injEq] at h
  subst h
  refine ⟨?_, rfl, rfl⟩
  have hpc : ∀ u n, (if u = t then XlPc.idle else s.pc u) = .appending n → s.pc u = .appending n := by
    intro u n hu
    split at hu
    · cases hu
    · exact hu
  cases q with
  | nil =>
    refine ⟨hrep, ?_, ?_, ?_, ?_, ?_, ?_⟩
    · have := i.hist
      simpa [XlSys.setPc, List.reduceOption] using this
    · simp
    · simpa using i.ownedNodup
    · simp
    · intro u n hu
      have := i.pend u n (hpc u n hu)
      simpa [hnx] using this
    · intro u v n hu hv
      exact i.pendInj u v n (hpc u n hu) (hpc v n hv)
  | cons m q =>
    have hm := List.nodup_cons.1 i.nodup
    refine ⟨hrep, ?_, hm.2, ?_, ?_, ?_, ?_⟩
    · have := i.hist
      simpa [XlSys.setPc, List.reduceOption] using this
    · simp only [List.head?_cons, Option.toList_some, List.singleton_append, List.nodup_cons]
      exact ⟨fun hmo => i.ownedOut m hmo (by simp), i.ownedNodup⟩
    · intro n hn
      simp only [List.head?_cons, Option.toList_some, List.singleton_append, List.mem_cons] at hn
      rcases hn with rfl | hn
      · exact hm.1
      · have := i.ownedOut n hn
        simp only [List.mem_cons, not_or] at this
        exact this.2
    · intro u n hu
      obtain ⟨h1, h2, h3⟩ := i.pend u n (hpc u n hu)
      simp only [List.mem_cons, not_or] at h1
      refine ⟨h1.2, ?_, ?_⟩
      · simp only [List.head?_cons, Option.toList_some, List.singleton_append, List.mem_cons, not_or]
        exact ⟨h1.1, h2⟩
      · simp only [hnx]
        exact h3
    · intro u v n hu hv
      exact i.pendInj u v n (hpc u n hu) (hpc v n hv)

theorem XlInv.setPc {s : XlSys} {q : List Nat} (i : XlInv s q) (t : Nat) (p : XlPc)
    (hp : ∀ n, p ≠ .appending n) : XlInv (s.setPc t p) q := by
  have hpc : ∀ u n, (if u = t then p else s.pc u) = .appending n → s.pc u = .appending n := by
    intro u n hu
    split at hu
    · exact absurd hu (hp n)
    · exact hu
  exact ⟨i.rep, i.hist, i.nodup, i.ownedNodup, i.ownedOut, fun u n hu => i.pend u n (hpc u n hu),
    fun u v n hu hv => i.pendInj u v n (hpc u n hu) (hpc v n hv)⟩

theorem XlInv.step {s s' : XlSys} {q : List Nat} (i : XlInv s q) (a : XlAct) (h : xlStep s a = some s') :
    ∃ q', XlInv s' q' := by
  cases a with
  | beginAppend t n =>
    simp only [xlStep] at h
    split at h
    · rename_i hc
      simp only [Option.some.injEq] at h
      subst h
      have hnq := i.ownedOut n hc.2
      refine ⟨q, i.rep.setNext n none hnq, i.hist, i.nodup, i.ownedNodup.erase n, ?_, ?_, ?_⟩
      · intro m hm
        exact i.ownedOut m (List.mem_of_mem_erase hm)
      · intro u m hu
        simp only [XlSys.setPc] at hu
        split at hu
        · simp only [XlPc.appending.injEq] at hu
          subst hu
          refine ⟨hnq, ?_, by simp [Xlist.setNext]⟩
          intro hm
          exact absurd rfl ((i.ownedNodup.mem_erase_iff).1 hm).1
        · obtain ⟨h1, h2, h3⟩ := i.pend u m hu
          refine ⟨h1, fun hm => h2 (List.mem_of_mem_erase hm), ?_⟩
          simp only [Xlist.setNext]
          split
          · rfl
          · exact h3
      · intro u v m hu hv
        simp only [XlSys.setPc] at hu hv
        split at hu <;> split at hv
        · omega
        · simp only [XlPc.appending.injEq] at hu
          subst hu
          exact absurd hc.2 (i.pend v n hv).2.1
        · simp only [XlPc.appending.injEq] at hv
          subst hv
          exact absurd hc.2 (i.pend u n hu).2.1
        · exact i.pendInj u v m hu hv
    · cases h
  | doAppend t =>
    simp only [xlStep] at h
    split at h
    · rename_i n hn
      simp only [Option.some.injEq] at h
      subst h
      obtain ⟨h1, h2, h3⟩ := i.pend t n hn
      have hpc : ∀ u m, (if u = t then XlPc.idle else s.pc u) = .appending m → s.pc u = .appending m ∧ u ≠ t := by
        intro u m hu
        split at hu
        · cases hu
        · exact ⟨hu, by assumption⟩
      refine ⟨q ++ [n], i.rep.append n h1 i.nodup h3, ?_, ?_, i.ownedNodup, ?_, ?_, ?_⟩
      · show s.appended ++ [n] = s.results.reduceOption ++ (q ++ [n])
        rw [i.hist, List.append_assoc]
      · rw [List.nodup_append]
        refine ⟨i.nodup, by simp, ?_⟩
        rintro a ha b hb rfl
        simp only [List.mem_singleton] at hb
        subst hb
        exact h1 ha
      · intro m hm
        simp only [List.mem_append, List.mem_singleton, not_or]
        refine ⟨i.ownedOut m hm, ?_⟩
        rintro rfl
        exact h2 hm
      · intro u m hu
        obtain ⟨hu', hne⟩ := hpc u m hu
        obtain ⟨g1, g2, g3⟩ := i.pend u m hu'
        have hmn : m ≠ n := by
          rintro rfl
          exact hne (i.pendInj u t m hu' hn)
        refine ⟨?_, g2, ?_⟩
        · simp only [List.mem_append, List.mem_singleton, not_or]
          exact ⟨g1, hmn⟩
        · simp only [xlAppend]
          cases htl : s.list.tail with
          | none => exact g3
          | some k =>
            simp only [Xlist.setNext]
            rw [if_neg]
            · exact g3
            · rintro rfl
              apply g1
              have := i.rep.tail
              rw [htl] at this
              exact List.mem_of_getLast? this.symm
      · intro u v m hu hv
        exact i.pendInj u v m (hpc u m hu).1 (hpc v m hv).1
    · cases h
  | remove t wait =>
    simp only [xlStep] at h
    split at h
    · rename_i hid
      split at h
      · simp only [Option.some.injEq] at h
        subst h
        exact ⟨q, i.setPc t .waiting (by simp)⟩
      · exact ⟨q.tail, (i.take t (by simp [hid]) h).1⟩
    · cases h
  | wake t =>
    simp only [xlStep] at h
    split at h
    · simp only [Option.some.injEq] at h
      subst h
      exact ⟨q, i.setPc t .woken (by simp)⟩
    · cases h
  | resume t =>
    simp only [xlStep] at h
    split at h
    · rename_i hid
      exact ⟨q.tail, (i.take t (by simp [hid]) h).1⟩
    · cases h

theorem xlRun_inv (as : List XlAct) (s s' : XlSys) (q : List Nat) (i : XlInv s q) (h : xlRun s as = some s') :
    ∃ q', XlInv s' q' := by
  induction as generalizing s q with
  | nil =>
    simp only [xlRun, Option.some.injEq] at h
    subst h
    exact ⟨q, i⟩
  | cons a as ih =>
    simp only [xlRun] at h
    split at h
    · rename_i s1 h1
      obtain ⟨q1, i1⟩ := i.step a h1
      exact ih s1 q1 i1 h
    · cases h

/-- **C26.** For every number of threads and every interleaving (spurious wake-ups included): the nodes
returned are, in this order, the first ones appended, each once; what was appended and not returned is still
in the list, in order; and no returned node is in the list or about to be put there again. -/
theorem C26_fifo (next : Nat → Option Nat) (nodes : List Nat) (hn : nodes.Nodup) (as : List XlAct) (s : XlSys)
    (h : xlRun (xlStart next nodes) as = some s) :
    ∃ q, s.appended = s.results.reduceOption ++ q ∧ XlRep s.list q ∧
      (q ++ s.owned).Nodup ∧ ∀ t n, s.pc t = .appending n → n ∉ q ++ s.owned := by
  obtain ⟨q, i⟩ := xlRun_inv as _ s [] (xlInv_start next nodes hn) h
  refine ⟨q, i.hist, i.rep, ?_, ?_⟩
  · rw [List.nodup_append]
    refine ⟨i.nodup, i.ownedNodup, ?_⟩
    rintro a ha b hb rfl
    exact i.ownedOut a hb ha
  · intro t n ht
    have := i.pend t n ht
    simp only [List.mem_append, not_or]
    exact ⟨this.1, this.2.1⟩

/-- **C26.** A call never fails: in every reachable state a removal that does not wait delivers the oldest
node, or nothing if and only if there is none. -/
theorem C26_remove_total (next : Nat → Option Nat) (nodes : List Nat) (hn : nodes.Nodup) (as : List XlAct)
    (s : XlSys) (h : xlRun (xlStart next nodes) as = some s) (t : Nat) (ht : s.pc t = .idle) :
    ∃ s' r, xlStep s (.remove t false) = some s' ∧ s'.results = s.results ++ [r] ∧
      (r = none ↔ s.appended.length = s.results.reduceOption.length) ∧
      (∀ n, r = some n → s.appended[s.results.reduceOption.length]? = some n) := by
  obtain ⟨q, i⟩ := xlRun_inv as _ s [] (xlInv_start next nodes hn) h
  obtain ⟨y, hy, _⟩ := i.rep.take
  have hstep : ∃ s', s.take t = some s' := by
    unfold XlSys.take
    simp [hy]
  obtain ⟨s', hs'⟩ := hstep
  obtain ⟨_, h2, _⟩ := i.take t (by simp [ht]) hs'
  refine ⟨s', q.head?, ?_, h2, ?_, ?_⟩
  · simp [xlStep, ht, hs']
  · rw [i.hist]
    cases q <;> simp
  · intro n hq
    rw [i.hist, List.getElem?_append_right (Nat.le_refl _)]
    cases q with
    | nil => cases hq
    | cons m q => simpa using hq

/-- Two nodes go through the list while two threads compete. -/
example : ∃ s, xlRun (xlStart (fun _ => some 7) [1, 2])
    [.remove 5 true, .beginAppend 0 2, .beginAppend 1 1, .doAppend 1, .doAppend 0, .remove 6 false, .wake 5,
      .resume 5] = some s ∧ s.appended = [1, 2] ∧ s.results = [some 1, some 2] := by
  refine ⟨_, rfl, ?_, ?_⟩ <;> decide

/-- A removal that was asked to wait may return nothing: another thread takes the node before the woken
thread gets the lock (`if` instead of `while`, common.cc:294). -/
theorem C26_wait_empty_handed_violated :
    ∃ as s, xlRun (xlStart (fun _ => none) [1]) as = some s ∧
      as = [.remove 5 true, .beginAppend 0 1, .doAppend 0, .wake 5, .remove 6 true, .resume 5] ∧
      s.results = [some 1, none] := by
  refine ⟨_, _, rfl, rfl, ?_⟩
  decide

end Davs2

namespace Davs2

/-- One thread `c` removes, always with `wait`, and it wakes up only while the list holds a node (no
spurious wake-ups: the wake-up is the signal of an `xl_append`). -/
def XlDisciplined (c : Nat) : XlSys → List XlAct → Prop
  | _, [] => True
  | s, a :: as =>
    (match a with
      | .remove t w => t = c ∧ w = true
      | .wake t => t = c ∧ 0 < s.list.num
      | .resume t => t = c
      | _ => True) ∧
    match xlStep s a with
    | some s' => XlDisciplined c s' as
    | none => True

theorem xlDisciplined_inv (c : Nat) (as : List XlAct) (s s' : XlSys) (q : List Nat) (i : XlInv s q)
    (hw : s.pc c = .woken → 0 < s.list.num) (hr : ∀ r ∈ s.results, r ≠ none)
    (hd : XlDisciplined c s as) (h : xlRun s as = some s') : ∀ r ∈ s'.results, r ≠ none := by
  induction as generalizing s q with
  | nil =>
    simp only [xlRun, Option.some.injEq] at h
    subst h
    exact hr
  | cons a as ih =>
    simp only [xlRun] at h
    split at h
    · rename_i s1 h1
      obtain ⟨hd1, hd2⟩ := hd
      rw [h1] at hd2
      simp only at hd2
      obtain ⟨q1, i1⟩ := i.step a h1
      have takeOk : ∀ s2, s.take c = some s2 → 0 < s.list.num → (∀ n, s.pc c ≠ .appending n) →
          (s2.pc c = .idle) ∧ ∀ r ∈ s2.results, r ≠ none := by
        intro s2 h2 hpos hne
        obtain ⟨_, h3, _⟩ := i.take c hne h2
        refine ⟨?_, ?_⟩
        · unfold XlSys.take at h2
          split at h2
          · cases h2
          · simp only [Option.some.injEq] at h2
            subst h2
            simp [XlSys.setPc]
        · rw [h3]
          intro r hmem
          simp only [List.mem_append, List.mem_singleton] at hmem
          rcases hmem with hmem | rfl
          · exact hr r hmem
          · have := i.rep.num
            cases q with
            | nil => simp at this; omega
            | cons m q => simp
      refine ih s1 q1 i1 ?_ ?_ hd2 h
      · intro hpc
        cases a with
        | beginAppend t n =>
          simp only [xlStep] at h1
          split at h1
          · simp only [Option.some.injEq] at h1
            subst h1
            simp only [XlSys.setPc] at hpc
            split at hpc
            · cases hpc
            · exact hw hpc
          · cases h1
        | doAppend t =>
          simp only [xlStep] at h1
          split at h1
          · simp only [Option.some.injEq] at h1
            subst h1
            simp [xlAppend]
          · cases h1
        | remove t w =>
          simp only at hd1
          obtain ⟨rfl, rfl⟩ := hd1
          simp only [xlStep] at h1
          split at h1
          · rename_i hid
            split at h1
            · simp only [Option.some.injEq] at h1
              subst h1
              simp [XlSys.setPc] at hpc
            · rename_i hc
              have := (takeOk s1 h1 (by simp at hc; omega) (by simp [hid])).1
              rw [this] at hpc
              cases hpc
          · cases h1
        | wake t =>
          simp only at hd1
          simp only [xlStep] at h1
          split at h1
          · simp only [Option.some.injEq] at h1
            subst h1
            exact hd1.2
          · cases h1
        | resume t =>
          simp only at hd1
          subst hd1
          simp only [xlStep] at h1
          split at h1
          · rename_i hid
            have := (takeOk s1 h1 (hw hid) (by simp [hid])).1
            rw [this] at hpc
            cases hpc
          · cases h1
      · cases a with
        | beginAppend t n =>
          simp only [xlStep] at h1
          split at h1
          · simp only [Option.some.injEq] at h1
            subst h1
            exact hr
          · cases h1
        | doAppend t =>
          simp only [xlStep] at h1
          split at h1
          · simp only [Option.some.injEq] at h1
            subst h1
            exact hr
          · cases h1
        | remove t w =>
          simp only at hd1
          obtain ⟨rfl, rfl⟩ := hd1
          simp only [xlStep] at h1
          split at h1
          · rename_i hid
            split at h1
            · simp only [Option.some.injEq] at h1
              subst h1
              exact hr
            · rename_i hc
              exact (takeOk s1 h1 (by simp at hc; omega) (by simp [hid])).2
          · cases h1
        | wake t =>
          simp only [xlStep] at h1
          split at h1
          · simp only [Option.some.injEq] at h1
            subst h1
            exact hr
          · cases h1
        | resume t =>
          simp only at hd1
          subst hd1
          simp only [xlStep] at h1
          split at h1
          · rename_i hid
            exact (takeOk s1 h1 (hw hid) (by simp [hid])).2
          · cases h1
    · cases h

/-- **C57 (partial).** If one thread only takes from the list (as the thread calling the send function does)
and it is never woken up spuriously, a waiting removal always returns a node.  What is missing is the case
of a spurious wake-up, which POSIX allows: see `C57_spurious_wakeup_violated`. -/
theorem C57_waiting_removal_partial (c : Nat) (next : Nat → Option Nat) (nodes : List Nat) (hn : nodes.Nodup)
    (as : List XlAct) (s : XlSys) (hd : XlDisciplined c (xlStart next nodes) as)
    (h : xlRun (xlStart next nodes) as = some s) : ∀ r ∈ s.results, r ≠ none :=
  xlDisciplined_inv c as _ s [] (xlInv_start next nodes hn) (by simp [xlStart]) (by simp [xlStart]) hd h

/-- The hypotheses are met when the consumer waits before the node arrives. -/
example : XlDisciplined 5 (xlStart (fun _ => none) [1])
    [.remove 5 true, .beginAppend 0 1, .doAppend 0, .wake 5, .resume 5] := by
  simp [XlDisciplined, xlStep, xlStart, xlInit, XlSys.setPc, Xlist.setNext, xlAppend, XlSys.take, xlTake]

/-- A single caller that is woken up spuriously gets a null pointer for its packet buffer, which
`davs2_pack_es_unit` dereferences (davs2.cc:109-115). -/
theorem C57_spurious_wakeup_violated :
    ∃ s, xlRun (xlStart (fun _ => none) [1]) [.remove 5 true, .wake 5, .resume 5] = some s ∧
      s.results = [none] := ⟨_, rfl, by decide⟩

end Davs2
