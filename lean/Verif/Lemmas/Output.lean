import Verif.Model.Output
import Verif.Spec.Output

namespace Davs2

/-- The waiting list is sorted by picture order count. -/
def PocSorted (l : List OutPic) : Prop := l.Pairwise (fun a b => a.poc ≤ b.poc)

theorem insertPic_perm (p : OutPic) (l : List OutPic) : (insertPic p l).Perm (p :: l) := by
  induction l with
  | nil => exact List.Perm.refl _
  | cons c rest ih =>
    unfold insertPic
    split
    · exact (List.Perm.cons c ih).trans (List.Perm.swap p c rest)
    · exact List.Perm.refl _

theorem insertPic_length (p : OutPic) (l : List OutPic) :
    (insertPic p l).length = l.length + 1 := by
  simpa using (insertPic_perm p l).length_eq

theorem insertPic_sorted (p : OutPic) (l : List OutPic) (h : PocSorted l) :
    PocSorted (insertPic p l) := by
  induction l with
  | nil => exact List.pairwise_singleton _ _
  | cons c rest ih =>
    unfold PocSorted at h
    rw [List.pairwise_cons] at h
    unfold insertPic
    split
    · rename_i hc
      unfold PocSorted
      rw [List.pairwise_cons]
      refine ⟨fun a ha => ?_, ih h.2⟩
      have ha' := (insertPic_perm p rest).mem_iff.1 ha
      rcases List.mem_cons.1 ha' with rfl | hr
      · omega
      · exact h.1 a hr
    · rename_i hc
      unfold PocSorted
      rw [List.pairwise_cons, List.pairwise_cons]
      refine ⟨fun a ha => ?_, h.1, h.2⟩
      rcases List.mem_cons.1 ha with rfl | hr
      · omega
      · have := h.1 a hr; omega

/-- What one critical section can do to the list. -/
theorem getOne_cases (fl : Bool) (fin fout : Nat) (o : OutList) :
    (o.pics = [] ∧ getOne fl fin fout o = (.none, o)) ∨
    (∃ f rest, o.pics = f :: rest ∧
      ((getOne fl fin fout o = (.sleep, o) ∧ f.poc > o.output ∧
          ¬ (fl = true ∧ fin = fout + o.num) ∧ o.pics.length < 8) ∨
       getOne fl fin fout o = (.pic f, ⟨rest, f.poc + 1, o.num - 1⟩))) := by
  fun_induction getOne fl fin fout o with
  | case1 o h => exact Or.inl ⟨h, rfl⟩
  | case2 o f rest h hp =>
    refine Or.inr ⟨f, rest, h, Or.inr ?_⟩
    rw [hp]
  | case3 o f rest h hp hgt hfl ih =>
    right
    rcases ih with ⟨h1, _⟩ | ⟨f', rest', h1, h2⟩
    · simp [h] at h1
    · simp only [h, List.cons.injEq] at h1
      obtain ⟨rfl, rfl⟩ := h1
      refine ⟨f, rest, h, ?_⟩
      rcases h2 with ⟨_, _, hn, _⟩ | h2
      · exfalso
        apply hn
        simpa using hfl
      · exact Or.inr h2
  | case4 o f rest h hp hgt hfl hlen =>
    refine Or.inr ⟨f, rest, h, Or.inl ⟨rfl, hgt, ?_, ?_⟩⟩
    · simpa using hfl
    · rw [h]; exact hlen
  | case5 o f rest h hp hgt hfl hlen => exact Or.inr ⟨f, rest, h, Or.inr rfl⟩
  | case6 o f rest h hp hgt => exact Or.inr ⟨f, rest, h, Or.inr rfl⟩

/-- Invariant of the output stage. -/
structure OutInv (s : OutSt) : Prop where
  sorted : PocSorted s.out.pics
  num : s.out.num = s.out.pics.length
  waiting : (waitingOf s.log).Perm s.out.pics
  order : InOrder s.log
  acc : (acceptedOf s.log).Perm (s.decoding ++ (s.lost ++ (s.out.pics ++ returnedOf s.log)))
  ids : ∀ p ∈ acceptedOf s.log, p.id < s.framesIn
  nodup : (acceptedOf s.log).Nodup
  fin : s.framesIn = (acceptedOf s.log).length
  fout : s.framesOut = (returnedOf s.log).length
  pend : pendingHeader s.log = if s.newSps then some s.hdr else none
  ann : Announced s.log
  inget : ∀ a b, s.pc = .inGet a b → s.newSps = false
  threads : s.numDecoders = s.numAec + 1

theorem outInit_inv (n : Nat) : OutInv (outInit n) := by
  constructor <;> simp [outInit, PocSorted, waitingOf, InOrder, acceptedOf, returnedOf,
    pendingHeader, Announced]

theorem OutInv.retHeader {s : OutSt} (h : OutInv s) (hn : s.newSps = true) :
    OutInv (retHeader s) := by
  have hp := h.pend
  rw [hn] at hp
  refine ⟨h.sorted, h.num, h.waiting, h.order, h.acc, h.ids, h.nodup, h.fin, h.fout, ?_, ?_, ?_,
    h.threads⟩
  · simp [Davs2.retHeader, pendingHeader]
  · exact ⟨by simpa using hp, h.ann⟩
  · simp [Davs2.retHeader]

theorem OutInv.retNone {s : OutSt} (h : OutInv s) (hn : s.newSps = false) :
    OutInv (retNone s) := by
  have hp := h.pend
  rw [hn] at hp
  refine ⟨h.sorted, h.num, h.waiting, h.order, h.acc, h.ids, h.nodup, h.fin, h.fout, ?_, ?_, ?_,
    h.threads⟩
  · exact h.pend
  · exact ⟨by simpa using hp, h.ann⟩
  · simp [Davs2.retNone]

theorem OutInv.retFrame {s : OutSt} (h : OutInv s) (hn : s.newSps = false) (fl : Bool)
    {f : OutPic} {rest : List OutPic} (hp : s.out.pics = f :: rest) (o : Int) :
    OutInv (retFrame s ⟨rest, o, s.out.num - 1⟩ f fl) := by
  have hs := h.sorted
  have hw := h.waiting
  have ha := h.acc
  have hnum := h.num
  rw [hp] at hs hw ha hnum
  unfold PocSorted at hs
  rw [List.pairwise_cons] at hs
  have hpd := h.pend
  rw [hn] at hpd
  refine ⟨hs.2, ?_, ?_, ?_, ?_, h.ids, h.nodup, h.fin, ?_, h.pend, ⟨by simpa using hpd, h.ann⟩,
    ?_, h.threads⟩
  · simp [Davs2.retFrame, hnum]
  · show ((waitingOf s.log).erase f).Perm rest
    have := hw.erase f
    simpa using this
  · refine ⟨hw.mem_iff.2 (List.mem_cons_self ..), fun q hq => ?_, h.order⟩
    rcases List.mem_cons.1 (hw.mem_iff.1 hq) with rfl | hr
    · exact Int.le_refl _
    · exact hs.1 q hr
  · show (acceptedOf s.log).Perm (s.decoding ++ (s.lost ++ (rest ++ f :: returnedOf s.log)))
    refine ha.trans ?_
    refine List.Perm.append_left _ (List.Perm.append_left _ ?_)
    rw [List.cons_append]
    exact List.perm_middle.symm
  · show s.framesOut + 1 = (f :: returnedOf s.log).length
    rw [List.length_cons, h.fout]
  · simp [Davs2.retFrame]

theorem OutInv.runGetOne {s : OutSt} (h : OutInv s) (hn : s.newSps = false) (fl w : Bool) :
    OutInv (runGetOne s fl w) := by
  unfold Davs2.runGetOne
  rcases getOne_cases s.flushing s.framesIn s.framesOut s.out with ⟨he, hg⟩ | ⟨f, rest, hp, hg | hg⟩
  · rw [hg]
    refine ⟨h.sorted, h.num, h.waiting, h.order, h.acc, h.ids, h.nodup, h.fin, h.fout, h.pend,
      h.ann, ?_, h.threads⟩
    simp
  · rw [hg.1]
    refine ⟨h.sorted, h.num, h.waiting, h.order, h.acc, h.ids, h.nodup, h.fin, h.fout, h.pend,
      h.ann, ?_, h.threads⟩
    intro a b _; exact hn
  · rw [hg]
    exact h.retFrame hn fl hp _

theorem tickOut_inv {s s' : OutSt} (h : OutInv s) (ht : tickOut s = some s') : OutInv s' := by
  unfold tickOut at ht
  split at ht
  · cases ht
  · split at ht
    · split at ht <;> cases ht
      · exact h.retHeader (by assumption)
      · exact h.runGetOne (by simp_all) _ _
    · split at ht <;> cases ht
      · exact h.retHeader (by assumption)
      · exact h.retNone (by simp_all)
  · rename_i hpc
    cases ht
    exact h.runGetOne (h.inget _ _ hpc) _ _

theorem erase_perm_of_find {l : List OutPic} {id : Nat} {p : OutPic}
    (h : l.find? (fun p => p.id == id) = some p) : l.Perm (p :: l.erase p) :=
  List.perm_cons_erase (List.mem_of_find?_eq_some h)

theorem outStep_inv {s s' : OutSt} {a : OutAct} (h : OutInv s) (hs : outStep s a = some s') :
    OutInv s' := by
  cases a with
  | parseHeader hd ns =>
    simp only [outStep] at hs
    split at hs
    · rename_i hpc
      split at hs <;> cases hs
      · refine ⟨h.sorted, h.num, h.waiting, h.order, h.acc, h.ids, h.nodup, h.fin, h.fout, ?_,
          h.ann, ?_, h.threads⟩
        · simp [pendingHeader]
        · intro a b hh; simp [hpc] at hh
      · refine ⟨h.sorted, h.num, h.waiting, h.order, h.acc, h.ids, h.nodup, h.fin, h.fout, ?_,
          h.ann, ?_, h.threads⟩
        · simp only [pendingHeader, h.pend]
          cases s.newSps <;> simp
        · intro a b hh; simp [hpc] at hh
    · cases hs
  | startOutput poc =>
    simp only [outStep] at hs
    split at hs
    · cases hs
      exact ⟨h.sorted, h.num, h.waiting, h.order, h.acc, h.ids, h.nodup, h.fin, h.fout, h.pend,
        h.ann, h.inget, h.threads⟩
    · cases hs
  | accept poc bf =>
    simp only [outStep] at hs
    split at hs
    · rename_i hpc
      cases hs
      refine ⟨h.sorted, h.num, h.waiting, h.order, ?_, ?_, ?_, ?_, h.fout, h.pend, h.ann, ?_,
        h.threads⟩
      · exact List.Perm.cons _ h.acc
      · intro p hp
        show p.id < s.framesIn + 1
        rcases List.mem_cons.1 hp with rfl | hr
        · exact Nat.lt_succ_self _
        · have := h.ids p hr; omega
      · show (⟨poc, s.framesIn⟩ :: acceptedOf s.log).Nodup
        rw [List.nodup_cons]
        refine ⟨fun hm => ?_, h.nodup⟩
        have := h.ids _ hm
        simp at this
      · show s.framesIn + 1 = (⟨poc, s.framesIn⟩ :: acceptedOf s.log).length
        rw [List.length_cons, ← h.fin]
      · intro a b hh; simp [hpc] at hh
    · cases hs
  | skip =>
    simp only [outStep] at hs
    split at hs
    · split at hs
      · cases hs
        exact ⟨h.sorted, h.num, h.waiting, h.order, h.acc, h.ids, h.nodup, h.fin, h.fout, h.pend,
          h.ann, h.inget, h.threads⟩
      · cases hs
    · cases hs
  | finish id =>
    simp only [outStep] at hs
    split at hs
    · rename_i p hf
      cases hs
      have hpe := erase_perm_of_find hf
      refine ⟨insertPic_sorted _ _ h.sorted, ?_, ?_, h.order, ?_, h.ids, h.nodup, h.fin, h.fout,
        h.pend, h.ann, h.inget, h.threads⟩
      · show s.out.num + 1 = _
        simp [sendToOutput, insertPic_length, h.num]
      · show (p :: waitingOf s.log).Perm (insertPic p s.out.pics)
        exact (List.Perm.cons p h.waiting).trans (insertPic_perm p _).symm
      · show (acceptedOf s.log).Perm
          (s.decoding.erase p ++ (s.lost ++ (insertPic p s.out.pics ++ returnedOf s.log)))
        refine h.acc.trans ?_
        refine (List.Perm.append_right _ hpe).trans ?_
        rw [List.cons_append]
        refine (List.perm_middle (l₁ := s.decoding.erase p)).symm.trans ?_
        refine List.Perm.append_left _ ?_
        refine (List.perm_middle (l₁ := s.lost)).symm.trans ?_
        refine List.Perm.append_left _ ?_
        exact List.Perm.append_right _ (insertPic_perm p _).symm
    · cases hs
  | lose id =>
    simp only [outStep] at hs
    split at hs
    · rename_i p hf
      cases hs
      have hpe := erase_perm_of_find hf
      refine ⟨h.sorted, h.num, h.waiting, h.order, ?_, h.ids, h.nodup, h.fin, h.fout,
        h.pend, h.ann, h.inget, h.threads⟩
      show (acceptedOf s.log).Perm
          (s.decoding.erase p ++ (p :: s.lost ++ (s.out.pics ++ returnedOf s.log)))
      refine h.acc.trans ?_
      refine (List.Perm.append_right _ hpe).trans ?_
      rw [List.cons_append]
      exact (List.perm_middle (l₁ := s.decoding.erase p)).symm
    · cases hs
  | recv =>
    simp only [outStep] at hs
    split at hs
    · split at hs <;> cases hs
      · refine ⟨h.sorted, h.num, h.waiting, h.order, h.acc, h.ids, h.nodup, h.fin, h.fout, h.pend,
          h.ann, ?_, h.threads⟩
        simp
      · exact h.retNone (by simp_all)
    · cases hs
  | flush =>
    simp only [outStep] at hs
    split at hs
    · cases hs
      refine ⟨h.sorted, h.num, h.waiting, h.order, h.acc, h.ids, h.nodup, h.fin, h.fout, h.pend,
        h.ann, ?_, h.threads⟩
      simp
    · cases hs
  | tick => exact tickOut_inv h hs

theorem outRun_inv {s s' : OutSt} {as : List OutAct} (h : OutInv s) (hr : outRun s as = some s') :
    OutInv s' := by
  induction as generalizing s with
  | nil => cases hr; exact h
  | cons a as ih =>
    simp only [outRun] at hr
    split at hr
    · rename_i s1 h1
      exact ih (outStep_inv h h1) hr
    · cases hr

theorem outRun_append {s : OutSt} {as bs : List OutAct} :
    outRun s (as ++ bs) = (outRun s as).bind fun s' => outRun s' bs := by
  induction as generalizing s with
  | nil => rfl
  | cons a as ih =>
    simp only [List.cons_append, outRun]
    cases outStep s a with
    | none => rfl
    | some s1 => exact ih

end Davs2

namespace Davs2

/-- Facts about a call in progress. -/
structure CallInv (s : OutSt) : Prop where
  flushing : ∀ w, (s.pc = .loop true w ∨ s.pc = .inGet true w) → s.flushing = true
  eight : ∀ fl, (s.pc = .loop fl true ∨ s.pc = .inGet fl true) → s.framesIn ≥ s.framesOut + 8
  inget : ∀ fl w, s.pc = .inGet fl w → s.framesIn > s.framesOut ∧ (w = true ∨ fl = true)

theorem outInit_call (n : Nat) : CallInv (outInit n) := by
  constructor <;> simp [outInit]

theorem CallInv.idle {s : OutSt} (h : s.pc = .idle) : CallInv s := by
  constructor <;> simp [h]

theorem CallInv.runGetOne {s : OutSt} (h : CallInv s) (hin : s.framesIn > s.framesOut)
    {fl w : Bool} (hpc : s.pc = .loop fl w ∨ s.pc = .inGet fl w) (hw : w = true ∨ fl = true) :
    CallInv (runGetOne s fl w) := by
  unfold Davs2.runGetOne
  rcases getOne_cases s.flushing s.framesIn s.framesOut s.out with ⟨he, hg⟩ | ⟨f, rest, hp, hg | hg⟩
  · rw [hg]
    refine ⟨?_, ?_, ?_⟩
    · intro w' h'
      simp only [ApiPc.loop.injEq, reduceCtorEq, or_false] at h'
      rw [h'.1] at hpc
      exact h.flushing _ hpc
    · intro fl' h'
      simp only [ApiPc.loop.injEq, reduceCtorEq, or_false] at h'
      rw [h'.2] at hpc
      exact h.eight _ hpc
    · simp
  · rw [hg.1]
    refine ⟨?_, ?_, ?_⟩
    · intro w' h'
      simp only [ApiPc.inGet.injEq, reduceCtorEq, false_or] at h'
      rw [h'.1] at hpc
      exact h.flushing _ hpc
    · intro fl' h'
      simp only [ApiPc.inGet.injEq, reduceCtorEq, false_or] at h'
      rw [h'.2] at hpc
      exact h.eight _ hpc
    · intro fl' w' h'
      simp only [ApiPc.inGet.injEq] at h'
      obtain ⟨rfl, rfl⟩ := h'
      exact ⟨hin, hw⟩
  · rw [hg]
    exact CallInv.idle rfl

theorem outStep_call {s s' : OutSt} {a : OutAct} (hi : OutInv s) (h : CallInv s)
    (hs : outStep s a = some s') : CallInv s' := by
  cases a with
  | parseHeader hd ns =>
    simp only [outStep] at hs
    split at hs
    · rename_i hpc
      split at hs <;> cases hs <;> exact CallInv.idle hpc
    · cases hs
  | startOutput poc =>
    simp only [outStep] at hs
    split at hs
    · rename_i hpc
      cases hs; exact CallInv.idle hpc.1
    · cases hs
  | accept poc bf =>
    simp only [outStep] at hs
    split at hs
    · rename_i hpc
      cases hs; exact CallInv.idle hpc
    · cases hs
  | skip =>
    simp only [outStep] at hs
    split at hs
    · rename_i hpc _
      split at hs
      · cases hs; exact CallInv.idle hpc
      · cases hs
    · cases hs
  | finish id =>
    simp only [outStep] at hs
    split at hs
    · cases hs; exact ⟨h.flushing, h.eight, h.inget⟩
    · cases hs
  | lose id =>
    simp only [outStep] at hs
    split at hs
    · cases hs; exact ⟨h.flushing, h.eight, h.inget⟩
    · cases hs
  | recv =>
    simp only [outStep] at hs
    split at hs
    · split at hs <;> cases hs
      · refine ⟨by simp, ?_, by simp⟩
        intro fl h'
        simp only [ApiPc.loop.injEq, reduceCtorEq, or_false] at h'
        have hw := h'.2
        have ht := hi.threads
        simp only [waitNewFrame, decide_eq_true_eq] at hw
        show s.framesIn ≥ s.framesOut + 8
        omega
      · exact CallInv.idle rfl
    · cases hs
  | flush =>
    simp only [outStep] at hs
    split at hs
    · cases hs
      refine ⟨by simp, ?_, by simp⟩
      intro fl h'
      simp only [ApiPc.loop.injEq, reduceCtorEq, or_false] at h'
      have hw := h'.2
      have ht := hi.threads
      simp only [waitNewFrame, decide_eq_true_eq] at hw
      show s.framesIn ≥ s.framesOut + 8
      omega
    · cases hs
  | tick =>
    simp only [outStep, tickOut] at hs
    split at hs
    · cases hs
    · rename_i fl w hpc
      split at hs
      · rename_i hc
        split at hs <;> cases hs
        · exact CallInv.idle rfl
        · exact h.runGetOne hc.1 (Or.inl hpc) hc.2
      · split at hs <;> cases hs <;> exact CallInv.idle rfl
    · rename_i fl w hpc
      cases hs
      exact h.runGetOne (h.inget _ _ hpc).1 (Or.inr hpc) (h.inget _ _ hpc).2

theorem outRun_call {s s' : OutSt} {as : List OutAct} (hi : OutInv s) (h : CallInv s)
    (hr : outRun s as = some s') : CallInv s' := by
  induction as generalizing s with
  | nil => cases hr; exact h
  | cons a as ih =>
    simp only [outRun] at hr
    split at hr
    · rename_i s1 h1
      exact ih (outStep_inv hi h1) (outStep_call hi h h1) hr
    · cases hr

/-- `lose` is the only action that loses a picture. -/
theorem outStep_lost {s s' : OutSt} {a : OutAct} (hs : outStep s a = some s')
    (ha : ∀ id, a ≠ .lose id) : s'.lost = s.lost := by
  cases a with
  | lose id => exact absurd rfl (ha id)
  | tick =>
    simp only [outStep, tickOut, runGetOne] at hs
    repeat' split at hs
    all_goals first | cases hs | skip
    all_goals rfl
  | parseHeader _ _ | startOutput _ | accept _ _ | skip | finish _ | recv | flush =>
    simp only [outStep] at hs
    repeat' split at hs
    all_goals first | cases hs | skip
    all_goals rfl

theorem outRun_lost {s s' : OutSt} {as : List OutAct} (hr : outRun s as = some s')
    (ha : ∀ id, OutAct.lose id ∉ as) : s'.lost = s.lost := by
  induction as generalizing s with
  | nil => cases hr; rfl
  | cons a as ih =>
    simp only [outRun] at hr
    split at hr
    · rename_i s1 h1
      rw [ih hr (fun id h => ha id (List.mem_cons_of_mem _ h))]
      exact outStep_lost h1 (fun id h => ha id (h ▸ List.mem_cons_self ..))
    · cases hr

/-- Counting: accepted pictures are being decoded, lost, waiting or returned. -/
theorem OutInv.count {s : OutSt} (h : OutInv s) :
    s.framesIn = s.decoding.length + s.lost.length + s.out.num + s.framesOut := by
  have := h.acc.length_eq
  simp only [List.length_append] at this
  rw [h.fin, h.fout, h.num]
  omega

/-- With everything finished, one critical section yields the head. -/
theorem getOne_ready {s : OutSt} (h : OutInv s) (hc : CallInv s) (hd : s.decoding = [])
    (hl : s.lost = []) (hin : s.framesIn > s.framesOut) {fl w : Bool}
    (hpc : s.pc = .loop fl w ∨ s.pc = .inGet fl w) (hw : w = true ∨ fl = true) :
    ∃ f rest, s.out.pics = f :: rest ∧
      getOne s.flushing s.framesIn s.framesOut s.out = (.pic f, ⟨rest, f.poc + 1, s.out.num - 1⟩) := by
  have hcount := h.count
  rw [hd, hl] at hcount
  simp only [List.length_nil] at hcount
  have hnum := h.num
  rcases getOne_cases s.flushing s.framesIn s.framesOut s.out with ⟨he, hg⟩ | ⟨f, rest, hp, hg | hg⟩
  · rw [he] at hnum
    simp only [List.length_nil] at hnum
    omega
  · exfalso
    obtain ⟨_, _, hn, hlen⟩ := hg
    rcases hw with rfl | rfl
    · have := hc.eight fl hpc
      omega
    · exact hn ⟨hc.flushing w hpc, by omega⟩
  · exact ⟨f, rest, hp, hg⟩

end Davs2
