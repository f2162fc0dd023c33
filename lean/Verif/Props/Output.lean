import Verif.Lemmas.Output

/-!
# C13, C14, C15, C53: reordering, announcing and draining

States are those reachable from a freshly opened decoder by any schedule of API
calls and worker completions.
-/

namespace Davs2

/-- C13: whatever the interleaving of completions and calls, every picture
returned was finished, not yet returned, and had the smallest picture order
count of all pictures waiting at that moment. -/
theorem C13_smallest_first (threads : Nat) (acts : List OutAct) (s : OutSt)
    (hr : outRun (outInit threads) acts = some s) : InOrder s.log :=
  (outRun_inv (outInit_inv threads) hr).order

/-- C13: no picture is returned twice, none is returned that was not accepted,
and an accepted picture is at every moment exactly one of: being decoded, lost by
a task without slice data, waiting, returned. -/
theorem C13_conserved (threads : Nat) (acts : List OutAct) (s : OutSt)
    (hr : outRun (outInit threads) acts = some s) :
    (returnedOf s.log).Nodup ∧
    (∀ p ∈ returnedOf s.log, p ∈ acceptedOf s.log) ∧
    (waitingOf s.log).Perm s.out.pics ∧
    (acceptedOf s.log).Perm (s.decoding ++ (s.lost ++ (waitingOf s.log ++ returnedOf s.log))) := by
  have h := outRun_inv (outInit_inv threads) hr
  have hn := h.acc.nodup_iff.1 h.nodup
  refine ⟨?_, fun p hp => h.acc.mem_iff.2 (by simp [hp]), h.waiting, ?_⟩
  · have h1 := (List.nodup_append.1 hn).2.1
    have h2 := (List.nodup_append.1 h1).2.1
    exact (List.nodup_append.1 h2).2.1
  · refine h.acc.trans ?_
    exact List.Perm.append_left _ (List.Perm.append_left _ (List.Perm.append_right _ h.waiting.symm))

/-- Three pictures finished out of order come back in order. -/
example : ∃ s, outRun (outInit 1)
      [.accept 0 false, .accept 2 false, .accept 1 false, .finish 1, .finish 2, .finish 0,
       .flush, .tick, .flush, .tick, .flush, .tick, .flush, .tick] = some s ∧
    s.log.take 4 = [.retNone, .retFrame ⟨2, 1⟩, .retFrame ⟨1, 2⟩, .retFrame ⟨0, 0⟩] := by
  decide +kernel

/-- C14 (size-changing headers): a header is announced only while pending, with
the contents last parsed, once, and no picture is returned while one is
pending. -/
theorem C14_announced_once_partial (threads : Nat) (acts : List OutAct) (s : OutSt)
    (hr : outRun (outInit threads) acts = some s) : Announced s.log :=
  (outRun_inv (outInit_inv threads) hr).ann

/-- C14: a receive or flush call made while a header is pending announces it at
once: the call returns at its first step, and its result is that header. -/
theorem C14_announced_next_partial (threads : Nat) (acts : List OutAct) (s : OutSt) (h : Nat)
    (hr : outRun (outInit threads) acts = some s) (hidle : s.pc = .idle)
    (hp : pendingHeader s.log = some h) :
    (∃ s', outRun s [.recv, .tick] = some s' ∧ s'.pc = .idle ∧ s'.log = .retHeader h :: s.log) ∧
    (∃ s', outRun s [.flush, .tick] = some s' ∧ s'.pc = .idle ∧ s'.log = .retHeader h :: s.log) := by
  have hi := outRun_inv (outInit_inv threads) hr
  have hpend := hi.pend
  rw [hp] at hpend
  have hn : s.newSps = true := by
    cases hns : s.newSps
    · rw [hns] at hpend; simp at hpend
    · rfl
  rw [hn] at hpend
  simp only [if_true, Option.some.injEq] at hpend
  subst hpend
  constructor
  · simp only [outRun, outStep, hidle, hn, if_true, or_true, tickOut, ite_self]
    refine ⟨_, rfl, rfl, rfl⟩
  · simp only [outRun, outStep, hidle, hn, if_true, tickOut, ite_self]
    refine ⟨_, rfl, rfl, rfl⟩

example : ∃ s, outRun (outInit 2) [.parseHeader 7 true, .accept 0 false] = some s ∧
    s.pc = .idle ∧ pendingHeader s.log = some 7 := by decide +kernel

/-- The state a schedule leads to (the initial one if it is not executable); only
used to name the states of the witnesses below. -/
def finalOf (threads : Nat) (acts : List OutAct) : OutSt :=
  (outRun (outInit threads) acts).getD (outInit threads)

/-- A state in which the API thread spins for ever. -/
theorem spin (s : OutSt) (ht : outStep s .tick = some s) (hp : s.pc ≠ .idle) (n : Nat) :
    ∃ s', outRun s (List.replicate n .tick) = some s' ∧ s'.pc ≠ .idle ∧ s'.log = s.log := by
  induction n with
  | zero => exact ⟨s, rfl, hp, rfl⟩
  | succ n ih =>
    obtain ⟨s', hr, hp', hl⟩ := ih
    refine ⟨s', ?_, hp', hl⟩
    rw [List.replicate_succ]
    simp only [outRun, ht]
    exact hr

/-- C14 fails as stated: a header that keeps the picture size (but changes, for
example, frame rate or bit depth) is never announced; the pictures that follow
it are returned without an announcement. -/
theorem C14_same_size_violated :
    ∃ acts s p, outRun (outInit 1) acts = some s ∧ .sameSize 2 ∈ s.log ∧
      s.log.head? = some (.retFrame p) ∧ .accepted p ∈ s.log.takeWhile (· ≠ .sameSize 2) ∧
      .retHeader 2 ∉ s.log :=
  ⟨[.parseHeader 1 true, .recv, .tick, .parseHeader 2 false, .accept 0 false, .finish 0, .flush,
    .tick], finalOf 1 [.parseHeader 1 true, .recv, .tick, .parseHeader 2 false, .accept 0 false,
    .finish 0, .flush, .tick], ⟨0, 0⟩, by decide +kernel, by decide +kernel, by decide +kernel,
    by decide +kernel, by decide +kernel⟩

/-- C14, related defect: the new header can be announced before pictures of the
previous sequence, which are then returned after it. -/
theorem C14_old_picture_after_new_header_violated :
    ∃ acts s, outRun (outInit 1) acts = some s ∧
      s.log = [.retFrame ⟨0, 0⟩, .retHeader 2, .finished ⟨0, 0⟩, .header 2, .accepted ⟨0, 0⟩,
        .retHeader 1, .header 1] :=
  ⟨[.parseHeader 1 true, .recv, .tick, .accept 0 false, .parseHeader 2 true, .finish 0, .recv,
    .tick, .flush, .tick], finalOf 1 [.parseHeader 1 true, .recv, .tick, .accept 0 false,
    .parseHeader 2 true, .finish 0, .recv, .tick, .flush, .tick], by decide +kernel,
    by decide +kernel⟩

/-- A call in progress returns as soon as every accepted picture has been
finished, provided no task lost its picture.  Both for flush calls (C15) and
receive calls (C53), and for every interleaving up to that point. -/
theorem C15_call_returns_partial (threads : Nat) (acts : List OutAct) (s : OutSt)
    (hr : outRun (outInit threads) acts = some s) (hno : ∀ id, OutAct.lose id ∉ acts)
    (hd : s.decoding = []) (hpc : s.pc ≠ .idle) :
    ∃ s', outStep s .tick = some s' ∧ s'.pc = .idle ∧
      (s.framesIn > s.framesOut → s.newSps = false → (∃ fl w, s.pc = .loop fl w ∧ (fl || w) = true) →
        ∃ p, s'.log = .retFrame p :: s.log ∧ p ∈ waitingOf s.log) := by
  have hi := outRun_inv (outInit_inv threads) hr
  have hc := outRun_call (outInit_inv threads) (outInit_call threads) hr
  have hl : s.lost = [] := outRun_lost hr hno
  cases hp : s.pc with
  | idle => exact absurd hp hpc
  | loop fl w =>
    simp only [outStep, tickOut, hp]
    by_cases hcond : s.framesIn > s.framesOut ∧ (w = true ∨ fl = true)
    · rw [if_pos hcond]
      cases hns : s.newSps
      · obtain ⟨f, rest, hpics, hg⟩ := getOne_ready hi hc hd hl hcond.1 (Or.inl hp) hcond.2
        simp only [Bool.false_eq_true, if_false]
        refine ⟨_, rfl, ?_, ?_⟩
        · simp [runGetOne, hg, retFrame]
        · intro _ _ _
          refine ⟨f, ?_, ?_⟩
          · simp [runGetOne, hg, retFrame]
          · exact hi.waiting.mem_iff.2 (by simp [hpics])
      · exact ⟨_, rfl, rfl, fun _ hh => by simp at hh⟩
    · rw [if_neg hcond]
      cases hns : s.newSps
      · refine ⟨_, rfl, rfl, ?_⟩
        rintro h1 _ ⟨fl', w', h2, h3⟩
        simp only [ApiPc.loop.injEq] at h2
        obtain ⟨rfl, rfl⟩ := h2
        exfalso
        apply hcond
        refine ⟨h1, ?_⟩
        cases fl <;> cases w <;> simp_all
      · exact ⟨_, rfl, rfl, fun _ hh => by simp at hh⟩
  | inGet fl w =>
    obtain ⟨f, rest, hpics, hg⟩ := getOne_ready hi hc hd hl (hc.inget _ _ hp).1 (Or.inr hp)
      (hc.inget _ _ hp).2
    simp only [outStep, tickOut, hp]
    refine ⟨_, rfl, ?_, ?_⟩
    · simp [runGetOne, hg, retFrame]
    · rintro _ _ ⟨fl', w', h2, _⟩
      cases h2

/-- A worker can always finish a picture it is decoding, whatever the API thread
is doing. -/
theorem C15_finish_enabled (s : OutSt) (p : OutPic) (hp : p ∈ s.decoding) :
    ∃ s', outStep s (.finish p.id) = some s' := by
  simp only [outStep]
  cases hf : s.decoding.find? (fun q => q.id == p.id) with
  | some q => exact ⟨_, rfl⟩
  | none =>
    rw [List.find?_eq_none] at hf
    exact absurd (beq_self_eq_true p.id) (hf p hp)

/-- Flushing `n` times. -/
def flushTimes (n : Nat) : List OutAct :=
  (List.replicate n [OutAct.flush, .tick]).flatten

theorem drain (s : OutSt) (hi : OutInv s) (hc : CallInv s) (hidle : s.pc = .idle)
    (hd : s.decoding = []) (hl : s.lost = []) (hn : s.newSps = false) :
    ∃ s', outRun s (flushTimes (s.out.pics.length + 1)) = some s' ∧ s'.pc = .idle ∧
      s'.log = .retNone :: ((s.out.pics.map OutEv.retFrame).reverse ++ s.log) := by
  induction hpl : s.out.pics generalizing s with
  | nil =>
    have hcount := hi.count
    have hnum := hi.num
    rw [hd, hl] at hcount
    rw [hpl] at hnum
    simp only [List.length_nil] at hcount hnum
    refine ⟨Davs2.retNone { s with flushing := true, pc := .loop true (waitNewFrame s) }, ?_, rfl, ?_⟩
    · show outRun s [.flush, .tick] = _
      simp only [outRun, outStep, hidle, if_true, tickOut, hn]
      rw [if_neg (by omega)]
      simp
    · simp [Davs2.retNone]
  | cons f rest ih =>
    have hcount := hi.count
    have hnum := hi.num
    rw [hd, hl] at hcount
    rw [hpl] at hnum
    simp only [List.length_nil, List.length_cons] at hcount hnum
    have h1 : outStep s .flush = some { s with flushing := true, pc := .loop true (waitNewFrame s) } := by
      simp only [outStep, hidle, if_true]
    have hi1 := outStep_inv hi h1
    have hc1 := outStep_call hi hc h1
    have hin : s.framesIn > s.framesOut := by omega
    obtain ⟨f', rest', hp', hg⟩ := getOne_ready hi1 hc1 hd hl hin (Or.inl rfl) (Or.inr rfl)
    rw [show ({ s with flushing := true, pc := .loop true (waitNewFrame s) } : OutSt).out.pics
      = s.out.pics from rfl, hpl] at hp'
    simp only [List.cons.injEq] at hp'
    obtain ⟨rfl, rfl⟩ := hp'
    have h2 : outStep { s with flushing := true, pc := .loop true (waitNewFrame s) } .tick =
        some (retFrame { s with flushing := true, pc := .loop true (waitNewFrame s) }
          ⟨rest, f.poc + 1, s.out.num - 1⟩ f true) := by
      simp only [outStep, tickOut, hn]
      rw [if_pos (by exact ⟨hin, Or.inr trivial⟩)]
      simp only [Bool.false_eq_true, if_false, runGetOne]
      simp only at hg
      rw [hg]
    have hi2 := outStep_inv hi1 h2
    have hc2 := outStep_call hi1 hc1 h2
    obtain ⟨s', hr', hpc', hlog'⟩ := ih _ hi2 hc2 rfl hd hl hn rfl
    refine ⟨s', ?_, hpc', ?_⟩
    · have : flushTimes ((f :: rest).length + 1) = .flush :: .tick :: flushTimes (rest.length + 1) := by
        simp [flushTimes, List.replicate_succ]
      rw [this]
      simp only [outRun, h1, h2]
      exact hr'
    · rw [hlog']
      simp [retFrame]

/-- C15 (no task lost its picture): once all accepted pictures are finished,
flush calls return every one of them, in order of picture order count, and then
report the end. -/
theorem C15_flush_drains_partial (threads : Nat) (acts : List OutAct) (s : OutSt)
    (hr : outRun (outInit threads) acts = some s) (hno : ∀ id, OutAct.lose id ∉ acts)
    (hd : s.decoding = []) (hidle : s.pc = .idle) (hn : pendingHeader s.log = none) :
    ∃ (s' : OutSt) (l : List OutPic), outRun s (flushTimes (l.length + 1)) = some s' ∧
      l.Perm (waitingOf s.log) ∧ l.Pairwise (fun a b => a.poc ≤ b.poc) ∧
      s'.log = .retNone :: ((l.map OutEv.retFrame).reverse ++ s.log) ∧
      (∀ p, p ∈ returnedOf s'.log ↔ p ∈ acceptedOf s.log) := by
  have hi := outRun_inv (outInit_inv threads) hr
  have hc := outRun_call (outInit_inv threads) (outInit_call threads) hr
  have hl : s.lost = [] := outRun_lost hr hno
  have hns : s.newSps = false := by
    have := hi.pend
    rw [hn] at this
    cases h : s.newSps
    · rfl
    · rw [h] at this; simp at this
  obtain ⟨s', hr', hpc', hlog⟩ := drain s hi hc hidle hd hl hns
  refine ⟨s', s.out.pics, hr', hi.waiting.symm, hi.sorted, hlog, ?_⟩
  have hret : ∀ (l : List OutPic) (t : List OutEv), returnedOf (l.map OutEv.retFrame ++ t) =
      l ++ returnedOf t := by
    intro l t
    induction l with
    | nil => rfl
    | cons a l ih => simp [returnedOf, ih]
  intro p
  rw [hlog, ← List.map_reverse]
  show p ∈ returnedOf (s.out.pics.reverse.map OutEv.retFrame ++ s.log) ↔ _
  rw [hret, hi.acc.mem_iff, hd, hl]
  simp

/-- Two pictures sent, finished out of order. -/
example : ∃ s, outRun (outInit 1)
      [.parseHeader 5 true, .recv, .tick, .accept 1 false, .accept 0 false, .finish 1, .finish 0]
      = some s ∧ s.decoding = [] ∧ s.pc = .idle ∧ pendingHeader s.log = none ∧
      waitingOf s.log ≠ [] := by decide +kernel

/-- C15 fails as stated: a picture accepted without slice data is counted as
taken in but never reaches the waiting list, and the flush call never returns. -/
theorem C15_flush_hangs_violated :
    ∃ acts s, outRun (outInit 1) acts = some s ∧ acceptedOf s.log = [⟨0, 0⟩] ∧ s.decoding = [] ∧
      ∀ n, ∃ s', outRun s (List.replicate n .tick) = some s' ∧ s'.pc ≠ .idle ∧ s'.log = s.log := by
  refine ⟨[.accept 0 false, .lose 0, .flush], finalOf 1 [.accept 0 false, .lose 0, .flush],
    by decide +kernel, by decide +kernel, by decide +kernel, ?_⟩
  exact spin _ (by decide +kernel) (by decide +kernel)

/-- C53: a receive call never waits for data the caller has not sent yet: it
only enters the waiting loop with at least eight pictures in flight, and with all
of those finished it returns one. -/
theorem C53_recv_does_not_starve_partial (threads : Nat) (acts : List OutAct) (s : OutSt)
    (hr : outRun (outInit threads) acts = some s) (hno : ∀ id, OutAct.lose id ∉ acts)
    (hd : s.decoding = []) (hidle : s.pc = .idle) :
    ∃ s', (outRun s [.recv] = some s' ∨ outRun s [.recv, .tick] = some s') ∧ s'.pc = .idle := by
  by_cases h : s.toOutput ≠ 0 ∨ s.newSps = true
  · have h1 : outStep s .recv = some { s with pc := .loop false (waitNewFrame s) } := by
      simp only [outStep, hidle, if_true]
      rw [if_pos h]
    have hr1 : outRun (outInit threads) (acts ++ [.recv]) =
        some { s with pc := .loop false (waitNewFrame s) } := by
      rw [outRun_append, hr]
      simp only [Option.bind_some, outRun, h1]
    obtain ⟨s', hs', hp', _⟩ := C15_call_returns_partial threads (acts ++ [.recv])
      { s with pc := .loop false (waitNewFrame s) } hr1
      (by intro id hm; rcases List.mem_append.1 hm with hm | hm
          · exact hno id hm
          · simp at hm) hd (by simp)
    refine ⟨s', Or.inr ?_, hp'⟩
    simp only [outRun, h1, hs']
  · refine ⟨Davs2.retNone s, Or.inl ?_, rfl⟩
    simp only [outRun, outStep, hidle, if_true]
    rw [if_neg h]

/-- Eight pictures accepted, the first lost, seven finished; then a receive
call. -/
def starve : List OutAct :=
  [.accept 0 false, .lose 0, .accept 1 false, .accept 2 false, .accept 3 false,
    .accept 4 false, .accept 5 false, .accept 6 false, .accept 7 false, .finish 1, .finish 2,
    .finish 3, .finish 4, .finish 5, .finish 6, .finish 7, .recv, .tick]

/-- With a lost picture a receive call can block for ever: seven finished
pictures behind a gap, the eighth accepted one lost. -/
theorem C53_recv_starves_violated :
    ∃ acts s, outRun (outInit 1) acts = some s ∧
      ∀ n, ∃ s', outRun s (List.replicate n .tick) = some s' ∧ s'.pc ≠ .idle ∧ s'.log = s.log := by
  exact ⟨starve, finalOf 1 starve, by decide +kernel,
    spin _ (by decide +kernel) (by decide +kernel)⟩

end Davs2
