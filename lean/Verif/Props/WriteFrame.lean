import Verif.Model.WriteFrame
import Verif.Spec.WriteFrame
import Verif.Props.SeqHeader
/-
C75: samples of delivered pictures.  C76: memory of delivered pictures.  C77: delivery does not overwrite decoder frames.
-/
namespace Davs2.Wf
open Davs2.Spec

/-! ### Samples -/

theorem fillRow (f : Nat → Nat) (src : Plane) (y : Nat) : ∀ (w : Nat) (old : Plane) (x' y' : Nat),
    (List.range w).foldl (fun (p : Plane) x => fun x' y' => if x' = x ∧ y' = y then f (src x y) else p x' y') old x' y' =
      if x' < w ∧ y' = y then f (src x' y') else old x' y'
  | 0, old, x', y' => by simp
  | w + 1, old, x', y' => by
    rw [List.range_succ, List.foldl_append]
    simp only [List.foldl_cons, List.foldl_nil]
    by_cases h : x' = w ∧ y' = y
    · obtain ⟨rfl, rfl⟩ := h
      rw [if_pos ⟨rfl, rfl⟩, if_pos ⟨by omega, rfl⟩]
    · rw [if_neg h, fillRow f src y w old x' y']
      by_cases h2 : x' < w ∧ y' = y
      · rw [if_pos h2, if_pos ⟨by omega, h2.2⟩]
      · rw [if_neg h2, if_neg (by omega)]

theorem fillPlane_eq (f : Nat → Nat) (w : Nat) (src : Plane) : ∀ (h : Nat) (old : Plane) (x' y' : Nat),
    fillPlane f w h src old x' y' = if x' < w ∧ y' < h then f (src x' y') else old x' y'
  | 0, old, x', y' => by simp [fillPlane]
  | h + 1, old, x', y' => by
    unfold fillPlane
    rw [List.range_succ, List.foldl_append]
    simp only [List.foldl_cons, List.foldl_nil]
    rw [fillRow]
    have ih := fillPlane_eq f w src h old x' y'
    unfold fillPlane at ih
    rw [ih]
    by_cases h1 : x' < w ∧ y' = h
    · rw [if_pos h1, if_pos (by omega)]
    · rw [if_neg h1]
      by_cases h2 : x' < w ∧ y' < h
      · rw [if_pos h2, if_pos (by omega)]
      · rw [if_neg h2, if_neg (by omega)]

/-- The bit depths of an accepted sequence header. -/
theorem depths_occur (m : Mem) (p : Nat) (s : SeqHdr) (q : Nat) (hp : p + 32 ≤ 8 * m.len)
    (h : parseSeqHeader m p = .ok (s, q)) :
    ((depthsOf s).coded = 8 ∨ (depthsOf s).coded = 10 ∨ (depthsOf s).coded = 12) ∧
    ((depthsOf s).output = 8 ∨ (depthsOf s).output = 10 ∨ (depthsOf s).output = 12) := by
  obtain ⟨-, -, -, -, -, -, h7, h8, -⟩ := C18_accepted m p s q hp h
  obtain ⟨-, h22⟩ := C22_depth_agrees_partial m p s q hp h
  rw [h22] at h8
  refine ⟨h8, ?_⟩
  show s.deliverDepth = 8 ∨ s.deliverDepth = 10 ∨ s.deliverDepth = 12
  unfold SeqHdr.deliverDepth
  split <;> omega

/-- **C75, partial:** whatever sequence header was accepted, in either build, a delivered plane of any size holds the decoded
samples converted to the output bit depth, if the latter is 8 or the coding depth.  Missing: other output depths, see
`C75_depth_violated`, and the brightest samples when the depth is reduced, see `C75_white_violated`. -/
theorem C75_samples_partial (m : Mem) (p : Nat) (s : SeqHdr) (q : Nat) (hp : p + 32 ≤ 8 * m.len)
    (hs : parseSeqHeader m p = .ok (s, q)) (pel : Nat) (hpel : pel = 1 ∨ pel = 2) (ha : accepted pel (depthsOf s) = true)
    (c o : Nat) (hc : s.decodeDepth = c) (ho : s.deliverDepth = o) (hn : o = 8 ∨ o = c)
    (w h : Nat) (src old : Plane) (x y : Nat) (hx : x < w) (hy : y < h)
    (hr : src x y < 2 ^ c) (hw : o ≠ c → src x y + 2 ^ (c - o - 1) < 2 ^ c) :
    writePlane pel (depthsOf s) w h src old x y = converted c o (src x y) := by
  obtain ⟨h1, h2⟩ := depths_occur m p s q hp hs
  have ed : depthsOf s = ⟨c, o⟩ := by unfold depthsOf; rw [hc, ho]
  rw [ed] at h1 h2 ha ⊢
  dsimp only at h1 h2
  have ec : c = 8 ∨ c = 10 ∨ c = 12 := by omega
  unfold writePlane
  by_cases e : o = c
  · subst e
    have ev : converted o o (src x y) = src x y := by simp [converted]
    rw [ev]
    rcases ec with rfl | rfl | rfl
    · rcases hpel with rfl | rfl
      · rw [show way 1 ⟨(8 : Nat), (8 : Nat)⟩ = .share by decide]
      · rw [show way 2 ⟨(8 : Nat), (8 : Nat)⟩ = .copy by decide]
        dsimp only
        rw [fillPlane_eq, if_pos ⟨hx, hy⟩]
        exact Nat.mod_eq_of_lt hr
    · rcases hpel with rfl | rfl
      · exact absurd ha (by decide)
      · rw [show way 2 ⟨(10 : Nat), (10 : Nat)⟩ = .share by decide]
    · rcases hpel with rfl | rfl
      · exact absurd ha (by decide)
      · rw [show way 2 ⟨(12 : Nat), (12 : Nat)⟩ = .share by decide]
  · have e8 : o = 8 := by omega
    subst e8
    have hw := hw e
    rcases ec with rfl | rfl | rfl
    · exact absurd rfl e
    · rcases hpel with rfl | rfl
      · exact absurd ha (by decide)
      · rw [show way 2 ⟨(10 : Nat), (8 : Nat)⟩ = .reduce by decide]
        dsimp only
        rw [fillPlane_eq, if_pos ⟨hx, hy⟩]
        generalize src x y = v at hw
        have e1 : reduceSample 2 ⟨(10 : Nat), (8 : Nat)⟩ v = ((if (((v + 2) / 4 : Nat) : Int) > 1023 then 1023 else
            if (((v + 2) / 4 : Nat) : Int) < 0 then 0 else (((v + 2) / 4 : Nat) : Int)) % 256).toNat := rfl
        have e2 : converted 10 8 v = min 255 ((v + 2) / 4) := rfl
        rw [e1, e2]
        have : v + 2 < 1024 := hw
        rw [if_neg (by omega), if_neg (by omega)]
        omega
    · rcases hpel with rfl | rfl
      · exact absurd ha (by decide)
      · rw [show way 2 ⟨(12 : Nat), (8 : Nat)⟩ = .reduce by decide]
        dsimp only
        rw [fillPlane_eq, if_pos ⟨hx, hy⟩]
        generalize src x y = v at hw
        have e1 : reduceSample 2 ⟨(12 : Nat), (8 : Nat)⟩ v = ((if (((v + 8) / 16 : Nat) : Int) > 4095 then 4095 else
            if (((v + 8) / 16 : Nat) : Int) < 0 then 0 else (((v + 8) / 16 : Nat) : Int)) % 256).toNat := rfl
        have e2 : converted 12 8 v = min 255 ((v + 8) / 16) := rfl
        rw [e1, e2]
        have : v + 8 < 4096 := hw
        rw [if_neg (by omega), if_neg (by omega)]
        omega

/-- The example header is one of 10-bit coding and 8-bit output. -/
example : ∃ m q s, parseSeqHeader m 0 = .ok (s, q) ∧ s.decodeDepth = 10 ∧ s.deliverDepth = 8 ∧ accepted 2 (depthsOf s) = true ∧
    converted 10 8 1021 = 255 ∧ converted 10 8 513 = 128 := by
  obtain ⟨m, q, h⟩ := legal_accepted hdrExample hdrExample_legal
  exact ⟨m, q, _, h, by decide, by decide, by decide, by decide, by decide⟩

/-- Outside the visible part nothing of the object's own memory is changed. -/
theorem C75_frame (pel : Nat) (d : Depths) (hn : way pel d ≠ .share) (w h : Nat) (src old : Plane) (x y : Nat)
    (hxy : ¬ (x < w ∧ y < h)) : writePlane pel d w h src old x y = old x y := by
  unfold writePlane
  match hq : way pel d, hn with
  | .copy, _ => dsimp only; rw [fillPlane_eq, if_neg hxy]
  | .reduce, _ => dsimp only; rw [fillPlane_eq, if_neg hxy]
  | .nothing, _ => rfl

example : way 2 ⟨10, 8⟩ ≠ .share := by decide

/-- C75 fails: with HIGH_BIT_DEPTH, when a 10-bit sequence is delivered with 8 bits, the two brightest sample values become
black. -/
theorem C75_white_violated : ∃ s : SeqSyntax, s.Legal ∧ ∃ m q hdr, parseSeqHeader m 0 = .ok (hdr, q) ∧ 
    accepted 2 (depthsOf hdr) = true ∧ hdr.decodeDepth = 10 ∧ hdr.deliverDepth = 8 ∧
    ∀ w h src old x y, x < w → y < h → (src x y = 1022 ∨ src x y = 1023) →
      writePlane 2 (depthsOf hdr) w h src old x y = 0 ∧ converted 10 8 (src x y) = 255 := by
  obtain ⟨m, q, h⟩ := legal_accepted hdrExample hdrExample_legal
  refine ⟨_, hdrExample_legal, m, q, _, h, by decide, by decide, by decide, ?_⟩
  intro w h src old x y hx hy hv
  unfold writePlane
  rw [show way 2 (depthsOf (SeqSyntax.expect hdrExample)) = .reduce by decide]
  dsimp only
  rw [fillPlane_eq, if_pos ⟨hx, hy⟩]
  rcases hv with e | e <;> rw [e] <;> decide

/-- C75 fails: for a sequence coded with 8 bits whose header asks for 10 bits, accepted in both builds, the delivered picture
keeps whatever the memory held before. -/
theorem C75_depth_violated : ∃ s : SeqSyntax, s.Legal ∧ ∃ m q hdr, parseSeqHeader m 0 = .ok (hdr, q) ∧
    depthsOf hdr = ⟨8, 10⟩ ∧
    ∀ pel ∈ [1, 2], accepted pel (depthsOf hdr) = true ∧ ∀ w h src old, writePlane pel (depthsOf hdr) w h src old = old := by
  let s : SeqSyntax := { hdrExample with profile := 0x22, samplePrec := 2, encPrec := 1 }
  have hs : s.Legal := { hdrExample_legal with profile := by decide, samplePrec := by decide, encPrec := by decide, encDefault := by decide }
  obtain ⟨m, q, h⟩ := legal_accepted s hs
  refine ⟨s, hs, m, q, _, h, by decide, ?_⟩
  have e : depthsOf (SeqSyntax.expect s) = ⟨8, 10⟩ := by decide
  rw [e]
  intro pel hp
  simp only [List.mem_cons, List.not_mem_nil, or_false] at hp
  rcases hp with rfl | rfl <;> exact ⟨by decide, fun _ _ _ _ => rfl⟩

/-! ### Memory -/

theorem quarter (w h : Nat) : h / 2 * (w / 2) ≤ w * h / 4 := by
  rw [Nat.le_div_iff_mul_le (by decide)]
  have h1 : h / 2 * 2 ≤ h := Nat.div_mul_le_self _ _
  have h2 : w / 2 * 2 ≤ w := Nat.div_mul_le_self _ _
  calc h / 2 * (w / 2) * 4 = (h / 2 * 2) * (w / 2 * 2) := by
        rw [Nat.mul_assoc, Nat.mul_assoc, show w / 2 * 4 = 2 * (w / 2 * 2) by omega]
    _ ≤ h * w := Nat.mul_le_mul h1 h2
    _ = w * h := Nat.mul_comm _ _

/-- **C76, partial:** if samples are delivered with at most the number of bytes of the build, the planes in the object's own
memory do not overlap and end within it, whatever the size of the picture.  Missing: 10-bit output in the normal build, see
`C76_memory_violated`. -/
theorem C76_memory_partial (pel : Nat) (d : Depths) (w h : Nat) (hb : bytesPerSample d ≤ pel) :
    planeEnd pel d w h 0 ≤ planeStart pel w h 1 ∧ planeEnd pel d w h 1 ≤ planeStart pel w h 2 ∧
    planeEnd pel d w h 2 ≤ reserved pel w h := by
  have q := quarter w h
  have e0 : h * (w * bytesPerSample d) ≤ w * h * pel := by
    rw [← Nat.mul_assoc, Nat.mul_comm h w]
    exact Nat.mul_le_mul_left _ hb
  have e1 : h / 2 * (w / 2 * bytesPerSample d) ≤ w * h / 4 * pel := by
    rw [← Nat.mul_assoc]
    exact Nat.mul_le_mul q hb
  have e2 : w * h * pel + w * h / 4 * pel + w * h / 4 * pel ≤ reserved pel w h := by
    unfold reserved
    rw [Nat.le_div_iff_mul_le (by decide), Nat.mul_assoc pel w h]
    have h4 : w * h / 4 * 4 ≤ w * h := Nat.div_mul_le_self _ _
    generalize w * h / 4 = k at h4
    generalize w * h = n at h4
    have : k * 4 * pel ≤ n * pel := Nat.mul_le_mul_right _ h4
    rw [Nat.mul_comm pel n]
    generalize n * pel = a at this ⊢
    rw [show k * 4 * pel = 4 * (k * pel) by rw [Nat.mul_comm k 4, Nat.mul_assoc]] at this
    omega
  unfold planeEnd planeStart ownStride
  simp only [if_true, if_false, Nat.one_ne_zero, show (2 : Nat) ≠ 0 by decide, show (2 : Nat) ≠ 1 by decide]
  omega

example : bytesPerSample ⟨10, 8⟩ ≤ 2 ∧ planeEnd 2 ⟨10, 8⟩ 5 3 2 = 38 ∧ reserved 2 5 3 = 45 := by decide

/-- C76 fails: in the normal build a sequence of 8-bit coding and 10-bit output announces planes that overlap and leave the
memory of the picture, for every size of at least 2x2 samples. -/
theorem C76_memory_violated (w h : Nat) (hw : 2 ≤ w) (hh : 2 ≤ h) : accepted 1 ⟨8, 10⟩ = true ∧ way 1 ⟨8, 10⟩ = .nothing ∧
    planeStart 1 w h 1 < planeEnd 1 ⟨8, 10⟩ w h 0 ∧ reserved 1 w h < planeEnd 1 ⟨8, 10⟩ w h 0 := by
  refine ⟨by decide, by decide, ?_⟩
  have e : planeEnd 1 ⟨8, 10⟩ w h 0 = 2 * (w * h) := by
    unfold planeEnd planeStart ownStride bytesPerSample
    simp only [if_true]
    rw [if_neg (by decide), ← Nat.mul_assoc, Nat.mul_comm h w, Nat.zero_add, Nat.mul_comm]
  have p : 4 ≤ w * h := Nat.mul_le_mul hw hh
  rw [e]
  unfold planeStart reserved
  simp only [if_true, if_false, Nat.one_ne_zero, Nat.one_mul, Nat.mul_one]
  omega

/-! ### Frames of the decoder -/

/-- **C77, partial:** as long as the combination of bit depths does not change, delivering pictures never writes into a frame of
the decoder.  Missing: a change of the bit depths without a change of the picture size, see `C77_overwrite_violated`. -/
theorem C77_overwrite_partial (pel : Nat) (d : Depths) : ∀ (es : List Ev), (∀ f d', Ev.deliver f d' ∈ es → d' = d) →
    overwritten pel .own es = [] := by
  intro es hes
  by_cases hw : way pel d = .share
  · -- no delivery writes at all
    have : ∀ (es : List Ev) (t : Target), (∀ f d', Ev.deliver f d' ∈ es → d' = d) → overwritten pel t es = [] := by
      intro es
      induction es with
      | nil => intros; rfl
      | cons e es ih =>
        intro t h
        cases e with
        | reuse => exact ih t fun f d' hm => h f d' (List.mem_cons_of_mem _ hm)
        | deliver f d' =>
          have : d' = d := h f d' (List.mem_cons_self ..)
          subst this
          rw [overwritten, hw]
          exact ih _ fun f d' hm => h f d' (List.mem_cons_of_mem _ hm)
    exact this es .own hes
  · -- the planes stay in the object's own memory
    induction es with
    | nil => rfl
    | cons e es ih =>
      have hi := ih fun f d' hm => hes f d' (List.mem_cons_of_mem _ hm)
      cases e with
      | reuse => exact hi
      | deliver f d' =>
        have : d' = d := hes f d' (List.mem_cons_self ..)
        subst this
        rw [overwritten]
        match hq : way pel d', hw with
        | .copy, _ => exact hi
        | .reduce, _ => exact hi
        | .nothing, _ => exact hi

example : overwritten 2 .own [.deliver 3 ⟨10, 8⟩, .reuse, .deliver 4 ⟨10, 8⟩] = [] := by decide

/-- C77 fails: with HIGH_BIT_DEPTH, frame 3 of a sequence is delivered with 10 bits; after a second sequence header of the same
picture size, which asks for 8 bits, the samples of frame 7 are written into frame 3. -/
theorem C77_overwrite_violated : ∃ s s' : SeqSyntax, s.Legal ∧ s'.Legal ∧ s.width = s'.width ∧ s.height = s'.height ∧
    ∃ m q hdr m' q' hdr', parseSeqHeader m 0 = .ok (hdr, q) ∧ parseSeqHeader m' 0 = .ok (hdr', q') ∧
      accepted 2 (depthsOf hdr) = true ∧ accepted 2 (depthsOf hdr') = true ∧
      overwritten 2 .own [.deliver 3 (depthsOf hdr), .reuse, .deliver 7 (depthsOf hdr')] = [3] := by
  let s : SeqSyntax := { hdrExample with profile := 0x22, samplePrec := 2, encPrec := 2 }
  have hs : s.Legal := { hdrExample_legal with profile := by decide, samplePrec := by decide, encPrec := by decide, encDefault := by decide }
  obtain ⟨m, q, h⟩ := legal_accepted s hs
  obtain ⟨m', q', h'⟩ := legal_accepted hdrExample hdrExample_legal
  exact ⟨s, hdrExample, hs, hdrExample_legal, rfl, rfl, m, q, _, m', q', _, h, h', by decide, by decide, by decide⟩

end Davs2.Wf
