import Verif.Lemmas.EsUnit
import Verif.Props.Dispose
/-
C09-C12: packet assembly.  Specification: Verif/Spec/Packets.lean (`group`).
-/
namespace Davs2
open Spec

theorem packInit_inv (n : Nat) : PackInv (packInit n) [] := by
  refine ⟨by simp, rfl, ?_⟩
  intro u hu
  rw [(List.mem_replicate.mp hu).2]; rfl

/-- C09.  For every history of sends, flushes and finished decodings from an open decoder (any packets,
including malformed ones, which do not count), the units handed to decoding are exactly the closed groups
of the specification, in order, each with the bytes of its packets (cleaned when the unit was closed by the
next packet) and the timestamps of its last packet; the open group is what is still buffered. -/
theorem C09_units_are_groups (threads : Nat) (ops : List PackOp) (m : PackMgr) (us : List EsUnit)
    (hon : ∀ o ∈ ops, HonestOp o) (h : packRun (packInit threads) ops = .ok (m, us)) :
    us.length = (group [] (evsOf ops)).1.length ∧
    (∀ (i : Nat) u x, us[i]? = some u → (group [] (evsOf ops)).1[i]? = some x → HandedBy u x.1 x.2) ∧
    (m.cur.elim [] (·.data)) = bytesOf (group [] (evsOf ops)).2 := by
  obtain ⟨h1, h2, h3⟩ := packRun_groups ops _ _ [] us hon (packInit_inv threads) (by simp) h
  refine ⟨h2, h3, ?_⟩
  have hc := h1.cur
  cases hm : m.cur with
  | none => rw [hm] at hc; simp only at hc; rw [hc]; rfl
  | some u => rw [hm] at hc; exact hc.2.1

/-- The packets of a session. -/
def pktsOf : List Ev → List Pkt
  | [] => []
  | .pkt p :: evs => p :: pktsOf evs
  | .flush :: evs => pktsOf evs

/-- The grouping loses, duplicates and reorders nothing. -/
theorem C09_groups_concat (g : List Pkt) (evs : List Ev) :
    (group g evs).1.flatMap (·.1) ++ (group g evs).2 = g ++ pktsOf evs := by
  induction evs generalizing g with
  | nil => simp [group, pktsOf]
  | cons e evs ih =>
    cases e with
    | pkt p =>
      rw [group]
      split
      · simp only [List.flatMap_cons, List.append_assoc, ih]; rfl
      · rw [ih]; simp [pktsOf]
    | flush =>
      rw [group]
      split
      · simp only [List.flatMap_cons, List.append_assoc, ih]; rfl
      · rename_i hg
        simp only [ne_eq, Decidable.not_not] at hg
        rw [hg, ih]; rfl

/-- Inside a group only the first packet may begin a unit, and a group closed by a packet is followed by a
group that begins with such a packet. -/
theorem C09_group_boundaries (g : List Pkt) (evs : List Ev) (hg : ∀ p ∈ g.tail, beginsUnit p = false) :
    (∀ x ∈ (group g evs).1, ∀ p ∈ x.1.tail, beginsUnit p = false) ∧
    (∀ p ∈ (group g evs).2.tail, beginsUnit p = false) := by
  induction evs generalizing g with
  | nil => exact ⟨by simp [group], by simpa [group] using hg⟩
  | cons e evs ih =>
    cases e with
    | pkt p =>
      rw [group]
      by_cases hb : beginsUnit p = true ∧ g ≠ []
      · rw [if_pos hb]
        obtain ⟨i1, i2⟩ := ih [p] (by simp)
        refine ⟨?_, i2⟩
        intro x hx
        rcases List.mem_cons.mp hx with hx | hx
        · subst hx; exact hg
        · exact i1 x hx
      · rw [if_neg hb]
        apply ih
        intro q hq
        cases g with
        | nil => simp at hq
        | cons a g =>
          simp only [List.cons_append, List.tail_cons, List.mem_append, List.mem_singleton] at hq
          rcases hq with hq | hq
          · exact hg q hq
          · subst hq
            cases hbp : beginsUnit q with
            | false => rfl
            | true => exact absurd ⟨hbp, by simp⟩ hb
    | flush =>
      rw [group]
      split
      · obtain ⟨i1, i2⟩ := ih [] (by simp)
        refine ⟨?_, i2⟩
        intro x hx
        rcases List.mem_cons.mp hx with hx | hx
        · subst hx; exact hg
        · exact i1 x hx
      · exact ih [] (by simp)

/-- A history meeting the hypotheses: header, picture, slice, malformed packet, next picture. -/
def c09Sample : List PackOp :=
  [.send ⟨some [0, 0, 1, 0xB0, 1, 2], 6, 1, 1⟩, .send ⟨some [0, 0, 1, 0xB3, 9], 5, 2, 2⟩,
   .send ⟨some [0, 0, 1, 0, 7, 7], 6, 3, 3⟩, .send ⟨some [1, 2, 3], 3, 4, 4⟩, .finish 0,
   .send ⟨some [0, 0, 1, 0xB6, 5], 5, 5, 5⟩, .flush]

example : (∀ o ∈ c09Sample, HonestOp o) ∧
    ∃ m us, packRun (packInit 1) c09Sample = .ok (m, us) ∧
      us.map (·.data) = [[0, 0, 1, 0xB0, 1, 2], [0, 0, 1, 0xB3, 9, 0, 0, 1, 0, 7, 7], [0, 0, 1, 0xB6, 5]] ∧
      us.map (·.pts) = [1, 3, 5] := by
  refine ⟨?_, ?_⟩
  · intro o ho
    simp only [c09Sample, List.mem_cons, List.not_mem_nil, or_false] at ho
    rcases ho with h | h | h | h | h | h | h <;> subst h <;> first | trivial | exact ⟨_, rfl, rfl⟩
  · have h : ∃ r, packRun (packInit 1) c09Sample = .ok r ∧
      (r.2.map (·.data) = [[0, 0, 1, 0xB0, 1, 2], [0, 0, 1, 0xB3, 9, 0, 0, 1, 0, 7, 7], [0, 0, 1, 0xB6, 5]] ∧
      r.2.map (·.pts) = [1, 3, 5]) := by
      refine ⟨_, rfl, ?_⟩
      decide +kernel
    obtain ⟨r, h1, h2⟩ := h
    exact ⟨r.1, r.2, h1, h2⟩

/-! ### C10 -/

/-- A packet of `n + 4` bytes that begins an inter picture. -/
def bigPacket (n : Nat) : ApiPacket :=
  ⟨some ([0#8, 0#8, 1#8, 0xB6#8] ++ List.replicate n 0#8), ((n + 4 : Nat) : Int), 0, 0⟩

theorem bigPacket_overflow (n : Nat) (h1 : 4000000 < n + 4) (h2 : n < 2000000000) :
    packRun (packInit 1) [.send ⟨some [0, 0, 1, 0xB3], 4, 0, 0⟩, .send (bigPacket n)] = .overflow := by
  obtain ⟨d, hd⟩ : ∃ d, d = [0#8, 0#8, 1#8, 0xB6#8] ++ List.replicate n 0#8 := ⟨_, rfl⟩
  have hlen : d.length = n + 4 := by rw [hd]; simp
  have h0 : d[0]? = some 0#8 ∧ d[1]? = some 0#8 ∧ d[2]? = some 1#8 ∧ d[3]? = some 0xB6#8 := by
    rw [hd]; simp
  have e1 : packStep (packInit 1) (.send ⟨some [0, 0, 1, 0xB3], 4, 0, 0⟩) =
      .ok (⟨some ⟨maxEsFrameSize, maxEsFrameSize, [0, 0, 1, 0xB3], 0, 0⟩,
        List.replicate 64 (esUnitAlloc maxEsFrameSize), []⟩, none) := by rfl
  have e2 : packStep ⟨some ⟨maxEsFrameSize, maxEsFrameSize, [0, 0, 1, 0xB3], 0, 0⟩,
        List.replicate 64 (esUnitAlloc maxEsFrameSize), []⟩ (.send (bigPacket n)) = .overflow := by
    have hacc : Acceptable d := ⟨by omega, h0.1, h0.2.1, h0.2.2.1⟩
    rw [packStep, sendPacket_eq _ (bigPacket n) d (by rw [hd]; rfl) (by rw [hlen]; rfl), if_pos hacc]
    have hg : esGrow ⟨maxEsFrameSize, maxEsFrameSize, [0, 0, 1, 0xB3], 0, 0⟩ d.length =
        .ok ⟨maxEsFrameSize, 4 + d.length + maxEsFrameSize * 2, [0, 0, 1, 0xB3], 0, 0⟩ := by
      unfold esGrow
      rw [if_neg (by simp; omega), if_pos (by simp [maxEsFrameSize]; omega),
        if_neg (by simp [maxEsFrameSize]; omega)]
      rfl
    have ha : esAppend (esUnitAlloc maxEsFrameSize) ⟨d, 0, 0⟩ = .overflow := by
      unfold esAppend
      rw [if_neg (by simp [esUnitAlloc, maxEsFrameSize]; omega)]
    have : packEsUnit ⟨some ⟨maxEsFrameSize, maxEsFrameSize, [0, 0, 1, 0xB3], 0, 0⟩,
        List.replicate 64 (esUnitAlloc maxEsFrameSize), []⟩ ⟨d, 0, 0⟩ = .overflow := by
      simp only [packEsUnit, h0.2.2.2, fetchUnit, PackRes.ok_bind, hg]
      rw [if_pos ⟨by decide, by decide⟩]
      rw [show List.replicate 64 (esUnitAlloc maxEsFrameSize) =
        esUnitAlloc maxEsFrameSize :: List.replicate 63 (esUnitAlloc maxEsFrameSize) from rfl]
      simp only [ha]
      rfl
    simp only [bigPacket]
    rw [this]; rfl
  rw [packRun, e1]
  simp only [PackRes.ok_bind]
  rw [packRun, e2]
  rfl

/-- C10 does not hold: a picture packet larger than a nominal buffer, sent while another unit is buffered,
is copied into a fresh unit of nominal size. -/
theorem C10_fits_violated :
    ∃ ops : List PackOp, (∀ o ∈ ops, HonestOp o) ∧ packRun (packInit 1) ops = .overflow := by
  have hh : ∀ n, HonestOp (.send (bigPacket n)) := by
    intro n
    exact ⟨[0#8, 0#8, 1#8, 0xB6#8] ++ List.replicate n 0#8, rfl, by simp [bigPacket]; omega⟩
  refine ⟨[.send ⟨some [0, 0, 1, 0xB3], 4, 0, 0⟩, .send (bigPacket 5000000)], ?_,
    bigPacket_overflow _ (by omega) (by omega)⟩
  intro o ho
  simp only [List.mem_cons, List.not_mem_nil, or_false] at ho
  rcases ho with h | h
  · rw [h]; exact ⟨_, rfl, rfl⟩
  · rw [h]; exact hh _

/-- C10 for every history in which packets that begin a unit have at most 4,000,000 bytes and the total
is below 2^31 - 8,000,000: no write outside a buffer, no read outside a packet, no integer overflow, and
all data fits its buffer.  Missing: larger packets, for which it is false. -/
theorem C10_fits_partial (threads : Nat) (ops : List PackOp) (hon : ∀ o ∈ ops, HonestOp o)
    (hsm : ∀ o ∈ ops, SmallUnitOp o)
    (htot : (ops.map opBytes).sum + 8000000 < 2147483648) :
    packRun (packInit threads) ops = .blocked ∨
    ∃ m us, packRun (packInit threads) ops = .ok (m, us) ∧
      (∀ u, m.cur = some u → u.data.length ≤ u.cap) ∧ ∀ u ∈ m.busy, u.data.length ≤ u.cap := by
  have hinit : CapInv (packInit threads) 0 := by
    refine ⟨by simp [packInit], ?_, by simp [packInit]⟩
    intro u hu
    rw [(List.mem_replicate.mp hu).2]
    exact ⟨⟨rfl, Nat.le_refl _, by simp [esUnitAlloc]⟩, rfl⟩
  rcases packRun_safe C01_no_growth ops _ 0 hinit hon hsm (by simp only [maxEsFrameSize]; omega) with
    h | ⟨m, us, h, hc⟩
  · exact Or.inl h
  · exact Or.inr ⟨m, us, h, fun u hu => (hc.cur u hu).1.2.2, fun u hu => (hc.busy u hu).2.2⟩

example : (∀ o ∈ c09Sample, SmallUnitOp o) ∧ (c09Sample.map opBytes).sum + 8000000 < 2147483648 := by
  refine ⟨?_, by decide⟩
  intro o ho
  simp only [c09Sample, List.mem_cons, List.not_mem_nil, or_false] at ho
  rcases ho with h | h | h | h | h | h | h <;> subst h <;> first | trivial | skip
  all_goals
    intro d hd _ _
    simp only [Option.some.injEq] at hd
    subst hd
    decide

/-- Units are neither lost nor duplicated: their number is the one allocated at opening, so a send call
waits only when 63 + threads units or more are being decoded. -/
theorem C10_units_conserved (threads : Nat) (ops : List PackOp) (m : PackMgr) (us : List EsUnit)
    (h : packRun (packInit threads) ops = .ok (m, us)) :
    (if m.cur.isSome then 1 else 0) + m.idle.length + m.busy.length = 64 + threads := by
  have key : ∀ (ops : List PackOp) (m0 m : PackMgr) us, packRun m0 ops = .ok (m, us) →
      unitCount m = unitCount m0 := by
    intro ops
    induction ops with
    | nil =>
      intro m0 m us h
      simp only [packRun, PackRes.ok.injEq, Prod.mk.injEq] at h
      rw [h.1]
    | cons op ops ih =>
      intro m0 m us h
      simp only [packRun, PackRes.bind_ok, Prod.exists] at h
      obtain ⟨m1, r, hs, m2, us2, hr, he⟩ := h
      simp only [PackRes.ok.injEq, Prod.mk.injEq] at he
      obtain ⟨rfl, rfl⟩ := he
      rw [ih _ _ _ hr, packStep_count _ _ _ _ hs]
  have := key ops _ _ _ h
  simpa [unitCount, packInit] using this

/-! ### C11 -/

/-- C11.  A packet that is missing, has no data, a non-positive or too small length or does not begin with
00 00 01 is answered by the error code, the decoder state is the one before and nothing is decoded. -/
theorem C11_malformed_rejected (m : PackMgr) (pkt : Option ApiPacket)
    (h : pkt = none ∨ ∃ p, pkt = some p ∧ (p.data = none ∨ p.len < 4 ∨
      ∃ d, p.data = some d ∧ 3 ≤ d.length ∧ d.take 3 ≠ [0#8, 0#8, 1#8])) :
    sendPacket m pkt = .ok (m, .error, none) := by
  rcases h with h | ⟨p, rfl, h⟩
  · subst h; rfl
  · unfold sendPacket
    simp only
    split
    · rfl
    · rename_i d hd
      by_cases h0 : p.len ≤ 0
      · rw [if_pos h0]
      · rw [if_neg h0]
        by_cases h4 : p.len < 4
        · rw [if_pos h4]
        · rw [if_neg h4]
          rcases h with h | h | ⟨d', hd', h3, hne⟩
          · rw [hd] at h; simp at h
          · exact absurd h h4
          · rw [hd] at hd'
            simp only [Option.some.injEq] at hd'
            subst hd'
            match d, h3 with
            | a :: b :: c :: r, _ =>
              simp only [List.getElem?_cons_zero, List.getElem?_cons_succ]
              rw [if_pos]
              simp only [List.take_succ_cons, List.take_zero, ne_eq, List.cons.injEq, and_true,
                not_and] at hne
              by_cases ha : a = 0#8
              · by_cases hb : b = 0#8
                · exact Or.inr (Or.inr (hne ha hb))
                · exact Or.inr (Or.inl hb)
              · exact Or.inl ha

example : sendPacket (packInit 3) (some ⟨some [0, 1, 1, 0xB3, 5], 5, 0, 0⟩) =
    .ok (packInit 3, .error, none) :=
  C11_malformed_rejected _ _ (Or.inr ⟨_, rfl, Or.inr (Or.inr ⟨_, rfl, by decide, by decide⟩)⟩)

/-- C11, converse: a call with an acceptable packet never returns the error code. -/
theorem C11_acceptable_accepted (m : PackMgr) (p : ApiPacket) (d : List Byte) (hd : p.data = some d)
    (hl : p.len = d.length) (ha : Acceptable d) (m' : PackMgr) (r : ApiRet) (u : Option EsUnit)
    (h : sendPacket m (some p) = .ok (m', r, u)) : r = .default := by
  rw [sendPacket_eq m p d hd hl, if_pos ha] at h
  simp only [PackRes.bind_ok, Prod.exists, PackRes.ok.injEq, Prod.mk.injEq] at h
  obtain ⟨_, _, _, _, h, _⟩ := h
  exact h.symm

example : Acceptable [0, 0, 1, 0xB3, 5] := by decide

/-! ### C12 -/

/-- C12 does not hold: the same packet is decoded from cleaned bytes when the next picture arrives, and
from raw bytes when the decoder is flushed. -/
theorem C12_flush_same_violated :
    ∃ p q : ApiPacket, ∃ m1 m2 u v,
      packRun (packInit 1) [.send p, .send q] = .ok (m1, [u]) ∧
      packRun (packInit 1) [.send p, .flush] = .ok (m2, [v]) ∧ u.data ≠ v.data :=
  ⟨⟨some [0, 0, 1, 0xB3, 0, 0, 2, 0, 0x80], 9, 0, 0⟩, ⟨some [0, 0, 1, 0xB6], 4, 0, 0⟩, _, _, _, _,
    rfl, rfl, by decide +kernel⟩

/-- C12 for units without the byte pattern 00 00 02: both ways of closing a unit hand out the same bytes
and timestamps.  Missing: units that contain escapes, for which it is false. -/
theorem C12_flush_same_partial (u v : EsUnit) (g : List Pkt) (hn : ¬ [0#8, 0#8, 2#8] <:+: bytesOf g)
    (hu : HandedBy u g .byPacket) (hv : HandedBy v g .byFlush) :
    u.data = v.data ∧ u.pts = v.pts ∧ u.dts = v.dts := by
  obtain ⟨u1, p, hp, u2, u3⟩ := hu
  obtain ⟨v1, q, hq, v2, v3⟩ := hv
  rw [hp] at hq
  simp only [Option.some.injEq] at hq
  subst hq
  simp only at u1 v1
  rw [C02_passthrough_pattern _ hn] at u1
  exact ⟨by rw [u1, v1], by rw [u2, v2], by rw [u3, v3]⟩

example : HandedBy ⟨9, 9, [0, 0, 1, 0xB3, 7], 4, 5⟩ [⟨[0, 0, 1, 0xB3, 7], 4, 5⟩] .byPacket ∧
    HandedBy ⟨9, 9, [0, 0, 1, 0xB3, 7], 4, 5⟩ [⟨[0, 0, 1, 0xB3, 7], 4, 5⟩] .byFlush := by
  refine ⟨⟨by decide +kernel, _, rfl, rfl, rfl⟩, ⟨by decide +kernel, _, rfl, rfl, rfl⟩⟩

end Davs2
