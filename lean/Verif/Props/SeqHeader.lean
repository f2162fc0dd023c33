import Verif.Model.SeqHeader
import Verif.Lemmas.HeaderReader
import Verif.Spec.SeqHeader
/-
Properties C18 (accepted sequence headers), C21 (reference tables), C22 (bit depths), C54 (fields are
read from where the syntax puts them), C55 (bit rate).
-/
namespace Davs2
open Spec

theorem u32_of_range (a : Int) (h0 : 0 ≤ a) (h1 : a < 4294967296) : u32 a = a := by
  unfold u32; omega

/-! ## Accepted headers -/

/-- What the first part establishes. -/
theorem parseSeqFmt_ok (m : Mem) (p : Nat) (f : SeqFmt) (q : Nat) (hp : p ≤ 8 * m.len + 7)
    (h : parseSeqFmt m p = .ok (f, q)) :
    q ≤ 8 * m.len + 7 ∧ (p + 46 > 8 * m.len + 7 → q + 15 > 8 * m.len + 7) ∧
    (p + 46 ≤ 8 * m.len + 7 →
      f.profile = valOf (memBits m p 8) ∧ f.level = valOf (memBits m (p + 8) 8) ∧
      f.width = valOf (memBits m (p + 18) 14) ∧ f.height = valOf (memBits m (p + 32) 14) ∧
      f.width < 16384 ∧ f.height < 16384 ∧ f.chroma = valOf (memBits m (p + 46) 2) ∧
      f.samplePrec = valOf (memBits m (p + 48) 3) ∧
      (f.profile = 0x22 → f.encPrec = valOf (memBits m (p + 51) 3))) ∧
    16 ≤ f.width ∧ 16 ≤ f.height ∧ (f.chroma = 0 ∨ f.chroma = 1) ∧
    1 ≤ f.samplePrec ∧ f.samplePrec ≤ 3 ∧ 1 ≤ f.encPrec ∧ f.encPrec ≤ 3 ∧
    (f.profile ≠ 0x22 → f.encPrec = 1) := by
  unfold parseSeqFmt at h
  obtain ⟨a1, p1, h1, h⟩ := rd_bind_ok _ _ _ _ _ h
  obtain ⟨a2, p2, h2, h⟩ := rd_bind_ok _ _ _ _ _ h
  obtain ⟨a3, p3, h3, h⟩ := rd_bind_ok _ _ _ _ _ h
  obtain ⟨a4, p4, h4, h⟩ := rd_bind_ok _ _ _ _ _ h
  obtain ⟨a5, p5, h5, h⟩ := rd_bind_ok _ _ _ _ _ h
  obtain ⟨a6, p6, h6, h⟩ := rd_bind_ok _ _ _ _ _ h
  obtain ⟨a4', p4', h4a, h4b⟩ := rd_bind_ok _ _ _ _ _ h4
  have e4 := rd_pure_ok _ _ _ _ h4b
  simp only [Prod.mk.injEq] at e4
  obtain ⟨rfl, rfl⟩ := e4
  have r1 := rdU_lim m _ _ (by omega) (by omega) hp _ _ h1
  have l1 : p1 ≤ 8 * m.len + 7 := by omega
  have r2 := rdU_lim m _ _ (by omega) (by omega) l1 _ _ h2
  have l2 : p2 ≤ 8 * m.len + 7 := by omega
  have r3 := rdU_lim m _ _ (by omega) (by omega) l2 _ _ h3
  have l3 : p3 ≤ 8 * m.len + 7 := by omega
  have r4 := rdU_lim m _ _ (by omega) (by omega) l3 _ _ h4a
  have l4 : p4 ≤ 8 * m.len + 7 := by omega
  have r5 := rdU_lim m _ _ (by omega) (by omega) l4 _ _ h5
  have l5 : p5 ≤ 8 * m.len + 7 := by omega
  have r6 := rdU_lim m _ _ (by omega) (by omega) l5 _ _ h6
  have l6 : p6 ≤ 8 * m.len + 7 := by omega
  split at h
  · cases h
  rename_i hwh
  obtain ⟨a7, p7, h7, h⟩ := rd_bind_ok _ _ _ _ _ h
  have r7 := rdU_lim m _ _ (by omega) (by omega) l6 _ _ h7
  have l7 : p7 ≤ 8 * m.len + 7 := by omega
  split at h
  · cases h
  rename_i hch
  obtain ⟨a8, p8, h8, h⟩ := rd_bind_ok _ _ _ _ _ h
  have r8 := rdU_lim m _ _ (by omega) (by omega) l7 _ _ h8
  have l8 : p8 ≤ 8 * m.len + 7 := by omega
  obtain ⟨a9, p9, h9, h⟩ := rd_bind_ok _ _ _ _ _ h
  split at h
  · cases h
  rename_i hpr
  have e := rd_pure_ok _ _ _ _ h
  simp only [Prod.mk.injEq] at e
  obtain ⟨rfl, rfl⟩ := e
  simp only
  have c7 : a7 = 0 ∨ a7 = 1 := by
    unfold u32 at hch
    rcases r7 with ⟨_, r, _⟩ | ⟨_, _, _, r, r'⟩
    · subst r; simp at hch
    · have r'' : a7 < 4 := r'
      omega
  have s7 : p6 + 2 ≤ 8 * m.len + 7 ∧ a7 = (valOf (memBits m p6 2) : Int) ∧ p7 = p6 + 2 := by
    rcases r7 with ⟨_, r, _⟩ | ⟨r, r2, r3, _⟩
    · omega
    · exact ⟨r, r2, r3⟩
  have s8 : p7 + 3 ≤ 8 * m.len + 7 ∧ a8 = (valOf (memBits m p7 3) : Int) ∧ p8 = p7 + 3 := by
    rcases r8 with ⟨_, r, _⟩ | ⟨r, r2, r3, _⟩
    · omega
    · exact ⟨r, r2, r3⟩
  have hmono : p ≤ p1 ∧ p1 ≤ p2 ∧ p2 ≤ p3 ∧ p3 ≤ p4 ∧ p4 ≤ p5 ∧ p5 ≤ p6 := by
    refine ⟨?_, ?_, ?_, ?_, ?_, ?_⟩ <;> omega
  have c9 : (u32 a1 = 0x22 → a9 = (valOf (memBits m p8 3) : Int)) ∧ (u32 a1 ≠ 0x22 → a9 = 1) ∧
      p8 ≤ q ∧ q ≤ 8 * m.len + 7 := by
    split at h9
    · rename_i hc
      have r9 := rdU_lim m _ _ (by omega) (by omega) l8 _ _ h9
      refine ⟨fun _ => ?_, fun hne => absurd hc hne, by omega, by omega⟩
      rcases r9 with ⟨_, r, _⟩ | ⟨_, r, _⟩
      · omega
      · exact r
    · rename_i hc
      have e := rd_pure_ok _ _ _ _ h9
      simp only [Prod.mk.injEq] at e
      obtain ⟨rfl, rfl⟩ := e
      exact ⟨fun hne => absurd hne hc, fun _ => rfl, by omega, l8⟩
  have e7 : u32 a7 = a7 := u32_of_range _ (by omega) (by omega)
  have hall : p6 + 20 ≤ 8 * m.len + 7 ∨ p + 46 ≤ 8 * m.len + 7 →
      (p1 = p + 8 ∧ p2 = p + 16 ∧ p3 = p + 17 ∧ p4 = p + 18 ∧ p5 = p + 32 ∧ p6 = p + 46) := by
    intro hh
    have x1 : p1 = p + 8 := by omega
    have x2 : p2 = p1 + 8 := by omega
    have x3 : p3 = p2 + 1 := by omega
    have x4 : p4 = p3 + 1 := by omega
    have x5 : p5 = p4 + 14 := by omega
    have x6 : p6 = p5 + 14 := by omega
    omega
  refine ⟨by omega, ?_, ?_, by omega, by omega, by omega, by omega, by omega, by omega, by omega, c9.2.1⟩
  · intro hlt
    by_cases hge : p6 + 20 ≤ 8 * m.len + 7
    · have := hall (Or.inl hge)
      omega
    · omega
  · intro hge
    have hpos := hall (Or.inr hge)
    obtain ⟨x1, x2, x3, x4, x5, x6⟩ := hpos
    have v1 : a1 = (valOf (memBits m p 8) : Int) ∧ 0 ≤ a1 ∧ a1 < 256 := by
      rcases r1 with ⟨r, _⟩ | ⟨_, r, _, r0, r'⟩
      · omega
      · exact ⟨r, r0, r'⟩
    have v2 : a2 = (valOf (memBits m p1 8) : Int) ∧ 0 ≤ a2 ∧ a2 < 256 := by
      rcases r2 with ⟨r, _⟩ | ⟨_, r, _, r0, r'⟩
      · omega
      · exact ⟨r, r0, r'⟩
    have v5 : a5 = (valOf (memBits m p4 14) : Int) ∧ 0 ≤ a5 ∧ a5 < 16384 := by
      rcases r5 with ⟨r, _⟩ | ⟨_, r, _, r0, r'⟩
      · omega
      · exact ⟨r, r0, r'⟩
    have v6 : a6 = (valOf (memBits m p5 14) : Int) ∧ 0 ≤ a6 ∧ a6 < 16384 := by
      rcases r6 with ⟨r, _⟩ | ⟨_, r, _, r0, r'⟩
      · omega
      · exact ⟨r, r0, r'⟩
    have e1 : u32 a1 = a1 := u32_of_range _ (by omega) (by omega)
    have e2 : u32 a2 = a2 := u32_of_range _ (by omega) (by omega)
    have e5 : u32 a5 = a5 := u32_of_range _ (by omega) (by omega)
    have e6 : u32 a6 = a6 := u32_of_range _ (by omega) (by omega)
    have y7 : p7 = p + 48 := by omega
    have y8 : p8 = p + 51 := by omega
    rw [e1, e2, e5, e6, e7]
    refine ⟨v1.1, ?_, ?_, ?_, v5.2.2, v6.2.2, ?_, ?_, ?_⟩
    · rw [← x1]; exact v2.1
    · rw [← x4]; exact v5.1
    · rw [← x5]; exact v6.1
    · rw [← x6]; exact s7.2.1
    · rw [← y7]; exact s8.2.1
    · rw [← y8, ← e1]; exact c9.1

/-- If less than 15 bits are left in front of the second part, less than 3 are left behind it. -/
theorem parseSeqRate_ok (m : Mem) (p : Nat) (r : SeqRate) (q : Nat) (hp : p ≤ 8 * m.len + 7)
    (h : parseSeqRate m p = .ok (r, q)) :
    q ≤ 8 * m.len + 7 ∧ (p + 15 > 8 * m.len + 7 → q + 3 > 8 * m.len + 7) := by
  unfold parseSeqRate at h
  obtain ⟨a1, p1, h1, h⟩ := rd_bind_ok _ _ _ _ _ h
  obtain ⟨a2, p2, h2, h⟩ := rd_bind_ok _ _ _ _ _ h
  obtain ⟨a3, p3, h3, h⟩ := rd_bind_ok _ _ _ _ _ h
  obtain ⟨a4, p4, h4, h⟩ := rd_bind_ok _ _ _ _ _ h
  obtain ⟨a5, p5, h5, h⟩ := rd_bind_ok _ _ _ _ _ h
  obtain ⟨a6, p6, h6, h⟩ := rd_bind_ok _ _ _ _ _ h
  obtain ⟨a7, p7, h7, h⟩ := rd_bind_ok _ _ _ _ _ h
  obtain ⟨a8, p8, h8, h⟩ := rd_bind_ok _ _ _ _ _ h
  obtain ⟨a9, p9, h9, h⟩ := rd_bind_ok _ _ _ _ _ h
  obtain ⟨a8', p8', h8a, h8b⟩ := rd_bind_ok _ _ _ _ _ h8
  have e8 := rd_pure_ok _ _ _ _ h8b
  simp only [Prod.mk.injEq] at e8
  obtain ⟨rfl, rfl⟩ := e8
  have e := rd_pure_ok _ _ _ _ h
  simp only [Prod.mk.injEq] at e
  obtain ⟨rfl, rfl⟩ := e
  have r1 := rdU_lim m _ _ (by omega) (by omega) hp _ _ h1
  have l1 : p1 ≤ 8 * m.len + 7 ∧ p ≤ p1 := by omega
  have r2 := rdU_lim m _ _ (by omega) (by omega) l1.1 _ _ h2
  have l2 : p2 ≤ 8 * m.len + 7 ∧ p1 ≤ p2 := by omega
  have r3 := rdU_lim m _ _ (by omega) (by omega) l2.1 _ _ h3
  have l3 : p3 ≤ 8 * m.len + 7 ∧ p2 ≤ p3 := by omega
  have r4 := rdU_lim m _ _ (by omega) (by omega) l3.1 _ _ h4
  have l4 : p4 ≤ 8 * m.len + 7 ∧ p3 ≤ p4 := by omega
  have r5 := rdU_lim m _ _ (by omega) (by omega) l4.1 _ _ h5
  have l5 : p5 ≤ 8 * m.len + 7 ∧ p4 ≤ p5 := by omega
  have r6 := rdU_lim m _ _ (by omega) (by omega) l5.1 _ _ h6
  have l6 : p6 ≤ 8 * m.len + 7 ∧ p5 ≤ p6 := by omega
  have r7 := rdU_lim m _ _ (by omega) (by omega) l6.1 _ _ h7
  have l7 : p7 ≤ 8 * m.len + 7 ∧ p6 ≤ p7 := by omega
  have r8 := rdU_lim m _ _ (by omega) (by omega) l7.1 _ _ h8a
  have l8 : p8 ≤ 8 * m.len + 7 ∧ p7 ≤ p8 := by omega
  have r9 := rdU_lim m _ _ (by omega) (by omega) l8.1 _ _ h9
  have l9 : q ≤ 8 * m.len + 7 ∧ p8 ≤ q := by omega
  refine ⟨l9.1, fun hlt => ?_⟩
  by_cases hge : q + 3 ≤ 8 * m.len + 7
  · exfalso
    have x1 : p1 = p + 4 := by omega
    have x2 : p2 = p1 + 4 := by omega
    have x4 : p4 = p3 + 1 := by omega
    have x6 : p6 = p5 + 1 := by omega
    have x7 : p7 = p6 + 1 := by omega
    have x8 : p8 = p7 + 1 := by omega
    omega
  · omega

theorem parseSeqLcu_ok (m : Mem) (p : Nat) (a : Int) (q : Nat) (hp : p ≤ 8 * m.len + 7)
    (h : parseSeqLcu m p = .ok (a, q)) : p + 3 ≤ 8 * m.len + 7 ∧ 4 ≤ a ∧ a ≤ 6 := by
  unfold parseSeqLcu at h
  obtain ⟨a1, p1, h1, h⟩ := rd_bind_ok _ _ _ _ _ h
  have r1 := rdU_lim m _ _ (by omega) (by omega) hp _ _ h1
  split at h
  · cases h
  · rename_i hc
    have e := rd_pure_ok _ _ _ _ h
    simp only [Prod.mk.injEq] at e
    obtain ⟨rfl, rfl⟩ := e
    omega

theorem rdMany_ok {α : Type} (x : Rd α) (P : α → Prop) (hx : ∀ m p a q, x m p = .ok (a, q) → P a)
    (n : Nat) (m : Mem) (p : Nat) (l : List α) (q : Nat) (h : rdMany x n m p = .ok (l, q)) :
    l.length = n ∧ ∀ a ∈ l, P a := by
  induction n generalizing p l q with
  | zero =>
    have e := rd_pure_ok _ _ _ _ h
    simp only [Prod.mk.injEq] at e
    obtain ⟨rfl, rfl⟩ := e
    simp
  | succ n ih =>
    unfold rdMany at h
    obtain ⟨a1, p1, h1, h⟩ := rd_bind_ok _ _ _ _ _ h
    obtain ⟨a2, p2, h2, h⟩ := rd_bind_ok _ _ _ _ _ h
    have e := rd_pure_ok _ _ _ _ h
    simp only [Prod.mk.injEq] at e
    obtain ⟨rfl, rfl⟩ := e
    obtain ⟨h3, h4⟩ := ih _ _ _ h2
    refine ⟨by simp [h3], ?_⟩
    intro a ha
    rcases List.mem_cons.1 ha with rfl | ha
    · exact hx _ _ _ _ h1
    · exact h4 a ha

theorem parseSeqRps_ok (m : Mem) (p : Nat) (r : RpsH) (q : Nat) (h : parseSeqRps m p = .ok (r, q)) :
    r.refPic.length ≤ 4 ∧ r.removePic.length ≤ 8 := by
  unfold parseSeqRps at h
  obtain ⟨a1, p1, h1, h⟩ := rd_bind_ok _ _ _ _ _ h
  obtain ⟨a2, p2, h2, h⟩ := rd_bind_ok _ _ _ _ _ h
  split at h
  · cases h
  obtain ⟨a3, p3, h3, h⟩ := rd_bind_ok _ _ _ _ _ h
  obtain ⟨a4, p4, h4, h⟩ := rd_bind_ok _ _ _ _ _ h
  split at h
  · cases h
  obtain ⟨a5, p5, h5, h⟩ := rd_bind_ok _ _ _ _ _ h
  obtain ⟨a6, p6, h6, h⟩ := rd_bind_ok _ _ _ _ _ h
  have e := rd_pure_ok _ _ _ _ h
  simp only [Prod.mk.injEq] at e
  obtain ⟨rfl, rfl⟩ := e
  have l3 := (rdMany_ok _ (fun _ => True) (fun _ _ _ _ _ => trivial) _ _ _ _ _ h3).1
  have l5 := (rdMany_ok _ (fun _ => True) (fun _ _ _ _ _ => trivial) _ _ _ _ _ h5).1
  simp only
  omega

theorem parseSeqTail_ok (m : Mem) (p : Nat) (d : Int) (t : Int × List RpsH × Int × Int) (q : Nat)
    (h : parseSeqTail d m p = .ok (t, q)) :
    t.2.1.length ≤ 32 ∧ ∀ r ∈ t.2.1, r.refPic.length ≤ 4 ∧ r.removePic.length ≤ 8 := by
  unfold parseSeqTail at h
  obtain ⟨a1, p1, h1, h⟩ := rd_bind_ok _ _ _ _ _ h
  obtain ⟨a2, p2, h2, h⟩ := rd_bind_ok _ _ _ _ _ h
  split at h
  · cases h
  obtain ⟨a3, p3, h3, h⟩ := rd_bind_ok _ _ _ _ _ h
  obtain ⟨a4, p4, h4, h⟩ := rd_bind_ok _ _ _ _ _ h
  obtain ⟨a5, p5, h5, h⟩ := rd_bind_ok _ _ _ _ _ h
  obtain ⟨a6, p6, h6, h⟩ := rd_bind_ok _ _ _ _ _ h
  obtain ⟨a7, p7, h7, h⟩ := rd_bind_ok _ _ _ _ _ h
  have e := rd_pure_ok _ _ _ _ h
  simp only [Prod.mk.injEq] at e
  obtain ⟨rfl, rfl⟩ := e
  obtain ⟨l3, l4⟩ := rdMany_ok _ (fun r : RpsH => r.refPic.length ≤ 4 ∧ r.removePic.length ≤ 8)
    parseSeqRps_ok _ _ _ _ _ h3
  exact ⟨by simp only; omega, l4⟩

/-- **C18.** Whatever bits are presented, complete or cut off anywhere, an accepted sequence header
describes a decodable format, and size and format are the numbers standing at their places in the
header (the start code is at bit `p`; `p + 32` is inside the packet, which the caller checks). -/
theorem C18_accepted (m : Mem) (p : Nat) (s : SeqHdr) (q : Nat) (hp : p + 32 ≤ 8 * m.len)
    (h : parseSeqHeader m p = .ok (s, q)) :
    (16 ≤ s.fmt.width ∧ s.fmt.width ≤ 16383) ∧ (16 ≤ s.fmt.height ∧ s.fmt.height ≤ 16383) ∧
    s.fmt.width = valOf (memBits m (p + 50) 14) ∧ s.fmt.height = valOf (memBits m (p + 64) 14) ∧
    (s.fmt.chroma = 0 ∨ s.fmt.chroma = 1) ∧ s.fmt.chroma = valOf (memBits m (p + 78) 2) ∧
    (s.fmt.samplePrec = 1 ∨ s.fmt.samplePrec = 2 ∨ s.fmt.samplePrec = 3) ∧
    (s.announcedDepth = 8 ∨ s.announcedDepth = 10 ∨ s.announcedDepth = 12) ∧
    (s.log2Lcu = 4 ∨ s.log2Lcu = 5 ∨ s.log2Lcu = 6) ∧
    (1 ≤ s.frameRateId ∧ s.frameRateId ≤ 13) ∧
    (s.encWidth % 8 = 0 ∧ s.fmt.width ≤ s.encWidth ∧ s.encWidth < s.fmt.width + 8) ∧
    (s.encHeight % 8 = 0 ∧ s.fmt.height ≤ s.encHeight ∧ s.encHeight < s.fmt.height + 8) := by
  unfold parseSeqHeader at h
  obtain ⟨a0, p0, h0, h⟩ := rd_bind_ok _ _ _ _ _ h
  obtain ⟨a1, p1, h1, h⟩ := rd_bind_ok _ _ _ _ _ h
  obtain ⟨a2, p2, h2, h⟩ := rd_bind_ok _ _ _ _ _ h
  obtain ⟨a3, p3, h3, h⟩ := rd_bind_ok _ _ _ _ _ h
  obtain ⟨a4, p4, h4, h⟩ := rd_bind_ok _ _ _ _ _ h
  obtain ⟨a5, p5, h5, h⟩ := rd_bind_ok _ _ _ _ _ h
  obtain ⟨a6, p6, h6, h⟩ := rd_bind_ok _ _ _ _ _ h
  have e := rd_pure_ok _ _ _ _ h
  simp only [Prod.mk.injEq] at e
  obtain ⟨rfl, rfl⟩ := e
  have e0 : p0 = p + 32 := by
    simp only [rdSkip, Res.ok.injEq, Prod.mk.injEq] at h0
    omega
  subst e0
  obtain ⟨f1, f2, f3, f4, f5, f6, f7, f8, f9, f10, f11⟩ := parseSeqFmt_ok _ _ _ _ (by omega) h1
  obtain ⟨g1, g2⟩ := parseSeqRate_ok _ _ _ _ f1 h2
  obtain ⟨k1, k2, k3⟩ := parseSeqLcu_ok _ _ _ _ g1 h3
  have hge : p + 32 + 46 ≤ 8 * m.len + 7 := by
    rcases Nat.lt_or_ge (8 * m.len + 7) (p + 32 + 46) with hlt | hge
    · have := f2 hlt
      have := g2 this
      omega
    · exact hge
  obtain ⟨w1, w2, w3, w4, w5, w6, w7, w8, w9⟩ := f3 hge
  simp only [SeqHdr.announcedDepth, SeqHdr.frameRateId, SeqHdr.encWidth, SeqHdr.encHeight]
  refine ⟨⟨f4, by omega⟩, ⟨f5, by omega⟩, ?_, ?_, f6, ?_, by omega, by omega, by omega, ?_, ?_, ?_⟩
  · rw [w3]
  · rw [w4]
  · rw [w7]
  · split
    · omega
    · split <;> omega
  · omega
  · omega

/-! ## Reading back a written header -/

/-- What the parser is to deliver for a set. -/
def RpsSyntax.expect (r : RpsSyntax) : RpsH :=
  ⟨r.refd, r.refs.map Int.ofNat, r.removes.map Int.ofNat⟩

/-- What the parser is to deliver for a header. -/
def SeqSyntax.expect (s : SeqSyntax) : SeqHdr where
  fmt := ⟨s.profile, s.level, s.progressive, s.fieldCoded, s.width, s.height, s.chroma, s.samplePrec,
    s.encPrec⟩
  rate := ⟨s.aspect, s.frameRate, s.bitRateLower, s.bitRateUpper, s.lowDelay, s.temporalId⟩
  log2Lcu := s.log2Lcu
  wq := match s.weights with
    | none => .off
    | some none => .default
    | some (some (a, b)) => .loaded (a.map Int.ofNat) (b.map Int.ofNat)
  flags := ⟨1 - s.bgDisable, s.mhpSkip, s.dhp, s.wsm, s.amp, s.nsqt, s.sdip, s.secT, s.sao, s.alf,
    s.pmvr⟩
  numRps := s.rps.length
  rps := s.rps.map RpsSyntax.expect
  reorderDelay := s.reorderDelay
  crossLoop := s.crossLoop

theorem u32_nat (v : Nat) (h : v < 4294967296) : u32 (v : Int) = v := by unfold u32; omega

theorem Reads.flag (v : Nat) (hv : v < 2) : Reads rdFlag (bitsOfNat 1 v) (v : Int) := by
  unfold rdFlag
  have hb : boolT (v : Int) = v := by unfold boolT; omega
  rw [← List.append_nil (bitsOfNat 1 v), ← hb]
  refine Reads.bind (Reads.u 1 v (by omega) (by omega)) ?_
  rw [hb]
  exact Reads.pure _

theorem Reads.cast {α : Type} {x : Rd α} {b : List Bool} {a a' : α} (h : Reads x b a) (e : a = a') :
    Reads x b a' := e ▸ h

theorem Reads.manyMap {α : Type} {x : Rd Int} (l : List α) (enc : α → List Bool) (f : α → Int) (n : Nat)
    (hn : n = l.length) (h : ∀ e ∈ l, Reads x (enc e) (f e)) :
    Reads (rdMany x n) (l.flatMap enc) (l.map f) := by
  subst hn
  have := Reads.many (x := x) (l.map fun e => (enc e, f e)) (by
    intro e he
    obtain ⟨a, ha, rfl⟩ := List.mem_map.1 he
    exact h a ha)
  simpa [List.flatMap_map, Function.comp_def] using this

theorem reads_fmt (s : SeqSyntax) (hs : s.Legal) :
    Reads parseSeqFmt s.fmtBits (SeqSyntax.expect s).fmt := by
  unfold parseSeqFmt SeqSyntax.fmtBits
  simp only [List.flatten_cons, List.flatten_nil]
  have hw := hs.width
  have hh := hs.height
  have hc := hs.chroma
  have hsp := hs.samplePrec
  have hep := hs.encPrec
  have h1 := hs.profile
  have h2 := hs.level
  have h3 := hs.progressive
  refine Reads.bind (Reads.u 8 _ (by omega) hs.profile) ?_
  refine Reads.bind (Reads.u 8 _ (by omega) hs.level) ?_
  refine Reads.bind (Reads.u 1 _ (by omega) hs.progressive) ?_
  refine Reads.bind (Reads.flag _ hs.fieldCoded) ?_
  refine Reads.bind (Reads.u 14 _ (by omega) hs.width.2) ?_
  refine Reads.bind (Reads.u 14 _ (by omega) hs.height.2) ?_
  refine Reads.ite_false (by rw [u32_nat _ (by omega), u32_nat _ (by omega)]; omega) ?_
  refine Reads.bind (Reads.u 2 _ (by omega) (by omega)) ?_
  refine Reads.ite_false (by rw [u32_nat _ (by omega)]; omega) ?_
  refine Reads.bind (Reads.u 3 _ (by omega) (by omega)) ?_
  rw [u32_nat _ (by omega), u32_nat _ (by omega), u32_nat _ (by omega), u32_nat _ (by omega),
    u32_nat _ (by omega), u32_nat _ (by omega)]
  by_cases hp : s.profile = 0x22
  · rw [if_pos hp, if_pos (by omega)]
    refine Reads.bind (Reads.u 3 _ (by omega) (by omega)) ?_
    refine Reads.ite_false (by omega) ?_
    exact Reads.pure _
  · rw [if_neg hp, if_neg (by omega)]
    have he := hs.encDefault hp
    refine Reads.bind (Reads.pure _) ?_
    refine Reads.ite_false (by omega) ?_
    have : (SeqSyntax.expect s).fmt = ⟨s.profile, s.level, s.progressive, s.fieldCoded, s.width,
        s.height, s.chroma, s.samplePrec, 1⟩ := by
      simp [SeqSyntax.expect, he]
    rw [this]
    exact Reads.pure _

theorem reads_rate (s : SeqSyntax) (hs : s.Legal) :
    Reads parseSeqRate s.rateBits (SeqSyntax.expect s).rate := by
  unfold parseSeqRate SeqSyntax.rateBits
  simp only [List.flatten_cons, List.flatten_nil]
  have h1 := hs.aspect
  have h2 := hs.frameRate
  have h3 := hs.lowDelay
  refine Reads.bind (Reads.u 4 _ (by omega) hs.aspect) ?_
  refine Reads.bind (Reads.u 4 _ (by omega) hs.frameRate) ?_
  refine Reads.bind (Reads.u 18 _ (by omega) hs.lower) ?_
  refine Reads.bind (Reads.u 1 1 (by omega) (by omega)) ?_
  refine Reads.bind (Reads.u 12 _ (by omega) hs.upper) ?_
  refine Reads.bind (Reads.u 1 _ (by omega) hs.lowDelay) ?_
  refine Reads.bind (Reads.u 1 1 (by omega) (by omega)) ?_
  refine Reads.bind (Reads.flag _ hs.temporalId) ?_
  refine Reads.bind (Reads.u 18 _ (by omega) hs.bbv) ?_
  rw [u32_nat _ (by omega), u32_nat _ (by omega), u32_nat _ (by omega)]
  exact Reads.pure _

theorem reads_lcu (s : SeqSyntax) (hs : s.Legal) :
    Reads parseSeqLcu (bitsOfNat 3 s.log2Lcu) (SeqSyntax.expect s).log2Lcu := by
  unfold parseSeqLcu
  have h := hs.log2Lcu
  rw [← List.append_nil (bitsOfNat 3 s.log2Lcu)]
  refine Reads.bind (Reads.u 3 _ (by omega) (by omega)) ?_
  refine Reads.ite_false (by omega) ?_
  exact Reads.pure _

theorem map_i16 (l : List Nat) (h : ∀ x ∈ l, x < 32768) : (l.map Int.ofNat).map i16 = l.map Int.ofNat := by
  rw [List.map_map]
  apply List.map_congr_left
  intro x hx
  have := h x hx
  simp only [Function.comp_apply, i16, Int.ofNat_eq_natCast]
  omega

theorem reads_wq (s : SeqSyntax) (hs : s.Legal) :
    Reads parseSeqWq s.weightBits (SeqSyntax.expect s).wq := by
  unfold parseSeqWq SeqSyntax.weightBits
  rcases hw : s.weights with _ | _ | ⟨a, b⟩
  · simp only [List.flatten_cons, List.flatten_nil]
    refine Reads.bind (Reads.flag 0 (by omega)) ?_
    refine Reads.ite_true (by omega) ?_
    simp only [SeqSyntax.expect, hw]
    exact Reads.pure _
  · simp only [List.flatten_cons, List.flatten_nil]
    refine Reads.bind (Reads.flag 1 (by omega)) ?_
    refine Reads.ite_false (by omega) ?_
    refine Reads.bind (Reads.flag 0 (by omega)) ?_
    refine Reads.ite_false (by omega) ?_
    refine Reads.ite_true (by omega) ?_
    simp only [SeqSyntax.expect, hw]
    exact Reads.pure _
  · obtain ⟨ha, hb, ha', hb'⟩ := hs.weights a b hw
    simp only [List.flatten_cons, List.flatten_nil]
    refine Reads.bind (Reads.flag 1 (by omega)) ?_
    refine Reads.ite_false (by omega) ?_
    refine Reads.bind (Reads.flag 1 (by omega)) ?_
    refine Reads.ite_true (by omega) ?_
    refine Reads.bind (Reads.manyMap a ueCode Int.ofNat 16 ha.symm fun x hx => Reads.ue x ?_) ?_
    · have := ha' x hx; omega
    refine Reads.bind (Reads.manyMap b ueCode Int.ofNat 64 hb.symm fun x hx => Reads.ue x ?_) ?_
    · have := hb' x hx; omega
    rw [map_i16 a ha', map_i16 b hb']
    simp only [SeqSyntax.expect, hw]
    exact Reads.pure _

theorem reads_flags (s : SeqSyntax) (hs : s.Legal) :
    Reads parseSeqFlags s.flagBits (SeqSyntax.expect s).flags := by
  unfold parseSeqFlags SeqSyntax.flagBits
  simp only [List.flatten_cons, List.flatten_nil]
  refine Reads.bind (Reads.flag _ hs.bgDisable) ?_
  refine Reads.bind (Reads.flag _ hs.mhpSkip) ?_
  refine Reads.bind (Reads.flag _ hs.dhp) ?_
  refine Reads.bind (Reads.flag _ hs.wsm) ?_
  refine Reads.bind (Reads.flag _ hs.amp) ?_
  refine Reads.bind (Reads.flag _ hs.nsqt) ?_
  refine Reads.bind (Reads.flag _ hs.sdip) ?_
  refine Reads.bind (Reads.flag _ hs.secT) ?_
  refine Reads.bind (Reads.flag _ hs.sao) ?_
  refine Reads.bind (Reads.flag _ hs.alf) ?_
  refine Reads.bind (Reads.flag _ hs.pmvr) ?_
  refine Reads.cast (Reads.pure _) ?_
  have h := hs.bgDisable
  have : flipT (s.bgDisable : Int) = 1 - s.bgDisable := by
    unfold flipT
    split <;> omega
  simp [SeqSyntax.expect, this]

theorem reads_rps (r : RpsSyntax) (hr : r.Legal) : Reads parseSeqRps r.bits (RpsSyntax.expect r) := by
  unfold parseSeqRps RpsSyntax.bits
  simp only [List.flatten_cons, List.flatten_nil]
  have h1 := hr.nref
  have h2 := hr.nrem
  refine Reads.bind (Reads.u 1 _ (by omega) hr.refd) ?_
  refine Reads.bind (Reads.u 3 _ (by omega) (by omega)) ?_
  refine Reads.ite_false (by omega) ?_
  refine Reads.bind (Reads.manyMap r.refs (bitsOfNat 6) Int.ofNat _ (by simp)
    fun x hx => Reads.u 6 x (by omega) (hr.refs x hx)) ?_
  refine Reads.bind (Reads.u 3 _ (by omega) (by omega)) ?_
  refine Reads.ite_false (by omega) ?_
  refine Reads.bind (Reads.manyMap r.removes (bitsOfNat 6) Int.ofNat _ (by simp)
    fun x hx => Reads.u 6 x (by omega) (hr.removes x hx)) ?_
  refine Reads.bind (Reads.u 1 1 (by omega) (by omega)) ?_
  exact Reads.pure _

theorem reads_tail (s : SeqSyntax) (hs : s.Legal) :
    ReadsA (parseSeqTail s.lowDelay) s.tailBits
      ((SeqSyntax.expect s).numRps, (SeqSyntax.expect s).rps, (SeqSyntax.expect s).reorderDelay,
        (SeqSyntax.expect s).crossLoop) := by
  unfold parseSeqTail SeqSyntax.tailBits
  simp only [List.flatten_cons, List.flatten_nil]
  have h1 := hs.nrps
  refine ReadsA.bind (Reads.u 1 1 (by omega) (by omega)) ?_
  refine ReadsA.bind (Reads.u 6 _ (by omega) (by omega)) ?_
  rw [if_neg (by omega)]
  have hm := Reads.many (x := parseSeqRps) (s.rps.map fun r => (r.bits, RpsSyntax.expect r)) (by
    intro e he
    obtain ⟨a, ha, rfl⟩ := List.mem_map.1 he
    exact reads_rps a (hs.rps a ha))
  simp only [List.length_map, List.flatMap_map, List.map_map] at hm
  refine ReadsA.bind hm ?_
  by_cases hl : s.lowDelay = 0
  · rw [if_pos hl, if_pos (by omega)]
    refine ReadsA.bind (Reads.u 5 _ (by omega) hs.reorder) ?_
    refine ReadsA.bind (Reads.flag _ hs.crossLoop) ?_
    refine ReadsA.bind (Reads.u 2 _ (by omega) hs.reserved) ?_
    exact ReadsA.align _
  · rw [if_neg hl, if_neg (by omega)]
    refine ReadsA.bind (Reads.pure _) ?_
    refine ReadsA.bind (Reads.flag _ hs.crossLoop) ?_
    refine ReadsA.bind (Reads.u 2 _ (by omega) hs.reserved) ?_
    have := hs.reorderLow hl
    simp only [SeqSyntax.expect, this]
    exact ReadsA.align _

/-- **C54.** Every legal sequence header, written down element by element as the format prescribes, is
accepted and read back element by element, and the reader ends on the next byte boundary. -/
theorem C54_sequence_header_roundtrip (s : SeqSyntax) (hs : s.Legal) (startCode : List Bool)
    (hsc : startCode.length = 32) (m : Mem) (p : Nat)
    (hb : memBits m p (s.bits startCode).length = s.bits startCode)
    (hl : p + (s.bits startCode).length ≤ 8 * m.len) :
    parseSeqHeader m p = .ok (SeqSyntax.expect s, (p + (s.bits startCode).length + 7) / 8 * 8) := by
  have key : ReadsA parseSeqHeader (s.bits startCode) (SeqSyntax.expect s) := by
    unfold parseSeqHeader SeqSyntax.bits
    simp only [List.flatten_cons, List.flatten_nil, List.append_nil]
    rw [← hsc]
    refine ReadsA.bind (Reads.skip startCode) ?_
    refine ReadsA.bind (reads_fmt s hs) ?_
    refine ReadsA.bind (reads_rate s hs) ?_
    refine ReadsA.bind (reads_lcu s hs) ?_
    refine ReadsA.bind (reads_wq s hs) ?_
    refine ReadsA.bind (reads_flags s hs) ?_
    exact ReadsA.map (f := fun t : Int × List RpsH × Int × Int =>
      (⟨_, _, _, _, _, t.1, t.2.1, t.2.2.1, t.2.2.2⟩ : SeqHdr))
      (reads_tail s hs)
  exact key m p hb hl

/-- Every legal header is accepted by the parser on some packet: the one that contains it. -/
theorem legal_accepted (s : SeqSyntax) (hs : s.Legal) :
    ∃ m q, parseSeqHeader m 0 = .ok (SeqSyntax.expect s, q) := by
  refine ⟨memOfBits (s.bits (List.replicate 32 false)), _,
    C54_sequence_header_roundtrip s hs (List.replicate 32 false) (by simp) _ 0 (memOfBits_bits _ _) ?_⟩
  simp only [memOfBits]
  omega

/-- A 10-bit 1920x1080 header with two reference sets, used as example. -/
def hdrExample : SeqSyntax where
  profile := 0x22
  level := 0x40
  progressive := 1
  fieldCoded := 0
  width := 1920
  height := 1080
  chroma := 1
  samplePrec := 1
  encPrec := 2
  aspect := 1
  frameRate := 3
  bitRateLower := 5000
  bitRateUpper := 0
  lowDelay := 0
  temporalId := 0
  bbv := 0
  log2Lcu := 6
  weights := none
  bgDisable := 1
  mhpSkip := 1
  dhp := 1
  wsm := 1
  amp := 1
  nsqt := 1
  sdip := 1
  secT := 1
  sao := 1
  alf := 1
  pmvr := 1
  rps := [⟨1, [1, 2, 3], [4]⟩, ⟨0, [1, 2], []⟩]
  reorderDelay := 2
  crossLoop := 1
  reserved := 0

theorem hdrExample_legal : hdrExample.Legal where
  profile := by decide
  level := by decide
  progressive := by decide
  fieldCoded := by decide
  width := by decide
  height := by decide
  chroma := by decide
  samplePrec := by decide
  encPrec := by decide
  encDefault := by decide
  aspect := by decide
  frameRate := by decide
  lower := by decide
  upper := by decide
  lowDelay := by decide
  temporalId := by decide
  bbv := by decide
  log2Lcu := by decide
  weights := by intro a b h; cases h
  bgDisable := by decide
  mhpSkip := by decide
  dhp := by decide
  wsm := by decide
  amp := by decide
  nsqt := by decide
  sdip := by decide
  secT := by decide
  sao := by decide
  alf := by decide
  pmvr := by decide
  nrps := by decide
  rps := by
    intro r hr
    simp only [hdrExample, List.mem_cons, List.not_mem_nil, or_false] at hr
    rcases hr with rfl | rfl <;> constructor <;> decide
  reorder := by decide
  reorderLow := by decide
  crossLoop := by decide
  reserved := by decide

/-- The hypotheses of C18 and C54 are met by a real packet. -/
example : ∃ m q, 0 + 32 ≤ 8 * m.len ∧ parseSeqHeader m 0 = .ok (SeqSyntax.expect hdrExample, q) ∧
    (SeqSyntax.expect hdrExample).encHeight = 1080 ∧ (SeqSyntax.expect hdrExample).fmt.width = 1920 := by
  refine ⟨memOfBits (hdrExample.bits (List.replicate 32 false)), _, by decide +kernel,
    C54_sequence_header_roundtrip hdrExample hdrExample_legal (List.replicate 32 false) (by simp) _ 0
      (memOfBits_bits _ _) (by decide +kernel), rfl, rfl⟩

/-- The same with default and with transmitted weighting matrices. -/
example : (∃ m q, parseSeqHeader m 0 = .ok (SeqSyntax.expect { hdrExample with weights := some none }, q)) ∧
    ∃ m q, parseSeqHeader m 0 = .ok (SeqSyntax.expect
      { hdrExample with weights := some (some (List.replicate 16 70, List.range 64)) }, q) := by
  refine ⟨⟨memOfBits (SeqSyntax.bits { hdrExample with weights := some none } (List.replicate 32 false)), _,
    C54_sequence_header_roundtrip { hdrExample with weights := some none }
      { hdrExample_legal with weights := by intro a b h; cases h } (List.replicate 32 false) (by simp) _ 0
      (memOfBits_bits _ _) (by decide +kernel)⟩,
    ⟨memOfBits (SeqSyntax.bits { hdrExample with weights := some (some (List.replicate 16 70, List.range 64)) }
      (List.replicate 32 false)), _,
    C54_sequence_header_roundtrip { hdrExample with weights := some (some (List.replicate 16 70, List.range 64)) }
      { hdrExample_legal with weights := by intro a b h; cases h; decide } (List.replicate 32 false) (by simp) _ 0
      (memOfBits_bits _ _) (by decide +kernel)⟩⟩

/-! ## Reference tables -/

/-- **C21 (partial).** Provided no store has left a table while parsing, an accepted header has at most
32 sets, each with at most 4 references and 8 removals.  Missing: the parser does not check the number of
references, see `C21_seq_overflow_violated`. -/
theorem C21_seq_tables_partial (m : Mem) (p : Nat) (s : SeqHdr) (q : Nat)
    (h : parseSeqHeader m p = .ok (s, q)) :
    s.rps.length ≤ 32 ∧ ∀ r ∈ s.rps, r.refPic.length ≤ 4 ∧ r.removePic.length ≤ 8 := by
  unfold parseSeqHeader at h
  obtain ⟨a0, p0, h0, h⟩ := rd_bind_ok _ _ _ _ _ h
  obtain ⟨a1, p1, h1, h⟩ := rd_bind_ok _ _ _ _ _ h
  obtain ⟨a2, p2, h2, h⟩ := rd_bind_ok _ _ _ _ _ h
  obtain ⟨a3, p3, h3, h⟩ := rd_bind_ok _ _ _ _ _ h
  obtain ⟨a4, p4, h4, h⟩ := rd_bind_ok _ _ _ _ _ h
  obtain ⟨a5, p5, h5, h⟩ := rd_bind_ok _ _ _ _ _ h
  obtain ⟨a6, p6, h6, h⟩ := rd_bind_ok _ _ _ _ _ h
  have e := rd_pure_ok _ _ _ _ h
  simp only [Prod.mk.injEq] at e
  obtain ⟨rfl, rfl⟩ := e
  exact parseSeqTail_ok _ _ _ _ _ h6

/-- The example header with five references in its first set. -/
def hdrFiveRefs : SeqSyntax := { hdrExample with rps := [⟨1, [1, 2, 3, 4, 5], []⟩] }

/-- **C21 (violated).** A sequence header with five references in a set makes the parser store outside
the four-entry table. -/
theorem C21_seq_overflow_violated : ∃ m p, p + 32 ≤ 8 * m.len ∧ parseSeqHeader m p = .oob :=
  ⟨memOfBits (hdrFiveRefs.bits (List.replicate 32 false)), 0, by decide +kernel, by decide +kernel⟩

/-! ## Bit depth -/

/-- **C22 (partial).** The announced depth is the depth of the delivered pictures exactly when the
stream is not a 10-bit profile stream or its two precision fields agree.  Missing: the remaining streams,
see `C22_depth_violated`. -/
theorem C22_depth_agrees_partial (m : Mem) (p : Nat) (s : SeqHdr) (q : Nat) (hp : p + 32 ≤ 8 * m.len)
    (h : parseSeqHeader m p = .ok (s, q)) :
    (s.announcedDepth = s.deliverDepth ↔ s.fmt.profile ≠ 0x22 ∨ s.fmt.samplePrec = s.fmt.encPrec) ∧
    s.announcedDepth = s.decodeDepth := by
  unfold parseSeqHeader at h
  obtain ⟨a0, p0, h0, h⟩ := rd_bind_ok _ _ _ _ _ h
  obtain ⟨a1, p1, h1, h⟩ := rd_bind_ok _ _ _ _ _ h
  obtain ⟨a2, p2, h2, h⟩ := rd_bind_ok _ _ _ _ _ h
  obtain ⟨a3, p3, h3, h⟩ := rd_bind_ok _ _ _ _ _ h
  obtain ⟨a4, p4, h4, h⟩ := rd_bind_ok _ _ _ _ _ h
  obtain ⟨a5, p5, h5, h⟩ := rd_bind_ok _ _ _ _ _ h
  obtain ⟨a6, p6, h6, h⟩ := rd_bind_ok _ _ _ _ _ h
  have e := rd_pure_ok _ _ _ _ h
  simp only [Prod.mk.injEq] at e
  obtain ⟨rfl, rfl⟩ := e
  have e0 : p0 = p + 32 := by
    simp only [rdSkip, Res.ok.injEq, Prod.mk.injEq] at h0
    omega
  subst e0
  obtain ⟨f1, f2, f3, f4, f5, f6, f7, f8, f9, f10, f11⟩ := parseSeqFmt_ok _ _ _ _ (by omega) h1
  simp only [SeqHdr.announcedDepth, SeqHdr.deliverDepth, SeqHdr.decodeDepth]
  by_cases hm : a1.profile = 0x22
  · simp only [hm, if_true, ne_eq, not_true_eq_false, false_or, and_true]
    omega
  · have := f11 hm
    simp only [hm, if_false, ne_eq, not_false_eq_true, true_or, iff_true]
    omega

/-- **C22 (violated).** A legal 10-bit profile header announces 10 bits although its pictures are
delivered with 8. -/
theorem C22_depth_violated : ∃ m p s q, parseSeqHeader m p = .ok (s, q) ∧ s.announcedDepth = 10 ∧
    s.bytesPerSample = 2 ∧ s.deliverDepth = 8 := by
  obtain ⟨m, q, h⟩ := legal_accepted hdrExample hdrExample_legal
  exact ⟨m, 0, _, q, h, by decide, by decide, by decide⟩

/-! ## Bit rate -/

/-- **C55 (partial).** The announced bit rate is 400 times the transmitted 30-bit number, as long as
this is less than 2^32.  Missing: larger rates, see `C55_bitrate_violated`. -/
theorem C55_bitrate_partial (s : SeqSyntax) (hs : s.Legal)
    (hr : (s.bitRateUpper * 262144 + s.bitRateLower) * 400 < 4294967296) :
    ∃ m q h, parseSeqHeader m 0 = .ok (h, q) ∧
      h.bitrate = ((s.bitRateUpper * 262144 + s.bitRateLower) * 400 : Nat) := by
  obtain ⟨m, q, h⟩ := legal_accepted s hs
  refine ⟨m, q, _, h, ?_⟩
  show ((s.bitRateUpper : Int) * 262144 + s.bitRateLower) * 400 % 4294967296 = _
  omega

example : hdrExample.Legal ∧
    (hdrExample.bitRateUpper * 262144 + hdrExample.bitRateLower) * 400 < 4294967296 :=
  ⟨hdrExample_legal, by decide⟩

/-- **C55 (violated).** A legal header that transmits 4.4 Gbit/s announces less than 0.2 Gbit/s. -/
theorem C55_bitrate_violated : ∃ s : SeqSyntax, s.Legal ∧
    (s.bitRateUpper * 262144 + s.bitRateLower) * 400 = 4404019200 ∧
    ∃ m q h, parseSeqHeader m 0 = .ok (h, q) ∧ h.bitrate = 109051904 := by
  let s : SeqSyntax := { hdrExample with bitRateUpper := 42, bitRateLower := 0 }
  have hs : s.Legal := { hdrExample_legal with upper := by decide, lower := by decide }
  obtain ⟨m, q, h⟩ := legal_accepted s hs
  exact ⟨s, hs, by decide, m, q, _, h, by decide⟩

end Davs2
