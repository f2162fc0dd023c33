import Verif.Model.PicHeader
import Verif.Props.SeqHeader
import Verif.Lemmas.StartCode
/- Lemmas about the picture headers and the header scan. -/
namespace Davs2
open Spec

/-- A parser that never moves backwards. -/
def Mono {α : Type} (x : Rd α) : Prop := ∀ m p a q, x m p = .ok (a, q) → p ≤ q

theorem Mono.pure {α : Type} (a : α) : Mono (pure a : Rd α) := by
  intro m p b q h
  have := rd_pure_ok _ _ _ _ h
  simp only [Prod.mk.injEq] at this
  omega

theorem Mono.bind {α β : Type} {x : Rd α} {f : α → Rd β} (hx : Mono x) (hf : ∀ a, Mono (f a)) :
    Mono (x >>= f) := by
  intro m p b q h
  obtain ⟨a, r, h1, h2⟩ := rd_bind_ok _ _ _ _ _ h
  have := hx _ _ _ _ h1
  have := hf a _ _ _ _ h2
  omega

theorem Mono.ite {α : Type} {c : Prop} [Decidable c] {x y : Rd α} (hx : Mono x) (hy : Mono y) :
    Mono (if c then x else y) := by
  split
  · exact hx
  · exact hy

theorem Mono.reject {α : Type} : Mono (rdReject : Rd α) := by intro m p a q h; cases h

theorem Mono.oob {α : Type} : Mono (rdOob : Rd α) := by intro m p a q h; cases h

theorem Mono.u (n : Nat) : Mono (rdU n) := by
  intro m p a q h
  unfold rdU at h
  split at h <;> simp only [Res.ok.injEq, Prod.mk.injEq] at h <;> omega

theorem Mono.ue : Mono rdUe := by
  intro m p a q h
  unfold rdUe at h
  split at h <;> first | (simp only [Res.ok.injEq, Prod.mk.injEq] at h; omega) | cases h

theorem Mono.se : Mono rdSe := by
  intro m p a q h
  unfold rdSe at h
  split at h <;> first | (simp only [Res.ok.injEq, Prod.mk.injEq] at h; omega) | cases h

theorem Mono.align : Mono rdAlign := by
  intro m p a q h
  simp only [rdAlign, Res.ok.injEq, Prod.mk.injEq] at h
  omega

theorem Mono.flag : Mono rdFlag := Mono.bind (Mono.u 1) fun _ => Mono.pure _

theorem Mono.many {α : Type} {x : Rd α} (hx : Mono x) (n : Nat) : Mono (rdMany x n) := by
  induction n with
  | zero => exact Mono.pure _
  | succ n ih => exact Mono.bind hx fun _ => Mono.bind ih fun _ => Mono.pure _

theorem mono_fmt : Mono parseSeqFmt := by
  unfold parseSeqFmt
  refine .bind (.u _) fun _ => .bind (.u _) fun _ => .bind (.u _) fun _ => .bind .flag fun _ =>
    .bind (.u _) fun _ => .bind (.u _) fun _ => .ite .reject (.bind (.u _) fun _ => .ite .reject
    (.bind (.u _) fun _ => .bind (.ite (.u _) (.pure _)) fun _ => .ite .reject (.pure _)))

theorem mono_rate : Mono parseSeqRate := by
  unfold parseSeqRate
  refine .bind (.u _) fun _ => .bind (.u _) fun _ => .bind (.u _) fun _ => .bind (.u _) fun _ =>
    .bind (.u _) fun _ => .bind (.u _) fun _ => .bind (.u _) fun _ => .bind .flag fun _ =>
    .bind (.u _) fun _ => .pure _

theorem mono_lcu : Mono parseSeqLcu := .bind (.u _) fun _ => .ite .reject (.pure _)

theorem mono_wq : Mono parseSeqWq := by
  unfold parseSeqWq
  exact .bind .flag fun _ => .ite (.pure _) (.bind .flag fun _ => .ite
    (.bind (.many .ue _) fun _ => .bind (.many .ue _) fun _ => .pure _) (.ite (.pure _) (.pure _)))

theorem mono_flags : Mono parseSeqFlags := by
  unfold parseSeqFlags
  exact .bind .flag fun _ => .bind .flag fun _ => .bind .flag fun _ => .bind .flag fun _ =>
    .bind .flag fun _ => .bind .flag fun _ => .bind .flag fun _ => .bind .flag fun _ =>
    .bind .flag fun _ => .bind .flag fun _ => .bind .flag fun _ => .pure _

theorem mono_rps : Mono parseSeqRps := by
  unfold parseSeqRps
  exact .bind (.u _) fun _ => .bind (.u _) fun _ => .ite .oob (.bind (.many (.u _) _) fun _ =>
    .bind (.u _) fun _ => .ite .oob (.bind (.many (.u _) _) fun _ => .bind (.u _) fun _ => .pure _))

theorem mono_tail (d : Int) : Mono (parseSeqTail d) := by
  unfold parseSeqTail
  exact .bind (.u _) fun _ => .bind (.u _) fun _ => .ite .reject (.bind (.many mono_rps _) fun _ =>
    .bind (.ite (.u _) (.pure _)) fun _ => .bind .flag fun _ => .bind (.u _) fun _ =>
    .bind .align fun _ => .pure _)

/-- Parsing a sequence header moves at least over its start code. -/
theorem parseSeqHeader_progress (m : Mem) (p : Nat) (s : SeqHdr) (q : Nat)
    (h : parseSeqHeader m p = .ok (s, q)) : p + 32 ≤ q := by
  unfold parseSeqHeader at h
  obtain ⟨a0, p0, h0, h⟩ := rd_bind_ok _ _ _ _ _ h
  have e0 : p0 = p + 32 := by
    simp only [rdSkip, Res.ok.injEq, Prod.mk.injEq] at h0
    omega
  subst e0
  have hm : Mono (do
      let fmt ← parseSeqFmt
      let rate ← parseSeqRate
      let log2Lcu ← parseSeqLcu
      let wq ← parseSeqWq
      let flags ← parseSeqFlags
      let tail ← parseSeqTail rate.lowDelay
      pure (⟨fmt, rate, log2Lcu, wq, flags, tail.1, tail.2.1, tail.2.2.1, tail.2.2.2⟩ : SeqHdr)) :=
    .bind mono_fmt fun _ => .bind mono_rate fun _ => .bind mono_lcu fun _ => .bind mono_wq fun _ =>
      .bind mono_flags fun _ => .bind (mono_tail _) fun _ => .pure _
  exact hm _ _ _ _ h

theorem memFrom_getElem? (m : Mem) (i k : Nat) (b : Byte) (h : (memFrom m i)[k]? = some b) :
    i + k < m.len ∧ b = m.byte (i + k) := by
  unfold memFrom at h
  rw [List.getElem?_map, Option.map_eq_some_iff] at h
  obtain ⟨a, h1, h2⟩ := h
  have hl := (List.getElem?_eq_some_iff.1 h1).1
  rw [List.length_range'] at hl
  rw [List.getElem?_range' hl] at h1
  simp only [Option.some.injEq] at h1
  subst h1
  refine ⟨by omega, ?_⟩
  rw [← h2]
  congr 1
  omega

/-- What a hit of the start-code search means. -/
theorem findStartCode_mem (m : Mem) (i k : Nat) (h : findStartCode (memFrom m i) = some k) :
    i + k + 4 ≤ m.len ∧ m.byte (i + k) = 0#8 ∧ m.byte (i + k + 1) = 0#8 ∧ m.byte (i + k + 2) = 1#8 := by
  obtain ⟨⟨c, h1, h2, h3, h4⟩, _⟩ := ((findStartCode_spec (memFrom m i)).1 k).1 h
  obtain ⟨l1, e1⟩ := memFrom_getElem? _ _ _ _ h1
  obtain ⟨l2, e2⟩ := memFrom_getElem? _ _ _ _ h2
  obtain ⟨l3, e3⟩ := memFrom_getElem? _ _ _ _ h3
  obtain ⟨l4, e4⟩ := memFrom_getElem? _ _ _ _ h4
  exact ⟨by omega, e1.symm, e2.symm, e3.symm⟩

end Davs2
