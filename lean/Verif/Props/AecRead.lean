import Verif.Lemmas.AecRead
/-
C30: entropy decoding reads exactly the slice payload.
-/
namespace Davs2
open Spec

theorem RdEnd.reads {r : AecRd} {k : Nat} (h : RdEnd r k) : ∀ n, k + n ≤ 128 →
    ∃ q, aecNextBits n r = some (List.replicate n none, q) ∧ RdEnd q (k + n) := by
  intro n
  induction n generalizing r k with
  | zero => intro _; exact ⟨r, rfl, h⟩
  | succ n ih =>
    intro hn
    obtain ⟨r', h1, h2⟩ := h.next (by omega)
    obtain ⟨q, h3, h4⟩ := ih h2 (by omega)
    refine ⟨q, ?_, by rw [show k + (n + 1) = k + 1 + n by omega]; exact h4⟩
    simp [aecNextBits, h1, h3, List.replicate_succ]

theorem RdRep.reads {r : AecRd} {l : List Bool} (h : RdRep r l) : ∀ n, n ≤ l.length →
    ∃ q, aecNextBits n r = some ((l.take n).map some, q) ∧ RdRep q (l.drop n) ∧
      aecBitsRead q = aecBitsRead r + n := by
  intro n
  induction n generalizing r l with
  | zero => intro _; exact ⟨r, rfl, h, by omega⟩
  | succ n ih =>
    intro hn
    cases l with
    | nil => simp at hn
    | cons b l =>
      obtain ⟨r', h1, h2, h3, _, _⟩ := h.next
      obtain ⟨q, h4, h5, h6⟩ := ih h2 (by simpa using hn)
      refine ⟨q, ?_, h5, by omega⟩
      simp [aecNextBits, h1, h4]

theorem RdRep.reads_end {r : AecRd} {l : List Bool} (h : RdRep r l) (m : Nat) (hm : m ≤ 128) :
    ∃ q, aecNextBits (l.length + m) r = some (l.map some ++ List.replicate m none, q) ∧
      (0 < m → RdEnd q m) := by
  obtain ⟨q, h1, h2, _⟩ := h.reads l.length (Nat.le_refl _)
  rw [List.drop_length] at h2
  rw [aecNextBits_append, h1]
  cases m with
  | zero => exact ⟨q, by simp [aecNextBits], by omega⟩
  | succ m =>
    obtain ⟨r', h3, h4⟩ := h2.eos
    obtain ⟨q', h5, h6⟩ := h4.reads m (by omega)
    refine ⟨q', ?_, fun _ => by rw [Nat.add_comm]; exact h6⟩
    simp [aecNextBits, h3, h5, List.replicate_succ]

/-- C30 (part): for every slice buffer and every payload inside it, reading bits gives the bits of payload
bytes `pos .. len - 1` in order, then up to 128 reads that only report the end of the payload, and the
position reported is the number of bits taken.  Nothing outside the buffer is touched even if the buffer ends
with the payload, and the results depend on the payload only.  Missing: more than 128 reads past the end. -/
theorem C30_reader_partial (buf : List Byte) (pos len old n : Nat) (h : len ≤ buf.length)
    (hn : n ≤ 8 * (len - pos) + 128) :
    let payload := bitsOf ((buf.take len).drop pos)
    ∃ q, aecNextBits n (aecRdStart buf pos len old) =
        some ((payload.take n).map some ++ List.replicate (n - payload.length) none, q) ∧
      (n ≤ payload.length → aecBitsRead q = 8 * pos + n) := by
  intro payload
  have hr := RdRep.start buf pos len old h
  have hl : payload.length = 8 * (len - pos) := by
    show (bitsOf ((buf.take len).drop pos)).length = _
    rw [bitsOf_length, List.length_drop, List.length_take, Nat.min_eq_left h]
  by_cases hc : n ≤ payload.length
  · obtain ⟨q, h1, _, h3⟩ := hr.reads n hc
    refine ⟨q, ?_, fun _ => ?_⟩
    · rw [h1, Nat.sub_eq_zero_of_le hc]; simp [payload]
    · rw [h3]; unfold aecBitsRead aecRdStart; simp only []; omega
  · obtain ⟨q, h1, _⟩ := hr.reads_end (n - payload.length) (by omega)
    refine ⟨q, ?_, fun h => absurd h hc⟩
    have e : payload.length + (n - payload.length) = n := by omega
    have h1' : aecNextBits (payload.length + (n - payload.length)) (aecRdStart buf pos len old) =
      some (payload.map some ++ List.replicate (n - payload.length) none, q) := h1
    rw [e] at h1'
    rw [h1', List.take_of_length_le (by omega)]

example : ∃ q, aecNextBits 10 (aecRdStart [0xFF, 0xA5#8, 0x00] 1 2 77) =
    some ([true, false, true, false, false, true, false, true].map some ++ [none, none], q) := by
  obtain ⟨q, h, _⟩ := C30_reader_partial [0xFF, 0xA5#8, 0x00] 1 2 77 10 (by decide) (by decide)
  exact ⟨q, h.trans rfl⟩

/-- C30 fails after 128 reports of the end of the payload: the counter of bits left, an 8-bit number that
every report reduces by one, wraps around to 127, and the next read shifts a 64-bit number by 127. -/
theorem C30_exhaustion_violated (buf : List Byte) (pos len old : Nat) (h : len ≤ buf.length) :
    aecNextBits (8 * (len - pos) + 129) (aecRdStart buf pos len old) = none := by
  have hr := RdRep.start buf pos len old h
  have hl : (bitsOf ((buf.take len).drop pos)).length = 8 * (len - pos) := by
    rw [bitsOf_length, List.length_drop, List.length_take, Nat.min_eq_left h]
  obtain ⟨q, h1, h2⟩ := hr.reads_end 128 (by omega)
  rw [hl] at h1
  rw [show 8 * (len - pos) + 129 = 8 * (len - pos) + 128 + 1 by omega, aecNextBits_append, h1]
  simp [aecNextBits, (h2 (by omega)).wrap]

end Davs2
