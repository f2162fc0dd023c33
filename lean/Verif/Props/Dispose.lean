import Verif.Lemmas.Dispose
/-
C01 and C02: emulation prevention.  Specification: Verif/Spec/Escape.lean.
Model: Verif/Model/Dispose.lean (`bs_dispose_pseudo_code`, bitstream.cc:130-211).
-/
namespace Davs2
open Spec

/-- The encoder of the specification does its job: an escaped payload never contains a start code. -/
theorem C01_encoder_no_start_code (c : Byte) (p : List Bool) :
    noStartCode (if c = 0#8 then 1 else 0) (escapeBits (if c = 0#8 then 1 else 0) p) :=
  noStartCode_escapeBits _ _ (by split <;> omega)

/-- C01.  For every stream of well-formed units (any number, any payload), removing the inserted bits
returns each unit's start code and payload bits, with zero filling only.  What is missing for the full
statement: units with code 01 or 02 whose first payload byte is 01, 02, B0, B2 or B5, for which the
statement is false (next theorem). -/
theorem C01_escape_roundtrip_partial (us : List StreamUnit) (hw : ∀ u ∈ us, WfUnit u)
    (hr : ∀ u ∈ us, RecognisedUnit u) : CleanStream us (disposePseudoCode (us.flatMap encUnit)) := by
  by_cases hne : us = []
  · subst hne; simp [disposePseudoCode, dispRun, dispInit, dispFinish, CleanStream]
  · obtain ⟨out, ho, e⟩ := run_units us hw hr dispInit ⟨rfl, Or.inl rfl, Or.inl rfl⟩ hne
    have : disposePseudoCode (us.flatMap encUnit) = out := by
      unfold disposePseudoCode
      simpa [flushByte, dispInit] using e
    rw [this]; exact ho

/-- A stream meeting the hypotheses: a sequence header, a picture and a slice whose payload really needs
two escapes. -/
def c01Sample : List StreamUnit :=
  [.raw 0xB0#8 [1#8, 0#8, 0#8, 2#8, 7#8], .coded 0xB3#8 (List.replicate 45 false ++ [true]),
   .coded 1#8 (true :: List.replicate 60 false ++ [true])]

example : (∀ u ∈ c01Sample, WfUnit u) ∧ (∀ u ∈ c01Sample, RecognisedUnit u) := by
  decide +kernel

example : escapeBits 0 (List.replicate 45 false ++ [true]) = [0, 0, 2, 0, 0, 2, 0x40] := by
  simp [escapeBits, byteOfBits, valOf, List.replicate]

/-- The unrestricted statement is false: in a slice with code 01 whose payload starts with byte B0, the
escape of the following zero bytes is not removed. -/
theorem C01_escape_roundtrip_violated :
    ∃ us : List StreamUnit, (∀ u ∈ us, WfUnit u) ∧
      ¬ CleanStream us (disposePseudoCode (us.flatMap encUnit)) := by
  refine ⟨[.coded 1#8 (bitsOf [0xB0#8, 0#8, 0#8, 0#8, 0x80#8] |>.take 33)], by decide +kernel, ?_⟩
  rintro ⟨a, b, e, ⟨k, hk, ha⟩, hb⟩
  simp only [CleanStream] at hb
  subst hb
  rw [List.append_nil] at e
  rw [← e] at ha
  have h1 : disposePseudoCode ([StreamUnit.coded 1#8
      (bitsOf [0xB0#8, 0#8, 0#8, 0#8, 0x80#8] |>.take 33)].flatMap encUnit) =
      [0, 0, 1, 1, 0xB0, 0, 0, 2, 0x20] := by decide +kernel
  have h2 : packBits (bitsOf [0xB0#8, 0#8, 0#8, 0#8, 0x80#8] |>.take 33) =
      [0xB0, 0, 0, 0, 0x80] := by decide +kernel
  rw [h1, h2] at ha
  have : k = 0 ∨ k = 1 := by omega
  rcases this with h | h <;> subst h <;> revert ha <;> decide

/-- The data never grows, for every input. -/
theorem C01_no_growth (src : List Byte) : (disposePseudoCode src).length ≤ src.length := by
  have h := dispRun_length dispInit src
  have : (dispFinish (dispRun dispInit src).1).length ≤ owed (dispRun dispInit src).1 := by
    unfold dispFinish owed
    split <;> split <;> simp_all
  simp only [disposePseudoCode, List.length_append]
  have : owed dispInit = 0 := rfl
  omega

/-- Working in place is the same as working with two buffers, for every input: no byte is overwritten
before it is read, no access leaves the buffer, and the first `len` bytes are the clean stream. -/
theorem C01_in_place (mem : List Byte) :
    ∃ mem', disposeInPlace mem = some (mem', (disposePseudoCode mem).length) ∧
      mem'.length = mem.length ∧ mem'.take (disposePseudoCode mem).length = disposePseudoCode mem := by
  obtain ⟨m1, e, gap', hm, hg, hlen⟩ := inPlace_eq mem dispInit [] [] (by simp [owed, dispInit])
  simp only [List.nil_append, List.length_nil, Nat.add_zero, Nat.zero_add] at e hm hlen
  have hfin : (dispFinish (dispRun dispInit mem).1).length ≤ gap'.length := by
    refine Nat.le_trans ?_ hg
    unfold dispFinish owed
    split <;> split <;> simp_all
  have hwr := memWrite_spec m1 (dispFinish (dispRun dispInit mem).1) (dispRun dispInit mem).2.length
    (by rw [hm, List.length_append]; omega)
  have htake : m1.take (dispRun dispInit mem).2.length = (dispRun dispInit mem).2 := by
    rw [hm, List.take_append_of_le_length (by omega), List.take_length]
  rw [htake] at hwr
  refine ⟨(dispRun dispInit mem).2 ++ dispFinish (dispRun dispInit mem).1 ++
    m1.drop ((dispRun dispInit mem).2.length + (dispFinish (dispRun dispInit mem).1).length), ?_, ?_, ?_⟩
  · rw [disposeInPlace, e]
    simp only [hwr, disposePseudoCode, List.length_append]
  · simp only [List.length_append, List.length_drop]
    rw [← hlen, hm, List.length_append]
    omega
  · show List.take (disposePseudoCode mem).length ((dispRun dispInit mem).2 ++ _ ++ _) = _
    simp only [disposePseudoCode]
    rw [List.take_append_of_le_length (by omega), List.take_length]

example : disposeInPlace [0, 0, 1, 0xB3, 0, 0, 2, 0, 0x42, 0xFF, 3] ≠ none := by decide +kernel

/-- C02.  A stream in which no byte 02 follows exactly two zero bytes passes unchanged. -/
theorem C02_passthrough (src : List Byte) (h : noPseudo 0 src) : disposePseudoCode src = src := by
  obtain ⟨h1, h2⟩ := run_noPseudo 0 src dispInit rfl rfl h
  simp [disposePseudoCode, h1, dispFinish, h2]

/-- C02, in terms of the byte pattern. -/
theorem C02_passthrough_pattern (src : List Byte) (h : ¬ [0#8, 0#8, 2#8] <:+: src) :
    disposePseudoCode src = src :=
  C02_passthrough src (noPseudo_of_not_infix 0 src (by simpa using h))

example : noPseudo 0 [0, 0, 1, 0xB3, 0, 0, 0, 2, 5, 0, 2, 0, 0, 3] := by
  simp [noPseudo]

/-- C02, header units: sequence headers, user data and extensions pass literally even when they contain
the pattern 00 00 02. -/
theorem C02_raw_units (us : List (Byte × List Byte))
    (h : ∀ u ∈ us, isRawCode u.1 ∧ noStartCode 0 u.2) :
    disposePseudoCode (us.flatMap fun u => [0#8, 0#8, 1#8, u.1] ++ u.2) =
      us.flatMap fun u => [0#8, 0#8, 1#8, u.1] ++ u.2 := by
  have key : ∀ (us : List (Byte × List Byte)) out,
      CleanStream (us.map fun u => StreamUnit.raw u.1 u.2) out →
      out = us.flatMap fun u => [0#8, 0#8, 1#8, u.1] ++ u.2 := by
    intro us
    induction us with
    | nil => intro out ho; exact ho
    | cons u us ih =>
      rintro out ⟨a, b, rfl, ha, hb⟩
      rw [List.flatMap_cons, ← ih b hb]
      rw [show a = [0#8, 0#8, 1#8, u.1] ++ u.2 from ha]
  have e : (us.flatMap fun u => [0#8, 0#8, 1#8, u.1] ++ u.2) =
      (us.map fun u => StreamUnit.raw u.1 u.2).flatMap encUnit := by
    rw [List.flatMap_map]; rfl
  apply key us
  rw [e]
  apply C01_escape_roundtrip_partial
  · intro u hu
    obtain ⟨v, hv, rfl⟩ := List.mem_map.mp hu
    exact h v hv
  · intro u hu
    obtain ⟨v, hv, rfl⟩ := List.mem_map.mp hu
    trivial

example : isRawCode 0xB2#8 ∧ noStartCode 0 [0#8, 0#8, 2#8, 0#8, 0#8, 3#8] := by decide

end Davs2
