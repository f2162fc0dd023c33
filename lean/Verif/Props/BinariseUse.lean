import Verif.Props.Binarise
import Verif.Lemmas.BinariseMachine
/-
C79, continued: what the tables of Props/Binarise say for the arithmetic decoder and for a list of bins, with
concrete cases.
-/
namespace Davs2.Sx

/-- **C79 (arithmetic decoder).**  For any syntax element with a table of codes: in any good state (for example at
the start of a payload, `GoodSt.start`), if the symbols that the arithmetic decoder delivers one by one without
an error are the code of a value, reading the element gives this value and leaves the decoder where these symbols
end, although several elements are read by loops that decode a run of symbols at once. -/
theorem C79_decoder {α : Type} {p : P St α} {T : α → List Bin → Prop} (hp : Codes GoodSt aecMachine p T) {s s' : St}
    {v : α} {c : List Bin} (g : GoodSt s) (hv : T v c) (h : Produces noError aecMachine s c s') :
    p s = .ok (v, s') ∧ GoodSt s' :=
  ⟨hp.reads aecMachine_lawful v c hv s s' (g.produces h), (g.produces h).good_right⟩

/-- **C79 (list of bins).**  An element followed by anything is read as it was written, and what is read was
written so. -/
theorem C79_script {α : Type} {p : P (List Bin) α} {T : α → List Bin → Prop} (hp : Codes anyState script p T)
    (v : α) (s rest : List Bin) : p s = .ok (v, rest) ↔ ∃ c, T v c ∧ s = c ++ rest := by
  constructor
  · intro h
    obtain ⟨c, hc, hs⟩ := hp.only script_quiet s v rest h
    exact ⟨c, hc, script_produces.mp hs⟩
  · rintro ⟨c, hc, rfl⟩
    exact hp.reads script_lawful v c hc _ _ (script_produces.mpr rfl)

/-- **C79 (codes).**  No code of a value is the beginning of the code of another value. -/
theorem C79_prefix_free {α : Type} {p : ∀ {σ : Type}, Machine σ → P σ α} {T : α → List Bin → Prop}
    (hp : Codes anyState script (p script) T) {v w : α} {c d e : List Bin} (hv : T v c) (hw : T w d)
    (h : d = c ++ e) : v = w ∧ e = [] := by
  have h1 := (C79_script hp v d e).mpr ⟨c, hv, h⟩
  have h2 := (C79_script hp w d []).mpr ⟨d, hw, (List.append_nil d).symm⟩
  rw [h1] at h2
  simp only [Except.ok.injEq, Prod.mk.injEq] at h2
  exact h2

variable {σ : Type} {m : Machine σ} {G : σ → Prop}

/-- **C79 (quantiser difference in range).**  Every difference that the range allows is read as it was written. -/
theorem C79_deltaQp_range (hm : m.Lawful G) (bd : Nat) (hbd : 8 ≤ bd ∧ bd ≤ 10) (last d : Int)
    (hd : -(32 + 4 * ((bd : Int) - 8)) ≤ d ∧ d ≤ 32 + 4 * ((bd : Int) - 8)) {s s' : σ}
    (h : Produces G m s (dqpCode last d) s') : deltaQp m bd last s = .ok (d, s') := by
  have hr := (C79_deltaQp (m := m) (G := G) last).reads hm d _ ⟨⟨by omega, by omega⟩, rfl⟩ s s' h
  unfold deltaQp
  refine bind_ok.mpr ⟨d, s', hr, ?_⟩
  have e : i8 d = d := by unfold i8; omega
  simp only [e]
  rw [if_neg (by omega)]
  rfl

/-! ### Concrete cases -/

/-- A payload on which the arithmetic decoder delivers the code of a split flag. -/
example : ∃ a s', aecStart [0x55#8, 0x0f#8, 0xa3#8] 0 3 ⟨⟨[], 0, 0, 0, 0⟩, false, false, false, 0, 0, 0, 0⟩ = some a ∧
    a.err = false ∧ Produces noError aecMachine ⟨a, fun _ _ => initCtx⟩ [cx .split 0 0] s' :=
  ⟨_, _, rfl, rfl, .cons rfl rfl (.nil rfl)⟩

example : Machine.Lawful aecMachine GoodSt ∧ Machine.Lawful script anyState ∧ Machine.Quiet script anyState :=
  ⟨aecMachine_lawful, script_lawful, script_quiet⟩

section
variable (r : List Bin)

example : splitFlag script 5 (cx .split 1 1 :: r) = .ok (true, r) :=
  (C79_script (C79_splitFlag 5 (by decide)) true _ r).mpr ⟨[cx .split 1 1], by unfold In; decide, rfl⟩
example : dmhMode script 3 ([cx .puType 3 1, cx .puType 4 1, cx .puType 5 0, by_ 1] ++ r) = .ok (8, r) :=
  (C79_script (C79_dmhMode 3 (by decide)) 8 _ r).mpr ⟨_, by unfold In; decide, rfl⟩
example : intraCuType script true 4 ([cx .tuSplit 2 1, cx .intraPuType 0 0] ++ r) = .ok ((11, some 2), r) :=
  (C79_script (C79_intraCuType true 4 (by decide)) _ _ r).mpr ⟨_, by unfold In; decide, rfl⟩
example : intraPmode script ([cx .lumaMode 0 0, cx .lumaMode 1 1, cx .lumaMode 2 0, cx .lumaMode 3 0, cx .lumaMode 4 1,
    cx .lumaMode 5 0] ++ r) = .ok (18, r) :=
  (C79_script C79_intraPmode _ _ r).mpr ⟨_, by unfold In; decide, rfl⟩
example : wpm script 4 ([cx .wsm 0 0, cx .wsm 1 0, cx .wsm 2 1] ++ r) = .ok (2, r) :=
  (C79_script (C79_wpm 4) _ _ r).mpr ⟨_, by unfold In; decide, rfl⟩
example : dirSkip script ([cx .subtype 0 0, cx .subtype 1 1] ++ r) = .ok (1, r) :=
  (C79_script C79_dirSkip _ _ r).mpr ⟨_, by unfold In; decide, rfl⟩
example : cuTypeS script ([cx .cuType 0 0, cx .cuType 1 0] ++ r) = .ok (9, r) :=
  (C79_script C79_cuTypeS _ _ r).mpr ⟨_, by unfold In; decide, rfl⟩
example : intraPmodeC script true (some 2) ([cx .chromaMode 1 0, cx .chromaMode 2 0, cx .chromaMode 2 1] ++ r) = .ok (3, r) :=
  (C79_script (C79_intraPmodeC true (some 2) (by intro l h; cases h; decide)) _ _ r).mpr ⟨_, by unfold In; decide, rfl⟩
/-- A unit of an F picture with an asymmetric partition. -/
example : cuType script 4 5 2 true true true
    ([cx .cuType 0 0, cx .cuType 1 0, cx .cuType 2 0, cx .cuType 3 1, cx .amp 0 0, cx .amp 1 0] ++ r) =
      .ok (some ⟨5, 0, 0⟩, r) :=
  (C79_script (C79_cuType 4 5 2 true true true (by decide)) _ _ r).mpr
    ⟨_, ⟨⟨5, 0, 0⟩, 5, _, [], rfl, (List.append_nil _).symm, ⟨rfl, [], [], rfl, by decide, by decide⟩, by decide⟩, rfl⟩
/-- A skipped unit of an F picture with weighted skip mode 1. -/
example : cuType script 4 5 2 true true true ([cx .cuType 0 1, cx .wsm 0 0] ++ r) = .ok (some ⟨-1, 1, 0⟩, r) :=
  (C79_script (C79_cuType 4 5 2 true true true (by decide)) _ _ r).mpr
    ⟨_, ⟨⟨-1, 1, 0⟩, -1, [cx .cuType 0 1], [cx .wsm 0 0], rfl, rfl, ⟨rfl, [cx .wsm 0 0], [], rfl, by decide, by decide⟩, by decide⟩, rfl⟩
/-- Two halves: the first in both directions, the second backward. -/
example : interPredDir script 2 2 4 2 0 0 true []
    ([cx .puType 3 1, cx .puType 6 0, cx .puType 7 1] ++ r) =
      .ok (([3, 1, 3, 1], [(1, 0), (-1, 0), (1, 0), (-1, 0)]), r) :=
  (C79_script (C79_dirsB 2 4 2 0 0 true [] (by decide) (by decide)) _ _ r).mpr ⟨_, by unfold In; decide, rfl⟩
example : refFrame script 4 ([cx .refIdx 0 0, cx .refIdx 1 0, cx .refIdx 2 0] ++ r) = .ok (3, r) :=
  (C79_script (C79_refFrame 4 (by decide)) _ _ r).mpr ⟨_, ⟨by decide, by decide⟩, rfl⟩
/-- Dual prediction from the references 1 and 0 in an F picture. -/
example : interPredDir script 4 1 4 2 0 0 true [] ([cx .puType 0 1, cx .refIdx 0 0] ++ r) =
    .ok (([4, 4, 4, 4], [(1, 0)]), r) :=
  (C79_script (C79_interPF 4 1 4 2 0 0 true [] (by decide) (by decide) (by decide)) _ _ r).mpr
    ⟨_, ⟨[cx .puType 0 1], by decide, by rw [if_pos rfl]; exact ⟨1, by decide, by decide, rfl⟩⟩, rfl⟩
example : deltaQpRaw script 0 ([cx .dqp 0 0, cx .dqp 2 0, cx .dqp 3 0, cx .dqp 3 1] ++ r) = .ok (2, r) :=
  (C79_script (C79_deltaQp 0) _ _ r).mpr ⟨_, ⟨by decide, by decide⟩, rfl⟩
example : cbp script (fun _ _ => (true, false)) 1
    ([cx .cbp 8 0, cx .tuSplit 0 0, cx .cbp 4 1, cx .cbp 5 1, cx .cbp 1 1] ++ r) = .ok ((49, false), r) := rfl
example : mvd script .mvd1 ([cx .mvd1 0 1, cx .mvd1 1 1, cx .mvd1 2 1, by_ 1, by_ 0, by_ 1, by_ 1, by_ 1] ++ r) =
    .ok (-8, r) :=
  (C79_script (C79_mvd .mvd1 (by decide)) _ _ r).mpr ⟨_, ⟨by decide, by decide⟩, rfl⟩
example : readLevel script ⟨true, false, false, 0, 8, 8, []⟩ 0 0 5 true ([.fin false, cx .level 0 0, cx .level 0 0, cx .level 0 1] ++ r) =
    .ok (some 3, r) :=
  (C79_script (C79_level _ 0 0 5 true (by decide)) _ _ r).mpr ⟨_, ⟨3, by decide, by decide, rfl, by decide⟩, rfl⟩
/-- The difference 129 is read as the smallest value, not as the largest. -/
example : deltaQp script 8 0 (dqpCode 0 129) = .ok (-32, []) := by decide +kernel

end

end Davs2.Sx
