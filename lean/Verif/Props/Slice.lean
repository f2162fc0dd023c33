import Verif.Model.Slice
import Verif.Lemmas.HeaderReader
import Verif.Spec.SliceHeader
import Verif.Props.IntraMode
/-
C60: slices do not influence each other's intra modes; C61: slices appear where their header says; C62: slice header fields.
-/
namespace Davs2.Sl
open Davs2 Davs2.Spec

theorem reads_flag (v : Nat) (hv : v < 2) : Reads rdFlag (bitsOfNat 1 v) (v : Int) := by
  have h := Reads.bind (f := fun x => (pure (boolT x) : Rd Int)) (Reads.u 1 v (by omega) (by omega)) (Reads.pure (boolT (v : Int)))
  rw [List.append_nil] at h
  have e : boolT (v : Int) = v := by unfold boolT; omega
  rw [e] at h
  exact h

theorem reads_many3 (a b c : Nat) (ha : a < 2) (hb : b < 2) (hc : c < 2) :
    Reads (rdMany rdFlag 3) (bitsOfNat 1 a ++ (bitsOfNat 1 b ++ (bitsOfNat 1 c ++ []))) [(a : Int), b, c] := by
  have := Reads.many (x := rdFlag) [(bitsOfNat 1 a, (a : Int)), (bitsOfNat 1 b, (b : Int)), (bitsOfNat 1 c, (c : Int))] (by
    intro e he
    simp only [List.mem_cons, List.not_mem_nil, or_false] at he
    rcases he with rfl | rfl | rfl
    · exact reads_flag a ha
    · exact reads_flag b hb
    · exact reads_flag c hc)
  simpa using this

/-- C62: a slice header written with any legal fields is read back: position, quantiser and SAO switches. -/
theorem C62_fields (c : Ctx) (st : State) (s : SliceSyntax) (start : List Bool) (hs : start.length = 24)
    (tall wide : Bool) (htall : tall = decide (c.imgH > 144 * c.lcu)) (hwide : wide = decide (c.width > 255 * c.lcu))
    (hrow : s.row < if tall then 1024 else 256) (hcol : s.col < if wide then 1024 else 256)
    (hf : s.fixedQp < 2) (hq : s.qp < 128) (h1 : s.saoY < 2) (h2 : s.saoU < 2) (h3 : s.saoV < 2) :
    Reads (parse c st) (start ++ s.bits tall wide c.fixedPicQp c.sao)
      (((s.row : Int), ((s.col % 256 : Nat) : Int), ((s.col / 256 : Nat) : Int)),
        ⟨if c.fixedPicQp then st.fixedSliceQp else s.fixedQp, if c.fixedPicQp then c.picQp else s.qp,
         if c.fixedPicQp then 0 else if s.fixedQp = 0 then 1 else 0,
         if c.sao then [(s.saoY : Int), s.saoU, s.saoV] else st.saoOn⟩) := by
  unfold parse SliceSyntax.bits
  have hskip := Reads.skip start
  rw [hs] at hskip
  apply Reads.bind hskip
  apply Reads.bind (a := (((if tall then s.row % 128 else s.row) : Nat) : Int))
  · apply Reads.u _ _ (by omega)
    cases tall <;> simp at * <;> omega
  apply Reads.bind (a := ((if tall then s.row / 128 else 0 : Nat) : Int))
  · cases tall
    · apply Reads.ite_false (by simpa using htall)
      exact Reads.pure _
    · apply Reads.ite_true (by simpa using htall)
      exact Reads.u _ _ (by omega) (by simp at hrow; omega)
  have er : (if c.imgH > 144 * c.lcu then ((if tall then s.row / 128 else 0 : Nat) : Int) * 128 +
      (((if tall then s.row % 128 else s.row) : Nat) : Int) else (((if tall then s.row % 128 else s.row) : Nat) : Int)) = s.row := by
    cases tall
    · rw [if_neg (by simpa using htall)]; rfl
    · rw [if_pos (by simpa using htall)]
      simp only [if_true]
      omega
  dsimp only
  rw [er]
  apply Reads.bind (a := ((s.col % 256 : Nat) : Int))
  · exact Reads.u _ _ (by omega) (by omega)
  apply Reads.bind (a := ((s.col / 256 : Nat) : Int))
  · cases wide
    · apply Reads.ite_false (by simpa using hwide)
      simp at hcol
      rw [show s.col / 256 = 0 by omega]
      exact Reads.pure _
    · apply Reads.ite_true (by simpa using hwide)
      exact Reads.u _ _ (by omega) (by simp at hcol; omega)
  have htail (q : Int × Int × Int) : Reads (do
      let s_1 ← (if c.sao = true then rdMany rdFlag 3 else pure st.saoOn)
      pure (((s.row : Int), ((s.col % 256 : Nat) : Int), ((s.col / 256 : Nat) : Int)), (⟨q.1, q.2.1, q.2.2, s_1⟩ : State)))
      (if c.sao then bitsOfNat 1 s.saoY ++ (bitsOfNat 1 s.saoU ++ (bitsOfNat 1 s.saoV ++ [])) else [])
      (((s.row : Int), ((s.col % 256 : Nat) : Int), ((s.col / 256 : Nat) : Int)),
        ⟨q.1, q.2.1, q.2.2, if c.sao then [(s.saoY : Int), s.saoU, s.saoV] else st.saoOn⟩) := by
    rw [← List.append_nil (if c.sao = true then _ else _)]
    cases c.sao
    · exact Reads.bind (Reads.pure _) (Reads.pure _)
    · exact Reads.bind (reads_many3 _ _ _ h1 h2 h3) (Reads.pure _)
  cases hfp : c.fixedPicQp
  · apply Reads.bind (a := ((s.fixedQp : Int), (s.qp : Int), if s.fixedQp = 0 then (1 : Int) else 0)) _ (htail _)
    simp only [Bool.not_false, if_true, Bool.false_eq_true, if_false]
    apply Reads.bind (reads_flag _ hf)
    apply Reads.bind (Reads.u 7 s.qp (by omega) (by omega))
    have e : (if (s.fixedQp : Int) = 0 then (1 : Int) else 0) = if s.fixedQp = 0 then 1 else 0 := by
      by_cases h : s.fixedQp = 0
      · rw [if_pos h, if_pos (by omega)]
      · rw [if_neg h, if_neg (by omega)]
    rw [e]
    exact Reads.pure _
  · exact Reads.bind (a := (st.fixedSliceQp, c.picQp, (0 : Int))) (Reads.pure _) (htail _)

example : Reads (parse ⟨144, 176, 64, false, 30, true⟩ ⟨0, 0, 0, []⟩)
    (bitsOfNat 24 1 ++ (⟨2, 1, 0, 37, 1, 0, 1⟩ : SliceSyntax).bits false false false true)
    ((2, 1, 0), ⟨0, 37, 1, [1, 0, 1]⟩) :=
  C62_fields ⟨144, 176, 64, false, 30, true⟩ ⟨0, 0, 0, []⟩ ⟨2, 1, 0, 37, 1, 0, 1⟩ (bitsOfNat 24 1) (by decide) false false
    (by decide) (by decide) (by decide) (by decide) (by decide) (by decide) (by decide) (by decide) (by decide)

/-- C62: no quantiser is rejected, although 7 bits can exceed the largest one (63 for 8 bits, 79 for 10 bits). -/
theorem C62_quantiser_violated : ∃ (c : Ctx) (st : State) (m : Mem) (s : State) (q : Nat),
    parseSliceHeader c st m 0 = .ok (s, q) ∧ s.qp = 127 := by
  refine ⟨⟨144, 176, 64, false, 30, false⟩, ⟨0, 0, 0, []⟩, ⟨fun i => if i < 2 then 0 else if i = 2 then 1 else if i < 5 then 0 else 255#8, 100⟩,
    ⟨1, 127, 0, []⟩, 48, ?_, rfl⟩
  decide +kernel

/-- The place each coding tree of a slice should have according to its header. -/
def declared {α : Type} (ss : List (Slice α)) (k : Nat) (a : α) : Prop :=
  ∃ s ∈ ss, s.first ≤ k ∧ s.trees[k - s.first]? = some a

/-- C61 does not hold: if a slice is missing, those behind it are decoded into the wrong place although their header tells the
right one. Three coding trees, one slice each, the second slice is lost: the third is placed second. -/
theorem C61_position_violated : ∃ (ss : List (Slice Nat)) (n k : Nat) (a : Nat),
    k < n ∧ (place n [] ss)[k]? = some (some a) ∧ ¬ declared ss k a := by
  refine ⟨[⟨0, [10]⟩, ⟨2, [12]⟩], 3, 1, 12, by decide, by decide, ?_⟩
  rintro ⟨s, hs, h1, h2⟩
  simp only [List.mem_cons, List.not_mem_nil, or_false] at hs
  rcases hs with rfl | rfl
  · simp at h2
  · simp at h1

/-- Slices follow each other without gap from coding tree `k` on. -/
def Contiguous {α : Type} : Nat → List (Slice α) → Prop
  | _, [] => True
  | k, s :: ss => s.first = k ∧ s.trees ≠ [] ∧ Contiguous (k + s.trees.length) ss

theorem place_cur {α : Type} (cur : List α) (rest : List (Slice α)) : ∀ n, cur.length ≤ n →
    place n cur rest = cur.map some ++ place (n - cur.length) [] rest := by
  induction cur with
  | nil => intro n _; rfl
  | cons a as ih =>
    intro n hn
    cases n with
    | zero => simp at hn
    | succ n =>
      rw [place, ih n (by simpa using hn)]
      simp

theorem place_nil {α : Type} (s : Slice α) (rest : List (Slice α)) (n : Nat) (hs : s.trees ≠ []) :
    place (n + 1) [] (s :: rest) = place (n + 1) s.trees rest := by
  obtain ⟨f, t⟩ := s
  cases t with
  | nil => exact absurd rfl hs
  | cons a as => rfl

theorem place_all {α : Type} (ss : List (Slice α)) : ∀ (n k : Nat), Contiguous k ss →
    (ss.flatMap (·.trees)).length ≤ n →
    ∀ s ∈ ss, ∀ (j : Nat) (a : α), s.trees[j]? = some a → k ≤ s.first ∧ (place n [] ss)[s.first - k + j]? = some (some a) := by
  induction ss with
  | nil => intro n k _ _ s hs; simp at hs
  | cons t ss ih =>
    intro n k hc hn s hs j a hj
    obtain ⟨h1, h2, h3⟩ := hc
    rw [List.flatMap_cons, List.length_append] at hn
    have hpos : 0 < t.trees.length := List.length_pos_iff.mpr h2
    obtain ⟨n', rfl⟩ : ∃ n', n = n' + 1 := ⟨n - 1, by omega⟩
    rw [place_nil t ss n' h2, place_cur _ _ _ (by omega)]
    rcases List.mem_cons.mp hs with e | e
    · subst e
      obtain ⟨hlt, _⟩ := List.getElem?_eq_some_iff.mp hj
      refine ⟨by omega, ?_⟩
      rw [List.getElem?_append_left (by rw [List.length_map]; omega), List.getElem?_map,
        show s.first - k + j = j by omega, hj]
      rfl
    · obtain ⟨e1, e2⟩ := ih (n' + 1 - t.trees.length) (k + t.trees.length) h3 (by omega) s e j a hj
      refine ⟨by omega, ?_⟩
      rw [List.getElem?_append_right (by rw [List.length_map]; omega), List.length_map,
        show s.first - k + j - t.trees.length = s.first - (k + t.trees.length) + j by omega]
      exact e2

/-- C61 for streams without losses: if the slices follow each other without gap and fit into the picture, each coding tree is
decoded where the header of its slice says. -/
theorem C61_position_partial {α : Type} (ss : List (Slice α)) (n : Nat) (hc : Contiguous 0 ss)
    (hn : (ss.flatMap (·.trees)).length ≤ n) (s : Slice α) (hs : s ∈ ss) (j : Nat) (a : α) (hj : s.trees[j]? = some a) :
    (place n [] ss)[s.first + j]? = some (some a) := by
  have := (place_all ss n 0 hc hn s hs j a hj).2
  rwa [Nat.sub_zero] at this

example : Contiguous 0 [(⟨0, [10, 11]⟩ : Slice Nat), ⟨2, [12]⟩] := ⟨rfl, by decide, rfl, by decide, trivial⟩

/-- C61: the position in a slice header has no effect at all on the decoder. -/
theorem C61_position_ignored {α : Type} (n : Nat) (f : Nat → Nat) (cur : List α) (ss : List (Slice α)) :
    place n cur (ss.map fun s => ⟨f s.first, s.trees⟩) = place n cur ss := by
  induction n generalizing cur ss with
  | zero => rfl
  | succ n ih =>
    cases cur with
    | cons a as => simp only [place, ih]
    | nil =>
      cases ss with
      | nil => rfl
      | cons s ss =>
        obtain ⟨g, t⟩ := s
        cases t with
        | nil => simp only [List.map_cons, place, ih]
        | cons a as => simp only [List.map_cons, place, ih]

open Davs2.Im

theorem specRun_append (ds : List Spec.Im.Done) (a b : List Item) (r : Nat) :
    specRun ds (a ++ .start r :: b) = specRun ds a ++ specRun [] b := by
  induction a generalizing ds with
  | nil => rfl
  | cons i a ih =>
    cases i with
    | start r' => exact ih []
    | blk bl c => exact congrArg _ (ih _)

theorem possible_append {w h : Nat} (a b : List Item) (r : Nat) : ∀ (r0 : Nat) (bs : List Blk),
    Possible w h r0 bs (a ++ .start r :: b) → Possible w h r0 bs a ∧ Possible w h r [] b := by
  induction a with
  | nil => intro r0 bs hp; exact ⟨trivial, hp.2.2⟩
  | cons i a ih =>
    intro r0 bs hp
    cases i with
    | start r' =>
      obtain ⟨h1, h2, h3⟩ := hp
      exact ⟨⟨h1, h2, (ih _ _ h3).1⟩, (ih _ _ h3).2⟩
    | blk bl c =>
      obtain ⟨h1, h2, h3, h4, h5, h6, h7⟩ := hp
      exact ⟨⟨h1, h2, h3, h4, h5, h6, (ih _ _ h7).1⟩, (ih _ _ h7).2⟩

/-- C60 for slices that begin at the left border: the modes of the blocks of a slice are the same as if the slice were decoded
alone. -/
theorem C60_intra_modes_partial (w h : Nat) (a b : List Item) (r : Nat) (hp : Possible w h 0 [] (a ++ .start r :: b)) :
    run w initBuf (a ++ .start r :: b) = run w initBuf a ++ run w initBuf (.start r :: b) := by
  obtain ⟨h1, h2⟩ := possible_append a b r 0 [] hp
  rw [C47_neighbours w h _ hp, C47_neighbours w h a h1,
    C47_neighbours w h (.start r :: b) ⟨by omega, by simp, h2⟩, specRun_append]
  rfl

example : Possible 4 2 0 [] ([.start 0, .blk ⟨0, 0, 4, 1⟩ 20] ++ .start 1 :: [.blk ⟨0, 1, 4, 1⟩ (-1)]) := by
  simp [Possible]

/-- C60 does not hold for a slice that begins inside a row of coding trees: its first block uses the mode of the block to the left,
which belongs to the slice before. Two coding trees of 16x16 samples, one slice each. -/
theorem C60_intra_modes_violated : ∃ (w : Nat) (a b : List Item) (r : Nat),
    run w initBuf (a ++ .start r :: b) ≠ run w initBuf a ++ run w initBuf (.start r :: b) := by
  refine ⟨8, [.start 0, .blk ⟨0, 0, 4, 4⟩ 20], [.blk ⟨4, 0, 4, 4⟩ (-1)], 0, ?_⟩
  decide

end Davs2.Sl
