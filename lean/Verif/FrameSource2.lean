import Verif.FrameSource
import Verif.FrameSessionProps

/-!
# Appending whatever frames can be made from (C88)

`append` and `df_append`, `openscm/scmdataframe/base.py:1318-1359` and `1437-1541`, with other things than frames.
-/

set_option linter.unusedSectionVars false

namespace Openscm

variable {K : Type} [Field K] [LinearOrder K] [IsStrictOrderedRing K]

theorem castFrames_ok {files : String → Option (DataFile K)} {clock : Clock} {ss : List (Source K)} {xs : List (FObj K)} :
    castFrames files clock ss = .ok xs ↔ List.Forall₂ (fun s x => castFrame files clock none s = .ok x) ss xs := by
  induction ss generalizing xs with
  | nil => simp [castFrames, eq_comm]
  | cons s ss ih =>
    unfold castFrames
    cases h : castFrame files clock none s with
    | error e =>
      simp only
      constructor
      · intro h; cases h
      · intro h'
        cases h' with
        | cons h1 _ => rw [h] at h1; cases h1
    | ok x =>
      simp only
      cases h2 : castFrames files clock ss with
      | error e =>
        simp only
        constructor
        · intro h; cases h
        · intro h'
          cases h' with
          | cons _ h3 => rw [ih.2 h3] at h2; cases h2
      | ok ys =>
        simp only [Except.ok.injEq]
        constructor
        · rintro rfl
          exact .cons h (ih.1 h2)
        · intro h'
          cases h' with
          | cons h1 h3 =>
            rw [h] at h1
            rw [ih.2 h3] at h2
            rw [Except.ok.inj h1, Except.ok.inj h2]

theorem castFrames_frames (files : String → Option (DataFile K)) (clock : Clock) (xs : List (FObj K)) :
    castFrames files clock (xs.map .frame) = .ok xs := by
  rw [castFrames_ok]
  induction xs with
  | nil => exact .nil
  | cons x xs ih => exact .cons rfl ih

/-- C88: all sources of `df_append` are made frames first: if each of them can be, the result is that for the frames. -/
theorem C88_sources (files : String → Option (DataFile K)) (clock : Clock) {ss : List (Source K)} {xs : List (FObj K)}
    (h : List.Forall₂ (fun s x => s = .frame x ∨ (∀ z, s ≠ .frame z) ∧ makeFrame files clock none s = .ok x) ss xs) (msg : DupMsg) :
    (appendSources files clock ss msg false).1 = (appendSources files clock (xs.map .frame) msg false).1 := by
  have hc : castFrames files clock ss = .ok xs := by
    rw [castFrames_ok]
    refine h.imp ?_
    rintro s x (rfl | ⟨hs, h⟩)
    · rfl
    · unfold castFrame
      split
      · rename_i z
        exact absurd rfl (hs z)
      · exact h
  unfold appendSources
  rw [hc, castFrames_frames]
  simp only
  split <;> rfl

/-- C88: if one of the sources is refused, its error is raised, that of the first one, and nothing changes. -/
theorem C88_bad_source (files : String → Option (DataFile K)) (clock : Clock) (pre post : List (Source K)) {s : Source K}
    (hpre : ∀ s ∈ pre, (∃ x, s = .frame x) ∨ ∃ x, makeFrame files clock none s = .ok x) (hs : ∀ x, s ≠ .frame x) {e : LoadErr}
    (he : makeFrame files clock none s = .error e) (msg : DupMsg) (inplace : Bool) :
    appendSources files clock (pre ++ s :: post) msg inplace = (.error e, pre ++ s :: post) := by
  have hc : castFrames files clock (pre ++ s :: post) = .error e := by
    induction pre with
    | nil =>
      have : castFrame files clock none s = .error e := by
        unfold castFrame
        split
        · rename_i z
          exact absurd rfl (hs z)
        · exact he
      simp only [List.nil_append, castFrames, this]
    | cons a pre ih =>
      have hih := ih fun s h => hpre s (List.mem_cons_of_mem _ h)
      have : ∃ x, castFrame files clock none a = .ok x := by
        unfold castFrame
        split
        · exact ⟨_, rfl⟩
        · rcases hpre a (List.mem_cons_self ..) with ⟨x, rfl⟩ | h
          · exact ⟨_, rfl⟩
          · exact h
      obtain ⟨x, hx⟩ := this
      simp only [List.cons_append, castFrames, hx, hih]
  unfold appendSources
  rw [hc]

/-- C88: in place, `df_append` returns nothing and makes the first frame what it returns otherwise; if that is not a frame,
it returns or raises the same. The first one has to be a frame: otherwise `TypeError` is raised. Nothing else changes, and
nothing at all if it is not done in place or fails. -/
theorem C88_in_place (files : String → Option (DataFile K)) (clock : Clock) (ss : List (Source K)) (msg : DupMsg) :
    (appendSources files clock ss msg false).2 = ss ∧
    (∀ R, (appendSources files clock ss msg false).1 = .ok (some (.frame R)) →
      (∀ x rest, ss = .frame x :: rest → appendSources files clock ss msg true = (.ok none, .frame R.fresh :: rest)) ∧
      ((∀ x rest, ss ≠ .frame x :: rest) → appendSources files clock ss msg true = (.error (.frame .typeError), ss))) ∧
    ((∀ R, (appendSources files clock ss msg false).1 ≠ .ok (some (.frame R))) →
      appendSources files clock ss msg true = ((appendSources files clock ss msg false).1, ss)) := by
  unfold appendSources
  split
  · exact ⟨rfl, fun R h => by simp at h, fun _ => rfl⟩
  · split
    · exact ⟨rfl, fun R h => by simp at h, fun _ => rfl⟩
    · exact ⟨rfl, fun R h => by simp at h, fun _ => rfl⟩
    · rename_i R _
      refine ⟨rfl, fun R' h => ?_, fun h => absurd rfl (h R)⟩
      simp only [Bool.false_eq_true, if_false, Except.ok.injEq, Option.some.injEq, Appended.frame.injEq] at h
      subst h
      constructor
      · rintro x rest rfl
        rfl
      · intro h
        simp only [if_true]

theorem castFrame_frame (files : String → Option (DataFile K)) (clock : Clock) (sheet : Option String) (x : FObj K) :
    castFrame files clock sheet (.frame x) = .ok x := rfl

theorem castFrame_made {files : String → Option (DataFile K)} {clock : Clock} {sheet : Option String} {s : Source K}
    (hs : ∀ x, s ≠ .frame x) : castFrame files clock sheet s = makeFrame files clock sheet s := by
  unfold castFrame
  split
  · rename_i z
    exact absurd rfl (hs z)
  · rfl

theorem appendSource_eq {files : String → Option (DataFile K)} {clock : Clock} {x y : FObj K} {s : Source K} {sheet : Option String}
    (h : castFrame files clock sheet s = .ok y) (msg : DupMsg) (inplace : Bool) :
    x.appendSource files clock s sheet msg inplace =
      match dfAppend [x.F, y.F] msg with
      | .error e => (.error (.frame e), x)
      | .ok (.joint data) => (.ok (some (.joint data)), x)
      | .ok (.frame R) => if inplace then (.ok none, R.fresh) else (.ok (some (.frame R)), x) := by
  unfold FObj.appendSource
  rw [h]
  simp only
  unfold appendSources
  have : castFrames files clock [.frame x, .frame y] = .ok [x, y] := castFrames_frames files clock [x, y]
  rw [this]
  simp only [List.map_cons, List.map_nil]
  cases dfAppend [x.F, y.F] msg with
  | error e => rfl
  | ok r =>
    cases r with
    | joint d => rfl
    | frame R => cases inplace <;> rfl

/-- C88: `df.append(other)` is `df_append([df, other])`: it returns or raises the same and makes the frame the same, if no
sheet is asked for. -/
theorem C88_append (files : String → Option (DataFile K)) (clock : Clock) (x : FObj K) (s : Source K) (msg : DupMsg) (inplace : Bool) :
    appendSources files clock [.frame x, s] msg inplace =
      ((x.appendSource files clock s none msg inplace).1, [.frame (x.appendSource files clock s none msg inplace).2, s]) := by
  cases h : castFrame files clock none s with
  | error e =>
    have h1 : castFrames files clock [.frame x, s] = .error e := by
      simp only [castFrames, castFrame_frame, h]
    unfold appendSources FObj.appendSource
    rw [h1, h]
  | ok y =>
    have h1 : castFrames files clock [.frame x, s] = .ok [x, y] := castFrames_ok.2 (.cons rfl (.cons h .nil))
    rw [appendSource_eq h]
    unfold appendSources
    rw [h1]
    simp only [List.map_cons, List.map_nil]
    cases dfAppend [x.F, y.F] msg with
    | error e => rfl
    | ok r =>
      cases r with
      | joint d => rfl
      | frame R => cases inplace <;> rfl

/-- C88: what `df.append(other)` does, for other things than frames. If a frame cannot be made of it, the error is that of
making it and the frame stays as it is; else it is what appending that frame does. -/
theorem C88_append_made (files : String → Option (DataFile K)) (clock : Clock) (x : FObj K) {s : Source K} (hs : ∀ z, s ≠ .frame z)
    (sheet : Option String) (msg : DupMsg) (inplace : Bool) :
    (∀ e, makeFrame files clock sheet s = .error e → x.appendSource files clock s sheet msg inplace = (.error e, x)) ∧
    ∀ y, makeFrame files clock sheet s = .ok y →
      x.appendSource files clock s sheet msg inplace = x.appendSource files clock (.frame y) none msg inplace := by
  rw [← castFrame_made hs]
  constructor
  · intro e he
    unfold FObj.appendSource
    rw [he]
  · intro y hy
    rw [appendSource_eq hy, appendSource_eq (castFrame_frame files clock none y)]

/-- C88: a frame is changed by appending to it only in place and only if nothing is raised and nothing returned; then it is
what is returned otherwise. -/
theorem C88_unchanged (files : String → Option (DataFile K)) (clock : Clock) (x : FObj K) (s : Source K) (sheet : Option String)
    (msg : DupMsg) (inplace : Bool) :
    (x.appendSource files clock s sheet msg inplace).2 = x ∨
      inplace = true ∧ (x.appendSource files clock s sheet msg inplace).1 = .ok none ∧
      ∃ R, x.appendSource files clock s sheet msg false = (.ok (some (.frame R)), x) ∧
        (x.appendSource files clock s sheet msg inplace).2 = R.fresh := by
  cases h : castFrame files clock sheet s with
  | error e =>
    left
    unfold FObj.appendSource
    rw [h]
  | ok y =>
    rw [appendSource_eq h, appendSource_eq h]
    cases dfAppend [x.F, y.F] msg with
    | error e => exact .inl rfl
    | ok r =>
      cases r with
      | joint d => exact .inl rfl
      | frame R =>
        cases inplace with
        | false => exact .inl rfl
        | true => exact .inr ⟨rfl, rfl, R, rfl, rfl⟩

/-! ## Cases -/

/-- A csv file, a workbook with one sheet, one with several, and one whose sheets have other names. -/
def demoFiles : String → Option (DataFile ℚ)
  | "a.csv" => some { csv := some longT, sheets := none }
  | "b.xlsx" => some { csv := none, sheets := some [("Sheet1", longT)] }
  | "c.xlsx" => some { csv := none, sheets := some [("meta", { index := [], cols := [], rows := [] }), ("data", longT)] }
  | "d.xlsx" => some { csv := none, sheets := some [("first", longT), ("second", longT)] }
  | _ => none

example (clock : Clock) : ∀ fname ∈ ["a.csv", "b.xlsx", "c.xlsx"],
    ReadsFile demoFiles fname none longT ∧ makeFrame demoFiles clock none (.table longT) = .ok longR.fresh := by
  have hn : ∀ fname : String, ¬ "csv".toList.isSuffixOf fname.toList = true → ∀ stem : String, fname ≠ stem ++ "csv" := fun fname h stem e =>
    h ((suffix_csv fname).2 ⟨stem, e⟩)
  have hT : makeFrame demoFiles clock none (.table longT) = .ok longR.fresh := by
    simp only [makeFrame, longT_result]
    rfl
  intro fname hf
  simp only [List.mem_cons, List.not_mem_nil, or_false] at hf
  rcases hf with rfl | rfl | rfl
  · exact ⟨.csv "a." rfl (by decide +kernel) rfl, hT⟩
  · exact ⟨.single rfl (hn _ (by decide +kernel)) rfl, hT⟩
  · exact ⟨.several rfl (hn _ (by decide +kernel)) rfl (by simp) ⟨[_], [], rfl, by simp⟩, hT⟩

/-- Several sheets, none of them called `data`: one has to be asked for. -/
example (clock : Clock) : makeFrame demoFiles clock none (.file "d.xlsx") = .error .reader ∧
    makeFrame demoFiles clock (some "second") (.file "d.xlsx") = .ok longR.fresh := by
  constructor
  · rfl
  · rw [C88_file]
    refine ⟨longT, .named rfl (fun stem e => ?_) rfl ⟨[_], [], rfl, by simp⟩, ?_⟩
    · have := (suffix_csv "d.xlsx").2 ⟨stem, e⟩
      revert this
      decide +kernel
    · simp only [makeFrame, longT_result]
      rfl

/-- A frame with other columns than the required ones, not in order, and with refused times. -/
def mixedX : FObj ℚ :=
  { points := [7]
    F := { times := [0, 10], cols := ["unit", "z", "model", "scenario", "region", "variable", "b"]
           data := [(0, [.num 1, .num 2])]
           «meta» := [(0, [.str "K", .int 5, .str "m", .str "s", .str "World", .str "v", .int 6])] } }

example : mixedX.Sound ∧ makeFrame demoFiles noClock none (.frame mixedX) = .ok
    { points := [0, 10]
      F := { times := [0, 10], cols := ["model", "scenario", "region", "variable", "unit", "b", "z"]
             data := [(0, [.num 1, .num 2])]
             «meta» := [(0, [.str "m", .str "s", .str "World", .str "v", .str "K", .int 6, .int 5])] } } :=
  ⟨⟨⟨by decide, by decide, by decide, by simp [mixedX], by simp [mixedX]⟩, by decide, .inr (by decide)⟩, by decide +kernel⟩

/-- Appending the csv file in place to the frame that is read from it: all values are there twice, the averages stay. -/
example : (longR.fresh.appendSource demoFiles noClock (.file "a.csv") none .warn true).1 = .ok none ∧
    (longR.fresh.appendSource demoFiles noClock (.file "a.csv") none .other true) = (.error (.frame .valueError), longR.fresh) ∧
    (longR.fresh.appendSource demoFiles noClock (.file "e.csv") none .warn true) = (.error .noFile, longR.fresh) ∧
    (appendSources demoFiles noClock [.file "a.csv", .frame longR.fresh] .warn true).1 = .error (.frame .typeError) := by
  have hc : castFrame demoFiles noClock none (.file "a.csv") = .ok longR.fresh := by
    rw [castFrame_made (by simp), C88_file]
    refine ⟨longT, .csv "a." rfl (by decide +kernel) rfl, ?_⟩
    simp only [makeFrame, longT_result]
    rfl
  refine ⟨?_, ?_, rfl, ?_⟩
  · rw [appendSource_eq hc]
    have : ∃ R, dfAppend [longR.fresh.F, longR.fresh.F] .warn = .ok (.frame R) := ⟨_, rfl⟩
    obtain ⟨R, hR⟩ := this
    rw [hR]
    rfl
  · rw [appendSource_eq hc]
    have : dfAppend [longR.fresh.F, longR.fresh.F] .other = .error .valueError := rfl
    rw [this]
  · unfold appendSources
    rw [castFrames_ok.2 (.cons hc (.cons rfl .nil))]
    have : ∃ R, dfAppend [longR.fresh.F, longR.fresh.F] .warn = .ok (.frame R) := ⟨_, rfl⟩
    obtain ⟨R, hR⟩ := this
    simp only [List.map_cons, List.map_nil]
    rw [hR]
    rfl

end Openscm
