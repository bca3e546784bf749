import Verif.FrameMake
import Verif.FrameRename
import Verif.GuessType
import Verif.TimeProps
import Verif.TimeProps3

/-!
# Interpolating frames (model) and C56

`ScmDataFrameBase.interpolate`, `openscm/scmdataframe/base.py:940-1052`.

`res._meta.apply(guess, axis=1)` (line 997) throws its result away. It changes the metadata only because pandas 0.25
hands out rows as views, which it does if all metadata columns have the dtype `object`; otherwise rows are copies and
the guess is lost. `views` says which of the two is the case. Groups are disjoint, so that the assignments made in
the rounds of the loop can be made at its end. Interpolation is linear, the only kind there is.
-/

set_option linter.unusedSectionVars false

namespace Openscm

variable {K : Type} [Field K] [LinearOrder K] [IsStrictOrderedRing K]

/-- `row[c]`. -/
def rowVal (cols : List String) (row : List (PyVal K)) (c : String) : PyVal K := row.getD (cols.idxOf c) .none

/-- `openscm/scmdataframe/base.py:979-982`. -/
def DFrame.withType (F : DFrame K) : DFrame K :=
  if "parameter_type" ∈ F.cols then F
  else DFrame.sortMeta { F with cols := F.cols ++ ["parameter_type"]
                                «meta» := F.meta.map fun r => (r.1, r.2 ++ [.none]) }

/-- The text for a type, `openscm/scmdataframe/base.py:990-994`, `1043-1045`. -/
def typeText (p : PType) : String := if p = .average then "average" else "point"

/-- `guess`, `openscm/scmdataframe/base.py:984-995`. Units are strings or `None`. -/
def guessRow (reg : Registry K) (cols : List String) (row : List (PyVal K)) : Except Err (List (PyVal K)) :=
  match rowVal cols row "parameter_type" with
  | .none =>
    match rowVal cols row "variable", rowVal cols row "unit" with
    | .str n, .str u => .ok (row.set (cols.idxOf "parameter_type") (.str (typeText (guessParameterType reg n (some u)))))
    | .str n, .none => .ok (row.set (cols.idxOf "parameter_type") (.str (typeText (guessParameterType reg n none))))
    | _, _ => .error .unmodelled
  | _ => .ok row

def guessAll (reg : Registry K) (cols : List String) :
    List (Nat × List (PyVal K)) → Except Err (List (Nat × List (PyVal K)))
  | [] => .ok []
  | r :: rest =>
    match guessRow reg cols r.2 with
    | .error e => .error e
    | .ok row =>
      match guessAll reg cols rest with
      | .error e => .error e
      | .ok rows => .ok ((r.1, row) :: rows)

/-- `time_points[-1] + (time_points[-1] - time_points[-2])` appended, `openscm/scmdataframe/base.py:1013-1019`. -/
def extendPoints (l : List Int) : Except Err (List Int) :=
  match l.reverse with
  | b :: a :: _ => .ok (l ++ [b + (b - a)])
  | _ => .error .indexError

/-- The keys of `groupby("parameter_type")`: sorted, without missing values. Metadata that is neither text nor
missing is left out of the model. -/
def groupKeys (vals : List (PyVal K)) : Except Err (List String) :=
  if vals.all fun v => match v with | .str _ => true | .none => true | .flt .nan => true | _ => false then
    .ok ((vals.filterMap fun v => match v with | .str s => some s | _ => none).dedup.insertionSort (· ≤ ·))
  else .error .unmodelled

/-- `old_data[grp.index].apply(...)`, `openscm/scmdataframe/base.py:1031-1040`. -/
def convertGroup (c : TSConv K) (n : Nat) (old : List (Nat × List (Fl K))) :
    List Nat → Except Err (List (Nat × List (Fl K)))
  | [] => .ok []
  | l :: ls =>
    match old.find? fun s => s.1 = l with
    | none => .error .keyError
    | some s =>
      match c.convertFrom s.2 with
      | .error e => .error e
      | .ok v =>
        if v.length ≠ n then .error .valueError
        else
          match convertGroup c n old ls with
          | .error e => .error e
          | .ok r => .ok ((l, v) :: r)

/-- Labels of the rows of a group. -/
def groupRows (cols : List String) (rows : List (Nat × List (PyVal K))) (k : String) : List Nat :=
  (rows.filter fun r => rowVal cols r.2 "parameter_type" = .str k).map (·.1)

/-- `openscm/scmdataframe/base.py:1008-1019`: the time axes for a group. -/
def groupAxes (p : PType) (src tgt : List Int) : Except Err (List Int × List Int) :=
  if p = .average then
    match extendPoints tgt with
    | .error e => .error e
    | .ok t =>
      match extendPoints src with
      | .error e => .error e
      | .ok s => .ok (s, t)
  else .ok (src, tgt)

def toK (l : List Int) : List K := l.map fun i : Int => (i : K)

/-- The loop, `openscm/scmdataframe/base.py:1003-1048`: label, type and new values. `n` is the number of requested
times, `tgt` the variable `target_times`. -/
def interpLoop (ext : Extrap) (F : DFrame K) (n : Nat) :
    List String → List Int → Except Err (List (Nat × PType × List (Fl K)))
  | [], _ => .ok []
  | k :: ks, tgt =>
    match (TyArg.str k).parse with
    | .error e => .error e
    | .ok p =>
      match groupAxes p F.times tgt with
      | .error e => .error e
      | .ok (s, t) =>
        match mkTSConv (toK s : List K) (toK t) p ext with
        | .error e => .error e
        | .ok c =>
          match convertGroup c n F.data (groupRows F.cols F.meta k) with
          | .error e => .error e
          | .ok vs =>
            match interpLoop ext F n ks t with
            | .error e => .error e
            | .ok r => .ok (vs.map (fun v => (v.1, p, v.2)) ++ r)

/-- `interpolate`, `openscm/scmdataframe/base.py:940-1052`. -/
def DFrame.interpolate (reg : Registry K) (views : Bool) (F : DFrame K) (target : List Int) (ext : Extrap) :
    Except Err (DFrame K) :=
  let T := F.withType
  match (if views then guessAll reg T.cols T.meta else .ok T.meta) with
  | .error e => .error e
  | .ok rows =>
    match groupKeys (rows.map fun r => rowVal T.cols r.2 "parameter_type") with
    | .error e => .error e
    | .ok ks =>
      match interpLoop ext { T with «meta» := rows } target.length ks target with
      | .error e => .error e
      | .ok new =>
        .ok { times := target, cols := T.cols
              data := T.data.map fun s => (s.1, match new.find? fun x => x.1 = s.1 with
                | some x => x.2.2
                | none => target.map fun _ => Fl.nan)
              «meta» := rows.map fun r => (r.1, match new.find? fun x => x.1 = r.1 with
                | some x => r.2.set (T.cols.idxOf "parameter_type") (.str (typeText x.2.1))
                | none => r.2) }

/-! ## C56: specification -/

/-- The type of timeseries `i`: what the metadata says or, if it says nothing, what name and unit suggest. -/
inductive TypeIs (reg : Registry K) (views : Bool) (F : DFrame K) (i : Nat) : PyVal K → Prop
  | given {v : PyVal K} : F.HasMeta i "parameter_type" v → v ≠ .none → TypeIs reg views F i v
  | guessed {n u : String} : views = true → ("parameter_type" ∉ F.cols ∨ F.HasMeta i "parameter_type" .none) →
      F.HasMeta i "variable" (.str n) → F.HasMeta i "unit" (.str u) →
      TypeIs reg views F i (.str (typeText (guessParameterType reg n (some u))))
  | guessedNoUnit {n : String} : views = true → ("parameter_type" ∉ F.cols ∨ F.HasMeta i "parameter_type" .none) →
      F.HasMeta i "variable" (.str n) → F.HasMeta i "unit" .none →
      TypeIs reg views F i (.str (typeText (guessParameterType reg n none)))
  | unknown : views = false → ("parameter_type" ∉ F.cols ∨ F.HasMeta i "parameter_type" .none) → i < F.meta.length →
      TypeIs reg views F i .none

/-- One more period, as long as the last one. -/
def OneMore (l m : List Int) : Prop := ∃ (l' : List Int) (a b : Int), l = l' ++ [a, b] ∧ m = l' ++ [a, b, b + (b - a)]

/-- The values `new` at the times `tgt` are those that a converter makes of `old` at the times `src`: values of a
point timeseries belong to the times, values of an average one to the periods that begin at the times. -/
inductive Placed (ext : Extrap) (src tgt : List Int) (old new : List (Fl K)) : PType → Prop
  | point {c : TSConv K} : mkTSConv (src.map fun i : Int => (i : K)) (tgt.map fun i : Int => (i : K)) .point ext = .ok c →
      c.convertFrom old = .ok new → Placed ext src tgt old new .point
  | average {s t : List Int} {c : TSConv K} : OneMore src s → OneMore tgt t →
      mkTSConv (s.map fun i : Int => (i : K)) (t.map fun i : Int => (i : K)) .average ext = .ok c →
      c.convertFrom old = .ok new → Placed ext src tgt old new .average

/-! ## Facts -/

theorem extendPoints_ok {l m : List Int} (h : extendPoints l = .ok m) : OneMore l m := by
  unfold extendPoints at h
  split at h
  · rename_i b a r hr
    have e : l = r.reverse ++ [a, b] := by
      have := congrArg List.reverse hr
      simpa using this
    refine ⟨r.reverse, a, b, e, ?_⟩
    rw [← Except.ok.inj h, e]
    simp
  · cases h

theorem OneMore.extend {l m : List Int} (h : OneMore l m) : extendPoints l = .ok m := by
  obtain ⟨l', a, b, rfl, rfl⟩ := h
  simp [extendPoints]

theorem OneMore.length {l m : List Int} (h : OneMore l m) : m.length = l.length + 1 := by
  obtain ⟨l', a, b, rfl, rfl⟩ := h
  simp

theorem mkTSConv_fields {s t : List K} {p : PType} {ext : Extrap} {c : TSConv K} (h : mkTSConv s t p ext = .ok c) :
    c = { source := s, target := t, ty := p, ext := ext } := by
  unfold mkTSConv at h
  split at h
  · cases h
  · split at h
    · split at h
      · cases h
      · exact (Except.ok.inj h).symm
    · cases h

theorem hasMeta_iff {F : DFrame K} (hF : F.Ok) {i : Nat} {c : String} {v : PyVal K} :
    F.HasMeta i c v ↔ ∃ r, F.meta[i]? = some r ∧ c ∈ F.cols ∧ rowVal F.cols r.2 c = v := by
  constructor
  · rintro ⟨j, r, h1, h2, h3⟩
    refine ⟨r, h2, List.mem_of_getElem? h1, ?_⟩
    rw [rowVal, idxOf_of_getElem? hF.cols_nodup h1, List.getD_eq_getElem?_getD, h3]; rfl
  · rintro ⟨r, h2, hc, h3⟩
    refine ⟨F.cols.idxOf c, r, getElem?_idxOf' hc, h2, ?_⟩
    have hl := hF.meta_len r (List.mem_of_getElem? h2)
    have := List.idxOf_lt_length_of_mem hc
    rw [← h3, rowVal, List.getD_eq_getElem?_getD, List.getElem?_eq_getElem (by omega)]; rfl

theorem rowVal_set {cols : List String} {row : List (PyVal K)} (hl : row.length = cols.length) {c d : String} (hc : c ∈ cols)
    {v : PyVal K} : rowVal cols (row.set (cols.idxOf c) v) d = if d = c then v else rowVal cols row d := by
  have hlt := List.idxOf_lt_length_of_mem hc
  unfold rowVal
  simp only [List.getD_eq_getElem?_getD]
  split
  · rename_i h; subst h
    rw [List.getElem?_set_self (by omega)]; rfl
  · rename_i h
    by_cases hd : d ∈ cols
    · rw [List.getElem?_set_ne]
      intro e
      have := getElem?_idxOf' hc
      rw [e, getElem?_idxOf' hd] at this
      exact h (Option.some.inj this)
    · have : cols.idxOf d = cols.length := List.idxOf_eq_length hd
      rw [this, List.getElem?_eq_none (by simp [hl]), List.getElem?_eq_none (by omega)]

theorem withType_ok {F : DFrame K} (hF : F.Ok) : F.withType.Ok := by
  unfold DFrame.withType
  split
  · exact hF
  · rename_i h
    apply DFrame.Ok.sortMeta
    refine ⟨?_, hF.nodup, ?_, hF.data_len, ?_⟩
    · rw [List.map_map]; exact hF.labels
    · exact List.nodup_append.2 ⟨hF.cols_nodup, by simp, by
        intro a ha b hb
        rw [List.mem_singleton] at hb
        subst hb
        exact fun e => h (e ▸ ha)⟩
    · intro r hr
      obtain ⟨s, hs, rfl⟩ := List.mem_map.1 hr
      simp [hF.meta_len s hs]

theorem withType_data (F : DFrame K) : F.withType.data = F.data ∧ F.withType.times = F.times ∧
    F.withType.meta.map (·.1) = F.meta.map (·.1) := by
  unfold DFrame.withType DFrame.sortMeta
  split
  · exact ⟨rfl, rfl, rfl⟩
  · exact ⟨rfl, rfl, by simp [List.map_map, Function.comp_def]⟩

theorem withType_cols {F : DFrame K} (hr : ∀ c ∈ requiredCols, c ∈ F.cols) {c : String} :
    c ∈ F.withType.cols ↔ c ∈ F.cols ∨ c = "parameter_type" := by
  unfold DFrame.withType
  split
  · rename_i h
    constructor
    · exact Or.inl
    · rintro (h1 | rfl)
      · exact h1
      · exact h
  · rw [DFrame.sortMeta]
    simp only
    rw [sortedCols_mem]
    · simp
    · intro c hc
      simp [hr c hc]

theorem withType_hasMeta {F : DFrame K} (hF : F.Ok) (hr : ∀ c ∈ requiredCols, c ∈ F.cols) {i : Nat} {c : String} {v : PyVal K} :
    F.withType.HasMeta i c v ↔ F.HasMeta i c v ∨ (c = "parameter_type" ∧ "parameter_type" ∉ F.cols ∧ v = .none ∧ i < F.meta.length) := by
  unfold DFrame.withType
  split
  · rename_i h
    simp [h]
  · rename_i h
    rw [DFrame.sortMeta_hasMeta]
    · constructor
      · rintro ⟨j, r, h1, h2, h3⟩
        simp only [List.getElem?_map, Option.map_eq_some_iff] at h2
        obtain ⟨s, hs, rfl⟩ := h2
        have hl := hF.meta_len s (List.mem_of_getElem? hs)
        simp only at h1 h3
        by_cases hj : j < F.cols.length
        · rw [List.getElem?_append_left hj] at h1
          rw [List.getElem?_append_left (by omega)] at h3
          exact .inl ⟨j, s, h1, hs, h3⟩
        · rw [List.getElem?_append_right (by omega)] at h1 h3
          have h0 : j - F.cols.length = 0 := by
            rcases Nat.eq_zero_or_pos (j - F.cols.length) with e | e
            · exact e
            · rw [List.getElem?_eq_none (by simp only [List.length_singleton]; omega)] at h1; cases h1
          rw [h0] at h1
          rw [show j - s.2.length = 0 by omega] at h3
          simp only [List.getElem?_cons_zero, Option.some.injEq] at h1 h3
          exact .inr ⟨h1.symm, h, h3.symm, (List.getElem?_eq_some_iff.1 hs).1⟩
      · rintro (⟨j, r, h1, h2, h3⟩ | ⟨rfl, -, rfl, hi⟩)
        · refine ⟨j, (r.1, r.2 ++ [.none]), ?_, ?_, ?_⟩
          · rw [List.getElem?_append_left (List.getElem?_eq_some_iff.1 h1).1]; exact h1
          · simp [h2]
          · simp only
            rw [List.getElem?_append_left (List.getElem?_eq_some_iff.1 h3).1]; exact h3
        · refine ⟨F.cols.length, (F.meta[i].1, F.meta[i].2 ++ [.none]), ?_, ?_, ?_⟩
          · simp
          · simp [hi]
          · have hl := hF.meta_len F.meta[i] (List.getElem_mem hi)
            simp only
            rw [List.getElem?_append_right (by omega), hl]
            simp
    · intro r hr'
      obtain ⟨s, hs, rfl⟩ := List.mem_map.1 hr'
      simp [hF.meta_len s hs]
    · refine List.nodup_append.2 ⟨hF.cols_nodup, by simp, ?_⟩
      intro a ha b hb
      rw [List.mem_singleton] at hb
      subst hb
      exact fun e => h (e ▸ ha)
    · intro c hc
      simp [hr c hc]

theorem guessAll_ok {reg : Registry K} {cols : List String} {l rows : List (Nat × List (PyVal K))}
    (h : guessAll reg cols l = .ok rows) :
    List.Forall₂ (fun a b => a.1 = b.1 ∧ guessRow reg cols a.2 = .ok b.2) l rows := by
  induction l generalizing rows with
  | nil => rw [← Except.ok.inj h]; exact .nil
  | cons r l ih =>
    simp only [guessAll] at h
    split at h
    · cases h
    · rename_i row hrow
      split at h
      · cases h
      · rename_i rs hrs
        rw [← Except.ok.inj h]
        exact .cons ⟨rfl, hrow⟩ (ih hrs)

theorem guessRow_ok {reg : Registry K} {cols : List String} {row row' : List (PyVal K)} (hl : row.length = cols.length)
    (hc : "parameter_type" ∈ cols) (h : guessRow reg cols row = .ok row') :
    row'.length = row.length ∧ (∀ d, d ≠ "parameter_type" → rowVal cols row' d = rowVal cols row d) ∧
    ((rowVal cols row "parameter_type" ≠ .none ∧ row' = row) ∨
     (rowVal cols row "parameter_type" = .none ∧ ∃ n, rowVal cols row "variable" = .str n ∧
      ((∃ u, rowVal cols row "unit" = .str u ∧
          rowVal cols row' "parameter_type" = .str (typeText (guessParameterType reg n (some u)))) ∨
       (rowVal cols row "unit" = .none ∧
          rowVal cols row' "parameter_type" = .str (typeText (guessParameterType reg n none)))))) := by
  unfold guessRow at h
  split at h
  · rename_i hp
    split at h
    · rename_i n u hn hu
      have := (Except.ok.inj h).symm
      subst this
      refine ⟨by simp, fun d hd => by rw [rowVal_set hl hc, if_neg hd], .inr ⟨hp, n, hn, .inl ⟨u, hu, ?_⟩⟩⟩
      rw [rowVal_set hl hc, if_pos rfl]
    · rename_i n hn hu
      have := (Except.ok.inj h).symm
      subst this
      refine ⟨by simp, fun d hd => by rw [rowVal_set hl hc, if_neg hd], .inr ⟨hp, n, hn, .inr ⟨hu, ?_⟩⟩⟩
      rw [rowVal_set hl hc, if_pos rfl]
    · cases h
  · rename_i hp
    have := (Except.ok.inj h).symm
    subst this
    exact ⟨rfl, fun _ _ => rfl, .inl ⟨hp, rfl⟩⟩

/-- The rows with their types. -/
theorem typed_rows {reg : Registry K} {views : Bool} {F : DFrame K} (hF : F.Ok) (hr : ∀ c ∈ requiredCols, c ∈ F.cols)
    {rows : List (Nat × List (PyVal K))}
    (h : (if views then guessAll reg F.withType.cols F.withType.meta else .ok F.withType.meta) = .ok rows) :
    rows.map (·.1) = F.meta.map (·.1) ∧ (∀ r ∈ rows, r.2.length = F.withType.cols.length) ∧
    (∀ i r, rows[i]? = some r → ∀ c v, c ≠ "parameter_type" → ((c ∈ F.cols ∧ rowVal F.withType.cols r.2 c = v) ↔ F.HasMeta i c v)) ∧
    (∀ i r, rows[i]? = some r → TypeIs reg views F i (rowVal F.withType.cols r.2 "parameter_type")) := by
  have hT := withType_ok hF
  have hc : "parameter_type" ∈ F.withType.cols := (withType_cols hr).2 (.inr rfl)
  have key : ∀ i r, F.withType.meta[i]? = some r → ∀ c v, (c ∈ F.withType.cols ∧ rowVal F.withType.cols r.2 c = v) ↔
      F.withType.HasMeta i c v := by
    intro i r hi c v
    rw [hasMeta_iff hT]
    constructor
    · rintro ⟨h1, h2⟩; exact ⟨r, hi, h1, h2⟩
    · rintro ⟨s, hs, h1, h2⟩
      rw [hi] at hs
      have := Option.some.inj hs
      subst this
      exact ⟨h1, h2⟩
  have miss : ∀ i r, F.withType.meta[i]? = some r → rowVal F.withType.cols r.2 "parameter_type" = .none →
      "parameter_type" ∉ F.cols ∨ F.HasMeta i "parameter_type" .none := by
    intro i r hi h0
    have := (key i r hi _ _).1 ⟨hc, h0⟩
    rcases (withType_hasMeta hF hr).1 this with h1 | h1
    · exact .inr h1
    · exact .inl h1.2.1
  have has : ∀ i r, F.withType.meta[i]? = some r → ∀ c v, c ≠ "parameter_type" →
      ((c ∈ F.cols ∧ rowVal F.withType.cols r.2 c = v) ↔ F.HasMeta i c v) := by
    intro i r hi c v hcp
    have h1 := key i r hi c v
    rw [withType_hasMeta hF hr, withType_cols hr] at h1
    simpa [hcp] using h1
  have given : ∀ i r, F.withType.meta[i]? = some r → rowVal F.withType.cols r.2 "parameter_type" ≠ .none →
      TypeIs reg views F i (rowVal F.withType.cols r.2 "parameter_type") := by
    intro i r hi h0
    have := (key i r hi _ _).1 ⟨hc, rfl⟩
    rcases (withType_hasMeta hF hr).1 this with h1 | h1
    · exact .given h1 h0
    · exact absurd h1.2.2.1 h0
  cases views with
  | false =>
    rw [if_neg (by simp)] at h
    have := (Except.ok.inj h).symm
    subst this
    refine ⟨(withType_data F).2.2, hT.meta_len, has, fun i r hi => ?_⟩
    by_cases h0 : rowVal F.withType.cols r.2 "parameter_type" = .none
    · rw [h0]
      refine .unknown rfl (miss i r hi h0) ?_
      have e := congrArg List.length (withType_data F).2.2
      simp only [List.length_map] at e
      have := (List.getElem?_eq_some_iff.1 hi).1
      omega
    · exact given i r hi h0
  | true =>
    rw [if_pos rfl] at h
    have hf := guessAll_ok h
    have hlen := hf.length_eq
    have at' : ∀ (i : Nat) (r : Nat × List (PyVal K)), rows[i]? = some r → ∃ s : Nat × List (PyVal K), F.withType.meta[i]? = some s ∧ s.1 = r.1 ∧ guessRow reg F.withType.cols s.2 = .ok r.2 := by
      intro i r hi
      obtain ⟨hlt, he⟩ := List.getElem?_eq_some_iff.1 hi
      have hlt' : i < F.withType.meta.length := by omega
      refine ⟨F.withType.meta[i], List.getElem?_eq_getElem hlt', ?_⟩
      have := List.Forall₂.get hf hlt' hlt
      simp only [List.get_eq_getElem] at this
      rw [he] at this
      exact this
    refine ⟨?_, ?_, ?_, ?_⟩
    · rw [← (withType_data F).2.2]
      clear h hlen at' has key miss given
      generalize F.withType.meta = l at hf
      induction hf with
      | nil => rfl
      | cons h1 _ ih => simp [h1.1, ih]
    · intro r hr'
      obtain ⟨i, hi⟩ := List.getElem?_of_mem hr'
      obtain ⟨s, hs, -, hg⟩ := at' i r hi
      have hl := hT.meta_len s (List.mem_of_getElem? hs)
      rw [(guessRow_ok hl hc hg).1, hl]
    · intro i r hi c v hcp
      obtain ⟨s, hs, -, hg⟩ := at' i r hi
      have hl := hT.meta_len s (List.mem_of_getElem? hs)
      rw [(guessRow_ok hl hc hg).2.1 c hcp]
      exact has i s hs c v hcp
    · intro i r hi
      obtain ⟨s, hs, -, hg⟩ := at' i r hi
      have hl := hT.meta_len s (List.mem_of_getElem? hs)
      obtain ⟨-, -, ⟨h0, e⟩ | ⟨h0, n, hn, ⟨u, hu, e⟩ | ⟨hu, e⟩⟩⟩ := guessRow_ok hl hc hg
      · rw [e]; exact given i s hs h0
      · rw [e]
        exact .guessed rfl (miss i s hs h0) ((has i s hs _ _ (by decide)).1 ⟨hr _ (by decide), hn⟩)
          ((has i s hs _ _ (by decide)).1 ⟨hr _ (by decide), hu⟩)
      · rw [e]
        exact .guessedNoUnit rfl (miss i s hs h0) ((has i s hs _ _ (by decide)).1 ⟨hr _ (by decide), hn⟩)
          ((has i s hs _ _ (by decide)).1 ⟨hr _ (by decide), hu⟩)

theorem groupKeys_ok {vals : List (PyVal K)} {ks : List String} (h : groupKeys vals = .ok ks) :
    (∀ k, k ∈ ks ↔ PyVal.str k ∈ vals) ∧ ks.Pairwise (· ≤ ·) ∧ ks.Nodup ∧
    ∀ v ∈ vals, v.isNull = false → ∃ k, v = .str k := by
  unfold groupKeys at h
  split at h
  · rename_i ha
    have := (Except.ok.inj h).symm
    subst this
    refine ⟨fun k => ?_, List.pairwise_insertionSort _ _, ?_, fun v hv hn => ?_⟩
    · rw [List.mem_insertionSort, List.mem_dedup, List.mem_filterMap]
      constructor
      · rintro ⟨v, hv, e⟩
        cases v <;> simp_all
      · intro hk
        exact ⟨_, hk, rfl⟩
    · exact (List.perm_insertionSort _ _).nodup_iff.2 (List.nodup_dedup _)
    · have := List.all_eq_true.1 ha v hv
      revert this hn
      cases v with
      | flt x => cases x <;> simp [PyVal.isNull]
      | _ => simp [PyVal.isNull]
  · cases h

theorem convertGroup_ok {c : TSConv K} {n : Nat} {old : List (Nat × List (Fl K))} {ls : List Nat} {r : List (Nat × List (Fl K))}
    (h : convertGroup c n old ls = .ok r) :
    r.map (·.1) = ls ∧ ∀ x ∈ r, x.2.length = n ∧ ∃ s, old.find? (fun s => s.1 = x.1) = some s ∧ c.convertFrom s.2 = .ok x.2 := by
  induction ls generalizing r with
  | nil => rw [← Except.ok.inj h]; simp
  | cons l ls ih =>
    simp only [convertGroup] at h
    split at h
    · cases h
    · rename_i s hs
      split at h
      · cases h
      · rename_i v hv
        split at h
        · cases h
        · rename_i hn
          split at h
          · cases h
          · rename_i r' hr'
            have := (Except.ok.inj h).symm
            subst this
            obtain ⟨h1, h2⟩ := ih hr'
            refine ⟨by simp [h1], fun x hx => ?_⟩
            rcases List.mem_cons.1 hx with rfl | hx
            · exact ⟨not_not.1 hn, s, hs, hv⟩
            · exact h2 x hx

theorem convertGroup_works {c : TSConv K} {n : Nat} {old : List (Nat × List (Fl K))} {ls : List Nat}
    (h : ∀ l ∈ ls, ∃ s v, old.find? (fun s => s.1 = l) = some s ∧ c.convertFrom s.2 = .ok v ∧ v.length = n) :
    ∃ r, convertGroup c n old ls = .ok r := by
  induction ls with
  | nil => exact ⟨_, rfl⟩
  | cons l ls ih =>
    obtain ⟨s, v, h1, h2, h3⟩ := h l (by simp)
    obtain ⟨r, hr⟩ := ih fun l hl => h l (by simp [hl])
    exact ⟨_, by simp only [convertGroup, h1, h2, h3, ne_eq, not_true, if_false, hr]; rfl⟩

end Openscm
