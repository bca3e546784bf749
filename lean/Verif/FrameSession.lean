import Verif.FrameItems
import Verif.FrameResample
import Verif.FrameTable2
import Verif.FrameUnits2

/-!
# Programs that use frames (model) and C67

Frames are objects. A program makes frames, and calls their methods, in place or not, in any order; calls may be refused.
The state of such a program is the list of its frames, in the order in which they were made. Nothing is shared between
them: `copy`, `openscm/scmdataframe/base.py:397-406`, is a deep copy, and so is every frame that is returned.
-/

set_option linter.unusedSectionVars false

namespace Openscm

variable {K : Type} [Field K] [LinearOrder K] [IsStrictOrderedRing K]

/-- A frame whose times have just been set, as at the end of the constructor and of the methods. -/
def DFrame.fresh (F : DFrame K) : FObj K := { points := F.times, F := F }

/-- `filter`, `openscm/scmdataframe/base.py:650-668`: masks of times are made from `_time_points` and must have the shape
of the data. Time points that are as many as the data has times, but others, do not occur (`C67_times`). -/
def FObj.filterCall (x : FObj K) (o : FilterOpts K) (keep : Bool) (filters : List (String × PyArg K)) : Except Err (FObj K) :=
  match ({ x.F with times := x.points } : DFrame K).applyFilters o filters with
  | .error e => .error e
  | .ok _ =>
    if x.points.length ≠ x.F.times.length then .error .assertion
    else if x.points ≠ x.F.times then .error .unmodelled
    else
      match x.F.filter o keep filters with
      | .error e => .error e
      | .ok G => .ok G.fresh

/-- `convert_unit`, `openscm/scmdataframe/base.py:1216-1272`, which filters. -/
def FObj.convertCall (conv : String → Except Err (Fl K → Fl K)) (x : FObj K) (o : FilterOpts K) (keep : Bool)
    (filters : List (String × PyArg K)) (unit : String) (ctx : PyVal K) (inplace : Bool) :
    Except Err (Option (FObj K)) × FObj K :=
  if x.points = x.F.times then
    match x.F.convertUnit conv o keep filters unit ctx inplace with
    | (.error e, G) => (.error e, { x with F := G })
    | (.ok r, G) => (.ok (r.map fun G => { x with F := G }), { x with F := G })
  else
    match ({ x with F := x.F.withContext } : FObj K).filterCall o keep filters with
    | .error e => (.error e, if inplace then { x with F := x.F.withContext } else x)
    | .ok _ => (.error .unmodelled, x)

/-- `rename`, `openscm/scmdataframe/base.py:823-869`. -/
def FObj.renameCall (x : FObj K) (mapping : List (String × List (String × String))) (inplace : Bool) :
    Except Err (Option (FObj K)) × FObj K :=
  match x.F.rename mapping inplace with
  | (.error e, G) => (.error e, { x with F := G })
  | (.ok r, G) => (.ok (r.map fun G => { x with F := G }), { x with F := G })

/-- `interpolate`, `openscm/scmdataframe/base.py:940-1052`, with `self.time_points` for the times of the data. -/
def FObj.interpolateCall (reg : Registry K) (views : Bool) (x : FObj K) (target : List Int) (ext : Extrap) : Except Err (FObj K) :=
  (({ x.F with times := x.points } : DFrame K).interpolate reg views target ext).map DFrame.fresh

/-- `resample`, `openscm/scmdataframe/base.py:1054-1167`, with `self["time"]` for the times of the data. -/
def FObj.resampleCall (reg : Registry K) (views : Bool) (x : FObj K) (r : Rule) (n : Int) (ext : Extrap) : Except Err (FObj K) :=
  (({ x.F with times := x.points } : DFrame K).resample reg views r n ext).map DFrame.fresh

/-- What calls depend on: units, whether pandas hands out views of rows, how text is read as a time, and the converters
to a unit in a context. -/
structure FEnv (K : Type) [Field K] where
  reg : Registry K
  views : Bool
  clock : Clock
  conv : String → PyVal K → String → Except Err (Fl K → Fl K)

/-- Calls. Frames are given by their position. Dictionaries have no repeated keys. -/
inductive FCall (K : Type)
  /-- `ScmDataFrame(data, index=times, columns=columns)` -/
  | array (n : Nat) (array : List (List (Fl K))) (times : List Int) (columns : List (String × ColArg K))
      (hk : (columns.map (·.1)).Nodup)
  /-- `ScmDataFrame(table)` -/
  | table (T : Table K)
  /-- `ScmDataFrame(df)` -/
  | wrap (i : Nat)
  /-- `df.copy()` -/
  | copy (i : Nat)
  | filter (i : Nat) (o : FilterOpts K) (keep : Bool) (filters : List (String × PyArg K)) (inplace : Bool)
  | rename (i : Nat) (mapping : List (String × List (String × String))) (inplace : Bool)
  | convert (i : Nat) (o : FilterOpts K) (keep : Bool) (filters : List (String × PyArg K)) (unit : String) (ctx : PyVal K)
      (inplace : Bool)
  /-- `df_append([df, *others])`, of which `df.append(other)` is a case -/
  | append (i : Nat) (others : List Nat) (msg : DupMsg) (inplace : Bool)
  | interpolate (i : Nat) (target : List Int) (ext : Extrap)
  | resample (i : Nat) (r : Rule) (n : Int) (ext : Extrap)
  /-- `df[key] = value` -/
  | set (i : Nat) (op : ItemOp K)

/-- The end of a method that leaves its frame alone if it fails: the error, if any, and the frames. -/
def settle (S : List (FObj K)) (i : Nat) (inplace : Bool) : Except Err (FObj K) → Option Err × List (FObj K)
  | .error e => (some e, S)
  | .ok y => (none, if inplace then S.set i y else S ++ [y])

/-- The end of a method that may change its frame before it fails. -/
def settleBoth (S : List (FObj K)) (i : Nat) : Except Err (Option (FObj K)) × FObj K → Option Err × List (FObj K)
  | (.error e, x) => (some e, S.set i x)
  | (.ok r, x) => (none, S.set i x ++ r.toList)

/-- One call. -/
def fcall (env : FEnv K) (S : List (FObj K)) : FCall K → Option Err × List (FObj K)
  | .array n array times columns _ => settle S 0 false ((fromTs n array times columns).map DFrame.fresh)
  | .table T => settle S 0 false ((fromTable env.clock T).map DFrame.fresh)
  | .wrap i =>
    match S[i]? with
    | none => (some .unmodelled, S)
    | some x => settle S i false (.ok x.F.sortMeta.fresh)
  | .copy i =>
    match S[i]? with
    | none => (some .unmodelled, S)
    | some x => settle S i false (.ok x)
  | .filter i o keep filters inplace =>
    match S[i]? with
    | none => (some .unmodelled, S)
    | some x => settle S i inplace (x.filterCall o keep filters)
  | .rename i mapping inplace =>
    match S[i]? with
    | none => (some .unmodelled, S)
    | some x => settleBoth S i (x.renameCall mapping inplace)
  | .convert i o keep filters unit ctx inplace =>
    match S[i]? with
    | none => (some .unmodelled, S)
    | some x => settleBoth S i (x.convertCall (env.conv unit ctx) o keep filters unit ctx inplace)
  | .append i others msg inplace =>
    match S[i]? with
    | none => (some .unmodelled, S)
    | some x =>
      if others.any fun j => S[j]?.isNone then (some .unmodelled, S)
      else
        match dfAppend (x.F :: others.filterMap fun j => S[j]?.map (·.F)) msg with
        | .error e => (some e, S)
        | .ok (.joint _) => (none, S)
        | .ok (.frame R) => settle S i inplace (.ok R.fresh)
  | .interpolate i target ext =>
    match S[i]? with
    | none => (some .unmodelled, S)
    | some x => settle S i false (x.interpolateCall env.reg env.views target ext)
  | .resample i r n ext =>
    match S[i]? with
    | none => (some .unmodelled, S)
    | some x => settle S i false (x.resampleCall env.reg env.views r n ext)
  | .set i op =>
    match S[i]? with
    | none => (some .unmodelled, S)
    | some x => ((x.setItem op).1, S.set i (x.setItem op).2)

/-- A program, from the frames `S`. -/
def fprogram (env : FEnv K) (S : List (FObj K)) : List (FCall K) → List (FObj K)
  | [] => S
  | c :: cs => fprogram env (fcall env S c).2 cs

/-! ## Facts -/

/-- What every frame is at all times. -/
structure FObj.Sound (x : FObj K) : Prop where
  ok : x.F.Ok
  req : ∀ c ∈ requiredCols, c ∈ x.F.cols
  times : x.points = x.F.times ∨ x.points.length ≠ x.F.times.length

theorem DFrame.fresh_sound {F : DFrame K} (h : F.Ok) (hr : ∀ c ∈ requiredCols, c ∈ F.cols) : F.fresh.Sound :=
  ⟨h, hr, .inl rfl⟩

theorem sortMeta_req (F : DFrame K) : ∀ c ∈ requiredCols, c ∈ F.sortMeta.cols := fun _ hc =>
  List.mem_append_left _ hc

theorem fromTs_sound {n : Nat} {array : List (List (Fl K))} {times : List Int} {columns : List (String × ColArg K)}
    (hk : (columns.map (·.1)).Nodup) {F : DFrame K} (h : fromTs n array times columns = .ok F) : F.fresh.Sound := by
  refine DFrame.fresh_sound (C59_frame hk h).1 ?_
  obtain ⟨-, -, cs, -, rfl⟩ := fromTs_ok h
  exact sortMeta_req _

theorem fromTable_sound {clock : Clock} {T : Table K} {F : DFrame K} (h : fromTable clock T = .ok F) : F.fresh.Sound := by
  by_cases hv : T.HasCol "value"
  · obtain ⟨tc, cols, hf⟩ := long_facts hv h
    refine DFrame.fresh_sound ?_ ?_
    · rw [hf.res]
      exact pivot_ok hf.nodup LongFacts.entries_length
    · rw [hf.res]
      exact sortMeta_req _
  · obtain ⟨sorted, cols, hf⟩ := wide_facts hv h
    refine DFrame.fresh_sound hf.ok ?_
    unfold fromTable at h
    split at h
    · cases h
    rw [if_neg fun h => hv (mem_labels.1 h)] at h
    unfold fromWide at h
    repeat' split at h
    all_goals cases h
    exact sortMeta_req _

theorem filter_sound {F G : DFrame K} {o : FilterOpts K} {keep : Bool} {filters : List (String × PyArg K)} (hF : F.Ok)
    (h : F.filter o keep filters = .ok G) : ∃ P, G = F.restrict P := by
  obtain ⟨P, -, hP⟩ := filter_restrict hF h
  have := hP F hF (Within.refl F) keep
  rw [h] at this
  exact ⟨_, Except.ok.inj this⟩

theorem FObj.Sound.filter {x y : FObj K} {o : FilterOpts K} {keep : Bool} {filters : List (String × PyArg K)} (hx : x.Sound)
    (h : x.filterCall o keep filters = .ok y) : x.points = x.F.times ∧ ∃ P, y = (x.F.restrict P).fresh := by
  unfold FObj.filterCall at h
  split at h
  · cases h
  split at h
  · cases h
  split at h
  · cases h
  rename_i hp
  rw [not_not] at hp
  split at h
  · cases h
  rename_i G hG
  obtain ⟨P, rfl⟩ := filter_sound hx.ok hG
  exact ⟨hp, P, (Except.ok.inj h).symm⟩

theorem restrict_sound {F : DFrame K} (hF : F.Ok) (hr : ∀ c ∈ requiredCols, c ∈ F.cols) (P : List (PyVal K) → Int → Bool) :
    (F.restrict P).fresh.Sound :=
  DFrame.fresh_sound (hF.restrict P) (by rw [(restrict_meta P).1]; exact hr)

theorem renameLoop_keeps {mapping : List (String × List (String × String))} {F : DFrame K} (hF : F.Ok) :
    (F.renameLoop mapping).2.Ok ∧ (F.renameLoop mapping).2.cols = F.cols ∧ (F.renameLoop mapping).2.times = F.times := by
  induction mapping generalizing F with
  | nil => exact ⟨hF, rfl, rfl⟩
  | cons x l ih =>
    obtain ⟨c, m⟩ := x
    unfold DFrame.renameLoop
    cases F.cols.findIdx? (· = c) with
    | none => exact ⟨hF, rfl, rfl⟩
    | some i =>
      simp only
      split
      · exact ⟨hF.replaceCol i m, rfl, rfl⟩
      · exact ih (hF.replaceCol i m)

/-- Frames with the same shape. -/
theorem FObj.Sound.withF {x : FObj K} (hx : x.Sound) {G : DFrame K} (h1 : G.Ok) (h2 : ∀ c ∈ x.F.cols, c ∈ G.cols)
    (h3 : G.times = x.F.times) : ({ x with F := G } : FObj K).Sound :=
  ⟨h1, fun c hc => h2 c (hx.req c hc), by rw [h3]; exact hx.times⟩

theorem FObj.Sound.rename {x : FObj K} (hx : x.Sound) (mapping : List (String × List (String × String))) (inplace : Bool) :
    (x.renameCall mapping inplace).2.Sound ∧ ∀ y, (x.renameCall mapping inplace).1 = .ok (some y) → y.Sound := by
  obtain ⟨k1, k2, k3⟩ := renameLoop_keeps (mapping := mapping) hx.ok
  have hG : ({ x with F := (x.F.renameLoop mapping).2 } : FObj K).Sound := hx.withF k1 (fun c hc => by rw [k2]; exact hc) k3
  unfold FObj.renameCall DFrame.rename
  generalize x.F.renameLoop mapping = r at hG
  obtain ⟨e | e, G⟩ := r
  · cases inplace
    · exact ⟨hx, fun y hy => by cases hy⟩
    · exact ⟨hG, fun y hy => by cases hy⟩
  · cases inplace
    · refine ⟨hx, fun y hy => ?_⟩
      simp only [Bool.false_eq_true, if_false, Option.map_some, Except.ok.injEq, Option.some.injEq] at hy
      subst hy
      exact hG
    · exact ⟨hG, fun y hy => by simp at hy⟩

theorem convertLabels_ok {F : DFrame K} (hF : F.Ok) (ls : List Nat) (f : Fl K → Fl K) (unit : String) (ctx : PyVal K) :
    (F.convertLabels ls f unit ctx).Ok := by
  have e1 : (F.convertLabels ls f unit ctx).data.map (·.1) = F.data.map (·.1) := by
    simp only [DFrame.convertLabels, List.map_map]
    refine List.map_congr_left fun d _ => ?_
    simp only [Function.comp]
    split <;> rfl
  have e2 : (F.convertLabels ls f unit ctx).meta.map (·.1) = F.meta.map (·.1) := by
    simp only [DFrame.convertLabels, List.map_map]
    refine List.map_congr_left fun d _ => ?_
    simp only [Function.comp]
    split <;> rfl
  refine ⟨by rw [e1, e2]; exact hF.labels, by rw [e1]; exact hF.nodup, hF.cols_nodup, ?_, ?_⟩
  · intro d hd
    obtain ⟨s, hs, rfl⟩ := List.mem_map.1 hd
    have := hF.data_len s hs
    split
    · exact (List.length_map _).trans this
    · exact this
  · intro r hr
    obtain ⟨s, hs, rfl⟩ := List.mem_map.1 hr
    have := hF.meta_len s hs
    split
    · refine Eq.trans ?_ this
      simp [assignUnit]
    · exact this

theorem convertLoop_keeps {conv : String → Except Err (Fl K → Fl K)} {unit : String} {ctx : PyVal K} {gs : List (String × List Nat)}
    {F : DFrame K} (hF : F.Ok) :
    (convertLoop conv unit ctx gs F).2.Ok ∧ (convertLoop conv unit ctx gs F).2.cols = F.cols ∧
      (convertLoop conv unit ctx gs F).2.times = F.times := by
  induction gs generalizing F with
  | nil => exact ⟨hF, rfl, rfl⟩
  | cons g gs ih =>
    obtain ⟨u, ls⟩ := g
    unfold convertLoop
    cases conv u with
    | error e => exact ⟨hF, rfl, rfl⟩
    | ok f => exact ih (convertLabels_ok hF ls f unit ctx)

theorem withContext_keeps {F : DFrame K} (hF : F.Ok) (hr : ∀ c ∈ requiredCols, c ∈ F.cols) :
    F.withContext.Ok ∧ (∀ c ∈ F.cols, c ∈ F.withContext.cols) ∧ F.withContext.times = F.times :=
  ⟨hF.withContext, fun c hc => ((withContext_spec hF hr).2.2.2.1 c).2 (.inl hc), (withContext_spec hF hr).1⟩

theorem FObj.Sound.convert {x : FObj K} (hx : x.Sound) (conv : String → Except Err (Fl K → Fl K)) (o : FilterOpts K) (keep : Bool)
    (filters : List (String × PyArg K)) (unit : String) (ctx : PyVal K) (inplace : Bool) :
    (x.convertCall conv o keep filters unit ctx inplace).2.Sound ∧
    ∀ y, (x.convertCall conv o keep filters unit ctx inplace).1 = .ok (some y) → y.Sound := by
  obtain ⟨w1, w2, w3⟩ := withContext_keeps hx.ok hx.req
  have hw : ({ x with F := x.F.withContext } : FObj K).Sound := hx.withF w1 w2 w3
  unfold FObj.convertCall
  split
  · unfold DFrame.convertUnit
    split
    · rename_i h
      split at h
      · cases h
        cases inplace
        · exact ⟨hx, fun y hy => by cases hy⟩
        · exact ⟨hw, fun y hy => by cases hy⟩
      · split at h
        · cases h
          cases inplace
          · exact ⟨hx, fun y hy => by cases hy⟩
          · exact ⟨hw, fun y hy => by cases hy⟩
        · rename_i gs _
          obtain ⟨k1, k2, k3⟩ := convertLoop_keeps (conv := conv) (unit := unit) (ctx := ctx) (gs := gs) w1
          generalize convertLoop conv unit ctx gs x.F.withContext = r at h k1 k2 k3
          obtain ⟨e | e, G⟩ := r
          · cases h
            cases inplace
            · exact ⟨hx, fun y hy => by cases hy⟩
            · exact ⟨hx.withF k1 (fun c hc => (show G.cols = _ from k2) ▸ w2 c hc) (k3.trans w3), fun y hy => by cases hy⟩
          · cases inplace <;> cases h
    · rename_i h
      split at h
      · cases h
      · split at h
        · cases h
        · rename_i gs _
          obtain ⟨k1, k2, k3⟩ := convertLoop_keeps (conv := conv) (unit := unit) (ctx := ctx) (gs := gs) w1
          generalize convertLoop conv unit ctx gs x.F.withContext = r at h k1 k2 k3
          obtain ⟨e | e, G⟩ := r
          · cases h
          · have hG := hx.withF k1 (fun c hc => (show G.cols = _ from k2) ▸ w2 c hc) (k3.trans w3)
            cases inplace
            · cases h
              refine ⟨hx, fun y hy => ?_⟩
              simp only [Option.map_some, Except.ok.injEq, Option.some.injEq] at hy
              subst hy
              exact hG
            · cases h
              exact ⟨hG, fun y hy => by simp at hy⟩
  · split
    · cases inplace
      · exact ⟨hx, fun y hy => by cases hy⟩
      · exact ⟨hw, fun y hy => by cases hy⟩
    · exact ⟨hx, fun y hy => by cases hy⟩

theorem interpolate_sound {reg : Registry K} {views : Bool} {F G : DFrame K} {points target : List Int} {ext : Extrap}
    (hF : F.Ok) (hr : ∀ c ∈ requiredCols, c ∈ F.cols)
    (h : ({ F with times := points } : DFrame K).interpolate reg views target ext = .ok G) : G.fresh.Sound := by
  obtain ⟨rows, ks, new, h1, h2, h3, rfl⟩ := interpolate_parts h
  -- the same frame with as many values as there are points
  let F0 : DFrame K := { F with times := points, data := F.data.map fun d => (d.1, points.map fun _ => .nan) }
  have h0 : F0.Ok := by
    refine ⟨?_, ?_, hF.cols_nodup, ?_, hF.meta_len⟩
    · simp only [F0, List.map_map, Function.comp_def]
      exact hF.labels
    · simp only [F0, List.map_map, Function.comp_def]
      exact hF.nodup
    · intro d hd
      obtain ⟨s, -, rfl⟩ := List.mem_map.1 hd
      simp [F0]
  have hr0 : ∀ c ∈ requiredCols, c ∈ F0.cols := hr
  have e1 : F0.withType.cols = ({ F with times := points } : DFrame K).withType.cols := by
    unfold DFrame.withType
    simp only [F0]
    split <;> rfl
  have e2 : F0.withType.meta = ({ F with times := points } : DFrame K).withType.meta := by
    unfold DFrame.withType
    simp only [F0]
    split <;> rfl
  rw [← e1, ← e2] at h1
  obtain ⟨t1, t2, -, -⟩ := typed_rows h0 hr0 h1
  rw [e1] at t2
  have hne := groups_nonempty h2
  obtain ⟨l1, -, -, -⟩ := interpLoop_ok (F := { ({ F with times := points } : DFrame K).withType with «meta» := rows }) hne h3
  have hc : ({ F with times := points } : DFrame K).withType.cols.Nodup := by rw [← e1]; exact (withType_ok h0).cols_nodup
  have hd : ({ F with times := points } : DFrame K).withType.data = F.data := (withType_data _).1
  have t1' : rows.map (·.1) = F.meta.map (·.1) := t1
  refine DFrame.fresh_sound ⟨?_, ?_, hc, ?_, ?_⟩ ?_
  · simp only [List.map_map, Function.comp_def]
    rw [hd, hF.labels]
    exact t1'.symm
  · simp only [List.map_map, Function.comp_def]
    rw [hd]
    exact hF.nodup
  · intro d hd
    obtain ⟨s, hs, rfl⟩ := List.mem_map.1 hd
    simp only
    split
    · rename_i x hx
      obtain ⟨k, hk, hw, hg, hlen, -⟩ := l1 x (List.mem_of_find?_eq_some hx)
      exact hlen
    · simp
  · intro d hd
    obtain ⟨s, hs, rfl⟩ := List.mem_map.1 hd
    simp only
    split
    · simpa using t2 s hs
    · exact t2 s hs
  · intro c hc
    exact (withType_cols (F := { F with times := points }) hr).2 (.inl (hr c hc))

theorem FObj.Sound.interpolate {x y : FObj K} (hx : x.Sound) {reg : Registry K} {views : Bool} {target : List Int} {ext : Extrap}
    (h : x.interpolateCall reg views target ext = .ok y) : y.Sound := by
  unfold FObj.interpolateCall at h
  cases hi : ({ x.F with times := x.points } : DFrame K).interpolate reg views target ext with
  | error e => rw [hi] at h; cases h
  | ok G =>
    rw [hi] at h
    cases h
    exact interpolate_sound hx.ok hx.req hi

theorem FObj.Sound.resample {x y : FObj K} (hx : x.Sound) {reg : Registry K} {views : Bool} {r : Rule} {n : Int} {ext : Extrap}
    (h : x.resampleCall reg views r n ext = .ok y) : y.Sound := by
  unfold FObj.resampleCall at h
  cases hi : ({ x.F with times := x.points } : DFrame K).resample reg views r n ext with
  | error e => rw [hi] at h; cases h
  | ok G =>
    rw [hi] at h
    cases h
    unfold DFrame.resample at hi
    split at hi
    · split at hi
      · cases hi
      · exact interpolate_sound hx.ok hx.req hi
    · cases hi

theorem append_sound {dfs : List (DFrame K)} {msg : DupMsg} {R : DFrame K} (hF : ∀ F ∈ dfs, F.Ok)
    (hr : ∀ F ∈ dfs, ∀ c ∈ requiredCols, c ∈ F.cols) (h : dfAppend dfs msg = .ok (.frame R)) : R.fresh.Sound := by
  have hf := dfAppend_frame hF h
  refine DFrame.fresh_sound (result_lengths hF hf (dfAppend_ne h) hr).1 ?_
  rw [hf.form]
  exact sortMeta_req _

theorem FObj.Sound.set {x : FObj K} (hx : x.Sound) (op : ItemOp K) : (x.setItem op).2.Sound := by
  refine ⟨setItem_ok hx.ok op, fun c hc => (setItem_parts x op).2.2.2 c (hx.req c hc), ?_⟩
  cases op with
  | time ts =>
    unfold FObj.setItem
    simp only
    split
    · exact .inl rfl
    · rename_i h
      exact .inr h
  | col key value =>
    unfold FObj.setItem
    simp only
    split
    · exact hx.times
    · split
      · exact hx.times
      · split
        · exact hx.times
        · rename_i vals _
          simp only
          rw [(setColumn_parts x.F key vals).1]
          exact hx.times

theorem settle_all {P : FObj K → Prop} {S : List (FObj K)} (hS : ∀ x ∈ S, P x) (i : Nat) (inplace : Bool)
    {r : Except Err (FObj K)} (hr : ∀ y, r = .ok y → P y) : ∀ x ∈ (settle S i inplace r).2, P x := by
  unfold settle
  split
  · exact hS
  · rename_i y
    cases inplace
    · intro x hx
      rcases List.mem_append.1 hx with h | h
      · exact hS x h
      · rw [List.mem_singleton] at h
        subst h
        exact hr x rfl
    · intro x hx
      rcases List.mem_or_eq_of_mem_set hx with h | h
      · exact hS x h
      · subst h
        exact hr x rfl

theorem settleBoth_all {P : FObj K → Prop} {S : List (FObj K)} (hS : ∀ x ∈ S, P x) (i : Nat)
    {r : Except Err (Option (FObj K)) × FObj K} (h1 : P r.2) (h2 : ∀ y, r.1 = .ok (some y) → P y) :
    ∀ x ∈ (settleBoth S i r).2, P x := by
  have hset : ∀ x ∈ S.set i r.2, P x := by
    intro x hx
    rcases List.mem_or_eq_of_mem_set hx with h | h
    · exact hS x h
    · subst h
      exact h1
  unfold settleBoth
  split
  · exact hset
  · rename_i r' x
    intro z hz
    rcases List.mem_append.1 hz with h | h
    · exact hset z h
    · cases r' with
      | none => cases h
      | some y =>
        simp only [Option.toList_some, List.mem_singleton] at h
        subst h
        exact h2 z rfl

theorem fcall_sound (env : FEnv K) {S : List (FObj K)} (hS : ∀ x ∈ S, x.Sound) (c : FCall K) :
    ∀ x ∈ (fcall env S c).2, x.Sound := by
  cases c with
  | array n array times columns hk =>
    refine settle_all hS _ _ fun y hy => ?_
    cases h : fromTs n array times columns with
    | error e => rw [h] at hy; cases hy
    | ok F =>
      rw [h] at hy
      cases hy
      exact fromTs_sound hk h
  | table T =>
    refine settle_all hS _ _ fun y hy => ?_
    cases h : fromTable env.clock T with
    | error e => rw [h] at hy; cases hy
    | ok F =>
      rw [h] at hy
      cases hy
      exact fromTable_sound h
  | wrap i =>
    simp only [fcall]
    split
    · exact hS
    · rename_i x hx
      have hx := hS x (List.mem_of_getElem? hx)
      refine settle_all hS _ _ fun y hy => ?_
      cases hy
      exact DFrame.fresh_sound hx.ok.sortMeta (sortMeta_req _)
  | copy i =>
    simp only [fcall]
    split
    · exact hS
    · rename_i x hx
      have hx := hS x (List.mem_of_getElem? hx)
      refine settle_all hS _ _ fun y hy => ?_
      cases hy
      exact hx
  | filter i o keep filters inplace =>
    simp only [fcall]
    split
    · exact hS
    · rename_i x hx
      have hx := hS x (List.mem_of_getElem? hx)
      refine settle_all hS _ _ fun y hy => ?_
      obtain ⟨-, P, rfl⟩ := hx.filter hy
      exact restrict_sound hx.ok hx.req P
  | rename i mapping inplace =>
    simp only [fcall]
    split
    · exact hS
    · rename_i x hx
      have hx := hS x (List.mem_of_getElem? hx)
      exact settleBoth_all hS _ (hx.rename mapping inplace).1 (hx.rename mapping inplace).2
  | convert i o keep filters unit ctx inplace =>
    simp only [fcall]
    split
    · exact hS
    · rename_i x hx
      have hx := hS x (List.mem_of_getElem? hx)
      exact settleBoth_all hS _ (hx.convert _ o keep filters unit ctx inplace).1 (hx.convert _ o keep filters unit ctx inplace).2
  | append i others msg inplace =>
    simp only [fcall]
    split
    · exact hS
    · rename_i x hx
      have hx := hS x (List.mem_of_getElem? hx)
      split
      · exact hS
      · have hall : ∀ F ∈ x.F :: others.filterMap (fun j => S[j]?.map (·.F)), F.Ok ∧ ∀ c ∈ requiredCols, c ∈ F.cols := by
          intro F hF
          rcases List.mem_cons.1 hF with rfl | hF
          · exact ⟨hx.ok, hx.req⟩
          · obtain ⟨j, -, hj⟩ := List.mem_filterMap.1 hF
            obtain ⟨z, hz, rfl⟩ := Option.map_eq_some_iff.1 hj
            have hz := hS z (List.mem_of_getElem? hz)
            exact ⟨hz.ok, hz.req⟩
        split
        · exact hS
        · exact hS
        · rename_i R hR
          refine settle_all hS _ _ fun y hy => ?_
          cases hy
          exact append_sound (fun F hF => (hall F hF).1) (fun F hF => (hall F hF).2) hR
  | interpolate i target ext =>
    simp only [fcall]
    split
    · exact hS
    · rename_i x hx
      have hx := hS x (List.mem_of_getElem? hx)
      exact settle_all hS _ _ fun y hy => hx.interpolate hy
  | resample i r n ext =>
    simp only [fcall]
    split
    · exact hS
    · rename_i x hx
      have hx := hS x (List.mem_of_getElem? hx)
      exact settle_all hS _ _ fun y hy => hx.resample hy
  | set i op =>
    simp only [fcall]
    split
    · exact hS
    · rename_i x hx
      have hx := hS x (List.mem_of_getElem? hx)
      intro z hz
      rcases List.mem_or_eq_of_mem_set hz with h | h
      · exact hS z h
      · subst h
        exact hx.set op

theorem fprogram_sound (env : FEnv K) {S : List (FObj K)} (hS : ∀ x ∈ S, x.Sound) (cs : List (FCall K)) :
    ∀ x ∈ fprogram env S cs, x.Sound := by
  induction cs generalizing S with
  | nil => exact hS
  | cons c cs ih => exact ih (fcall_sound env hS c)

end Openscm
