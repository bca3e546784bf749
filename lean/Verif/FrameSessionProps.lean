import Verif.FrameSession

/-!
# C67: programs that use frames
-/

set_option linter.unusedSectionVars false

namespace Openscm

variable {K : Type} [Field K] [LinearOrder K] [IsStrictOrderedRing K]

/-! ## Specification -/

/-- The frame that a call may change: that of a call in place or of an assignment. -/
inductive FCall.ChangesAt : FCall K → Nat → Prop
  | filter {i o keep filters} : ChangesAt (.filter i o keep filters true) i
  | rename {i mapping} : ChangesAt (.rename i mapping true) i
  | convert {i o keep filters unit ctx} : ChangesAt (.convert i o keep filters unit ctx true) i
  | append {i others msg} : ChangesAt (.append i others msg true) i
  | set {i op} : ChangesAt (.set i op) i

/-- The same call in place and not in place. -/
inductive FCall.Twins (i : Nat) : FCall K → FCall K → Prop
  | filter (o keep filters) : Twins i (.filter i o keep filters true) (.filter i o keep filters false)
  | rename (mapping) : Twins i (.rename i mapping true) (.rename i mapping false)
  | convert (o keep filters unit ctx) : Twins i (.convert i o keep filters unit ctx true) (.convert i o keep filters unit ctx false)
  | append (others msg) : Twins i (.append i others msg true) (.append i others msg false)

/-- No call of the kind `P` is refused. -/
def Unrefused (env : FEnv K) (P : FCall K → Prop) : List (FObj K) → List (FCall K) → Prop
  | _, [] => True
  | S, c :: cs => (P c → (fcall env S c).1 = none) ∧ Unrefused env P (fcall env S c).2 cs

/-- `df["time"] = times`. -/
inductive FCall.SetsTime : FCall K → Prop
  | mk {i ts} : SetsTime (.set i (.time ts))

/-! ## C67 -/

/-- C67: whatever a program does to its frames, every timeseries has one value (or a missing one) for each time of the data, and
each metadata column, the required ones among them, has one value for each timeseries. -/
theorem C67_fits (env : FEnv K) (cs : List (FCall K)) (x : FObj K) (hx : x ∈ fprogram env [] cs) :
    (∀ d ∈ x.F.data, d.2.length = x.F.times.length) ∧ x.F.data.length = x.F.meta.length ∧
    x.F.data.map (·.1) = x.F.meta.map (·.1) ∧ (x.F.data.map (·.1)).Nodup ∧ x.F.cols.Nodup ∧
    (∀ c ∈ requiredCols, c ∈ x.F.cols) ∧
    ∀ c ∈ x.F.cols, ∃ l, x.F.column c = .ok l ∧ l.length = x.F.data.length := by
  have hs := fprogram_sound env (S := []) (by simp) cs x hx
  have hl := hs.ok.length_eq
  refine ⟨hs.ok.data_len, hl.symm, hs.ok.labels, hs.ok.nodup, hs.ok.cols_nodup, hs.req, fun c hc => ⟨_, column_eq hc, ?_⟩⟩
  simpa using hl

theorem sound_times_step (env : FEnv K) {S : List (FObj K)} (hS : ∀ x ∈ S, x.Sound) (ht : ∀ x ∈ S, x.points = x.F.times)
    (c : FCall K) (hc : c.SetsTime → (fcall env S c).1 = none) : ∀ x ∈ (fcall env S c).2, x.points = x.F.times := by
  cases c with
  | array n array times columns hk =>
    refine settle_all ht _ _ fun y hy => ?_
    cases h : fromTs n array times columns with
    | error e => rw [h] at hy; cases hy
    | ok F => rw [h] at hy; cases hy; rfl
  | table T =>
    refine settle_all ht _ _ fun y hy => ?_
    cases h : fromTable env.clock T with
    | error e => rw [h] at hy; cases hy
    | ok F => rw [h] at hy; cases hy; rfl
  | wrap i =>
    simp only [fcall]
    split
    · exact ht
    · refine settle_all ht _ _ fun y hy => ?_
      cases hy
      rfl
  | copy i =>
    simp only [fcall]
    split
    · exact ht
    · rename_i x hx
      refine settle_all ht _ _ fun y hy => ?_
      cases hy
      exact ht x (List.mem_of_getElem? hx)
  | filter i o keep filters inplace =>
    simp only [fcall]
    split
    · exact ht
    · rename_i x hx
      refine settle_all ht _ _ fun y hy => ?_
      obtain ⟨-, P, rfl⟩ := (hS x (List.mem_of_getElem? hx)).filter hy
      rfl
  | rename i mapping inplace =>
    simp only [fcall]
    split
    · exact ht
    · rename_i x hx
      have hp := ht x (List.mem_of_getElem? hx)
      obtain ⟨h1, h2⟩ := (hS x (List.mem_of_getElem? hx)).rename mapping inplace
      have key : ∀ b : Bool, ∀ G, G = (x.F.renameLoop mapping).2 ∨ G = x.F → x.points = G.times := by
        rintro - G (rfl | rfl)
        · rw [(renameLoop_keeps (hS x (List.mem_of_getElem? hx)).ok).2.2]
          exact hp
        · exact hp
      refine settleBoth_all ht _ ?_ fun y hy => ?_
      · unfold FObj.renameCall DFrame.rename
        generalize x.F.renameLoop mapping = r at key
        obtain ⟨e | e, G⟩ := r <;> cases inplace
        · exact hp
        · exact key true G (.inl rfl)
        · exact hp
        · exact key true G (.inl rfl)
      · unfold FObj.renameCall DFrame.rename at hy
        generalize x.F.renameLoop mapping = r at key hy
        obtain ⟨e | e, G⟩ := r <;> cases inplace <;> simp at hy
        subst hy
        exact key true G (.inl rfl)
  | convert i o keep filters unit ctx inplace =>
    simp only [fcall]
    split
    · exact ht
    · rename_i x hx
      have hp := ht x (List.mem_of_getElem? hx)
      obtain ⟨h1, h2⟩ := (hS x (List.mem_of_getElem? hx)).convert (env.conv unit ctx) o keep filters unit ctx inplace
      -- the shape of what is left and returned
      have hsh : (x.convertCall (env.conv unit ctx) o keep filters unit ctx inplace).2.points = x.points ∧
          (x.convertCall (env.conv unit ctx) o keep filters unit ctx inplace).2.F.times.length = x.F.times.length ∧
          ∀ y, (x.convertCall (env.conv unit ctx) o keep filters unit ctx inplace).1 = .ok (some y) →
            y.points = x.points ∧ y.F.times.length = x.F.times.length := by
        have hw := (withContext_keeps (hS x (List.mem_of_getElem? hx)).ok (hS x (List.mem_of_getElem? hx)).req)
        unfold FObj.convertCall
        rw [if_pos hp]
        unfold DFrame.convertUnit
        split
        · rename_i h
          refine ⟨rfl, ?_, fun y hy => by cases hy⟩
          split at h
          · cases h
            cases inplace
            · rfl
            · exact congrArg _ hw.2.2
          · split at h
            · cases h
              cases inplace
              · rfl
              · exact congrArg _ hw.2.2
            · rename_i gs _
              have k3 := (convertLoop_keeps (conv := env.conv unit ctx) (unit := unit) (ctx := ctx) (gs := gs) hw.1).2.2
              generalize convertLoop (env.conv unit ctx) unit ctx gs x.F.withContext = r at h k3
              obtain ⟨e | e, G⟩ := r
              · cases h
                cases inplace
                · rfl
                · exact congrArg _ (k3.trans hw.2.2)
              · cases inplace <;> cases h
        · rename_i h
          split at h
          · cases h
          · split at h
            · cases h
            · rename_i gs _
              have k3 := (convertLoop_keeps (conv := env.conv unit ctx) (unit := unit) (ctx := ctx) (gs := gs) hw.1).2.2
              generalize convertLoop (env.conv unit ctx) unit ctx gs x.F.withContext = r at h k3
              obtain ⟨e | e, G⟩ := r
              · cases h
              · cases inplace
                · cases h
                  refine ⟨rfl, rfl, fun y hy => ?_⟩
                  simp only [Option.map_some, Except.ok.injEq, Option.some.injEq] at hy
                  subst hy
                  exact ⟨rfl, congrArg _ (k3.trans hw.2.2)⟩
                · cases h
                  exact ⟨rfl, congrArg _ (k3.trans hw.2.2), fun y hy => by simp at hy⟩
      refine settleBoth_all ht _ ?_ fun y hy => ?_
      · rcases h1.times with h | h
        · exact h
        · rw [hsh.1, hsh.2.1, hp] at h
          exact absurd rfl h
      · rcases (h2 y hy).times with h | h
        · exact h
        · rw [(hsh.2.2 y hy).1, (hsh.2.2 y hy).2, hp] at h
          exact absurd rfl h
  | append i others msg inplace =>
    simp only [fcall]
    split
    · exact ht
    · split
      · exact ht
      · split
        · exact ht
        · exact ht
        · refine settle_all ht _ _ fun y hy => ?_
          cases hy
          rfl
  | interpolate i target ext =>
    simp only [fcall]
    split
    · exact ht
    · rename_i x hx
      refine settle_all ht _ _ fun y hy => ?_
      unfold FObj.interpolateCall at hy
      cases hi : ({ x.F with times := x.points } : DFrame K).interpolate env.reg env.views target ext with
      | error e => rw [hi] at hy; cases hy
      | ok G => rw [hi] at hy; cases hy; rfl
  | resample i r n ext =>
    simp only [fcall]
    split
    · exact ht
    · rename_i x hx
      refine settle_all ht _ _ fun y hy => ?_
      unfold FObj.resampleCall at hy
      cases hi : ({ x.F with times := x.points } : DFrame K).resample env.reg env.views r n ext with
      | error e => rw [hi] at hy; cases hy
      | ok G => rw [hi] at hy; cases hy; rfl
  | set i op =>
    simp only [fcall] at hc ⊢
    split
    · exact ht
    · rename_i x hx
      rw [hx] at hc
      simp only at hc
      intro z hz
      rcases List.mem_or_eq_of_mem_set hz with h | h
      · exact ht z h
      · subst h
        have hp := ht x (List.mem_of_getElem? hx)
        cases op with
        | time ts =>
          have := hc .mk
          unfold FObj.setItem at this ⊢
          simp only at this ⊢
          split
          · rfl
          · rename_i hn
            rw [if_neg hn] at this
            cases this
        | col key value =>
          unfold FObj.setItem
          simp only
          split
          · exact hp
          · split
            · exact hp
            · split
              · exact hp
              · rename_i vals _
                simp only
                rw [(setColumn_parts x.F key vals).1]
                exact hp

/-- C67, without refused assignments of times: `df["time"]` has the times of the data, after any program. After a refused one
it has another number of times than the data (`C67_times`), and the frame cannot be filtered (`C67_refused_time`). -/
theorem C67_times_partial (env : FEnv K) (cs : List (FCall K)) (h : Unrefused env FCall.SetsTime [] cs) (x : FObj K)
    (hx : x ∈ fprogram env [] cs) : x.getItem "time" = .ok (.times x.F.times) := by
  have key : ∀ (cs : List (FCall K)) (S : List (FObj K)), (∀ x ∈ S, x.Sound) → (∀ x ∈ S, x.points = x.F.times) →
      Unrefused env FCall.SetsTime S cs → ∀ x ∈ fprogram env S cs, x.points = x.F.times := by
    intro cs
    induction cs with
    | nil => exact fun S _ ht _ => ht
    | cons c cs ih =>
      intro S hS ht hu
      exact ih _ (fcall_sound env hS c) (sound_times_step env hS ht c hu.1) hu.2
  have := key cs [] (by simp) (by simp) h x hx
  simp [FObj.getItem, this]

/-- C67: after any program `df["time"]` has the times of the data or another number of times. -/
theorem C67_times (env : FEnv K) (cs : List (FCall K)) (x : FObj K) (hx : x ∈ fprogram env [] cs) (ts : List Int)
    (h : x.getItem "time" = .ok (.times ts)) : ts = x.F.times ∨ ts.length ≠ x.F.times.length := by
  have e : x.points = ts := by simpa [FObj.getItem] using h
  rw [← e]
  exact (fprogram_sound env (S := []) (by simp) cs x hx).times

theorem settle_isolated (S : List (FObj K)) (i : Nat) (inplace : Bool) (r : Except Err (FObj K)) {j : Nat} (hj : j < S.length)
    (h : inplace = true → j ≠ i) : (settle S i inplace r).2[j]? = S[j]? := by
  unfold settle
  split
  · rfl
  · cases inplace
    · exact List.getElem?_append_left hj
    · exact List.getElem?_set_ne (h rfl).symm

theorem settleBoth_isolated (S : List (FObj K)) (i : Nat) (r : Except Err (Option (FObj K)) × FObj K) {j : Nat} (hj : j < S.length)
    (h : j = i → S[i]? = some r.2) : (settleBoth S i r).2[j]? = S[j]? := by
  have hs : (S.set i r.2)[j]? = S[j]? := by
    by_cases e : i = j
    · subst e
      rw [h rfl, List.getElem?_set_self hj]
    · exact List.getElem?_set_ne e
  unfold settleBoth
  split
  · exact hs
  · exact (List.getElem?_append_left (by simpa using hj)).trans hs

theorem rename_copy (x : FObj K) (mapping : List (String × List (String × String))) : (x.renameCall mapping false).2 = x := by
  unfold FObj.renameCall DFrame.rename
  generalize x.F.renameLoop mapping = r
  obtain ⟨e | e, G⟩ := r <;> rfl

theorem convert_copy (conv : String → Except Err (Fl K → Fl K)) (x : FObj K) (o : FilterOpts K) (keep : Bool)
    (filters : List (String × PyArg K)) (unit : String) (ctx : PyVal K) :
    (x.convertCall conv o keep filters unit ctx false).2 = x := by
  have h : (x.F.convertUnit conv o keep filters unit ctx false).2 = x.F := by
    unfold DFrame.convertUnit
    split
    · rfl
    · split
      · rfl
      · split <;> rfl
  unfold FObj.convertCall
  split
  · generalize x.F.convertUnit conv o keep filters unit ctx false = r at h
    obtain ⟨e | e, G⟩ := r <;> (simp only at h; subst h; rfl)
  · split <;> rfl

/-- C67: a call changes no frame but the one it is applied to in place (or assigned to), and adds at most one. -/
theorem C67_isolated (env : FEnv K) (S : List (FObj K)) (c : FCall K) :
    (∀ j < S.length, ¬ c.ChangesAt j → (fcall env S c).2[j]? = S[j]?) ∧
    ((fcall env S c).2.length = S.length ∨ (fcall env S c).2.length = S.length + 1) := by
  have len1 : ∀ i b r, (settle S i b r).2.length = S.length ∨ (settle S i b r).2.length = S.length + 1 := by
    intro i b r
    unfold settle
    split
    · exact .inl rfl
    · cases b
      · exact .inr (by simp)
      · exact .inl (by simp)
  have len2 : ∀ i r, (settleBoth S i r).2.length = S.length ∨ (settleBoth S i r).2.length = S.length + 1 := by
    intro i r
    unfold settleBoth
    split
    · exact .inl (by simp)
    · rename_i r' _
      cases r' with
      | none => exact .inl (by simp)
      | some y => exact .inr (by simp)
  cases c with
  | array n array times columns hk => exact ⟨fun j hj _ => settle_isolated S 0 false _ hj (by simp), len1 ..⟩
  | table T => exact ⟨fun j hj _ => settle_isolated S 0 false _ hj (by simp), len1 ..⟩
  | wrap i =>
    simp only [fcall]
    split
    · exact ⟨fun j _ _ => rfl, .inl rfl⟩
    · exact ⟨fun j hj _ => settle_isolated S i false _ hj (by simp), len1 ..⟩
  | copy i =>
    simp only [fcall]
    split
    · exact ⟨fun j _ _ => rfl, .inl rfl⟩
    · exact ⟨fun j hj _ => settle_isolated S i false _ hj (by simp), len1 ..⟩
  | filter i o keep filters inplace =>
    simp only [fcall]
    split
    · exact ⟨fun j _ _ => rfl, .inl rfl⟩
    · refine ⟨fun j hj hc => settle_isolated S i inplace _ hj ?_, len1 ..⟩
      rintro rfl rfl
      exact hc .filter
  | rename i mapping inplace =>
    simp only [fcall]
    split
    · exact ⟨fun j _ _ => rfl, .inl rfl⟩
    · rename_i x hx
      refine ⟨fun j hj hc => settleBoth_isolated S i _ hj ?_, len2 ..⟩
      rintro rfl
      cases inplace
      · rw [rename_copy]
        exact hx
      · exact absurd .rename hc
  | convert i o keep filters unit ctx inplace =>
    simp only [fcall]
    split
    · exact ⟨fun j _ _ => rfl, .inl rfl⟩
    · rename_i x hx
      refine ⟨fun j hj hc => settleBoth_isolated S i _ hj ?_, len2 ..⟩
      rintro rfl
      cases inplace
      · rw [convert_copy]
        exact hx
      · exact absurd .convert hc
  | append i others msg inplace =>
    simp only [fcall]
    split
    · exact ⟨fun j _ _ => rfl, .inl rfl⟩
    · split
      · exact ⟨fun j _ _ => rfl, .inl rfl⟩
      · split
        · exact ⟨fun j _ _ => rfl, .inl rfl⟩
        · exact ⟨fun j _ _ => rfl, .inl rfl⟩
        · refine ⟨fun j hj hc => settle_isolated S i inplace _ hj ?_, len1 ..⟩
          rintro rfl rfl
          exact hc .append
  | interpolate i target ext =>
    simp only [fcall]
    split
    · exact ⟨fun j _ _ => rfl, .inl rfl⟩
    · exact ⟨fun j hj _ => settle_isolated S i false _ hj (by simp), len1 ..⟩
  | resample i r n ext =>
    simp only [fcall]
    split
    · exact ⟨fun j _ _ => rfl, .inl rfl⟩
    · exact ⟨fun j hj _ => settle_isolated S i false _ hj (by simp), len1 ..⟩
  | set i op =>
    simp only [fcall]
    split
    · exact ⟨fun j _ _ => rfl, .inl rfl⟩
    · refine ⟨fun j hj hc => List.getElem?_set_ne ?_, .inl (by simp)⟩
      rintro rfl
      exact hc .set

theorem set_same {S : List (FObj K)} {i : Nat} {x : FObj K} (h : S[i]? = some x) : S.set i x = S := by
  apply List.ext_getElem?
  intro j
  by_cases e : i = j
  · subst e
    rw [List.getElem?_set_self (List.getElem?_eq_some_iff.1 h).1, h]
  · exact List.getElem?_set_ne e

/-- C67: in place, a call raises the same and otherwise leaves what the same call not in place returns; not in place, a call
that raises changes nothing. Appending with `"return"` may leave all frames as they are, in place or not. -/
theorem C67_in_place (env : FEnv K) (S : List (FObj K)) (i : Nat) (a b : FCall K) (hab : FCall.Twins i a b) :
    (fcall env S a).1 = (fcall env S b).1 ∧
    ((fcall env S b).1 = none → (∃ y, (fcall env S a).2 = S.set i y ∧ (fcall env S b).2 = S ++ [y]) ∨
      ((∃ others inplace, b = .append i others .ret inplace) ∧ (fcall env S a).2 = S ∧ (fcall env S b).2 = S)) ∧
    ((fcall env S b).1 ≠ none → (fcall env S b).2 = S) := by
  have hs : ∀ r : Except Err (FObj K), (settle S i true r).1 = (settle S i false r).1 ∧
      ((settle S i false r).1 = none → ∃ y, (settle S i true r).2 = S.set i y ∧ (settle S i false r).2 = S ++ [y]) ∧
      ((settle S i false r).1 ≠ none → (settle S i false r).2 = S) := by
    rintro (e | y)
    · exact ⟨rfl, fun h => (by cases h), fun _ => rfl⟩
    · exact ⟨rfl, fun _ => ⟨y, rfl, rfl⟩, fun h => absurd rfl h⟩
  have hb : ∀ (x : FObj K) (ra rb : Except Err (Option (FObj K)) × FObj K), S[i]? = some x → rb.2 = x →
      ((∃ e, ra.1 = .error e ∧ rb.1 = .error e) ∨ (ra.1 = .ok none ∧ rb.1 = .ok (some ra.2))) →
      (settleBoth S i ra).1 = (settleBoth S i rb).1 ∧
      ((settleBoth S i rb).1 = none → ∃ y, (settleBoth S i ra).2 = S.set i y ∧ (settleBoth S i rb).2 = S ++ [y]) ∧
      ((settleBoth S i rb).1 ≠ none → (settleBoth S i rb).2 = S) := by
    rintro x ⟨ra, xa⟩ ⟨rb, xb⟩ hx rfl (⟨e, h1, h2⟩ | ⟨h1, h2⟩)
    · simp only at h1 h2 hx
      subst h1 h2
      exact ⟨rfl, fun h => (by cases h), fun _ => set_same hx⟩
    · simp only at h1 h2 hx
      subst h1 h2
      refine ⟨rfl, fun _ => ⟨xa, by simp [settleBoth], ?_⟩, fun h => absurd rfl h⟩
      simp [settleBoth, set_same hx]
  cases hab with
  | filter o keep filters =>
    simp only [fcall]
    split
    · exact ⟨rfl, fun h => (by cases h), fun _ => rfl⟩
    · obtain ⟨h1, h2, h3⟩ := hs (_ : Except Err (FObj K))
      exact ⟨h1, fun h => .inl (h2 h), h3⟩
  | rename mapping =>
    simp only [fcall]
    split
    · exact ⟨rfl, fun h => (by cases h), fun _ => rfl⟩
    · rename_i x hx
      obtain ⟨h1, h2, h3⟩ := hb x (x.renameCall mapping true) (x.renameCall mapping false) hx (rename_copy x mapping) (by
        unfold FObj.renameCall DFrame.rename
        generalize x.F.renameLoop mapping = r
        obtain ⟨e | e, G⟩ := r
        · exact .inl ⟨e, rfl, rfl⟩
        · exact .inr ⟨rfl, rfl⟩)
      exact ⟨h1, fun h => .inl (h2 h), h3⟩
  | convert o keep filters unit ctx =>
    simp only [fcall]
    split
    · exact ⟨rfl, fun h => (by cases h), fun _ => rfl⟩
    · rename_i x hx
      obtain ⟨h1, h2, h3⟩ := hb x (x.convertCall (env.conv unit ctx) o keep filters unit ctx true)
        (x.convertCall (env.conv unit ctx) o keep filters unit ctx false) hx (convert_copy _ x o keep filters unit ctx) (by
          unfold FObj.convertCall
          split
          · unfold DFrame.convertUnit
            generalize x.F.withContext.filter o keep filters = f
            cases f with
            | error e => exact .inl ⟨e, rfl, rfl⟩
            | ok T =>
              simp only
              generalize unitGroups T = g
              cases g with
              | error e => exact .inl ⟨e, rfl, rfl⟩
              | ok gs =>
                simp only
                generalize convertLoop (env.conv unit ctx) unit ctx gs x.F.withContext = r
                obtain ⟨e | e, G⟩ := r
                · exact .inl ⟨e, rfl, rfl⟩
                · exact .inr ⟨rfl, rfl⟩
          · generalize ({ x with F := x.F.withContext } : FObj K).filterCall o keep filters = f
            cases f with
            | error e => exact .inl ⟨e, rfl, rfl⟩
            | ok T => exact .inl ⟨_, rfl, rfl⟩)
      exact ⟨h1, fun h => .inl (h2 h), h3⟩
  | append others msg =>
    simp only [fcall]
    split
    · exact ⟨rfl, fun h => (by cases h), fun _ => rfl⟩
    · split
      · exact ⟨rfl, fun h => (by cases h), fun _ => rfl⟩
      · split
        · exact ⟨rfl, fun h => (by cases h), fun _ => rfl⟩
        · rename_i x hx hn r data hr
          refine ⟨rfl, fun _ => .inr ⟨⟨others, false, ?_⟩, rfl, rfl⟩, fun _ => rfl⟩
          have : msg = .ret := by
            unfold dfAppend at hr
            split at hr
            · cases hr
            · simp only at hr
              split at hr
              · cases hr
              · split at hr
                · split at hr
                  · rfl
                  · cases hr
                  · cases hr
                · cases hr
          rw [this]
        · obtain ⟨h1, h2, h3⟩ := hs (_ : Except Err (FObj K))
          exact ⟨h1, fun h => .inl (h2 h), h3⟩

/-! ## Cases -/

/-- Temperatures in K and degC, lengths in m. -/
def demoFEnv : FEnv ℚ :=
  { reg := tempReg, views := true, clock := noClock, conv := fun unit _ u => unitConv tempReg unit u }

/-- Two timeseries with three values each. -/
def twoSeries (s t u v : String) : FCall ℚ :=
  .array 2 [[.num 1, .num 10], [.num 3, .num 30], [.num 5, .num 50]] [0, 100, 200] [("model", .scalar (.str "m")), ("scenario", .list [.str s, .str t]),
    ("region", .scalar (.str "World")), ("variable", .scalar (.str "T")), ("unit", .list [.str u, .str v])] (by simp)

/-- Frames are made, filtered and converted in place, appended and resampled; times are assigned. -/
def demoCalls : List (FCall ℚ) :=
  [twoSeries "a" "b" "K" "mK", .copy 0, .filter 0 demoO true [("scenario", .val (.str "a"))] true,
    .convert 1 demoO true [] "K" .none true, .append 0 [1] .warn false, .rename 2 [("scenario", [("a", "c")])] true,
    .set 2 (.time [7, 8, 9]), .interpolate 2 [7, 9] .constant]

example : Unrefused demoFEnv FCall.SetsTime [] demoCalls :=
  ⟨fun _ => by decide +kernel, fun _ => by decide +kernel, fun _ => by decide +kernel, fun _ => by decide +kernel,
    fun _ => by decide +kernel, fun _ => by decide +kernel, fun _ => by decide +kernel, fun _ => by decide +kernel, trivial⟩

example : (fprogram demoFEnv [] demoCalls).map (fun x => (x.points, x.F.times)) =
    [([0, 100, 200], [0, 100, 200]), ([0, 100, 200], [0, 100, 200]), ([7, 8, 9], [7, 8, 9]), ([7, 9], [7, 9])] ∧
    (fprogram demoFEnv [] demoCalls).map (fun x => x.F.data) =
    [[(0, [.num 1, .num 3, .num 5])],
     [(0, [.num 1, .num 3, .num 5]), (1, [.num (1 / 100), .num (3 / 100), .num (5 / 100)])],
     [(0, [.num 1, .num 3, .num 5]), (1, [.num (1 / 100), .num (3 / 100), .num (5 / 100)])],
     [(0, [.num 1, .num 5]), (1, [.num (1 / 100), .num (5 / 100)])]] := by decide +kernel

example : FCall.Twins 0 (.filter 0 demoO true [("scenario", .val (.str "a"))] true) (.filter 0 demoO true [("scenario", .val (.str "a"))] false) ∧
    (fcall demoFEnv (fprogram demoFEnv [] [twoSeries "a" "b" "K" "mK"]) (.filter 0 demoO true [("scenario", .val (.str "a"))] true)).1 = none :=
  ⟨.filter .., by decide +kernel⟩

/-- C67 fails for refused assignments of times: afterwards `df["time"]` is the refused value, and the frame cannot be filtered
any more. -/
theorem C67_refused_time : ∃ x, (fcall demoFEnv (fprogram demoFEnv [] [twoSeries "a" "b" "K" "mK"]) (.set 0 (.time [7]))) = (some .valueError, [x]) ∧
    x.getItem "time" = .ok (.times [7]) ∧ x.F.times = [0, 100, 200] ∧
    (fcall demoFEnv [x] (.filter 0 demoO true [] false)).1 = some .assertion :=
  ⟨{ points := [7], F := { times := [0, 100, 200], cols := ["model", "scenario", "region", "variable", "unit"]
                           data := [(0, [.num 1, .num 3, .num 5]), (1, [.num 10, .num 30, .num 50])]
                           «meta» := [(0, [.str "m", .str "a", .str "World", .str "T", .str "K"]),
                             (1, [.str "m", .str "b", .str "World", .str "T", .str "mK"])] } }, by decide +kernel⟩

end Openscm
