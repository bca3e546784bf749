import Verif.FrameInterp

/-!
# C56: interpolating frames (proofs)
-/

set_option linter.unusedSectionVars false

namespace Openscm

variable {K : Type} [Field K] [LinearOrder K] [IsStrictOrderedRing K]

/-- The words for the two kinds of timeseries. -/
inductive KindWord : String → PType → Prop
  | average {w : String} : AnyCase w "average" → KindWord w .average
  | point {w : String} : AnyCase w "point" → KindWord w .point

/-! ## Facts -/

theorem kindWord_iff {w : String} {p : PType} : KindWord w p ↔ (TyArg.str w).parse = .ok p := by
  rw [C31_accepted]
  constructor
  · rintro (h | h)
    · exact .inl ⟨rfl, .inr ⟨w, rfl, h⟩⟩
    · exact .inr ⟨rfl, .inr ⟨w, rfl, h⟩⟩
  · rintro (⟨rfl, h | ⟨s, h, h'⟩⟩ | ⟨rfl, h | ⟨s, h, h'⟩⟩)
    · cases h
    · cases h; exact .average h'
    · cases h
    · cases h; exact .point h'

theorem KindWord.kind {w : String} {p : PType} (h : KindWord w p) : p = .average ∨ p = .point := by
  cases h
  · exact .inl rfl
  · exact .inr rfl

theorem groupAxes_ok {p : PType} {src tgt s t : List Int} (h : groupAxes p src tgt = .ok (s, t)) :
    (p = .average ∧ OneMore src s ∧ OneMore tgt t) ∨ (p ≠ .average ∧ s = src ∧ t = tgt) := by
  unfold groupAxes at h
  split at h
  · rename_i hp
    split at h
    · cases h
    · rename_i t' ht
      split at h
      · cases h
      · rename_i s' hs
        cases h
        exact .inl ⟨hp, extendPoints_ok hs, extendPoints_ok ht⟩
  · rename_i hp
    cases h
    exact .inr ⟨hp, rfl, rfl⟩

theorem convert_len {s t : List Int} {p : PType} {ext : Extrap} {c : TSConv K} {v w : List (Fl K)}
    (h : mkTSConv (toK s : List K) (toK t) p ext = .ok c) (hc : c.convertFrom v = .ok w) : w.length = pointsLength p t := by
  have := (C27_converter_length c v w).1 hc
  rw [this, mkTSConv_fields h]
  unfold TSConv.targetLength pointsLength toK
  cases p <;> simp

/-- Once the requested times have been extended, no further group fits. -/
theorem interpLoop_long {ext : Extrap} {F : DFrame K} {n : Nat} {k : String} {ks : List String} {tgt : List Int}
    {r : List (Nat × PType × List (Fl K))} (hn : n < tgt.length) (hg : groupRows F.cols F.meta k ≠ []) :
    interpLoop ext F n (k :: ks) tgt ≠ .ok r := by
  intro h
  simp only [interpLoop] at h
  split at h
  · cases h
  · rename_i p hp
    split at h
    · cases h
    · rename_i s t hst
      split at h
      · cases h
      · rename_i c hc
        split at h
        · cases h
        · rename_i vs hvs
          obtain ⟨h1, h2⟩ := convertGroup_ok hvs
          cases vs with
          | nil => exact hg h1.symm
          | cons x vs =>
            obtain ⟨hl, s', -, hcv⟩ := h2 x (by simp)
            have := convert_len hc hcv
            rw [hl] at this
            rcases groupAxes_ok hst with ⟨rfl, -, ht⟩ | ⟨hp', -, rfl⟩
            · have := ht.length
              simp only [pointsLength] at *
              omega
            · rcases (kindWord_iff.2 hp).kind with e | e
              · exact hp' e
              · subst e
                simp only [pointsLength] at this
                omega

theorem interpLoop_ok {ext : Extrap} {F : DFrame K} {ks : List String} {tgt : List Int} {r : List (Nat × PType × List (Fl K))}
    (hg : ∀ k ∈ ks, groupRows F.cols F.meta k ≠ []) (h : interpLoop ext F tgt.length ks tgt = .ok r) :
    (∀ x ∈ r, ∃ k ∈ ks, KindWord k x.2.1 ∧ x.1 ∈ groupRows F.cols F.meta k ∧ x.2.2.length = tgt.length ∧
      ∃ s, F.data.find? (fun s => s.1 = x.1) = some s ∧ Placed ext F.times tgt s.2 x.2.2 x.2.1) ∧
    (∀ k ∈ ks, ∀ l ∈ groupRows F.cols F.meta k, ∃ x ∈ r, x.1 = l) ∧
    (∀ k ∈ ks, ∃ p, KindWord k p) ∧
    ks.Pairwise (fun a _ => ¬ KindWord a .average) := by
  induction ks generalizing r with
  | nil => rw [← Except.ok.inj h]; simp
  | cons k ks ih =>
    simp only [interpLoop] at h
    split at h
    · cases h
    · rename_i p hp
      have hw := kindWord_iff.2 hp
      split at h
      · cases h
      · rename_i s t hst
        split at h
        · cases h
        · rename_i c hc
          split at h
          · cases h
          · rename_i vs hvs
            split at h
            · cases h
            · rename_i r' hr'
              obtain ⟨h1, h2⟩ := convertGroup_ok hvs
              have := (Except.ok.inj h).symm
              subst this
              have first : ∀ x ∈ vs.map (fun v => (v.1, p, v.2)), KindWord k x.2.1 ∧ x.1 ∈ groupRows F.cols F.meta k ∧
                  x.2.2.length = tgt.length ∧
                  ∃ s, F.data.find? (fun s => s.1 = x.1) = some s ∧ Placed ext F.times tgt s.2 x.2.2 x.2.1 := by
                intro x hx
                obtain ⟨v, hv, rfl⟩ := List.mem_map.1 hx
                obtain ⟨hl, s', hs', hcv⟩ := h2 v hv
                refine ⟨hw, h1 ▸ List.mem_map_of_mem hv, hl, s', hs', ?_⟩
                rcases groupAxes_ok hst with ⟨rfl, e1, e2⟩ | ⟨hp', rfl, rfl⟩
                · exact .average e1 e2 hc hcv
                · rcases hw.kind with e | e
                  · exact absurd e hp'
                  · subst e
                    exact .point hc hcv
              have found : ∀ l ∈ groupRows F.cols F.meta k, ∃ x ∈ vs.map (fun v => (v.1, p, v.2)) ++ r', x.1 = l := by
                intro l hl
                rw [← h1] at hl
                obtain ⟨v, hv, rfl⟩ := List.mem_map.1 hl
                exact ⟨_, List.mem_append_left _ (List.mem_map_of_mem hv), rfl⟩
              rcases groupAxes_ok hst with ⟨rfl, e1, e2⟩ | ⟨hp', rfl, rfl⟩
              · cases ks with
                | nil =>
                  have := (Except.ok.inj hr').symm
                  subst this
                  refine ⟨fun x hx => ⟨k, by simp, first x (by simpa using hx)⟩, ?_, ?_, by simp⟩
                  · intro k' hk'
                    rw [List.mem_singleton] at hk'
                    subst hk'
                    exact found
                  · intro k' hk'
                    rw [List.mem_singleton] at hk'
                    subst hk'
                    exact ⟨_, hw⟩
                | cons k2 ks =>
                  exact absurd hr' (interpLoop_long (by rw [e2.length]; omega) (hg k2 (by simp)))
              · obtain ⟨i1, i2, i3, i4⟩ := ih (fun k hk => hg k (by simp [hk])) hr'
                refine ⟨?_, ?_, ?_, ?_⟩
                · intro x hx
                  rcases List.mem_append.1 hx with hx | hx
                  · exact ⟨k, by simp, first x hx⟩
                  · obtain ⟨k', hk', h'⟩ := i1 x hx
                    exact ⟨k', by simp [hk'], h'⟩
                · intro k' hk' l hl
                  rcases List.mem_cons.1 hk' with rfl | hk'
                  · exact found l hl
                  · obtain ⟨x, hx, e⟩ := i2 k' hk' l hl
                    exact ⟨x, List.mem_append_right _ hx, e⟩
                · intro k' hk'
                  rcases List.mem_cons.1 hk' with rfl | hk'
                  · exact ⟨_, hw⟩
                  · exact i3 k' hk'
                · refine List.pairwise_cons.2 ⟨fun k' _ hk => ?_, i4⟩
                  rw [kindWord_iff, hp] at hk
                  exact hp' (Except.ok.inj hk)

theorem interpLoop_works {ext : Extrap} {F : DFrame K} {ks : List String} {tgt : List Int}
    (hp : ks.Pairwise (fun a _ => ¬ KindWord a .average))
    (hg : ∀ k ∈ ks, groupRows F.cols F.meta k ≠ [])
    (h : ∀ k ∈ ks, ∀ l ∈ groupRows F.cols F.meta k, ∃ p s v, KindWord k p ∧ F.data.find? (fun s => s.1 = l) = some s ∧
      Placed ext F.times tgt s.2 v p) :
    ∃ r, interpLoop ext F tgt.length ks tgt = .ok r := by
  induction ks with
  | nil => exact ⟨_, rfl⟩
  | cons k ks ih =>
    obtain ⟨l0, hl0⟩ := List.exists_mem_of_ne_nil _ (hg k (by simp))
    obtain ⟨p, s0, v0, hk, hs0, hpl⟩ := h k (by simp) l0 hl0
    have hparse := kindWord_iff.1 hk
    have uniq : ∀ {q}, KindWord k q → q = p := by
      intro q hq
      rw [kindWord_iff, hparse] at hq
      exact (Except.ok.inj hq).symm
    cases hpl with
    | @point c h1 h2 =>
      have hax : groupAxes .point F.times tgt = .ok (F.times, tgt) := rfl
      obtain ⟨vs, hvs⟩ : ∃ vs, convertGroup c tgt.length F.data (groupRows F.cols F.meta k) = .ok vs := by
        apply convertGroup_works
        intro l hl
        obtain ⟨q, s, v, hq, hs, hpq⟩ := h k (by simp) l hl
        have := uniq hq
        subst this
        cases hpq with
        | @point c' e1 e2 =>
          rw [h1] at e1
          have := Except.ok.inj e1
          subst this
          exact ⟨s, v, hs, e2, by rw [convert_len h1 e2]; rfl⟩
      obtain ⟨r, hr⟩ := ih (List.pairwise_cons.1 hp).2 (fun k hk => hg k (by simp [hk])) (fun k hk => h k (by simp [hk]))
      have h1' : mkTSConv (toK F.times : List K) (toK tgt) .point ext = .ok c := h1
      exact ⟨_, by simp only [interpLoop, hparse, hax, h1', hvs, hr]; rfl⟩
    | @average s t c o1 o2 h1 h2 =>
      have hax : groupAxes .average F.times tgt = .ok (s, t) := by
        simp [groupAxes, o1.extend, o2.extend]
      obtain ⟨vs, hvs⟩ : ∃ vs, convertGroup c tgt.length F.data (groupRows F.cols F.meta k) = .ok vs := by
        apply convertGroup_works
        intro l hl
        obtain ⟨q, s', v, hq, hs, hpq⟩ := h k (by simp) l hl
        have := uniq hq
        subst this
        cases hpq with
        | @average s2 t2 c' o1' o2' e1 e2 =>
          have a1 := o1'.extend
          rw [o1.extend] at a1
          have a2 := o2'.extend
          rw [o2.extend] at a2
          have := Except.ok.inj a1
          subst this
          have := Except.ok.inj a2
          subst this
          rw [h1] at e1
          have := Except.ok.inj e1
          subst this
          refine ⟨s', v, hs, e2, ?_⟩
          rw [convert_len h1 e2, pointsLength, o2.length]
          rfl
      have h1' : mkTSConv (toK s : List K) (toK t) .average ext = .ok c := h1
      cases ks with
      | nil => exact ⟨_, by simp only [interpLoop, hparse, hax, h1', hvs]; rfl⟩
      | cons k2 ks => exact absurd hk ((List.pairwise_cons.1 hp).1 k2 (by simp))

theorem HasMeta.unique {F : DFrame K} (hF : F.Ok) {i : Nat} {c : String} {v w : PyVal K} (h : F.HasMeta i c v)
    (h' : F.HasMeta i c w) : v = w := by
  obtain ⟨r, h1, -, h2⟩ := (hasMeta_iff hF).1 h
  obtain ⟨r', h1', -, h2'⟩ := (hasMeta_iff hF).1 h'
  rw [h1] at h1'
  have := Option.some.inj h1'
  subst this
  rw [← h2, ← h2']

theorem TypeIs.unique {reg : Registry K} {views : Bool} {F : DFrame K} (hF : F.Ok) {i : Nat} {v w : PyVal K}
    (h : TypeIs reg views F i v) (h' : TypeIs reg views F i w) : v = w := by
  have clash : ∀ {v : PyVal K}, F.HasMeta i "parameter_type" v → v ≠ .none →
      ("parameter_type" ∉ F.cols ∨ F.HasMeta i "parameter_type" .none) → False := by
    intro v h1 h2 h3
    rcases h3 with h3 | h3
    · exact h3 ((hasMeta_iff hF).1 h1).choose_spec.2.1
    · exact h2 (HasMeta.unique hF h1 h3)
  cases h with
  | given h1 h2 =>
    cases h' with
    | given h3 _ => exact HasMeta.unique hF h1 h3
    | guessed _ h3 _ _ => exact (clash h1 h2 h3).elim
    | guessedNoUnit _ h3 _ _ => exact (clash h1 h2 h3).elim
    | unknown _ h3 _ => exact (clash h1 h2 h3).elim
  | guessed e m n u =>
    cases h' with
    | given h3 h4 => exact (clash h3 h4 m).elim
    | guessed _ _ n' u' =>
      cases HasMeta.unique hF n n'; cases HasMeta.unique hF u u'; rfl
    | guessedNoUnit _ _ n' u' => cases HasMeta.unique hF u u'
    | unknown e' _ _ => rw [e] at e'; cases e'
  | guessedNoUnit e m n u =>
    cases h' with
    | given h3 h4 => exact (clash h3 h4 m).elim
    | guessed _ _ n' u' => cases HasMeta.unique hF u u'
    | guessedNoUnit _ _ n' u' => cases HasMeta.unique hF n n'; rfl
    | unknown e' _ _ => rw [e] at e'; cases e'
  | unknown e m _ =>
    cases h' with
    | given h3 h4 => exact (clash h3 h4 m).elim
    | guessed e' _ _ _ => rw [e] at e'; cases e'
    | guessedNoUnit e' _ _ _ => rw [e] at e'; cases e'
    | unknown _ _ _ => rfl

theorem pairwise_sorted {R : String → String → Prop} {ks : List String} (hR : ks.Pairwise R) (hs : ks.Pairwise (· ≤ ·))
    {a b : String} (ha : a ∈ ks) (hb : b ∈ ks) (h : a < b) : R a b := by
  induction ks with
  | nil => cases ha
  | cons k ks ih =>
    obtain ⟨r1, r2⟩ := List.pairwise_cons.1 hR
    obtain ⟨s1, s2⟩ := List.pairwise_cons.1 hs
    rcases List.mem_cons.1 ha with rfl | ha'
    · rcases List.mem_cons.1 hb with rfl | hb
      · exact absurd h (lt_irrefl _)
      · exact r1 b hb
    · rcases List.mem_cons.1 hb with rfl | hb
      · exact absurd h (not_lt.2 (s1 a ha'))
      · exact ih r2 s2 ha' hb

theorem mem_groupRows {cols : List String} {rows : List (Nat × List (PyVal K))} {k : String} {l : Nat} :
    l ∈ groupRows cols rows k ↔ ∃ (i : Nat) (r : Nat × List (PyVal K)), rows[i]? = some r ∧ r.1 = l ∧
      rowVal cols r.2 "parameter_type" = .str k := by
  simp only [groupRows, List.mem_map, List.mem_filter, decide_eq_true_eq]
  constructor
  · rintro ⟨r, ⟨h1, h2⟩, h3⟩
    obtain ⟨i, hi⟩ := List.getElem?_of_mem h1
    exact ⟨i, r, hi, h3, h2⟩
  · rintro ⟨i, r, h1, h2, h3⟩
    exact ⟨r, ⟨List.mem_of_getElem? h1, h3⟩, h2⟩

theorem nodup_pos {l : List Nat} (h : l.Nodup) {i j a : Nat} (hi : l[i]? = some a) (hj : l[j]? = some a) : i = j := by
  obtain ⟨h1, e1⟩ := List.getElem?_eq_some_iff.1 hi
  obtain ⟨h2, e2⟩ := List.getElem?_eq_some_iff.1 hj
  exact (h.getElem_inj_iff).1 (e1.trans e2.symm)

theorem find?_label {data : List (Nat × List (Fl K))} (hn : (data.map (·.1)).Nodup) {i : Nat} {s : Nat × List (Fl K)}
    (h : data[i]? = some s) : data.find? (fun x => x.1 = s.1) = some s := by
  cases hf : data.find? (fun x => x.1 = s.1) with
  | none =>
    have := List.find?_eq_none.1 hf s (List.mem_of_getElem? h)
    simp at this
  | some x =>
    have e := List.find?_some hf
    simp only [decide_eq_true_eq] at e
    obtain ⟨j, hj⟩ := List.getElem?_of_mem (List.mem_of_find?_eq_some hf)
    have := nodup_pos hn (i := i) (j := j) (a := s.1) (by simp [h]) (by simp [hj, e])
    subst this
    rw [h] at hj
    exact hj.symm

/-! ## C56 -/

/-- What a call that succeeds has gone through. -/
theorem interpolate_parts {reg : Registry K} {views : Bool} {F G : DFrame K} {target : List Int} {ext : Extrap}
    (h : F.interpolate reg views target ext = .ok G) :
    ∃ rows ks new, (if views then guessAll reg F.withType.cols F.withType.meta else .ok F.withType.meta) = .ok rows ∧
      groupKeys (rows.map fun r => rowVal F.withType.cols r.2 "parameter_type") = .ok ks ∧
      interpLoop ext { F.withType with «meta» := rows } target.length ks target = .ok new ∧
      G = { times := target, cols := F.withType.cols
            data := F.withType.data.map fun s => (s.1, match new.find? fun x => x.1 = s.1 with
              | some x => x.2.2
              | none => target.map fun _ => Fl.nan)
            «meta» := rows.map fun r => (r.1, match new.find? fun x => x.1 = r.1 with
              | some x => r.2.set (F.withType.cols.idxOf "parameter_type") (.str (typeText x.2.1))
              | none => r.2) } := by
  unfold DFrame.interpolate at h
  simp only at h
  split at h
  · cases h
  · rename_i rows h1
    split at h
    · cases h
    · rename_i ks h2
      split at h
      · cases h
      · rename_i new h3
        exact ⟨rows, ks, new, h1, h2, h3, (Except.ok.inj h).symm⟩

theorem groups_nonempty {cols : List String} {rows : List (Nat × List (PyVal K))} {ks : List String}
    (h : groupKeys (rows.map fun r => rowVal cols r.2 "parameter_type") = .ok ks) :
    ∀ k ∈ ks, groupRows cols rows k ≠ [] := by
  intro k hk
  obtain ⟨r, hr, e⟩ := List.mem_map.1 (((groupKeys_ok h).1 k).1 hk)
  obtain ⟨i, hi⟩ := List.getElem?_of_mem hr
  exact List.ne_nil_of_mem (mem_groupRows.2 ⟨i, r, hi, rfl, e⟩)

/-- C56, for calls that succeed: every timeseries that has a type is on the requested times. Timeseries whose type is
missing have no values left and stay without type. Calls with averages before other types never succeed (`C56_refused`). -/
theorem C56_placed_partial {reg : Registry K} {views : Bool} {F G : DFrame K} {target : List Int} {ext : Extrap}
    (hF : F.Ok) (hr : ∀ c ∈ requiredCols, c ∈ F.cols) (h : F.interpolate reg views target ext = .ok G) :
    G.Ok ∧ G.times = target ∧ G.data.map (·.1) = F.data.map (·.1) ∧
    (∀ i c v, c ≠ "parameter_type" → (G.HasMeta i c v ↔ F.HasMeta i c v)) ∧
    ∀ i old, F.data[i]? = some old → ∃ new, G.data[i]? = some new ∧
      ((∃ w p, TypeIs reg views F i (.str w) ∧ KindWord w p ∧ G.HasMeta i "parameter_type" (.str (typeText p)) ∧
          Placed ext F.times target old.2 new.2 p) ∨
       (∃ v, TypeIs reg views F i v ∧ v.isNull = true ∧ G.HasMeta i "parameter_type" v ∧
          new.2 = target.map fun _ => Fl.nan)) := by
  obtain ⟨rows, ks, new, h1, h2, h3, rfl⟩ := interpolate_parts h
  obtain ⟨t1, t2, t3, t4⟩ := typed_rows hF hr h1
  obtain ⟨k1, k2, k3, k4⟩ := groupKeys_ok h2
  have hne := groups_nonempty h2
  obtain ⟨l1, l2, l3, l4⟩ := interpLoop_ok (F := { F.withType with «meta» := rows }) hne h3
  have hT := withType_ok hF
  have hpc : "parameter_type" ∈ F.withType.cols := (withType_cols hr).2 (.inr rfl)
  have hnd : (rows.map (·.1)).Nodup := by rw [t1, ← hF.labels]; exact hF.nodup
  -- the entry found for the label of row `i`
  have entry : ∀ (i : Nat) (r : Nat × List (PyVal K)) (x : Nat × PType × List (Fl K)), rows[i]? = some r → new.find? (fun x => x.1 = r.1) = some x →
      ∃ k, rowVal F.withType.cols r.2 "parameter_type" = .str k ∧ KindWord k x.2.1 ∧ x.2.2.length = target.length ∧
        ∃ s, F.withType.data.find? (fun s => s.1 = r.1) = some s ∧ Placed ext F.times target s.2 x.2.2 x.2.1 := by
    intro i r x hi hx
    have ex := List.find?_some hx
    simp only [decide_eq_true_eq] at ex
    obtain ⟨k, hk, hw, hg, hlen, s, hs, hp⟩ := l1 x (List.mem_of_find?_eq_some hx)
    obtain ⟨j, r', hj, e, e'⟩ := mem_groupRows.1 hg
    simp only at hj e e' hs hp
    have := nodup_pos hnd (i := i) (j := j) (a := r.1) (by simp [hi]) (by simp [hj, e, ex])
    subst this
    rw [hi] at hj
    have := Option.some.inj hj
    subst this
    rw [(withType_data F).2.1] at hp
    rw [ex] at hs
    exact ⟨k, e', hw, hlen, s, hs, hp⟩
  have rowsT : rows.map (·.1) = F.withType.data.map (·.1) := by rw [t1, ← hF.labels, (withType_data F).1]
  have hOk : DFrame.Ok (K := K) { times := target, cols := F.withType.cols
                                  data := F.withType.data.map fun s => (s.1, match new.find? fun x => x.1 = s.1 with
                                    | some x => x.2.2
                                    | none => target.map fun _ => Fl.nan)
                                  «meta» := rows.map fun r => (r.1, match new.find? fun x => x.1 = r.1 with
                                    | some x => r.2.set (F.withType.cols.idxOf "parameter_type") (.str (typeText x.2.1))
                                    | none => r.2) } := by
    refine ⟨?_, ?_, hT.cols_nodup, ?_, ?_⟩
    · simp only [List.map_map, Function.comp_def]
      exact rowsT.symm
    · simp only [List.map_map, Function.comp_def]
      exact hT.nodup
    · intro d hd
      obtain ⟨s, hs, rfl⟩ := List.mem_map.1 hd
      simp only
      split
      · rename_i x hx
        have ex := List.find?_some hx
        obtain ⟨k, hk, hw, hg, hlen, -⟩ := l1 x (List.mem_of_find?_eq_some hx)
        exact hlen
      · simp
    · intro d hd
      obtain ⟨r, hr', rfl⟩ := List.mem_map.1 hd
      simp only
      split
      · simp [t2 r hr']
      · exact t2 r hr'
  refine ⟨hOk, rfl, ?_, ?_, ?_⟩
  · simp only [List.map_map, Function.comp_def]
    rw [(withType_data F).1]
  · intro i c v hc
    rw [hasMeta_iff hOk]
    simp only [List.getElem?_map, Option.map_eq_some_iff]
    constructor
    · rintro ⟨r', ⟨r, hi, rfl⟩, hcc, hv⟩
      refine (t3 i r hi c v hc).1 ⟨?_, ?_⟩
      · rcases (withType_cols hr).1 hcc with h' | h'
        · exact h'
        · exact absurd h' hc
      · rw [← hv]
        simp only
        split
        · rw [rowVal_set (t2 r (List.mem_of_getElem? hi)) hpc, if_neg hc]
        · rfl
    · intro hm
      obtain ⟨r0, hr0, hc0, -⟩ := (hasMeta_iff hF).1 hm
      have hlt : i < rows.length := by
        have e := congrArg List.length t1
        simp only [List.length_map] at e
        have := (List.getElem?_eq_some_iff.1 hr0).1
        omega
      have hi : rows[i]? = some rows[i] := List.getElem?_eq_getElem hlt
      refine ⟨_, ⟨rows[i], hi, rfl⟩, (withType_cols hr).2 (.inl hc0), ?_⟩
      have := ((t3 i _ hi c v hc).2 hm).2
      rw [← this]
      simp only
      split
      · rw [rowVal_set (t2 _ (List.mem_of_getElem? hi)) hpc, if_neg hc]
      · rfl
  · intro i old hold
    have hlt : i < rows.length := by
      have e := congrArg List.length rowsT
      simp only [List.length_map, (withType_data F).1] at e
      have := (List.getElem?_eq_some_iff.1 hold).1
      omega
    have hi : rows[i]? = some rows[i] := List.getElem?_eq_getElem hlt
    generalize rows[i] = r at hi
    have hlab : r.1 = old.1 := by
      have a : (rows.map (·.1))[i]? = some r.1 := by simp [hi]
      rw [rowsT, (withType_data F).1] at a
      simp only [List.getElem?_map, hold, Option.map_some, Option.some.injEq] at a
      exact a.symm
    have hfind : F.withType.data.find? (fun s => s.1 = r.1) = some old := by
      rw [(withType_data F).1, hlab]
      exact find?_label hF.nodup hold
    have hty := t4 i r hi
    cases hx : new.find? (fun x => x.1 = r.1) with
    | some x =>
      obtain ⟨k, hk, hw, hlen, s, hs, hp⟩ := entry i r x hi hx
      rw [hfind] at hs
      have := Option.some.inj hs
      subst this
      refine ⟨(old.1, x.2.2), ?_, .inl ⟨k, x.2.1, hk ▸ hty, hw, ?_, hp⟩⟩
      · simp only [List.getElem?_map, (withType_data F).1, hold, Option.map_some]
        rw [← hlab, hx]
      · rw [hasMeta_iff hOk]
        refine ⟨_, by simp only [List.getElem?_map, hi, Option.map_some]; rfl, hpc, ?_⟩
        simp only [hx]
        rw [rowVal_set (t2 r (List.mem_of_getElem? hi)) hpc, if_pos rfl]
    | none =>
      refine ⟨(old.1, target.map fun _ => Fl.nan), ?_, .inr ⟨_, hty, ?_, ?_, rfl⟩⟩
      · simp only [List.getElem?_map, (withType_data F).1, hold, Option.map_some]
        rw [← hlab, hx]
      · by_contra hnull
        obtain ⟨k, hk⟩ := k4 _ (List.mem_map_of_mem (List.mem_of_getElem? hi)) (by simpa using hnull)
        have hks : k ∈ ks := (k1 k).2 (hk ▸ List.mem_map_of_mem (List.mem_of_getElem? hi))
        obtain ⟨x, hx1, hx2⟩ := l2 k hks r.1 (mem_groupRows.2 ⟨i, r, hi, rfl, hk⟩)
        have := List.find?_eq_none.1 hx x hx1
        simp [hx2] at this
      · rw [hasMeta_iff hOk]
        refine ⟨_, by simp only [List.getElem?_map, hi, Option.map_some]; rfl, hpc, ?_⟩
        simp only [hx]

/-- C56 fails: no call succeeds if there is an average and a type that comes after it in the alphabet. -/
theorem C56_refused {reg : Registry K} {views : Bool} {F G : DFrame K} {target : List Int} {ext : Extrap}
    (hF : F.Ok) (hr : ∀ c ∈ requiredCols, c ∈ F.cols) {i j : Nat} {a b : String}
    (hi : TypeIs reg views F i (.str a)) (hj : TypeIs reg views F j (.str b)) (ha : AnyCase a "average") (hab : a < b) :
    F.interpolate reg views target ext ≠ .ok G := by
  intro h
  obtain ⟨rows, ks, new, h1, h2, h3, -⟩ := interpolate_parts h
  obtain ⟨t1, t2, t3, t4⟩ := typed_rows hF hr h1
  obtain ⟨k1, k2, k3, k4⟩ := groupKeys_ok h2
  obtain ⟨-, -, -, l4⟩ := interpLoop_ok (F := { F.withType with «meta» := rows }) (groups_nonempty h2) h3
  have bound : ∀ {i v}, TypeIs reg views F i v → i < rows.length := by
    intro i v hv
    have e := congrArg List.length t1
    simp only [List.length_map] at e
    have hm : ∀ {c w}, F.HasMeta i c w → i < rows.length := by
      rintro c w ⟨_, _, -, h2, -⟩
      have := (List.getElem?_eq_some_iff.1 h2).1
      omega
    cases hv with
    | given h1 _ => exact hm h1
    | guessed _ _ h1 _ => exact hm h1
    | guessedNoUnit _ _ h1 _ => exact hm h1
    | unknown _ _ h1 => omega
  have key : ∀ {i w}, TypeIs reg views F i (.str w) → w ∈ ks := by
    intro i w hw
    have hlt := bound hw
    rw [k1]
    have := t4 i rows[i] (List.getElem?_eq_getElem hlt)
    rw [hw.unique hF this]
    exact List.mem_map_of_mem (List.getElem_mem hlt)
  exact pairwise_sorted l4 k2 (key hi) (key hj) hab (.average ha)

/-- C56 fails for frames whose types are guessed or given in small letters: both kinds together never succeed. -/
theorem C56_mixed {reg : Registry K} {views : Bool} {F G : DFrame K} {target : List Int} {ext : Extrap}
    (hF : F.Ok) (hr : ∀ c ∈ requiredCols, c ∈ F.cols) {i j : Nat}
    (hi : TypeIs reg views F i (.str "average")) (hj : TypeIs reg views F j (.str "point")) :
    F.interpolate reg views target ext ≠ .ok G :=
  C56_refused hF hr hi hj ((toLower_anyCase (by decide)).1 (by decide +kernel)) (by decide +kernel)

/-- C56: the calls that succeed. Every timeseries has a type and can be converted, and no average comes before
another type in the alphabet. -/
theorem C56_works {reg : Registry K} {views : Bool} {F : DFrame K} {target : List Int} {ext : Extrap}
    (hF : F.Ok) (hr : ∀ c ∈ requiredCols, c ∈ F.cols)
    (ht : ∀ i old, F.data[i]? = some old → ∃ w p new, TypeIs reg views F i (.str w) ∧ KindWord w p ∧
      Placed ext F.times target old.2 new p)
    (ho : ∀ i j a b, TypeIs reg views F i (.str a) → TypeIs reg views F j (.str b) → AnyCase a "average" → ¬ a < b) :
    ∃ G, F.interpolate reg views target ext = .ok G := by
  have hT := withType_ok hF
  have hpc : "parameter_type" ∈ F.withType.cols := (withType_cols hr).2 (.inr rfl)
  have hlen : F.data.length = F.meta.length := by
    have := congrArg List.length hF.labels
    simpa using this
  have hlenT : F.withType.meta.length = F.meta.length := by
    have := congrArg List.length (withType_data F).2.2
    simpa using this
  have known : ∀ i, i < F.meta.length → ∃ w, TypeIs reg views F i (.str w) := by
    intro i hi
    obtain ⟨w, p, new, h, -⟩ := ht i F.data[i] (List.getElem?_eq_getElem (by omega))
    exact ⟨w, h⟩
  -- types can be guessed
  obtain ⟨rows, h1⟩ : ∃ rows, (if views then guessAll reg F.withType.cols F.withType.meta else .ok F.withType.meta) = .ok rows := by
    cases hv : views with
    | false => exact ⟨_, rfl⟩
    | true =>
      rw [if_pos rfl]
      have each : ∀ r ∈ F.withType.meta, ∃ row, guessRow reg F.withType.cols r.2 = .ok row := by
        intro r hr'
        obtain ⟨i, hi⟩ := List.getElem?_of_mem hr'
        have hlt := (List.getElem?_eq_some_iff.1 hi).1
        have val : ∀ {c v}, F.withType.HasMeta i c v → rowVal F.withType.cols r.2 c = v := by
          intro c v h
          obtain ⟨r', e1, -, e2⟩ := (hasMeta_iff hT).1 h
          rw [hi] at e1
          have := Option.some.inj e1
          subst this
          exact e2
        obtain ⟨w, hw⟩ := known i (by omega)
        have none' : ("parameter_type" ∉ F.cols ∨ F.HasMeta i "parameter_type" .none) →
            rowVal F.withType.cols r.2 "parameter_type" = .none := by
          rintro (h | h)
          · exact val ((withType_hasMeta hF hr).2 (.inr ⟨rfl, h, rfl, by omega⟩))
          · exact val ((withType_hasMeta hF hr).2 (.inl h))
        generalize hx : PyVal.str (K := K) w = x at hw
        cases hw with
        | given h1 h2 =>
          have := val ((withType_hasMeta hF hr).2 (.inl h1))
          unfold guessRow
          rw [this, ← hx]
          exact ⟨_, rfl⟩
        | guessed _ h1 h2 h3 =>
          unfold guessRow
          rw [none' h1, val ((withType_hasMeta hF hr).2 (.inl h2)), val ((withType_hasMeta hF hr).2 (.inl h3))]
          exact ⟨_, rfl⟩
        | guessedNoUnit _ h1 h2 h3 =>
          unfold guessRow
          rw [none' h1, val ((withType_hasMeta hF hr).2 (.inl h2)), val ((withType_hasMeta hF hr).2 (.inl h3))]
          exact ⟨_, rfl⟩
        | unknown => cases hx
      clear known ht ho
      generalize F.withType.meta = l at each
      induction l with
      | nil => exact ⟨_, rfl⟩
      | cons r l ih =>
        obtain ⟨row, hrow⟩ := each r (by simp)
        obtain ⟨rows, hrows⟩ := ih fun r hr => each r (by simp [hr])
        exact ⟨_, by simp only [guessAll, hrow, hrows]; rfl⟩
  obtain ⟨t1, t2, t3, t4⟩ := typed_rows hF hr h1
  have hrl : rows.length = F.meta.length := by
    have := congrArg List.length t1
    simpa using this
  have word : ∀ i r, rows[i]? = some r → ∃ w, rowVal F.withType.cols r.2 "parameter_type" = .str w ∧ TypeIs reg views F i (.str w) := by
    intro i r hi
    have hlt := (List.getElem?_eq_some_iff.1 hi).1
    obtain ⟨w, hw⟩ := known i (by omega)
    exact ⟨w, (t4 i r hi).unique hF hw, hw⟩
  obtain ⟨ks, h2⟩ : ∃ ks, groupKeys (rows.map fun r => rowVal F.withType.cols r.2 "parameter_type") = .ok ks := by
    unfold groupKeys
    rw [if_pos]
    · exact ⟨_, rfl⟩
    · rw [List.all_eq_true]
      intro v hv
      obtain ⟨r, hr', rfl⟩ := List.mem_map.1 hv
      obtain ⟨i, hi⟩ := List.getElem?_of_mem hr'
      obtain ⟨w, hw, -⟩ := word i r hi
      simp [hw]
  obtain ⟨k1, k2, k3, k4⟩ := groupKeys_ok h2
  have wordOf : ∀ k ∈ ks, ∃ i, TypeIs reg views F i (.str k) := by
    intro k hk
    obtain ⟨r, hr', e⟩ := List.mem_map.1 ((k1 k).1 hk)
    obtain ⟨i, hi⟩ := List.getElem?_of_mem hr'
    exact ⟨i, e ▸ t4 i r hi⟩
  have pw : ks.Pairwise (fun a _ => ¬ KindWord a .average) := by
    refine (List.Pairwise.and_mem.1 (k2.and k3)).imp ?_
    rintro a b ⟨ha, hb, hle, hne⟩ hk
    obtain ⟨i, hi⟩ := wordOf a ha
    obtain ⟨j, hj⟩ := wordOf b hb
    cases hk with
    | average hk => exact ho i j a b hi hj hk (lt_of_le_of_ne hle hne)
  obtain ⟨new, h3⟩ := interpLoop_works (ext := ext) (F := { F.withType with «meta» := rows }) (tgt := target) pw
    (groups_nonempty h2) (by
      intro k hk l hl
      obtain ⟨i, r, hi, e1, e2⟩ := mem_groupRows.1 hl
      simp only at hi e2
      have hlt : i < F.data.length := by
        have := (List.getElem?_eq_some_iff.1 hi).1
        omega
      have hd := List.getElem?_eq_getElem hlt
      obtain ⟨w, p, v, hw, hkw, hp⟩ := ht i _ hd
      have := (e2 ▸ t4 i r hi : TypeIs reg views F i (.str k)).unique hF hw
      cases this
      have hlab : r.1 = F.data[i].1 := by
        have a : (rows.map (·.1))[i]? = some r.1 := by simp [hi]
        rw [t1, ← hF.labels] at a
        simp only [List.getElem?_map, hd, Option.map_some, Option.some.injEq] at a
        exact a.symm
      refine ⟨p, F.data[i], v, hkw, ?_, ?_⟩
      · rw [(withType_data F).1, ← e1, hlab]
        exact find?_label hF.nodup hd
      · simp only [(withType_data F).2.1]
        exact hp)
  exact ⟨_, by unfold DFrame.interpolate; simp only [h1, h2, h3]; rfl⟩

/-- C56: on its own times a point timeseries keeps its values. -/
theorem C56_same_times {ext : Extrap} {ts : List Int} {vs : List K} {new : List (Fl K)} (h3 : 3 ≤ vs.length)
    (hl : ts.length = vs.length) (hs : ts.Pairwise (· < ·)) (h : Placed ext ts ts (vs.map .num) new .point) :
    new = vs.map .num := by
  cases h with
  | @point c h1 h2 =>
    have hc := mkTSConv_fields h1
    have := (C22_converter_identity c vs h3 (by rw [hc]) (by rw [hc]; exact .inl rfl)
      (by rw [hc]; simp [TSConv.targetLength, pointsLength, hl])
      (by rw [hc]; simp only; rw [List.pairwise_map]; exact hs.imp (fun h => by exact_mod_cast h))).1
    rw [h2] at this
    exact Except.ok.inj this

/-! ## Examples -/

/-- A frame with the given types and three values each. -/
def typedF (types : List (PyVal ℚ)) : DFrame ℚ :=
  { times := [0, 10, 20], cols := ["model", "scenario", "region", "variable", "unit", "parameter_type"]
    data := (List.range types.length).map fun i => (i, [.num 1, .num 2, .num 4])
    «meta» := (List.range types.length).map fun i =>
      (i, [.str "m", .str "s", .str "World", .str "Surface Temperature", .str "K", types.getD i .none]) }

theorem typedF_ok : (typedF [.str "point", .str "average"]).Ok :=
  ⟨by decide +kernel, by decide +kernel, by decide +kernel, by decide +kernel, by decide +kernel⟩

example (G : DFrame ℚ) (target : List Int) (ext : Extrap) :
    (typedF [.str "point", .str "average"]).interpolate (fun _ => none) true target ext ≠ .ok G :=
  C56_mixed (i := 1) (j := 0) typedF_ok (by decide) (.given ⟨5, _, rfl, rfl, rfl⟩ (by simp))
    (.given ⟨5, _, rfl, rfl, rfl⟩ (by simp))

/-- What a call returned. -/
def dataOf (r : Except Err (DFrame ℚ)) : Option (List (Nat × List (Fl ℚ))) :=
  match r with
  | .ok G => some G.data
  | .error _ => none

def errOf (r : Except Err (DFrame ℚ)) : Option Err :=
  match r with
  | .ok _ => none
  | .error e => some e

example : dataOf ((typedF [.none, .str "Point"]).interpolate (fun _ => none) true [0, 5, 15, 30] .linear) =
    some [(0, [.num 1, .num (3 / 2), .num 3, .num 6]), (1, [.num 1, .num (3 / 2), .num 3, .num 6])] := by decide +kernel

example : dataOf ((typedF [.none, .str "point"]).interpolate (fun _ => none) false [0, 10, 20] .linear) =
    some [(0, [.nan, .nan, .nan]), (1, [.num 1, .num 2, .num 4])] := by decide +kernel

example : dataOf ((typedF [.str "average", .str "average"]).interpolate (fun _ => none) true [0, 10, 20] .constant) =
    some [(0, [.num 1, .num 2, .num 4]), (1, [.num 1, .num 2, .num 4])] := by decide +kernel

/-- Both kinds: refused, unless "POINT" is written so that it comes first. -/
example : errOf ((typedF [.str "point", .str "average"]).interpolate (fun _ => none) true [0, 10, 20] .constant) =
      some .valueError ∧
    dataOf ((typedF [.str "POINT", .str "average"]).interpolate (fun _ => none) true [0, 10, 20] .constant) =
      some [(0, [.num 1, .num 2, .num 4]), (1, [.num 1, .num 2, .num 4])] := by decide +kernel

end Openscm
