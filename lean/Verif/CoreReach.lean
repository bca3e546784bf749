import Verif.CoreSpec

/-!
# Requesting parameters by name

Helper file: what `_get_or_create_region` and `_get_or_create_parameter` find, create and refuse.
-/

set_option linter.unusedSectionVars false

namespace Openscm
variable {K G : Type} [Field K] [LinearOrder K] [IsStrictOrderedRing K]

/-! ## Walking along what exists -/

theorem subregion_found {s : St K G} {r c : Nat} {R : Region} {n : String}
    (hr : s.regions[r]? = some R) (hc : R.children.lookup n = some c) :
    subregion r n s = (.ok c, s) := by
  unfold subregion; simp only [hr, hc]

theorem walkRegions_find {s : St K G} {r c : Nat} {ns : List String}
    (h : findSubregion s r ns = some c) : walkRegions r ns s = (.ok c, s) := by
  induction ns generalizing r with
  | nil => simp only [findSubregion, Option.some.injEq] at h; subst h; rfl
  | cons n ns ih =>
    simp only [findSubregion] at h
    cases hr : s.regions[r]? with
    | none => simp [hr] at h
    | some R =>
      cases hl : R.children.lookup n with
      | none => simp [hr, hl] at h
      | some d =>
        simp only [hr, hl] at h
        rw [walkRegions, M.bind_ok (subregion_found hr hl)]
        exact ih h

theorem childParam_found {s : St K G} {p c : Nat} {P : Param K G} {n : String}
    (hp : s.params[p]? = some P) (hc : P.children.lookup n = some c) :
    childParam p n s = (.ok c, s) := by
  unfold childParam; simp only [hp, hc]

theorem walkParams_find {s : St K G} {p c : Nat} {ns : List String}
    (h : findSubparam s p ns = some c) : walkParams p ns s = (.ok c, s) := by
  induction ns generalizing p with
  | nil => simp only [findSubparam, Option.some.injEq] at h; subst h; rfl
  | cons n ns ih =>
    simp only [findSubparam] at h
    cases hr : s.params[p]? with
    | none => simp [hr] at h
    | some R =>
      cases hl : R.children.lookup n with
      | none => simp [hr, hl] at h
      | some d =>
        simp only [hr, hl] at h
        rw [walkParams, M.bind_ok (childParam_found hr hl)]
        exact ih h

theorem walkParams_append (p : Nat) (a b : List String) (s : St K G) :
    walkParams p (a ++ b) s = (walkParams p a >>= fun c => walkParams c b) s := by
  induction a generalizing p s with
  | nil => rfl
  | cons n a ih =>
    rw [List.cons_append, walkParams, walkParams, M.bind_apply, M.bind_apply, M.bind_apply]
    cases h : childParam p n s with
    | mk r s' =>
      cases r with
      | error e => rfl
      | ok c =>
        simp only []
        rw [ih, M.bind_apply]

theorem getOrCreateRegion_find {s : St K G} (t : Tree s) {region : HName} {r : Nat}
    (h : RName s r region.parts) : getOrCreateRegion region s = (.ok r, s) := by
  have hf := (findRegion_name t region h.ne_nil r).2 h
  unfold findRegion at hf
  unfold getOrCreateRegion
  cases hp : region.parts with
  | nil => exact absurd hp h.ne_nil
  | cons n ns =>
    obtain ⟨R, h0, _⟩ := t.root
    simp only [hp, h0] at hf
    have e1 : M.look (fun s : St K G => s.regions[0]?) s = (.ok R, s) := look_some h0
    simp only [M.bind_ok e1]
    by_cases hn : n ≠ R.name
    · rw [if_pos hn] at hf; simp at hf
    · rw [if_neg hn] at hf
      rw [if_neg hn]
      injection hf with hf
      exact walkRegions_find hf

/-- A request below an existing parameter starts walking at that parameter. -/
theorem reach_existing {s : St K G} (t : Tree s) {name region : HName} {p : Nat}
    {pre ns : List String} (hk : HasKey s p (region.parts, pre)) (hn : name.parts = pre ++ ns) :
    reach name region s = walkParams p ns s := by
  obtain ⟨P, hp, hr, hpn⟩ := id hk
  show (getOrCreateRegion region >>= fun r => getOrCreateParam name r) s = _
  rw [M.bind_ok (getOrCreateRegion_find t hr)]
  have hne := hpn.ne_nil
  cases hpre : pre with
  | nil => exact absurd hpre hne
  | cons m ms =>
    subst hpre
    unfold getOrCreateParam
    rw [hn]
    simp only [List.cons_append]
    have hf := (findParam_name t hr (.seq (m :: ms)) (by simp [HName.truthy]) (by simp [HName.parts])
      p).2 hk
    unfold findParam at hf
    rw [if_pos (by simp [HName.truthy])] at hf
    simp only [HName.parts] at hf
    obtain ⟨R, hR⟩ := hr.valid
    simp only [hR] at hf
    cases hl : R.params.lookup m with
    | none => simp [hl] at hf
    | some q =>
      simp only [hl] at hf
      injection hf with hf
      have e1 : rootParam P.region m s = (.ok q, s) := by unfold rootParam; simp only [hR, hl]
      rw [M.bind_ok e1, walkParams_append, M.bind_ok (walkParams_find hf)]

/-- A parameter without child `n` that has been viewed or written refuses to grow one. -/
theorem walkParams_refused {s : St K G} {p : Nat} {P : Param K G} {n : String} {ns : List String}
    (hp : s.params[p]? = some P) (hc : P.children.lookup n = none) (hr : P.readFrom = true) :
    walkParams p (n :: ns) s =
      (.error (if P.written then .parameterWritten else .parameterRead), s) := by
  rw [walkParams]
  refine M.bind_error ?_
  unfold childParam
  simp only [hp, hc]
  by_cases hw : P.written = true
  · rw [if_pos hw, if_pos hw]
  · rw [if_neg hw, if_neg hw, if_pos hr]

/-! ## What is created -/

/-- A parameter that nobody has viewed yet. -/
def Fresh (s : St K G) (p : Nat) : Prop :=
  ∃ P, s.params[p]? = some P ∧ P.children = [] ∧ P.written = false ∧ P.readFrom = false

theorem childParam_cases (p : Nat) (n : String) (s : St K G) :
    (s.params[p]? = none ∧ childParam p n s = (.error .badHandle, s)) ∨
    (∃ P, s.params[p]? = some P ∧
      ((∃ c, P.children.lookup n = some c ∧ childParam p n s = (.ok c, s)) ∨
       (P.children.lookup n = none ∧ P.written = true ∧
        childParam p n s = (.error .parameterWritten, s)) ∨
       (P.children.lookup n = none ∧ P.written = false ∧ P.readFrom = true ∧
        childParam p n s = (.error .parameterRead, s)) ∨
       (P.children.lookup n = none ∧ P.written = false ∧ P.readFrom = false ∧
        ∃ s', childParam p n s = (.ok s.params.length, s') ∧ Prim (K := K) ⟨fun _ => none, fun _ => 0⟩ s [] s' ∧
          s'.params.length = s.params.length + 1 ∧ Fresh s' s.params.length ∧
          s' = { s with
            params := s.params.modify p
              (fun P => { P with children := P.children ++ [(n, s.params.length)] })
              ++ [newParam n P.region (some p)] }))) := by
  unfold childParam
  cases hp : s.params[p]? with
  | none => exact Or.inl ⟨rfl, rfl⟩
  | some P =>
    refine Or.inr ⟨P, rfl, ?_⟩
    simp only
    cases hl : P.children.lookup n with
    | some c => exact Or.inl ⟨c, rfl, rfl⟩
    | none =>
      simp only
      cases hw : P.written with
      | true => exact Or.inr (Or.inl ⟨trivial, rfl, rfl⟩)
      | false =>
        cases hr : P.readFrom with
        | true => exact Or.inr (Or.inr (Or.inl ⟨trivial, rfl, rfl, rfl⟩))
        | false =>
          refine Or.inr (Or.inr (Or.inr ⟨trivial, rfl, rfl, _, rfl, .addChild s p P n hp hl hw hr,
            by simp, ⟨newParam n P.region (some p), ?_, rfl, rfl, rfl⟩, rfl⟩))
          simp

/-- Below a fresh parameter nothing is refused. -/
theorem walkParams_fresh (p : Nat) (ns : List String) (s : St K G) (h : Fresh s p) :
    ∃ c, (walkParams p ns s).1 = .ok c := by
  induction ns generalizing p s with
  | nil => exact ⟨p, rfl⟩
  | cons n ns ih =>
    obtain ⟨P, h1, h2, h3, h4⟩ := h
    rw [walkParams]
    rcases childParam_cases p n s with ⟨e, _⟩ | ⟨P', e, h⟩
    · rw [h1] at e; simp at e
    · rw [h1] at e; cases e
      rcases h with ⟨c, e, _⟩ | ⟨_, e, _⟩ | ⟨_, _, e, _⟩ | ⟨_, _, _, s', e, _, _, hf, _⟩
      · rw [h2] at e; simp at e
      · rw [h3] at e; simp at e
      · rw [h4] at e; simp at e
      · rw [M.bind_ok e]; exact ih _ _ hf

/-- A refused walk has created nothing. -/
theorem walkParams_error {p : Nat} {ns : List String} {s s' : St K G} {e : Err}
    (h : walkParams p ns s = (.error e, s')) (hp : s.params[p]? ≠ none) (t : Tree s) :
    s' = s ∧ (e = .parameterWritten ∨ e = .parameterRead) := by
  induction ns generalizing p s with
  | nil => simp [walkParams] at h
  | cons n ns ih =>
    rw [walkParams] at h
    rcases childParam_cases p n s with ⟨e', _⟩ | ⟨P, hP, hc⟩
    · exact absurd e' hp
    · rcases hc with ⟨c, hl, e'⟩ | ⟨_, _, e'⟩ | ⟨_, _, _, e'⟩ | ⟨_, _, _, s1, e', _, _, hf, _⟩
      · rw [M.bind_ok e'] at h
        obtain ⟨_, C, hC, _⟩ := t.pchild p P n c hP (lookup_mem hl)
        exact ih h (by rw [hC]; simp) t
      · rw [M.bind_error e'] at h; cases h; exact ⟨rfl, Or.inl rfl⟩
      · rw [M.bind_error e'] at h; cases h; exact ⟨rfl, Or.inr rfl⟩
      · rw [M.bind_ok e'] at h
        obtain ⟨c, hc⟩ := walkParams_fresh _ ns s1 hf
        rw [h] at hc; simp at hc

/-- Where a walk ends, and what it creates on the way. -/
theorem walkParams_ok {env : Env K} {p c : Nat} {ns : List String} {s s' : St K G} {a m : List String}
    (h : walkParams p ns s = (.ok c, s')) (hi : Inv env s) (hk : HasKey s p (a, m)) :
    HasKey s' c (a, m ++ ns) ∧ ∀ q, s.params[q]? = none → ∀ k, HasKey s' q k →
      k.1 = a ∧ k.2 <+: m ++ ns := by
  induction ns generalizing p s m with
  | nil =>
    simp only [walkParams, M.pure_apply, Prod.mk.injEq, Except.ok.injEq] at h
    obtain ⟨rfl, rfl⟩ := h
    refine ⟨by simpa using hk, fun q hq k hk' => ?_⟩
    obtain ⟨P, hp, _⟩ := hk'
    rw [hq] at hp; simp at hp
  | cons n ns ih =>
    rw [walkParams] at h
    rcases childParam_cases p n s with ⟨e', _⟩ | ⟨P, hP, hc⟩
    · obtain ⟨P, hp, _⟩ := hk
      rw [hp] at e'; simp at e'
    · rcases hc with ⟨d, hl, e'⟩ | ⟨_, _, e'⟩ | ⟨_, _, _, e'⟩ | ⟨hl, _, _, s1, e', hprim, hlen, _, hs1⟩
      · rw [M.bind_ok e'] at h
        have hk' := (child_key hi.tree hk hP n d).2 (lookup_mem hl)
        have := ih h hi hk'
        simpa using this
      · rw [M.bind_error e'] at h; simp at h
      · rw [M.bind_error e'] at h; simp at h
      · rw [M.bind_ok e'] at h
        have hq := quiet_childParam env p n s
        rw [e'] at hq
        have hi1 : Inv env s1 := hq.inv hi
        have hk1 : HasKey s1 p (a, m) := hq.key hi hk
        obtain ⟨P1, hP1, _⟩ := id hk1
        have hmem : (n, s.params.length) ∈ P1.children := by
          have : s1.params[p]? = some { P with children := P.children ++ [(n, s.params.length)] } := by
            subst hs1
            refine getElem?_append_of_some ?_
            rw [getElem?_modify_self, hP]; rfl
          rw [this] at hP1; cases hP1; simp
        have hk2 := (child_key hi1.tree hk1 hP1 n _).2 hmem
        obtain ⟨h1, h2⟩ := ih h hi1 hk2
        have hw := quiet_walkParams env s.params.length ns s1
        rw [h] at hw
        refine ⟨by simpa [Key.child] using h1, fun q hq' k hk' => ?_⟩
        by_cases hql : q = s.params.length
        · subst hql
          have := (hw.key hi1 hk2).det hk'
          rw [← this]
          simp [Key.child]
        · have : s1.params[q]? = none := by
            rw [List.getElem?_eq_none_iff] at hq' ⊢
            rw [hlen]; omega
          have := h2 q this k hk'
          simpa [Key.child] using this

theorem subregion_params (r : Nat) (n : String) (s : St K G) :
    (subregion r n s).2.params = s.params := by
  unfold subregion
  split
  · rfl
  · split
    · rfl
    · split <;> rfl

theorem walkRegions_params (r : Nat) (ns : List String) (s : St K G) :
    (walkRegions r ns s).2.params = s.params := by
  induction ns generalizing r s with
  | nil => rfl
  | cons n ns ih =>
    rw [walkRegions, M.bind_apply]
    have := subregion_params r n s
    cases h : subregion r n s with
    | mk res s' =>
      rw [h] at this
      cases res with
      | error e => exact this
      | ok c => exact (ih c s').trans this

/-- Regions are never refused. -/
theorem walkRegions_ok {env : Env K} {r : Nat} {m ns : List String} {s : St K G} (hi : Inv env s)
    (hr : RName s r m) : ∃ c s', walkRegions r ns s = (.ok c, s') ∧ RName s' c (m ++ ns) := by
  induction ns generalizing r m s with
  | nil => exact ⟨r, s, rfl, by simpa using hr⟩
  | cons n ns ih =>
    rw [walkRegions]
    obtain ⟨R, hR⟩ := hr.valid
    cases hl : R.children.lookup n with
    | some c =>
      rw [M.bind_ok (subregion_found hR hl)]
      have hf : findSubregion s r [n] = some c := by simp only [findSubregion, hR, hl]
      have := (findSubregion_name hi.tree hr [n] c).1 hf
      obtain ⟨c', s', h1, h2⟩ := ih hi this
      exact ⟨c', s', h1, by simpa using h2⟩
    | none =>
      have hagg := hi.tree.ragg r R hR
      have hq := quiet_subregion env r n s
      have e1 : ∃ s1, subregion r n s = (.ok s.regions.length, s1) ∧ s1 = { s with
        regions := s.regions.modify r
          (fun R => { R with children := R.children ++ [(n, s.regions.length)] })
          ++ [newRegion n (some r)] } := by
        refine ⟨_, ?_, rfl⟩
        unfold subregion
        simp only [hR, hl, hagg]
        rw [if_neg (by simp)]
      obtain ⟨s1, e1, e2⟩ := e1
      rw [e1] at hq
      have hi1 := hq.inv hi
      rw [M.bind_ok e1]
      have hn : RName s1 s.regions.length (m ++ [n]) := by
        have hx : s1.regions[s.regions.length]? = some (newRegion n (some r)) := by
          subst e2; simp
        exact .sub (R := newRegion n (some r)) hx rfl (hr.mono hq.rext)
      obtain ⟨c', s', h1, h2⟩ := ih hi1 hn
      exact ⟨c', s', h1, by simpa using h2⟩

/-- Name of the root region. -/
def rootName (s : St K G) : String := ((s.regions[0]?).map Region.name).getD ""

theorem getOrCreateRegion_bad {s : St K G} {region : HName} (t : Tree s)
    (h : region.parts.head? ≠ some (rootName s)) :
    getOrCreateRegion region s = (.error .valueError, s) := by
  unfold getOrCreateRegion
  cases hp : region.parts with
  | nil => rfl
  | cons n ns =>
    obtain ⟨R, h0, _⟩ := t.root
    have e1 : M.look (fun s : St K G => s.regions[0]?) s = (.ok R, s) := look_some h0
    simp only [M.bind_ok e1]
    rw [if_pos]
    · rfl
    · intro hn
      apply h
      rw [hp]; simp [rootName, h0, hn]

theorem getOrCreateRegion_good {env : Env K} {s : St K G} {region : HName} (hi : Inv env s)
    (h : region.parts.head? = some (rootName s)) :
    ∃ r s', getOrCreateRegion region s = (.ok r, s') ∧ RName s' r region.parts ∧
      s'.params = s.params := by
  unfold getOrCreateRegion
  cases hp : region.parts with
  | nil => rw [hp] at h; simp at h
  | cons n ns =>
    obtain ⟨R, h0, hpar⟩ := hi.tree.root
    have e1 : M.look (fun s : St K G => s.regions[0]?) s = (.ok R, s) := look_some h0
    simp only [M.bind_ok e1]
    have hn : n = R.name := by
      rw [hp] at h; simpa [rootName, h0] using h
    rw [if_neg (by simpa using hn)]
    have hroot : RName s 0 [R.name] := .root h0 hpar
    obtain ⟨c, s', h1, h2⟩ := walkRegions_ok (ns := ns) hi hroot
    refine ⟨c, s', h1, ?_, ?_⟩
    · rw [hn]; simpa using h2
    · have := walkRegions_params 0 ns s
      rw [h1] at this; exact this

/-- What a request by name does: either it fails on names that cannot exist, or a parameter on the
way was viewed or written already and nothing is created, or it arrives and has created only the
parameters on the way. -/
theorem reach_spec {env : Env K} {s : St K G} (hi : Inv env s) (name region : HName) :
    ((region.parts.head? ≠ some (rootName s) ∨ name.parts = []) ∧
      (reach name region s).1 = .error .valueError ∧ (reach name region s).2.params = s.params) ∨
    (region.parts.head? = some (rootName s) ∧ name.parts ≠ [] ∧
      (((reach name region s).1 = .error .parameterWritten ∨
          (reach name region s).1 = .error .parameterRead) ∧
        (reach name region s).2.params = s.params ∨
      ∃ p, (reach name region s).1 = .ok p ∧
        HasKey (reach name region s).2 p (region.parts, name.parts) ∧
        ∀ q, s.params[q]? = none → ∀ k, HasKey (reach name region s).2 q k →
          k.1 = region.parts ∧ k.2 <+: name.parts)) := by
  by_cases hroot : region.parts.head? = some (rootName s)
  · obtain ⟨r, s1, h1, h2, h3⟩ := getOrCreateRegion_good hi hroot
    have hq := quiet_getOrCreateRegion env region s
    rw [h1] at hq
    have hi1 := hq.inv hi
    have e : reach name region s = getOrCreateParam name r s1 := by
      show (getOrCreateRegion region >>= fun r => getOrCreateParam name r) s = _
      rw [M.bind_ok h1]
    rw [e]
    cases hn : name.parts with
    | nil =>
      left
      have : getOrCreateParam name r s1 = (.error .valueError, s1) := by
        unfold getOrCreateParam; simp only [hn]; rfl
      rw [this]
      exact ⟨Or.inr rfl, rfl, h3⟩
    | cons n ns =>
      right
      refine ⟨hroot, by simp, ?_⟩
      have e2 : getOrCreateParam name r s1 = (rootParam r n >>= fun p => walkParams p ns) s1 := by
        unfold getOrCreateParam; simp only [hn]
      rw [e2]
      obtain ⟨R, hR⟩ := h2.valid
      cases hl : R.params.lookup n with
      | some p =>
        have e3 : rootParam r n s1 = (.ok p, s1) := by unfold rootParam; simp only [hR, hl]
        rw [M.bind_ok e3]
        have hf : findParam s1 r (.seq [n]) = .ok (some p) := by
          simp [findParam, HName.truthy, HName.parts, hR, hl, findSubparam]
        have hk := (findParam_name hi1.tree h2 (.seq [n]) (by simp [HName.truthy])
          (by simp [HName.parts]) p).1 hf
        cases hw : walkParams p ns s1 with
        | mk res s2 =>
          cases res with
          | error e =>
            left
            obtain ⟨P, hp, _⟩ := hk
            obtain ⟨rfl, he⟩ := walkParams_error hw (by rw [hp]; simp) hi1.tree
            exact ⟨he.imp (by rintro rfl; rfl) (by rintro rfl; rfl), h3⟩
          | ok c =>
            right
            obtain ⟨g1, g2⟩ := walkParams_ok hw hi1 hk
            exact ⟨c, rfl, by simpa [HName.parts] using g1, fun q hq' k hk' => by
              simpa [HName.parts] using g2 q (by rw [h3]; exact hq') k hk'⟩
      | none =>
        right
        have e3 : ∃ s2, rootParam r n s1 = (.ok s1.params.length, s2) ∧ s2 = { s1 with
            regions := s1.regions.modify r
              (fun R => { R with params := R.params ++ [(n, s1.params.length)] })
            params := s1.params ++ [newParam n r none] } := by
          refine ⟨_, ?_, rfl⟩
          unfold rootParam; simp only [hR, hl]
        obtain ⟨s2, e3, e4⟩ := e3
        have hq2 := quiet_rootParam env r n s1
        rw [e3] at hq2
        have hi2 := hq2.inv hi1
        rw [M.bind_ok e3]
        have hx : s2.params[s1.params.length]? = some (newParam n r none) := by subst e4; simp
        have hk : HasKey s2 s1.params.length (region.parts, [n]) :=
          ⟨newParam n r none, hx, h2.mono hq2.rext, .top (P := newParam n r none) hx rfl⟩
        obtain ⟨c, hc⟩ := walkParams_fresh s1.params.length ns s2 ⟨_, hx, rfl, rfl, rfl⟩
        cases hw : walkParams s1.params.length ns s2 with
        | mk res s3 =>
          rw [hw] at hc
          simp only at hc
          subst hc
          obtain ⟨g1, g2⟩ := walkParams_ok hw hi2 hk
          refine ⟨c, rfl, by simpa using g1, fun q hq' k hk' => ?_⟩
          rw [← h3] at hq'
          by_cases hql : q = s1.params.length
          · subst hql
            have hq3 := quiet_walkParams env s1.params.length ns s2
            rw [hw] at hq3
            have := (hq3.key hi2 hk).det hk'
            rw [← this]; simp
          · have : s2.params[q]? = none := by
              rw [List.getElem?_eq_none_iff] at hq' ⊢
              subst e4; simp; omega
            simpa using g2 q this k hk'
  · left
    have e : reach name region s = (.error .valueError, s) := by
      show (getOrCreateRegion region >>= fun r => getOrCreateParam name r) s = _
      exact M.bind_error (getOrCreateRegion_bad hi.tree hroot)
    rw [e]
    exact ⟨Or.inl hroot, rfl, rfl⟩

/-- Parameters above a parameter. -/
theorem HasKey.prefix {s : St K G} (t : Tree s) {p : Nat} {a b b' : List String}
    (h : HasKey s p (a, b)) (hb : b' <+: b) (hne : b' ≠ []) : ∃ q, HasKey s q (a, b') := by
  obtain ⟨P, h1, h2, h3⟩ := h
  simp only at h2 h3
  have : ∀ (p : Nat) (b : List String), PName s p b → ∀ P, s.params[p]? = some P →
      RName s P.region a → b' <+: b → ∃ q, HasKey s q (a, b') := by
    intro p b hb
    induction hb with
    | @top p P hr hp =>
      intro P' hP' hreg hpre
      rw [hr] at hP'; cases hP'
      have : b' = [P.name] := by
        obtain ⟨x, hx⟩ := hpre
        cases b' with
        | nil => exact absurd rfl hne
        | cons y ys => simp at hx; simp [hx]
      subst this
      exact ⟨p, P, hr, hreg, .top hr hp⟩
    | @sub p q P ns hr hp h ih =>
      intro P' hP' hreg hpre
      rw [hr] at hP'; cases hP'
      rcases List.prefix_concat_iff.1 hpre with rfl | hpre
      · exact ⟨p, P, hr, hreg, .sub hr hp h⟩
      · obtain ⟨Q, g1, g2, g3, _⟩ := Desc_region t hr hp
        exact ih Q g1 (by rw [g3]; exact hreg) hpre
  exact this p b h3 P h1 h2 hb

end Openscm
