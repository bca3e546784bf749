import Verif.RoundTrip
import Verif.CoreNames

/-!
# Which parameters `convert_openscm_to_scmdataframe` visits

Helper file: the childless parameters in the root region and the regions directly below, each once.
-/

set_option linter.unusedSectionVars false

namespace Openscm

variable {K : Type} [Field K] [LinearOrder K] [IsStrictOrderedRing K]

theorem walkAux_leaves (s : St K (PyVal K)) : ∀ (fuel p : Nat) (past : List String),
    (walkAux s fuel p past).map (·.2.2) = leavesAux s.params fuel p := by
  intro fuel
  induction fuel with
  | zero => intro p past; rfl
  | succ fuel ih =>
    intro p past
    simp only [walkAux, leavesAux]
    cases hp : s.params[p]? with
    | none => rfl
    | some P =>
      simp only
      by_cases hc : P.children = []
      · rw [if_pos hc, if_pos hc]; rfl
      · rw [if_neg hc, if_neg hc, List.map_flatMap]
        simp only [ih]

/-- Names and regions are those of the parameters. -/
theorem walkAux_key {s : St K (PyVal K)} (t : Tree s) {ns : List String} : ∀ (fuel p : Nat) (past : List String)
    (P : Param K (PyVal K)) (x : List String × List String × Nat), s.params[p]? = some P →
    PName s p (past ++ [P.name]) → RName s P.region ns → x ∈ walkAux s fuel p past → HasKey s x.2.2 (x.2.1, x.1) ∧
      ∃ X, s.params[x.2.2]? = some X ∧ X.region = P.region := by
  intro fuel
  induction fuel with
  | zero => intro p past P x _ _ _ hx; simp [walkAux] at hx
  | succ fuel ih =>
    intro p past P x hp hn hr hx
    simp only [walkAux, hp] at hx
    by_cases hc : P.children = []
    · rw [if_pos hc, List.mem_singleton] at hx
      subst hx
      exact ⟨⟨P, hp, by rw [regionName_eq t hr]; exact hr, hn⟩, P, hp, rfl⟩
    · rw [if_neg hc, List.mem_flatMap] at hx
      obtain ⟨⟨n, c⟩, hm, hx⟩ := hx
      obtain ⟨_, C, c1, c2, c3, c4⟩ := t.pchild p P n c hp hm
      obtain ⟨h1, X, h2, h3⟩ := ih c (past ++ [P.name]) C x c1 (.sub c1 c3 hn) (by rw [c4]; exact hr) hx
      exact ⟨h1, X, h2, h3.trans c4⟩

/-- Every parameter is below one of the parameters that a region lists. -/
theorem exists_top {s : St K (PyVal K)} (t : Tree s) (q : Nat) {Q : Param K (PyVal K)} (hq : s.params[q]? = some Q) :
    ∃ p P R, s.params[p]? = some P ∧ P.parent = none ∧ P.region = Q.region ∧ s.regions[Q.region]? = some R ∧
      (P.name, p) ∈ R.params ∧ Desc s p q := by
  have snoc : ∀ {a b c : Nat} {B : Param K (PyVal K)} {n : String}, Desc s a b → s.params[b]? = some B →
      (n, c) ∈ B.children → Desc s a c := by
    intro a b c B n h
    induction h with
    | refl p => intro h1 h2; exact .step h1 h2 (.refl _)
    | step hp hc _ ih => intro h1 h2; exact .step hp hc (ih h1 h2)
  induction q using Nat.strong_induction_on generalizing Q with
  | _ q ih =>
    cases hp : Q.parent with
    | none =>
      obtain ⟨R, h1, h2⟩ := t.porphan q Q hq hp
      exact ⟨q, Q, R, hq, hp, rfl, h1, h2, .refl q⟩
    | some r =>
      obtain ⟨B, hB, hm⟩ := t.pparent q Q r hq hp
      obtain ⟨hlt, C, c1, _, _, c4⟩ := t.pchild r B _ q hB hm
      rw [hq] at c1; cases c1
      obtain ⟨p, P, R, h1, h2, h3, h4, h5, h6⟩ := ih r hlt hB
      rw [c4]
      exact ⟨p, P, R, h1, h2, h3, h4, h5, snoc h6 hB hm⟩

theorem walkRegion_mem {s : St K (PyVal K)} (t : Tree s) {r : Nat} {R : Region} {ns : List String}
    (hR : s.regions[r]? = some R) (hr : RName s r ns) {x : List String × List String × Nat}
    (hx : x ∈ walkRegion s R) :
    HasKey s x.2.2 (x.2.1, x.1) ∧ Childless s x.2.2 ∧ x.2.1 = ns ∧
      ∃ X, s.params[x.2.2]? = some X ∧ X.region = r := by
  obtain ⟨⟨n, p⟩, hm, hx⟩ := List.mem_flatMap.1 hx
  obtain ⟨P, p1, p2, p3, p4⟩ := t.tops r R n p hR hm
  have hl : x.2.2 ∈ leavesAux s.params s.params.length p := by
    rw [← walkAux_leaves s _ p []]
    exact List.mem_map.2 ⟨x, hx, rfl⟩
  obtain ⟨h1, X, h2, h3⟩ := walkAux_key t (ns := ns) _ p [] P x p1 (.top p1 p3) (by rw [p4]; exact hr) hx
  rw [p4] at h3
  refine ⟨h1, ((leavesAux_mem t _ _ _ (by omega)).1 hl).2, ?_, X, h2, h3⟩
  obtain ⟨X', h2', h4, _⟩ := h1
  rw [h2] at h2'; cases h2'
  rw [h3] at h4
  exact h4.det hr

/-- Which parameters are visited. -/
theorem rootParams_mem {s : St K (PyVal K)} (t : Tree s) (x : List String × List String × Nat) :
    x ∈ rootParams s ↔ HasKey s x.2.2 (x.2.1, x.1) ∧ Childless s x.2.2 ∧ x.2.1.length ≤ 2 := by
  obtain ⟨R, hR, hRp⟩ := t.root
  have h0 : RName s 0 [R.name] := .root hR hRp
  unfold rootParams
  simp only [hR]
  constructor
  · intro hx
    rcases List.mem_append.1 hx with hx | hx
    · obtain ⟨h1, h2, h3, _⟩ := walkRegion_mem t hR h0 hx
      exact ⟨h1, h2, by rw [h3]; simp⟩
    · obtain ⟨⟨n, c⟩, hm, hx⟩ := List.mem_flatMap.1 hx
      obtain ⟨_, C, c1, c2, c3⟩ := t.rchild 0 R n c hR hm
      simp only [c1] at hx
      obtain ⟨h1, h2, h3, _⟩ := walkRegion_mem t c1 (.sub c1 c3 h0) hx
      exact ⟨h1, h2, by rw [h3]; simp⟩
  · rintro ⟨hk, hc, hl⟩
    have key : ∀ (r : Nat) (Q : Region), s.regions[r]? = some Q → (∃ X, s.params[x.2.2]? = some X ∧ X.region = r) →
        x ∈ walkRegion s Q := by
      rintro r Q hQ ⟨X, hX, rfl⟩
      obtain ⟨p, P, R', h1, h2, h3, h4, h5, h6⟩ := exists_top t _ hX
      rw [hQ] at h4; cases h4
      have : x.2.2 ∈ leavesAux s.params s.params.length p := (leavesAux_mem t _ _ _ (by omega)).2 ⟨h6, hc⟩
      rw [← walkAux_leaves s _ p []] at this
      obtain ⟨y, hy, hyx⟩ := List.mem_map.1 this
      have hym : y ∈ walkRegion s Q := List.mem_flatMap.2 ⟨_, h5, hy⟩
      obtain ⟨ns, hns⟩ := RName.exists t _ hQ
      obtain ⟨k1, _⟩ := walkRegion_mem t hQ hns hym
      rw [hyx] at k1
      have := k1.det hk
      simp only [Prod.mk.injEq] at this
      have hxy : y = x := Prod.ext this.2 (Prod.ext this.1 hyx)
      rw [← hxy]; exact hym
    obtain ⟨X, hX, hr, _⟩ := id hk
    refine List.mem_append.2 ?_
    generalize hns : x.2.1 = ns at hr hl
    cases hr with
    | @root _ R' hr hp =>
      have := t.rorphan _ _ hr hp
      exact Or.inl (key 0 R hR ⟨X, hX, this⟩)
    | @sub r q R' ns hr hp h =>
      right
      have hq0 : q = 0 := by
        cases h with
        | root hr' hp' => exact t.rorphan _ _ hr' hp'
        | sub hr' hp' h' =>
          have := List.length_pos_of_ne_nil h'.ne_nil
          simp only [List.length_append, List.length_singleton] at hl
          omega
      subst hq0
      obtain ⟨R0, hR0, hm⟩ := t.rparent _ _ _ hr hp
      rw [hR] at hR0; cases hR0
      refine List.mem_flatMap.2 ⟨_, hm, ?_⟩
      simp only [hr]
      exact key _ _ hr ⟨X, hX, rfl⟩

theorem walkRegion_nodup {s : St K (PyVal K)} (t : Tree s) {r : Nat} {R : Region} (hR : s.regions[r]? = some R) :
    ((walkRegion s R).map (·.2.2)).Nodup := by
  unfold walkRegion
  rw [List.map_flatMap]
  simp only [walkAux_leaves]
  rw [List.nodup_flatMap]
  refine ⟨fun x _ => leavesAux_nodup t _ _ (by omega), ?_⟩
  have hnd := t.topkeys r R hR
  rw [List.Nodup, List.pairwise_map] at hnd
  refine hnd.imp_of_mem ?_
  intro a b ha hb hab
  rw [Function.onFun, List.disjoint_left]
  intro x hx hx'
  have d1 := ((leavesAux_mem t _ a.2 x (by omega)).1 hx).1
  have d2 := ((leavesAux_mem t _ b.2 x (by omega)).1 hx').1
  obtain ⟨A, a1, a2, a3, _⟩ := t.tops r R a.1 a.2 hR ha
  obtain ⟨B, b1, b2, b3, _⟩ := t.tops r R b.1 b.2 hR hb
  have up : ∀ {u v : Nat} {V : Param K (PyVal K)}, Desc s u v → s.params[v]? = some V → V.parent = none → u = v := by
    intro u v V h
    induction h with
    | refl => intro _ _; rfl
    | step hp hc h ih =>
      intro h1 h2
      have := ih h1 h2
      subst this
      obtain ⟨_, C, c1, _, c3, _⟩ := t.pchild _ _ _ _ hp hc
      rw [h1] at c1; cases c1
      rw [h2] at c3; simp at c3
  have : a.2 = b.2 := by
    rcases d1.linear t d2 with h | h
    · exact up h b1 b3
    · exact (up h a1 a3).symm
  rw [← this, a1] at b1; cases b1
  exact hab (a2.symm.trans b2)

/-- Every parameter is visited at most once. -/
theorem rootParams_nodup {s : St K (PyVal K)} (t : Tree s) : ((rootParams s).map (·.2.2)).Nodup := by
  obtain ⟨R, hR, hRp⟩ := t.root
  have h0 : RName s 0 [R.name] := .root hR hRp
  have hdis : ∀ {r r' : Nat} {Q Q' : Region} {x : Nat}, s.regions[r]? = some Q → s.regions[r']? = some Q' →
      x ∈ (walkRegion s Q).map (·.2.2) → x ∈ (walkRegion s Q').map (·.2.2) → r = r' := by
    intro r r' Q Q' x hQ hQ' h1 h2
    obtain ⟨y, hy, rfl⟩ := List.mem_map.1 h1
    obtain ⟨z, hz, hzy⟩ := List.mem_map.1 h2
    obtain ⟨_, hn⟩ := RName.exists t _ hQ
    obtain ⟨_, hn'⟩ := RName.exists t _ hQ'
    obtain ⟨_, _, _, Y, y1, y2⟩ := walkRegion_mem t hQ hn hy
    obtain ⟨_, _, _, Z, z1, z2⟩ := walkRegion_mem t hQ' hn' hz
    rw [hzy, y1] at z1; cases z1
    rw [← y2, ← z2]
  have hkid : ∀ c ∈ R.children, ∃ C, s.regions[c.2]? = some C ∧ C.name = c.1 ∧ 0 < c.2 := by
    intro c hc
    obtain ⟨h1, C, h2, h3, _⟩ := t.rchild 0 R c.1 c.2 hR hc
    exact ⟨C, h2, h3, h1⟩
  unfold rootParams
  simp only [hR]
  rw [List.map_append, List.map_flatMap, List.nodup_append']
  refine ⟨walkRegion_nodup t hR, ?_, ?_⟩
  · rw [List.nodup_flatMap]
    refine ⟨fun c hc => ?_, ?_⟩
    · obtain ⟨C, c1, _⟩ := hkid c hc
      simp only [c1]
      exact walkRegion_nodup t c1
    · have hnd := t.rkeys 0 R hR
      rw [List.Nodup, List.pairwise_map] at hnd
      refine hnd.imp_of_mem ?_
      intro a b ha hb hab
      rw [Function.onFun, List.disjoint_left]
      intro x hx hx'
      obtain ⟨A, a1, a2, _⟩ := hkid a ha
      obtain ⟨B, b1, b2, _⟩ := hkid b hb
      simp only [a1] at hx
      simp only [b1] at hx'
      have := hdis a1 b1 hx hx'
      rw [← this, a1] at b1; cases b1
      exact hab (a2.symm.trans b2)
  · rw [List.disjoint_left]
    intro x hx hx'
    obtain ⟨c, hc, hx'⟩ := List.mem_flatMap.1 hx'
    obtain ⟨C, c1, _, c3⟩ := hkid c hc
    simp only [c1] at hx'
    have := hdis hR c1 hx hx'
    omega

end Openscm
