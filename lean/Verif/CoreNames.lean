import Verif.CoreInv

/-!
# Hierarchical names of regions and parameters

Helper file: the name of a parameter together with the name of its region identifies it, never
changes, and the lookup functions find exactly the parameter of that name.
-/

set_option linter.unusedSectionVars false

namespace Openscm
variable {K G : Type} [Field K] [LinearOrder K] [IsStrictOrderedRing K]

/-- `r` has the hierarchical name `ns`. -/
inductive RName (s : St K G) : Nat → List String → Prop
  | root {r : Nat} {R : Region} (hr : s.regions[r]? = some R) (hp : R.parent = none) :
      RName s r [R.name]
  | sub {r q : Nat} {R : Region} {ns : List String} (hr : s.regions[r]? = some R)
      (hp : R.parent = some q) (h : RName s q ns) : RName s r (ns ++ [R.name])

/-- `p` has the hierarchical name `ns`. -/
inductive PName (s : St K G) : Nat → List String → Prop
  | top {p : Nat} {P : Param K G} (hr : s.params[p]? = some P) (hp : P.parent = none) :
      PName s p [P.name]
  | sub {p q : Nat} {P : Param K G} {ns : List String} (hr : s.params[p]? = some P)
      (hp : P.parent = some q) (h : PName s q ns) : PName s p (ns ++ [P.name])

theorem RName.ne_nil {s : St K G} {r : Nat} {ns : List String} (h : RName s r ns) : ns ≠ [] := by
  cases h <;> simp

theorem PName.ne_nil {s : St K G} {p : Nat} {ns : List String} (h : PName s p ns) : ns ≠ [] := by
  cases h <;> simp

theorem RName.det {s : St K G} {r : Nat} {a b : List String} (h1 : RName s r a)
    (h2 : RName s r b) : a = b := by
  induction h1 generalizing b with
  | root hr hp =>
    cases h2 with
    | root hr' hp' => rw [hr] at hr'; cases hr'; rfl
    | sub hr' hp' _ => rw [hr] at hr'; cases hr'; rw [hp] at hp'; simp at hp'
  | sub hr hp h ih =>
    cases h2 with
    | root hr' hp' => rw [hr] at hr'; cases hr'; rw [hp] at hp'; simp at hp'
    | sub hr' hp' h' =>
      rw [hr] at hr'; cases hr'
      rw [hp] at hp'; cases hp'
      rw [ih h']

theorem PName.det {s : St K G} {r : Nat} {a b : List String} (h1 : PName s r a)
    (h2 : PName s r b) : a = b := by
  induction h1 generalizing b with
  | top hr hp =>
    cases h2 with
    | top hr' hp' => rw [hr] at hr'; cases hr'; rfl
    | sub hr' hp' _ => rw [hr] at hr'; cases hr'; rw [hp] at hp'; simp at hp'
  | sub hr hp h ih =>
    cases h2 with
    | top hr' hp' => rw [hr] at hr'; cases hr'; rw [hp] at hp'; simp at hp'
    | sub hr' hp' h' =>
      rw [hr] at hr'; cases hr'
      rw [hp] at hp'; cases hp'
      rw [ih h']

theorem RName.exists {s : St K G} (t : Tree s) (r : Nat) {R : Region}
    (hr : s.regions[r]? = some R) : ∃ ns, RName s r ns := by
  induction r using Nat.strong_induction_on generalizing R with
  | _ r ih =>
    cases hp : R.parent with
    | none => exact ⟨_, .root hr hp⟩
    | some q =>
      obtain ⟨Q, hq, hm⟩ := t.rparent r R q hr hp
      obtain ⟨ns, h⟩ := ih q (t.rchild q Q _ r hq hm).1 hq
      exact ⟨_, .sub hr hp h⟩

theorem PName.exists {s : St K G} (t : Tree s) (r : Nat) {R : Param K G}
    (hr : s.params[r]? = some R) : ∃ ns, PName s r ns := by
  induction r using Nat.strong_induction_on generalizing R with
  | _ r ih =>
    cases hp : R.parent with
    | none => exact ⟨_, .top hr hp⟩
    | some q =>
      obtain ⟨Q, hq, hm⟩ := t.pparent r R q hr hp
      obtain ⟨ns, h⟩ := ih q (t.pchild q Q _ r hq hm).1 hq
      exact ⟨_, .sub hr hp h⟩

theorem regionNameAux_eq {s : St K G} (t : Tree s) {r : Nat} {ns : List String}
    (h : RName s r ns) : ∀ fuel, r < fuel → regionNameAux s.regions fuel r = ns := by
  induction h with
  | root hr hp =>
    intro fuel hf
    cases fuel with
    | zero => omega
    | succ f => simp [regionNameAux, hr, hp]
  | @sub r q R ns hr hp h ih =>
    intro fuel hf
    cases fuel with
    | zero => omega
    | succ f =>
      obtain ⟨Q, hq, hm⟩ := t.rparent r R q hr hp
      have := (t.rchild q Q _ r hq hm).1
      simp only [regionNameAux, hr, hp]
      rw [ih f (by omega)]

theorem paramNameAux_eq {s : St K G} (t : Tree s) {r : Nat} {ns : List String}
    (h : PName s r ns) : ∀ fuel, r < fuel → paramNameAux s.params fuel r = ns := by
  induction h with
  | top hr hp =>
    intro fuel hf
    cases fuel with
    | zero => omega
    | succ f => simp [paramNameAux, hr, hp]
  | @sub r q R ns hr hp h ih =>
    intro fuel hf
    cases fuel with
    | zero => omega
    | succ f =>
      obtain ⟨Q, hq, hm⟩ := t.pparent r R q hr hp
      have := (t.pchild q Q _ r hq hm).1
      simp only [paramNameAux, hr, hp]
      rw [ih f (by omega)]

theorem RName.valid {s : St K G} {r : Nat} {ns : List String} (h : RName s r ns) :
    ∃ R, s.regions[r]? = some R := by
  cases h with
  | root hr _ => exact ⟨_, hr⟩
  | sub hr _ _ => exact ⟨_, hr⟩

theorem PName.valid {s : St K G} {r : Nat} {ns : List String} (h : PName s r ns) :
    ∃ R, s.params[r]? = some R := by
  cases h with
  | top hr _ => exact ⟨_, hr⟩
  | sub hr _ _ => exact ⟨_, hr⟩

theorem regionName_eq {s : St K G} (t : Tree s) {r : Nat} {ns : List String}
    (h : RName s r ns) : regionName s r = ns := by
  obtain ⟨R, hr⟩ := h.valid
  exact regionNameAux_eq t h _ (length_of_getElem? hr)

theorem paramName_eq {s : St K G} (t : Tree s) {r : Nat} {ns : List String}
    (h : PName s r ns) : paramName s r = ns := by
  obtain ⟨R, hr⟩ := h.valid
  exact paramNameAux_eq t h _ (length_of_getElem? hr)

theorem RName.inj {s : St K G} (t : Tree s) {a b : Nat} {ns : List String} (h1 : RName s a ns)
    (h2 : RName s b ns) : a = b := by
  induction h1 generalizing b with
  | @root r R hr hp =>
    generalize hns : [R.name] = ms at h2
    cases h2 with
    | root hr' hp' => rw [t.rorphan _ _ hr hp, t.rorphan _ _ hr' hp']
    | @sub r' q R' ns' hr' hp' h' =>
      have := h'.ne_nil
      have hl := congrArg List.length hns
      simp at hl
      exact absurd hl this
  | @sub r q R ns hr hp h ih =>
    generalize hns : ns ++ [R.name] = ms at h2
    cases h2 with
    | root hr' hp' =>
      have := h.ne_nil
      have hl := congrArg List.length hns
      simp at hl
      exact absurd hl this
    | @sub r' q' R' ns' hr' hp' h' =>
      obtain ⟨e1, e2⟩ := List.append_inj' hns rfl
      simp only [List.cons.injEq, and_true] at e2
      subst e1
      have := ih h'
      subst this
      obtain ⟨Q, g1, g2⟩ := t.rparent r R q hr hp
      obtain ⟨Q', g1', g2'⟩ := t.rparent b R' q hr' hp'
      rw [g1] at g1'; cases g1'
      have k1 := lookup_of_mem (t.rkeys q Q g1) g2
      have k2 := lookup_of_mem (t.rkeys q Q g1) g2'
      rw [← e2, k1] at k2
      exact Option.some.inj k2

theorem Desc_region {s : St K G} (t : Tree s) {p : Nat} {P : Param K G} {q : Nat}
    (hp : s.params[p]? = some P) (hpar : P.parent = some q) :
    ∃ Q, s.params[q]? = some Q ∧ (P.name, p) ∈ Q.children ∧ Q.region = P.region ∧ q < p := by
  obtain ⟨Q, h1, h2⟩ := t.pparent p P q hp hpar
  obtain ⟨h3, C, h4, _, _, h5⟩ := t.pchild q Q _ p h1 h2
  rw [hp] at h4; cases h4
  exact ⟨Q, h1, h2, h5.symm, h3⟩

theorem PName.inj {s : St K G} (t : Tree s) {a b : Nat} {A B : Param K G} {ns : List String}
    (h1 : PName s a ns) (h2 : PName s b ns) (ha : s.params[a]? = some A)
    (hb : s.params[b]? = some B) (hr : A.region = B.region) : a = b := by
  induction h1 generalizing b A B with
  | @top r R hr0 hp =>
    rw [ha] at hr0; cases hr0
    generalize hns : [R.name] = ms at h2
    cases h2 with
    | @top _ R' hr' hp' =>
      rw [hb] at hr'; cases hr'
      obtain ⟨Q, g1, g2⟩ := t.porphan _ _ ha hp
      obtain ⟨Q', g1', g2'⟩ := t.porphan _ _ hb hp'
      rw [hr] at g1
      rw [g1] at g1'; cases g1'
      simp only [List.cons.injEq, and_true] at hns
      have k1 := lookup_of_mem (t.topkeys _ Q g1) g2
      have k2 := lookup_of_mem (t.topkeys _ Q g1) g2'
      rw [← hns, k1] at k2
      exact Option.some.inj k2
    | @sub r' q R' ns' hr' hp' h' =>
      have := h'.ne_nil
      have hl := congrArg List.length hns
      simp at hl
      exact absurd hl this
  | @sub r q R ns hr0 hp h ih =>
    rw [ha] at hr0; cases hr0
    generalize hns : ns ++ [R.name] = ms at h2
    cases h2 with
    | top hr' hp' =>
      have := h.ne_nil
      have hl := congrArg List.length hns
      simp at hl
      exact absurd hl this
    | @sub r' q' R' ns' hr' hp' h' =>
      rw [hb] at hr'; cases hr'
      obtain ⟨e1, e2⟩ := List.append_inj' hns rfl
      simp only [List.cons.injEq, and_true] at e2
      subst e1
      obtain ⟨Q, g1, g2, g3, _⟩ := Desc_region t ha hp
      obtain ⟨Q', g1', g2', g3', _⟩ := Desc_region t hb hp'
      have := ih h' g1 g1' (by rw [g3, g3', hr])
      subst this
      rw [g1] at g1'; cases g1'
      have k1 := lookup_of_mem (t.pkeys q Q g1) g2
      have k2 := lookup_of_mem (t.pkeys q Q g1) g2'
      rw [← e2, k1] at k2
      exact Option.some.inj k2

/-! ## Lookup -/

theorem findSubregion_append (s : St K G) (r : Nat) (a b : List String) :
    findSubregion s r (a ++ b) = (findSubregion s r a).bind (fun c => findSubregion s c b) := by
  induction a generalizing r with
  | nil => rfl
  | cons n a ih =>
    simp only [List.cons_append, findSubregion]
    cases s.regions[r]? with
    | none => rfl
    | some R =>
      simp only
      cases R.children.lookup n with
      | none => rfl
      | some c => exact ih c

theorem findSubparam_append (s : St K G) (r : Nat) (a b : List String) :
    findSubparam s r (a ++ b) = (findSubparam s r a).bind (fun c => findSubparam s c b) := by
  induction a generalizing r with
  | nil => rfl
  | cons n a ih =>
    simp only [List.cons_append, findSubparam]
    cases s.params[r]? with
    | none => rfl
    | some R =>
      simp only
      cases R.children.lookup n with
      | none => rfl
      | some c => exact ih c

theorem findSubregion_name {s : St K G} (t : Tree s) {r : Nat} {m : List String}
    (h : RName s r m) (ns : List String) (c : Nat) :
    findSubregion s r ns = some c ↔ RName s c (m ++ ns) := by
  induction ns using List.reverseRecOn generalizing c with
  | nil =>
    simp only [findSubregion, List.append_nil, Option.some.injEq]
    exact ⟨fun e => e ▸ h, fun h' => h.inj t h'⟩
  | append_singleton ns n ih =>
    rw [findSubregion_append]
    constructor
    · intro hf
      obtain ⟨q, h1, h2⟩ := Option.bind_eq_some_iff.1 hf
      have hq := (ih q).1 h1
      obtain ⟨Q, hQ⟩ := hq.valid
      simp only [findSubregion, hQ] at h2
      cases hl : Q.children.lookup n with
      | none => rw [hl] at h2; simp at h2
      | some d =>
        rw [hl] at h2; simp at h2; subst h2
        obtain ⟨_, C, g1, g2, g3⟩ := t.rchild q Q n d hQ (lookup_mem hl)
        rw [← List.append_assoc, ← g2]
        exact .sub g1 g3 hq
    · intro hn
      rw [← List.append_assoc] at hn
      generalize hms : m ++ ns ++ [n] = ms at hn
      cases hn with
      | @root _ C hr hp =>
        have hl := congrArg List.length hms
        simp at hl
        exact absurd (List.length_eq_zero_iff.1 (by omega)) h.ne_nil
      | @sub _ q C ks hr hp hk =>
        obtain ⟨e1, e2⟩ := List.append_inj' hms rfl
        simp only [List.cons.injEq, and_true] at e2
        subst e1
        have := (ih q).2 hk
        rw [this]
        obtain ⟨Q, g1, g2⟩ := t.rparent c C q hr hp
        simp only [Option.bind_some, findSubregion, g1]
        rw [← e2] at g2
        rw [lookup_of_mem (t.rkeys q Q g1) g2]

theorem findSubparam_name {s : St K G} (t : Tree s) {r : Nat} {m : List String} {P : Param K G}
    (h : PName s r m) (hr : s.params[r]? = some P) (ns : List String) (c : Nat) :
    findSubparam s r ns = some c ↔
      PName s c (m ++ ns) ∧ ∃ C, s.params[c]? = some C ∧ C.region = P.region := by
  induction ns using List.reverseRecOn generalizing c with
  | nil =>
    simp only [findSubparam, List.append_nil, Option.some.injEq]
    exact ⟨fun e => e ▸ ⟨h, P, hr, rfl⟩, fun ⟨h', C, hC, he⟩ => h.inj t h' hr hC he.symm⟩
  | append_singleton ns n ih =>
    rw [findSubparam_append]
    constructor
    · intro hf
      obtain ⟨q, h1, h2⟩ := Option.bind_eq_some_iff.1 hf
      obtain ⟨hq, Q, hQ, hreg⟩ := (ih q).1 h1
      simp only [findSubparam, hQ] at h2
      cases hl : Q.children.lookup n with
      | none => rw [hl] at h2; simp at h2
      | some d =>
        rw [hl] at h2; simp at h2; subst h2
        obtain ⟨_, C, g1, g2, g3, g4⟩ := t.pchild q Q n d hQ (lookup_mem hl)
        rw [← List.append_assoc, ← g2]
        exact ⟨.sub g1 g3 hq, C, g1, g4.trans hreg⟩
    · rintro ⟨hn, C', hC', hreg⟩
      rw [← List.append_assoc] at hn
      generalize hms : m ++ ns ++ [n] = ms at hn
      cases hn with
      | @top _ C hr hp =>
        have hl := congrArg List.length hms
        simp at hl
        exact absurd (List.length_eq_zero_iff.1 (by omega)) h.ne_nil
      | @sub _ q C ks hr hp hk =>
        rw [hC'] at hr; cases hr
        obtain ⟨e1, e2⟩ := List.append_inj' hms rfl
        simp only [List.cons.injEq, and_true] at e2
        subst e1
        obtain ⟨Q, g1, g2, g3, _⟩ := Desc_region t hC' hp
        have := (ih q).2 ⟨hk, Q, g1, g3.trans hreg⟩
        rw [this]
        simp only [Option.bind_some, findSubparam, g1]
        rw [← e2] at g2
        rw [lookup_of_mem (t.pkeys q Q g1) g2]

/-- Name of a region and of a parameter in it. -/
abbrev Key := List String × List String

/-- `p` is the parameter called `k.2` in the region called `k.1`. -/
def HasKey (s : St K G) (p : Nat) (k : Key) : Prop :=
  ∃ P, s.params[p]? = some P ∧ RName s P.region k.1 ∧ PName s p k.2

theorem param_region {s : St K G} (t : Tree s) (p : Nat) {P : Param K G}
    (hp : s.params[p]? = some P) : ∃ R, s.regions[P.region]? = some R := by
  induction p using Nat.strong_induction_on generalizing P with
  | _ p ih =>
    cases hpar : P.parent with
    | none => obtain ⟨R, h, _⟩ := t.porphan p P hp hpar; exact ⟨R, h⟩
    | some q =>
      obtain ⟨Q, h1, _, h3, h4⟩ := Desc_region t hp hpar
      rw [← h3]; exact ih q h4 h1

theorem HasKey.exists {s : St K G} (t : Tree s) {p : Nat} {P : Param K G}
    (hp : s.params[p]? = some P) : ∃ k, HasKey s p k := by
  obtain ⟨R, hR⟩ := param_region t p hp
  obtain ⟨a, ha⟩ := RName.exists t _ hR
  obtain ⟨b, hb⟩ := PName.exists t _ hp
  exact ⟨(a, b), P, hp, ha, hb⟩

theorem HasKey.det {s : St K G} {p : Nat} {k k' : Key} (h : HasKey s p k) (h' : HasKey s p k') :
    k = k' := by
  obtain ⟨P, h1, h2, h3⟩ := h
  obtain ⟨P', h1', h2', h3'⟩ := h'
  rw [h1] at h1'; cases h1'
  exact Prod.ext (h2.det h2') (h3.det h3')

theorem HasKey.inj {s : St K G} (t : Tree s) {p q : Nat} {k : Key} (h : HasKey s p k)
    (h' : HasKey s q k) : p = q := by
  obtain ⟨P, h1, h2, h3⟩ := h
  obtain ⟨P', h1', h2', h3'⟩ := h'
  exact h3.inj t h3' h1 h1' (h2.inj t h2')

theorem HasKey.info {s : St K G} (t : Tree s) {p : Nat} {k : Key} (h : HasKey s p k) {P : Param K G}
    (hp : s.params[p]? = some P) :
    infoOf s p P = ⟨k.2, k.1, P.ptype, P.unit, !P.written, P.version⟩ := by
  obtain ⟨P', h1, h2, h3⟩ := h
  rw [hp] at h1; cases h1
  unfold infoOf
  rw [paramName_eq t h3, regionName_eq t h2]

/-- The parameter below region `r` that the lookup finds. -/
theorem findParam_name {s : St K G} (t : Tree s) {r : Nat} {m : List String}
    (h : RName s r m) (name : HName) (hn : name.truthy = true) (hne : name.parts ≠ []) (p : Nat) :
    findParam s r name = .ok (some p) ↔ HasKey s p (m, name.parts) := by
  unfold findParam
  rw [if_pos hn]
  cases hparts : name.parts with
  | nil => exact absurd hparts hne
  | cons n ns =>
    obtain ⟨R, hR⟩ := h.valid
    simp only [hR]
    constructor
    · intro hf
      cases hl : R.params.lookup n with
      | none => rw [hl] at hf; simp at hf
      | some top =>
        rw [hl] at hf
        simp only [Except.ok.injEq] at hf
        obtain ⟨P, g1, g2, g3, g4⟩ := t.tops r R n top hR (lookup_mem hl)
        have hP : PName s top [n] := by rw [← g2]; exact .top g1 g3
        obtain ⟨k1, C, k2, k3⟩ := (findSubparam_name t hP g1 ns p).1 hf
        exact ⟨C, k2, by rw [k3, g4]; exact h, k1⟩
    · rintro ⟨P, h1, h2, h3⟩
      -- the topmost ancestor
      have top : ∀ (q : Nat) (ks : List String), PName s q ks → ∀ (Q : Param K G), s.params[q]? = some Q →
          ∃ (a : Nat) (A : Param K G), s.params[a]? = some A ∧ A.parent = none ∧
            A.region = Q.region ∧ ks.head? = some A.name := by
        intro q ks hq
        induction hq with
        | @top q Q' hr hp =>
          intro Q hQ; rw [hQ] at hr; cases hr
          exact ⟨q, _, hQ, hp, rfl, rfl⟩
        | @sub q q' Q' ks hr hp hk ih =>
          intro Q hQ; rw [hQ] at hr; cases hr
          obtain ⟨W, g1, g2, g3, _⟩ := Desc_region t hQ hp
          obtain ⟨a, A, e1, e2, e3, e4⟩ := ih W g1
          refine ⟨a, A, e1, e2, e3.trans g3, ?_⟩
          cases ks with
          | nil => simp at e4
          | cons k ks => simpa using e4
      obtain ⟨a, A, e1, e2, e3, e4⟩ := top p _ h3 P h1
      simp only [List.head?_cons, Option.some.injEq] at e4
      have hreg : A.region = r := by rw [e3]; exact h2.inj t h
      obtain ⟨Q, g1, g2⟩ := t.porphan a A e1 e2
      rw [hreg, hR] at g1; cases g1
      rw [← e4] at g2
      rw [lookup_of_mem (t.topkeys r R hR) g2]
      have hA : PName s a [n] := by rw [e4]; exact .top e1 e2
      simp only [Except.ok.injEq]
      refine (findSubparam_name t hA e1 ns p).2 ⟨h3, P, h1, e3.symm⟩

/-- Lookup of a region. -/
theorem findRegion_name {s : St K G} (t : Tree s) (name : HName) (hne : name.parts ≠ []) (r : Nat) :
    findRegion s name = .ok (some r) ↔ RName s r name.parts := by
  unfold findRegion
  obtain ⟨R, h0, hpar⟩ := t.root
  have hroot : RName s 0 [R.name] := .root h0 hpar
  cases hparts : name.parts with
  | nil => exact absurd hparts hne
  | cons n ns =>
    simp only [h0]
    by_cases hn : n = R.name
    · subst hn
      rw [if_neg (by simp)]
      simp only [Except.ok.injEq]
      exact findSubregion_name t hroot ns r
    · rw [if_pos hn]
      simp only [Except.ok.injEq, reduceCtorEq, false_iff]
      intro h
      apply hn
      have top : ∀ (q : Nat) (ks : List String), RName s q ks → ks.head? = some R.name := by
        intro q ks hq
        induction hq with
        | @root q Q hr hp =>
          have := t.rorphan q Q hr hp
          subst this
          rw [h0] at hr; cases hr; rfl
        | @sub q q' Q ks hr hp hk ih =>
          cases ks with
          | nil => simp at ih
          | cons k ks => simpa using ih
      have := top r _ h
      simpa using this

/-! ## Names never change -/

/-- Regions survive with their names. -/
def RExt (s s' : St K G) : Prop :=
  ∀ (r : Nat) (R : Region), s.regions[r]? = some R → ∃ R', s'.regions[r]? = some R' ∧
    R'.name = R.name ∧ R'.parent = R.parent

theorem RExt.refl (s : St K G) : RExt s s := fun _ R h => ⟨R, h, rfl, rfl⟩

theorem RExt.trans {s1 s2 s3 : St K G} (h1 : RExt s1 s2) (h2 : RExt s2 s3) : RExt s1 s3 := by
  intro r R h
  obtain ⟨R', a1, a2, a3⟩ := h1 r R h
  obtain ⟨R'', b1, b2, b3⟩ := h2 r R' a1
  exact ⟨R'', b1, b2.trans a2, b3.trans a3⟩

theorem RExt.of_eq {s s' : St K G} (h : s'.regions = s.regions) : RExt s s' :=
  fun _ R hR => ⟨R, by rw [h]; exact hR, rfl, rfl⟩

theorem Prim.rext {env : Env K} {s s' : St K G} {l : List (Nat × Data K G)}
    (h : Prim env s l s') : RExt s s' := by
  cases h with
  | addRegion r R n hr hn ha =>
    intro q Q hQ
    by_cases hq : r = q
    · subst hq
      refine ⟨{ Q with children := Q.children ++ [(n, s.regions.length)] },
        getElem?_append_of_some ?_, rfl, rfl⟩
      rw [getElem?_modify_self, hQ]; rfl
    · exact ⟨Q, getElem?_append_of_some (by rw [getElem?_modify_ne _ _ hq]; exact hQ), rfl, rfl⟩
  | addRoot r R n hr hn =>
    intro q Q hQ
    by_cases hq : r = q
    · subst hq
      refine ⟨{ Q with params := Q.params ++ [(n, s.params.length)] }, ?_, rfl, rfl⟩
      show (s.regions.modify _ _)[_]? = _
      rw [getElem?_modify_self, hQ]; rfl
    · refine ⟨Q, ?_, rfl, rfl⟩
      show (s.regions.modify _ _)[_]? = _
      rw [getElem?_modify_ne _ _ hq]; exact hQ
  | addChild p P n hp hn hw hr => exact .of_eq rfl
  | typed p P P' ty u tps e hp ht hu hf => exact .of_eq rfl
  | typedRead p P P' ty u tps hp ht hu hf => exact .of_eq rfl
  | read p P ty hp ht => exact .of_eq rfl
  | mark p P hp hc hr => exact .of_eq rfl
  | newS p P u v hp ht hr hv => exact .of_eq rfl
  | newT p P u tps ty ext v hp hty ht hr hv => exact .of_eq rfl
  | newG p P hp ht hr => exact .of_eq rfl
  | sWritable i v P hv hp hw => exact .of_eq rfl
  | gWritable i v P hv hp hw => exact .of_eq rfl
  | tWritable i v P hv hp hw => exact .of_eq rfl
  | storeS i v x hv hw => exact .of_eq rfl
  | storeG i v g hv hw => exact .of_eq rfl
  | tRead i v hv => exact .of_eq rfl
  | tCache i v d hv hd => exact .of_eq rfl
  | tLocked i b => exact .of_eq rfl
  | tStore i v P d l hv hl hd hp hc => exact .of_eq rfl

theorem Steps.rext {env : Env K} {s s' : St K G} {l : List (Nat × Data K G)}
    (h : Steps env s l s') : RExt s s' := by
  induction h with
  | refl => exact .refl s
  | tail _ hp ih => exact ih.trans hp.rext

theorem RName.mono {s s' : St K G} (hx : RExt s s') {r : Nat} {ns : List String}
    (h : RName s r ns) : RName s' r ns := by
  induction h with
  | @root r R hr hp =>
    obtain ⟨R', h1, h2, h3⟩ := hx _ _ hr
    rw [← h2]; exact .root h1 (h3.trans hp)
  | @sub r q R ns hr hp _ ih =>
    obtain ⟨R', h1, h2, h3⟩ := hx _ _ hr
    rw [← h2]; exact .sub h1 (h3.trans hp) ih

theorem PName.mono {s s' : St K G} (hx : PExt s s') {r : Nat} {ns : List String}
    (h : PName s r ns) : PName s' r ns := by
  induction h with
  | @top r R hr hp =>
    obtain ⟨R', h1, hle⟩ := hx _ _ hr
    rw [← hle.name]; exact .top h1 (hle.parent.trans hp)
  | @sub r q R ns hr hp _ ih =>
    obtain ⟨R', h1, hle⟩ := hx _ _ hr
    rw [← hle.name]; exact .sub h1 (hle.parent.trans hp) ih

theorem HasKey.mono {s s' : St K G} (hp : PExt s s') (hr : RExt s s') {p : Nat} {k : Key}
    (h : HasKey s p k) : HasKey s' p k := by
  obtain ⟨P, h1, h2, h3⟩ := h
  obtain ⟨P', h1', hle⟩ := hp p P h1
  exact ⟨P', h1', by rw [hle.region]; exact h2.mono hr, h3.mono hp⟩

theorem Steps.key {env : Env K} {s s' : St K G} {l : List (Nat × Data K G)}
    (h : Steps env s l s') (hi : Inv env s) {p : Nat} {k : Key} (hk : HasKey s p k) :
    HasKey s' p k := hk.mono (h.pext hi) h.rext

theorem call_rext {env : Env K} (op : Op K G) {s : St K G} (hi : Inv env s) :
    RExt s (call env op s).2 := by
  obtain ⟨l, h⟩ := call_steps env op s hi.good.tyOK
  exact h.rext

theorem after_rext {env : Env K} (ops : List (Op K G)) {s : St K G} (hi : Inv env s) :
    RExt s (after env s ops) := by
  induction ops generalizing s with
  | nil => exact .refl s
  | cons op ops ih => rw [after_cons]; exact (call_rext op hi).trans (ih (call_inv op hi))

/-- `info` in terms of keys. -/
theorem infoCall_some {s : St K G} (t : Tree s) {name region : HName} (hn : name.truthy = true)
    (hne : name.parts ≠ []) (hre : region.parts ≠ []) (I : Info) :
    infoCall s name region = .ok (some I) ↔
      ∃ p P, HasKey s p (region.parts, name.parts) ∧ s.params[p]? = some P ∧ I = infoOf s p P := by
  unfold infoCall
  constructor
  · intro h
    cases hr : findRegion s region with
    | error e => rw [hr] at h; simp at h
    | ok o =>
      rw [hr] at h
      cases o with
      | none => simp at h
      | some r =>
        simp only at h
        have hrn := (findRegion_name t region hre r).1 hr
        cases hp : findParam s r name with
        | error e => rw [hp] at h; simp at h
        | ok o =>
          rw [hp] at h
          cases o with
          | none => simp at h
          | some p =>
            have hk := (findParam_name t hrn name hn hne p).1 hp
            obtain ⟨P, h1, _⟩ := id hk
            simp only [h1, Except.ok.injEq, Option.some.injEq] at h
            exact ⟨p, P, hk, h1, h.symm⟩
  · rintro ⟨p, P, hk, hP, rfl⟩
    obtain ⟨P', h1, h2, h3⟩ := hk
    have hr := (findRegion_name t region hre _).2 h2
    rw [hr]
    have hp := (findParam_name t h2 name hn hne p).2 ⟨P', h1, h2, h3⟩
    simp only [hp, hP]

/-- When `info` finds nothing. -/
theorem infoCall_none {s : St K G} (t : Tree s) {name region : HName} (hn : name.truthy = true)
    (hne : name.parts ≠ []) (hre : region.parts ≠ []) :
    infoCall s name region = .ok none ↔ ¬ ∃ p, HasKey s p (region.parts, name.parts) := by
  constructor
  · rintro h ⟨p, hk⟩
    obtain ⟨P, h1, _⟩ := id hk
    rw [(infoCall_some t hn hne hre (infoOf s p P)).2 ⟨p, P, hk, h1, rfl⟩] at h
    simp at h
  · intro h
    have noErr : ∃ o, infoCall s name region = .ok o := by
      unfold infoCall
      obtain ⟨R, h0, hpar⟩ := t.root
      have hf : ∃ o, findRegion s region = .ok o := by
        unfold findRegion
        cases hparts : region.parts with
        | nil => exact absurd hparts hre
        | cons n ns => simp only [h0]; split <;> exact ⟨_, rfl⟩
      obtain ⟨o, ho⟩ := hf
      rw [ho]
      cases o with
      | none => exact ⟨none, rfl⟩
      | some r =>
        simp only
        have hrn := (findRegion_name t region hre r).1 ho
        obtain ⟨R', hR'⟩ := hrn.valid
        have hf : ∃ o, findParam s r name = .ok o := by
          unfold findParam
          rw [if_pos hn]
          cases hparts : name.parts with
          | nil => exact absurd hparts hne
          | cons n ns => simp only [hR']; split <;> exact ⟨_, rfl⟩
        obtain ⟨o, ho'⟩ := hf
        rw [ho']
        cases o with
        | none => exact ⟨none, rfl⟩
        | some p =>
          obtain ⟨P, h1, _⟩ := (findParam_name t hrn name hn hne p).1 ho'
          simp only [h1]; exact ⟨_, rfl⟩
    obtain ⟨o, ho⟩ := noErr
    cases o with
    | none => exact ho
    | some I =>
      obtain ⟨p, P, hk, _⟩ := (infoCall_some t hn hne hre I).1 ho
      exact absurd ⟨p, hk⟩ h

end Openscm
