import Verif.CoreSteps
import Mathlib.Data.List.Nodup

/-!
# The trees of regions and parameters

Helper file: in every reachable state regions and parameters form trees with unique keys.
-/

set_option linter.unusedSectionVars false

namespace Openscm
variable {K G : Type} [Field K] [LinearOrder K] [IsStrictOrderedRing K]

theorem getElem?_append_of_some {α : Type} {l m : List α} {i : Nat} {a : α} (h : l[i]? = some a) :
    (l ++ m)[i]? = some a := by
  rw [List.getElem?_append_left (List.getElem?_eq_some_iff.1 h).1]; exact h

theorem getElem?_snoc_cases {α : Type} {l : List α} {a b : α} {i : Nat}
    (h : (l ++ [b])[i]? = some a) : l[i]? = some a ∨ (i = l.length ∧ a = b) := by
  rcases Nat.lt_trichotomy i l.length with hi | hi | hi
  · left; rw [List.getElem?_append_left hi] at h; exact h
  · right; subst hi; simp at h; exact ⟨rfl, h.symm⟩
  · rw [List.getElem?_eq_none (by simp; omega)] at h; simp at h

theorem getElem?_modify_cases {α : Type} {l : List α} {p i : Nat} {f : α → α} {a : α}
    (h : (l.modify p f)[i]? = some a) :
    (p ≠ i ∧ l[i]? = some a) ∨ (p = i ∧ ∃ b, l[i]? = some b ∧ a = f b) := by
  by_cases hi : p = i
  · right
    subst hi
    rw [getElem?_modify_self] at h
    obtain ⟨b, hb, he⟩ := Option.map_eq_some_iff.1 h
    exact ⟨rfl, b, hb, he.symm⟩
  · left; rw [getElem?_modify_ne _ _ hi] at h; exact ⟨hi, h⟩

theorem lookup_mem {α : Type} {l : List (String × α)} {n : String} {c : α}
    (h : l.lookup n = some c) : (n, c) ∈ l := by
  induction l with
  | nil => simp at h
  | cons a l ih =>
    obtain ⟨m, d⟩ := a
    rw [List.lookup_cons] at h
    by_cases hm : n = m
    · subst hm; simp at h; subst h; simp
    · have : (n == m) = false := by simp [hm]
      rw [this] at h; simp at h
      exact List.mem_cons_of_mem _ (ih h)

theorem lookup_of_mem {α : Type} {l : List (String × α)} {n : String} {c : α}
    (hn : (l.map Prod.fst).Nodup) (h : (n, c) ∈ l) : l.lookup n = some c := by
  induction l with
  | nil => simp at h
  | cons a l ih =>
    obtain ⟨m, d⟩ := a
    rw [List.lookup_cons]
    simp only [List.map_cons, List.nodup_cons] at hn
    rcases List.mem_cons.1 h with h | h
    · obtain ⟨rfl, rfl⟩ := Prod.mk.inj h; simp
    · have : n ≠ m := by
        intro hnm
        exact hn.1 (List.mem_map.2 ⟨(n, c), h, hnm⟩)
      have h2 : (n == m) = false := by simp [this]
      rw [h2]; exact ih hn.2 h

theorem lookup_none {α : Type} {l : List (String × α)} {n : String} (h : l.lookup n = none) :
    n ∉ l.map Prod.fst := by
  induction l with
  | nil => simp
  | cons a l ih =>
    obtain ⟨m, d⟩ := a
    rw [List.lookup_cons] at h
    by_cases hm : n = m
    · subst hm; simp at h
    · have : (n == m) = false := by simp [hm]
      rw [this] at h
      simp only [List.map_cons, List.mem_cons, not_or]
      exact ⟨hm, ih h⟩

/-- The tree invariant. -/
structure Tree (s : St K G) : Prop where
  root : ∃ R, s.regions[0]? = some R ∧ R.parent = none
  rchild : ∀ (r : Nat) (R : Region) (n : String) (c : Nat), s.regions[r]? = some R →
    (n, c) ∈ R.children → r < c ∧ ∃ C, s.regions[c]? = some C ∧ C.name = n ∧ C.parent = some r
  rparent : ∀ (c : Nat) (C : Region) (r : Nat), s.regions[c]? = some C → C.parent = some r →
    ∃ R, s.regions[r]? = some R ∧ (C.name, c) ∈ R.children
  rorphan : ∀ (c : Nat) (C : Region), s.regions[c]? = some C → C.parent = none → c = 0
  rkeys : ∀ (r : Nat) (R : Region), s.regions[r]? = some R → (R.children.map Prod.fst).Nodup
  ragg : ∀ (r : Nat) (R : Region), s.regions[r]? = some R → R.aggregated = false
  tops : ∀ (r : Nat) (R : Region) (n : String) (p : Nat), s.regions[r]? = some R →
    (n, p) ∈ R.params → ∃ P, s.params[p]? = some P ∧ P.name = n ∧ P.parent = none ∧ P.region = r
  topkeys : ∀ (r : Nat) (R : Region), s.regions[r]? = some R → (R.params.map Prod.fst).Nodup
  pchild : ∀ (p : Nat) (P : Param K G) (n : String) (c : Nat), s.params[p]? = some P →
    (n, c) ∈ P.children → p < c ∧ ∃ C, s.params[c]? = some C ∧ C.name = n ∧ C.parent = some p ∧
      C.region = P.region
  pparent : ∀ (c : Nat) (C : Param K G) (p : Nat), s.params[c]? = some C → C.parent = some p →
    ∃ P, s.params[p]? = some P ∧ (C.name, c) ∈ P.children
  porphan : ∀ (p : Nat) (P : Param K G), s.params[p]? = some P → P.parent = none →
    ∃ R, s.regions[P.region]? = some R ∧ (P.name, p) ∈ R.params
  pkeys : ∀ (p : Nat) (P : Param K G), s.params[p]? = some P → (P.children.map Prod.fst).Nodup

/-- What the tree invariant depends on. -/
def Param.shape (P : Param K G) : String × Nat × Option Nat × List (String × Nat) :=
  (P.name, P.region, P.parent, P.children)

theorem shape_eq {P Q : Param K G} (h : P.shape = Q.shape) :
    P.name = Q.name ∧ P.region = Q.region ∧ P.parent = Q.parent ∧ P.children = Q.children := by
  unfold Param.shape at h
  simp only [Prod.mk.injEq] at h
  exact h

/-- Same regions and same shapes. -/
def SameShape (s s' : St K G) : Prop :=
  s'.regions = s.regions ∧ ∀ (p : Nat),
    (s'.params[p]?).map Param.shape = (s.params[p]?).map Param.shape

theorem SameShape.fwd {s s' : St K G} (h : SameShape s s') {p : Nat} {P : Param K G}
    (hP : s.params[p]? = some P) : ∃ P', s'.params[p]? = some P' ∧ P'.shape = P.shape := by
  have := h.2 p
  rw [hP] at this
  simp only [Option.map_some, Option.map_eq_some_iff] at this
  exact this

theorem SameShape.bwd {s s' : St K G} (h : SameShape s s') {p : Nat} {P' : Param K G}
    (hP : s'.params[p]? = some P') : ∃ P, s.params[p]? = some P ∧ P'.shape = P.shape := by
  have := h.2 p
  rw [hP] at this
  simp only [Option.map_some] at this
  obtain ⟨P, h1, h2⟩ := Option.map_eq_some_iff.1 this.symm
  exact ⟨P, h1, h2.symm⟩

theorem SameShape.of_eq {s s' : St K G} (h : s'.regions = s.regions) (h' : s'.params = s.params) :
    SameShape s s' := ⟨h, fun p => by rw [h']⟩

theorem SameShape.setParam {s : St K G} {p : Nat} {P : Param K G} {f : Param K G → Param K G}
    (hp : s.params[p]? = some P) (hf : (f P).shape = P.shape) : SameShape s (s.setParam p f) := by
  refine ⟨rfl, fun q => ?_⟩
  by_cases h : p = q
  · subst h; rw [setParam_self, hp]; simp [hf]
  · rw [setParam_ne s f h]

theorem SameShape.trans {s1 s2 s3 : St K G} (h1 : SameShape s1 s2) (h2 : SameShape s2 s3) :
    SameShape s1 s3 := ⟨h2.1.trans h1.1, fun p => (h2.2 p).trans (h1.2 p)⟩

theorem Tree.of_sameShape {s s' : St K G} (h : SameShape s s') (t : Tree s) : Tree s' where
  root := by rw [h.1]; exact t.root
  rchild := by rw [h.1]; exact t.rchild
  rparent := by rw [h.1]; exact t.rparent
  rorphan := by rw [h.1]; exact t.rorphan
  rkeys := by rw [h.1]; exact t.rkeys
  ragg := by rw [h.1]; exact t.ragg
  topkeys := by rw [h.1]; exact t.topkeys
  tops r R n p hR hm := by
    rw [h.1] at hR
    obtain ⟨P, h1, h2, h3, h4⟩ := t.tops r R n p hR hm
    obtain ⟨P', g1, g2⟩ := h.fwd h1
    obtain ⟨e1, e2, e3, e4⟩ := shape_eq g2
    exact ⟨P', g1, e1.trans h2, e3.trans h3, e2.trans h4⟩
  pchild p P' n c hP hm := by
    obtain ⟨P, g1, g2⟩ := h.bwd hP
    obtain ⟨e1, e2, e3, e4⟩ := shape_eq g2
    obtain ⟨h0, C, h1, h2, h3, h4⟩ := t.pchild p P n c g1 (by rw [← e4]; exact hm)
    obtain ⟨C', k1, k2⟩ := h.fwd h1
    obtain ⟨f1, f2, f3, f4⟩ := shape_eq k2
    exact ⟨h0, C', k1, f1.trans h2, f3.trans h3, by rw [f2, h4, e2]⟩
  pparent c C' p hC hp := by
    obtain ⟨C, g1, g2⟩ := h.bwd hC
    obtain ⟨e1, e2, e3, e4⟩ := shape_eq g2
    obtain ⟨P, h1, h2⟩ := t.pparent c C p g1 (by rw [← e3]; exact hp)
    obtain ⟨P', k1, k2⟩ := h.fwd h1
    obtain ⟨f1, f2, f3, f4⟩ := shape_eq k2
    exact ⟨P', k1, by rw [f4, e1]; exact h2⟩
  porphan p P' hP hn := by
    obtain ⟨P, g1, g2⟩ := h.bwd hP
    obtain ⟨e1, e2, e3, e4⟩ := shape_eq g2
    obtain ⟨R, h1, h2⟩ := t.porphan p P g1 (by rw [← e3]; exact hn)
    exact ⟨R, by rw [h.1, e2]; exact h1, by rw [e1]; exact h2⟩
  pkeys p P' hP := by
    obtain ⟨P, g1, g2⟩ := h.bwd hP
    obtain ⟨e1, e2, e3, e4⟩ := shape_eq g2
    rw [e4]; exact t.pkeys p P g1

theorem Tree.init (root : String) : Tree (St.init root : St K G) := by
  have key : ∀ (r : Nat) (R : Region), (St.init root : St K G).regions[r]? = some R →
      r = 0 ∧ R = newRegion root none := by
    intro r R h
    simp only [St.init] at h
    rcases Nat.eq_zero_or_pos r with h0 | h0
    · subst h0; simp at h; exact ⟨rfl, h.symm⟩
    · rw [List.getElem?_eq_none (by simp; omega)] at h; simp at h
  constructor
  · exact ⟨newRegion root none, rfl, rfl⟩
  · intro r R n c h hm; obtain ⟨rfl, rfl⟩ := key r R h; simp [newRegion] at hm
  · intro c C r h hp; obtain ⟨rfl, rfl⟩ := key c C h; simp [newRegion] at hp
  · intro c C h _; exact (key c C h).1
  · intro r R h; obtain ⟨rfl, rfl⟩ := key r R h; simp [newRegion]
  · intro r R h; obtain ⟨rfl, rfl⟩ := key r R h; simp [newRegion]
  · intro r R n p h hm; obtain ⟨rfl, rfl⟩ := key r R h; simp [newRegion] at hm
  · intro r R h; obtain ⟨rfl, rfl⟩ := key r R h; simp [newRegion]
  · intro p P n c h; simp [St.init] at h
  · intro p P n h; simp [St.init] at h
  · intro p P h; simp [St.init] at h
  · intro p P h; simp [St.init] at h

theorem length_of_getElem? {α : Type} {l : List α} {i : Nat} {a : α} (h : l[i]? = some a) :
    i < l.length := (List.getElem?_eq_some_iff.1 h).1

theorem nodup_snoc {l : List String} {n : String} (h : l.Nodup) (hn : n ∉ l) : (l ++ [n]).Nodup := by
  rw [List.nodup_append]
  refine ⟨h, by simp, ?_⟩
  intro a ha b hb
  simp at hb
  rintro rfl
  exact hn (hb ▸ ha)

/-- Adding a subregion. -/
theorem Tree.addRegion {s : St K G} (t : Tree s) {r : Nat} {R : Region} {n : String}
    (hr : s.regions[r]? = some R) (hn : R.children.lookup n = none) :
    Tree { s with
        regions := s.regions.modify r
          (fun R => { R with children := R.children ++ [(n, s.regions.length)] })
          ++ [newRegion n (some r)] } := by
  have hrl := length_of_getElem? hr
  -- old regions, seen from the new state
  have new : (s.regions.modify r (fun R => { R with children := R.children ++ [(n, s.regions.length)] })
      ++ [newRegion n (some r)])[s.regions.length]? = some (newRegion n (some r)) := by
    rw [List.getElem?_append_right (by simp)]; simp
  have self : (s.regions.modify r (fun R => { R with children := R.children ++ [(n, s.regions.length)] })
      ++ [newRegion n (some r)])[r]? =
      some { R with children := R.children ++ [(n, s.regions.length)] } := by
    refine getElem?_append_of_some ?_
    rw [getElem?_modify_self, hr]; rfl
  have other : ∀ (q : Nat) (Q : Region), q ≠ r → s.regions[q]? = some Q →
      (s.regions.modify r (fun R => { R with children := R.children ++ [(n, s.regions.length)] })
        ++ [newRegion n (some r)])[q]? = some Q := by
    intro q Q hq hQ
    refine getElem?_append_of_some ?_
    rw [getElem?_modify_ne _ _ (Ne.symm hq)]; exact hQ
  have fwd : ∀ (q : Nat) (Q : Region), s.regions[q]? = some Q → ∃ Q',
      (s.regions.modify r (fun R => { R with children := R.children ++ [(n, s.regions.length)] })
        ++ [newRegion n (some r)])[q]? = some Q' ∧ Q'.name = Q.name ∧ Q'.parent = Q.parent ∧
        Q'.params = Q.params ∧ (∀ c, c ∈ Q.children → c ∈ Q'.children) := by
    intro q Q hQ
    by_cases hq : q = r
    · subst hq
      rw [hr] at hQ; cases hQ
      exact ⟨_, self, rfl, rfl, rfl, fun c hc => by simp [hc]⟩
    · exact ⟨Q, other q Q hq hQ, rfl, rfl, rfl, fun c hc => hc⟩
  have bwd : ∀ (q : Nat) (Q' : Region),
      (s.regions.modify r (fun R => { R with children := R.children ++ [(n, s.regions.length)] })
        ++ [newRegion n (some r)])[q]? = some Q' →
      (q = s.regions.length ∧ Q' = newRegion n (some r)) ∨
      (q = r ∧ Q' = { R with children := R.children ++ [(n, s.regions.length)] }) ∨
      (q ≠ r ∧ s.regions[q]? = some Q') := by
    intro q Q' hQ
    rcases getElem?_snoc_cases hQ with h | ⟨h, h'⟩
    · rcases getElem?_modify_cases h with ⟨h1, h2⟩ | ⟨h1, Q, h2, h3⟩
      · exact Or.inr (Or.inr ⟨Ne.symm h1, h2⟩)
      · subst h1; rw [hr] at h2; cases h2; exact Or.inr (Or.inl ⟨rfl, h3⟩)
    · left; simp at h; exact ⟨h, h'⟩
  constructor
  · obtain ⟨R0, h0, h1⟩ := t.root
    obtain ⟨Q, g1, g2, g3, g4, g5⟩ := fwd 0 R0 h0
    exact ⟨Q, g1, g3.trans h1⟩
  · intro q Q' m c hQ hm
    rcases bwd q Q' hQ with ⟨rfl, rfl⟩ | ⟨rfl, rfl⟩ | ⟨hq, hQ0⟩
    · simp [newRegion] at hm
    · simp only [List.mem_append, List.mem_singleton] at hm
      rcases hm with hm | hm
      · obtain ⟨h0, C, h1, h2, h3⟩ := t.rchild q R m c hr hm
        obtain ⟨C', g1, g2, g3, _⟩ := fwd c C h1
        exact ⟨h0, C', g1, g2.trans h2, g3.trans h3⟩
      · obtain ⟨rfl, rfl⟩ := Prod.mk.inj hm
        exact ⟨hrl, _, new, rfl, rfl⟩
    · obtain ⟨h0, C, h1, h2, h3⟩ := t.rchild q Q' m c hQ0 hm
      obtain ⟨C', g1, g2, g3, _⟩ := fwd c C h1
      exact ⟨h0, C', g1, g2.trans h2, g3.trans h3⟩
  · intro c C' q hC hp
    rcases bwd c C' hC with ⟨rfl, rfl⟩ | ⟨rfl, rfl⟩ | ⟨hq, hC0⟩
    · simp only [newRegion, Option.some.injEq] at hp; subst hp
      exact ⟨_, self, by simp [newRegion]⟩
    · obtain ⟨Q, h1, h2⟩ := t.rparent c R q hr hp
      obtain ⟨Q', g1, _, _, _, g5⟩ := fwd q Q h1
      exact ⟨Q', g1, g5 _ h2⟩
    · obtain ⟨Q, h1, h2⟩ := t.rparent c C' q hC0 hp
      obtain ⟨Q', g1, _, _, _, g5⟩ := fwd q Q h1
      exact ⟨Q', g1, g5 _ h2⟩
  · intro c C' hC hp
    rcases bwd c C' hC with ⟨rfl, rfl⟩ | ⟨rfl, rfl⟩ | ⟨hq, hC0⟩
    · simp [newRegion] at hp
    · exact t.rorphan c R hr hp
    · exact t.rorphan c C' hC0 hp
  · intro c C' hC
    rcases bwd c C' hC with ⟨rfl, rfl⟩ | ⟨rfl, rfl⟩ | ⟨hq, hC0⟩
    · simp [newRegion]
    · simp only [List.map_append, List.map_cons, List.map_nil]
      exact nodup_snoc (t.rkeys c R hr) (lookup_none hn)
    · exact t.rkeys c C' hC0
  · intro c C' hC
    rcases bwd c C' hC with ⟨rfl, rfl⟩ | ⟨rfl, rfl⟩ | ⟨hq, hC0⟩
    · simp [newRegion]
    · exact t.ragg c R hr
    · exact t.ragg c C' hC0
  · intro c C' m p hC hm
    rcases bwd c C' hC with ⟨rfl, rfl⟩ | ⟨rfl, rfl⟩ | ⟨hq, hC0⟩
    · simp [newRegion] at hm
    · exact t.tops c R m p hr hm
    · exact t.tops c C' m p hC0 hm
  · intro c C' hC
    rcases bwd c C' hC with ⟨rfl, rfl⟩ | ⟨rfl, rfl⟩ | ⟨hq, hC0⟩
    · simp [newRegion]
    · exact t.topkeys c R hr
    · exact t.topkeys c C' hC0
  · exact t.pchild
  · exact t.pparent
  · intro p P hP hpar
    obtain ⟨Q, h1, h2⟩ := t.porphan p P hP hpar
    obtain ⟨Q', g1, _, _, g4, _⟩ := fwd _ Q h1
    exact ⟨Q', g1, by rw [g4]; exact h2⟩
  · exact t.pkeys

/-- Adding a parameter to a region. -/
theorem Tree.addRoot {s : St K G} (t : Tree s) {r : Nat} {R : Region} {n : String}
    (hr : s.regions[r]? = some R) (hn : R.params.lookup n = none) :
    Tree { s with
        regions := s.regions.modify r
          (fun R => { R with params := R.params ++ [(n, s.params.length)] })
        params := s.params ++ [newParam n r none] } := by
  have hnew : (s.params ++ [newParam n r none])[s.params.length]? = some (newParam n r none) := by
    simp
  have bwdP : ∀ (p : Nat) (P : Param K G), (s.params ++ [newParam n r none])[p]? = some P →
      s.params[p]? = some P ∨ (p = s.params.length ∧ P = newParam n r none) :=
    fun p P h => getElem?_snoc_cases h
  have self : (s.regions.modify r (fun R => { R with params := R.params ++ [(n, s.params.length)] }))[r]?
      = some { R with params := R.params ++ [(n, s.params.length)] } := by
    rw [getElem?_modify_self, hr]; rfl
  have fwd : ∀ (q : Nat) (Q : Region), s.regions[q]? = some Q → ∃ Q',
      (s.regions.modify r (fun R => { R with params := R.params ++ [(n, s.params.length)] }))[q]? = some Q'
        ∧ Q'.name = Q.name ∧ Q'.parent = Q.parent ∧
        Q'.children = Q.children ∧ (∀ c, c ∈ Q.params → c ∈ Q'.params) := by
    intro q Q hQ
    by_cases hq : q = r
    · subst hq
      rw [hr] at hQ; cases hQ
      exact ⟨_, self, rfl, rfl, rfl, fun c hc => by simp [hc]⟩
    · exact ⟨Q, by rw [getElem?_modify_ne _ _ (Ne.symm hq)]; exact hQ, rfl, rfl, rfl, fun c hc => hc⟩
  have bwd : ∀ (q : Nat) (Q' : Region),
      (s.regions.modify r (fun R => { R with params := R.params ++ [(n, s.params.length)] }))[q]? = some Q' →
      (q = r ∧ Q' = { R with params := R.params ++ [(n, s.params.length)] }) ∨
      (q ≠ r ∧ s.regions[q]? = some Q') := by
    intro q Q' h
    rcases getElem?_modify_cases h with ⟨h1, h2⟩ | ⟨h1, Q, h2, h3⟩
    · exact Or.inr ⟨Ne.symm h1, h2⟩
    · subst h1; rw [hr] at h2; cases h2; exact Or.inl ⟨rfl, h3⟩
  constructor
  · obtain ⟨R0, h0, h1⟩ := t.root
    obtain ⟨Q, g1, g2, g3, g4, g5⟩ := fwd 0 R0 h0
    exact ⟨Q, g1, g3.trans h1⟩
  · intro q Q' m c hQ hm
    have : ∃ Q, s.regions[q]? = some Q ∧ Q'.children = Q.children := by
      rcases bwd q Q' hQ with ⟨rfl, rfl⟩ | ⟨hq, hQ0⟩
      · exact ⟨R, hr, rfl⟩
      · exact ⟨Q', hQ0, rfl⟩
    obtain ⟨Q, k1, k2⟩ := this
    obtain ⟨h0, C, h1, h2, h3⟩ := t.rchild q Q m c k1 (by rw [← k2]; exact hm)
    obtain ⟨C', g1, g2, g3, _⟩ := fwd c C h1
    exact ⟨h0, C', g1, g2.trans h2, g3.trans h3⟩
  · intro c C' q hC hp
    have : ∃ C, s.regions[c]? = some C ∧ C'.name = C.name ∧ C'.parent = C.parent := by
      rcases bwd c C' hC with ⟨rfl, rfl⟩ | ⟨hq, hQ0⟩
      · exact ⟨R, hr, rfl, rfl⟩
      · exact ⟨C', hQ0, rfl, rfl⟩
    obtain ⟨C, k1, k2, k3⟩ := this
    obtain ⟨Q, h1, h2⟩ := t.rparent c C q k1 (by rw [← k3]; exact hp)
    obtain ⟨Q', g1, _, _, g4, _⟩ := fwd q Q h1
    exact ⟨Q', g1, by rw [g4, k2]; exact h2⟩
  · intro c C' hC hp
    rcases bwd c C' hC with ⟨rfl, rfl⟩ | ⟨hq, hC0⟩
    · exact t.rorphan c R hr hp
    · exact t.rorphan c C' hC0 hp
  · intro c C' hC
    rcases bwd c C' hC with ⟨rfl, rfl⟩ | ⟨hq, hC0⟩
    · exact t.rkeys c R hr
    · exact t.rkeys c C' hC0
  · intro c C' hC
    rcases bwd c C' hC with ⟨rfl, rfl⟩ | ⟨hq, hC0⟩
    · exact t.ragg c R hr
    · exact t.ragg c C' hC0
  · intro q Q' m p hQ hm
    have old : ∀ Q, s.regions[q]? = some Q → (m, p) ∈ Q.params →
        ∃ P, (s.params ++ [newParam n r none])[p]? = some P ∧ P.name = m ∧ P.parent = none ∧
          P.region = q := by
      intro Q hQ0 hm0
      obtain ⟨P, h1, h2⟩ := t.tops q Q m p hQ0 hm0
      exact ⟨P, getElem?_append_of_some h1, h2⟩
    rcases bwd q Q' hQ with ⟨rfl, rfl⟩ | ⟨hq, hQ0⟩
    · simp only [List.mem_append, List.mem_singleton] at hm
      rcases hm with hm | hm
      · exact old R hr hm
      · obtain ⟨rfl, rfl⟩ := Prod.mk.inj hm
        exact ⟨_, hnew, rfl, rfl, rfl⟩
    · exact old Q' hQ0 hm
  · intro c C' hC
    rcases bwd c C' hC with ⟨rfl, rfl⟩ | ⟨hq, hC0⟩
    · simp only [List.map_append, List.map_cons, List.map_nil]
      exact nodup_snoc (t.topkeys c R hr) (lookup_none hn)
    · exact t.topkeys c C' hC0
  · intro p P m c hP hm
    rcases bwdP p P hP with h | ⟨rfl, rfl⟩
    · obtain ⟨h0, C, h1, h2⟩ := t.pchild p P m c h hm
      exact ⟨h0, C, getElem?_append_of_some h1, h2⟩
    · simp [newParam] at hm
  · intro c C p hC hp
    rcases bwdP c C hC with h | ⟨rfl, rfl⟩
    · obtain ⟨P, h1, h2⟩ := t.pparent c C p h hp
      exact ⟨P, getElem?_append_of_some h1, h2⟩
    · simp [newParam] at hp
  · intro p P hP hpar
    rcases bwdP p P hP with h | ⟨rfl, rfl⟩
    · obtain ⟨Q, h1, h2⟩ := t.porphan p P h hpar
      obtain ⟨Q', g1, _, _, _, g5⟩ := fwd _ Q h1
      exact ⟨Q', g1, g5 _ h2⟩
    · exact ⟨_, self, by simp [newParam]⟩
  · intro p P hP
    rcases bwdP p P hP with h | ⟨rfl, rfl⟩
    · exact t.pkeys p P h
    · simp [newParam]

/-- Adding a child parameter. -/
theorem Tree.addChild {s : St K G} (t : Tree s) {r : Nat} {R : Param K G} {n : String}
    (hr : s.params[r]? = some R) (hn : R.children.lookup n = none) :
    Tree { s with
        params := s.params.modify r
          (fun P => { P with children := P.children ++ [(n, s.params.length)] })
          ++ [newParam n R.region (some r)] } := by
  have hrl := length_of_getElem? hr
  have new : (s.params.modify r (fun R => { R with children := R.children ++ [(n, s.params.length)] })
      ++ [newParam n R.region (some r)])[s.params.length]? = some (newParam n R.region (some r)) := by
    rw [List.getElem?_append_right (by simp)]; simp
  have self : (s.params.modify r (fun R => { R with children := R.children ++ [(n, s.params.length)] })
      ++ [newParam n R.region (some r)])[r]? =
      some { R with children := R.children ++ [(n, s.params.length)] } := by
    refine getElem?_append_of_some ?_
    rw [getElem?_modify_self, hr]; rfl
  have fwd : ∀ (q : Nat) (Q : Param K G), s.params[q]? = some Q → ∃ Q',
      (s.params.modify r (fun R => { R with children := R.children ++ [(n, s.params.length)] })
        ++ [newParam n R.region (some r)])[q]? = some Q' ∧ Q'.name = Q.name ∧
        Q'.parent = Q.parent ∧ Q'.region = Q.region ∧ (∀ c, c ∈ Q.children → c ∈ Q'.children) := by
    intro q Q hQ
    by_cases hq : q = r
    · subst hq
      rw [hr] at hQ; cases hQ
      exact ⟨_, self, rfl, rfl, rfl, fun c hc => by simp [hc]⟩
    · refine ⟨Q, getElem?_append_of_some ?_, rfl, rfl, rfl, fun c hc => hc⟩
      rw [getElem?_modify_ne _ _ (Ne.symm hq)]; exact hQ
  have bwd : ∀ (q : Nat) (Q' : Param K G),
      (s.params.modify r (fun R => { R with children := R.children ++ [(n, s.params.length)] })
        ++ [newParam n R.region (some r)])[q]? = some Q' →
      (q = s.params.length ∧ Q' = newParam n R.region (some r)) ∨
      (q = r ∧ Q' = { R with children := R.children ++ [(n, s.params.length)] }) ∨
      (q ≠ r ∧ s.params[q]? = some Q') := by
    intro q Q' hQ
    rcases getElem?_snoc_cases hQ with h | ⟨h, h'⟩
    · rcases getElem?_modify_cases h with ⟨h1, h2⟩ | ⟨h1, Q, h2, h3⟩
      · exact Or.inr (Or.inr ⟨Ne.symm h1, h2⟩)
      · subst h1; rw [hr] at h2; cases h2; exact Or.inr (Or.inl ⟨rfl, h3⟩)
    · left; simp at h; exact ⟨h, h'⟩
  constructor
  · exact t.root
  · exact t.rchild
  · exact t.rparent
  · exact t.rorphan
  · exact t.rkeys
  · exact t.ragg
  · intro q Q m p hQ hm
    obtain ⟨P, h1, h2, h3, h4⟩ := t.tops q Q m p hQ hm
    obtain ⟨P', g1, g2, g3, g4, _⟩ := fwd p P h1
    exact ⟨P', g1, g2.trans h2, g3.trans h3, g4.trans h4⟩
  · exact t.topkeys
  · intro q Q' m c hQ hm
    have old : ∀ Q : Param K G, s.params[q]? = some Q → (m, c) ∈ Q.children → Q'.region = Q.region → q < c ∧
        ∃ C, (s.params.modify r (fun R => { R with children := R.children ++ [(n, s.params.length)] })
        ++ [newParam n R.region (some r)])[c]? = some C ∧ C.name = m ∧ C.parent = some q ∧
          C.region = Q'.region := by
      intro Q hQ0 hm0 he
      obtain ⟨h0, C, h1, h2, h3, h4⟩ := t.pchild q Q m c hQ0 hm0
      obtain ⟨C', g1, g2, g3, g4, _⟩ := fwd c C h1
      exact ⟨h0, C', g1, g2.trans h2, g3.trans h3, by rw [g4, h4, he]⟩
    rcases bwd q Q' hQ with ⟨rfl, rfl⟩ | ⟨rfl, rfl⟩ | ⟨hq, hQ0⟩
    · simp [newParam] at hm
    · simp only [List.mem_append, List.mem_singleton] at hm
      rcases hm with hm | hm
      · exact old R hr hm rfl
      · obtain ⟨rfl, rfl⟩ := Prod.mk.inj hm
        exact ⟨hrl, _, new, rfl, rfl, rfl⟩
    · exact old Q' hQ0 hm rfl
  · intro c C' q hC hp
    rcases bwd c C' hC with ⟨rfl, rfl⟩ | ⟨rfl, rfl⟩ | ⟨hq, hC0⟩
    · simp only [newParam, Option.some.injEq] at hp; subst hp
      exact ⟨_, self, by simp [newParam]⟩
    · obtain ⟨Q, h1, h2⟩ := t.pparent c R q hr hp
      obtain ⟨Q', g1, _, _, _, g5⟩ := fwd q Q h1
      exact ⟨Q', g1, g5 _ h2⟩
    · obtain ⟨Q, h1, h2⟩ := t.pparent c C' q hC0 hp
      obtain ⟨Q', g1, _, _, _, g5⟩ := fwd q Q h1
      exact ⟨Q', g1, g5 _ h2⟩
  · intro c C' hC hp
    rcases bwd c C' hC with ⟨rfl, rfl⟩ | ⟨rfl, rfl⟩ | ⟨hq, hC0⟩
    · simp [newParam] at hp
    · exact t.porphan c R hr hp
    · exact t.porphan c C' hC0 hp
  · intro c C' hC
    rcases bwd c C' hC with ⟨rfl, rfl⟩ | ⟨rfl, rfl⟩ | ⟨hq, hC0⟩
    · simp [newParam]
    · simp only [List.map_append, List.map_cons, List.map_nil]
      exact nodup_snoc (t.pkeys c R hr) (lookup_none hn)
    · exact t.pkeys c C' hC0

theorem firstRead_shape {P P' : Param K G} {t : PType} {u : Option String}
    {tps : Option (List K)} {e : Option Err} (h : firstRead P t u tps = (P', e)) :
    P'.shape = P.shape ∧ P'.written = P.written ∧ P'.readFrom = P.readFrom ∧
      P'.version = P.version ∧ P'.unit = u := by
  unfold firstRead at h
  cases t with
  | scalar =>
    simp only [Prod.mk.injEq] at h; obtain ⟨rfl, rfl⟩ := h; exact ⟨rfl, rfl, rfl, rfl, rfl⟩
  | generic =>
    simp only at h
    split at h <;>
    · simp only [Prod.mk.injEq] at h; obtain ⟨rfl, rfl⟩ := h; exact ⟨rfl, rfl, rfl, rfl, rfl⟩
  | average =>
    simp only at h
    split at h <;>
    · simp only [Prod.mk.injEq] at h; obtain ⟨rfl, rfl⟩ := h; exact ⟨rfl, rfl, rfl, rfl, rfl⟩
  | point =>
    simp only at h
    split at h <;>
    · simp only [Prod.mk.injEq] at h; obtain ⟨rfl, rfl⟩ := h; exact ⟨rfl, rfl, rfl, rfl, rfl⟩

theorem sameShape_modify (s : St K G) (p : Nat) (f : Param K G → Param K G)
    (hf : ∀ P, (f P).shape = P.shape) : SameShape s (s.setParam p f) := by
  cases hp : s.params[p]? with
  | some P => exact .setParam hp (hf P)
  | none =>
    refine ⟨rfl, fun q => ?_⟩
    by_cases h : p = q
    · subst h; rw [setParam_self, hp]; rfl
    · rw [setParam_ne s f h]

theorem Tree.of_eq {s s' : St K G} (t : Tree s) (h : s'.regions = s.regions)
    (h' : s'.params = s.params) : Tree s' := t.of_sameShape (SameShape.of_eq h h')

/-- Every primitive change keeps the trees. -/
theorem Prim.tree {env : Env K} {s s' : St K G} {l : List (Nat × Data K G)} (h : Prim env s l s')
    (t : Tree s) : Tree s' := by
  cases h with
  | addRegion r R n hr hn ha => exact t.addRegion hr hn
  | addRoot r R n hr hn => exact t.addRoot hr hn
  | addChild p P n hp hn hw hr => exact t.addChild hp hn
  | typed p P P' ty u tps e hp ht hu hf =>
    exact t.of_sameShape (.setParam hp (firstRead_shape hf).1)
  | typedRead p P P' ty u tps hp ht hu hf =>
    exact t.of_sameShape (.setParam hp (firstRead_shape hf).1)
  | read p P ty hp ht => exact t.of_sameShape (.setParam hp rfl)
  | mark p P hp hc hr => exact t.of_sameShape (.setParam hp rfl)
  | newS p P u v hp ht hr hv => exact t.of_eq rfl rfl
  | newT p P u tps ty ext v hp hty ht hr hv => exact t.of_eq rfl rfl
  | newG p P hp ht hr => exact t.of_eq rfl rfl
  | sWritable i v P hv hp hw => exact t.of_eq rfl rfl
  | gWritable i v P hv hp hw => exact t.of_eq rfl rfl
  | tWritable i v P hv hp hw => exact t.of_eq rfl rfl
  | storeS i v x hv hw => exact t.of_sameShape (sameShape_modify _ _ _ (fun _ => rfl))
  | storeG i v g hv hw => exact t.of_sameShape (sameShape_modify _ _ _ (fun _ => rfl))
  | tRead i v hv => exact t.of_eq rfl rfl
  | tCache i v d hv hd => exact t.of_eq rfl rfl
  | tLocked i b => exact t.of_eq rfl rfl
  | tStore i v P d l hv hl hd hp hc =>
    have h1 : SameShape s (s.setParam v.leaf.param
        (fun P => { P with data := .series l, version := P.version + 1 })) :=
      sameShape_modify _ _ _ (fun _ => rfl)
    exact (t.of_sameShape h1).of_eq rfl rfl

/-! ## Descendants and leaves -/

/-- `q` is `p` or lies below it. -/
inductive Desc (s : St K G) : Nat → Nat → Prop
  | refl (p : Nat) : Desc s p p
  | step {p c q : Nat} {P : Param K G} {n : String} (hp : s.params[p]? = some P)
      (hc : (n, c) ∈ P.children) (h : Desc s c q) : Desc s p q

/-- A parameter without children. -/
def Childless (s : St K G) (p : Nat) : Prop := ∃ P, s.params[p]? = some P ∧ P.children = []

theorem Desc.le {s : St K G} (t : Tree s) {p q : Nat} (h : Desc s p q) : p ≤ q := by
  induction h with
  | refl => exact le_refl _
  | step hp hc _ ih => exact (t.pchild _ _ _ _ hp hc).1.le.trans ih

theorem leavesAux_mem {s : St K G} (t : Tree s) : ∀ (fuel p q : Nat),
    s.params.length ≤ p + fuel → (q ∈ leavesAux s.params fuel p ↔ Desc s p q ∧ Childless s q) := by
  intro fuel
  induction fuel with
  | zero =>
    intro p q hf
    simp only [leavesAux, List.not_mem_nil, false_iff, not_and]
    rintro hd ⟨Q, hQ, _⟩
    have := hd.le t
    have := length_of_getElem? hQ
    omega
  | succ fuel ih =>
    intro p q hf
    simp only [leavesAux]
    cases hp : s.params[p]? with
    | none =>
      simp only [List.not_mem_nil, false_iff, not_and]
      rintro hd ⟨Q, hQ, _⟩
      cases hd with
      | refl => rw [hp] at hQ; simp at hQ
      | step h1 _ _ => rw [hp] at h1; simp at h1
    | some P =>
      simp only
      by_cases hc : P.children = []
      · rw [if_pos hc]
        simp only [List.mem_singleton]
        constructor
        · rintro rfl; exact ⟨.refl _, P, hp, hc⟩
        · rintro ⟨hd, _⟩
          cases hd with
          | refl => rfl
          | step h1 h2 _ => rw [hp] at h1; cases h1; rw [hc] at h2; simp at h2
      · rw [if_neg hc]
        simp only [List.mem_flatMap]
        constructor
        · rintro ⟨c, hc1, hc2⟩
          have hlt := (t.pchild p P c.1 c.2 hp hc1).1
          obtain ⟨h1, h2⟩ := (ih c.2 q (by omega)).1 hc2
          exact ⟨.step hp (n := c.1) hc1 h1, h2⟩
        · rintro ⟨hd, hq⟩
          cases hd with
          | refl => obtain ⟨Q, h1, h2⟩ := hq; rw [hp] at h1; cases h1; exact absurd h2 hc
          | @step _ c _ P' n h1 h2 h3 =>
            rw [hp] at h1; cases h1
            have hlt := (t.pchild p P n c hp h2).1
            exact ⟨(n, c), h2, (ih c q (by omega)).2 ⟨h3, hq⟩⟩

/-- Ancestors of a parameter are comparable. -/
theorem Desc.linear {s : St K G} (t : Tree s) {p q x : Nat} (h1 : Desc s p x) (h2 : Desc s q x) :
    Desc s p q ∨ Desc s q p := by
  -- walk up from `x`
  have snoc : ∀ {a b}, Desc s a b → a = b ∨ ∃ c C n, s.params[c]? = some C ∧ (n, b) ∈ C.children ∧
      Desc s a c := by
    intro a b h
    induction h with
    | refl => exact Or.inl rfl
    | @step p c q P n hp hc h ih =>
      right
      rcases ih with rfl | ⟨d, D, m, e1, e2, e3⟩
      · exact ⟨p, P, n, hp, hc, .refl p⟩
      · exact ⟨d, D, m, e1, e2, .step hp hc e3⟩
  induction x using Nat.strong_induction_on with
  | _ x ih =>
    rcases snoc h1 with rfl | ⟨c, C, n, e1, e2, e3⟩
    · exact Or.inr h2
    · rcases snoc h2 with rfl | ⟨d, D, m, f1, f2, f3⟩
      · exact Or.inl h1
      · obtain ⟨l1, X, x1, x2, x3, _⟩ := t.pchild c C n x e1 e2
        obtain ⟨l2, X', y1, y2, y3, _⟩ := t.pchild d D m x f1 f2
        rw [x1] at y1; cases y1
        rw [x3] at y3; cases y3
        exact ih c l1 e3 f3

theorem siblings_disjoint {s : St K G} (t : Tree s) {p : Nat} {P : Param K G} {n m : String}
    {c d x : Nat} (hp : s.params[p]? = some P) (hc : (n, c) ∈ P.children)
    (hd : (m, d) ∈ P.children) (h1 : Desc s c x) (h2 : Desc s d x) : c = d := by
  have up : ∀ {a b : Nat} {k : String}, (k, b) ∈ P.children → Desc s a b → a = b ∨ a ≤ p := by
    intro a b k hb h
    have : ∀ {a b}, Desc s a b → a = b ∨ ∃ c C n, s.params[c]? = some C ∧ (n, b) ∈ C.children ∧
        Desc s a c := by
      intro a b h
      induction h with
      | refl => exact Or.inl rfl
      | @step p c q P n hp hc h ih =>
        right
        rcases ih with rfl | ⟨d, D, m, e1, e2, e3⟩
        · exact ⟨p, P, n, hp, hc, .refl p⟩
        · exact ⟨d, D, m, e1, e2, .step hp hc e3⟩
    rcases this h with h | ⟨e, E, q, e1, e2, e3⟩
    · exact Or.inl h
    · right
      obtain ⟨_, X, x1, _, x3, _⟩ := t.pchild p P k b hp hb
      obtain ⟨_, X', y1, _, y3, _⟩ := t.pchild e E q b e1 e2
      rw [x1] at y1; cases y1
      rw [x3] at y3; cases y3
      exact e3.le t
  have lc := (t.pchild p P n c hp hc).1
  have ld := (t.pchild p P m d hp hd).1
  rcases h1.linear t h2 with h | h
  · rcases up hd h with h | h
    · exact h
    · omega
  · rcases up hc h with h | h
    · exact h.symm
    · omega

theorem leavesAux_nodup {s : St K G} (t : Tree s) : ∀ (fuel p : Nat),
    s.params.length ≤ p + fuel → (leavesAux s.params fuel p).Nodup := by
  intro fuel
  induction fuel with
  | zero => intro p _; simp [leavesAux]
  | succ fuel ih =>
    intro p hf
    simp only [leavesAux]
    cases hp : s.params[p]? with
    | none => simp
    | some P =>
      simp only
      by_cases hc : P.children = []
      · rw [if_pos hc]; simp
      · rw [if_neg hc, List.nodup_flatMap]
        refine ⟨fun c hcm => ih c.2 (by have := (t.pchild p P c.1 c.2 hp hcm).1; omega), ?_⟩
        have hnd := t.pkeys p P hp
        have hpw : P.children.Pairwise (fun a b => a.1 ≠ b.1) := by
          rw [List.Nodup, List.pairwise_map] at hnd; exact hnd
        refine hpw.imp_of_mem ?_
        intro a b ha hb hab
        rw [Function.onFun, List.disjoint_left]
        intro x hx hx'
        have l1 := (t.pchild p P a.1 a.2 hp ha).1
        have l2 := (t.pchild p P b.1 b.2 hp hb).1
        have d1 := ((leavesAux_mem t fuel a.2 x (by omega)).1 hx).1
        have d2 := ((leavesAux_mem t fuel b.2 x (by omega)).1 hx').1
        have := siblings_disjoint t hp (n := a.1) (m := b.1) ha hb d1 d2
        obtain ⟨_, A, a1, a2, _⟩ := t.pchild p P a.1 a.2 hp ha
        obtain ⟨_, B, b1, b2, _⟩ := t.pchild p P b.1 b.2 hp hb
        rw [← this, a1] at b1; cases b1
        exact hab (a2.symm.trans b2)

/-- The leaves are exactly the childless descendants, each once. -/
theorem leaves_spec {s : St K G} (t : Tree s) (p : Nat) :
    (leaves s p).Nodup ∧ ∀ q, q ∈ leaves s p ↔ Desc s p q ∧ Childless s q :=
  ⟨leavesAux_nodup t _ _ (by omega), fun q => leavesAux_mem t _ _ _ (by omega)⟩

/-- Every parameter has a childless descendant. -/
theorem exists_leaf {s : St K G} (t : Tree s) {p : Nat} {P : Param K G}
    (hp : s.params[p]? = some P) : ∃ q, Desc s p q ∧ Childless s q := by
  induction hn : s.params.length - p using Nat.strong_induction_on generalizing p P with
  | _ n ih =>
    by_cases hc : P.children = []
    · exact ⟨p, .refl p, P, hp, hc⟩
    · obtain ⟨⟨m, c⟩, hm⟩ := List.exists_mem_of_ne_nil _ hc
      obtain ⟨hlt, C, h1, _⟩ := t.pchild p P m c hp hm
      have := length_of_getElem? hp
      obtain ⟨q, h2, h3⟩ := ih (s.params.length - c) (by omega) h1 rfl
      exact ⟨q, .step hp hm h2, h3⟩

theorem leaves_ne_nil {s : St K G} (t : Tree s) {p : Nat} {P : Param K G}
    (hp : s.params[p]? = some P) : leaves s p ≠ [] := by
  obtain ⟨q, h1, h2⟩ := exists_leaf t hp
  exact List.ne_nil_of_mem (((leaves_spec t p).2 q).2 ⟨h1, h2⟩)

end Openscm
