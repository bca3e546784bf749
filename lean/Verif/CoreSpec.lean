import Verif.CoreEq

/-!
# Vocabulary for the properties of parameter sets

What a program can observe: the outcomes of public calls, and in particular of `info(...)` and of
the info attributes of views.  The properties are stated with these; the lemmas connect them with
the heap.
-/

set_option linter.unusedSectionVars false

namespace Openscm
variable {K G : Type} [Field K] [LinearOrder K] [IsStrictOrderedRing K]

/-- Outcome of a public call in state `s`. -/
def result (env : Env K) (s : St K G) (op : Op K G) : Res K G := (call env op s).1

/-- What `parameterset.info(name, region)` reports, names given as tuples. -/
def infoAt (env : Env K) (s : St K G) (k : Key) : Option Info :=
  match result env s (.info (.seq k.2) (.seq k.1)) with
  | .ok (.info i) => i
  | _ => none

/-- What the info attributes of a view report. -/
def viewInfo (env : Env K) (s : St K G) (r : VRef) : Option Info :=
  match result env s (.vInfo r) with
  | .ok (.info i) => i
  | _ => none

def Info.key (I : Info) : Key := (I.region, I.name)

/-- Region and name of the parameter of a view. -/
def viewKey (env : Env K) (s : St K G) (r : VRef) : Option Key := (viewInfo env s r).map Info.key

/-- Name of the child `n`. -/
def Key.child (k : Key) (n : String) : Key := (k.1, k.2 ++ [n])

/-- The parameter has a child, as far as `info` shows. -/
def HasChildren (env : Env K) (s : St K G) (k : Key) : Prop := ∃ n, infoAt env s (Key.child k n) ≠ none

/-! ## Connection with the heap -/

theorem infoAt_eq (env : Env K) (s : St K G) (k : Key) :
    infoAt env s k = match infoCall s (.seq k.2) (.seq k.1) with
      | .ok i => i
      | .error _ => none := by
  unfold infoAt result
  show (match ((M.value (fun s => infoCall s (.seq k.2) (.seq k.1)) >>= fun i =>
    (pure (Out.info i) : M K G (Out K G))) s).1 with | .ok (.info i) => i | _ => none) = _
  rw [M.bind_apply, M.value_apply]
  cases infoCall s (.seq k.2) (.seq k.1) <;> rfl

theorem infoAt_some {env : Env K} {s : St K G} (t : Tree s) {k : Key} {I : Info} :
    infoAt env s k = some I ↔ ∃ p P, HasKey s p k ∧ s.params[p]? = some P ∧
      I = ⟨k.2, k.1, P.ptype, P.unit, !P.written, P.version⟩ := by
  rw [infoAt_eq]
  obtain ⟨a, b⟩ := k
  by_cases hb : b = []
  · subst hb
    constructor
    · intro h
      exfalso
      unfold infoCall at h
      cases hr : findRegion s (.seq a) with
      | error e => simp [hr] at h
      | ok o =>
        cases o with
        | none => simp [hr] at h
        | some r => simp [hr, findParam, HName.truthy] at h
    · rintro ⟨p, P, ⟨_, _, _, h⟩, _⟩
      exact absurd rfl h.ne_nil
  · by_cases ha : a = []
    · subst ha
      constructor
      · intro h; simp [infoCall, findRegion, HName.parts] at h
      · rintro ⟨p, P, ⟨_, _, h, _⟩, _⟩
        exact absurd rfl h.ne_nil
    · have key := infoCall_some t (name := .seq b) (region := .seq a)
        (by simpa [HName.truthy] using hb) hb ha
      constructor
      · intro h
        have h' : infoCall s (.seq b) (.seq a) = .ok (some I) := by
          cases hc : infoCall s (.seq b) (.seq a) with
          | error e => simp [hc] at h
          | ok o => simp only [hc] at h; rw [h]
        obtain ⟨p, P, h1, h2, h3⟩ := (key I).1 h'
        exact ⟨p, P, h1, h2, h3.trans (h1.info t h2)⟩
      · rintro ⟨p, P, h1, h2, h3⟩
        have := (key I).2 ⟨p, P, h1, h2, h3.trans (HasKey.info t h1 h2).symm⟩
        simp only [this]

theorem infoAt_none {env : Env K} {s : St K G} (t : Tree s) {k : Key} :
    infoAt env s k = none ↔ ¬ ∃ p, HasKey s p k := by
  constructor
  · rintro h ⟨p, P, h1, h2⟩
    have := (infoAt_some (env := env) t (k := k)).2 ⟨p, P, ⟨P, h1, h2⟩, h1, rfl⟩
    rw [h] at this; simp at this
  · intro h
    cases hi : infoAt env s k with
    | none => rfl
    | some I =>
      obtain ⟨p, _, h1, _⟩ := (infoAt_some t).1 hi
      exact absurd ⟨p, h1⟩ h

theorem infoAt_of {env : Env K} {s : St K G} (t : Tree s) {k : Key} {p : Nat} {P : Param K G}
    (hk : HasKey s p k) (hp : s.params[p]? = some P) :
    infoAt env s k = some ⟨k.2, k.1, P.ptype, P.unit, !P.written, P.version⟩ :=
  (infoAt_some t).2 ⟨p, P, hk, hp, rfl⟩

/-- Every view refers to a parameter. -/
theorem viewTarget_param {env : Env K} {s : St K G} (hi : Inv env s) {r : VRef} {p : Nat}
    {u : Option String} (h : viewTarget s r = some (p, u)) :
    ∃ P, s.params[p]? = some P ∧ P.readFrom = true ∧ P.ptype ≠ none := by
  cases r with
  | s i =>
    simp only [viewTarget, Option.map_eq_some_iff] at h
    obtain ⟨v, hv, h⟩ := h
    cases h
    obtain ⟨P, u, h1, h2, h3, _⟩ := (hi.good.sviews i v hv).ex
    exact ⟨P, h1, h3, by rw [h2]; simp⟩
  | t i =>
    simp only [viewTarget, Option.map_eq_some_iff] at h
    obtain ⟨v, hv, h⟩ := h
    cases h
    obtain ⟨P, h1, h2, h3, _⟩ := (hi.good.tviews i v hv).ex
    exact ⟨P, h1, h3, by rw [h2]; simp⟩
  | g i =>
    simp only [viewTarget, Option.map_eq_some_iff] at h
    obtain ⟨v, hv, h⟩ := h
    cases h
    obtain ⟨P, h1, h2, h3, _⟩ := hi.good.gviews i v hv
    exact ⟨P, h1, h3, by rw [h2]; simp⟩

theorem vInfo_eq {env : Env K} {s : St K G} {r : VRef} {p : Nat} {u : Option String}
    {P : Param K G} (h : viewTarget s r = some (p, u)) (hp : s.params[p]? = some P) :
    call env (.vInfo r) s = (.ok (.info (some { infoOf s p P with unit := u })), s) := by
  show (M.look (viewTarget · r) >>= _) s = _
  have e1 : M.look (viewTarget · r) s = (.ok (p, u), s) := look_some h
  rw [M.bind_ok e1]
  have e2 : getParam p s = (.ok P, s) := look_some hp
  show (getParam p >>= _) s = _
  rw [M.bind_ok e2]
  rfl

theorem vInfo_none {env : Env K} {s : St K G} {r : VRef} (h : viewTarget s r = none) :
    call env (.vInfo r) s = (.error .badHandle, s) := by
  show (M.look (viewTarget · r) >>= _) s = _
  exact M.bind_error (look_none h)

theorem viewInfo_some {env : Env K} {s : St K G} (hi : Inv env s) {r : VRef} {I : Info} :
    viewInfo env s r = some I ↔ ∃ p u k P, viewTarget s r = some (p, u) ∧ HasKey s p k ∧
      s.params[p]? = some P ∧ I = ⟨k.2, k.1, P.ptype, u, !P.written, P.version⟩ := by
  unfold viewInfo result
  cases hv : viewTarget s r with
  | none => rw [vInfo_none hv]; simp
  | some a =>
    obtain ⟨p, u⟩ := a
    obtain ⟨P, hp, _⟩ := viewTarget_param hi hv
    obtain ⟨k, hk⟩ := HasKey.exists hi.tree hp
    rw [vInfo_eq hv hp]
    simp only [hk.info hi.tree hp, Option.some.injEq, Prod.mk.injEq]
    constructor
    · rintro rfl
      exact ⟨p, u, k, P, ⟨rfl, rfl⟩, hk, hp, rfl⟩
    · rintro ⟨p', u', k', P', ⟨rfl, rfl⟩, hk', hp', rfl⟩
      rw [hp] at hp'; cases hp'
      rw [hk.det hk']

theorem viewKey_some {env : Env K} {s : St K G} (hi : Inv env s) {r : VRef} {k : Key} :
    viewKey env s r = some k ↔ ∃ p u, viewTarget s r = some (p, u) ∧ HasKey s p k := by
  unfold viewKey
  rw [Option.map_eq_some_iff]
  constructor
  · rintro ⟨I, h, rfl⟩
    obtain ⟨p, u, k, P, h1, h2, h3, rfl⟩ := (viewInfo_some hi).1 h
    exact ⟨p, u, h1, h2⟩
  · rintro ⟨p, u, h1, h2⟩
    obtain ⟨P, hp, _⟩ := id h2
    exact ⟨_, (viewInfo_some hi).2 ⟨p, u, k, P, h1, h2, hp, rfl⟩, rfl⟩

/-- Children as `info` shows them are the children in the heap. -/
theorem child_key {s : St K G} (t : Tree s) {p : Nat} {P : Param K G} {k : Key}
    (hk : HasKey s p k) (hp : s.params[p]? = some P) (n : String) (c : Nat) :
    HasKey s c (Key.child k n) ↔ (n, c) ∈ P.children := by
  obtain ⟨P', h1, h2, h3⟩ := id hk
  rw [hp] at h1; cases h1
  have key := findSubparam_name t h3 hp [n] c
  have hf : findSubparam s p [n] = P.children.lookup n := by
    simp only [findSubparam, hp]
    cases P.children.lookup n <;> rfl
  rw [hf] at key
  constructor
  · rintro ⟨C, e1, e2, e3⟩
    exact lookup_mem (key.2 ⟨e3, C, e1, e2.inj t h2⟩)
  · intro hm
    have hl := lookup_of_mem (t.pkeys p P hp) hm
    obtain ⟨e1, C, e2, e3⟩ := key.1 hl
    exact ⟨C, e2, by rw [e3]; exact h2, e1⟩

theorem hasChildren_iff {env : Env K} {s : St K G} (t : Tree s) {p : Nat} {P : Param K G} {k : Key}
    (hk : HasKey s p k) (hp : s.params[p]? = some P) : HasChildren env s k ↔ P.children ≠ [] := by
  unfold HasChildren
  constructor
  · rintro ⟨n, h⟩ hc
    apply h
    rw [infoAt_none t]
    rintro ⟨c, hck⟩
    have := (child_key t hk hp n c).1 hck
    rw [hc] at this; simp at this
  · intro h
    obtain ⟨⟨n, c⟩, hm⟩ := List.exists_mem_of_ne_nil _ h
    refine ⟨n, fun h' => ?_⟩
    exact (infoAt_none t).1 h' ⟨c, (child_key t hk hp n c).2 hm⟩

theorem not_hasChildren_iff {env : Env K} {s : St K G} (t : Tree s) {p : Nat} {P : Param K G}
    {k : Key} (hk : HasKey s p k) (hp : s.params[p]? = some P) :
    ¬ HasChildren env s k ↔ P.children = [] := by
  rw [hasChildren_iff t hk hp, not_not]

end Openscm
