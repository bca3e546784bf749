import Verif.CoreTree
import Verif.UnitsProps
import Verif.TimeProps

/-!
# Invariants of the parameter set

Helper file: what every primitive heap change preserves, hence what holds after every history.
-/

set_option linter.unusedSectionVars false

namespace Openscm
variable {K G : Type} [Field K] [LinearOrder K] [IsStrictOrderedRing K]

/-! ## How a parameter may change -/

/-- `P'` is a later stage of `P`. -/
structure PLe (P P' : Param K G) : Prop where
  name : P'.name = P.name
  region : P'.region = P.region
  parent : P'.parent = P.parent
  ptype : ∀ t, P.ptype = some t → P'.ptype = some t
  unit : P.ptype ≠ none → P'.unit = P.unit
  tps : ∀ t, P.tps = some t → P'.tps = some t
  readFrom : P.readFrom = true → P'.readFrom = true
  written : P.written = true → P'.written = true
  children : ∀ c, c ∈ P.children → c ∈ P'.children
  frozen : P.readFrom = true → P'.children = P.children
  version : P.version ≤ P'.version

theorem PLe.refl (P : Param K G) : PLe P P :=
  ⟨rfl, rfl, rfl, fun _ h => h, fun _ => rfl, fun _ h => h, id, id, fun _ h => h, fun _ => rfl,
    le_refl _⟩

theorem PLe.trans {P Q R : Param K G} (h1 : PLe P Q) (h2 : PLe Q R) : PLe P R where
  name := h2.name.trans h1.name
  region := h2.region.trans h1.region
  parent := h2.parent.trans h1.parent
  ptype t h := h2.ptype t (h1.ptype t h)
  unit h := by
    obtain ⟨t, ht⟩ := Option.ne_none_iff_exists'.1 h
    have := h1.ptype t ht
    rw [h2.unit (by rw [this]; simp), h1.unit h]
  tps t h := h2.tps t (h1.tps t h)
  readFrom h := h2.readFrom (h1.readFrom h)
  written h := h2.written (h1.written h)
  children c h := h2.children c (h1.children c h)
  frozen h := (h2.frozen (h1.readFrom h)).trans (h1.frozen h)
  version := h1.version.trans h2.version

/-- All parameters survive, each at a later stage. -/
def PExt (s s' : St K G) : Prop :=
  ∀ (p : Nat) (P : Param K G), s.params[p]? = some P → ∃ P', s'.params[p]? = some P' ∧ PLe P P'

theorem PExt.refl (s : St K G) : PExt s s := fun _ P h => ⟨P, h, .refl P⟩

theorem PExt.trans {s1 s2 s3 : St K G} (h1 : PExt s1 s2) (h2 : PExt s2 s3) : PExt s1 s3 := by
  intro p P h
  obtain ⟨P', h', hle⟩ := h1 p P h
  obtain ⟨P'', h'', hle'⟩ := h2 p P' h'
  exact ⟨P'', h'', hle.trans hle'⟩

theorem PExt.of_eq {s s' : St K G} (h : s'.params = s.params) : PExt s s' :=
  fun _ P hP => ⟨P, by rw [h]; exact hP, .refl P⟩

theorem PExt.setParam {s : St K G} {p : Nat} {P : Param K G} {f : Param K G → Param K G}
    (hp : s.params[p]? = some P) (hle : PLe P (f P)) : PExt s (s.setParam p f) := by
  intro q Q hQ
  by_cases h : p = q
  · subst h
    rw [hp] at hQ; cases hQ
    exact ⟨f P, by rw [setParam_self, hp]; rfl, hle⟩
  · exact ⟨Q, by rw [setParam_ne s f h]; exact hQ, .refl Q⟩

/-! ## Local invariant of a parameter -/

/-- What holds for every parameter at all times. -/
def PGood (P : Param K G) : Prop :=
  (P.written = true → P.children = [] ∧ P.readFrom = true) ∧
  match P.ptype with
  | none => P.readFrom = false ∧ P.unit = none ∧ P.tps = none ∧ P.data = .unset ∧ P.version = 0
  | some .scalar => P.unit.isSome ∧ P.readFrom = true ∧ ∃ x, P.data = .scalar x
  | some .generic => P.unit = none ∧
      (P.children = [] → P.readFrom = true ∧ ∃ g, P.data = .generic g)
  | some .average => P.unit.isSome ∧ ((P.tps = none ∧ P.data = .unset) ∨
      ∃ t l, P.tps = some t ∧ P.data = .series l ∧ l.length = pointsLength .average t ∧
        P.readFrom = true)
  | some .point => P.unit.isSome ∧ ((P.tps = none ∧ P.data = .unset) ∨
      ∃ t l, P.tps = some t ∧ P.data = .series l ∧ l.length = pointsLength .point t ∧
        P.readFrom = true)

theorem PGood.new (n : String) (r : Nat) (q : Option Nat) : PGood (newParam n r q : Param K G) := by
  unfold PGood newParam; simp

/-- Result of the first access. -/
theorem PGood.firstRead {P P' : Param K G} {t : PType} {u : Option String}
    {tps : Option (List K)} {e : Option Err} (hP : PGood P) (ht : P.ptype = none)
    (hu : (t = .generic ∧ u = none) ∨ (t ≠ .generic ∧ u.isSome))
    (h : firstRead P t u tps = (P', e)) :
    (e = none → PGood { P' with readFrom := true }) ∧ (e ≠ none → PGood P') ∧
      P'.name = P.name ∧ P'.region = P.region ∧ P'.parent = P.parent ∧
      P'.children = P.children ∧ P'.readFrom = P.readFrom ∧ P'.written = P.written ∧
      P'.version = P.version ∧ P'.ptype = some t ∧ P'.unit = u := by
  obtain ⟨hw, hb⟩ := hP
  rw [ht] at hb
  obtain ⟨h1, h2, h3, h4, h5⟩ := hb
  have hw' : P.written = false := by
    cases hh : P.written with
    | false => rfl
    | true => have := (hw hh).2; rw [h1] at this; simp at this
  unfold Openscm.firstRead at h
  cases t with
  | scalar =>
    simp only [Prod.mk.injEq] at h
    obtain ⟨rfl, rfl⟩ := h
    rcases hu with ⟨h, _⟩ | ⟨_, hu⟩
    · simp at h
    · refine ⟨fun _ => ?_, fun h => absurd rfl h, rfl, rfl, rfl, rfl, rfl, rfl, rfl, rfl, rfl⟩
      simp [PGood, hw', hu]
  | generic =>
    rcases hu with ⟨_, hu⟩ | ⟨h, _⟩
    swap; · simp at h
    simp only at h
    by_cases hc : P.children = []
    · rw [if_pos hc] at h
      simp only [Prod.mk.injEq] at h
      obtain ⟨rfl, rfl⟩ := h
      refine ⟨fun _ => ?_, fun h => absurd rfl h, rfl, rfl, rfl, rfl, rfl, rfl, rfl, rfl, rfl⟩
      simp [PGood, hw', hu]
    · rw [if_neg hc] at h
      simp only [Prod.mk.injEq] at h
      obtain ⟨rfl, rfl⟩ := h
      refine ⟨fun h => by simp at h, fun _ => ?_, rfl, rfl, rfl, rfl, rfl, rfl, rfl, rfl, rfl⟩
      simp [PGood, hw', hu, hc]
  | average =>
    rcases hu with ⟨h, _⟩ | ⟨_, hu⟩
    · simp at h
    match tps, h with
    | none, h =>
      simp only [Prod.mk.injEq] at h
      obtain ⟨rfl, rfl⟩ := h
      refine ⟨fun h => by simp at h, fun _ => ?_, rfl, rfl, rfl, rfl, rfl, rfl, rfl, rfl, rfl⟩
      simp [PGood, hw', hu, h3, h4]
    | some [], h =>
      simp only [Prod.mk.injEq] at h
      obtain ⟨rfl, rfl⟩ := h
      refine ⟨fun h => by simp at h, fun _ => ?_, rfl, rfl, rfl, rfl, rfl, rfl, rfl, rfl, rfl⟩
      simp [PGood, hw', hu, h3, h4]
    | some (t0 :: ts), h =>
      simp only [Prod.mk.injEq] at h
      obtain ⟨rfl, rfl⟩ := h
      refine ⟨fun _ => ?_, fun h => absurd rfl h, rfl, rfl, rfl, rfl, rfl, rfl, rfl, rfl, rfl⟩
      refine ⟨fun h => by simp [hw'] at h, hu, Or.inr ⟨t0 :: ts, _, rfl, rfl, ?_, rfl⟩⟩
      simp [pointsLength]
  | point =>
    rcases hu with ⟨h, _⟩ | ⟨_, hu⟩
    · simp at h
    match tps, h with
    | none, h =>
      simp only [Prod.mk.injEq] at h
      obtain ⟨rfl, rfl⟩ := h
      refine ⟨fun h => by simp at h, fun _ => ?_, rfl, rfl, rfl, rfl, rfl, rfl, rfl, rfl, rfl⟩
      simp [PGood, hw', hu, h3, h4]
    | some ts, h =>
      simp only [Prod.mk.injEq] at h
      obtain ⟨rfl, rfl⟩ := h
      refine ⟨fun _ => ?_, fun h => absurd rfl h, rfl, rfl, rfl, rfl, rfl, rfl, rfl, rfl, rfl⟩
      refine ⟨fun h => by simp [hw'] at h, hu, Or.inr ⟨ts, _, rfl, rfl, ?_, rfl⟩⟩
      simp [pointsLength]

theorem PGood.read {P : Param K G} {t : PType} (h : PGood P) (ht : P.ptype = some t) :
    PGood { P with readFrom := true } := by
  obtain ⟨hw, hb⟩ := h
  rw [ht] at hb
  refine ⟨fun h => ⟨(hw h).1, rfl⟩, ?_⟩
  cases t with
  | scalar => simp only [ht]; exact ⟨hb.1, trivial, hb.2.2⟩
  | generic => simp only [ht]; exact ⟨hb.1, fun hc => ⟨trivial, (hb.2 hc).2⟩⟩
  | average =>
    simp only [ht]
    refine ⟨hb.1, ?_⟩
    rcases hb.2 with h | ⟨t, l, h1, h2, h3, _⟩
    · exact Or.inl h
    · exact Or.inr ⟨t, l, h1, h2, h3, trivial⟩
  | point =>
    simp only [ht]
    refine ⟨hb.1, ?_⟩
    rcases hb.2 with h | ⟨t, l, h1, h2, h3, _⟩
    · exact Or.inl h
    · exact Or.inr ⟨t, l, h1, h2, h3, trivial⟩

theorem PGood.mark {P : Param K G} (h : PGood P) (hc : P.children = []) (hr : P.readFrom = true) :
    PGood { P with written := true } := ⟨fun _ => ⟨hc, hr⟩, h.2⟩

theorem PGood.addChild {P : Param K G} {c : String × Nat} (h : PGood P) (hw : P.written = false) :
    PGood { P with children := P.children ++ [c] } := by
  obtain ⟨_, hb⟩ := h
  refine ⟨fun h => by simp [hw] at h, ?_⟩
  cases ht : P.ptype with
  | none => simp only [ht] at hb ⊢; exact hb
  | some t =>
    rw [ht] at hb
    cases t with
    | scalar => exact hb
    | generic => exact ⟨hb.1, fun h => by simp at h⟩
    | average => exact hb
    | point => exact hb

/-! ## Views -/

/-- A child of an aggregated scalar view. -/
def SKid (env : Env K) (s : St K G) (target : String) (k : Nat × Conv K) : Prop :=
  ∃ Q u, s.params[k.1]? = some Q ∧ Q.ptype ≠ none ∧ Q.unit = some u ∧
    mkConv env.units u target = .ok k.2

/-- What holds for every scalar view at all times. -/
structure SGood (env : Env K) (s : St K G) (v : SView K) : Prop where
  ex : ∃ P u, s.params[v.param]? = some P ∧ P.ptype = some .scalar ∧ P.readFrom = true ∧
    P.unit = some u ∧ mkConv env.units u v.conv.target = .ok v.conv ∧
    (v.writable = true → P.written = true) ∧ (P.children = [] → v.kids = none) ∧
    (P.children ≠ [] → v.kids.isSome = true)
  kids : ∀ ks, v.kids = some ks → ∀ k ∈ ks, SKid env s v.conv.target k

/-- What holds for the converters of a timeseries view, or of its children, at all times. -/
structure LGood (env : Env K) (s : St K G) (v : TLeaf K) : Prop where
  ex : ∃ P u t, s.params[v.param]? = some P ∧ P.ptype ≠ none ∧ P.unit = some u ∧
    mkConv env.units u v.conv.target = .ok v.conv ∧ P.tps = some t ∧ v.ts.source = t ∧
    mkTSConv t v.ts.target v.ts.ty v.ts.ext = .ok v.ts ∧
    (∀ n, v.version = some n → n ≤ P.version)
  len : ∀ d, v.data = some d → d.length = v.ts.targetLength
  ver : v.data = none → v.version = none
  ty : v.ts.ty = .average ∨ v.ts.ty = .point

/-- What holds for every timeseries view at all times. -/
structure TGood (env : Env K) (s : St K G) (v : TView K) : Prop where
  leaf : LGood env s v.leaf
  ex : ∃ P, s.params[v.leaf.param]? = some P ∧ P.ptype = some v.leaf.ts.ty ∧ P.readFrom = true ∧
    (v.writable = true → P.written = true) ∧ (P.children = [] → v.kids = none) ∧
    (P.children ≠ [] → v.kids.isSome = true)
  kidsNe : ∀ ks, v.kids = some ks → ks ≠ []
  kids : ∀ ks, v.kids = some ks → ∀ k ∈ ks, LGood env s k ∧
    k.conv.target = v.leaf.conv.target ∧ k.ts.target = v.leaf.ts.target ∧
    k.ts.ty = v.leaf.ts.ty ∧ k.ts.ext = v.leaf.ts.ext

/-- What holds for every generic view at all times. -/
def GGood (s : St K G) (v : GView) : Prop :=
  ∃ P, s.params[v.param]? = some P ∧ P.ptype = some .generic ∧ P.readFrom = true ∧
    (v.writable = true → P.written = true)

theorem SKid.mono {env : Env K} {s s' : St K G} {t : String} {k : Nat × Conv K} (h : PExt s s')
    (hk : SKid env s t k) : SKid env s' t k := by
  obtain ⟨Q, u, h1, h2, h3, h4⟩ := hk
  obtain ⟨Q', h1', hle⟩ := h _ _ h1
  obtain ⟨ty, hty⟩ := Option.ne_none_iff_exists'.1 h2
  exact ⟨Q', u, h1', by rw [hle.ptype ty hty]; simp, by rw [hle.unit h2]; exact h3, h4⟩

theorem SGood.mono {env : Env K} {s s' : St K G} {v : SView K} (h : PExt s s')
    (hv : SGood env s v) : SGood env s' v := by
  obtain ⟨⟨P, u, h1, h2, h3, h4, h5, h6, h7, h8⟩, hk⟩ := hv
  obtain ⟨P', h1', hle⟩ := h _ _ h1
  refine ⟨⟨P', u, h1', hle.ptype _ h2, hle.readFrom h3, ?_, h5, fun hw => hle.written (h6 hw),
    ?_, ?_⟩, fun ks hks k hkm => (hk ks hks k hkm).mono h⟩
  · rw [hle.unit (by rw [h2]; simp)]; exact h4
  · rw [hle.frozen h3]; exact h7
  · rw [hle.frozen h3]; exact h8

theorem LGood.mono {env : Env K} {s s' : St K G} {v : TLeaf K} (h : PExt s s')
    (hv : LGood env s v) : LGood env s' v := by
  obtain ⟨⟨P, u, t, h1, h2, h3, h4, h5, h6, h7, h8⟩, hl, hver, hty⟩ := hv
  obtain ⟨P', h1', hle⟩ := h _ _ h1
  obtain ⟨ty, hty'⟩ := Option.ne_none_iff_exists'.1 h2
  exact ⟨⟨P', u, t, h1', by rw [hle.ptype ty hty']; simp, by rw [hle.unit h2]; exact h3, h4,
    hle.tps _ h5, h6, h7, fun n hn => (h8 n hn).trans hle.version⟩, hl, hver, hty⟩

theorem TGood.mono {env : Env K} {s s' : St K G} {v : TView K} (h : PExt s s')
    (hv : TGood env s v) : TGood env s' v := by
  obtain ⟨hl, ⟨P, h1, h2, h3, h6, h7, h8⟩, hne, hk⟩ := hv
  obtain ⟨P', h1', hle⟩ := h _ _ h1
  refine ⟨hl.mono h, ⟨P', h1', hle.ptype _ h2, hle.readFrom h3, fun hw => hle.written (h6 hw),
    ?_, ?_⟩, hne, fun ks hks k hkm => ⟨(hk ks hks k hkm).1.mono h, (hk ks hks k hkm).2⟩⟩
  · rw [hle.frozen h3]; exact h7
  · rw [hle.frozen h3]; exact h8

theorem GGood.mono {s s' : St K G} {v : GView} (h : PExt s s') (hv : GGood s v) : GGood s' v := by
  obtain ⟨P, h1, h2, h3, h4⟩ := hv
  obtain ⟨P', h1', hle⟩ := h _ _ h1
  exact ⟨P', h1', hle.ptype _ h2, hle.readFrom h3, fun hw => hle.written (h4 hw)⟩

/-- The invariant of parameters and views. -/
structure Good (env : Env K) (s : St K G) : Prop where
  params : ∀ (p : Nat) (P : Param K G), s.params[p]? = some P → PGood P
  sviews : ∀ (i : Nat) (v : SView K), s.sviews[i]? = some v → SGood env s v
  tviews : ∀ (i : Nat) (v : TView K), s.tviews[i]? = some v → TGood env s v
  gviews : ∀ (i : Nat) (v : GView), s.gviews[i]? = some v → GGood s v

theorem Good.init (env : Env K) (root : String) : Good env (St.init root : St K G) := by
  constructor <;> intro i v h <;> simp [St.init] at h

theorem Good.tyOK {env : Env K} {s : St K G} (h : Good env s) : TyOK s :=
  fun i v hv => (h.tviews i v hv).leaf.ty

/-! ## Constructors of views establish the invariant -/

theorem mkConvOpt_ok {reg : Registry K} {u : Option String} {t : String} {c : Conv K}
    (h : mkConvOpt reg u t = .ok c) : ∃ w, u = some w ∧ mkConv reg w t = .ok c ∧ c.target = t := by
  cases u with
  | none => simp [mkConvOpt] at h
  | some w =>
    refine ⟨w, rfl, h, ?_⟩
    simp only [mkConvOpt] at h
    unfold mkConv at h
    split at h
    · simp at h
    · split at h
      · simp at h
      · split at h
        · injection h with h; subst h; rfl
        · simp at h

theorem mapLeaves_mem {α β : Type} {f : α → Except Err β} {xs : List α} {ys : List β}
    (h : mapLeaves f xs = .ok ys) : ∀ y ∈ ys, ∃ x ∈ xs, f x = .ok y := by
  induction xs generalizing ys with
  | nil => simp [mapLeaves] at h; subst h; simp
  | cons x xs ih =>
    simp only [mapLeaves] at h
    split at h
    · simp at h
    · rename_i y hy
      split at h
      · simp at h
      · rename_i ys' hys
        injection h with h; subst h
        intro z hz
        rcases List.mem_cons.1 hz with rfl | hz
        · exact ⟨x, by simp, hy⟩
        · obtain ⟨x', hx', hf⟩ := ih hys z hz
          exact ⟨x', by simp [hx'], hf⟩

theorem mkSView_good {env : Env K} {s : St K G} {p : Nat} {P : Param K G} {u : String}
    {v : SView K} (hg : ∀ (p : Nat) (P : Param K G), s.params[p]? = some P → PGood P)
    (hp : s.params[p]? = some P) (ht : P.ptype = some .scalar)
    (hr : P.readFrom = true) (hv : mkSView env s p u = .ok v) :
    SGood env s v ∧ v.param = p ∧ v.conv.target = u ∧ v.writable = false := by
  unfold mkSView at hv
  rw [hp] at hv
  simp only at hv
  split at hv
  · simp at hv
  · rename_i c hc
    obtain ⟨w, h1, h2, h3⟩ := mkConvOpt_ok hc
    split at hv
    · rename_i hch
      injection hv with hv; subst hv
      exact ⟨⟨⟨P, w, hp, ht, hr, h1, by simp only; rw [h3]; exact h2, by simp, fun _ => rfl,
        fun h => absurd hch h⟩, fun ks h => by simp at h⟩, rfl, h3, rfl⟩
    · rename_i hch
      split at hv
      · simp at hv
      · rename_i ks hks
        injection hv with hv; subst hv
        refine ⟨⟨⟨P, w, hp, ht, hr, h1, by simp only; rw [h3]; exact h2, by simp,
          fun h => absurd h hch, fun _ => rfl⟩, ?_⟩, rfl, h3, rfl⟩
        intro ks' h k hk
        simp only [Option.some.injEq] at h
        subst h
        obtain ⟨q, _, hq⟩ := mapLeaves_mem hks k hk
        unfold leafConv at hq
        split at hq
        · simp at hq
        · rename_i Q hQ
          split at hq
          · simp at hq
          · rename_i c' hc'
            injection hq with hq; subst hq
            obtain ⟨w', g1, g2, g3⟩ := mkConvOpt_ok hc'
            refine ⟨Q, w', hQ, ?_, g1, by simp only [h3]; exact g2⟩
            intro hn
            have := (hg q Q hQ).2
            rw [hn] at this
            rw [this.2.1] at g1; simp at g1

theorem mapLeaves_length {α β : Type} {f : α → Except Err β} {xs : List α} {ys : List β}
    (h : mapLeaves f xs = .ok ys) : ys.length = xs.length := by
  induction xs generalizing ys with
  | nil => simp [mapLeaves] at h; subst h; simp
  | cons x xs ih =>
    simp only [mapLeaves] at h
    split at h
    · simp at h
    · split at h
      · simp at h
      · rename_i ys' hys
        injection h with h; subst h
        simp [ih hys]

theorem mkTSConv_ok {src tgt : List K} {ty : PType} {ext : Extrap} {t : TSConv K}
    (h : mkTSConv src tgt ty ext = .ok t) :
    t.source = src ∧ t.target = tgt ∧ t.ty = ty ∧ t.ext = ext := by
  unfold mkTSConv at h
  split at h
  · simp at h
  · split at h
    · split at h
      · simp at h
      · injection h with h; subst h; exact ⟨rfl, rfl, rfl, rfl⟩
    · simp at h

theorem mkTLeaf_good {env : Env K} {s : St K G} {p : Nat} {u : String} {tps : List K}
    {ty : PType} {ext : Extrap} {v : TLeaf K} (hty : ty = .average ∨ ty = .point)
    (hg : ∀ (p : Nat) (P : Param K G), s.params[p]? = some P → PGood P)
    (hv : mkTLeaf env s u tps ty ext p = .ok v) :
    LGood env s v ∧ v.param = p ∧ v.conv.target = u ∧ v.ts.target = tps ∧ v.ts.ty = ty ∧
      v.ts.ext = ext ∧ v.data = none ∧ v.version = none := by
  unfold mkTLeaf at hv
  split at hv
  · simp at hv
  · rename_i P hP
    split at hv
    · simp at hv
    · rename_i c hc
      obtain ⟨w, h1, h2, h3⟩ := mkConvOpt_ok hc
      split at hv
      · simp at hv
      · rename_i src hsrc
        split at hv
        · simp at hv
        · rename_i t ht
          injection hv with hv; subst hv
          obtain ⟨g1, g2, g3, g4⟩ := mkTSConv_ok ht
          refine ⟨⟨⟨P, w, src, hP, ?_, h1, by simp only; rw [h3]; exact h2, hsrc, g1, ?_, by simp⟩,
            by simp, by simp, by simp only; rw [g3]; exact hty⟩, rfl, h3, g2, g3, g4, rfl, rfl⟩
          · intro hn
            have := (hg p P hP).2
            rw [hn] at this
            rw [this.2.1] at h1; simp at h1
          · simp only [g2, g3, g4]; exact ht

theorem mkTView_good {env : Env K} {s : St K G} {p : Nat} {P : Param K G} {u : String}
    {tps : List K} {ty : PType} {ext : Extrap} {v : TView K} (hty : ty = .average ∨ ty = .point)
    (htree : Tree s) (hg : ∀ (p : Nat) (P : Param K G), s.params[p]? = some P → PGood P)
    (hp : s.params[p]? = some P) (ht : P.ptype = some ty)
    (hr : P.readFrom = true) (hv : mkTView env s p u tps ty ext = .ok v) :
    TGood env s v ∧ v.leaf.param = p ∧ v.leaf.conv.target = u ∧ v.leaf.ts.target = tps ∧
      v.leaf.ts.ty = ty ∧ v.leaf.ts.ext = ext ∧ v.leaf.data = none ∧ v.leaf.version = none ∧
      v.locked = false ∧ v.writable = false := by
  unfold mkTView at hv
  rw [hp] at hv
  simp only at hv
  split at hv
  · simp at hv
  · rename_i l hl
    obtain ⟨h1, h2, h3, h4, h5, h6, h7, h8⟩ := mkTLeaf_good hty hg hl
    split at hv
    · rename_i hch
      injection hv with hv; subst hv
      refine ⟨⟨h1, ⟨P, by simp only; rw [h2]; exact hp, by simp only; rw [h5]; exact ht, hr, by simp,
        fun _ => rfl, fun h => absurd hch h⟩, fun ks h => by simp at h, fun ks h => by simp at h⟩, h2, h3, h4,
        h5, h6, h7, h8, rfl, rfl⟩
    · rename_i hch
      split at hv
      · simp at hv
      · rename_i ks hks
        injection hv with hv; subst hv
        refine ⟨⟨h1, ⟨P, by simp only; rw [h2]; exact hp, by simp only; rw [h5]; exact ht, hr,
          by simp, fun h => absurd h hch, fun _ => rfl⟩, ?_, ?_⟩, h2, h3, h4, h5, h6, h7, h8, rfl,
          rfl⟩
        · intro ks' h
          simp only [Option.some.injEq] at h
          subst h
          have := leaves_ne_nil htree hp
          rw [← List.length_pos_iff] at this ⊢
          rw [mapLeaves_length hks]; exact this
        intro ks' h k hk
        simp only [Option.some.injEq] at h
        subst h
        obtain ⟨q, _, hq⟩ := mapLeaves_mem hks k hk
        obtain ⟨g1, g2, g3, g4, g5, g6, g7, g8⟩ := mkTLeaf_good hty hg hq
        exact ⟨g1, by rw [g3]; exact h3.symm, by rw [g4]; exact h4.symm, by rw [g5]; exact h5.symm,
          by rw [g6]; exact h6.symm⟩

/-! ## Primitive changes -/

theorem PLe.of_data (P : Param K G) (d : Data K G) (n : Nat) (h : P.version ≤ n) :
    PLe P { P with data := d, version := n } :=
  ⟨rfl, rfl, rfl, fun _ h => h, fun _ => rfl, fun _ h => h, id, id, fun _ h => h, fun _ => rfl, h⟩

theorem PGood.firstRead_le {P P' : Param K G} {t : PType} {u : Option String}
    {tps : Option (List K)} {e : Option Err} (hP : PGood P) (ht : P.ptype = none)
    (hu : (t = .generic ∧ u = none) ∨ (t ≠ .generic ∧ u.isSome))
    (h : Openscm.firstRead P t u tps = (P', e)) : PLe P P' ∧ PLe P { P' with readFrom := true } := by
  obtain ⟨_, _, h1, h2, h3, h4, h5, h6, h7, h8, h9⟩ := hP.firstRead ht hu h
  have hb := hP.2
  rw [ht] at hb
  constructor
  · exact ⟨h1, h2, h3, by simp [ht], by simp [ht], by simp [hb.2.2.1], by simp [hb.1],
      by simp [h6], by simp [h4], by simp [hb.1], h7.ge⟩
  · exact ⟨h1, h2, h3, by simp [ht], by simp [ht], by simp [hb.2.2.1], by simp [hb.1],
      by simp [h6], by simp [h4], by simp [hb.1], h7.ge⟩

theorem PLe.read (P : Param K G) : PLe P { P with readFrom := true } :=
  ⟨rfl, rfl, rfl, fun _ h => h, fun _ => rfl, fun _ h => h, fun _ => rfl, id, fun _ h => h,
    fun _ => rfl, le_refl _⟩

theorem PLe.mark (P : Param K G) : PLe P { P with written := true } :=
  ⟨rfl, rfl, rfl, fun _ h => h, fun _ => rfl, fun _ h => h, id, fun _ => rfl, fun _ h => h,
    fun _ => rfl, le_refl _⟩

/-- Every primitive change only moves parameters forward. -/
theorem Prim.pext {env : Env K} {s s' : St K G} {l : List (Nat × Data K G)} (h : Prim env s l s')
    (hg : Good env s) : PExt s s' := by
  cases h with
  | addRegion r R n hr hn ha => exact .of_eq rfl
  | addRoot r R n hr hn =>
    intro p P hP
    exact ⟨P, getElem?_append_of_some hP, .refl P⟩
  | addChild p P n hp hn hw hr =>
    intro q Q hQ
    by_cases hpq : p = q
    · subst hpq
      rw [hp] at hQ; cases hQ
      refine ⟨{ P with children := P.children ++ [(n, s.params.length)] },
        getElem?_append_of_some ?_, ?_⟩
      · rw [getElem?_modify_self, hp]; rfl
      · exact ⟨rfl, rfl, rfl, fun _ h => h, fun _ => rfl, fun _ h => h, id, id,
          fun c h => by simp [h], by simp [hr], le_refl _⟩
    · exact ⟨Q, getElem?_append_of_some (by rw [getElem?_modify_ne _ _ hpq]; exact hQ), .refl Q⟩
  | typed p P P' t u tps e hp ht hu hf =>
    exact .setParam hp ((hg.params p P hp).firstRead_le ht hu hf).1
  | typedRead p P P' t u tps hp ht hu hf =>
    exact .setParam hp ((hg.params p P hp).firstRead_le ht hu hf).2
  | read p P t hp ht => exact .setParam hp (.read P)
  | mark p P hp hc hr => exact .setParam hp (.mark P)
  | newS p P u v hp ht hr hv => exact .of_eq rfl
  | newT p P u tps ty ext v hp hty ht hr hv => exact .of_eq rfl
  | newG p P hp ht hr => exact .of_eq rfl
  | sWritable i v P hv hp hw => exact .of_eq rfl
  | gWritable i v P hv hp hw => exact .of_eq rfl
  | tWritable i v P hv hp hw => exact .of_eq rfl
  | storeS i v x hv hw =>
    obtain ⟨P, u, hp, _⟩ := (hg.sviews i v hv).ex
    exact .setParam hp (.of_data P _ _ (Nat.le_succ _))
  | storeG i v g hv hw =>
    obtain ⟨P, hp, _⟩ := hg.gviews i v hv
    exact .setParam hp (.of_data P _ _ (Nat.le_succ _))
  | tRead i v hv => exact .of_eq rfl
  | tCache i v d hv hd => exact .of_eq rfl
  | tLocked i b => exact .of_eq rfl
  | tStore i v P d l hv hl hd hp hc =>
    have h1 := PExt.setParam (f := fun P => { P with data := .series l, version := P.version + 1 })
      hp (.of_data P _ _ (Nat.le_succ _))
    exact h1.trans (.of_eq rfl)

/-! Reading keeps the invariant of the view. -/

theorem convert_length {ty : PType} {ext : Extrap} {src tgt : List K} {vals r : List (Fl K)}
    (h : convert ty ext src tgt vals = .ok r) : r.length = pointsLength ty tgt :=
  C27_length _ _ _ _ _ _ h

theorem refresh_good {env : Env K} {s : St K G} {v l : TLeaf K} {P : Param K G}
    {vals : Except Err (List (Fl K))} (hv : LGood env s v) (hp : s.params[v.param]? = some P)
    (hlen : ∀ a, vals = .ok a → a.length = v.ts.targetLength)
    (h : refresh v P.version vals = .ok l) : LGood env s l := by
  unfold refresh at h
  obtain ⟨⟨Q, u, t, h1, h2, h3, h4, h5, h6, h7, h8⟩, hl, hver, hty⟩ := hv
  rw [hp] at h1; cases h1
  split at h
  · split at h
    · simp at h
    · rename_i a
      injection h with h; subst h
      refine ⟨⟨P, u, t, hp, h2, h3, h4, h5, h6, h7, fun n hn => ?_⟩, fun d hd => ?_, by simp, hty⟩
      · simp only [Option.some.injEq] at hn; omega
      · simp only [Option.some.injEq] at hd; subst hd; exact hlen a rfl
  · rename_i d hd
    split at h
    · simp at h
    · rename_i ver hver'
      split at h
      · injection h with h; subst h
        exact ⟨⟨P, u, t, hp, h2, h3, h4, h5, h6, h7, h8⟩, hl, hver, hty⟩
      · split at h
        · simp at h
        · rename_i a
          split at h
          · simp at h
          · rename_i d' hd'
            injection h with h; subst h
            refine ⟨⟨P, u, t, hp, h2, h3, h4, h5, h6, h7, fun n hn => ?_⟩, fun d0 hd0 => ?_,
              by simp, hty⟩
            · simp only [Option.some.injEq] at hn; omega
            · simp only [Option.some.injEq] at hd0; subst hd0
              rw [Arr.copyTo_length hd']; exact hlen a rfl

theorem leafValues_length {s : St K G} {v : TLeaf K} {a : List (Fl K)}
    (h : leafValues s v = .ok a) : a.length = v.ts.targetLength := by
  unfold leafValues at h
  split at h
  · simp at h
  · split at h
    · simp at h
    · split at h
      · simp at h
      · split at h
        · exact convert_length h
        · simp at h

theorem readLeaf_good {env : Env K} {s : St K G} {v l : TLeaf K} (hv : LGood env s v)
    (h : readLeaf s v = .ok l) : LGood env s l := by
  unfold readLeaf at h
  split at h
  · simp at h
  · rename_i P hP
    exact refresh_good hv hP (fun a ha => leafValues_length ha) h

theorem LGood.cache_length {env : Env K} {s : St K G} {v : TLeaf K} (hv : LGood env s v)
    (h : v.data.isSome) : v.cache.length = v.ts.targetLength := by
  obtain ⟨d, hd⟩ := Option.isSome_iff_exists.1 h
  unfold TLeaf.cache
  rw [hd, ← hv.len d hd]
  cases d <;> simp [Arr.vals, Arr.length]

theorem refresh_isSome {v l : TLeaf K} {n : Nat} {vals : Except Err (List (Fl K))}
    (h : refresh v n vals = .ok l) : l.data.isSome ∧ l.version = some n := by
  unfold refresh at h
  split at h
  · split at h
    · simp at h
    · injection h with h; subst h; simp
  · rename_i d hd
    split at h
    · simp at h
    · rename_i ver hver
      split at h
      · rename_i he
        injection h with h; subst h; simp [hd, hver, he]
      · split at h
        · simp at h
        · split at h
          · simp at h
          · injection h with h; subst h; simp

theorem readLeaf_isSome {s : St K G} {v l : TLeaf K} (h : readLeaf s v = .ok l) :
    l.data.isSome ∧ ∃ P, s.params[v.param]? = some P ∧ l.version = some P.version := by
  unfold readLeaf at h
  split at h
  · simp at h
  · rename_i P hP
    obtain ⟨h1, h2⟩ := refresh_isSome h
    exact ⟨h1, P, hP, h2⟩

/-- Reading the children: invariants survive, the sum has the right length. -/
theorem sumKids_good {env : Env K} {s : St K G} {n : Nat} {c : String} {tg : List K}
    {ty : PType} {ext : Extrap} (hn : n = pointsLength ty tg) :
    ∀ (ks : List (TLeaf K)) (acc : Option (List (Fl K))),
      (∀ k ∈ ks, LGood env s k ∧ k.conv.target = c ∧ k.ts.target = tg ∧ k.ts.ty = ty ∧
        k.ts.ext = ext) →
      (∀ a, acc = some a → a.length = n) →
      (∀ k ∈ (sumKids s acc ks).1, LGood env s k ∧ k.conv.target = c ∧ k.ts.target = tg ∧
        k.ts.ty = ty ∧ k.ts.ext = ext) ∧
      (∀ a, (sumKids s acc ks).2 = .ok a → (ks ≠ [] ∨ acc.isSome) → a.length = n) := by
  intro ks
  induction ks with
  | nil =>
    intro acc _ hacc
    refine ⟨by simp [sumKids], fun a ha h => ?_⟩
    simp only [sumKids, Except.ok.injEq] at ha
    rcases h with h | h
    · exact absurd rfl h
    · obtain ⟨b, hb⟩ := Option.isSome_iff_exists.1 h
      rw [hb] at ha; simp at ha; subst ha; exact hacc _ hb
  | cons k ks ih =>
    intro acc hks hacc
    simp only [sumKids]
    split
    · rename_i e he
      exact ⟨hks, fun a ha => by simp at ha⟩
    · rename_i k' hk'
      obtain ⟨g1, g2, g3, g4, g5⟩ := hks k (by simp)
      have gk := readLeaf_good g1 hk'
      obtain ⟨m1, m2, m3⟩ := readLeaf_same hk'
      have hc : k'.cache.length = n := by
        rw [gk.cache_length (readLeaf_isSome hk').1, TSConv.targetLength, m3, g3, g4, hn]
      have := ih (some (addAcc acc k'.cache)) (fun k hk => hks k (by simp [hk])) (by
          intro a ha
          simp only [Option.some.injEq] at ha
          subst ha
          cases acc with
          | none => exact hc
          | some a => simp [addAcc, hacc a rfl, hc])
      refine ⟨fun x hx => ?_, fun a ha _ => this.2 a ha (by simp)⟩
      rcases List.mem_cons.1 hx with rfl | hx
      · exact ⟨gk, by rw [m2]; exact g2, by rw [m3]; exact g3, by rw [m3]; exact g4,
          by rw [m3]; exact g5⟩
      · exact this.1 x hx

theorem readView_good {env : Env K} {s : St K G} {v : TView K} (hv : TGood env s v) :
    TGood env s (readView s v).1 := by
  obtain ⟨hl, ⟨P, h1, h2, h3, h6, h7, h8⟩, hne, hk⟩ := hv
  have same : ∀ {l : TLeaf K} {ks : Option (List (TLeaf K))}, LGood env s l →
      l.param = v.leaf.param → l.conv = v.leaf.conv → l.ts = v.leaf.ts →
      (ks.isSome = v.kids.isSome) → (∀ k, ks = some k → k ≠ []) →
      (∀ k, ks = some k → ∀ x ∈ k, LGood env s x ∧ x.conv.target = v.leaf.conv.target ∧
        x.ts.target = v.leaf.ts.target ∧ x.ts.ty = v.leaf.ts.ty ∧ x.ts.ext = v.leaf.ts.ext) →
      TGood env s { v with leaf := l, kids := ks } := by
    intro l ks hl' e1 e2 e3 e4 e5 e6
    refine ⟨hl', ⟨P, by simp only; rw [e1]; exact h1, by simp only; rw [e3]; exact h2, h3, h6,
      fun h => ?_, fun h => ?_⟩, e5, fun k hk x hx => ?_⟩
    · have := h7 h
      rw [this] at e4
      simpa using e4
    · simp only; rw [e4]; exact h8 h
    · simp only [e2, e3]; exact e6 k hk x hx
  have hkc : ∀ ks, v.kids = some ks → ∀ k ∈ (sumKids s none ks).1, LGood env s k ∧
      k.conv.target = v.leaf.conv.target ∧ k.ts.target = v.leaf.ts.target ∧
      k.ts.ty = v.leaf.ts.ty ∧ k.ts.ext = v.leaf.ts.ext := fun ks hks =>
    (sumKids_good (n := pointsLength v.leaf.ts.ty v.leaf.ts.target) rfl ks none (hk ks hks)
      (by simp)).1
  have hks' : ∀ ks, ks ≠ [] → (sumKids s none ks).1 ≠ [] := by
    intro ks h
    cases ks with
    | nil => exact absurd rfl h
    | cons k ks =>
      simp only [sumKids]
      split <;> simp
  unfold readView
  rw [h1]
  simp only
  by_cases hc : P.children = []
  · rw [if_neg (by simpa using hc)]
    cases hr : readLeaf s v.leaf with
    | error e => exact ⟨hl, ⟨P, h1, h2, h3, h6, h7, h8⟩, hne, hk⟩
    | ok l =>
      obtain ⟨m1, m2, m3⟩ := readLeaf_same hr
      exact same (readLeaf_good hl hr) m1 m2 m3 rfl hne hk
  · rw [if_pos hc]
    split
    · cases hr : refresh v.leaf P.version (.error .badHandle) with
      | error e => exact ⟨hl, ⟨P, h1, h2, h3, h6, h7, h8⟩, hne, hk⟩
      | ok l =>
        obtain ⟨m1, m2, m3⟩ := refresh_same hr
        exact same (refresh_good hl h1 (by simp) hr) m1 m2 m3 rfl hne hk
    · cases hkk : v.kids with
      | none => exact ⟨hl, ⟨P, h1, h2, h3, h6, h7, h8⟩, hne, hk⟩
      | some ks =>
        simp only
        cases hr : refresh v.leaf P.version (sumKids s none ks).2 with
        | error e =>
          exact same hl rfl rfl rfl (by simp [hkk])
            (fun k he => by
              simp only [Option.some.injEq] at he; subst he; exact hks' ks (hne ks hkk))
            (fun k he => by simp only [Option.some.injEq] at he; subst he; exact hkc ks hkk)
        | ok l =>
          obtain ⟨m1, m2, m3⟩ := refresh_same hr
          refine same (refresh_good hl h1 (fun a ha => ?_) hr) m1 m2 m3 (by simp [hkk])
            (fun k he => by
              simp only [Option.some.injEq] at he; subst he; exact hks' ks (hne ks hkk))
            (fun k he => by simp only [Option.some.injEq] at he; subst he; exact hkc ks hkk)
          exact (sumKids_good (n := pointsLength v.leaf.ts.ty v.leaf.ts.target) rfl ks none
            (hk ks hkk) (by simp)).2 a ha (Or.inl (hne ks hkk))

theorem PGood.storeScalar {P : Param K G} {x : Fl K} {n : Nat} (h : PGood P)
    (ht : P.ptype = some .scalar) : PGood ({ P with data := .scalar x, version := n } : Param K G) := by
  refine ⟨h.1, ?_⟩
  have := h.2
  rw [ht] at this
  simp only [ht]
  exact ⟨this.1, this.2.1, x, rfl⟩

theorem PGood.storeGeneric {P : Param K G} {g : Option G} {n : Nat} (h : PGood P)
    (ht : P.ptype = some .generic) : PGood { P with data := .generic g, version := n } := by
  refine ⟨h.1, ?_⟩
  have := h.2
  rw [ht] at this
  simp only [ht]
  exact ⟨this.1, fun hc => ⟨(this.2 hc).1, g, rfl⟩⟩

theorem PGood.storeSeries {P : Param K G} {l : List (Fl K)} {t : List K} {ty : PType} {n : Nat}
    (h : PGood P) (hty : ty = .average ∨ ty = .point) (ht : P.ptype = some ty)
    (htp : P.tps = some t) (hl : l.length = pointsLength ty t) :
    PGood ({ P with data := .series l, version := n } : Param K G) := by
  refine ⟨h.1, ?_⟩
  have := h.2
  rw [ht] at this
  simp only [ht]
  rcases hty with rfl | rfl
  · refine ⟨this.1, Or.inr ⟨t, l, htp, rfl, hl, ?_⟩⟩
    rcases this.2 with ⟨h1, _⟩ | ⟨_, _, _, _, _, h⟩
    · rw [htp] at h1; simp at h1
    · exact h
  · refine ⟨this.1, Or.inr ⟨t, l, htp, rfl, hl, ?_⟩⟩
    rcases this.2 with ⟨h1, _⟩ | ⟨_, _, _, _, _, h⟩
    · rw [htp] at h1; simp at h1
    · exact h

theorem TGood.data {env : Env K} {s : St K G} {v : TView K} {d : Arr K} (h : TGood env s v)
    (hd : d.length = v.leaf.ts.targetLength) :
    TGood env s { v with leaf := { v.leaf with data := some d } } := by
  obtain ⟨⟨he, hl, hver, hty⟩, hx, hne, hk⟩ := h
  refine ⟨⟨he, fun d' hd' => ?_, by simp, hty⟩, hx, hne, hk⟩
  simp only [Option.some.injEq] at hd'; subst hd'; exact hd

theorem TGood.len {env : Env K} {s : St K G} {v : TView K} {d : Arr K} (h : TGood env s v)
    (hd : d.length = v.leaf.ts.targetLength ∨
      ∃ d0, v.leaf.data = some d0 ∧ d.length = d0.length) :
    d.length = v.leaf.ts.targetLength := by
  rcases hd with h1 | ⟨d0, h1, h2⟩
  · exact h1
  · rw [h2]; exact h.leaf.len d0 h1

theorem params_modify {s : St K G} {p : Nat} {f : Param K G → Param K G}
    (hg : ∀ (q : Nat) (Q : Param K G), s.params[q]? = some Q → PGood Q)
    (hf : ∀ P, s.params[p]? = some P → PGood (f P)) :
    ∀ (q : Nat) (Q : Param K G), (s.setParam p f).params[q]? = some Q → PGood Q := by
  intro q Q h
  rcases getElem?_modify_cases h with ⟨_, h⟩ | ⟨rfl, P, h1, h2⟩
  · exact hg q Q h
  · subst h2; exact hf P h1

/-- Every primitive change keeps the invariant. -/
theorem Prim.good {env : Env K} {s s' : St K G} {l : List (Nat × Data K G)} (h : Prim env s l s')
    (t : Tree s) (hg : Good env s) : Good env s' := by
  have hx := h.pext hg
  -- when only parameters change
  have onlyP : s'.sviews = s.sviews → s'.tviews = s.tviews → s'.gviews = s.gviews →
      (∀ (q : Nat) (Q : Param K G), s'.params[q]? = some Q → PGood Q) → Good env s' := by
    intro e1 e2 e3 hp
    refine ⟨hp, fun i v hv => ?_, fun i v hv => ?_, fun i v hv => ?_⟩
    · rw [e1] at hv; exact (hg.sviews i v hv).mono hx
    · rw [e2] at hv; exact (hg.tviews i v hv).mono hx
    · rw [e3] at hv; exact (hg.gviews i v hv).mono hx
  cases h with
  | addRegion r R n hr hn ha => exact onlyP rfl rfl rfl hg.params
  | addRoot r R n hr hn =>
    refine onlyP rfl rfl rfl (fun q Q hQ => ?_)
    rcases getElem?_snoc_cases hQ with h | ⟨_, rfl⟩
    · exact hg.params q Q h
    · exact .new _ _ _
  | addChild p P n hp hn hw hr =>
    refine onlyP rfl rfl rfl (fun q Q hQ => ?_)
    rcases getElem?_snoc_cases hQ with h | ⟨_, rfl⟩
    · rcases getElem?_modify_cases h with ⟨_, h⟩ | ⟨rfl, P', h1, rfl⟩
      · exact hg.params q Q h
      · rw [hp] at h1; cases h1
        exact (hg.params p P hp).addChild hw
    · exact .new _ _ _
  | typed p P P' ty u tps e hp ht hu hf =>
    exact onlyP rfl rfl rfl (params_modify hg.params
      (fun _ _ => ((hg.params p P hp).firstRead ht hu hf).2.1 (by simp)))
  | typedRead p P P' ty u tps hp ht hu hf =>
    exact onlyP rfl rfl rfl (params_modify hg.params
      (fun _ _ => ((hg.params p P hp).firstRead ht hu hf).1 rfl))
  | read p P ty hp ht =>
    refine onlyP rfl rfl rfl (params_modify hg.params (fun Q hQ => ?_))
    rw [hp] at hQ; cases hQ
    exact (hg.params p P hp).read ht
  | mark p P hp hc hr =>
    refine onlyP rfl rfl rfl (params_modify hg.params (fun Q hQ => ?_))
    rw [hp] at hQ; cases hQ
    exact (hg.params p P hp).mark hc hr
  | newS p P u v hp ht hr hv =>
    refine ⟨hg.params, fun i w hw => ?_, fun i w hw => (hg.tviews i w hw).mono hx,
      fun i w hw => hg.gviews i w hw⟩
    rcases getElem?_snoc_cases hw with h | ⟨_, rfl⟩
    · exact (hg.sviews i w h).mono hx
    · exact (mkSView_good hg.params hp ht hr hv).1.mono hx
  | newT p P u tps ty ext v hp hty ht hr hv =>
    refine ⟨hg.params, fun i w hw => (hg.sviews i w hw).mono hx, fun i w hw => ?_,
      fun i w hw => hg.gviews i w hw⟩
    rcases getElem?_snoc_cases hw with h | ⟨_, rfl⟩
    · exact (hg.tviews i w h).mono hx
    · exact (mkTView_good hty t hg.params hp ht hr hv).1.mono hx
  | newG p P hp ht hr =>
    refine ⟨hg.params, fun i w hw => (hg.sviews i w hw).mono hx,
      fun i w hw => (hg.tviews i w hw).mono hx, fun i w hw => ?_⟩
    rcases getElem?_snoc_cases hw with h | ⟨_, rfl⟩
    · exact hg.gviews i w h
    · exact ⟨P, hp, ht, hr, by simp⟩
  | sWritable i v P hv hp hw =>
    refine ⟨hg.params, fun j w hj => ?_, fun i w hw => (hg.tviews i w hw).mono hx,
      fun i w hw => hg.gviews i w hw⟩
    rcases getElem?_modify_cases hj with ⟨_, h⟩ | ⟨rfl, v', h1, rfl⟩
    · exact (hg.sviews j w h).mono hx
    · rw [hv] at h1; cases h1
      obtain ⟨⟨Q, u, a1, a2, a3, a4, a5, a6, a7, a8⟩, hk⟩ := (hg.sviews i v hv).mono hx
      have hpe : s.params[v.param]? = some Q := a1
      rw [hp] at hpe; cases hpe
      exact ⟨⟨P, u, a1, a2, a3, a4, a5, fun _ => hw, a7, a8⟩, hk⟩
  | gWritable i v P hv hp hw =>
    refine ⟨hg.params, fun i w hw => (hg.sviews i w hw).mono hx,
      fun i w hw => (hg.tviews i w hw).mono hx, fun j w hj => ?_⟩
    rcases getElem?_modify_cases hj with ⟨_, h⟩ | ⟨rfl, v', h1, rfl⟩
    · exact hg.gviews j w h
    · rw [hv] at h1; cases h1
      obtain ⟨Q, a1, a2, a3, a4⟩ := hg.gviews i v hv
      rw [hp] at a1; cases a1
      exact ⟨P, hp, a2, a3, fun _ => hw⟩
  | tWritable i v P hv hp hw =>
    refine ⟨hg.params, fun i w hw => (hg.sviews i w hw).mono hx, fun j w hj => ?_,
      fun i w hw => hg.gviews i w hw⟩
    rcases getElem?_modify_cases hj with ⟨_, h⟩ | ⟨rfl, v', h1, rfl⟩
    · exact (hg.tviews j w h).mono hx
    · rw [hv] at h1; cases h1
      obtain ⟨hl, ⟨Q, a1, a2, a3, a4, a5, a6⟩, hne, hk⟩ := (hg.tviews i v hv).mono hx
      have hpe : s.params[v.leaf.param]? = some Q := a1
      rw [hp] at hpe; cases hpe
      exact ⟨hl, ⟨P, a1, a2, a3, fun _ => hw, a5, a6⟩, hne, hk⟩
  | storeS i v x hv hw =>
    obtain ⟨P, u, a1, a2, _⟩ := (hg.sviews i v hv).ex
    refine onlyP rfl rfl rfl (params_modify hg.params (fun Q hQ => ?_))
    rw [a1] at hQ; cases hQ
    exact (hg.params _ P a1).storeScalar a2
  | storeG i v g hv hw =>
    obtain ⟨P, a1, a2, _⟩ := hg.gviews i v hv
    refine onlyP rfl rfl rfl (params_modify hg.params (fun Q hQ => ?_))
    rw [a1] at hQ; cases hQ
    exact (hg.params _ P a1).storeGeneric a2
  | tRead i v hv =>
    refine ⟨hg.params, fun i w hw => (hg.sviews i w hw).mono hx, fun j w hj => ?_,
      fun i w hw => hg.gviews i w hw⟩
    rcases getElem?_modify_cases hj with ⟨_, h⟩ | ⟨rfl, v', h1, rfl⟩
    · exact (hg.tviews j w h).mono hx
    · exact (readView_good (hg.tviews i v hv)).mono hx
  | tCache i v d hv hd =>
    refine ⟨hg.params, fun i w hw => (hg.sviews i w hw).mono hx, fun j w hj => ?_,
      fun i w hw => hg.gviews i w hw⟩
    rcases getElem?_modify_cases hj with ⟨_, h⟩ | ⟨rfl, v', h1, rfl⟩
    · exact (hg.tviews j w h).mono hx
    · rw [hv] at h1; cases h1
      have := hg.tviews i v hv
      exact (this.data (this.len hd)).mono hx
  | tLocked i b =>
    refine ⟨hg.params, fun i w hw => (hg.sviews i w hw).mono hx, fun j w hj => ?_,
      fun i w hw => hg.gviews i w hw⟩
    rcases getElem?_modify_cases hj with ⟨_, h⟩ | ⟨rfl, v', h1, rfl⟩
    · exact (hg.tviews j w h).mono hx
    · obtain ⟨hl, hx', hne, hk⟩ := (hg.tviews i v' h1).mono hx
      exact ⟨hl, hx', hne, hk⟩
  | tStore i v P d l hv hl hd hp hc =>
    have hv' := hg.tviews i v hv
    refine ⟨?_, fun i w hw => (hg.sviews i w hw).mono hx, fun j w hj => ?_,
      fun i w hw => (hg.gviews i w hw).mono hx⟩
    · show ∀ (q : Nat) (Q : Param K G), (s.setParam v.leaf.param
            (fun P => { P with data := .series l, version := P.version + 1 })).params[q]? = some Q →
            PGood Q
      refine params_modify hg.params (fun Q hQ => ?_)
      rw [hp] at hQ; cases hQ
      obtain ⟨Q, a1, a2, _⟩ := hv'.ex
      rw [hp] at a1; cases a1
      obtain ⟨Q, u, t', b1, b2, b3, b4, b5, b6, _⟩ := hv'.leaf.ex
      rw [hp] at b1; cases b1
      refine (hg.params _ P hp).storeSeries hv'.leaf.ty a2 b5 ?_
      rw [← b6]
      exact convert_length hc
    · rcases getElem?_modify_cases hj with ⟨_, h⟩ | ⟨rfl, v', h1, rfl⟩
      · exact (hg.tviews j w h).mono hx
      · have h1' : s.tviews[i]? = some v' := h1
        rw [hv] at h1'; cases h1'
        obtain ⟨⟨⟨Q, u, t', b1, b2, b3, b4, b5, b6, b7, b8⟩, c1, c2, c3⟩, hx', hne, hk⟩ :=
          hv'.mono hx
        refine ⟨⟨⟨Q, u, t', b1, b2, b3, b4, b5, b6, b7, fun n hn => ?_⟩, c1, ?_, c3⟩, hx', hne, hk⟩
        · simp only [Option.some.injEq] at hn
          subst hn
          have : ((s.setParam v.leaf.param
            (fun P => { P with data := .series l, version := P.version + 1 })).params[v.leaf.param]?)
              = some { P with data := .series l, version := P.version + 1 } := by
            rw [setParam_self, hp]; rfl
          have b1' : (s.setParam v.leaf.param (fun P =>
            { P with data := .series l, version := P.version + 1 })).params[v.leaf.param]? = some Q :=
            b1
          rw [this] at b1'; cases b1'; exact le_refl _
        · intro hnone; simp [hd] at hnone

/-! ## All histories -/

/-- Everything known about a reachable state. -/
structure Inv (env : Env K) (s : St K G) : Prop where
  tree : Tree s
  good : Good env s

theorem Inv.init (env : Env K) (root : String) : Inv env (St.init root : St K G) :=
  ⟨.init root, .init env root⟩

theorem Steps.inv {env : Env K} {s s' : St K G} {l : List (Nat × Data K G)}
    (h : Steps env s l s') (hi : Inv env s) : Inv env s' := by
  induction h with
  | refl => exact hi
  | tail _ hp ih => exact ⟨hp.tree ih.tree, hp.good ih.tree ih.good⟩

theorem Steps.pext {env : Env K} {s s' : St K G} {l : List (Nat × Data K G)}
    (h : Steps env s l s') (hi : Inv env s) : PExt s s' := by
  induction h with
  | refl => exact .refl s
  | tail hs hp ih => exact ih.trans (hp.pext (hs.inv hi).good)

theorem call_inv {env : Env K} (op : Op K G) {s : St K G} (hi : Inv env s) :
    Inv env (call env op s).2 := by
  obtain ⟨l, h⟩ := call_steps env op s hi.good.tyOK
  exact h.inv hi

theorem call_pext {env : Env K} (op : Op K G) {s : St K G} (hi : Inv env s) :
    PExt s (call env op s).2 := by
  obtain ⟨l, h⟩ := call_steps env op s hi.good.tyOK
  exact h.pext hi

theorem after_cons (env : Env K) (s : St K G) (op : Op K G) (ops : List (Op K G)) :
    after env s (op :: ops) = after env (call env op s).2 ops := by
  unfold after; rw [run]

theorem after_append (env : Env K) (s : St K G) (a b : List (Op K G)) :
    after env s (a ++ b) = after env (after env s a) b := by
  induction a generalizing s with
  | nil => rfl
  | cons op a ih => rw [List.cons_append, after_cons, after_cons, ih]

theorem after_inv {env : Env K} (ops : List (Op K G)) {s : St K G} (hi : Inv env s) :
    Inv env (after env s ops) := by
  induction ops generalizing s with
  | nil => exact hi
  | cons op ops ih => rw [after_cons]; exact ih (call_inv op hi)

theorem after_pext {env : Env K} (ops : List (Op K G)) {s : St K G} (hi : Inv env s) :
    PExt s (after env s ops) := by
  induction ops generalizing s with
  | nil => exact .refl s
  | cons op ops ih => rw [after_cons]; exact (call_pext op hi).trans (ih (call_inv op hi))

theorem Reachable.inv {env : Env K} {s : St K G} (h : Reachable env s) : Inv env s := by
  obtain ⟨root, ops, rfl⟩ := h
  exact after_inv ops (.init env root)

theorem Reachable.after {env : Env K} {s : St K G} (h : Reachable env s) (ops : List (Op K G)) :
    Reachable env (after env s ops) := by
  obtain ⟨root, ops', rfl⟩ := h
  exact ⟨root, ops' ++ ops, (after_append env _ _ _).symm⟩

end Openscm
