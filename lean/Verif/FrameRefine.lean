import Verif.FrameResample
import Verif.FrameCommute
import Verif.TimeThrough
import Verif.TimeRefine

/-!
# C95: frames on finer times

`ScmDataFrameBase.interpolate`, `openscm/scmdataframe/base.py:940-1052` (`FrameInterp.lean`).
-/

set_option linter.unusedSectionVars false

namespace Openscm

variable {K : Type} [Field K] [LinearOrder K] [IsStrictOrderedRing K]

/-! ## Specification -/

/-- All timeseries are of this kind, and their metadata says so. -/
def OfKind (F : DFrame K) (p : PType) : Prop :=
  "parameter_type" ∈ F.cols ∧ ∀ i, i < F.meta.length → F.HasMeta i "parameter_type" (.str (typeText p))

/-- `fine` has the times of `coarse` (and, for averages, the end of the last period). -/
def Finer (p : PType) (coarse fine : List Int) : Prop :=
  (∀ t ∈ coarse, t ∈ fine) ∧
    (p = .average → ∀ c f, OneMore coarse c → OneMore fine f → ∀ t ∈ c, t ∈ f)

/-! ## Interpolation of one kind -/

theorem ofKind_types {reg : Registry K} {views : Bool} {F : DFrame K} {p : PType} (hF : F.Ok)
    (hk : OfKind F p) :
    (∀ i, i < F.data.length → TypeIs reg views F i (.str (typeText p))) ∧
      ∀ i v, TypeIs reg views F i v → v = .str (typeText p) := by
  have hlen : F.data.length = F.meta.length := by
    have := congrArg List.length hF.labels
    simpa using this
  have only : ∀ i v, TypeIs reg views F i v → i < F.meta.length := by
    intro i v hv
    have hm : ∀ {c w}, F.HasMeta i c w → i < F.meta.length := by
      rintro c w ⟨_, _, -, h2, -⟩
      exact (List.getElem?_eq_some_iff.1 h2).1
    cases hv with
    | given h _ => exact hm h
    | guessed _ _ h _ => exact hm h
    | guessedNoUnit _ _ h _ => exact hm h
    | unknown _ _ h => exact h
  have hT : ∀ i, i < F.meta.length → TypeIs reg views F i (.str (typeText p)) := fun i hi => .given (hk.2 i hi) (by simp)
  exact ⟨fun i hi => hT i (hlen ▸ hi), fun i v hv => TypeIs.unique hF hv (hT i (only i v hv))⟩

/-- Frames of one kind whose timeseries can be placed can be interpolated. -/
theorem ofKind_works {reg : Registry K} {views : Bool} {F : DFrame K} {p : PType} {target : List Int} {ext : Extrap} (hF : F.Ok)
    (hr : ∀ c ∈ requiredCols, c ∈ F.cols) (hp : p = .average ∨ p = .point) (hk : OfKind F p)
    (hpl : ∀ (i : Nat) (d : Nat × List (Fl K)), F.data[i]? = some d → ∃ new, Placed ext F.times target d.2 new p) :
    ∃ G, F.interpolate reg views target ext = .ok G := by
  obtain ⟨t1, t2⟩ := ofKind_types (reg := reg) (views := views) hF hk
  refine C56_works hF hr (fun i d hd => ?_) (fun i j a b ha hb _ => ?_)
  · obtain ⟨new, hn⟩ := hpl i d hd
    exact ⟨_, p, new, t1 i (List.getElem?_eq_some_iff.1 hd).1, kindWord_text hp, hn⟩
  · have e1 := t2 i _ ha
    have e2 := t2 j _ hb
    cases e1
    cases e2
    exact lt_irrefl _

/-- What interpolation makes of them. -/
theorem ofKind_placed {reg : Registry K} {views : Bool} {F G : DFrame K} {p : PType} {target : List Int} {ext : Extrap} (hF : F.Ok)
    (hr : ∀ c ∈ requiredCols, c ∈ F.cols) (hp : p = .average ∨ p = .point) (hk : OfKind F p)
    (hG : F.interpolate reg views target ext = .ok G) :
    G.Ok ∧ G.times = target ∧ G.cols = F.cols ∧ G.meta = F.meta ∧ G.data.length = F.data.length ∧
      ∀ (i : Nat) (d : Nat × List (Fl K)), F.data[i]? = some d →
        ∃ new, G.data[i]? = some (d.1, new) ∧ Placed ext F.times target d.2 new p := by
  obtain ⟨t1, t2⟩ := ofKind_types (reg := reg) (views := views) hF hk
  have hlen : F.data.length = F.meta.length := by
    have := congrArg List.length hF.labels
    simpa using this
  obtain ⟨g1, g2, g3, g4, g5⟩ := C56_placed_partial hF hr hG
  have hcols : G.cols = F.cols := by
    obtain ⟨rows, ks, new, -, -, -, rfl⟩ := interpolate_parts hG
    simp [DFrame.withType, hk.1]
  have hkind : ∀ {i w q}, TypeIs reg views F i (.str w) → KindWord w q → q = p := by
    intro i w q h1 h2
    have e := t2 i _ h1
    cases e
    have h3 := kindWord_iff.1 h2
    rw [kindWord_iff.1 (kindWord_text hp)] at h3
    exact (Except.ok.inj h3).symm
  have hGd : G.data.length = F.data.length := by
    have := congrArg List.length g3
    simpa using this
  have hrow : ∀ (i : Nat) (d : Nat × List (Fl K)), F.data[i]? = some d →
      ∃ new, G.data[i]? = some (d.1, new) ∧ Placed ext F.times target d.2 new p ∧
        G.HasMeta i "parameter_type" (.str (typeText p)) := by
    intro i d hd
    obtain ⟨new, e1, e2⟩ := g5 i d hd
    have hl := congrArg (fun l : List Nat => l[i]?) g3
    simp only [List.getElem?_map, hd, e1, Option.map_some, Option.some.injEq] at hl
    rcases e2 with ⟨w, q, u1, u2, u3, u4⟩ | ⟨v, u1, u2, -⟩
    · obtain rfl := hkind u1 u2
      exact ⟨new.2, by rw [e1, ← hl], u4, u3⟩
    · have e := t2 i _ u1
      subst e
      simp [PyVal.isNull] at u2
  refine ⟨g1, g2, hcols, ?_, hGd, fun i d hd => ?_⟩
  · have hGlen : G.meta.length = F.meta.length := by
      have e1 := congrArg List.length g1.labels
      simp only [List.length_map] at e1
      omega
    apply List.ext_getElem?
    intro i
    cases hd : F.meta[i]? with
    | none =>
      rw [List.getElem?_eq_none_iff] at hd ⊢
      omega
    | some row =>
      have hi := (List.getElem?_eq_some_iff.1 hd).1
      have hgr : G.meta[i]? = some G.meta[i] := List.getElem?_eq_getElem (by omega)
      rw [hgr, Option.some.injEq]
      have l1 := g1.meta_len _ (List.mem_of_getElem? hgr)
      have l2 := hF.meta_len _ (List.mem_of_getElem? hd)
      have hlab : G.meta[i].1 = row.1 := by
        have e := congrArg (fun l : List Nat => l[i]?) (g1.labels.symm.trans (g3.trans hF.labels))
        simp only [List.getElem?_map, hd, hgr, Option.map_some] at e
        exact Option.some.inj e
      refine Prod.ext hlab (List.ext_getElem (by rw [l1, l2, hcols]) fun j h1 h2 => ?_)
      have hj : F.cols[j]? = some (F.cols[j]'(by omega)) := List.getElem?_eq_getElem _
      have hv : F.HasMeta i (F.cols[j]'(by omega)) row.2[j] := ⟨j, row, hj, hd, List.getElem?_eq_getElem _⟩
      have hw : G.HasMeta i (F.cols[j]'(by omega)) (G.meta[i].2[j]) :=
        ⟨j, _, by rw [hcols]; exact hj, hgr, List.getElem?_eq_getElem _⟩
      by_cases hc : F.cols[j]'(by omega) = "parameter_type"
      · rw [hc] at hv hw
        have e1 := HasMeta.unique hF hv (hk.2 i hi)
        obtain ⟨new, -, -, u3⟩ := hrow i _ (List.getElem?_eq_getElem (by omega))
        rw [e1]
        exact HasMeta.unique g1 hw u3
      · exact HasMeta.unique hF ((g4 i _ _ hc).1 hw) hv
  · obtain ⟨new, a, b, -⟩ := hrow i d hd
    exact ⟨new, a, b⟩

theorem OfKind.same {F G : DFrame K} {p : PType} (h : OfKind F p) (hc : G.cols = F.cols) (hm : G.meta = F.meta) : OfKind G p := by
  refine ⟨hc ▸ h.1, fun i hi => ?_⟩
  obtain ⟨j, row, h1, h2, h3⟩ := h.2 i (hm ▸ hi)
  exact ⟨j, row, by rw [hc]; exact h1, by rw [hm]; exact h2, h3⟩

/-! ## There and back -/

theorem toK_mem {a b : List Int} (h : ∀ t ∈ a, t ∈ b) : ∀ t ∈ (toK a : List K), t ∈ (toK b : List K) := by
  intro t ht
  unfold toK at *
  obtain ⟨i, hi, rfl⟩ := List.mem_map.1 ht
  exact List.mem_map.2 ⟨i, h i hi, rfl⟩

theorem mkTSConv_back {a b : List Int} (h2 : 2 ≤ a.length) (ha : a.Pairwise (· < ·)) (hb : b.Pairwise (· < ·)) (h : ∀ t ∈ a, t ∈ b)
    (p : PType) (ext : Extrap) :
    mkTSConv (toK b : List K) (toK a) p ext = .ok { source := toK b, target := toK a, ty := p, ext := ext } := by
  match a, h2, ha, h with
  | x :: y :: a, _, ha, h =>
    cases b with
    | nil => exact absurd (h x (by simp)) (by simp)
    | cons z b =>
      have hz : z ≤ y := by
        rcases List.mem_cons.1 (h y (by simp)) with rfl | hy
        · exact le_rfl
        · exact ((List.pairwise_cons.1 hb).1 y hy).le
      unfold mkTSConv toK
      simp only [List.map_cons]
      rw [if_neg (by rw [not_lt]; exact_mod_cast hz)]

theorem Placed.back {ext : Extrap} {src tgt : List Int} {vs : List K} {new : List (Fl K)} {p : PType}
    (h : Placed ext src tgt (vs.map .num) new p) (hs : src.Pairwise (· < ·)) (ht : tgt.Pairwise (· < ·))
    (hf : Finer p src tgt) (ext' : Extrap) : Placed ext' tgt src new (vs.map .num) p := by
  cases h with
  | @point c h1 h2 =>
    have hc := mkTSConv_fields h1
    subst hc
    have hn := h2
    unfold TSConv.convertFrom convert at hn
    simp only [Fl.allNum_map_num] at hn
    obtain ⟨h3, hl⟩ := convertNum_parts (.inr rfl) hn
    obtain ⟨ys, rfl, hb⟩ := C76_convert (.inl rfl) h3 hl (cast_increasing hs) (cast_increasing ht) (toK_mem hf.1) h2
    have hlen : src.length = vs.length := by simpa [toK, pointsLength] using hl
    exact .point (mkTSConv_back (by omega) hs ht hf.1 .point ext') (hb ext')
  | @average s t c m1 m2 h1 h2 =>
    have hc := mkTSConv_fields h1
    subst hc
    have hn := h2
    unfold TSConv.convertFrom convert at hn
    simp only [Fl.allNum_map_num] at hn
    obtain ⟨h3, hl⟩ := convertNum_parts (.inl rfl) hn
    have hs' := m1.increasing hs
    have ht' := m2.increasing ht
    have hsub := hf.2 rfl s t m1 m2
    have hl' : s.length = vs.length + 1 := by simpa [toK] using hl
    obtain ⟨ys, rfl, hb⟩ := C76_convert (.inr rfl) h3 (by simp [pointsLength, toK, hl']) (cast_increasing hs')
      (cast_increasing ht') (toK_mem hsub) h2
    exact .average m2 m1 (mkTSConv_back (by omega) hs' ht' hsub .average ext') (hb ext')

/-- C95: a frame of one kind without missing values, interpolated to finer times and back, is what it was. -/
theorem C95_back {reg : Registry K} {views : Bool} {F G : DFrame K} {p : PType} {fine : List Int} {ext : Extrap} (hF : F.Ok)
    (hr : ∀ c ∈ requiredCols, c ∈ F.cols) (hp : p = .average ∨ p = .point) (hk : OfKind F p) (hc : Complete F)
    (hs : F.times.Pairwise (· < ·)) (ht : fine.Pairwise (· < ·)) (hf : Finer p F.times fine)
    (h : F.interpolate reg views fine ext = .ok G) (ext' : Extrap) : G.interpolate reg views F.times ext' = .ok F := by
  obtain ⟨g1, g2, g3, g4, g5, g6⟩ := ofKind_placed hF hr hp hk h
  have hkG := hk.same g3 g4
  have hrG : ∀ c ∈ requiredCols, c ∈ G.cols := by rw [g3]; exact hr
  have hpl : ∀ (i : Nat) (d : Nat × List (Fl K)), G.data[i]? = some d →
      ∃ old, F.data[i]? = some (d.1, old) ∧ Placed ext' G.times F.times d.2 old p := by
    intro i d hd
    have hi := (List.getElem?_eq_some_iff.1 hd).1
    have he : F.data[i]? = some (F.data[i]'(by omega)) := List.getElem?_eq_getElem _
    obtain ⟨new, e1, e2⟩ := g6 i _ he
    rw [hd] at e1
    obtain rfl := Option.some.inj e1
    obtain ⟨vs, hvs⟩ := hc _ (List.mem_of_getElem? he)
    rw [hvs] at e2
    refine ⟨(F.data[i]'(by omega)).2, he, ?_⟩
    rw [g2, hvs]
    exact e2.back hs ht hf ext'
  obtain ⟨H, hH⟩ := ofKind_works (reg := reg) (views := views) (target := F.times) (ext := ext') g1 hrG hp hkG
    (fun i d hd => let ⟨old, _, e⟩ := hpl i d hd; ⟨old, e⟩)
  rw [hH]
  obtain ⟨k1, k2, k3, k4, k5, k6⟩ := ofKind_placed g1 hrG hp hkG hH
  have hdata : H.data = F.data := by
    apply List.ext_getElem?
    intro i
    cases hd : G.data[i]? with
    | none =>
      rw [List.getElem?_eq_none_iff] at hd
      rw [List.getElem?_eq_none (by omega), List.getElem?_eq_none (by omega)]
    | some d =>
      obtain ⟨old, e1, e2⟩ := hpl i d hd
      obtain ⟨new, e3, e4⟩ := k6 i d hd
      rw [e1, e3, e4.unique e2]
  have hcols := k3.trans g3
  have hmeta := k4.trans g4
  cases H
  cases F
  simp only at k2 hcols hdata hmeta
  subst k2 hcols hdata hmeta
  rfl

/-! ## In steps -/

/-- C95: a frame of points without missing values that is interpolated to finer times first gives on any other times what
it gives at once. -/
theorem C95_steps {reg : Registry K} {views : Bool} {F G H : DFrame K} {fine target : List Int} {ext : Extrap} (hF : F.Ok)
    (hr : ∀ c ∈ requiredCols, c ∈ F.cols) (hk : OfKind F .point) (hc : Complete F) (hs : F.times.Pairwise (· < ·))
    (ht : fine.Pairwise (· < ·)) (hf : ∀ t ∈ F.times, t ∈ fine) (h : F.interpolate reg views fine ext = .ok G)
    (h' : F.interpolate reg views target ext = .ok H) : G.interpolate reg views target ext = .ok H := by
  obtain ⟨g1, g2, g3, g4, g5, g6⟩ := ofKind_placed hF hr (.inr rfl) hk h
  obtain ⟨k1, k2, k3, k4, k5, k6⟩ := ofKind_placed hF hr (.inr rfl) hk h'
  have hkG := hk.same g3 g4
  have hrG : ∀ c ∈ requiredCols, c ∈ G.cols := by rw [g3]; exact hr
  have hpl : ∀ (i : Nat) (d : Nat × List (Fl K)), G.data[i]? = some d →
      ∃ new, H.data[i]? = some (d.1, new) ∧ Placed ext G.times target d.2 new .point := by
    intro i d hd
    have hi := (List.getElem?_eq_some_iff.1 hd).1
    have he : F.data[i]? = some (F.data[i]'(by omega)) := List.getElem?_eq_getElem _
    obtain ⟨mid, e1, e2⟩ := g6 i _ he
    rw [hd] at e1
    obtain rfl := Option.some.inj e1
    obtain ⟨new, e3, e4⟩ := k6 i _ he
    refine ⟨new, e3, ?_⟩
    obtain ⟨vs, hvs⟩ := hc _ (List.mem_of_getElem? he)
    rw [hvs] at e2 e4
    rw [g2]
    cases e2 with
    | @point c a1 a2 =>
      cases e4 with
      | @point c' b1 b2 =>
        have := mkTSConv_fields a1
        subst this
        have hb := mkTSConv_fields b1
        subst hb
        unfold TSConv.convertFrom convert at a2 b2
        simp only [Fl.allNum_map_num] at a2 b2
        obtain ⟨ys, rfl, q⟩ := C95_through (tgt := toK target) (cast_increasing hs) (cast_increasing ht) (toK_mem hf) a2
        have hm : mkTSConv (toK fine : List K) (toK target) .point ext
            = .ok { source := toK fine, target := toK target, ty := .point, ext := ext } := by
          have hfin : ∀ {x}, x ∈ F.times.head? → ∃ z l, fine = z :: l ∧ z ≤ x := by
            intro x hx
            cases fine with
            | nil =>
              have := hf x (List.mem_of_mem_head? hx)
              simp at this
            | cons z l =>
              refine ⟨z, l, rfl, ?_⟩
              rcases List.mem_cons.1 (hf x (List.mem_of_mem_head? hx)) with rfl | hy
              · exact le_rfl
              · exact ((List.pairwise_cons.1 ht).1 x hy).le
          revert b1
          generalize F.times = ft at hfin
          cases ft with
          | nil => intro b1; simp [mkTSConv] at b1
          | cons x ft =>
            obtain ⟨z, l, rfl, hz⟩ := hfin (x := x) rfl
            match target with
            | [] => intro b1; simp [mkTSConv] at b1
            | [_] => intro b1; simp [mkTSConv] at b1
            | u :: w :: r =>
              intro b1
              simp only [mkTSConv, List.map_cons] at b1
              split at b1
              · cases b1
              · rename_i hn
                simp only [mkTSConv, toK, List.map_cons]
                rw [if_neg]
                rw [not_lt] at hn ⊢
                exact le_trans (by exact_mod_cast hz) hn
        refine .point hm ?_
        unfold TSConv.convertFrom convert
        simp only [Fl.allNum_map_num]
        rw [q]
        exact b2
  obtain ⟨J, hJ⟩ := ofKind_works (reg := reg) (views := views) (target := target) (ext := ext) g1 hrG (.inr rfl) hkG
    (fun i d hd => let ⟨old, _, e⟩ := hpl i d hd; ⟨old, e⟩)
  rw [hJ]
  obtain ⟨j1, j2, j3, j4, j5, j6⟩ := ofKind_placed g1 hrG (.inr rfl) hkG hJ
  have hdata : J.data = H.data := by
    apply List.ext_getElem?
    intro i
    cases hd : G.data[i]? with
    | none =>
      rw [List.getElem?_eq_none_iff] at hd
      rw [List.getElem?_eq_none (by omega), List.getElem?_eq_none (by omega)]
    | some d =>
      obtain ⟨old, e1, e2⟩ := hpl i d hd
      obtain ⟨new, e3, e4⟩ := j6 i d hd
      rw [e1, e3, e4.unique e2]
  have hcols := j3.trans (g3.trans k3.symm)
  have hmeta := j4.trans (g4.trans k4.symm)
  have htimes := j2.trans k2.symm
  cases J
  cases H
  simp only at htimes hcols hdata hmeta
  subst htimes hcols hdata hmeta
  rfl

namespace C95Example

/-- Two timeseries of points on four times. -/
def points : DFrame Rat :=
  { cols := ["model", "scenario", "region", "variable", "unit", "climate_model", "parameter_type"]
    times := [0, 10, 20, 40]
    data := [(0, [.num 1, .num 2, .num 3, .num 0]), (7, [.num 5, .num 5, .num 6, .num 8])]
    «meta» := [(0, [.str "m", .str "s", .str "World", .str "Temperature", .str "K", .str "c", .str "point"]),
      (7, [.str "m", .str "s", .str "World", .str "Depth", .str "m", .str "c", .str "point"])] }

theorem points_ok : points.Ok := ⟨by decide +kernel, by decide +kernel, by decide +kernel, by decide +kernel, by decide +kernel⟩

theorem points_kind : OfKind points .point := by
  refine ⟨by decide, fun i hi => ?_⟩
  match i, hi with
  | 0, _ => exact ⟨6, _, rfl, rfl, rfl⟩
  | 1, _ => exact ⟨6, _, rfl, rfl, rfl⟩

theorem points_complete : Complete points := by
  intro d hd
  simp only [points, List.mem_cons, List.not_mem_nil, or_false] at hd
  rcases hd with rfl | rfl
  · exact ⟨[1, 2, 3, 0], rfl⟩
  · exact ⟨[5, 5, 6, 8], rfl⟩

/-- Finer times, and others. -/
example : (match points.interpolate (fun _ => none) false [-10, 0, 5, 10, 20, 30, 40] .linear with
      | .ok G => some (G.data.map (·.2))
      | .error _ => none) =
      some [[.num 0, .num 1, .num (3 / 2), .num 2, .num 3, .num (3 / 2), .num 0],
        [.num 5, .num 5, .num 5, .num 5, .num 6, .num 7, .num 8]] ∧
    (match points.interpolate (fun _ => none) false [4, 15, 50] .linear with
      | .ok G => some (G.data.map (·.2))
      | .error _ => none) =
      some [[.num (7 / 5), .num (5 / 2), .num (-3 / 2)], [.num 5, .num (11 / 2), .num 9]] := by
  decide +kernel

example {G H : DFrame Rat} (h : points.interpolate (fun _ => none) false [-10, 0, 5, 10, 20, 30, 40] .linear = .ok G)
    (h' : points.interpolate (fun _ => none) false [4, 15, 50] .linear = .ok H) :
    G.interpolate (fun _ => none) false points.times .linear = .ok points ∧
      G.interpolate (fun _ => none) false [4, 15, 50] .linear = .ok H :=
  ⟨C95_back points_ok (by decide) (.inr rfl) points_kind points_complete (by decide) (by decide)
      ⟨by decide, fun h => nomatch h⟩ h .linear,
    C95_steps points_ok (by decide) points_kind points_complete (by decide) (by decide) (by decide) h h'⟩

/-- For averages the finer times must end with the same period. -/
example : Finer .average [0, 10, 20, 40] [0, 5, 10, 20, 30, 40, 50] := by
  refine ⟨by decide, fun _ c f hc hf => ?_⟩
  obtain rfl := hc.unique (m' := [0, 10, 20, 40, 60]) ⟨[0, 10], 20, 40, rfl, rfl⟩
  obtain rfl := hf.unique (m' := [0, 5, 10, 20, 30, 40, 50, 60]) ⟨[0, 5, 10, 20, 30], 40, 50, rfl, rfl⟩
  decide

end C95Example

end Openscm
