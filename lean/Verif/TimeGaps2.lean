import Verif.TimeGaps
import Verif.TimeProps

/-!
# Timeseries with missing values on their own time points
-/

set_option linter.unusedSectionVars false

namespace Openscm
variable {K : Type} [Field K] [LinearOrder K] [IsStrictOrderedRing K]

/-- What is shown of values: all of them if none is missing, and never another number. -/
structure ShownAs (vals r : List (Fl K)) : Prop where
  length : r.length = vals.length
  num : ∀ (j : Nat) (x : K), r[j]? = some (.num x) → vals[j]? = some (.num x)
  all : Fl.allNum vals ≠ none → r = vals

theorem ShownAs.trans {a b c : List (Fl K)} (h : ShownAs a b) (h' : ShownAs b c) : ShownAs a c := by
  refine ⟨h'.length.trans h.length, fun j x hx => h.num j x (h'.num j x hx), fun hn => ?_⟩
  obtain rfl := h.all hn
  exact h'.all hn

theorem ShownAs.map {a b : List (Fl K)} (h : ShownAs a b) (f : K → K) : ShownAs (a.map (Fl.map f)) (b.map (Fl.map f)) := by
  refine ⟨by simpa using h.length, fun j x hx => ?_, fun hn => ?_⟩
  · rw [List.getElem?_map, Option.map_eq_some_iff] at hx ⊢
    obtain ⟨y, hy, e⟩ := hx
    cases y with
    | nan => cases e
    | num y => exact ⟨_, h.num j y hy, e⟩
  · rw [h.all fun hc => hn ?_]
    clear h hn
    induction a with
    | nil => cases hc
    | cons x a ih =>
      cases x with
      | nan => rfl
      | num x =>
        rw [List.map_cons, Fl.map, Fl.allNum]
        rw [Fl.allNum] at hc
        cases ha : Fl.allNum a with
        | none => rw [ih ha]; rfl
        | some y => rw [ha] at hc; cases hc

theorem convertNum_own {ty : PType} (hty : ty = .point ∨ ty = .average) {ext : Extrap} {src : List K}
    (hsrc : src.Pairwise (· < ·)) {vs : List K} (h3 : 3 ≤ vs.length) (hl : pointsLength ty src = vs.length) :
    convertNum ty ext src src vs = .ok (vs.map .num) := by
  unfold pointsLength at hl
  rcases hty with rfl | rfl
  · exact C22_point_identity _ _ _ h3 hl hsrc
  · exact C22_average_identity _ _ _ h3 (by simp only at hl; omega) hsrc

theorem blank_getElem? {gs : List Bool} {r : List (Fl K)} {j : Nat} {y : Fl K} (h : (blank gs r)[j]? = some y) :
    ∃ g z, gs[j]? = some g ∧ r[j]? = some z ∧ y = if g then .nan else z := by
  unfold blank at h
  rw [List.getElem?_zipWith_eq_some] at h
  obtain ⟨g, z, h1, h2, h3⟩ := h
  exact ⟨g, z, h1, h2, h3.symm⟩

/-- One in place of NaN. -/
def Fl.orOne : Fl K → K
  | .nan => 1
  | .num x => x

theorem fills_orOne (vals : List (Fl K)) : Fills (vals.map Fl.orOne) vals := by
  unfold Fills
  rw [List.forall₂_map_left_iff, List.forall₂_same]
  rintro v - x rfl
  rfl

/-- On its own time points a timeseries is what it was, but values may be missing near those that are. -/
theorem convert_own {ty : PType} (hty : ty = .point ∨ ty = .average) {ext : Extrap} {src : List K}
    (hsrc : src.Pairwise (· < ·)) {vals : List (Fl K)} (h3 : 3 ≤ vals.length) (hl : pointsLength ty src = vals.length) :
    ∃ r, convert ty ext src src vals = .ok r ∧ ShownAs vals r := by
  cases hn : Fl.allNum vals with
  | some vs =>
    have e := Fl.allNum_eq_some.1 hn
    refine ⟨vals, ?_, rfl, fun _ _ h => h, fun _ => rfl⟩
    unfold convert
    rw [hn]
    rw [e, List.length_map] at h3 hl
    rw [e]
    exact convertNum_own hty hsrc h3 hl
  | none =>
    have e0 := convert_fill (ty := ty) (ext := ext) (src := src) (tgt := src) (fills_orZero vals) hn
    have e1 := convert_fill (ty := ty) (ext := ext) (src := src) (tgt := src) (fills_orOne vals) hn
    rw [convertNum_own hty hsrc (by simpa using h3) (by simpa using hl)] at e0 e1
    have he := e0.symm.trans e1
    simp only [Except.map, Except.ok.injEq] at he
    refine ⟨_, e0, ?_, fun j x hx => ?_, fun h => absurd hn h⟩
    · exact blank_length (gaps_length.trans hl) (by simp)
    · have hx' := hx
      rw [he] at hx'
      obtain ⟨g, z, g1, g2, g3⟩ := blank_getElem? hx
      obtain ⟨g', z', g1', g2', g3'⟩ := blank_getElem? hx'
      rw [g1] at g1'
      cases g1'
      cases g with
      | true => cases g3
      | false =>
        simp only [Bool.false_eq_true, if_false] at g3 g3'
        subst g3 g3'
        simp only [List.getElem?_map, Option.map_eq_some_iff] at g2 g2'
        obtain ⟨_, ⟨v, hv, rfl⟩, a⟩ := g2
        obtain ⟨_, ⟨v', hv', rfl⟩, b⟩ := g2'
        rw [hv] at hv'
        cases hv'
        rw [hv]
        cases v with
        | num y => cases a; rfl
        | nan =>
          rw [← a] at b
          simp [Fl.orZero, Fl.orOne] at b

end Openscm
