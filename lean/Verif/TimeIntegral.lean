import Verif.TimeLemmas
import Mathlib.Tactic.Linarith
import Mathlib.Tactic.Ring
import Mathlib.Algebra.Field.Rat

/-!
# The idealised quadrature is the integral

`quad` (`Time.lean`) stands for `scipy.integrate.quad`. It is additive over adjoining intervals, and over every interval
it lies between lower and upper bounds of the function times the length of the interval. Over the real numbers, for the
continuous functions met here, that is what the integral is.
-/

set_option linter.unusedSectionVars false

namespace Openscm

variable {K : Type} [Field K] [LinearOrder K] [IsStrictOrderedRing K]

theorem lineArea_sub (p q : K × K) (x y : K) :
    lineArea p q y - lineArea p q x = (y - x) * (line p q x + line p q y) / 2 := by
  unfold lineArea line
  ring

theorem bounds_of_trapezoid {x y a b m M A : K} (hxy : x ≤ y) (hA : A = (y - x) * (a + b) / 2) (ha : m ≤ a ∧ a ≤ M)
    (hb : m ≤ b ∧ b ≤ M) : m * (y - x) ≤ A ∧ A ≤ M * (y - x) := by
  subst hA
  have h := sub_nonneg.2 hxy
  constructor
  · nlinarith [mul_nonneg h (sub_nonneg.2 ha.1), mul_nonneg h (sub_nonneg.2 hb.1)]
  · nlinarith [mul_nonneg h (sub_nonneg.2 ha.2), mul_nonneg h (sub_nonneg.2 hb.2)]

theorem prim_bounds {k : List (K × K)} (hi : Inc k) (h2 : 2 ≤ k.length) {x y m M : K} (hxy : x ≤ y)
    (h : ∀ z, x ≤ z → z ≤ y → m ≤ interp k z ∧ interp k z ≤ M) :
    m * (y - x) ≤ prim k y - prim k x ∧ prim k y - prim k x ≤ M * (y - x) := by
  induction k generalizing x y with
  | nil => simp at h2
  | cons p k ih =>
    cases k with
    | nil => simp at h2
    | cons q k =>
      have hfirst : ∀ {a b : K}, a ≤ b → b ≤ q.1 → (∀ z, a ≤ z → z ≤ b →
          m ≤ interp (p :: q :: k) z ∧ interp (p :: q :: k) z ≤ M) →
          m * (b - a) ≤ prim (p :: q :: k) b - prim (p :: q :: k) a ∧
          prim (p :: q :: k) b - prim (p :: q :: k) a ≤ M * (b - a) := by
        intro a b hab hb hz
        have h1 := hz a le_rfl hab
        have h2 := hz b hab le_rfl
        rw [interp_first (hab.trans hb)] at h1
        rw [interp_first hb] at h2
        rw [prim_first hb, prim_first (hab.trans hb)]
        exact bounds_of_trapezoid hab (lineArea_sub p q a b) h1 h2
      cases k with
      | nil =>
        have h1 := h x le_rfl hxy
        have h2 := h y hxy le_rfl
        exact bounds_of_trapezoid hxy (lineArea_sub p q x y) h1 h2
      | cons r k =>
        have hlast : ∀ {a b : K}, a ≤ b → q.1 ≤ a → (∀ z, a ≤ z → z ≤ b →
            m ≤ interp (p :: q :: r :: k) z ∧ interp (p :: q :: r :: k) z ≤ M) →
            m * (b - a) ≤ prim (p :: q :: r :: k) b - prim (p :: q :: r :: k) a ∧
            prim (p :: q :: r :: k) b - prim (p :: q :: r :: k) a ≤ M * (b - a) := by
          intro a b hab ha hz
          rw [prim_tail hi (by simp) ha, prim_tail hi (by simp) (ha.trans hab), add_sub_add_left_eq_sub]
          refine ih hi.tail (by simp) hab fun z h1 h2 => ?_
          rw [← interp_tail hi (by simp) (ha.trans h1)]
          exact hz z h1 h2
        rcases le_total y q.1 with hy | hy
        · exact hfirst hxy hy h
        · rcases le_total q.1 x with hx | hx
          · exact hlast hxy hx h
          · obtain ⟨a1, a2⟩ := hfirst hx le_rfl fun z h1 h2 => h z h1 (h2.trans hy)
            obtain ⟨b1, b2⟩ := hlast hy le_rfl fun z h1 h2 => h z (hx.trans h1) h2
            constructor <;> linarith

/-- `quad` is additive. -/
theorem quad_add {ext : Extrap} {lo hi : K} {k : List (K × K)} {a b c A B : K}
    (h1 : quad ext lo hi k a b = .ok A) (h2 : quad ext lo hi k b c = .ok B) :
    quad ext lo hi k a c = .ok (A + B) := by
  unfold quad at *
  cases ha : primAt ext lo hi k a with
  | error e => rw [ha] at h1; simp at h1
  | ok x =>
    cases hb : primAt ext lo hi k b with
    | error e => rw [hb] at h2; simp at h2
    | ok y =>
      cases hc : primAt ext lo hi k c with
      | error e => rw [hb, hc] at h2; simp at h2
      | ok z =>
        simp only [ha, hb, hc, Except.ok.injEq] at *
        rw [← h1, ← h2]; ring

theorem primAt_bounds {ext : Extrap} {lo hi : K} {k : List (K × K)} (hk : Inc k) (h2 : 2 ≤ k.length)
    {x y m M : K} (hxy : x ≤ y)
    (h : ∀ z, x ≤ z → z ≤ y → ∃ v, evalAt ext lo hi k z = .ok v ∧ m ≤ v ∧ v ≤ M) :
    ∃ X Y, primAt ext lo hi k x = .ok X ∧ primAt ext lo hi k y = .ok Y ∧
      m * (y - x) ≤ Y - X ∧ Y - X ≤ M * (y - x) := by
  have hfl : firstX k ≤ lastX k := by
    cases k with
    | nil => simp at h2
    | cons p k => exact hk.firstX_le (p := p) (by simp) |>.trans (hk.le_lastX (by simp))
  have hp0 : prim k (firstX k) = 0 := by
    cases k with
    | nil => simp at h2
    | cons p k => exact prim_head hk
  have hin : ∀ {a b : K}, a ≤ b → x ≤ a → b ≤ y → (∀ z, a ≤ z → z ≤ b → evalAt ext lo hi k z = .ok (interp k z)) →
      m * (b - a) ≤ prim k b - prim k a ∧ prim k b - prim k a ≤ M * (b - a) := by
    intro a b hab hxa hby hz
    refine prim_bounds hk h2 hab fun z h1 h2 => ?_
    obtain ⟨v, v1, v2⟩ := h z (hxa.trans h1) (h2.trans hby)
    rw [hz z h1 h2] at v1
    cases v1; exact v2
  cases ext with
  | linear =>
    exact ⟨_, _, rfl, rfl, hin hxy le_rfl le_rfl fun _ _ _ => rfl⟩
  | none =>
    have hr : ∀ z, x ≤ z → z ≤ y → ¬ (z < firstX k ∨ lastX k < z) := by
      intro z h1 h2 hz
      obtain ⟨v, v1, _⟩ := h z h1 h2
      simp only [evalAt, hz, if_true] at v1
      simp at v1
    refine ⟨prim k x, prim k y, ?_, ?_, hin hxy le_rfl le_rfl fun z h1 h2 => ?_⟩
    · simp only [primAt, hr x le_rfl hxy, if_false]
    · simp only [primAt, hr y hxy le_rfl, if_false]
    · simp only [evalAt, hr z h1 h2, if_false]
  | constant =>
    have hmid : ∀ z, firstX k ≤ z → z ≤ lastX k → evalAt .constant lo hi k z = .ok (interp k z) := by
      intro z h1 h2
      simp only [evalAt, not_lt.2 h1, not_lt.2 h2, if_false]
    have hlo : ∀ z, x ≤ z → z ≤ y → z < firstX k → m ≤ lo ∧ lo ≤ M := by
      intro z h1 h2 h3
      obtain ⟨v, v1, v2⟩ := h z h1 h2
      simp only [evalAt, h3, if_true] at v1
      cases v1; exact v2
    have hhi : ∀ z, x ≤ z → z ≤ y → lastX k < z → m ≤ hi ∧ hi ≤ M := by
      intro z h1 h2 h3
      obtain ⟨v, v1, v2⟩ := h z h1 h2
      simp only [evalAt, h3, not_lt.2 (hfl.trans h3.le), if_true, if_false] at v1
      cases v1; exact v2
    rcases lt_or_ge x (firstX k) with hx1 | hx1
    · have l1 := hlo x le_rfl hxy hx1
      have px : primAt .constant lo hi k x = .ok (lo * (x - firstX k)) := by simp only [primAt, hx1, if_true]
      rcases lt_or_ge y (firstX k) with hy1 | hy1
      · refine ⟨_, lo * (y - firstX k), px, by simp only [primAt, hy1, if_true], ?_, ?_⟩ <;>
          nlinarith [sub_nonneg.2 hxy]
      · rcases lt_or_ge (lastX k) y with hy2 | hy2
        · have l2 := hhi y hxy le_rfl hy2
          refine ⟨_, prim k (lastX k) + hi * (y - lastX k), px, by
            simp only [primAt, not_lt.2 hy1, hy2, if_true, if_false], ?_⟩
          obtain ⟨a1, a2⟩ := hin hfl hx1.le hy2.le hmid
          rw [hp0] at a1 a2
          constructor <;> nlinarith [sub_nonneg.2 hx1.le, sub_nonneg.2 hy2.le]
        · refine ⟨_, prim k y, px, by simp only [primAt, not_lt.2 hy1, not_lt.2 hy2, if_false], ?_⟩
          obtain ⟨a1, a2⟩ := hin hy1 hx1.le le_rfl fun z h1 h2 => hmid z h1 (h2.trans hy2)
          rw [hp0] at a1 a2
          constructor <;> nlinarith [sub_nonneg.2 hx1.le]
    · have hy1 := hx1.trans hxy
      rcases lt_or_ge (lastX k) x with hx2 | hx2
      · have hy2 := hx2.trans_le hxy
        have l2 := hhi x le_rfl hxy hx2
        refine ⟨prim k (lastX k) + hi * (x - lastX k), prim k (lastX k) + hi * (y - lastX k),
          by simp only [primAt, not_lt.2 hx1, hx2, if_true, if_false],
          by simp only [primAt, not_lt.2 hy1, hy2, if_true, if_false], ?_, ?_⟩ <;> nlinarith [sub_nonneg.2 hxy]
      · have px : primAt .constant lo hi k x = .ok (prim k x) := by
          simp only [primAt, not_lt.2 hx1, not_lt.2 hx2, if_false]
        rcases lt_or_ge (lastX k) y with hy2 | hy2
        · have l2 := hhi y hxy le_rfl hy2
          refine ⟨_, prim k (lastX k) + hi * (y - lastX k), px, by
            simp only [primAt, not_lt.2 hy1, hy2, if_true, if_false], ?_⟩
          obtain ⟨a1, a2⟩ := hin hx2 le_rfl hy2.le fun z h1 h2 => hmid z (hx1.trans h1) h2
          constructor <;> nlinarith [sub_nonneg.2 hy2.le]
        · exact ⟨_, prim k y, px, by simp only [primAt, not_lt.2 hy1, not_lt.2 hy2, if_false],
            hin hxy le_rfl le_rfl fun z h1 h2 => hmid z (hx1.trans h1) (h2.trans hy2)⟩

/-- `quad` lies between the lower and the upper sum. -/
theorem quad_bounds {ext : Extrap} {lo hi : K} {k : List (K × K)} (hk : Inc k) (h2 : 2 ≤ k.length)
    {x y m M : K} (hxy : x ≤ y)
    (h : ∀ z, x ≤ z → z ≤ y → ∃ v, evalAt ext lo hi k z = .ok v ∧ m ≤ v ∧ v ≤ M) :
    ∃ A, quad ext lo hi k x y = .ok A ∧ m * (y - x) ≤ A ∧ A ≤ M * (y - x) := by
  obtain ⟨X, Y, h1, h3, h4, h5⟩ := primAt_bounds hk h2 hxy h
  refine ⟨Y - X, ?_, h4, h5⟩
  unfold quad
  rw [h1, h3]

example : quad .none 0 0 [((0 : ℚ), (0 : ℚ)), (1, 1), (2, 0)] 0 2 = .ok 1 ∧
    quad .constant 3 0 [((0 : ℚ), (0 : ℚ)), (1, 1), (2, 0)] (-1) 1 = .ok (7 / 2) := by
  decide +kernel

end Openscm
