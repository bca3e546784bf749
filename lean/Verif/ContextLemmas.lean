import Verif.Contexts
import Mathlib.Tactic.FieldSimp
import Mathlib.Tactic.Ring
import Mathlib.Algebra.CharZero.Defs

/-!
# Paths and transformations in the contexts
-/

set_option linter.unusedSectionVars false

namespace Openscm
variable {K : Type} [Field K]

theorem Form.dim_inj {φ ψ : Form} {a b : String} (h : φ.dim a = ψ.dim b) : φ = ψ ∧ a = b := by
  cases φ <;> cases ψ <;> simp [Form.dim] at h ⊢ <;> exact h

theorem mem_neighbours {ctx : List (Edge K)} {d n : Dim} :
    n ∈ neighbours ctx d ↔ ∃ e ∈ ctx, e.src = d ∧ e.dst = n := by
  simp [neighbours, and_assoc]

theorem transform_eq {ctx : List (Edge K)} {a b : Dim} {f : Fl K}
    (hex : ∃ e ∈ ctx, e.src = a ∧ e.dst = b)
    (hall : ∀ e ∈ ctx, e.src = a → e.dst = b → e.factor = f) : transform ctx a b = some f := by
  unfold transform
  suffices h : ∀ (l : List (Edge K)) (acc : Option (Fl K)),
      (∀ e ∈ l, e.src = a → e.dst = b → e.factor = f) →
      (acc = some f ∨ ∃ e ∈ l, e.src = a ∧ e.dst = b) →
      l.foldl (fun acc e => if e.src = a ∧ e.dst = b then some e.factor else acc) acc = some f from
    h ctx none hall (Or.inr hex)
  intro l
  induction l with
  | nil =>
    intro acc _ h
    rcases h with h | ⟨e, he, _⟩
    · exact h
    · simp at he
  | cons e l ih =>
    intro acc hall h
    rw [List.foldl_cons]
    apply ih _ (fun e he => hall e (by simp [he]))
    by_cases hm : e.src = a ∧ e.dst = b
    · rw [if_pos hm, hall e (by simp) hm.1 hm.2]; exact Or.inl rfl
    · rw [if_neg hm]
      rcases h with h | ⟨e', he', h'⟩
      · exact Or.inl h
      · rcases List.mem_cons.1 he' with rfl | he'
        · exact absurd h' hm
        · exact Or.inr ⟨e', he', h'⟩

/-- The step of the search over the neighbours. -/
def pathStep (nb : Dim → List Dim) (fin : Dim) (fuel : Nat) (path : List Dim)
    (best : Option (List Dim)) (node : Dim) : Option (List Dim) :=
  if node ∈ path then best
  else
    match findPath nb fin fuel node path with
    | none => best
    | some p =>
      match best with
      | none => some p
      | some b => if p.length < b.length then some p else some b

theorem findPath_succ (nb : Dim → List Dim) (fin : Dim) (fuel : Nat) (start : Dim)
    (path : List Dim) : findPath nb fin (fuel + 1) start path
      = if start = fin then some (path ++ [start])
        else (nb start).foldl (pathStep nb fin fuel (path ++ [start])) none := rfl

theorem pathStep_none {nb : Dim → List Dim} {fin : Dim} {fuel : Nat} {path : List Dim}
    {l : List Dim} (h : ∀ n ∈ l, n ∈ path ∨ findPath nb fin fuel n path = none)
    (best : Option (List Dim)) : l.foldl (pathStep nb fin fuel path) best = best := by
  induction l generalizing best with
  | nil => rfl
  | cons n l ih =>
    rw [List.foldl_cons, ih (fun m hm => h m (by simp [hm]))]
    unfold pathStep
    rcases h n (by simp) with h | h
    · rw [if_pos h]
    · rw [h]; split <;> rfl

theorem pathStep_some {nb : Dim → List Dim} {fin : Dim} {fuel : Nat} {path p : List Dim}
    {l : List Dim} (h : ∀ n ∈ l, n ∈ path ∨ findPath nb fin fuel n path = none ∨
      findPath nb fin fuel n path = some p)
    (hex : ∃ n ∈ l, n ∉ path ∧ findPath nb fin fuel n path = some p) :
    l.foldl (pathStep nb fin fuel path) none = some p := by
  suffices hh : ∀ best : Option (List Dim), (best = none ∨ best = some p) →
      (best = some p ∨ ∃ n ∈ l, n ∉ path ∧ findPath nb fin fuel n path = some p) →
      l.foldl (pathStep nb fin fuel path) best = some p from hh none (Or.inl rfl) (Or.inr hex)
  clear hex
  induction l with
  | nil =>
    intro best _ h
    rcases h with h | ⟨n, hn, _⟩
    · exact h
    · simp at hn
  | cons n l ih =>
    intro best hb hex
    rw [List.foldl_cons]
    have hstep : (n ∉ path ∧ findPath nb fin fuel n path = some p ∧
        pathStep nb fin fuel path best n = some p) ∨
        ((n ∈ path ∨ findPath nb fin fuel n path = none) ∧
          pathStep nb fin fuel path best n = best) := by
      by_cases hm : n ∈ path
      · exact Or.inr ⟨Or.inl hm, by unfold pathStep; rw [if_pos hm]⟩
      · rcases h n (by simp) with h | h | h
        · exact absurd h hm
        · exact Or.inr ⟨Or.inr h, by unfold pathStep; rw [if_neg hm, h]⟩
        · refine Or.inl ⟨hm, h, ?_⟩
          unfold pathStep; rw [if_neg hm, h]
          rcases hb with rfl | rfl <;> simp
    apply ih (fun m hm => h m (by simp [hm]))
    · rcases hstep with ⟨_, _, h⟩ | ⟨_, h⟩
      · exact Or.inr h
      · rw [h]; exact hb
    · rcases hstep with ⟨_, _, h⟩ | ⟨h1, h2⟩
      · exact Or.inl h
      · rw [h2]
        rcases hex with hex | ⟨m, hm, h3, h4⟩
        · exact Or.inl hex
        · rcases List.mem_cons.1 hm with rfl | hm
          · rcases h1 with h1 | h1
            · exact absurd h1 h3
            · rw [h4] at h1; simp at h1
          · exact Or.inr ⟨m, hm, h3, h4⟩

/-! ## Contexts in the shape of a star -/

/-- Every transformation leads from the centre outwards or back, within one of the forms; `out` and
`back` are the factors. -/
structure Star (ctx : List (Edge K)) (centre : String) (forms : Form → Prop)
    (out back : String → Option (Fl K)) : Prop where
  centre_out : out centre = none
  centre_back : back centre = none
  edges : ∀ e ∈ ctx, ∃ φ b, forms φ ∧ ((e.src = φ.dim centre ∧ e.dst = φ.dim b ∧ out b = some e.factor) ∨
    (e.src = φ.dim b ∧ e.dst = φ.dim centre ∧ back b = some e.factor))
  has_out : ∀ φ b f, forms φ → out b = some f → ∃ e ∈ ctx, e.src = φ.dim centre ∧ e.dst = φ.dim b
  has_back : ∀ φ b f, forms φ → back b = some f → ∃ e ∈ ctx, e.src = φ.dim b ∧ e.dst = φ.dim centre

variable {ctx : List (Edge K)} {centre : String} {forms : Form → Prop}
  {out back : String → Option (Fl K)}

theorem Star.transform_out (h : Star ctx centre forms out back) {φ : Form} {b : String} {f : Fl K}
    (hφ : forms φ) (hb : out b = some f) : transform ctx (φ.dim centre) (φ.dim b) = some f := by
  apply transform_eq (h.has_out φ b f hφ hb)
  intro e he h1 h2
  obtain ⟨ψ, b', _, ⟨g1, g2, g3⟩ | ⟨g1, g2, g3⟩⟩ := h.edges e he
  · rw [h2] at g2
    obtain ⟨rfl, rfl⟩ := Form.dim_inj g2
    rw [hb] at g3; exact (Option.some.inj g3).symm
  · rw [h1] at g1
    obtain ⟨rfl, rfl⟩ := Form.dim_inj g1
    rw [h.centre_back] at g3; simp at g3

theorem Star.transform_back (h : Star ctx centre forms out back) {φ : Form} {b : String} {f : Fl K}
    (hφ : forms φ) (hb : back b = some f) : transform ctx (φ.dim b) (φ.dim centre) = some f := by
  apply transform_eq (h.has_back φ b f hφ hb)
  intro e he h1 h2
  obtain ⟨ψ, b', _, ⟨g1, g2, g3⟩ | ⟨g1, g2, g3⟩⟩ := h.edges e he
  · rw [h1] at g1
    obtain ⟨rfl, rfl⟩ := Form.dim_inj g1
    rw [h.centre_back] at hb; simp at hb
  · rw [h1] at g1
    obtain ⟨rfl, rfl⟩ := Form.dim_inj g1
    rw [hb] at g3; exact (Option.some.inj g3).symm

theorem Star.nb_centre (h : Star ctx centre forms out back) {φ : Form} {n : Dim}
    (hn : n ∈ neighbours ctx (φ.dim centre)) : forms φ ∧ ∃ b f, out b = some f ∧ n = φ.dim b := by
  obtain ⟨e, he, h1, h2⟩ := mem_neighbours.1 hn
  obtain ⟨ψ, b', hψ, ⟨g1, g2, g3⟩ | ⟨g1, g2, g3⟩⟩ := h.edges e he
  · rw [h1] at g1
    obtain ⟨rfl, _⟩ := Form.dim_inj g1
    exact ⟨hψ, b', _, g3, h2.symm.trans g2⟩
  · rw [h1] at g1
    obtain ⟨rfl, rfl⟩ := Form.dim_inj g1
    rw [h.centre_back] at g3; simp at g3

theorem Star.nb_leaf (h : Star ctx centre forms out back) {φ : Form} {b : String} {n : Dim}
    (hb : b ≠ centre) (hn : n ∈ neighbours ctx (φ.dim b)) : forms φ ∧ n = φ.dim centre := by
  obtain ⟨e, he, h1, h2⟩ := mem_neighbours.1 hn
  obtain ⟨ψ, b', hψ, ⟨g1, g2, g3⟩ | ⟨g1, g2, g3⟩⟩ := h.edges e he
  · rw [h1] at g1
    obtain ⟨_, rfl⟩ := Form.dim_inj g1
    exact absurd rfl hb
  · rw [h1] at g1
    obtain ⟨rfl, rfl⟩ := Form.dim_inj g1
    exact ⟨hψ, h2.symm.trans g2⟩

theorem Star.out_ne (h : Star ctx centre forms out back) {b : String} {f : Fl K}
    (hb : out b = some f) : b ≠ centre := by
  rintro rfl; rw [h.centre_out] at hb; simp at hb

theorem Star.back_ne (h : Star ctx centre forms out back) {b : String} {f : Fl K}
    (hb : back b = some f) : b ≠ centre := by
  rintro rfl; rw [h.centre_back] at hb; simp at hb

/-- A leaf reached from the centre is a dead end. -/
theorem Star.leaf_dead (h : Star ctx centre forms out back) {φ : Form} {b : String}
    (hb : b ≠ centre) {fin : Dim} (hne : φ.dim b ≠ fin) {path : List Dim}
    (hc : φ.dim centre ∈ path) (fuel : Nat) :
    findPath (neighbours ctx) fin fuel (φ.dim b) path = none := by
  cases fuel with
  | zero => rfl
  | succ fuel =>
    rw [findPath_succ, if_neg hne]
    apply pathStep_none
    intro n hn
    rw [(h.nb_leaf hb hn).2]
    exact Or.inl (by simp [hc])

/-- From the centre outwards. -/
theorem Star.path_out (h : Star ctx centre forms out back) {φ : Form} {b : String} {f : Fl K}
    (hφ : forms φ) (hb : out b = some f) {path : List Dim} (hp : φ.dim b ∉ path) (fuel : Nat) :
    findPath (neighbours ctx) (φ.dim b) (fuel + 2) (φ.dim centre) path
      = some (path ++ [φ.dim centre, φ.dim b]) := by
  have hne := h.out_ne hb
  rw [findPath_succ, if_neg (fun h => hne (Form.dim_inj h).2.symm)]
  have hfin : findPath (neighbours ctx) (φ.dim b) (fuel + 1) (φ.dim b) (path ++ [φ.dim centre])
      = some (path ++ [φ.dim centre, φ.dim b]) := by
    rw [findPath_succ, if_pos rfl]; simp
  apply pathStep_some
  · intro n hn
    obtain ⟨_, b', f', hb', rfl⟩ := h.nb_centre hn
    by_cases hbb : b' = b
    · subst hbb; exact Or.inr (Or.inr hfin)
    · refine Or.inr (Or.inl ?_)
      apply h.leaf_dead (h.out_ne hb') (fun h => hbb (Form.dim_inj h).2) (by simp)
  · refine ⟨φ.dim b, ?_, ?_, hfin⟩
    · obtain ⟨e, he, h1, h2⟩ := h.has_out φ b f hφ hb
      exact mem_neighbours.2 ⟨e, he, h1, h2⟩
    · simp only [List.mem_append, List.mem_singleton, not_or]
      exact ⟨hp, fun h => hne (Form.dim_inj h).2⟩

/-- From a leaf to the centre. -/
theorem Star.path_back (h : Star ctx centre forms out back) {φ : Form} {b : String} {f : Fl K}
    (hφ : forms φ) (hb : back b = some f) (fuel : Nat) :
    findPath (neighbours ctx) (φ.dim centre) (fuel + 2) (φ.dim b) []
      = some [φ.dim b, φ.dim centre] := by
  have hne := h.back_ne hb
  rw [findPath_succ, if_neg (fun h => hne (Form.dim_inj h).2)]
  have hfin : findPath (neighbours ctx) (φ.dim centre) (fuel + 1) (φ.dim centre) ([] ++ [φ.dim b])
      = some [φ.dim b, φ.dim centre] := by
    rw [findPath_succ, if_pos rfl]; simp
  apply pathStep_some
  · intro n hn
    obtain ⟨_, rfl⟩ := h.nb_leaf hne hn
    exact Or.inr (Or.inr hfin)
  · refine ⟨φ.dim centre, ?_, ?_, hfin⟩
    · obtain ⟨e, he, h1, h2⟩ := h.has_back φ b f hφ hb
      exact mem_neighbours.2 ⟨e, he, h1, h2⟩
    · simp only [List.nil_append, List.mem_singleton]
      exact fun h => hne (Form.dim_inj h).2.symm

/-- From a leaf to another leaf. -/
theorem Star.path_across (h : Star ctx centre forms out back) {φ : Form} {a b : String} {f g : Fl K}
    (hφ : forms φ) (ha : back a = some f) (hb : out b = some g) (hab : a ≠ b) (fuel : Nat) :
    findPath (neighbours ctx) (φ.dim b) (fuel + 3) (φ.dim a) []
      = some [φ.dim a, φ.dim centre, φ.dim b] := by
  have hne := h.back_ne ha
  rw [findPath_succ, if_neg (fun h => hab (Form.dim_inj h).2)]
  have hfin : findPath (neighbours ctx) (φ.dim b) (fuel + 2) (φ.dim centre) ([] ++ [φ.dim a])
      = some [φ.dim a, φ.dim centre, φ.dim b] := by
    rw [h.path_out hφ hb]
    · rfl
    · simp only [List.nil_append, List.mem_singleton]
      exact fun h => hab (Form.dim_inj h).2.symm
  apply pathStep_some
  · intro n hn
    obtain ⟨_, rfl⟩ := h.nb_leaf hne hn
    exact Or.inr (Or.inr hfin)
  · refine ⟨φ.dim centre, ?_, ?_, hfin⟩
    · obtain ⟨e, he, h1, h2⟩ := h.has_back φ a f hφ ha
      exact mem_neighbours.2 ⟨e, he, h1, h2⟩
    · simp only [List.nil_append, List.mem_singleton]
      exact fun h => hne (Form.dim_inj h).2.symm

/-- Every conversion along the star stays within one form, between the centre and what it is
connected to. -/
theorem Star.path_sound (h : Star ctx centre forms out back) {s t : Dim} {fuel : Nat} {p : List Dim}
    (hp : findPath (neighbours ctx) t fuel s [] = some p) : s = t ∨
      ∃ φ a b, forms φ ∧ s = φ.dim a ∧ t = φ.dim b ∧ (a = centre ∨ ∃ f, back a = some f) ∧
        (b = centre ∨ ∃ f, out b = some f) := by
  -- everything that can be reached
  have key : ∀ (fuel : Nat) (s : Dim) (path p : List Dim),
      findPath (neighbours ctx) t fuel s path = some p → s = t ∨
      ∃ φ a b, forms φ ∧ s = φ.dim a ∧ t = φ.dim b ∧ (a = centre ∨ ∃ f, back a = some f) ∧
        (b = centre ∨ ∃ f, out b = some f) := by
    intro fuel
    induction fuel with
    | zero => intro s path p hp; simp [findPath] at hp
    | succ fuel ih =>
      intro s path p hp
      rw [findPath_succ] at hp
      by_cases hst : s = t
      · exact Or.inl hst
      · rw [if_neg hst] at hp
        -- some neighbour gives a path
        have hex : ∃ n ∈ neighbours ctx s, ∃ q, findPath (neighbours ctx) t fuel n (path ++ [s]) = some q := by
          by_contra hno
          have : ∀ n ∈ neighbours ctx s, n ∈ path ++ [s] ∨
              findPath (neighbours ctx) t fuel n (path ++ [s]) = none := by
            intro n hn
            refine Or.inr ?_
            cases hq : findPath (neighbours ctx) t fuel n (path ++ [s]) with
            | none => rfl
            | some q => exact absurd ⟨n, hn, q, hq⟩ hno
          rw [pathStep_none this] at hp
          simp at hp
        obtain ⟨n, hn, q, hq⟩ := hex
        obtain ⟨e, he, h1, h2⟩ := mem_neighbours.1 hn
        obtain ⟨ψ, c, hψ, ⟨g1, g2, g3⟩ | ⟨g1, g2, g3⟩⟩ := h.edges e he
        · refine Or.inr ?_
          rcases ih n _ q hq with hnt | ⟨φ, a, b, hφ, k1, k2, _, k4⟩
          · exact ⟨ψ, centre, c, hψ, h1.symm.trans g1, by rw [← hnt, ← h2, g2], Or.inl rfl,
              Or.inr ⟨_, g3⟩⟩
          · have : ψ.dim c = φ.dim a := by rw [← g2, h2, k1]
            obtain ⟨rfl, rfl⟩ := Form.dim_inj this
            exact ⟨ψ, centre, b, hψ, h1.symm.trans g1, k2, Or.inl rfl, k4⟩
        · refine Or.inr ?_
          rcases ih n _ q hq with hnt | ⟨φ, a, b, hφ, k1, k2, _, k4⟩
          · exact ⟨ψ, c, centre, hψ, h1.symm.trans g1, by rw [← hnt, ← h2, g2], Or.inr ⟨_, g3⟩,
              Or.inl rfl⟩
          · have : ψ.dim centre = φ.dim a := by rw [← g2, h2, k1]
            obtain ⟨rfl, rfl⟩ := Form.dim_inj this
            exact ⟨ψ, c, b, hψ, h1.symm.trans g1, k2, Or.inr ⟨_, g3⟩, k4⟩
  exact key fuel s [] p hp

/-! ## Conversions -/

/-- A unit converter that multiplies by a factor. -/
def ConvFl.IsFactor (c : ConvFl K) (f : Fl K) : Prop := ∀ v : K, c.convertFrom v = f.map (v * ·)

theorem mkConvCtx_of [CharZero K] {reg : Registry K} {ctx : List (Edge K)} {a b : String}
    {s t : UDef K} (ha : reg a = some s) (hb : reg b = some t) {f : Fl K}
    (h : ∀ v, ctxTo ctx s t v = .ok (f.map (v * ·))) :
    ∃ c, mkConvCtx reg ctx a b = .ok c ∧ c.IsFactor f := by
  refine ⟨_, by unfold mkConvCtx; rw [ha, hb]; simp only [h]; rfl, fun v => ?_⟩
  cases f with
  | nan => rfl
  | num x =>
    simp only [ConvFl.convertFrom, Fl.map_num, Fl.map₂]
    congr 1
    have h2 : (2 : K) ≠ 0 := by exact_mod_cast (Nat.cast_ne_zero (R := K) (n := 2)).2 (by decide)
    have : (-1 - 1 : K) = -2 := by ring
    rw [this]
    field_simp
    ring

theorem Star.convert_back [CharZero K] (h : Star ctx centre forms out back) {φ : Form} {b : String}
    {f : Fl K} (hφ : forms φ) (hb : back b = some f) {s t : UDef K} (hs : s.dim = φ.dim b)
    (ht : t.dim = φ.dim centre) (v : K) :
    ctxTo ctx s t v = .ok ((f.map (fun f => s.scale * f / t.scale)).map (v * ·)) := by
  unfold ctxTo
  rw [hs, ht, h.path_back hφ hb]
  simp only [alongPath, h.transform_back hφ hb]
  cases f with
  | nan => rfl
  | num x =>
    simp only [Fl.map₂, Fl.map_num]
    congr 2
    ring

theorem Star.convert_out [CharZero K] (h : Star ctx centre forms out back) {φ : Form} {b : String}
    {f : Fl K} (hφ : forms φ) (hb : out b = some f) {s t : UDef K} (hs : s.dim = φ.dim centre)
    (ht : t.dim = φ.dim b) (v : K) :
    ctxTo ctx s t v = .ok ((f.map (fun f => s.scale * f / t.scale)).map (v * ·)) := by
  unfold ctxTo
  rw [hs, ht, h.path_out hφ hb (by simp)]
  simp only [List.nil_append, alongPath, h.transform_out hφ hb]
  cases f with
  | nan => rfl
  | num x =>
    simp only [Fl.map₂, Fl.map_num]
    congr 2
    ring

theorem Star.convert_across [CharZero K] (h : Star ctx centre forms out back) {φ : Form}
    {a b : String} {f g : Fl K} (hφ : forms φ) (ha : back a = some f) (hb : out b = some g)
    (hab : a ≠ b) {s t : UDef K} (hs : s.dim = φ.dim a) (ht : t.dim = φ.dim b) (v : K) :
    ctxTo ctx s t v
      = .ok ((Fl.map₂ (fun f g => s.scale * f * g / t.scale) f g).map (v * ·)) := by
  have hlen : ∃ n, 2 * ctx.length + 2 = n + 3 := by
    obtain ⟨e, he, _⟩ := h.has_back φ a f hφ ha
    have : 0 < ctx.length := List.length_pos_of_mem he
    exact ⟨2 * ctx.length - 1, by omega⟩
  obtain ⟨n, hn⟩ := hlen
  unfold ctxTo
  rw [hs, ht, hn, h.path_across hφ ha hb hab]
  simp only [alongPath, h.transform_back hφ ha, h.transform_out hφ hb]
  cases f with
  | nan => rfl
  | num x =>
    cases g with
    | nan => rfl
    | num y =>
      simp only [Fl.map₂, Fl.map_num]
      congr 2
      ring

theorem ctxTo_same {s t : UDef K} (h : s.dim = t.dim) (v : K) :
    ctxTo ctx s t v = .ok (.num (pintTo s t v)) := by
  unfold ctxTo
  rw [h, findPath_succ, if_pos rfl]
  simp only [List.nil_append]

end Openscm
