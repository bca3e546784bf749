import Verif.GasTable
import Verif.UnitsProps

/-!
# C36, C60: the gas units
-/

namespace Openscm

/-! ## Lemmas -/

theorem entry_root {e : String × GasValue} (he : e ∈ standardGases) (hs : e.1 ∉ sulfurEntries) :
    ∃ f ds, f ≠ 0 ∧ (∀ a ∈ spellings e, rootOf scmDefs 1000 a = some (f, ds)) ∧
      ∀ a ∈ [e.1, e.1.toUpper], rootOf scmDefs 1000 ("g" ++ a) = some (f, "mass" :: ds) ∧
        rootOf scmDefs 1000 ("t" ++ a) = some (1000000 * f, "mass" :: ds) := by
  have h := List.all_eq_true.1 entries_ok e he
  have hs' : sulfurEntries.contains e.1 = false := by
    rw [← Bool.not_eq_true, List.contains_iff_mem]; exact hs
  rw [hs', Bool.false_or] at h
  unfold entryOk at h
  rw [rootOfN_scm] at h
  cases hr : rootOf scmDefs 1000 e.1 with
  | none => rw [hr] at h; simp at h
  | some r =>
    obtain ⟨f, ds⟩ := r
    rw [hr] at h
    simp only [Option.map_some, keyRoot, Bool.and_eq_true, decide_eq_true_eq, List.all_eq_true,
      beq_iff_eq, rootOfN_scm] at h
    have back : ∀ {a : String} {g : ℚ} {es : List String},
        (rootOf scmDefs 1000 a).map keyRoot = some (g, es.map nameKey) →
        rootOf scmDefs 1000 a = some (g, es) := by
      intro a g es hh
      cases hq : rootOf scmDefs 1000 a with
      | none => rw [hq] at hh; simp at hh
      | some q =>
        rw [hq] at hh
        simp only [Option.map_some, Option.some.injEq] at hh
        have := (keyRoot_inj (a := q) (b := (g, es))).1 hh
        rw [this]
    obtain ⟨⟨h1, h2⟩, h3⟩ := h
    refine ⟨f, ds, h1, fun a ha => back (h2 a ha), fun a ha => ?_⟩
    obtain ⟨h4, h5⟩ := h3 a ha
    exact ⟨back (es := "mass" :: ds) h4, back (es := "mass" :: ds) h5⟩

theorem gasRegistry_of {a : String} {f : ℚ} {ds : List String} (hf : f ≠ 0)
    (h : rootOf scmDefs 1000 a = some (f, ds)) :
    gasRegistry a = some { dim := ds.map (·, 1), scale := f, offset := 0, scale_ne := hf } := by
  unfold gasRegistry; rw [h]; simp only [dif_pos hf]

theorem converts_of {reg : Registry ℚ} {a b : String} {u v : UDef ℚ} (ha : reg a = some u)
    (hb : reg b = some v) (hd : u.dim = v.dim) (hu : u.offset = 0) (hv : v.offset = 0) :
    Converts reg a b (fun x => x * (u.scale / v.scale)) := by
  have hv' := v.scale_ne
  refine ⟨_, by unfold mkConv; rw [ha, hb]; simp only [hd, if_true]; rfl, fun x => ?_⟩
  simp only [Conv.convertFrom, pintTo, UDef.toBase, UDef.ofBase, hu, hv]
  field_simp; ring

/-! ## C36 -/

/-- **C36**: all spellings of a gas convert into each other with factor 1. -/
theorem C36_spellings_partial {e : String × GasValue} (he : e ∈ standardGases)
    (hs : e.1 ∉ sulfurEntries) {a b : String} (ha : a ∈ spellings e) (hb : b ∈ spellings e) :
    Converts gasRegistry a b id := by
  obtain ⟨f, ds, hf, h1, _⟩ := entry_root he hs
  obtain ⟨c, hc, h⟩ := converts_of (gasRegistry_of hf (h1 a ha)) (gasRegistry_of hf (h1 b hb)) rfl rfl rfl
  exact ⟨c, hc, fun v => by rw [h]; simp [hf]⟩

/-- **C36**: the joint units of a gas, `g` and `t` with the symbol or its upper-case form, have the
dimension mass times that of the gas; their factors are those of gram and tonne times that of the
gas. -/
theorem C36_joint_partial {e : String × GasValue} (he : e ∈ standardGases)
    (hs : e.1 ∉ sulfurEntries) : ∃ u g t : UDef ℚ, gasRegistry e.1 = some u ∧
      gasRegistry "g" = some g ∧ gasRegistry "t" = some t ∧
      ∀ a ∈ [e.1, e.1.toUpper], ∃ ug ut, gasRegistry ("g" ++ a) = some ug ∧
        gasRegistry ("t" ++ a) = some ut ∧ ug.dim = g.dim ++ u.dim ∧ ut.dim = t.dim ++ u.dim ∧
        ug.scale = g.scale * u.scale ∧ ut.scale = t.scale * u.scale ∧
        ug.offset = 0 ∧ ut.offset = 0 := by
  obtain ⟨f, ds, hf, h1, h2⟩ := entry_root he hs
  have hg : rootOf scmDefs 1000 "g" = some (1, ["mass"]) := by
    have h := rootOfN_scm 1000 "g"
    rw [show rootOfN scmDefsN 1000 (nameKey "g") = some (keyRoot (1, ["mass"])) by decide +kernel] at h
    cases hq : rootOf scmDefs 1000 "g" with
    | none => rw [hq] at h; simp at h
    | some q => rw [hq] at h; rw [keyRoot_inj.1 (Option.some.inj h)]
  have ht : rootOf scmDefs 1000 "t" = some (1000000, ["mass"]) := by
    have h := rootOfN_scm 1000 "t"
    rw [show rootOfN scmDefsN 1000 (nameKey "t") = some (keyRoot (1000000, ["mass"])) by
      decide +kernel] at h
    cases hq : rootOf scmDefs 1000 "t" with
    | none => rw [hq] at h; simp at h
    | some q => rw [hq] at h; rw [keyRoot_inj.1 (Option.some.inj h)]
  refine ⟨_, _, _, gasRegistry_of hf (h1 e.1 (by simp [spellings])), gasRegistry_of one_ne_zero hg,
    gasRegistry_of (by norm_num) ht, fun a ha => ?_⟩
  obtain ⟨h3, h4⟩ := h2 a ha
  refine ⟨_, _, gasRegistry_of hf h3, gasRegistry_of (mul_ne_zero (by norm_num) hf) h4, ?_, ?_, ?_,
    rfl, rfl, rfl⟩
  · simp
  · simp
  · simp

/-- **C36** is violated by the entry for sulfur: its value is a list, which makes it a unit derived
from `sulfur`, which nothing defines. Neither the symbol nor what is derived from it is a unit. -/
theorem C36_sulfur_undefined (fuel : Nat) : ∀ a ∈ ["S", "SO2", "sulfur_dioxide", "SOx", "tSO2"],
    rootOf scmDefs fuel a = none := by
  have key : ∀ {a b : String} {f : ℚ}, lastDefN scmDefsN (nameKey a) = some (.expr f [nameKey b]) →
      (∀ n, rootOf scmDefs n b = none) → ∀ n, rootOf scmDefs n a = none := by
    intro a b f h hb n
    have h2 := rootOfN_scm n a
    cases n with
    | zero => rfl
    | succ n =>
      rw [rootOfN, h] at h2
      simp only at h2
      have : rootsOfN scmDefsN n f [nameKey b] = none := by
        cases n with
        | zero => rfl
        | succ n =>
          rw [rootsOfN, rootOfN_scm, hb]
          rfl
      rw [this] at h2
      cases hq : rootOf scmDefs (n + 1) a with
      | none => rfl
      | some q => rw [hq] at h2; simp at h2
  have h0 : ∀ n, rootOf scmDefs n "sulfur" = none := by
    intro n
    have h2 := rootOfN_scm n "sulfur"
    cases n with
    | zero => rfl
    | succ n =>
      rw [rootOfN, show lastDefN scmDefsN (nameKey "sulfur") = none by decide +kernel] at h2
      cases hq : rootOf scmDefs (n + 1) "sulfur" with
      | none => rfl
      | some q => rw [hq] at h2; simp at h2
  have hS := key (a := "S") (b := "sulfur") (f := 1) (by decide +kernel) h0
  have hSO2 := key (a := "SO2") (b := "S") (f := 32 / 64) (by decide +kernel) hS
  have hsd := key (a := "sulfur_dioxide") (b := "SO2") (f := 1) (by decide +kernel) hSO2
  have hSOx := key (a := "SOx") (b := "SO2") (f := 1) (by decide +kernel) hSO2
  have ht : ∀ n, rootOf scmDefs n "tSO2" = none := by
    intro n
    have h2 := rootOfN_scm n "tSO2"
    cases n with
    | zero => rfl
    | succ n =>
      rw [rootOfN, show lastDefN scmDefsN (nameKey "tSO2")
        = some (.expr 1 [nameKey "t", nameKey "SO2"]) by decide +kernel] at h2
      simp only at h2
      have : rootsOfN scmDefsN n 1 [nameKey "t", nameKey "SO2"] = none := by
        cases n with
        | zero => rfl
        | succ n =>
          rw [rootsOfN]
          cases rootOfN scmDefsN n (nameKey "t") with
          | none => rfl
          | some r =>
            simp only
            cases n with
            | zero => rfl
            | succ n => rw [rootsOfN, rootOfN_scm, hSO2]; rfl
      rw [this] at h2
      cases hq : rootOf scmDefs (n + 1) "tSO2" with
      | none => rfl
      | some q => rw [hq] at h2; simp at h2
  intro a ha
  simp only [List.mem_cons, List.not_mem_nil, or_false] at ha
  rcases ha with rfl | rfl | rfl | rfl | rfl
  · exact hS fuel
  · exact hSO2 fuel
  · exact hsd fuel
  · exact hSOx fuel
  · exact ht fuel

/-- Conversions between sulfur and its oxide are refused as undefined. -/
theorem C36_sulfur_refused : mkConv gasRegistry "SO2" "S" = .error .undefinedUnit := by
  have h : gasRegistry "SO2" = none := by
    unfold gasRegistry; rw [C36_sulfur_undefined 1000 "SO2" (by decide)]
  unfold mkConv; rw [h]

/-- The hypotheses are met by 101 of the 104 entries, for instance by this one with four different
spellings. -/
example : ("CH4", GasValue.base "methane") ∈ standardGases ∧ "CH4" ∉ sulfurEntries ∧
    standardGases.length = 104 := by
  refine ⟨?_, by decide, by decide⟩
  simp [standardGases]

/-! ## C60 -/

theorem entry_dims {e e' : String × GasValue} (he : e ∈ standardGases) (hs : e.1 ∉ sulfurEntries)
    (he' : e' ∈ standardGases) (hs' : e'.1 ∉ sulfurEntries) :
    ∃ u u', gasRegistry e.1 = some u ∧ gasRegistry e'.1 = some u' ∧ u.offset = 0 ∧ u'.offset = 0 ∧
      (u.dim = u'.dim ↔ sameGas e.1 e'.1 = true) := by
  obtain ⟨f, ds, hf, h1, _⟩ := entry_root he hs
  obtain ⟨f', ds', hf', h1', _⟩ := entry_root he' hs'
  have h1 := h1 e.1 (by simp [spellings])
  have h1' := h1' e'.1 (by simp [spellings])
  refine ⟨_, _, gasRegistry_of hf h1, gasRegistry_of hf' h1', rfl, rfl, ?_⟩
  have c1 : sulfurEntries.contains e.1 = false := by
    rw [← Bool.not_eq_true, List.contains_iff_mem]; exact hs
  have c2 : sulfurEntries.contains e'.1 = false := by
    rw [← Bool.not_eq_true, List.contains_iff_mem]; exact hs'
  have mem : ∀ {e : String × GasValue} {f : ℚ} {ds : List String}, e ∈ standardGases →
      sulfurEntries.contains e.1 = false → rootOf scmDefs 1000 e.1 = some (f, ds) →
      (nameKey e.1, ds.map nameKey) ∈ gasRootsTable := by
    intro e f ds he hc hr
    rw [← gasRootsN_eq]
    refine List.mem_filterMap.2 ⟨e, List.mem_filter.2 ⟨he, by simp only [hc, Bool.not_false]⟩, ?_⟩
    rw [rootOfN_scm, hr]
    rfl
  have h := families_ok
  unfold familiesOk at h
  have h := List.all_eq_true.1 (List.all_eq_true.1 h _ (mem he c1 h1)) _ (mem he' c2 h1')
  simp only [beq_iff_eq, sameGasN_eq] at h
  rw [← h]
  have inj1 : Function.Injective (List.map nameKey) :=
    List.map_injective_iff.2 fun a b h => nameKey_inj.1 h
  have inj2 : Function.Injective (List.map (fun d : String => (d, (1 : Int)))) :=
    List.map_injective_iff.2 fun a b h => (Prod.mk.inj h).1
  show ds.map _ = ds'.map _ ↔ _
  rw [inj2.eq_iff, beq_iff_eq, inj1.eq_iff]

/-- **C60**: without a context, two entries of the gas table convert into each other exactly if they
are of the same gas, and then by a non-zero factor; everything else is a `DimensionalityError`. -/
theorem C60_same_gas_partial {e e' : String × GasValue} (he : e ∈ standardGases)
    (hs : e.1 ∉ sulfurEntries) (he' : e' ∈ standardGases) (hs' : e'.1 ∉ sulfurEntries) :
    if sameGas e.1 e'.1 then ∃ f, f ≠ 0 ∧ Converts gasRegistry e.1 e'.1 (· * f)
    else mkConv gasRegistry e.1 e'.1 = .error .dimensionality := by
  obtain ⟨u, u', h1, h2, h3, h4, h5⟩ := entry_dims he hs he' hs'
  split
  · rename_i h
    exact ⟨_, div_ne_zero u.scale_ne u'.scale_ne, converts_of h1 h2 (h5.2 h) h3 h4⟩
  · rename_i h
    unfold mkConv
    rw [h1, h2]
    simp only
    rw [if_neg (fun hd => h (h5.1 hd))]

/-- **C60**: the joint units follow: tonnes of one gas are no tonnes of another. -/
theorem C60_joint_partial {e e' : String × GasValue} (he : e ∈ standardGases)
    (hs : e.1 ∉ sulfurEntries) (he' : e' ∈ standardGases) (hs' : e'.1 ∉ sulfurEntries)
    (h : sameGas e.1 e'.1 = false) :
    mkConv gasRegistry ("t" ++ e.1) ("t" ++ e'.1) = .error .dimensionality := by
  obtain ⟨u, u', h1, h2, h3, h4, h5⟩ := entry_dims he hs he' hs'
  obtain ⟨u1, g, t, a1, _, a3, a4⟩ := C36_joint_partial he hs
  obtain ⟨u1', g', t', b1, _, b3, b4⟩ := C36_joint_partial he' hs'
  obtain ⟨_, ut, _, a5, _, a6, _⟩ := a4 e.1 (by simp)
  obtain ⟨_, ut', _, b5, _, b6, _⟩ := b4 e'.1 (by simp)
  rw [h1] at a1; cases a1
  rw [h2] at b1; cases b1
  rw [a3] at b3; cases b3
  unfold mkConv
  rw [a5, b5]
  simp only
  rw [if_neg]
  rw [a6, b6, List.append_cancel_left_eq, h5, h]
  simp

/-- Both cases occur. -/
example : sameGas "CO2" "C" = true ∧ sameGas "CH4" "C" = false ∧ "CO2" ∉ sulfurEntries ∧
    "CH4" ∉ sulfurEntries := by decide +kernel

end Openscm
