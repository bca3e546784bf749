import Verif.Adapter

/-!
# C37: adapters are loaded once, unknown models are refused
-/

namespace Openscm

/-- What a call of `load_adapter(name)` returns. -/
def loads (a : Adapters) (name : String) (ok : Bool) : Except Err Nat := (loadAdapter a name ok).1

theorem importModule_loaded (a : Adapters) (n : String) (ok : Bool) :
    (importModule a n ok).2.loaded = a.loaded := by
  unfold importModule
  cases a.modules.lookup n with
  | some c => rfl
  | none => cases ok <;> rfl

/-- Entries of the registry stay. -/
theorem loaded_stays (a : Adapters) (ops : List AdapterOp) (n : String) (c : Nat)
    (h : a.loaded.lookup n = some c) : (adaptersAfter a ops).loaded.lookup n = some c := by
  induction ops generalizing a with
  | nil => exact h
  | cons op ops ih =>
    refine ih _ ?_
    cases op with
    | drop m => exact h
    | importIt m ok => show (importModule a m ok).2.loaded.lookup n = _; rw [importModule_loaded, h]
    | load m ok =>
      have hs : (adapterCall a (.load m ok)).2 = (loadAdapter a m ok).2 := by
        unfold adapterCall
        cases hl : loadAdapter a m ok with
        | mk r s => cases r <;> simp [hl]
      rw [hs]
      unfold loadAdapter
      cases hm : a.loaded.lookup m with
      | some d => exact h
      | none =>
        have hne : n ≠ m := by rintro rfl; rw [hm] at h; simp at h
        by_cases hk : m ∈ knownAdapters
        · simp only [hk, if_true]
          have hl := importModule_loaded a m ok
          cases hi : importModule a m ok with
          | mk r s =>
            rw [hi] at hl
            cases r with
            | none => show s.loaded.lookup n = _; rw [hl, h]
            | some d =>
              show List.lookup n ((m, d) :: s.loaded) = _
              have : (n == m) = false := by simpa using hne
              rw [List.lookup_cons, this]
              show List.lookup n s.loaded = _
              rw [show s.loaded = a.loaded from hl, h]
        · simp only [hk, if_false]; exact h

/-- **C37**: once a name has been loaded, every later call returns the same class, whatever happens in
between to the modules and even if they could not be imported any more. -/
theorem C37_same_class (a : Adapters) (ops : List AdapterOp) (n : String) (ok ok' : Bool) (c : Nat)
    (h : loads a n ok = .ok c) : loads (adaptersAfter (loadAdapter a n ok).2 ops) n ok' = .ok c := by
  have key : (loadAdapter a n ok).2.loaded.lookup n = some c := by
    unfold loads loadAdapter at h
    unfold loadAdapter
    cases hm : a.loaded.lookup n with
    | some d => rw [hm] at h; simp only [Except.ok.injEq] at h; subst h; exact hm
    | none =>
      rw [hm] at h
      by_cases hk : n ∈ knownAdapters
      · simp only [hk, if_true] at h ⊢
        cases hi : importModule a n ok with
        | mk r s =>
          rw [hi] at h
          cases r with
          | none => simp at h
          | some d => simp only [Except.ok.injEq] at h; subst h; simp
      · simp [hk] at h
  have := loaded_stays _ ops n c key
  generalize adaptersAfter (loadAdapter a n ok).2 ops = b at this
  unfold loads loadAdapter
  rw [this]

/-- Only known names get into the registry. -/
theorem registry_known (ops : List AdapterOp) (a : Adapters) (n : String)
    (h : ∀ m, m ∉ knownAdapters → a.loaded.lookup m = none) (hn : n ∉ knownAdapters) :
    (adaptersAfter a ops).loaded.lookup n = none := by
  induction ops generalizing a with
  | nil => exact h n hn
  | cons op ops ih =>
    refine ih _ (fun m hm => ?_)
    cases op with
    | drop _ => exact h m hm
    | importIt x ok =>
      show (importModule a x ok).2.loaded.lookup m = _; rw [importModule_loaded, h m hm]
    | load x ok =>
      have hs : (adapterCall a (.load x ok)).2 = (loadAdapter a x ok).2 := by
        unfold adapterCall
        cases hl : loadAdapter a x ok with
        | mk r s => cases r <;> simp [hl]
      rw [hs]
      unfold loadAdapter
      cases hm' : a.loaded.lookup x with
      | some d => exact h m hm
      | none =>
        by_cases hk : x ∈ knownAdapters
        · simp only [hk, if_true]
          have hl := importModule_loaded a x ok
          cases hi : importModule a x ok with
          | mk r s =>
            rw [hi] at hl
            cases r with
            | none => show s.loaded.lookup m = _; rw [hl, h m hm]
            | some d =>
              show List.lookup m ((x, d) :: s.loaded) = _
              have : (m == x) = false := by
                simpa using (show m ≠ x by rintro rfl; exact hm hk)
              rw [List.lookup_cons, this]
              show List.lookup m s.loaded = _
              rw [show s.loaded = a.loaded from hl, h m hm]
        · simp only [hk, if_false]; exact h m hm

/-- **C37**: names other than "DICE" are refused with `KeyError`, after every history, and nothing
changes. -/
theorem C37_unknown (ops : List AdapterOp) (n : String) (ok : Bool) (hn : n ≠ "DICE") :
    loadAdapter (adaptersAfter .init ops) n ok = (.error .keyError, adaptersAfter .init ops) := by
  have hk : n ∉ knownAdapters := by simpa [knownAdapters] using hn
  have := registry_known ops .init n (fun _ _ => rfl) hk
  unfold loadAdapter
  rw [this, if_neg hk]

/-- **C37**: a load that fails leaves everything as it was, so that a later attempt is not affected;
the errors are `KeyError` for unknown names and `AdapterNeedsModuleError` if the import fails. -/
theorem C37_failed (a : Adapters) (n : String) (ok : Bool) (e : Err) (h : loads a n ok = .error e) :
    (loadAdapter a n ok).2 = a ∧
      ((e = .keyError ∧ n ≠ "DICE") ∨ (e = .adapterNeedsModule ∧ n = "DICE" ∧ ok = false)) := by
  unfold loads loadAdapter at h
  unfold loadAdapter
  cases hm : a.loaded.lookup n with
  | some d => rw [hm] at h; simp at h
  | none =>
    rw [hm] at h
    by_cases hk : n ∈ knownAdapters
    · simp only [hk, if_true] at h ⊢
      have hk' : n = "DICE" := by simpa [knownAdapters] using hk
      unfold importModule at h ⊢
      cases hmod : a.modules.lookup n with
      | some c => rw [hmod] at h; simp at h
      | none =>
        rw [hmod] at h
        cases ok with
        | true => simp at h
        | false =>
          simp only [Bool.false_eq_true, if_false, Except.error.injEq] at h ⊢
          exact ⟨trivial, Or.inr ⟨h.symm, hk', trivial⟩⟩
    · simp only [hk, if_false, Except.error.injEq] at h ⊢
      exact ⟨trivial, Or.inl ⟨h.symm, by simpa [knownAdapters] using hk⟩⟩

/-- **C37**: a known name whose modules can be imported is loaded, after every history. -/
theorem C37_known (a : Adapters) : ∃ c, loads a "DICE" true = .ok c := by
  unfold loads loadAdapter
  cases a.loaded.lookup "DICE" with
  | some c => exact ⟨c, rfl⟩
  | none =>
    have hk : "DICE" ∈ knownAdapters := by simp [knownAdapters]
    simp only [hk, if_true]
    unfold importModule
    cases a.modules.lookup "DICE" with
    | some c => exact ⟨c, rfl⟩
    | none => exact ⟨a.fresh, rfl⟩

/-- A failed import, an unknown name, a load, the module dropped: the class stays the same. -/
example : loads (adaptersAfter (loadAdapter (adaptersAfter .init
      [.load "DICE" false, .load "MAGICC" true, .importIt "DICE" true]) "DICE" true).2
      [.drop "DICE", .importIt "DICE" true, .load "DICE" true]) "DICE" false = .ok 0 :=
  C37_same_class _ _ _ true _ _ (by rfl)

/-- In this history a further import would have given another class. -/
example : (importModule (adaptersAfter (loadAdapter .init "DICE" true).2 [.drop "DICE"])
    "DICE" true).1 = some 1 := by decide +kernel

end Openscm
