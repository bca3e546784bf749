import Verif.CoreProps7

/-!
# C70: elements of the arrays of timeseries views

`view.values` is an array-like object, `openscm/core/views.py:20-142`. Slices, masks and lists of positions are given as
the positions they denote.
-/

set_option linter.unusedSectionVars false

namespace Openscm
variable {K G : Type} [Field K] [LinearOrder K] [IsStrictOrderedRing K]

/-! ## Specification -/

/-- Position `n` of an array of length `len` is `j` for Python: counted from the start or from the end. -/
def Denotes (len : Nat) (j : Int) (n : Nat) : Prop := n < len ∧ (j = n ∨ j = n - len)

/-- The array `l'` is `l` with the assignments `ix` done one after the other: an element has the value assigned last, if any. -/
structure ElemsSet (l : List (Fl K)) (ix : List (Int × Fl K)) (l' : List (Fl K)) : Prop where
  length : l'.length = l.length
  last : ∀ a b j x n, ix = a ++ (j, x) :: b → Denotes l.length j n → (∀ e ∈ b, ¬ Denotes l.length e.1 n) → l'[n]? = some x
  rest : ∀ n, (∀ e ∈ ix, ¬ Denotes l.length e.1 n) → l'[n]? = l[n]?

/-! ## Facts -/

theorem pyIndex_iff {len : Nat} {j : Int} {n : Nat} : pyIndex len j = some n ↔ Denotes len j n := by
  unfold pyIndex Denotes
  split
  · split
    · simp only [Option.some.injEq]; omega
    · simp only [reduceCtorEq, false_iff]; omega
  · split
    · simp only [Option.some.injEq]; omega
    · simp only [reduceCtorEq, false_iff]; omega

theorem pyIndex_none {len : Nat} {j : Int} : pyIndex len j = none ↔ ∀ n, ¬ Denotes len j n := by
  constructor
  · intro h n hn
    rw [← pyIndex_iff, h] at hn
    cases hn
  · intro h
    cases hp : pyIndex len j with
    | none => rfl
    | some n => exact absurd (pyIndex_iff.1 hp) (h n)

theorem Denotes.unique {len : Nat} {j : Int} {n m : Nat} (h : Denotes len j n) (h' : Denotes len j m) : n = m := by
  rw [← pyIndex_iff] at h h'
  exact Option.some.inj (h.symm.trans h')

theorem elemsSet_of {ix : List (Int × Fl K)} : ∀ {l : List (Fl K)} {js : List Nat}, pyIndices l.length (ix.map Prod.fst) = some js →
    ElemsSet l ix (assignAt l (js.zip (ix.map Prod.snd))) := by
  induction ix with
  | nil =>
    intro l js h
    cases h
    exact ⟨rfl, fun a b j x n h => by simp at h, fun n _ => rfl⟩
  | cons e ix ih =>
    intro l js h
    simp only [List.map_cons, pyIndices] at h
    cases hp : pyIndex l.length e.1 with
    | none => rw [hp] at h; cases h
    | some m =>
      rw [hp] at h
      simp only at h
      cases hq : pyIndices l.length (ix.map Prod.fst) with
      | none => rw [hq] at h; cases h
      | some js' =>
        rw [hq] at h
        cases h
        rw [pyIndex_iff] at hp
        have hr := ih (l := l.set m e.2) (js := js') (by rw [List.length_set]; exact hq)
        obtain ⟨h1, h2, h3⟩ := hr
        rw [List.length_set] at h1 h2 h3
        simp only [List.map_cons, List.zip_cons_cons, assignAt]
        refine ⟨h1, ?_, ?_⟩
        · intro a b j x n hab hd hb
          cases a with
          | nil =>
            simp only [List.nil_append, List.cons.injEq] at hab
            obtain ⟨rfl, rfl⟩ := hab
            rw [h3 n hb, hp.unique hd]
            exact List.getElem?_set_self hd.1
          | cons y a =>
            simp only [List.cons_append, List.cons.injEq] at hab
            exact h2 a b j x n hab.2 hd hb
        · intro n hn
          rw [h3 n fun e he => hn e (by simp [he])]
          rw [List.getElem?_set_ne]
          rintro rfl
          exact hn e (by simp) hp

theorem pyIndices_some {len : Nat} : ∀ {js : List Int}, (∀ j ∈ js, ∃ n, Denotes len j n) → ∃ ns, pyIndices len js = some ns
  | [], _ => ⟨[], rfl⟩
  | j :: js, h => by
    obtain ⟨n, hn⟩ := h j (by simp)
    obtain ⟨ns, hns⟩ := pyIndices_some (len := len) (js := js) fun i hi => h i (by simp [hi])
    exact ⟨n :: ns, by simp only [pyIndices, pyIndex_iff.2 hn, hns, Option.map_some]⟩

theorem pyIndices_none {len : Nat} : ∀ {js : List Int}, (∃ j ∈ js, ∀ n, ¬ Denotes len j n) → pyIndices len js = none
  | [], h => by simp at h
  | j :: js, h => by
    unfold pyIndices
    cases hp : pyIndex len j with
    | none => rfl
    | some n =>
      simp only [Option.map_eq_none_iff]
      refine pyIndices_none ?_
      obtain ⟨i, hi, hn⟩ := h
      rcases List.mem_cons.1 hi with rfl | hi
      · exact absurd (pyIndex_iff.1 hp) (hn n)
      · exact ⟨i, hi, hn⟩

/-- The array of the view `i` is `d`. -/
def HoldsArr (s : St K G) (i : Nat) (d : Arr K) : Prop := ∃ v, s.tviews[i]? = some v ∧ v.leaf.data = some d

theorem handle_iff {s : St K G} {i : Nat} {d : Arr K} : handle i s = (.ok d, s) ↔ HoldsArr s i d := by
  rcases handle_cases i s with h | ⟨v, d', hv, hd, h⟩
  · rw [h]
    constructor
    · intro h; cases congrArg Prod.fst h
    · rintro ⟨v, hv, hd⟩
      exfalso
      unfold handle at h
      have e1 : M.look (fun s : St K G => s.tviews[i]?) s = (.ok v, s) := look_some hv
      rw [M.bind_ok e1, hd] at h
      cases congrArg Prod.fst h
  · rw [h]
    constructor
    · intro h
      cases congrArg Prod.fst h
      exact ⟨v, hv, hd⟩
    · rintro ⟨w, hw, hwd⟩
      rw [hv] at hw
      cases hw
      rw [hd] at hwd
      cases hwd
      rfl

theorem peek_iff {env : Env K} {s : St K G} {i : Nat} {d : Arr K} : result env s (.hPeek i) = .ok (.arr d) ↔ HoldsArr s i d := by
  rw [← handle_iff]
  unfold result
  show ((handle i >>= fun d => (pure (Out.arr d) : M K G (Out K G))) s).1 = _ ↔ _
  rcases handle_cases i s with h | ⟨v, d', hv, hd, h⟩
  · rw [M.bind_error h, h]
    constructor
    · intro h; cases h
    · intro h; cases congrArg Prod.fst h
  · rw [M.bind_ok h, h]
    constructor
    · intro h; cases h; rfl
    · intro h; cases congrArg Prod.fst h; rfl

theorem writeT_shows {s : St K G} {i : Nat} {d : Arr K} (h : HoldsArr s i d) : HoldsArr (writeT i s).2 i d := by
  obtain ⟨v, hv, hd⟩ := h
  cases hl : v.locked with
  | true => rw [writeT_locked hv hl]; exact ⟨v, hv, hd⟩
  | false =>
    cases he : published v d with
    | error e => rw [writeT_error hv hl hd he]; exact ⟨v, hv, hd⟩
    | ok l =>
      cases hp : s.params[v.leaf.param]? with
      | none => rw [writeT_dangling hv hl hd he hp]; exact ⟨v, hv, hd⟩
      | some P =>
        rw [writeT_ok hv hl hd he hp]
        refine ⟨{ v with leaf := { v.leaf with version := some (P.version + 1) } }, ?_, hd⟩
        unfold storedT
        rw [setT_self]
        show Option.map _ s.tviews[i]? = _
        rw [hv]
        rfl

theorem putCache_shows {s : St K G} {i : Nat} {d : Arr K} (h : HoldsArr s i d) (d' : Arr K) :
    HoldsArr (s.setT i fun v => { v with leaf := { v.leaf with data := some d' } }) i d' := by
  obtain ⟨v, hv, hd⟩ := h
  exact ⟨{ v with leaf := { v.leaf with data := some d' } }, by rw [setT_self, hv]; rfl, rfl⟩

theorem setItems_shows {env : Env K} {s : St K G} {i : Nat} {d : Arr K} (h : HoldsArr s i d) (ix : List (Int × Fl K)) :
    (∀ d', d.setItems env.trunc ix = .ok d' → HoldsArr (setItems env i ix s).2 i d') ∧
    ∀ e, d.setItems env.trunc ix = .error e → setItems env i ix s = (.error e, s) := by
  obtain ⟨v, hv, hd⟩ := id h
  have e1 : M.look (fun s : St K G => s.tviews[i]?) s = (.ok v, s) := look_some hv
  refine ⟨fun d' hd' => ?_, fun e he => ?_⟩
  · unfold setItems
    rw [M.bind_ok e1, hd]
    simp only
    rw [hd', M.bind_ok (show M.ofExcept (.ok d') s = (.ok d', s) from rfl),
      M.bind_ok (show updTView i (fun v => { v with leaf := { v.leaf with data := some d' } }) s = (.ok (), _) from rfl)]
    exact writeT_shows (putCache_shows h d')
  · unfold setItems
    rw [M.bind_ok e1, hd]
    simp only
    rw [he]
    exact M.bind_error rfl

/-- `view.values` reads and then is the array of the view. -/
theorem tGet_parts {env : Env K} {s : St K G} {i : Nat} {d : Arr K} (h : result env s (.tGet i) = .ok (.arr d)) :
    ∃ s', readT i s = (.ok (), s') ∧ HoldsArr s' i d ∧ after env s [.tGet i] = s' := by
  rw [after_one]
  unfold result at h
  change ((readT i >>= fun _ => handle i >>= fun d => (pure (Out.arr d) : M K G (Out K G))) s).1 = _ at h
  show ∃ s', _ ∧ _ ∧ ((readT i >>= fun _ => handle i >>= fun d => (pure (Out.arr d) : M K G (Out K G))) s).2 = s'
  cases hr : readT i s with
  | mk r s' =>
    cases r with
    | error e => rw [M.bind_error hr] at h; cases h
    | ok u =>
      rw [M.bind_ok hr] at h ⊢
      refine ⟨s', rfl, ?_, ?_⟩
      · rcases handle_cases i s' with hh | ⟨v, d', hv, hd, hh⟩
        · rw [M.bind_error hh] at h; cases h
        · rw [M.bind_ok hh] at h
          cases h
          exact ⟨v, hv, hd⟩
      · rcases handle_cases i s' with hh | ⟨v, d', hv, hd, hh⟩
        · rw [M.bind_error hh]
        · rw [M.bind_ok hh]; rfl

/-! ## C70 -/

theorem getItem_spec {d : Arr K} (j : Int) :
    (∀ n x, Denotes d.vals.length j n → d.vals[n]? = some x → d.getItem j = .ok x) ∧
    ((∀ n, ¬ Denotes d.vals.length j n) → d.getItem j = .error .indexError) := by
  have hl : d.length = d.vals.length := by cases d <;> simp [Arr.length, Arr.vals]
  unfold Arr.getItem
  rw [hl]
  refine ⟨fun n x hn hx => ?_, fun h => ?_⟩
  · rw [pyIndex_iff.2 hn]
    simp only [hx]
  · rw [pyIndex_none.2 h]

/-- C70: `view.values[j]`, also of an array obtained earlier, is the element of `view.values` at this position, counted
from the end if negative; `IndexError` if there is none. -/
theorem C70_get {env : Env K} {s : St K G} {i : Nat} {d : Arr K} (h : result env s (.tGet i) = .ok (.arr d)) (j : Int) :
    (∀ n x, Denotes d.vals.length j n → d.vals[n]? = some x → result env s (.tGetItem i j) = .ok (.num x)) ∧
    ((∀ n, ¬ Denotes d.vals.length j n) → result env s (.tGetItem i j) = .error .indexError) ∧
    ∀ d0, result env s (.hPeek i) = .ok (.arr d0) → result env s (.hGetItem i j) = result env s (.tGetItem i j) := by
  obtain ⟨s', hr, hs, -⟩ := tGet_parts h
  have key : result env s (.tGetItem i j) = match d.getItem j with | .ok x => .ok (.num x) | .error e => .error e := by
    unfold result
    show ((readT i >>= fun _ => handle i >>= fun d => M.ofExcept (d.getItem j) >>= fun x => (pure (Out.num x) : M K G (Out K G))) s).1 = _
    rw [M.bind_ok hr, M.bind_ok (handle_iff.2 hs)]
    cases d.getItem j with
    | error e => exact congrArg Prod.fst (M.bind_error rfl)
    | ok x => rfl
  obtain ⟨h1, h2⟩ := getItem_spec (d := d) j
  refine ⟨fun n x hn hx => ?_, fun hn => ?_, fun d0 hd0 => ?_⟩
  · rw [key, h1 n x hn hx]
  · rw [key, h2 hn]
  · unfold result
    show ((handle i >>= fun _ => readT i >>= fun _ => handle i >>= fun d => M.ofExcept (d.getItem j) >>= fun x =>
      (pure (Out.num x) : M K G (Out K G))) s).1 = _
    rw [M.bind_ok (handle_iff.2 (peek_iff.1 hd0))]
    rfl

theorem setItems_floats {trunc : K → Int} {l : List (Fl K)} {ix : List (Int × Fl K)} :
    ((∀ e ∈ ix, ∃ n, Denotes l.length e.1 n) → ∃ l', ElemsSet l ix l' ∧ (Arr.floats l).setItems trunc ix = .ok (.floats l')) ∧
    ((∃ e ∈ ix, ∀ n, ¬ Denotes l.length e.1 n) → (Arr.floats l).setItems trunc ix = .error .indexError) := by
  constructor
  · intro h
    obtain ⟨js, hjs⟩ := pyIndices_some (len := l.length) (js := ix.map Prod.fst) (by simpa using h)
    refine ⟨_, elemsSet_of hjs, ?_⟩
    unfold Arr.setItems
    rw [show (Arr.floats l).length = l.length from rfl, hjs]
  · intro h
    have := pyIndices_none (len := l.length) (js := ix.map Prod.fst) (by
      obtain ⟨e, he, hn⟩ := h
      exact ⟨e.1, List.mem_map.2 ⟨e, he, rfl⟩, hn⟩)
    unfold Arr.setItems
    rw [show (Arr.floats l).length = l.length from rfl, this]

/-- C70, what is missing: assignment to elements of an array of floats, `view.values[j] = x`, changes exactly these
elements, or is an `IndexError` and changes nothing. For integers see `C70_integers`. -/
theorem C70_set_partial {env : Env K} {s : St K G} {i : Nat} {l : List (Fl K)} (h : result env s (.tGet i) = .ok (.arr (.floats l)))
    (ix : List (Int × Fl K)) :
    ((∀ e ∈ ix, ∃ n, Denotes l.length e.1 n) →
      ∃ l', ElemsSet l ix l' ∧ result env (after env s [.tSetItem i ix]) (.hPeek i) = .ok (.arr (.floats l'))) ∧
    ((∃ e ∈ ix, ∀ n, ¬ Denotes l.length e.1 n) →
      result env s (.tSetItem i ix) = .error .indexError ∧ after env s [.tSetItem i ix] = after env s [.tGet i]) := by
  obtain ⟨s', hr, hs, ha⟩ := tGet_parts h
  obtain ⟨h1, h2⟩ := setItems_shows (env := env) hs ix
  obtain ⟨g1, g2⟩ := setItems_floats (trunc := env.trunc) (l := l) (ix := ix)
  have hcall : call env (.tSetItem i ix) s = (setItems env i ix >>= fun _ => (pure Out.done : M K G (Out K G))) s' := by
    show (readT i >>= fun _ => setItems env i ix >>= fun _ => (pure Out.done : M K G (Out K G))) s = _
    rw [M.bind_ok hr]
  refine ⟨fun hin => ?_, fun hout => ?_⟩
  · obtain ⟨l', hl', hset⟩ := g1 hin
    refine ⟨l', hl', ?_⟩
    rw [peek_iff, after_one, hcall]
    have := h1 _ hset
    cases hc : setItems env i ix s' with
    | mk r t =>
      rw [hc] at this
      cases r with
      | error e => rw [M.bind_error hc]; exact this
      | ok u => rw [M.bind_ok hc]; exact this
  · have := h2 _ (g2 hout)
    refine ⟨?_, ?_⟩
    · unfold result
      rw [hcall, M.bind_error this]
    · rw [ha, after_one, hcall, M.bind_error this]

/-- C70 for an array obtained earlier: assignment to its elements changes exactly these elements of what it shows. -/
theorem C70_held_partial {env : Env K} {s : St K G} {i : Nat} {l : List (Fl K)} (h : result env s (.hPeek i) = .ok (.arr (.floats l)))
    (ix : List (Int × Fl K)) :
    ((∀ e ∈ ix, ∃ n, Denotes l.length e.1 n) →
      ∃ l', ElemsSet l ix l' ∧ result env (after env s [.hSetItem i ix]) (.hPeek i) = .ok (.arr (.floats l'))) ∧
    ((∃ e ∈ ix, ∀ n, ¬ Denotes l.length e.1 n) →
      result env s (.hSetItem i ix) = .error .indexError ∧ after env s [.hSetItem i ix] = s) := by
  rw [peek_iff] at h
  obtain ⟨h1, h2⟩ := setItems_shows (env := env) h ix
  obtain ⟨g1, g2⟩ := setItems_floats (trunc := env.trunc) (l := l) (ix := ix)
  have hcall : call env (.hSetItem i ix) s = (setItems env i ix >>= fun _ => (pure Out.done : M K G (Out K G))) s := rfl
  refine ⟨fun hin => ?_, fun hout => ?_⟩
  · obtain ⟨l', hl', hset⟩ := g1 hin
    refine ⟨l', hl', ?_⟩
    rw [peek_iff, after_one, hcall]
    have := h1 _ hset
    cases hc : setItems env i ix s with
    | mk r t =>
      rw [hc] at this
      cases r with
      | error e => rw [M.bind_error hc]; exact this
      | ok u => rw [M.bind_ok hc]; exact this
  · have := h2 _ (g2 hout)
    refine ⟨?_, ?_⟩
    · unfold result
      rw [hcall, M.bind_error this]
    · rw [after_one, hcall, M.bind_error this]

/-- C70: `view.values += x` and the like apply the operation to every element; NaN stays. -/
theorem C70_inplace_partial {env : Env K} {s : St K G} {i : Nat} {l : List (Fl K)} {d0 : Arr K}
    (h : result env s (.tGet i) = .ok (.arr (.floats l))) (h0 : result env s (.hPeek i) = .ok (.arr d0)) (f : K → K) :
    result env (after env s [.hInplace i f]) (.hPeek i) = .ok (.arr (.floats (l.map (Fl.map f)))) := by
  obtain ⟨s', hr, hs, ha⟩ := tGet_parts h
  rw [peek_iff] at h0 ⊢
  rw [after_one]
  show HoldsArr ((handle i >>= fun _ => readT i >>= fun _ => handle i >>= fun d =>
      M.ofExcept (d.inplace f) >>= fun d' => updTView i (fun v => { v with leaf := { v.leaf with data := some d' } }) >>= fun _ =>
      writeT i >>= fun _ => (pure Out.done : M K G (Out K G))) s).2 i _
  rw [M.bind_ok (handle_iff.2 h0), M.bind_ok hr, M.bind_ok (handle_iff.2 hs),
    M.bind_ok (show M.ofExcept ((Arr.floats l).inplace f) s' = (.ok (.floats (l.map (Fl.map f))), s') from rfl),
    M.bind_ok (show updTView i (fun v => { v with leaf := { v.leaf with data := some (.floats (l.map (Fl.map f))) } }) s' = (.ok (), _) from rfl)]
  have := writeT_shows (putCache_shows hs (.floats (l.map (Fl.map f))))
  cases hc : writeT i (s'.setT i fun v => { v with leaf := { v.leaf with data := some (.floats (l.map (Fl.map f))) } }) with
  | mk r t =>
    rw [hc] at this
    cases r with
    | error e => rw [M.bind_error hc]; exact this
    | ok u => rw [M.bind_ok hc]; exact this

/-- C70: if the assignment was stored, then `view.values` is the array with the elements assigned, until the next write. -/
theorem C70_stored_partial {env : Env K} {s : St K G} (hs : Reachable env s) {i : Nat} {l : List (Fl K)} {k : Key}
    (hk : viewKey env s (.t i) = some k) (h : result env s (.tGet i) = .ok (.arr (.floats l))) {ix : List (Int × Fl K)}
    (hin : ∀ e ∈ ix, ∃ n, Denotes l.length e.1 n) {post : List (Op K G)}
    (hne : versionAt env (after env s [.tSetItem i ix]) k ≠ versionAt env s k)
    (hpost : ∀ op ∈ post, writesView op ≠ some (.t i))
    (hver : versionAt env (after env s (.tSetItem i ix :: post)) k = versionAt env (after env s [.tSetItem i ix]) k) :
    ∃ l', ElemsSet l ix l' ∧ result env (after env s (.tSetItem i ix :: post)) (.tGet i) = .ok (.arr (.floats l')) := by
  obtain ⟨l', hl', hp⟩ := (C70_set_partial h ix).1 hin
  obtain ⟨d, h1, h2⟩ := C13_all_writes hs (op := .tSetItem i ix) rfl hk hne hpost hver
  rw [hp] at h1
  cases h1
  exact ⟨l', hl', h2⟩

/-! ## Concrete cases -/

/-- Elements from the start and the end, the last assignment counts, an index past the end changes nothing. -/
example : demo [points ["a"] "K" [0, 1, 2], .tSet 0 (nums [1, 2, 3]), .tGetItem 0 (-3), .tSetItem 0 [(-3, .num 5), (2, .num 6), (-1, .num 7)], .tGet 0,
      .tSetItem 0 [(0, .num 9), (3, .num 9)], .hSetItem 0 [(1, .num 8)], .hInplace 0 (· * 2), .tGet 0]
    = [.ok (.view 0), .ok .done, .ok (.num (.num 1)), .ok .done, .ok (.arr (nums [5, 2, 7])), .error .indexError, .ok .done, .ok .done,
      .ok (.arr (nums [10, 16, 14]))] := by decide +kernel

/-- After integers were assigned, assigned elements are cut to integers and operations in place raise. -/
theorem C70_integers : demo [points ["a"] "K" [0, 1, 2], .tSet 0 (.ints [1, 2, 3]), .tSetItem 0 [(0, .num (3/2))], .tGet 0, .hInplace 0 (· + 1)]
    = [.ok (.view 0), .ok .done, .ok .done, .ok (.arr (.ints [1, 2, 3])), .error .typeError] := by decide +kernel

end Openscm
