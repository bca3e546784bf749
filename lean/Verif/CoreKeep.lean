import Verif.CoreMore

/-!
# C79: requests change no values; C34: units in requests
-/

set_option linter.unusedSectionVars false

namespace Openscm
variable {K G : Type} [Field K] [LinearOrder K] [IsStrictOrderedRing K]

/-! ## Specification -/

/-- Calls that read through a view. -/
def readsView : Op K G → Bool
  | .sGet .. | .gGet .. | .tGet .. | .tGetItem .. | .hGetItem .. | .hPeek .. | .tLength .. | .vInfo .. | .ensure .. => true
  | _ => false

/-! ## Lemmas -/

/-- `s'` is `s` with more regions, parameters and views. -/
structure More (env : Env K) (s s' : St K G) : Prop where
  inv : Inv env s
  inv' : Inv env s'
  pext : PExt s s'
  rext : RExt s s'
  grow : Grow s s'

theorem More.written {env : Env K} {s s' : St K G} (h : More env s s') {p : Nat} {P : Param K G}
    (hp : s.params[p]? = some P) (hw : P.written = true) : ∃ P', s'.params[p]? = some P' ∧
      P'.written = true ∧ P'.children = [] ∧ P.children = [] ∧ P'.data = P.data := by
  obtain ⟨P', h1, h2, _, h4⟩ := h.grow.old p P hp
  obtain ⟨Q, hQ, hle⟩ := h.pext p P hp
  rw [h1] at hQ; cases hQ
  obtain ⟨g1, g2⟩ := h.inv.good.params p P hp
  obtain ⟨c, r⟩ := g1 hw
  refine ⟨P', h1, by rw [h2]; exact hw, by rw [hle.frozen r]; exact c, c, h4 ?_⟩
  intro ht
  rw [ht] at g2
  obtain ⟨k1, _⟩ := g2
  rw [r] at k1; simp at k1

theorem readScalarLeaf_keep {env : Env K} {s s' : St K G} (h : More env s s') {p : Nat} {c : Conv K} {x : Fl K}
    (hx : readScalarLeaf s p c = .ok x) : readScalarLeaf s' p c = .ok x := by
  unfold readScalarLeaf at hx ⊢
  cases hp : s.params[p]? with
  | none => rw [hp] at hx; simp at hx
  | some P =>
    rw [hp] at hx
    simp only at hx
    by_cases hc : P.children = []
    · cases hw : P.written with
      | false => simp [hc, hw] at hx
      | true =>
        obtain ⟨P', h1, h2, h3, _, h5⟩ := h.written hp hw
        rw [h1]
        simp only [h2, h3, h5]
        simpa [hc, hw] using hx
    · simp [hc] at hx

theorem sumScalarKids_keep {env : Env K} {s s' : St K G} (h : More env s s') {ks : List (Nat × Conv K)}
    {acc x : Fl K} (hx : sumScalarKids s acc ks = .ok x) : sumScalarKids s' acc ks = .ok x := by
  induction ks generalizing acc with
  | nil => exact hx
  | cons k ks ih =>
    obtain ⟨p, c⟩ := k
    simp only [sumScalarKids] at hx ⊢
    cases hr : readScalarLeaf s p c with
    | error e => rw [hr] at hx; simp at hx
    | ok y =>
      rw [hr] at hx
      rw [readScalarLeaf_keep h hr]
      exact ih hx

theorem scalarValue_keep {env : Env K} {s s' : St K G} (h : More env s s') {v : SView K} (hv : SGood env s v)
    {x : Fl K} (hx : scalarValue s v = .ok x) : scalarValue s' v = .ok x := by
  obtain ⟨P, u, hp, _, hr, _⟩ := hv.ex
  obtain ⟨P', hp', hle⟩ := h.pext _ P hp
  unfold scalarValue at hx ⊢
  rw [hp] at hx
  rw [hp']
  simp only [hle.frozen hr] at hx ⊢
  by_cases hc : P.children ≠ []
  · rw [if_pos hc] at hx ⊢
    cases hk : v.kids with
    | none => rw [hk] at hx; simp at hx
    | some ks => rw [hk] at hx; exact sumScalarKids_keep h hx
  · rw [if_neg hc] at hx ⊢
    exact readScalarLeaf_keep h hx

theorem genericValue_keep {env : Env K} {s s' : St K G} (h : More env s s') {v : GView} {x : Option G}
    (hx : genericValue s v = .ok x) : genericValue s' v = .ok x := by
  unfold genericValue at hx ⊢
  cases hp : s.params[v.param]? with
  | none => rw [hp] at hx; simp at hx
  | some P =>
    rw [hp] at hx
    simp only at hx
    cases hw : P.written with
    | false => simp [hw] at hx
    | true =>
      obtain ⟨P', h1, h2, _, _, h5⟩ := h.written hp hw
      rw [h1]
      simp only [h2, h5]
      simpa [hw] using hx

theorem leafValues_keep {env : Env K} {s s' : St K G} (h : More env s s') {v : TLeaf K} {x : List (Fl K)}
    (hx : leafValues s v = .ok x) : leafValues s' v = .ok x := by
  unfold leafValues at hx ⊢
  cases hp : s.params[v.param]? with
  | none => rw [hp] at hx; simp at hx
  | some P =>
    rw [hp] at hx
    simp only at hx
    by_cases hc : P.children = []
    · cases hw : P.written with
      | false => simp [hc, hw] at hx
      | true =>
        obtain ⟨P', h1, h2, h3, _, h5⟩ := h.written hp hw
        rw [h1]
        simp only [h2, h3, h5]
        simpa [hc, hw] using hx
    · simp [hc] at hx

theorem refresh_keep {v v' : TLeaf K} {n : Nat} {x y : Except Err (List (Fl K))} (h : ∀ a, x = .ok a → y = .ok a)
    (hx : refresh v n x = .ok v') : refresh v n y = .ok v' := by
  cases x with
  | ok a => rw [h a rfl]; exact hx
  | error e =>
    unfold refresh at hx ⊢
    cases hd : v.data with
    | none => rw [hd] at hx; simp at hx
    | some d =>
      rw [hd] at hx
      simp only at hx ⊢
      cases hv : v.version with
      | none => rw [hv] at hx; simp at hx
      | some m =>
        rw [hv] at hx
        simp only at hx ⊢
        by_cases hm : m = n
        · rw [if_pos hm] at hx ⊢; exact hx
        · rw [if_neg hm] at hx; simp at hx

theorem readLeaf_keep {env : Env K} {s s' : St K G} (h : More env s s') {v v' : TLeaf K}
    (hx : readLeaf s v = .ok v') : readLeaf s' v = .ok v' := by
  unfold readLeaf at hx ⊢
  cases hp : s.params[v.param]? with
  | none => rw [hp] at hx; simp at hx
  | some P =>
    rw [hp] at hx
    obtain ⟨P', h1, _, h3, _⟩ := h.grow.old _ P hp
    rw [h1]
    simp only [h3] at hx ⊢
    exact refresh_keep (fun a ha => leafValues_keep h ha) hx

theorem sumKids_keep {env : Env K} {s s' : St K G} (h : More env s s') {ks : List (TLeaf K)}
    {acc : Option (List (Fl K))} {x : List (Fl K)} (hx : (sumKids s acc ks).2 = .ok x) :
    sumKids s' acc ks = sumKids s acc ks := by
  induction ks generalizing acc with
  | nil => rfl
  | cons k ks ih =>
    simp only [sumKids] at hx ⊢
    cases hr : readLeaf s k with
    | error e => rw [hr] at hx; simp at hx
    | ok y =>
      rw [hr] at hx
      rw [readLeaf_keep h hr]
      simp only at hx ⊢
      rw [ih hx]

theorem readView_keep {env : Env K} {s s' : St K G} (h : More env s s') {v : TView K} (hv : TGood env s v)
    (hx : (readView s v).2 = .ok ()) : readView s' v = readView s v := by
  obtain ⟨P, hp, _, hr, _⟩ := hv.ex
  obtain ⟨P', hp', hle⟩ := h.pext _ P hp
  obtain ⟨P2, h1, _, h3, _⟩ := h.grow.old _ P hp
  rw [hp'] at h1; cases h1
  unfold readView at hx ⊢
  rw [hp] at hx ⊢
  rw [hp']
  simp only [hle.frozen hr, h3] at hx ⊢
  by_cases hc : P.children ≠ []
  · rw [if_pos hc] at hx ⊢
    rw [if_pos hc]
    split
    · rfl
    · rename_i hcache
      rw [if_neg hcache] at hx
      cases hk : v.kids with
      | none => rfl
      | some ks =>
        rw [hk] at hx
        simp only at hx ⊢
        cases hs : (sumKids s none ks).2 with
        | ok x => rw [sumKids_keep h hs, hs]
        | error e =>
          exfalso
          rw [hs] at hx
          have : ∀ l, refresh v.leaf P.version (.error e) ≠ .ok l := by
            intro l hl
            unfold refresh at hl
            cases hd : v.leaf.data with
            | none => rw [hd] at hl; simp at hl
            | some d =>
              rw [hd] at hl
              simp only at hl
              cases hver : v.leaf.version with
              | none => rw [hver] at hl; simp at hl
              | some m =>
                rw [hver] at hl
                simp only at hl
                by_cases hm : m = P.version
                · exact hcache (by simp [hd, hver, hm])
                · rw [if_neg hm] at hl; simp at hl
          split at hx
          · simp at hx
          · rename_i l hl; exact this l hl
  · rw [if_neg hc] at hx ⊢
    rw [if_neg hc]
    cases hl : readLeaf s v.leaf with
    | error e => rw [hl] at hx; simp at hx
    | ok l => rw [readLeaf_keep h hl]

theorem request_more {env : Env K} {s : St K G} (hi : Inv env s) {op : Op K G} {nr : HName × HName}
    (h : request op = some nr) : More env s (call env op s).2 :=
  ⟨hi, call_inv op hi, call_pext op hi, call_rext op hi, request_grows env op nr h s hi⟩

/-- What a read that succeeds needs from the view. -/
theorem readT_keep {env : Env K} {s s' : St K G} (h : More env s s') {i : Nat} {v : TView K}
    (hv : s.tviews[i]? = some v) (hx : (readView s v).2 = .ok ()) :
    ∃ w, readT i s = (.ok (), s.setT i (fun _ => w)) ∧ readT i s' = (.ok (), s'.setT i (fun _ => w)) := by
  have hv' := h.grow.tv i v hv
  refine ⟨(readView s v).1, ?_, ?_⟩
  · rw [readT_state hv, hx]
  · rw [readT_state hv', readView_keep h (h.inv.good.tviews i v hv) hx, hx]

theorem handle_of {s : St K G} {i : Nat} {w v : TView K} (hv : s.tviews[i]? = some v) :
    handle i (s.setT i (fun _ => w)) = (match w.leaf.data with
      | none => .error .badHandle
      | some d => .ok d, s.setT i (fun _ => w)) := by
  have : (s.setT i (fun _ => w)).tviews[i]? = some w := by rw [setT_self, hv]; rfl
  rw [handle_some this]
  cases w.leaf.data <;> rfl

theorem reads_more {env : Env K} {s s' : St K G} (h : More env s s')
    (ht : ∀ r p u, viewTarget s r = some (p, u) → viewTarget s' r = some (p, u)) {rd : Op K G}
    (hr : readsView rd = true) {o : Out K G} (ho : result env s rd = .ok o) : result env s' rd = .ok o := by
  have hinfo : ∀ r, ∀ o, result env s (.vInfo r) = .ok o → result env s' (.vInfo r) = .ok o := by
    intro r o ho
    unfold result at ho ⊢
    cases hv : viewTarget s r with
    | none => rw [vInfo_none hv] at ho; simp at ho
    | some a =>
      obtain ⟨p, u⟩ := a
      obtain ⟨P, hp, _, hty⟩ := viewTarget_param h.inv hv
      obtain ⟨P', hp', hle⟩ := h.pext _ P hp
      obtain ⟨P2, h1, h2, h3, _⟩ := h.grow.old _ P hp
      rw [hp'] at h1; cases h1
      obtain ⟨k, hk⟩ := HasKey.exists h.inv.tree hp
      have hk' := hk.mono h.pext h.rext
      rw [vInfo_eq hv hp, hk.info h.inv.tree hp] at ho
      rw [vInfo_eq (ht r p u hv) hp', hk'.info h.inv'.tree hp']
      obtain ⟨t, ht'⟩ := Option.ne_none_iff_exists'.1 hty
      simp only [hle.ptype t ht', h2, h3, ← ht'] at ho ⊢
      exact ho
  have hitem : ∀ i j, ∀ o, result env s (.tGetItem i j) = .ok o → result env s' (.tGetItem i j) = .ok o := by
    intro i j o ho
    unfold result at ho ⊢
    cases hv : s.tviews[i]? with
    | none => rw [onT_none env (.tGetItem i j) i rfl s hv] at ho; simp at ho
    | some v =>
      cases hx : (readView s v).2 with
      | error e =>
        have : readT i s = (.error e, s.setT i (fun _ => (readView s v).1)) := by rw [readT_state hv, hx]
        have e1 : call env (.tGetItem i j) s = _ := M.bind_error this
        rw [e1] at ho; simp at ho
      | ok u =>
        obtain ⟨w, h1, h2⟩ := readT_keep h hv hx
        have e1 : call env (.tGetItem i j) s = _ := M.bind_ok h1
        have e2 : call env (.tGetItem i j) s' = _ := M.bind_ok h2
        rw [e1] at ho
        rw [e2]
        rw [M.bind_apply, handle_of hv] at ho
        rw [M.bind_apply, handle_of (h.grow.tv i v hv)]
        cases hd : w.leaf.data with
        | none => rw [hd] at ho; simp at ho
        | some d =>
          rw [hd] at ho
          simp only at ho ⊢
          rw [M.bind_apply, ofExcept_state] at ho ⊢
          cases hg : d.getItem j with
          | error e => rw [hg] at ho; simp at ho
          | ok x => rw [hg] at ho; exact ho
  cases rd <;> simp only [readsView, Bool.false_eq_true] at hr
  case sGet i =>
    unfold result at ho ⊢
    cases hv : s.sviews[i]? with
    | none =>
      have : call env (.sGet i) s = (.error .badHandle, s) := M.bind_error (look_none hv)
      rw [this] at ho; simp at ho
    | some v =>
      rw [sGet_eq hv] at ho
      rw [sGet_eq (h.grow.sv i v hv)]
      simp only at ho ⊢
      cases hx : scalarValue s v with
      | error e => rw [hx] at ho; simp [Except.map] at ho
      | ok x => rw [scalarValue_keep h (h.inv.good.sviews i v hv) hx, ← hx]; exact ho
  case gGet i =>
    unfold result at ho ⊢
    cases hv : s.gviews[i]? with
    | none =>
      have : call env (.gGet i) s = (.error .badHandle, s) := M.bind_error (look_none hv)
      rw [this] at ho; simp at ho
    | some v =>
      rw [gGet_eq hv] at ho
      rw [gGet_eq (h.grow.gv i v hv)]
      simp only at ho ⊢
      cases hx : genericValue s v with
      | error e => rw [hx] at ho; simp [Except.map] at ho
      | ok x => rw [genericValue_keep h hx, ← hx]; exact ho
  case tGet i =>
    unfold result at ho ⊢
    cases hv : s.tviews[i]? with
    | none => rw [onT_none env (.tGet i) i rfl s hv] at ho; simp at ho
    | some v =>
      rw [tGet_eq hv] at ho
      rw [tGet_eq (h.grow.tv i v hv)]
      simp only at ho ⊢
      have hx : (readView s v).2 = .ok () := by
        unfold shown at ho
        cases hx : (readView s v).2 with
        | error e => rw [hx] at ho; simp at ho
        | ok u => rfl
      rw [readView_keep h (h.inv.good.tviews i v hv) hx]; exact ho
  case tGetItem i j => exact hitem i j o ho
  case hGetItem i j =>
    cases hv : s.tviews[i]? with
    | none =>
      unfold result at ho
      rw [onT_none env (.hGetItem i j) i rfl s hv] at ho; simp at ho
    | some v =>
      have h1 := handle_some hv
      have h2 := handle_some (h.grow.tv i v hv)
      cases hd : v.leaf.data with
      | none =>
        rw [hd] at h1
        have e1 : call env (.hGetItem i j) s = _ := M.bind_error h1
        unfold result at ho
        rw [e1] at ho; simp at ho
      | some d =>
        rw [hd] at h1 h2
        have e1 : call env (.hGetItem i j) s = call env (.tGetItem i j) s := M.bind_ok h1
        have e2 : call env (.hGetItem i j) s' = call env (.tGetItem i j) s' := M.bind_ok h2
        unfold result at ho ⊢
        rw [e1] at ho; rw [e2]
        exact hitem i j o ho
  case hPeek i =>
    unfold result at ho ⊢
    cases hv : s.tviews[i]? with
    | none =>
      have : call env (.hPeek i) s = (.error .badHandle, s) := M.bind_error (handle_none hv)
      rw [this] at ho; simp at ho
    | some v =>
      have h1 := handle_some hv
      have h2 := handle_some (h.grow.tv i v hv)
      cases hd : v.leaf.data with
      | none =>
        rw [hd] at h1
        have e1 : call env (.hPeek i) s = _ := M.bind_error h1
        rw [e1] at ho; simp at ho
      | some d =>
        rw [hd] at h1 h2
        have e1 : call env (.hPeek i) s = _ := M.bind_ok h1
        have e2 : call env (.hPeek i) s' = _ := M.bind_ok h2
        rw [e1] at ho; rw [e2]; exact ho
  case tLength i =>
    unfold result at ho ⊢
    cases hv : s.tviews[i]? with
    | none =>
      have : call env (.tLength i) s = (.error .badHandle, s) := M.bind_error (look_none hv)
      rw [this] at ho; simp at ho
    | some v =>
      have hv' := h.grow.tv i v hv
      have e1 : call env (.tLength i) s = _ := M.bind_ok (look_some hv)
      have e2 : call env (.tLength i) s' = _ := M.bind_ok (look_some hv')
      rw [e1] at ho; rw [e2]; exact ho
  case vInfo r => exact hinfo r o ho
  case ensure r =>
    cases hI : viewInfo env s r with
    | none =>
      have hv : viewTarget s r = none := by
        cases hv : viewTarget s r with
        | none => rfl
        | some a =>
          obtain ⟨p, u⟩ := a
          obtain ⟨P, hp, _⟩ := viewTarget_param h.inv hv
          obtain ⟨k, hk⟩ := HasKey.exists h.inv.tree hp
          rw [(viewInfo_some h.inv).2 ⟨p, u, k, P, hv, hk, hp, rfl⟩] at hI
          simp at hI
      have : call env (.ensure r) s = (.error .badHandle, s) := M.bind_error (look_none hv)
      unfold result at ho
      rw [this] at ho; simp at ho
    | some I =>
      have hI' : viewInfo env s' r = some I := by
        have h1 : result env s (.vInfo r) = .ok (.info (some I)) := by
          unfold viewInfo at hI
          split at hI
          · rename_i i hi; rw [hi, hI]
          · simp at hI
        have h2 := hinfo r _ h1
        unfold viewInfo
        rw [h2]
      unfold result at ho ⊢
      rw [ensure_eq h.inv hI] at ho
      rw [ensure_eq h.inv' hI']
      exact ho

/-! ## C79 -/

/-- **C79**: whatever can be read through the views there are reads the same after requests of further views, granted
or refused: values, elements, kept handles, lengths and info attributes. -/
theorem C79_reads {env : Env K} {s : St K G} (hs : Reachable env s) {ops : List (Op K G)}
    (hops : ∀ op ∈ ops, ∃ nr, request op = some nr) {rd : Op K G} (hr : readsView rd = true) {o : Out K G}
    (ho : result env s rd = .ok o) : result env (after env s ops) rd = .ok o := by
  induction ops generalizing s with
  | nil => exact ho
  | cons op ops ih =>
    rw [after_cons]
    obtain ⟨nr, h⟩ := hops op (by simp)
    exact ih (hs.call op) (fun o h => hops o (by simp [h]))
      (reads_more (request_more hs.inv h) (fun r p u hv => call_viewTarget hs.inv op hv) hr ho)

/-- **C79**: what `info` reports about existing parameters stays: name, region, emptiness and version, and, once there
is a type, all of it. -/
theorem C79_info {env : Env K} {s : St K G} (hs : Reachable env s) {op : Op K G} {nr : HName × HName}
    (hop : request op = some nr) {k : Key} {I : Info} (hI : infoAt env s k = some I) :
    ∃ J, infoAt env (after env s [op]) k = some J ∧ J.name = I.name ∧ J.region = I.region ∧ J.empty = I.empty ∧
      J.version = I.version ∧ (I.ptype ≠ none → J = I) := by
  have h := request_more hs.inv hop
  obtain ⟨p, P, hk, hp, rfl⟩ := (infoAt_some hs.inv.tree).1 hI
  obtain ⟨P', hp', hle⟩ := h.pext _ P hp
  obtain ⟨P2, h1, h2, h3, _⟩ := h.grow.old _ P hp
  rw [hp'] at h1; cases h1
  rw [after_one]
  refine ⟨_, infoAt_of h.inv'.tree (hk.mono h.pext h.rext) hp', rfl, rfl, by simp [h2], h3, fun ht => ?_⟩
  obtain ⟨t, ht'⟩ := Option.ne_none_iff_exists'.1 ht
  rw [hle.ptype t ht', hle.unit ht, h2, h3]
  simp only at ht'
  rw [ht']

/-- Hypotheses of C79 met: reads of all kinds, then requests that create regions, parameters and views, add leaves
below a parameter, and are refused. -/
example : let pre : List (Op ℚ ℕ) := [.scalar (.seq ["x", "b"]) "K" world, .sSet 0 (.num 1), .scalar (.seq ["x"]) "mK" world,
      points ["a", "b"] "K" [0, 1, 2], .tSet 0 (nums [1, 2, 3]), points ["a"] "K" [0, 2],
      .generic (.str "g") world, .gSet 0 5]
    let ops : List (Op ℚ ℕ) := [.scalar (.seq ["x", "c"]) "K" world, .scalar (.seq ["y"]) "K" (.seq ["World", "Sub"]),
      points ["a", "b", "c"] "K" [0, 1], .generic (.seq ["x"]) world, points ["a", "b"] "mK" [0, 5],
      .scalar (.seq ["x"]) "m" world]
    let rds : List (Op ℚ ℕ) := [.sGet 0, .sGet 1, .tGet 0, .tGet 1, .tGetItem 1 0, .gGet 0, .hPeek 0, .hGetItem 0 1,
      .tLength 1, .vInfo (.t 1), .ensure (.s 0)]
    (demo (pre ++ ops)).drop pre.length = [.error .parameterRead, .ok (.view 2), .error .parameterWritten,
      .error .parameterType, .ok (.view 2), .error .dimensionality] ∧
    (∀ rd ∈ rds, (result demoEnv (demoSt pre) rd).isOk = true ∧
      result demoEnv (demoSt (pre ++ ops)) rd = result demoEnv (demoSt pre) rd) ∧
    (infoAt demoEnv (demoSt pre) (["World"], ["x"])).map (·.ptype) = some (some .scalar) := by
  decide +kernel

/-! ## C34 -/

/-- Both units are known, and of the same dimensionality. -/
def Compatible (env : Env K) (u w : String) : Prop :=
  ∃ a b, env.units u = some a ∧ env.units w = some b ∧ a.dim = b.dim

/-- **C34**: no view is ever granted in a unit that is unknown, or incompatible with the unit of the parameter. -/
theorem C34_granted {env : Env K} {s : St K G} (hs : Reachable env s) {op : Op K G} {i : Nat}
    (hok : result env s op = .ok (.view i)) {name region : HName} {w : String}
    (hop : op = .scalar name w region ∨ ∃ tps ty int ext, op = .timeseries name w tps region ty int ext) :
    ∃ I u, infoAt env (after env s [op]) (region.parts, name.parts) = some I ∧ I.unit = some u ∧
      Compatible env u w := by
  have hi := hs.inv
  have hi' := (hs.call op).inv
  rw [after_one]
  have fin : ∀ {p : Nat} {P : Param K G} {c : Conv K}, HasKey (call env op s).2 p (region.parts, name.parts) →
      (call env op s).2.params[p]? = some P → mkConvOpt env.units P.unit w = .ok c →
      ∃ I u, infoAt env (call env op s).2 (region.parts, name.parts) = some I ∧ I.unit = some u ∧ Compatible env u w := by
    intro p P c hk hp hc
    obtain ⟨u, h1, h2, _⟩ := mkConvOpt_ok hc
    exact ⟨_, u, infoAt_of hi'.tree hk hp, h1, (C34_exists_iff env.units u w).1 ⟨c, h2⟩⟩
  rcases hop with rfl | ⟨tps, ty, int, ext, rfl⟩
  · obtain ⟨p, v, h1, h2, h3, _, h5⟩ := scalar_ok hi hok
    unfold mkSView at h5
    split at h5
    · simp at h5
    · rename_i P hP
      split at h5
      · simp at h5
      · rename_i c hc
        exact fin h1 hP hc
  · obtain ⟨p, v, ty', int', ext', _, _, _, h4, h5, h6⟩ := timeseries_ok hi hok
    unfold mkTView at h6
    split at h6
    · simp at h6
    · rename_i P hP
      split at h6
      · simp at h6
      · rename_i l hl
        unfold mkTLeaf at hl
        rw [hP] at hl
        simp only at hl
        split at hl
        · simp at hl
        · rename_i c hc
          exact fin h4 hP hc

/-- **C34**: a scalar view of a childless scalar parameter: granted exactly if the units are compatible, with exactly
these errors otherwise, and (see `C79_reads`) without touching data. -/
theorem C34_scalar_request {env : Env K} {s : St K G} (hs : Reachable env s) {name region : HName} {I : Info}
    {u w : String} (hI : infoAt env s (region.parts, name.parts) = some I) (ht : I.ptype = some .scalar)
    (hu : I.unit = some u) (hc : ¬ HasChildren env s (region.parts, name.parts)) :
    ((∃ i, result env s (.scalar name w region) = .ok (.view i)) ↔ Compatible env u w) ∧
    (result env s (.scalar name w region) = .error .undefinedUnit ↔ env.units u = none ∨ env.units w = none) ∧
    (result env s (.scalar name w region) = .error .dimensionality ↔
      ∃ a b, env.units u = some a ∧ env.units w = some b ∧ a.dim ≠ b.dim) := by
  have hi := hs.inv
  obtain ⟨p, P, g1, g2, rfl⟩ := (infoAt_some hi.tree).1 hI
  have hne := (not_hasChildren_iff hi.tree g1 g2).1 hc
  simp only at ht hu
  have hr : reach name region s = (.ok p, s) := reach_existing (ns := []) hi.tree g1 (by simp)
  have ha : attemptRead p .scalar (some w) none s = (.ok (), s.setParam p (fun P => { P with readFrom := true })) := by
    unfold attemptRead; rw [g2]; simp [ht]
  have hp' : (s.setParam p (fun P => { P with readFrom := true })).params[p]? = some { P with readFrom := true } := by
    rw [setParam_self, g2]; rfl
  have e : result env s (.scalar name w region) = match mkConv env.units u w with
      | .error e => .error e
      | .ok _ => .ok (.view s.sviews.length) := by
    unfold result
    show (((reach name region >>= _) >>= _) s).1 = _
    rw [M.bind_apply, M.bind_ok hr, M.bind_ok ha, M.bind_apply, M.value_apply]
    unfold mkSView
    rw [hp']
    simp only [hu, mkConvOpt, hne, if_true]
    cases mkConv env.units u w <;> rfl
  rw [e]
  refine ⟨?_, ?_, ?_⟩
  · unfold Compatible
    rw [← C34_exists_iff]
    cases mkConv env.units u w <;> simp
  · rw [← C34_undefined_iff]
    cases mkConv env.units u w <;> simp
  · rw [← C34_dimensionality_iff]
    cases mkConv env.units u w <;> simp

/-- **C34**: the same for timeseries; other errors than these can only come from the time points. -/
theorem C34_timeseries_request {env : Env K} {s : St K G} (hs : Reachable env s) {name region : HName} {I : Info}
    {u w : String} {tps : List K} {ty : TyArg} {int : IntArg} {ext : ExtArg} {t : PType} {int' : Interp} {ext' : Extrap}
    (hI : infoAt env s (region.parts, name.parts) = some I) (ht : I.ptype = some t) (hty : ty.parse = .ok t)
    (hint : int.parse = .ok int') (hext : ext.parse = .ok ext') (hu : I.unit = some u)
    (hc : ¬ HasChildren env s (region.parts, name.parts)) :
    (result env s (.timeseries name w tps region ty int ext) = .error .undefinedUnit ↔
      env.units u = none ∨ env.units w = none) ∧
    (result env s (.timeseries name w tps region ty int ext) = .error .dimensionality ↔
      ∃ a b, env.units u = some a ∧ env.units w = some b ∧ a.dim ≠ b.dim) := by
  have hi := hs.inv
  obtain ⟨p, P, g1, g2, rfl⟩ := (infoAt_some hi.tree).1 hI
  have hne := (not_hasChildren_iff hi.tree g1 g2).1 hc
  simp only at ht hu
  have hr : reach name region s = (.ok p, s) := reach_existing (ns := []) hi.tree g1 (by simp)
  have ha : attemptRead p t (some w) (some tps) s
      = (.ok (), s.setParam p (fun P => { P with readFrom := true })) := by
    unfold attemptRead; rw [g2]; simp [ht]
  have hp' : (s.setParam p (fun P => { P with readFrom := true })).params[p]? = some { P with readFrom := true } := by
    rw [setParam_self, g2]; rfl
  have e : ∃ r : Res K G, r ≠ .error .undefinedUnit ∧ r ≠ .error .dimensionality ∧
      result env s (.timeseries name w tps region ty int ext) = match mkConv env.units u w with
      | .error e => .error e
      | .ok _ => r := by
    have key : ∃ r : Res K G, r ≠ .error .undefinedUnit ∧ r ≠ .error .dimensionality ∧
        (((M.value fun s => mkTView env s p w tps t ext') >>= fun v => (addTView v >>= fun i =>
          (pure (Out.view i) : M K G (Out K G)))) (s.setParam p (fun P => { P with readFrom := true }))).1
        = match mkConv env.units u w with
          | .error e => .error e
          | .ok _ => r := by
      rw [M.bind_apply, M.value_apply]
      unfold mkTView mkTLeaf
      rw [hp']
      simp only [hu, mkConvOpt, hne, if_true]
      cases hm : mkConv env.units u w with
      | error e => exact ⟨.ok .done, by simp, by simp, rfl⟩
      | ok c =>
        cases htp : P.tps with
        | none => exact ⟨.error .attributeError, by simp, by simp, rfl⟩
        | some src =>
          simp only
          cases hts : mkTSConv src tps t ext' with
          | ok x => exact ⟨.ok (.view s.tviews.length), by simp, by simp, rfl⟩
          | error e =>
            refine ⟨.error e, ?_, ?_, rfl⟩ <;>
            · unfold mkTSConv at hts
              repeat' split at hts
              all_goals first | (injection hts with hts; subst hts; simp) | simp at hts
    obtain ⟨r, k1, k2, k3⟩ := key
    refine ⟨r, k1, k2, ?_⟩
    rw [← k3]
    unfold result
    show (((M.ofExcept ty.parse >>= _) >>= _) s).1 = _
    have e1 : (M.ofExcept ty.parse : M K G PType) s = (.ok t, s) := by rw [ofExcept_state, hty]
    have e2 : (M.ofExcept int.parse : M K G Interp) s = (.ok int', s) := by rw [ofExcept_state, hint]
    have e3 : (M.ofExcept ext.parse : M K G Extrap) s = (.ok ext', s) := by rw [ofExcept_state, hext]
    rw [M.bind_apply, M.bind_ok e1, M.bind_ok e2, M.bind_ok e3, M.bind_ok hr, M.bind_ok ha]
    rw [M.bind_apply, M.bind_apply, M.value_apply]
    cases mkTView env (s.setParam p (fun P => { P with readFrom := true })) p w tps t ext' <;> rfl
  obtain ⟨r, r1, r2, e⟩ := e
  rw [e, ← C34_undefined_iff, ← C34_dimensionality_iff]
  cases mkConv env.units u w <;> simp [r1, r2]

/-- Hypotheses of C34 met: parameters with a compatible, an incompatible and an unknown unit requested. -/
example : let s := demoSt [.scalar (.str "T") "K" world, .sSet 0 (.num 1), points ["a"] "K" [0, 1]]
    (infoAt demoEnv s (["World"], ["T"])).map (fun I => (I.ptype, I.unit)) = some (some .scalar, some "K") ∧
    (infoAt demoEnv s (["World"], ["a"])).map (fun I => (I.ptype, I.unit)) = some (some .point, some "K") ∧
    (["degC", "m", "foo"].map fun w => result demoEnv s (.scalar (.str "T") w world))
      = [.ok (.view 1), .error .dimensionality, .error .undefinedUnit] ∧
    (["degC", "m", "foo"].map fun w => result demoEnv s (points ["a"] w [0, 1]))
      = [.ok (.view 1), .error .dimensionality, .error .undefinedUnit] := by
  decide +kernel

end Openscm
