import Verif.DiceLemmas
import Verif.TimeTotal

/-!
# The DICE adapter: its output views

Helper file: the arrays in the caches of the six output views, and what accesses through them do.
-/

set_option linter.unusedSectionVars false

namespace Openscm
variable {K : Type} [Field K] [LinearOrder K] [IsStrictOrderedRing K]

/-- Region and name of an output. -/
def outputKey (o : OName) : Key := (["World"], outputName o)

theorem outputKey_inj {o o' : OName} (h : outputKey o = outputKey o') : o = o' := by
  cases o <;> cases o' <;> first | rfl | (exfalso; revert h; decide +kernel)

/-- All six outputs have been requested. -/
def OKeys (d : Dice K) : Prop :=
  ∀ o, ∃ i v, d.ov o = some i ∧ d.out.tviews[i]? = some v ∧
    HasKey d.out v.leaf.param (outputKey o)

/-- The view of output `o` is locked or not, has the array `l` in its cache, is in step with the
parameter and, if not locked, the parameter holds the converted array. -/
def OV (d : Dice K) (o : OName) (lk : Bool) (l : List (Fl K)) : Prop :=
  ∃ i v P, d.ov o = some i ∧ d.out.tviews[i]? = some v ∧ v.leaf.data = some (.floats l) ∧
    d.out.params[v.leaf.param]? = some P ∧ v.leaf.version = some P.version ∧ v.locked = lk ∧
    (lk = false → ∃ q, P.data = .series q ∧ published v (.floats l) = .ok q)

/-- The view of output `o` and its parameter are the same in both states. -/
def OSame (d d' : Dice K) (o : OName) : Prop :=
  d'.ov o = d.ov o ∧ ∀ i v, d.ov o = some i → d.out.tviews[i]? = some v →
    d'.out.tviews[i]? = some v ∧ d'.out.params[v.leaf.param]? = d.out.params[v.leaf.param]?

theorem OV.same {d d' : Dice K} {o : OName} {lk : Bool} {l : List (Fl K)} (h : OV d o lk l)
    (hs : OSame d d' o) : OV d' o lk l := by
  obtain ⟨i, v, P, h1, h2, h3, h4, h5, h6, h7⟩ := h
  obtain ⟨g1, g2⟩ := hs.2 i v h1 h2
  exact ⟨i, v, P, hs.1.trans h1, g1, h3, g2.trans h4, h5, h6, h7⟩

/-- Nothing but the six output parameters and their views changes. -/
structure OFrame (d d' : Dice K) : Prop where
  ov : d'.ov = d.ov
  regions : d'.out.regions = d.out.regions
  sviews : d'.out.sviews = d.out.sviews
  gviews : d'.out.gviews = d.out.gviews
  params : ∀ q, (∀ o i v, d.ov o = some i → d.out.tviews[i]? = some v → v.leaf.param ≠ q) →
    d'.out.params[q]? = d.out.params[q]?
  plen : d'.out.params.length = d.out.params.length
  tviews : ∀ j, (∀ o, d.ov o ≠ some j) → d'.out.tviews[j]? = d.out.tviews[j]?
  tlen : d'.out.tviews.length = d.out.tviews.length
  view : ∀ o i v, d.ov o = some i → d.out.tviews[i]? = some v →
    ∃ v', d'.out.tviews[i]? = some v' ∧ v'.stat = v.stat
  pext : PExt d.out d'.out

theorem OFrame.refl (d : Dice K) : OFrame d d :=
  ⟨rfl, rfl, rfl, rfl, fun _ _ => rfl, rfl, fun _ _ => rfl, rfl,
    fun _ _ v _ h => ⟨v, h, rfl⟩, .refl _⟩

theorem OFrame.trans {d1 d2 d3 : Dice K} (h : OFrame d1 d2) (h' : OFrame d2 d3) : OFrame d1 d3 := by
  refine ⟨h'.ov.trans h.ov, h'.regions.trans h.regions, h'.sviews.trans h.sviews,
    h'.gviews.trans h.gviews, fun q hq => ?_, h'.plen.trans h.plen, fun j hj => ?_,
    h'.tlen.trans h.tlen, fun o i v ho hv => ?_, h.pext.trans h'.pext⟩
  · rw [h'.params q ?_, h.params q hq]
    intro o i v ho hv
    rw [h.ov] at ho
    have hlt : i < d1.out.tviews.length := by
      rw [← h.tlen]; exact (List.getElem?_eq_some_iff.1 hv).1
    obtain ⟨v', hv', hst⟩ := h.view o i _ ho (List.getElem?_eq_getElem hlt)
    rw [hv] at hv'; cases hv'
    rw [stat_param hst]
    exact hq o i _ ho (List.getElem?_eq_getElem hlt)
  · rw [h'.tviews j ?_, h.tviews j hj]
    rw [h.ov]; exact hj
  · obtain ⟨v', hv', hst⟩ := h.view o i v ho hv
    obtain ⟨v'', hv'', hst'⟩ := h'.view o i v' (by rw [h.ov]; exact ho) hv'
    exact ⟨v'', hv'', hst'.trans hst⟩

/-- A parameter without its data and version. -/
def pstat (P : Param K GVal) : Param K GVal := { P with data := .unset, version := 0 }

/-- The converters of the view of output `o` and what does not change about its parameter. -/
def OStat (d : Dice K) (o : OName) : Option (Conv K × TSConv K × Param K GVal) :=
  (d.ov o).bind fun i => (d.out.tviews[i]?).bind fun v =>
    (d.out.params[v.leaf.param]?).map fun P => (v.leaf.conv, v.leaf.ts, pstat P)

theorem OStat_of {d : Dice K} {o : OName} {i : Nat} {v : TView K} {P : Param K GVal}
    (h1 : d.ov o = some i) (h2 : d.out.tviews[i]? = some v) (h3 : d.out.params[v.leaf.param]? = some P) :
    OStat d o = some (v.leaf.conv, v.leaf.ts, pstat P) := by
  unfold OStat
  simp only [h1, h2, h3, Option.bind_some, Option.map_some]

theorem OSame.stat {d d' : Dice K} {o : OName} (h : OSame d d' o) (hk : OKeys d) :
    OStat d' o = OStat d o := by
  obtain ⟨i, v, h1, h2, P, h3, _⟩ := hk o
  obtain ⟨g1, g2⟩ := h.2 i v h1 h2
  rw [OStat_of h1 h2 h3, OStat_of (h.1.trans h1) g1 (g2.trans h3)]

/-- Effect of a call through the view of output `o`, after which the array is `l`. -/
structure OEff (E : DEnv K) (d d' : Dice K) (o : OName) (lk : Bool) (l : List (Fl K)) : Prop where
  ov : OV d' o lk l
  other : ∀ o', o' ≠ o → OSame d d' o'
  frame : OFrame d d'
  keys : OKeys d'
  inv : Inv E.env d'.out
  eq : d' = { d with out := d'.out }
  stat : ∀ o', OStat d' o' = OStat d o'

/-- Arrays of length `n` assigned to the view of output `o` can be converted. -/
def Pub (d : Dice K) (o : OName) (n : Nat) : Prop :=
  ∀ c t P, OStat d o = some (c, t, P) → ∀ l : List (Fl K), l.length = n →
    ∃ q, t.convertTo (l.map (Fl.map c.convertTo)) = .ok q

theorem OV.pub {d : Dice K} {o : OName} {l : List (Fl K)} (h : OV d o false l) :
    Pub d o l.length := by
  obtain ⟨i, v, P, h1, h2, _, h4, _, _, h7⟩ := h
  obtain ⟨q, _, hq⟩ := h7 rfl
  intro c t P' hs l' hl
  rw [OStat_of h1 h2 h4] at hs
  cases hs
  unfold published Arr.vals TSConv.convertTo at hq
  exact (convert_err (by simp [hl])).ok hq

/-- Changes elsewhere. -/
theorem OFrame.of_out {d d' : Dice K} (h : d'.out = d.out) (ho : d'.ov = d.ov) : OFrame d d' :=
  ⟨ho, by rw [h], by rw [h], by rw [h], fun _ _ => by rw [h], by rw [h], fun _ _ => by rw [h],
    by rw [h], fun _ _ v _ hv => ⟨v, by rw [h]; exact hv, rfl⟩, by rw [h]; exact .refl _⟩

theorem OSame.of_out {d d' : Dice K} (h : d'.out = d.out) (ho : d'.ov = d.ov) (o : OName) :
    OSame d d' o :=
  ⟨by rw [ho], fun i v _ hv => ⟨by rw [h]; exact hv, by rw [h]⟩⟩

theorem OKeys.of_out {d d' : Dice K} (hk : OKeys d) (h : d'.out = d.out) (ho : d'.ov = d.ov) :
    OKeys d' := by
  intro o
  obtain ⟨i, v, h1, h2, h3⟩ := hk o
  exact ⟨i, v, by rw [ho]; exact h1, by rw [h]; exact h2, by rw [h]; exact h3⟩

/-- A call through the view of one output. -/
theorem onOut_frame {E : DEnv K} {d : Dice K} (hi : Inv E.env d.out) (hk : OKeys d) {o : OName}
    {i : Nat} (ho : d.ov o = some i) {op : Op K GVal} (hop : onT op = some i) :
    OKeys { d with out := (call E.env op d.out).2 } ∧
      OFrame d { d with out := (call E.env op d.out).2 } ∧
      Inv E.env (call E.env op d.out).2 ∧
      ∀ o', o' ≠ o → OSame d { d with out := (call E.env op d.out).2 } o' := by
  obtain ⟨i', v, h1, h2, h3⟩ := hk o
  rw [ho] at h1; cases h1
  have hf : TFrame i v.leaf.param d.out (call E.env op d.out).2 :=
    onT_fr E.env op i v.leaf.param hop d.out (by rw [h2]; rfl)
  have hpe := call_pext op hi (env := E.env)
  have hre := call_rext op hi (env := E.env)
  have apart : ∀ o', o' ≠ o → ∀ j w, d.ov o' = some j → d.out.tviews[j]? = some w →
      j ≠ i ∧ w.leaf.param ≠ v.leaf.param := by
    intro o' hne j w hj hw
    obtain ⟨j', w', g1, g2, g3⟩ := hk o'
    rw [hj] at g1; cases g1
    rw [hw] at g2; cases g2
    have hp : w.leaf.param ≠ v.leaf.param := by
      intro he
      rw [he] at g3
      exact hne (outputKey_inj (g3.det h3))
    refine ⟨?_, hp⟩
    rintro rfl
    rw [hw] at h2; cases h2
    exact hp rfl
  refine ⟨?_, ?_, call_inv op hi, ?_⟩
  · intro o'
    obtain ⟨j, w, g1, g2, g3⟩ := hk o'
    obtain ⟨w', e1, e2⟩ := call_tview hi op g2
    exact ⟨j, w', g1, e1, by rw [stat_param e2]; exact g3.mono hpe hre⟩
  · refine ⟨rfl, hf.regions, hf.sviews, hf.gviews, fun q hq => ?_, hf.plen, fun j hj => ?_, hf.tlen,
      fun o' j w _ hw => call_tview hi op hw, hpe⟩
    · exact hf.params q (fun he => hq o i v ho h2 he.symm)
    · exact hf.tviews j (fun he => hj o (by rw [he]; exact ho))
  · intro o' hne
    refine ⟨rfl, fun j w hj hw => ?_⟩
    obtain ⟨a1, a2⟩ := apart o' hne j w hj hw
    exact ⟨(hf.tviews j a1).trans hw, hf.params _ a2⟩

/-! ## Element access -/

theorem OV.synced {d : Dice K} {o : OName} {lk : Bool} {l : List (Fl K)} (h : OV d o lk l) {i : Nat}
    (hi : d.ov o = some i) : Synced d.out i (.floats l) := by
  obtain ⟨j, v, P, h1, h2, h3, h4, h5, _⟩ := h
  rw [hi] at h1; cases h1
  exact ⟨v, P, h2, h3, h4, h5⟩

theorem oget_inv {E : DEnv K} {d d' : Dice K} {o : OName} {lk : Bool} {l : List (Fl K)}
    (h : OV d o lk l) {j : Int} {x : Fl K} (hg : oget E o j d = (.ok x, d')) :
    d' = d ∧ ∃ n, pyIndex l.length j = some n ∧ l[n]? = some x := by
  unfold oget at hg
  obtain ⟨i, d1, h1, h2⟩ := DM.bind_inv hg
  obtain ⟨hov, rfl⟩ := DM.attr_inv h1
  obtain ⟨r, d2, h3, h4⟩ := DM.bind_inv h2
  obtain ⟨h5, rfl⟩ := DM.ofExcept_inv h4
  have := asNum_inv h5
  subst this
  have hs := h.synced hov
  have hc : call E.env (.tGetItem i j) d1.out
      = ((Arr.getItem (.floats l) j).map Out.num, d1.out) := by
    show (readT i >>= fun _ => (handle i >>= fun d => (M.ofExcept (d.getItem j) >>= fun x =>
          (pure (Out.num x) : M K GVal (Out K GVal))))) d1.out = _
    rw [M.bind_ok (readT_synced hs), M.bind_ok (handle_synced hs), M.bind_apply]
    cases Arr.getItem (.floats l) j <;> rfl
  rw [onOut_eq, hc] at h3
  simp only [Prod.mk.injEq] at h3
  obtain ⟨g1, rfl⟩ := h3
  refine ⟨rfl, ?_⟩
  unfold Arr.getItem at g1
  cases hn : pyIndex (Arr.length (.floats l)) j with
  | none => rw [hn] at g1; simp [Except.map] at g1
  | some n =>
    rw [hn] at g1
    cases hx : l[n]? with
    | none => simp [Arr.vals, hx, Except.map] at g1
    | some y =>
      simp only [Arr.vals, hx, Except.map, Except.ok.injEq, Out.num.injEq] at g1
      subst g1
      exact ⟨n, hn, hx⟩

theorem writeT_OV {s : St K GVal} {i : Nat} {v : TView K} {P : Param K GVal} {l : List (Fl K)} {s' : St K GVal}
    (hv : s.tviews[i]? = some v) (hd : v.leaf.data = some (.floats l))
    (hp : s.params[v.leaf.param]? = some P) (hver : v.locked = true → v.leaf.version = some P.version)
    (hw : writeT i s = (.ok (), s')) :
    ∃ v' P', s'.tviews[i]? = some v' ∧ v'.leaf.data = some (.floats l) ∧
      s'.params[v'.leaf.param]? = some P' ∧ v'.leaf.version = some P'.version ∧ v'.locked = v.locked ∧
      pstat P' = pstat P ∧ (v.locked = false → ∃ q, P'.data = .series q ∧ published v' (.floats l) = .ok q) := by
  have := writeT_cases hv hd hp
  rw [hw] at this
  generalize hx : ((Except.ok () : Except Err Unit), s') = x at this
  cases this with
  | locked h' =>
    simp only [Prod.mk.injEq, true_and] at hx
    subst hx
    exact ⟨v, P, hv, hd, hp, hver h', rfl, rfl, fun h => by rw [h] at h'; simp at h'⟩
  | refused _ e he => simp at hx
  | stored h' q he =>
    simp only [Prod.mk.injEq, true_and] at hx
    subst hx
    refine ⟨{ v with leaf := { v.leaf with version := some (P.version + 1) } },
      { P with data := .series q, version := P.version + 1 }, ?_, hd, ?_, rfl, rfl, rfl,
      fun _ => ⟨q, rfl, he⟩⟩
    · unfold storedT
      rw [setT_self]
      show (s.tviews[i]?).map _ = _
      rw [hv]; rfl
    · show (s.setParam v.leaf.param _).params[v.leaf.param]? = _
      rw [setParam_self, hp]; rfl

theorem self_stat {d d' : Dice K} {o : OName} {i : Nat} {v v' : TView K} {P P' : Param K GVal}
    (hf : OFrame d d') (h1 : d.ov o = some i) (h2 : d.out.tviews[i]? = some v)
    (h3 : d.out.params[v.leaf.param]? = some P) (h2' : d'.out.tviews[i]? = some v')
    (h3' : d'.out.params[v'.leaf.param]? = some P') (hP : pstat P' = pstat P) :
    OStat d' o = OStat d o := by
  obtain ⟨w, hw, hst⟩ := hf.view o i v h1 h2
  rw [h2'] at hw; cases hw
  rw [OStat_of h1 h2 h3, OStat_of (by rw [hf.ov]; exact h1) h2' h3', hP]
  have : v'.leaf.stat = v.leaf.stat := congrArg Prod.fst hst
  unfold TLeaf.stat at this
  simp only [Prod.mk.injEq] at this
  rw [this.2.1, this.2.2]

theorem oset_inv {E : DEnv K} {d d' : Dice K} (hi : Inv E.env d.out) (hk : OKeys d) {o : OName}
    {lk : Bool} {l : List (Fl K)} (h : OV d o lk l) {j : Int} {x : Fl K}
    (hg : oset E o j x d = (.ok (), d')) :
    ∃ n, pyIndex l.length j = some n ∧ OEff E d d' o lk (l.set n x) := by
  unfold oset at hg
  obtain ⟨i, d1, h1, h2⟩ := DM.bind_inv hg
  obtain ⟨hov, rfl⟩ := DM.attr_inv h1
  obtain ⟨r, d2, h3, h4⟩ := DM.bind_inv h2
  obtain ⟨_, rfl⟩ := DM.pure_inv h4
  obtain ⟨f1, f2, f3, f4⟩ := onOut_frame (E := E) hi hk hov (op := .tSetItem i [(j, x)]) rfl
  have hs := h.synced hov
  obtain ⟨i', v, P, k1, k2, k3, k4, k5, k6, k7⟩ := id h
  rw [hov] at k1; cases k1
  rw [onOut_eq] at h3
  simp only [Prod.mk.injEq] at h3
  obtain ⟨g1, rfl⟩ := h3
  have hc : call E.env (.tSetItem i [(j, x)]) d1.out
      = (setItems E.env i [(j, x)] >>= fun _ => (pure Out.done : M K GVal (Out K GVal))) d1.out := by
    show (readT i >>= fun _ => (setItems E.env i [(j, x)] >>= fun _ =>
      (pure Out.done : M K GVal (Out K GVal)))) d1.out = _
    rw [M.bind_ok (readT_synced hs)]
  have hcall : call E.env (.tSetItem i [(j, x)]) d1.out
      = (.ok r, (call E.env (.tSetItem i [(j, x)]) d1.out).2) := by rw [← g1]
  rw [hc] at hcall
  obtain ⟨_, s1, e1, e2⟩ := M.bind_inv hcall
  have e2 : ((Except.ok Out.done : Res K GVal), s1) = (.ok r, _) := e2
  simp only [Prod.mk.injEq] at e2
  obtain ⟨_, e3⟩ := e2
  rw [← hc] at e3
  unfold setItems at e1
  have lk1 : M.look (fun s : St K GVal => s.tviews[i]?) d1.out = (.ok v, d1.out) := look_some k2
  rw [M.bind_ok lk1, k3] at e1
  simp only at e1
  obtain ⟨a, s2, e4, e5⟩ := M.bind_inv e1
  obtain ⟨e6, rfl⟩ := M.ofExcept_inv e4
  unfold Arr.setItems at e6
  simp only [List.map_cons, List.map_nil, pyIndices, Arr.length] at e6
  cases hn : pyIndex l.length j with
  | none => rw [hn] at e6; simp at e6
  | some n =>
    rw [hn] at e6
    simp only [Option.map_some, List.zip_cons_cons, List.zip_nil_right, assignAt, Except.ok.injEq] at e6
    subst e6
    obtain ⟨_, s3, e7, e8⟩ := M.bind_inv e5
    have e7 : ((Except.ok () : Except Err Unit), cached d1.out i (.floats (l.set n x))) = (.ok (), s3) := e7
    simp only [Prod.mk.injEq, true_and] at e7
    subst e7
    have hver : ({ v with leaf := { v.leaf with data := some (.floats (l.set n x)) } } : TView K).locked
        = true → v.leaf.version = some P.version := fun _ => k5
    obtain ⟨v', P', w1, w2, w3, w4, w5, wp, w6⟩ := writeT_OV (cached_view k2) rfl k4 hver e8
    rw [e3] at w1 w3
    refine ⟨n, rfl, ?_, f4, f2, f1, f3, rfl, fun o' => ?_⟩
    rotate_left
    · by_cases ho : o' = o
      · subst ho; exact self_stat f2 hov k2 k4 w1 w3 wp
      · exact (f4 o' ho).stat hk
    refine ⟨i, v', P', hov, w1, w2, w3, w4, by rw [w5]; exact k6, fun hf => w6 ?_⟩
    show v.locked = false
    rw [k6, hf]

/-! ## Locking -/

theorem lock_inv {E : DEnv K} {d d' : Dice K} (hi : Inv E.env d.out) (hk : OKeys d) {o : OName}
    {lk : Bool} {l : List (Fl K)} (h : OV d o lk l) (hg : lockOutput E o d = (.ok (), d')) :
    OEff E d d' o true l := by
  unfold lockOutput at hg
  obtain ⟨i, d1, h1, h2⟩ := DM.bind_inv hg
  obtain ⟨hov, rfl⟩ := DM.attr_inv h1
  obtain ⟨r, d2, h3, h4⟩ := DM.bind_inv h2
  obtain ⟨_, rfl⟩ := DM.pure_inv h4
  obtain ⟨f1, f2, f3, f4⟩ := onOut_frame (E := E) hi hk hov (op := .tLock i) rfl
  obtain ⟨i', v, P, k1, k2, k3, k4, k5, k6, k7⟩ := id h
  rw [hov] at k1; cases k1
  rw [onOut_eq] at h3
  simp only [Prod.mk.injEq] at h3
  obtain ⟨g1, rfl⟩ := h3
  have : (call E.env (.tLock i) d1.out).2 = d1.out.setT i (fun v => { v with locked := true }) := by
    show ((M.look (fun s : St K GVal => s.tviews[i]?) >>= fun _ =>
      (updTView i (fun v => { v with locked := true }) >>= fun _ =>
      (pure Out.done : M K GVal (Out K GVal)))) d1.out).2 = _
    have e1 : M.look (fun s : St K GVal => s.tviews[i]?) d1.out = (.ok v, d1.out) := look_some k2
    rw [M.bind_ok e1]; rfl
  have w1 : (call E.env (.tLock i) d1.out).2.tviews[i]? = some { v with locked := true } := by
    rw [this, setT_self, k2]; rfl
  have w3 : (call E.env (.tLock i) d1.out).2.params[v.leaf.param]? = some P := by
    rw [this]; exact k4
  refine ⟨⟨i, { v with locked := true }, P, hov, w1, k3, w3, k5, rfl, by simp⟩, f4, f2, f1, f3, rfl,
    fun o' => ?_⟩
  by_cases ho : o' = o
  · subst ho; exact self_stat f2 hov k2 k4 w1 w3 rfl
  · exact (f4 o' ho).stat hk

theorem unlock_inv {E : DEnv K} {d d' : Dice K} (hi : Inv E.env d.out) (hk : OKeys d) {o : OName}
    {lk : Bool} {l : List (Fl K)} (h : OV d o lk l) (hg : unlockOutput E o d = (.ok (), d')) :
    OEff E d d' o false l := by
  unfold unlockOutput at hg
  obtain ⟨i, d1, h1, h2⟩ := DM.bind_inv hg
  obtain ⟨hov, rfl⟩ := DM.attr_inv h1
  obtain ⟨r, d2, h3, h4⟩ := DM.bind_inv h2
  obtain ⟨_, rfl⟩ := DM.pure_inv h4
  obtain ⟨f1, f2, f3, f4⟩ := onOut_frame (E := E) hi hk hov (op := .tUnlock i) rfl
  obtain ⟨i', v, P, k1, k2, k3, k4, k5, k6, k7⟩ := id h
  rw [hov] at k1; cases k1
  rw [onOut_eq] at h3
  simp only [Prod.mk.injEq] at h3
  obtain ⟨g1, rfl⟩ := h3
  have hc : call E.env (.tUnlock i) d1.out
      = (writeT i >>= fun _ => (pure Out.done : M K GVal (Out K GVal)))
        (d1.out.setT i (fun v => { v with locked := false })) := by
    show (M.look (fun s : St K GVal => s.tviews[i]?) >>= fun _ =>
      (updTView i (fun v => { v with locked := false }) >>= fun _ =>
      (writeT i >>= fun _ => (pure Out.done : M K GVal (Out K GVal))))) d1.out = _
    have e1 : M.look (fun s : St K GVal => s.tviews[i]?) d1.out = (.ok v, d1.out) := look_some k2
    rw [M.bind_ok e1]; rfl
  have hcall : call E.env (.tUnlock i) d1.out
      = (.ok r, (call E.env (.tUnlock i) d1.out).2) := by rw [← g1]
  rw [hc] at hcall
  obtain ⟨_, s1, e1, e2⟩ := M.bind_inv hcall
  have e2 : ((Except.ok Out.done : Res K GVal), s1) = (.ok r, _) := e2
  simp only [Prod.mk.injEq] at e2
  obtain ⟨_, e3⟩ := e2
  rw [← hc] at e3
  have hv : (d1.out.setT i (fun v => { v with locked := false })).tviews[i]?
      = some { v with locked := false } := by rw [setT_self, k2]; rfl
  obtain ⟨v', P', w1, w2, w3, w4, w5, wp, w6⟩ := writeT_OV hv k3 k4 (by simp) e1
  rw [e3] at w1 w3
  refine ⟨⟨i, v', P', hov, w1, w2, w3, w4, w5, fun _ => w6 rfl⟩, f4, f2, f1, f3, rfl, fun o' => ?_⟩
  by_cases ho : o' = o
  · subst ho; exact self_stat f2 hov k2 k4 w1 w3 wp
  · exact (f4 o' ho).stat hk

/-! ## Resetting -/

/-- The view of output `o` is new. -/
def OFresh (d : Dice K) (o : OName) : Prop :=
  ∃ i v, d.ov o = some i ∧ d.out.tviews[i]? = some v ∧ v.leaf.data = none ∧ v.locked = false

theorem OFresh.same {d d' : Dice K} {o : OName} (h : OFresh d o) (hs : OSame d d' o) :
    OFresh d' o := by
  obtain ⟨i, v, h1, h2, h3, h4⟩ := h
  exact ⟨i, v, hs.1.trans h1, (hs.2 i v h1 h2).1, h3, h4⟩

/-- What an assignment does to the parameter, apart from its data and version. -/
def markStat : Conv K × TSConv K × Param K GVal → Conv K × TSConv K × Param K GVal
  | (c, t, P) => (c, t, { P with written := true })

theorem tSet_inv {E : DEnv K} {d : Dice K} (hi : Inv E.env d.out) (hk : OKeys d) {o : OName} {i : Nat}
    (hov : d.ov o = some i) (h : OFresh d o) {l : List (Fl K)} {r : Out K GVal} {s' : St K GVal}
    (hg : call E.env (.tSet i (.floats l)) d.out = (.ok r, s')) :
    OV { d with out := s' } o false l ∧
      OStat { d with out := s' } o = (OStat d o).map markStat := by
  obtain ⟨i', v, k1, k2, k3, k4⟩ := h
  rw [hov] at k1; cases k1
  obtain ⟨P, hp, _⟩ := (hi.good.tviews i v k2).ex
  obtain ⟨f1, f2, f3, f4⟩ := onOut_frame (E := E) hi hk hov (op := .tSet i (.floats l)) rfl
  rw [hg] at f1 f2 f3 f4
  have hc : call E.env (.tSet i (.floats l)) d.out
      = (setValues i (.floats l) >>= fun _ => (pure Out.done : M K GVal (Out K GVal))) d.out := rfl
  rw [hc] at hg
  obtain ⟨_, s1, e1, e2⟩ := M.bind_inv hg
  have e2 : ((Except.ok Out.done : Res K GVal), s1) = (.ok r, _) := e2
  simp only [Prod.mk.injEq] at e2
  obtain ⟨_, rfl⟩ := e2
  by_cases hch : P.children = []
  · by_cases ha : (Arr.floats l).length = v.leaf.ts.targetLength
    · have hd : newCache v.leaf.data (.floats l) = .ok (.floats l) := by rw [k3]; rfl
      rw [setValues_write hi k2 hp hch ha hd] at e1
      obtain ⟨v', P', w1, w2, w3, w4, w5, wp, w6⟩ := writeT_OV (cached_view (marked_view k2)) rfl
        (marked_param (i := i) hp) (by intro hl; rw [show v.locked = true from hl] at k4; simp at k4) e1
      refine ⟨⟨i, v', P', hov, w1, w2, w3, w4, by rw [w5]; exact k4, fun _ => w6 k4⟩, ?_⟩
      obtain ⟨w, hw, hst⟩ := f2.view o i v hov k2
      have hw : s1.tviews[i]? = some w := hw
      rw [w1] at hw; cases hw
      rw [OStat_of hov k2 hp]
      refine (OStat_of (d := { d with out := s1 }) hov w1 w3).trans ?_
      have : v'.leaf.stat = v.leaf.stat := congrArg Prod.fst hst
      unfold TLeaf.stat at this
      simp only [Prod.mk.injEq] at this
      rw [this.2.1, this.2.2, wp]
      rfl
    · rw [setValues_mismatch hi k2 hp hch ha] at e1; simp at e1
  · rw [setValues_children hi k2 hp hch] at e1; simp at e1

/-- Outcome of the first assignment through a view. -/
def setOutcome (x : Conv K × TSConv K × Param K GVal) (l : List (Fl K)) : Except Err Unit :=
  if x.2.2.children ≠ [] then .error .parameterReadonly
  else if l.length ≠ x.2.1.targetLength then .error .pointsValuesMismatch
  else
    match x.2.1.convertTo (l.map (Fl.map x.1.convertTo)) with
    | .error e => .error e
    | .ok _ => .ok ()

theorem setOutcome_length {x : Conv K × TSConv K × Param K GVal} {l m : List (Fl K)}
    (h : l.length = m.length) : setOutcome x l = setOutcome x m := by
  unfold setOutcome
  rw [h]
  have hs : SameErr (x.2.1.convertTo (l.map (Fl.map x.1.convertTo)))
      (x.2.1.convertTo (m.map (Fl.map x.1.convertTo))) := by
    unfold TSConv.convertTo; exact convert_err (by simp [h])
  cases hx : x.2.1.convertTo (l.map (Fl.map x.1.convertTo)) with
  | error e => rw [(hs e).1 hx]
  | ok q => obtain ⟨q', hq⟩ := hs.ok hx; rw [hq]

theorem tSet_fst {E : DEnv K} {d : Dice K} (hi : Inv E.env d.out) {o : OName} {i : Nat}
    (hov : d.ov o = some i) (h : OFresh d o) (l : List (Fl K)) :
    ∃ x, OStat d o = some x ∧
      (call E.env (.tSet i (.floats l)) d.out).1 = (setOutcome x l).map (fun _ => Out.done) := by
  obtain ⟨i', v, k1, k2, k3, k4⟩ := h
  rw [hov] at k1; cases k1
  obtain ⟨P, hp, _⟩ := (hi.good.tviews i v k2).ex
  refine ⟨_, OStat_of hov k2 hp, ?_⟩
  have hc : call E.env (.tSet i (.floats l)) d.out
      = (setValues i (.floats l) >>= fun _ => (pure Out.done : M K GVal (Out K GVal))) d.out := rfl
  rw [hc]
  unfold setOutcome
  by_cases hch : P.children = []
  · rw [if_neg (by show ¬ P.children ≠ []; simp [hch])]
    by_cases ha : (Arr.floats l).length = v.leaf.ts.targetLength
    · rw [if_neg (by show ¬ l.length ≠ _; simp [show l.length = v.leaf.ts.targetLength from ha])]
      have hd : newCache v.leaf.data (.floats l) = .ok (.floats l) := by rw [k3]; rfl
      have hw := writeT_cases (i := i) (cached_view (d := .floats l) (marked_view k2)) rfl
        (marked_param (i := i) hp)
      rw [M.bind_apply, setValues_write hi k2 hp hch ha hd]
      generalize hy : writeT i (cached (marked d.out i v) i (.floats l)) = y at hw
      cases hw with
      | locked h' => rw [show v.locked = true from h'] at k4; simp at k4
      | refused _ e he =>
        have he : v.leaf.ts.convertTo (l.map (Fl.map v.leaf.conv.convertTo)) = .error e := he
        simp only [he]; rfl
      | stored h' q he =>
        have he : v.leaf.ts.convertTo (l.map (Fl.map v.leaf.conv.convertTo)) = .ok q := he
        simp only [he]; rfl
    · rw [if_pos (by show l.length ≠ _; exact ha), M.bind_error (setValues_mismatch hi k2 hp hch ha)]
      rfl
  · rw [if_pos (by show P.children ≠ []; exact hch), M.bind_error (setValues_children hi k2 hp hch)]
    rfl

theorem resetOutput_inv {E : DEnv K} {d d' : Dice K} (hi : Inv E.env d.out) (hk : OKeys d) {o : OName}
    (h : OFresh d o) {junk : Nat → Fl K} {x : DM K (Fl K)} {y : Dice K → Except Err (Fl K)}
    (hx : ∀ d, x d = (y d, d)) (hg : resetOutput E o junk x d = (.ok (), d')) :
    ∃ z d1, 0 < d.count ∧ d1 = { d with out := d1.out } ∧ y d1 = .ok z ∧
      OV d' o false (((List.range d.count.toNat).map junk).set 0 z) ∧
      (∀ o', o' ≠ o → OSame d d' o') ∧
      OFrame d d' ∧ OKeys d' ∧ Inv E.env d'.out ∧ d' = { d with out := d'.out } ∧
      OStat d' o = (OStat d o).map markStat := by
  unfold resetOutput at hg
  obtain ⟨n, d1, h1, h2⟩ := DM.bind_inv hg
  obtain ⟨rfl, rfl⟩ := DM.gets_inv h1
  by_cases hn : d1.count < 0
  · rw [if_pos hn] at h2; exact (DM.throw_inv h2).elim
  · rw [if_neg hn] at h2
    obtain ⟨i, d2, h3, h4⟩ := DM.bind_inv h2
    obtain ⟨hov, rfl⟩ := DM.attr_inv h3
    obtain ⟨r, d3, h5, h6⟩ := DM.bind_inv h4
    obtain ⟨f1, f2, f3, f4⟩ := onOut_frame (E := E) hi hk hov
      (op := .tSet i (.floats ((List.range d2.count.toNat).map junk))) rfl
    rw [onOut_eq] at h5
    simp only [Prod.mk.injEq] at h5
    obtain ⟨g1, rfl⟩ := h5
    obtain ⟨ov1, os1⟩ := tSet_inv (E := E) hi hk hov h (l := (List.range d2.count.toNat).map junk) (r := r)
      (s' := (call E.env (.tSet i (.floats ((List.range d2.count.toNat).map junk))) d2.out).2)
      (by rw [← g1])
    obtain ⟨z, d4, h7, h8⟩ := DM.bind_inv h6
    rw [hx] at h7
    simp only [Prod.mk.injEq] at h7
    obtain ⟨h9, rfl⟩ := h7
    obtain ⟨m, a1, a2, a3, a4, a5, a6, a7, a8⟩ := oset_inv f3 f1 ov1 h8
    have hm : m = 0 ∧ 0 < d2.count := by
      unfold pyIndex at a1
      simp only [le_refl, if_true, List.length_map, List.length_range] at a1
      split at a1
      · rename_i hlt
        refine ⟨by simpa using a1.symm, by omega⟩
      · simp at a1
    obtain ⟨rfl, hpos⟩ := hm
    refine ⟨z, _, hpos, rfl, h9, a2, ?_, f2.trans a4, a5, a6, ?_, ?_⟩
    · intro o' hne
      obtain ⟨b1, b2⟩ := f4 o' hne
      obtain ⟨c1, c2⟩ := a3 o' hne
      refine ⟨c1.trans b1, fun j w hj hw => ?_⟩
      obtain ⟨b3, b4⟩ := b2 j w hj hw
      obtain ⟨c3, c4⟩ := c2 j w (by exact hj) b3
      exact ⟨c3, c4.trans b4⟩
    · rw [a7]
    · rw [a8, os1]

/-! ## Outcomes -/

theorem oget_eq {E : DEnv K} {d : Dice K} {o : OName} {lk : Bool} {l : List (Fl K)}
    (h : OV d o lk l) (j : Int) : oget E o j d = (Arr.getItem (.floats l) j, d) := by
  obtain ⟨i, v, P, hov, _⟩ := id h
  have hs := h.synced hov
  have hc : call E.env (.tGetItem i j) d.out
      = ((Arr.getItem (.floats l) j).map Out.num, d.out) := by
    show (readT i >>= fun _ => (handle i >>= fun d => (M.ofExcept (d.getItem j) >>= fun x =>
          (pure (Out.num x) : M K GVal (Out K GVal))))) d.out = _
    rw [M.bind_ok (readT_synced hs), M.bind_ok (handle_synced hs), M.bind_apply]
    cases Arr.getItem (.floats l) j <;> rfl
  unfold oget
  rw [DM.bind_ok (DM.attr_some hov)]
  cases hx : Arr.getItem (.floats l) j with
  | error e =>
    have : onOut E (.tGetItem i j) d = (.error e, d) := by rw [onOut_eq, hc, hx]; rfl
    rw [DM.bind_error this]
  | ok x =>
    have : onOut E (.tGetItem i j) d = (.ok (.num x), d) := by rw [onOut_eq, hc, hx]; rfl
    rw [DM.bind_ok this]; rfl

theorem oset_fst {E : DEnv K} {d : Dice K} {o : OName} {lk : Bool} {l : List (Fl K)}
    (h : OV d o lk l) (hp : Pub d o l.length) (j : Int) (x : Fl K) :
    (oset E o j x d).1 = match pyIndex l.length j with
      | none => .error .indexError
      | some _ => .ok () := by
  obtain ⟨i, v, P, k1, k2, k3, k4, k5, k6, k7⟩ := id h
  have hs := h.synced k1
  have lk1 : M.look (fun s : St K GVal => s.tviews[i]?) d.out = (.ok v, d.out) := look_some k2
  unfold oset
  rw [DM.bind_ok (DM.attr_some k1)]
  have hc : call E.env (.tSetItem i [(j, x)]) d.out
      = (setItems E.env i [(j, x)] >>= fun _ => (pure Out.done : M K GVal (Out K GVal))) d.out := by
    show (readT i >>= fun _ => (setItems E.env i [(j, x)] >>= fun _ =>
      (pure Out.done : M K GVal (Out K GVal)))) d.out = _
    rw [M.bind_ok (readT_synced hs)]
  cases hn : pyIndex l.length j with
  | none =>
    have h1 : setItems E.env i [(j, x)] d.out = (.error .indexError, d.out) := by
      unfold setItems
      rw [M.bind_ok lk1, k3]
      simp only
      refine M.bind_error ?_
      unfold Arr.setItems
      simp only [List.map_cons, List.map_nil, pyIndices, Arr.length, hn]
      rfl
    have : onOut E (.tSetItem i [(j, x)]) d = (.error .indexError, d) := by
      rw [onOut_eq, hc, M.bind_error h1]
    rw [DM.bind_error this]
  | some n =>
    have h1 : setItems E.env i [(j, x)] d.out = writeT i (cached d.out i (.floats (l.set n x))) := by
      unfold setItems
      rw [M.bind_ok lk1, k3]
      simp only
      have e1 : (M.ofExcept (Arr.setItems E.env.trunc (.floats l) [(j, x)]) : M K GVal (Arr K)) d.out
          = (.ok (.floats (l.set n x)), d.out) := by
        unfold Arr.setItems
        simp only [List.map_cons, List.map_nil, pyIndices, Arr.length, hn]
        rfl
      rw [M.bind_ok e1]; rfl
    have hw := writeT_cases (i := i) (cached_view (d := .floats (l.set n x)) k2) rfl k4
    obtain ⟨q, hq⟩ := hp _ _ _ (OStat_of k1 k2 k4) (l.set n x) List.length_set
    have h2 : ∃ s', writeT i (cached d.out i (.floats (l.set n x))) = (.ok (), s') := by
      generalize hy : writeT i (cached d.out i (.floats (l.set n x))) = y at hw
      cases hw with
      | locked h' => exact ⟨_, rfl⟩
      | refused _ e he =>
        have he : v.leaf.ts.convertTo ((l.set n x).map (Fl.map v.leaf.conv.convertTo)) = .error e := he
        rw [hq] at he; simp at he
      | stored h' q he => exact ⟨_, rfl⟩
    obtain ⟨s', h2⟩ := h2
    have : onOut E (.tSetItem i [(j, x)]) d = (.ok .done, { d with out := s' }) := by
      rw [onOut_eq, hc, M.bind_ok (h1.trans h2)]; rfl
    rw [DM.bind_ok this]; rfl

theorem lock_fst {E : DEnv K} {d : Dice K} {o : OName} {lk : Bool} {l : List (Fl K)}
    (h : OV d o lk l) : (lockOutput E o d).1 = .ok () := by
  obtain ⟨i, v, P, k1, k2, k3, k4, k5, k6, k7⟩ := id h
  have lk1 : M.look (fun s : St K GVal => s.tviews[i]?) d.out = (.ok v, d.out) := look_some k2
  unfold lockOutput
  rw [DM.bind_ok (DM.attr_some k1)]
  have hc : call E.env (.tLock i) d.out
      = (.ok .done, d.out.setT i (fun v => { v with locked := true })) := by
    show (M.look (fun s : St K GVal => s.tviews[i]?) >>= fun _ =>
      (updTView i (fun v => { v with locked := true }) >>= fun _ =>
      (pure Out.done : M K GVal (Out K GVal)))) d.out = _
    rw [M.bind_ok lk1]; rfl
  have : onOut E (.tLock i) d
      = (.ok .done, { d with out := d.out.setT i (fun v => { v with locked := true }) }) := by
    rw [onOut_eq, hc]
  rw [DM.bind_ok this]; rfl

theorem unlock_fst {E : DEnv K} {d : Dice K} {o : OName} {lk : Bool} {l : List (Fl K)}
    (h : OV d o lk l) (hp : Pub d o l.length) : (unlockOutput E o d).1 = .ok () := by
  obtain ⟨i, v, P, k1, k2, k3, k4, k5, k6, k7⟩ := id h
  have lk1 : M.look (fun s : St K GVal => s.tviews[i]?) d.out = (.ok v, d.out) := look_some k2
  unfold unlockOutput
  rw [DM.bind_ok (DM.attr_some k1)]
  have hc : call E.env (.tUnlock i) d.out
      = (writeT i >>= fun _ => (pure Out.done : M K GVal (Out K GVal)))
        (d.out.setT i (fun v => { v with locked := false })) := by
    show (M.look (fun s : St K GVal => s.tviews[i]?) >>= fun _ =>
      (updTView i (fun v => { v with locked := false }) >>= fun _ =>
      (writeT i >>= fun _ => (pure Out.done : M K GVal (Out K GVal))))) d.out = _
    rw [M.bind_ok lk1]; rfl
  have hv : (d.out.setT i (fun v => { v with locked := false })).tviews[i]?
      = some { v with locked := false } := by rw [setT_self, k2]; rfl
  have hw := writeT_cases (i := i) hv k3 k4
  obtain ⟨q, hq⟩ := hp _ _ _ (OStat_of k1 k2 k4) l rfl
  have h2 : ∃ s', writeT i (d.out.setT i (fun v => { v with locked := false })) = (.ok (), s') := by
    generalize hy : writeT i (d.out.setT i (fun v => { v with locked := false })) = y at hw
    cases hw with
    | locked h' => exact ⟨_, rfl⟩
    | refused _ e he =>
      have he : v.leaf.ts.convertTo (l.map (Fl.map v.leaf.conv.convertTo)) = .error e := he
      rw [hq] at he; simp at he
    | stored h' q he => exact ⟨_, rfl⟩
  obtain ⟨s', h2⟩ := h2
  have : onOut E (.tUnlock i) d = (.ok .done, { d with out := s' }) := by
    rw [onOut_eq, hc, M.bind_ok h2]; rfl
  rw [DM.bind_ok this]; rfl

end Openscm
