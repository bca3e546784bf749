import Verif.RoundProps
import Verif.FrameInterp2
import Verif.CoreOptions
import Verif.CoreUnits

/-!
# C97: a frame and the parameter set made of it say the same about other times

What views of a parameter set made of a frame show, on any time points and in any unit, and that it is what
interpolating the frame gives.
-/

set_option linter.unusedSectionVars false

namespace Openscm
variable {K : Type} [Field K] [LinearOrder K] [IsStrictOrderedRing K]

/-! ## Specification -/

/-- The time points of a timeseries of kind `p` on the times of a frame: values of averages belong to the periods that
begin at the times, the last one being as long as the one before. -/
inductive Axis (times : List Int) : PType → List K → Prop
  | point : Axis times .point (times.map fun i : Int => (i : K))
  | average {m : List Int} : OneMore times m → Axis times .average (m.map fun i : Int => (i : K))

/-- Somebody asks for a view of the timeseries of variable `v` in region `g` and sees `out`. -/
def Sees (env : Env K) (s : St K (PyVal K)) (v g w : String) (tps : List K) (ty : TyArg) (int : IntArg) (ext : ExtArg)
    (out : List (Fl K)) : Prop :=
  ∃ j, result env s (.timeseries (.str v) w tps (.str g) ty int ext) = .ok (.view j) ∧
    result env (after env s [.timeseries (.str v) w tps (.str g) ty int ext]) (.tGet j) = .ok (.arr (.floats out))

/-! ## Lemmas -/

theorem timeseries_str {env : Env K} {s : St K (PyVal K)} {v g w : String} {tps : List K} {ty : TyArg} {int : IntArg}
    {ext : ExtArg} : call env (.timeseries (.str v) w tps (.str g) ty int ext) s =
      call env (.timeseries (.seq (splitName v)) w tps (.seq (splitName g)) ty int ext) s := rfl

theorem sees_iff {env : Env K} {s : St K (PyVal K)} {v g w : String} {tps : List K} {ty : TyArg} {int : IntArg}
    {ext : ExtArg} {out : List (Fl K)} : Sees env s v g w tps ty int ext out ↔
      freshRead env s (splitName g, splitName v) w tps ty int ext = .ok (.arr (.floats out)) := by
  have ha : after env s [.timeseries (.str v) w tps (.str g) ty int ext] =
      after env s [.timeseries (.seq (splitName v)) w tps (.seq (splitName g)) ty int ext] := by
    rw [after_one, after_one, timeseries_str]
  have hr : result env s (.timeseries (.str v) w tps (.str g) ty int ext) =
      result env s (.timeseries (.seq (splitName v)) w tps (.seq (splitName g)) ty int ext) := by
    unfold result; rw [timeseries_str]
  unfold Sees freshRead
  rw [ha, hr]
  simp only
  have hview : ∀ o, result env s (.timeseries (.seq (splitName v)) w tps (.seq (splitName g)) ty int ext) = .ok o →
      ∃ j, o = .view j := by
    intro o ho
    have : (timeseriesCall env (.seq (splitName v)) w tps (.seq (splitName g)) ty int ext >>=
      fun i => pure (Out.view i : Out K (PyVal K))) s = (.ok o, (call env
      (.timeseries (.seq (splitName v)) w tps (.seq (splitName g)) ty int ext) s).2) := Prod.ext ho rfl
    obtain ⟨j, s2, _, h⟩ := M.bind_inv this
    exact ⟨j, (Except.ok.inj (Prod.mk.inj h).1).symm⟩
  generalize result env s (.timeseries (.seq (splitName v)) w tps (.seq (splitName g)) ty int ext) = R at hview
  constructor
  · rintro ⟨j, rfl, h⟩
    exact h
  · cases R with
    | error e => intro h; cases h
    | ok o =>
      obtain ⟨j, rfl⟩ := hview o rfl
      intro h
      exact ⟨j, rfl, h⟩

theorem axis_iff {times : List Int} {p : PType} {pts : List K} (hp : p = .average ∨ p = .point) :
    Axis times p pts ↔ ∃ m, seriesPoints times p = .ok m ∧ pts = toK m := by
  unfold seriesPoints
  rcases hp with rfl | rfl
  · rw [if_pos rfl]
    constructor
    · rintro ⟨⟩
      rename_i m h
      exact ⟨m, h.extend, rfl⟩
    · rintro ⟨m, h, rfl⟩
      exact .average (extendPoints_ok h)
  · rw [if_neg (by simp)]
    constructor
    · rintro ⟨⟩
      exact ⟨times, rfl, rfl⟩
    · rintro ⟨m, h, rfl⟩
      cases h
      exact .point

theorem seriesType_typeIs {reg : Registry K} {F : DFrame K} (hF : F.Ok) {i : Nat} {r : Nat × List (PyVal K)}
    (hr : F.meta[i]? = some r) {v u : String} (hv : F.HasMeta i "variable" (.str v))
    (hu : F.HasMeta i "unit" (.str u)) {p : PType} (h : seriesType reg F.cols r.2 v u = .ok p) :
    ∃ w, TypeIs reg true F i (.str w) ∧ ("parameter_type" ∈ F.cols → ∀ b, TypeIs reg b F i (.str w)) ∧ KindWord w p := by
  unfold seriesType at h
  split at h
  · rename_i hc
    split at h
    · rename_i t ht
      have hm : F.HasMeta i "parameter_type" (.str t) := (hasMeta_iff hF).2 ⟨r, hr, hc, ht⟩
      exact ⟨t, .given hm (by simp), fun _ b => .given hm (by simp), kindWord_iff.2 h⟩
    · cases h
  · rename_i hc
    cases h
    refine ⟨_, .guessed rfl (.inl hc) hv hu, fun h => absurd h hc, ?_⟩
    rcases guess_two reg v (some u) with e | e <;> rw [e]
    · exact .average ((toLower_anyCase (by decide)).1 (by decide +kernel))
    · exact .point ((toLower_anyCase (by decide)).1 (by decide +kernel))

/-- What views show of a parameter that holds numbers. -/
theorem freshOf_series {env : Env K} {P : Param K (PyVal K)} {t : PType} {u : String} {src : List K} {xs : List K}
    (hw : P.written = true) (h1 : P.ptype = some t) (h2 : P.unit = some u) (h3 : P.tps = some src)
    (h4 : P.data = .series (xs.map .num)) {w : String} {tps : List K} {ty : TyArg} {int : IntArg} {ext : ExtArg}
    {out : List (Fl K)} :
    freshOf env P w tps ty int ext = .ok (.arr (.floats out)) ↔
      MeansType ty t ∧ MeansInt int ∧ ∃ e a b c, MeansExt ext e ∧ env.units u = some a ∧ env.units w = some b ∧
        a.dim = b.dim ∧ mkTSConv src tps t e = .ok c ∧ c.convertFrom ((xs.map (pintTo a b)).map .num) = .ok out := by
  have hconv : ∀ c, mkConvOpt env.units (some u) w = .ok c → ∃ a b, env.units u = some a ∧ env.units w = some b ∧
      a.dim = b.dim ∧ (xs.map Fl.num).map (Fl.map c.convertFrom) = (xs.map (pintTo a b)).map .num := by
    intro c hc
    obtain ⟨s, t, k1, k2, k3, _, _, k4, k5⟩ := mkConv_ok (show mkConv env.units u w = .ok c from hc)
    refine ⟨s, t, k1, k2, k3, ?_⟩
    rw [List.map_map, List.map_map]
    refine List.map_congr_left fun x _ => ?_
    have := s.scale_ne; have := t.scale_ne
    simp only [Function.comp, Fl.map, Conv.convertFrom, pintTo, UDef.toBase, UDef.ofBase, k4, k5]
    congr 1
    field_simp; ring
  unfold freshOf
  rw [h1, h2, h3, h4, hw]
  constructor
  · intro h
    cases e1 : ty.parse with
    | error e => rw [e1] at h; cases h
    | ok t' =>
    cases e2 : int.parse with
    | error e => rw [e1, e2] at h; cases h
    | ok y =>
    cases e3 : ext.parse with
    | error e => rw [e1, e2, e3] at h; cases h
    | ok x =>
    rw [e1, e2, e3] at h
    simp only [bind, Except.bind] at h
    by_cases htt : t = t'
    · subst htt
      rw [if_neg (by simp)] at h
      cases e4 : mkConvOpt env.units (some u) w with
      | error e => rw [e4] at h; cases h
      | ok c =>
      rw [e4] at h
      simp only at h
      cases e5 : mkTSConv src tps t x with
      | error e => rw [e5] at h; cases h
      | ok ts =>
      rw [e5] at h
      simp only [Bool.not_true, Bool.false_eq_true, if_false] at h
      obtain ⟨a, b, k1, k2, k3, k4⟩ := hconv c e4
      rw [k4] at h
      refine ⟨parse_type.1 e1, parse_int.1 ⟨y, e2⟩, x, a, b, ts, parse_ext.1 e3, k1, k2, k3, e5, ?_⟩
      cases e6 : ts.convertFrom ((xs.map (pintTo a b)).map .num) with
      | error e => rw [e6] at h; cases h
      | ok r =>
        rw [e6] at h
        simp only [Except.map, Except.ok.injEq, Out.arr.injEq, Arr.floats.injEq] at h
        rw [h]
    · rw [if_pos (by simpa using htt)] at h; cases h
  · rintro ⟨hty, hint, e, a, b, ts, hext, k1, k2, k3, k4, k5⟩
    obtain ⟨y, hy⟩ := parse_int.2 hint
    rw [parse_type.2 hty, hy, parse_ext.2 hext]
    simp only [bind, Except.bind, ne_eq, not_true_eq_false, if_false]
    obtain ⟨c, hc⟩ : ∃ c, mkConvOpt env.units (some u) w = .ok c := by
      simp only [mkConvOpt, mkConv, k1, k2, if_pos k3]
      exact ⟨_, rfl⟩
    rw [hc]
    simp only [k4, Bool.not_true, Bool.false_eq_true, if_false]
    obtain ⟨a', b', l1, l2, _, l4⟩ := hconv c hc
    rw [k1] at l1; cases l1
    rw [k2] at l2; cases l2
    rw [l4, k5]
    rfl

/-- What the parameter set holds of a row. -/
theorem loaded_param {env : Env K} {F : DFrame K} (h : F.Tidy) {s : St K (PyVal K)}
    (hto : toParameterset env F (St.init "World") = (.ok (), s)) {i : Nat} {v g u : String} {vals : List (Fl K)}
    (hrow : F.IsRow i v g u vals) :
    ∃ (q : Nat) (P : Param K (PyVal K)) (r : Nat × List (PyVal K)) (t : PType) (tps : List Int) (xs : List K),
      Inv env s ∧ F.meta[i]? = some r ∧ vals = xs.map .num ∧
      seriesType env.units F.cols r.2 v u = .ok t ∧ seriesPoints F.times t = .ok tps ∧
      HasKey s q (splitName g, splitName v) ∧ s.params[q]? = some P ∧ P.written = true ∧ P.children = [] ∧
      P.ptype = some t ∧ P.unit = some u ∧ P.tps = some (toK tps) ∧ P.data = .series (xs.map .num) ∧
      ∃ a, env.units u = some a := by
  have hd : ∀ d ∈ F.data, ∃ xs : List K, d.2 = xs.map .num := fun d hd => nums_of (h.nums d hd)
  obtain ⟨hs, L, hL, ha, hb, hex, _⟩ := toParameterset_holds h.sorted hd h.distinct hto
  have hi := hs.inv
  obtain ⟨_, hg, _, d, d1, _⟩ := id hrow
  obtain ⟨e, he⟩ := hex d (List.mem_of_getElem? d1)
  obtain ⟨r, v', g', u', t, tps, xs, m1, m2, m3, m4, rfl⟩ := rowItem_at h.ok d1 he
  obtain ⟨rfl, rfl, rfl, rfl⟩ := IsRow.unique h.ok hrow m2
  have hin := (ha (_, Item.series t u (toK tps) xs) trivial).2 ⟨d, List.mem_of_getElem? d1, he⟩
  obtain ⟨p, P, p1, p2, p3, p4⟩ := hL.items _ hin
  have hch := ((hi.good.params p P p2).1 p3).1
  obtain ⟨q1, q2, q3, q4, q5⟩ := p4
  obtain ⟨_, _, _, a, _, _, _, ha, _⟩ := (freshOf_series p3 q1 q2 q3 q5).1 q4
  exact ⟨p, P, r, t, tps, xs, hi, m1, rfl, m3, m4, p1, p2, p3, hch, q1, q2, q3, q5, a, ha⟩

/-! ## C97 -/

/-- C97: what a view of the parameter set shows of a timeseries of the frame. The timeseries has one type, the one the
metadata says or name and unit suggest, and a view shows something exactly if it is asked for with that type and a
compatible unit and on time points to which the values of the frame, in the unit asked for, can be converted; it shows
what the conversion gives. -/
theorem C97_loaded {env : Env K} {F : DFrame K} (h : F.Tidy) {s : St K (PyVal K)}
    (hto : toParameterset env F (St.init "World") = (.ok (), s)) {i : Nat} {v g u : String} {vals : List (Fl K)}
    (hrow : F.IsRow i v g u vals) :
    ∃ (k : String) (p : PType) (src xs : List K), TypeIs env.units true F i (.str k) ∧ KindWord k p ∧
      Axis F.times p src ∧ vals = xs.map .num ∧
      ∀ (w : String) (tps : List K) (ty : TyArg) (int : IntArg) (ext : ExtArg) (out : List (Fl K)),
        Sees env s v g w tps ty int ext out ↔
          MeansType ty p ∧ MeansInt int ∧ ∃ e a b c, MeansExt ext e ∧ env.units u = some a ∧ env.units w = some b ∧
            a.dim = b.dim ∧ mkTSConv src tps p e = .ok c ∧
            c.convertFrom ((xs.map (pintTo a b)).map .num) = .ok out := by
  obtain ⟨q, P, r, t, tps0, xs, hi, m1, hx, m2, m3, m4, m5, m6, m7, m8, m9, m10, m11, a0, ha0⟩ := loaded_param h hto hrow
  obtain ⟨k, k1, _, k3⟩ := seriesType_typeIs h.ok m1 hrow.1 hrow.2.2.1 m2
  refine ⟨k, t, toK tps0, xs, k1, k3, (axis_iff k3.kind).2 ⟨_, m3, rfl⟩, hx, fun w tps ty int ext out => ?_⟩
  rw [sees_iff, freshRead_eq hi m4 m5 (by rw [m8]; simp) m7, freshOf_series m6 m8 m9 m10 m11]

/-- C97: if the frame can be interpolated to other times, then the parameter set made of it shows, in views on these
times, the values of the interpolated frame; in another unit it shows them converted. -/
theorem C97_interpolated {env : Env K} {views : Bool} {F G : DFrame K} (h : F.Tidy)
    (hr : ∀ c ∈ requiredCols, c ∈ F.cols) {s : St K (PyVal K)}
    (hto : toParameterset env F (St.init "World") = (.ok (), s)) {target : List Int} {ext : Extrap}
    (hG : F.interpolate env.units views target ext = .ok G) (hv : views = true ∨ "parameter_type" ∈ F.cols)
    {i : Nat} {v g u : String} {new : List (Fl K)} (hrow : G.IsRow i v g u new) :
    ∃ (p : PType) (pts : List K), G.HasMeta i "parameter_type" (.str (typeText p)) ∧ Axis target p pts ∧
      Sees env s v g u pts (.enum p) (.enum .linear) (.enum ext) new ∧
      ∀ w a b, env.units u = some a → env.units w = some b → a.dim = b.dim →
        Sees env s v g w pts (.enum p) (.enum .linear) (.enum ext) (new.map (Fl.map (pintTo a b))) := by
  obtain ⟨gok, gt, gl, gm, gd⟩ := C56_placed_partial h.ok hr hG
  obtain ⟨n1, n2, n3, dn, n4, n5⟩ := id hrow
  have hlen : i < F.data.length := by
    have := congrArg List.length gl
    simp only [List.length_map] at this
    rw [← this]
    exact (List.getElem?_eq_some_iff.1 n4).1
  have hold := List.getElem?_eq_getElem hlen
  have hrowF : F.IsRow i v g u F.data[i].2 := ⟨(gm i _ _ (by decide)).1 n1, (gm i _ _ (by decide)).1 n2,
    (gm i _ _ (by decide)).1 n3, _, hold, rfl⟩
  obtain ⟨q, P, r, t, tps0, xs, hi, m1, hx, m2, m3, m4, m5, m6, m7, m8, m9, m10, m11, a0, ha0⟩ := loaded_param h hto hrowF
  obtain ⟨k, k1, k2, k3⟩ := seriesType_typeIs h.ok m1 hrowF.1 hrowF.2.2.1 m2
  have hk : TypeIs env.units views F i (.str k) := by
    rcases hv with rfl | hv
    · exact k1
    · exact k2 hv views
  obtain ⟨new', e1, e2⟩ := gd i _ hold
  rw [n4] at e1; cases e1
  rcases e2 with ⟨w', p, t1, t2, t3, t4⟩ | ⟨v', t1, t2, _⟩
  · have := hk.unique h.ok t1
    cases this
    have hpt : p = t := by
      have a1 := kindWord_iff.1 t2
      have a2 := kindWord_iff.1 k3
      rw [a1] at a2; exact Except.ok.inj a2
    subst hpt
    have key : ∃ (pts : List K) (c : TSConv K), Axis target p pts ∧ mkTSConv (toK tps0) pts p ext = .ok c ∧
        c.convertFrom (xs.map .num) = .ok new := by
      rw [hx] at t4
      rw [← n5]
      cases t4 with
      | point a1 a2 =>
        have : tps0 = F.times := by
          unfold seriesPoints at m3
          rw [if_neg (by simp)] at m3
          exact (Except.ok.inj m3).symm
        subst this
        exact ⟨_, _, .point, a1, a2⟩
      | average a1 a2 a3 a4 =>
        unfold seriesPoints at m3
        rw [if_pos rfl, a1.extend] at m3
        cases m3
        exact ⟨_, _, .average a2, a3, a4⟩
    obtain ⟨pts, c, b1, b2, b3⟩ := key
    have hid : ∀ x, pintTo a0 a0 x = x := by
      intro x
      have := a0.scale_ne
      simp only [pintTo, UDef.toBase, UDef.ofBase]
      field_simp; ring
    have hkind : MeansType (.enum p) p := ⟨rfl, k3.kind.symm⟩
    have hown : freshOf env P u pts (.enum p) (.enum .linear) (.enum ext) = .ok (.arr (.floats new)) := by
      rw [freshOf_series m6 m8 m9 m10 m11]
      refine ⟨hkind, trivial, ext, a0, a0, c, rfl, ha0, ha0, rfl, b2, ?_⟩
      rw [show xs.map (pintTo a0 a0) = xs by rw [List.map_congr_left (fun x _ => hid x)]; simp]
      exact b3
    refine ⟨p, pts, t3, b1, ?_, fun w a b ha hb hab => ?_⟩ <;>
      rw [sees_iff, freshRead_eq hi m4 m5 (by rw [m8]; simp) m7]
    · exact hown
    rw [freshOf_unit P ha hb hab, hown]
    rfl
  · have := hk.unique h.ok t1
    subst this
    cases t2

/-- C97: the other way round. If views of the parameter set on the new times show something of each timeseries and no
average comes before another type in the alphabet, then the frame can be interpolated to these times. -/
theorem C97_works {env : Env K} {views : Bool} {F : DFrame K} (h : F.Tidy)
    (hr : ∀ c ∈ requiredCols, c ∈ F.cols) {s : St K (PyVal K)}
    (hto : toParameterset env F (St.init "World") = (.ok (), s)) {target : List Int} {ext : Extrap}
    (hv : views = true ∨ "parameter_type" ∈ F.cols)
    (hsee : ∀ i v g u vals, F.IsRow i v g u vals → ∃ p pts out, Axis target p pts ∧
      Sees env s v g u pts (.enum p) (.enum .linear) (.enum ext) out)
    (ho : ∀ i j a b, TypeIs env.units views F i (.str a) → TypeIs env.units views F j (.str b) →
      AnyCase a "average" → ¬ a < b) :
    ∃ G, F.interpolate env.units views target ext = .ok G := by
  refine C56_works h.ok hr (fun i old hold => ?_) ho
  have hd : ∀ d ∈ F.data, ∃ xs : List K, d.2 = xs.map .num := fun d hd => nums_of (h.nums d hd)
  obtain ⟨_, L, _, _, _, hex, _⟩ := toParameterset_holds h.sorted hd h.distinct hto
  obtain ⟨e, he⟩ := hex old (List.mem_of_getElem? hold)
  obtain ⟨_, v, g, u, _, _, xs', _, hrow, _⟩ := rowItem_at h.ok hold he
  obtain ⟨p, pts, out, hax, hs⟩ := hsee i v g u _ hrow
  obtain ⟨q, P, r, t, tps0, xs, hi, m1, hx, m2, m3, m4, m5, m6, m7, m8, m9, m10, m11, a0, ha0⟩ := loaded_param h hto hrow
  obtain ⟨k, k1, k2, k3⟩ := seriesType_typeIs h.ok m1 hrow.1 hrow.2.2.1 m2
  have hk : TypeIs env.units views F i (.str k) := by
    rcases hv with rfl | hv
    · exact k1
    · exact k2 hv views
  rw [sees_iff, freshRead_eq hi m4 m5 (by rw [m8]; simp) m7, freshOf_series m6 m8 m9 m10 m11] at hs
  obtain ⟨⟨rfl, _⟩, _, e, a, b, c, he, ha, hb, _, hc, hout⟩ := hs
  have he : ext = e := he
  subst he
  rw [ha] at hb; cases hb
  have hid : ∀ x, pintTo a a x = x := by
    intro x
    have := a.scale_ne
    simp only [pintTo, UDef.toBase, UDef.ofBase]
    field_simp; ring
  rw [show xs.map (pintTo a a) = xs by rw [List.map_congr_left (fun x _ => hid x)]; simp] at hout
  refine ⟨k, p, out, hk, k3, ?_⟩
  obtain ⟨_, _, _, d, d1, d2⟩ := hrow
  rw [hold] at d1; cases d1
  rw [d2, hx]
  cases hax with
  | point =>
    unfold seriesPoints at m3
    rw [if_neg (by simp)] at m3
    cases m3
    exact .point hc hout
  | average h1 =>
    unfold seriesPoints at m3
    rw [if_pos rfl] at m3
    exact .average (extendPoints_ok m3) h1 hc hout

/-! ## Examples -/

/-- `rtF` with two averages in two units. -/
def loadF : DFrame ℚ :=
  { rtF "World|x" with
    «meta» := [(0, [.str "m", .str "s", .str "World", .str "a|T", .str "K", .int 3, .str "unspecified", .none,
                 .str "average"]),
               (1, [.str "m", .str "s", .str "World|x", .str "a|T", .str "mK", .int 3, .str "unspecified", .none,
                 .str "average"])] }

/-- What is seen of the parameter set made of the frame. -/
def seenOf (F : DFrame ℚ) (v g w : String) (tps : List ℚ) (p : PType) (ext : Extrap) : Option (List (Fl ℚ)) :=
  let s := (toParameterset demoEnv F (St.init "World")).2
  match result demoEnv s (.timeseries (.str v) w tps (.str g) (.enum p) (.enum .linear) (.enum ext)) with
  | .ok (.view j) =>
    match result demoEnv (after demoEnv s [.timeseries (.str v) w tps (.str g) (.enum p) (.enum .linear) (.enum ext)]) (.tGet j) with
    | .ok (.arr (.floats l)) => some l
    | _ => none
  | _ => none

/-- Hypotheses and effect of `C97_loaded`: mixed types. -/
example : (rtF "World|x").Tidy ∧ (toParameterset demoEnv (rtF "World|x") (St.init "World")).1 = .ok () ∧
    (rtF "World|x").IsRow 0 "a|T" "World" "K" [.num 1, .num 2, .num 3, .num 4] ∧
    seenOf (rtF "World|x") "a|T" "World" "mK" [5, 12, 40] .point .linear = some [.num 1500, .num 2200, .num 5000] ∧
    seenOf (rtF "World|x") "a|T" "World" "mK" [5, 12, 40] .average .linear = none := by
  refine ⟨rtF_tidy (by decide), by decide +kernel, ⟨⟨3, _, rfl, rfl, rfl⟩, ⟨2, _, rfl, rfl, rfl⟩, ⟨4, _, rfl, rfl, rfl⟩,
    _, rfl, rfl⟩, by decide +kernel, by decide +kernel⟩

theorem loadF_tidy : loadF.Tidy := by
  have h := rtF_tidy (r := "World|x") (by decide)
  refine ⟨⟨by decide +kernel, by decide +kernel, by decide +kernel, by decide +kernel, by decide +kernel⟩, h.sorted, h.two,
    h.nums, ?_⟩
  have reg : ∀ {i : Nat} {v : PyVal ℚ}, loadF.HasMeta i "region" v → i = 0 ∧ v = .str "World" ∨ i = 1 ∧ v = .str "World|x" := by
    rintro i v ⟨k, row, hk, hrow, hv⟩
    have hk2 : k = 2 := by
      have hl := (List.getElem?_eq_some_iff.1 hk).1
      have hall : ∀ k < loadF.cols.length, loadF.cols[k]? = some "region" → k = 2 := by decide +kernel
      exact hall k hl hk
    subst hk2
    match i, hrow with
    | 0, hrow => left; cases hrow; cases hv; exact ⟨rfl, rfl⟩
    | 1, hrow => right; cases hrow; cases hv; exact ⟨rfl, rfl⟩
    | i + 2, hrow => simp [loadF] at hrow
  intro i j v g _ h1 _ h2
  rcases reg h1 with ⟨rfl, rfl⟩ | ⟨rfl, rfl⟩ <;> rcases reg h2 with ⟨rfl, h⟩ | ⟨rfl, h⟩ <;>
    first | rfl | exact absurd h (by decide)

/-- Hypotheses and effect of `C97_interpolated`. -/
example : loadF.Tidy ∧ (∀ c ∈ requiredCols, c ∈ loadF.cols) ∧ "parameter_type" ∈ loadF.cols ∧
    (toParameterset demoEnv loadF (St.init "World")).1 = .ok () ∧
    (loadF.interpolate demoEnv.units true [0, 20, 30] .constant).map (fun G => G.data.map (·.2)) =
      .ok [[.num (3 / 2), .num 3, .num 4], [.num (11 / 2), .num 8, .num 7]] ∧
    seenOf loadF "a|T" "World" "K" [0, 20, 30, 40] .average .constant = some [.num (3 / 2), .num 3, .num 4] ∧
    seenOf loadF "a|T" "World|x" "K" [0, 20, 30, 40] .average .constant =
      some [.num (11 / 2000), .num (8 / 1000), .num (7 / 1000)] :=
  ⟨loadF_tidy, by decide +kernel, by decide +kernel, by decide +kernel, by decide +kernel, by decide +kernel, by decide +kernel⟩

/-- C97, why `C97_works` needs the order: the views of the parameter set show both timeseries on the new times, but the
frame cannot be interpolated because it has points and averages. -/
theorem C97_mixed : (toParameterset demoEnv (rtF "World|x") (St.init "World")).1 = .ok () ∧
    seenOf (rtF "World|x") "a|T" "World" "K" [0, 20, 30] .point .constant = some [.num 1, .num 3, .num 4] ∧
    seenOf (rtF "World|x") "a|T" "World|x" "mK" [0, 20, 30, 40] .average .constant =
      some [.num (11 / 2), .num 8, .num 7] ∧
    ∃ e, (rtF "World|x").interpolate demoEnv.units true [0, 20, 30] .constant = .error e := by
  refine ⟨by decide +kernel, by decide +kernel, by decide +kernel, ?_⟩
  cases hE : (rtF "World|x").interpolate demoEnv.units true [0, 20, 30] .constant with
  | error e => exact ⟨e, rfl⟩
  | ok G =>
    exact absurd hE (C56_mixed (rtF_tidy (by decide)).ok (by decide +kernel) (i := 1) (j := 0)
      (.given ⟨8, _, rfl, rfl, rfl⟩ (by simp)) (.given ⟨8, _, rfl, rfl, rfl⟩ (by simp)))

end Openscm
