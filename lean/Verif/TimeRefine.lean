import Verif.CoreProps10
import Verif.TimeRange
import Verif.TimeAffine

/-!
# C76 for parameters: storing on more time points loses nothing
-/

set_option linter.unusedSectionVars false

namespace Openscm
variable {K G : Type} [Field K] [LinearOrder K] [IsStrictOrderedRing K]

/-- **C76** for arrays: to time points that include the given ones, and back. -/
theorem C76_convert {ty : PType} (hty : ty = .point ∨ ty = .average) {ext : Extrap} {src tgt vs : List K}
    {r : List (Fl K)} (h3 : 3 ≤ vs.length) (hl : pointsLength ty src = vs.length)
    (hsrc : src.Pairwise (· < ·)) (htgt : tgt.Pairwise (· < ·)) (hsub : ∀ t ∈ src, t ∈ tgt)
    (h : convert ty ext src tgt (vs.map .num) = .ok r) :
    ∃ ys : List K, r = ys.map .num ∧ ∀ ext', convert ty ext' tgt src (ys.map .num) = .ok (vs.map .num) := by
  unfold convert at h ⊢
  simp only [Fl.allNum_map_num] at h ⊢
  rcases hty with rfl | rfl
  · obtain ⟨ys, hr, hb⟩ := C76_point (ext' := .none) h3 hl hsrc htgt hsub h
    refine ⟨ys, hr, fun ext' => ?_⟩
    obtain ⟨ys', hr', hb'⟩ := C76_point (ext' := ext') h3 hl hsrc htgt hsub h
    obtain rfl : ys = ys' := List.map_injective_iff.2 (fun a b h => by injection h) (hr ▸ hr')
    exact hb'
  · have hl' : src.length = vs.length + 1 := by
      simp only [pointsLength] at hl
      omega
    obtain ⟨ys, hr, hb⟩ := C76_average (ext' := .none) h3 hl' hsrc htgt hsub h
    refine ⟨ys, hr, fun ext' => ?_⟩
    obtain ⟨ys', hr', hb'⟩ := C76_average (ext' := ext') h3 hl' hsrc htgt hsub h
    obtain rfl : ys = ys' := List.map_injective_iff.2 (fun a b h => by injection h) (hr ▸ hr')
    exact hb'

/-- **C76** for parameters: what is assigned through a view on time points that are among those the
parameter is stored on is what any view on the same time points, obtained later, in any unit and
with any extrapolation, shows, converted as pint does, as long as nothing else is stored in
between.  Nothing is lost in storing it on more time points. -/
theorem C76_view {env : Env K} {root : String} {pre post : List (Op K G)} {req : Op K G}
    {k : Key} {tps0 tps : List K} (hfirst : FirstRequest env root pre k req)
    (htps : asksPoints req = some tps0) (hsort0 : tps0.Pairwise (· < ·))
    (hsort : tps.Pairwise (· < ·)) (hsub : ∀ t ∈ tps, t ∈ tps0)
    {i : Nat} {n1 r1 : HName} {w1 : String} {ty1 : TyArg} {in1 : IntArg} {ex1 : ExtArg}
    (h1 : Obtained env root pre i (.timeseries n1 w1 tps r1 ty1 in1 ex1))
    (hk1 : k = (r1.parts, n1.parts))
    {xs : List K} (hx : 3 ≤ xs.length)
    (hne : versionAt env (after env (St.init root) (pre ++ [.tSet i (.floats (xs.map .num))])) k
      ≠ versionAt env (after env (St.init root) pre) k)
    {j : Nat} {n2 r2 : HName} {w2 : String} {ty2 : TyArg} {in2 : IntArg} {ex2 : ExtArg}
    (h2 : result env (after env (St.init root) (pre ++ .tSet i (.floats (xs.map .num)) :: post))
      (.timeseries n2 w2 tps r2 ty2 in2 ex2) = .ok (.view j))
    (hk2 : k = (r2.parts, n2.parts))
    (hver : versionAt env (after env (St.init root)
        (pre ++ .tSet i (.floats (xs.map .num)) :: post ++ [.timeseries n2 w2 tps r2 ty2 in2 ex2])) k
      = versionAt env (after env (St.init root) (pre ++ [.tSet i (.floats (xs.map .num))])) k) :
    ∃ a b, env.units w1 = some a ∧ env.units w2 = some b ∧
      result env (after env (St.init root)
        (pre ++ .tSet i (.floats (xs.map .num)) :: post ++ [.timeseries n2 w2 tps r2 ty2 in2 ex2]))
        (.tGet j) = .ok (.arr (.floats (xs.map fun x => .num (pintTo a b x)))) := by
  set wr : Op K G := .tSet i (.floats (xs.map .num)) with hwr
  set op2 : Op K G := .timeseries n2 w2 tps r2 ty2 in2 ex2 with hop2
  -- the three states
  have hi0 := after_inv (K := K) (G := G) pre (Inv.init env root)
  obtain ⟨v1, hv1, hkv1, ht1, hts1⟩ := obtained_view h1
  rw [← hk1] at hkv1
  have happ1 : after env (St.init root : St K G) (pre ++ [wr]) = after env (after env (St.init root) pre) [wr] := by
    rw [after_append]
  have happ2 : after env (St.init root : St K G) (pre ++ wr :: post ++ [op2])
      = after env (after env (St.init root) (pre ++ [wr])) (post ++ [op2]) := by
    rw [← after_append]; simp
  have happ3 : after env (St.init root : St K G) (pre ++ wr :: post ++ [op2])
      = (call env op2 (after env (St.init root) (pre ++ wr :: post))).2 := by
    rw [after_append, after_one]
  -- stored time points
  obtain ⟨P0, hp0, _⟩ := id hkv1
  have hP0 : P0.tps = some tps0 := by
    obtain ⟨a, b, i', name, region, t, rfl, e1, rfl, e3, e4, e5⟩ := hfirst
    obtain ⟨p, P, g1, g2, g3, g4, g5⟩ := C04_first_view ⟨root, a, rfl⟩ e1 e3 e4 e5
    have hi1 := after_inv (K := K) (G := G) [req] (after_inv a (Inv.init env root))
    have : after env (St.init root : St K G) (a ++ req :: b)
        = after env (after env (after env (St.init root) a) [req]) b := by
      rw [← after_append, ← after_append]; simp
    rw [this] at hp0 hkv1 hi0
    have hk' := after_key hi1 b g1
    obtain rfl := hk'.inj hi0.tree hkv1
    obtain ⟨P', hP', hle⟩ := after_pext b hi1 _ P g2
    rw [hp0] at hP'; cases hP'
    exact hle.tps _ (g5.trans htps)
  -- the write
  have hvk : viewKey env (after env (St.init root) pre) (.t i) = some k :=
    (viewKey_some hi0).2 ⟨_, _, by simp only [viewTarget, hv1]; rfl, hkv1⟩
  rw [happ1] at hne hver happ2
  obtain ⟨P1, hp1, hle1⟩ := after_pext [wr] hi0 _ P0 hp0
  have hi1 := after_inv [wr] hi0
  have hkw := after_key hi0 [wr] hkv1
  obtain ⟨v, d, hv, hkv, hW, hd, _⟩ := wrote_of_version hi0 (op := wr) rfl hvk hne
  rw [hv1] at hv; cases hv
  have hdv : d.vals = xs.map .num := hd _ rfl
  have hwritten : P1.written = true := by
    have hv' := hne
    rw [after_one] at hv' hp1
    rw [versionAt_of hi0.tree hkv1 hp0, versionAt_of (call_inv wr hi0).tree
      (by have := hkw; rwa [after_one] at this) hp1] at hv'
    obtain ⟨o, ho, _⟩ := version_changed hi0 (op := wr) rfl hv1 hp0 hp1 (by simpa using hv')
    have hdone : result env (after env (St.init root) pre) wr = .ok .done := by
      unfold result
      rw [ho]
      have := ho
      rw [hwr, tSet_eq] at this
      have h1 := this
      simp only at h1
      cases hq : (setValues i (.floats (xs.map .num)) (after env (St.init root : St K G) pre)).1 with
      | error e => rw [hq] at h1; exact absurd h1 (by simp [Except.map])
      | ok x => rw [hq] at h1; exact h1.symm
    obtain ⟨I, hI, he⟩ := C05_assigned ⟨root, pre, rfl⟩ (op := wr)
      (Or.inr (Or.inr ⟨i, _, rfl, rfl⟩)) hvk hdone
    obtain ⟨p, P, q1, q2, rfl⟩ := (infoAt_some hi1.tree).1 hI
    obtain rfl := q1.inj hi1.tree hkw
    rw [after_one, hp1] at q2; cases q2
    simpa using he
  obtain ⟨u1, Q1, l, m1, m2, m3, m4, m5, m6⟩ := hW
  obtain ⟨u', hu', hst⟩ := after_tview hi0 [wr] hv1
  rw [m1] at hu'; cases hu'
  have hs : u1.leaf.stat = v1.leaf.stat := congrArg Prod.fst hst
  simp only [TLeaf.stat, Prod.mk.injEq] at hs
  obtain ⟨s1, s2, s3⟩ := hs
  rw [s1, hp1] at m3; cases m3
  -- the second view
  have hi2 := after_inv (K := K) (G := G) (pre ++ wr :: post) (Inv.init env root)
  obtain ⟨p, v2, ty', int', ext', _, _, _, hkp, hv2, hmk⟩ := timeseries_ok hi2 h2
  rw [← hk2, ← hop2, ← happ3] at hkp
  rw [← hop2, ← happ3] at hv2 hmk
  have hi3 := after_inv (K := K) (G := G) (pre ++ wr :: post ++ [op2]) (Inv.init env root)
  rw [happ2] at hkp hv2 hmk hi3 hver ⊢
  obtain rfl := (after_key hi1 (post ++ [op2]) hkw).inj hi3.tree hkp
  obtain ⟨P2, hp2, hle2⟩ := after_pext (post ++ [op2]) hi1 _ P1 hp1
  rw [versionAt_of hi1.tree hkw hp1, versionAt_of hi3.tree hkp hp2] at hver
  have hty1 : P1.ptype ≠ none := by
    obtain ⟨Q, hQ, hQt, _⟩ := (hi1.good.tviews i u1 m1).ex
    rw [s1, hp1] at hQ; cases hQ; simp [hQt]
  have hdata := after_data hi1 hp1 hty1 hp2 (by simpa using hver)
  have hch : P2.children = [] := ((hi3.good.params _ P2 hp2).1 (hle2.written hwritten)).1
  have hl2 : v2.leaf.param = v1.leaf.param ∧ v2.leaf.data = none ∧ v2.leaf.conv.target = w2 ∧
      v2.leaf.ts.target = tps := by
    unfold mkTView at hmk
    rw [hp2] at hmk
    simp only [hch, if_true] at hmk
    split at hmk
    · simp at hmk
    · rename_i l2 hl2
      injection hmk with hmk; subst hmk
      have hl3 := hl2
      obtain ⟨q1, q2, _⟩ := mkTLeaf_tps hl3
      refine ⟨q1, q2, ?_⟩
      unfold mkTLeaf at hl2
      rw [hp2] at hl2
      simp only at hl2
      split at hl2
      · simp at hl2
      · rename_i c hc
        split at hl2
        · simp at hl2
        · split at hl2
          · simp at hl2
          · rename_i t ht
            injection hl2 with hl2
            rw [← hl2]
            exact ⟨(mkConvOpt_ok hc).choose_spec.2.2, (mkTSConv_ok ht).2.1⟩
  obtain ⟨q1, q2, q3, q4⟩ := hl2
  -- what both views know about the parameter
  have hg1 := (hi1.good.tviews i u1 m1).leaf
  have hg2 := (hi3.good.tviews j v2 hv2).leaf
  obtain ⟨A, ua, ta, a1, a2, a3, a4, a5, a6, a7, _⟩ := hg1.ex
  rw [s1, hp1] at a1; cases a1
  obtain ⟨B, ub, tb, b1, b2, b3, b4, b5, b6, b7, _⟩ := hg2.ex
  rw [q1, hp2] at b1; cases b1
  have hu : ub = ua := by
    have := hle2.unit hty1
    rw [b3, a3] at this; simpa using this
  subst hu
  have hta : ta = tps0 := by
    have := hle1.tps _ hP0
    rw [a5] at this; simpa using this
  subst hta
  have htb : tb = ta := by
    have := hle2.tps _ a5
    rw [b5] at this; simpa using this
  subst htb
  obtain ⟨x, y, hx1, hy1, hxy⟩ := conv_between a4 b4
  rw [s2, ht1] at hx1
  rw [q3] at hy1
  refine ⟨x, y, hx1, hy1, ?_⟩
  -- what is stored
  have hlen1 := hg1.len d m2
  have htarget1 : u1.leaf.ts.target = tps := by rw [s3]; exact hts1
  have hdl : d.length = xs.length := by
    have : d.vals.length = d.length := by cases d <;> simp [Arr.vals, Arr.length]
    rw [← this, hdv]; simp
  have hlenx : pointsLength u1.leaf.ts.ty tps = xs.length := by
    rw [← hdl, hlen1, TSConv.targetLength, htarget1]
  have hpub : ∃ ys : List K, l = ys.map .num ∧ ∀ ext', convert u1.leaf.ts.ty ext' tb tps (ys.map .num)
      = .ok ((xs.map u1.leaf.conv.convertTo).map .num) := by
    unfold published TSConv.convertTo at m6
    rw [hdv] at m6
    have e : (xs.map Fl.num).map (Fl.map u1.leaf.conv.convertTo)
        = (xs.map u1.leaf.conv.convertTo).map .num := by
      simp [List.map_map, Function.comp_def, Fl.map]
    rw [e, a6, htarget1] at m6
    exact C76_convert hg1.ty.symm (by simpa using hx) (by simpa using hlenx) hsort hsort0 hsub m6
  obtain ⟨ys, hys, hback⟩ := hpub
  -- what is read
  have hty12 : v2.leaf.ts.ty = u1.leaf.ts.ty := by
    obtain ⟨Q, hQ, hQt, _⟩ := (hi1.good.tviews i u1 m1).ex
    rw [s1, hp1] at hQ; cases hQ
    obtain ⟨Q', hQ', hQt', _⟩ := (hi3.good.tviews j v2 hv2).ex
    rw [q1, hp2] at hQ'; cases hQ'
    have := hle2.ptype _ hQt
    rw [hQt'] at this; simpa using this
  have hvals : leafValues (after env (after env (after env (St.init root) pre) [wr]) (post ++ [op2]))
      v2.leaf = .ok (xs.map fun z => .num (pintTo x y z)) := by
    unfold leafValues
    rw [q1, hp2]
    simp only [hch, ne_eq, not_true_eq_false, if_false, hle2.written hwritten, Bool.not_true,
      Bool.false_eq_true, hdata, m5]
    have haff : v2.leaf.conv.convertFrom = affine v2.leaf.conv.scaling v2.leaf.conv.offset := by
      funext z
      simp only [Conv.convertFrom, affine]
      ring
    rw [haff, TSConv.convertFrom, b6, q4, hty12, convert_affine, hys, hback]
    simp only [Except.map, List.map_map]
    congr 2
    funext z
    simp only [Function.comp_apply, Fl.map, ← haff, hxy]
  have hc : Cache (after env (after env (after env (St.init root) pre) [wr]) (post ++ [op2])) j
      (fun _ => False) := ⟨v2, P2, hv2, by rw [q1]; exact hp2, Or.inl q2⟩
  unfold result
  rw [tGet_eq hv2]
  rcases hc.read hv2 (by rw [q1]; exact hp2) hch with ⟨l', v', e1, e2, e3, _⟩ | ⟨_, h, _⟩ | ⟨e, e1, _⟩
  · rw [hvals] at e1
    injection e1 with e1
    rw [e2]
    simp only [shown, e3, ← e1]
  · exact h.elim
  · rw [hvals] at e1; simp at e1

/-- The hypotheses of `C76_view` met: a parameter stored on five time points, written and read on
three of them. -/
example :
    demo [points ["a"] "K" [0, 1, 2, 3, 4], points ["a"] "mK" [0, 1, 4],
      .tSet 1 (nums [1000, 2000, 8000]), .tGet 0, points ["a"] "degC" [0, 1, 4], .tGet 2]
    = [.ok (.view 0), .ok (.view 1), .ok .done, .ok (.arr (nums [1, 2, 4, 6, 8])), .ok (.view 2),
      .ok (.arr (nums [-5443/20, -5423/20, -5303/20]))] := by decide +kernel

/-- `C76_view` used on that history. -/
example : ∃ a b, demoEnv.units "mK" = some a ∧ demoEnv.units "degC" = some b ∧
    result demoEnv (demoSt [points ["a"] "K" [0, 1, 2, 3, 4], points ["a"] "mK" [0, 1, 4],
      .tSet 1 (nums [1000, 2000, 8000]), .tGet 0, points ["a"] "degC" [0, 1, 4]]) (.tGet 2)
    = .ok (.arr (.floats ([1000, 2000, 8000].map fun x => .num (pintTo a b x)))) :=
  C76_view (K := ℚ) (G := ℕ) (env := demoEnv) (root := "World")
    (pre := [points ["a"] "K" [0, 1, 2, 3, 4], points ["a"] "mK" [0, 1, 4]]) (post := [.tGet 0])
    (req := points ["a"] "K" [0, 1, 2, 3, 4]) (k := (["World"], ["a"])) (tps0 := [0, 1, 2, 3, 4])
    (tps := [0, 1, 4])
    ⟨[], _, 0, _, _, .point, rfl, rfl, rfl, rfl, fun I h => by
      have : infoAt demoEnv (after demoEnv (St.init "World" : St ℚ ℕ) []) (["World"], ["a"]) = none := by
        decide +kernel
      rw [this] at h; simp at h, by decide +kernel⟩ rfl (by decide +kernel) (by decide +kernel)
    (by decide +kernel)
    (i := 1) ⟨[points ["a"] "K" [0, 1, 2, 3, 4]], [], rfl, by decide +kernel⟩ rfl
    (xs := [1000, 2000, 8000]) (by decide) (by decide +kernel) (by decide +kernel) rfl
    (by decide +kernel)

end Openscm
