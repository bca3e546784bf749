import Verif.CoreProps9

/-!
# C12: what one view writes, the others read

Views on the time points the parameter is stored on exchange their arrays exactly, up to the
conversion of units.
-/

set_option linter.unusedSectionVars false

namespace Openscm
variable {K G : Type} [Field K] [LinearOrder K] [IsStrictOrderedRing K]

/-! ## Specification -/

/-- View `i` was obtained in the history `ops` by this request. -/
def Obtained (env : Env K) (root : String) (ops : List (Op K G)) (i : Nat) (req : Op K G) : Prop :=
  ∃ a b, ops = a ++ req :: b ∧ result env (after env (St.init root) a) req = .ok (.view i)

/-- `req` was the first successful request for `k` in the history `ops`. -/
def FirstRequest (env : Env K) (root : String) (ops : List (Op K G)) (k : Key) (req : Op K G) : Prop :=
  ∃ a b i name region t, ops = a ++ req :: b ∧ request req = some (name, region) ∧
    k = (region.parts, name.parts) ∧ asks req = some t ∧
    (∀ I, infoAt env (after env (St.init root) a) k = some I → I.ptype = none) ∧
    result env (after env (St.init root) a) req = .ok (.view i)

/-! ## Lemmas -/

/-- Nothing stored: same data. -/
theorem after_data {env : Env K} {s : St K G} (hi : Inv env s) {ops : List (Op K G)} {p : Nat}
    {P P' : Param K G} (hp : s.params[p]? = some P) (ht : P.ptype ≠ none)
    (hp' : (after env s ops).params[p]? = some P') (hv : P'.version = P.version) :
    P'.data = P.data := by
  induction ops generalizing s P with
  | nil => have hp' : s.params[p]? = some P' := hp'
           rw [hp] at hp'; cases hp'; rfl
  | cons op ops ih =>
    rw [after_cons] at hp'
    obtain ⟨ls, hst⟩ := call_steps env op s (fun i v hv => (hi.good.tviews i v hv).leaf.ty)
    obtain ⟨Q, hQ, f1, f2⟩ := hst.eff hi hp
    obtain ⟨Q2, hQ2, hle⟩ := call_pext op hi p P hp
    rw [hQ] at hQ2; cases hQ2
    obtain ⟨Q3, hQ3, hle'⟩ := after_pext ops (call_inv op hi) p Q hQ
    rw [hp'] at hQ3; cases hQ3
    have h1 := hle'.version
    have hno : ∀ e ∈ ls, e.1 ≠ p := by
      intro e he heq
      have : 0 < storesTo p ls := by
        unfold storesTo; rw [List.countP_pos_iff]; exact ⟨e, he, by simpa using heq⟩
      omega
    have htQ : Q.ptype ≠ none := by
      cases hpt : P.ptype with
      | none => exact absurd hpt ht
      | some t => rw [hle.ptype t hpt]; simp
    have := hle.version
    rw [ih (call_inv op hi) hQ htQ hp' (by omega), f2 ht hno]

theorem obtained_view {env : Env K} {root : String} {ops : List (Op K G)} {i : Nat}
    {name region : HName} {w : String} {tps : List K} {ty : TyArg} {int : IntArg} {ext : ExtArg}
    (h : Obtained env root ops i (.timeseries name w tps region ty int ext)) :
    ∃ v, (after env (St.init root) ops).tviews[i]? = some v ∧
      HasKey (after env (St.init root) ops) v.leaf.param (region.parts, name.parts) ∧
      v.leaf.conv.target = w ∧ v.leaf.ts.target = tps := by
  obtain ⟨a, b, rfl, hok⟩ := h
  have hi0 := after_inv (K := K) (G := G) a (Inv.init env root)
  obtain ⟨p, v, ty', int', ext', h1, h2, h3, hk, hv, hmk⟩ := timeseries_ok hi0 hok
  have hi1 := call_inv (.timeseries name w tps region ty int ext) hi0
  rw [after_append, after_cons]
  obtain ⟨v', hv', hst⟩ := after_tview hi1 b hv
  have hleaf : v.leaf.param = p ∧ v.leaf.conv.target = w ∧ v.leaf.ts.target = tps := by
    have : ∃ l, mkTLeaf env (call env (.timeseries name w tps region ty int ext)
        (after env (St.init root) a)).2 w tps ty' ext' p = .ok l ∧ v.leaf = l := by
      unfold mkTView at hmk
      split at hmk
      · simp at hmk
      · split at hmk
        · simp at hmk
        · rename_i l hl
          split at hmk
          · injection hmk with hmk; subst hmk; exact ⟨l, hl, rfl⟩
          · split at hmk
            · simp at hmk
            · injection hmk with hmk; subst hmk; exact ⟨l, hl, rfl⟩
    obtain ⟨l, hl, rfl⟩ := this
    unfold mkTLeaf at hl
    split at hl
    · simp at hl
    · split at hl
      · simp at hl
      · rename_i c hc
        split at hl
        · simp at hl
        · split at hl
          · simp at hl
          · rename_i t ht
            injection hl with hl
            rw [← hl]
            refine ⟨rfl, ?_, (mkTSConv_ok ht).2.1⟩
            exact (mkConvOpt_ok hc).choose_spec.2.2
  have hs : v'.leaf.stat = v.leaf.stat := congrArg Prod.fst hst
  simp only [TLeaf.stat, Prod.mk.injEq] at hs
  obtain ⟨s1, s2, s3⟩ := hs
  refine ⟨v', hv', ?_, by rw [s2]; exact hleaf.2.1, by rw [s3]; exact hleaf.2.2⟩
  rw [s1, hleaf.1]
  exact after_key hi1 b hk

/-- **C12**: what is assigned through a view on the time points the parameter is stored on is what
any view on these time points, obtained later and in any unit, shows, converted as pint does, as
long as nothing else is stored in between. -/
theorem C12_exchange {env : Env K} {root : String} {pre post : List (Op K G)} {req : Op K G}
    {k : Key} {tps : List K} (hfirst : FirstRequest env root pre k req)
    (htps : asksPoints req = some tps) (hsort : tps.Pairwise (· < ·))
    {i : Nat} {n1 r1 : HName} {w1 : String} {ty1 : TyArg} {in1 : IntArg} {ex1 : ExtArg}
    (h1 : Obtained env root pre i (.timeseries n1 w1 tps r1 ty1 in1 ex1))
    (hk1 : k = (r1.parts, n1.parts))
    {xs : List K} (hx : 3 ≤ xs.length)
    (hne : versionAt env (after env (St.init root) (pre ++ [.tSet i (.floats (xs.map .num))])) k
      ≠ versionAt env (after env (St.init root) pre) k)
    {j : Nat} {n2 r2 : HName} {w2 : String} {ty2 : TyArg} {in2 : IntArg} {ex2 : ExtArg}
    (h2 : result env (after env (St.init root) (pre ++ .tSet i (.floats (xs.map .num)) :: post))
      (.timeseries n2 w2 tps r2 ty2 in2 ex2) = .ok (.view j))
    (hk2 : k = (r2.parts, n2.parts))
    (hver : versionAt env (after env (St.init root)
        (pre ++ .tSet i (.floats (xs.map .num)) :: post ++ [.timeseries n2 w2 tps r2 ty2 in2 ex2])) k
      = versionAt env (after env (St.init root) (pre ++ [.tSet i (.floats (xs.map .num))])) k) :
    ∃ a b, env.units w1 = some a ∧ env.units w2 = some b ∧
      result env (after env (St.init root)
        (pre ++ .tSet i (.floats (xs.map .num)) :: post ++ [.timeseries n2 w2 tps r2 ty2 in2 ex2]))
        (.tGet j) = .ok (.arr (.floats (xs.map fun x => .num (pintTo a b x)))) := by
  set wr : Op K G := .tSet i (.floats (xs.map .num)) with hwr
  set op2 : Op K G := .timeseries n2 w2 tps r2 ty2 in2 ex2 with hop2
  -- the three states
  have hi0 := after_inv (K := K) (G := G) pre (Inv.init env root)
  obtain ⟨v1, hv1, hkv1, ht1, hts1⟩ := obtained_view h1
  rw [← hk1] at hkv1
  have happ1 : after env (St.init root : St K G) (pre ++ [wr]) = after env (after env (St.init root) pre) [wr] := by
    rw [after_append]
  have happ2 : after env (St.init root : St K G) (pre ++ wr :: post ++ [op2])
      = after env (after env (St.init root) (pre ++ [wr])) (post ++ [op2]) := by
    rw [← after_append]; simp
  have happ3 : after env (St.init root : St K G) (pre ++ wr :: post ++ [op2])
      = (call env op2 (after env (St.init root) (pre ++ wr :: post))).2 := by
    rw [after_append, after_one]
  -- stored time points
  obtain ⟨P0, hp0, _⟩ := id hkv1
  have hP0 : P0.tps = some tps := by
    obtain ⟨a, b, i', name, region, t, rfl, e1, rfl, e3, e4, e5⟩ := hfirst
    obtain ⟨p, P, g1, g2, g3, g4, g5⟩ := C04_first_view ⟨root, a, rfl⟩ e1 e3 e4 e5
    have hi1 := after_inv (K := K) (G := G) [req] (after_inv a (Inv.init env root))
    have : after env (St.init root : St K G) (a ++ req :: b)
        = after env (after env (after env (St.init root) a) [req]) b := by
      rw [← after_append, ← after_append]; simp
    rw [this] at hp0 hkv1 hi0
    have hk' := after_key hi1 b g1
    obtain rfl := hk'.inj hi0.tree hkv1
    obtain ⟨P', hP', hle⟩ := after_pext b hi1 _ P g2
    rw [hp0] at hP'; cases hP'
    exact hle.tps _ (g5.trans htps)
  -- the write
  have hvk : viewKey env (after env (St.init root) pre) (.t i) = some k :=
    (viewKey_some hi0).2 ⟨_, _, by simp only [viewTarget, hv1]; rfl, hkv1⟩
  rw [happ1] at hne hver happ2
  obtain ⟨P1, hp1, hle1⟩ := after_pext [wr] hi0 _ P0 hp0
  have hi1 := after_inv [wr] hi0
  have hkw := after_key hi0 [wr] hkv1
  obtain ⟨v, d, hv, hkv, hW, hd, _⟩ := wrote_of_version hi0 (op := wr) rfl hvk hne
  rw [hv1] at hv; cases hv
  have hdv : d.vals = xs.map .num := hd _ rfl
  have hwritten : P1.written = true := by
    have hv' := hne
    rw [after_one] at hv' hp1
    rw [versionAt_of hi0.tree hkv1 hp0, versionAt_of (call_inv wr hi0).tree
      (by have := hkw; rwa [after_one] at this) hp1] at hv'
    obtain ⟨o, ho, _⟩ := version_changed hi0 (op := wr) rfl hv1 hp0 hp1 (by simpa using hv')
    have hdone : result env (after env (St.init root) pre) wr = .ok .done := by
      unfold result
      rw [ho]
      have := ho
      rw [hwr, tSet_eq] at this
      have h1 := this
      simp only at h1
      cases hq : (setValues i (.floats (xs.map .num)) (after env (St.init root : St K G) pre)).1 with
      | error e => rw [hq] at h1; exact absurd h1 (by simp [Except.map])
      | ok x => rw [hq] at h1; exact h1.symm
    obtain ⟨I, hI, he⟩ := C05_assigned ⟨root, pre, rfl⟩ (op := wr)
      (Or.inr (Or.inr ⟨i, _, rfl, rfl⟩)) hvk hdone
    obtain ⟨p, P, q1, q2, rfl⟩ := (infoAt_some hi1.tree).1 hI
    obtain rfl := q1.inj hi1.tree hkw
    rw [after_one, hp1] at q2; cases q2
    simpa using he
  obtain ⟨u1, Q1, l, m1, m2, m3, m4, m5, m6⟩ := hW
  obtain ⟨u', hu', hst⟩ := after_tview hi0 [wr] hv1
  rw [m1] at hu'; cases hu'
  have hs : u1.leaf.stat = v1.leaf.stat := congrArg Prod.fst hst
  simp only [TLeaf.stat, Prod.mk.injEq] at hs
  obtain ⟨s1, s2, s3⟩ := hs
  rw [s1, hp1] at m3; cases m3
  -- the second view
  have hi2 := after_inv (K := K) (G := G) (pre ++ wr :: post) (Inv.init env root)
  obtain ⟨p, v2, ty', int', ext', _, _, _, hkp, hv2, hmk⟩ := timeseries_ok hi2 h2
  rw [← hk2, ← hop2, ← happ3] at hkp
  rw [← hop2, ← happ3] at hv2 hmk
  have hi3 := after_inv (K := K) (G := G) (pre ++ wr :: post ++ [op2]) (Inv.init env root)
  rw [happ2] at hkp hv2 hmk hi3 hver ⊢
  obtain rfl := (after_key hi1 (post ++ [op2]) hkw).inj hi3.tree hkp
  obtain ⟨P2, hp2, hle2⟩ := after_pext (post ++ [op2]) hi1 _ P1 hp1
  rw [versionAt_of hi1.tree hkw hp1, versionAt_of hi3.tree hkp hp2] at hver
  have hty1 : P1.ptype ≠ none := by
    obtain ⟨Q, hQ, hQt, _⟩ := (hi1.good.tviews i u1 m1).ex
    rw [s1, hp1] at hQ; cases hQ; simp [hQt]
  have hdata := after_data hi1 hp1 hty1 hp2 (by simpa using hver)
  have hch : P2.children = [] := ((hi3.good.params _ P2 hp2).1 (hle2.written hwritten)).1
  have hl2 : v2.leaf.param = v1.leaf.param ∧ v2.leaf.data = none ∧ v2.leaf.conv.target = w2 ∧
      v2.leaf.ts.target = tps := by
    unfold mkTView at hmk
    rw [hp2] at hmk
    simp only [hch, if_true] at hmk
    split at hmk
    · simp at hmk
    · rename_i l2 hl2
      injection hmk with hmk; subst hmk
      have hl3 := hl2
      obtain ⟨q1, q2, _⟩ := mkTLeaf_tps hl3
      refine ⟨q1, q2, ?_⟩
      unfold mkTLeaf at hl2
      rw [hp2] at hl2
      simp only at hl2
      split at hl2
      · simp at hl2
      · rename_i c hc
        split at hl2
        · simp at hl2
        · split at hl2
          · simp at hl2
          · rename_i t ht
            injection hl2 with hl2
            rw [← hl2]
            exact ⟨(mkConvOpt_ok hc).choose_spec.2.2, (mkTSConv_ok ht).2.1⟩
  obtain ⟨q1, q2, q3, q4⟩ := hl2
  -- what both views know about the parameter
  have hg1 := (hi1.good.tviews i u1 m1).leaf
  have hg2 := (hi3.good.tviews j v2 hv2).leaf
  obtain ⟨A, ua, ta, a1, a2, a3, a4, a5, a6, a7, _⟩ := hg1.ex
  rw [s1, hp1] at a1; cases a1
  obtain ⟨B, ub, tb, b1, b2, b3, b4, b5, b6, b7, _⟩ := hg2.ex
  rw [q1, hp2] at b1; cases b1
  have hu : ub = ua := by
    have := hle2.unit hty1
    rw [b3, a3] at this; simpa using this
  subst hu
  have hta : ta = tps := by
    have := hle1.tps _ hP0
    rw [a5] at this; simpa using this
  subst hta
  have htb : tb = ta := by
    have := hle2.tps _ a5
    rw [b5] at this; simpa using this
  subst htb
  obtain ⟨x, y, hx1, hy1, hxy⟩ := conv_between a4 b4
  rw [s2, ht1] at hx1
  rw [q3] at hy1
  refine ⟨x, y, hx1, hy1, ?_⟩
  -- what is stored
  have hlen1 := hg1.len d m2
  have htarget1 : u1.leaf.ts.target = tb := by rw [s3]; exact hts1
  have hdl : d.length = xs.length := by
    have : d.vals.length = d.length := by cases d <;> simp [Arr.vals, Arr.length]
    rw [← this, hdv]; simp
  have hpub : l = (xs.map u1.leaf.conv.convertTo).map .num := by
    unfold published at m6
    rw [hdv] at m6
    have e : (xs.map Fl.num).map (Fl.map u1.leaf.conv.convertTo)
        = (xs.map u1.leaf.conv.convertTo).map .num := by
      simp [List.map_map, Function.comp_def, Fl.map]
    rw [e, (C22_converter_identity _ _ (by simpa using hx) (by rw [a6, htarget1])
      (hg1.ty.symm) (by rw [← hlen1, hdl]; simp) (by rw [htarget1]; exact hsort)).2] at m6
    injection m6 with m6; exact m6.symm
  -- what is read
  have hty12 : v2.leaf.ts.ty = u1.leaf.ts.ty := by
    obtain ⟨Q, hQ, hQt, _⟩ := (hi1.good.tviews i u1 m1).ex
    rw [s1, hp1] at hQ; cases hQ
    obtain ⟨Q', hQ', hQt', _⟩ := (hi3.good.tviews j v2 hv2).ex
    rw [q1, hp2] at hQ'; cases hQ'
    have := hle2.ptype _ hQt
    rw [hQt'] at this; simpa using this
  have hvals : leafValues (after env (after env (after env (St.init root) pre) [wr]) (post ++ [op2]))
      v2.leaf = .ok (xs.map fun z => .num (pintTo x y z)) := by
    unfold leafValues
    rw [q1, hp2]
    simp only [hch, ne_eq, not_true_eq_false, if_false, hle2.written hwritten, Bool.not_true,
      Bool.false_eq_true, hdata, m5]
    have e : l.map (Fl.map v2.leaf.conv.convertFrom) = (xs.map (pintTo x y)).map .num := by
      rw [hpub]
      simp only [List.map_map, Function.comp_def, Fl.map, hxy]
    rw [e, (C22_converter_identity v2.leaf.ts (xs.map (pintTo x y)) (by simpa using hx)
      (by rw [b6, q4]) hg2.ty.symm
      (by
        have : u1.leaf.ts.targetLength = xs.length := by rw [← hlen1, hdl]
        unfold TSConv.targetLength at this ⊢
        rw [hty12, q4, ← htarget1, this]; simp) (by rw [q4]; exact hsort)).1]
    simp [List.map_map, Function.comp_def]
  have hc : Cache (after env (after env (after env (St.init root) pre) [wr]) (post ++ [op2])) j
      (fun _ => False) := ⟨v2, P2, hv2, by rw [q1]; exact hp2, Or.inl q2⟩
  unfold result
  rw [tGet_eq hv2]
  rcases hc.read hv2 (by rw [q1]; exact hp2) hch with ⟨l', v', e1, e2, e3, _⟩ | ⟨_, h, _⟩ | ⟨e, e1, _⟩
  · rw [hvals] at e1
    injection e1 with e1
    rw [e2]
    simp only [shown, e3, ← e1]
  · exact h.elim
  · rw [hvals] at e1; simp at e1

/-- Hypotheses of `C12_exchange` met: the assigned view uses another unit than the stored one, and
so does the reading view. -/
example :
    demo [points ["a"] "K" [0, 1, 2], points ["a"] "mK" [0, 1, 2], .tSet 1 (nums [1000, 2000, 4000]),
      .tGet 0, points ["a"] "degC" [0, 1, 2], .tGet 2]
    = [.ok (.view 0), .ok (.view 1), .ok .done, .ok (.arr (nums [1, 2, 4])), .ok (.view 2),
      .ok (.arr (nums [-5443/20, -5423/20, -5383/20]))] := by decide +kernel

/-- `C12_exchange` used on that history. -/
example : ∃ a b, demoEnv.units "mK" = some a ∧ demoEnv.units "degC" = some b ∧
    result demoEnv (demoSt [points ["a"] "K" [0, 1, 2], points ["a"] "mK" [0, 1, 2],
      .tSet 1 (nums [1000, 2000, 4000]), .tGet 0, points ["a"] "degC" [0, 1, 2]]) (.tGet 2)
    = .ok (.arr (.floats ([1000, 2000, 4000].map fun x => .num (pintTo a b x)))) :=
  C12_exchange (K := ℚ) (G := ℕ) (env := demoEnv) (root := "World")
    (pre := [points ["a"] "K" [0, 1, 2], points ["a"] "mK" [0, 1, 2]]) (post := [.tGet 0])
    (req := points ["a"] "K" [0, 1, 2]) (k := (["World"], ["a"])) (tps := [0, 1, 2])
    ⟨[], _, 0, _, _, .point, rfl, rfl, rfl, rfl, fun I h => by
      have : infoAt demoEnv (after demoEnv (St.init "World" : St ℚ ℕ) []) (["World"], ["a"]) = none := by
        decide +kernel
      rw [this] at h; simp at h, by decide +kernel⟩ rfl (by decide +kernel)
    (i := 1) ⟨[points ["a"] "K" [0, 1, 2]], [], rfl, by decide +kernel⟩ rfl
    (xs := [1000, 2000, 4000]) (by decide) (by decide +kernel) (by decide +kernel) rfl
    (by decide +kernel)

end Openscm
