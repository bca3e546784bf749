import Verif.RoundStore
import Verif.CoreProps10

/-!
# What `to_parameterset` stores

Helper file.
-/

set_option linter.unusedSectionVars false

namespace Openscm

variable {K G : Type} [Field K] [LinearOrder K] [IsStrictOrderedRing K]

/-- The list of items after an assignment. -/
def putItem (k : Key) (it : Item K G) (L : List (Key × Item K G)) : List (Key × Item K G) :=
  (k, it) :: L.filter fun e => e.1 ≠ k

theorem Holds.put {env : Env K} {s : St K G} {L : List (Key × Item K G)} {X : Key → PType → Prop} {k : Key}
    {it : Item K G} (h : Holds env s (L.filter fun e => e.1 ≠ k) X) (hX : ∀ k' t, X k' t → k' = k)
    (hit : ∃ p P, HasKey s p k ∧ s.params[p]? = some P ∧ P.written = true ∧ it.In env P) :
    Holds env s (putItem k it L) (fun _ _ => False) := by
  refine ⟨?_, ?_, h.leaf⟩
  · intro e he
    rcases List.mem_cons.1 he with rfl | he
    · exact hit
    · exact h.items e he
  · intro p P k' t hk hP ht
    rcases h.typed p P k' t hk hP ht with ⟨it', h'⟩ | h'
    · exact Or.inl ⟨it', List.mem_cons_of_mem _ h'⟩
    · rw [hX _ _ h']
      exact Or.inl ⟨it, List.mem_cons_self⟩

theorem Reachable.call {env : Env K} {s : St K G} (h : Reachable env s) (op : Op K G) :
    Reachable env (call env op s).2 := by
  obtain ⟨root, ops, rfl⟩ := h
  exact ⟨root, ops ++ [op], (after_snoc env _ ops op).symm⟩

/-! ## Timeseries -/

theorem series_added {env : Env K} {s : St K G} (hs : Reachable env s) {L : List (Key × Item K G)}
    (h : Holds env s L (fun _ _ => False)) {name region : HName} {u : String} {tps : List K} {t : PType} {i : Nat}
    {xs : List K} (hsort : tps.Pairwise (· < ·))
    (hnew : ∀ it, ((region.parts, name.parts), it) ∉ L)
    (h1 : result env s (.timeseries name u tps region (.enum t) (.enum .linear) (.enum .none)) = .ok (.view i))
    (h2 : result env (call env (.timeseries name u tps region (.enum t) (.enum .linear) (.enum .none)) s).2
      (.tSet i (.floats (xs.map .num))) = .ok .done) :
    Holds env (call env (.tSet i (.floats (xs.map .num)))
      (call env (.timeseries name u tps region (.enum t) (.enum .linear) (.enum .none)) s).2).2
      (putItem (region.parts, name.parts) (.series t u tps xs) L) (fun _ _ => False) := by
  have hi := hs.inv
  generalize hop : (Op.timeseries name u tps region (.enum t) (.enum .linear) (.enum .none) : Op K G) = op at h1 h2 ⊢
  have hreq : request op = some (name, region) := by rw [← hop]; rfl
  have hs1 := hs.call op
  have hi1 := hs1.inv
  have ht : (TyArg.enum t).parse = .ok t ∧ asks op = some t := by
    rw [← hop] at h1 ⊢
    obtain ⟨p, v, ty', int', ext', e1, e2, e3, _⟩ := timeseries_ok hi h1
    have : t = ty' := by
      simp only [TyArg.parse] at e1
      split at e1
      · simpa using e1
      · simp at e1
    subst this
    refine ⟨e1, ?_⟩
    simp only [asks, e1, e2, e3]
  obtain ⟨ht, hask⟩ := ht
  have hnone : ∀ I, infoAt env s (region.parts, name.parts) = some I → I.ptype = none := by
    intro I hI
    obtain ⟨p, P, k1, k2, rfl⟩ := (infoAt_some hi.tree).1 hI
    cases hpt : P.ptype with
    | none => rfl
    | some t' =>
      rcases h.typed p P _ t' k1 k2 hpt with ⟨it, hit⟩ | hf
      · exact absurd hit (hnew it)
      · exact hf.elim
  obtain ⟨p, P1, hk1, hP1, hpt1, hu1, htp1⟩ := C04_first_view hs hreq hask hnone h1
  rw [after_one] at hk1 hP1
  have hu1 : P1.unit = some u := by rw [hu1, ← hop]; rfl
  have htp1 : P1.tps = some tps := by rw [htp1, ← hop]; rfl
  have hview : ∃ v, (call env op s).2.tviews[i]? = some v ∧
      mkTView env (call env op s).2 p u tps t .none = .ok v := by
    rw [← hop] at h1 hk1 hi1 ⊢
    obtain ⟨p', v, ty', int', ext', e1, e2, e3, e4, e5, e6⟩ := timeseries_ok hi h1
    obtain rfl := e4.inj hi1.tree hk1
    rw [ht] at e1; cases e1
    have e3 : (.ok Extrap.none : Except Err Extrap) = .ok ext' := e3
    cases e3
    exact ⟨v, e5, e6⟩
  obtain ⟨v, hv, hmk⟩ := hview
  generalize hs1' : (call env op s).2 = s1 at *
  -- the view
  unfold mkTView at hmk
  rw [hP1] at hmk
  simp only at hmk
  cases hl : mkTLeaf env s1 u tps t .none p with
  | error e => rw [hl] at hmk; simp at hmk
  | ok lf =>
  rw [hl] at hmk
  simp only at hmk
  have hvl : v.leaf = lf ∧ v.locked = false := by
    split at hmk
    · injection hmk with hmk; subst hmk; exact ⟨rfl, rfl⟩
    · split at hmk
      · simp at hmk
      · injection hmk with hmk; subst hmk; exact ⟨rfl, rfl⟩
  obtain ⟨hvl, hlock⟩ := hvl
  unfold mkTLeaf at hl
  rw [hP1] at hl
  simp only [hu1, htp1] at hl
  cases hc : mkConvOpt env.units (some u) u with
  | error e => rw [hc] at hl; simp at hl
  | ok c =>
  cases hts : mkTSConv tps tps t .none with
  | error e => rw [hc, hts] at hl; simp at hl
  | ok ts =>
  rw [hc, hts] at hl
  simp only [Except.ok.injEq] at hl
  subst hl
  -- the assignment
  obtain ⟨v', Pw, d', q1, q2, q3, q4, _⟩ := tSet_ok hi1 h2
  rw [hv] at q1; cases q1
  rw [hvl] at q2 q4
  simp only at q2 q4
  rw [hP1] at q2; cases q2
  have hvk : viewKey env s1 (.t i) = some (region.parts, name.parts) :=
    (viewKey_some hi1).2 ⟨p, _, by simp only [viewTarget, hv, Option.map_some, hvl]; rfl, hk1⟩
  generalize hw : (Op.tSet i (.floats (xs.map .num)) : Op K G) = wr at h2 ⊢
  have hcall : call env wr s1 = (.ok .done, (call env wr s1).2) := by
    unfold result at h2; rw [← h2]
  obtain ⟨d, hW, hd, _⟩ := call_wrote hi1 (op := wr) (by rw [← hw]; rfl) hv (Or.inl hlock) hcall
  obtain ⟨v2, P2, l, m1, m2, m3, m4, m5, m6⟩ := hW
  have hdv : d.vals = xs.map .num := hd _ hw.symm
  obtain ⟨v2', hv2', hst⟩ := call_tview hi1 wr hv
  rw [m1] at hv2'; cases hv2'
  have hst : v2.leaf.stat = v.leaf.stat := congrArg Prod.fst hst
  simp only [TLeaf.stat, Prod.mk.injEq, hvl] at hst
  obtain ⟨s1', s2', s3'⟩ := hst
  rw [s1'] at m3
  obtain ⟨P2', hP2', hle⟩ := call_pext wr hi1 p P1 hP1
  rw [m3] at hP2'; cases hP2'
  obtain ⟨I, hI, he⟩ := C05_assigned hs1 (op := wr) (Or.inr (Or.inr ⟨i, _, hw.symm, rfl⟩)) hvk h2
  have hi2 := call_inv wr hi1
  have hk2 : HasKey (call env wr s1).2 p (region.parts, name.parts) :=
    hk1.mono (call_pext wr hi1) (call_rext wr hi1)
  rw [after_one] at hI
  obtain ⟨p', P', g1, g2, rfl⟩ := (infoAt_some hi2.tree).1 hI
  obtain rfl := g1.inj hi2.tree hk2
  rw [m3] at g2; cases g2
  have hwritten : P2.written = true := by simpa using he
  -- what is stored
  obtain ⟨c1, c2, c3, c4⟩ := mkTSConv_ok hts
  have hx : 3 ≤ xs.length := by
    by_contra hx
    have : published v2 d = .error .insufficientData := by
      unfold published TSConv.convertTo
      exact C27_short _ _ _ _ _ (by rw [hdv]; simpa using hx)
    rw [this] at m6; simp at m6
  have hlen : ts.targetLength = xs.length := by
    rw [← q4]; simp [Arr.length]
  have htyp : ts.ty = .point ∨ ts.ty = .average := by
    rw [c3]; rcases tyArg_parse ht with h | h <;> simp [h]
  obtain ⟨u', hu', hmc, hct⟩ := mkConvOpt_ok hc
  obtain rfl : u = u' := by simpa using hu'
  obtain ⟨a, b, ha, hb, hab⟩ := conv_between (c := c) (c' := c) (by rw [hct]; exact hmc) (by rw [hct]; exact hmc)
  rw [ha] at hb; cases hb
  have hpint : ∀ x, pintTo a a x = x := by
    intro x
    have := a.scale_ne
    simp only [pintTo, UDef.toBase, UDef.ofBase]
    field_simp; ring
  have hback : ∀ x, c.convertFrom (c.convertTo x) = x := fun x => by rw [hab, hpint]
  have hl : l = (xs.map c.convertTo).map .num := by
    unfold published at m6
    rw [hdv, s2', s3'] at m6
    have e : (xs.map Fl.num).map (Fl.map c.convertTo) = (xs.map c.convertTo).map .num := by
      simp [List.map_map, Function.comp_def, Fl.map]
    rw [e, (C22_converter_identity ts _ (by simpa using hx) (by rw [c1, c2]) htyp (by rw [hlen]; simp)
      (by rw [c2]; exact hsort)).2] at m6
    injection m6 with m6; exact m6.symm
  have hread : ts.convertFrom (l.map (Fl.map c.convertFrom)) = .ok (xs.map .num) := by
    have e : l.map (Fl.map c.convertFrom) = xs.map .num := by
      rw [hl]
      simp only [List.map_map, Function.comp_def, Fl.map, hback]
    rw [e, (C22_converter_identity ts _ hx (by rw [c1, c2]) htyp hlen (by rw [c2]; exact hsort)).1]
  -- the items
  have H1 := h.request hi hreq hask h1
  rw [hs1'] at H1
  have H2 := H1.other hi1 (op := wr) (r := .t i) (by rw [← hw]; rfl) hvk
  refine H2.put ?_ ⟨_, P2, hk2, m3, hwritten, hle.ptype _ hpt1, ?_, hle.tps _ htp1, ?_, ?_⟩
  · rintro k' t' ((h | h) | h)
    · exact h.elim
    · exact h.1
    · exact h.1
  · rw [hle.unit (by rw [hpt1]; simp), hu1]
  · unfold freshOf
    rw [ht, hle.ptype _ hpt1, hle.unit (by rw [hpt1]; simp), hu1, hle.tps _ htp1, m5, hc]
    simp only [bind, Except.bind, IntArg.parse, ExtArg.parse, ne_eq, not_true_eq_false, if_false, hts, hwritten,
      Bool.not_true, Bool.false_eq_true, hread, Except.map]
  · rw [m5, hl, List.map_map]
    congr 1
    refine List.map_congr_left fun x _ => ?_
    obtain ⟨s0, t0, k1, k2, _, _, _, k3, k4⟩ := mkConv_ok hmc
    rw [k1] at k2; cases k2
    have := s0.scale_ne
    simp only [Function.comp, Conv.convertTo, k3, k4]
    congr 1
    field_simp; ring

/-! ## Metadata -/

theorem mkConv_self {reg : Registry K} {a b : String} {c : Conv K} (h : mkConv reg a b = .ok c) :
    ∃ c', mkConv reg a a = .ok c' := by
  obtain ⟨s, t, h1, _⟩ := mkConv_ok h
  unfold mkConv
  simp only [h1, if_true]
  exact ⟨_, rfl⟩

theorem scalar_added {env : Env K} {s : St K G} (hs : Reachable env s) {L : List (Key × Item K G)}
    (h : Holds env s L (fun _ _ => False)) {name region : HName} {u : String} {i : Nat} {x : Fl K}
    (h1 : result env s (.scalar name u region) = .ok (.view i))
    (h2 : result env (call env (.scalar name u region) s).2 (.sSet i x) = .ok .done) :
    ∃ u' x', Holds env (call env (.sSet i x) (call env (.scalar name u region) s).2).2
      (putItem (region.parts, name.parts) (.scalar u' x') L) (fun _ _ => False) ∧
      (∃ c, mkConv env.units u' u = .ok c ∧ x'.map c.convertFrom = x) ∧
      (∀ u0 x0, ((region.parts, name.parts), Item.scalar u0 x0) ∈ L → u' = u0) ∧
      ((∀ it, ((region.parts, name.parts), it) ∉ L) → u' = u) := by
  have hi := hs.inv
  have hi1 := (hs.call (.scalar name u region)).inv
  obtain ⟨p, v, hk, hv, hvp, hvc, _⟩ := scalar_ok hi h1
  have H1 := h.request hi (op := .scalar name u region) rfl rfl h1
  have hold : ∀ u0 x0, ((region.parts, name.parts), Item.scalar u0 x0) ∈ L → ∀ P,
      (call env (.scalar name u region) s).2.params[p]? = some P → P.unit = some u0 := by
    intro u0 x0 hm P hP
    obtain ⟨q, Q, k1, k2, _, k4⟩ := h.items _ hm
    obtain ⟨Q', q1, q2⟩ := call_pext (.scalar name u region) hi q Q k2
    have := (k1.mono (call_pext (.scalar name u region) hi) (call_rext _ hi)).inj hi1.tree hk
    subst this
    rw [hP] at q1; cases q1
    exact (q2.unit k4.typed).trans k4.2.1
  have hnew : (∀ it, ((region.parts, name.parts), it) ∉ L) → ∀ P,
      (call env (.scalar name u region) s).2.params[p]? = some P → P.unit = some u := by
    intro hnew P hP
    have hnone : ∀ I, infoAt env s (region.parts, name.parts) = some I → I.ptype = none := by
      intro I hI
      obtain ⟨p, P, k1, k2, rfl⟩ := (infoAt_some hi.tree).1 hI
      cases hpt : P.ptype with
      | none => rfl
      | some t' =>
        rcases h.typed p P _ t' k1 k2 hpt with ⟨it, hit⟩ | hf
        · exact absurd hit (hnew it)
        · exact hf.elim
    obtain ⟨p1, P1, hk1, hP1, _, hu1, _⟩ := C04_first_view hs (op := .scalar name u region) rfl rfl hnone h1
    rw [after_one] at hk1 hP1
    obtain rfl := hk1.inj hi1.tree hk
    rw [hP] at hP1; cases hP1
    exact hu1
  generalize (call env (.scalar name u region) s).2 = s1 at *
  obtain ⟨v', P, q1, q2, q3, q4⟩ := sSet_ok hi1 h2
  rw [hv] at q1; cases q1
  subst hvp
  obtain ⟨P', u', a1, a2, a3, a4, a5, _⟩ := (hi1.good.sviews i v hv).ex
  rw [q2] at a1; cases a1
  obtain ⟨c', hc'⟩ := mkConv_self a5
  have hvk : viewKey env s1 (.s i) = some (region.parts, name.parts) :=
    (viewKey_some hi1).2 ⟨v.param, _, by simp only [viewTarget, hv, Option.map_some]; rfl, hk⟩
  have H2 := H1.other hi1 (op := .sSet i x) (r := .s i) rfl hvk
  refine ⟨u', (x.map v.conv.convertTo).map c'.convertFrom, H2.put ?_
    ⟨v.param, P.put (.scalar (x.map v.conv.convertTo)), hk.mono (call_pext _ hi1) (call_rext _ hi1), ?_, rfl, ?_, ?_,
      c', _, hc', rfl, rfl⟩, ⟨v.conv, by rw [← hvc]; exact a5, ?_⟩, ?_, ?_⟩
  · rintro k' t' ((h | h) | h)
    · exact h.elim
    · exact h.1
    · exact h.1
  · rw [q4]
    show (s1.setParam v.param _).params[v.param]? = _
    rw [setParam_self, q2]; rfl
  · exact a2
  · exact a4
  · have e1 : ∀ y, c'.convertFrom y = y := fun y => (C32_same_unit hc' y).1
    have e2 : ∀ y, v.conv.convertFrom (v.conv.convertTo y) = y := fun y => C32_from_to a5 y
    cases x with
    | nan => rfl
    | num y => simp only [Fl.map, e1, e2]
  · intro u0 x0 hm
    exact Option.some.inj (a4.symm.trans (hold u0 x0 hm P q2))
  · intro hn
    exact Option.some.inj (a4.symm.trans (hnew hn P q2))

/-- Generic requests that succeed hand out a view made for the parameter asked for. -/
theorem generic_view {env : Env K} {s : St K G} (hi : Inv env s) {name region : HName} {i : Nat}
    (h : result env s (.generic name region) = .ok (.view i)) :
    ∃ p v, HasKey (call env (.generic name region) s).2 p (region.parts, name.parts) ∧
      (call env (.generic name region) s).2.gviews[i]? = some v ∧ v.param = p := by
  have hc : call env (.generic name region) s
      = (genericCall name region >>= fun i => pure (Out.view i : Out K G)) s := rfl
  unfold result at h
  have hsp := reach_spec hi name region
  have hq1 := (quiet_reach env name region s).inv hi
  unfold genericCall at hc
  cases hr : reach name region s with
  | mk r s1 =>
    rw [hr] at hsp hq1
    simp only at hsp hq1
    cases r with
    | error e =>
      rw [M.bind_error (M.bind_error hr)] at hc
      rw [hc] at h; simp at h
    | ok p =>
      rcases hsp with ⟨_, h', _⟩ | ⟨_, _, ⟨h', _⟩ | ⟨p', h1, h2, _⟩⟩
      · simp at h'
      · simp at h'
      · simp only [Except.ok.injEq] at h1; subst h1
        have hqs := quiet_attemptRead env p .generic (none : Option String) (none : Option (List K))
          (Or.inl ⟨rfl, rfl⟩) s1
        cases ha : attemptRead p .generic none (none : Option (List K)) s1 with
        | mk r2 s2 =>
          rw [ha] at hqs
          cases r2 with
          | error e =>
            have : (reach name region >>= fun p => attemptRead p .generic none none >>= fun _ =>
                addGView { param := p, writable := false }) s = (.error e, s2) := by
              rw [M.bind_ok hr, M.bind_error ha]
            rw [M.bind_error this] at hc
            rw [hc] at h; simp at h
          | ok _ =>
            have : (reach name region >>= fun p => attemptRead p .generic none none >>= fun _ =>
                addGView { param := p, writable := false }) s
                = (.ok s2.gviews.length, { s2 with gviews := s2.gviews ++ [⟨p, false⟩] }) := by
              rw [M.bind_ok hr, M.bind_ok ha]; rfl
            rw [M.bind_ok this] at hc
            rw [hc] at h ⊢
            have h : s2.gviews.length = i := by
              have h : (Except.ok (Out.view s2.gviews.length) : Res K G) = .ok (.view i) := h
              simpa using h
            subst h
            have hk2 : HasKey s2 p (region.parts, name.parts) := h2.mono (hqs.pext hq1) hqs.rext
            refine ⟨p, ⟨p, false⟩, ?_, ?_, rfl⟩
            · have hx : PExt s2 { s2 with gviews := s2.gviews ++ [⟨p, false⟩] } := .of_eq rfl
              have hy : RExt s2 { s2 with gviews := s2.gviews ++ [⟨p, false⟩] } := .of_eq rfl
              exact hk2.mono hx hy
            · show (s2.gviews ++ [_])[s2.gviews.length]? = some _
              simp

theorem generic_added {env : Env K} {s : St K G} (hs : Reachable env s) {L : List (Key × Item K G)}
    (h : Holds env s L (fun _ _ => False)) {name region : HName} {i : Nat} {g : G}
    (h1 : result env s (.generic name region) = .ok (.view i))
    (h2 : result env (call env (.generic name region) s).2 (.gSet i g) = .ok .done) :
    Holds env (call env (.gSet i g) (call env (.generic name region) s).2).2
      (putItem (region.parts, name.parts) (.generic g) L) (fun _ _ => False) := by
  have hi := hs.inv
  have hi1 := (hs.call (.generic name region)).inv
  obtain ⟨p, v, hk, hv, rfl⟩ := generic_view hi h1
  have H1 := h.request hi (op := .generic name region) rfl rfl h1
  generalize (call env (.generic name region) s).2 = s1 at *
  obtain ⟨P, q2, q3, _⟩ := hi1.good.gviews i v hv
  have q5 : P.children = [] := by
    by_contra hc
    unfold result at h2
    rw [gSet_children hi1 hv q2 hc] at h2; simp at h2
  have q4 := gSet_leaf (x := g) hi1 hv q2 q5
  have hvk : viewKey env s1 (.g i) = some (region.parts, name.parts) :=
    (viewKey_some hi1).2 ⟨v.param, _, by simp only [viewTarget, hv, Option.map_some]; rfl, hk⟩
  have H2 := H1.other hi1 (op := .gSet i g) (r := .g i) rfl hvk
  refine H2.put ?_ ⟨v.param, P.put (.generic (some g)), hk.mono (call_pext _ hi1) (call_rext _ hi1), ?_, rfl, ?_, rfl⟩
  · rintro k' t' ((h | h) | h)
    · exact h.elim
    · exact h.1
    · exact h.1
  · rw [q4]
    show (s1.setParam v.param _).params[v.param]? = _
    rw [setParam_self, q2]; rfl
  · exact q3

end Openscm
