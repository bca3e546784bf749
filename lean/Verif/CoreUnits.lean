import Verif.CoreProps10
import Verif.FreshRead
import Verif.TimeAffine

/-!
# C71: views that differ in their unit show the same quantity

Reading a view and converting what it shows to another unit is reading a view in that unit, also if
time points are converted on the way.  False for views of parameters with children in units with an
offset.
-/

set_option linter.unusedSectionVars false

namespace Openscm
variable {K G : Type} [Field K] [LinearOrder K] [IsStrictOrderedRing K]

/-! ## Specification -/

/-- What was read, every number mapped by `f`; exceptions stay. -/
def inUnit (f : K → K) : Res K G → Res K G
  | .ok (.num x) => .ok (.num (x.map f))
  | .ok (.arr d) => .ok (.arr (.floats (d.vals.map (Fl.map f))))
  | r => r

/-! ## Lemmas -/

theorem pintTo_affine (a b : UDef K) :
    pintTo a b = affine (a.scale / b.scale) ((a.offset - b.offset) / b.scale) := by
  funext x
  simp only [pintTo, UDef.toBase, UDef.ofBase, affine]
  have := b.scale_ne
  field_simp
  ring

/-- Two converters from the same unit. -/
theorem convertFrom_pintTo {reg : Registry K} {u : String} {c c' : Conv K}
    (h : mkConv reg u c.target = .ok c) (h' : mkConv reg u c'.target = .ok c') :
    ∃ a b, reg c.target = some a ∧ reg c'.target = some b ∧ a.dim = b.dim ∧
      ∀ x, c'.convertFrom x = pintTo a b (c.convertFrom x) := by
  obtain ⟨a, b, ha, hb, hab⟩ := conv_between h h'
  obtain ⟨s, t, hs, ht, hd, _⟩ := mkConv_ok h
  obtain ⟨s', t', hs', ht', hd', _⟩ := mkConv_ok h'
  rw [hs] at hs'; cases hs'
  rw [ha] at ht; cases ht
  rw [hb] at ht'; cases ht'
  refine ⟨a, b, ha, hb, hd.symm.trans hd', fun x => ?_⟩
  rw [← hab, C32_to_from h]

theorem inUnit_arr (f : K → K) (x : Except Err (List (Fl K))) :
    inUnit f (x.map (fun a => (.arr (.floats a) : Out K G)))
      = (x.map (List.map (Fl.map f))).map (fun a => (.arr (.floats a) : Out K G)) := by
  cases x <;> rfl

/-- A new view of the childless parameter `P` in another unit. -/
theorem freshOf_unit {env : Env K} (P : Param K G) {w1 w2 : String} {a b : UDef K}
    (ha : env.units w1 = some a) (hb : env.units w2 = some b) (hd : a.dim = b.dim) (tps : List K)
    (ty : TyArg) (int : IntArg) (ext : ExtArg) :
    freshOf env P w2 tps ty int ext = inUnit (pintTo a b) (freshOf env P w1 tps ty int ext) := by
  unfold freshOf
  cases ty.parse with
  | error e => rfl
  | ok t =>
  cases int.parse with
  | error e => rfl
  | ok y =>
  cases ext.parse with
  | error e => rfl
  | ok x =>
  simp only [bind, Except.bind]
  by_cases ht : P.ptype ≠ some t
  · rw [if_pos ht, if_pos ht]; rfl
  rw [if_neg ht, if_neg ht]
  cases hu : P.unit with
  | none => rfl
  | some u =>
  simp only [mkConvOpt]
  cases h1 : mkConv env.units u w1 with
  | error e =>
    have : mkConv env.units u w2 = .error e := by
      unfold mkConv at h1 ⊢
      cases hs : env.units u with
      | none => rw [hs] at h1; exact h1
      | some s =>
        rw [hs, ha] at h1
        rw [hb]
        simp only at h1 ⊢
        by_cases hsd : s.dim = a.dim
        · rw [if_pos hsd] at h1; cases h1
        · rw [if_neg hsd] at h1
          rw [if_neg (by rw [← hd]; exact hsd)]
          exact h1
    rw [this]; rfl
  | ok c1 =>
    obtain ⟨s, t1, hs, ht1, hsd, _, e1, _⟩ := mkConv_ok h1
    rw [ha] at ht1; cases ht1
    cases h2 : mkConv env.units u w2 with
    | error e =>
      exfalso
      unfold mkConv at h2
      rw [hs, hb] at h2
      simp only at h2
      rw [if_pos (by rw [hsd, hd])] at h2
      cases h2
    | ok c2 =>
      obtain ⟨_, _, _, _, _, _, e2, _⟩ := mkConv_ok h2
      obtain ⟨a', b', ha', hb', _, hab⟩ := convertFrom_pintTo (reg := env.units) (u := u) (c := c1)
        (c' := c2) (by rw [e1]; exact h1) (by rw [e2]; exact h2)
      rw [e1, ha] at ha'; cases ha'
      rw [e2, hb] at hb'; cases hb'
      simp only
      cases P.tps with
      | none => rfl
      | some src =>
        simp only
        cases mkTSConv src tps t x with
        | error e => rfl
        | ok ts =>
          simp only
          split
          · rfl
          · cases P.data with
            | series l =>
              simp only
              rw [inUnit_arr]
              have : l.map (Fl.map c2.convertFrom) = (l.map (Fl.map c1.convertFrom)).map
                  (Fl.map (pintTo a b)) := by
                rw [List.map_map]
                refine List.map_congr_left fun z _ => ?_
                show _ = Fl.map _ (Fl.map _ z)
                rw [Fl.map_map]
                congr 1
                funext q; exact hab q
              unfold TSConv.convertFrom
              rw [this, pintTo_affine, convert_affine]
            | _ => rfl

/-! ## Parameters without children -/

/-- **C71**, scalar views of a parameter without children: at any time one shows exactly what the
other shows, converted as pint does, or both raise the same exception. -/
theorem C71_scalar {env : Env K} {s : St K G} (hs : Reachable env s) {i j : Nat} {I J : Info}
    (hI : viewInfo env s (.s i) = some I) (hJ : viewInfo env s (.s j) = some J) (hk : I.key = J.key)
    (hc : ¬ HasChildren env s I.key) :
    ∃ u w a b, I.unit = some u ∧ J.unit = some w ∧ env.units u = some a ∧ env.units w = some b ∧
      result env s (.sGet j) = inUnit (pintTo a b) (result env s (.sGet i)) := by
  have hi := hs.inv
  obtain ⟨p, u, k, P1, a1, a2, a3, rfl⟩ := (viewInfo_some hi).1 hI
  obtain ⟨q, u', k', P2, b1, b2, b3, rfl⟩ := (viewInfo_some hi).1 hJ
  have hkk : k = k' := by
    simp only [Info.key, Prod.mk.injEq] at hk
    exact Prod.ext hk.1 hk.2
  subst hkk
  have hpq : p = q := a2.inj hi.tree b2
  subst hpq
  rw [a3] at b3; cases b3
  have hch : P1.children = [] := (not_hasChildren_iff hi.tree a2 a3).1 hc
  simp only [viewTarget, Option.map_eq_some_iff, Prod.mk.injEq] at a1 b1
  obtain ⟨v, hv, rfl, rfl⟩ := a1
  obtain ⟨w, hw, hwv, rfl⟩ := b1
  obtain ⟨Q1, z, c1, c2, c3, c4, c5, _⟩ := (hi.good.sviews i v hv).ex
  obtain ⟨Q2, z', d1, d2, d3, d4, d5, _⟩ := (hi.good.sviews j w hw).ex
  rw [a3] at c1; cases c1
  rw [hwv, a3] at d1; cases d1
  rw [c4] at d4; cases d4
  obtain ⟨a, b, ha, hb, _, hab⟩ := convertFrom_pintTo c5 d5
  refine ⟨_, _, a, b, rfl, rfl, ha, hb, ?_⟩
  unfold result
  rw [sGet_eq hv, sGet_eq hw]
  unfold scalarValue
  rw [hwv, a3]
  simp only [hch, ne_eq, not_true_eq_false, if_false]
  unfold readScalarLeaf
  rw [a3]
  simp only [hch, ne_eq, not_true_eq_false, if_false]
  split
  · rfl
  · cases P1.data with
    | scalar x =>
      simp only [Except.map, inUnit, Fl.map_map]
      congr 3
      funext y; exact hab y
    | _ => rfl

/-- **C71**, new timeseries views: whoever asks for the same time points in another unit of the same
dimension sees the same values converted, or the same exception. -/
theorem C71_new {env : Env K} {s : St K G} (hs : Reachable env s) {k : Key} {I : Info}
    (hI : infoAt env s k = some I) (ht : I.ptype ≠ none) (hc : ¬ HasChildren env s k)
    {w1 w2 : String} {a b : UDef K} (ha : env.units w1 = some a) (hb : env.units w2 = some b)
    (hd : a.dim = b.dim) (tps : List K) (ty : TyArg) (int : IntArg) (ext : ExtArg) :
    freshRead env s k w2 tps ty int ext = inUnit (pintTo a b) (freshRead env s k w1 tps ty int ext) := by
  have hi := hs.inv
  obtain ⟨p, P, h1, h2, rfl⟩ := (infoAt_some hi.tree).1 hI
  have hch : P.children = [] := (not_hasChildren_iff hi.tree h1 h2).1 hc
  rw [freshRead_eq hi h1 h2 ht hch, freshRead_eq hi h1 h2 ht hch]
  exact freshOf_unit P ha hb hd tps ty int ext

/-- A view nobody wrote through shows what a new view shows. -/
theorem unwritten_view {env : Env K} {root : String} {ops : List (Op K G)} {i : Nat}
    {name region : HName} {w : String} {tps : List K} {ty : TyArg} {int : IntArg} {ext : ExtArg}
    (h : Obtained env root ops i (.timeseries name w tps region ty int ext))
    (hc : ¬ HasChildren env (after env (St.init root) ops) (region.parts, name.parts))
    (hw : ∀ op ∈ ops, writesView op ≠ some (.t i)) :
    result env (after env (St.init root) ops) (.tGet i)
      = freshRead env (after env (St.init root) ops) (region.parts, name.parts) w tps ty int ext := by
  obtain ⟨pre, mid, rfl, hok⟩ := h
  have hc' : ¬ HasChildren env (after env (St.init root)
      (pre ++ [.timeseries name w tps region ty int ext])) (region.parts, name.parts) := by
    intro hch
    apply hc
    obtain ⟨n, hn⟩ := hch
    have hi1 := after_inv (K := K) (G := G) (pre ++ [.timeseries name w tps region ty int ext])
      (Inv.init env root)
    have happ : after env (St.init root : St K G) (pre ++ .timeseries name w tps region ty int ext :: mid)
        = after env (after env (St.init root) (pre ++ [.timeseries name w tps region ty int ext])) mid := by
      rw [← after_append]; simp
    refine ⟨n, ?_⟩
    rw [happ]
    rw [Ne, infoAt_none hi1.tree, not_not] at hn
    rw [Ne, infoAt_none (after_inv mid hi1).tree, not_not]
    obtain ⟨p, hp⟩ := hn
    exact ⟨p, after_key hi1 mid hp⟩
  rcases C12_current_partial (mid := mid) hok hc' (fun a op b hm hwo =>
    absurd hwo (hw op (by rw [hm]; simp))) with h | ⟨d, ⟨a, op, b, hm, hwo, _⟩, _⟩
  · exact h
  · exact absurd hwo (hw op (by rw [hm]; simp))

/-- **C71**, timeseries views of a parameter without children on the same time points, obtained at
any times and not used for writing: at any time one shows exactly what the other shows, converted as
pint does, or both raise the same exception. -/
theorem C71_timeseries {env : Env K} {root : String} {ops : List (Op K G)} {i j : Nat}
    {n1 r1 n2 r2 : HName} {w1 w2 : String} {tps : List K} {ty : TyArg} {int : IntArg} {ext : ExtArg}
    (h1 : Obtained env root ops i (.timeseries n1 w1 tps r1 ty int ext))
    (h2 : Obtained env root ops j (.timeseries n2 w2 tps r2 ty int ext))
    (hk : (r1.parts, n1.parts) = (r2.parts, n2.parts))
    (hc : ¬ HasChildren env (after env (St.init root) ops) (r1.parts, n1.parts))
    (hw1 : ∀ op ∈ ops, writesView op ≠ some (.t i)) (hw2 : ∀ op ∈ ops, writesView op ≠ some (.t j)) :
    ∃ a b, env.units w1 = some a ∧ env.units w2 = some b ∧
      result env (after env (St.init root) ops) (.tGet j)
        = inUnit (pintTo a b) (result env (after env (St.init root) ops) (.tGet i)) := by
  have hs : Reachable env (after env (St.init root) ops) := ⟨root, ops, rfl⟩
  have hi := hs.inv
  obtain ⟨v1, hv1, hk1, ht1, _⟩ := obtained_view h1
  obtain ⟨v2, hv2, hk2, ht2, _⟩ := obtained_view h2
  rw [← hk] at hk2
  have hpq := hk1.inj hi.tree hk2
  obtain ⟨P, u, t, p1, p2, p3, p4, _⟩ := (hi.good.tviews i v1 hv1).leaf.ex
  obtain ⟨P', u', t', q1, q2, q3, q4, _⟩ := (hi.good.tviews j v2 hv2).leaf.ex
  rw [← hpq, p1] at q1; cases q1
  rw [p3] at q3; cases q3
  obtain ⟨a, b, ha, hb, hd, _⟩ := convertFrom_pintTo p4 q4
  rw [ht1] at ha
  rw [ht2] at hb
  refine ⟨a, b, ha, hb, ?_⟩
  rw [unwritten_view h1 hc hw1, unwritten_view h2 (by rw [← hk]; exact hc) hw2, ← hk]
  exact C71_new hs (infoAt_of hi.tree hk1 p1) p2 hc ha hb hd tps ty int ext

/-! ## Parameters with children -/

/-- Sums of `n` numbers in another unit. -/
def sumUnit (a b : UDef K) (n : Nat) (x : K) : K := pintTo a b x + ((n : K) - 1) * pintTo a b 0

theorem Fl.add_affine (p q m n : K) (x y : Fl K) :
    Fl.add (x.map fun z => p * z + m * q) (y.map fun z => p * z + n * q)
      = (Fl.add x y).map fun z => p * z + (m + n) * q := by
  cases x <;> cases y <;> simp only [Fl.map, Fl.add]
  congr 1; ring

theorem lastIn_unit {env : Env K} (L : List (Key × Entry K G)) (a b : UDef K) (k : Key) :
    lastIn env L b k = (lastIn env L a k).map (Fl.map (pintTo a b)) := by
  unfold lastIn
  split
  · rename_i x u _
    cases env.units u with
    | none => rfl
    | some c =>
      simp only [Option.map_some, Fl.map_map]
      congr 2
      funext y
      have := a.scale_ne
      have := b.scale_ne
      simp only [pintTo, UDef.toBase, UDef.ofBase]
      field_simp
      ring
  · rfl

theorem totalIn_unit {env : Env K} (L : List (Key × Entry K G)) (a b : UDef K) (ks : List Key) :
    totalIn env L b ks = (totalIn env L a ks).map (Fl.map fun x =>
      a.scale / b.scale * x + (ks.length : K) * ((a.offset - b.offset) / b.scale)) := by
  induction ks with
  | nil => simp [totalIn, Fl.map]
  | cons k ks ih =>
    unfold totalIn at ih ⊢
    simp only [List.foldr_cons]
    rw [ih, lastIn_unit L a b, pintTo_affine]
    cases lastIn env L a k with
    | none => rfl
    | some x =>
      cases ks.foldr (fun k acc => Option.map₂ Fl.add (lastIn env L a k) acc) (some (.num 0)) with
      | none => rfl
      | some y =>
        simp only [Option.map_some, Option.map₂_some_some]
        have : affine (a.scale / b.scale) ((a.offset - b.offset) / b.scale)
            = fun z => a.scale / b.scale * z + (1 : K) * ((a.offset - b.offset) / b.scale) := by
          funext z; simp [affine]
        rw [this, Fl.add_affine]
        congr 2
        funext z
        rw [List.length_cons, Nat.cast_add, Nat.cast_one, add_comm (1 : K)]

theorem sumUnit_eq (a b : UDef K) (n : Nat) : sumUnit a b n = fun x =>
    a.scale / b.scale * x + (n : K) * ((a.offset - b.offset) / b.scale) := by
  funext x
  simp only [sumUnit, pintTo_affine, affine]
  ring

theorem sumUnit_zero {a b : UDef K} (h : pintTo a b 0 = 0) (n : Nat) : sumUnit a b n = pintTo a b := by
  funext x; simp [sumUnit, h]

theorem children_stay {env : Env K} {s : St K G} (hi : Inv env s) (ops : List (Op K G)) {k : Key}
    (h : HasChildren env s k) : HasChildren env (after env s ops) k := by
  obtain ⟨n, hn⟩ := h
  refine ⟨n, ?_⟩
  rw [Ne, infoAt_none hi.tree, not_not] at hn
  rw [Ne, infoAt_none (after_inv ops hi).tree, not_not]
  obtain ⟨p, hp⟩ := hn
  exact ⟨p, after_key hi ops hp⟩

theorem ptype_stays {env : Env K} {s : St K G} (hi : Inv env s) (ops : List (Op K G)) {k : Key} {t : PType}
    (h : (infoAt env s k).bind Info.ptype = some t) :
    (infoAt env (after env s ops) k).bind Info.ptype = some t := by
  cases hI : infoAt env s k with
  | none => rw [hI] at h; cases h
  | some I =>
    rw [hI] at h
    obtain ⟨p, P, h1, h2, rfl⟩ := (infoAt_some hi.tree).1 hI
    obtain ⟨P', h3, hle⟩ := after_pext ops hi p P h2
    rw [infoAt_of (after_inv ops hi).tree (after_key hi ops h1) h3]
    exact hle.ptype t h

/-- **C71**, scalar views of a parameter with `n` childless descendants, the same at both requests:
at any time one shows what the other shows converted, plus `n - 1` times the conversion of zero.
Missing from C71: that this is the conversion, which is false if zero is not converted to zero
(`C71_offset`). -/
theorem C71_scalar_sum_partial {env : Env K} {root : String} {pre mid post : List (Op K G)}
    {n1 r1 n2 r2 : HName} {w1 w2 : String} {a b : UDef K} {i j : Nat} {ks : List Key}
    (h1 : result env (after env (St.init root) pre) (.scalar n1 w1 r1) = .ok (.view i))
    (h2 : result env (after env (St.init root) (pre ++ .scalar n1 w1 r1 :: mid)) (.scalar n2 w2 r2)
      = .ok (.view j))
    (hk : (r1.parts, n1.parts) = (r2.parts, n2.parts))
    (ha : env.units w1 = some a) (hb : env.units w2 = some b)
    (hch : HasChildren env (after env (St.init root) (pre ++ [.scalar n1 w1 r1])) (r1.parts, n1.parts))
    (hks1 : LeafList env (after env (St.init root) (pre ++ [.scalar n1 w1 r1])) (r1.parts, n1.parts) ks)
    (hks2 : LeafList env (after env (St.init root) (pre ++ .scalar n1 w1 r1 :: mid ++ [.scalar n2 w2 r2]))
      (r1.parts, n1.parts) ks)
    (hty : ∀ k' ∈ ks, (infoAt env (after env (St.init root) (pre ++ [.scalar n1 w1 r1])) k').bind
      Info.ptype = some .scalar) :
    let s := after env (St.init root) (pre ++ .scalar n1 w1 r1 :: mid ++ .scalar n2 w2 r2 :: post)
    result env s (.sGet j) = inUnit (sumUnit a b ks.length) (result env s (.sGet i)) := by
  have hi1 := after_inv (K := K) (G := G) (pre ++ [.scalar n1 w1 r1]) (Inv.init env root)
  have e2 : after env (St.init root : St K G) (pre ++ .scalar n1 w1 r1 :: mid ++ [.scalar n2 w2 r2])
      = after env (after env (St.init root) (pre ++ [.scalar n1 w1 r1])) (mid ++ [.scalar n2 w2 r2]) := by
    rw [← after_append]; simp
  have e3 : pre ++ .scalar n1 w1 r1 :: mid ++ .scalar n2 w2 r2 :: post
      = pre ++ .scalar n1 w1 r1 :: (mid ++ .scalar n2 w2 r2 :: post) := by simp
  have A := C10_original_leaves (post := mid ++ .scalar n2 w2 r2 :: post) h1 ha hch hks1 hty
  have hch2 : HasChildren env (after env (St.init root)
      (pre ++ .scalar n1 w1 r1 :: mid ++ [.scalar n2 w2 r2])) (r2.parts, n2.parts) := by
    rw [e2, ← hk]; exact children_stay hi1 _ hch
  have B := C10_original_leaves (post := post) (ks := ks) h2 hb hch2 (by rw [← hk]; exact hks2)
    (fun k' hk' => by rw [e2]; exact ptype_stays hi1 _ (hty k' hk'))
  intro s
  show result env (after env (St.init root) (pre ++ .scalar n1 w1 r1 :: mid ++ .scalar n2 w2 r2 :: post))
      (.sGet j) = inUnit _ (result env (after env (St.init root)
        (pre ++ .scalar n1 w1 r1 :: mid ++ .scalar n2 w2 r2 :: post)) (.sGet i))
  rw [B, e3, A, totalIn_unit _ a b, sumUnit_eq]
  cases totalIn env (writes env root (pre ++ .scalar n1 w1 r1 :: (mid ++ .scalar n2 w2 r2 :: post))) a ks
    <;> rfl

/-- **C71**, scalar views of a parameter with children in units without offset. -/
theorem C71_scalar_sum {env : Env K} {root : String} {pre mid post : List (Op K G)}
    {n1 r1 n2 r2 : HName} {w1 w2 : String} {a b : UDef K} {i j : Nat} {ks : List Key}
    (h1 : result env (after env (St.init root) pre) (.scalar n1 w1 r1) = .ok (.view i))
    (h2 : result env (after env (St.init root) (pre ++ .scalar n1 w1 r1 :: mid)) (.scalar n2 w2 r2)
      = .ok (.view j))
    (hk : (r1.parts, n1.parts) = (r2.parts, n2.parts))
    (ha : env.units w1 = some a) (hb : env.units w2 = some b) (hz : pintTo a b 0 = 0)
    (hch : HasChildren env (after env (St.init root) (pre ++ [.scalar n1 w1 r1])) (r1.parts, n1.parts))
    (hks1 : LeafList env (after env (St.init root) (pre ++ [.scalar n1 w1 r1])) (r1.parts, n1.parts) ks)
    (hks2 : LeafList env (after env (St.init root) (pre ++ .scalar n1 w1 r1 :: mid ++ [.scalar n2 w2 r2]))
      (r1.parts, n1.parts) ks)
    (hty : ∀ k' ∈ ks, (infoAt env (after env (St.init root) (pre ++ [.scalar n1 w1 r1])) k').bind
      Info.ptype = some .scalar) :
    let s := after env (St.init root) (pre ++ .scalar n1 w1 r1 :: mid ++ .scalar n2 w2 r2 :: post)
    result env s (.sGet j) = inUnit (pintTo a b) (result env s (.sGet i)) := by
  rw [← sumUnit_zero hz ks.length]
  exact C71_scalar_sum_partial h1 h2 hk ha hb hch hks1 hks2 hty

/-! ### Timeseries -/

theorem zipWith_add_comm (x y : List (Fl K)) :
    List.zipWith Fl.add x y = List.zipWith Fl.add y x := by
  rw [List.zipWith_comm]
  congr 1
  funext a b; exact Fl.add_comm' b a

theorem zipWith_add_assoc (x y z : List (Fl K)) :
    List.zipWith Fl.add (List.zipWith Fl.add x y) z = List.zipWith Fl.add x (List.zipWith Fl.add y z) := by
  induction x generalizing y z with
  | nil => simp
  | cons a x ih =>
    cases y with
    | nil => simp
    | cons b y =>
      cases z with
      | nil => simp
      | cons c z => simp [ih, Fl.add_assoc']

theorem sumArrays_perm {x y : List (List (Fl K))} (h : x.Perm y) : sumArrays x = sumArrays y := by
  have hr : ∀ {l l' : List (List (Fl K))}, l.Perm l' → ∀ a : List (Fl K),
      l.foldl (List.zipWith Fl.add) a = l'.foldl (List.zipWith Fl.add) a := by
    intro l l' hl
    induction hl with
    | nil => intro a; rfl
    | cons x _ ih => intro a; exact ih _
    | swap x y l =>
      intro a
      simp only [List.foldl_cons]
      rw [zipWith_add_assoc, zipWith_add_assoc, zipWith_add_comm y x]
    | trans _ _ ih1 ih2 => intro a; rw [ih1, ih2]
  induction h with
  | nil => rfl
  | cons x h _ => exact hr h x
  | swap x y l => simp only [sumArrays, List.foldl_cons]; rw [zipWith_add_comm]
  | trans _ _ ih1 ih2 => rw [ih1, ih2]

theorem sumArrays_affine (p q : K) (x : List (Fl K)) (ls : List (List (Fl K))) :
    sumArrays ((x :: ls).map (List.map (Fl.map fun z => p * z + 1 * q)))
      = (sumArrays (x :: ls)).map (Fl.map fun z => p * z + ((ls.length + 1 : Nat) : K) * q) := by
  have step : ∀ (m n : K) (x y : List (Fl K)),
      List.zipWith Fl.add (x.map (Fl.map fun z => p * z + m * q)) (y.map (Fl.map fun z => p * z + n * q))
        = (List.zipWith Fl.add x y).map (Fl.map fun z => p * z + (m + n) * q) := by
    intro m n x
    induction x with
    | nil => intro y; rfl
    | cons a x ih =>
      intro y
      cases y with
      | nil => rfl
      | cons b y => simp only [List.map_cons, List.zipWith_cons_cons, ih, Fl.add_affine]
  have go : ∀ (ls : List (List (Fl K))) (m : K) (x : List (Fl K)),
      (ls.map (List.map (Fl.map fun z => p * z + 1 * q))).foldl (List.zipWith Fl.add)
        (x.map (Fl.map fun z => p * z + m * q))
        = (ls.foldl (List.zipWith Fl.add) x).map (Fl.map fun z => p * z + (m + (ls.length : K)) * q) := by
    intro ls
    induction ls with
    | nil => intro m x; simp
    | cons y ls ih =>
      intro m x
      simp only [List.map_cons, List.foldl_cons, step, ih, List.length_cons, Nat.cast_add, Nat.cast_one]
      congr 3
      funext z; ring
  have := go ls 1 x
  simp only [sumArrays, List.map_cons]
  rw [this]
  congr 2
  funext z
  push_cast; ring

/-- Reading in another unit, one by one. -/
theorem arrays_unit (f : K → K) {α : Type} (g h : α → Res K G) (hgh : ∀ k, h k = inUnit f (g k)) (ks : List α) :
    arrays (ks.map h) = (arrays (ks.map g)).map (List.map (List.map (Fl.map f))) := by
  induction ks with
  | nil => rfl
  | cons k ks ih =>
    simp only [List.map_cons]
    rw [hgh k]
    generalize g k = r
    rcases r with e | o
    · rfl
    · cases o <;> simp only [inUnit, arrays, Except.map]
      rw [ih]
      cases arrays (ks.map g) <;> rfl

theorem arrays_length {rs : List (Res K G)} {ls : List (List (Fl K))} (h : arrays rs = .ok ls) :
    ls.length = rs.length := by
  induction rs generalizing ls with
  | nil => simp [arrays] at h; subst h; rfl
  | cons r rs ih =>
    rcases r with e | o
    · simp [arrays] at h
    · cases o <;> simp only [arrays, reduceCtorEq] at h
      cases hr : arrays rs with
      | error e => simp [hr, Except.map] at h
      | ok l =>
        simp only [hr, Except.map, Except.ok.injEq] at h
        subst h
        simp [ih hr]

/-- The order of reading does not matter if nothing raises. -/
theorem arrays_perm {x y : List (Res K G)} (h : x.Perm y) {ls : List (List (Fl K))} (hx : arrays x = .ok ls) :
    ∃ ls', arrays y = .ok ls' ∧ ls.Perm ls' := by
  induction h generalizing ls with
  | nil => exact ⟨ls, hx, .refl _⟩
  | cons r _ ih =>
    rcases r with e | o
    · simp [arrays] at hx
    · cases o <;> simp only [arrays, reduceCtorEq] at hx
      rename_i l1 l2 _ d
      cases hr : arrays l1 with
      | error e => simp [hr, Except.map] at hx
      | ok l =>
        simp only [hr, Except.map, Except.ok.injEq] at hx
        subst hx
        obtain ⟨l', h1, h2⟩ := ih hr
        exact ⟨d.vals :: l', by simp [arrays, h1, Except.map], h2.cons _⟩
  | swap r1 r2 l =>
    rcases r2 with e | o
    · simp [arrays] at hx
    · cases o <;> simp only [arrays, reduceCtorEq] at hx
      rcases r1 with e | o
      · simp [arrays, Except.map] at hx
      · cases o <;> simp only [arrays, Except.map, reduceCtorEq] at hx
        cases hr : arrays l with
        | error e => simp [hr] at hx
        | ok l' =>
          simp only [hr, Except.ok.injEq] at hx
          subst hx
          exact ⟨_, by simp [arrays, hr, Except.map], .swap _ _ _⟩
  | trans _ _ ih1 ih2 =>
    obtain ⟨l1, h1, h2⟩ := ih1 hx
    obtain ⟨l2, h3, h4⟩ := ih2 h1
    exact ⟨l2, h3, h2.trans h4⟩

theorem forall₂_left {α β : Type} {r : α → Except Err β} {l : List α} {l' : List β}
    (h : List.Forall₂ (fun x y => r x = .ok y) l l') {x : α} (hx : x ∈ l) : ∃ y, r x = .ok y := by
  induction h with
  | nil => simp at hx
  | cons h _ ih =>
    rcases List.mem_cons.1 hx with rfl | hx
    · exact ⟨_, h⟩
    · exact ih hx

/-- **C71**, timeseries views of a parameter with `n` childless descendants, the same at both
requests, that were not used yet: what one shows is what the other shows converted, plus `n - 1`
times the conversion of zero.  Missing from C71: that this is the conversion, which is false if zero
is not converted to zero (`C71_offset`), and views that were used, which may be out of date
(`C11_stale_after_child_write`). -/
theorem C71_timeseries_sum_partial {env : Env K} {root : String} {pre mid post : List (Op K G)}
    {n1 r1 n2 r2 : HName} {w1 w2 : String} {tps : List K} {ty : TyArg} {int : IntArg} {ext : ExtArg}
    {a b : UDef K} {i j : Nat} {ks : List Key} {d : Arr K}
    (h1 : result env (after env (St.init root) pre) (.timeseries n1 w1 tps r1 ty int ext) = .ok (.view i))
    (h2 : result env (after env (St.init root) (pre ++ .timeseries n1 w1 tps r1 ty int ext :: mid))
      (.timeseries n2 w2 tps r2 ty int ext) = .ok (.view j))
    (hk : (r1.parts, n1.parts) = (r2.parts, n2.parts))
    (ha : env.units w1 = some a) (hb : env.units w2 = some b) (hd : a.dim = b.dim)
    (hch : HasChildren env (after env (St.init root) (pre ++ [.timeseries n1 w1 tps r1 ty int ext]))
      (r1.parts, n1.parts))
    (hks1 : LeafList env (after env (St.init root) (pre ++ [.timeseries n1 w1 tps r1 ty int ext]))
      (r1.parts, n1.parts) ks)
    (hks2 : LeafList env (after env (St.init root) (pre ++ .timeseries n1 w1 tps r1 ty int ext :: mid ++
      [.timeseries n2 w2 tps r2 ty int ext])) (r1.parts, n1.parts) ks)
    (hty : ∀ k' ∈ ks, (infoAt env (after env (St.init root)
      (pre ++ [.timeseries n1 w1 tps r1 ty int ext])) k').bind Info.ptype
        = asks (.timeseries n1 w1 tps r1 ty int ext : Op K G))
    (hu1 : ∀ op ∈ mid ++ .timeseries n2 w2 tps r2 ty int ext :: post, callee op ≠ some (.t i))
    (hu2 : ∀ op ∈ post, callee op ≠ some (.t j))
    (hr : result env (after env (St.init root) (pre ++ .timeseries n1 w1 tps r1 ty int ext :: mid ++
      .timeseries n2 w2 tps r2 ty int ext :: post)) (.tGet i) = .ok (.arr d)) :
    result env (after env (St.init root) (pre ++ .timeseries n1 w1 tps r1 ty int ext :: mid ++
      .timeseries n2 w2 tps r2 ty int ext :: post)) (.tGet j)
      = inUnit (sumUnit a b ks.length) (.ok (.arr d)) := by
  set q1 : Op K G := .timeseries n1 w1 tps r1 ty int ext with hq1
  set q2 : Op K G := .timeseries n2 w2 tps r2 ty int ext with hq2
  have hi1 := after_inv (K := K) (G := G) (pre ++ [q1]) (Inv.init env root)
  have e2 : after env (St.init root : St K G) (pre ++ q1 :: mid ++ [q2])
      = after env (after env (St.init root) (pre ++ [q1])) (mid ++ [q2]) := by
    rw [← after_append]; simp
  have e3 : pre ++ q1 :: mid ++ q2 :: post = pre ++ q1 :: (mid ++ q2 :: post) := by simp
  have hask : asks q2 = asks q1 := by rw [hq1, hq2]; rfl
  obtain ⟨t, ht⟩ : ∃ t, asks q1 = some t := by
    have hi0 := after_inv (K := K) (G := G) pre (Inv.init env root)
    obtain ⟨_, _, ty', _, _, g1, g2, g3, _⟩ := timeseries_ok hi0 h1
    exact ⟨ty', by rw [hq1]; simp only [asks, g1, g2, g3]⟩
  have hch2 : HasChildren env (after env (St.init root) (pre ++ q1 :: mid ++ [q2])) (r2.parts, n2.parts) := by
    rw [e2, ← hk]; exact children_stay hi1 _ hch
  have hty2 : ∀ k' ∈ ks, (infoAt env (after env (St.init root) (pre ++ q1 :: mid ++ [q2])) k').bind Info.ptype
      = some t := by
    intro k' hk'
    rw [e2]
    exact ptype_stays hi1 _ ((hty k' hk').trans ht)
  obtain ⟨ks1, l1, A⟩ := C11_first_read_partial (post := mid ++ q2 :: post) h1 hch
    (fun k' hl => hty k' ((hks1.2 k').2 hl)) hu1
  obtain ⟨ks2, l2, B⟩ := C11_first_read_partial (post := post) h2 hch2
    (fun k' hl => by
      rw [← hk] at hl
      exact (hty2 k' ((hks2.2 k').2 hl)).trans (by rw [← hq2, hask, ht])) hu2
  rw [← hq1, ← e3, hr] at A
  rw [← hq2] at B
  rw [B]
  rw [← hk] at l2
  have hp1 : ks1.Perm ks := (List.perm_ext_iff_of_nodup l1.1 hks1.1).2 fun k' => by
    rw [l1.2, hks1.2]
  have hp2 : ks2.Perm ks := (List.perm_ext_iff_of_nodup l2.1 hks2.1).2 fun k' => by
    rw [l2.2, hks2.2]
  -- the leaves in the two units
  set s := after env (St.init root : St K G) (pre ++ q1 :: mid ++ q2 :: post) with hs
  have hleaf : ∀ k' ∈ ks, freshRead env s k' w2 tps ty int ext
      = inUnit (pintTo a b) (freshRead env s k' w1 tps ty int ext) := by
    intro k' hk'
    have e4 : s = after env (after env (St.init root : St K G) (pre ++ q1 :: mid ++ [q2])) post := by
      rw [hs, ← after_append]; simp
    have hi2 := after_inv (K := K) (G := G) (pre ++ q1 :: mid ++ [q2]) (Inv.init env root)
    obtain ⟨g1, g2, g3⟩ := (hks2.2 k').1 hk'
    rw [Ne, infoAt_none hi2.tree, not_not] at g1
    obtain ⟨p, hp⟩ := g1
    obtain ⟨P, hP, _⟩ := id hp
    obtain ⟨P', hP', hle⟩ := after_pext post hi2 p P hP
    have ht2 := hty2 k' hk'
    rw [infoAt_of hi2.tree hp hP] at ht2
    simp only [Option.bind_some] at ht2
    have hpr : HasKey s p k' := by rw [e4]; exact after_key hi2 post hp
    have hst : Inv env s := by rw [e4]; exact after_inv post hi2
    rw [← e4] at hP'
    -- a leaf of a viewed parameter has been read, so it never gets children
    have hc : P'.children = [] ∨ P'.children ≠ [] := em _
    have hfr : P.readFrom = true := by
      have hll := timeseries_ok (after_inv (K := K) (G := G) (pre ++ q1 :: mid) (Inv.init env root)) h2
      obtain ⟨pp, v, ty', int', ext', k1, k2, k3, k4, k5, k6⟩ := hll
      rw [← hq2, ← after_snoc] at k4 k5 k6
      obtain ⟨PP, hPP, _⟩ := id k4
      have hne := (hasChildren_iff hi2.tree k4 hPP).1 hch2
      obtain ⟨l, kids, _, hmap, _⟩ : ∃ l kids, mkTLeaf env (after env (St.init root) (pre ++ q1 :: mid ++ [q2]))
            w2 tps ty' ext' pp = .ok l ∧
          mapLeaves (mkTLeaf env (after env (St.init root) (pre ++ q1 :: mid ++ [q2])) w2 tps ty' ext')
            (leaves (after env (St.init root) (pre ++ q1 :: mid ++ [q2])) pp) = .ok kids ∧
          v = { leaf := l, locked := false, writable := false, kids := some kids } := by
        unfold mkTView at k6
        rw [hPP] at k6
        simp only [hne, if_false] at k6
        split at k6
        · simp at k6
        · rename_i l hl
          split at k6
          · simp at k6
          · rename_i kids hm
            injection k6 with k6
            exact ⟨l, kids, hl, hm, k6.symm⟩
      have hll := leaves_list (env := env) hi2.tree k4
      rw [← hk] at hll
      have : k' ∈ (leaves (after env (St.init root) (pre ++ q1 :: mid ++ [q2])) pp).map
          (keyOf (after env (St.init root) (pre ++ q1 :: mid ++ [q2]))) := by
        rw [hll.2]; exact (hks2.2 k').1 hk'
      obtain ⟨x, hx, hxk⟩ := List.mem_map.1 this
      obtain ⟨hdd, Q', hQ', _⟩ := ((leaves_spec hi2.tree pp).2 x).1 hx
      obtain ⟨k'', hk'', _⟩ := hdd.above hi2.tree k4
      rw [keyOf_spec hk''] at hxk
      subst hxk
      have hxp : x = p := hk''.inj hi2.tree hp
      subst hxp
      obtain ⟨l', hl'⟩ : ∃ l', mkTLeaf env (after env (St.init root) (pre ++ q1 :: mid ++ [q2])) w2 tps ty'
          ext' x = .ok l' := by
        exact forall₂_left (mapLeaves_forall₂ hmap) hx
      obtain ⟨_, _, _, Q, src, hQ, hsrc⟩ := mkTLeaf_tps hl'
      rw [hP] at hQ; cases hQ
      refine (hi2.good.params x P hP).series_read ht2 ?_ hsrc
      have : asks q1 = some ty' := by rw [← hask, hq2]; simp only [asks, k1, k2, k3]
      rw [ht] at this; cases this
      exact tyArg_parse k1
    have hch' : P'.children = [] := by
      rw [hle.frozen hfr]; exact (not_hasChildren_iff hi2.tree hp hP).1 g2
    have hpt : P'.ptype = some t := hle.ptype t ht2
    rw [freshRead_eq hst hpr hP' (by rw [hpt]; simp) hch', freshRead_eq hst hpr hP' (by rw [hpt]; simp) hch']
    exact freshOf_unit P' ha hb hd tps ty int ext
  -- add up
  unfold sumReads at A ⊢
  cases hA : arrays (ks1.map fun k' => freshRead env s k' w1 tps ty int ext) with
  | error e => rw [hA] at A; cases A
  | ok ls1 =>
    rw [hA] at A
    simp only [Except.map, Except.ok.injEq, Out.arr.injEq] at A
    obtain ⟨ls2, g1, g2⟩ := arrays_perm ((hp1.trans hp2.symm).map
      (fun k' => freshRead env s k' w1 tps ty int ext)) hA
    have hcongr : (ks2.map fun k' => freshRead env s k' w2 tps ty int ext)
        = ks2.map fun k' => inUnit (pintTo a b) (freshRead env s k' w1 tps ty int ext) :=
      List.map_congr_left fun k' hk' => hleaf k' ((hp2.mem_iff).1 hk')
    rw [hcongr, arrays_unit (pintTo a b) (fun k' => freshRead env s k' w1 tps ty int ext) _ (fun _ => rfl), g1]
    have hlen : ls2.length = ks.length := by
      rw [arrays_length g1, List.length_map, hp2.length_eq]
    have hne : ls2 ≠ [] := by
      intro h0
      rw [h0] at hlen
      have hnil : ks = [] := List.length_eq_zero_iff.1 hlen.symm
      rw [hnil] at hks1
      have hll := timeseries_ok (after_inv (K := K) (G := G) pre (Inv.init env root)) h1
      obtain ⟨pp, v, ty', int', ext', k1, k2, k3, k4, k5, k6⟩ := hll
      rw [← hq1, ← after_snoc] at k4 k5 k6
      obtain ⟨hv, hkk⟩ := mkTView_kids hi1.tree k6
      have hll := leaves_list (env := env) hi1.tree k4
      have hgood := hi1.good.tviews i v k5
      obtain ⟨P, hP, _, _, _, _, hkids⟩ := hgood.ex
      have hkp : v.leaf.param = pp := hv
      rw [hkp] at hP
      have hne := (hasChildren_iff hi1.tree k4 hP).1 hch
      obtain ⟨kids, hkids⟩ := Option.isSome_iff_exists.1 (hkids hne)
      have hk0 := hgood.kidsNe kids hkids
      obtain ⟨x, hx⟩ := List.exists_mem_of_ne_nil _ hk0
      have hx' := hgood.kids kids hkids x hx
      have hlv : leaves (after env (St.init root : St K G) (pre ++ [q1])) pp = [] := by
        have : (leaves (after env (St.init root : St K G) (pre ++ [q1])) pp).map
            (keyOf (after env (St.init root) (pre ++ [q1]))) = [] := by
          rw [List.eq_nil_iff_forall_not_mem]
          intro z hz
          rw [hll.2] at hz
          have := (hks1.2 z).2 hz
          simp at this
        exact List.map_eq_nil_iff.1 this
      unfold mkTView at k6
      rw [hP] at k6
      simp only [hne, if_false, hlv] at k6
      split at k6
      · simp at k6
      · simp only [mapLeaves] at k6
        injection k6 with k6
        rw [← k6] at hkids
        simp only [Option.some.injEq] at hkids
        exact hk0 hkids.symm
    match ls2, hne with
    | x :: ls, _ =>
      simp only [Except.map, inUnit]
      have haff : Fl.map (pintTo a b) = Fl.map fun z =>
          a.scale / b.scale * z + 1 * ((a.offset - b.offset) / b.scale) := by
        rw [pintTo_affine]; simp only [one_mul]; rfl
      rw [haff, sumArrays_affine]
      congr 3
      have hA' : d.vals = sumArrays ls1 := by rw [A]; rfl
      rw [hA', sumUnit_eq, ← hlen, sumArrays_perm g2]
      rfl

/-! ## Concrete cases -/

/-- Hypotheses of `C71_scalar` met, and what is read. -/
example :
    demo [.scalar (.seq ["a"]) "K" world, .scalar (.seq ["a"]) "degC" world, .sSet 0 (.num 300), .sGet 0, .sGet 1]
    = [.ok (.view 0), .ok (.view 1), .ok .done, .ok (.num (.num 300)), .ok (.num (.num (537 / 20)))] := by
  decide +kernel

example : ∃ a b, demoEnv.units "K" = some a ∧ demoEnv.units "degC" = some b ∧
    result demoEnv (demoSt [points ["a"] "K" [0, 10, 20], .tSet 0 (nums [1, 2, 4]), points ["a"] "K" [0, 5, 15],
      points ["a"] "degC" [0, 5, 15]]) (.tGet 2)
    = inUnit (pintTo a b) (result demoEnv (demoSt [points ["a"] "K" [0, 10, 20], .tSet 0 (nums [1, 2, 4]),
        points ["a"] "K" [0, 5, 15], points ["a"] "degC" [0, 5, 15]]) (.tGet 1)) := by
  refine C71_timeseries (K := ℚ) (G := ℕ) (env := demoEnv) (root := "World")
    (ops := [points ["a"] "K" [0, 10, 20], .tSet 0 (nums [1, 2, 4]), points ["a"] "K" [0, 5, 15],
      points ["a"] "degC" [0, 5, 15]]) (i := 1) (j := 2) (n1 := .seq ["a"]) (n2 := .seq ["a"])
    (r1 := world) (r2 := world) (tps := [0, 5, 15]) (ty := .enum .point) (int := .enum .linear)
    (ext := .enum .linear)
    ⟨[points ["a"] "K" [0, 10, 20], .tSet 0 (nums [1, 2, 4])], [points ["a"] "degC" [0, 5, 15]], rfl,
      by decide +kernel⟩
    ⟨[points ["a"] "K" [0, 10, 20], .tSet 0 (nums [1, 2, 4]), points ["a"] "K" [0, 5, 15]], [], rfl,
      by decide +kernel⟩ rfl ?_ (by simp [points, writesView]) (by simp [points, writesView])
  rintro ⟨n, hn⟩
  apply hn
  have hi := (demoSt_reachable [points ["a"] "K" [0, 10, 20], .tSet 0 (nums [1, 2, 4]),
    points ["a"] "K" [0, 5, 15], points ["a"] "degC" [0, 5, 15]]).inv
  by_contra hne
  refine C05_no_children (demoSt_reachable [points ["a"] "K" [0, 10, 20], .tSet 0 (nums [1, 2, 4])])
    (k := (["World"], ["a"])) (I := ⟨["a"], ["World"], some .point, some "K", false, 1⟩) (by decide +kernel) rfl
    [points ["a"] "K" [0, 5, 15], points ["a"] "degC" [0, 5, 15]] ⟨n, hne⟩

/-- What these views show. -/
example :
    demo [points ["a"] "K" [0, 10, 20], .tSet 0 (nums [1, 2, 4]), points ["a"] "K" [0, 5, 15],
      points ["a"] "degC" [0, 5, 15], .tGet 1, .tGet 2]
    = [.ok (.view 0), .ok .done, .ok (.view 1), .ok (.view 2), .ok (.arr (nums [1, 3/2, 3])),
      .ok (.arr (nums [-5443/20, -5433/20, -5403/20]))] := by decide +kernel

/-- **C71** is violated for parameters with children in units with an offset: 300 K is shown as
-246.3 degC, by a scalar view and by a view of a timeseries (300 K are 26.85 degC). -/
theorem C71_offset :
    demo [.scalar (.seq ["a", "x"]) "K" world, .sSet 0 (.num 100), .scalar (.seq ["a", "y"]) "K" world,
      .sSet 1 (.num 200), .scalar (.seq ["a"]) "K" world, .scalar (.seq ["a"]) "degC" world, .sGet 2, .sGet 3,
      points ["b", "x"] "K" [0, 1, 2], .tSet 0 (nums [100, 100, 100]), points ["b", "y"] "K" [0, 1, 2],
      .tSet 1 (nums [200, 200, 200]), points ["b"] "K" [0, 1, 2], points ["b"] "degC" [0, 1, 2], .tGet 2, .tGet 3]
    = [.ok (.view 0), .ok .done, .ok (.view 1), .ok .done, .ok (.view 2), .ok (.view 3), .ok (.num (.num 300)),
      .ok (.num (.num (-2463/10))), .ok (.view 0), .ok .done, .ok (.view 1), .ok .done, .ok (.view 2),
      .ok (.view 3), .ok (.arr (nums [300, 300, 300])), .ok (.arr (nums [-2463/10, -2463/10, -2463/10]))] ∧
    ∃ a b, demoEnv.units "K" = some a ∧ demoEnv.units "degC" = some b ∧ pintTo a b 300 = 537/20 := by
  refine ⟨by decide +kernel, ?_⟩
  refine ⟨_, _, by simp [demoEnv, demoReg]; rfl, by simp [demoEnv, demoReg]; rfl, ?_⟩
  norm_num [pintTo, UDef.toBase, UDef.ofBase]

/-- Hypotheses of `C71_scalar_sum` and `C71_timeseries_sum_partial` met: two leaves, K and mK. -/
example :
    demo [.scalar (.seq ["a", "x"]) "K" world, .sSet 0 (.num 100), .scalar (.seq ["a", "y"]) "degC" world,
      .sSet 1 (.num 200), .scalar (.seq ["a"]) "K" world, .scalar (.seq ["a"]) "mK" world, .sGet 2, .sGet 3,
      points ["b", "x"] "K" [0, 10, 20], .tSet 0 (nums [1, 2, 4]), points ["b", "y"] "mK" [0, 1, 2],
      .tSet 1 (nums [1, 2, 3]), points ["b"] "K" [0, 5, 15], points ["b"] "mK" [0, 5, 15], .tGet 2, .tGet 3]
    = [.ok (.view 0), .ok .done, .ok (.view 1), .ok .done, .ok (.view 2), .ok (.view 3), .ok (.num (.num (11463/20))),
      .ok (.num (.num 573150)), .ok (.view 0), .ok .done, .ok (.view 1), .ok .done, .ok (.view 2),
      .ok (.view 3), .ok (.arr (nums [1001/1000, 753/500, 377/125])), .ok (.arr (nums [1001, 1506, 3016]))] := by
  decide +kernel

end Openscm
