import Verif.CoreProps4

/-!
# C09, C10: aggregated scalar views
-/

set_option linter.unusedSectionVars false

namespace Openscm
variable {K G : Type} [Field K] [LinearOrder K] [IsStrictOrderedRing K]

/-! ## Specification -/

/-- `k'` is `k` or below it and has no children, as far as `info` shows. -/
def IsLeaf (env : Env K) (s : St K G) (k k' : Key) : Prop :=
  infoAt env s k' ≠ none ∧ ¬ HasChildren env s k' ∧ k.Above k'

/-- The most recent write to `k` in a log, in the unit `b`. -/
def lastIn (env : Env K) (L : List (Key × Entry K G)) (b : UDef K) (k : Key) : Option (Fl K) :=
  match (L.filter (fun e => decide (e.1 = k))).getLast? with
  | some (_, .num x u) => (env.units u).map (fun a => x.map (pintTo a b))
  | _ => none

/-- Sum of the most recent writes to the given parameters; `none` if one was never written. -/
def totalIn (env : Env K) (L : List (Key × Entry K G)) (b : UDef K) (ks : List Key) :
    Option (Fl K) :=
  ks.foldr (fun k acc => Option.map₂ Fl.add (lastIn env L b k) acc) (some (.num 0))

/-- A list of all the childless parameters at or below `k`, each once. -/
def LeafList (env : Env K) (s : St K G) (k : Key) (ks : List Key) : Prop :=
  ks.Nodup ∧ ∀ k', k' ∈ ks ↔ IsLeaf env s k k'

/-! ## Lemmas -/

theorem Fl.add_comm' (x y : Fl K) : x.add y = y.add x := by
  cases x <;> cases y <;> simp [Fl.add, add_comm]

theorem Fl.add_assoc' (x y z : Fl K) : (x.add y).add z = x.add (y.add z) := by
  cases x <;> cases y <;> cases z <;> simp [Fl.add, add_assoc]

theorem Fl.zero_add' (x : Fl K) : Fl.add (.num 0) x = x := by cases x <;> simp [Fl.add]

theorem totalIn_perm {env : Env K} {L : List (Key × Entry K G)} {b : UDef K} {ks ks' : List Key}
    (h : ks.Perm ks') : totalIn env L b ks = totalIn env L b ks' := by
  unfold totalIn
  refine h.foldr_eq (lcomm := ⟨fun k k' acc => ?_⟩) _
  cases lastIn env L b k with
  | none => cases lastIn env L b k' <;> cases acc <;> rfl
  | some x =>
    cases lastIn env L b k' with
    | none => cases acc <;> rfl
    | some y =>
      cases acc with
      | none => rfl
      | some z =>
        show some _ = some _
        rw [← Fl.add_assoc', ← Fl.add_assoc', Fl.add_comm' x y]

theorem mapLeaves_forall₂ {α β : Type} {f : α → Except Err β} {xs : List α} {ys : List β}
    (h : mapLeaves f xs = .ok ys) : List.Forall₂ (fun x y => f x = .ok y) xs ys := by
  induction xs generalizing ys with
  | nil => simp [mapLeaves] at h; subst h; exact .nil
  | cons x xs ih =>
    simp only [mapLeaves] at h
    split at h
    · simp at h
    · rename_i y hy
      split at h
      · simp at h
      · rename_i ys' hys
        injection h with h; subst h
        exact .cons hy (ih hys)

open Classical in
/-- Region and name of a parameter on the heap. -/
noncomputable def keyOf (s : St K G) (q : Nat) : Key :=
  if h : ∃ k, HasKey s q k then h.choose else default

theorem keyOf_spec {s : St K G} {q : Nat} {k : Key} (h : HasKey s q k) : keyOf s q = k := by
  have : ∃ k, HasKey s q k := ⟨k, h⟩
  unfold keyOf
  rw [dif_pos this]
  exact this.choose_spec.det h

theorem Desc.exists {s : St K G} (t : Tree s) {p q : Nat} (h : Desc s p q) {P : Param K G}
    (hp : s.params[p]? = some P) : ∃ Q, s.params[q]? = some Q := by
  obtain ⟨k, hk⟩ := HasKey.exists t hp
  obtain ⟨_, ⟨Q, hQ, _⟩, _⟩ := h.above t hk
  exact ⟨Q, hQ⟩

/-- The childless descendants on the heap are the leaves that `info` shows. -/
theorem leaves_list {env : Env K} {s : St K G} (t : Tree s) {p : Nat} {k : Key}
    (hk : HasKey s p k) : LeafList env s k ((leaves s p).map (keyOf s)) := by
  obtain ⟨hn, hm⟩ := leaves_spec t p
  have hkey : ∀ q ∈ leaves s p, ∃ k', HasKey s q k' ∧ k.Above k' :=
    fun q hq => ((hm q).1 hq).1.above t hk
  constructor
  · refine List.Nodup.map_on ?_ hn
    intro q hq q' hq' h
    obtain ⟨k1, h1, _⟩ := hkey q hq
    obtain ⟨k2, h2, _⟩ := hkey q' hq'
    rw [keyOf_spec h1, keyOf_spec h2] at h
    subst h
    exact h1.inj t h2
  · intro k'
    rw [List.mem_map]
    constructor
    · rintro ⟨q, hq, rfl⟩
      obtain ⟨k1, h1, h2⟩ := hkey q hq
      rw [keyOf_spec h1]
      obtain ⟨Q, hQ, hc⟩ := ((hm q).1 hq).2
      exact ⟨by rw [Ne, infoAt_none t, not_not]; exact ⟨q, h1⟩,
        (not_hasChildren_iff t h1 hQ).2 hc, h2⟩
    · rintro ⟨h1, h2, h3⟩
      rw [Ne, infoAt_none t, not_not] at h1
      obtain ⟨q, hq⟩ := h1
      obtain ⟨Q, hQ, _⟩ := id hq
      exact ⟨q, (hm q).2 ⟨above_desc t hk hq h3, Q, hQ, (not_hasChildren_iff t hq hQ).1 h2⟩,
        keyOf_spec hq⟩

theorem LeafList.perm {env env' : Env K} {s s' : St K G} {k : Key} {ks ks' : List Key}
    (h : LeafList env s k ks) (h' : LeafList env' s' k ks')
    (hl : ∀ k', IsLeaf env s k k' ↔ IsLeaf env' s' k k') : ks.Perm ks' :=
  (List.perm_ext_iff_of_nodup h.1 h'.1).2 (fun k' => by rw [h.2, h'.2, hl])

theorem lastIn_none {env : Env K} {L : List (Key × Entry K G)} {b : UDef K} {k : Key}
    (h : ∀ e ∈ L, e.1 ≠ k) : lastIn env L b k = none := by
  have : L.filter (fun e => decide (e.1 = k)) = [] := by
    rw [List.filter_eq_nil_iff]; intro e he; simpa using h e he
  unfold lastIn; rw [this]; rfl

theorem lastIn_some {env : Env K} {L1 L2 : List (Key × Entry K G)} {a b : UDef K} {k : Key}
    {x : Fl K} {w : String} (ha : env.units w = some a) (h : ∀ e ∈ L2, e.1 ≠ k) :
    lastIn env (L1 ++ (k, .num x w) :: L2) b k = some (x.map (pintTo a b)) := by
  have : L2.filter (fun e => decide (e.1 = k)) = [] := by
    rw [List.filter_eq_nil_iff]; intro e he; simpa using h e he
  unfold lastIn
  rw [List.filter_append, List.filter_cons_of_pos (by simp), this]
  simp [ha]

/-- Scalar requests that succeed hand out a view made for the parameter asked for. -/
theorem scalar_ok {env : Env K} {s : St K G} (hi : Inv env s) {name region : HName} {w : String}
    {i : Nat} (h : result env s (.scalar name w region) = .ok (.view i)) :
    ∃ p v, HasKey (call env (.scalar name w region) s).2 p (region.parts, name.parts) ∧
      (call env (.scalar name w region) s).2.sviews[i]? = some v ∧ v.param = p ∧
      v.conv.target = w ∧
      mkSView env (call env (.scalar name w region) s).2 p w = .ok v := by
  have hc : call env (.scalar name w region) s
      = (scalarCall env name w region >>= fun i => pure (Out.view i : Out K G)) s := rfl
  unfold result at h
  have hsp := reach_spec hi name region
  have hq1 := (quiet_reach env name region s).inv hi
  cases hr : reach name region s with
  | mk r s1 =>
    rw [hr] at hsp hq1
    unfold scalarCall at hc
    cases r with
    | error e =>
      rw [M.bind_error (M.bind_error hr)] at hc
      rw [hc] at h; simp at h
    | ok p =>
      rcases hsp with ⟨_, h', _⟩ | ⟨_, _, ⟨h', _⟩ | ⟨p', h1, h2, _⟩⟩
      · simp at h'
      · simp at h'
      · simp only [Except.ok.injEq] at h1; subst h1
        simp only at h2 hq1
        have hqs := quiet_attemptRead env p .scalar (some w) none
          (Or.inr ⟨by simp, rfl⟩) s1
        cases ha : attemptRead p .scalar (some w) (none : Option (List K)) s1 with
        | mk r2 s2 =>
          rw [ha] at hqs
          cases r2 with
          | error e =>
            have : (reach name region >>= fun p => attemptRead p .scalar (some w) none >>= fun _ =>
                M.value (fun s => mkSView env s p w) >>= addSView) s = (.error e, s2) := by
              rw [M.bind_ok hr, M.bind_error ha]
            rw [M.bind_error this] at hc
            rw [hc] at h; simp at h
          | ok u =>
            cases hv : mkSView env s2 p w with
            | error e =>
              have : (reach name region >>= fun p => attemptRead p .scalar (some w) none >>=
                  fun _ => M.value (fun s => mkSView env s p w) >>= addSView) s
                  = (.error e, s2) := by
                rw [M.bind_ok hr, M.bind_ok ha, M.bind_apply, M.value_apply, hv]
              rw [M.bind_error this] at hc
              rw [hc] at h; simp at h
            | ok v =>
              have : (reach name region >>= fun p => attemptRead p .scalar (some w) none >>=
                  fun _ => M.value (fun s => mkSView env s p w) >>= addSView) s
                  = (.ok s2.sviews.length, { s2 with sviews := s2.sviews ++ [v] }) := by
                rw [M.bind_ok hr, M.bind_ok ha, M.bind_apply, M.value_apply, hv]; rfl
              rw [M.bind_ok this] at hc
              rw [hc] at h ⊢
              have h : s2.sviews.length = i := by
                have h : (Except.ok (Out.view s2.sviews.length) : Res K G) = .ok (.view i) := h
                simpa using h
              subst h
              have hk2 : HasKey s2 p (region.parts, name.parts) := h2.mono (hqs.pext hq1) hqs.rext
              have hvt : v.param = p ∧ v.conv.target = w := by
                unfold mkSView at hv
                split at hv
                · simp at hv
                · split at hv
                  · simp at hv
                  · rename_i c hcv
                    obtain ⟨_, _, _, h3⟩ := mkConvOpt_ok hcv
                    split at hv
                    · injection hv with hv; subst hv; exact ⟨rfl, h3⟩
                    · split at hv
                      · simp at hv
                      · injection hv with hv; subst hv; exact ⟨rfl, h3⟩
              refine ⟨p, v, ?_, ?_, hvt.1, hvt.2, hv⟩
              · show HasKey { s2 with sviews := s2.sviews ++ [v] } p _
                have hx : PExt s2 { s2 with sviews := s2.sviews ++ [v] } := .of_eq rfl
                have hy : RExt s2 { s2 with sviews := s2.sviews ++ [v] } := .of_eq rfl
                exact hk2.mono hx hy
              show (s2.sviews ++ [v])[s2.sviews.length]? = some v
              simp

theorem sumScalarKids_total {env : Env K} {s : St K G} {L : List (Key × Entry K G)} {b : UDef K}
    {kids : List (Nat × Conv K)} {ks : List Key}
    (h : List.Forall₂ (fun kid k => readScalarLeaf s kid.1 kid.2 =
      match lastIn env L b k with
      | some x => .ok x
      | none => .error .parameterEmpty) kids ks) (acc : Fl K) :
    sumScalarKids s acc kids = match totalIn env L b ks with
      | some x => .ok (acc.add x)
      | none => .error .parameterEmpty := by
  induction h generalizing acc with
  | nil => simp [sumScalarKids, totalIn, Fl.add_comm' acc, Fl.zero_add']
  | @cons kid k kids ks hk _ ih =>
    obtain ⟨q, c⟩ := kid
    simp only at hk
    have hcons : totalIn env L b (k :: ks)
        = Option.map₂ Fl.add (lastIn env L b k) (totalIn env L b ks) := rfl
    rw [hcons]
    simp only [sumScalarKids]
    rw [hk]
    cases hl : lastIn env L b k with
    | none => rfl
    | some x =>
      simp only
      rw [ih]
      cases ht : totalIn env L b ks with
      | none => rfl
      | some y => simp [Fl.add_assoc']

/-- The views handed out earlier show the sum over the leaves there were then. -/
theorem aggregated_scalar {env : Env K} {root : String} {pre post : List (Op K G)}
    {name region : HName} {w : String} {b : UDef K} {i : Nat}
    (hok : result env (after env (St.init root) pre) (.scalar name w region) = .ok (.view i))
    (hb : env.units w = some b)
    (hch : HasChildren env (after env (St.init root) (pre ++ [.scalar name w region]))
      (region.parts, name.parts))
    {ks : List Key}
    (hks : LeafList env (after env (St.init root) (pre ++ [.scalar name w region]))
      (region.parts, name.parts) ks)
    (hty : ∀ k' ∈ ks, (infoAt env (after env (St.init root)
      (pre ++ [.scalar name w region])) k').bind Info.ptype = some .scalar) :
    result env (after env (St.init root) (pre ++ .scalar name w region :: post)) (.sGet i) =
      match totalIn env (writes env root (pre ++ .scalar name w region :: post)) b ks with
      | some x => .ok (.num x)
      | none => .error .parameterEmpty := by
  set op : Op K G := .scalar name w region with hop
  have hi0 := after_inv (K := K) (G := G) pre (Inv.init env root)
  have hi := after_inv (K := K) (G := G) (pre ++ op :: post) (Inv.init env root)
  obtain ⟨p, v, hk, hv, hvp, hvt, hmk⟩ := scalar_ok hi0 hok
  rw [← hop, ← after_snoc] at hk hv hmk
  have hi1 := after_inv (K := K) (G := G) (pre ++ [op]) (Inv.init env root)
  have happ : after env (St.init root : St K G) (pre ++ op :: post)
      = after env (after env (St.init root) (pre ++ [op])) post := by
    rw [← after_append]; simp
  have hwl := writes_inv env root (pre ++ op :: post)
  generalize writes env root (pre ++ op :: post) = L at hwl ⊢
  rw [happ] at hwl hi ⊢
  generalize after env (St.init root : St K G) (pre ++ [op]) = s0 at *
  clear hok
  -- the view at the time of its creation
  obtain ⟨P, u, hP, hPt, _, _, _, _, _, hkids⟩ := (hi1.good.sviews i v hv).ex
  rw [hvp] at hP
  rw [hasChildren_iff hi1.tree hk hP] at hch
  obtain ⟨kids, hkids⟩ := Option.isSome_iff_exists.1 (hkids hch)
  obtain ⟨_, hml⟩ := mkSView_kids hi1.tree hmk
  have hfa := mapLeaves_forall₂ (hml kids hkids).2
  have hll := leaves_list (env := env) hi1.tree hk
  rw [totalIn_perm (hks.perm hll (fun _ => Iff.rfl))]
  -- now
  obtain ⟨v', hv', e1, e2, e3⟩ := after_sview hi1 post hv
  have hsg := hi.good.sviews i v' hv'
  obtain ⟨P', _, hP', _, _, _, _, _, hnil, _⟩ := hsg.ex
  have hch' : P'.children ≠ [] := by
    intro h; have := hnil h; rw [e3, hkids] at this; simp at this
  unfold result
  rw [sGet_eq hv']
  have hval : scalarValue (after env s0 post) v'
      = sumScalarKids (after env s0 post) (.num 0) kids := by
    unfold scalarValue; simp [hP', hch', e3, hkids]
  rw [hval]
  have key : List.Forall₂ (fun kid k => readScalarLeaf (after env s0 post) kid.1 kid.2 =
      match lastIn env L b k with
      | some x => .ok x
      | none => .error .parameterEmpty) kids ((leaves s0 p).map (keyOf s0)) := by
    rw [List.forall₂_map_right_iff]
    refine List.Forall₂.imp ?_ ((List.forall₂_and_left _ _).2 ⟨fun x hx => hx, hfa.flip⟩)
    rintro kid q ⟨hkid, hq⟩
    have hql : q ∈ leaves s0 p := by
      obtain ⟨x, hx, hx'⟩ := mapLeaves_mem (hml kids hkids).2 kid hkid
      have : ∀ x, leafConv env s0 w x = .ok kid → kid.1 = x := by
        intro x hx
        unfold leafConv at hx
        split at hx
        · simp at hx
        · split at hx
          · simp at hx
          · injection hx with hx; subst hx; rfl
      have h1 := this x hx'
      have h2 := this q hq
      rw [← h2, h1]; exact hx
    have hkq : kid.1 = q := by
      unfold leafConv at hq
      split at hq
      · simp at hq
      · split at hq
        · simp at hq
        · injection hq with hq; subst hq; rfl
    obtain ⟨Q', u', hQ', _, hu', hmc⟩ := hsg.kids kids (by rw [e3, hkids]) kid hkid
    rw [hkq] at hQ' ⊢
    have hmem : keyOf s0 q ∈ ks := by
      rw [(hks.perm hll (fun _ => Iff.rfl)).mem_iff]; exact List.mem_map_of_mem hql
    obtain ⟨k', hk', _⟩ := (((leaves_spec hi1.tree p).2 q).1 hql).1.above hi1.tree hk
    rw [keyOf_spec hk'] at hmem ⊢
    have hkn := after_key hi1 post hk'
    obtain ⟨_, Q, hQ, hQc⟩ := ((leaves_spec hi1.tree p).2 q).1 hql
    have ht := hty k' hmem
    rw [infoAt_of hi1.tree hk' hQ] at ht
    simp only [Option.bind_some] at ht
    obtain ⟨Q'', hQ'', hle⟩ := after_pext post hi1 q Q hQ
    rw [hQ'] at hQ''; cases hQ''
    have hread : Q.readFrom = true := by
      have := (hi1.good.params q Q hQ).2
      rw [ht] at this; exact this.2.1
    have hc : Q'.children = [] := by rw [hle.frozen hread]; exact hQc
    have ht := hle.ptype _ ht
    have htg : kid.2.target = w := by
      obtain ⟨_, _, _, _, _, _, h, _⟩ := mkConv_ok hmc
      rw [h, e2, hvt]
    rw [e2, hvt, ← htg] at hmc
    rcases leaf_value hwl hkn hQ' ht hc hu' hmc with ⟨g1, g2⟩ | ⟨L1, x, w', L2, a, b', g1, g2, g3, g4, g5⟩
    · rw [g1, lastIn_none g2]
    · rw [htg, hb] at g4; cases g4
      rw [g5, g1, lastIn_some g3 g2]
  rw [sumScalarKids_total key]
  cases totalIn env L b ((leaves s0 p).map (keyOf s0)) with
  | none => rfl
  | some x => show (Except.ok _ : Res K G) = _; rw [Fl.zero_add']

/-- The leaves of an existing parameter can be listed. -/
theorem leafList_exists {env : Env K} {s : St K G} (hs : Reachable env s) {k : Key}
    (h : infoAt env s k ≠ none) : ∃ ks, LeafList env s k ks := by
  rw [Ne, infoAt_none hs.inv.tree, not_not] at h
  obtain ⟨p, hp⟩ := h
  exact ⟨_, leaves_list hs.inv.tree hp⟩

/-- **C09**: a scalar view just obtained for a parameter with children shows the sum of the most
recent writes to all its childless descendants, each converted as pint does to the view's unit and
counted once; it raises `ParameterEmptyError` if one of them was never written.  (`ks` is any
listing of these descendants, `leafList_exists` provides one.  The code does not check that the
descendants are scalars, hence `hty`.) -/
theorem C09_fresh_sum {env : Env K} {root : String} {pre : List (Op K G)}
    {name region : HName} {w : String} {b : UDef K} {i : Nat} {ks : List Key}
    (hok : result env (after env (St.init root) pre) (.scalar name w region) = .ok (.view i))
    (hb : env.units w = some b)
    (hch : HasChildren env (after env (St.init root) (pre ++ [.scalar name w region]))
      (region.parts, name.parts))
    (hks : LeafList env (after env (St.init root) (pre ++ [.scalar name w region]))
      (region.parts, name.parts) ks)
    (hty : ∀ k' ∈ ks, (infoAt env (after env (St.init root)
      (pre ++ [.scalar name w region])) k').bind Info.ptype = some .scalar) :
    result env (after env (St.init root) (pre ++ [.scalar name w region])) (.sGet i) =
      match totalIn env (writes env root (pre ++ [.scalar name w region])) b ks with
      | some x => .ok (.num x)
      | none => .error .parameterEmpty :=
  aggregated_scalar hok hb hch hks hty

/-- **C10**, what holds: for ever after, an aggregated scalar view shows the sum of the most recent
writes to the childless descendants its parameter had when the view was obtained. -/
theorem C10_original_leaves {env : Env K} {root : String} {pre post : List (Op K G)}
    {name region : HName} {w : String} {b : UDef K} {i : Nat} {ks : List Key}
    (hok : result env (after env (St.init root) pre) (.scalar name w region) = .ok (.view i))
    (hb : env.units w = some b)
    (hch : HasChildren env (after env (St.init root) (pre ++ [.scalar name w region]))
      (region.parts, name.parts))
    (hks : LeafList env (after env (St.init root) (pre ++ [.scalar name w region]))
      (region.parts, name.parts) ks)
    (hty : ∀ k' ∈ ks, (infoAt env (after env (St.init root)
      (pre ++ [.scalar name w region])) k').bind Info.ptype = some .scalar) :
    result env (after env (St.init root) (pre ++ .scalar name w region :: post)) (.sGet i) =
      match totalIn env (writes env root (pre ++ .scalar name w region :: post)) b ks with
      | some x => .ok (.num x)
      | none => .error .parameterEmpty :=
  aggregated_scalar hok hb hch hks hty

/-- **C10**, what holds: an aggregated scalar view keeps showing the current sum as long as no
childless descendant was added.  The full statement is without `hsame`; it is false of the code,
see `C10_old_view_misses_new_leaf`. -/
theorem C10_partial {env : Env K} {root : String} {pre post : List (Op K G)}
    {name region : HName} {w : String} {b : UDef K} {i : Nat} {ks : List Key}
    (hok : result env (after env (St.init root) pre) (.scalar name w region) = .ok (.view i))
    (hb : env.units w = some b)
    (hch : HasChildren env (after env (St.init root) (pre ++ [.scalar name w region]))
      (region.parts, name.parts))
    (hks : LeafList env (after env (St.init root) (pre ++ .scalar name w region :: post))
      (region.parts, name.parts) ks)
    (hsame : ∀ k', IsLeaf env (after env (St.init root) (pre ++ .scalar name w region :: post))
        (region.parts, name.parts) k' →
      IsLeaf env (after env (St.init root) (pre ++ [.scalar name w region]))
        (region.parts, name.parts) k')
    (hty : ∀ k', IsLeaf env (after env (St.init root) (pre ++ [.scalar name w region]))
        (region.parts, name.parts) k' → (infoAt env (after env (St.init root)
      (pre ++ [.scalar name w region])) k').bind Info.ptype = some .scalar) :
    result env (after env (St.init root) (pre ++ .scalar name w region :: post)) (.sGet i) =
      match totalIn env (writes env root (pre ++ .scalar name w region :: post)) b ks with
      | some x => .ok (.num x)
      | none => .error .parameterEmpty := by
  have hi1 := after_inv (K := K) (G := G) (pre ++ [.scalar name w region]) (Inv.init env root)
  have happ : after env (St.init root : St K G) (pre ++ .scalar name w region :: post)
      = after env (after env (St.init root) (pre ++ [.scalar name w region])) post := by
    rw [← after_append]; simp
  refine aggregated_scalar hok hb hch ⟨hks.1, fun k' => (hks.2 k').trans ⟨hsame k', ?_⟩⟩
    (fun k' hk' => hty k' (hsame k' ((hks.2 k').1 hk')))
  intro hl
  have ht := hty k' hl
  obtain ⟨h1, h2, h3⟩ := hl
  rw [Ne, infoAt_none hi1.tree, not_not] at h1
  obtain ⟨q, hq⟩ := h1
  obtain ⟨Q, hQ, _⟩ := id hq
  rw [not_hasChildren_iff hi1.tree hq hQ] at h2
  rw [infoAt_of hi1.tree hq hQ] at ht
  simp only [Option.bind_some] at ht
  have hi2 := after_inv post hi1
  have hq2 := after_key hi1 post hq
  obtain ⟨Q', hQ', hle⟩ := after_pext post hi1 q Q hQ
  have hread : Q.readFrom = true := by
    have := (hi1.good.params q Q hQ).2
    rw [ht] at this; exact this.2.1
  rw [happ]
  exact ⟨by rw [Ne, infoAt_none hi2.tree, not_not]; exact ⟨q, hq2⟩,
    (not_hasChildren_iff hi2.tree hq2 hQ').2 (by rw [hle.frozen hread]; exact h2), h3⟩

/-- **C10**, what holds: only requests for new parameters can add leaves; assignments and reads
keep the set of leaves, so `hsame` above holds if no parameter was requested meanwhile. -/
theorem C10_view_calls_keep_leaves {env : Env K} {s : St K G} (hs : Reachable env s) {op : Op K G}
    (h : request op = none) (k k' : Key) :
    IsLeaf env (after env s [op]) k k' ↔ IsLeaf env s k k' := by
  have hi := hs.inv
  have hc : ∀ k, infoAt env (after env s [op]) k ≠ none ↔ infoAt env s k ≠ none := by
    intro k
    rw [after_one, Ne, infoAt_none (call_inv op hi).tree, not_not, Ne, infoAt_none hi.tree, not_not,
      call_creates hi]
    constructor
    · rintro (h' | ⟨n, r, h', _⟩)
      · exact h'
      · rw [h] at h'; simp at h'
    · exact Or.inl
  unfold IsLeaf HasChildren
  rw [hc]
  simp only [hc]

/-- C09 and C10 are about something: three leaves at two depths and in two units are summed, and
the sum follows later writes; a leaf never written makes the sum unavailable. -/
example : demo [.scalar (.seq ["a", "x"]) "K" world, .sSet 0 (.num 1),
      .scalar (.seq ["a", "y", "z"]) "degC" world, .sSet 1 (.num 2),
      .scalar (.seq ["a"]) "degC" world, .sGet 2, .sSet 0 (.num 5), .sGet 2,
      .scalar (.seq ["b", "x"]) "K" world, .scalar (.seq ["b"]) "K" world, .sGet 4]
    = [.ok (.view 0), .ok .done, .ok (.view 1), .ok .done, .ok (.view 2),
      .ok (.num (.num (1 - 27315 / 100 + 2))), .ok .done, .ok (.num (.num (5 - 27315 / 100 + 2))),
      .ok (.view 3), .ok (.view 4), .error .parameterEmpty] := by decide +kernel

/-- **C10** is violated: the view of `a` obtained earlier keeps showing 1, a new one shows 3. -/
theorem C10_old_view_misses_new_leaf :
    demo [.scalar (.seq ["a", "b", "c"]) "K" world, .sSet 0 (.num 1),
      .scalar (.seq ["a"]) "K" world, .sGet 1,
      .scalar (.seq ["a", "b", "d"]) "K" world, .sSet 2 (.num 2),
      .scalar (.seq ["a"]) "K" world, .sGet 1, .sGet 3]
    = [.ok (.view 0), .ok .done, .ok (.view 1), .ok (.num (.num 1)), .ok (.view 2), .ok .done,
      .ok (.view 3), .ok (.num (.num 1)), .ok (.num (.num 3))] := by decide +kernel

end Openscm
