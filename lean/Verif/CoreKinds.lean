import Verif.CoreProps6
import Verif.CoreUnits

/-!
# C73: what descendants of parameters that are aggregated may be

A view of a parameter with children is granted only if every leaf below has a unit that can be
converted to the one asked for.  Leaves that hold generic values make the request fail with
`TypeError`; a view of a timeseries is granted only above timeseries.  Above timeseries, however, a scalar view is granted.
-/

set_option linter.unusedSectionVars false

namespace Openscm
variable {K G : Type} [Field K] [LinearOrder K] [IsStrictOrderedRing K]

/-! ## Specification -/

/-- The parameter at `k` holds a quantity whose unit can be converted to `w`. -/
def CanConvert (env : Env K) (s : St K G) (k : Key) (w : String) : Prop :=
  ∃ I u a b, infoAt env s k = some I ∧ I.unit = some u ∧ I.ptype ≠ none ∧ I.ptype ≠ some .generic ∧
    env.units u = some a ∧ env.units w = some b ∧ a.dim = b.dim

/-- The parameter at `k` holds no quantity but a generic value. -/
def NoQuantity (env : Env K) (s : St K G) (k : Key) : Prop :=
  ∃ I, infoAt env s k = some I ∧ I.ptype = some .generic

/-! ## Only timeseries have time points -/

/-- Time points are set for timeseries only. -/
def TpsOK (s : St K G) : Prop :=
  ∀ (p : Nat) (P : Param K G), s.params[p]? = some P → P.tps ≠ none →
    P.ptype = some .average ∨ P.ptype = some .point

theorem TpsOK.setParam {s : St K G} (h : TpsOK s) {p : Nat} {f : Param K G → Param K G}
    (hf : ∀ P, s.params[p]? = some P → (f P).tps ≠ none →
      (f P).ptype = some .average ∨ (f P).ptype = some .point) : TpsOK (s.setParam p f) := by
  intro q Q hQ
  by_cases hq : p = q
  · subst hq
    rw [setParam_self] at hQ
    cases hP : s.params[p]? with
    | none => rw [hP] at hQ; cases hQ
    | some P => rw [hP] at hQ; cases hQ; exact hf P hP
  · rw [setParam_ne s f hq] at hQ
    exact h q Q hQ

theorem firstRead_tps {P P' : Param K G} {t : PType} {u : Option String} {tps : Option (List K)}
    {e : Option Err} (hP : P.tps = none) (h : firstRead P t u tps = (P', e)) (ht : P'.tps ≠ none) :
    P'.ptype = some .average ∨ P'.ptype = some .point := by
  unfold firstRead at h
  cases t with
  | scalar => cases h; exact absurd hP ht
  | generic =>
    dsimp only at h
    split at h
    · cases h; exact absurd hP ht
    · cases h; exact absurd hP ht
  | average =>
    dsimp only at h
    split at h
    · cases h; exact .inl rfl
    · cases h; exact .inl rfl
    · cases h; exact .inl rfl
  | point =>
    dsimp only at h
    split at h
    · cases h; exact .inr rfl
    · cases h; exact .inr rfl

theorem Prim.tpsOK {env : Env K} {s s' : St K G} {l : List (Nat × Data K G)} (h : Prim env s l s')
    (hi : Inv env s) (hk : TpsOK s) : TpsOK s' := by
  have hnone : ∀ {p : Nat} {P : Param K G}, s.params[p]? = some P → P.ptype = none → P.tps = none := by
    intro p P hp ht
    have := (hi.good.params p P hp).2
    rw [ht] at this
    exact this.2.2.1
  cases h with
  | addRoot r R n hr hn =>
    intro q Q hQ
    rcases getElem?_snoc_cases (show (s.params ++ [newParam n r none])[q]? = some Q from hQ) with h | ⟨_, rfl⟩
    · exact hk q Q h
    · intro h; exact absurd rfl h
  | addChild p P n hp hn hw hr =>
    intro q Q hQ
    rcases getElem?_snoc_cases (show (_ ++ [newParam n P.region (some p)])[q]? = some Q from hQ)
      with h | ⟨_, rfl⟩
    · exact hk.setParam (p := p) (f := fun P => { P with children := P.children ++ [(n, s.params.length)] })
        (fun P hP => hk p P hP) q Q h
    · intro h; exact absurd rfl h
  | typed p P P' t u tps e hp ht hu hf =>
    exact hk.setParam (fun _ _ h => firstRead_tps (hnone hp ht) hf h)
  | typedRead p P P' t u tps hp ht hu hf =>
    exact hk.setParam (fun _ _ h => by
      have := firstRead_tps (hnone hp ht) hf h
      exact this)
  | read p P t hp ht => exact hk.setParam (fun P hP => hk p P hP)
  | mark p P hp hc hr => exact hk.setParam (fun P hP => hk p P hP)
  | storeS i v x hv hw => exact hk.setParam (fun P hP => hk _ P hP)
  | storeG i v x hv hw => exact hk.setParam (fun P hP => hk _ P hP)
  | tStore i v P d l hv hl hd hp hc =>
    exact hk.setParam (p := v.leaf.param) (f := fun P => { P with data := .series l, version := P.version + 1 })
      (fun P hP => hk _ P hP)
  | _ => exact hk

theorem Steps.tpsOK {env : Env K} {s s' : St K G} {l : List (Nat × Data K G)}
    (h : Steps env s l s') (hi : Inv env s) (hk : TpsOK s) : TpsOK s' := by
  induction h with
  | refl => exact hk
  | tail hs hp ih => exact hp.tpsOK (hs.inv hi) ih

theorem after_tpsOK {env : Env K} (ops : List (Op K G)) {s : St K G} (hi : Inv env s)
    (hk : TpsOK s) : TpsOK (after env s ops) := by
  induction ops generalizing s with
  | nil => exact hk
  | cons op ops ih =>
    rw [after_cons]
    obtain ⟨l, h⟩ := call_steps env op s hi.good.tyOK
    exact ih (call_inv op hi) (h.tpsOK hi hk)

theorem Reachable.tpsOK {env : Env K} {s : St K G} (h : Reachable env s) : TpsOK s := by
  obtain ⟨root, ops, rfl⟩ := h
  refine after_tpsOK ops (Inv.init env root) (fun p P hP => ?_)
  simp [St.init] at hP

/-! ## Lemmas -/

theorem mkConv_iff {reg : Registry K} {u w : String} :
    (∃ c, mkConv reg u w = .ok c) ↔ ∃ a b, reg u = some a ∧ reg w = some b ∧ a.dim = b.dim := by
  constructor
  · rintro ⟨c, h⟩
    obtain ⟨a, b, h1, h2, h3, _⟩ := mkConv_ok h
    exact ⟨a, b, h1, h2, h3⟩
  · rintro ⟨a, b, h1, h2, h3⟩
    unfold mkConv
    simp only [h1, h2, if_pos h3]
    exact ⟨_, rfl⟩

/-- A converter exists exactly for parameters that hold a convertible quantity. -/
theorem canConvert_iff {env : Env K} {s : St K G} (hi : Inv env s) {p : Nat} {P : Param K G} {k : Key}
    (hk : HasKey s p k) (hp : s.params[p]? = some P) {w : String} :
    CanConvert env s k w ↔ ∃ c, mkConvOpt env.units P.unit w = .ok c := by
  have hinfo := infoAt_of (env := env) hi.tree hk hp
  constructor
  · rintro ⟨I, u, a, b, hI, hu, _, _, ha, hb, hd⟩
    rw [hinfo] at hI; cases hI
    dsimp only at hu
    rw [hu]
    exact mkConv_iff.2 ⟨a, b, ha, hb, hd⟩
  · rintro ⟨c, hc⟩
    obtain ⟨u, hu, hc', _⟩ := mkConvOpt_ok hc
    obtain ⟨a, b, ha, hb, hd⟩ := mkConv_iff.1 ⟨c, hc'⟩
    have hg := (hi.good.params p P hp).2
    refine ⟨_, u, a, b, hinfo, hu, ?_, ?_, ha, hb, hd⟩
    · intro h
      dsimp only at h
      rw [h] at hg
      rw [hg.2.1] at hu; cases hu
    · intro h
      dsimp only at h
      rw [h] at hg
      rw [hg.1] at hu; cases hu

theorem NoQuantity.unit {env : Env K} {s : St K G} (hi : Inv env s) {p : Nat} {P : Param K G} {k : Key}
    (hk : HasKey s p k) (hp : s.params[p]? = some P) (h : NoQuantity env s k) : P.unit = none := by
  obtain ⟨I, hI, h⟩ := h
  rw [infoAt_of (env := env) hi.tree hk hp] at hI; cases hI
  have hg := (hi.good.params p P hp).2
  dsimp only at h
  rw [h] at hg; exact hg.1

/-- The leaves seen by `info` are the parameters visited. -/
theorem mem_leaves_iff {env : Env K} {s : St K G} (t : Tree s) {p : Nat} {k k' : Key} (hk : HasKey s p k) :
    IsLeaf env s k k' ↔ ∃ q Q, q ∈ leaves s p ∧ HasKey s q k' ∧ s.params[q]? = some Q := by
  obtain ⟨hn, hm⟩ := leaves_list (env := env) t hk
  rw [← hm, List.mem_map]
  constructor
  · rintro ⟨q, hq, rfl⟩
    obtain ⟨k1, h1, _⟩ := (((leaves_spec t p).2 q).1 hq).1.above t hk
    obtain ⟨Q, hQ, _⟩ := (((leaves_spec t p).2 q).1 hq).2
    exact ⟨q, Q, hq, by rw [keyOf_spec h1]; exact h1, hQ⟩
  · rintro ⟨q, Q, hq, h1, _⟩
    exact ⟨q, hq, keyOf_spec h1⟩

theorem mapLeaves_each {α β : Type} {f : α → Except Err β} {xs : List α} {ys : List β}
    (h : mapLeaves f xs = .ok ys) {x : α} (hx : x ∈ xs) : ∃ y, f x = .ok y := by
  have := mapLeaves_forall₂ h
  clear h
  induction this with
  | nil => cases hx
  | cons h1 _ ih =>
    rcases List.mem_cons.1 hx with rfl | hx
    · exact ⟨_, h1⟩
    · exact ih hx

theorem mapLeaves_total {α β : Type} {f : α → Except Err β} {xs : List α}
    (h : ∀ x ∈ xs, ∃ y, f x = .ok y) : ∃ ys, mapLeaves f xs = .ok ys := by
  induction xs with
  | nil => exact ⟨[], rfl⟩
  | cons x xs ih =>
    obtain ⟨y, hy⟩ := h x (by simp)
    obtain ⟨ys, hys⟩ := ih (fun z hz => h z (by simp [hz]))
    exact ⟨y :: ys, by simp [mapLeaves, hy, hys]⟩

theorem mapLeaves_error {α β : Type} {f : α → Except Err β} {xs : List α} {e : Err}
    (h : ∀ x ∈ xs, (∃ y, f x = .ok y) ∨ f x = .error e) {x : α} (hx : x ∈ xs)
    (he : f x = .error e) : mapLeaves f xs = .error e := by
  induction xs with
  | nil => cases hx
  | cons z zs ih =>
    rcases h z (by simp) with ⟨y, hy⟩ | hy
    · rcases List.mem_cons.1 hx with rfl | hx
      · rw [hy] at he; cases he
      · simp [mapLeaves, hy, ih (fun z hz => h z (by simp [hz])) hx]
    · simp [mapLeaves, hy]

theorem leafConv_iff {env : Env K} {s : St K G} {w : String} {q : Nat} {Q : Param K G}
    (hQ : s.params[q]? = some Q) :
    (∃ c, leafConv env s w q = .ok c) ↔ ∃ c, mkConvOpt env.units Q.unit w = .ok c := by
  unfold leafConv
  simp only [hQ]
  cases mkConvOpt env.units Q.unit w with
  | error e => simp
  | ok c => simp

/-- Scalar views are made exactly if all conversions exist. -/
theorem mkSView_iff {env : Env K} {s : St K G} (hi : Inv env s) {p : Nat} {k : Key} (hk : HasKey s p k)
    {w : String} : (∃ v, mkSView env s p w = .ok v) ↔
      CanConvert env s k w ∧ ∀ k', IsLeaf env s k k' → CanConvert env s k' w := by
  have t := hi.tree
  obtain ⟨P, hp, _⟩ := id hk
  have hleaf : ∀ {k'}, P.children = [] → IsLeaf env s k k' → k' = k := by
    intro k' hc hl
    obtain ⟨q, Q, hq, h1, _⟩ := (mem_leaves_iff t hk).1 hl
    have hd := (((leaves_spec t p).2 q).1 hq).1
    have : q = p := by
      cases hd with
      | refl => rfl
      | step g1 g2 _ => rw [hp] at g1; cases g1; rw [hc] at g2; cases g2
    subst this
    exact h1.det hk
  unfold mkSView
  simp only [hp]
  rw [canConvert_iff hi hk hp]
  cases hcv : mkConvOpt env.units P.unit w with
  | error e => simp
  | ok c =>
    simp only
    by_cases hch : P.children = []
    · rw [if_pos hch]
      refine ⟨fun _ => ⟨⟨c, rfl⟩, fun k' hl => ?_⟩, fun _ => ⟨_, rfl⟩⟩
      rw [hleaf hch hl]
      exact (canConvert_iff hi hk hp).2 ⟨c, hcv⟩
    · rw [if_neg hch]
      constructor
      · rintro ⟨v, hv⟩
        refine ⟨⟨c, rfl⟩, fun k' hl => ?_⟩
        obtain ⟨q, Q, hq, h1, hQ⟩ := (mem_leaves_iff t hk).1 hl
        cases hm : mapLeaves (leafConv env s w) (leaves s p) with
        | error e => rw [hm] at hv; cases hv
        | ok ks => exact (canConvert_iff hi h1 hQ).2 ((leafConv_iff hQ).1 (mapLeaves_each hm hq))
      · rintro ⟨_, h⟩
        obtain ⟨ks, hks⟩ := mapLeaves_total (f := leafConv env s w) (xs := leaves s p) (fun q hq => by
          obtain ⟨k1, h1, _⟩ := (((leaves_spec t p).2 q).1 hq).1.above t hk
          obtain ⟨Q, hQ, _⟩ := (((leaves_spec t p).2 q).1 hq).2
          exact (leafConv_iff hQ).2 ((canConvert_iff hi h1 hQ).1
            (h k1 ((mem_leaves_iff t hk).2 ⟨q, Q, hq, h1, hQ⟩))))
        rw [hks]
        exact ⟨_, rfl⟩

/-- Requests for a scalar view of an existing parameter that has no other type. -/
theorem scalar_existing {env : Env K} {s : St K G} (hs : Reachable env s) {name region : HName} {w : String}
    {I : Info} (hI : infoAt env s (region.parts, name.parts) = some I)
    (ht : I.ptype = none ∨ I.ptype = some .scalar) :
    ∃ p s2, Inv env s2 ∧ HasKey s2 p (region.parts, name.parts) ∧
      ((∃ v, mkSView env s2 p w = .ok v ∧ ∃ i, result env s (.scalar name w region) = .ok (.view i)) ∨
       (∃ e, mkSView env s2 p w = .error e ∧ result env s (.scalar name w region) = .error e ∧
          (call env (.scalar name w region) s).2 = s2)) := by
  have hi := hs.inv
  obtain ⟨p, P, h1, h2, rfl⟩ := (infoAt_some hi.tree).1 hI
  have hr : reach name region s = (.ok p, s) := by
    rw [reach_existing hi.tree (ns := []) h1 (by simp)]; rfl
  have hq := quiet_attemptRead env p .scalar (some w) (none : Option (List K)) (Or.inr ⟨by simp, rfl⟩) s
  obtain ⟨s2, ha⟩ : ∃ s2, attemptRead p .scalar (some w) (none : Option (List K)) s = (.ok (), s2) := by
    unfold attemptRead
    rw [h2]
    dsimp only at ht ⊢
    rcases ht with ht | ht
    · rw [ht]; exact ⟨_, rfl⟩
    · rw [ht]; exact ⟨_, rfl⟩
  rw [ha] at hq
  have hi2 : Inv env s2 := hq.inv hi
  refine ⟨p, s2, hi2, HasKey.mono (hq.pext hi) hq.rext h1, ?_⟩
  have hc : call env (.scalar name w region) s
      = (scalarCall env name w region >>= fun i => pure (Out.view i : Out K G)) s := rfl
  unfold scalarCall at hc
  cases hv : mkSView env s2 p w with
  | error e =>
    right
    have : (reach name region >>= fun p => attemptRead p .scalar (some w) none >>=
        fun _ => M.value (fun s => mkSView env s p w) >>= addSView) s = (.error e, s2) := by
      rw [M.bind_ok hr, M.bind_ok ha, M.bind_apply, M.value_apply, hv]
    rw [M.bind_error this] at hc
    exact ⟨e, rfl, by unfold result; rw [hc], by rw [hc]⟩
  | ok v =>
    left
    have : ∃ i s3, (reach name region >>= fun p => attemptRead p .scalar (some w) none >>=
        fun _ => M.value (fun s => mkSView env s p w) >>= addSView) s = (.ok i, s3) := by
      rw [M.bind_ok hr, M.bind_ok ha, M.bind_apply, M.value_apply, hv]
      exact ⟨_, _, rfl⟩
    obtain ⟨i, s3, this⟩ := this
    rw [M.bind_ok this] at hc
    exact ⟨v, rfl, i, by unfold result; rw [hc]; rfl⟩

/-- Failures if nothing but missing quantities is in the way. -/
theorem mkSView_noQuantity {env : Env K} {s : St K G} (hi : Inv env s) {p : Nat} {k : Key}
    (hk : HasKey s p k) {w : String} (h0 : CanConvert env s k w)
    (hl : ∀ k', IsLeaf env s k k' → CanConvert env s k' w ∨ NoQuantity env s k') {e : Err}
    (he : mkSView env s p w = .error e) : e = .typeError := by
  have t := hi.tree
  obtain ⟨P, hp, _⟩ := id hk
  obtain ⟨c, hc⟩ := (canConvert_iff hi hk hp).1 h0
  have hlist : ∀ q ∈ leaves s p, (∃ y, leafConv env s w q = .ok y) ∨ leafConv env s w q = .error .typeError := by
    intro q hq
    obtain ⟨k1, h1, _⟩ := (((leaves_spec t p).2 q).1 hq).1.above t hk
    obtain ⟨Q, hQ, _⟩ := (((leaves_spec t p).2 q).1 hq).2
    rcases hl k1 ((mem_leaves_iff t hk).2 ⟨q, Q, hq, h1, hQ⟩) with h | h
    · exact .inl ((leafConv_iff hQ).2 ((canConvert_iff hi h1 hQ).1 h))
    · right
      unfold leafConv
      simp only [hQ, h.unit hi h1 hQ, mkConvOpt]
  unfold mkSView at he
  simp only [hp, hc] at he
  split at he
  · cases he
  · by_cases hx : ∃ q ∈ leaves s p, leafConv env s w q = .error .typeError
    · obtain ⟨q, hq, hx⟩ := hx
      rw [mapLeaves_error hlist hq hx] at he
      cases he; rfl
    · obtain ⟨ks, hks⟩ := mapLeaves_total (f := leafConv env s w) (xs := leaves s p)
        (fun q hq => (hlist q hq).resolve_right (fun h => hx ⟨q, hq, h⟩))
      rw [hks] at he
      cases he

/-! ## C73 -/

/-- **C73**: a scalar view is granted only if the parameter and every leaf below it hold a quantity
in a unit that can be converted to the one asked for.  Missing: that they are scalars, see `C73_mixed`. -/
theorem C73_scalar_partial {env : Env K} {s : St K G} (hs : Reachable env s) {name region : HName} {w : String}
    {i : Nat} (h : result env s (.scalar name w region) = .ok (.view i)) :
    let s' := after env s [.scalar name w region]
    CanConvert env s' (region.parts, name.parts) w ∧
    ∀ k', IsLeaf env s' (region.parts, name.parts) k' → CanConvert env s' k' w := by
  obtain ⟨p, v, hk, _, _, _, hv⟩ := scalar_ok hs.inv h
  dsimp only
  rw [after_one]
  have hi' : Inv env (call env (.scalar name w region) s).2 := call_inv _ hs.inv
  exact (mkSView_iff hi' hk).1 ⟨v, hv⟩

/-- **C73**: and it is granted then, if the parameter exists and is not of another type. -/
theorem C73_scalar_granted {env : Env K} {s : St K G} (hs : Reachable env s) {name region : HName}
    {w : String} {I : Info} (hI : infoAt env s (region.parts, name.parts) = some I)
    (ht : I.ptype = none ∨ I.ptype = some .scalar)
    (h : let s' := after env s [.scalar name w region]
      CanConvert env s' (region.parts, name.parts) w ∧
      ∀ k', IsLeaf env s' (region.parts, name.parts) k' → CanConvert env s' k' w) :
    ∃ i, result env s (.scalar name w region) = .ok (.view i) := by
  dsimp only at h
  rw [after_one] at h
  obtain ⟨p, s2, hi2, hk, ⟨v, _, hr⟩ | ⟨e, he, _, h2⟩⟩ := scalar_existing hs (w := w) hI ht
  · exact hr
  · rw [h2] at h
    obtain ⟨v, hv⟩ := (mkSView_iff hi2 hk).2 h
    rw [he] at hv; cases hv

/-- **C73**: leaves that hold generic values make the request fail with `TypeError`, if all others can
be converted. -/
theorem C73_scalar_refused {env : Env K} {s : St K G} (hs : Reachable env s) {name region : HName}
    {w : String} {I : Info} (hI : infoAt env s (region.parts, name.parts) = some I)
    (ht : I.ptype = none ∨ I.ptype = some .scalar) {k0 : Key}
    (h : let s' := after env s [.scalar name w region]
      CanConvert env s' (region.parts, name.parts) w ∧
      (∀ k', IsLeaf env s' (region.parts, name.parts) k' → CanConvert env s' k' w ∨ NoQuantity env s' k') ∧
      IsLeaf env s' (region.parts, name.parts) k0 ∧ NoQuantity env s' k0) :
    result env s (.scalar name w region) = .error .typeError := by
  dsimp only at h
  obtain ⟨h0, hl, hk0, hn⟩ := h
  obtain ⟨p, s2, hi2, hk, ⟨v, _, i, hr⟩ | ⟨e, he, hr, h2⟩⟩ := scalar_existing hs (w := w) hI ht
  · obtain ⟨J, u, a, b, hJ, _, g1, g2, _⟩ := (C73_scalar_partial hs hr).2 k0 hk0
    obtain ⟨J', hJ', g⟩ := hn
    rw [hJ] at hJ'; cases hJ'
    exact absurd g g2
  · rw [after_one, h2] at h0 hl
    rw [hr, mkSView_noQuantity hi2 hk h0 hl he]

/-- **C73**: a view of a timeseries is granted only if every leaf below is a timeseries in a unit
that can be converted to the one asked for. -/
theorem C73_timeseries {env : Env K} {s : St K G} (hs : Reachable env s) {name region : HName} {w : String}
    {tps : List K} {ty : TyArg} {int : IntArg} {ext : ExtArg} {i : Nat}
    (h : result env s (.timeseries name w tps region ty int ext) = .ok (.view i)) :
    let s' := after env s [.timeseries name w tps region ty int ext]
    ∀ k', IsLeaf env s' (region.parts, name.parts) k' → CanConvert env s' k' w ∧
      ∃ I, infoAt env s' k' = some I ∧ (I.ptype = some .average ∨ I.ptype = some .point) := by
  obtain ⟨p, v, ty', int', ext', _, _, _, hk, _, hv⟩ := timeseries_ok hs.inv h
  dsimp only
  have htps := (hs.after [.timeseries name w tps region ty int ext]).tpsOK
  rw [after_one] at htps ⊢
  have hi' : Inv env (call env (.timeseries name w tps region ty int ext) s).2 := call_inv _ hs.inv
  generalize (call env (.timeseries name w tps region ty int ext) s).2 = s' at *
  have t := hi'.tree
  intro k' hl
  obtain ⟨q, Q, hq, h1, hQ⟩ := (mem_leaves_iff t hk).1 hl
  have hleaf : ∃ l, mkTLeaf env s' w tps ty' ext' q = .ok l := by
    obtain ⟨P, hp, _⟩ := id hk
    unfold mkTView at hv
    simp only [hp] at hv
    cases hm : mkTLeaf env s' w tps ty' ext' p with
    | error e => rw [hm] at hv; cases hv
    | ok l =>
      simp only [hm] at hv
      by_cases hch : P.children = []
      · have : q = p := by
          cases (((leaves_spec t p).2 q).1 hq).1 with
          | refl => rfl
          | step g1 g2 _ => rw [hp] at g1; cases g1; rw [hch] at g2; cases g2
        subst this
        exact ⟨l, hm⟩
      · rw [if_neg hch] at hv
        cases hks : mapLeaves (mkTLeaf env s' w tps ty' ext') (leaves s' p) with
        | error e => rw [hks] at hv; cases hv
        | ok ks => exact mapLeaves_each hks hq
  obtain ⟨l, hl⟩ := hleaf
  unfold mkTLeaf at hl
  simp only [hQ] at hl
  split at hl
  · cases hl
  · rename_i c hc
    refine ⟨(canConvert_iff hi' h1 hQ).2 ⟨c, hc⟩, _, infoAt_of t h1 hQ, ?_⟩
    split at hl
    · cases hl
    · rename_i src hsrc
      exact htps q Q hQ (by rw [hsrc]; simp)

/-- **C73** is violated for scalar views: one is granted above a timeseries. -/
theorem C73_mixed :
    demo [points ["a", "x"] "K" [0, 1, 2], .tSet 0 (nums [1, 2, 3]), .scalar (.seq ["a"]) "K" world]
      = [.ok (.view 0), .ok .done, .ok (.view 0)] ∧
    (infoAt demoEnv (demoSt [points ["a", "x"] "K" [0, 1, 2], .tSet 0 (nums [1, 2, 3]),
      .scalar (.seq ["a"]) "K" world]) (["World"], ["a", "x"])).map Info.ptype = some (some .point) := by
  decide +kernel

/-- Hypotheses of `C73_scalar_granted` and `C73_scalar_refused` met: leaves in K and mK, then one that
holds a generic value, one in another dimension and, below a request for a timeseries, a scalar. -/
example :
    demo [.scalar (.seq ["a", "x"]) "K" world, .scalar (.seq ["a", "y"]) "mK" world, .scalar (.seq ["a"]) "K" world,
      .scalar (.seq ["b", "x"]) "K" world, .generic (.seq ["b", "y"]) world, .scalar (.seq ["b"]) "K" world,
      .scalar (.seq ["c", "x"]) "K" world, points ["c"] "K" [0, 1, 2], .scalar (.seq ["d", "x"]) "m" world,
      .scalar (.seq ["d"]) "K" world]
    = [.ok (.view 0), .ok (.view 1), .ok (.view 2), .ok (.view 3), .ok (.view 0), .error .typeError,
      .ok (.view 4), .error .attributeError, .ok (.view 5), .error .dimensionality] := by
  decide +kernel

end Openscm
