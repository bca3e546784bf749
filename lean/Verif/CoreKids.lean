import Verif.CoreProps2

/-!
# Parameters below a parameter, and the children of aggregated views

Helper file: aggregated views only ever consult parameters below their own; what calls on views
leave alone.
-/

set_option linter.unusedSectionVars false

namespace Openscm
variable {K G : Type} [Field K] [LinearOrder K] [IsStrictOrderedRing K]

/-- `k'` is `k` or lies below it: same region, and the name of `k` is a prefix. -/
def Key.Above (k k' : Key) : Prop := k.1 = k'.1 ∧ k.2 <+: k'.2

instance (k k' : Key) : Decidable (Key.Above k k') := inferInstanceAs (Decidable (_ ∧ _))

theorem Key.Above.refl (k : Key) : k.Above k := ⟨rfl, List.prefix_rfl⟩

theorem Desc.mono {s s' : St K G} (h : PExt s s') {p q : Nat} (hd : Desc s p q) : Desc s' p q := by
  induction hd with
  | refl => exact .refl _
  | step hp hc _ ih =>
    obtain ⟨P', h1, h2⟩ := h _ _ hp
    exact .step h1 (h2.children _ hc) ih

theorem Desc.trans {s : St K G} {p q r : Nat} (h : Desc s p q) (h' : Desc s q r) : Desc s p r := by
  induction h with
  | refl => exact h'
  | step hp hc _ ih => exact .step hp hc (ih h')

theorem HasKey.child {s : St K G} (t : Tree s) {p c : Nat} {P : Param K G} {n : String} {k : Key}
    (hk : HasKey s p k) (hp : s.params[p]? = some P) (hc : (n, c) ∈ P.children) :
    HasKey s c (Key.child k n) := by
  obtain ⟨P', h1, h2, h3⟩ := hk
  rw [hp] at h1; cases h1
  obtain ⟨_, C, c1, c2, c3, c4⟩ := t.pchild p P n c hp hc
  refine ⟨C, c1, by rw [c4]; exact h2, ?_⟩
  have := PName.sub c1 c3 h3
  rw [c2] at this
  exact this

/-- Descendants have names that extend the name. -/
theorem Desc.above {s : St K G} (t : Tree s) {p q : Nat} (h : Desc s p q) {k : Key}
    (hk : HasKey s p k) : ∃ k', HasKey s q k' ∧ k.Above k' := by
  induction h generalizing k with
  | refl => exact ⟨k, hk, .refl k⟩
  | step hp hc _ ih =>
    obtain ⟨k', h1, h2, h3⟩ := ih (hk.child t hp hc)
    exact ⟨k', h1, h2, (List.prefix_append _ _).trans h3⟩

theorem Desc.snoc {s : St K G} {p q c : Nat} {Q : Param K G} {n : String} (h : Desc s p q)
    (hq : s.params[q]? = some Q) (hc : (n, c) ∈ Q.children) : Desc s p c :=
  h.trans (.step hq hc (.refl c))

/-- Names that extend a name belong to descendants. -/
theorem above_desc {s : St K G} (t : Tree s) {p q : Nat} {k k' : Key} (hk : HasKey s p k)
    (hk' : HasKey s q k') (h : k.Above k') : Desc s p q := by
  obtain ⟨a, b⟩ := k
  obtain ⟨a', b'⟩ := k'
  obtain ⟨rfl, ⟨m, rfl⟩⟩ : a = a' ∧ b <+: b' := h
  induction m using List.reverseRecOn generalizing q with
  | nil =>
    have : p = q := hk.inj t (by simpa using hk')
    subst this; exact .refl p
  | append_singleton m x ih =>
    obtain ⟨Q, h1, h2, h3⟩ := hk'
    simp only at h2 h3
    rw [← List.append_assoc] at h3
    generalize hz : (b ++ m) ++ [x] = z at h3
    cases h3 with
    | top hr hp =>
      exfalso
      obtain ⟨_, _, _, h⟩ := hk
      have := h.ne_nil
      rw [h1] at hr; cases hr
      have hb : b ++ m = [] := (List.append_inj' (t₂ := [Q.name]) (s₂ := []) hz rfl).1
      simp at hb; exact this hb.1
    | @sub _ r P ns hr hp h =>
      rw [h1] at hr; cases hr
      obtain ⟨e1, e2⟩ := List.append_inj' hz rfl
      subst e1
      obtain ⟨R, r1, _, r3, _⟩ := Desc_region t h1 hp
      obtain ⟨R', r1', r2'⟩ := t.pparent q Q r h1 hp
      rw [r1] at r1'; cases r1'
      exact (ih ⟨R, r1, by rw [r3]; exact h2, h⟩).snoc r1 r2'

/-! ## Children of aggregated views -/

/-- Aggregated views only consult parameters below their own. -/
structure KidsV (s : St K G) : Prop where
  sv : ∀ (i : Nat) (v : SView K), s.sviews[i]? = some v → ∀ ks, v.kids = some ks →
    ∀ k ∈ ks, Desc s v.param k.1
  tv : ∀ (i : Nat) (v : TView K), s.tviews[i]? = some v → ∀ ks, v.kids = some ks →
    ∀ k ∈ ks, Desc s v.leaf.param k.param

theorem KidsV.init (root : String) : KidsV (St.init root : St K G) := by
  constructor <;> intro i v h <;> simp [St.init] at h

/-- Only the parts of views that never change matter. -/
theorem KidsV.step {s s' : St K G} (h : KidsV s) (hx : PExt s s')
    (hs : ∀ (i : Nat) (v : SView K), s'.sviews[i]? = some v → ∃ w, s.sviews[i]? = some w ∧
      v.param = w.param ∧ v.kids = w.kids)
    (ht : ∀ (i : Nat) (v : TView K), s'.tviews[i]? = some v → ∃ w, s.tviews[i]? = some w ∧
      v.stat = w.stat) : KidsV s' := by
  constructor
  · intro i v hv ks hks k hk
    obtain ⟨w, h1, h2, h3⟩ := hs i v hv
    rw [h2]
    exact (h.sv i w h1 ks (h3 ▸ hks) k hk).mono hx
  · intro i v hv ks hks k hk
    obtain ⟨w, h1, h2⟩ := ht i v hv
    simp only [TView.stat, TLeaf.stat, Prod.mk.injEq] at h2
    obtain ⟨⟨e1, _⟩, e2⟩ := h2
    rw [hks, Option.map_some] at e2
    obtain ⟨ks', f1, f2⟩ := Option.map_eq_some_iff.1 e2.symm
    have hm : k.stat ∈ ks'.map TLeaf.stat := by rw [f2]; exact List.mem_map.2 ⟨k, hk, rfl⟩
    obtain ⟨k', g1, g2⟩ := List.mem_map.1 hm
    have := h.tv i w h1 ks' f1 k' g1
    simp only [TLeaf.stat, Prod.mk.injEq] at g2
    rw [e1, ← g2.1]
    exact this.mono hx

theorem mkSView_kids {env : Env K} {s : St K G} (t : Tree s) {p : Nat} {u : String} {v : SView K}
    (hv : mkSView env s p u = .ok v) : v.param = p ∧ ∀ ks, v.kids = some ks →
      (∀ k ∈ ks, Desc s v.param k.1) ∧ mapLeaves (leafConv env s u) (leaves s p) = .ok ks := by
  unfold mkSView at hv
  split at hv
  · simp at hv
  · split at hv
    · simp at hv
    · split at hv
      · injection hv with hv; subst hv
        exact ⟨rfl, fun ks h => by simp at h⟩
      · split at hv
        · simp at hv
        · rename_i ks hks
          injection hv with hv; subst hv
          refine ⟨rfl, fun ks' h => ?_⟩
          simp only [Option.some.injEq] at h; subst h
          refine ⟨fun k hk => ?_, hks⟩
          obtain ⟨q, h1, h2⟩ := mapLeaves_mem hks k hk
          have : k.1 = q := by
            unfold leafConv at h2
            split at h2
            · simp at h2
            · split at h2
              · simp at h2
              · injection h2 with h2; subst h2; rfl
          rw [this]
          exact (((leaves_spec t p).2 q).1 h1).1

theorem mkTLeaf_param {env : Env K} {s : St K G} {p : Nat} {u : String} {tps : List K} {ty : PType}
    {ext : Extrap} {l : TLeaf K} (h : mkTLeaf env s u tps ty ext p = .ok l) : l.param = p := by
  unfold mkTLeaf at h
  split at h
  · simp at h
  · split at h
    · simp at h
    · split at h
      · simp at h
      · split at h
        · simp at h
        · injection h with h; subst h; rfl

theorem mkTView_kids {env : Env K} {s : St K G} (t : Tree s) {p : Nat} {u : String} {tps : List K}
    {ty : PType} {ext : Extrap} {v : TView K} (hv : mkTView env s p u tps ty ext = .ok v) :
    v.leaf.param = p ∧ ∀ ks, v.kids = some ks → (∀ k ∈ ks, Desc s v.leaf.param k.param) ∧
      mapLeaves (mkTLeaf env s u tps ty ext) (leaves s p) = .ok ks := by
  unfold mkTView at hv
  split at hv
  · simp at hv
  · split at hv
    · simp at hv
    · rename_i l hl
      have hlp := mkTLeaf_param hl
      split at hv
      · injection hv with hv; subst hv
        exact ⟨hlp, fun ks h => by simp at h⟩
      · split at hv
        · simp at hv
        · rename_i ks hks
          injection hv with hv; subst hv
          refine ⟨hlp, fun ks' h => ?_⟩
          simp only [Option.some.injEq] at h; subst h
          refine ⟨fun k hk => ?_, hks⟩
          obtain ⟨q, h1, h2⟩ := mapLeaves_mem hks k hk
          rw [mkTLeaf_param h2, hlp]
          exact (((leaves_spec t p).2 q).1 h1).1

theorem setS_cases {s : St K G} {i j : Nat} {f : SView K → SView K} {v : SView K}
    (h : (s.setS i f).sviews[j]? = some v) :
    s.sviews[j]? = some v ∨ (i = j ∧ ∃ w, s.sviews[j]? = some w ∧ v = f w) := by
  rcases getElem?_modify_cases (l := s.sviews) h with ⟨_, h⟩ | ⟨h, w, h1, h2⟩
  · exact Or.inl h
  · exact Or.inr ⟨h, w, h1, h2⟩

theorem setT_cases {s : St K G} {i j : Nat} {f : TView K → TView K} {v : TView K}
    (h : (s.setT i f).tviews[j]? = some v) :
    s.tviews[j]? = some v ∨ (i = j ∧ ∃ w, s.tviews[j]? = some w ∧ v = f w) := by
  rcases getElem?_modify_cases (l := s.tviews) h with ⟨_, h⟩ | ⟨h, w, h1, h2⟩
  · exact Or.inl h
  · exact Or.inr ⟨h, w, h1, h2⟩

theorem Prim.kids {env : Env K} {s s' : St K G} {l : List (Nat × Data K G)} (h : Prim env s l s')
    (hi : Inv env s) (hk : KidsV s) : KidsV s' := by
  have hx := h.pext hi.good
  have sid : ∀ (i : Nat) (v : SView K), s.sviews[i]? = some v → ∃ w, s.sviews[i]? = some w ∧
      v.param = w.param ∧ v.kids = w.kids := fun i v hv => ⟨v, hv, rfl, rfl⟩
  have tid : ∀ (i : Nat) (v : TView K), s.tviews[i]? = some v → ∃ w, s.tviews[i]? = some w ∧
      v.stat = w.stat := fun i v hv => ⟨v, hv, rfl⟩
  have tset : ∀ (i : Nat) (f : TView K → TView K),
      (∀ v, s.tviews[i]? = some v → (f v).stat = v.stat) →
      ∀ (j : Nat) (v : TView K), (s.setT i f).tviews[j]? = some v → ∃ w, s.tviews[j]? = some w ∧
      v.stat = w.stat := by
    intro i f hf j v hv
    rcases setT_cases hv with h | ⟨rfl, w, h1, rfl⟩
    · exact ⟨v, h, rfl⟩
    · exact ⟨w, h1, hf w h1⟩
  cases h with
  | newS p P u v hp ht hr hv =>
    have hd : ∀ p q, Desc s p q → Desc { s with sviews := s.sviews ++ [v] } p q :=
      fun p q h => h.mono hx
    constructor
    · intro i w hw ks hks k hkm
      rcases getElem?_snoc_cases (show (s.sviews ++ [v])[i]? = some w from hw) with h | ⟨_, rfl⟩
      · exact hd _ _ (hk.sv i w h ks hks k hkm)
      · exact hd _ _ (((mkSView_kids hi.tree hv).2 ks hks).1 k hkm)
    · intro i w hw ks hks k hkm
      exact hd _ _ (hk.tv i w hw ks hks k hkm)
  | newT p P u tps ty ext v hp hty ht hr hv =>
    have hd : ∀ p q, Desc s p q → Desc { s with tviews := s.tviews ++ [v] } p q :=
      fun p q h => h.mono hx
    constructor
    · intro i w hw ks hks k hkm
      exact hd _ _ (hk.sv i w hw ks hks k hkm)
    · intro i w hw ks hks k hkm
      rcases getElem?_snoc_cases (show (s.tviews ++ [v])[i]? = some w from hw) with h | ⟨_, rfl⟩
      · exact hd _ _ (hk.tv i w h ks hks k hkm)
      · exact hd _ _ (((mkTView_kids hi.tree hv).2 ks hks).1 k hkm)
  | sWritable i v P hv hp hw =>
    refine hk.step hx (fun j w hw => ?_) tid
    rcases setS_cases hw with h | ⟨rfl, w', h1, rfl⟩
    · exact ⟨w, h, rfl, rfl⟩
    · exact ⟨w', h1, rfl, rfl⟩
  | tWritable i v P hv hp hw => exact hk.step hx sid (tset i _ (fun v _ => rfl))
  | tRead i v hv =>
    refine hk.step hx sid (tset i _ (fun w hw => ?_))
    rw [hv] at hw; cases hw
    exact readView_stat s v
  | tCache i v d hv hd => exact hk.step hx sid (tset i _ (fun v _ => rfl))
  | tLocked i b => exact hk.step hx sid (tset i _ (fun v _ => rfl))
  | tStore i v P d l hv hl hd hp hc => exact hk.step hx sid (tset i _ (fun v _ => rfl))
  | _ => exact hk.step hx sid tid

theorem Steps.kids {env : Env K} {s s' : St K G} {l : List (Nat × Data K G)}
    (h : Steps env s l s') (hi : Inv env s) (hk : KidsV s) : KidsV s' := by
  induction h with
  | refl => exact hk
  | tail hs hp ih => exact hp.kids (hs.inv hi) ih

theorem after_kids {env : Env K} (ops : List (Op K G)) {s : St K G} (hi : Inv env s)
    (hk : KidsV s) : KidsV (after env s ops) := by
  induction ops generalizing s with
  | nil => exact hk
  | cons op ops ih =>
    rw [after_cons]
    obtain ⟨l, h⟩ := call_steps env op s hi.good.tyOK
    exact ih (call_inv op hi) (h.kids hi hk)

theorem Reachable.kids {env : Env K} {s : St K G} (h : Reachable env s) : KidsV s := by
  obtain ⟨root, ops, rfl⟩ := h
  exact after_kids ops (Inv.init env root) (KidsV.init root)

/-! ## What calls on views leave alone -/

/-- The view a call is made on, unless it only looks. -/
def callee : Op K G → Option VRef
  | .sSet i _ => some (.s i)
  | .gSet i _ => some (.g i)
  | op => (onT op).map VRef.t

/-- The part of a scalar view that never changes. -/
def SView.stat (v : SView K) : Nat × Conv K × Option (List (Nat × Conv K)) :=
  (v.param, v.conv, v.kids)

/-- `s'` differs from `s` at most in parameter `p` and in the changing parts of view `r`. -/
structure Frame (r : VRef) (p : Nat) (s s' : St K G) : Prop where
  regions : s'.regions = s.regions
  params : ∀ q, q ≠ p → s'.params[q]? = s.params[q]?
  sviews : ∀ i : Nat, (s'.sviews[i]?).map SView.stat = (s.sviews[i]?).map SView.stat
  gviews : ∀ i : Nat, (s'.gviews[i]?).map GView.param = (s.gviews[i]?).map GView.param
  tviews : ∀ i : Nat, r ≠ .t i → s'.tviews[i]? = s.tviews[i]?

theorem Frame.refl (r : VRef) (p : Nat) (s : St K G) : Frame r p s s :=
  ⟨rfl, fun _ _ => rfl, fun _ => rfl, fun _ => rfl, fun _ _ => rfl⟩

/-- Calls that are no requests change at most the parameter of the view they are made on. -/
theorem call_frame {env : Env K} {s : St K G} (hi : Inv env s) {op : Op K G} {r : VRef}
    (hr : callee op = some r) : (∃ p u, viewTarget s r = some (p, u) ∧
      Frame r p s (call env op s).2) ∨ (viewTarget s r = none ∧ (call env op s).2 = s) := by
  rcases op_cases op with ⟨nr, h⟩ | h | ⟨j, x, rfl⟩ | ⟨j, g, rfl⟩ | ⟨j, h⟩
  · cases op <;> simp [request, callee, onT] at h hr
  · cases op <;> simp [looks, callee, onT] at h hr
  · simp only [callee, Option.some.injEq] at hr; subst hr
    cases hw : s.sviews[j]? with
    | none => right; rw [sSet_none hw]; exact ⟨by simp [viewTarget, hw], rfl⟩
    | some w =>
      left
      refine ⟨w.param, some w.conv.target, by simp [viewTarget, hw], ?_⟩
      obtain ⟨P, u, hp, _⟩ := (hi.good.sviews j w hw).ex
      by_cases hc : P.children = []
      · rw [sSet_leaf hi hw hp hc]
        refine ⟨rfl, fun q hq => setParam_ne _ _ (Ne.symm hq), fun i => ?_, fun i => rfl,
          fun i _ => rfl⟩
        show ((wroteS s j w x).sviews[i]?).map _ = _
        rw [wroteS_sviews, Option.map_map]
        cases s.sviews[i]? with
        | none => rfl
        | some a => by_cases hji : j = i <;> simp [hji, SView.stat]
      · rw [sSet_children hi hw hp hc]; exact .refl _ _ s
  · simp only [callee, Option.some.injEq] at hr; subst hr
    cases hw : s.gviews[j]? with
    | none => right; rw [gSet_none hw]; exact ⟨by simp [viewTarget, hw], rfl⟩
    | some w =>
      left
      obtain ⟨P, hp, _⟩ := hi.good.gviews j w hw
      refine ⟨w.param, P.unit, by simp [viewTarget, hw, hp], ?_⟩
      by_cases hc : P.children = []
      · rw [gSet_leaf hi hw hp hc]
        refine ⟨rfl, fun q hq => setParam_ne _ _ (Ne.symm hq), fun i => rfl, fun i => ?_,
          fun i _ => rfl⟩
        show ((s.gviews.modify j _)[i]?).map _ = _
        by_cases hji : j = i
        · subst hji; rw [getElem?_modify_self, Option.map_map]; rfl
        · rw [getElem?_modify_ne _ _ hji]
      · rw [gSet_children hi hw hp hc]; exact .refl _ _ s
  · have hr' : r = .t j := by
      cases op <;> simp_all [onT, callee]
    subst hr'
    cases hw : s.tviews[j]? with
    | none =>
      right; rw [onT_none env op j h s hw]; exact ⟨by simp [viewTarget, hw], rfl⟩
    | some w =>
      left
      refine ⟨w.leaf.param, some w.leaf.conv.target, by simp [viewTarget, hw], ?_⟩
      have := onT_fr env op j w.leaf.param h s (by rw [hw]; rfl)
      exact ⟨this.regions, this.params, fun i => by rw [this.sviews], fun i => by rw [this.gviews],
        fun i hne => this.tviews i (by rintro rfl; exact hne rfl)⟩

theorem callee_none {op : Op K G} (h : callee op = none) :
    (∃ nr, request op = some nr) ∨ looks op = true := by
  cases op <;> simp_all [callee, onT, request, looks]

end Openscm
