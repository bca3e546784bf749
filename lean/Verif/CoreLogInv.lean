import Verif.CoreLog

/-!
# The heap agrees with the write log

Helper file: invariants that tie versions, emptiness and stored scalar and generic values to the
log of `CoreLog.lean`.
-/

set_option linter.unusedSectionVars false

namespace Openscm
variable {K G : Type} [Field K] [LinearOrder K] [IsStrictOrderedRing K]

/-! ## What sequences of primitive changes do to versions and data -/

/-- Number of stores to parameter `p`. -/
def storesTo (p : Nat) (l : List (Nat × Data K G)) : Nat := l.countP (fun e => decide (e.1 = p))

/-- Effect on an existing parameter. -/
def PEff (p : Nat) (l : List (Nat × Data K G)) (P P' : Param K G) : Prop :=
  P'.version = P.version + storesTo p l ∧
    (P.ptype ≠ none → (∀ e ∈ l, e.1 ≠ p) → P'.data = P.data)

theorem PEff.same {p : Nat} (P : Param K G) : PEff p [] P P := ⟨rfl, fun _ _ => rfl⟩

theorem eff_modify {s : St K G} {q : Nat} {f : Param K G → Param K G}
    {l : List (Nat × Data K G)} {p : Nat} {P : Param K G} (hp : s.params[p]? = some P)
    (h1 : q = p → PEff p l P (f P)) (h2 : q ≠ p → PEff p l P P) :
    ∃ P', (s.params.modify q f)[p]? = some P' ∧ PEff p l P P' := by
  by_cases h : q = p
  · refine ⟨f P, ?_, h1 h⟩
    subst h
    rw [getElem?_modify_self, hp]; rfl
  · refine ⟨P, ?_, h2 h⟩
    rw [getElem?_modify_ne _ _ h]; exact hp

theorem Prim.eff {env : Env K} {s s' : St K G} {l : List (Nat × Data K G)} (h : Prim env s l s')
    {p : Nat} {P : Param K G} (hp : s.params[p]? = some P) :
    ∃ P', s'.params[p]? = some P' ∧ PEff p l P P' := by
  have stored : ∀ (q : Nat) (d : Data K G),
      ∃ P', (s.params.modify q (fun P => { P with data := d, version := P.version + 1 }))[p]? = some P' ∧
        PEff p [(q, d)] P P' := by
    intro q d
    refine eff_modify hp (fun hq => ⟨?_, fun _ hn => ?_⟩) (fun hq => ⟨?_, fun _ _ => rfl⟩)
    · subst hq; simp [storesTo]
    · exact absurd hq (hn (q, d) (by simp))
    · simp [storesTo, hq]
  cases h with
  | addRegion r R n hr hn ha => exact ⟨P, hp, .same P⟩
  | addRoot r R n hr hn => exact ⟨P, getElem?_append_of_some hp, .same P⟩
  | addChild q Q n hq hn hw hr =>
    obtain ⟨P', h1, h2⟩ := eff_modify (q := q) (l := [])
      (f := fun P => { P with children := P.children ++ [(n, s.params.length)] }) hp
      (fun _ => ⟨rfl, fun _ _ => rfl⟩) (fun _ => .same P)
    exact ⟨P', getElem?_append_of_some h1, h2⟩
  | typed q Q Q' ty u tps e hq ht hu hf =>
    refine eff_modify hp (fun hqp => ?_) (fun _ => .same P)
    subst hqp
    rw [hp] at hq; cases hq
    have := firstRead_keeps hf
    exact ⟨this, fun h => absurd ht h⟩
  | typedRead q Q Q' ty u tps hq ht hu hf =>
    refine eff_modify hp (fun hqp => ?_) (fun _ => .same P)
    subst hqp
    rw [hp] at hq; cases hq
    have := firstRead_keeps hf
    exact ⟨this, fun h => absurd ht h⟩
  | read q Q ty hq ht => exact eff_modify hp (fun _ => ⟨rfl, fun _ _ => rfl⟩) (fun _ => .same P)
  | mark q Q hq hc hr => exact eff_modify hp (fun _ => ⟨rfl, fun _ _ => rfl⟩) (fun _ => .same P)
  | newS q Q u v hq ht hr hv => exact ⟨P, hp, .same P⟩
  | newT q Q u tps ty ext v hq hty ht hr hv => exact ⟨P, hp, .same P⟩
  | newG q Q hq ht hr => exact ⟨P, hp, .same P⟩
  | sWritable i v Q hv hq hw => exact ⟨P, hp, .same P⟩
  | gWritable i v Q hv hq hw => exact ⟨P, hp, .same P⟩
  | tWritable i v Q hv hq hw => exact ⟨P, hp, .same P⟩
  | storeS i v x hv hw => exact stored _ _
  | storeG i v g hv hw => exact stored _ _
  | tRead i v hv => exact ⟨P, hp, .same P⟩
  | tCache i v d hv hd => exact ⟨P, hp, .same P⟩
  | tLocked i b => exact ⟨P, hp, .same P⟩
  | tStore i v Q d l hv hl hd hq hc => exact stored _ _

theorem Steps.eff {env : Env K} {s s' : St K G} {l : List (Nat × Data K G)} (h : Steps env s l s')
    (hi : Inv env s) {p : Nat} {P : Param K G} (hp : s.params[p]? = some P) :
    ∃ P', s'.params[p]? = some P' ∧ PEff p l P P' := by
  induction h with
  | refl => exact ⟨P, hp, .same P⟩
  | tail h hpr ih =>
    obtain ⟨Q, q1, q2, q3⟩ := ih
    obtain ⟨R, r1, r2, r3⟩ := hpr.eff q1
    obtain ⟨Q', x1, x2⟩ := h.pext hi p P hp
    rw [q1] at x1; cases x1
    refine ⟨R, r1, ?_, fun ht hn => ?_⟩
    · unfold storesTo at *; rw [r2, q2, List.countP_append]; omega
    · obtain ⟨t, ht'⟩ := Option.ne_none_iff_exists'.1 ht
      rw [r3 (by rw [x2.ptype t ht']; simp) (fun e he => hn e (List.mem_append_right _ he)),
        q3 ht (fun e he => hn e (List.mem_append_left _ he))]

/-! ## Emptiness flags -/

def writtenFlags (s : St K G) : List Bool := s.params.map (fun P => P.written)

theorem wf_updT (i : Nat) (f : TView K → TView K) :
    Keeps writtenFlags (updTView i f : M K G Unit) := fun _ => rfl

theorem wf_readT (i : Nat) : Keeps writtenFlags (readT i : M K G Unit) := by
  intro s
  cases hv : s.tviews[i]? with
  | none => rw [readT_none hv]
  | some v => rw [readT_state hv]; rfl

theorem wf_store (p : Nat) (d : Data K G) : Keeps writtenFlags (store p d) :=
  fun s => map_modify_keep s.params p _ _ (fun _ => rfl)

theorem wf_writeT (i : Nat) : Keeps writtenFlags (writeT i : M K G Unit) := by
  unfold writeT
  refine (Keeps.look _).bind (fun v => Keeps.ite (Keeps.of_eq (fun _ => rfl)) ?_)
  cases v.leaf.data with
  | none => exact Keeps.of_eq (fun _ => rfl)
  | some d =>
    refine (Keeps.ofExcept _).bind (fun l => ?_)
    exact (wf_store _ _).bind (fun _ => (Keeps.look _).bind (fun P => wf_updT i _))

theorem wf_setItems (env : Env K) (i : Nat) (ix : List (Int × Fl K)) :
    Keeps writtenFlags (setItems env i ix : M K G Unit) := by
  unfold setItems
  refine (Keeps.look _).bind (fun v => ?_)
  cases v.leaf.data with
  | none => exact Keeps.of_eq (fun _ => rfl)
  | some d =>
    exact (Keeps.ofExcept _).bind (fun d => Keeps.bind (wf_updT i _) (fun _ => wf_writeT i))

theorem wf_handle (i : Nat) : Keeps writtenFlags (handle i : M K G (Arr K)) :=
  Keeps.of_eq (handle_state i)

/-- Whole-array assignments. -/
def wholeT : Op K G → Option Nat
  | .tSet i _ => some i
  | .tSetOwn i => some i
  | _ => none

theorem wf_onT (env : Env K) (op : Op K G) (i : Nat) (h : onT op = some i)
    (h1 : wholeT op = none) : Keeps writtenFlags (call env op) := by
  have hp : ∀ (o : Out K G), Keeps writtenFlags (pure o : M K G (Out K G)) :=
    fun o => Keeps.of_eq (fun _ => rfl)
  cases op <;> simp only [onT, Option.some.injEq, reduceCtorEq] at h <;> subst h
  case tGet i => exact (wf_readT i).bind (fun _ => (wf_handle i).bind (fun _ => hp _))
  case tSet i a => simp [wholeT] at h1
  case tGetItem i j =>
    exact (wf_readT i).bind (fun _ => (wf_handle i).bind (fun _ =>
      (Keeps.ofExcept _).bind (fun _ => hp _)))
  case tSetItem i ix =>
    exact (wf_readT i).bind (fun _ => (wf_setItems env i ix).bind (fun _ => hp _))
  case hGetItem i j =>
    exact (wf_handle i).bind (fun _ => (wf_readT i).bind (fun _ => (wf_handle i).bind
      (fun _ => (Keeps.ofExcept _).bind (fun _ => hp _))))
  case hSetItem i ix => exact (wf_setItems env i ix).bind (fun _ => hp _)
  case hInplace i f =>
    exact (wf_handle i).bind (fun _ => (wf_readT i).bind (fun _ => (wf_handle i).bind
      (fun d => (Keeps.ofExcept _).bind (fun d' => Keeps.bind (wf_updT i _)
        (fun _ => (wf_writeT i).bind (fun _ => hp _))))))
  case tSetOwn i => simp [wholeT] at h1
  case tLock i =>
    exact (Keeps.look _).bind (fun _ => Keeps.bind (wf_updT i _) (fun _ => hp _))
  case tUnlock i =>
    exact (Keeps.look _).bind (fun _ => Keeps.bind (wf_updT i _)
      (fun _ => (wf_writeT i).bind (fun _ => hp _)))

theorem flags_param {s s' : St K G} (h : writtenFlags s' = writtenFlags s) {p : Nat}
    {P P' : Param K G} (hp : s.params[p]? = some P) (hp' : s'.params[p]? = some P') :
    P'.written = P.written := by
  have := congrArg (fun l => l[p]?) h
  simp only [writtenFlags, List.getElem?_map, hp, hp', Option.map_some, Option.some.injEq] at this
  exact this

theorem convert_error {ty : PType} {ext : Extrap} {src tgt : List K} {vals : List (Fl K)} {e : Err}
    (h : convert ty ext src tgt vals = .error e) :
    e = .insufficientData ∨ e = .unmodelled ∨ e = .notImplemented := by
  have key : ∀ vs : List K, ∀ e, convertNum ty ext src tgt vs = .error e →
      e = .insufficientData ∨ e = .unmodelled ∨ e = .notImplemented := by
    have ti : ∀ {α : Type} (x : Except Err α) (e : Err), toInsufficient x = .error e →
        e = .insufficientData := by
      intro α x e h
      cases x <;> simp [toInsufficient] at h
      exact h.symm
    intro vs e h
    unfold convertNum at h
    split at h
    · injection h with h; exact Or.inl h.symm
    · simp only at h
      split at h
      · split at h
        · injection h with h; exact Or.inl h.symm
        · split at h
          · exact Or.inl (ti _ _ h)
          · injection h with h; exact Or.inr (Or.inl h.symm)
      · split at h
        · injection h with h; exact Or.inl h.symm
        · split at h
          · exact Or.inl (ti _ _ h)
          · injection h with h; exact Or.inr (Or.inl h.symm)
      · injection h with h; exact Or.inr (Or.inr h.symm)
  unfold convert at h
  split at h
  · exact key _ _ h
  · split at h
    · rename_i e' he
      injection h with h; subst h
      exact key _ _ he
    · simp at h

/-- What a whole-array assignment does to the emptiness flag: it is refused because there are
children, or else the parameter is marked as written, whatever happens afterwards. -/
theorem setValues_marks {env : Env K} {s : St K G} {i : Nat} {v : TView K} {P : Param K G}
    {a : Arr K} (hi : Inv env s) (hv : s.tviews[i]? = some v)
    (hp : s.params[v.leaf.param]? = some P) :
    (P.children ≠ [] ∧ setValues i a s = (.error .parameterReadonly, s)) ∨
    (P.children = [] ∧ (setValues i a s).1 ≠ .error .parameterReadonly ∧
      (setValues i a s).1 ≠ .error .badHandle ∧
      ∃ P', (setValues i a s).2.params[v.leaf.param]? = some P' ∧ P'.written = true) := by
  by_cases hc : P.children = []
  · right
    refine ⟨hc, ?_⟩
    by_cases ha : a.length = v.leaf.ts.targetLength
    · cases hd : newCache v.leaf.data a with
      | error e =>
        rw [setValues_dtype hi hv hp hc ha hd]
        have : e = .typeError := by
          cases hdd : v.leaf.data with
          | none => rw [hdd] at hd; simp [newCache] at hd
          | some d =>
            rw [hdd] at hd
            cases d <;> cases a <;> simp [newCache, Arr.copyTo] at hd
            exact hd.symm
        subst this
        exact ⟨by simp, by simp, _, marked_param hp, rfl⟩
      | ok d =>
        rw [setValues_write hi hv hp hc ha hd]
        have hv' := cached_view (d := d) (marked_view hv)
        have hp' : (cached (marked s i v) i d).params[v.leaf.param]?
            = some { P with written := true } := marked_param (i := i) hp
        have hw := writeT_cases hv' rfl hp'
        cases hr : writeT i (cached (marked s i v) i d) with
        | mk r s' =>
          rw [hr] at hw
          cases hw with
          | locked h => exact ⟨by simp, by simp, _, hp', rfl⟩
          | refused h e he =>
            have he' := convert_error he
            refine ⟨?_, ?_, _, hp', rfl⟩ <;>
              (simp only [ne_eq, Except.error.injEq]; rintro rfl; simp at he')
          | stored h l he =>
            refine ⟨by simp, by simp, ?_⟩
            show ∃ P', ((cached (marked s i v) i d).setParam v.leaf.param _).params[v.leaf.param]?
              = some P' ∧ _
            rw [setParam_self, hp']
            exact ⟨_, rfl, rfl⟩
    · rw [setValues_mismatch hi hv hp hc ha]
      exact ⟨by simp, by simp, _, marked_param hp, rfl⟩
  · exact Or.inl ⟨hc, setValues_children hi hv hp hc⟩

/-! ## The invariants -/

/-- What is stored in a scalar or generic parameter is the last entry for its key. -/
def PLog (env : Env K) (L : List (Key × Entry K G)) (k : Key) (P : Param K G) : Prop :=
  match P.ptype with
  | some .scalar => (P.written = false ∧ P.version = 0) ∨
      (P.written = true ∧ ∃ L1 x u L2 w c, L = L1 ++ (k, .num x u) :: L2 ∧ (∀ e ∈ L2, e.1 ≠ k) ∧
        P.unit = some w ∧ mkConv env.units w u = .ok c ∧ P.data = .scalar (x.map c.convertTo))
  | some .generic => (P.written = false ∧ P.version = 0) ∨
      (P.written = true ∧ ∃ L1 g L2, L = L1 ++ (k, .gen g) :: L2 ∧ (∀ e ∈ L2, e.1 ≠ k) ∧
        P.data = .generic (some g))
  | _ => True

/-- Number of writes to `k`. -/
def writesTo (k : Key) (L : List (Key × Entry K G)) : Nat := L.countP (fun e => decide (e.1 = k))

structure LogV (env : Env K) (s : St K G) (L : List (Key × Entry K G)) : Prop where
  key : ∀ e ∈ L, ∃ p, HasKey s p e.1
  ver : ∀ (p : Nat) (P : Param K G) (k : Key), HasKey s p k → s.params[p]? = some P →
    P.version = writesTo k L
  par : ∀ (p : Nat) (P : Param K G) (k : Key), HasKey s p k → s.params[p]? = some P →
    PLog env L k P

theorem key_back {env : Env K} {s s' : St K G} (hi : Inv env s) (hp : PExt s s') (hr : RExt s s')
    {p : Nat} {P : Param K G} {k : Key} (h : s.params[p]? = some P) (hk : HasKey s' p k) :
    HasKey s p k := by
  obtain ⟨k0, h0⟩ := HasKey.exists hi.tree h
  have := (h0.mono hp hr).det hk
  subst this; exact h0

theorem LogV.quiet {env : Env K} {s s' : St K G} {L : List (Key × Entry K G)} (h : LogV env s L)
    (hi : Inv env s) (hi' : Inv env s') (hp : PExt s s') (hr : RExt s s')
    (hold : ∀ (p : Nat) (P P' : Param K G), s.params[p]? = some P → s'.params[p]? = some P' →
      P'.version = P.version ∧ ((P.ptype = some .scalar ∨ P.ptype = some .generic ∨ P.ptype = none) →
        P'.written = P.written) ∧ (P.ptype ≠ none → P'.data = P.data))
    (hnew : ∀ (p : Nat) (P' : Param K G), s'.params[p]? = some P' → s.params[p]? = none →
      P'.written = false ∧ P'.version = 0) : LogV env s' L := by
  have noentry : ∀ (p : Nat) (k : Key), HasKey s' p k → s.params[p]? = none → ∀ e ∈ L, e.1 ≠ k := by
    rintro p k hk hn e he rfl
    obtain ⟨q, hq⟩ := h.key e he
    have := (hq.mono hp hr).inj hi'.tree hk
    subst this
    obtain ⟨Q, hQ, _⟩ := hq
    rw [hn] at hQ; simp at hQ
  refine ⟨fun e he => ?_, fun p P' k hk hp' => ?_, fun p P' k hk hp' => ?_⟩
  · obtain ⟨p, hk⟩ := h.key e he; exact ⟨p, hk.mono hp hr⟩
  · cases hP : s.params[p]? with
    | none =>
      rw [(hnew p P' hp' hP).2]
      symm
      exact List.countP_eq_zero.2 (fun e he => by simpa using noentry p k hk hP e he)
    | some P =>
      rw [(hold p P P' hP hp').1]
      exact h.ver p P k (key_back hi hp hr hP hk) hP
  · cases hP : s.params[p]? with
    | none =>
      obtain ⟨a, b⟩ := hnew p P' hp' hP
      unfold PLog
      split
      · exact Or.inl ⟨a, b⟩
      · exact Or.inl ⟨a, b⟩
      · trivial
    | some P =>
      obtain ⟨a, b, c⟩ := hold p P P' hP hp'
      obtain ⟨Q, x1, x2⟩ := hp p P hP
      rw [hp'] at x1; cases x1
      have hpl := h.par p P k (key_back hi hp hr hP hk) hP
      have hg := hi.good.params p P hP
      cases ht : P.ptype with
      | none =>
        have hw : P.written = false := by
          cases hww : P.written with
          | false => rfl
          | true => have := (hg.1 hww).2; have h2 := hg.2; rw [ht] at h2; rw [h2.1] at this; simp at this
        have hv : P.version = 0 := by have h2 := hg.2; rw [ht] at h2; exact h2.2.2.2.2
        have h1 : P'.written = false := by rw [b (Or.inr (Or.inr ht)), hw]
        have h2 : P'.version = 0 := by rw [a, hv]
        unfold PLog
        split
        · exact Or.inl ⟨h1, h2⟩
        · exact Or.inl ⟨h1, h2⟩
        · trivial
      | some t =>
        have ht' := x2.ptype t ht
        have hu := x2.unit (by rw [ht]; simp)
        have hd := c (by rw [ht]; simp)
        unfold PLog at hpl ⊢
        rw [ht] at hpl; rw [ht']
        cases t with
        | scalar =>
          have hw := b (Or.inl ht)
          simp only at hpl ⊢
          rw [hw, a, hu, hd]; exact hpl
        | generic =>
          have hw := b (Or.inr (Or.inl ht))
          simp only at hpl ⊢
          rw [hw, a, hd]; exact hpl
        | average => trivial
        | point => trivial

theorem LogV.write {env : Env K} {s s' : St K G} {L : List (Key × Entry K G)} (h : LogV env s L)
    (hi : Inv env s) (hr : s'.regions = s.regions) (hx : PExt s s') {p : Nat}
    {k : Key} {E : Entry K G} (hk : HasKey s p k)
    (hoth : ∀ q, q ≠ p → s'.params[q]? = s.params[q]?)
    (hver : ∀ P P' : Param K G, s.params[p]? = some P → s'.params[p]? = some P' →
      P'.version = P.version + 1)
    (hpl : ∀ P' : Param K G, s'.params[p]? = some P' → PLog env (L ++ [(k, E)]) k P') :
    LogV env s' (L ++ [(k, E)]) := by
  have hrx : RExt s s' := .of_eq hr
  have back : ∀ (q : Nat) (P' : Param K G) (k' : Key), s'.params[q]? = some P' → HasKey s' q k' →
      HasKey s q k' ∧ ∃ P, s.params[q]? = some P := by
    intro q P' k' hq hk'
    have : ∃ P, s.params[q]? = some P := by
      by_cases hqp : q = p
      · subst hqp; obtain ⟨P, h1, _⟩ := hk; exact ⟨P, h1⟩
      · exact ⟨P', by rw [← hoth q hqp]; exact hq⟩
    obtain ⟨P, hP⟩ := this
    exact ⟨key_back hi hx hrx hP hk', P, hP⟩
  refine ⟨fun e he => ?_, fun q P' k' hk' hq => ?_, fun q P' k' hk' hq => ?_⟩
  · rcases List.mem_append.1 he with he | he
    · obtain ⟨q, hq⟩ := h.key e he; exact ⟨q, hq.mono hx hrx⟩
    · simp only [List.mem_singleton] at he; subst he
      exact ⟨p, hk.mono hx hrx⟩
  · obtain ⟨hkq, P, hP⟩ := back q P' k' hq hk'
    have hv := h.ver q P k' hkq hP
    unfold writesTo at *
    rw [List.countP_append, ← hv]
    by_cases hqp : q = p
    · subst hqp
      rw [hver P P' hP hq]
      rw [hk.det hkq]
      simp
    · have hne : k ≠ k' := by rintro rfl; exact hqp (hkq.inj hi.tree hk)
      rw [hoth q hqp, hP] at hq; cases hq
      simp [hne]
  · obtain ⟨hkq, P, hP⟩ := back q P' k' hq hk'
    by_cases hqp : q = p
    · subst hqp
      rw [hkq.det hk]
      exact hpl P' hq
    · have hne : k ≠ k' := by rintro rfl; exact hqp (hkq.inj hi.tree hk)
      rw [hoth q hqp] at hq
      have hpl' := h.par q P' k' hkq hq
      unfold PLog at hpl' ⊢
      split
      · rename_i ht
        rw [ht] at hpl'
        rcases hpl' with hl | ⟨hl, L1, x, u, L2, w, c, h1, h2, h3⟩
        · exact Or.inl hl
        · refine Or.inr ⟨hl, L1, x, u, L2 ++ [(k, E)], w, c, by rw [h1]; simp, ?_, h3⟩
          intro e he
          rcases List.mem_append.1 he with he | he
          · exact h2 e he
          · simp only [List.mem_singleton] at he; subst he; exact hne
      · rename_i ht
        rw [ht] at hpl'
        rcases hpl' with hl | ⟨hl, L1, g, L2, h1, h2, h3⟩
        · exact Or.inl hl
        · refine Or.inr ⟨hl, L1, g, L2 ++ [(k, E)], by rw [h1]; simp, ?_, h3⟩
          intro e he
          rcases List.mem_append.1 he with he | he
          · exact h2 e he
          · simp only [List.mem_singleton] at he; subst he; exact hne
      · trivial

/-- The locks a program can work out are those in the heap. -/
structure LockV (s : St K G) (locks : Nat → Bool) : Prop where
  is : ∀ (i : Nat) (v : TView K), s.tviews[i]? = some v → v.locked = locks i
  no : ∀ i : Nat, s.tviews[i]? = none → locks i = false

theorem LockV.keep {s s' : St K G} {locks : Nat → Bool} (h : LockV s locks)
    (hk : lockFlags s' = lockFlags s) : LockV s' locks := by
  have hj : ∀ j : Nat, (s'.tviews[j]?).map (fun v => v.locked) = (s.tviews[j]?).map (fun v => v.locked) := by
    intro j
    have := congrArg (fun l => l[j]?) hk
    simpa only [lockFlags, List.getElem?_map] using this
  refine ⟨fun i v hv => ?_, fun i hn => ?_⟩
  · have := hj i
    rw [hv] at this
    cases hw : s.tviews[i]? with
    | none => rw [hw] at this; simp at this
    | some w =>
      rw [hw] at this
      simp only [Option.map_some, Option.some.injEq] at this
      rw [this]; exact h.is i w hw
  · have := hj i
    rw [hn] at this
    cases hw : s.tviews[i]? with
    | none => exact h.no i hw
    | some w => rw [hw] at this; simp at this

theorem LockV.step {env : Env K} {s : St K G} {locks : Nat → Bool} (h : LockV s locks)
    (hi : Inv env s) (op : Op K G) :
    LockV (call env op s).2 (lockStep env s locks op) := by
  rcases op_cases op with ⟨nr, ho⟩ | ho | ⟨j, x, rfl⟩ | ⟨j, g, rfl⟩ | ⟨j, ho⟩
  · have hl : lockStep env s locks op = locks := by cases op <;> simp [request] at ho <;> rfl
    rw [hl]
    rcases request_tviews env op nr ho s with h1 | ⟨v, hv, _, _, _, _, h1⟩
    · exact h.keep (by unfold lockFlags; rw [h1])
    · refine ⟨fun i w hw => ?_, fun i hn => ?_⟩
      · rw [h1] at hw
        rcases getElem?_snoc_cases hw with hw | ⟨hw, rfl⟩
        · exact h.is i w hw
        · rw [hv]; symm; exact h.no i (by rw [List.getElem?_eq_none_iff]; omega)
      · refine h.no i ?_
        rw [h1] at hn
        rw [List.getElem?_eq_none_iff] at hn ⊢
        simp at hn; omega
  · have hl : lockStep env s locks op = locks := by cases op <;> simp [looks] at ho <;> rfl
    rw [hl, looks_state env op ho]; exact h
  · show LockV _ locks
    cases hw : s.sviews[j]? with
    | none => rw [sSet_none hw]; exact h
    | some w =>
      obtain ⟨P, u, hp, _⟩ := (hi.good.sviews j w hw).ex
      by_cases hc : P.children = []
      · rw [sSet_leaf hi hw hp hc]; exact h.keep rfl
      · rw [sSet_children hi hw hp hc]; exact h
  · show LockV _ locks
    cases hw : s.gviews[j]? with
    | none => rw [gSet_none hw]; exact h
    | some w =>
      obtain ⟨P, hp, _⟩ := hi.good.gviews j w hw
      by_cases hc : P.children = []
      · rw [gSet_leaf hi hw hp hc]; exact h.keep rfl
      · rw [gSet_children hi hw hp hc]; exact h
  · have upd : ∀ (b : Bool) (s' : St K G), (∃ v, s.tviews[j]? = some v) →
        lockFlags s' = lockFlags (s.setT j (fun v => { v with locked := b })) →
        LockV s' (Function.update locks j b) := by
      intro b s' hex hf
      have : LockV (s.setT j (fun v => { v with locked := b })) (Function.update locks j b) := by
        refine ⟨fun i v hv => ?_, fun i hn => ?_⟩
        · by_cases hij : j = i
          · subst hij
            rw [setT_self, Option.map_eq_some_iff] at hv
            obtain ⟨w, _, rfl⟩ := hv
            simp
          · rw [setT_ne _ _ hij] at hv
            rw [Function.update_of_ne (Ne.symm hij)]; exact h.is i v hv
        · by_cases hij : j = i
          · subst hij
            rw [setT_self] at hn
            obtain ⟨v, hv⟩ := hex
            rw [hv] at hn; simp at hn
          · rw [setT_ne _ _ hij] at hn
            rw [Function.update_of_ne (Ne.symm hij)]; exact h.no i hn
      exact this.keep hf
    by_cases h1 : op = .tLock j
    · subst h1
      cases hv : s.tviews[j]? with
      | none =>
        have hc := onT_none env (.tLock j) j rfl s hv
        simp only [lockStep, result, hc, succeeded]
        exact h
      | some v =>
        have hc := tLock_eq env j s hv
        simp only [lockStep, result, hc, succeeded, if_true]
        exact upd true _ ⟨v, hv⟩ rfl
    · by_cases h2 : op = .tUnlock j
      · subst h2
        cases hv : s.tviews[j]? with
        | none =>
          rw [onT_none env (.tUnlock j) j rfl s hv]
          simp only [lockStep]
          rw [show Function.update locks j false = locks from by
            rw [← h.no j hv]; exact Function.update_eq_self j locks]
          exact h
        | some v =>
          rw [tUnlock_eq env j s hv]
          simp only [lockStep]
          exact upd false _ ⟨v, hv⟩
            ((locks_writeT j).bind (fun _ => Keeps.of_eq (fun _ => rfl)) _)
      · have hl : lockStep env s locks op = locks := by
          cases op <;> simp [onT] at ho <;> subst ho <;> first | rfl | exact absurd rfl h1 | exact absurd rfl h2
        rw [hl]
        exact h.keep (locks_onT env op j ho h1 h2 s)

/-- Emptiness of timeseries parameters against the attempted assignments. -/
structure TryV (s : St K G) (T : List Key) : Prop where
  key : ∀ k ∈ T, ∃ p, HasKey s p k
  iff : ∀ (p : Nat) (P : Param K G) (k : Key), HasKey s p k → s.params[p]? = some P →
    (k ∈ T ↔ P.written = true ∧ (P.ptype = some .average ∨ P.ptype = some .point))

theorem TryV.quiet {env : Env K} {s s' : St K G} {T : List Key} (h : TryV s T)
    (hi : Inv env s) (hi' : Inv env s') (hp : PExt s s') (hr : RExt s s')
    (hold : ∀ (p : Nat) (P P' : Param K G), s.params[p]? = some P → s'.params[p]? = some P' →
      P'.written = P.written ∨ P.ptype = some .scalar ∨ P.ptype = some .generic)
    (hnew : ∀ (p : Nat) (P' : Param K G), s'.params[p]? = some P' → s.params[p]? = none →
      P'.written = false) : TryV s' T := by
  refine ⟨fun k hk => ?_, fun p P' k hk hp' => ?_⟩
  · obtain ⟨p, hq⟩ := h.key k hk; exact ⟨p, hq.mono hp hr⟩
  · cases hP : s.params[p]? with
    | none =>
      rw [hnew p P' hp' hP]
      simp only [Bool.false_eq_true, false_and, iff_false]
      intro hT
      obtain ⟨q, hq⟩ := h.key k hT
      have := (hq.mono hp hr).inj hi'.tree hk
      subst this
      obtain ⟨Q, hQ, _⟩ := hq
      rw [hP] at hQ; simp at hQ
    | some P =>
      rw [h.iff p P k (key_back hi hp hr hP hk) hP]
      obtain ⟨Q, x1, x2⟩ := hp p P hP
      rw [hp'] at x1; cases x1
      rcases hold p P P' hP hp' with hw | ht | ht
      · rw [hw]
        cases ht : P.ptype with
        | none =>
          have hg := hi.good.params p P hP
          have : P.written = false := by
            cases hww : P.written with
            | false => rfl
            | true => have := (hg.1 hww).2; have h2 := hg.2; rw [ht] at h2; rw [h2.1] at this; simp at this
          simp [this]
        | some t => rw [x2.ptype t ht]
      · rw [x2.ptype _ ht, ht]; simp
      · rw [x2.ptype _ ht, ht]; simp

theorem TryV.write {env : Env K} {s s' : St K G} {T : List Key} (h : TryV s T) (hi : Inv env s)
    (hr : s'.regions = s.regions) (hx : PExt s s') {p : Nat} {k : Key} (hk : HasKey s p k)
    (hoth : ∀ q, q ≠ p → s'.params[q]? = s.params[q]?)
    (hw : ∃ P' : Param K G, s'.params[p]? = some P' ∧ P'.written = true ∧
      (P'.ptype = some .average ∨ P'.ptype = some .point)) : TryV s' (T ++ [k]) := by
  have hrx : RExt s s' := .of_eq hr
  refine ⟨fun k' hk' => ?_, fun q P' k' hk' hq => ?_⟩
  · rcases List.mem_append.1 hk' with h1 | h1
    · obtain ⟨q, hq⟩ := h.key k' h1; exact ⟨q, hq.mono hx hrx⟩
    · simp only [List.mem_singleton] at h1; subst h1; exact ⟨p, hk.mono hx hrx⟩
  · by_cases hqp : q = p
    · subst hqp
      obtain ⟨P'', h1, h2, h3⟩ := hw
      rw [hq] at h1; cases h1
      have := (hk.mono hx hrx).det hk'
      subst this
      simp [h2, h3]
    · rw [hoth q hqp] at hq
      have hkq := key_back hi hx hrx hq hk'
      have hne : k' ≠ k := by rintro rfl; exact hqp (hkq.inj hi.tree hk)
      rw [← h.iff q P' k' hkq hq]
      simp [hne]

/-! ## One step -/

theorem viewKey_t {env : Env K} {s : St K G} (hi : Inv env s) {i : Nat} {v : TView K}
    (hv : s.tviews[i]? = some v) : ∃ k, HasKey s v.leaf.param k ∧ viewKey env s (.t i) = some k := by
  obtain ⟨P, hp, _⟩ := (hi.good.tviews i v hv).ex
  obtain ⟨k, hk⟩ := HasKey.exists hi.tree hp
  exact ⟨k, hk, (viewKey_some hi).2 ⟨_, _, by simp only [viewTarget, hv]; rfl, hk⟩⟩

theorem viewKey_g {env : Env K} {s : St K G} (hi : Inv env s) {i : Nat} {v : GView}
    (hv : s.gviews[i]? = some v) : ∃ k, HasKey s v.param k ∧ viewKey env s (.g i) = some k := by
  obtain ⟨P, hp, _⟩ := hi.good.gviews i v hv
  obtain ⟨k, hk⟩ := HasKey.exists hi.tree hp
  exact ⟨k, hk, (viewKey_some hi).2 ⟨_, _, by simp only [viewTarget, hv]; rfl, hk⟩⟩

theorem logged_none_of {env : Env K} {s : St K G} {locks : Nat → Bool} {op : Op K G}
    (h : writesView op = none) : logged env s locks op = none := by
  unfold logged
  split
  · cases op <;> simp [writesView] at h <;> rfl
  · rfl

theorem LogV.grow {env : Env K} {s s' : St K G} {L : List (Key × Entry K G)} (h : LogV env s L)
    (hi : Inv env s) (hi' : Inv env s') (hp : PExt s s') (hr : RExt s s') (hg : Grow s s') :
    LogV env s' L := by
  refine h.quiet hi hi' hp hr (fun p P P' h1 h2 => ?_) (fun p P' h1 h2 => hg.new p P' h1 h2)
  obtain ⟨Q, q1, q2, q3, q4⟩ := hg.old p P h1
  rw [h2] at q1; cases q1
  exact ⟨q3, fun _ => q2, q4⟩

/-- A call on a timeseries view during which nothing is stored. -/
theorem LogV.onT_quiet {env : Env K} {s : St K G} {L : List (Key × Entry K G)} (h : LogV env s L)
    (hi : Inv env s) {op : Op K G} {i : Nat} (ho : onT op = some i) {v : TView K}
    (hv : s.tviews[i]? = some v) (hs : Steps env s [] (call env op s).2) :
    LogV env (call env op s).2 L := by
  have hf := onT_fr env op i v.leaf.param ho s (by rw [hv]; rfl)
  obtain ⟨Q, hq, hty, _⟩ := (hi.good.tviews i v hv).ex
  have htt := (hi.good.tviews i v hv).leaf.ty
  refine h.quiet hi (call_inv op hi) (call_pext op hi) (call_rext op hi)
    (fun p P P' h1 h2 => ?_) (fun p P' h1 h2 => ?_)
  · obtain ⟨Q', x1, x2, x3⟩ := hs.eff hi h1
    rw [h2] at x1; cases x1
    refine ⟨by simpa [storesTo] using x2, fun ht => ?_, fun ht => x3 ht (by simp)⟩
    by_cases hp : p = v.leaf.param
    · subst hp
      rw [hq] at h1; cases h1
      rw [hty] at ht
      rcases htt with htt | htt <;> rw [htt] at ht <;> simp at ht
    · rw [hf.params p hp, h1] at h2; cases h2; rfl
  · have : (call env op s).2.params.length = s.params.length := hf.plen
    rw [List.getElem?_eq_none_iff] at h2
    have := (List.getElem?_eq_some_iff.1 h1).1
    omega

theorem LogV.step {env : Env K} {s : St K G} {L : List (Key × Entry K G)} {locks : Nat → Bool}
    (h : LogV env s L) (hl : LockV s locks) (hi : Inv env s) (op : Op K G) :
    LogV env (call env op s).2 (L ++ (logged env s locks op).toList) := by
  have same : ∀ e : Err, call env op s = (.error e, s) →
      LogV env (call env op s).2 (L ++ (logged env s locks op).toList) := by
    intro e he
    have : logged env s locks op = none := by
      unfold logged result; rw [he]; rfl
    rw [this, he]; simpa using h
  rcases op_cases op with ⟨nr, ho⟩ | ho | ⟨j, x, rfl⟩ | ⟨j, g, rfl⟩ | ⟨j, ho⟩
  · rw [logged_none_of (by cases op <;> simp [request] at ho <;> rfl)]
    simpa using h.grow hi (call_inv op hi) (call_pext op hi) (call_rext op hi)
      (request_grows env op nr ho s hi)
  · rw [logged_none_of (by cases op <;> simp [looks] at ho <;> rfl), looks_state env op ho]
    simpa using h
  · cases hw : s.sviews[j]? with
    | none => exact same _ (sSet_none hw)
    | some v =>
      obtain ⟨P, u, hp, ht, hrd, hu, hm, _⟩ := (hi.good.sviews j v hw).ex
      by_cases hc : P.children = []
      · obtain ⟨k, hk⟩ := HasKey.exists hi.tree hp
        have hcall := sSet_leaf (x := x) hi hw hp hc
        have hlog : logged env s locks (.sSet j x) = some (k, .num x v.conv.target) := by
          unfold logged result; rw [hcall]
          have hI := (viewInfo_some hi (r := .s j)).2 ⟨v.param, some v.conv.target, k, P,
            by simp only [viewTarget, hw]; rfl, hk, hp, rfl⟩
          simp only [succeeded, if_true, hI]; rfl
        have hx := call_pext (.sSet j x) hi
        rw [hlog]; rw [hcall] at hx ⊢
        have hpar : (wroteS s j v x).params[v.param]?
            = some (P.put (.scalar (x.map v.conv.convertTo))) := by
          show (s.setParam v.param _).params[v.param]? = _
          rw [setParam_self, hp]; rfl
        refine LogV.write (s' := wroteS s j v x) h hi rfl hx hk (fun q hq => setParam_ne s _ (Ne.symm hq)) ?_ ?_
        · intro A A' h1 h2
          rw [hp] at h1; cases h1
          rw [hpar] at h2; cases h2; rfl
        · intro A' h2
          rw [hpar] at h2; cases h2
          unfold PLog
          simp only [Param.put, ht]
          exact Or.inr ⟨trivial, L, x, v.conv.target, [], u, v.conv, rfl, by simp, hu, hm, rfl⟩
      · exact same _ (sSet_children hi hw hp hc)
  · cases hw : s.gviews[j]? with
    | none => exact same _ (gSet_none hw)
    | some v =>
      obtain ⟨P, hp, ht, _⟩ := hi.good.gviews j v hw
      by_cases hc : P.children = []
      · obtain ⟨k, hk, hvk⟩ := viewKey_g hi hw
        have hcall := gSet_leaf (x := g) hi hw hp hc
        have hlog : logged env s locks (.gSet j g) = some (k, .gen g) := by
          unfold logged result; rw [hcall]
          simp only [succeeded, if_true, hvk]; rfl
        have hx := call_pext (.gSet j g) hi
        rw [hlog]; rw [hcall] at hx ⊢
        have hpar : (wroteG s j v g).params[v.param]? = some (P.put (.generic (some g))) := by
          show (s.setParam v.param _).params[v.param]? = _
          rw [setParam_self, hp]; rfl
        refine LogV.write (s' := wroteG s j v g) h hi rfl hx hk (fun q hq => setParam_ne s _ (Ne.symm hq)) ?_ ?_
        · intro A A' h1 h2
          rw [hp] at h1; cases h1
          rw [hpar] at h2; cases h2; rfl
        · intro A' h2
          rw [hpar] at h2; cases h2
          unfold PLog
          simp only [Param.put, ht]
          exact Or.inr ⟨trivial, L, g, [], rfl, by simp, rfl⟩
      · exact same _ (gSet_children hi hw hp hc)
  · cases hv : s.tviews[j]? with
    | none => exact same _ (onT_none env op j ho s hv)
    | some v =>
      by_cases hwv : writesView op = none
      · rw [logged_none_of hwv]
        simpa using h.onT_quiet hi ho hv (call_quiet env op hwv s)
      · have hwv' : writesView op = some (.t j) := by
          cases op <;> simp [onT] at ho <;> subst ho <;> simp [writesView] at hwv ⊢
        obtain ⟨k, hk, hvk⟩ := viewKey_t hi hv
        have hlog : succeeded (result env s op) = true → logged env s locks op =
            if v.locked && !isUnlock op then none else some (k, .series) := by
          intro hs
          have hlk := hl.is j v hv
          cases op <;> simp [onT] at ho <;> subst ho <;> simp [writesView] at hwv' <;>
            simp [logged, hs, isUnlock, assignsT, hvk, hlk]
        rcases call_tWrites env op j hwv' s hi.good.tyOK v hv with ⟨⟨e, he⟩, hst⟩ | ⟨hok, w, hw, hcase⟩
        · have : logged env s locks op = none := by
            unfold logged result; rw [he]; rfl
          rw [this]
          simpa using h.onT_quiet hi ho hv hst
        · rw [hv] at hw; cases hw
          have hs : succeeded (result env s op) = true := by
            unfold result
            cases hr : (call env op s).1 with
            | error e => rw [hr] at hok; simp [Except.isOk, Except.toBool] at hok
            | ok o => rfl
          rw [hlog hs]
          rcases hcase with ⟨hlk, hst⟩ | ⟨hlk, l, hst⟩
          · rw [if_pos hlk]
            simpa using h.onT_quiet hi ho hv hst
          · rw [if_neg (by rw [hlk]; simp)]
            have hf := onT_fr env op j v.leaf.param ho s (by rw [hv]; rfl)
            refine h.write hi hf.regions (call_pext op hi) hk (fun q hq => hf.params q hq) ?_ ?_
            · intro A A' h1 h2
              obtain ⟨B, b1, b2, _⟩ := hst.eff hi h1
              rw [h2] at b1; cases b1
              simpa [storesTo] using b2
            · intro A' h2
              obtain ⟨Q, hq, hty, _⟩ := (hi.good.tviews j v hv).ex
              obtain ⟨B, b1, b2⟩ := call_pext op hi _ Q hq
              rw [h2] at b1; cases b1
              have := b2.ptype _ hty
              unfold PLog
              rw [this]
              rcases (hi.good.tviews j v hv).leaf.ty with htt | htt <;> rw [htt] <;> trivial

theorem TryV.step {env : Env K} {s : St K G} {T : List Key} (h : TryV s T) (hi : Inv env s)
    (op : Op K G) : TryV (call env op s).2 (T ++ (tried env s op).toList) := by
  have hx := call_pext op hi
  have hrx := call_rext op hi
  have hi' := call_inv op hi
  have quiet0 : wholeT op = none → tried env s op = none := by
    intro ho
    cases op <;> simp [wholeT] at ho <;> rfl
  rcases op_cases op with ⟨nr, ho⟩ | ho | ⟨j, x, rfl⟩ | ⟨j, g, rfl⟩ | ⟨j, ho⟩
  · rw [quiet0 (by cases op <;> simp [request] at ho <;> rfl)]
    have hg := request_grows env op nr ho s hi
    simp only [Option.toList_none, List.append_nil]
    refine h.quiet hi hi' hx hrx (fun p P P' h1 h2 => ?_) (fun p P' h1 h2 => (hg.new p P' h1 h2).1)
    obtain ⟨Q, q1, q2, q3, q4⟩ := hg.old p P h1
    rw [h2] at q1; cases q1
    exact Or.inl q2
  · rw [quiet0 (by cases op <;> simp [looks] at ho <;> rfl), looks_state env op ho]
    simpa using h
  · rw [quiet0 rfl]
    simp only [Option.toList_none, List.append_nil]
    cases hw : s.sviews[j]? with
    | none => rw [sSet_none hw]; exact h
    | some v =>
      obtain ⟨P, u, hp, ht, _⟩ := (hi.good.sviews j v hw).ex
      by_cases hc : P.children = []
      · have hcall := sSet_leaf (x := x) hi hw hp hc
        rw [hcall] at hx hrx hi' ⊢
        refine h.quiet hi hi' hx hrx (fun p A A' h1 h2 => ?_) (fun p A' h1 h2 => ?_)
        · by_cases hq : p = v.param
          · subst hq; rw [hp] at h1; cases h1; exact Or.inr (Or.inl ht)
          · have : (wroteS s j v x).params[p]? = s.params[p]? := setParam_ne s _ (Ne.symm hq)
            rw [h2, h1] at this; cases this; exact Or.inl rfl
        · exfalso
          have : (wroteS s j v x).params.length = s.params.length := setParam_length s _ _
          have h1 : (wroteS s j v x).params[p]? = some A' := h1
          rw [List.getElem?_eq_none_iff] at h2
          have := (List.getElem?_eq_some_iff.1 h1).1
          omega
      · rw [sSet_children hi hw hp hc]; exact h
  · rw [quiet0 rfl]
    simp only [Option.toList_none, List.append_nil]
    cases hw : s.gviews[j]? with
    | none => rw [gSet_none hw]; exact h
    | some v =>
      obtain ⟨P, hp, ht, _⟩ := hi.good.gviews j v hw
      by_cases hc : P.children = []
      · have hcall := gSet_leaf (x := g) hi hw hp hc
        rw [hcall] at hx hrx hi' ⊢
        refine h.quiet hi hi' hx hrx (fun p A A' h1 h2 => ?_) (fun p A' h1 h2 => ?_)
        · by_cases hq : p = v.param
          · subst hq; rw [hp] at h1; cases h1; exact Or.inr (Or.inr ht)
          · have : (wroteG s j v g).params[p]? = s.params[p]? := setParam_ne s _ (Ne.symm hq)
            rw [h2, h1] at this; cases this; exact Or.inl rfl
        · exfalso
          have : (wroteG s j v g).params.length = s.params.length := setParam_length s _ _
          have h1 : (wroteG s j v g).params[p]? = some A' := h1
          rw [List.getElem?_eq_none_iff] at h2
          have := (List.getElem?_eq_some_iff.1 h1).1
          omega
      · rw [gSet_children hi hw hp hc]; exact h
  · cases hv : s.tviews[j]? with
    | none =>
      have hc := onT_none env op j ho s hv
      have : tried env s op = none := by
        have hvk : viewKey env s (.t j) = none := by
          cases hvk : viewKey env s (.t j) with
          | none => rfl
          | some k =>
            obtain ⟨p, u, h1, _⟩ := (viewKey_some hi).1 hvk
            simp [viewTarget, hv] at h1
        cases op <;> simp [onT] at ho <;> subst ho <;> simp [tried, hvk]
      rw [this, hc]; simpa using h
    | some v =>
      have hf := onT_fr env op j v.leaf.param ho s (by rw [hv]; rfl)
      obtain ⟨P, hp, hty, _⟩ := (hi.good.tviews j v hv).ex
      have htt := (hi.good.tviews j v hv).leaf.ty
      obtain ⟨k, hk, hvk⟩ := viewKey_t hi hv
      have quiet1 : writtenFlags (call env op s).2 = writtenFlags s → TryV (call env op s).2 T := by
        intro hw
        refine h.quiet hi hi' hx hrx (fun p A A' h1 h2 => Or.inl (flags_param hw h1 h2))
          (fun p A' h1 h2 => ?_)
        exfalso
        have := hf.plen
        rw [List.getElem?_eq_none_iff] at h2
        have := (List.getElem?_eq_some_iff.1 h1).1
        omega
      have write1 : (∃ P', (call env op s).2.params[v.leaf.param]? = some P' ∧ P'.written = true) →
          TryV (call env op s).2 (T ++ [k]) := by
        rintro ⟨P', h1, h2⟩
        refine h.write hi hf.regions hx hk hf.params ⟨P', h1, h2, ?_⟩
        obtain ⟨Q, x1, x2⟩ := hx _ P hp
        rw [h1] at x1; cases x1
        rw [x2.ptype _ hty]
        rcases htt with htt | htt <;> rw [htt] <;> simp
      cases hwh : wholeT op with
      | none =>
        rw [quiet0 hwh]
        simpa using quiet1 (wf_onT env op j ho hwh s)
      | some i =>
        cases op <;> simp only [wholeT, reduceCtorEq] at hwh
        case tSet i a =>
          simp only [onT, Option.some.injEq] at ho; subst ho
          have he := tSet_eq (env := env) (i := i) (a := a) s
          rcases setValues_marks (a := a) hi hv hp with ⟨_, hs⟩ | ⟨_, hs1, hs2, hs3⟩
          · have : tried env s (.tSet i a) = none := by
              simp only [tried, result, he, hs]; rfl
            rw [this]
            have h2 : (call env (.tSet i a) s).2 = s := by rw [he, hs]
            simpa using quiet1 (by rw [h2])
          · have : tried env s (.tSet i a) = some k := by
              simp only [tried, result, he, hvk]
              cases hr : (setValues i a s).1 with
              | ok o => rfl
              | error e =>
                rw [hr] at hs1
                have hne : e ≠ .parameterReadonly := by rintro rfl; exact hs1 rfl
                simp [Except.map, refusedWith, hne]
            rw [this]
            refine write1 ?_
            rw [he]; exact hs3
        case tSetOwn i =>
          simp only [onT, Option.some.injEq] at ho; subst ho
          rcases handle_cases i s with hh | ⟨v0, d0, hv0, hd0, hh⟩
          · have hc : call env (.tSetOwn i) s = (.error .badHandle, s) := M.bind_error hh
            have : tried env s (.tSetOwn i) = none := by
              simp only [tried, result, hc]; rfl
            rw [this]
            have h2 : (call env (.tSetOwn i) s).2 = s := by rw [hc]
            simpa using quiet1 (by rw [h2])
          · have hc : call env (.tSetOwn i) s = call env (.tSet i d0) s := M.bind_ok hh
            have he := tSet_eq (env := env) (i := i) (a := d0) s
            rcases setValues_marks (a := d0) hi hv hp with ⟨_, hs⟩ | ⟨_, hs1, hs2, hs3⟩
            · have : tried env s (.tSetOwn i) = none := by
                simp only [tried, result, hc, he, hs]; rfl
              rw [this]
              have h2 : (call env (.tSetOwn i) s).2 = s := by rw [hc, he, hs]
              simpa using quiet1 (by rw [h2])
            · have : tried env s (.tSetOwn i) = some k := by
                simp only [tried, result, hc, he, hvk]
                cases hr : (setValues i d0 s).1 with
                | ok o => rfl
                | error e =>
                  rw [hr] at hs1 hs2
                  have hne : e ≠ .parameterReadonly := by rintro rfl; exact hs1 rfl
                  have hne2 : e ≠ .badHandle := by rintro rfl; exact hs2 rfl
                  simp [Except.map, refusedWith, hne, hne2]
              rw [this]
              refine write1 ?_
              rw [hc, he]; exact hs3

/-! ## All histories -/

theorem log_inv {env : Env K} (ops : List (Op K G)) {s : St K G} {L : List (Key × Entry K G)}
    {locks : Nat → Bool} (h : LogV env s L) (hl : LockV s locks) (hi : Inv env s) :
    LogV env (after env s ops) (L ++ log env s locks ops) := by
  induction ops generalizing s L locks with
  | nil => simpa [log, after, run] using h
  | cons op ops ih =>
    rw [after_cons]
    have := ih (h.step hl hi op) (hl.step hi op) (call_inv op hi)
    rw [log, ← List.append_assoc, after_one]
    exact this

theorem attempts_inv {env : Env K} (ops : List (Op K G)) {s : St K G} {T : List Key}
    (h : TryV s T) (hi : Inv env s) : TryV (after env s ops) (T ++ attempts env s ops) := by
  induction ops generalizing s T with
  | nil => simpa [attempts, after, run] using h
  | cons op ops ih =>
    rw [after_cons]
    have := ih (h.step hi op) (call_inv op hi)
    rw [attempts, ← List.append_assoc, after_one]
    exact this

theorem LogV.init (env : Env K) (root : String) : LogV env (St.init root : St K G) [] := by
  refine ⟨by simp, ?_, ?_⟩ <;> intro p P k _ h <;> simp [St.init] at h

theorem TryV.init (root : String) : TryV (St.init root : St K G) [] := by
  refine ⟨by simp, ?_⟩
  intro p P k _ h
  simp [St.init] at h

theorem LockV.init (root : String) : LockV (St.init root : St K G) (fun _ => false) := by
  refine ⟨?_, fun _ _ => rfl⟩
  intro i v h
  simp [St.init] at h

theorem writes_inv (env : Env K) (root : String) (ops : List (Op K G)) :
    LogV env (after env (St.init root) ops) (writes env root ops) := by
  simpa [writes] using log_inv ops (LogV.init env root) (LockV.init root) (Inv.init env root)

theorem attempted_inv (env : Env K) (root : String) (ops : List (Op K G)) :
    TryV (after env (St.init root) ops) (attempts env (St.init root) ops) := by
  simpa using attempts_inv ops (TryV.init root) (Inv.init env root)

end Openscm
