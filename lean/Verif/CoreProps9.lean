import Verif.CoreProps8

/-!
# C19: locked views
-/

set_option linter.unusedSectionVars false

namespace Openscm
variable {K G : Type} [Field K] [LinearOrder K] [IsStrictOrderedRing K]

/-! ## Specification -/

/-- The timeseries view a call is made on, including calls that only look. -/
def usesT : Op K G → Option Nat
  | .tGet i | .tSet i _ | .tGetItem i _ | .tSetItem i _ | .hGetItem i _ | .hSetItem i _
  | .hInplace i _ | .tSetOwn i | .tLock i | .tUnlock i | .hPeek i | .tLength i
  | .vInfo (.t i) | .ensure (.t i) => some i
  | _ => none

/-- Outcomes of a history of calls from state `s` on. -/
def outcomes (env : Env K) (s : St K G) (ops : List (Op K G)) : List (Res K G) :=
  (run env s ops).1.map Prod.snd

/-- In the history `ops` view `i` was locked and not unlocked since. -/
def LockedAfter (env : Env K) (root : String) (ops : List (Op K G)) (i : Nat) : Prop :=
  ∃ a b, ops = a ++ .tLock i :: b ∧
    succeeded (result env (after env (St.init root) a) (.tLock i)) = true ∧ .tUnlock i ∉ b

/-! ## Lemmas: calls that do not use a view do not depend on it -/

/-- `m` does not depend on view `i`. -/
def Blind (i : Nat) (w : TView K) {α : Type} (m : M K G α) : Prop :=
  ∀ s : St K G, i < s.tviews.length →
    m (s.setT i (fun _ => w)) = ((m s).1, (m s).2.setT i (fun _ => w)) ∧ i < (m s).2.tviews.length

theorem Blind.bind {i : Nat} {w : TView K} {α β : Type} {m : M K G α} {f : α → M K G β}
    (h : Blind i w m) (h' : ∀ a, Blind i w (f a)) : Blind i w (m >>= f) := by
  intro s hs
  obtain ⟨h1, h2⟩ := h s hs
  rw [M.bind_apply, M.bind_apply, h1]
  cases hm : m s with
  | mk r s1 =>
    rw [hm] at h2
    cases r with
    | error e => exact ⟨rfl, h2⟩
    | ok a => exact h' a s1 h2

/-- Computations that only look at the rest of the state. -/
theorem Blind.value {i : Nat} {w : TView K} {α : Type} {g : St K G → Except Err α}
    (h : ∀ s : St K G, g (s.setT i (fun _ => w)) = g s) : Blind i w (M.value g) := by
  intro s hs
  exact ⟨by rw [M.value_apply, M.value_apply, h], hs⟩

theorem Blind.look {i : Nat} {w : TView K} {α : Type} {g : St K G → Option α}
    (h : ∀ s : St K G, g (s.setT i (fun _ => w)) = g s) : Blind i w (M.look g) := by
  intro s hs
  unfold M.look
  rw [h]
  cases g s <;> exact ⟨rfl, hs⟩

theorem Blind.gets {i : Nat} {w : TView K} {α : Type} {g : St K G → α}
    (h : ∀ s : St K G, g (s.setT i (fun _ => w)) = g s) : Blind i w (M.gets g) := by
  intro s hs
  refine ⟨?_, hs⟩
  show (Except.ok (g (s.setT i (fun _ => w))), s.setT i (fun _ => w)) = _
  rw [h]; rfl

theorem Blind.pure {i : Nat} {w : TView K} {α : Type} (a : α) : Blind i w (Pure.pure a : M K G α) :=
  fun _ hs => ⟨rfl, hs⟩

theorem Blind.throw {i : Nat} {w : TView K} {α : Type} (e : Err) : Blind i w (M.throw e : M K G α) :=
  fun _ hs => ⟨rfl, hs⟩

theorem Blind.ofExcept {i : Nat} {w : TView K} {α : Type} (x : Except Err α) :
    Blind i w (M.ofExcept x : M K G α) :=
  fun s hs => by rw [ofExcept_state, ofExcept_state]; exact ⟨rfl, hs⟩

theorem Blind.ite {i : Nat} {w : TView K} {α : Type} {c : Prop} [Decidable c] {m m' : M K G α}
    (h : Blind i w m) (h' : Blind i w m') : Blind i w (if c then m else m') := by
  by_cases hc : c
  · rw [if_pos hc]; exact h
  · rw [if_neg hc]; exact h'

/-- State changes away from the timeseries views. -/
theorem Blind.modify {i : Nat} {w : TView K} {f : St K G → St K G}
    (h : ∀ s : St K G, f (s.setT i (fun _ => w)) = (f s).setT i (fun _ => w))
    (hl : ∀ s, (f s).tviews.length = s.tviews.length) : Blind i w (M.modify f) := by
  intro s hs
  refine ⟨?_, by show i < (f s).tviews.length; rw [hl]; exact hs⟩
  show (Except.ok (), f (s.setT i (fun _ => w))) = _
  rw [h]; rfl

theorem blind_subregion {i : Nat} {w : TView K} (r : Nat) (n : String) :
    Blind i w (subregion r n : M K G Nat) := by
  intro s hs
  have hr : (s.setT i (fun _ => w)).regions = s.regions := rfl
  unfold subregion
  rw [hr]
  cases s.regions[r]? with
  | none => exact ⟨rfl, hs⟩
  | some R =>
    simp only
    cases R.children.lookup n with
    | some c => exact ⟨rfl, hs⟩
    | none =>
      simp only
      cases R.aggregated <;> exact ⟨rfl, hs⟩

theorem blind_walkRegions {i : Nat} {w : TView K} (ns : List String) (r : Nat) :
    Blind i w (walkRegions r ns : M K G Nat) := by
  induction ns generalizing r with
  | nil => exact .pure r
  | cons n ns ih => exact (blind_subregion r n).bind ih

theorem blind_rootParam {i : Nat} {w : TView K} (r : Nat) (n : String) :
    Blind i w (rootParam r n : M K G Nat) := by
  intro s hs
  have hr : (s.setT i (fun _ => w)).regions = s.regions := rfl
  unfold rootParam
  rw [hr]
  cases s.regions[r]? with
  | none => exact ⟨rfl, hs⟩
  | some R =>
    simp only
    cases R.params.lookup n <;> exact ⟨rfl, hs⟩

theorem blind_childParam {i : Nat} {w : TView K} (p : Nat) (n : String) :
    Blind i w (childParam p n : M K G Nat) := by
  intro s hs
  have hr : (s.setT i (fun _ => w)).params = s.params := rfl
  unfold childParam
  rw [hr]
  cases s.params[p]? with
  | none => exact ⟨rfl, hs⟩
  | some P =>
    simp only
    cases P.children.lookup n with
    | some c => exact ⟨rfl, hs⟩
    | none =>
      simp only
      cases P.written <;> cases P.readFrom <;> exact ⟨rfl, hs⟩

theorem blind_walkParams {i : Nat} {w : TView K} (ns : List String) (p : Nat) :
    Blind i w (walkParams p ns : M K G Nat) := by
  induction ns generalizing p with
  | nil => exact .pure p
  | cons n ns ih => exact (blind_childParam p n).bind ih

theorem blind_reach {i : Nat} {w : TView K} (name region : HName) :
    Blind i w (reach name region : M K G Nat) := by
  unfold reach
  refine Blind.bind ?_ (fun r => ?_)
  · unfold getOrCreateRegion
    cases region.parts with
    | nil => exact .throw _
    | cons n ns =>
      exact (Blind.look (fun s => rfl)).bind (fun R => .ite (.throw _) (blind_walkRegions ns 0))
  · unfold getOrCreateParam
    cases name.parts with
    | nil => exact .throw _
    | cons n ns => exact (blind_rootParam r n).bind (blind_walkParams ns)

theorem blind_attemptRead {i : Nat} {w : TView K} (p : Nat) (t : PType) (u : Option String)
    (tps : Option (List K)) : Blind i w (attemptRead p t u tps : M K G Unit) := by
  intro s hs
  have hr : (s.setT i (fun _ => w)).params = s.params := rfl
  unfold attemptRead
  rw [hr]
  cases s.params[p]? with
  | none => exact ⟨rfl, hs⟩
  | some P =>
    simp only
    cases P.ptype with
    | some t' =>
      simp only
      by_cases h : t' ≠ t
      · rw [if_pos h, if_pos h]; exact ⟨rfl, hs⟩
      · rw [if_neg h, if_neg h]; exact ⟨rfl, hs⟩
    | none =>
      simp only
      cases hf : firstRead P t u tps with
      | mk P' e => cases e <;> exact ⟨rfl, hs⟩

theorem blind_updParam {i : Nat} {w : TView K} (p : Nat) (f : Param K G → Param K G) :
    Blind i w (updParam p f) := .modify (fun _ => rfl) (fun _ => rfl)

theorem blind_updS {i : Nat} {w : TView K} (j : Nat) (f : SView K → SView K) :
    Blind i w (updSView j f : M K G Unit) := .modify (fun _ => rfl) (fun _ => rfl)

theorem blind_updG {i : Nat} {w : TView K} (j : Nat) (f : GView → GView) :
    Blind i w (updGView j f : M K G Unit) := .modify (fun _ => rfl) (fun _ => rfl)

theorem blind_attemptWrite {i : Nat} {w : TView K} (p : Nat) (t : PType) (u : Option String)
    (tps : Option (List K)) : Blind i w (attemptWrite p t u tps : M K G Unit) := by
  unfold attemptWrite
  exact (Blind.look (fun s => rfl)).bind (fun P => .ite (.throw _)
    ((blind_attemptRead p t u tps).bind (fun _ => blind_updParam p _)))

theorem readView_params {s s' : St K G} (h : s'.params = s.params) (v : TView K) :
    readView s' v = readView s v := by
  have hl : ∀ l : TLeaf K, leafValues s' l = leafValues s l := by
    intro l; unfold leafValues; rw [h]
  have hr : ∀ l : TLeaf K, readLeaf s' l = readLeaf s l := by
    intro l; unfold readLeaf; rw [h, hl]
  have hs : ∀ (kids : List (TLeaf K)) acc, sumKids s' acc kids = sumKids s acc kids := by
    intro kids
    induction kids with
    | nil => intro acc; rfl
    | cons l kids ih =>
      intro acc
      unfold sumKids
      rw [hr]
      cases readLeaf s l with
      | error e => rfl
      | ok l' => simp only; rw [ih]
  unfold readView
  rw [h]
  simp only [hr, hs]

theorem scalarValue_params {s s' : St K G} (h : s'.params = s.params) (v : SView K) :
    scalarValue s' v = scalarValue s v := by
  have hr : ∀ p c, readScalarLeaf s' p c = readScalarLeaf s p c := by
    intro p c; unfold readScalarLeaf; rw [h]
  have hs : ∀ (kids : List (Nat × Conv K)) acc, sumScalarKids s' acc kids = sumScalarKids s acc kids := by
    intro kids
    induction kids with
    | nil => intro acc; rfl
    | cons l kids ih =>
      intro acc
      obtain ⟨p, c⟩ := l
      unfold sumScalarKids
      rw [hr]
      cases readScalarLeaf s p c with
      | error e => rfl
      | ok x => simp only; rw [ih]
  unfold scalarValue
  rw [h]
  simp only [hr, hs]

theorem infoCall_params {s s' : St K G} (h : s'.params = s.params) (h' : s'.regions = s.regions)
    (name region : HName) : infoCall s' name region = infoCall s name region := by
  have h1 : ∀ ns r, findSubregion s' r ns = findSubregion s r ns := by
    intro ns
    induction ns with
    | nil => intro r; rfl
    | cons n ns ih => intro r; unfold findSubregion; rw [h']; simp only [ih]
  have h2 : ∀ ns p, findSubparam s' p ns = findSubparam s p ns := by
    intro ns
    induction ns with
    | nil => intro r; rfl
    | cons n ns ih => intro r; unfold findSubparam; rw [h]; simp only [ih]
  have h3 : ∀ p P, infoOf s' p P = infoOf s p P := by
    intro p P; unfold infoOf paramName regionName; rw [h, h']
  unfold infoCall findRegion findParam
  rw [h, h']
  simp only [h1, h2, h3]

theorem setT_comm {s : St K G} {i j : Nat} (hij : j ≠ i) (f g : TView K → TView K) :
    (s.setT i f).setT j g = (s.setT j g).setT i f := by
  unfold St.setT
  simp only [St.mk.injEq, true_and, and_true]
  apply List.ext_getElem?
  intro k
  by_cases h1 : i = k
  · subst h1
    rw [getElem?_modify_ne _ _ hij, getElem?_modify_self, getElem?_modify_self,
      getElem?_modify_ne _ _ hij]
  · rw [getElem?_modify_ne _ _ h1]
    by_cases h2 : j = k
    · subst h2
      rw [getElem?_modify_self, getElem?_modify_self, getElem?_modify_ne _ _ h1]
    · rw [getElem?_modify_ne _ _ h2, getElem?_modify_ne _ _ h2, getElem?_modify_ne _ _ h1]

theorem blind_lookT {i j : Nat} {w : TView K} (hij : j ≠ i) :
    Blind i w (M.look (fun s : St K G => s.tviews[j]?)) :=
  .look (fun _ => setT_ne _ _ (Ne.symm hij))

theorem setT_length (s : St K G) (j : Nat) (f : TView K → TView K) :
    (s.setT j f).tviews.length = s.tviews.length := by
  unfold St.setT; simp

theorem blind_updT {i j : Nat} {w : TView K} (hij : j ≠ i) (f : TView K → TView K) :
    Blind i w (updTView j f : M K G Unit) :=
  .modify (fun _ => setT_comm hij _ _) (fun s => setT_length s j f)

theorem blind_readT {i j : Nat} {w : TView K} (hij : j ≠ i) : Blind i w (readT j : M K G Unit) := by
  intro s hs
  have hv : (s.setT i (fun _ => w)).tviews[j]? = s.tviews[j]? := setT_ne _ _ (Ne.symm hij)
  cases h : s.tviews[j]? with
  | none =>
    rw [readT_none h, readT_none (by rw [hv]; exact h)]; exact ⟨rfl, hs⟩
  | some v =>
    have hr : readView (s.setT i (fun _ => w)) v = readView s v :=
      readView_params (s := s) (s' := s.setT i (fun _ => w)) rfl v
    rw [readT_state h, readT_state (by rw [hv]; exact h), hr]
    exact ⟨by rw [setT_comm hij], by rw [setT_length]; exact hs⟩

theorem blind_handle {i j : Nat} {w : TView K} (hij : j ≠ i) : Blind i w (handle j : M K G (Arr K)) := by
  unfold handle
  refine (blind_lookT hij).bind (fun v => ?_)
  cases v.leaf.data with
  | none => exact .throw _
  | some d => exact .pure d

theorem blind_writeT {i j : Nat} {w : TView K} (hij : j ≠ i) : Blind i w (writeT j : M K G Unit) := by
  unfold writeT
  refine (blind_lookT hij).bind (fun v => .ite (.pure ()) ?_)
  cases v.leaf.data with
  | none => exact .throw _
  | some d =>
    exact (Blind.ofExcept _).bind (fun l => (blind_updParam _ _).bind (fun _ =>
      (Blind.look (fun s => rfl)).bind (fun P => blind_updT hij _)))

theorem blind_setValues {i j : Nat} {w : TView K} (hij : j ≠ i) (a : Arr K) :
    Blind i w (setValues j a : M K G Unit) := by
  unfold setValues checkWrite
  refine Blind.bind ?_ (fun _ => ?_)
  · refine (blind_lookT hij).bind (fun v => .ite (.pure ()) ?_)
    exact (blind_attemptWrite _ _ _ _).bind (fun _ => blind_updT hij _)
  · exact (blind_lookT hij).bind (fun v => .ite (.throw _) ((Blind.ofExcept _).bind (fun d =>
      (blind_updT hij _).bind (fun _ => blind_writeT hij))))

theorem blind_setItems {env : Env K} {i j : Nat} {w : TView K} (hij : j ≠ i) (ix : List (Int × Fl K)) :
    Blind i w (setItems env j ix : M K G Unit) := by
  unfold setItems
  refine (blind_lookT hij).bind (fun v => ?_)
  cases v.leaf.data with
  | none => exact .throw _
  | some d =>
    exact (Blind.ofExcept _).bind (fun l => (blind_updT hij _).bind (fun _ => blind_writeT hij))

theorem blind_addTView {i : Nat} {w : TView K} (v : TView K) : Blind i w (addTView v : M K G Nat) := by
  intro s hs
  refine ⟨?_, by show i < (s.tviews ++ [v]).length; simp; omega⟩
  unfold addTView
  rw [setT_length]
  simp only [Prod.mk.injEq, true_and]
  unfold St.setT
  simp only [St.mk.injEq, true_and, and_true]
  apply List.ext_getElem?
  intro k
  by_cases hk : i = k
  · subst hk
    rw [getElem?_modify_self, List.getElem?_append_left (by simpa using hs), getElem?_modify_self,
      List.getElem?_append_left hs]
  · rw [getElem?_modify_ne _ _ hk]
    by_cases hl : k < s.tviews.length
    · rw [List.getElem?_append_left (by simpa using hl), List.getElem?_append_left hl,
        getElem?_modify_ne _ _ hk]
    · rw [List.getElem?_append_right (by simpa using hl), List.getElem?_append_right (by omega)]
      simp

/-- Calls that do not use view `i` do not depend on it and leave it alone. -/
theorem call_blind {env : Env K} {i : Nat} {w : TView K} {op : Op K G} (h : usesT op ≠ some i) :
    Blind i w (call env op) := by
  have vt : ∀ (r : VRef) (s : St K G), r ≠ .t i →
      viewTarget (s.setT i (fun _ => w)) r = viewTarget s r := by
    intro r s hr
    cases r with
    | s j => rfl
    | g j => rfl
    | t j =>
      have hij : j ≠ i := by rintro rfl; exact hr rfl
      simp only [viewTarget]; rw [setT_ne _ _ (Ne.symm hij)]
  cases op with
  | scalar n u r =>
    exact ((blind_reach n r).bind (fun p => (blind_attemptRead _ _ _ _).bind (fun _ =>
      (Blind.value (fun s => rfl)).bind (fun v => fun s hs => ⟨rfl, hs⟩)))).bind (fun _ => .pure _)
  | timeseries n u tps r ty int ext =>
    exact ((Blind.ofExcept _).bind (fun _ => (Blind.ofExcept _).bind (fun _ =>
      (Blind.ofExcept _).bind (fun _ => (blind_reach n r).bind (fun p =>
      (blind_attemptRead _ _ _ _).bind (fun _ => (Blind.value (fun s => rfl)).bind
        (fun v => blind_addTView v))))))).bind (fun _ => .pure _)
  | generic n r =>
    exact ((blind_reach n r).bind (fun p => (blind_attemptRead _ _ _ _).bind (fun _ =>
      fun s hs => ⟨rfl, hs⟩))).bind (fun _ => .pure _)
  | info n r => exact (Blind.value (fun s => infoCall_params (s := s) (s' := s.setT i (fun _ => w)) rfl rfl n r)).bind (fun _ => .pure _)
  | sGet j =>
    exact (Blind.look (fun s => rfl)).bind (fun v => (Blind.value (fun s =>
      scalarValue_params (s := s) (s' := s.setT i (fun _ => w)) rfl v)).bind
      (fun _ => .pure _))
  | sSet j x =>
    refine Blind.bind ?_ (fun _ => .pure _)
    unfold setScalar checkWriteS
    exact (Blind.look (fun s => rfl)).bind (fun v => (Blind.ite (.pure ())
      ((blind_attemptWrite _ _ _ _).bind (fun _ => blind_updS j _))).bind
      (fun _ => blind_updParam _ _))
  | gGet j =>
    exact (Blind.look (fun s => rfl)).bind (fun v => (Blind.value (fun s => rfl)).bind
      (fun _ => .pure _))
  | gSet j g =>
    refine Blind.bind ?_ (fun _ => .pure _)
    unfold setGeneric checkWriteG
    exact (Blind.look (fun s => rfl)).bind (fun v => (Blind.ite (.pure ())
      ((blind_attemptWrite _ _ _ _).bind (fun _ => blind_updG j _))).bind
      (fun _ => blind_updParam _ _))
  | tGet j =>
    have hij : j ≠ i := by rintro rfl; exact h rfl
    exact (blind_readT hij).bind (fun _ => (blind_handle hij).bind (fun _ => .pure _))
  | tSet j a =>
    have hij : j ≠ i := by rintro rfl; exact h rfl
    exact (blind_setValues hij a).bind (fun _ => .pure _)
  | tGetItem j x =>
    have hij : j ≠ i := by rintro rfl; exact h rfl
    exact (blind_readT hij).bind (fun _ => (blind_handle hij).bind (fun _ =>
      (Blind.ofExcept _).bind (fun _ => .pure _)))
  | tSetItem j x =>
    have hij : j ≠ i := by rintro rfl; exact h rfl
    exact (blind_readT hij).bind (fun _ => (blind_setItems hij x).bind (fun _ => .pure _))
  | hGetItem j x =>
    have hij : j ≠ i := by rintro rfl; exact h rfl
    exact (blind_handle hij).bind (fun _ => (blind_readT hij).bind (fun _ =>
      (blind_handle hij).bind (fun _ => (Blind.ofExcept _).bind (fun _ => .pure _))))
  | hSetItem j x =>
    have hij : j ≠ i := by rintro rfl; exact h rfl
    exact (blind_setItems hij x).bind (fun _ => .pure _)
  | hPeek j =>
    have hij : j ≠ i := by rintro rfl; exact h rfl
    exact (blind_handle hij).bind (fun _ => .pure _)
  | hInplace j f =>
    have hij : j ≠ i := by rintro rfl; exact h rfl
    exact (blind_handle hij).bind (fun _ => (blind_readT hij).bind (fun _ =>
      (blind_handle hij).bind (fun _ => (Blind.ofExcept _).bind (fun _ =>
        (blind_updT hij _).bind (fun _ => (blind_writeT hij).bind (fun _ => .pure _))))))
  | tSetOwn j =>
    have hij : j ≠ i := by rintro rfl; exact h rfl
    exact (blind_handle hij).bind (fun d => (blind_setValues hij d).bind (fun _ => .pure _))
  | tLock j =>
    have hij : j ≠ i := by rintro rfl; exact h rfl
    exact (blind_lookT hij).bind (fun _ => (blind_updT hij _).bind (fun _ => .pure _))
  | tUnlock j =>
    have hij : j ≠ i := by rintro rfl; exact h rfl
    exact (blind_lookT hij).bind (fun _ => (blind_updT hij _).bind (fun _ =>
      (blind_writeT hij).bind (fun _ => .pure _)))
  | tLength j =>
    have hij : j ≠ i := by rintro rfl; exact h rfl
    exact (blind_lookT hij).bind (fun _ => .pure _)
  | vInfo r =>
    have hr : r ≠ .t i := by rintro rfl; exact h rfl
    exact (Blind.look (fun s => vt r s hr)).bind (fun _ => (Blind.look (fun s => rfl)).bind (fun _ =>
      (Blind.gets (fun s => rfl)).bind (fun _ => .pure _)))
  | ensure r =>
    have hr : r ≠ .t i := by rintro rfl; exact h rfl
    exact (Blind.look (fun s => vt r s hr)).bind (fun _ => (Blind.look (fun s => rfl)).bind (fun _ =>
      .ite (.pure _) (.throw _)))

theorem outcomes_blind {env : Env K} {i : Nat} {w : TView K} {ops : List (Op K G)}
    (h : ∀ op ∈ ops, usesT op ≠ some i) {s : St K G} (hs : i < s.tviews.length) :
    outcomes env (s.setT i (fun _ => w)) ops = outcomes env s ops := by
  induction ops generalizing s with
  | nil => rfl
  | cons op ops ih =>
    obtain ⟨h1, h2⟩ := call_blind (env := env) (w := w) (h op (by simp)) s hs
    have ih := ih (fun o ho => h o (by simp [ho])) h2
    unfold outcomes at ih ⊢
    simp only [run]
    rw [h1]
    simp only [List.map_cons]
    rw [ih]

/-! ## Lemmas: locked views -/

theorem lock_keep {env : Env K} {s : St K G} (hi : Inv env s) {locks : Nat → Bool}
    (h : LockV s locks) {i : Nat} (hl : locks i = true) {b : List (Op K G)} (hb : .tUnlock i ∉ b) :
    ∃ locks', LockV (after env s b) locks' ∧ locks' i = true := by
  induction b generalizing s locks with
  | nil => exact ⟨locks, h, hl⟩
  | cons op b ih =>
    rw [after_cons]
    refine ih (call_inv op hi) (h.step hi op) ?_ (fun hm => hb (by simp [hm]))
    unfold lockStep
    split
    · split
      · rename_i j _
        by_cases hij : i = j
        · subst hij; simp
        · rw [Function.update_of_ne hij]; exact hl
      · exact hl
    · rename_i j
      have hij : i ≠ j := by rintro rfl; exact hb (by simp)
      rw [Function.update_of_ne hij]; exact hl
    · exact hl

theorem lockV_after {env : Env K} {s : St K G} (hi : Inv env s) {locks : Nat → Bool}
    (h : LockV s locks) (b : List (Op K G)) : ∃ locks', LockV (after env s b) locks' := by
  induction b generalizing s locks with
  | nil => exact ⟨locks, h⟩
  | cons op b ih => rw [after_cons]; exact ih (call_inv op hi) (h.step hi op)

theorem locked_view {env : Env K} {root : String} {ops : List (Op K G)} {i : Nat}
    (h : LockedAfter env root ops i) {v : TView K}
    (hv : (after env (St.init root) ops).tviews[i]? = some v) : v.locked = true := by
  obtain ⟨a, b, rfl, h1, h2⟩ := h
  obtain ⟨locks, hl⟩ := lockV_after (Inv.init env root) (LockV.init (K := K) (G := G) root) a
  have hi := after_inv (K := K) (G := G) a (Inv.init env root)
  have hl1 := hl.step hi (.tLock i)
  have : lockStep env (after env (St.init root) a) locks (.tLock i) i = true := by
    simp only [lockStep, h1, if_true, Function.update_self]
  obtain ⟨locks', e1, e2⟩ := lock_keep (call_inv (.tLock i) hi) hl1 this h2
  rw [after_append, after_cons] at hv
  rw [e1.is i v hv, e2]

attribute [local ext] Param

/-- A call on a locked view, other than `unlock`, that stores nothing and finds the parameter
non-empty changes nothing but the view. -/
theorem locked_call {env : Env K} {s : St K G} (hi : Inv env s) {i : Nat} {v : TView K}
    {P : Param K G} (hv : s.tviews[i]? = some v) (hp : s.params[v.leaf.param]? = some P)
    (hwr : P.written = true) (hl : v.locked = true) {op : Op K G} (ho : onT op = some i)
    (hu : op ≠ .tUnlock i) :
    ∃ w, (call env op s).2 = s.setT i (fun _ => w) := by
  have hfr := onT_fr env op i v.leaf.param ho s (by rw [hv]; rfl)
  have hq : Steps env s [] (call env op s).2 := by
    by_cases hw : writesView op = some (.t i)
    · have hun : isUnlock op = false := by
        cases op <;> try rfl
        simp only [onT, Option.some.injEq] at ho; subst ho; exact absurd rfl hu
      have := call_tWrites env op i hw s (fun i v hv => (hi.good.tviews i v hv).leaf.ty) v hv
      rw [hl, hun] at this
      rcases this with ⟨_, h⟩ | ⟨_, _, _, ⟨_, h⟩ | ⟨h, _⟩⟩
      · exact h
      · exact h
      · simp at h
    · have hn : writesView op = none := by
        cases op <;> simp only [onT, Option.some.injEq, reduceCtorEq] at ho <;> subst ho <;>
          first | rfl | exact absurd rfl hw
      exact call_quiet env op hn s
  obtain ⟨P', hp', e1, e2⟩ := hq.eff hi hp
  obtain ⟨P2, hp2, hle⟩ := call_pext op hi _ P hp
  rw [hp'] at hp2; cases hp2
  obtain ⟨P3, g1, g2, g3, _⟩ := (hi.good.tviews i v hv).ex
  rw [hp] at g1; cases g1
  obtain ⟨P4, u, t, f1, f2, f3, f4, f5, _⟩ := (hi.good.tviews i v hv).leaf.ex
  rw [hp] at f1; cases f1
  have hPP : P' = P := by
    have a1 := hle.name
    have a2 := hle.region
    have a3 := hle.parent
    have a4 := hle.ptype _ g2
    have a5 := hle.unit f2
    have a6 := hle.tps _ f5
    have a7 := hle.readFrom g3
    have a8 := hle.written hwr
    have a9 := hle.frozen g3
    have a10 := e2 f2 (by simp)
    have a11 : P'.version = P.version := by simpa [storesTo] using e1
    exact Param.ext a1 a2 a3 a9 (a7.trans g3.symm) (a8.trans hwr.symm) (a4.trans g2.symm) a5
      (a6.trans f5.symm) a10 a11
  have hparams : (call env op s).2.params = s.params := by
    apply List.ext_getElem?
    intro q
    by_cases hq : q = v.leaf.param
    · subst hq; rw [hp', hp, hPP]
    · exact hfr.params q hq
  have hvi := hfr.view
  rw [hv, Option.map_some, Option.map_eq_some_iff] at hvi
  obtain ⟨w, hw, _⟩ := hvi
  refine ⟨w, ?_⟩
  have hts : (call env op s).2.tviews = (s.setT i (fun _ => w)).tviews := by
    apply List.ext_getElem?
    intro j
    by_cases hj : j = i
    · subst hj; rw [hw, setT_self, hv]; rfl
    · rw [hfr.tviews j hj, setT_ne _ _ (Ne.symm hj)]
  have h1 := hfr.regions
  have h2 := hfr.sviews
  have h3 := hfr.gviews
  generalize (call env op s).2 = s' at *
  cases s; cases s'
  simp only [St.setT] at *
  subst h1 h2 h3 hparams hts
  rfl

/-! ## C19 -/

/-- **C19**: while a view is locked, writing through it changes no version, hence stores nothing
(C14). -/
theorem C19_no_version_change {env : Env K} {root : String} {ops : List (Op K G)} {i : Nat}
    (hl : LockedAfter env root ops i) {op : Op K G} (ho : assignsT op = some i) (k : Key) :
    versionAt env (after env (St.init root) (ops ++ [op])) k
      = versionAt env (after env (St.init root) ops) k := by
  have hi := after_inv (K := K) (G := G) ops (Inv.init env root)
  have hw : writesView op = some (.t i) := by
    cases op <;> simp only [assignsT, Option.some.injEq, reduceCtorEq] at ho <;> subst ho <;> rfl
  have hun : isUnlock op = false := by
    cases op <;> simp only [assignsT, reduceCtorEq] at ho <;> rfl
  rw [after_append, after_one]
  cases hv : (after env (St.init root) ops).tviews[i]? with
  | none => rw [call_tNone env op i hw _ hv]
  | some v =>
    have hlv := locked_view hl hv
    have hq : Steps env (after env (St.init root) ops) []
        (call env op (after env (St.init root) ops)).2 := by
      have := call_tWrites env op i hw _ (fun i v hv => (hi.good.tviews i v hv).leaf.ty) v hv
      rw [hlv, hun] at this
      rcases this with ⟨_, h⟩ | ⟨_, _, _, ⟨_, h⟩ | ⟨h, _⟩⟩
      · exact h
      · exact h
      · simp at h
    have hfr := onT_fr env op i v.leaf.param
      (by cases op <;> simp only [assignsT, Option.some.injEq, reduceCtorEq] at ho <;> subst ho <;> rfl)
      (after env (St.init root) ops) (by rw [hv]; rfl)
    have hi' := call_inv op hi
    have back : ∀ p k, HasKey (call env op (after env (St.init root) ops)).2 p k →
        HasKey (after env (St.init root) ops) p k := by
      intro p k hk
      obtain ⟨P, hp, _⟩ := id hk
      have hlt : p < (after env (St.init root : St K G) ops).params.length := by
        rw [← hfr.plen]; exact (List.getElem?_eq_some_iff.1 hp).1
      obtain ⟨k', hk'⟩ := HasKey.exists hi.tree (List.getElem?_eq_getElem hlt)
      have := (hk'.mono (call_pext op hi) (call_rext op hi)).det hk
      rw [← this]; exact hk'
    unfold versionAt
    cases hI : infoAt env (after env (St.init root) ops) k with
    | none =>
      rw [infoAt_none hi.tree] at hI
      rw [(infoAt_none hi'.tree).2 (fun ⟨p, hk⟩ => hI ⟨p, back p k hk⟩)]
    | some I =>
      obtain ⟨p, P, h1, h2, rfl⟩ := (infoAt_some hi.tree).1 hI
      obtain ⟨P', h3, h4, _⟩ := hq.eff hi h2
      rw [infoAt_of hi'.tree (h1.mono (call_pext op hi) (call_rext op hi)) h3]
      simp only [Option.map_some, Option.some.injEq]
      simpa [storesTo] using h4

/-- **C19**, what holds: whatever is done with a locked view of a non-empty parameter, short of
unlocking it, a program that does not use the view cannot tell: all its calls (reads through other
views, new views, infos, writes) have the same outcomes as if nothing had been done.

Missing from C19: the parameter is empty when the view is locked, see
`C19_first_write_shows_nan`. -/
theorem C19_invisible_partial {env : Env K} {root : String} {ops : List (Op K G)} {i : Nat}
    (hl : LockedAfter env root ops i) {k : Key} {I : Info}
    (hk : viewKey env (after env (St.init root) ops) (.t i) = some k)
    (hI : infoAt env (after env (St.init root) ops) k = some I) (he : I.empty = false)
    {block : List (Op K G)} (hb : ∀ op ∈ block, onT op = some i ∧ op ≠ .tUnlock i)
    {prog : List (Op K G)} (hprog : ∀ op ∈ prog, usesT op ≠ some i) :
    outcomes env (after env (St.init root) (ops ++ block)) prog
      = outcomes env (after env (St.init root) ops) prog := by
  have hi := after_inv (K := K) (G := G) ops (Inv.init env root)
  obtain ⟨v, hv, hkv⟩ := tview_of_key hi hk
  obtain ⟨p, P, h1, h2, rfl⟩ := (infoAt_some hi.tree).1 hI
  obtain rfl := h1.inj hi.tree hkv
  have hwr : P.written = true := by simpa using he
  have hlv := locked_view hl hv
  rw [after_append]
  clear hl hk hI he hkv h1
  generalize (after env (St.init root : St K G) ops) = s at *
  -- the state after the block
  have key : ∃ w, after env s block = s.setT i (fun _ => w) := by
    induction block generalizing s v with
    | nil => exact ⟨v, (setT_id (f := fun _ => v) hv rfl).symm⟩
    | cons op block ih =>
      obtain ⟨ho, hu⟩ := hb op (by simp)
      obtain ⟨w, hw⟩ := locked_call hi hv h2 hwr hlv ho hu
      have hi' := call_inv op hi
      have hlocks : LockV s (fun j => ((s.tviews[j]?).map (fun v => v.locked)).getD false) :=
        ⟨fun j v hv => by simp [hv], fun j hn => by simp [hn]⟩
      obtain ⟨locks, e1, e2⟩ := lock_keep hi hlocks (i := i) (b := [op]) (by simp [hv, hlv])
        (by simpa using Ne.symm hu)
      rw [after_one] at e1
      obtain ⟨v', hv', hst⟩ := call_tview hi op hv
      have hl' : v'.locked = true := by rw [e1.is i v' hv', e2]
      have hp' : (call env op s).2.params[v'.leaf.param]? = some P := by
        rw [stat_param hst, hw]; exact h2
      obtain ⟨w', hw'⟩ := ih (fun o ho => hb o (by simp [ho])) v' hl' _ hi' hv' hp'
      refine ⟨w', ?_⟩
      rw [after_cons, hw', hw]
      unfold St.setT
      simp only [St.mk.injEq, true_and, and_true]
      apply List.ext_getElem?
      intro j
      by_cases hj : i = j
      · subst hj; simp only [getElem?_modify_self]; cases s.tviews[i]? <;> rfl
      · simp only [getElem?_modify_ne _ _ hj]
  obtain ⟨w, hw⟩ := key
  rw [hw]
  exact outcomes_blind hprog (List.getElem?_eq_some_iff.1 hv).1

/-- **C19**: `unlock` stores the view's current array: the version goes up by one and the view
afterwards shows what it held before. -/
theorem C19_unlock_stores {env : Env K} {s : St K G} (hs : Reachable env s) {i : Nat} {k : Key}
    {I : Info} (hk : viewKey env s (.t i) = some k) (hI : infoAt env s k = some I)
    (hok : result env s (.tUnlock i) = .ok .done) :
    versionAt env (after env s [.tUnlock i]) k = some (I.version + 1) ∧
    ∃ d, result env s (.hPeek i) = .ok (.arr d) ∧
      result env (after env s [.tUnlock i]) (.hPeek i) = .ok (.arr d) ∧
      result env (after env s [.tUnlock i]) (.tGet i) = .ok (.arr d) := by
  have hi := hs.inv
  obtain ⟨v, hv, hkv⟩ := tview_of_key hi hk
  obtain ⟨p, P, h1, h2, rfl⟩ := (infoAt_some hi.tree).1 hI
  obtain rfl := h1.inj hi.tree hkv
  rw [after_one]
  have hi' := call_inv (.tUnlock i) hi
  obtain ⟨d, e1, _, e3, _⟩ := call_wrote hi (op := .tUnlock i) rfl hv (Or.inr rfl)
    (s' := (call env (.tUnlock i) s).2) (o := .done) (by rw [← hok]; rfl)
  constructor
  · have := call_tWrites env (.tUnlock i) i rfl s (fun i v hv => (hi.good.tviews i v hv).leaf.ty) v hv
    simp only [isUnlock, Bool.not_true, Bool.and_false] at this
    rcases this with ⟨⟨e, h⟩, _⟩ | ⟨_, v', hv', ⟨h, _⟩ | ⟨_, l, h⟩⟩
    · have hok' : (call env (.tUnlock i) s).1 = .ok .done := hok
      rw [h] at hok'; simp at hok'
    · simp at h
    · rw [hv] at hv'; cases hv'
      obtain ⟨P', g1, g2, _⟩ := h.eff hi h2
      rw [versionAt_of hi'.tree (hkv.mono (call_pext _ hi) (call_rext _ hi)) g1, g2]
      simp [storesTo]
  · refine ⟨d, ?_, ?_, ?_⟩
    · unfold result
      show ((handle i >>= fun d => (pure (Out.arr d) : M K G (Out K G))) s).1 = _
      have : handle i s = (.ok d, s) := by rw [handle_some hv, e3 rfl]
      rw [M.bind_ok this]; rfl
    · unfold result; rw [hPeek_synced e1.synced]
    · unfold result; rw [tGet_synced e1.synced]

/-- Hypotheses of C19 met: a locked view of a non-empty parameter, two writes, then `unlock`; the
other view sees the old array and then the last one. -/
example :
    let ops : List (Op ℚ ℕ) := [points ["a"] "K" [0, 1, 2], points ["a"] "mK" [0, 1, 2],
      .tSet 1 (nums [1000, 1000, 1000]), .tGet 0, .tLock 0]
    let block : List (Op ℚ ℕ) := [.tSet 0 (nums [2, 2, 2]), .tSetItem 0 [(1, .num 5)]]
    (infoAt demoEnv (demoSt ops) (["World"], ["a"])).map Info.empty = some false ∧
    outcomes demoEnv (demoSt ops) [.tGet 1] = [.ok (.arr (nums [1000, 1000, 1000]))] ∧
    outcomes demoEnv (demoSt (ops ++ block)) [.tGet 1] = [.ok (.arr (nums [1000, 1000, 1000]))] ∧
    outcomes demoEnv (demoSt (ops ++ block ++ [.tUnlock 0])) [.tGet 1, .tGet 0]
      = [.ok (.arr (nums [2000, 5000, 2000])), .ok (.arr (nums [2, 5, 2]))] ∧
    versionAt demoEnv (demoSt (ops ++ block)) (["World"], ["a"]) = some 1 ∧
    versionAt demoEnv (demoSt (ops ++ block ++ [.tUnlock 0])) (["World"], ["a"]) = some 2 := by
  decide +kernel

/-- **C19** is violated when nothing was written before: the first assignment through a locked view
marks the parameter as written, so that other views show NaN instead of raising
`ParameterEmptyError`. -/
theorem C19_first_write_shows_nan :
    demo [points ["a"] "K" [0, 1, 2], points ["a"] "K" [0, 1, 2], .tLock 0, .tGet 1,
      .tSet 0 (nums [1, 2, 3]), .tGet 1, .tUnlock 0, .tGet 1]
    = [.ok (.view 0), .ok (.view 1), .ok .done, .error .parameterEmpty, .ok .done,
      .ok (.arr (.floats [.nan, .nan, .nan])), .ok .done, .ok (.arr (nums [1, 2, 3]))] := by
  decide +kernel

end Openscm
