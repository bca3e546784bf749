import Verif.CoreDemo

/-!
# Generic values are carried, not looked at

Whoever replaces the generic values that a program stores by others sees the others where the first ones were
shown, and nothing else changes: no result, no exception, no version.
-/

set_option linter.unusedSectionVars false

namespace Openscm
variable {K G H : Type} [Field K] [LinearOrder K] [IsStrictOrderedRing K]

/-! ## Calls and results with other generic values -/

/-- The same call with other generic values. -/
def Op.mapG (f : G → H) : Op K G → Op K H
  | .scalar n u r => .scalar n u r
  | .timeseries n u t r ty i e => .timeseries n u t r ty i e
  | .generic n r => .generic n r
  | .info n r => .info n r
  | .sGet i => .sGet i
  | .sSet i x => .sSet i x
  | .gGet i => .gGet i
  | .gSet i g => .gSet i (f g)
  | .tGet i => .tGet i
  | .tSet i a => .tSet i a
  | .tGetItem i j => .tGetItem i j
  | .tSetItem i ix => .tSetItem i ix
  | .hGetItem i j => .hGetItem i j
  | .hSetItem i ix => .hSetItem i ix
  | .hPeek i => .hPeek i
  | .hInplace i h => .hInplace i h
  | .tSetOwn i => .tSetOwn i
  | .tLock i => .tLock i
  | .tUnlock i => .tUnlock i
  | .tLength i => .tLength i
  | .vInfo v => .vInfo v
  | .ensure v => .ensure v

/-- The same result with other generic values. -/
def Out.mapG (f : G → H) : Out K G → Out K H
  | .done => .done
  | .view i => .view i
  | .num x => .num x
  | .arr a => .arr a
  | .gen g => .gen (g.map f)
  | .nat n => .nat n
  | .info i => .info i

/-! ## The state with other generic values -/

def Data.mapG (f : G → H) : Data K G → Data K H
  | .unset => .unset
  | .scalar x => .scalar x
  | .series l => .series l
  | .generic g => .generic (g.map f)

def Param.mapG (f : G → H) (P : Param K G) : Param K H :=
  { name := P.name, region := P.region, parent := P.parent, children := P.children, readFrom := P.readFrom,
    written := P.written, ptype := P.ptype, unit := P.unit, tps := P.tps, data := P.data.mapG f,
    version := P.version }

def St.mapG (f : G → H) (s : St K G) : St K H :=
  { regions := s.regions, params := s.params.map (Param.mapG f), sviews := s.sviews, tviews := s.tviews,
    gviews := s.gviews }

theorem St.params_mapG (f : G → H) (s : St K G) (p : Nat) :
    (s.mapG f).params[p]? = (s.params[p]?).map (Param.mapG f) := by
  simp [St.mapG]

theorem List.modify_map' {α β : Type} {f : α → β} {u : α → α} {u' : β → β} (h : ∀ a, u' (f a) = f (u a)) :
    ∀ (l : List α) (i : Nat), (l.map f).modify i u' = (l.modify i u).map f
  | [], i => by simp
  | a :: l, 0 => by simp [h]
  | a :: l, i + 1 => by simp [List.modify_map' h l i]

theorem St.setParam_mapG {f : G → H} {u : Param K G → Param K G} {u' : Param K H → Param K H}
    (h : ∀ P, u' (P.mapG f) = (u P).mapG f) (s : St K G) (p : Nat) :
    (s.mapG f).setParam p u' = (s.setParam p u).mapG f := by
  simp only [St.setParam, St.mapG]
  rw [List.modify_map' h]

/-! ## Computations -/

/-- `m'` does with other generic values what `m` does. -/
def Com {α β : Type} (f : G → H) (g : α → β) (m : M K G α) (m' : M K H β) : Prop :=
  ∀ s, m' (s.mapG f) = (Except.map g (m s).1, (m s).2.mapG f)

section
variable {α β γ δ : Type} {f : G → H}

theorem except_map_id (e : Except Err α) : Except.map id e = e := by cases e <;> rfl

theorem Com.pure {g : α → β} {a : α} {b : β} (h : b = g a) : Com f g (Pure.pure a : M K G α) (Pure.pure b) := by
  intro s; subst h; rfl

theorem Com.throw {g : α → β} {e : Err} : Com f g (M.throw e : M K G α) (M.throw e) := fun _ => rfl

theorem Com.bind {g : α → β} {h : γ → δ} {m : M K G α} {m' : M K H β} {k : α → M K G γ} {k' : β → M K H δ}
    (hm : Com f g m m') (hk : ∀ a, Com f h (k a) (k' (g a))) : Com f h (m >>= k) (m' >>= k') := by
  intro s
  show M.bind m' k' (s.mapG f) = (Except.map h (M.bind m k s).1, (M.bind m k s).2.mapG f)
  unfold M.bind
  rw [hm s]
  rcases m s with ⟨r, s'⟩
  cases r with
  | error e => rfl
  | ok a => exact hk a s'

theorem Com.bind' {h : γ → δ} {m : M K G α} {m' : M K H α} {k : α → M K G γ} {k' : α → M K H δ}
    (hm : Com f id m m') (hk : ∀ a, Com f h (k a) (k' a)) : Com f h (m >>= k) (m' >>= k') := hm.bind hk

theorem Com.look {g : α → β} {F : St K G → Option α} {F' : St K H → Option β}
    (h : ∀ s, F' (s.mapG f) = (F s).map g) : Com f g (M.look F) (M.look F') := by
  intro s
  simp only [M.look, h s]
  cases F s <;> rfl

theorem Com.value {g : α → β} {F : St K G → Except Err α} {F' : St K H → Except Err β}
    (h : ∀ s, F' (s.mapG f) = Except.map g (F s)) : Com f g (M.value F) (M.value F') := by
  intro s
  simp only [M.value, h s]

theorem Com.gets {g : α → β} {F : St K G → α} {F' : St K H → β}
    (h : ∀ s, F' (s.mapG f) = g (F s)) : Com f g (M.gets F) (M.gets F') := by
  intro s
  simp only [M.gets, h s]
  rfl

theorem Com.modify {F : St K G → St K G} {F' : St K H → St K H}
    (h : ∀ s, F' (s.mapG f) = (F s).mapG f) : Com f id (M.modify F) (M.modify F') := by
  intro s
  simp only [M.modify, h s]
  rfl

theorem Com.ofExcept {e : Except Err α} : Com f id (M.ofExcept e : M K G α) (M.ofExcept e) := by
  cases e
  · exact .throw
  · exact .pure rfl

theorem Com.ite {g : α → β} {c : Prop} [Decidable c] {m n : M K G α} {m' n' : M K H β} (hm : Com f g m m')
    (hn : Com f g n n') : Com f g (if c then m else n) (if c then m' else n') := by
  split <;> assumption

end

section
variable {f : G → H}

theorem com_sview (i : Nat) : Com f id (M.look (·.sviews[i]?) : M K G _) (M.look (·.sviews[i]?)) :=
  .look fun _ => by simp [St.mapG]

theorem com_tview (i : Nat) : Com f id (M.look (·.tviews[i]?) : M K G _) (M.look (·.tviews[i]?)) :=
  .look fun _ => by simp [St.mapG]

theorem com_gview (i : Nat) : Com f id (M.look (·.gviews[i]?) : M K G _) (M.look (·.gviews[i]?)) :=
  .look fun _ => by simp [St.mapG]

theorem com_getParam (p : Nat) : Com f (Param.mapG f) (getParam p : M K G _) (getParam p) :=
  .look fun s => s.params_mapG f p

theorem com_updParam (p : Nat) {u : Param K G → Param K G} {u' : Param K H → Param K H}
    (h : ∀ P, u' (P.mapG f) = (u P).mapG f) : Com f id (updParam p u) (updParam p u') :=
  .modify fun s => s.setParam_mapG h p

theorem com_updSView (i : Nat) (u : SView K → SView K) : Com f id (updSView i u : M K G _) (updSView i u) :=
  .modify fun _ => rfl

theorem com_updTView (i : Nat) (u : TView K → TView K) : Com f id (updTView i u : M K G _) (updTView i u) :=
  .modify fun _ => rfl

theorem com_updGView (i : Nat) (u : GView → GView) : Com f id (updGView i u : M K G _) (updGView i u) :=
  .modify fun _ => rfl

/-! ## Regions and parameters -/

theorem com_subregion (r : Nat) (n : String) : Com f id (subregion r n : M K G _) (subregion r n) := by
  intro s
  unfold subregion
  show (match s.regions[r]? with | none => _ | some R => _) = _
  cases s.regions[r]? with
  | none => rfl
  | some R =>
    simp only
    cases R.children.lookup n with
    | some c => rfl
    | none =>
      simp only
      by_cases h : R.aggregated = true
      · rw [if_pos h, if_pos h]; rfl
      · rw [if_neg h, if_neg h]; rfl

theorem com_walkRegions : ∀ (ns : List String) (r : Nat), Com f id (walkRegions r ns : M K G _) (walkRegions r ns)
  | [], _ => .pure rfl
  | n :: ns, r => (com_subregion r n).bind' fun c => com_walkRegions ns c

theorem com_getOrCreateRegion (n : HName) : Com f id (getOrCreateRegion n : M K G _) (getOrCreateRegion n) := by
  unfold getOrCreateRegion
  cases n.parts with
  | nil => exact .throw
  | cons a ns =>
    refine Com.bind' (.look fun s => by simp [St.mapG]) fun root => ?_
    exact .ite .throw (com_walkRegions ns 0)

theorem newParam_mapG (n : String) (r : Nat) (q : Option Nat) :
    (newParam n r q : Param K G).mapG f = newParam n r q := rfl

theorem com_rootParam (r : Nat) (n : String) : Com f id (rootParam r n : M K G _) (rootParam r n) := by
  intro s
  unfold rootParam
  show (match s.regions[r]? with | none => _ | some R => _) = _
  cases s.regions[r]? with
  | none => rfl
  | some R =>
    simp only
    cases R.params.lookup n with
    | some c => rfl
    | none => simp [St.mapG, Except.map, newParam_mapG]

theorem com_childParam (p : Nat) (n : String) : Com f id (childParam p n : M K G _) (childParam p n) := by
  intro s
  unfold childParam
  rw [St.params_mapG]
  cases s.params[p]? with
  | none => rfl
  | some P =>
    simp only [Option.map_some]
    show (match P.children.lookup n with | some c => _ | none => _) = _
    cases P.children.lookup n with
    | some c => rfl
    | none =>
      simp only
      show (if P.written then _ else if P.readFrom then _ else _) = _
      by_cases h : P.written = true
      · rw [if_pos h, if_pos h]; rfl
      · rw [if_neg h, if_neg h]
        by_cases h2 : P.readFrom = true
        · rw [if_pos h2, if_pos h2]; rfl
        · rw [if_neg h2, if_neg h2]
          simp only [Except.map, St.mapG, id, List.length_map, List.map_append, List.map_cons, List.map_nil,
            newParam_mapG]
          rw [List.modify_map' (f := Param.mapG f)
            (u := fun P : Param K G => { P with children := P.children ++ [(n, s.params.length)] }) (fun _ => rfl)]
          rfl

theorem com_walkParams : ∀ (ns : List String) (r : Nat), Com f id (walkParams r ns : M K G _) (walkParams r ns)
  | [], _ => .pure rfl
  | n :: ns, r => (com_childParam r n).bind' fun c => com_walkParams ns c

theorem com_getOrCreateParam (n : HName) (r : Nat) :
    Com f id (getOrCreateParam n r : M K G _) (getOrCreateParam n r) := by
  unfold getOrCreateParam
  cases n.parts with
  | nil => exact .throw
  | cons a ns => exact (com_rootParam r a).bind' fun p => com_walkParams ns p

theorem com_reach (n r : HName) : Com f id (reach n r : M K G _) (reach n r) :=
  (com_getOrCreateRegion r).bind' fun i => com_getOrCreateParam n i

/-! ## Reading and writing -/

theorem firstRead_mapG (P : Param K G) (t : PType) (u : Option String) (tps : Option (List K)) :
    firstRead (P.mapG f) t u tps = ((firstRead P t u tps).1.mapG f, (firstRead P t u tps).2) := by
  unfold firstRead
  cases t with
  | scalar => rfl
  | generic =>
    simp only
    by_cases h : P.children = []
    · rw [if_pos h, if_pos (show (P.mapG f).children = [] from h)]; rfl
    · rw [if_neg h, if_neg (show ¬(P.mapG f).children = [] from h)]; rfl
  | average =>
    cases tps with
    | none => rfl
    | some l => cases l <;> rfl
  | point => cases tps <;> rfl

theorem com_attemptRead (p : Nat) (t : PType) (u : Option String) (tps : Option (List K)) :
    Com f id (attemptRead p t u tps : M K G _) (attemptRead p t u tps) := by
  intro s
  unfold attemptRead
  rw [St.params_mapG]
  cases s.params[p]? with
  | none => rfl
  | some P =>
    simp only [Option.map_some]
    rw [firstRead_mapG]
    show (match P.ptype with | some t' => _ | none => _) = _
    cases P.ptype with
    | some t' =>
      simp only
      by_cases h : t' ≠ t
      · rw [if_pos h, if_pos h]; rfl
      · rw [if_neg h, if_neg h]
        simp only [Except.map, id]
        rw [St.setParam_mapG (u := fun P : Param K G => { P with readFrom := true }) fun _ => rfl]
    | none =>
      simp only
      rcases firstRead P t u tps with ⟨P', e⟩
      cases e with
      | some e =>
        simp only [Except.map]
        rw [St.setParam_mapG (u := fun _ => P') fun _ => rfl]
      | none =>
        simp only [Except.map, id]
        rw [St.setParam_mapG (u := fun _ => { P' with readFrom := true }) fun _ => rfl]

theorem com_attemptWrite (p : Nat) (t : PType) (u : Option String) (tps : Option (List K)) :
    Com f id (attemptWrite p t u tps : M K G _) (attemptWrite p t u tps) := by
  refine (com_getParam p).bind fun P => ?_
  show Com f id (if P.children ≠ [] then _ else _) (if P.children ≠ [] then _ else _)
  exact .ite .throw ((com_attemptRead p t u tps).bind' fun _ => com_updParam p fun _ => rfl)

theorem com_store (p : Nat) {d : Data K G} {d' : Data K H} (h : d' = d.mapG f) : Com f id (store p d) (store p d') := by
  subst h
  exact com_updParam p fun _ => rfl

theorem leavesAux_mapG (ps : List (Param K G)) : ∀ (fuel p : Nat),
    leavesAux (ps.map (Param.mapG f)) fuel p = leavesAux ps fuel p
  | 0, _ => rfl
  | fuel + 1, p => by
    unfold leavesAux
    rw [List.getElem?_map]
    cases ps[p]? with
    | none => rfl
    | some P =>
      simp only [Option.map_some]
      show (if P.children = [] then _ else _) = _
      congr 1
      show P.children.flatMap _ = _
      congr 1
      funext c
      exact leavesAux_mapG ps fuel c.2

theorem leaves_mapG (s : St K G) (p : Nat) : leaves (s.mapG f) p = leaves s p := by
  show leavesAux (s.params.map (Param.mapG f)) (s.params.map (Param.mapG f)).length p = _
  rw [leavesAux_mapG, List.length_map]
  rfl

theorem leafConv_mapG (env : Env K) (s : St K G) (u : String) : leafConv env (s.mapG f) u = leafConv env s u := by
  funext p
  unfold leafConv
  rw [St.params_mapG]
  cases s.params[p]? <;> rfl

theorem mkSView_mapG (env : Env K) (s : St K G) (p : Nat) (u : String) :
    mkSView env (s.mapG f) p u = mkSView env s p u := by
  unfold mkSView
  rw [St.params_mapG, leafConv_mapG, leaves_mapG]
  cases s.params[p]? <;> rfl

theorem readScalarLeaf_mapG (s : St K G) (p : Nat) (c : Conv K) :
    readScalarLeaf (s.mapG f) p c = readScalarLeaf s p c := by
  unfold readScalarLeaf
  rw [St.params_mapG]
  cases s.params[p]? with
  | none => rfl
  | some P =>
    simp only [Option.map_some]
    show (if P.children ≠ [] then _ else if !P.written then _ else match P.data.mapG f with | .scalar x => _ | _ => _) = _
    cases P.data <;> rfl

theorem sumScalarKids_mapG (s : St K G) : ∀ (l : List (Nat × Conv K)) (acc : Fl K),
    sumScalarKids (s.mapG f) acc l = sumScalarKids s acc l
  | [], _ => rfl
  | (p, c) :: r, acc => by
    unfold sumScalarKids
    rw [readScalarLeaf_mapG]
    cases readScalarLeaf s p c with
    | error e => rfl
    | ok x => exact sumScalarKids_mapG s r _

theorem scalarValue_mapG (s : St K G) (v : SView K) : scalarValue (s.mapG f) v = scalarValue s v := by
  unfold scalarValue
  rw [St.params_mapG, readScalarLeaf_mapG]
  cases s.params[v.param]? with
  | none => rfl
  | some P =>
    simp only [Option.map_some]
    show (if P.children ≠ [] then match v.kids with | none => _ | some kids => sumScalarKids (s.mapG f) _ kids else _) = _
    congr 1
    cases v.kids with
    | none => rfl
    | some kids => exact sumScalarKids_mapG s kids _

theorem genericValue_mapG (s : St K G) (v : GView) :
    genericValue (s.mapG f) v = Except.map (Option.map f) (genericValue s v) := by
  unfold genericValue
  rw [St.params_mapG]
  cases s.params[v.param]? with
  | none => rfl
  | some P =>
    simp only [Option.map_some]
    show (if !P.written then _ else match P.data.mapG f with | .generic g => _ | _ => _) = _
    by_cases h : (!P.written) = true
    · rw [if_pos h, if_pos h]; rfl
    · rw [if_neg h, if_neg h]
      cases P.data <;> rfl

theorem com_checkWriteS (i : Nat) (v : SView K) : Com f id (checkWriteS i v : M K G _) (checkWriteS i v) :=
  .ite (.pure rfl) ((com_attemptWrite _ _ _ _).bind' fun _ => com_updSView i _)

theorem com_setScalar (i : Nat) (x : Fl K) : Com f id (setScalar i x : M K G _) (setScalar i x) :=
  (com_sview i).bind' fun v => (com_checkWriteS i v).bind' fun _ => com_store _ rfl

theorem com_checkWriteG (i : Nat) (v : GView) : Com f id (checkWriteG i v : M K G _) (checkWriteG i v) :=
  .ite (.pure rfl) ((com_attemptWrite _ _ _ _).bind' fun _ => com_updGView i _)

theorem com_setGeneric (i : Nat) (g : G) : Com f id (setGeneric i g : M K G _) (setGeneric i (f g)) :=
  (com_gview i).bind' fun v => (com_checkWriteG i v).bind' fun _ => com_store _ rfl

theorem mkTLeaf_mapG (env : Env K) (s : St K G) (u : String) (tps : List K) (ty : PType) (ext : Extrap) :
    mkTLeaf env (s.mapG f) u tps ty ext = mkTLeaf env s u tps ty ext := by
  funext p
  unfold mkTLeaf
  rw [St.params_mapG]
  cases s.params[p]? <;> rfl

theorem mkTView_mapG (env : Env K) (s : St K G) (p : Nat) (u : String) (tps : List K) (ty : PType) (ext : Extrap) :
    mkTView env (s.mapG f) p u tps ty ext = mkTView env s p u tps ty ext := by
  unfold mkTView
  rw [St.params_mapG, mkTLeaf_mapG, leaves_mapG]
  cases s.params[p]? <;> rfl

theorem leafValues_mapG (s : St K G) (v : TLeaf K) : leafValues (s.mapG f) v = leafValues s v := by
  unfold leafValues
  rw [St.params_mapG]
  cases s.params[v.param]? with
  | none => rfl
  | some P =>
    simp only [Option.map_some]
    show (if P.children ≠ [] then _ else if !P.written then _ else match P.data.mapG f with | .series x => _ | _ => _) = _
    cases P.data <;> rfl

theorem readLeaf_mapG (s : St K G) (v : TLeaf K) : readLeaf (s.mapG f) v = readLeaf s v := by
  unfold readLeaf
  rw [St.params_mapG, leafValues_mapG]
  cases s.params[v.param]? <;> rfl

theorem sumKids_mapG (s : St K G) : ∀ (l : List (TLeaf K)) (acc : Option (List (Fl K))),
    sumKids (s.mapG f) acc l = sumKids s acc l
  | [], _ => rfl
  | v :: r, acc => by
    unfold sumKids
    rw [readLeaf_mapG]
    cases readLeaf s v with
    | error e => rfl
    | ok x => simp only; rw [sumKids_mapG s r]

theorem readView_mapG (s : St K G) (v : TView K) : readView (s.mapG f) v = readView s v := by
  unfold readView
  rw [St.params_mapG, readLeaf_mapG]
  cases s.params[v.leaf.param]? with
  | none => rfl
  | some P =>
    simp only [Option.map_some, sumKids_mapG]
    rfl

theorem com_readT (i : Nat) : Com f id (readT i : M K G _) (readT i) := by
  intro s
  unfold readT
  show (match s.tviews[i]? with | none => _ | some v => _) = _
  cases s.tviews[i]? with
  | none => rfl
  | some v =>
    simp only [readView_mapG]
    rw [except_map_id]
    rfl

theorem com_checkWrite (i : Nat) : Com f id (checkWrite i : M K G _) (checkWrite i) :=
  (com_tview i).bind' fun _ => .ite (.pure rfl)
    ((com_attemptWrite _ _ _ _).bind' fun _ => com_updTView i _)

theorem com_writeT (i : Nat) : Com f id (writeT i : M K G _) (writeT i) := by
  refine (com_tview i).bind' fun v => .ite (.pure rfl) ?_
  cases v.leaf.data with
  | none => exact .throw
  | some d =>
    refine Com.ofExcept.bind' fun l => (com_store _ rfl).bind' fun _ => (com_getParam _).bind fun P => ?_
    exact com_updTView i _

theorem com_setValues (i : Nat) (a : Arr K) : Com f id (setValues i a : M K G _) (setValues i a) :=
  (com_checkWrite i).bind' fun _ => (com_tview i).bind' fun _ => .ite .throw
    (Com.ofExcept.bind' fun _ => (com_updTView i _).bind' fun _ => com_writeT i)

theorem com_setItems (env : Env K) (i : Nat) (ix : List (Int × Fl K)) :
    Com f id (setItems env i ix : M K G _) (setItems env i ix) := by
  refine (com_tview i).bind' fun v => ?_
  cases v.leaf.data with
  | none => exact .throw
  | some d => exact Com.ofExcept.bind' fun _ => (com_updTView i _).bind' fun _ => com_writeT i

theorem com_handle (i : Nat) : Com f id (handle i : M K G _) (handle i) := by
  refine (com_tview i).bind' fun v => ?_
  cases v.leaf.data with
  | none => exact .throw
  | some d => exact .pure rfl

/-! ## Looking up -/

theorem findSubregion_mapG (s : St K G) : ∀ (ns : List String) (r : Nat),
    findSubregion (s.mapG f) r ns = findSubregion s r ns
  | [], _ => rfl
  | n :: ns, r => by
    unfold findSubregion
    show (match s.regions[r]? with | none => _ | some R => _) = _
    cases s.regions[r]? with
    | none => rfl
    | some R =>
      simp only
      cases R.children.lookup n with
      | none => rfl
      | some c => exact findSubregion_mapG s ns c

theorem findSubparam_mapG (s : St K G) : ∀ (ns : List String) (r : Nat),
    findSubparam (s.mapG f) r ns = findSubparam s r ns
  | [], _ => rfl
  | n :: ns, r => by
    unfold findSubparam
    rw [St.params_mapG]
    cases s.params[r]? with
    | none => rfl
    | some P =>
      simp only [Option.map_some]
      show (match P.children.lookup n with | none => _ | some c => _) = _
      cases P.children.lookup n with
      | none => rfl
      | some c => exact findSubparam_mapG s ns c

theorem findRegion_mapG (s : St K G) (n : HName) : findRegion (s.mapG f) n = findRegion s n := by
  unfold findRegion
  simp only [findSubregion_mapG]
  rfl

theorem findParam_mapG (s : St K G) (r : Nat) (n : HName) : findParam (s.mapG f) r n = findParam s r n := by
  unfold findParam
  simp only [findSubparam_mapG]
  rfl

theorem paramNameAux_mapG (ps : List (Param K G)) : ∀ (fuel p : Nat),
    paramNameAux (ps.map (Param.mapG f)) fuel p = paramNameAux ps fuel p
  | 0, _ => rfl
  | fuel + 1, p => by
    unfold paramNameAux
    rw [List.getElem?_map]
    cases ps[p]? with
    | none => rfl
    | some P =>
      simp only [Option.map_some]
      show (match P.parent with | none => _ | some q => paramNameAux (ps.map (Param.mapG f)) fuel q ++ [P.name]) = _
      cases P.parent with
      | none => rfl
      | some q => simp only [paramNameAux_mapG ps fuel q]

theorem infoOf_mapG (s : St K G) (p : Nat) (P : Param K G) : infoOf (s.mapG f) p (P.mapG f) = infoOf s p P := by
  have : paramName (s.mapG f) p = paramName s p := by
    show paramNameAux (s.params.map (Param.mapG f)) (s.params.map (Param.mapG f)).length p = _
    rw [paramNameAux_mapG, List.length_map]
    rfl
  unfold infoOf
  rw [this]
  rfl

theorem infoCall_mapG (s : St K G) (n r : HName) : infoCall (s.mapG f) n r = infoCall s n r := by
  unfold infoCall
  rw [findRegion_mapG]
  cases findRegion s r with
  | error e => rfl
  | ok o =>
    cases o with
    | none => rfl
    | some i =>
      simp only [findParam_mapG]
      cases findParam s i n with
      | error e => rfl
      | ok o =>
        cases o with
        | none => rfl
        | some p =>
          simp only
          rw [St.params_mapG]
          cases s.params[p]? with
          | none => rfl
          | some P => simp only [Option.map_some, infoOf_mapG]

theorem viewTarget_mapG (s : St K G) (v : VRef) : viewTarget (s.mapG f) v = viewTarget s v := by
  cases v with
  | s i => rfl
  | t i => rfl
  | g i =>
    show ((s.gviews[i]?).map fun v => (v.param, ((s.mapG f).params[v.param]?).bind (·.unit))) =
      ((s.gviews[i]?).map fun v => (v.param, (s.params[v.param]?).bind (·.unit)))
    congr 1
    funext v
    rw [St.params_mapG]
    cases s.params[v.param]? <;> rfl

/-! ## Calls -/

theorem com_scalarCall (env : Env K) (n : HName) (u : String) (r : HName) :
    Com f id (scalarCall env n u r : M K G _) (scalarCall env n u r) :=
  (com_reach n r).bind' fun p => (com_attemptRead p _ _ _).bind' fun _ =>
    (Com.value (g := id) fun s => by rw [mkSView_mapG, except_map_id]).bind' fun _ _ => rfl

theorem com_timeseriesCall (env : Env K) (n : HName) (u : String) (tps : List K) (r : HName) (ty : TyArg)
    (int : IntArg) (ext : ExtArg) :
    Com f id (timeseriesCall env n u tps r ty int ext : M K G _) (timeseriesCall env n u tps r ty int ext) :=
  Com.ofExcept.bind' fun _ => Com.ofExcept.bind' fun _ => Com.ofExcept.bind' fun _ =>
    (com_reach n r).bind' fun p => (com_attemptRead p _ _ _).bind' fun _ =>
      (Com.value (g := id) fun s => by rw [mkTView_mapG, except_map_id]).bind' fun _ _ => rfl

theorem com_genericCall (n r : HName) : Com f id (genericCall n r : M K G _) (genericCall n r) :=
  (com_reach n r).bind' fun p => (com_attemptRead p _ _ _).bind' fun _ _ => rfl

theorem com_call (env : Env K) (op : Op K G) : Com f (Out.mapG f) (call env op) (call env (op.mapG f)) := by
  cases op with
  | scalar n u r => exact (com_scalarCall env n u r).bind' fun _ => .pure rfl
  | timeseries n u t r ty i e => exact (com_timeseriesCall env n u t r ty i e).bind' fun _ => .pure rfl
  | generic n r => exact (com_genericCall n r).bind' fun _ => .pure rfl
  | info n r =>
    exact (Com.value (g := id) fun s => by rw [infoCall_mapG, except_map_id]).bind' fun _ => .pure rfl
  | sGet i =>
    exact (com_sview i).bind' fun v => (Com.value (g := id) fun s => by rw [scalarValue_mapG, except_map_id]).bind'
      fun _ => .pure rfl
  | sSet i x => exact (com_setScalar i x).bind' fun _ => .pure rfl
  | gGet i => exact (com_gview i).bind' fun v => (Com.value fun s => genericValue_mapG s v).bind fun _ => .pure rfl
  | gSet i g => exact (com_setGeneric i g).bind' fun _ => .pure rfl
  | tGet i => exact (com_readT i).bind' fun _ => (com_handle i).bind' fun _ => .pure rfl
  | tSet i a => exact (com_setValues i a).bind' fun _ => .pure rfl
  | tGetItem i j =>
    exact (com_readT i).bind' fun _ => (com_handle i).bind' fun _ => Com.ofExcept.bind' fun _ => .pure rfl
  | tSetItem i ix => exact (com_readT i).bind' fun _ => (com_setItems env i ix).bind' fun _ => .pure rfl
  | hGetItem i j =>
    exact (com_handle i).bind' fun _ => (com_readT i).bind' fun _ => (com_handle i).bind' fun _ =>
      Com.ofExcept.bind' fun _ => .pure rfl
  | hSetItem i ix => exact (com_setItems env i ix).bind' fun _ => .pure rfl
  | hPeek i => exact (com_handle i).bind' fun _ => .pure rfl
  | hInplace i h =>
    exact (com_handle i).bind' fun _ => (com_readT i).bind' fun _ => (com_handle i).bind' fun _ =>
      Com.ofExcept.bind' fun _ => (com_updTView i _).bind' fun _ => (com_writeT i).bind' fun _ => .pure rfl
  | tSetOwn i => exact (com_handle i).bind' fun d => (com_setValues i d).bind' fun _ => .pure rfl
  | tLock i => exact (com_tview i).bind' fun _ => (com_updTView i _).bind' fun _ => .pure rfl
  | tUnlock i =>
    exact (com_tview i).bind' fun _ => (com_updTView i _).bind' fun _ => (com_writeT i).bind' fun _ => .pure rfl
  | tLength i => exact (com_tview i).bind' fun _ => .pure rfl
  | vInfo v =>
    refine (Com.look (g := id) fun s => by rw [viewTarget_mapG]; simp).bind' fun q => ?_
    exact (com_getParam q.1).bind fun P => (Com.gets (g := id) fun s => by rw [infoOf_mapG]; rfl).bind'
      fun _ => .pure rfl
  | ensure v =>
    refine (Com.look (g := id) fun s => by rw [viewTarget_mapG]; simp).bind' fun q => ?_
    refine (com_getParam q.1).bind fun P => ?_
    exact .ite (.pure rfl) .throw

theorem call_mapG (env : Env K) (op : Op K G) (s : St K G) : call env (op.mapG f) (s.mapG f) =
    (Except.map (Out.mapG f) (call env op s).1, (call env op s).2.mapG f) := com_call env op s

theorem run_mapG (env : Env K) : ∀ (ops : List (Op K G)) (s : St K G),
    run env (s.mapG f) (ops.map (Op.mapG f)) =
      ((run env s ops).1.map fun e => (e.1.mapG f, Except.map (Out.mapG f) e.2), (run env s ops).2.mapG f)
  | [], _ => rfl
  | op :: ops, s => by
    simp only [List.map_cons, run, call_mapG, run_mapG env ops]

theorem after_mapG (env : Env K) (ops : List (Op K G)) (s : St K G) :
    after env (s.mapG f) (ops.map (Op.mapG f)) = (after env s ops).mapG f := by
  unfold after; rw [run_mapG]

end

end Openscm
