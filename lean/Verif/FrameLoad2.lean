import Verif.FrameLoad
import Verif.RoundDeep
import Verif.FrameSelect

/-!
# C98: a parameter set made of a frame, converted back on other times
-/

set_option linter.unusedSectionVars false

namespace Openscm
variable {K : Type} [Field K] [LinearOrder K] [IsStrictOrderedRing K]

/-! ## Lemmas -/

theorem freshOf_floats {env : Env K} {P : Param K (PyVal K)} {w : String} {tps : List K} {ty : TyArg} {int : IntArg}
    {ext : ExtArg} {o : Out K (PyVal K)} (h : freshOf env P w tps ty int ext = .ok o) : ∃ out, o = .arr (.floats out) := by
  unfold freshOf at h
  simp only [bind, Except.bind, Except.map] at h
  repeat' split at h
  all_goals first
    | (cases h; done)
    | exact ⟨_, (Except.ok.inj h).symm⟩

theorem gather_read_inv {env : Env K} {s s' : St K (PyVal K)} (hi : Inv env s) {p : Nat} {k : Key} {P : Param K (PyVal K)}
    {t : PType} {u : String} {times avg : List Int} (hk : HasKey s p k) (hP : s.params[p]? = some P)
    (hw : P.written = true) (htt : t = .average ∨ t = .point) (h1 : P.ptype = some t) (h2 : P.unit = some u)
    {c c' : Gathered K} (h : gatherOne env times avg (k.2, k.1, p) c s = (.ok c', s')) :
    ∃ out, freshOf env P u (toK (if t = .point then times else avg)) (.enum t) (.enum .linear) (.enum .none)
      = .ok (.arr (.floats out)) := by
  obtain ⟨hch, hrd⟩ := (hi.good.params p P hP).1 hw
  have hfr := freshRead_eq hi hk hP (by rw [h1]; simp) hch u (toK (if t = .point then times else avg)) (.enum t)
    (.enum .linear) (.enum .none)
  have hok : ∃ o, freshRead env s k u (toK (if t = .point then times else avg)) (.enum t) (.enum .linear) (.enum .none)
      = .ok o := by
    have hg : getParam p s = (.ok P, s) := look_some hP
    unfold gatherOne at h
    rw [M.bind_ok hg, h1, h2] at h
    unfold freshRead
    simp only [result, after_one]
    rcases htt with rfl | rfl
    all_goals
      dsimp only at h
      generalize hop : (Op.timeseries (.seq k.2) u _ (.seq k.1) _ (.enum .linear) (.enum .none) : Op K (PyVal K)) = op
        at h ⊢
      obtain ⟨o, s1, g1, g2⟩ := M.bind_inv h
      rw [g1]
      simp only
      cases o with
      | view j =>
        simp only at g2 ⊢
        obtain ⟨a, s2, k1, _⟩ := M.bind_inv g2
        rw [k1]
        exact ⟨_, rfl⟩
      | _ => exact ⟨_, rfl⟩
  obtain ⟨o, ho⟩ := hok
  rw [hfr] at ho
  obtain ⟨out, rfl⟩ := freshOf_floats ho
  exact ⟨out, ho⟩

/-- What is found of a timeseries on other times. -/
def ReadAt (env : Env K) (s : St K (PyVal K)) (times avg : List Int) (z : Found K) : Prop :=
  ∃ p P, HasKey s p z.key ∧ s.params[p]? = some P ∧ P.ptype = some z.ty ∧ P.unit = some z.unit ∧
    (z.ty = .average ∨ z.ty = .point) ∧
    freshOf env P z.unit (toK (if z.ty = .point then times else avg)) (.enum z.ty) (.enum .linear) (.enum .none)
      = .ok (.arr (.floats (z.xs.map .num)))

theorem ReadAt.same {env : Env K} {s s' : St K (PyVal K)} {times avg : List Int} {z : Found K} (h : Same s s') :
    ReadAt env s' times avg z ↔ ReadAt env s times avg z := by
  unfold ReadAt
  simp only [h.key, h.1]

theorem gatherAll_at {env : Env K} {s : St K (PyVal K)} (hi : Inv env s) {L : List (Key × Item K (PyVal K))}
    (hL : Holds env s L (fun _ _ => False)) {times avg : List Int}
    (hser : ∀ k t u tps xs, (k, Item.series t u tps xs) ∈ L → t = .average ∨ t = .point)
    (hmeta : ∀ e ∈ L, ¬ e.2.isSeries → MetaEntry e) (l : List (List String × List String × Nat))
    (hl : ∀ x ∈ l, HasKey s x.2.2 (x.2.1, x.1) ∧ Childless s x.2.2)
    (hread : ∀ x ∈ l, ∀ t u tps xs, ((x.2.1, x.1), Item.series t u tps xs) ∈ L →
      ∃ ys, ReadAt env s times avg ⟨(x.2.1, x.1), t, u, ys⟩) {c : Gathered K} {S : List (Found K)}
    (hc : Gath c S) :
    ∃ c' s' S', gatherAll env times avg l c s = (.ok c', s') ∧ Gath c' (S ++ S') ∧
      (S'.map (·.key)).Sublist (l.map fun x => (x.2.1, x.1)) ∧
      ∀ z, z ∈ S' ↔ z.key ∈ l.map (fun x => (x.2.1, x.1)) ∧ ReadAt env s times avg z := by
  induction l generalizing s c S with
  | nil => exact ⟨c, s, [], rfl, by simpa using hc, by simp, by simp⟩
  | cons x l ih =>
    obtain ⟨hk, hch⟩ := hl x List.mem_cons_self
    obtain ⟨P, hP, hPc⟩ := hch
    obtain ⟨t0, ht0⟩ := Option.ne_none_iff_exists'.1 (hL.leaf _ P hP hPc)
    obtain ⟨it, hit⟩ : ∃ it, ((x.2.1, x.1), it) ∈ L := by
      rcases hL.typed _ P _ t0 hk hP ht0 with h | h
      · exact h
      · exact h.elim
    have hin : ∀ it, ((x.2.1, x.1), it) ∈ L → P.written = true ∧ it.In env P := by
      intro it hit
      obtain ⟨p', P', a1, a2, a3, a4⟩ := hL.items _ hit
      obtain rfl := a1.inj hi.tree hk
      rw [hP] at a2; cases a2
      exact ⟨a3, a4⟩
    obtain ⟨hw, hI⟩ := hin it hit
    simp only [gatherAll]
    by_cases hse : it.isSeries
    · cases it with
      | series t u tps xs =>
        have htt := hser _ _ _ _ _ hit
        obtain ⟨f1, f2, f3, f4, -⟩ := hI
        obtain ⟨ys, hys⟩ := hread x List.mem_cons_self t u tps xs hit
        have hfr : freshOf env P u (toK (if t = .point then times else avg)) (.enum t) (.enum .linear) (.enum .none)
            = .ok (.arr (.floats (ys.map .num))) := by
          obtain ⟨p', P', a1, a2, _, _, _, a6⟩ := hys
          obtain rfl := a1.inj hi.tree hk
          rw [hP] at a2; cases a2
          exact a6
        obtain ⟨s1, g1, g2, g3⟩ := gather_read hi hk hP hw htt f1 f2 hfr c
        obtain ⟨c', s', S', b1, b2, b3, b4⟩ := ih g3 (hL.same g2)
          (fun y hy => ⟨g2.key.2 (hl y (List.mem_cons_of_mem _ hy)).1, by
            obtain ⟨Q, q1, q2⟩ := (hl y (List.mem_cons_of_mem _ hy)).2
            exact ⟨Q, by rw [g2.1]; exact q1, q2⟩⟩)
          (fun y hy t u tps xs he => by
            obtain ⟨zs, hzs⟩ := hread y (List.mem_cons_of_mem _ hy) t u tps xs he
            exact ⟨zs, (ReadAt.same g2).2 hzs⟩) (hc.add ⟨(x.2.1, x.1), t, u, ys⟩)
        refine ⟨c', s', ⟨(x.2.1, x.1), t, u, ys⟩ :: S', ?_, by simpa using b2, ?_, ?_⟩
        · rw [M.bind_ok g1]; exact b1
        · simpa using b3.cons_cons (x.2.1, x.1)
        · intro z
          rw [List.mem_cons, b4, List.map_cons, List.mem_cons, ReadAt.same g2]
          constructor
          · rintro (rfl | ⟨h1, h2⟩)
            · exact ⟨Or.inl rfl, hys⟩
            · exact ⟨Or.inr h1, h2⟩
          · rintro ⟨h1 | h1, h2⟩
            · left
              obtain ⟨zk, zt, zu, zx⟩ := z
              simp only at h1
              subst h1
              obtain ⟨p', P', a1, a2, a3, a4, _, a6⟩ := h2
              simp only at a1 a3 a4 a6
              obtain rfl := a1.inj hi.tree hk
              rw [hP] at a2; cases a2
              rw [a3] at f1; cases f1
              rw [a4] at f2; cases f2
              rw [a6] at hfr
              have : zx.map Fl.num = ys.map Fl.num := by simpa using hfr
              have : zx = ys := List.map_injective_iff.2 (fun a b hab => by cases hab; rfl) this
              rw [this]
            · exact Or.inr ⟨h1, h2⟩
      | _ => exact hse.elim
    · obtain ⟨s1, n, v, g1, hn, g2, g3, _⟩ := gather_meta (times := times) (avg := avg) hi hk hP hw
        (hmeta _ hit hse) hI c
      obtain ⟨c', s', S', b1, b2, b3, b4⟩ := ih g3 (hL.same g2)
        (fun y hy => ⟨g2.key.2 (hl y (List.mem_cons_of_mem _ hy)).1, by
          obtain ⟨Q, q1, q2⟩ := (hl y (List.mem_cons_of_mem _ hy)).2
          exact ⟨Q, by rw [g2.1]; exact q1, q2⟩⟩)
        (fun y hy t u tps xs he => by
          obtain ⟨zs, hzs⟩ := hread y (List.mem_cons_of_mem _ hy) t u tps xs he
          exact ⟨zs, (ReadAt.same g2).2 hzs⟩) (hc.set hn v)
      refine ⟨c', s', S', ?_, b2, ?_, ?_⟩
      · rw [M.bind_ok g1]; exact b1
      · exact b3.cons _
      · intro z
        rw [b4, List.map_cons, List.mem_cons, ReadAt.same g2]
        constructor
        · rintro ⟨h1, h2⟩; exact ⟨Or.inr h1, h2⟩
        · rintro ⟨h1 | h1, h2⟩
          · exfalso
            obtain ⟨p', P', a1, a2, a3, _, a5, _⟩ := h2
            rw [h1] at a1
            obtain rfl := a1.inj hi.tree hk
            rw [hP] at a2; cases a2
            rcases (hmeta _ hit hse).2 with ⟨u, y, h'⟩ | ⟨g, c', h', _⟩ <;> simp only at h' <;> subst h' <;>
              have f1 := hI.1 <;> rw [a3, Option.some.injEq] at f1 <;>
              rcases a5 with h'' | h'' <;> rw [h''] at f1 <;> cases f1
          · exact ⟨h1, h2⟩

/-- If the loop ends, then each timeseries could be read. -/
theorem gatherAll_reads {env : Env K} {s s' : St K (PyVal K)} (hi : Inv env s) {L : List (Key × Item K (PyVal K))}
    (hL : Holds env s L (fun _ _ => False)) {times avg : List Int}
    (hser : ∀ k t u tps xs, (k, Item.series t u tps xs) ∈ L → t = .average ∨ t = .point)
    (hmeta : ∀ e ∈ L, ¬ e.2.isSeries → MetaEntry e) (l : List (List String × List String × Nat))
    (hl : ∀ x ∈ l, HasKey s x.2.2 (x.2.1, x.1) ∧ Childless s x.2.2) {c c' : Gathered K}
    (h : gatherAll env times avg l c s = (.ok c', s')) :
    ∀ x ∈ l, ∀ t u tps xs, ((x.2.1, x.1), Item.series t u tps xs) ∈ L → ∃ P out, s.params[x.2.2]? = some P ∧
      freshOf env P u (toK (if t = .point then times else avg)) (.enum t) (.enum .linear) (.enum .none)
        = .ok (.arr (.floats out)) := by
  induction l generalizing s c with
  | nil => simp
  | cons x l ih =>
    obtain ⟨hk, hch⟩ := hl x List.mem_cons_self
    obtain ⟨P, hP, hPc⟩ := hch
    obtain ⟨t0, ht0⟩ := Option.ne_none_iff_exists'.1 (hL.leaf _ P hP hPc)
    obtain ⟨it, hit⟩ : ∃ it, ((x.2.1, x.1), it) ∈ L := by
      rcases hL.typed _ P _ t0 hk hP ht0 with h | h
      · exact h
      · exact h.elim
    have hin : ∀ it, ((x.2.1, x.1), it) ∈ L → P.written = true ∧ it.In env P := by
      intro it hit
      obtain ⟨p', P', a1, a2, a3, a4⟩ := hL.items _ hit
      obtain rfl := a1.inj hi.tree hk
      rw [hP] at a2; cases a2
      exact ⟨a3, a4⟩
    obtain ⟨hw, hI⟩ := hin it hit
    simp only [gatherAll] at h
    obtain ⟨c1, s1, g1, g2⟩ := M.bind_inv h
    have hstep : Same s s1 ∧ Inv env s1 ∧ ∀ t u tps xs, ((x.2.1, x.1), Item.series t u tps xs) ∈ L → ∃ P out,
        s.params[x.2.2]? = some P ∧
        freshOf env P u (toK (if t = .point then times else avg)) (.enum t) (.enum .linear) (.enum .none)
          = .ok (.arr (.floats out)) := by
      by_cases hse : it.isSeries
      · cases it with
        | series t u tps xs =>
          have htt := hser _ _ _ _ _ hit
          obtain ⟨f1, f2, _⟩ := id hI
          obtain ⟨out, hout⟩ := gather_read_inv hi hk hP hw htt f1 f2 g1
          obtain ⟨s2, k1, k2, k3⟩ := gather_read hi hk hP hw htt f1 f2 hout c
          have e := g1.symm.trans k1
          simp only [Prod.mk.injEq] at e
          obtain ⟨_, rfl⟩ := e
          refine ⟨k2, k3, fun t' u' tps' xs' h' => ?_⟩
          obtain ⟨e1, e2, _⟩ := (hin _ h').2
          rw [f1] at e1; cases e1
          rw [f2] at e2; cases e2
          exact ⟨P, out, hP, hout⟩
        | _ => exact hse.elim
      · obtain ⟨s2, n, v, k1, _, k2, k3, _⟩ := gather_meta (times := times) (avg := avg) hi hk hP hw
          (hmeta _ hit hse) hI c
        have e := g1.symm.trans k1
        simp only [Prod.mk.injEq] at e
        obtain ⟨_, rfl⟩ := e
        refine ⟨k2, k3, fun t' u' tps' xs' h' => ?_⟩
        exfalso
        obtain ⟨e1, _⟩ := (hin _ h').2
        rcases (hmeta _ hit hse).2 with ⟨u, y, h''⟩ | ⟨g, c', h'', _⟩ <;> simp only at h'' <;> subst h'' <;>
          have f1 := hI.1 <;> rw [e1, Option.some.injEq] at f1 <;>
          rcases hser _ _ _ _ _ h' with h3 | h3 <;> rw [h3] at f1 <;> cases f1
    obtain ⟨hsm, hi1, hfirst⟩ := hstep
    intro y hy
    rcases List.mem_cons.1 hy with rfl | hy
    · exact hfirst
    · intro t u tps xs he
      obtain ⟨Q, out, q1, q2⟩ := ih hi1 (hL.same hsm)
        (fun y hy => ⟨hsm.key.2 (hl y (List.mem_cons_of_mem _ hy)).1, by
          obtain ⟨Q, q1, q2⟩ := (hl y (List.mem_cons_of_mem _ hy)).2
          exact ⟨Q, by rw [hsm.1]; exact q1, q2⟩⟩) g2 y hy t u tps xs he
      exact ⟨Q, out, by rw [← hsm.1]; exact q1, q2⟩

/-! ## Specification -/

/-- What is expected back on other times: the timeseries of the frame for regions at most one level below the root, with
what a view of the parameter set on these times shows. -/
def Back (env : Env K) (F : DFrame K) (s : St K (PyVal K)) (target : List Int) (v g u : String) (vals : List (Fl K)) :
    Prop :=
  Shallow g ∧ ∃ (i : Nat) (old : List (Fl K)) (p : PType) (pts : List K), F.IsRow i v g u old ∧ Axis target p pts ∧
    Sees env s v g u pts (.enum p) (.enum .linear) (.enum .none) vals

/-! ## The whole -/

theorem axis_points {target avg : List Int} (havg : extendPoints target = .ok avg) {p : PType} {pts : List K}
    (hp : p = .average ∨ p = .point) : Axis target p pts ↔ pts = toK (if p = .point then target else avg) := by
  rw [axis_iff hp]
  unfold seriesPoints
  rcases hp with rfl | rfl
  · rw [if_pos rfl, havg, if_neg (by simp)]
    constructor
    · rintro ⟨m, h, rfl⟩; cases h; rfl
    · rintro rfl; exact ⟨_, rfl, rfl⟩
  · rw [if_neg (by simp), if_pos rfl]
    constructor
    · rintro ⟨m, h, rfl⟩; cases h; rfl
    · rintro rfl; exact ⟨_, rfl, rfl⟩

theorem axis_kind {target : List Int} {p : PType} {pts : List K} (h : Axis target p pts) : p = .average ∨ p = .point := by
  cases h
  · exact .inr rfl
  · exact .inl rfl

theorem back_all {env : Env K} {F : DFrame K} (h : F.Tidy) {s : St K (PyVal K)}
    (hto : toParameterset env F (St.init "World") = (.ok (), s)) {target avg : List Int}
    (hsort : target.Pairwise (· < ·)) (havg : extendPoints target = .ok avg) (model scenario climate : String) :
    ((∀ i v g u old, F.IsRow i v g u old → Shallow g → ∃ vals, Back env F s target v g u vals) ↔
      ∃ c s', gatherAll env target avg (rootParams s) (gatherStart model scenario climate) s = (.ok c, s')) ∧
    ((∀ i v g u old, F.IsRow i v g u old → Shallow g → ∃ vals, Back env F s target v g u vals) →
      ∃ S : List (Found K),
        (∀ z ∈ S, Back env F s target (joinName z.key.2) (joinName z.key.1) z.unit (z.xs.map .num)) ∧
        (∀ v g u vals, Back env F s target v g u vals → ∃ z ∈ S,
          z.key = (splitName g, splitName v) ∧ z.unit = u ∧ z.xs.map .num = vals) ∧
        (S = [] → ∃ s', convertToFrame env target model scenario climate s = (.error .valueError, s')) ∧
        (S ≠ [] → ∃ (F' : DFrame K) (s' : St K (PyVal K)),
          convertToFrame env target model scenario climate s = (.ok F', s') ∧ F'.Ok ∧ F'.times = target ∧
          F'.data.length = S.length ∧
          ∀ (i : Nat) (z : Found K), S[i]? = some z →
            F'.IsRow i (joinName z.key.2) (joinName z.key.1) z.unit (z.xs.map .num) ∧
            F'.HasMeta i "parameter_type" (.str (typeText z.ty)))) := by
  have hd : ∀ d ∈ F.data, ∃ xs : List K, d.2 = xs.map .num := fun d hd => nums_of (h.nums d hd)
  obtain ⟨hs, L, hL, ha, hb, hex, _⟩ := toParameterset_holds h.sorted hd h.distinct hto
  replace ha : ∀ k t u tps xs, (k, Item.series t u tps xs) ∈ L ↔ ∃ d ∈ F.data,
      RowItem env F d (k, Item.series t u tps xs) := fun k t u tps xs => ha (k, Item.series t u tps xs) trivial
  have hi := hs.inv
  have hser : ∀ k t u tps xs, (k, Item.series t u tps xs) ∈ L → t = .average ∨ t = .point := by
    intro k t u tps xs he
    obtain ⟨d, _, r, v, g, u', t', tps', xs', _, _, h3, h4, _, h6⟩ := (ha _ _ _ _ _).1 he
    simp only [Prod.mk.injEq, Item.series.injEq] at h6
    obtain ⟨_, rfl, _, rfl, _⟩ := h6
    exact seriesType_two h3
  have hl : ∀ x ∈ rootParams s, HasKey s x.2.2 (x.2.1, x.1) ∧ Childless s x.2.2 := fun x hx =>
    ⟨((rootParams_mem hi.tree x).1 hx).1, ((rootParams_mem hi.tree x).1 hx).2.1⟩
  -- rows of items
  have hrowOf : ∀ k t u tps xs, (k, Item.series t u tps xs) ∈ L → ∃ i v g, k = (splitName g, splitName v) ∧
      F.IsRow i v g u (xs.map .num) := by
    intro k t u tps xs he
    obtain ⟨d, hdm, hrow⟩ := (ha _ _ _ _ _).1 he
    obtain ⟨i, hi'⟩ := List.getElem?_of_mem hdm
    obtain ⟨r, v, g, u', t', tps', xs', m1, m2, m3, m4, m5⟩ := rowItem_at h.ok hi' hrow
    simp only [Prod.mk.injEq, Item.series.injEq] at m5
    obtain ⟨hk, rfl, rfl, _, rfl⟩ := m5
    exact ⟨i, v, g, hk, m2⟩
  -- what is expected and what is read
  have hBack : ∀ {v g u : String} {vals : List (Fl K)}, Back env F s target v g u vals ↔
      Shallow g ∧ ∃ t ys, vals = ys.map .num ∧ ReadAt env s target avg ⟨(splitName g, splitName v), t, u, ys⟩ := by
    intro v g u vals
    constructor
    · rintro ⟨hsh, i, old, p, pts, hrow, hax, hsee⟩
      refine ⟨hsh, ?_⟩
      obtain ⟨q, P, r, t, tps0, xs, _, m1, hx, m2, m3, m4, m5, m6, m7, m8, m9, m10, m11, _⟩ := loaded_param h hto hrow
      rw [sees_iff, freshRead_eq hi m4 m5 (by rw [m8]; simp) m7] at hsee
      have hp := axis_kind hax
      rw [axis_points havg hp] at hax
      subst hax
      obtain ⟨⟨rfl, _⟩, _, e, a, b, c, _, _, _, _, hc, hout⟩ := (freshOf_series m6 m8 m9 m10 m11).1 hsee
      obtain ⟨c1, c2, c3, c4⟩ := mkTSConv_ok hc
      have hnum : ∃ ws : List K, vals = ws.map .num := by
        unfold TSConv.convertFrom convert at hout
        rw [Fl.allNum_map_num] at hout
        refine convertNum_num ?_ hout
        rw [c2]
        split
        · exact toK_sorted hsort
        · exact toK_sorted (extendPoints_sorted hsort havg)
      obtain ⟨ws, rfl⟩ := hnum
      exact ⟨p, ws, rfl, q, P, m4, m5, m8, m9, hp, hsee⟩
    · rintro ⟨hsh, t, ys, rfl, q, P, k1, k2, k3, k4, k5, k6⟩
      refine ⟨hsh, ?_⟩
      simp only at k1 k3 k4 k5 k6
      obtain ⟨it, hit⟩ : ∃ it, ((splitName g, splitName v), it) ∈ L := by
        rcases hL.typed _ P _ t k1 k2 k3 with h | h
        · exact h
        · exact h.elim
      obtain ⟨p', P', a1, a2, a3, a4⟩ := hL.items _ hit
      obtain rfl := a1.inj hi.tree k1
      rw [k2] at a2; cases a2
      cases it with
      | series t' u' tps xs =>
        obtain ⟨e1, e2, _⟩ := a4
        rw [k3] at e1; cases e1
        rw [k4] at e2; cases e2
        obtain ⟨i, v', g', hk, hrow⟩ := hrowOf _ _ _ _ _ hit
        simp only [Prod.mk.injEq] at hk
        have hv : v' = v := by rw [← C17_join_split v', ← hk.2, C17_join_split]
        have hg : g' = g := by rw [← C17_join_split g', ← hk.1, C17_join_split]
        subst hv; subst hg
        have hch := ((hi.good.params _ P k2).1 a3).1
        refine ⟨i, _, t, _, hrow, (axis_points havg k5).2 rfl, ?_⟩
        rw [sees_iff, freshRead_eq hi k1 k2 (by rw [k3]; simp) hch]
        exact k6
      | scalar u' x =>
        have := a4.1
        rw [k3] at this; cases this
        rcases k5 with h | h <;> cases h
      | generic x =>
        have := a4.1
        rw [k3] at this; cases this
        rcases k5 with h | h <;> cases h
  -- each timeseries can be read
  have hreads : (∀ i v g u old, F.IsRow i v g u old → Shallow g → ∃ vals, Back env F s target v g u vals) →
      ∀ x ∈ rootParams s, ∀ t u tps xs, ((x.2.1, x.1), Item.series t u tps xs) ∈ L →
        ∃ ys, ReadAt env s target avg ⟨(x.2.1, x.1), t, u, ys⟩ := by
    intro hall x hx t u tps xs he
    obtain ⟨i, v, g, hk, hrow⟩ := hrowOf _ _ _ _ _ he
    have hlen : x.2.1.length ≤ 2 := ((rootParams_mem hi.tree x).1 hx).2.2
    simp only [Prod.mk.injEq] at hk
    obtain ⟨vals, hB⟩ := hall i v g u _ hrow (shallow_levels.2 (hk.1 ▸ hlen))
    obtain ⟨_, t', ys, _, hR⟩ := hBack.1 hB
    rw [← hk.1, ← hk.2] at hR
    have : t' = t := by
      obtain ⟨q, P, k1, k2, k3, _⟩ := hR
      obtain ⟨p', P', a1, a2, a3, a4⟩ := hL.items _ he
      obtain rfl := a1.inj hi.tree k1
      rw [k2] at a2; cases a2
      have := a4.1
      simp only at k3
      rw [k3] at this; exact Option.some.inj this
    subst this
    exact ⟨ys, hR⟩
  refine ⟨⟨fun hall => ?_, ?_⟩, fun hall => ?_⟩
  · obtain ⟨c, s', S, g1, _⟩ := gatherAll_at hi hL hser hb (rootParams s) hl (hreads hall)
      (Gath.start model scenario climate)
    exact ⟨c, s', g1⟩
  · rintro ⟨c, s', hg⟩ i v g u old hrow hsh
    obtain ⟨q, P, r, t, tps0, xs, _, m1, hx, m2, m3, m4, m5, m6, m7, m8, m9, m10, m11, _⟩ := loaded_param h hto hrow
    obtain ⟨_, _, _, d, d1, _⟩ := id hrow
    obtain ⟨e, he⟩ := hex d (List.mem_of_getElem? d1)
    obtain ⟨r', v', g', u', t', tps', xs', n1, n2, n3, n4, rfl⟩ := rowItem_at h.ok d1 he
    obtain ⟨rfl, rfl, rfl, _⟩ := IsRow.unique h.ok hrow n2
    have hin := (ha _ _ _ _ _).2 ⟨d, List.mem_of_getElem? d1, he⟩
    have hroot : (splitName v, splitName g, q) ∈ rootParams s :=
      (rootParams_mem hi.tree _).2 ⟨m4, ⟨P, m5, m7⟩, shallow_levels.1 hsh⟩
    obtain ⟨P', out, p1, p2⟩ := gatherAll_reads hi hL hser hb (rootParams s) hl hg _ hroot t' u (toK tps') xs' hin
    rw [show s.params[(splitName v, splitName g, q).2.2]? = some P from m5] at p1; cases p1
    rw [m1] at n1; cases n1
    rw [m2] at n3; cases n3
    have hp := seriesType_two m2
    refine ⟨out, hsh, i, _, t, _, hrow, (axis_points havg hp).2 rfl, ?_⟩
    rw [sees_iff, freshRead_eq hi m4 m5 (by rw [m8]; simp) m7]
    exact p2
  · obtain ⟨c, s', S, g1, g2, g3, g4⟩ := gatherAll_at hi hL hser hb (rootParams s) hl (hreads hall)
      (Gath.start model scenario climate)
    rw [List.nil_append] at g2
    have hlen2 : avg.length = target.length + 1 := (extendPoints_ok havg).length
    have hfrom : ∀ z ∈ S, Back env F s target (joinName z.key.2) (joinName z.key.1) z.unit (z.xs.map .num) ∧
        z.xs.length = target.length := by
      intro z hz
      obtain ⟨hzk, hR⟩ := (g4 z).1 hz
      obtain ⟨x, hx, hxz⟩ := List.mem_map.1 hzk
      have hsh : z.key.1.length ≤ 2 := by rw [← hxz]; exact ((rootParams_mem hi.tree x).1 hx).2.2
      obtain ⟨q, P, k1, k2, k3, k4, k5, k6⟩ := id hR
      obtain ⟨it, hit⟩ : ∃ it, (z.key, it) ∈ L := by
        rcases hL.typed _ P _ _ k1 k2 k3 with h | h
        · exact h
        · exact h.elim
      obtain ⟨p', P', a1, a2, a3, a4⟩ := hL.items _ hit
      obtain rfl := a1.inj hi.tree k1
      rw [k2] at a2; cases a2
      cases it with
      | series t' u' tps xs =>
        obtain ⟨i, v, g, hk, hrow⟩ := hrowOf _ _ _ _ _ hit
        obtain ⟨e1, e2, e3, _, e5⟩ := a4
        refine ⟨?_, ?_⟩
        · rw [hk] at hsh ⊢
          simp only [C17_join_split]
          refine hBack.2 ⟨shallow_levels.2 hsh, z.ty, z.xs, rfl, ?_⟩
          rw [← hk]
          exact hR
        · obtain ⟨_, _, e, a, b, c', _, _, _, _, hc', hout⟩ := (freshOf_series a3 e1 e2 e3 e5).1 k6
          have hlen := (C27_converter_length c' _ _).1 hout
          obtain ⟨c1, c2, c3, c4⟩ := mkTSConv_ok hc'
          rw [List.length_map] at hlen
          rw [hlen]
          unfold TSConv.targetLength
          rw [k3] at e1; cases e1
          rw [c2, c3]
          rcases k5 with h | h <;> rw [h] <;> simp [pointsLength, toK, hlen2]
      | scalar u' x =>
        have := a4.1
        rw [k3] at this
        rcases k5 with h | h <;> rw [h] at this <;> cases this
      | generic x =>
        have := a4.1
        rw [k3] at this
        rcases k5 with h | h <;> rw [h] at this <;> cases this
    have hgets : (M.gets rootParams : M K (PyVal K) _) s = (.ok (rootParams s), s) := rfl
    refine ⟨S, fun z hz => (hfrom z hz).1, ?_, ?_, ?_⟩
    · intro v g u vals hB
      obtain ⟨hsh, t, ys, rfl, hR⟩ := hBack.1 hB
      refine ⟨⟨(splitName g, splitName v), t, u, ys⟩, (g4 _).2 ⟨?_, hR⟩, rfl, rfl, rfl⟩
      obtain ⟨_, i, old, p, pts, hrow, _⟩ := hB
      obtain ⟨q, P, r, t, tps0, xs, _, m1, hx, m2, m3, m4, m5, m6, m7, _⟩ := loaded_param h hto hrow
      exact List.mem_map.2 ⟨(splitName v, splitName g, q),
        (rootParams_mem hi.tree _).2 ⟨m4, ⟨P, m5, m7⟩, shallow_levels.1 hsh⟩, rfl⟩
    · rintro rfl
      refine ⟨s', ?_⟩
      unfold convertToFrame
      rw [havg]
      simp only
      rw [M.bind_ok hgets, M.bind_ok g1, if_pos (by rw [g2.data]; rfl)]
      rfl
    · intro hS
      obtain ⟨F', f1, f2, f3, f4, f5, _⟩ := gathered_frame (times := target) g2 fun z hz => (hfrom z hz).2
      have hne : c.data ≠ [] := by
        rw [g2.data]
        simpa using hS
      have hall : ∀ l ∈ c.data, l.length = target.length := by
        rw [g2.data]
        intro l hl
        obtain ⟨z, hz, rfl⟩ := List.mem_map.1 hl
        rw [List.length_map]; exact (hfrom z hz).2
      refine ⟨F', s', ?_, f2, f3, f4, f5⟩
      unfold convertToFrame
      rw [havg]
      simp only
      rw [M.bind_ok hgets, M.bind_ok g1, if_neg hne, if_neg (by simpa using hall), f1]
      rfl

/-! ## C98 -/

/-- C98: converting back on other times succeeds exactly if some timeseries belongs to a region at most one level below
the root and each of these timeseries can be seen on the new times. -/
theorem C98_succeeds {env : Env K} {F : DFrame K} (h : F.Tidy) {s : St K (PyVal K)}
    (hto : toParameterset env F (St.init "World") = (.ok (), s)) {target : List Int}
    (hsort : target.Pairwise (· < ·)) (model scenario climate : String) :
    (∃ F' s', convertToFrame env target model scenario climate s = (.ok F', s')) ↔
      2 ≤ target.length ∧ (∃ i v g u old, F.IsRow i v g u old ∧ Shallow g) ∧
      ∀ i v g u old, F.IsRow i v g u old → Shallow g → ∃ vals, Back env F s target v g u vals := by
  constructor
  · rintro ⟨F', s', hF'⟩
    cases havg : extendPoints target with
    | error e =>
      unfold convertToFrame at hF'
      rw [havg] at hF'
      cases hF'
    | ok avg =>
    obtain ⟨h1, h2⟩ := back_all h hto hsort havg model scenario climate
    have hall := h1.2 (by
      unfold convertToFrame at hF'
      rw [havg] at hF'
      simp only at hF'
      obtain ⟨l, s1, g1, g2⟩ := M.bind_inv hF'
      have g1 : (Except.ok (rootParams s), s) = (Except.ok l, s1) := g1
      cases g1
      obtain ⟨c, s2, g3, _⟩ := M.bind_inv g2
      exact ⟨c, s2, g3⟩)
    obtain ⟨S, b1, b2, b3, b4⟩ := h2 hall
    have hne : S ≠ [] := by
      rintro h0
      obtain ⟨s2, hs2⟩ := b3 h0
      rw [hF'] at hs2
      cases hs2
    obtain ⟨z, hz⟩ := List.exists_mem_of_ne_nil S hne
    obtain ⟨hsh, i, old, _, _, hrow, _⟩ := b1 z hz
    obtain ⟨l', a, b, hl', _⟩ := extendPoints_ok havg
    exact ⟨by rw [hl']; simp, ⟨i, _, _, _, old, hrow, hsh⟩, hall⟩
  · rintro ⟨htwo, ⟨i, v, g, u, old, hrow, hsh⟩, hall⟩
    obtain ⟨avg, havg⟩ := extendPoints_two htwo
    obtain ⟨_, h2⟩ := back_all h hto hsort havg model scenario climate
    obtain ⟨S, b1, b2, b3, b4⟩ := h2 hall
    obtain ⟨vals, hB⟩ := hall i v g u old hrow hsh
    obtain ⟨z, hz, _⟩ := b2 _ _ _ _ hB
    obtain ⟨F', s', e, _⟩ := b4 (List.ne_nil_of_mem hz)
    exact ⟨F', s', e⟩

/-- C98: what is in the frame converted back on other times. -/
theorem C98_back {env : Env K} {F F' : DFrame K} (h : F.Tidy) {s s' : St K (PyVal K)}
    (hto : toParameterset env F (St.init "World") = (.ok (), s)) {target : List Int}
    (hsort : target.Pairwise (· < ·)) {model scenario climate : String}
    (hback : convertToFrame env target model scenario climate s = (.ok F', s')) :
    F'.times = target ∧ ∀ v g u vals, (∃ i, F'.IsRow i v g u vals) ↔ Back env F s target v g u vals := by
  obtain ⟨htwo, _, hall⟩ := (C98_succeeds h hto hsort model scenario climate).1 ⟨F', s', hback⟩
  obtain ⟨avg, havg⟩ := extendPoints_two htwo
  obtain ⟨_, h2⟩ := back_all h hto hsort havg model scenario climate
  obtain ⟨S, b1, b2, b3, b4⟩ := h2 hall
  have hne : S ≠ [] := by
    rintro h0
    obtain ⟨s2, hs2⟩ := b3 h0
    rw [hback] at hs2
    cases hs2
  obtain ⟨F2, s2, e1, e2, e3, e4, e5⟩ := b4 hne
  rw [hback] at e1
  simp only [Prod.mk.injEq, Except.ok.injEq] at e1
  obtain ⟨rfl, rfl⟩ := e1
  refine ⟨e3, fun v g u vals => ⟨?_, ?_⟩⟩
  · rintro ⟨i, hi⟩
    obtain ⟨_, _, _, d, hd, _⟩ := id hi
    have hl : i < S.length := by rw [← e4]; exact (List.getElem?_eq_some_iff.1 hd).1
    have hz := List.getElem?_eq_getElem hl
    obtain ⟨rfl, rfl, rfl, rfl⟩ := IsRow.unique e2 hi (e5 i _ hz).1
    exact b1 _ (List.mem_of_getElem? hz)
  · intro hB
    obtain ⟨z, hz, hk, rfl, rfl⟩ := b2 v g u vals hB
    obtain ⟨i, hi⟩ := List.getElem?_of_mem hz
    have := (e5 i z hi).1
    rw [hk] at this
    simp only [C17_join_split] at this
    exact ⟨i, this⟩

/-- C98: if the frame can be interpolated to other times, then the parameter set made of it can be converted back on
these times, and the result holds exactly the timeseries of the interpolated frame. -/
theorem C98_interpolated {env : Env K} {views : Bool} {F G : DFrame K} (h : F.Plain) (hne : F.data ≠ [])
    (hr : ∀ c ∈ requiredCols, c ∈ F.cols) {s : St K (PyVal K)}
    (hto : toParameterset env F (St.init "World") = (.ok (), s)) {target : List Int} (hsort : target.Pairwise (· < ·))
    (htwo : 2 ≤ target.length) (hG : F.interpolate env.units views target .none = .ok G)
    (hv : views = true ∨ "parameter_type" ∈ F.cols) (model scenario climate : String) :
    ∃ F' s', convertToFrame env target model scenario climate s = (.ok F', s') ∧ F'.times = target ∧
      ∀ v g u vals, (∃ i, F'.IsRow i v g u vals) ↔ ∃ i, G.IsRow i v g u vals := by
  have hT := h.toTidy
  obtain ⟨gok, gt, gl, gm, gd⟩ := C56_placed_partial hT.ok hr hG
  have hkey : ∀ i v g u new, G.IsRow i v g u new → Back env F s target v g u new := by
    intro i v g u new hrow
    obtain ⟨p, pts, p1, p2, p3⟩ := C97_interpolated hT hr hto hG hv hrow
    obtain ⟨n1, n2, n3, dn, n4, n5⟩ := id hrow
    have hlen : i < F.data.length := by
      have := congrArg List.length gl
      simp only [List.length_map] at this
      rw [← this]
      exact (List.getElem?_eq_some_iff.1 n4).1
    have hold := List.getElem?_eq_getElem hlen
    have hrowF : F.IsRow i v g u F.data[i].2 := ⟨(gm i _ _ (by decide)).1 n1, (gm i _ _ (by decide)).1 n2,
      (gm i _ _ (by decide)).1 n3, _, hold, rfl⟩
    exact ⟨h.shallow i g hrowF.2.1, i, _, p, pts, hrowF, p2, p3.1⟩
  have hrows : ∀ i v g u old, F.IsRow i v g u old → ∃ new, G.IsRow i v g u new := by
    rintro i v g u old ⟨o1, o2, o3, d, o4, o5⟩
    obtain ⟨new, n1, _⟩ := gd i d o4
    exact ⟨new.2, (gm i _ _ (by decide)).2 o1, (gm i _ _ (by decide)).2 o2, (gm i _ _ (by decide)).2 o3, _, n1, rfl⟩
  obtain ⟨i0, v0, g0, u0, old0, hrow0⟩ : ∃ i v g u old, F.IsRow i v g u old := by
    obtain ⟨_, L, _, _, _, hex, _⟩ := toParameterset_holds hT.sorted (fun d hd => nums_of (hT.nums d hd)) hT.distinct hto
    obtain ⟨d, hd⟩ := List.exists_mem_of_ne_nil _ hne
    obtain ⟨i, hi⟩ := List.getElem?_of_mem hd
    obtain ⟨e, he⟩ := hex d hd
    obtain ⟨_, v, g, u, _, _, xs, _, hrow, _⟩ := rowItem_at hT.ok hi he
    exact ⟨i, v, g, u, _, hrow⟩
  obtain ⟨F', s', hb⟩ := (C98_succeeds hT hto hsort model scenario climate).2
    ⟨htwo, ⟨i0, v0, g0, u0, old0, hrow0, h.shallow i0 g0 hrow0.2.1⟩, fun i v g u old hrow _ => by
      obtain ⟨new, hnew⟩ := hrows i v g u old hrow
      exact ⟨new, hkey i v g u new hnew⟩⟩
  obtain ⟨e1, e2⟩ := C98_back hT hto hsort hb
  refine ⟨F', s', hb, e1, fun v g u vals => ?_⟩
  rw [e2]
  constructor
  · rintro ⟨_, i, old, p, pts, hrow, hax, hsee⟩
    obtain ⟨new, hnew⟩ := hrows i v g u old hrow
    obtain ⟨p', pts', _, hax', hsee', _⟩ := C97_interpolated hT hr hto hG hv hnew
    obtain ⟨k, pk, src, xs, _, _, _, _, hiff⟩ := C97_loaded hT hto hrow
    obtain ⟨⟨rfl, _⟩, _⟩ := (hiff _ _ _ _ _ _).1 hsee
    obtain ⟨⟨rfl, _⟩, _⟩ := (hiff _ _ _ _ _ _).1 hsee'
    obtain ⟨avg, havg⟩ := extendPoints_two htwo
    have hkind := axis_kind hax
    rw [axis_points havg hkind] at hax hax'
    subst hax; subst hax'
    rw [sees_iff] at hsee hsee'
    rw [hsee] at hsee'
    simp only [Except.ok.injEq, Out.arr.injEq, Arr.floats.injEq] at hsee'
    exact ⟨i, hsee' ▸ hnew⟩
  · rintro ⟨i, hi⟩
    exact hkey i v g u vals hi

/-! ## Examples -/

/-- There, and back on other times. -/
def backOn (F : DFrame ℚ) (target : List Int) : Option (List (List (Fl ℚ))) :=
  match ((do toParameterset demoEnv F; convertToFrame demoEnv target "m" "s" "unspecified") (St.init "World")).1 with
  | .ok F' => some (F'.data.map (·.2))
  | .error _ => none

/-- Hypotheses and effect: points and averages on other times. Outside of the range there is nothing. -/
example : (rtF "World|x").Plain ∧ (toParameterset demoEnv (rtF "World|x") (St.init "World")).1 = .ok () ∧
    ([0, 15, 20, 25] : List Int).Pairwise (· < ·) ∧
    backOn (rtF "World|x") [0, 15, 20, 25] = some [[.num 1, .num (5 / 2), .num 3, .num (7 / 2)],
      [.num (125 / 24), .num (51 / 8), .num (63 / 8), .num (65 / 8)]] ∧
    backOn (rtF "World|x") [0, 15, 31] = none := by
  refine ⟨rtF_plain, by decide +kernel, by decide, by decide +kernel, by decide +kernel⟩

/-- Hypotheses and effect of `C98_interpolated`. -/
example : loadF.data ≠ [] ∧ (∀ c ∈ requiredCols, c ∈ loadF.cols) ∧
    (toParameterset demoEnv loadF (St.init "World")).1 = .ok () ∧
    (loadF.interpolate demoEnv.units true [0, 20, 30] .none).map (fun G => G.data.map (·.2)) =
      .ok [[.num (3 / 2), .num 3, .num 4], [.num (11 / 2), .num 8, .num 7]] ∧
    backOn loadF [0, 20, 30] = some [[.num (3 / 2), .num 3, .num 4], [.num (11 / 2), .num 8, .num 7]] :=
  ⟨by decide +kernel, by decide +kernel, by decide +kernel, by decide +kernel, by decide +kernel⟩

end Openscm
