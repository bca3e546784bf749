import Verif.RoundAdd
import Verif.RoundWalk
import Verif.GuessType

/-!
# What `to_parameterset` stores

Helper file: after `to_parameterset` on a fresh parameter set, the set holds the timeseries of the frame and, in region
`World`, scalar and generic parameters.
-/

set_option linter.unusedSectionVars false

namespace Openscm

variable {K : Type} [Field K] [LinearOrder K] [IsStrictOrderedRing K]

theorem Holds.congr {G : Type} {env : Env K} {s : St K G} {L L' : List (Key × Item K G)} {X : Key → PType → Prop}
    (h : Holds env s L X) (hL : ∀ e, e ∈ L ↔ e ∈ L') : Holds env s L' X := by
  refine ⟨fun e he => h.items e ((hL e).2 he), fun p P k t hk hP ht => ?_, h.leaf⟩
  rcases h.typed p P k t hk hP ht with ⟨it, h'⟩ | h'
  · exact Or.inl ⟨it, (hL _).1 h'⟩
  · exact Or.inr h'

def Item.isSeries {G : Type} : Item K G → Prop
  | .series .. => True
  | _ => False

/-- What is stored for a row of the frame. -/
def RowItem (env : Env K) (F : DFrame K) (d : Nat × List (Fl K)) (e : Key × Item K (PyVal K)) : Prop :=
  ∃ (r : Nat × List (PyVal K)) (v g u : String) (t : PType) (tps : List Int) (xs : List K),
    (F.meta.find? fun r => r.1 = d.1) = some r ∧ seriesNames F.cols r.2 = .ok (v, g, u) ∧
    seriesType env.units F.cols r.2 v u = .ok t ∧ seriesPoints F.times t = .ok tps ∧ d.2 = xs.map .num ∧
    e = ((splitName g, splitName v), .series t u (toK tps) xs)

theorem toK_sorted {l : List Int} (h : l.Pairwise (· < ·)) : (toK l : List K).Pairwise (· < ·) := by
  rw [toK, List.pairwise_map]
  exact h.imp fun hab => Int.cast_lt.2 hab

theorem extendPoints_sorted {l e : List Int} (h : l.Pairwise (· < ·)) (he : extendPoints l = .ok e) :
    e.Pairwise (· < ·) := by
  unfold extendPoints at he
  split at he
  · rename_i b a r hr
    have hl : l = r.reverse ++ [a, b] := by
      rw [← List.reverse_reverse l, hr]; simp
    simp only [Except.ok.injEq] at he
    subst he hl
    rw [List.pairwise_append] at h
    obtain ⟨h1, h2, h3⟩ := h
    have hab : a < b := by simpa using h2
    rw [List.append_assoc, List.pairwise_append]
    refine ⟨h1, ?_, ?_⟩
    · simp; omega
    · intro x hx y hy
      have := h3 x hx b (by simp)
      have := h3 x hx a (by simp)
      simp at hy
      omega
  · simp at he

theorem seriesPoints_sorted {l e : List Int} {t : PType} (h : l.Pairwise (· < ·)) (he : seriesPoints l t = .ok e) :
    e.Pairwise (· < ·) := by
  unfold seriesPoints at he
  split at he
  · exact extendPoints_sorted h he
  · simp only [Except.ok.injEq] at he; subst he; exact h

theorem guessFromName_two {l : List (List String × PType)} (h : ∀ x ∈ l, x.2 = .average ∨ x.2 = .point) (n : String) :
    guessFromName l n = .average ∨ guessFromName l n = .point := by
  induction l with
  | nil => exact Or.inr rfl
  | cons x l ih =>
    obtain ⟨a, t⟩ := x
    simp only [guessFromName]
    split
    · exact h (a, t) List.mem_cons_self
    · exact ih fun y hy => h y (List.mem_cons_of_mem _ hy)

theorem guess_two (reg : Registry K) (v : String) (u : Option String) :
    guessParameterType reg v u = .average ∨ guessParameterType reg v u = .point := by
  have hn := guessFromName_two (l := parameterMatches) (by simp [parameterMatches]) v
  unfold guessParameterType
  split
  · exact hn
  · exact hn
  · split
    · exact hn
    · split <;> simp

theorem seriesType_two {reg : Registry K} {cols : List String} {row : List (PyVal K)} {v u : String} {t : PType}
    (h : seriesType reg cols row v u = .ok t) : t = .average ∨ t = .point := by
  unfold seriesType at h
  split at h
  · split at h
    · exact tyArg_parse h
    · simp at h
  · simp only [Except.ok.injEq] at h
    subst h
    exact guess_two reg v _

/-! ## Timeseries -/

theorem tSet_out {G : Type} {env : Env K} {s s' : St K G} {i : Nat} {a : Arr K} {o : Out K G}
    (h : call env (.tSet i a) s = (.ok o, s')) : result env s (.tSet i a) = .ok .done := by
  have hc : ∃ m : M K G Unit, call env (.tSet i a : Op K G) = (m >>= fun _ => pure Out.done) := ⟨_, rfl⟩
  obtain ⟨m, hc⟩ := hc
  unfold result
  rw [hc] at h ⊢
  obtain ⟨_, s1, h1, h2⟩ := M.bind_inv h
  rw [M.bind_ok h1]; rfl

theorem addSeries_ok {env : Env K} {F : DFrame K} {d : Nat × List (Fl K)} {s s' : St K (PyVal K)}
    (hs : Reachable env s) {L : List (Key × Item K (PyVal K))} (hL : Holds env s L (fun _ _ => False))
    (hT : F.times.Pairwise (· < ·)) (hd : ∃ xs : List K, d.2 = xs.map .num)
    (hnew : ∀ e, RowItem env F d e → ∀ e' ∈ L, e'.1 ≠ e.1) (h : addSeries env F d s = (.ok (), s')) :
    Reachable env s' ∧ ∃ e, RowItem env F d e ∧ Holds env s' (e :: L) (fun _ _ => False) := by
  obtain ⟨xs, hxs⟩ := hd
  unfold addSeries at h
  cases hr : (F.meta.find? fun r => r.1 = d.1) with
  | none => rw [hr] at h; simp [M.throw] at h
  | some r =>
    rw [hr] at h; simp only at h
    cases hn : seriesNames F.cols r.2 with
    | error e => rw [hn] at h; simp [M.throw] at h
    | ok x =>
      obtain ⟨v, g, u⟩ := x
      rw [hn] at h; simp only at h
      cases ht : seriesType env.units F.cols r.2 v u with
      | error e => rw [ht] at h; simp [M.throw] at h
      | ok t =>
        rw [ht] at h; simp only at h
        cases hp : seriesPoints F.times t with
        | error e => rw [hp] at h; simp [M.throw] at h
        | ok tps =>
          rw [hp] at h; simp only at h
          obtain ⟨o, s1, h1, h2⟩ := M.bind_inv h
          cases o with
          | view i =>
            simp only at h2
            obtain ⟨o', s2, h3, h4⟩ := M.bind_inv h2
            have h5 : s2 = s' := (Prod.mk.inj h4).2
            subst h5
            have hrow : RowItem env F d ((splitName g, splitName v), .series t u (toK tps) xs) :=
              ⟨r, v, g, u, t, tps, xs, hr, hn, ht, hp, hxs, rfl⟩
            have hold := hnew _ hrow
            have hr1 : result env s (.timeseries (.str v) u (toK tps) (.str g) (.enum t) (.enum .linear)
                (.enum .none)) = .ok (.view i) := by unfold result; rw [h1]
            have e1 : s1 = (call env (.timeseries (.str v) u (toK tps) (.str g) (.enum t) (.enum .linear)
                (.enum .none)) s).2 := by rw [h1]
            have hr2 := tSet_out h3
            have e2 : s2 = (call env (.tSet i (.floats d.2)) s1).2 := by rw [h3]
            rw [hxs] at hr2 e2
            subst e1
            have H := series_added hs hL (name := .str v) (region := .str g)
              (toK_sorted (seriesPoints_sorted hT hp)) (fun it hit => hold _ hit rfl) hr1 hr2
            rw [← e2] at H
            refine ⟨?_, _, hrow, ?_⟩
            · rw [e2]; exact (hs.call _).call _
            · refine H.congr fun e => ?_
              simp only [putItem, List.mem_cons, List.mem_filter, decide_eq_true_eq]
              refine or_congr Iff.rfl (and_iff_left_of_imp fun he => hold e he)
          | _ => simp [M.throw] at h2

theorem addAllSeries_ok {env : Env K} {F : DFrame K} {ds : List (Nat × List (Fl K))} {s s' : St K (PyVal K)}
    (hs : Reachable env s) {L : List (Key × Item K (PyVal K))} (hL : Holds env s L (fun _ _ => False))
    (hT : F.times.Pairwise (· < ·)) (hd : ∀ d ∈ ds, ∃ xs : List K, d.2 = xs.map .num)
    (hu : ds.Pairwise fun d d' => ∀ e e', RowItem env F d e → RowItem env F d' e' → e.1 ≠ e'.1)
    (hnew : ∀ d ∈ ds, ∀ e, RowItem env F d e → ∀ e' ∈ L, e'.1 ≠ e.1)
    (h : addAllSeries env F ds s = (.ok (), s')) :
    Reachable env s' ∧ ∃ L', Holds env s' L' (fun _ _ => False) ∧
      (∀ e, e ∈ L' ↔ e ∈ L ∨ ∃ d ∈ ds, RowItem env F d e) ∧ ∀ d ∈ ds, ∃ e, RowItem env F d e := by
  induction ds generalizing s L with
  | nil =>
    have : s = s' := (Prod.mk.inj h).2
    subst this
    exact ⟨hs, L, hL, by simp, by simp⟩
  | cons d ds ih =>
    simp only [addAllSeries] at h
    obtain ⟨_, s1, h1, h2⟩ := M.bind_inv h
    obtain ⟨hs1, e, he, H⟩ := addSeries_ok hs hL hT (hd d List.mem_cons_self) (hnew d List.mem_cons_self) h1
    rw [List.pairwise_cons] at hu
    obtain ⟨hs2, L', H', hm, hex⟩ := ih hs1 H (fun d' hd' => hd d' (List.mem_cons_of_mem _ hd')) hu.2 (by
      intro d' hd' e' he' e'' he''
      rcases List.mem_cons.1 he'' with rfl | he''
      · exact hu.1 d' hd' _ _ he he'
      · exact hnew d' (List.mem_cons_of_mem _ hd') e' he' e'' he'') h2
    have huniq : ∀ e', RowItem env F d e' → e' = e := by
      rintro e' ⟨r', v', g', u', t', tps', xs', a1, a2, a3, a4, a5, rfl⟩
      obtain ⟨r, v, g, u, t, tps, xs, b1, b2, b3, b4, b5, rfl⟩ := he
      rw [a1] at b1; cases b1
      rw [a2] at b2; cases b2
      rw [a3] at b3; cases b3
      rw [a4] at b4; cases b4
      rw [a5] at b5
      have : xs' = xs := List.map_injective_iff.2 (fun a b hab => by cases hab; rfl) b5
      rw [this]
    refine ⟨hs2, L', H', fun e' => ?_, ?_⟩
    · rw [hm]
      simp only [List.mem_cons, exists_eq_or_imp]
      constructor
      · rintro ((rfl | h') | h')
        · exact Or.inr (Or.inl he)
        · exact Or.inl h'
        · exact Or.inr (Or.inr h')
      · rintro (h' | h' | h')
        · exact Or.inl (Or.inr h')
        · exact Or.inl (Or.inl (huniq _ h'))
        · exact Or.inr h'
    · intro d' hd'
      rcases List.mem_cons.1 hd' with rfl | hd'
      · exact ⟨e, he⟩
      · exact hex d' hd'

/-! ## Metadata -/

/-- A parameter of another type is not requested. -/
theorem request_kind {G : Type} {env : Env K} {s : St K G} (hs : Reachable env s) {L : List (Key × Item K G)}
    {X : Key → PType → Prop} (hL : Holds env s L X) {op : Op K G} {name region : HName} {t : PType} {o : Out K G}
    (hop : request op = some (name, region)) (hask : asks op = some t) (h : result env s op = .ok o)
    {it : Item K G} (hit : ((region.parts, name.parts), it) ∈ L) :
    ∃ P : Param K G, P.ptype = some t ∧ it.In env P := by
  obtain ⟨p, P, h1, h2, _, h4⟩ := hL.items _ hit
  refine ⟨P, ?_, h4⟩
  have ht := h4.typed
  cases hP : P.ptype with
  | none => exact absurd hP ht
  | some t' =>
    by_contra hne
    have := C03_other_type_refused hs hop hask ((infoAt_some hs.inv.tree).2 ⟨p, P, h1, h2, rfl⟩)
      (t := t') hP (fun e => hne (by rw [e]))
    unfold result at h
    rw [this] at h
    simp at h

/-- Entries for metadata. -/
def MetaEntry (e : Key × Item K (PyVal K)) : Prop :=
  e.1.1 = worldName ∧
  ((∃ u x, e.2 = .scalar u x) ∨ ∃ g c, e.2 = .generic g ∧ e.1.2 = splitName c ∧ c ∉ seriesCols)

/-- What is stored for a column of metadata. -/
def MetaFor (env : Env K) (c : String × PyVal K) (e : Key × Item K (PyVal K)) : Prop :=
  (scalarKey c.1 = none ∧ e = ((worldName, splitName c.1), .generic c.2)) ∨
  ∃ n u x u' x', scalarKey c.1 = some (n, u) ∧ c.2.number = .ok x ∧ e = ((worldName, splitName n), .scalar u' x') ∧
    ∃ cv, mkConv env.units u' u = .ok cv ∧ x'.map cv.convertFrom = x

def Item.kind {G : Type} : Item K G → Nat
  | .series .. => 0
  | .scalar .. => 1
  | .generic .. => 2

theorem sSet_out {G : Type} {env : Env K} {s s' : St K G} {i : Nat} {a : Fl K} {o : Out K G}
    (h : call env (.sSet i a) s = (.ok o, s')) : result env s (.sSet i a) = .ok .done := by
  have hc : ∃ m : M K G Unit, call env (.sSet i a : Op K G) = (m >>= fun _ => pure Out.done) := ⟨_, rfl⟩
  obtain ⟨m, hc⟩ := hc
  unfold result
  rw [hc] at h ⊢
  obtain ⟨_, s1, h1, h2⟩ := M.bind_inv h
  rw [M.bind_ok h1]; rfl

theorem gSet_out {G : Type} {env : Env K} {s s' : St K G} {i : Nat} {a : G} {o : Out K G}
    (h : call env (.gSet i a) s = (.ok o, s')) : result env s (.gSet i a) = .ok .done := by
  have hc : ∃ m : M K G Unit, call env (.gSet i a : Op K G) = (m >>= fun _ => pure Out.done) := ⟨_, rfl⟩
  obtain ⟨m, hc⟩ := hc
  unfold result
  rw [hc] at h ⊢
  obtain ⟨_, s1, h1, h2⟩ := M.bind_inv h
  rw [M.bind_ok h1]; rfl

theorem addMeta_ok {env : Env K} {c : String × PyVal K} {s s' : St K (PyVal K)} (hs : Reachable env s)
    {L : List (Key × Item K (PyVal K))} (hL : Holds env s L (fun _ _ => False)) (hc : c.1 ∉ seriesCols)
    (hser : ∀ e ∈ L, ∀ t u tps xs, e.2 = .series t u tps xs → t = .average ∨ t = .point)
    (h : addMeta env c s = (.ok (), s')) :
    Reachable env s' ∧ ∃ e, MetaEntry e ∧ Holds env s' (putItem e.1 e.2 L) (fun _ _ => False) ∧
      (∀ it, (e.1, it) ∈ L → it.kind = e.2.kind) ∧ MetaFor env c e ∧
      ∀ u x, e.2 = .scalar u x → (∃ x0, (e.1, .scalar u x0) ∈ L) ∨ ∃ n, scalarKey c.1 = some (n, u) ∧
        e.1 = (worldName, splitName n) := by
  unfold addMeta at h
  cases hk : scalarKey c.1 with
  | some nu =>
    obtain ⟨n, u⟩ := nu
    rw [hk] at h; simp only at h
    obtain ⟨o, s1, h1, h2⟩ := M.bind_inv h
    cases o with
    | view i =>
      cases hx : c.2.number with
      | error e => rw [hx] at h2; simp [M.throw] at h2
      | ok x =>
        rw [hx] at h2; simp only at h2
        obtain ⟨o', s2, h3, h4⟩ := M.bind_inv h2
        have h5 : s2 = s' := (Prod.mk.inj h4).2
        subst h5
        have hr1 : result env s (.scalar (.str n) u (.seq worldName)) = .ok (.view i) := by unfold result; rw [h1]
        have e1 : s1 = (call env (.scalar (.str n) u (.seq worldName)) s).2 := by rw [h1]
        have hr2 := sSet_out h3
        have e2 : s2 = (call env (.sSet i x) s1).2 := by rw [h3]
        subst e1
        obtain ⟨u', x', H, hcv, hou, hnu⟩ := scalar_added hs hL hr1 hr2
        rw [← e2] at H
        have hkind : ∀ it, ((worldName, splitName n), it) ∈ L → it.kind = 1 := by
          intro it he'
          obtain ⟨P, p1, p2⟩ := request_kind hs hL (op := .scalar (.str n) u (.seq worldName)) rfl rfl hr1 he'
          cases it with
          | series t u tps xs =>
            have := p2.1
            rw [p1] at this; cases this
            rcases hser _ he' _ _ _ _ rfl with h' | h' <;> cases h'
          | scalar u x => rfl
          | generic g =>
            have := p2.1
            rw [p1] at this; cases this
        refine ⟨by rw [e2]; exact (hs.call _).call _,
          ((worldName, splitName n), .scalar u' x'), ⟨rfl, Or.inl ⟨_, _, rfl⟩⟩, H, hkind,
          Or.inr ⟨n, u, x, u', x', hk, hx, rfl, hcv⟩, ?_⟩
        intro u1 x1 he
        cases he
        by_cases hin : ∃ it, ((worldName, splitName n), it) ∈ L
        · obtain ⟨it, hit⟩ := hin
          have := hkind it hit
          cases it with
          | scalar u0 x0 =>
            obtain rfl := hou u0 x0 hit
            exact Or.inl ⟨x0, hit⟩
          | series t u tps xs => simp [Item.kind] at this
          | generic g => simp [Item.kind] at this
        · obtain rfl := hnu fun it hit => hin ⟨it, hit⟩
          exact Or.inr ⟨n, rfl, rfl⟩
    | _ => simp [M.throw] at h2
  | none =>
    rw [hk] at h; simp only at h
    obtain ⟨o, s1, h1, h2⟩ := M.bind_inv h
    cases o with
    | view i =>
      simp only at h2
      obtain ⟨o', s2, h3, h4⟩ := M.bind_inv h2
      have h5 : s2 = s' := (Prod.mk.inj h4).2
      subst h5
      have hr1 : result env s (.generic (.str c.1) (.seq worldName)) = .ok (.view i) := by unfold result; rw [h1]
      have e1 : s1 = (call env (.generic (.str c.1) (.seq worldName)) s).2 := by rw [h1]
      have hr2 := gSet_out h3
      have e2 : s2 = (call env (.gSet i c.2) s1).2 := by rw [h3]
      subst e1
      have H := generic_added hs hL hr1 hr2
      rw [← e2] at H
      refine ⟨by rw [e2]; exact (hs.call _).call _,
        ((worldName, splitName c.1), .generic c.2), ⟨rfl, Or.inr ⟨_, _, rfl, rfl, hc⟩⟩, H, ?_, Or.inl ⟨hk, rfl⟩, by simp⟩
      intro it he'
      obtain ⟨P, p1, p2⟩ := request_kind hs hL (op := .generic (.str c.1) (.seq worldName)) rfl rfl hr1 he'
      cases it with
      | series t u tps xs =>
        have := p2.1
        rw [p1] at this; cases this
        rcases hser _ he' _ _ _ _ rfl with h' | h' <;> cases h'
      | scalar u x =>
        have := p2.1
        rw [p1] at this; cases this
      | generic g => rfl
    | _ => simp [M.throw] at h2

theorem addAllMeta_ok {env : Env K} {cs : List (String × PyVal K)} {s s' : St K (PyVal K)} (hs : Reachable env s)
    {L : List (Key × Item K (PyVal K))} (hL : Holds env s L (fun _ _ => False)) (hc : ∀ c ∈ cs, c.1 ∉ seriesCols)
    (hser : ∀ e ∈ L, ∀ t u tps xs, e.2 = .series t u tps xs → t = .average ∨ t = .point)
    (h : addAllMeta env cs s = (.ok (), s')) :
    Reachable env s' ∧ ∃ L', Holds env s' L' (fun _ _ => False) ∧
      (∀ e, e.2.isSeries → (e ∈ L' ↔ e ∈ L)) ∧ (∀ e ∈ L', e ∈ L ∨ MetaEntry e ∧ ∃ c ∈ cs, MetaFor env c e) ∧
      (∀ e ∈ L, (∀ c ∈ cs, ∀ e', MetaFor env c e' → e'.1 = e.1 → e'.2.kind ≠ e.2.kind) → e ∈ L') ∧
      (∀ cs1 c cs2, cs = cs1 ++ c :: cs2 → (∀ c' ∈ cs2, ∀ e e', MetaFor env c e → MetaFor env c' e' → e'.1 = e.1 →
        e'.2.kind ≠ e.2.kind) → ∃ e ∈ L', MetaFor env c e) ∧
      ∀ k u x, (k, .scalar u x) ∈ L' → (∃ x0, (k, .scalar u x0) ∈ L) ∨ ∃ c ∈ cs, ∃ n, scalarKey c.1 = some (n, u) ∧
        k = (worldName, splitName n) := by
  induction cs generalizing s L with
  | nil =>
    have : s = s' := (Prod.mk.inj h).2
    subst this
    exact ⟨hs, L, hL, by simp, fun e he => Or.inl he, fun e he _ => he, by simp, fun k u x h => Or.inl ⟨x, h⟩⟩
  | cons c cs ih =>
    simp only [addAllMeta] at h
    obtain ⟨_, s1, h1, h2⟩ := M.bind_inv h
    obtain ⟨hs1, e, he, H, hk, hfor, hun⟩ := addMeta_ok hs hL (hc c List.mem_cons_self) hser h1
    have hin : ∀ e', e' ∈ putItem e.1 e.2 L ↔ e' = e ∨ e' ∈ L ∧ e'.1 ≠ e.1 := by
      intro e'
      simp only [putItem, List.mem_cons, List.mem_filter, decide_eq_true_eq]
    have hnot : ¬ e.2.isSeries := by
      rcases he.2 with ⟨u, x, h'⟩ | ⟨g, c', h', _⟩ <;> rw [h'] <;> exact id
    have hkn : e.2.kind ≠ 0 := by
      rcases he.2 with ⟨u, x, h'⟩ | ⟨g, c', h', _⟩ <;> rw [h'] <;> simp [Item.kind]
    obtain ⟨hs2, L', H', ha, hb, hkeep, hfind, hunit⟩ := ih hs1 H (fun d hd => hc d (List.mem_cons_of_mem _ hd)) (by
      intro e' he' t u tps xs h'
      rcases (hin e').1 he' with rfl | ⟨h'', _⟩
      · exact absurd (by rw [h']; trivial) hnot
      · exact hser e' h'' t u tps xs h') h2
    refine ⟨hs2, L', H', fun e' hse => ?_, fun e' he' => ?_, fun e' he' hcs => ?_, ?_, ?_⟩
    · rw [ha e' hse, hin]
      constructor
      · rintro (rfl | h')
        · exact absurd hse hnot
        · exact h'.1
      · intro h'
        refine Or.inr ⟨h', fun heq => ?_⟩
        have := hk e'.2 (heq ▸ h')
        obtain ⟨k', it⟩ := e'
        cases it with
        | series t u tps xs => exact hkn this.symm
        | _ => exact hse
    · rcases hb e' he' with h' | ⟨h', d, hd, h''⟩
      · rcases (hin e').1 h' with rfl | h'
        · exact Or.inr ⟨he, c, List.mem_cons_self, hfor⟩
        · exact Or.inl h'.1
      · exact Or.inr ⟨h', d, List.mem_cons_of_mem _ hd, h''⟩
    · refine hkeep e' ((hin e').2 (Or.inr ⟨he', fun heq => ?_⟩)) fun d hd => hcs d (List.mem_cons_of_mem _ hd)
      exact hcs c List.mem_cons_self e hfor heq.symm (hk e'.2 (heq ▸ he')).symm
    · rintro cs1 d cs2 heq hlater
      cases cs1 with
      | nil =>
        simp only [List.nil_append, List.cons.injEq] at heq
        obtain ⟨rfl, rfl⟩ := heq
        exact ⟨e, hkeep e ((hin e).2 (Or.inl rfl)) fun d hd e' he' => hlater d hd e e' hfor he', hfor⟩
      | cons a cs1 =>
        simp only [List.cons_append, List.cons.injEq] at heq
        exact hfind cs1 d cs2 heq.2 hlater
    · intro k u x hm
      rcases hunit k u x hm with ⟨x0, h'⟩ | ⟨d, hd, h'⟩
      · rcases (hin _).1 h' with heq | ⟨h', _⟩
        · subst heq
          rcases hun u x0 rfl with ⟨x1, h''⟩ | h''
          · exact Or.inl ⟨x1, h''⟩
          · exact Or.inr ⟨c, List.mem_cons_self, h''⟩
        · exact Or.inl ⟨x0, h'⟩
      · exact Or.inr ⟨d, List.mem_cons_of_mem _ hd, h'⟩

theorem commonMeta_cols {F : DFrame K} {ms : List (String × PyVal K)} (h : F.commonMeta = .ok ms) :
    ∀ c ∈ ms, c.1 ∉ seriesCols := by
  unfold DFrame.commonMeta at h
  simp only at h
  intro c hc
  split at h
  · simp at h
  · split at h
    · simp at h
    · split at h
      · simp at h
      · split at h
        · simp at h
        · simp only [Except.ok.injEq] at h
          subst h
          have := (List.of_mem_zip (a := c.1) (b := c.2) hc).1
          simpa using (List.mem_filter.1 this).2

/-- What the parameter set holds after `to_parameterset`. -/
theorem toParameterset_holds {env : Env K} {F : DFrame K} {s' : St K (PyVal K)}
    (hT : F.times.Pairwise (· < ·)) (hd : ∀ d ∈ F.data, ∃ xs : List K, d.2 = xs.map .num)
    (hu : F.data.Pairwise fun d d' => ∀ e e', RowItem env F d e → RowItem env F d' e' → e.1 ≠ e'.1)
    (h : toParameterset env F (St.init "World") = (.ok (), s')) :
    Reachable env s' ∧ ∃ L, Holds env s' L (fun _ _ => False) ∧
      (∀ e, e.2.isSeries → (e ∈ L ↔ ∃ d ∈ F.data, RowItem env F d e)) ∧
      (∀ e ∈ L, ¬ e.2.isSeries → MetaEntry e) ∧ (∀ d ∈ F.data, ∃ e, RowItem env F d e) ∧
      ∃ ms, F.commonMeta = .ok ms ∧ (∀ e ∈ L, ¬ e.2.isSeries → ∃ c ∈ ms, MetaFor env c e) ∧
        (∀ ms1 c ms2, ms = ms1 ++ c :: ms2 → (∀ c' ∈ ms2, ∀ e e', MetaFor env c e → MetaFor env c' e' →
          e'.1 = e.1 → e'.2.kind ≠ e.2.kind) → ∃ e ∈ L, MetaFor env c e) ∧
        ∀ k u x, (k, .scalar u x) ∈ L → ∃ c ∈ ms, ∃ n, scalarKey c.1 = some (n, u) ∧ k = (worldName, splitName n) := by
  unfold toParameterset at h
  cases hm : F.commonMeta with
  | error e => rw [hm] at h; simp [M.throw] at h
  | ok ms =>
    rw [hm] at h; simp only at h
    obtain ⟨_, s1, h1, h2⟩ := M.bind_inv h
    have hs : Reachable env (St.init "World" : St K (PyVal K)) := ⟨"World", [], rfl⟩
    obtain ⟨hs1, L, H, ha, hex⟩ := addAllSeries_ok hs (Holds.init env "World") hT hd hu (by simp) h1
    have hser : ∀ e ∈ L, e.2.isSeries := by
      intro e he
      rcases (ha e).1 he with h' | ⟨d, _, r, v, g, u, t, tps, xs, _, _, _, _, _, rfl⟩
      · simp at h'
      · trivial
    obtain ⟨hs2, L', H', hb, hc, _, hfind, hunit⟩ := addAllMeta_ok hs1 H (commonMeta_cols hm) (by
      intro e he t u tps xs h'
      rcases (ha e).1 he with h'' | ⟨d, _, r, v, g, u, t, tps, xs, _, _, h3, _, _, rfl⟩
      · simp at h''
      · simp only [Item.series.injEq] at h'
        rw [← h'.1]; exact seriesType_two h3) h2
    refine ⟨hs2, L', H', fun e he => ?_, fun e he hns => ?_, hex, ms, rfl, fun e he hns => ?_, hfind, ?_⟩
    · rw [hb e he, ha e]; simp
    · rcases hc e he with h' | h'
      · exact absurd (hser e h') hns
      · exact h'.1
    · rcases hc e he with h' | h'
      · exact absurd (hser e h') hns
      · exact h'.2
    · intro k u x hm
      rcases hunit k u x hm with ⟨x0, h'⟩ | h'
      · exact (hser _ h').elim
      · exact h'

end Openscm
