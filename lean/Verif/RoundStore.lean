import Verif.RoundTrip
import Verif.CoreKids
import Verif.CoreProps3
import Verif.CoreProps5
import Verif.FreshRead

/-!
# What a parameter set holds after `to_parameterset`

Helper file. `Holds env s L` lists the parameters of `s`: what is stored for each key of `L`, no other parameter has a
type, and every childless parameter has one.
-/

set_option linter.unusedSectionVars false

namespace Openscm

variable {K G : Type} [Field K] [LinearOrder K] [IsStrictOrderedRing K]

/-- What is stored for a parameter. -/
inductive Item (K G : Type)
  | series (ty : PType) (unit : String) (tps xs : List K)
  | scalar (unit : String) (x : Fl K)
  | generic (g : G)

/-- `P` stores the item. -/
def Item.In (env : Env K) (P : Param K G) : Item K G → Prop
  | .series ty unit tps xs => P.ptype = some ty ∧ P.unit = some unit ∧ P.tps = some tps ∧
      freshOf env P unit tps (.enum ty) (.enum .linear) (.enum .none) = .ok (.arr (.floats (xs.map .num))) ∧
      P.data = .series (xs.map .num)
  | .scalar unit x => P.ptype = some .scalar ∧ P.unit = some unit ∧
      ∃ c y, mkConv env.units unit unit = .ok c ∧ P.data = .scalar y ∧ y.map c.convertFrom = x
  | .generic g => P.ptype = some .generic ∧ P.data = .generic (some g)

theorem Item.In.typed {env : Env K} {P : Param K G} {it : Item K G} (h : it.In env P) : P.ptype ≠ none := by
  cases it <;> simp only [Item.In] at h <;> rw [h.1] <;> simp

theorem Item.In.mono {env : Env K} {P P' : Param K G} {it : Item K G} (hle : PLe P P') (hd : P'.data = P.data)
    (hw : P'.written = P.written) (h : it.In env P) : it.In env P' := by
  have ht := h.typed
  cases it with
  | series ty unit tps xs =>
    obtain ⟨h1, h2, h3, h4, h5⟩ := h
    have e1 := hle.ptype _ h1
    have e2 := hle.unit ht
    have e3 := hle.tps _ h3
    refine ⟨e1, e2.trans h2, e3, ?_, hd.trans h5⟩
    rw [← h4]
    exact freshOf_congr (e1.trans h1.symm) e2 (fun _ => e3.trans h3.symm) hw hd _ _ _ _ _
  | scalar unit x =>
    obtain ⟨h1, h2, c, y, h3, h4, h5⟩ := h
    exact ⟨hle.ptype _ h1, (hle.unit ht).trans h2, c, y, h3, hd.trans h4, h5⟩
  | generic g =>
    obtain ⟨h1, h2⟩ := h
    exact ⟨hle.ptype _ h1, hd.trans h2⟩

/-- What the parameter set holds: the items `L`; besides, parameters of the kinds `X` may have a type. -/
structure Holds (env : Env K) (s : St K G) (L : List (Key × Item K G)) (X : Key → PType → Prop) : Prop where
  items : ∀ e ∈ L, ∃ (p : Nat) (P : Param K G), HasKey s p e.1 ∧ s.params[p]? = some P ∧ P.written = true ∧
    e.2.In env P
  typed : ∀ (p : Nat) (P : Param K G) (k : Key) (t : PType), HasKey s p k → s.params[p]? = some P →
    P.ptype = some t → (∃ it, (k, it) ∈ L) ∨ X k t
  leaf : ∀ (p : Nat) (P : Param K G), s.params[p]? = some P → P.children = [] → P.ptype ≠ none

theorem Holds.init (env : Env K) (root : String) : Holds env (St.init root : St K G) [] (fun _ _ => False) := by
  refine ⟨by simp, ?_, ?_⟩ <;> intro p P <;> simp [St.init]

/-- The effect of a successful request. -/
theorem request_parts {env : Env K} {s : St K G} (hi : Inv env s) {op : Op K G} {name region : HName} {t : PType}
    {o : Out K G} (hop : request op = some (name, region)) (hask : asks op = some t)
    (hok : result env s op = .ok o) :
    ∃ p s1 P', HasKey s1 p (region.parts, name.parts) ∧ TypeFr s s1 ∧ P'.ptype = some t ∧
      (∀ q, s.params[q]? = none → ∀ k, HasKey s1 q k → k.1 = region.parts ∧ k.2 <+: name.parts) ∧
      Inv env s1 ∧ PExt s s1 ∧ RExt s s1 ∧ PExt s1 (call env op s).2 ∧ RExt s1 (call env op s).2 ∧
      (call env op s).2.params = (s1.setParam p (fun _ => P')).params := by
  obtain ⟨_, f, hfp, hf⟩ := request_bind (env := env) hop hask
  unfold result at hok
  rw [hf] at hok ⊢
  have hsp := reach_spec hi name region
  have hfr := typeFr_reach name region s
  have hq := quiet_reach env name region s
  cases hr : reach name region s with
  | mk r s1 =>
    rw [hr] at hsp hfr hq
    simp only at hsp hfr hq
    cases r with
    | error e => rw [M.bind_error hr] at hok; simp at hok
    | ok p =>
      rw [M.bind_ok hr] at hok ⊢
      have hqa : Quiet env (attemptRead p t (asksUnit op) (asksPoints op) : M K G Unit) := by
        apply quiet_attemptRead
        cases op <;> simp only [Openscm.request, reduceCtorEq] at hop
        · simp only [asks, Option.some.injEq] at hask; subst hask
          exact Or.inr ⟨by simp, rfl⟩
        · refine Or.inr ⟨?_, rfl⟩
          rintro rfl
          simp only [asks] at hask
          split at hask
          · rename_i htt _ _
            simp only [Option.some.injEq] at hask; subst hask
            rcases tyArg_parse htt with h | h <;> cases h
          · simp at hask
        · simp only [asks, Option.some.injEq] at hask; subst hask
          exact Or.inl ⟨rfl, rfl⟩
      have hqs := hqa s1
      rcases hsp with ⟨_, h', _⟩ | ⟨_, _, ⟨h', _⟩ | ⟨p', h1, h2, h3⟩⟩
      · simp at h'
      · simp at h'
      · simp only [Except.ok.injEq] at h1; subst h1
        cases ha : attemptRead p t (asksUnit op) (asksPoints op) s1 with
        | mk r2 s2 =>
          rw [ha] at hqs
          simp only at hqs
          cases r2 with
          | error e => rw [M.bind_error ha] at hok; simp at hok
          | ok u =>
            rw [M.bind_ok ha]
            obtain ⟨P, P', _, h5, h6, _⟩ := attemptRead_ok ha
            obtain ⟨g1, g2⟩ := hfp p s2
            have hi1 := hq.inv hi
            refine ⟨p, s1, P', h2, hfr, h6, h3, hi1, hq.pext hi, hq.rext,
              (hqs.pext hi1).trans (.of_eq g1), hqs.rext.trans (.of_eq g2), ?_⟩
            rw [g1, h5]

theorem Holds.request {env : Env K} {s : St K G} (hi : Inv env s) {L : List (Key × Item K G)} {X : Key → PType → Prop}
    (h : Holds env s L X) {op : Op K G} {name region : HName} {t : PType} {o : Out K G}
    (hop : request op = some (name, region)) (hask : asks op = some t) (hok : result env s op = .ok o) :
    Holds env (call env op s).2 L (fun k' t' => X k' t' ∨ k' = (region.parts, name.parts) ∧ t' = t) := by
  obtain ⟨p, s1, P', h1, h2, h3, h4, hi1, hx, hr, hx', hr', h5⟩ := request_parts hi hop hask hok
  have hi' := call_inv op hi
  have hpx := call_pext op hi
  have hrx := call_rext op hi
  have hgrow := request_grows env op _ hop s hi
  have hself : ∀ Q, (call env op s).2.params[p]? = some Q → Q = P' := by
    intro Q hQ
    obtain ⟨Q1, hQ1, _⟩ := h1
    rw [h5, setParam_self, hQ1] at hQ
    simpa using hQ.symm
  have hother : ∀ q Q, q ≠ p → (call env op s).2.params[q]? = some Q → s1.params[q]? = some Q := by
    intro q Q hq hQ
    rw [h5, setParam_ne _ _ (Ne.symm hq)] at hQ
    exact hQ
  refine ⟨?_, ?_, ?_⟩
  · intro e he
    obtain ⟨q, Q, k1, k2, k3, k4⟩ := h.items e he
    obtain ⟨Q', q1, q2⟩ := hpx q Q k2
    obtain ⟨Q'', q3, q4, _, q5⟩ := hgrow.old q Q k2
    rw [q1] at q3; cases q3
    exact ⟨q, Q', k1.mono hpx hrx, q1, q4.trans k3, k4.mono q2 (q5 k4.typed) q4⟩
  · intro q Q k t' hk hQ ht'
    by_cases hqp : q = p
    · subst hqp
      have := hself Q hQ
      subst this
      rw [h3] at ht'
      refine Or.inr (Or.inr ⟨hk.det (h1.mono hx' hr'), by simpa using ht'.symm⟩)
    · have hQ1 := hother q Q hqp hQ
      rcases h2 q Q hQ1 with h0 | ⟨Q0, h0, h0'⟩
      · rw [h0] at ht'; simp at ht'
      · obtain ⟨k0, hk0⟩ := HasKey.exists hi.tree h0
        have := (hk0.mono hpx hrx).det hk
        subst this
        rcases h.typed q Q0 k0 t' hk0 h0 (h0'.trans ht') with h | h
        · exact Or.inl h
        · exact Or.inr (Or.inl h)
  · intro q Q hQ hc
    by_cases hqp : q = p
    · subst hqp
      rw [hself Q hQ, h3]; simp
    · have hQ1 := hother q Q hqp hQ
      cases h0 : s.params[q]? with
      | some Q0 =>
        obtain ⟨Q', q1, q2⟩ := hpx q Q0 h0
        rw [hQ] at q1; cases q1
        have hc0 : Q0.children = [] := by
          rw [List.eq_nil_iff_forall_not_mem]
          intro c hcm
          have := q2.children c hcm
          rw [hc] at this; simp at this
        obtain ⟨t0, ht0⟩ := Option.ne_none_iff_exists'.1 (h.leaf q Q0 h0 hc0)
        rw [q2.ptype t0 ht0]; simp
      | none =>
        exfalso
        obtain ⟨k, hk⟩ := HasKey.exists hi1.tree hQ1
        obtain ⟨e1, e2⟩ := h4 q h0 k hk
        obtain ⟨rest, hrest⟩ := e2
        cases rest with
        | nil =>
          have : k = (region.parts, name.parts) := Prod.ext e1 (by simpa using hrest)
          subst this
          exact hqp (hk.inj hi1.tree h1)
        | cons n ns =>
          obtain ⟨c, hc'⟩ := HasKey.prefix hi1.tree h1 (b' := k.2 ++ [n]) ⟨ns, by simpa using hrest⟩ (by simp)
          rw [← e1] at hc'
          have := (child_key hi1.tree hk hQ1 n c).1 hc'
          rw [hc] at this; simp at this

/-- Calls on a view of a parameter that is not among the items. -/
theorem Holds.other {env : Env K} {s : St K G} (hi : Inv env s) {L : List (Key × Item K G)} {X : Key → PType → Prop}
    (h : Holds env s L X) {op : Op K G} {r : VRef} {k : Key} (hr : callee op = some r)
    (hk : viewKey env s r = some k) :
    Holds env (call env op s).2 (L.filter fun e => e.1 ≠ k) (fun k' t' => X k' t' ∨ k' = k ∧
      ∃ p P, HasKey s p k ∧ s.params[p]? = some P ∧ P.ptype = some t') := by
  obtain ⟨p, hp, hf, hq⟩ := call_other hi hr hk
  have hpx := call_pext op hi
  have hrx := call_rext op hi
  obtain ⟨p', u, h1, h2⟩ := (viewKey_some hi).1 hk
  obtain rfl := h2.inj hi.tree hp
  obtain ⟨P, hP, _, hPt⟩ := viewTarget_param hi h1
  obtain ⟨P', hP', hle⟩ := hpx _ P hP
  obtain ⟨t0, ht0⟩ := Option.ne_none_iff_exists'.1 hPt
  refine ⟨?_, ?_, ?_⟩
  · intro e he
    obtain ⟨he, hne⟩ := List.mem_filter.1 he
    obtain ⟨q, Q, k1, k2, k3, k4⟩ := h.items e he
    exact ⟨q, Q, k1.mono hpx hrx, (hq q e.1 k1 (by simpa using hne)).trans k2, k3, k4⟩
  · intro q Q k' t' hk' hQ ht'
    by_cases hqp : q = p'
    · subst hqp
      rw [hP'] at hQ; cases hQ
      rw [hle.ptype _ ht0] at ht'
      exact Or.inr (Or.inr ⟨hk'.det (hp.mono hpx hrx), q, P, hp, hP, by rw [ht0]; exact ht'⟩)
    · have hQ0 := (hf.params q hqp).symm.trans hQ
      obtain ⟨k0, hk0⟩ := HasKey.exists hi.tree hQ0
      have := (hk0.mono hpx hrx).det hk'
      subst this
      rcases h.typed q Q k0 t' hk0 hQ0 ht' with ⟨it, h⟩ | h
      · refine Or.inl ⟨it, List.mem_filter.2 ⟨h, ?_⟩⟩
        have : k0 ≠ k := by rintro rfl; exact hqp (hk0.inj hi.tree hp)
        simpa using this
      · exact Or.inr (Or.inl h)
  · intro q Q hQ hc
    by_cases hqp : q = p'
    · subst hqp
      rw [hP'] at hQ; cases hQ
      rw [hle.ptype _ ht0]; simp
    · exact h.leaf q Q ((hf.params q hqp).symm.trans hQ) hc

end Openscm
