import Verif.CoreProps10
import Verif.TimeProps3

/-!
# C85: the options of a view mean what they say

What is assigned through one view on the stored time points, seen through another view on any time
points, in any unit and with any extrapolation option, given by name or as member of the enum.
-/

set_option linter.unusedSectionVars false

namespace Openscm
variable {K G : Type} [Field K] [LinearOrder K] [IsStrictOrderedRing K]

/-! ## Lemma -/

/-- `C12_exchange` with a reading view on any time points. -/
theorem exchange {env : Env K} {root : String} {pre post : List (Op K G)} {req : Op K G}
    {k : Key} {tps : List K} (hfirst : FirstRequest env root pre k req)
    (htps : asksPoints req = some tps) (hsort : tps.Pairwise (· < ·))
    {i : Nat} {n1 r1 : HName} {w1 : String} {ty1 : TyArg} {in1 : IntArg} {ex1 : ExtArg}
    (h1 : Obtained env root pre i (.timeseries n1 w1 tps r1 ty1 in1 ex1))
    (hk1 : k = (r1.parts, n1.parts))
    {xs : List K} (hx : 3 ≤ xs.length)
    (hne : versionAt env (after env (St.init root) (pre ++ [.tSet i (.floats (xs.map .num))])) k
      ≠ versionAt env (after env (St.init root) pre) k)
    {j : Nat} {n2 r2 : HName} {w2 : String} {ty2 : TyArg} {in2 : IntArg} {ex2 : ExtArg}
    {tps2 : List K}
    (h2 : result env (after env (St.init root) (pre ++ .tSet i (.floats (xs.map .num)) :: post))
      (.timeseries n2 w2 tps2 r2 ty2 in2 ex2) = .ok (.view j))
    (hk2 : k = (r2.parts, n2.parts))
    (hver : versionAt env (after env (St.init root)
        (pre ++ .tSet i (.floats (xs.map .num)) :: post ++ [.timeseries n2 w2 tps2 r2 ty2 in2 ex2])) k
      = versionAt env (after env (St.init root) (pre ++ [.tSet i (.floats (xs.map .num))])) k) :
    ∃ a b t e, env.units w1 = some a ∧ env.units w2 = some b ∧ ty2.parse = .ok t ∧ ex2.parse = .ok e ∧
      (t = .point ∨ t = .average) ∧ pointsLength t tps = xs.length ∧
      result env (after env (St.init root)
        (pre ++ .tSet i (.floats (xs.map .num)) :: post ++ [.timeseries n2 w2 tps2 r2 ty2 in2 ex2]))
        (.tGet j) = (convertNum t e tps tps2 (xs.map (pintTo a b))).map fun r => .arr (.floats r) := by
  set wr : Op K G := .tSet i (.floats (xs.map .num)) with hwr
  set op2 : Op K G := .timeseries n2 w2 tps2 r2 ty2 in2 ex2 with hop2
  -- the three states
  have hi0 := after_inv (K := K) (G := G) pre (Inv.init env root)
  obtain ⟨v1, hv1, hkv1, ht1, hts1⟩ := obtained_view h1
  rw [← hk1] at hkv1
  have happ1 : after env (St.init root : St K G) (pre ++ [wr]) = after env (after env (St.init root) pre) [wr] := by
    rw [after_append]
  have happ2 : after env (St.init root : St K G) (pre ++ wr :: post ++ [op2])
      = after env (after env (St.init root) (pre ++ [wr])) (post ++ [op2]) := by
    rw [← after_append]; simp
  have happ3 : after env (St.init root : St K G) (pre ++ wr :: post ++ [op2])
      = (call env op2 (after env (St.init root) (pre ++ wr :: post))).2 := by
    rw [after_append, after_one]
  -- stored time points
  obtain ⟨P0, hp0, _⟩ := id hkv1
  have hP0 : P0.tps = some tps := by
    obtain ⟨a, b, i', name, region, t, rfl, e1, rfl, e3, e4, e5⟩ := hfirst
    obtain ⟨p, P, g1, g2, g3, g4, g5⟩ := C04_first_view ⟨root, a, rfl⟩ e1 e3 e4 e5
    have hi1 := after_inv (K := K) (G := G) [req] (after_inv a (Inv.init env root))
    have : after env (St.init root : St K G) (a ++ req :: b)
        = after env (after env (after env (St.init root) a) [req]) b := by
      rw [← after_append, ← after_append]; simp
    rw [this] at hp0 hkv1 hi0
    have hk' := after_key hi1 b g1
    obtain rfl := hk'.inj hi0.tree hkv1
    obtain ⟨P', hP', hle⟩ := after_pext b hi1 _ P g2
    rw [hp0] at hP'; cases hP'
    exact hle.tps _ (g5.trans htps)
  -- the write
  have hvk : viewKey env (after env (St.init root) pre) (.t i) = some k :=
    (viewKey_some hi0).2 ⟨_, _, by simp only [viewTarget, hv1]; rfl, hkv1⟩
  rw [happ1] at hne hver happ2
  obtain ⟨P1, hp1, hle1⟩ := after_pext [wr] hi0 _ P0 hp0
  have hi1 := after_inv [wr] hi0
  have hkw := after_key hi0 [wr] hkv1
  obtain ⟨v, d, hv, hkv, hW, hd, _⟩ := wrote_of_version hi0 (op := wr) rfl hvk hne
  rw [hv1] at hv; cases hv
  have hdv : d.vals = xs.map .num := hd _ rfl
  have hwritten : P1.written = true := by
    have hv' := hne
    rw [after_one] at hv' hp1
    rw [versionAt_of hi0.tree hkv1 hp0, versionAt_of (call_inv wr hi0).tree
      (by have := hkw; rwa [after_one] at this) hp1] at hv'
    obtain ⟨o, ho, _⟩ := version_changed hi0 (op := wr) rfl hv1 hp0 hp1 (by simpa using hv')
    have hdone : result env (after env (St.init root) pre) wr = .ok .done := by
      unfold result
      rw [ho]
      have := ho
      rw [hwr, tSet_eq] at this
      have h1 := this
      simp only at h1
      cases hq : (setValues i (.floats (xs.map .num)) (after env (St.init root : St K G) pre)).1 with
      | error e => rw [hq] at h1; exact absurd h1 (by simp [Except.map])
      | ok x => rw [hq] at h1; exact h1.symm
    obtain ⟨I, hI, he⟩ := C05_assigned ⟨root, pre, rfl⟩ (op := wr)
      (Or.inr (Or.inr ⟨i, _, rfl, rfl⟩)) hvk hdone
    obtain ⟨p, P, q1, q2, rfl⟩ := (infoAt_some hi1.tree).1 hI
    obtain rfl := q1.inj hi1.tree hkw
    rw [after_one, hp1] at q2; cases q2
    simpa using he
  obtain ⟨u1, Q1, l, m1, m2, m3, m4, m5, m6⟩ := hW
  obtain ⟨u', hu', hst⟩ := after_tview hi0 [wr] hv1
  rw [m1] at hu'; cases hu'
  have hs : u1.leaf.stat = v1.leaf.stat := congrArg Prod.fst hst
  simp only [TLeaf.stat, Prod.mk.injEq] at hs
  obtain ⟨s1, s2, s3⟩ := hs
  rw [s1, hp1] at m3; cases m3
  -- the second view
  have hi2 := after_inv (K := K) (G := G) (pre ++ wr :: post) (Inv.init env root)
  obtain ⟨p, v2, ty', int', ext', hpt, _, hpe, hkp, hv2, hmk⟩ := timeseries_ok hi2 h2
  rw [← hk2, ← hop2, ← happ3] at hkp
  rw [← hop2, ← happ3] at hv2 hmk
  have hi3 := after_inv (K := K) (G := G) (pre ++ wr :: post ++ [op2]) (Inv.init env root)
  rw [happ2] at hkp hv2 hmk hi3 hver ⊢
  obtain rfl := (after_key hi1 (post ++ [op2]) hkw).inj hi3.tree hkp
  obtain ⟨P2, hp2, hle2⟩ := after_pext (post ++ [op2]) hi1 _ P1 hp1
  rw [versionAt_of hi1.tree hkw hp1, versionAt_of hi3.tree hkp hp2] at hver
  have hty1 : P1.ptype ≠ none := by
    obtain ⟨Q, hQ, hQt, _⟩ := (hi1.good.tviews i u1 m1).ex
    rw [s1, hp1] at hQ; cases hQ; simp [hQt]
  have hdata := after_data hi1 hp1 hty1 hp2 (by simpa using hver)
  have hch : P2.children = [] := ((hi3.good.params _ P2 hp2).1 (hle2.written hwritten)).1
  have hl2 : v2.leaf.param = v1.leaf.param ∧ v2.leaf.data = none ∧ v2.leaf.conv.target = w2 ∧
      v2.leaf.ts.target = tps2 ∧ v2.leaf.ts.ty = ty' ∧ v2.leaf.ts.ext = ext' := by
    unfold mkTView at hmk
    rw [hp2] at hmk
    simp only [hch, if_true] at hmk
    split at hmk
    · simp at hmk
    · rename_i l2 hl2
      injection hmk with hmk; subst hmk
      have hl3 := hl2
      obtain ⟨q1, q2, _⟩ := mkTLeaf_tps hl3
      refine ⟨q1, q2, ?_⟩
      unfold mkTLeaf at hl2
      rw [hp2] at hl2
      simp only at hl2
      split at hl2
      · simp at hl2
      · rename_i c hc
        split at hl2
        · simp at hl2
        · split at hl2
          · simp at hl2
          · rename_i t ht
            injection hl2 with hl2
            rw [← hl2]
            exact ⟨(mkConvOpt_ok hc).choose_spec.2.2, (mkTSConv_ok ht).2⟩
  obtain ⟨q1, q2, q3, q4, q5, q6⟩ := hl2
  -- what both views know about the parameter
  have hg1 := (hi1.good.tviews i u1 m1).leaf
  have hg2 := (hi3.good.tviews j v2 hv2).leaf
  obtain ⟨A, ua, ta, a1, a2, a3, a4, a5, a6, a7, _⟩ := hg1.ex
  rw [s1, hp1] at a1; cases a1
  obtain ⟨B, ub, tb, b1, b2, b3, b4, b5, b6, b7, _⟩ := hg2.ex
  rw [q1, hp2] at b1; cases b1
  have hu : ub = ua := by
    have := hle2.unit hty1
    rw [b3, a3] at this; simpa using this
  subst hu
  have hta : ta = tps := by
    have := hle1.tps _ hP0
    rw [a5] at this; simpa using this
  subst hta
  have htb : tb = ta := by
    have := hle2.tps _ a5
    rw [b5] at this; simpa using this
  subst htb
  obtain ⟨x, y, hx1, hy1, hxy⟩ := conv_between a4 b4
  rw [s2, ht1] at hx1
  rw [q3] at hy1
  -- what is stored
  have hlen1 := hg1.len d m2
  have htarget1 : u1.leaf.ts.target = tb := by rw [s3]; exact hts1
  have hdl : d.length = xs.length := by
    have : d.vals.length = d.length := by cases d <;> simp [Arr.vals, Arr.length]
    rw [← this, hdv]; simp
  have hpub : l = (xs.map u1.leaf.conv.convertTo).map .num := by
    unfold published at m6
    rw [hdv] at m6
    have e : (xs.map Fl.num).map (Fl.map u1.leaf.conv.convertTo)
        = (xs.map u1.leaf.conv.convertTo).map .num := by
      simp [List.map_map, Function.comp_def, Fl.map]
    rw [e, (C22_converter_identity _ _ (by simpa using hx) (by rw [a6, htarget1])
      (hg1.ty.symm) (by rw [← hlen1, hdl]; simp) (by rw [htarget1]; exact hsort)).2] at m6
    injection m6 with m6; exact m6.symm
  -- what is read
  have hty12 : v2.leaf.ts.ty = u1.leaf.ts.ty := by
    obtain ⟨Q, hQ, hQt, _⟩ := (hi1.good.tviews i u1 m1).ex
    rw [s1, hp1] at hQ; cases hQ
    obtain ⟨Q', hQ', hQt', _⟩ := (hi3.good.tviews j v2 hv2).ex
    rw [q1, hp2] at hQ'; cases hQ'
    have := hle2.ptype _ hQt
    rw [hQt'] at this; simpa using this
  have hlent : pointsLength ty' tb = xs.length := by
    have : u1.leaf.ts.targetLength = xs.length := by rw [← hlen1, hdl]
    unfold TSConv.targetLength at this
    rw [← q5, hty12, ← htarget1, this]
  have htyc : ty' = .point ∨ ty' = .average := by rw [← q5]; exact hg2.ty.symm
  refine ⟨x, y, ty', ext', hx1, hy1, hpt, hpe, htyc, hlent, ?_⟩
  have hvals : leafValues (after env (after env (after env (St.init root) pre) [wr]) (post ++ [op2]))
      v2.leaf = convertNum ty' ext' tb tps2 (xs.map (pintTo x y)) := by
    unfold leafValues
    rw [q1, hp2]
    simp only [hch, ne_eq, not_true_eq_false, if_false, hle2.written hwritten, Bool.not_true,
      Bool.false_eq_true, hdata, m5]
    have e : l.map (Fl.map v2.leaf.conv.convertFrom) = (xs.map (pintTo x y)).map .num := by
      rw [hpub]
      simp only [List.map_map, Function.comp_def, Fl.map, hxy]
    rw [e]
    unfold TSConv.convertFrom convert
    rw [Fl.allNum_map_num]
    simp only [q5, q6, b6, q4]
  have hc : Cache (after env (after env (after env (St.init root) pre) [wr]) (post ++ [op2])) j
      (fun _ => False) := ⟨v2, P2, hv2, by rw [q1]; exact hp2, Or.inl q2⟩
  unfold result
  rw [tGet_eq hv2]
  rcases hc.read hv2 (by rw [q1]; exact hp2) hch with ⟨l', v', e1, e2, e3, _⟩ | ⟨_, h, _⟩ | ⟨e, e1, e2⟩
  · rw [hvals] at e1
    rw [e2, e1]
    simp only [shown, e3, Except.map]
  · exact h.elim
  · rw [hvals] at e1
    rw [e2, e1]
    simp only [shown, Except.map]

/-! ## Specification -/

/-- The extrapolation options by name, in any letter case, or as member of the enum. -/
def MeansExt : ExtArg → Extrap → Prop
  | .enum t, e => t = e
  | .str s, .none => AnyCase s "none"
  | .str s, .constant => AnyCase s "constant"
  | .str s, .linear => AnyCase s "linear"

/-- The types of timeseries by name or as member of the enum. -/
def MeansType : TyArg → PType → Prop
  | .enum t, t' => t = t' ∧ (t = .point ∨ t = .average)
  | .str s, .point => AnyCase s "point"
  | .str s, .average => AnyCase s "average"
  | .str _, _ => False

/-- The only interpolation option. -/
def MeansInt : IntArg → Prop
  | .enum _ => True
  | .str s => AnyCase s "linear"

/-- The point `(x, y)` lies on the line through the `i`-th and the next of the points
`(src, ys)`. -/
def OnLine (src ys : List K) (i : Nat) (x y : K) : Prop :=
  ∃ a b p q, src[i]? = some a ∧ src[i + 1]? = some b ∧ ys[i]? = some p ∧ ys[i + 1]? = some q ∧
    y = p + (q - p) * ((x - a) / (b - a))

/-- `y` is what the points `(src, ys)` say about time `x`: on the line between two neighbouring
points, and outside of the range as the option says. -/
structure Says (e : Extrap) (src ys : List K) (x y : K) : Prop where
  inside : ∀ i a b, src[i]? = some a → src[i + 1]? = some b → a ≤ x → x ≤ b → OnLine src ys i x y
  before : ∀ a, src.head? = some a → x < a →
    (e = .constant ∧ ys.head? = some y) ∨ (e = .linear ∧ OnLine src ys 0 x y)
  behind : ∀ b, src.getLast? = some b → b < x →
    (e = .constant ∧ ys.getLast? = some y) ∨ (e = .linear ∧ OnLine src ys (src.length - 2) x y)

/-- Time `x` lies outside of the range of the time points. -/
def Outside (src : List K) (x : K) : Prop :=
  (∃ a, src.head? = some a ∧ x < a) ∨ ∃ b, src.getLast? = some b ∧ b < x

/-! ## Names -/

theorem toUpper_toNat' (c : Char) : c.toUpper.toNat
    = if 97 ≤ c.toNat ∧ c.toNat ≤ 122 then c.toNat - 32 else c.toNat := by
  split
  · rename_i h; exact toUpper_toNat h
  · rename_i h
    unfold Char.toUpper
    have h' : ¬ ('a'.val ≤ c.val ∧ c.val ≤ 'z'.val) := by
      simp only [UInt32.le_iff_toNat_le]; exact h
    rw [dif_neg h']

theorem toUpper_iff {c d : Char} (hd : 97 ≤ d.toNat ∧ d.toNat ≤ 122) :
    c.toUpper = d.toUpper ↔ c = d ∨ c = d.toUpper := by
  rw [char_eq_iff, char_eq_iff, char_eq_iff, toUpper_toNat', toUpper_toNat hd]
  split <;> omega

theorem toUpper_anyCase {s w : String} (hw : ∀ d ∈ w.toList, 97 ≤ d.toNat ∧ d.toNat ≤ 122) :
    s.toUpper = w.toUpper ↔ AnyCase s w := by
  rw [← String.toList_inj]
  unfold String.toUpper AnyCase
  rw [String.toList_map, String.toList_map]
  generalize w.toList = b at *
  generalize s.toList = a
  induction a generalizing b with
  | nil => cases b <;> simp
  | cons c a ih =>
    cases b with
    | nil => simp
    | cons d b =>
      simp only [List.map_cons, List.cons.injEq, List.forall₂_cons]
      rw [ih b (fun d hd => hw d (by simp [hd])), toUpper_iff (hw d (by simp))]

theorem anyCase_upper {s w u : String} (hw : ∀ d ∈ w.toList, 97 ≤ d.toNat ∧ d.toNat ≤ 122)
    (hu : w.toUpper = u) : AnyCase s w ↔ s.toUpper = u := by
  rw [← hu]; exact (toUpper_anyCase hw).symm

theorem parse_ext {a : ExtArg} {e : Extrap} : a.parse = .ok e ↔ MeansExt a e := by
  cases a with
  | enum t => simp [ExtArg.parse, MeansExt]
  | str s =>
    have h1 : AnyCase s "none" ↔ s.toUpper = "NONE" := anyCase_upper (by decide) (by decide +kernel)
    have h2 : AnyCase s "constant" ↔ s.toUpper = "CONSTANT" := anyCase_upper (by decide) (by decide +kernel)
    have h3 : AnyCase s "linear" ↔ s.toUpper = "LINEAR" := anyCase_upper (by decide) (by decide +kernel)
    cases e <;> simp only [ExtArg.parse, MeansExt, h1, h2, h3] <;>
      by_cases e1 : s.toUpper = "NONE" <;> by_cases e2 : s.toUpper = "CONSTANT" <;>
      by_cases e3 : s.toUpper = "LINEAR" <;> simp_all

theorem parse_type {a : TyArg} {t : PType} : a.parse = .ok t ↔ MeansType a t := by
  rw [C31_accepted]
  cases a with
  | enum u => cases u <;> cases t <;> simp [MeansType]
  | str s => cases t <;> simp [MeansType]

theorem parse_int {a : IntArg} : (∃ i, a.parse = .ok i) ↔ MeansInt a := by
  cases a with
  | enum t => exact ⟨fun _ => trivial, fun _ => ⟨t, rfl⟩⟩
  | str s =>
    have h3 : AnyCase s "linear" ↔ s.toUpper = "LINEAR" := anyCase_upper (by decide) (by decide +kernel)
    simp only [IntArg.parse, MeansInt, h3]
    by_cases e3 : s.toUpper = "LINEAR"
    · exact ⟨fun _ => e3, fun _ => ⟨.linear, by rw [if_pos e3]⟩⟩
    · simp [e3]

/-- **C85**, "anything else is refused": a request with an option that is none of these names is
refused, with `ValueError` for the type and `KeyError` for the others, and nothing changes. -/
theorem C85_refused {env : Env K} {s : St K G} {name region : HName} {w : String} {tps : List K}
    {ty : TyArg} {int : IntArg} {ext : ExtArg}
    (h : (¬ ∃ t, MeansType ty t) ∨ ¬ MeansInt int ∨ ¬ ∃ e, MeansExt ext e) :
    ∃ e, call env (.timeseries name w tps region ty int ext) s = (.error e, s) ∧
      ((¬ ∃ t, MeansType ty t) → e = .valueError) ∧ ((∃ t, MeansType ty t) → e = .keyError) := by
  have hc : call env (.timeseries name w tps region ty int ext) s
      = (timeseriesCall env name w tps region ty int ext >>= fun i => pure (Out.view i : Out K G)) s :=
    rfl
  rw [hc]
  unfold timeseriesCall
  cases h1 : ty.parse with
  | error e =>
    have : e = .valueError := C31_refused h1
    subst this
    have hn : ¬ ∃ t, MeansType ty t := fun ⟨t, ht⟩ => by rw [← parse_type, h1] at ht; simp at ht
    exact ⟨.valueError, rfl, fun _ => rfl, fun ht => absurd ht hn⟩
  | ok t =>
    have hn : ∃ t, MeansType ty t := ⟨t, parse_type.1 h1⟩
    cases h2 : int.parse with
    | error e =>
      have : e = .keyError := by
        cases int with
        | enum t => simp [IntArg.parse] at h2
        | str s => simp only [IntArg.parse] at h2; split at h2 <;> simp at h2; exact h2.symm
      subst this
      exact ⟨.keyError, rfl, fun ht => absurd hn ht, fun _ => rfl⟩
    | ok i =>
      cases h3 : ext.parse with
      | error e =>
        have : e = .keyError := by
          cases ext with
          | enum t => simp [ExtArg.parse] at h3
          | str s =>
            simp only [ExtArg.parse] at h3
            split at h3 <;> [simp at h3; split at h3 <;> [simp at h3; split at h3 <;> simp at h3]]
            exact h3.symm
        subst this
        exact ⟨.keyError, rfl, fun ht => absurd hn ht, fun _ => rfl⟩
      | ok e =>
        exfalso
        rcases h with h | h | h
        · exact h ⟨t, parse_type.1 h1⟩
        · exact h (parse_int.1 ⟨i, h2⟩)
        · exact h ⟨e, parse_ext.1 h3⟩

/-- **C85**, "however they are spelled": requests whose options mean the same do the same. -/
theorem C85_spelling {env : Env K} {s : St K G} {name region : HName} {w : String} {tps : List K}
    {ty ty' : TyArg} {int int' : IntArg} {ext ext' : ExtArg} {t : PType} {e : Extrap}
    (h1 : MeansType ty t) (h1' : MeansType ty' t) (h2 : MeansInt int) (h2' : MeansInt int')
    (h3 : MeansExt ext e) (h3' : MeansExt ext' e) :
    call env (.timeseries name w tps region ty int ext) s
      = call env (.timeseries name w tps region ty' int' ext') s := by
  have hc : ∀ ty int ext, call env (.timeseries name w tps region ty int ext) s
      = (timeseriesCall env name w tps region ty int ext >>= fun i => pure (Out.view i : Out K G)) s :=
    fun _ _ _ => rfl
  rw [hc, hc]
  unfold timeseriesCall
  obtain ⟨i, hi⟩ := parse_int.2 h2
  obtain ⟨i', hi'⟩ := parse_int.2 h2'
  rw [parse_type.2 h1, parse_type.2 h1', parse_ext.2 h3, parse_ext.2 h3', hi, hi']

/-! ## What the view shows -/

theorem outside_iff {src : List K} (h : 0 < src.length) {x : K} :
    Outside src x ↔ x < src[0] ∨ src[src.length - 1] < x := by
  unfold Outside
  rw [List.head?_eq_getElem?, List.getLast?_eq_getElem?, List.getElem?_eq_getElem h,
    List.getElem?_eq_getElem (by omega)]
  simp

theorem onLine_of {src ys : List K} {i : Nat} {x : K} (h1 : i + 1 < src.length)
    (h2 : src.length = ys.length) :
    OnLine src ys i x (ys[i] + (ys[i + 1] - ys[i]) * ((x - src[i]) / (src[i + 1] - src[i]))) :=
  ⟨src[i], src[i + 1], ys[i], ys[i + 1], List.getElem?_eq_getElem _, List.getElem?_eq_getElem _,
    List.getElem?_eq_getElem _, List.getElem?_eq_getElem _, rfl⟩

theorem says_of {e : Extrap} {src tgt ys : List K} {r : List (Fl K)} (h3 : 3 ≤ ys.length)
    (hl : src.length = ys.length) (hsrc : src.Pairwise (· < ·))
    (h : convertNum .point e src tgt ys = .ok r) {j : Nat} {x : K} (hj : tgt[j]? = some x) :
    ∃ y, r[j]? = some (.num y) ∧ Says e src ys x y := by
  obtain ⟨hjl, rfl⟩ := List.getElem?_eq_some_iff.1 hj
  have h' := convertNum_point_ok h3 hl hsrc h
  obtain ⟨y, hy, hr⟩ := evalAll_getElem h' j hjl
  have hrj : r[j]? = some (.num y) := by
    rw [List.getElem?_eq_getElem (by rw [evalAll_length h']; exact hjl), hr]
  refine ⟨y, hrj, ?_, ?_, ?_⟩
  · intro i a b ha hb h1 h2
    obtain ⟨hia, rfl⟩ := List.getElem?_eq_some_iff.1 ha
    obtain ⟨hib, rfl⟩ := List.getElem?_eq_some_iff.1 hb
    have := C24_segment e src tgt ys r h3 hl hsrc h i j hib hjl h1 h2
    rw [hrj] at this
    injection this with this; injection this with this
    rw [this]
    exact onLine_of hib hl
  · intro a ha hx
    rw [List.head?_eq_getElem?] at ha
    obtain ⟨h0, rfl⟩ := List.getElem?_eq_some_iff.1 ha
    cases e with
    | none =>
      exfalso
      have := (C26_none_error_iff src tgt ys h3 hl hsrc).2 ⟨_, List.getElem_mem hjl, Or.inl hx⟩
      rw [h] at this; simp at this
    | constant =>
      have := (C26_constant src tgt ys r h3 hl hsrc h j hjl).1 hx
      rw [hrj] at this
      injection this with this; injection this with this
      exact Or.inl ⟨rfl, by rw [this, List.head?_eq_getElem?, List.getElem?_eq_getElem]⟩
    | linear =>
      have hlt : src[0] < src[1] := List.pairwise_iff_getElem.1 hsrc 0 1 _ _ (by omega)
      have := (C26_linear src tgt ys r h3 hl hsrc h j hjl).1 (hx.trans hlt).le
      rw [hrj] at this
      injection this with this; injection this with this
      rw [this]
      exact Or.inr ⟨rfl, onLine_of (by omega) hl⟩
  · intro b hb hx
    rw [List.getLast?_eq_getElem?] at hb
    obtain ⟨h0, rfl⟩ := List.getElem?_eq_some_iff.1 hb
    cases e with
    | none =>
      exfalso
      have := (C26_none_error_iff src tgt ys h3 hl hsrc).2 ⟨_, List.getElem_mem hjl, Or.inr hx⟩
      rw [h] at this; simp at this
    | constant =>
      have := (C26_constant src tgt ys r h3 hl hsrc h j hjl).2 hx
      rw [hrj] at this
      injection this with this; injection this with this
      exact Or.inl ⟨rfl, by rw [this, List.getLast?_eq_getElem?, List.getElem?_eq_getElem]⟩
    | linear =>
      have hlt : src[src.length - 2] < src[src.length - 1] :=
        List.pairwise_iff_getElem.1 hsrc _ _ _ _ (by omega)
      have := (C26_linear src tgt ys r h3 hl hsrc h j hjl).2 (hlt.trans hx).le
      rw [hrj] at this
      injection this with this; injection this with this
      have e1 : src[src.length - 1]? = src[src.length - 2 + 1]? := by congr 1; omega
      have e2 : ys[ys.length - 1]? = ys[src.length - 2 + 1]? := by congr 1; omega
      have e3 : ys[ys.length - 2]? = ys[src.length - 2]? := by congr 1; omega
      refine Or.inr ⟨rfl, src[src.length - 2], src[src.length - 1], ys[ys.length - 2],
        ys[ys.length - 1], List.getElem?_eq_getElem _, ?_, ?_, ?_, this⟩
      · rw [← e1]; exact List.getElem?_eq_getElem _
      · rw [← e3]; exact List.getElem?_eq_getElem _
      · rw [← e2]; exact List.getElem?_eq_getElem _

section
variable {env : Env K} {root : String} {pre post : List (Op K G)} {req : Op K G}
    {k : Key} {tps : List K} (hfirst : FirstRequest env root pre k req)
    (htps : asksPoints req = some tps) (hsort : tps.Pairwise (· < ·))
    {i : Nat} {n1 r1 : HName} {w1 : String} {ty1 : TyArg} {in1 : IntArg} {ex1 : ExtArg}
    (h1 : Obtained env root pre i (.timeseries n1 w1 tps r1 ty1 in1 ex1))
    (hk1 : k = (r1.parts, n1.parts))
    {xs : List K} (hx : 3 ≤ xs.length)
    (hne : versionAt env (after env (St.init root) (pre ++ [.tSet i (.floats (xs.map .num))])) k
      ≠ versionAt env (after env (St.init root) pre) k)
    {j : Nat} {n2 r2 : HName} {w2 : String} {ty2 : TyArg} {in2 : IntArg} {ex2 : ExtArg}
    {tps2 : List K}
    (h2 : result env (after env (St.init root) (pre ++ .tSet i (.floats (xs.map .num)) :: post))
      (.timeseries n2 w2 tps2 r2 ty2 in2 ex2) = .ok (.view j))
    (hk2 : k = (r2.parts, n2.parts))
    (hver : versionAt env (after env (St.init root)
        (pre ++ .tSet i (.floats (xs.map .num)) :: post ++ [.timeseries n2 w2 tps2 r2 ty2 in2 ex2])) k
      = versionAt env (after env (St.init root) (pre ++ [.tSet i (.floats (xs.map .num))])) k)
include hfirst htps hsort h1 hk1 hx hne h2 hk2 hver

/-- **C85** for points: what is assigned through a view on the time points the parameter is stored
on, seen through a view with any time points, obtained later, in any unit and with any extrapolation
option: the assigned values, converted as pint does, on the lines between them, and outside of their
range as the option says. Reading fails exactly when a time lies outside and the option is "none",
with `InsufficientDataError`. -/
theorem C85_point (hty : MeansType ty2 .point) {e : Extrap} (hext : MeansExt ex2 e) :
    ∃ a b, env.units w1 = some a ∧ env.units w2 = some b ∧
      let out := result env (after env (St.init root)
        (pre ++ .tSet i (.floats (xs.map .num)) :: post ++ [.timeseries n2 w2 tps2 r2 ty2 in2 ex2]))
        (.tGet j)
      ((e = .none ∧ ∃ x ∈ tps2, Outside tps x) → out = .error .insufficientData) ∧
      (¬ (e = .none ∧ ∃ x ∈ tps2, Outside tps x) →
        ∃ r, out = .ok (.arr (.floats r)) ∧ r.length = tps2.length ∧
          ∀ (n : Nat) (x : K), tps2[n]? = some x →
            ∃ y, r[n]? = some (.num y) ∧ Says e tps (xs.map (pintTo a b)) x y) := by
  obtain ⟨a, b, t, e', ha, hb, ht, he, _, hlen, hres⟩ :=
    exchange hfirst htps hsort h1 hk1 hx hne h2 hk2 hver
  rw [parse_type.2 hty] at ht
  injection ht with ht; subst ht
  rw [parse_ext.2 hext] at he
  injection he with he; subst he
  refine ⟨a, b, ha, hb, ?_, ?_⟩
  all_goals
    set ys := xs.map (pintTo a b) with hys
    have h3 : 3 ≤ ys.length := by rw [hys, List.length_map]; exact hx
    have hl : tps.length = ys.length := by
      rw [hys, List.length_map, ← hlen]; rfl
    have hout : (∃ x ∈ tps2, Outside tps x) ↔ ∃ x ∈ tps2, x < tps[0] ∨ tps[tps.length - 1] < x := by
      constructor
      · rintro ⟨x, hx, ho⟩; exact ⟨x, hx, (outside_iff (by omega)).1 ho⟩
      · rintro ⟨x, hx, ho⟩; exact ⟨x, hx, (outside_iff (by omega)).2 ho⟩
  · rintro ⟨rfl, ho⟩
    rw [hres, (C26_none_error_iff tps tps2 ys h3 hl hsort).2 (hout.1 ho)]
    rfl
  · intro hno
    have hok : ∃ r, convertNum .point e tps tps2 ys = .ok r := by
      by_cases hn : e = .none
      · subst hn
        cases hq : convertNum .point .none tps tps2 ys with
        | ok r => exact ⟨r, rfl⟩
        | error er =>
          exfalso
          have : er = .insufficientData := by
            rw [convertNum_point h3 hl hsort] at hq
            revert hq
            cases evalAll .none (ys.headD 0) (ys.getLastD 0) (tps.zip ys) tps2 <;>
              simp [toInsufficient, eq_comm]
          subst this
          exact hno ⟨rfl, hout.2 ((C26_none_error_iff tps tps2 ys h3 hl hsort).1 hq)⟩
      · obtain ⟨l, hl', _⟩ := C26_extrapolation_never_fails e hn tps tps2 ys h3 hl hsort
        exact ⟨_, hl'⟩
    obtain ⟨r, hr⟩ := hok
    refine ⟨r, by rw [hres, hr]; rfl, evalAll_length (convertNum_point_ok h3 hl hsort hr), ?_⟩
    intro n x hn
    exact says_of h3 hl hsort hr hn

/-- **C85** for averages: as long as the periods of the reading view begin and end at stored bounds
of periods, the averages it shows have the total of the assigned ones between these bounds,
converted as pint does, whatever the periods in between are. -/
theorem C85_average (hty : MeansType ty2 .average) {ys : List K}
    (hread : result env (after env (St.init root)
        (pre ++ .tSet i (.floats (xs.map .num)) :: post ++ [.timeseries n2 w2 tps2 r2 ty2 in2 ex2]))
        (.tGet j) = .ok (.arr (.floats (ys.map .num))))
    (hlong : 2 ≤ tps2.length) {c d : Nat} (hcd : c ≤ d) (hd : d < tps.length)
    (hc : tps2.head? = tps[c]?) (hl : tps2.getLast? = tps[d]?) :
    ∃ a b, env.units w1 = some a ∧ env.units w2 = some b ∧
      total tps2 ys 0 (tps2.length - 1) = total tps (xs.map (pintTo a b)) c d := by
  obtain ⟨a, b, t, e', ha, hb, ht, he, _, hlen, hres⟩ :=
    exchange hfirst htps hsort h1 hk1 hx hne h2 hk2 hver
  rw [parse_type.2 hty] at ht
  injection ht with ht; subst ht
  have hlen : tps.length - 1 = xs.length := hlen
  refine ⟨a, b, ha, hb, ?_⟩
  rw [hres] at hread
  have hconv : convertNum .average e' tps tps2 (xs.map (pintTo a b)) = .ok (ys.map .num) := by
    revert hread
    cases convertNum .average e' tps tps2 (xs.map (pintTo a b)) <;> simp [Except.map]
  refine C23_total_preserved e' tps tps2 _ ys (by simpa using hx) (by rw [List.length_map]; omega)
    hsort hconv hlong c d hcd (by rw [List.length_map]; omega) ?_ ?_
  · rw [List.head?_eq_getElem?, List.getElem?_eq_getElem (by omega),
      List.getElem?_eq_getElem (by omega)] at hc
    exact Option.some.inj hc
  · rw [List.getLast?_eq_getElem?, List.getElem?_eq_getElem (by omega),
      List.getElem?_eq_getElem (by omega)] at hl
    exact Option.some.inj hl

end

/-! ## Examples -/

/-- A view on parameter `a` with these options. -/
def asking (w : String) (tps : List ℚ) (ty ext : String) : Op ℚ ℕ :=
  .timeseries (.seq ["a"]) w tps world (.str ty) (.str "Linear") (.str ext)

/-- The same array seen with the three options, and refused names. -/
example :
    demo [asking "K" [0, 1, 2] "point" "none", .tSet 0 (nums [1, 2, 4]),
      asking "mK" [-1, 1/2, 3] "POINT" "Constant", .tGet 1,
      asking "mK" [-1, 1/2, 3] "Point" "LINEAR", .tGet 2,
      asking "mK" [-1, 1/2, 3] "point" "None", .tGet 3,
      asking "mK" [0, 1/2, 2] "point" "none", .tGet 4,
      asking "K" [0, 1, 2] "pointwise" "none", asking "K" [0, 1, 2] "point" "cubic"]
    = [.ok (.view 0), .ok .done, .ok (.view 1), .ok (.arr (nums [1000, 1500, 4000])),
      .ok (.view 2), .ok (.arr (nums [0, 1500, 6000])), .ok (.view 3), .error .insufficientData,
      .ok (.view 4), .ok (.arr (nums [1000, 1500, 4000])), .error .valueError, .error .keyError] := by
  decide +kernel

/-- `C85_point` used on that history. -/
example : ∃ a b, demoEnv.units "K" = some a ∧ demoEnv.units "mK" = some b ∧
    ∃ r, result demoEnv (demoSt [asking "K" [0, 1, 2] "point" "none", .tSet 0 (nums [1, 2, 4]),
        asking "mK" [-1, 1/2, 3] "POINT" "Constant"]) (.tGet 1) = .ok (.arr (.floats r)) ∧
      r.length = 3 ∧ ∃ y, r[0]? = some (.num y) ∧
        Says .constant [0, 1, 2] ([1, 2, 4].map (pintTo a b)) (-1) y := by
  obtain ⟨a, b, ha, hb, _, h⟩ := C85_point (K := ℚ) (G := ℕ) (env := demoEnv) (root := "World")
    (pre := [asking "K" [0, 1, 2] "point" "none"]) (post := [])
    (req := asking "K" [0, 1, 2] "point" "none") (k := (["World"], ["a"])) (tps := [0, 1, 2])
    (e := .constant)
    ⟨[], _, 0, _, _, .point, rfl, rfl, rfl, by decide +kernel, fun I h => by
      have : infoAt demoEnv (after demoEnv (St.init "World" : St ℚ ℕ) []) (["World"], ["a"]) = none := by
        decide +kernel
      rw [this] at h; simp at h, by decide +kernel⟩ rfl (by decide +kernel)
    (i := 0) ⟨[], [], rfl, by decide +kernel⟩ rfl
    (xs := [1, 2, 4]) (by decide) (by decide +kernel) (j := 1) (n2 := .seq ["a"]) (r2 := world)
    (w2 := "mK") (ty2 := .str "POINT") (in2 := .str "Linear") (ex2 := .str "Constant")
    (tps2 := [-1, 1/2, 3]) (by decide +kernel) rfl
    (by decide +kernel) (parse_type.1 (by decide +kernel)) (parse_ext.1 (by decide +kernel))
  obtain ⟨r, h1, h2, h3⟩ := h (by rintro ⟨h, _⟩; simp at h)
  exact ⟨a, b, ha, hb, r, h1, h2, h3 0 _ rfl⟩

/-- Averages over other periods keep the total: hypotheses of `C85_average` met. -/
example :
    demo [asking "K" [0, 1, 2, 4] "average" "none", .tSet 0 (nums [1, 2, 4]),
      asking "mK" [1, 3/2, 5/2, 3, 4] "Average" "linear", .tGet 1]
    = [.ok (.view 0), .ok .done, .ok (.view 1), .ok (.arr (nums [1625, 5625/2, 3750, 4500]))] ∧
    total [1, 3/2, 5/2, 3, 4] [1625, 5625/2, 3750, 4500] 0 4 = total [0, 1, 2, (4 : ℚ)] [1000, 2000, 4000] 1 3 := by
  refine ⟨by decide +kernel, ?_⟩
  simp [total, Finset.sum_Ico_eq_sum_range, Finset.sum_range_succ]
  norm_num

end Openscm
