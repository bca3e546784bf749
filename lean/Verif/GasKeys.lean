import Verif.Gas
import Mathlib.Data.List.Induction
import Mathlib.Data.List.Basic
import Mathlib.Tactic.NormNum

/-!
# Computing with the gas units

Comparing strings is slow in the kernel. Here names are replaced by numbers, one-to-one, and the
unit definitions of the standard gases are listed with these numbers.
-/

namespace Openscm

/-- A number for every string. -/
def nameKey (s : String) : Nat := s.toList.foldl (fun n c => n * 1114112 + (c.toNat + 1)) 0

theorem char_lt (c : Char) : c.toNat < 1114112 := by
  have h := c.valid
  have : c.val.toNat = c.toNat := rfl
  unfold UInt32.isValidChar Nat.isValidChar at h
  omega

theorem foldKey_inj (a b : List Char)
    (h : a.foldl (fun n c => n * 1114112 + (c.toNat + 1)) 0
      = b.foldl (fun n c => n * 1114112 + (c.toNat + 1)) 0) : a = b := by
  induction a using List.reverseRecOn generalizing b with
  | nil =>
    cases b using List.reverseRecOn with
    | nil => rfl
    | append_singleton b d => simp at h
  | append_singleton a c ih =>
    cases b using List.reverseRecOn with
    | nil => simp at h
    | append_singleton b d =>
      simp only [List.foldl_append, List.foldl_cons, List.foldl_nil] at h
      have h1 := char_lt c
      have h2 := char_lt d
      have hcd : c.toNat = d.toNat := by omega
      have hr := ih b (by omega)
      rw [hr, Char.toNat_inj.1 hcd]

theorem nameKey_inj {a b : String} : nameKey a = nameKey b ↔ a = b :=
  ⟨fun h => String.toList_inj.1 (foldKey_inj _ _ h), fun h => by rw [h]⟩

/-- `Defn` with numbers for names. -/
inductive NDefn
  | dim (d : Nat)
  | expr (factor : ℚ) (units : List Nat)
  deriving DecidableEq

def Defn.key : Defn → NDefn
  | .dim d => .dim (nameKey d)
  | .expr f us => .expr f (us.map nameKey)

def lastDefN (defs : List (Nat × NDefn)) (name : Nat) : Option NDefn :=
  defs.foldl (fun acc e => if e.1 = name then some e.2 else acc) none

mutual
def rootOfN (defs : List (Nat × NDefn)) : Nat → Nat → Option (ℚ × List Nat)
  | 0, _ => none
  | fuel + 1, name =>
    match lastDefN defs name with
    | none => none
    | some (.dim d) => some (1, [d])
    | some (.expr f us) => rootsOfN defs fuel f us

def rootsOfN (defs : List (Nat × NDefn)) : Nat → ℚ → List Nat → Option (ℚ × List Nat)
  | _, f, [] => some (f, [])
  | 0, _, _ :: _ => none
  | fuel + 1, f, u :: us =>
    match rootOfN defs fuel u with
    | none => none
    | some (g, ds) =>
      match rootsOfN defs fuel (f * g) us with
      | none => none
      | some (h, es) => some (h, ds ++ es)
end

def keyDef (e : String × Defn) : Nat × NDefn := (nameKey e.1, e.2.key)

theorem lastDefN_eq (defs : List (String × Defn)) (name : String) :
    lastDefN (defs.map keyDef) (nameKey name) = (lastDef defs name).map Defn.key := by
  unfold lastDefN lastDef
  suffices h : ∀ acc : Option Defn,
      (defs.map keyDef).foldl (fun acc e => if e.1 = nameKey name then some e.2 else acc)
        (acc.map Defn.key)
      = (defs.foldl (fun acc e => if e.1 = name then some e.2 else acc) acc).map Defn.key from
    h none
  induction defs with
  | nil => intro acc; rfl
  | cons e defs ih =>
    intro acc
    simp only [List.map_cons, List.foldl_cons]
    rw [← ih]
    congr 1
    simp only [keyDef, nameKey_inj]
    split <;> rfl

/-- A resolved unit with numbers for dimensions. -/
def keyRoot (r : ℚ × List String) : ℚ × List Nat := (r.1, r.2.map nameKey)

mutual
theorem rootOfN_eq (defs : List (String × Defn)) : ∀ (fuel : Nat) (name : String),
    rootOfN (defs.map keyDef) fuel (nameKey name) = (rootOf defs fuel name).map keyRoot
  | 0, _ => by simp [rootOfN, rootOf]
  | fuel + 1, name => by
    rw [rootOfN, rootOf, lastDefN_eq]
    cases lastDef defs name with
    | none => rfl
    | some d =>
      cases d with
      | dim d => rfl
      | expr f us => exact rootsOfN_eq defs fuel f us

theorem rootsOfN_eq (defs : List (String × Defn)) : ∀ (fuel : Nat) (f : ℚ) (us : List String),
    rootsOfN (defs.map keyDef) fuel f (us.map nameKey) = (rootsOf defs fuel f us).map keyRoot
  | fuel, f, [] => by cases fuel <;> simp [rootsOfN, rootsOf, keyRoot]
  | 0, _, _ :: _ => by simp [rootsOfN, rootsOf]
  | fuel + 1, f, u :: us => by
    rw [List.map_cons, rootsOfN, rootsOf, rootOfN_eq defs fuel u]
    cases rootOf defs fuel u with
    | none => rfl
    | some r =>
      obtain ⟨g, ds⟩ := r
      simp only [Option.map_some, keyRoot]
      rw [rootsOfN_eq defs fuel (f * g) us]
      cases rootsOf defs fuel (f * g) us with
      | none => rfl
      | some r => simp [keyRoot]
end

theorem keyRoot_inj {a b : ℚ × List String} : keyRoot a = keyRoot b ↔ a = b := by
  constructor
  · intro h
    obtain ⟨f, ds⟩ := a
    obtain ⟨g, es⟩ := b
    simp only [keyRoot, Prod.mk.injEq] at h
    have := (List.map_injective_iff.2 (fun a b h => nameKey_inj.1 h) : Function.Injective
      (List.map nameKey)) h.2
    rw [h.1, this]
  · rintro rfl; rfl

/-- All definitions: gram and tonne, then the standard gases. -/
def scmDefs : List (String × Defn) := massDefs ++ addGases standardGases

/-- `scmDefs` with numbers. -/
def scmDefsN : List (Nat × NDefn) := [
  (104, .dim 152117643305932816500),
  (117, .expr 1000000 [104]),
  (68, .dim 171650329733886040157383895810159),
  (171650329733886040157383895810159, .expr 1 [68]),
  (115867716, .expr 1 [104, 68]),
  (130351172, .expr 1 [117, 68]),
  (84404786430003, .expr (12 / 44) [68]),
  (407451065691180664852324720797939541347348158075263165767477910446299125015445606, .expr 1 [84404786430003]),
  (143820286705049534515, .expr 1 [104, 84404786430003]),
  (161797811992582422579, .expr 1 [117, 84404786430003]),
  (84404778631221, .dim 210361451420802164532452904506633420902),
  (210361451420802164532452904506633420902, .expr 1 [84404778631221]),
  (143820286705041735733, .expr 1 [104, 84404778631221]),
  (161797811992574623797, .expr 1 [117, 84404778631221]),
  (79, .dim 236496825217586948765437767241508256215335023),
  (236496825217586948765437767241508256215335023, .expr 1 [79]),
  (115867727, .expr 1 [104, 79]),
  (130351183, .expr 1 [117, 79]),
  (98058455154768, .expr (14 / 44) [79]),
  (405947223214737657969064032589322840604362587187598707190393021830041763942, .expr 1 [98058455154768]),
  (143820300358718259280, .expr 1 [104, 98058455154768]),
  (161797825646251147344, .expr 1 [117, 98058455154768]),
  (109248101589388886095, .expr (14 / 28) [79]),
  (1842780054973591791617451402321498317626852587716024478094127705210948006776204965879243234844194675666205160120702823350206949661925987293905305832596155727974, .expr 1 [109248101589388886095]),
  (160231922473252317282959439, .expr 1 [104, 109248101589388886095]),
  (180260899126396158269718607, .expr 1 [117, 109248101589388886095]),
  (98058487464057, .dim 98058487464057),
  (143820300358750568569, .expr 1 [104, 98058487464057]),
  (161797825646283456633, .expr 1 [117, 98058487464057]),
  (98058487464025, .expr 1 [98058487464057]),
  (143820300358750568537, .expr 1 [104, 98058487464025]),
  (161797825646283456601, .expr 1 [117, 98058487464025]),
  (137778380669049, .expr 1 [98058487464057]),
  (143820340078643773561, .expr 1 [104, 137778380669049]),
  (161797865366176661625, .expr 1 [117, 137778380669049]),
  (98058487464025, .expr 1 [137778380669049]),
  (143820300358750568537, .expr 1 [104, 98058487464025]),
  (161797825646283456601, .expr 1 [117, 98058487464025]),
  (98058479665204, .expr (14 / 17) [79]),
  (187412962279630452198257420715734728802, .expr 1 [98058479665204]),
  (143820300358742769716, .expr 1 [104, 98058479665204]),
  (161797825646275657780, .expr 1 [117, 98058479665204]),
  (84, .expr 1 [199114389147057075026667209359475]),
  (115867732, .expr 1 [104, 84]),
  (130351188, .expr 1 [117, 84]),
  (104264715206707, .expr (32 / 64) [84]),
  (472643252000702999467151845250584271956419181861544883939963121003047295160483942, .expr 1 [104264715206707]),
  (143820306564978311219, .expr 1 [104, 104264715206707]),
  (161797831852511199283, .expr 1 [117, 104264715206707]),
  (104264715206777, .expr 1 [104264715206707]),
  (143820306564978311289, .expr 1 [104, 104264715206777]),
  (161797831852511199353, .expr 1 [117, 104264715206777]),
  (104264715206745, .expr 1 [104264715206777]),
  (143820306564978311257, .expr 1 [104, 104264715206745]),
  (161797831852511199321, .expr 1 [117, 104264715206745]),
  (74645572, .dim 324977277316634762874747951984023733968658759890765777497756978380911),
  (324977277316634762874747951984023733968658759890765777497756978380911, .expr 1 [74645572]),
  (129089611694148, .expr 1 [104, 74645572]),
  (145225803825220, .expr 1 [117, 74645572]),
  (89129028, .dim 89129028),
  (129089626177604, .expr 1 [104, 89129028]),
  (145225818308676, .expr 1 [117, 89129028]),
  (75759696, .dim 453946121699332672879953199337634018289576770264960895168505462097557434153295586590822),
  (453946121699332672879953199337634018289576770264960895168505462097557434153295586590822, .expr 1 [75759696]),
  (129089612808272, .expr 1 [104, 75759696]),
  (145225804939344, .expr 1 [117, 75759696]),
  (107988451852356, .dim 107988451852356),
  (143820310288714956868, .expr 1 [104, 107988451852356]),
  (161797835576247844932, .expr 1 [117, 107988451852356]),
  (121714658295903055030255684, .expr 1 [107988451852356]),
  (6049101840353715149304367500466004165002954740534843425950038639687257050247565690842668701845177484655394021527260454897773833884020748423170152524751805060777260941417006680370125934346178845344795120215619790608557724205172, .expr 1 [121714658295903055030255684]),
  (178516307610557423658576871686212, .expr 1 [104, 121714658295903055030255684]),
  (200830830847544814628017101865028, .expr 1 [117, 121714658295903055030255684]),
  (104767052986090297209520178, .dim 104767052986090297209520178),
  (178516290662952113845819050950706, .expr 1 [104, 104767052986090297209520178]),
  (200830813899939504815259281129522, .expr 1 [117, 104767052986090297209520178]),
  (104767052986090297209520179, .dim 104767052986090297209520179),
  (178516290662952113845819050950707, .expr 1 [104, 104767052986090297209520179]),
  (200830813899939504815259281129523, .expr 1 [117, 104767052986090297209520179]),
  (104767052986090297209520180, .dim 104767052986090297209520180),
  (178516290662952113845819050950708, .expr 1 [104, 104767052986090297209520180]),
  (200830813899939504815259281129524, .expr 1 [117, 104767052986090297209520180]),
  (116722230936439033204692944551988, .dim 116722230936439033204692944551988),
  (198887141623082905460993154492792963124, .expr 1 [104, 116722230936439033204692944551988]),
  (223748019735689401588738148217774014516, .expr 1 [117, 116722230936439033204692944551988]),
  (116722230936439033204692944551989, .dim 116722230936439033204692944551989),
  (198887141623082905460993154492792963125, .expr 1 [104, 116722230936439033204692944551989]),
  (223748019735689401588738148217774014517, .expr 1 [117, 116722230936439033204692944551989]),
  (116722230936439033204692944551990, .dim 116722230936439033204692944551990),
  (198887141623082905460993154492792963126, .expr 1 [104, 116722230936439033204692944551990]),
  (223748019735689401588738148217774014518, .expr 1 [117, 116722230936439033204692944551990]),
  (125304735251674489226384657023026, .dim 125304735251674489226384657023026),
  (198887150205587220696449176184505434162, .expr 1 [104, 125304735251674489226384657023026]),
  (223748028318193716824194169909486485554, .expr 1 [117, 125304735251674489226384657023026]),
  (125304735251674489226384657023027, .dim 125304735251674489226384657023027),
  (198887150205587220696449176184505434163, .expr 1 [104, 125304735251674489226384657023027]),
  (223748028318193716824194169909486485555, .expr 1 [117, 125304735251674489226384657023027]),
  (139603509200713568540985861763993108532, .dim 139603509200713568540985861763993108532),
  (221582560689847189624562384577270477020659764, .expr 1 [104, 139603509200713568540985861763993108532]),
  (249280363325639438238436615026196566149103668, .expr 1 [117, 139603509200713568540985861763993108532]),
  (139603509200713568540985861763993108533, .dim 139603509200713568540985861763993108533),
  (221582560689847189624562384577270477020659765, .expr 1 [104, 139603509200713568540985861763993108533]),
  (249280363325639438238436615026196566149103669, .expr 1 [117, 139603509200713568540985861763993108533]),
  (155533944842625395274334840421608372621672547, .dim 155533944842625395274334840421608372621672547),
  (246867789855287032127000447406151965696923779858531, .expr 1 [104, 155533944842625395274334840421608372621672547]),
  (277726244145454805814701094040065908707992674631779, .expr 1 [117, 155533944842625395274334840421608372621672547]),
  (155533944842625395274334840421608372621672515, .expr 1 [155533944842625395274334840421608372621672547]),
  (246867789855287032127000447406151965696923779858499, .expr 1 [104, 155533944842625395274334840421608372621672515]),
  (277726244145454805814701094040065908707992674631747, .expr 1 [117, 155533944842625395274334840421608372621672515]),
  (155533944842625395274334840421608372622786659, .dim 155533944842625395274334840421608372622786659),
  (246867789855287032127000447406151965696923780972643, .expr 1 [104, 155533944842625395274334840421608372622786659]),
  (277726244145454805814701094040065908707992675745891, .expr 1 [117, 155533944842625395274334840421608372622786659]),
  (155533944842625395274334840421608372622786627, .expr 1 [155533944842625395274334840421608372622786659]),
  (246867789855287032127000447406151965696923780972611, .expr 1 [104, 155533944842625395274334840421608372622786627]),
  (277726244145454805814701094040065908707992675745859, .expr 1 [117, 155533944842625395274334840421608372622786627]),
  (173282234356507064379879739272486693250416129605730, .dim 173282234356507064379879739272486693250416129605730),
  (275038367091253545937076722460564319494277158365032611938, .expr 1 [104, 173282234356507064379879739272486693250416129605730]),
  (309418141317380944615828265283167450370225146858645487714, .expr 1 [117, 173282234356507064379879739272486693250416129605730]),
  (173282234356507064379879739272486693250416093954114, .expr 1 [173282234356507064379879739272486693250416129605730]),
  (275038367091253545937076722460564319494277158364996960322, .expr 1 [104, 173282234356507064379879739272486693250416093954114]),
  (309418141317380944615828265283167450370225146858609836098, .expr 1 [117, 173282234356507064379879739272486693250416093954114]),
  (173282234356507064379879739272486693250416129605731, .dim 173282234356507064379879739272486693250416129605731),
  (275038367091253545937076722460564319494277158365032611939, .expr 1 [104, 173282234356507064379879739272486693250416129605731]),
  (309418141317380944615828265283167450370225146858645487715, .expr 1 [117, 173282234356507064379879739272486693250416129605731]),
  (173282234356507064379879739272486693250416093954115, .expr 1 [173282234356507064379879739272486693250416129605731]),
  (275038367091253545937076722460564319494277158364996960323, .expr 1 [104, 173282234356507064379879739272486693250416093954115]),
  (309418141317380944615828265283167450370225146858609836099, .expr 1 [117, 173282234356507064379879739272486693250416093954115]),
  (112470505544991774513233972, .dim 112470505544991774513233972),
  (178516298366404672747296354664500, .expr 1 [104, 112470505544991774513233972]),
  (200830821603392063716736584843316, .expr 1 [117, 112470505544991774513233972]),
  (112470505544991774514348083, .dim 112470505544991774514348083),
  (178516298366404672747296355778611, .expr 1 [104, 112470505544991774514348083]),
  (200830821603392063716736585957427, .expr 1 [117, 112470505544991774514348083]),
  (112470505544991774515462194, .dim 112470505544991774515462194),
  (178516298366404672747296356892722, .expr 1 [104, 112470505544991774515462194]),
  (200830821603392063716736587071538, .expr 1 [117, 112470505544991774515462194]),
  (125304739873741875885246880350262, .dim 125304739873741875885246880350262),
  (198887150205591842763835835046728761398, .expr 1 [104, 125304739873741875885246880350262]),
  (223748028318198338891580828771709812790, .expr 1 [117, 125304739873741875885246880350262]),
  (125304739873741875885246881464373, .dim 125304739873741875885246881464373),
  (198887150205591842763835835046729875509, .expr 1 [104, 125304739873741875885246881464373]),
  (223748028318198338891580828771710926901, .expr 1 [117, 125304739873741875885246881464373]),
  (139603514350214308826264173602035531874, .dim 139603514350214308826264173602035531874),
  (221582560689852339125302669855582315063083106, .expr 1 [104, 139603514350214308826264173602035531874]),
  (249280363325644587739176900304508404191527010, .expr 1 [117, 139603514350214308826264173602035531874]),
  (139603514350214308826264173602035531842, .expr 1 [139603514350214308826264173602035531874]),
  (221582560689852339125302669855582315063083074, .expr 1 [104, 139603514350214308826264173602035531842]),
  (249280363325644587739176900304508404191526978, .expr 1 [117, 139603514350214308826264173602035531842]),
  (125304739873741875885246882578484, .dim 125304739873741875885246882578484),
  (198887150205591842763835835046730989620, .expr 1 [104, 125304739873741875885246882578484]),
  (223748028318198338891580828771712041012, .expr 1 [117, 125304739873741875885246882578484]),
  (139603514350214308826264174843279966306, .dim 139603514350214308826264174843279966306),
  (221582560689852339125302669855583556307517538, .expr 1 [104, 139603514350214308826264174843279966306]),
  (249280363325644587739176900304509645435961442, .expr 1 [117, 139603514350214308826264174843279966306]),
  (139603514350214308826264174843279966274, .expr 1 [139603514350214308826264174843279966306]),
  (221582560689852339125302669855583556307517506, .expr 1 [104, 139603514350214308826264174843279966274]),
  (249280363325644587739176900304509645435961410, .expr 1 [117, 139603514350214308826264174843279966274]),
  (125304739873741875885246883692595, .dim 125304739873741875885246883692595),
  (198887150205591842763835835046732103731, .expr 1 [104, 125304739873741875885246883692595]),
  (223748028318198338891580828771713155123, .expr 1 [117, 125304739873741875885246883692595]),
  (139603514350214308826264176084524400738, .dim 139603514350214308826264176084524400738),
  (221582560689852339125302669855584797551951970, .expr 1 [104, 139603514350214308826264176084524400738]),
  (249280363325644587739176900304510886680395874, .expr 1 [117, 139603514350214308826264176084524400738]),
  (139603514350214308826264176084524400706, .expr 1 [139603514350214308826264176084524400738]),
  (221582560689852339125302669855584797551951938, .expr 1 [104, 139603514350214308826264176084524400706]),
  (249280363325644587739176900304510886680395842, .expr 1 [117, 139603514350214308826264176084524400706]),
  (125304739873741875885246884806706, .dim 125304739873741875885246884806706),
  (198887150205591842763835835046733217842, .expr 1 [104, 125304739873741875885246884806706]),
  (223748028318198338891580828771714269234, .expr 1 [117, 125304739873741875885246884806706]),
  (155533950579745964036587520109008469109375074, .dim 155533950579745964036587520109008469109375074),
  (246867789855292769247569209658831653097020267561058, .expr 1 [104, 155533950579745964036587520109008469109375074]),
  (277726244145460542935269856292745596108089162334306, .expr 1 [117, 155533950579745964036587520109008469109375074]),
  (155533950579745964036587520109008469073723458, .expr 1 [155533950579745964036587520109008469109375074]),
  (246867789855292769247569209658831653097020231909442, .expr 1 [104, 155533950579745964036587520109008469073723458]),
  (277726244145460542935269856292745596108089126682690, .expr 1 [117, 155533950579745964036587520109008469073723458]),
  (155533950579745964036587521491893788441051235, .dim 155533950579745964036587521491893788441051235),
  (246867789855292769247569209658833035982339599237219, .expr 1 [104, 155533950579745964036587521491893788441051235]),
  (277726244145460542935269856292746978993408494010467, .expr 1 [117, 155533950579745964036587521491893788441051235]),
  (155533950579745964036587521491893788405399619, .expr 1 [155533950579745964036587521491893788441051235]),
  (246867789855292769247569209658833035982339563585603, .expr 1 [104, 155533950579745964036587521491893788405399619]),
  (277726244145460542935269856292746978993408458358851, .expr 1 [117, 155533950579745964036587521491893788405399619]),
  (155533950579745964036587521491893788443279458, .dim 155533950579745964036587521491893788443279458),
  (246867789855292769247569209658833035982339601465442, .expr 1 [104, 155533950579745964036587521491893788443279458]),
  (277726244145460542935269856292746978993408496238690, .expr 1 [117, 155533950579745964036587521491893788443279458]),
  (155533950579745964036587521491893788407627842, .expr 1 [155533950579745964036587521491893788443279458]),
  (246867789855292769247569209658833035982339565813826, .expr 1 [104, 155533950579745964036587521491893788407627842]),
  (277726244145460542935269856292746978993408460587074, .expr 1 [117, 155533950579745964036587521491893788407627842]),
  (155533950579745964036587521491893788444393570, .dim 155533950579745964036587521491893788444393570),
  (246867789855292769247569209658833035982339602579554, .expr 1 [104, 155533950579745964036587521491893788444393570]),
  (277726244145460542935269856292746978993408497352802, .expr 1 [117, 155533950579745964036587521491893788444393570]),
  (155533950579745964036587521491893788408741954, .expr 1 [155533950579745964036587521491893788444393570]),
  (246867789855292769247569209658833035982339566927938, .expr 1 [104, 155533950579745964036587521491893788408741954]),
  (277726244145460542935269856292746978993408461701186, .expr 1 [117, 155533950579745964036587521491893788408741954]),
  (155533950579745964036587522874779107774955618, .dim 155533950579745964036587522874779107774955618),
  (246867789855292769247569209658834418867658933141602, .expr 1 [104, 155533950579745964036587522874779107774955618]),
  (277726244145460542935269856292748361878727827914850, .expr 1 [117, 155533950579745964036587522874779107774955618]),
  (155533950579745964036587522874779107739304002, .expr 1 [155533950579745964036587522874779107774955618]),
  (246867789855292769247569209658834418867658897489986, .expr 1 [104, 155533950579745964036587522874779107739304002]),
  (277726244145460542935269856292748361878727792263234, .expr 1 [117, 155533950579745964036587522874779107739304002]),
  (155533950579745964036587522874779107778297954, .dim 155533950579745964036587522874779107778297954),
  (246867789855292769247569209658834418867658936483938, .expr 1 [104, 155533950579745964036587522874779107778297954]),
  (277726244145460542935269856292748361878727831257186, .expr 1 [117, 155533950579745964036587522874779107778297954]),
  (155533950579745964036587522874779107742646338, .expr 1 [155533950579745964036587522874779107778297954]),
  (246867789855292769247569209658834418867658900832322, .expr 1 [104, 155533950579745964036587522874779107742646338]),
  (277726244145460542935269856292748361878727795605570, .expr 1 [117, 155533950579745964036587522874779107742646338]),
  (173282240748301935486447103153907493430485522514020, .dim 173282240748301935486447103153907493430485522514020),
  (275038367091259937731947829027928200915077338434425520228, .expr 1 [104, 173282240748301935486447103153907493430485522514020]),
  (309418141317387336410699371850531331791025326928038396004, .expr 1 [117, 173282240748301935486447103153907493430485522514020]),
  (173282240748301935486447103153907493390765629308996, .expr 1 [173282240748301935486447103153907493430485522514020]),
  (275038367091259937731947829027928200915077298714532315204, .expr 1 [104, 173282240748301935486447103153907493390765629308996]),
  (309418141317387336410699371850531331791025287208145190980, .expr 1 [117, 173282240748301935486447103153907493390765629308996]),
  (193055823804572165950588925078925929025619746494079172710, .dim 193055823804572165950588925078925929025619746494079172710),
  (306423545236777791746415861606333233697642348472514720131580006, .expr 1 [104, 193055823804572165950588925078925929025619746494079172710]),
  (344726464259397040143197100483509253044106513829110748388130918, .expr 1 [117, 193055823804572165950588925078925929025619746494079172710]),
  (193055823804572165950588925078925929025619706774185967686, .expr 1 [193055823804572165950588925078925929025619746494079172710]),
  (306423545236777791746415861606333233697642348472475000238374982, .expr 1 [104, 193055823804572165950588925078925929025619706774185967686]),
  (344726464259397040143197100483509253044106513829071028494925894, .expr 1 [117, 193055823804572165950588925078925929025619706774185967686]),
  (139603514350214308830412833283770548273, .expr 1 [193055823804572165950588925078925929025619746494079172710]),
  (221582560689852339125302674004241996798099505, .expr 1 [104, 139603514350214308830412833283770548273]),
  (249280363325644587739176904453168085926543409, .expr 1 [117, 139603514350214308830412833283770548273]),
  (173282298274585817312001099829855477193212715663410, .dim 173282298274585817312001099829855477193212715663410),
  (275038367091317464015829654581924876863061101161618669618, .expr 1 [104, 173282298274585817312001099829855477193212715663410]),
  (309418141317444862694581197404528007739009089655231545394, .expr 1 [117, 173282298274585817312001099829855477193212715663410]),
  (173282230095318133145414604725062275880978065981490, .expr 1 [173282298274585817312001099829855477193212715663410]),
  (275038367091249284748145487995429772069859788926968987698, .expr 1 [104, 173282230095318133145414604725062275880978065981490]),
  (309418141317376683426897030818032902945807777420581863474, .expr 1 [117, 173282230095318133145414604725062275880978065981490]),
  (173282298274585817312001099829855477193212715663411, .dim 173282298274585817312001099829855477193212715663411),
  (275038367091317464015829654581924876863061101161618669619, .expr 1 [104, 173282298274585817312001099829855477193212715663411]),
  (309418141317444862694581197404528007739009089655231545395, .expr 1 [117, 173282298274585817312001099829855477193212715663411]),
  (173282230095318133145414604725062275880978065981491, .expr 1 [173282298274585817312001099829855477193212715663411]),
  (275038367091249284748145487995429772069859788926968987699, .expr 1 [104, 173282230095318133145414604725062275880978065981491]),
  (309418141317376683426897030818032902945807777420581863475, .expr 1 [117, 173282230095318133145414604725062275880978065981491]),
  (173282298274585817312001099829855477193212716777522, .dim 173282298274585817312001099829855477193212716777522),
  (275038367091317464015829654581924876863061101161619783730, .expr 1 [104, 173282298274585817312001099829855477193212716777522]),
  (309418141317444862694581197404528007739009089655232659506, .expr 1 [117, 173282298274585817312001099829855477193212716777522]),
  (173282230095318133145414604725062275880978067095602, .expr 1 [173282298274585817312001099829855477193212716777522]),
  (275038367091249284748145487995429772069859788926970101810, .expr 1 [104, 173282230095318133145414604725062275880978067095602]),
  (309418141317376683426897030818032902945807777420582977586, .expr 1 [117, 173282230095318133145414604725062275880978067095602]),
  (173282298274585817312001099829855477194453961211954, .dim 173282298274585817312001099829855477194453961211954),
  (275038367091317464015829654581924876863061102402864218162, .expr 1 [104, 173282298274585817312001099829855477194453961211954]),
  (309418141317444862694581197404528007739009090896477093938, .expr 1 [117, 173282298274585817312001099829855477194453961211954]),
  (173282230095318133145414604725062275882219311530034, .expr 1 [173282298274585817312001099829855477194453961211954]),
  (275038367091249284748145487995429772069859790168214536242, .expr 1 [104, 173282230095318133145414604725062275882219311530034]),
  (309418141317376683426897030818032902945807778661827412018, .expr 1 [117, 173282230095318133145414604725062275882219311530034]),
  (173282298274585817312001099829856860082255786213427, .dim 173282298274585817312001099829856860082255786213427),
  (275038367091317464015829654581924876864443990204689219635, .expr 1 [104, 173282298274585817312001099829856860082255786213427]),
  (309418141317444862694581197404528007740391978698302095411, .expr 1 [117, 173282298274585817312001099829856860082255786213427]),
  (173282230095318133145414604725063658770021136531507, .expr 1 [173282298274585817312001099829856860082255786213427]),
  (275038367091249284748145487995429772071242677970039537715, .expr 1 [104, 173282230095318133145414604725063658770021136531507]),
  (309418141317376683426897030818032902947190666463652413491, .expr 1 [117, 173282230095318133145414604725063658770021136531507]),
  (84404776402997, .dim 84404776402997),
  (143820286705039507509, .expr 1 [104, 84404776402997]),
  (161797811992572395573, .expr 1 [117, 84404776402997]),
  (94036349423004876855, .dim 94036349423004876855),
  (160231907261500150898950199, .expr 1 [104, 94036349423004876855]),
  (180260883914643991885709367, .expr 1 [117, 94036349423004876855]),
  (154069145214380210302418999, .dim 154069145214380210302418999),
  (178516339965044342135732143849527, .expr 1 [104, 154069145214380210302418999]),
  (200830863202031733105172374028343, .expr 1 [117, 154069145214380210302418999]),
  (104767048837410755565781047, .expr 1 [154069145214380210302418999]),
  (178516290662947965166277407211575, .expr 1 [104, 104767048837410755565781047]),
  (200830813899935356135717637390391, .expr 1 [117, 104767048837410755565781047]),
  (94036350664250425401, .dim 94036350664250425401),
  (160231907261501392144498745, .expr 1 [104, 94036350664250425401]),
  (180260883914645233131257913, .expr 1 [117, 94036350664250425401]),
  (154069145214381451547967545, .dim 154069145214381451547967545),
  (178516339965044342136973389398073, .expr 1 [104, 154069145214381451547967545]),
  (200830863202031733106413619576889, .expr 1 [117, 154069145214381451547967545]),
  (104767048837411996811329593, .expr 1 [154069145214381451547967545]),
  (178516290662947965167518652760121, .expr 1 [104, 104767048837411996811329593]),
  (200830813899935356136958882938937, .expr 1 [117, 104767048837411996811329593]),
  (104767028094135930516013105, .dim 104767028094135930516013105),
  (178516290662927221891452357443633, .expr 1 [104, 104767028094135930516013105]),
  (200830813899914612860892587622449, .expr 1 [117, 104767028094135930516013105]),
  (104767029477022491095466035, .dim 104767029477022491095466035),
  (178516290662928604778012936896563, .expr 1 [104, 104767029477022491095466035]),
  (200830813899915995747453167075379, .expr 1 [117, 104767029477022491095466035]),
  (104767030859909051674918965, .dim 104767030859909051674918965),
  (178516290662929987664573516349493, .expr 1 [104, 104767030859909051674918965]),
  (200830813899917378634013746528309, .expr 1 [117, 104767030859909051674918965]),
  (104767032242795612254371895, .dim 104767032242795612254371895),
  (178516290662931370551134095802423, .expr 1 [104, 104767032242795612254371895]),
  (200830813899918761520574325981239, .expr 1 [117, 104767032242795612254371895]),
  (104767033625682172833824825, .dim 104767033625682172833824825),
  (178516290662932753437694675255353, .expr 1 [104, 104767033625682172833824825]),
  (200830813899920144407134905434169, .expr 1 [117, 104767033625682172833824825]),
  (116722198581912010999903420547129, .dim 116722198581912010999903420547129),
  (198887141623050550933970949703268958265, .expr 1 [104, 116722198581912010999903420547129]),
  (223748019735657047061715943428250009657, .expr 1 [117, 116722198581912010999903420547129]),
  (125304739873744641658368039256118, .dim 125304739873744641658368039256118),
  (198887150205591842766601608167887667254, .expr 1 [104, 125304739873744641658368039256118]),
  (223748028318198338894346601892868718646, .expr 1 [117, 125304739873744641658368039256118]),
  (125304739873744641658368040370229, .dim 125304739873744641658368040370229),
  (198887150205591842766601608167888781365, .expr 1 [104, 125304739873744641658368040370229]),
  (223748028318198338894346601892869832757, .expr 1 [117, 125304739873744641658368040370229]),
  (139603514350217390207287735434201006178, .dim 139603514350217390207287735434201006178),
  (221582560689852339128384050879144147228557410, .expr 1 [104, 139603514350217390207287735434201006178]),
  (249280363325644587742258281328070236357001314, .expr 1 [117, 139603514350217390207287735434201006178]),
  (139603514350217390207287735434201006146, .expr 1 [139603514350217390207287735434201006178]),
  (221582560689852339128384050879144147228557378, .expr 1 [104, 139603514350217390207287735434201006146]),
  (249280363325644587742258281328070236357001282, .expr 1 [117, 139603514350217390207287735434201006146]),
  (193055816683396798514221326559212773346926318635540676659, .dim 193055816683396798514221326559212773346926318635540676659),
  (306423545236770670571048425238734713984486669779086861593083955, .expr 1 [104, 193055816683396798514221326559212773346926318635540676659]),
  (344726464259389918967829664115910733330950835135682889849634867, .expr 1 [117, 193055816683396798514221326559212773346926318635540676659]),
  (193055816683396798514221326559212773346926278915647471667, .expr 1 [193055816683396798514221326559212773346926318635540676659]),
  (306423545236770670571048425238734713984486669779047141699878963, .expr 1 [104, 193055816683396798514221326559212773346926278915647471667]),
  (344726464259389918967829664115910733330950835135643169956429875, .expr 1 [117, 193055816683396798514221326559212773346926278915647471667]),
  (173282240748305760235209460822931708243482890141747, .dim 173282240748305760235209460822931708243482890141747),
  (275038367091259937735772577790285869939292151431793147955, .expr 1 [104, 173282240748305760235209460822931708243482890141747]),
  (309418141317387336414524120612889000815240139925406023731, .expr 1 [117, 173282240748305760235209460822931708243482890141747]),
  (173282240748305760235209460822931708203762996936755, .expr 1 [173282240748305760235209460822931708243482890141747]),
  (275038367091259937735772577790285869939292111711899942963, .expr 1 [104, 173282240748305760235209460822931708203762996936755]),
  (309418141317387336414524120612889000815240100205512818739, .expr 1 [117, 173282240748305760235209460822931708203762996936755]),
  (173282240748305760235209460822931708247206625673267, .dim 173282240748305760235209460822931708247206625673267),
  (275038367091259937735772577790285869939292155155528679475, .expr 1 [104, 173282240748305760235209460822931708247206625673267]),
  (309418141317387336414524120612889000815240143649141555251, .expr 1 [117, 173282240748305760235209460822931708247206625673267]),
  (173282240748305760235209460822931708207486732468275, .expr 1 [173282240748305760235209460822931708247206625673267]),
  (275038367091259937735772577790285869939292115435635474483, .expr 1 [104, 173282240748305760235209460822931708207486732468275]),
  (309418141317387336414524120612889000815240103929248350259, .expr 1 [117, 173282240748305760235209460822931708207486732468275]),
  (193055823804576427149082058055792441662319098195385516084, .dim 193055823804576427149082058055792441662319098195385516084),
  (306423545236777791750677060099466210564154985171866421437923380, .expr 1 [104, 193055823804576427149082058055792441662319098195385516084]),
  (344726464259397040147458298976642229910619150528462449694474292, .expr 1 [117, 193055823804576427149082058055792441662319098195385516084]),
  (193055823804576427149082058055792441618066688536949817396, .expr 1 [193055823804576427149082058055792441662319098195385516084]),
  (306423545236777791750677060099466210564154940919456763002224692, .expr 1 [104, 193055823804576427149082058055792441618066688536949817396]),
  (344726464259397040147458298976642229910619106276052791258775604, .expr 1 [117, 193055823804576427149082058055792441618066688536949817396]),
  (193055823804576427149082058055792441666467757877127217203, .dim 193055823804576427149082058055792441666467757877127217203),
  (306423545236777791750677060099466210564154989320526103179624499, .expr 1 [104, 193055823804576427149082058055792441666467757877127217203]),
  (344726464259397040147458298976642229910619154677122131436175411, .expr 1 [117, 193055823804576427149082058055792441666467757877127217203]),
  (193055823804576427149082058055792441622215348218691518515, .expr 1 [193055823804576427149082058055792441666467757877127217203]),
  (306423545236777791750677060099466210564154945068116444743925811, .expr 1 [104, 193055823804576427149082058055792441622215348218691518515]),
  (344726464259397040147458298976642229910619110424712473000476723, .expr 1 [117, 193055823804576427149082058055792441622215348218691518515]),
  (193055823804576427149082059772292688436524513692450291764, .dim 193055823804576427149082059772292688436524513692450291764),
  (306423545236777791750677060099467927064401759377281918502699060, .expr 1 [104, 193055823804576427149082059772292688436524513692450291764]),
  (344726464259397040147458298976643946410865924733877946759249972, .expr 1 [117, 193055823804576427149082059772292688436524513692450291764]),
  (193055823804576427149082059772292688392272104034014593076, .expr 1 [193055823804576427149082059772292688436524513692450291764]),
  (306423545236777791750677060099467927064401715124872260067000372, .expr 1 [104, 193055823804576427149082059772292688392272104034014593076]),
  (344726464259397040147458298976643946410865880481468288323551284, .expr 1 [117, 193055823804576427149082059772292688392272104034014593076]),
  (155533950579749397043243825035416885269889133, .dim 155533950579749397043243825035416885269889133),
  (246867789855292769251002216315136579505436428075117, .expr 1 [104, 155533950579749397043243825035416885269889133]),
  (277726244145460542938702862949050522516505322848365, .expr 1 [117, 155533950579749397043243825035416885269889133]),
  (155533950579749397043243825035416885234237517, .expr 1 [155533950579749397043243825035416885269889133]),
  (246867789855292769251002216315136579505436392423501, .expr 1 [104, 155533950579749397043243825035416885234237517]),
  (277726244145460542938702862949050522516505287196749, .expr 1 [117, 155533950579749397043243825035416885234237517]),
  (173282240748305760240358969266699968978508423036979, .dim 173282240748305760240358969266699968978508423036979),
  (275038367091259937735772582939794313707552886457326043187, .expr 1 [104, 173282240748305760240358969266699968978508423036979]),
  (309418141317387336414524125762397444583500874950938918963, .expr 1 [117, 173282240748305760240358969266699968978508423036979]),
  (173282240748305760240358969266699968938788529831987, .expr 1 [173282240748305760240358969266699968978508423036979]),
  (275038367091259937735772582939794313707552846737432838195, .expr 1 [104, 173282240748305760240358969266699968938788529831987]),
  (309418141317387336414524125762397444583500835231045713971, .expr 1 [117, 173282240748305760240358969266699968938788529831987]),
  (297439275979639402627467471081759312661084492242549347748214662417664914653118517, .dim 297439275979639402627467471081759312661084492242549347748214662417664914653118517),
  (472103848732383693310485195615108108377829114686124067113509491320754709185375252971573, .expr 1 [104, 297439275979639402627467471081759312661084492242549347748214662417664914653118517]),
  (531116792644022157519370516633562736705143671386328045184029709209016245625432827953205, .expr 1 [117, 297439275979639402627467471081759312661084492242549347748214662417664914653118517]),
  (297439275979639402627467471081759312661084431046486757841107930684416191623266357, .expr 1 [297439275979639402627467471081759312661084492242549347748214662417664914653118517]),
  (472103848732383693310485195615108108377829114686062871050919584214022975936652223119413, .expr 1 [104, 297439275979639402627467471081759312661084431046486757841107930684416191623266357]),
  (531116792644022157519370516633562736705143671386266849121439802102284512376709798101045, .expr 1 [117, 297439275979639402627467471081759312661084431046486757841107930684416191623266357]),
  (193055823804576427147169681099857844564506452645028954163, .dim 193055823804576427147169681099857844564506452645028954163),
  (306423545236777791750677058187089254629557887359220871081361459, .expr 1 [104, 193055823804576427147169681099857844564506452645028954163]),
  (344726464259397040147458297064265273976022052715816899337912371, .expr 1 [117, 193055823804576427147169681099857844564506452645028954163]),
  (193055823804576427147169681099857844520254042986628907059, .expr 1 [193055823804576427147169681099857844564506452645028954163]),
  (306423545236777791750677058187089254629557843106811212681314355, .expr 1 [104, 193055823804576427147169681099857844520254042986628907059]),
  (344726464259397040147458297064265273976022008463407240937865267, .expr 1 [117, 193055823804576427147169681099857844520254042986628907059]),
  (215085809970564252403918107952281505840430254329073289493872692, .dim 215085809970564252403918107952281505840430254329073289493872692),
  (341390148830836979122930320781534586410528913980397642936989091233844, .expr 1 [104, 215085809970564252403918107952281505840430254329073289493872692]),
  (384063890548965355192765060389462915676656798174165557169951540903988, .expr 1 [117, 215085809970564252403918107952281505840430254329073289493872692]),
  (215085809970564252403918107952281505791128113699694176357187636, .expr 1 [215085809970564252403918107952281505840430254329073289493872692]),
  (341390148830836979122930320781534586410528864678257013557875954548788, .expr 1 [104, 215085809970564252403918107952281505791128113699694176357187636]),
  (384063890548965355192765060389462915676656748872024927790838404218932, .expr 1 [117, 215085809970564252403918107952281505791128113699694176357187636]),
  (155533950579749397040162441246080690683248738, .dim 155533950579749397040162441246080690683248738),
  (246867789855292769251002213233752790169241841434722, .expr 1 [104, 155533950579749397040162441246080690683248738]),
  (277726244145460542938702859867666733180310736207970, .expr 1 [117, 155533950579749397040162441246080690683248738]),
  (155533950579749397040162441246080690647597122, .expr 1 [155533950579749397040162441246080690683248738]),
  (246867789855292769251002213233752790169241805783106, .expr 1 [104, 155533950579749397040162441246080690647597122]),
  (277726244145460542938702859867666733180310700556354, .expr 1 [117, 155533950579749397040162441246080690647597122]),
  (173282240748305760235209459282242579352230499057715, .dim 173282240748305760235209459282242579352230499057715),
  (275038367091259937735772577790284329250163260179402063923, .expr 1 [104, 173282240748305760235209459282242579352230499057715]),
  (309418141317387336414524120612887460126111248673014939699, .expr 1 [117, 173282240748305760235209459282242579352230499057715]),
  (173282240748305760235209459282242579312510605852723, .expr 1 [173282240748305760235209459282242579352230499057715]),
  (275038367091259937735772577790284329250163220459508858931, .expr 1 [104, 173282240748305760235209459282242579312510605852723]),
  (309418141317387336414524120612887460126111208953121734707, .expr 1 [117, 173282240748305760235209459282242579312510605852723]),
  (155533950579749397040162442628966010018267234, .dim 155533950579749397040162442628966010018267234),
  (246867789855292769251002213233754173054561176453218, .expr 1 [104, 155533950579749397040162442628966010018267234]),
  (277726244145460542938702859867668116065630071226466, .expr 1 [117, 155533950579749397040162442628966010018267234]),
  (155533950579749397040162442628966009982615618, .expr 1 [155533950579749397040162442628966010018267234]),
  (246867789855292769251002213233754173054561140801602, .expr 1 [104, 155533950579749397040162442628966009982615618]),
  (277726244145460542938702859867668116065630035574850, .expr 1 [117, 155533950579749397040162442628966009982615618]),
  (173282240748305760235209460822931708247206625673266, .dim 173282240748305760235209460822931708247206625673266),
  (275038367091259937735772577790285869939292155155528679474, .expr 1 [104, 173282240748305760235209460822931708247206625673266]),
  (309418141317387336414524120612889000815240143649141555250, .expr 1 [117, 173282240748305760235209460822931708247206625673266]),
  (173282240748305760235209460822931708207486732468274, .expr 1 [173282240748305760235209460822931708247206625673266]),
  (275038367091259937735772577790285869939292115435635474482, .expr 1 [104, 173282240748305760235209460822931708207486732468274]),
  (309418141317387336414524120612889000815240103929248350258, .expr 1 [117, 173282240748305760235209460822931708207486732468274]),
  (173282240748305760235209463904309966034676388921395, .dim 173282240748305760235209463904309966034676388921395),
  (275038367091259937735772577790288951317549942625291927603, .expr 1 [104, 173282240748305760235209463904309966034676388921395]),
  (309418141317387336414524120612892082193497931118904803379, .expr 1 [117, 173282240748305760235209463904309966034676388921395]),
  (173282240748305760235209463904309965994956495716403, .expr 1 [173282240748305760235209463904309966034676388921395]),
  (275038367091259937735772577790288951317549902905398722611, .expr 1 [104, 173282240748305760235209463904309965994956495716403]),
  (309418141317387336414524120612892082193497891399011598387, .expr 1 [117, 173282240748305760235209463904309965994956495716403]),
  (193055823804576427149082054622791948122205586564732682291, .dim 193055823804576427149082054622791948122205586564732682291),
  (306423545236777791750677060099462777563661445058354790785089587, .expr 1 [104, 193055823804576427149082054622791948122205586564732682291]),
  (344726464259397040147458298976638796910125610414950819041640499, .expr 1 [117, 193055823804576427149082054622791948122205586564732682291]),
  (193055823804576427149082054622791948077953176906296983603, .expr 1 [193055823804576427149082054622791948122205586564732682291]),
  (306423545236777791750677060099462777563661400805945132349390899, .expr 1 [104, 193055823804576427149082054622791948077953176906296983603]),
  (344726464259397040147458298976638796910125566162541160605941811, .expr 1 [117, 193055823804576427149082054622791948077953176906296983603]),
  (193055823804576427149082056339292194892262342380062441523, .dim 193055823804576427149082056339292194892262342380062441523),
  (306423545236777791750677060099464494063908215115110606114848819, .expr 1 [104, 193055823804576427149082056339292194892262342380062441523]),
  (344726464259397040147458298976640513410372380471706634371399731, .expr 1 [117, 193055823804576427149082056339292194892262342380062441523]),
  (193055823804576427149082056339292194848009932721626742835, .expr 1 [193055823804576427149082056339292194892262342380062441523]),
  (306423545236777791750677060099464494063908170862700947679150131, .expr 1 [104, 193055823804576427149082056339292194848009932721626742835]),
  (344726464259397040147458298976640513410372336219296975935701043, .expr 1 [117, 193055823804576427149082056339292194848009932721626742835]),
  (193055823804576427149082058055792441662319098195388858419, .dim 193055823804576427149082058055792441662319098195388858419),
  (306423545236777791750677060099466210564154985171866421441265715, .expr 1 [104, 193055823804576427149082058055792441662319098195388858419]),
  (344726464259397040147458298976642229910619150528462449697816627, .expr 1 [117, 193055823804576427149082058055792441662319098195388858419]),
  (193055823804576427149082058055792441618066688536953159731, .expr 1 [193055823804576427149082058055792441662319098195388858419]),
  (306423545236777791750677060099466210564154940919456763005567027, .expr 1 [104, 193055823804576427149082058055792441618066688536953159731]),
  (344726464259397040147458298976642229910619106276052791262117939, .expr 1 [117, 193055823804576427149082058055792441618066688536953159731]),
  (193055823804576427149082059772292688432375856493203030068, .dim 193055823804576427149082059772292688432375856493203030068),
  (306423545236777791750677060099467927064401755228624719255437364, .expr 1 [104, 193055823804576427149082059772292688432375856493203030068]),
  (344726464259397040147458298976643946410865920585220747511988276, .expr 1 [117, 193055823804576427149082059772292688432375856493203030068]),
  (193055823804576427149082059772292688388123446834767331380, .expr 1 [193055823804576427149082059772292688432375856493203030068]),
  (306423545236777791750677060099467927064401710976215060819738676, .expr 1 [104, 193055823804576427149082059772292688388123446834767331380]),
  (344726464259397040147458298976643946410865876332811089076289588, .expr 1 [117, 193055823804576427149082059772292688388123446834767331380]),
  (193055823804576427149082059772292688436524513692453634099, .dim 193055823804576427149082059772292688436524513692453634099),
  (306423545236777791750677060099467927064401759377281918506041395, .expr 1 [104, 193055823804576427149082059772292688436524513692453634099]),
  (344726464259397040147458298976643946410865924733877946762592307, .expr 1 [117, 193055823804576427149082059772292688436524513692453634099]),
  (193055823804576427149082059772292688392272104034017935411, .expr 1 [193055823804576427149082059772292688436524513692453634099]),
  (306423545236777791750677060099467927064401715124872260070342707, .expr 1 [104, 193055823804576427149082059772292688392272104034017935411]),
  (344726464259397040147458298976643946410865880481468288326893619, .expr 1 [117, 193055823804576427149082059772292688392272104034017935411]),
  (193055823804576427149082059772292688436524513692453634100, .dim 193055823804576427149082059772292688436524513692453634100),
  (306423545236777791750677060099467927064401759377281918506041396, .expr 1 [104, 193055823804576427149082059772292688436524513692453634100]),
  (344726464259397040147458298976643946410865924733877946762592308, .expr 1 [117, 193055823804576427149082059772292688436524513692453634100]),
  (193055823804576427149082059772292688392272104034017935412, .expr 1 [193055823804576427149082059772292688436524513692453634100]),
  (306423545236777791750677060099467927064401715124872260070342708, .expr 1 [104, 193055823804576427149082059772292688392272104034017935412]),
  (344726464259397040147458298976643946410865880481468288326893620, .expr 1 [117, 193055823804576427149082059772292688392272104034017935412]),
  (193055823804576427149082061488792935202432609826041692212, .dim 193055823804576427149082061488792935202432609826041692212),
  (306423545236777791750677060099469643564648525285378052094099508, .expr 1 [104, 193055823804576427149082061488792935202432609826041692212]),
  (344726464259397040147458298976645662911112690641974080350650420, .expr 1 [117, 193055823804576427149082061488792935202432609826041692212]),
  (193055823804576427149082061488792935158180200167605993524, .expr 1 [193055823804576427149082061488792935202432609826041692212]),
  (306423545236777791750677060099469643564648481032968393658400820, .expr 1 [104, 193055823804576427149082061488792935158180200167605993524]),
  (344726464259397040147458298976645662911112646389564421914951732, .expr 1 [117, 193055823804576427149082061488792935158180200167605993524]),
  (173282240748305760236925967232462429250055672430643, .dim 173282240748305760236925967232462429250055672430643),
  (275038367091259937735772579506792279470013158004575436851, .expr 1 [104, 173282240748305760236925967232462429250055672430643]),
  (309418141317387336414524122329395410345961146498188312627, .expr 1 [117, 173282240748305760236925967232462429250055672430643]),
  (173282240748305760236925967232462429210335779225651, .expr 1 [173282240748305760236925967232462429250055672430643]),
  (275038367091259937735772579506792279470013118284682231859, .expr 1 [104, 173282240748305760236925967232462429210335779225651]),
  (309418141317387336414524122329395410345961106778295107635, .expr 1 [117, 173282240748305760236925967232462429210335779225651]),
  (139036754173444401734175609716806, .dim 139036754173444401734175609716806),
  (198887163937606142466361683975458127942, .expr 1 [104, 139036754173444401734175609716806]),
  (223748042050212638594106677700439179334, .expr 1 [117, 139036754173444401734175609716806]),
  (94036370524221538357, .dim 94036370524221538357),
  (160231907261521252115611701, .expr 1 [104, 94036370524221538357]),
  (180260883914665093102370869, .expr 1 [117, 94036370524221538357]),
  (94036370524185886773, .expr 1 [94036370524221538357]),
  (160231907261521252079960117, .expr 1 [104, 94036370524185886773]),
  (180260883914665093066719285, .expr 1 [117, 94036370524185886773]),
  (104767055751863418434158644, .dim 104767055751863418434158644),
  (178516290662954879618940275589172, .expr 1 [104, 104767055751863418434158644]),
  (200830813899942270588380505767988, .expr 1 [117, 104767055751863418434158644]),
  (104767055751863418398507060, .expr 1 [104767055751863418434158644]),
  (178516290662954879618940239937588, .expr 1 [104, 104767055751863418398507060]),
  (200830813899942270588380470116404, .expr 1 [117, 104767055751863418398507060]),
  (116722234017796547716096500498483, .dim 116722234017796547716096500498483),
  (198887141623085986818507665896348909619, .expr 1 [104, 116722234017796547716096500498483]),
  (223748019735692482946252659621329961011, .expr 1 [117, 116722234017796547716096500498483]),
  (116722234017796547716096464846899, .expr 1 [116722234017796547716096500498483]),
  (198887141623085986818507665896313258035, .expr 1 [104, 116722234017796547716096464846899]),
  (223748019735692482946252659621294309427, .expr 1 [117, 116722234017796547716096464846899]),
  (130041641586036888059587433767823540276, .dim 130041641586036888059587433767823540276),
  (221582551127979574947881903178842480851091508, .expr 1 [104, 130041641586036888059587433767823540276]),
  (249280353763771823561756133627768569979535412, .expr 1 [117, 130041641586036888059587433767823540276]),
  (130041641586036888059587433767787888692, .expr 1 [130041641586036888059587433767823540276]),
  (221582551127979574947881903178842480815439924, .expr 1 [104, 130041641586036888059587433767787888692]),
  (249280353763771823561756133627768569943883828, .expr 1 [117, 130041641586036888059587433767787888692]),
  (104767055751843558459703405, .dim 104767055751843558459703405),
  (178516290662954879599080301133933, .expr 1 [104, 104767055751843558459703405]),
  (200830813899942270568520531312749, .expr 1 [117, 104767055751843558459703405]),
  (104767055751843558459703373, .expr 1 [104767055751843558459703405]),
  (178516290662954879599080301133901, .expr 1 [104, 104767055751843558459703373]),
  (200830813899942270568520531312717, .expr 1 [117, 104767055751843558459703373]),
  (104767055751843558458589299, .dim 104767055751843558458589299),
  (178516290662954879599080300019827, .expr 1 [104, 104767055751843558458589299]),
  (200830813899942270568520530198643, .expr 1 [117, 104767055751843558458589299]),
  (104767055751843558458589267, .expr 1 [104767055751843558458589299]),
  (178516290662954879599080300019795, .expr 1 [104, 104767055751843558458589267]),
  (200830813899942270568520530198611, .expr 1 [117, 104767055751843558458589267]),
  (144186259535788769392959866470452, .dim 144186259535788769392959866470452),
  (198887169087111504810729342759714881588, .expr 1 [104, 144186259535788769392959866470452]),
  (223748047199718000938474336484695932980, .expr 1 [117, 144186259535788769392959866470452]),
  (104264705179703, .dim 104264705179703),
  (143820306564968284215, .expr 1 [104, 104264705179703]),
  (161797831852501172279, .expr 1 [117, 104264705179703]),
  (98058477436980, .dim 98058477436980),
  (143820300358740541492, .expr 1 [104, 98058477436980]),
  (161797825646273429556, .expr 1 [117, 98058477436980])]

theorem scmDefsN_eq : scmDefs.map keyDef = scmDefsN := by decide +kernel

end Openscm
