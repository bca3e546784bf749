import Verif.GasKeys

/-!
# What the gas table defines, computed over the whole table
-/

namespace Openscm

/-! ## Specification -/

/-- The names an entry of the gas table stands for: the symbol, its upper-case form, and the other
names in the entry. -/
def spellings (e : String × GasValue) : List String :=
  [e.1, e.1.toUpper] ++ match e.2 with
    | .base name => [name]
    | .derived _ _ names => names

/-- The unit registry made by the definitions of the standard gases. -/
def gasRegistry : Registry ℚ := fun name =>
  match rootOf scmDefs 1000 name with
  | none => none
  | some (f, ds) =>
    if h : f ≠ 0 then some { dim := ds.map (·, 1), scale := f, offset := 0, scale_ne := h } else none

/-- `v` in unit `a` is `w` in unit `b`. -/
def Converts (reg : Registry ℚ) (a b : String) (f : ℚ → ℚ) : Prop :=
  ∃ c, mkConv reg a b = .ok c ∧ ∀ v, c.convertFrom v = f v

/-- The entries that cannot be used, see `C36_sulfur_undefined`. -/
def sulfurEntries : List String := ["S", "SO2", "SOx"]

/-- The families of the entries of the table that have more than one member (chemistry: compounds
counted by the element they are reported in). -/
def gasFamilies : List (List String) :=
  [["C", "CO2"], ["N", "N2O", "N2ON", "NH3"], ["NOx", "nox"], ["VOC", "NMVOC"],
    ["HFC4310mee", "HFC4310"]]

/-- Of the same gas. -/
def sameGas (a b : String) : Bool := a == b || gasFamilies.any fun f => f.contains a && f.contains b

/-! ## Lemmas -/

theorem rootOfN_scm (fuel : Nat) (name : String) :
    rootOfN scmDefsN fuel (nameKey name) = (rootOf scmDefs fuel name).map keyRoot := by
  rw [← scmDefsN_eq, rootOfN_eq]

/-- Everything that is computed: spellings agree, joint units are the product. -/
def entryOk (e : String × GasValue) : Bool :=
  match rootOfN scmDefsN 1000 (nameKey e.1) with
  | none => false
  | some (f, ds) => decide (f ≠ 0) &&
    (spellings e).all (fun a => rootOfN scmDefsN 1000 (nameKey a) == some (f, ds)) &&
    [e.1, e.1.toUpper].all (fun a =>
      rootOfN scmDefsN 1000 (nameKey ("g" ++ a)) == some (f, nameKey "mass" :: ds) &&
      rootOfN scmDefsN 1000 (nameKey ("t" ++ a)) == some (1000000 * f, nameKey "mass" :: ds))

theorem entries_ok : (standardGases.all fun e => sulfurEntries.contains e.1 || entryOk e) = true := by
  decide +kernel


/-- `gasFamilies` with numbers. -/
def gasFamiliesN : List (List Nat) := gasFamilies.map (·.map nameKey)

def sameGasN (a b : Nat) : Bool :=
  a == b || gasFamiliesN.any fun f => f.contains a && f.contains b

theorem sameGasN_eq (a b : String) : sameGasN (nameKey a) (nameKey b) = sameGas a b := by
  have hc : ∀ (f : List String) (x : String), (f.map nameKey).contains (nameKey x) = f.contains x := by
    intro f x
    rw [Bool.eq_iff_iff, List.contains_iff_mem, List.contains_iff_mem, List.mem_map]
    exact ⟨fun ⟨y, hy, h⟩ => nameKey_inj.1 h ▸ hy, fun h => ⟨x, h, rfl⟩⟩
  have he : (nameKey a == nameKey b) = (a == b) := by
    rw [Bool.eq_iff_iff, beq_iff_eq, beq_iff_eq, nameKey_inj]
  unfold sameGasN sameGas gasFamiliesN
  rw [he, List.any_map]
  simp only [Function.comp_def, hc]

/-- Number and dimensions of every entry that is a unit. -/
def gasRootsN : List (Nat × List Nat) :=
  (standardGases.filter fun e => !sulfurEntries.contains e.1).filterMap fun e =>
    (rootOfN scmDefsN 1000 (nameKey e.1)).map fun r => (nameKey e.1, r.2)

/-- The value of `gasRootsN`. -/
def gasRootsTable : List (Nat × List Nat) := [
  (68, [171650329733886040157383895810159]),
  (84404786430003, [171650329733886040157383895810159]),
  (84404778631221, [210361451420802164532452904506633420902]),
  (79, [236496825217586948765437767241508256215335023]),
  (98058455154768, [236496825217586948765437767241508256215335023]),
  (109248101589388886095, [236496825217586948765437767241508256215335023]),
  (98058487464057, [98058487464057]), (137778380669049, [98058487464057]),
  (98058479665204, [236496825217586948765437767241508256215335023]),
  (74645572, [324977277316634762874747951984023733968658759890765777497756978380911]),
  (89129028, [89129028]),
  (75759696, [453946121699332672879953199337634018289576770264960895168505462097557434153295586590822]),
  (107988451852356, [107988451852356]), (121714658295903055030255684, [107988451852356]),
  (104767052986090297209520178, [104767052986090297209520178]),
  (104767052986090297209520179, [104767052986090297209520179]),
  (104767052986090297209520180, [104767052986090297209520180]),
  (116722230936439033204692944551988, [116722230936439033204692944551988]),
  (116722230936439033204692944551989, [116722230936439033204692944551989]),
  (116722230936439033204692944551990, [116722230936439033204692944551990]),
  (125304735251674489226384657023026, [125304735251674489226384657023026]),
  (125304735251674489226384657023027, [125304735251674489226384657023027]),
  (139603509200713568540985861763993108532, [139603509200713568540985861763993108532]),
  (139603509200713568540985861763993108533, [139603509200713568540985861763993108533]),
  (155533944842625395274334840421608372621672547, [155533944842625395274334840421608372621672547]),
  (155533944842625395274334840421608372622786659, [155533944842625395274334840421608372622786659]),
  (173282234356507064379879739272486693250416129605730, [173282234356507064379879739272486693250416129605730]),
  (173282234356507064379879739272486693250416129605731, [173282234356507064379879739272486693250416129605731]),
  (112470505544991774513233972, [112470505544991774513233972]),
  (112470505544991774514348083, [112470505544991774514348083]),
  (112470505544991774515462194, [112470505544991774515462194]),
  (125304739873741875885246880350262, [125304739873741875885246880350262]),
  (125304739873741875885246881464373, [125304739873741875885246881464373]),
  (139603514350214308826264173602035531874, [139603514350214308826264173602035531874]),
  (125304739873741875885246882578484, [125304739873741875885246882578484]),
  (139603514350214308826264174843279966306, [139603514350214308826264174843279966306]),
  (125304739873741875885246883692595, [125304739873741875885246883692595]),
  (139603514350214308826264176084524400738, [139603514350214308826264176084524400738]),
  (125304739873741875885246884806706, [125304739873741875885246884806706]),
  (155533950579745964036587520109008469109375074, [155533950579745964036587520109008469109375074]),
  (155533950579745964036587521491893788441051235, [155533950579745964036587521491893788441051235]),
  (155533950579745964036587521491893788443279458, [155533950579745964036587521491893788443279458]),
  (155533950579745964036587521491893788444393570, [155533950579745964036587521491893788444393570]),
  (155533950579745964036587522874779107774955618, [155533950579745964036587522874779107774955618]),
  (155533950579745964036587522874779107778297954, [155533950579745964036587522874779107778297954]),
  (173282240748301935486447103153907493430485522514020, [173282240748301935486447103153907493430485522514020]),
  (193055823804572165950588925078925929025619746494079172710, [193055823804572165950588925078925929025619746494079172710]),
  (139603514350214308830412833283770548273, [193055823804572165950588925078925929025619746494079172710]),
  (173282298274585817312001099829855477193212715663410, [173282298274585817312001099829855477193212715663410]),
  (173282298274585817312001099829855477193212715663411, [173282298274585817312001099829855477193212715663411]),
  (173282298274585817312001099829855477193212716777522, [173282298274585817312001099829855477193212716777522]),
  (173282298274585817312001099829855477194453961211954, [173282298274585817312001099829855477194453961211954]),
  (173282298274585817312001099829856860082255786213427, [173282298274585817312001099829856860082255786213427]),
  (84404776402997, [84404776402997]), (94036349423004876855, [94036349423004876855]),
  (154069145214380210302418999, [154069145214380210302418999]),
  (94036350664250425401, [94036350664250425401]),
  (154069145214381451547967545, [154069145214381451547967545]),
  (104767028094135930516013105, [104767028094135930516013105]),
  (104767029477022491095466035, [104767029477022491095466035]),
  (104767030859909051674918965, [104767030859909051674918965]),
  (104767032242795612254371895, [104767032242795612254371895]),
  (104767033625682172833824825, [104767033625682172833824825]),
  (116722198581912010999903420547129, [116722198581912010999903420547129]),
  (125304739873744641658368039256118, [125304739873744641658368039256118]),
  (125304739873744641658368040370229, [125304739873744641658368040370229]),
  (139603514350217390207287735434201006178, [139603514350217390207287735434201006178]),
  (193055816683396798514221326559212773346926318635540676659, [193055816683396798514221326559212773346926318635540676659]),
  (173282240748305760235209460822931708243482890141747, [173282240748305760235209460822931708243482890141747]),
  (173282240748305760235209460822931708247206625673267, [173282240748305760235209460822931708247206625673267]),
  (193055823804576427149082058055792441662319098195385516084, [193055823804576427149082058055792441662319098195385516084]),
  (193055823804576427149082058055792441666467757877127217203, [193055823804576427149082058055792441666467757877127217203]),
  (193055823804576427149082059772292688436524513692450291764, [193055823804576427149082059772292688436524513692450291764]),
  (155533950579749397043243825035416885269889133, [155533950579749397043243825035416885269889133]),
  (173282240748305760240358969266699968978508423036979, [173282240748305760240358969266699968978508423036979]),
  (297439275979639402627467471081759312661084492242549347748214662417664914653118517, [297439275979639402627467471081759312661084492242549347748214662417664914653118517]),
  (193055823804576427147169681099857844564506452645028954163, [193055823804576427147169681099857844564506452645028954163]),
  (215085809970564252403918107952281505840430254329073289493872692, [215085809970564252403918107952281505840430254329073289493872692]),
  (155533950579749397040162441246080690683248738, [155533950579749397040162441246080690683248738]),
  (173282240748305760235209459282242579352230499057715, [173282240748305760235209459282242579352230499057715]),
  (155533950579749397040162442628966010018267234, [155533950579749397040162442628966010018267234]),
  (173282240748305760235209460822931708247206625673266, [173282240748305760235209460822931708247206625673266]),
  (173282240748305760235209463904309966034676388921395, [173282240748305760235209463904309966034676388921395]),
  (193055823804576427149082054622791948122205586564732682291, [193055823804576427149082054622791948122205586564732682291]),
  (193055823804576427149082056339292194892262342380062441523, [193055823804576427149082056339292194892262342380062441523]),
  (193055823804576427149082058055792441662319098195388858419, [193055823804576427149082058055792441662319098195388858419]),
  (193055823804576427149082059772292688432375856493203030068, [193055823804576427149082059772292688432375856493203030068]),
  (193055823804576427149082059772292688436524513692453634099, [193055823804576427149082059772292688436524513692453634099]),
  (193055823804576427149082059772292688436524513692453634100, [193055823804576427149082059772292688436524513692453634100]),
  (193055823804576427149082061488792935202432609826041692212, [193055823804576427149082061488792935202432609826041692212]),
  (173282240748305760236925967232462429250055672430643, [173282240748305760236925967232462429250055672430643]),
  (139036754173444401734175609716806, [139036754173444401734175609716806]),
  (94036370524221538357, [94036370524221538357]),
  (104767055751863418434158644, [104767055751863418434158644]),
  (116722234017796547716096500498483, [116722234017796547716096500498483]),
  (130041641586036888059587433767823540276, [130041641586036888059587433767823540276]),
  (104767055751843558459703405, [104767055751843558459703405]),
  (104767055751843558458589299, [104767055751843558458589299]),
  (144186259535788769392959866470452, [144186259535788769392959866470452]),
  (104264705179703, [104264705179703]), (98058477436980, [98058477436980])]

theorem gasRootsN_eq : gasRootsN = gasRootsTable := by decide +kernel

/-- Two entries have the same dimension exactly if they are of the same gas. -/
def familiesOk : Bool :=
  gasRootsTable.all fun x => gasRootsTable.all fun y => (x.2 == y.2) == sameGasN x.1 y.1

theorem families_ok : familiesOk = true := by decide +kernel

end Openscm
