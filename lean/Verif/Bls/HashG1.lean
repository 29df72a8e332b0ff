import Verif.Bls.HashG2

/-!
# BLS12-381 hashing to G1: model of swu.go `swuMapG1`, isogeny.go `isogenyMapG1`, g1.go `MapToCurve`,
`EncodeToPoint`, `HashToCurve`, `ClearCofactor`, `MulByCofactor`, and of g2.go `ClearCofactor`, `EncodeToCurve`

`crypto/sha256` is the parameter `H`, as in `Verif.Bls.Xmd`.  The pointers of the code are values here: every function
modelled writes only to fresh variables and to the point it returns.
-/

namespace Verif.Bls

/-- swu.go:125 `swuParamsForG1.a`. -/
def swu1A : Fe :=
  ⟨3415322872136444497, 9675504606121301699, 13284745414851768802, 2873609449387478652, 2897906769629812789, 1536947672689614213⟩
/-- swu.go:126 `swuParamsForG1.b`. -/
def swu1B : Fe :=
  ⟨18129637713272545760, 11144507692959411567, 10108153527111632324, 9745270364868568433, 14587922135379007624, 469008097655535723⟩
/-- swu.go:127 `swuParamsForG1.z`. -/
def swu1Z : Fe :=
  ⟨9830232086645309404, 1112389714365644829, 8603885298299447491, 11361495444721768256, 5788602283869803809, 543934104870762216⟩
/-- swu.go:128 `swuParamsForG1.zInv`. -/
def swu1ZInv : Fe :=
  ⟨1047701040585522704, 6568704757426767313, 7461573184509654906, 5499015922318795030, 11226104418450030905, 1048548528059189658⟩
/-- swu.go:129 `swuParamsForG1.minusBOverA`. -/
def swu1MinusBOverA : Fe :=
  ⟨370847444534405118, 4269648997187665026, 1978763176675559811, 2677363437243537255, 11096866317338941469, 683609622716391635⟩

/-- field_element.go:153-157 `fe.sign`: true when the value is even. -/
def Fe.sign (a : Fe) : Bool := Fe.isEven (Fe.fromMont a)

/-- swu.go:13-22: `x1` from `tv0 = z u²`. -/
def swu1X1 (bd : Build) (tv0 : Fe) : Fe :=
  let x1 := Fe.inverse (Fe.add tv0 (Fe.square bd tv0))
  let e1 := Fe.isZero x1
  let x1 := Fe.add x1 Fe.one
  Fe.mul (if e1 then swu1ZInv else x1) swu1MinusBOverA

/-- swu.go:23-27: `gx1`. -/
def swu1G (bd : Build) (x : Fe) : Fe := Fe.add (Fe.mul (Fe.add (Fe.square bd x) swu1A) x) swu1B

/-- swu.go:5-51 `swuMapG1`. -/
def swuG1 (bd : Build) (u : Fe) : Fe × Fe :=
  let tv0 := Fe.mul (Fe.square bd u) swu1Z
  let tv1 := Fe.square bd tv0
  let x1 := swu1X1 bd tv0
  let gx1 := swu1G bd x1
  let x2 := Fe.mul tv0 x1
  let gx2 := Fe.mul gx1 (Fe.mul tv0 tv1)
  let e2 := !Fe.isQnr gx1
  let x := if e2 then x1 else x2
  let y := (Fe.sqrt bd (if e2 then gx1 else gx2)).1
  (x, if Fe.sign y != Fe.sign u then Fe.neg y else y)

/-- isogeny.go:66-81 `isogenyConstansG1[0]`, highest index first. -/
def iso1xNum : List Fe := [
  ⟨0, 0, 0, 0, 0, 0⟩,
  ⟨0, 0, 0, 0, 0, 0⟩,
  ⟨0, 0, 0, 0, 0, 0⟩,
  ⟨0, 0, 0, 0, 0, 0⟩,
  ⟨8276255265012938363, 9997870203437298645, 16819210142450232135, 5062450688048499179, 12776432501206859311, 1778476024187613533⟩,
  ⟨16622893420529658311, 18333652517857227637, 2139173376235292830, 16496634502105693419, 5355299366650241487, 382770009771704860⟩,
  ⟨1001421273809907975, 724433776290697394, 16309429154639760781, 10003715605277815375, 307249038158020985, 688008371043525493⟩,
  ⟨16605411443261943819, 9536014432113026165, 8685402948537367476, 16291074259433785035, 407185289045737198, 713426768049972652⟩,
  ⟨8787912969482053798, 9653629252694769025, 1358451377919714320, 16331599695590198629, 13519934665722691825, 628078949001449512⟩,
  ⟨2577731109215284733, 8810166123993386985, 3186592767751348067, 15050850291391518479, 18435652654155870871, 1330813445865859326⟩,
  ⟨7916646322956281527, 11909818257232418749, 1455301921509471421, 3317627683558310107, 12693445337245173919, 1798273032850409769⟩,
  ⟨10443415753526299973, 8852419397684277637, 1088333252544296036, 1174353327457337436, 1626144519293139599, 716651429285276662⟩,
  ⟨5282195870529824577, 12365729195083706401, 2807246122435955773, 332702220601507168, 7339422050895811209, 1050416448951884523⟩,
  ⟨11908177372061066827, 18190436643933350086, 6603102998733829542, 6581045210674032871, 16099974426311393401, 541581077397919012⟩,
  ⟨9910598932128054667, 4357765064159749802, 1555960221863322426, 9671461638228026285, 1275132148248838779, 507072521670460589⟩,
  ⟨5555391298090832668, 1871845530032595596, 4551034694774233518, 2584197799339864836, 15085749040064757844, 654075415717002996⟩]

/-- isogeny.go:84-99 `isogenyConstansG1[1]`, highest index first. -/
def iso1xDen : List Fe := [
  ⟨0, 0, 0, 0, 0, 0⟩,
  ⟨0, 0, 0, 0, 0, 0⟩,
  ⟨0, 0, 0, 0, 0, 0⟩,
  ⟨0, 0, 0, 0, 0, 0⟩,
  ⟨0, 0, 0, 0, 0, 0⟩,
  ⟨8505329371266088957, 17002214543764226050, 6865905132761471162, 8632934651105793861, 6631298214892334189, 1582556514881692819⟩,
  ⟨11058048790650732295, 7059501760293999296, 6596812464094265283, 14567744481299745071, 1591898617514919697, 1344004358835331304⟩,
  ⟨2009730524583761661, 11053280693947850663, 14409256190409559425, 3658799329773368860, 13529638021208614900, 869243908766415668⟩,
  ⟨7582945168915351799, 2506680954090651888, 10272835934257987876, 9924916350558121763, 13577194922650729507, 1698254565890367778⟩,
  ⟨15285065477075910543, 3650488990300576179, 7274499670465195193, 16100555180954076900, 7580582425312971905, 896074979407586822⟩,
  ⟨18127417459170613536, 5353764292720778676, 858818813615405862, 3528937506143354306, 12604964186779349896, 489837025077541867⟩,
  ⟨6376927397170316667, 1460555178565443615, 18156708192400235081, 14761117739963869762, 8361091377443400626, 1421233557303902229⟩,
  ⟨16377845895484993601, 15314247056264135931, 14543008873173635408, 4875476272346940127, 2030129768648768484, 1297689274107773964⟩,
  ⟨10990404485039254780, 5344458621503091696, 1718862119039451458, 11600049052019063549, 18389973225607751698, 1092616849767867362⟩,
  ⟨2533162896381624793, 10578896196504721258, 4263020647280931071, 1255899686249737875, 17097124965295857733, 590960935246623182⟩,
  ⟨13358415881952098629, 12009257493157516192, 13928884382876484932, 12988314785833227070, 11244145530317148182, 100673949996487007⟩]

/-- isogeny.go:102-117 `isogenyConstansG1[2]`, highest index first. -/
def iso1yNum : List Fe := [
  ⟨9739780494108151959, 17207219630538774058, 553911396609642498, 6085929320386029624, 14175410874026216616, 1183751611824804793⟩,
  ⟨16894283457285346118, 10513943172407809423, 4685513162956315481, 11558261883362075118, 574375951146893083, 1159440548124233311⟩,
  ⟨10595118024452621845, 8010256778549625402, 10333144214150401956, 17682229685967587631, 8235697699445463546, 317883997785997129⟩,
  ⟨12976751790971550752, 10256454045927919861, 8968423978443605586, 91636529236982767, 9459527627289574163, 949550897353139410⟩,
  ⟨13069093794065563159, 18364685236451803588, 2235996605706292724, 1007629142299662669, 4077244143222018961, 162586537120788900⟩,
  ⟨417067620545670182, 113740147118943311, 7666319924200602156, 1469963335415292317, 13482947512490784447, 1353298443678343909⟩,
  ⟨5056344670784885274, 15896288289018563095, 11120951801157184493, 7250506164525313606, 9295677455526059106, 1757175036496698059⟩,
  ⟨10454026283255684948, 15005802245309313587, 4420421943175638630, 18052347756729021570, 12181908985148691767, 1485233717472293779⟩,
  ⟨10655681039374273828, 3913226275392147601, 9613292388335178165, 11852815148890010639, 17652581670569921892, 780578093363976825⟩,
  ⟨7324386472845891920, 16310961984705608217, 14050364318273732029, 410622978843904432, 13407944087243235067, 570579643952782879⟩,
  ⟨11903306495973637341, 11622313950541285762, 17991208474928993001, 12280964980743791783, 14941570282955772167, 143516344770893715⟩,
  ⟨6416330705244672319, 3552017270878949117, 7777490944331917312, 7917192495177481567, 7271851377118683537, 253926972271069325⟩,
  ⟨6654065794071117243, 2928282753802966791, 4144383358731160429, 12673586709493869907, 12918170109018188791, 844088361957958231⟩,
  ⟨1430247552210236986, 3854575382974307965, 14917507996414511245, 207936139448560, 9498310774218301406, 1438631746617682181⟩,
  ⟨11079511902567680319, 18338468344530008184, 6769016392463638666, 1504264063027988936, 8098359051856762276, 760455062874047829⟩,
  ⟨3122824077082063463, 2111517899915568999, 14844585557031220083, 14713720721132803039, 9041847780307969683, 950267513573868304⟩]

/-- isogeny.go:120-135 `isogenyConstansG1[3]`, highest index first. -/
def iso1yDen : List Fe := [
  ⟨8505329371266088957, 17002214543764226050, 6865905132761471162, 8632934651105793861, 6631298214892334189, 1582556514881692819⟩,
  ⟨662485641082390837, 260809847827618849, 6177381409359357075, 18231947741742261351, 18128540110746580014, 1079107229429227022⟩,
  ⟨9132548444917292754, 16464415422105000789, 6319313500251671073, 12727658548847517900, 10985275115076354035, 1431541893474124246⟩,
  ⟨1160821217138360586, 13542760608074182996, 11595911004531652098, 18158686636947034451, 13330657138280564947, 1773960737279760188⟩,
  ⟨13940503876759740187, 8772047862193200131, 6080360161890657205, 7935486160089058373, 9407473295146243021, 1255078947940629503⟩,
  ⟨17809450171377747225, 15896956440537434491, 8451524482089653422, 1694507265233574136, 18224201536921880842, 317503425606567070⟩,
  ⟨9144875514986933294, 16561351410666797616, 8591333879886582656, 15059370240386191395, 7834396448114781869, 946553772269403391⟩,
  ⟨9130114290642375589, 14069725355798443159, 6621984191700563591, 270173975669947883, 6218390495944243859, 1077419361593130421⟩,
  ⟨4727074327869776987, 15736954329525418288, 14642679026711520511, 11429849039208981702, 17333567062758618213, 951235897335772166⟩,
  ⟨11149806480082726900, 3664985661428410608, 18095361538178773836, 14174906593575241395, 15305104369759711886, 901234928011491053⟩,
  ⟨14298637377310410728, 10963101290308221781, 8192510423058716701, 1175370967867267532, 1029599188863854120, 678981456155013844⟩,
  ⟨3586995257703132870, 2143554115308730112, 15207899356205612465, 4372523065560113828, 12811868595146042778, 307251632623424763⟩,
  ⟨17472832885692408710, 9911075278795900735, 2614390623136861791, 14474775734428698630, 6462878218464609418, 1225960780180864957⟩,
  ⟨3164260796573156764, 2639884922337322818, 1251365706181388855, 13142429936036186189, 359878619957828340, 126848055205862465⟩,
  ⟨7019489280640006651, 8025136855967848721, 17464762292772824538, 4490335113250743896, 7652702793653159798, 1129822927746498110⟩,
  ⟨16963992846030154524, 1796759822929186144, 15995221960860457854, 8232142361908220707, 5977498266010213481, 759868220591477233⟩]

/-- isogeny.go:9-22: one of the four Horner evaluations of `isogenyMapG1`, from the coefficient list. -/
def horner1 (x : Fe) : List Fe → Fe
  | [] => Fe.zero
  | c :: cs => cs.foldl (fun acc k => Fe.add (Fe.mul acc x) k) c

/-- isogeny.go:4-30 `isogenyMapG1`. -/
def isogenyG1 (x y : Fe) : Fe × Fe :=
  let xd := Fe.inverse (horner1 x iso1xDen)
  let yd := Fe.inverse (horner1 x iso1yDen)
  (Fe.mul (horner1 x iso1xNum) xd, Fe.mul (Fe.mul (horner1 x iso1yNum) yd) y)

/-- bls12_381.go:260 `cofactorEFFG1`. -/
def cofactorEffG1 : Nat := 0xd201000000010001

/-- bls12_381.go:76-77 `cofactorG1`. -/
def cofactorG1 : Nat := 0x396c8c005555e1568c00aaab0000aaab

/-- g1.go:446-448 `ClearCofactor`. -/
def clearCofactorG1 (bd : Build) (p : P3 Fe) : P3 Fe := (g1 bd).mulScalar p cofactorEffG1

/-- g1.go:441-443 `MulByCofactor`. -/
def mulByCofactorG1 (bd : Build) (p : P3 Fe) : P3 Fe := (g1 bd).mulScalar p cofactorG1

/-- g2.go:450-452 `ClearCofactor`. -/
def clearCofactorG2 (bd : Build) (p : P3 Fe2) : P3 Fe2 := (g2 bd).mulScalar p cofactorG2

/-- g1.go:517-522, 535-540: `MapToCurve` and `EncodeToPoint` from the field element on. -/
def encodeG1 (bd : Build) (u : Fe) : P3 Fe :=
  let q := swuG1 bd u
  let i := isogenyG1 q.1 q.2
  (g1 bd).affine (clearCofactorG1 bd ⟨i.1, i.2, Fe.one⟩)

/-- g1.go:512-523 `MapToCurve`; `none` is the error return. -/
def mapToCurveG1 (bd : Build) (b : Bytes) : Option (P3 Fe) := (Fe.fromBytes b).map (encodeG1 bd)

/-- g1.go:529-541 `EncodeToPoint`; `none` is the error return. -/
def encodeToG1 (bd : Build) (H : Bytes → Bytes) (msg domain : Bytes) : Go (Option (P3 Fe)) := do
  match ← hashToFp H msg domain 1 with
  | some [a] => return some (encodeG1 bd a)
  | _ => return none

/-- g1.go:552-561: `HashToCurve` after `hashToFpXMDSHA256`. -/
def mapToG1 (bd : Build) (u0 u1 : Fe) : P3 Fe :=
  let g := g1 bd
  let q0 := swuG1 bd u0
  let q1 := swuG1 bd u1
  let p := g.affine (g.addPt ⟨q0.1, q0.2, Fe.one⟩ ⟨q1.1, q1.2, Fe.one⟩)
  let i := isogenyG1 p.x p.y
  g.affine (clearCofactorG1 bd ⟨i.1, i.2, p.z⟩)

/-- g1.go:547-562 `HashToCurve`; `none` is the error return. -/
def hashToG1 (bd : Build) (H : Bytes → Bytes) (msg domain : Bytes) : Go (Option (P3 Fe)) := do
  match ← hashToFp H msg domain 2 with
  | some [a, b] => return some (mapToG1 bd a b)
  | _ => return none

/-- g2.go:522-527: `EncodeToCurve` after `hashToFpXMDSHA256`. -/
def encodeG2 (bd : Build) (u : Fe2) : P3 Fe2 :=
  let q := swuG2 bd u
  let i := isogenyG2 bd q.1 q.2
  (g2 bd).affine (clearCofactorG2 bd ⟨i.1, i.2, Fe2.one⟩)

/-- g2.go:515-529 `EncodeToCurve`; `none` is the error return. -/
def encodeToG2 (bd : Build) (H : Bytes → Bytes) (msg domain : Bytes) : Go (Option (P3 Fe2)) := do
  match ← hashToFp H msg domain 2 with
  | some [a, b] => return some (encodeG2 bd ⟨a, b⟩)
  | _ => return none

end Verif.Bls
