import Mathlib.Analysis.Real.Pi.Bounds

/-! Bounds on pi with 35 digits, written by tools/pibounds.py: enough to compare pi with the literal of `GLM_PI`. -/

namespace Cglm
open Real

theorem pi_gt_d35 : 3.14159265358979323846264338327950288 < π := by
  pi_lower_bound [
    14142135623730950488016887242096980785696718753769480731766797379907324784621070388503875343276415728/10^100,
    18477590650225735122563663787935765736448332517272849722301954625610700150022047174296798697006891923/10^100,
    19615705608064608982523644722684780739478674617866721900058321770906130270992101278301299717066015266/10^100,
    19903694533443937724896739062189598431509497374597141236672259315697803337891730759450581685392967806/10^100,
    19975909124103447854295432095182013888864072294092235886856341473712198119043148076623784885327883421/10^100,
    19993976373924084402315312993323443937001221625154592492882475758527633375094295500838032110553261466/10^100,
    19998494036782890818432929823927664487012129376044356604881673460029674427737682669587003483178736753/10^100,
    19999623505652022853139808754571354323478345018886701838803153901616421389531801310890124520540051444/10^100,
    19999905876191523430231602514002397991059752672443753082214739734876466022262867047820192476562608151/10^100,
    19999976469034038198580514203430520380965358457795300784477250589102236171569395932608807081327797035/10^100,
    19999994117257644383204564354775313542325277986986032027835919837953142989261252486926550168992037744/10^100,
    19999998529314357022894629614147757138964023113778455381294642911426883238352783442137943938235451204/10^100,
    19999999632328585876166938308058194290101521024855607067506275781091976594422728773453538506253475414/10^100,
    19999999908082146257819438662792122979177886063789056480615056533571519407830625509536782830947791709/10^100,
    19999999977020536551253466155891082168010748323885642468356582766696923680854944264590474257654443440/10^100,
    19999999994255134136988279444372835521781789158365705054214194159291298767281583104309590245344037375/10^100,
    19999999998563783534195501917677009805209606662190316039060827824502520047552951007106559708454732036/10^100,
    19999999999640945883545652482955682147592783749925516017095591856487515604750904101019013622126259567/10^100,
    19999999999910236470886211683459946488830292029306281823619867270156693618771713371182267353305449775/10^100,
    19999999999977559117721540331035050730076984438210452300549394227818474713704345782529133884556729680/10^100,
    19999999999994389779430384295894391689040360190000604277594550681279575702282453853049528341350566231/10^100,
    19999999999998597444857596024794574735164210862934677297047023644380894472981115899862825619265164133/10^100,
    19999999999999649361214399003124954734597506378970304192262434608680480152923025091452116951095256335/10^100,
    19999999999999912340303599750589133124324779106699115367600670275658405603537722408947416944963641626/10^100,
    19999999999999978085075899937635276683623407420515878950000529909822947605826984365517434928200209667/10^100,
    19999999999999994521268974984408068758564740145163473125516239700020810288975150688773903264818437742/10^100,
    19999999999999998630317243746101970288869865554414812784243501541174627094971373773778776898518606554/10^100,
    19999999999999999657579310936525489640919258920986399540632300406845423545535189520747089239981045868/10^100,
    19999999999999999914394827734131372227023676763520517622524139125254289659784575805482515940303129443/10^100,
    19999999999999999978598706933532843045305535567959749251963763000905254939254962152671011998648127379/10^100,
    19999999999999999994649676733383210760610734915557413553195288595483922785647045734532885784746941262/10^100,
    19999999999999999998662419183345802690107955667862320653308602519379786401042517936949811497690836772/10^100,
    19999999999999999999665604795836450672524193413151390617390215162848312662096201178113881738843673232/10^100,
    19999999999999999999916401198959112668130873634299460807726494593709891133534025853096283229113949152/10^100,
    19999999999999999999979100299739778167032707488638091024017807437203665821839524503278049852469103268/10^100,
    19999999999999999999994775074934944541758176189663474369884838345921128984862685293438304641148144381/10^100,
    19999999999999999999998693768733736135439544004759865568338733741891259599061148193837602504014095093/10^100,
    19999999999999999999999673442183434033859885998523966203076403695185957454158095003020556205771641661/10^100,
    19999999999999999999999918360545858508464971499464366538956083440028560093030323711198903133504751793/10^100,
    19999999999999999999999979590136464627116242874855677571500707267271644433223275448191268723791377602/10^100,
    19999999999999999999999994897534116156779060718713268513922782217271942633762620387117035609806392480/10^100,
    19999999999999999999999998724383529039194765179678276448546170891846362628779110592370221726053422980/10^100,
    19999999999999999999999999681095882259798691294919566569640634931557114217840890575946273993485316137/10^100,
    19999999999999999999999999920273970564949672823729891483504164495926498777000604068530227211392964783/10^100,
    19999999999999999999999999980068492641237418205932472860944416484171450958158924846268922992769880747/10^100,
    19999999999999999999999999995017123160309354551483118214615377581054726881034029575733603440068163086/10^100,
    19999999999999999999999999998754280790077338637870779553615048986514423229101901041691382743962483929/10^100,
    19999999999999999999999999999688570197519334659467694888401337533581777151578187363407681797341948873/10^100,
    19999999999999999999999999999922142549379833664866923722100182838830017496913466347288472116351269238/10^100,
    19999999999999999999999999999980535637344958416216730930525036238172165199792049055974402499058433749/10^100,
    19999999999999999999999999999995133909336239604054182732631258467572082601545742418315618403993742747/10^100,
    19999999999999999999999999999998783477334059901013545683157814579894835731736293739224030712198006125/10^100,
    19999999999999999999999999999999695869333514975253386420789453642661322375518439568221328059999439521/10^100,
    19999999999999999999999999999999923967333378743813346605197363410520806434041132775393789538871730456/10^100,
    19999999999999999999999999999999980991833344685953336651299340852621168848520378374057100979959924517/10^100,
    19999999999999999999999999999999995247958336171488334162824835213154727664630725542277316094692605624/10^100,
    19999999999999999999999999999999998811989584042872083540706208803288646631938970819867019076779565437/10^100,
    19999999999999999999999999999999999702997396010718020885176552200822159452721073294610360397514042237/10^100,
    19999999999999999999999999999999999925749349002679505221294138050205539725351288985505315451148457490/10^100,
    19999999999999999999999999999999999981437337250669876305323534512551384922723511037742124197272736056/10^100,
    19999999999999999999999999999999999995359334312667469076330883628137846230142483308895893257723535370/10^100,
    19999999999999999999999999999999999998839833578166867269082720907034461557501971174065245952456218303/10^100,
    19999999999999999999999999999999999999709958394541716817270680226758615389373389690193891027990637980/10^100,
    19999999999999999999999999999999999999927489598635429204317670056689653847343215978590821478239945958/10^100]

theorem pi_lt_d35 : π < 3.14159265358979323846264338327950289 := by
  pi_upper_bound [
    14142135623730950488016887242096980785696718753769480731766797379907324784621070388503875343276415727/10^100,
    18477590650225735122563663787935765736448332517272849722301954625610700150022047174296798697006891921/10^100,
    19615705608064608982523644722684780739478674617866721900058321770906130270992101278301299717066015264/10^100,
    19903694533443937724896739062189598431509497374597141236672259315697803337891730759450581685392967805/10^100,
    19975909124103447854295432095182013888864072294092235886856341473712198119043148076623784885327883420/10^100,
    19993976373924084402315312993323443937001221625154592492882475758527633375094295500838032110553261465/10^100,
    19998494036782890818432929823927664487012129376044356604881673460029674427737682669587003483178736752/10^100,
    19999623505652022853139808754571354323478345018886701838803153901616421389531801310890124520540051443/10^100,
    19999905876191523430231602514002397991059752672443753082214739734876466022262867047820192476562608150/10^100,
    19999976469034038198580514203430520380965358457795300784477250589102236171569395932608807081327797033/10^100,
    19999994117257644383204564354775313542325277986986032027835919837953142989261252486926550168992037743/10^100,
    19999998529314357022894629614147757138964023113778455381294642911426883238352783442137943938235451202/10^100,
    19999999632328585876166938308058194290101521024855607067506275781091976594422728773453538506253475413/10^100,
    19999999908082146257819438662792122979177886063789056480615056533571519407830625509536782830947791707/10^100,
    19999999977020536551253466155891082168010748323885642468356582766696923680854944264590474257654443439/10^100,
    19999999994255134136988279444372835521781789158365705054214194159291298767281583104309590245344037373/10^100,
    19999999998563783534195501917677009805209606662190316039060827824502520047552951007106559708454732035/10^100,
    19999999999640945883545652482955682147592783749925516017095591856487515604750904101019013622126259566/10^100,
    19999999999910236470886211683459946488830292029306281823619867270156693618771713371182267353305449774/10^100,
    19999999999977559117721540331035050730076984438210452300549394227818474713704345782529133884556729678/10^100,
    19999999999994389779430384295894391689040360190000604277594550681279575702282453853049528341350566229/10^100,
    19999999999998597444857596024794574735164210862934677297047023644380894472981115899862825619265164131/10^100,
    19999999999999649361214399003124954734597506378970304192262434608680480152923025091452116951095256334/10^100,
    19999999999999912340303599750589133124324779106699115367600670275658405603537722408947416944963641625/10^100,
    19999999999999978085075899937635276683623407420515878950000529909822947605826984365517434928200209666/10^100,
    19999999999999994521268974984408068758564740145163473125516239700020810288975150688773903264818437741/10^100,
    19999999999999998630317243746101970288869865554414812784243501541174627094971373773778776898518606552/10^100,
    19999999999999999657579310936525489640919258920986399540632300406845423545535189520747089239981045867/10^100,
    19999999999999999914394827734131372227023676763520517622524139125254289659784575805482515940303129441/10^100,
    19999999999999999978598706933532843045305535567959749251963763000905254939254962152671011998648127378/10^100,
    19999999999999999994649676733383210760610734915557413553195288595483922785647045734532885784746941261/10^100,
    19999999999999999998662419183345802690107955667862320653308602519379786401042517936949811497690836771/10^100,
    19999999999999999999665604795836450672524193413151390617390215162848312662096201178113881738843673230/10^100,
    19999999999999999999916401198959112668130873634299460807726494593709891133534025853096283229113949151/10^100,
    19999999999999999999979100299739778167032707488638091024017807437203665821839524503278049852469103267/10^100,
    19999999999999999999994775074934944541758176189663474369884838345921128984862685293438304641148144379/10^100,
    19999999999999999999998693768733736135439544004759865568338733741891259599061148193837602504014095091/10^100,
    19999999999999999999999673442183434033859885998523966203076403695185957454158095003020556205771641660/10^100,
    19999999999999999999999918360545858508464971499464366538956083440028560093030323711198903133504751792/10^100,
    19999999999999999999999979590136464627116242874855677571500707267271644433223275448191268723791377601/10^100,
    19999999999999999999999994897534116156779060718713268513922782217271942633762620387117035609806392479/10^100,
    19999999999999999999999998724383529039194765179678276448546170891846362628779110592370221726053422979/10^100,
    19999999999999999999999999681095882259798691294919566569640634931557114217840890575946273993485316136/10^100,
    19999999999999999999999999920273970564949672823729891483504164495926498777000604068530227211392964782/10^100,
    19999999999999999999999999980068492641237418205932472860944416484171450958158924846268922992769880745/10^100,
    19999999999999999999999999995017123160309354551483118214615377581054726881034029575733603440068163084/10^100,
    19999999999999999999999999998754280790077338637870779553615048986514423229101901041691382743962483927/10^100,
    19999999999999999999999999999688570197519334659467694888401337533581777151578187363407681797341948872/10^100,
    19999999999999999999999999999922142549379833664866923722100182838830017496913466347288472116351269237/10^100,
    19999999999999999999999999999980535637344958416216730930525036238172165199792049055974402499058433748/10^100,
    19999999999999999999999999999995133909336239604054182732631258467572082601545742418315618403993742746/10^100,
    19999999999999999999999999999998783477334059901013545683157814579894835731736293739224030712198006124/10^100,
    19999999999999999999999999999999695869333514975253386420789453642661322375518439568221328059999439519/10^100,
    19999999999999999999999999999999923967333378743813346605197363410520806434041132775393789538871730454/10^100,
    19999999999999999999999999999999980991833344685953336651299340852621168848520378374057100979959924515/10^100,
    19999999999999999999999999999999995247958336171488334162824835213154727664630725542277316094692605622/10^100,
    19999999999999999999999999999999998811989584042872083540706208803288646631938970819867019076779565436/10^100,
    19999999999999999999999999999999999702997396010718020885176552200822159452721073294610360397514042235/10^100,
    19999999999999999999999999999999999925749349002679505221294138050205539725351288985505315451148457488/10^100,
    19999999999999999999999999999999999981437337250669876305323534512551384922723511037742124197272736055/10^100,
    19999999999999999999999999999999999995359334312667469076330883628137846230142483308895893257723535368/10^100,
    19999999999999999999999999999999999998839833578166867269082720907034461557501971174065245952456218301/10^100,
    19999999999999999999999999999999999999709958394541716817270680226758615389373389690193891027990637978/10^100,
    19999999999999999999999999999999999999927489598635429204317670056689653847343215978590821478239945957/10^100]

end Cglm
