import Verif.Proof.FivePointElim
import Mathlib.Data.List.GetD

/-!
# Five correspondences of a known relative pose

The rows of the five correspondences are orthonormal, so that singular vectors with rational entries
exist. The numbers are in integers, so that the kernel can compute with them.
-/

namespace OpenGV

open Matrix Spec

/-- A matrix given by the lists of its rows. -/
def intMat (n m : ℕ) (l : List (List ℤ)) : Matrix (Fin n) (Fin m) ℤ :=
  Matrix.of fun i j => (l.getD i []).getD j 0

/-- `68297125` times the right singular vectors of the example. -/
def exV : List (List ℤ) :=
  [[-10103125, -24247500, 0, 0, 0, -50434800, 0, 37826100, 0],
   [-24247500, -58194000, 0, 0, 0, 21014500, 0, -15760875, 0],
   [63043500, -26268125, 0, 0, 0, 0, 0, 0, 0],
   [0, 0, 65565240, -19123195, 0, 0, 0, 0, 0],
   [0, 0, -15298556, -52452192, 0, 0, -32782620, 0, -24586965],
   [0, 0, -11473917, -39339144, 0, 0, 43710160, 0, 32782620],
   [0, 0, 0, 0, -22392500, -38443275, 4563000, -51257700, -6084000],
   [0, 0, 0, 0, -50383125, 13435500, 24183900, 17914000, -32245200],
   [0, 0, 0, 0, -40306500, 4563000, -32764875, 6084000, 43686500]]

/-- The table of Nister for the example, in integers. -/
def exNisterA : List (List ℤ) :=
  [[0, 0, 1851171049825929000000, 3332107889686672200000, 0, 1388378287369446750000,
    -2499080917265004150000, 0, 1079849779065125250000, -1943729602317225450000, 0,
    809887334298843937500, -3332107889686672200000, -1851171049825929000000, 1457797201737919087500,
    0, 0, -1388378287369446750000, 2499080917265004150000, 0],
   [-236652717660090956250000, 0, -1109655769541962500000, 237790732649738043750000,
    173756924703612717187500, 1479541026055950000000, -178343049487303532812500, 0,
    -647299198899478125000, -6767320180514400000000, -234941936453590518750000,
    863065598532637500000, 239764534369054743750000, 1109655769541962500000, 5075490135385800000000,
    0, 178306047457261607812500, -1479541026055950000000, -179823400776791057812500, 0],
   [0, -20305071953120448000000, 88019881824275095500000, 168870852146372594400000, 0,
    66014911368206321625000, 225161136195163459200000, 38918054576814192000000,
    -54822453697783512000000, -98507997085384013400000, 0, -41116840273337634000000,
    -168870852146372594400000, 72029999495754904500000, -131343996113845351200000,
    4512238211804544000000, 0, 54022499621816178375000, -225161136195163459200000,
    -27073429270827264000000],
   [-173844297785692782421875, -5959548308991493125000, -34009222852072333125000,
    50209194503253329578125, -240003778065051182812500, 45345630469429777500000,
    66945592671004439437500, -32919409706810152500000, 82939985933420070000000,
    344291619450879974250000, -187187791939066592578125, -110586647911226760000000,
    -50209194503253329578125, -9818393621491479375000, 459055492601173299000000,
    60446847134056573125000, -234985711887714023437500, 13091191495321972500000,
    -66945592671004439437500, -7946064411988657500000],
   [87132563027119053437500, 0, 114907735422569466000000, -39403455684660438962500,
    -94388129289183085078125, -153210313896759288000000, 29552591763495329221875, 0,
    67029512329832188500000, 31886063466902681400000, 100441970410755792812500,
    -89372683106442918000000, -48703557529173721037500, -114907735422569466000000,
    -23914547600177011050000, 0, -58997205109967209921875, 153210313896759288000000,
    36527668146880290778125, 0],
   [0, -150432925091470590562500, 117484278621557603437500, -71443865317346262000000, 0,
    88113208966168202578125, -95258487089795016000000, -119442072050226283921875,
    26162122249657485000000, 41675588101785319500000, 0, 19621591687243113750000,
    71443865317346262000000, 125114897611041036562500, 55567450802380426000000,
    -153465890114297955187500, 0, 93836173208280777421875, 95258487089795016000000,
    -111377142330435337078125],
   [75808062877252594687500, 114295055349985993957500, -19898241644704563562500,
    -1746242250539412112500, 81370102727764191250000, 26530988859606084750000,
    -2328323000719216150000, -150159427881486990330000, 199055966240208168000000,
    -96624143249782075200000, 43783676909155450312500, -265407954986944224000000,
    26435799530647026487500, 38159748508689485437500, -128832190999709433600000,
    110664839065766033002500, 93413461553373373750000, -50879664678252647250000,
    35247732707529368650000, -151524637424270565390000],
   [20270846425770720000000, 0, -143018193850688520000000, -78447184265409519300000,
    38852455649393880000000, 190690925134251360000000, 58835388199057139475000, 0,
    -83427279746234970000000, -41744028713089435200000, -4504632539060160000000,
    111236372994979960000000, -66271842557425100700000, 143018193850688520000000,
    31308021534817076400000, 0, -27027795234360960000000, -190690925134251360000000,
    49703881918068825525000, 0],
   [0, 202889755538843949550000, -206085301629772971250000, -4512308434635280500000, 0,
    -154563976222329728437500, -6016411246180374000000, 154823762073497873362500,
    -5865010823112480000000, 2632179920203913625000, 0, -4398758117334360000000,
    4512308434635280500000, -207795929786514111250000, 3509573226938551500000,
    204107293022719533850000, 0, -155846947339885583437500, 6016411246180374000000,
    151586219218646887837500],
   [-5959548308991493125000, -151714680798123960781875, 42792867718730582578125,
    -27027970521349990725000, 32919409706810152500000, -57057156958307443437500,
    -36037294028466654300000, 203961725503036032252500, -293436807214152566250000,
    -72468107437336556400000, 60446847134056573125000, 391249076285536755000000,
    -5891439185460161775000, -42792867718730582578125, -96624143249782075200000,
    -154437343011288931498125, 7946064411988657500000, 57057156958307443437500,
    -7855252247280215700000, 202937818345948350957500]]

/-- Inverse of the left half, up to a factor. -/
def exNisterN : List (List ℤ) :=
  [[10668030130767883239900320008254358950, 1971739959996456053550544398392912260,
    -815444503720292630419336046453570100, 665524829500615690993094215084827180,
    4943018959715615881247583680509873008, -1803547516251761696094325335394935120,
    1178380437129611142155016709892699619, 3947069501861135497189377277201299756,
    -1280612722665802678232221483153481340, 1046465737982943657207842201364673308],
   [-7326763245430790564532815237308038750, -1401877785387001882595404146872188500,
    555502448147965995467433184754722500, -953593744493730974535277606175305500,
    -3510329665371263165682761227973002800, 1240743851342496891433498809131802000,
    -1906446407828075739710357630306219775, -2797397942774748377977594886042627100,
    878762642105633317968454395326851500, -1603918777286684126910205866492420300],
   [-7813184483976143468356841819605394850, -1392559131588852499712034988749003180,
    716699320154511530111042034615210300, -906368119266930500289623857035712740,
    -3483207144763125368196013727933471184, 1601383579717357872470529609552347760,
    -1791147574894146073496447225062996737, -2803435630117783085937905589200444388,
    1113159276714029628249202352209460820, -1508902099930237600725116853446412084],
   [9257434770042090676009727863939100250, 1567707293785213214518890988861656700,
    -736605294012965146903797938083159500, 694792642946329571278448329134278100,
    3886017016408438734888426951658607760, -1687394483373682693356812320531316400,
    1279357796495027425122682067471819805, 3099648030587245379342692789522820820,
    -1193394858208678793563676561422887300, 1112301982408916077507149698093356260],
   [-190364765709119745472753384373153400, 553986802745038588259195680047868080,
    342859697907295236738038699389200, -49619082059218639946206050336808560,
    1284230640375468238902966804698259264, 11094161021998908531370067625791040,
    -143556501149793735672555521876301948, 1026110591376148637072640517871234448,
    4760990831107790934167925459503280, -110879339155944495868020888208428336],
   [-1947926451645759276932472712774780200, -509665211905535726482147701669147760,
    349307420848818422294076143738439600, -379775828634497457609091186770985680,
    -1280000024368089435632799796237850688, 792411482908450103767736899497520320,
    -779329627205341729604866658375078484, -984712730354414060096412224636600016,
    556672576650756467777525250750180240, -660216641694007701381872735034889488],
   [-2098249627185442645330745254740165000, -85887454824087717168569943555918000,
    109272227726555484256873709433270000, -7664205993338035059137677042074000,
    -212072086827491935485121526060654400, 173127016156538853040779821477016000,
    3089730322893129176619472544178300, -172658248668424826652200816917990800,
    126518543549055478271351026371762000, -14465649677204012533497319983944400],
   [-2634660592263552148219282418691255000, -504701064079260669621089313718234000,
    573938534890057204233417773604690000, -314192016992790317020765433624862000,
    -1262065126803037138365549087995275200, 1290703006325415138118585510418568000,
    -617577324451747124303972032513181100, -1007843462934343760237469253437956400,
    957264320422652572992602435365926000, -529365777338948482768199113930345200],
   [-511364436657551154968521015878327000, -101362443544954249402678639250547600,
    295206522542295864969353614175826000, 103555049696375253667464966426133200,
    -243645877589335140488143890062854080, 668356064747760603185692516295611200,
    269603821969310800981632986912703060, -206590992385926857712128653452640560,
    502504300389900948958275374642828400, 168825254470722174768101162563867920],
   [3541110517455231384906169465027269000, 1051319104990483743733045935734401200,
    -307165091473069111215771789456822000, 123981482832839568356147783888691600,
    2567422877891427833808303233827479360, -652823789411809997612059064065790400,
    76473332005481813369758847970862980, 2047593810143521492814312684242949520,
    -471542438860927801371048987951742800, 110560964419795792018693757447025360]]

/-- The reduced matrix, up to a factor. -/
def exNisterP : List (List ℤ) :=
  [[9148452107642696212773056768012200, 55019527416857134893710880003705675,
    -112448378673839374790025339691414065, -72887886806567222665238657982289317,
    137068588398941266078069006808010375, 33097125214147330273532861710282608,
    -135198460581136023492415507756811520, -29237139866667359814693466560118344,
    66533522141468875556081984393431080, 91516264711511406059668333212089856],
   [-20018008077762861769235025670893000, -36764324034998304858167977254714375,
    80386324467909322358295159334777125, 52955811662702098727852504084982825,
    -94982763179137942417652286522901875, -47003144895059247635954323316255280,
    105301277201366894995620924406176000, 16516054648801416258568811514695400,
    -41239044592240699913265929240253000, -78293487458480925920065352277603840],
   [-16006989720719330559399964400157240, -41092920602045313473533969699251705,
    84619684256358970695025527927346395, 60657294687207262547671642970204631,
    -101628957316270661320963813049386125, -56316126506893085884994956614507984,
    106342813651437638523407405180839680, 35920754085151765133744155968315672,
    -45348909818574083408134573851827640, -90361920599244877533753210694322688],
   [1962153991745326367219789801920600, 43989124594477860403861167542419125,
    -93846366385022551911512600098960335, -64494282748388081323745829526913115,
    113309192983197722438741032180269945, 38056815362922570959250462670319760,
    -109187720822609214396004004175379200, -24807733697911700927171692639498680,
    39917645860077589904254122685818840, 85097433331429683587971402165240320],
   [-15136430695714561540215528462316320, 126196289255487969568952296812900,
    4815073103303866190410504794088980, 524897189058570195572231440048164,
    17498839988253367150372003909720500, -3975338671670793397783664216223936,
    -11730866882588393672062874333905920, 1879208831608599818405551756959648,
    -3259806957612327456790810077699360, -1401320846996806899434655762634752],
   [-11694228697970067757603200361859680, -12589394584515412379447983251291060,
    22950395832117259243877417625586140, 32171112111283411126330303133136012,
    -25022080215454338094545456914578500, -21780133698939286481176909881780288,
    35823507977181665601067943886965760, -2222867350307098202162249231924256,
    -8926520581974583220951612289552480, -41817789863310819041916060165359616],
   [559936343524691933505638023476000, -14856387200329229068303086608902500,
    5119606972694165369294294382379500, 11996445825008079762027216188123100,
    -16970429244282837395986569287266740, 2967953410792519416625623346065600,
    6125171389991705090973052637568000, 7693122056109049132454708586799200,
    -20332961298147389683320952863279840, -10220537654799542927823801001420800],
   [-6182058030780136722741470774212000, -20466353484489641222756819484007500,
    29052183412867509130101773527678500, 18000583769755106324463023651517300,
    -34458683968095846298391237288557500, -9074023340917472435724855134869440,
    37723200785964557253269842733184000, 5214972604032432805554022433133600,
    -14546493272843061860156018459652000, -40751305625389093832117087535882240],
   [4623583726568923202626568972143200, -31745728395697879653171694675948620,
    6473862960003312979799174362596900, 2869165872483465291516066825927540,
    -8426894315942820563512745818477500, 18109652014558719131872801372153920,
    6505127274791052654912118487577600, 872680662926510769717640110773280,
    -1202752887241855100601894919120800, -21816808810340320240356166252738560],
   [-18385340586331831262197322977178400, 21108491586443567954176116543238500,
    -35459278866637439722196754302589420, -26186401375912245432135243496882140,
    82972038213752251755313744343005620, 2293588040716598662147050537111360,
    -64573120615142907313695615583411200, -6218626440120529872363519885072480,
    20771919538450349498251852434121440, 30972734312183779163980288047851520]]

/-- The factor of the reduced matrix. -/
def exNisterD : ℤ := 18329880503199754045266820028835840

/-- The factor of the inverse. -/
def exNisterDn : ℤ := 11487309212130143581937394554553557566549549855200000000000

/-- The table of Stewenius for the example, in integers. -/
def exSteweniusA : List (List ℤ) :=
  [[-236652717660090956250000, -1109655769541962500000, 237790732649738043750000, 0,
    173756924703612717187500, -647299198899478125000, -178343049487303532812500,
    -234941936453590518750000, 1109655769541962500000, 178306047457261607812500,
    1479541026055950000000, -6767320180514400000000, 0, 863065598532637500000,
    5075490135385800000000, -1479541026055950000000, 239764534369054743750000, 0,
    -179823400776791057812500, 0],
   [0, 88019881824275095500000, 168870852146372594400000, -20305071953120448000000, 0,
    -54822453697783512000000, 225161136195163459200000, 0, 72029999495754904500000, 0,
    66014911368206321625000, -98507997085384013400000, 38918054576814192000000,
    -41116840273337634000000, -131343996113845351200000, 54022499621816178375000,
    -168870852146372594400000, 4512238211804544000000, -225161136195163459200000,
    -27073429270827264000000],
   [-173844297785692782421875, -34009222852072333125000, 50209194503253329578125,
    -5959548308991493125000, -240003778065051182812500, 82939985933420070000000,
    66945592671004439437500, -187187791939066592578125, -9818393621491479375000,
    -234985711887714023437500, 45345630469429777500000, 344291619450879974250000,
    -32919409706810152500000, -110586647911226760000000, 459055492601173299000000,
    13091191495321972500000, -50209194503253329578125, 60446847134056573125000,
    -66945592671004439437500, -7946064411988657500000],
   [87132563027119053437500, 114907735422569466000000, -39403455684660438962500, 0,
    -94388129289183085078125, 67029512329832188500000, 29552591763495329221875,
    100441970410755792812500, -114907735422569466000000, -58997205109967209921875,
    -153210313896759288000000, 31886063466902681400000, 0, -89372683106442918000000,
    -23914547600177011050000, 153210313896759288000000, -48703557529173721037500, 0,
    36527668146880290778125, 0],
   [0, 117484278621557603437500, -71443865317346262000000, -150432925091470590562500, 0,
    26162122249657485000000, -95258487089795016000000, 0, 125114897611041036562500, 0,
    88113208966168202578125, 41675588101785319500000, -119442072050226283921875,
    19621591687243113750000, 55567450802380426000000, 93836173208280777421875,
    71443865317346262000000, -153465890114297955187500, 95258487089795016000000,
    -111377142330435337078125],
   [75808062877252594687500, -19898241644704563562500, -1746242250539412112500,
    114295055349985993957500, 81370102727764191250000, 199055966240208168000000,
    -2328323000719216150000, 43783676909155450312500, 38159748508689485437500,
    93413461553373373750000, 26530988859606084750000, -96624143249782075200000,
    -150159427881486990330000, -265407954986944224000000, -128832190999709433600000,
    -50879664678252647250000, 26435799530647026487500, 110664839065766033002500,
    35247732707529368650000, -151524637424270565390000],
   [20270846425770720000000, -143018193850688520000000, -78447184265409519300000, 0,
    38852455649393880000000, -83427279746234970000000, 58835388199057139475000,
    -4504632539060160000000, 143018193850688520000000, -27027795234360960000000,
    190690925134251360000000, -41744028713089435200000, 0, 111236372994979960000000,
    31308021534817076400000, -190690925134251360000000, -66271842557425100700000, 0,
    49703881918068825525000, 0],
   [0, -206085301629772971250000, -4512308434635280500000, 202889755538843949550000, 0,
    -5865010823112480000000, -6016411246180374000000, 0, -207795929786514111250000, 0,
    -154563976222329728437500, 2632179920203913625000, 154823762073497873362500,
    -4398758117334360000000, 3509573226938551500000, -155846947339885583437500,
    4512308434635280500000, 204107293022719533850000, 6016411246180374000000,
    151586219218646887837500],
   [-5959548308991493125000, 42792867718730582578125, -27027970521349990725000,
    -151714680798123960781875, 32919409706810152500000, -293436807214152566250000,
    -36037294028466654300000, 60446847134056573125000, -42792867718730582578125,
    7946064411988657500000, -57057156958307443437500, -72468107437336556400000,
    203961725503036032252500, 391249076285536755000000, -96624143249782075200000,
    57057156958307443437500, -5891439185460161775000, -154437343011288931498125,
    -7855252247280215700000, 202937818345948350957500],
   [0, 3702342099651858000000, 6664215779373344400000, 0, 0, 2159699558130250500000,
    -4998161834530008300000, 0, -3702342099651858000000, 0, 2776756574738893500000,
    -3887459204634450900000, 0, 1619774668597687875000, 2915594403475838175000,
    -2776756574738893500000, -6664215779373344400000, 0, 4998161834530008300000, 0]]

/-- Inverse of the left half, up to a factor. -/
def exSteweniusN : List (List ℤ) :=
  [[1632112713420197486400, 39728304067322500396020, -15662920534958394064800,
    6667342157653567752960, 90068900628970634272677, -33887474780688576864720,
    6985969149461135146560, 68321009560579329659364, -28172673717502541187420,
    63420013169564019630480],
   [5051977578035481600000, -36127416309613356120000, -2419436919607711200000,
    12124746187285155840000, -81701508387474699687000, -5806648607058506880000,
    6862269543498195840000, -63450762086483604684000, -3286401815800474380000,
    -27794842380143822880000],
   [-3898130847249600000000, 11645090965346707500000, 852207611384700000000,
    -9355514033399040000000, 23177388372986968875000, 2045298267323280000000,
    -5294961067514040000000, 18088790177451204000000, 1157582005464217500000,
    84654408232770480000000],
   [0, -60609403215466562500000, -2142296568900000000000, 0, -136988843174984625000000,
    -5141511765360000000000, 0, -103734852029658000000000, -2909952839422500000000, 0],
   [17362358948251560625200, -7976959392407560550640, 5497791636360753993600,
    39606957741719925161280, -18617420333937403655964, 13801126629546066479040,
    31228363038777880276080, -13970693852113241299248, 11025770485261130335440,
    -17733504579498258709860],
   [1473493460260348800000, 19747281432616113840000, 4375439259326438400000, 3536384304624837120000,
    45094504459935266784000, 10501054222383452160000, 2001495283520307120000,
    34068806734796287488000, 5943304993918412160000, -8106829027541948340000],
   [2923598135437200000000, 15526787953795610000000, 1136276815179600000000, 7016635525049280000000,
    30903184497315958500000, 2727064356431040000000, 3971220800635530000000,
    24118386903268272000000, 1543442673952290000000, -63490806174577860000000],
   [-7600723195221297086400, -28412455038843258271020, 15025047172681156264800,
    -16694707867968247752960, -65280102731692416491427, 35605293187724582364720,
    -12784818974661905146560, -49271659005464867534364, 28872916817578102812420,
    22000984146445497869520],
   [-5051977578035481600000, -24608168807253956380000, 132902648332711200000,
    -12124746187285155840000, -55396380785845794063000, 318966355998506880000,
    -6862269543498195840000, -43577291491185770316000, 180526097318599380000,
    27794842380143822880000],
   [-12885901086900735925200, 23064758097046550050640, -6348289452730404393600,
    -32086433458983915161280, 51669150863641694030964, -11510702086831392479040,
    -26879225669877302776080, 39369827925599190799248, -10092113018493714835440,
    -46332243407508879415140]]

/-- The reduced matrix, up to a factor. -/
def exSteweniusP : List (List ℤ) :=
  [[775915224086341666501875, -627585203713216190664960, 1952834789227774198754547,
    -283711661022498264870000, 282228468141105987822720, -1000744618539985809001875,
    -1162053460989985210398720, -70907057205071802277392, 1173256930940968710167040,
    -1928725912602719158754547],
   [-752755882875748970625000, 202827529178382389760000, -1898564710595750370657000,
    515996550963807570000000, -308039915036283736320000, 1540421947198121270625000,
    504301776121837192320000, -1366973190500423661648000, -495165783205750602240000,
    1103644771956825570657000],
   [1108866764759155078125000, -800518139252441460000000, 616486164274440070125000,
    148577370659793750000000, 195836779651627920000000, -1108866764759155078125000,
    -1462882851167260320000000, 457545130748023338000000, 350686108603333440000000,
    -377310800930640070125000],
   [-168341366842971875000000, -66268373864640000000000, -2885180257984093975000000,
    1154340801208950000000000, -88357831819520000000000, 168341366842971875000000,
    -49701280398480000000000, -1073057262944155200000000, -66268373864640000000000,
    2200588057989783575000000],
   [-252267972950810924122500, -567756684263443016177280, -405710255971607228268804,
    -20329787930642313660000, -460328248633951465835040, 215453803098752234122500,
    415317322882469142167040, 201783571273394037745344, -385347765293722927601280,
    437855424805013948268804],
   [-50016945311099340000000, 216333647973542263680000, 236705714231007745824000,
    -1799705496766649940000000, 119722516287547110240000, 50016945311099340000000,
    264969732007921397760000, 1006925674331371239936000, 12752265194836807680000,
    -1296598965749574145824000],
   [-692136832443446562500000, 195836779651627920000000, 821981552365920093500000,
    -1068095252858295000000000, -686280017788991840000000, 692136832443446562500000,
    350686108603333440000000, 610060174330697784000000, -1258315954481982480000000,
    -503081067907520093500000],
   [217319950501383081466875, -708240584751944925335040, -1418714917320218378785797,
    619213199848694207370000, -835516255384136775822720, -189709323112339063966875,
    -606413484310785301601280, 355473270010126567777392, 217453657094389673832960,
    1461575142431427338785797],
   [1360746401735536114375000, -273557655969822389760000, -1760486377294329185593000,
    716064332208204930000000, 213733079314363736320000, -573080337413163814375000,
    -557349371215417192320000, -779599880473790438352000, 424435656414310602240000,
    347295375269573985593000],
   [-613700443394005245252500, 14468897020412228177280, 1117870085181681654893804,
    -809999316737136221340000, -1198248749056310943164960, 387556257159930435252500,
    975393265152889241832960, 177638045800012316254656, -571871336986421860398720,
    -1060723118366736374893804]]

/-- The factor of the reduced matrix. -/
def exSteweniusD : ℤ := 1050221419096496400000000

/-- The factor of the inverse. -/
def exSteweniusDn : ℤ := 658172222140650952944108309297468750000000000

/-- Left inverse on the complement of the eigenvector, up to a factor. -/
def exSteweniusL : List (List ℤ) :=
  [[-1323833579641400724815625000, 1383212486544549444000000000, 3436580985593794193712375000,
    -3558479759566122815550000000, -346414081214999794500000000, 1323833579641400724815625000,
    4916936045177470564212375000, 781571263178925779742000000, -592019831917698061500000000, 0],
   [-13512940409786126805765322200, 14249163560667342735760973840, 17010531229753557593768853000,
    42723150249598288910805904800, -432394683671404974369967380, -29974653700981227944312245800,
    -32193544807160447948903580120, 12575180246391764421760496000, 38021862869560992068448032340,
    0],
   [-39724513387832102278440331200, 27136875340152329869103588640, 60699110911957229134128888000,
    159542124390636386552732460800, 27832874548561460167536431520, -58122573361394445909234196800,
    -76110887039144146114735991520, -31471024780210444975722384000, 107140466561269756747610204640,
    0],
   [12844235045979045472853479320, -9500993521218215776297137204, -28700585555446394205133681800,
    -71126485304872866870124301880, -18878091064386539884742762397, 13867217967362745736866021480,
    19693859838803970426862090272, 28076481389660210981073662400, -37984779497519426837080144179,
    0],
   [43805108311292257560699708360, -36234720523266538551814836492, -77167372302376282598558741400,
    -191850618284046922679708999240, -38181747418245562278484284531, 66624084261003463282243370040,
    82352083181443524843518350656, 40331646318236260471300315200, -123978874228784412980753341917,
    0],
   [-41587148379117871541186452200, 25262627379371396951821791840, 61580633201452500450072303000,
    161818067071492604112858924800, 26836106918470319627456619120, -60503800405866699684245515800,
    -78067488136286891669500554120, -33095988088642935993433104000, 109383512922814531387937037840,
    0],
   [-1323833579641400724815625000, 1383212486544549444000000000, 3436580985593794193712375000,
    -3558479759566122815550000000, -346414081214999794500000000, 1323833579641400724815625000,
    1480355059583676370500000000, 781571263178925779742000000, -592019831917698061500000000, 0],
   [-13512940409786126805765322200, 14249163560667342735760973840, 17010531229753557593768853000,
    42723150249598288910805904800, -432394683671404974369967380, -29974653700981227944312245800,
    -32193544807160447948903580120, 9138599260797970228048121000, 38021862869560992068448032340, 0],
   [12844235045979045472853479320, -9500993521218215776297137204, -28700585555446394205133681800,
    -71126485304872866870124301880, -18878091064386539884742762397, 13867217967362745736866021480,
    19693859838803970426862090272, 28076481389660210981073662400, -41421360483113221030792519179,
    0],
   [0, 0, 0, 0, 0, 0, 0, 0, 0, 0]]

/-- The factor of the left inverse. -/
def exSteweniusG : ℤ := 3609170959530350789132824352394271822950000000000000

/-- The correspondences: the first two are seen in the same direction in the first frame, and so are
the next two. -/
noncomputable def fiveExample : List (Vec3 × Vec3) :=
  [(![1, 0, 0], ![-25 / 169, -60 / 169, 12 / 13]), (![1, 0, 0], ![-60 / 169, -144 / 169, -5 / 13]),
    (![0, 1, 0], ![24 / 25, -28 / 125, -21 / 125]), (![0, 1, 0], ![-7 / 25, -96 / 125, -72 / 125]),
    (![0, 0, 1], ![-20 / 61, -45 / 61, -36 / 61])]

/-- The rotation of the example. -/
def fiveR : Mat3 := !![0, 0, 1; 1, 0, 0; 0, 1, 0]

/-- The translation of the example. -/
def fiveT : Vec3 := ![9, 5, 12]

/-- The right singular vectors of the example. -/
noncomputable def fiveV : Matrix (Fin 9) (Fin 9) ℝ :=
  Matrix.of fun i j => (intMat 9 9 exV i j : ℝ) / 68297125

/-- The variables of the tables, in integers. -/
def exVar (n : ℕ) : ℤ := (exV.getD (n % 10) []).getD (5 + n / 10) 0

theorem fiveR_isRot : IsRot fiveR := by
  constructor
  · apply mat3_ext <;> simp [fiveR, Matrix.mul_apply, Fin.sum_univ_three]
  · rw [det_fin_three]; simp [fiveR]

theorem fiveT_ne : fiveT ≠ 0 := by
  intro h
  have := congrFun h 0
  simp [fiveT] at this

theorem exV_orth : (intMat 9 9 exV).transpose * intMat 9 9 exV =
    (68297125 ^ 2 : ℤ) • (1 : Matrix (Fin 9) (Fin 9) ℤ) := by
  decide +kernel

theorem fiveV_eq : fiveV = (68297125 : ℝ)⁻¹ • (intMat 9 9 exV).map (Int.castRingHom ℝ) := by
  ext i j
  simp [fiveV, div_eq_inv_mul]

theorem fiveV_orth : fiveV.transpose * fiveV = 1 := by
  rw [fiveV_eq, transpose_smul, Matrix.smul_mul, Matrix.mul_smul, smul_smul, ← Matrix.transpose_map,
    ← Matrix.map_mul, exV_orth]
  ext i j
  simp only [Matrix.smul_apply, Matrix.map_apply, smul_eq_mul, map_mul]
  by_cases h : i = j
  · subst h; simp only [Matrix.one_apply_eq]; norm_num
  · simp only [Matrix.one_apply_ne h, map_zero, mul_zero]

/-- The rows of the correspondences are the first five singular vectors. -/
theorem fiveExample_rows (i : Fin 5) (j : Fin 9) :
    epipolarA fiveExample i j = fiveV j (Fin.castLE (by omega) i) := by
  have hv : ∀ a b : Fin 9, fiveV a b = (((exV.getD a []).getD b 0 : ℤ) : ℝ) / 68297125 := fun _ _ => rfl
  rw [hv]
  have hr : epipolarA fiveExample i j = (![epipolarRow (![1, 0, 0], ![-25 / 169, -60 / 169, 12 / 13]),
      epipolarRow (![1, 0, 0], ![-60 / 169, -144 / 169, -5 / 13]),
      epipolarRow (![0, 1, 0], ![24 / 25, -28 / 125, -21 / 125]),
      epipolarRow (![0, 1, 0], ![-7 / 25, -96 / 125, -72 / 125]),
      epipolarRow (![0, 0, 1], ![-20 / 61, -45 / 61, -36 / 61])] : Fin 5 → Fin 9 → ℝ) i j := by
    fin_cases i <;> rfl
  rw [hr]
  fin_cases i <;> fin_cases j <;>
    simp [epipolarRow, exV] <;> norm_num

theorem svd_of_rows {A : Matrix (Fin 5) (Fin 9) ℝ} {V : Matrix (Fin 9) (Fin 9) ℝ}
    (hV : V.transpose * V = 1) (hr : ∀ i j, A i j = V j (Fin.castLE (by omega) i)) :
    IsRightSvd A V (fun j => if j.1 < 5 then 1 else 0) := by
  have hAV : ∀ (i : Fin 5) (j : Fin 9), (A * V) i j =
      (1 : Matrix (Fin 9) (Fin 9) ℝ) (Fin.castLE (by omega) i) j := by
    intro i j
    rw [← hV, Matrix.mul_apply, Matrix.mul_apply]
    apply Finset.sum_congr rfl
    intro k _
    rw [hr, transpose_apply]
  refine ⟨hV, ?_, ?_, ?_⟩
  · rw [show V.transpose * (A.transpose * A) * V = (A * V).transpose * (A * V) by
      rw [transpose_mul]; simp only [Matrix.mul_assoc]]
    ext a b
    rw [Matrix.mul_apply]
    simp only [transpose_apply, hAV]
    rw [Fin.sum_univ_five]
    fin_cases a <;> fin_cases b <;> simp [Matrix.one_apply]
  · intro i; split_ifs <;> norm_num
  · intro i j hij
    have : i.1 ≤ j.1 := hij
    split_ifs <;> first | omega | norm_num

theorem fiveExample_svd : IsRightSvd (epipolarA fiveExample) fiveV
    (fun j => if j.1 < 5 then 1 else 0) :=
  svd_of_rows fiveV_orth fiveExample_rows

theorem fiveExample_epipolar : ∀ c ∈ fiveExample,
    c.1 ⬝ᵥ ((skew fiveT * fiveR) *ᵥ c.2) = 0 := by
  have hE : skew fiveT * fiveR = !![-12, 5, 0; 0, -9, 12; 9, 0, -5] := by
    apply mat3_ext <;> simp [skew, fiveT, fiveR, Matrix.mul_apply, Fin.sum_univ_three]
  rw [hE]
  simp [fiveExample]
  norm_num

theorem fiveExample_w : skew fiveT * fiveR = ofRows (nullBasis fiveV *ᵥ ![5, 15, -15, 5]) := by
  have hE : skew fiveT * fiveR = ofRows ![-12, 5, 0, 0, -9, 12, 9, 0, -5] := by
    apply mat3_ext <;> simp [skew, fiveT, fiveR, ofRows, Matrix.mul_apply, Fin.sum_univ_three]
  rw [hE]
  congr 1
  have hv : ∀ (a : Fin 9) (b : Fin 4), nullBasis fiveV a b =
    (((exV.getD a []).getD (5 + b.1) 0 : ℤ) : ℝ) / 68297125 := fun _ _ => rfl
  funext i
  simp only [mulVec, dotProduct, Fin.sum_univ_four, hv]
  fin_cases i <;> simp [exV] <;> norm_num

/-! ### The tables -/

theorem exVar_eq (n : ℕ) : eVar (nullBasis fiveV) n = (exVar n : ℝ) / 68297125 := by
  unfold eVar
  split_ifs with h
  · rfl
  · have h0 : exVar n = 0 := by
      unfold exVar
      by_cases h1 : n % 10 < 9
      · have h2 : ¬ n / 10 < 4 := fun h2 => h ⟨h1, h2⟩
        have h3 : n % 10 < exV.length := h1
        rw [List.getD_eq_getElem _ _ h3]
        have h4 : (exV[n % 10]).length = 9 := by
          have : ∀ l ∈ exV, l.length = 9 := by decide
          exact this _ (List.getElem_mem h3)
        rw [List.getD_eq_default _ _ (by omega)]
      · rw [List.getD_eq_default exV _ (by show 9 ≤ _; omega)]
        rfl
    rw [h0]; simp

theorem termsVal_div (v : ℕ → ℤ) (D : ℝ) (l : List Term) :
    termsVal (fun n => (v n : ℝ) / D) l = ((termsVal v l : ℤ) : ℝ) / D ^ 3 := by
  induction l with
  | nil => simp [termsVal]
  | cons a l ih =>
    simp only [termsVal, List.map_cons, List.sum_cons] at ih ⊢
    rw [ih]
    push_cast
    rw [add_div]
    congr 1
    simp only [termVal]
    push_cast
    ring

theorem nister_table : nisterTable.map (List.map (termsVal exVar)) = exNisterA := by decide +kernel

theorem stewenius_table : steweniusTable.map (List.map (termsVal exVar)) = exSteweniusA := by
  decide +kernel

theorem getD_map2 (T : List (List (List Term))) (f : List Term → ℤ) (hf : f [] = 0) (r c : ℕ) :
    ((T.map (List.map f)).getD r []).getD c 0 = f ((T.getD r []).getD c []) := by
  have h1 := List.getD_map (l := T) (d := []) (n := r) (List.map f)
  rw [List.map_nil] at h1
  rw [h1, ← hf, List.getD_map]

theorem nisterA_five (r : Fin 10) (c : Fin 20) : nisterA (nullBasis fiveV) r c =
    (68297125 ^ 3)⁻¹ * (intMat 10 20 exNisterA r c : ℝ) := by
  have : eVar (nullBasis fiveV) = fun n => (exVar n : ℝ) / 68297125 := funext exVar_eq
  simp only [nisterA, Matrix.of_apply, this, termsVal_div, intMat, ← nister_table]
  rw [getD_map2 _ _ rfl, div_eq_inv_mul]

theorem steweniusA_five (r : Fin 10) (c : Fin 20) : steweniusA (nullBasis fiveV) r c =
    (2 * 68297125 ^ 3)⁻¹ * (intMat 10 20 exSteweniusA r c : ℝ) := by
  have : eVar (nullBasis fiveV) = fun n => (exVar n : ℝ) / 68297125 := funext exVar_eq
  simp only [steweniusA, Matrix.of_apply, this, termsVal_div, intMat, ← stewenius_table]
  rw [getD_map2 _ _ rfl, mul_inv]
  ring

theorem map_intSmul {K : Type*} [CommRing K] {n m : ℕ} (d : ℤ) (X : Matrix (Fin n) (Fin m) ℤ) :
    (d • X).map (Int.castRingHom K) = (d : K) • X.map (Int.castRingHom K) := by
  ext i j
  simp only [Matrix.smul_apply, Matrix.map_apply, smul_eq_mul, map_mul, eq_intCast]

theorem map_intOne {K : Type*} [CommRing K] {n : ℕ} :
    (1 : Matrix (Fin n) (Fin n) ℤ).map (Int.castRingHom K) = 1 :=
  Matrix.map_one _ (map_zero _) (map_one _)

theorem reducedA_int {A : Matrix (Fin 10) (Fin 20) ℝ} {c : ℝ} (hc : c ≠ 0)
    {L : Matrix (Fin 10) (Fin 20) ℤ} (hA : ∀ r k, A r k = c * L r k)
    {N P : Matrix (Fin 10) (Fin 10) ℤ} {dn d : ℤ} (hdn : dn ≠ 0) (hd : d ≠ 0)
    (h1 : (Matrix.of fun i j => L i (Fin.castLE (by omega) j)) * N = dn • 1)
    (h2 : (Matrix.of fun i j => L i (Fin.castLE (by omega) j)) * P =
      d • Matrix.of fun i j => L i (Fin.natAdd 10 j)) :
    reducedA A = some ((d : ℝ)⁻¹ • P.map (Int.castRingHom ℝ)) := by
  set L1 : Matrix (Fin 10) (Fin 10) ℤ := Matrix.of fun i j => L i (Fin.castLE (by omega) j) with hL1
  set L2 : Matrix (Fin 10) (Fin 10) ℤ := Matrix.of fun i j => L i (Fin.natAdd 10 j) with hL2
  have e1 : (Matrix.of fun i j => A i (Fin.castLE (by omega) j) : Matrix (Fin 10) (Fin 10) ℝ) =
      c • L1.map (Int.castRingHom ℝ) := by
    ext i j; simp [hL1, hA]
  have e2 : (Matrix.of fun i j => A i (Fin.natAdd 10 j) : Matrix (Fin 10) (Fin 10) ℝ) =
      c • L2.map (Int.castRingHom ℝ) := by
    ext i j; simp [hL2, hA]
  have hdn' : (dn : ℝ) ≠ 0 := by exact_mod_cast hdn
  have hd' : (d : ℝ) ≠ 0 := by exact_mod_cast hd
  have m1 : L1.map (Int.castRingHom ℝ) * N.map (Int.castRingHom ℝ) = (dn : ℝ) • 1 := by
    rw [← Matrix.map_mul, h1, map_intSmul, map_intOne]
  have m2 : L1.map (Int.castRingHom ℝ) * P.map (Int.castRingHom ℝ) =
      (d : ℝ) • L2.map (Int.castRingHom ℝ) := by
    rw [← Matrix.map_mul, h2, map_intSmul]
  have hdet : (c • L1.map (Int.castRingHom ℝ)).det ≠ 0 := by
    intro h
    have := congrArg Matrix.det (show (c • L1.map (Int.castRingHom ℝ)) *
      N.map (Int.castRingHom ℝ) = (c * dn : ℝ) • 1 by rw [Matrix.smul_mul, m1, smul_smul])
    rw [det_mul, h, zero_mul, det_smul, det_one, mul_one] at this
    exact pow_ne_zero _ (mul_ne_zero hc hdn') this.symm
  unfold reducedA
  simp only [e1, e2]
  rw [if_neg hdet]
  congr 1
  have : c • L2.map (Int.castRingHom ℝ) =
      (c • L1.map (Int.castRingHom ℝ)) * ((d : ℝ)⁻¹ • P.map (Int.castRingHom ℝ)) := by
    rw [Matrix.smul_mul, Matrix.mul_smul, m2, smul_smul (d : ℝ)⁻¹, inv_mul_cancel₀ hd',
      one_smul]
  rw [this, ← Matrix.mul_assoc, nonsing_inv_mul _ (Ne.isUnit hdet), Matrix.one_mul]

/-- The reduced matrix of Nister's solver. -/
noncomputable def fiveNisterA3 : Matrix (Fin 10) (Fin 10) ℝ :=
  (exNisterD : ℝ)⁻¹ • (intMat 10 10 exNisterP).map (Int.castRingHom ℝ)

/-- The reduced matrix of Stewenius' solver. -/
noncomputable def fiveSteweniusA3 : Matrix (Fin 10) (Fin 10) ℝ :=
  (exSteweniusD : ℝ)⁻¹ • (intMat 10 10 exSteweniusP).map (Int.castRingHom ℝ)

theorem fiveNister_reduced : reducedA (nisterA (nullBasis fiveV)) = some fiveNisterA3 :=
  reducedA_int (by norm_num) nisterA_five (N := intMat 10 10 exNisterN) (dn := exNisterDn)
    (by decide) (by decide) (by decide +kernel) (by decide +kernel)

theorem fiveStewenius_reduced : reducedA (steweniusA (nullBasis fiveV)) = some fiveSteweniusA3 :=
  reducedA_int (by norm_num) steweniusA_five (N := intMat 10 10 exSteweniusN) (dn := exSteweniusDn)
    (by decide) (by decide) (by decide +kernel) (by decide +kernel)

theorem fiveNister_p3 : polyVal 7 (entries (nisterPolys fiveNisterA3).p3) (-3) ≠ 0 := by
  have hv : ∀ a b : Fin 10, fiveNisterA3 a b =
    (exNisterD : ℝ)⁻¹ * (((exNisterP.getD a []).getD b 0 : ℤ) : ℝ) := fun _ _ => rfl
  rw [polyVal_eq]
  simp only [nisterPolys, eval_sub, eval_poly6, eval4, bCubic, Pi.sub_apply, Matrix.cons_val, hv]
  simp [exNisterP, exNisterD]
  norm_num

/-! ### The eigenvector -/

/-- The action matrix in integers. -/
def intM (P : Matrix (Fin 10) (Fin 10) ℤ) (d : ℤ) : Matrix (Fin 10) (Fin 10) ℤ :=
  Matrix.of ![-P 0, -P 1, -P 2, -P 4, -P 5, -P 7,
    Pi.single 0 d, Pi.single 1 d, Pi.single 3 d, Pi.single 6 d]

theorem steweniusM_int (P : Matrix (Fin 10) (Fin 10) ℤ) (d : ℤ) (hd : d ≠ 0) :
    (d : ℝ) • steweniusM ((d : ℝ)⁻¹ • P.map (Int.castRingHom ℝ)) =
      (intM P d).map (Int.castRingHom ℝ) := by
  have hd' : (d : ℝ) ≠ 0 := by exact_mod_cast hd
  have hs : ∀ k j : Fin 10, (d : ℝ) * (Pi.single k 1 : Fin 10 → ℝ) j =
      ((Pi.single k d : Fin 10 → ℤ) j : ℝ) := by
    intro k j
    by_cases h : j = k
    · subst h; simp
    · simp [Pi.single_eq_of_ne h]
  have hr : ∀ k j : Fin 10, (d : ℝ) * (-((d : ℝ)⁻¹ • P.map (Int.castRingHom ℝ)) k) j =
      (((-P k) j : ℤ) : ℝ) := by
    intro k j
    simp [hd']
  ext i j
  fin_cases i
  · exact hr 0 j
  · exact hr 1 j
  · exact hr 2 j
  · exact hr 4 j
  · exact hr 5 j
  · exact hr 7 j
  · exact hs 0 j
  · exact hs 1 j
  · exact hs 3 j
  · exact hs 6 j

/-- The eigenvector of the true solution, in integers. -/
def exB : Fin 10 → ℤ := ![1, 3, 9, -3, -9, 9, 1, 3, -3, 1]

theorem exL : intMat 10 10 exSteweniusL * (intM (intMat 10 10 exSteweniusP) exSteweniusD -
    exSteweniusD • 1) = exSteweniusG • (1 - Matrix.of fun i j => if j = 9 then exB i else 0) := by
  decide +kernel

theorem fiveStewenius_line (v : Fin 10 → ℂ)
    (hv : (steweniusM fiveSteweniusA3).map (fun r => (r : ℂ)) *ᵥ v = (1 : ℂ) • v) :
    v = v 9 • fun i => (exB i : ℂ) := by
  set f : ℤ →+* ℂ := Int.castRingHom ℂ with hf
  have hM : (intM (intMat 10 10 exSteweniusP) exSteweniusD).map f =
      (exSteweniusD : ℂ) • (steweniusM fiveSteweniusA3).map (fun r => (r : ℂ)) := by
    have := steweniusM_int (intMat 10 10 exSteweniusP) exSteweniusD (by decide)
    ext i j
    have h := congrArg (fun r : ℝ => (r : ℂ)) (congrFun (congrFun this i) j)
    simp only [Matrix.smul_apply, Matrix.map_apply, smul_eq_mul, eq_intCast, Complex.ofReal_mul,
      Complex.ofReal_intCast] at h
    simp only [Matrix.map_apply, Matrix.smul_apply, smul_eq_mul, hf, eq_intCast]
    exact h.symm
  have hker : ((intM (intMat 10 10 exSteweniusP) exSteweniusD -
      exSteweniusD • 1 : Matrix (Fin 10) (Fin 10) ℤ).map f) *ᵥ v = 0 := by
    rw [Matrix.map_sub _ (map_sub f), hM, sub_mulVec, smul_mulVec, hv]
    have : ((exSteweniusD • 1 : Matrix (Fin 10) (Fin 10) ℤ).map f) = (exSteweniusD : ℂ) • 1 := by
      rw [hf, map_intSmul, map_intOne]
    rw [this, smul_mulVec, one_mulVec, one_smul, sub_self]
  have hL := congrArg (fun X : Matrix (Fin 10) (Fin 10) ℤ => X.map f *ᵥ v) exL
  simp only [Matrix.map_mul] at hL
  rw [← mulVec_mulVec, hker, mulVec_zero] at hL
  funext i
  have h := congrFun hL i
  have hG : (exSteweniusG : ℂ) ≠ 0 := by
    have : exSteweniusG ≠ 0 := by decide
    exact_mod_cast this
  have key : (exSteweniusG : ℂ) * (v i - exB i * v 9) = 0 := by
    rw [mul_sub]
    have e : ∀ j, ((exSteweniusG • (1 - Matrix.of fun i j => if j = 9 then exB i else 0) :
        Matrix (Fin 10) (Fin 10) ℤ).map f) i j =
        (exSteweniusG : ℂ) * ((1 : Matrix (Fin 10) (Fin 10) ℂ) i j) -
          exSteweniusG * (if j = 9 then (exB i : ℂ) else 0) := by
      intro j
      rw [hf, map_intSmul, Matrix.map_sub _ (map_sub _), map_intOne, Matrix.smul_apply,
        Matrix.sub_apply, smul_eq_mul, mul_sub]
      congr 2
      by_cases h2 : j = 9 <;> simp [h2]
    have h' : (0 : ℂ) = ∑ j, ((exSteweniusG • (1 - Matrix.of fun i j => if j = 9 then exB i else 0) :
        Matrix (Fin 10) (Fin 10) ℤ).map f) i j * v j := h
    simp only [e, sub_mul, Finset.sum_sub_distrib] at h'
    rw [h']
    simp [Matrix.one_apply, mul_assoc]
  have := (mul_eq_zero.1 key).resolve_left hG
  simp only [Pi.smul_apply, smul_eq_mul]
  linear_combination this

theorem exists_eigenvectors {n : ℕ} (M : Matrix (Fin n) (Fin n) ℝ) : ∃ V, IsEigenvectors M V := by
  obtain ⟨D, hD⟩ := exists_eigenvalues M
  have h : ∀ c, ∃ v : Fin n → ℂ, v ≠ 0 ∧ (M.map fun x => (x : ℂ)) *ᵥ v = D c • v := by
    intro c
    have h0 : (D c • (1 : Matrix (Fin n) (Fin n) ℂ) - M.map fun x => (x : ℂ)).det = 0 := by
      rw [hD, Finset.prod_eq_zero (Finset.mem_univ c) (sub_self _)]
    obtain ⟨v, hv, e⟩ := exists_mulVec_eq_zero_iff.2 h0
    refine ⟨v, hv, ?_⟩
    rw [sub_mulVec, smul_mulVec, one_mulVec] at e
    exact (sub_eq_zero.1 e).symm
  choose v hv he using h
  exact ⟨Matrix.of fun i c => v c i, D, hD, fun c => ⟨hv c, he c⟩⟩

theorem fiveExample_combo :
    combo (nullBasis fiveV) 1 3 (-3) = (5 : ℝ)⁻¹ • (skew fiveT * fiveR) := by
  have h := ofRows_combo (nullBasis fiveV) ![5, 15, -15, 5] (by simp)
  rw [← fiveExample_w] at h
  rw [h, smul_smul]
  simp
  norm_num

theorem fiveExample_constraints : EssentialConstraints (combo (nullBasis fiveV) 1 3 (-3)) := by
  rw [fiveExample_combo]
  exact essentialConstraints_smul _ ((essential_iff _).2 ⟨fiveT, fiveR, fiveR_isRot, rfl⟩)

theorem fiveExample_ne : combo (nullBasis fiveV) 1 3 (-3) ≠ 0 := by
  rw [fiveExample_combo]
  intro h
  have := congrFun (congrFun h 0) 0
  simp [skew, fiveT, fiveR, Matrix.mul_apply, Fin.sum_univ_three] at this

end OpenGV
