/- Numbers for the keys of the rule tables, only used in proofs.  Generated by tools/gen_rules.py. -/
namespace Vermin.Data

/-- The codes are distinct modulo this number. -/
def modReqsModulus : Nat := 2868

def modReqsCodes0 : List Nat := [
  4539726141793745889220550825297276374040335132774781431991604304131992925646173306994,
  3657398990616475670338573027148032238599070065354952767243056226166440050,
  5057772450257604805015703593972487611082212817306123285318134012747766798329224056299389042,
  2946568797611972450968684181734689711763787237213504110133362,
  1716626583553820592996815798373,
  6994419711212254189037449251432125762530037418882613326255230343953961979292823190809108143098664744123695218,
  3657451512144744106941631116424416956946611520264538138673029724272656498,
  2130760842457027972996241382452755703332978,
  3282875422977046651849715214004897019666061860188588065855042945119,
  2946629623392483575569264334631749899093885551236798311497823,
  1540821886123951454879860,
  4074854505211173326461342066291884474964195831056756078680039829162501839323236,
  3282875423014071021719503383080017211368046289786090781227308220517,
  2130781878600110231500963457096694400876644,
  2130781878605259738404030142955216100982887,
  1383006961506844771,
  2373933921527506764542420742281589375485744447589,
  1383006961525784692,
  2130785703348872618443101864198993178329199,
  2373933921529419170678881104126468695342177189989,
  1912541740283372847089669643628511348,
  2130785703352305589663515339467102137286768,
  1912543456768212731389010768789962868,
  2373936052133446646943605336206468306717891231859,
  1383008202779131954,
  2373938182662891531783062469827135765235150618725,
  2373938182695401900554367910029028669842271567986,
  1716654315963672231431973896290,
  3282887208532905665172478223633366590645049729753548472945199677555,
  5057913173431547975806571172304193563968347780633455368119754734827461360236767927431463011,
  2946640201822532804194025375484382059665979121297827683893356,
  6994520152116259383767681394394888854952288028752653873998245383350610033253820114369878175195731029948432499,
  3657504033673012601725821851122451754486549308204013087994323678916837490,
  2946640201822532806324633227731723689455116149436760840536162,
  3282887208532905669919949774614646143106218363495117349247272484979,
  2644833016628968010806109456782338471613601064590835810,
  2373938182722175160772443638721443593944128880743,
  2130789528092485459964926002724787474202727,
  1383009444016881782,
  1912545173286947795884463146822598771,
  3282890154874267667245550750187199652797237320286862702225334272115,
  2373940313295604667536275584662678047843602464869,
  2373940313297517030760109603371327669799208419426,
  2130791440445410363374696263369819480260725,
  1912546889761002810646233290164994159,
  2373940313297517030760109603385156514303816368237,
  1912546889761002810646233290171678835,
  2946642846389691744319014365935953410492708687625161612132468,
  2130791440445410363374696263384714439098483,
  3282890154876912248646745733269286406430542421352737490366391124066,
  2130791440450559853330254441489718882402412,
  2130791440457425865102164102314125436715106,
  3657507316286207648505223936400612716066728820595509605922433254911180900,
  5057917712913218994090543379381048934056796168485080088857084095517606150781688483347824743,
  1716657397352993101456395010156,
  4074876448315054966003846443787597097203214943707347790881924436383991636230260,
  8681932586974498920418271000110739529507700922262360550989815418113244249081968467229000536407341845223604862263257006194,
  3657510598858153368785047144082100450585954346129466065787039795165397107,
  3657510598858153368785047144082100450585959495614799447330419102973231218,
  8681932586974498920418271000110739529507721294761153080534122300740065206426574063844081539790424781100073453944250171513,
  4074876448315054966003846443787597097203234067454592625941302360295753404317797,
  3657510598858153368785047144082100450585973227622936393340676955960574066,
  3657510598858153368785047144082100450585973227644506052208269316473421945,
  3282893101284389153680282722098047997495747115335932835712383844467,
  4539868749588839703906075884166915623575731034774298687204755143860409200663621140577,
  7792692823505619571144570792083080135870439572047442996207838480272697465499724952364005986149411154582302889672807,
  2644837764081343597910364745129877607937072177247486064,
  1540830183459451125956717,
  3657513881418313660146602217321382066214589170102069772661122326330671218,
  2644840137817119054127337745653492437822283803985313907,
  2644840137823510879596475607940113396275887528393572467,
  5057926791827666964069932094133337468579482768161128888694753976962465365097487288935252083,
  2373946705128723273742770267172680938569500000354,
  2130799089944651595907190586786424357978210,
  1716662019413465349858148745329,
  1540834332117891596484707,
  2130799089968682622472344269819472234086516,
  1540834332126580328693868,
  4539880973132001428739557296652547570407487524748576233755105021156365720400546889843,
  1540834332126580336492656,
  4539880973132001451717737699474381035327227661088034253264630409689100138661964480626,
  3282901940438060450883275609077484154156441315424636492530811469938,
  1912555472286887700821249722924925042,
  1383016891483488368,
  2644847258988225351285456308900166176199005649428349026,
  6994557817431314370453712790697618848871031367655701490531867759118199274059128834144278931190373992228978785,
  7792720799094036515894926864669705530953402499081628899019440252858563865886011375040981218777460269594416038346867,
  12006170996117144121359179381260382700166274333147489315670466283182803457545415427144875815525792227294245218528406572347738424825318867043,
  2130801002342205550413121944300716266029172,
  1241362530415,
  2644847258994617123208068585570025268873777283894280307,
  2644847259003139531668606573918276255702018697330425971,
  1540837097898460244279406,
  1912560621795331458018863715179036773,
  2130806739469640327519082635882368609419367,
  4539897271142007003987615467879427205499302311178665899207153757597761631256988680295,
  5635127278652069184985697756810538834142498510648250147904464821051281869724403666165920211009651,
  1540839863680270119796833,
  2946666647769474577456589033841218319226300595838179726262373,
  1383021856455655477]

def modReqsCodes1 : List Nat := [
  3657536859628180366338392540585493167607160534209138467384286345977725042,
  1912562338303281688931854024982462562,
  5057958568028234740139378067873426284092635046425225641587440909920677091645120908723355751,
  8681994922921962571290499299878694516077039520577452273684601291176077492493381422174349858784760981239412713503563120748,
  22960386560187801546145973560583638496504720564472394521771338869431451795337702914866224418563724398090032868939707713808034871875299012341740324511153284823701584022791651449,
  1383023097702318199,
  2130810564230418210025848010265149754703987,
  2373963749926520581876588690574426112448885096549,
  3282922565084120337779720248658345702553384404426373492778384818294,
  2130814388946567047599344326255165960683618,
  1383025580192301154,
  3282925511436060674952961104779083609197260777170077229743428337779,
  2130814388963732045444991336007650340569196,
  2373965880519073801555229190801775395927181361261,
  1912567487802481318270538410844094514,
  1912567487817888205410824766621876338,
  1716674344965217327157157494883,
  1716675885650197562451552436325,
  1912570920784486569476912133567348845,
  1540848160973567443337330,
  2130818213703911911124304189066144596426850,
  1716677426340709353918217322617,
  2130820126079151322364260439374670670856307,
  2644870996243711440301364264407593580902999762320621683,
  1540849543860128027246707,
  1912572637307843681998628903135281268,
  3657556555201281038328879940398836472834090763113598459424297177023053938,
  1540849543873781731623012,
  2130820126099749357679989421870232710217779,
  1383029303945658476,
  2946682515402679725536807429878930681432166560586163220054131,
  2946682515402679761756989840565127615296909456276757476081776,
  2946682515405053454920489811891879101704497922133657345261683,
  2644870996286323457743052505308888284009458848302170215,
  2130822038447524769593692150761953218527333,
  20608817431815726575409510680037041539577930161168339268238135850293040454128839047850444666403508219340026330578892473509961783500968947957875044540133919279151628746866,
  16603336427663474333573666636484860036195002974124067231147598264375605235450568399377744723895453531381794527207710656065884619960212260636520195400754593906,
  10776555252798968650084948874084395040039465713136212010345658594167992039966696067020956174592084216763441321613901963739080907096178,
  16603336427663474333573666636484860036195002974124067231147598264375605235450568399414316521024504293794955743016678976112702606556698197068849751320486543474,
  22960530806595082766382640762757428423742246927719580798815326008441679886430389129369788878806218265605557511137333797750115454032241863388000729373185390773144770766733377650,
  20608817431815726575409510680037041539577930161168339268238135850293040454128839047945773170318747136715225799828960267233305551322051467132016309862461891823567042314354,
  2373974402906498227358324919651251628519745192048,
  1912574353800387013325341399484792948,
  2130822038464689773602094293206540272074866,
  2130822038471555786914695848689114143064162,
  3282937296973407473669238300943207679029427672959927329120491339875,
  1912574353825038065662490773579235431,
  6278207999372765273416171607628393508051190630430314755552232635152007077772806616485476710048536068211,
  2373976533523912332015572903075509824087258234996,
  4074934963183239821942537011966812756041106947887903435677316472659046374244459,
  3657563120401153755501033502582007904593587431078069594758810659352412261,
  2130823950851944722005319945974483066683442,
  2373976533531561838122797178400507326946030583909,
  1540852309653109102674020,
  1540853692519809758920822,
  2373980794699456975851259999816206759682054226035,
  2130827775580109044358601349468514940158054,
  2946693093759143396532157702266840915199532677871840387203186,
  1912579503305749396413852428612730983,
  2130827775604140078627189613882717561487462,
  4074942277557765573240003588041835889195306145825849702264991301136573822992499,
  2130829687969080506874730074704134295978093,
  5058008502025102377641267661023342271120721511483460702309523915842520419989374807918444653,
  5058008502025102377641267661023342271120721511483460708046670232154695368647290395482325101,
  13376399256419682086778049304508279783671744011324712489161964672445734093468147213437228820796706855450953587037955787844844923339865451256873061,
  9672810220105649072726186940436101872854041754656400939923847053560856662934186007210675087927568016059586889939267065950306405,
  6278230537636363935593093918802332428425857877474736740026256640929405346281782708748111467450612121716,
  2130829687969080506874730074722752963608696,
  5058008502025102377641267661067537909891705280957716763989680562123114777120913406079336562,
  5635187968208190860158667996407276795865267553978363762798673220731021521758439366796440618401907,
  6278230537636363935593093918813303965595044965097942820367817251923708106664065442977729269201966006386,
  1912581219813699616263736600095096931,
  4074945934717126404674423141142217873588858106709427612189864616203045116444788,
  4074945934717126404674423141142217873588858106736891630004412576318895863169138,
  2644882864897021691067138616808102860923150409747988578,
  1912584652811111780885212780970377328,
  2644887612343005477563101541923067155869305282271248500,
  2373987186526838482086956873642386337996462227567]

def modReqsCodesChunks : List (List Nat) := [modReqsCodes0, modReqsCodes1]

/-- The codes are distinct modulo this number. -/
def memReqsModulus : Nat := 383998

def memReqsCodes0 : List Nat := [
  1540826034801010626461804,
  2644830642923020932566762646107333512029614651743469689,
  2644840137817119080900630577209258740784802468795318388,
  2946666647778969475815954984551608054126239193023550344986743,
  1912565771280664872751539095581425780,
  1383029303930060916,
  1540828800566684298707060,
  1540839863666616419876967,
  14902098055583778650572643449239311444972609862801288554125174753144493174083789581752983049987844782842290771680232970876429934292134927232545116717170,
  20607911125504004801542972218003293144268540136884635556983421658635556337673466703341178891535176852207321233022015517878034762970578352864607153785333614605539317448818,
  22959521079857517797456643863744084931547311788984815089661913870945776942478061335797904960972683790719484309955860936980746608487514717731784483530182334994805271643620180082,
  5057831463225963493231601125806341531340027860982889020032890706420389223327063634251939941,
  7792552945576090333684465507424961262775247567699050620870892717255512183030545091471144814291429682060697794838629,
  93550074421679550385976667161683659228736686121292683736234636378160540340958565942743620572835136218515191734033594754588087212394565418875358854514053664856204647251715638455274574093877728237747625428268546836863637790548755260935503917060494879686770,
  2130785703319692054160992435136530191876163,
  25580166693596962392754073648394733255556307899283038894134057821984502377485099837531993300924869063556486843762234976913353974052020569932669626173474597879150945748945927397113966,
  5057904094533398107262286636871638691006609134442972308743800975271971000314713430497230962,
  13376123140574119849472978385039866582309701164209655433393679642089565913648898131299549386192255788637379308918186287865738016718121938586632300,
  22960139280088150381264382694125453553111200494085869726220701323156901702917606235115030039499204218931350368694439523761557072361238587824290870948113086144397551554799140978,
  14902499304391313813736038894513535837750225783459947713093173532692785438471126830190177011040883376879766868947656086711569307609915586740939711119474,
  4539852451578834181179528303143345274987262622108883433031723144712434989087398887538,
  6278100942302051365377108326667498103134672674611068249979591924729849600836920119648198179225440944240,
  20608466007087393710205421621996220804650879349729533284794185141572744189613797522398565876080083445457971795487681493130977737782955232189772469515140074318622849564786,
  6278112211373161081331054297404234618497227649579282612102799872506186576852720326836005210855987806322,
  3657504033631763299027648867420487452104915044437738115528534644992573561,
  9672627915954638017250509113980304513197340824277020750810253620533982020288036512284952243113303688871023456232256510496931954,
  18497694126703326711083913616863200654649125502908253115840902006615727778039207263295796895815663159256686586281577631333184066269463210964868114142966096711450738,
  18497694126703326711083913616863200654649125502908253115840902006615727778039207263295796895815702550452976481837646192969362996894619769526421979490418097550065778,
  4539860600527150660603541120263963277791834201771638383263846696142281693383401668712,
  9672627915954638017250509113980304513197340824277020750810293011730271915844105073921131173738460247432577321579708511335546994,
  14902526054260594421575950687725282259385901255982772895956436575690248841522308037939076285335512671129397779453997345601310884020332863368306051317874,
  8681917003015608688711045038280530630425174018028911299287563820669751085232125638245263918757179984362640284625616830576,
  7792678835714549963299062426650579681778110295938748796608926051123900546113968468393348765441214455606969034408050,
  12006106343536526953888107191368686911854825794386932096873287023770912144186910569296812468864037482274727746574859892058961101055954452596,
  8681917003015608688711045038280530630425174018028911299287563820669751085232163989069949611755025707557845066367611633780,
  8681917003015608688711045038280530630425174018028911299287563820669751085232163989069949611755025707568908158852265082996,
  10776390832821589709013193638852006720917489259954952551335311910984633631256936688205292826229306714952206669773555088836079123300455,
  25580212609816004045449535199451795223551693769827908906676089101212087608829184812688780667283509755481072247805135907774791826074024453492963862102545076536901015447264117953331314,
  22960180493357942509774183564535518173712960429317616996025614212226497523434973155920392803671004131973331449445958671816470719347811711012383878452058141405215549844315963493,
  22960180493357942509774183564535518173712960429317616996025614212226497523434973155920392803671004131973331449445958671816470719347811711012383878452058141405215572186739179634,
  14902526054260594507779485004348296968050236619647368086768763299080883011802578859621986802508063783252544059424698573748885372883487761093007113977957,
  10776390832821589709013193638852006720917489259954952551335311910984633631256968423341148191648844949886626585181924478340677057708146,
  16603083107364379468251217597164489831668385220788568553886120416665600734045394738451170960515863957692347544178764019851817380430491147165664819417217695854,
  14902526054260594507779485004348296968050236619647368086768763299080883011802578859621986802508063783257291496886109119602671053818826109674595445244005,
  14902526054260594507779485004348296968050236619647368086768763299080883011802578859621986802508063783266786384592458757532880340692033406665333453815922,
  16603083107364379468251217597164489831668385220788568553886120416665600734045394738451170960515863957732016490702429024186884175131998565448345129770617143397,
  12006106343536526953888107191368686911854825794386932096873287023770912144186972443208546161248150867843361410933250309634957859661422985332,
  6278112211443965574065080275606495880739446194425738288199946415713653537282056017877976307998828855397,
  10776390832821589709013193638852006720917489259954952551335311910984633631257002803113000613100541080913270159037745105080132070801509,
  60720447811752342606938318306747780289765487598295839663845500378127784085380266237831470813903577542433543979576450597617211853092648893950131989506522051039224157713098227780200532736614135330396696072963654887633143683779723378,
  35374532234879605214134259639339858846443164668090281726724201852206387522280746643906612779352012118190832283679926447804562031803466129018326576558884174440264751529553789241328341424683522834366578,
  31751325032743211826220577140664366640376519297961319622016639128028768671624481401715886326466861609184383565884542548296558367267001189293399646291995060691772461599536367780453444843051352178,
  14902526054260594529330429032052721422542925635691634204231561973918757691781822904437512660781059561216550844118312482185040908974331582554705432346731,
  18497694126911943564882313880921143160452313738060662402663198068314719822541657427341296347737648669206277558478676263512615964850516896054148421826567435727077490,
  8681917003015608701266198889642012274210624252417919727882581652661249108420207705445071225460290032223366779129828671595,
  5635081761496326648062543363812877640683997035512568586882538555660296375311872429136035269771380,
  9672627916102685850513192945675660909602843440864208661187021258282225801623196613124609766680262695260656626792783962942931054,
  13376147150664044410017103292005721546007853784616125702246158755678100536224182245011678429480722010729164198086108334631487664914419182464860270,
  4074869133979920425728043059334639573081547386518747558762086494375117183713388,
  7792678835745937808485418855947101493223337811871186335455131156818333881712144770708339429821658094766356570046565,
  5635081761500866117510278145750276690500144297266673802933968160832344555814790262548949044756596,
  6278117845954233179030602302093793094812460444500655338494672206376255930023363097091929468420219600997,
  5635086818914698724734962080430660276918700526485424896407488070320982633074243229164670556700774,
  3657507316250851123736398574235947957424811652646971770542112774579028069,
  5057917712864324931158940237275825772812176374326716788199187850556628522741284523974000750,
  4074872791122868247168206488372392610979725422485859070228122637530957735657587,
  5057917712888771915081540455200177575696946310038343836428137940586074223110236937876865140,
  9672636597209321346271603607983429588083411922283181687785369794042251937324717716561008316897947669254600411917358215323779186,
  9672636597209321346271603607983429588083411922283181687785369794042251937324717716561008316897964834260149499040041820510027890,
  9672636597209321346271603607983429588083411922283181687785369794042251937324717716561008316897968267294538224881167502748745842,
  5057917712888771915081540455200177575696946310038343838340528628530348954679140067985588325,
  9672636597209321346271603607983429588083411922283181728014359109953276081582260320622327196401815148315608803233374148700209266,
  25580258526055652074096477592448554281646987511363233091941805027628646539737686520935986040950872554439070403532856088352778591483419012210614840274436256275417923267061010298503282,
  31751382026071280775383493662417010231422674885307173692440638967644416449744992199548702933709592651200273282002789852984948862179814392985469111015941500990044537777564915070255723583046090866,
  60720556804381754448454008552551742970288214180894580498145005901628595304232408141965530675592955352128403091874781793534571086565910379951342662468173352890528703953658943358872564483321956886864252725670203974307732393392275566,
  39411261599980949015285526242969949421578809449902677975098432319528121592842039748808939694578962816066080180831089380640587325462707455596202735303067205580677870747323894927735883506709714785354814455924,
  75369120838551942503156408018567755654098690304742653215056762624821103349244854060505195442377188769156440258369072030597012141863698537027139488305897049733343890208690654966845193070043721281061073017100988940727399286846313556455537639540,
  20608539991190048013682053079964414427165747311343537590218196351622334332582290785242027177127391442007260011300372022639213742653853228857274171416640602941749743386738,
  25580258526055652074096477592448554281647095556676302469799869019119763882967869657747856523276044840602112617156972475183115196238556283333695573772202489722525685369792684900024434,
  13376171160667765271824480225815547575427864623314691605167853286027019855595627010691155758791288626193690919752096091241172717238015347639255154,
  12006127894383836878001924605260106322728652615997935221205635776319633803060757814926094700931965529133038561230388276054641824618320822386,
  13376171160667765271824480225815547575427864623393575709831884665624987312683122369101035195155526825048965151001552652553390348469350026047586425,
  4539868749588839762992789293291239861992137604457974727843920282602288110752071090283,
  2644837764081343601735101491873348791525156968218034279,
  6278123480601052273921265687393351573052431237626630550118990186539752837821273335385163803816340095097,
  3657510598861099800063372313547073711572690786980235338878091703503356007,
  3657510598861099800063372313547073730696453480300568048917474256915595373,
  2644837764081343601735101491873348828863105275094368367,
  4539872824117855693474546337162871785430582551265724150426856215392277039580418146387,
  12006138669894537916996055434356775035704230890694579921300644167693416706951288664189772617111498363572972604615167384066277810358420701284,
  5057935870738040401376152183836801532626277703607539695004552477511520851726143058633228388,
  5057935870738040401376152183836801532626277703607539695004562776545355946539234399206310003,
  28499349720960876896158572406052707095684090891786519560719022604845494270302109006646890777279396873012615386152005269103988835329822541970187963355669317902871545487333189579917350994034,
  10776439191707404423586908225379891045054569619009263572362182752085192251215692390257356358230900727376571838108883629909087344328814,
  8681955962982773477568420212035814246245406609145608292636528224543465510229638158298519717605349481905830875012545052773,
  12006160220751519757171257496794441171987836667373648657131576150291137709386464622232223181818514290282697093503612000895817209538422964334,
  8681963754920255116633418583254834266958141335863001419900518899297591189452484144211682094626453761834946951392407912557,
  5635112106251690164895961645880541978165257540945616577006630965835405053123031311886861364166770,
  13376219180826063671335718058814767490847648229851615616460254531620092894482414722699205544759579434471427134931577195733288357978722296208359538,
  20608613975392312545627037937003425357973034933090257533851344534736994078095044450124674195716162505902864830184983966168268756197094569145364419556000634554908912451698]

def memReqsCodes1 : List Nat := [
  22960304133352280114833630490070760232422053895375053001554189162284901946334626162417301031156080615664729738028514279194380812995350535018320423424219282150033438691135127666,
  20608613975392312545627037937003425357973034933090257533851344534736994078095044450124674216088697870262364269692194048716162259121128061058942085702308782573198488436850,
  14902606303988487448999179517942238238763255064656443177685767096732324934857592031535857329132505773228451410860341168406109412484447516763973028151397,
  28499375298739921456729812988946884330067813221087939647527203211281462952787376301150836477991716383315172773280850061960172656696342241025427169907500263390558099111621231549181624385650,
  39411403085537468780993002132320190335263086553567933126173024529516901354975623564640175257312142344639868290305561866363358756956669151582578169976184053492917342943073461777545675963929614921894360055923,
  67649743842654031243209343188327998231595849299755895618061570084936767848403427393952624124806167331349842702005492428092638713952112795067892016312513306527048308877604285112835123144898126967252027050164459728916699337770721862811762,
  25580350358617375503297525732553714824064199309484091049667540796065060507509452995107821105162633095147614030859138521613371985249073434858775646932904165595042898707026880195002482,
  25580350358617375503297525732553714824064199309484091049667540796065060507509452995107821105162633095147614030859138521613372003761273798966156395747633836879470048281930802583109731,
  43908717114434320418529675591643511894800627886368677111066880704789633494195516880964565809413306592612759861100078777514654784564380758107404981540569247833580187979445720984659739819700321861785998508695027826,
  48919228641796649590128933932757136324140117135737979593564944595774588151485155703285194343057077834508987114369930966974407096627973761180809138454777598312773256614406456963953792949249589096842696178623902964318322,
  75369391412026968056434447758234482765799714855049640378829811970469072301120439300731345968936048697864835952416743180047146011966363491943647357960232823691939076876422032107375686095029434858817748124207757231528900046116387105075579125874,
  83969943404836189435290295460822136063170651916589064941738839474043239079545894870216401320143279086875588112618922577808685972408404793096006778909460709732795165814614775399015082952521079886739050366893277997769317218454345147480896551211303026,
  25580350358617375503297525732553714824064199309484091049667540796065060535485154407918852230652067115380620242624176121612105612604092219356987116147470807247685328627368920985370739,
  14902606303988487448999179517942238238763255064656443177685767096823114152678185077610324457184793309806893219770611034494543030036760424016915335544946,
  10776448863423799327073408070174775482526691009259939048649225079089124467906723681572747290990469045924126948158742262585178253951091,
  7792720799100314087186031590787303765931812958588102397529287103565500320206608254024740982716324701402924223758451,
  6278146018925340510377924314731731822266121712829162330255920734991422877581470035408415364888940314738,
  6278146018925340510377924314731731822266121712829162337377119539041495033884603971682733309737051488357,
  9672706046374086028802329816767064176934313426591930422941533436983266416994615257540529171549622936463355642854840357207998578,
  7792741780802612393374488602613978823400628983897059071680079138021401630526445033946946098432195916451086712766578,
  9672706046374086028802329816767064176934313426591930448541803244721882718669964405104368696853810183426136700145869561055740018,
  22960365953404936886443756955596071374824089084624594957421760058753236971589628624994794327247197593545079927138460513035005110218456475007771755820082173188550395902345674866,
  25580419233079881044429626949313050271548015538249276737203071942577686348891664326650200297518029805339696087784084519098455613355704980292381022530246887692681826473267300371071090,
  43908835337572321565790700927637612118683560963272792107250554205527612685247932149734145264913707889687437489954449964045575966375971284062893616561156137308874776266340214693105143608928637055986345105312514162,
  12006214097927825347628938864932344834525301459753785812090197775292843724572156724258782282151075045849642971111679944352445212094664867954,
  5635137393575063208938448381473331582928657552223139752400701110117050683884617417704891419394124,
  3282922565084120173992477998031333960130069498916216306758476497017,
  3282922565084120173992503565218468000646397345784665006705427021925,
  4539909494677854150774461845465340106788301180392121608751301730998894960072564211821,
  5635142451061526923946877832986646250090510123845522392607538827913960693321752916450819102605413,
  7792769756359641470400204417318746513257016284325683298680769892915083769554255615699584666684539993346620028944498,
  6994601760300756657960144209285646879368447928910554280604303506451853341467485298968757508847828238413987951,
  3657546707405891581719866476968452838505557515587719165259073800526954564,
  4074916677291240489068032878043655765774328948356009224632502316757081421381684,
  5057972186375459628899496283196210243317554197593229093061865579147910434190895402616815692,
  10776516565846577556807039099930151407310743318586813561569995455425354947573904231881940132538573452042962729866941760247805336354917,
  3657546707426516259514889228814732168698300192779591133622720849461379187,
  7792769756422417110061596593047849854809741065219367782592288466204911226609835298836390366409129103936895949996133,
  25580511065847670767104079028774032510336217168035495973553981596647851274256126216624472407315092928681293237741226720501319858710215727791496149215842849868178392455642850328313957,
  6278191095609319184263663983120066726838315552980154559654917251380976932885608375357197163901458120805,
  7792783744106768310225788481658565423714138198861378529141672307375566497713373763569802194275422609772685628997741,
  14902740053478952051412606304349958769853541844864968676529066874806320057803489384057248097424091438261855431997830462607066746568712910104531226787954,
  5635162680871199440370233052595063689780051137656504741222593478750503424936290689422143561793651,
  5635162680871199440370233052595063689780051137656504764659211008026152203566078173044682889298035,
  5057985804722684470116319591383149710065102195880220987350653262891120645955495214858371187,
  3657556555195388326514347451155571107054923194069175778912697567786827856,
  5635162680889357322234721072550636755359112965842344173174613791433786828436247763114241632174156,
  3657556555207173818902968003125531620341255836217425240582121887107055714,
  8682041674826609068265554146536942583393513880409511997011688561407677044658524303606645802209181730094740476181708996718,
  4074927648841540028759025668225642149630768689589589078367268502993981824106575,
  3282934350597665742470719825958496039860230876975652843227815215219,
  4539925792706145844520775605294074171986640592486168808064163913082449437442119827572,
  6994620593008995401181217890970751167616471206035365529689865417536835802453869492396906390270916963383705714,
  4074927648841540028759025668239884474798440904064508136186316762145196873023604,
  4539925792706145844520775605294074171986640592516766794730054044854395473108230144110,
  4539925792706145844520775605296718753387959150378102864652836604277324029336630526062,
  5057985804763429559130730351174230746662300618991263009703203276468334420064484427421909107,
  4539925792706145844520775605302008008765995356832403752677651148609044025910868836453,
  9672766814432214991770076134444907238461304953098526656360101234007338888761824537964734681130550135516769295312589098634641524,
  5635162680921133514653486653440401894916088774725614639009598047926291583866139351913669449810034,
  5057985804767504088146870919118007789985287632445253977380051611467835733539082615869669477,
  4074927648844822641954262858720585732357746941430349955251626074056416153501812,
  18497959752727540831776806310175994677950952328039814316750524872934463142969381101759664412111398491084007425182269085831424214798475464864773028253606002829754483,
  31751809476210846124033896147508157465707083434432569435081893715898565245632995629677665559737127721118357430142439248405916594049848861465122681469957224784823760878258855440676506323983138916,
  25580602897997260851020096665477204096032322209135517602929740489916976861630733693520127683613149656248429998705787877060633621340776272904575894214594426504164554110879922102927461,
  22960530806595082766382640762757428423742246927719580798815326008441679886430389129223122397795308680412837602556242524940137559577556095470603612710375987781052379066438844530,
  93552845168379887046155369748059644778968887235814648242244243426036338015507934506490683545136149378903796600043249798339344258509580775226962071501177552760547901071314100048401830693777506637371253743063159827251689776855171609339968064433526968287332,
  116122052618877592940381881769181436863301022071728032940154861324976740271736146545395766092582059076421493933444764696334779678460390781481665753049430217862768794255817986154056126361903182277417464422607091031287759276283439988311580092955345037686506025674539109,
  129372972287322952825994739061626268986646028302377062235021812860492486057624501700097954153298225095595841250143411959028825010903555559510439967282396734523073745567332720313850275996488814122380770450462767796949372909012778816901961940771036253260453893608109166100594,
  6278207999286788398460929988664343641065688709677467458579219894739867182980946616486283912031279317106,
  5057990344175833975461941641552657063839106931442539432072531746774675800748683281583636588,
  5635167738334966178921291551177849185851634323552724156196681824688188736824435512035047877967973,
  10776555252911823402571637727490565270042690932639394559830595464100390386095321130479153998001421793445527462049674607525723810955385,
  10776555252911823402571637727490565270042690932639394559830595464143064133706206279235905077366859032883080262384563596884678748012665,
  20608817432031547209717198869066320817109851195991566672645895505585754729618239945940292725361624313818277713671240967513422916828242897381985922152966892168102056755310,
  13376351236315260892588289011315472354131660806703743924984986063024564893499229934708425178077841543582112917725594299193870939567268932237983858,
  6994626870597190264296219624309561186188787762572256159287581388780714177760580633630904449093805768361181299,
  10776555252972591538620521036923086831403775379912780279294083596229826319083206110295034534731056610425629091884890048083747249586277,
  9672775495616770610693108984485479764515421900788875992258079753935370751314602554079657028279994590052347958374082073561596005,
  16603336427930973470568353607177793865698787013777510387047718384576237937959988064585091334692182077583811966192644542886024762784530845947604639597458686066,
  9672775495616770610693134094674856573240496495415130783946562835931124910972837495175354931349317153128754971640517904664821874,
  8682049466855011534471520003980620057265783418018234059005344916786754752639628908639185375291489075271697515924255670373,
  8682049466855011534471520003980620057265783418018234059005344916786754752639628908639185375291489075271697538266678886514,
  5635167738407597506728382431594304260299724137065373870435897003830967191145379334815657969320037,
  5057990344245100588386430117972254369668151978499577504759910691225508984172705950523785328,
  6278207999372765273416171607628393508051046257799466990584072325187425719137883692148954809164093128814,
  9672775495616770610693134094674856573240496495423279783463555614636415740167396185483450287268974561243575053117123236770152562,
  5635167738407597506728382431594304260299724137070121307897307549684752872080717683397246300586085,
  4539929867235161804546069082796212920844719362595122858515635499202812811210996908146,
  3657559837826261635678054212837628988668927892711473751811596435061014629,
  6278207999372765273416171607628393508051046257807400784636268354658621023133296890751133652018800164966,
  6278207999372765273416171607628393508051046257828557535543231480629429178090585714807204747599883796581,
  6994626870597190264296237782118084748041767248404836316383640970306549032441080756574166419677008434564366452,
  5057990344245100588386430117972254369668151978527275326519479365194044588628245266409914476,
  5635167738407597506728382431594304260299724137100979732359072484802923974115442684722955634933859,
  8682049466855011534471520003980620057265783418084063288585525890156969481150550332942401985168267360033641934337416167539,
  8682049466855011534471520003980620057265783418084063288585525890156969481150550332942401985168278144852012624379337048184,
  8682049466855011534471520003980620057265783418084063288585525890156969481150550332942401985168292011068001554700245532772,
  5635167738407597506728382431594304260299724137110474692505832841118139514054813536944024125112436,
  8682049466855011534471520003980620057265783418087720480772297760422757255364132006651288132411132958840309208629327691877]

def memReqsCodes2 : List Nat := [
  31751837973130659915778236373174174758490033829147124115734328875445235389638179459444811825335671911803060783968611177543865259363230847191181405717583749551508036703086965784877626479134048357,
  12006300301326737168493056295048191815979215499867205844440182428928296608391448863324748261891409088029184527901066502520726874272291356788,
  12006300301326737168493056295048191815979215499867205844440284291641690143930783398211750215963883579049561515610592549212046601512299987051,
  14902766803552318558304354055552192581978885917806713167283775648215450204658749562116266941880794171892954107497302598883890262723102028424593952997492,
  25580625856405578244035210268527080097852243465039457520773078866430501959806710563655925308271908824094957882423977589864659579966231290894113773918458836676564001964611638362701939,
  22960551413507419580827789547664041046009955430907716208759154255972920101216673515520468553347280019793215184544317129991054437776602465452277959902495137646926197310658773107,
  22960551413507419580827789547664041046009955430907716208759154255972920101216673515535641012739256244443977904926448000799178710612493764171664724069965155735884038208990019699,
  16603351329039280733629580505539364381893660547673460642686286713918758766221661471267999671206482294058861998275126356547506590873000974256669852071502348402,
  104228440980431123830733017648684097438070893922159369014790810290896471167808696038525727086224780477745553354411494802428352782065368988698846307705132933051832931360739217140295973259152518928450274035807223921623046854637267644696361777228544257488929947752,
  18497992955898611136705519196187472330240344664142101630143531583999315978621240702807778224679827242106560087422778266211883469513384320758240119742347201742831730,
  16603351329039280733629580505539364381893691715143631547046914119944238980121612352918243140051542636791431679074510293188559796010327204073488730222067908722,
  4074934963206217990559948439193053743733722269554040672946347066412585729982532,
  12006321852067657812930128872741589050628084467702281760315678940221158982101391553591767040810150140042883562644164865075298746266386104435,
  6994645703147660636350648761123253938674317283504362342900234423189114400181922294308493182364820211480068196,
  5058003962535282308639963298273162411584501898906430617242634279415531148514042207943327860,
  5635182910708108443443486790165709520695232579594441259796436453130216872463237108009024823623781,
  25580671772707046399323275950578726441967576047074260557202472928659046598732542547537107198770661012292628658628139619876515984843185470936633652525837872676610246589113056200294514,
  60721592235290550602497588228079647294588010745799642696117321079916916339994700061470018920485425274637079732396611345632031415609747304245267248404286201206708907320114132960769935373756454805183588434498750021378234003838271604,
  43909308229770613565224402375675592914109044818240987290312773872742239597463663207083419699686044666889466674279288120973910993939948600918921825112111656844261656559239216363820139203036736997125343950667055218,
  25580694730723837248412957010791904694742578647977300384775602803919451754811618931561849738560611913820626022600305027315542989304819489239202859771366415544395415991078862416314482,
  7792825707574140590437212454758048277852416158790815091179195888045884875467487099497338314376053389961840625975404,
  3657579533352220256131471017344381939110956659951653763275983495741309032,
  9672827582365672318584759076143340555184234121359130254417017126874055161856831628752934529625672000305966847428921033561014386,
  4074748447008690229726051622538257074192150301947088644855326257852526956052590,
  13376171160786295057762543599900285996944787292240165719568334479694764072081439878354200475022874891825345360623085740913958270047989217131167854,
  6994312992742592511112703067728640884404802889088006279583207337627188685215329557044855747145622190540783728,
  5057763371330933383304161650812780309306324614317069762366892062615918692355260196719624306,
  5057763371355380425741423249951765797773033151233077074383366153410813661836772839465615474,
  3657395708050422690963860500056900238119248167833639290689646362570391655,
  12006127894490226348663818000255168238870766397130778341466867316476946727152672855735823285226059882659234190221360261631264870209128628327,
  6277931904814257349795223062860270712699744853716566479777307716202369732263378253002727614406660653170,
  10776081336230172609333910095220324345240748066004294943734965311743796192724805895593984057714882979590401618698117993917597456728178,
  5057767910800380873055190901792326513851202275387401743508125060800457389999712751939682418,
  10776081336230172609333910095220324345240748066004294943734965311799600325349162052760866823273582221931761770123977875452914491654258,
  8681667659449559131545299953542859491096787001605940756906008689299831912363957072715414620924124488008359781945988546674,
  5057776989710754270132461066978463733974245311090278287968163719829764475413363820271108199,
  4539738365399079572665184294798190577339689359943107121176985788243033008643231776880,
  5057781529147605739872231496086490607437632394220252550715603443788535278827675151262220402,
  6277948808562531011331950955866144405261008775069927254119386941593942355097932955227255890278757630066,
  4074766732917102546077168389552010698943527800439924014280444372689629344235636,
  13376171160786295057762543599900285996944787292240165719568334479694764090367348290670551591789888645450096738121578576283383388162826319519350900,
  4074774047301476095710541365166031056417664085572460346742732439225198409810023,
  13376171160786295057762543599900285996944787292240165719568334479694764097681732664220184964765502665807570874406711112615845676229361888584925287,
  5634950267415694787088596035847829282146719134147297655554073153194182832889407912023223334535282,
  6277965712356321637953967545587390722145499778290751769855810267984336679582682140687926552298208034930,
  7792524969943730575837587131969421376970389563221275168148254150651708242191167411799012049946439005283131336884338,
  6994388323474124928609207102802554881599775909932148650966575481400955100136070115950160854528952406655303794,
  5057826923703547455419387166101277271194371555266476507106044584954542161838020507645968498,
  6994400878599803359443284148309574972702105655674296079330262808365881499969102933958900898350507559416168562,
  4539791333921540513827008990411231472257690910626929999298197722752647773546354770034,
  4539791333921540523674748398694367308373971583729158428323285304644618618796702105714,
  14902552804285940759393942975172107432628150859732275510159716263841693055066924940387409197202090216124250777041033584585158104216561386783174719111282,
  5057836002617995403455681846997627231180192996183046102194504202292037397205840776844410983,
  6994419711274234590945052007477471898637827937232179877149852047479073268511865940475919023572614441351446638,
  4074810619115018159413403914827012976759522620449386796827294924477176020402286,
  13376171160786295057762543599900285996944787292240165719568334479694764134253546206283887827315163647727912732941588039065930238714613866195517550,
  3657454794722582642175316612977043443651153751905157047506264647605878898,
  6994432266349201787072899476821913737482222370967258735384048097949527810440617772576251461255367013808668786,
  22960221706868183362049343863956035463024701104117095713075900583605839790163163083857346582182548667343337050470946675021089241680275528628255579292374560392064920784895672434,
  6994432266349201787072899476821913737482222370970205137571785581299017760259160958943531618862174126945009778,
  22960221706868183362049343863956035463024701104117095713075900583605839790163163083857346582182548667343337050470949621423276979163625018578074122478741840549671727898032013426,
  9672506380017595674504815272710280172337659605554645566718558889653369565814517705439288777579443949056882311103111559053770866,
  31751382026352638158567578245463646255148394517222191118951763142762750662737171100063427992444831029971482168440973654710335140723333008601405446782498818123578405858096561589623088445634052210,
  4539803557475673762699233549629431410020479878546310400619451346765537763540727627879,
  14902552804285940759393942975172107432628150859732275510159716263841693067290479073626433682353025280225897285335850736557454270258682305927918744633447,
  6278033327303899205529343174953972437181373845384756740558419776101245771991305008428503137498213318770,
  20608539991372665730240176808037284817886084257343153752114599415144832647133468703166238574119173901498043143667430849310879171713362491336005480890025962756288383221874,
  3657458077332831302634547955692838724383948898116828915236249421710557298,
  12006127894490226348663818000255168238870766397130778341466867316476946789521955264347493972681695821145498890951643451255811473268268793970,
  3657464642509132982137466833891807470242491245466605780879087287744266354,
  12006127894490226348663818000255168238870766397130778341466867316476946796087131566026996891559894789891357433298993228121454311134302503026,
  116116945962488075669016081918128078210424084661309390500337700505557893366064039892614928866750607578951034190130652214110157672129529547264995771297861821754885400610530728882249693589971245358011064490355218188397638909705897001683801345226523247472723001322963058,
  54499640905148204321929673175583203174972852793712181074365728555856789789795402113655271891883391011589897086604501526556503818047948648758828594934731825705966206133853643934104250661521747720325150051446481660482592637042,
  35374532234879605214133869351282242090698393161990314304599326294198682895268967551182815607518360433100928716450261241293384902466266548800499740282432405868319204923829096421410154706162969724518514,
  48918965214399645548863020935498068933463064651172333984616620448742328033570159029013948401665247963231666212216798443379366688434483649013764580037503785361887873758566848080280746336106425958479286742275512403427442,
  116120280922373755934946998103586805183344075259289402434836194319368644067157035411199024695445452921369791019833147169037811242981345207653538395061328955758176675249124242197562628259127189849213042602165029496809924724158323157254839501532348877653464944335585388,
  93551417814617438324777871956490306653662493893349300260172353083706596295176115327845846950097026394746036713350856825815132626996970694437242637551657207824458497017416172539989567313251380469177856638395915463126430019783639779887141924829525578809452,
  75369120838551942503156408018567755654098407333915351215745201730119031271662874551866948407006318823980516160400360142832115446180712267480126730535832776837042631604204374723642170757898410229863361792281122311979749913659322820784907550836,
  178905736175891272528169208424070288860160300427132408492682928385306093279031617373703456286817870350579534051775928003459988107222806767817349434548745002889591403702099517932395611585499609074518866667221935026926467676949758480541546030926848494909891046694508992834614700169900193939572,
  39411261599980949015285526242969949421578661481647563903732820864834910335852307034755536647999536648948125736354577902228172349583499891470236951768980885716432722053353025393808078193086250645445479170164,
  93551585738527427134967124122435814004102335132942512695050070211237534817209074606378015218152552864909518713867553430700889961035159715512428295490666254869790175541584512053416972081580304022216206582410735682014634407393789196280991321044596299071604,
  129371230638705993451558102052431632905417767036702516163034928859000682156757654036531190593494821779621744513899418348512757779960854054235299664430799964921745375425806735321375145457092055068370250375282805918632930413031838347033484222974595223363940631011431495696500,
  144134040509350011776302300193838711399520799268794713687431170660958967999029583453947838156459799187745371107139187747892259616228006974514952025309192446875580762839065390493113040065841963606655687113488906135085125167419771804209329748934903682207885042727384859772133245044,
  75369120838551942503156408018567755654098407333915351215745201730119031271662874552049566138465096110674310134341642902968542467803190735817718346841960528877335093960725950631588408702691705401112207596806840824453808658646057415525348343924,
  75369120838551942503156408018567755654098407333915351215745201730119031271662874552132574252405962832634929215801369751319949177771369707987236771472514825165439578117764644789880387521548338813509218531378506506168092870135518751306405838964,
  5635101991383169652078194021441477103103281289072160894858594842445071249721268854471110309970021,
  10776439191707404369042975176441820179919526998185601668216479400300229419340408857753399402998937258341185915849788433532444548726898,
  9672671321830663724640707779271645081512962448128431924182836068752610566294259489916064460630538126858702893767517610869391461,
  13376207175861917179701584032268648443005712685160990427406914747432488702873699994593461814023472707762162624915014284611418613646958519714644082,
  14902592929113872272911691189358888454133980571090081367059172603091504853736023648376510928545319225390318526369335518409391151827840982483136445350004,
  9672671321830663724640707779271645081512962448128431946125867733302569446532931769404471605101332456894134715250286021526356078,
  28499349720960876896158572407082006635659117678296355926992743328090763497169418292827095790468880311530852572412814003973219710657720474673790442965822834979484505877688133353870621671525,
  10776439191707404423586908225379891045054569619009263576436784911662453808942778645458875240520492264048242925667739128090560822313060,
  6994551539916369101735473391354888244359163175193296668012739538826207064128421023961364034458193445235327052,
  8681955962982773477568420212035814246245406609145608312332180877519159318905955463149199451924963170841065039817291923556,
  13376207175861917179701584032268648443005712685160990503268889405993317868952534512347004344058726150807909798525666340602248336609946415139127417,
  22960283526809864261905095871172167524859036630174515743345100285312896639652736096380876588004845433192050791350090537664342276906189492083090575077515657498429952806313263205,
  12006160220751519757171257496794441171987836667373648716144625999197611821513066743785262515739728142543443029442447317746080645177719849068,
  28499349720960876896158572407082006635659117678296356056297952921155259595146477801645464368725836436695123748206963026241987948496230025427598004610664860712850215204446052708901536530535,
  8681971546948657645614584604276492542277608050447440595426124905986870486898782645020727292301911072487105282311131693170]

def memReqsCodes3 : List Nat := [
  10776545581047849109672160727495449441573563219814169977536233429991647123630038220095899187549663678434440286244645633002862781857906,
  3657556555180656437227178329453844939526808637583603101886829179474739314,
  8682041674749676239354266861186240491288030193098180870808771109073249945602957159850813236146408897086611536534015246450,
  22960510200071162914215285084812116671923748987554881446947237328695782235002780124692698592421879486306483395798007980771195250829223320560432465607691951638314643630130659442,
  4539925792691517098752036470697471803862158132179117720054161285654020638036680048756,
  20608798935997582904409880829176750983976846241882951234510231092603801217553116202393333278237374661003357109054971108715580993602604027070631615352906982159619557621874,
  5057985804763429559130730351165391563900380123780211642299411963374347077526687833334415474,
  7792790738118437884400809026945205524855521968344429518873394171040979927776903542907353010447978504639604267614322,
  8682041674826609068265554146627976817707835291210777697574327004855114368706742793130776893279179754254446045541720588402,
  9672766814424423082263473061407988508330111791961421962199928608033141192771627572183927521023265520208783761585192202640752754,
  10776545581152022849026722499391376892992677508779342133120446350206646082712778651699310461020614175827690949902427818464195846799474,
  16603321526675541446261063798052614708351541252620754750644930557192152336469608626317509775556828322054484595721238324180447063409220792887673132217800786034,
  14902740053671032576851397164784702712430654415912183649978575365126802638342479890931121640303139767496686060732815712303751601179136593610217929113700,
  7792797731904115545708202178931285285242723047447651904607072001950593152757540456497025223760034536760276764524658,
  20608817431865531384168773587106864802266261056538376432388139801541254675027455354765002090379654861504754999431984457029283727962390565268615561861273293393556534132850,
  6278213633898205201590050927774172851527475988610004396968661573591319641282847611049036241690605846644,
  18497992955898611136705519196187472330240309939723351290848166639292722262660742744377985475785325383750980268842043783222414349876337370426132563704869101665976434,
  8682080634716840921492800490821808998103098108345884376347891510609477912631183806692259387263300589958768600905947218030,
  13376399256419682086778049304500487762263170201433478113657108654625146816684776919160000367145609860448297193906633463055091739217557691097546866,
  18498042760647765792507525668223762795499384465826411525189103726177813134995884353998672180180464362153725769737176424085876551479927130724197700760380486584500338,
  8682080634716840921492800490821808998103098108345884392760960432295810015750065784586806180958401740171162269182959157362,
  14902806928368244849064466066735647421790545079459455196335648940301199964982434360168997294250174226613075447232722597235857841274673896442603538350194,
  13376399256419682086778049304500487762263170201433478138944422948775113587202457956114116227893787256785739099956259042912915453996921904688136306,
  18498042760647765792507525668223762795499384465826411532183033787652009749153800688112328749299442220499403144803906117560745008351162347680773082817390325334671474,
  25580694730723837248412957010568386853011543177093707351805754987026283399271649638741006528762957143506082122783417197002123930643559060696980798650805341474785308986220164118872178,
  12006332627617045760909180858388104393690374218600534002815177422714335351564706201992363629414125315868166680276088309882553537348477517938,
  8682080634716840921492800490821808998103098108345884409173899713296118036286954090998559508135110783768368225844628422770,
  13376399256419682086778049304500487762263170201433478164231746321599132450629042761369520542537404014396798488524117492172473727055134319235432562,
  31751923463173919735582920418020047744591510809215619377607948585662330456491475462621568589988729293636931394128607612447577310879025950514732878564622012427795720687060977661326656284038135922,
  7792825707574140590436868547167438280983508038999565940564270883548547294525467963225737839278337024330212815536242,
  12006332627617045760909180858388104393690374218600534025512467617075041592700215024784065448612704832111681105106437616554153266985779200114,
  6278230537636363935593093918758446325705502742166348912904778009863132846107748567338483148443375239282,
  13376399256419682086778049304500487762263170201433478209748933840572944659659648637339011254846214537978695301905074061724953163638901985789476978,
  6994664535833361105858414178663117596605641628725390495823769019156762656013410494127944745369103832546279525,
  1716651234585414457615896084594,
  1383006961517985900,
  1716651234592328871800131289204,
  1383006961520214137,
  2946637557191283241019064972572594886464765828319755339956327,
  1383008202760192110,
  2946637557231636574493181573180938248506376604730622655463540,
  4074865476817276998776839111172454680746502960236759611274024898454080900628600,
  6278106576913468186663960373419535856438007791818992914115856594749999701533290567708552830466488074345,
  7792671841878651945777200479100610861170271815486912015239385499728398160735100317743440032475528022848328738668659,
  10776381161139919442452877187647291700960246535277365991816828303158541004917067832545609271201839024810772667074898760311078972358776,
  10776381161139919442452877187647291700960246535277365991816828303158541004917067832545609271201839024815922177059353384146858294182008,
  2644830642923020932566762646135065847205361438179000440,
  4074865476817276998776839111215181626421288879083248332433194479488200429076585,
  5057908634015069103603151679642721540307892293227835039021564444127866646162180650671407219,
  6994513874618217868380558219624526810711391917641799718543399312430972779854040022752482303287028656622862456,
  6994513874618217868380558219624526810711391917641799718543399312430972779854045172262466757910864435944685688,
  2373938182695401900554378694844633604140483477605,
  3282887208524971845009310108024500272897880317072180819832275402852,
  4074872791122868200026337428467674678230628321326242728538624063273434582941811,
  3657507316250851081422996456790407681177292961982761310619418353974182009,
  4539864675063480936067742845104977978234067800780190937088829595164661062704572465267,
  4074872791122868200026337428467674684622432754319306261030159155026551504437363,
  5057917712864324872644305116645597225286313745662820085301932432422054743239276318908809331,
  2373940313310903640271218459557115276286433886320,
  4539864675063480936067742845104978009092498654345734347623158042032605355328908623987,
  4074872791122868200026337428467674712320214353983921138649580224782504489975923,
  5057917712864324872644305116645597259666061860790434785499154167018993894983560725372665971,
  2644837764081343601735101491958086830520068230362693733,
  1540831566339805467639909,
  2644840137797943673338689563252802824753355439363063924,
  5057926791778772849937976444501230869790440784865581768702394764606870913813975370680303731,
  10776419848100991650158262165896169551794217418368394890240795807562547831497744233493336485819175703905558948148553178033741354303599,
  4074880105490828801539522045200990597103844024898422062708936232802312988721272,
  2644840137804335479684068165327432850920769328338239608,
  5635096933855850561285521971330969352233551110157049852419688552922121530717943633378987887362162,
  1912550322784606715350960354083537012,
  8681940378995907550725937606411280846095110047839591742667936197692079421397029762990426955242321349393073555204534567028,
  1540834332107961644351600,
  8681963754927249134580186532660691268190306965018981370525643693906384460580929425061304496263884742428298795474331697263,
  4074891077034563176714372679305542183832878208419191392768441204977861475041396,
  4539885047617131249935603174486456213514415606538322176428534247990614011111022002280,
  4539885047617131249935603174497034626947527892504463899723979758436550571802236354675,
  4539885047617131249935603174504968423373404301832341781451550306926911694836375814258,
  3657523729243166913842030854481658295729743672519056964206293381706743923,
  1540835715013140899233906,
  2946664003190447003196642096923503952463007847806402970058866,
  2644854380161462225697813233250789824059889846334783609,
  5057954028546563732826903638704870295428491407926214792239575841155500545452573719748935784,
  5057958567963042630630579808932084295723397392880367381907394945224674790524449594114506868,
  4539901345612508105675712862739189862171305391989645010472371669297767906134111617144,
  6994582927603787132514945190887259281966328530453040237714218867525073202735549577780984603183376855633952869,
  9672714727441761788194683181439134330885627406138626720255149725044164350388614298140595109309327735728426603984184422630686841,
  1540842629427325134438516,
  2373965880530548077022835666083725663794122457209,
  5635147508520754445669899727558423932370952847949515144526331108794109047048141721206945157021810,
  5057972186387683146460948026372953466411772647587958072910386788688953492270512541927800946,
  5057972186387683146460948026372953466411772647587958072910407386710403019092945871371042930,
  2373970141706092717425511484483915893213981114468,
  4539925792654945363992082495086731439627176455030867175651579848661810517655916773492,
  4074927648818561851302576931950872746870425693572283021728141930722587303018611,
  1912572637307843702741938483037012068,
  3657556555216012924971481903162568098584405451602168087279214241106559076,
  3657556555216012969929482037947128016206075690773863083400911252896874596,
  2946682515402679761756877010408836149473863465623757116407909,
  2946682515402679761756877010410552665127538640182527048024165]

def memReqsCodes4 : List Nat := [
  2946682515402679761756877010412269168455710463794859492835444,
  4539925792709803043272738509197411765429463601061828739533652564704301904102050300016,
  3282934350600310354730477759830171160390803261150000083715459973225,
  4074927648844822641954075092275593090260697336400603206959392786961522054201452,
  5635162680921133514653270879859661954301361064812035554780708303177894094339573874638848238354546,
  4074927648844822641954075092275593090260716460180461563654990504412770846965859,
  5057985804767504088146677245967785962543603854039261318209791818811006488815267838620860517,
  4074927648844822641954075092285087960922266388449612139479790233677675637899379,
  4074927648844822641954075092292209142681549261337658894372924055149083235385454,
  5635162680921133514653270879889205272703086186919372714717861553958111994143554156521240623906936,
  5635162680921133514653270879889205272703086186919372714717861553963261504128008780357019945730168,
  4539925792709803043272738509229146944011887617353543243217052719130546819618136064110,
  2946682515402679761756877010432867196067996567575008382615668,
  2644870996275670454816820041832956821521260683408965740,
  1383029303947886701,
  1716678967031221136696156684402,
  1540850926771513513214053,
  1912576070309877920921230262764306546,
  2130823950845078710233393690517555797819493,
  6278213633898205201589981661135648119504111372836733095552874068415877603370517264100653637594522910828,
  6278213633898205201589981661135648119504111372836733095552874068435001383228873959698371088843315675235,
  1383037992653357168,
  12006214097773077060601487869009709371888632991058139596289958956103294497920034046728914427999111696981248240501795844471809774555962343539,
  9672714727441761788194683181439134330885627406138626720255149725044164305430448002427012926508862599315711453231549963638734963,
  12006214097773077060601487869009709371888632991058139596289958956103294507767820597066231982576359298810862686531307581495174597547296882803,
  6278168557204111554776310811558675682486436310221091091123889579795454312570049932655402228196421468275,
  4539901345612508105675712862739189862171305391989645010472371669297767914822827114602,
  6994526429636839198155817520545398388387408281321202312690067093727485971216217832760701864321039568003268711,
  6278117845994692811993603444308470239708141690626242753517542264677618987688671374054337639607908040807,
  7792685829575558192735774169449874942251594676083467320737753407537783161143342373909242658727974444698047179784295,
  12005750754101338572505885143554545963033152860699616432545397949165830265418709793542349762077341904640647093775067828847522323537423433823,
  10776071664340154825103656673255961665463753070337287842286411015378911873688381234150919985445634786989274481005202590268653546242149,
  35373516282756160976879671271178305713667813478727761638850037224785730277667014430532192677339353263812901198864674834453122173090779185725430466431845088101958862511497544715891303714588859676557428,
  7792469018666456047157015930654417746575996030930927947912680548620047923415763950389288383274009637862226431246454,
  5634990727157604639371245593474354776164314343273940148869788051625989358613698320515795055607918,
  9672471655489757224325070389375143347531417634423457342590390674644720898615680970603970352237267926778662398846183349303509093,
  178902845970972457719671777457112944449497319381554424846331450855636494461218445035302556805445430553685257371404418673080496211937053839938350188320755093636364174392478063557442047015952765366041106338950028583284569058755171748345498344956554653265152979618713404084368338836054277947476,
  1927755688731098852094651897450557332068431266963599157972806481503232181342777498721220773668478904816872207547146600384090064917867813448898543349453180686519005223766730018413891265268954977581387781112280752935433979489510245450670650428439441869078371821812958899700265867875895770437991506075754785806921174276709175076139483099009022433787816872421764769154460210289553018878071124541140504238137339433137430774808691,
  48918262741130793563257487167670365761373404271336693637238893886274719225865431317481563068904937594496412053034588870676360356375385085082759109239870963746327539506191923411220365616482638271161787337756014710816869,
  31750869085709410556703080364497339010177763512699925053104779182519189860209445813637389470655224984203830824247331855295048551862873778723427078527363681364853641757752050745855310748931522670,
  3282843012846531936079726778416189661886032977262156477099406458988,
  9672593191520303404339321488203288974901393087953259980066407618760617274467399768889156621672880798675154837348273735981400164,
  7792650860170075955606022357428742058945376944442991179461449754709814376872404490793101224206141254916771654467704,
  7792650860170075955606022357428742058945376944442991182407793761307531148520158342031733877105917980265037044187256,
  31751211046189384975198317810268301892335374221335992444074034029780249852756507192937132899475131693636276820463050803862327406640582681396978490295941032611237170975402949814054883559931838579,
  7792664847835594492607806038353772473739987624008078919820519713295841083048807108897017257878499663968606107271278,
  16603053304786640854479089906884394790622931500511622448014057132739691130545357757020606220820145978005545022114164266930792072738269063325272512104711323763,
  129370766199373562118400230131737231188941799176470578616337873544526139516468271822238109509300275406931739697218939540960955375012159302502928494387121171989706834453560328621892849802435562916955513881026928965896497898664509775245347041998570047824770856432917173174387,
  247405449985933729794163970615645897629629887776812983446199271852605216551836647892902057262114424884204962172623368391126626672051695393962046220441281117674836960003092701255681782404146730377189186719615789211329989894810827643694707662820753948374410716598242212494238227986213325456920338218886286999667,
  9672610553795910665038906679037606078180744998858346654665876474807888523841147744900412028735348913689608577516829204257505395,
  7792664847936035447324483290467429066796107925715004411904576736279902273860896168221532219631494726909037905248371,
  10776371489319350784027024406550343655680732019618994830316199335349624929958412865497450003835020780075298449699569069413169422532724,
  3282881315786711365578142307495966321160758336911362108878261256293,
  60720338819220759914926148261788573373977956013168905868015599851416681102502179390766544117778267261240623421134061714883060438704800704951551866517065547277013158026722934467212532989323209030436775161665530968440935414219800677,
  12006084792708560584100142880643837048976854359534459240743780435901440127591613687207918080392677095710706568549649129533470303255294574704,
  13376123140574119849472978385039866582309701164209655463738371453262306812983211056813740473252859772209314089081869142775937241253741441995571300,
  31751268039466298710644281470930643566725247809414997426219616815631465170513521094267118257975275290438670986208421569508579350326985483391486718916943211476646855080298564160353269599670501479,
  12006084792708560584100142880643837048976854359534459299756659155419424020744332234499525678113101425408746818681423434760254609732872896624,
  14902499304391313813736038894513535837750225783459947729996896519085422719021328699590344991637315442883855170001095891944981437504554201092016470622311,
  20608466007087393710205421621996220804650879349729533277002177720827669688950307888660395804126650298123516519797771679605834615073717813885623363916083883857716530446450,
  20608466007087393710205421621996220804650879349729533277002177720827669688950307888660395804126650298172755402461015120981701588427255415219171618691545837512959261016167,
  25580166693617569397571223932117497308963825804866996550449800202155250165149088814028923703765696305348142027772420218342046999750801303403763987137578687204255290317434617278824556,
  28499170675359657476666871437459289161884305895111979260814727802823590071994581636775392273622778549516231668246564501084038482258195559360347682262006462055812853993452421171330014904423,
  25580166693617569397571223932117497308963825804866996550449800202155250165149088814028923729053074151895170026215106291902464458024168131518999308803024463275629516220453365958312051,
  31751268039466298710644281470930643566725247809414997438224818021859395582290027336511105836750421055358627896373516469431740281545684020279881910979694353079010874654398867499641062451842449508,
  16603053305014015415649085764844264439267579548062129291639834223708520173324053664914631785553600432314460184074902000243606792691629889702264098815118278757,
  12006084792708560584100142880643837048976854359534459304296100081366979227996054360924418285856479310420675228397438620992065835341676675175,
  13376123140574119849472978385039866582309701164209655524427936653851927961661140116170011029415961496623066198282799698112209650776689286579748980,
  9672610553803702700435328056143020773545647439233052618653436215039306571607273620594399777712334875121719754928419312810197103,
  9672610553803702700435328056143020773545647439233052618653436215039306571607273620594399777712334875121719770140154101740929125,
  9672610553803702700435328056143020773545647439233052618653436215039306571607273620619966980145373873842219059785316645551800421,
  9672610553803702700435328056143020773545647439233052618653436215039306571607273620624228197762228347983083888882442428122202220,
  13376123140574119849472978385039866582309701164209655524427972969485272674797489892963092425922741313825540128189357129896540887435055979738497134,
  144133523072032589878149709940295058595650402573658020576634704088522174721624663615617850473490308095143191912984254600169588987125192379882507727134640518488772011540698733960880307573477357358919902115397464454779015981881029014887269736584054949443800766310440870027845697651,
  6278100942302051365377108326667498103134672674611068280838069651486466927012422876903356975303855112307,
  35374468737985876989113321718141481165411399287442961839894842853689963956912995680488063232296523854445237436442706335827847169149981117547234563763328068859944752550889767380897848894091765138718841,
  7792664847942313041153972994354908626521476269903503075995461448879540425298124315672773048070176761210000430530667,
  8681901419070706266906135160686735959711094970014731619003464384903621422869601877011806507943229278760616223232978255979,
  16603053305014015415649085764844264439267579548062129398358258808707523568665696175625486038383350138732978589755558503020283951948932568728191329016441077881,
  13376123140574119849472978385039866582309701164209655620519766379252875244152706303275364910498142751213892940201316627771578151838068642861219952,
  5635071646568793232078200689578335125314755315992528847932615922272663742738669543234985427861605,
  48918877405398670244728460164963500875523632924952936503133793156818543491211326576946861089281821159669757442587063030215209782720948949921025174039260900532257466070386441001854823178945892785830484641607492469850228,
  16603053305014015415649085764844264439267579548062129442301218404378159888957668283150865165392263244120461623420705697029071184779258722370488763812242653285,
  39411120114614921384095021086042041864158824882931653235479700424849045629844583945572797381328210647615934156002346864054759963268944002834323478552155349626203741883476875945993251305647910006128914006130,
  9672610553803702700435328056143020773545647439233052706425779524720032261688095602238605598846994296631529549797232540000190565,
  28499170675359657476666871437459289161884305895111979530200512613412262947223896737995757739846620620624510917164203653166618238940254517341806091810747988528072096369068097627205296586867,
  60720338819220759914926148261788573373977956013168906855215906261958666429619723900242331671877321249312740729202038895947181830536340507373119940552884854325108475872598310342354772765789924373201215285517087063539525841745543282,
  18497660923755774742759634239642173142961281585450595157221095038938560470206405726342968793339922355482635075516270605874791059492732823309536132497677898424254575,
  16603053305014015415649085764844264439267579548062129442301218404378159888957668283209380020446707651908098176409795968336030003709441082512638745948450652269,
  28499170675359657476666871437459289161884305895111979530200512613412262947223896737995757779288597090665542159393278676661833899987266400254742734427670358109761508041548928878661632000111,
  16603053305014015415649085764844264439267579548062129442301218404378159888957668283209380020446707651908098176409798098936232775840826387090484350222921891941,
  13376123140574119849472978385039866582309701164209655645807130607375262737736341394620502841693297341056762785565228986898850256313549208939659375,
  10776371489319350822987404211285613160056488359818814816861438077844884583133847567601257392901600690253413490505779946638158735343731,
  3282881315786711377446914931323663492300371258079714005593088131182,
  31751268039466298710644281470930643566725247809414997810381055608725903838085658347953112027269709081944106307346388720485777438253296011247780847870519774343854627383652827319190157861841141861,
  5057904094533398107262286636871638691006609134442972404362576678842013859499635787837014132,
  6994507597030023050783020912040179646679576442856286554748418664871152359815295236198462885868728463999959156,
  6278100942302051365377108326667498103134672674611068325938893851968960503643114480496939237325843529828,
  43908401853133859293076872132212471483110621113733336906272528158121349482895631468984121754165655412317291588594041845663675771990477235236099413235619715108681176950090059893586674737577873241953741876445380708,
  5635071646577872060961478252507819246481876098215362567559211461818186043116034989526422285516910]

def memReqsCodes5 : List Nat := [
  5635071646577872060961478252507819246481876098215362569689836525482162049216515016064570603143280,
  5635071646577872060961478252507819246481876098215362590995807955000530993362992194339654155174007,
  5635076703950849691703674901728605711234942035035216821280598285520287840005433522951091258654821,
  5635076703950849691703674901728605711234942035035216821280598285522004355659108697509861190271077,
  7792671841727990634846064546155401335772795183365142707731175568301278523616600589056711239699579986376223113871461,
  7792671841727990634846064546155401335772795183365142707731175568301278523616600589058427755353255160934993045487717,
  5635076703950849691703674901728605711234942035037590548533688114265495582054196133951942712098917,
  5635076703950849691703674901728605711234942035037590548533688114267212097707871308510712643715173,
  6994513874482987917593621239296768489858106889946170623854498186080159287960122668509619838272430891395776627,
  6994513874482987917593621239296768489858106889949117026042235669429649237778665854876899995879238004532117619,
  10776381160957615244689518412708224420081071829993365809948684722110287909978434241732882049055769822456991990039401969531122087166066,
  12006095567996810635491528737819185412991141425649051025365600488624943030134774026698808095816586126626655270514986074969069982303030149236,
  28499196252955036522263877369918309942040302955916575187677802162865564995285988532033950662269682154964668577409161497256459341699481240315697734510325097482945175815220781864292472586355,
  6994513874623852115659761330036903312305415026080720673150802346106379612559747876103426390360760670661509231,
  5635076704064335857459818759066970613112711049616917427331791135365172109298966374747070203756651,
  6278106576918525350826273597301620763716228732910803108799476485403962629035293107083231434473661005873,
  8681909211106102160968435384569775075645625419309144198367908590926535304769648011643119958340742473491634452162532868197,
  8681909211106102160968435384569775075645625419309144198367908590926535304769648011643119958340742473502697559542123987055,
  8681909211106102160968435384569775075645625419309144198367908590926535304769650142243322718456653783108294822219221827685,
  8681909211106102160968435384569775075645625419309144198367908590926535304769658664668994616434854795056135037227765596261,
  2373936052143008428733067847721071323470707884142,
  31751325032385120623781222990705669186659054873638047557855800917107456384472739267297947373642474251324809676349774659551663939760507206465800955607612293456338193742139755268508760080969302067,
  31751325032385120623781222990705669186659054873638047557855800917107456384472739267297947373642474251324809676349774659551663939760507206465800955607612293456338193742139755268508760080969302068,
  14902526054164554158856076504781417210219976651687353057233887988397663771115765220394881271912680350769954308326472296219680660154460887190405898240116,
  13376147150523963622020116922518936345914931938339550294076258031865435226544337750957606840167487964199249544324513420750948440909535089715773556,
  4074869133956942186397518624245306747028706762876251768437965131692092019638373,
  4539860600571036773171712269495187190545646549001586615387458949108527392656308043877,
  3282887208527616443026706653886647678283854296563273587146586194022,
  3282887208527616443026706653886647678283854296563273593352799453294,
  3282887208527616443026706653886647678283865081381644287118477033573,
  3282887208527616443026706653886647678283865081391324506696214184050,
  2946640201817785324120650934454208982834641546593627203108980,
  4074869133963507386270172326032209239203742780260964406376478026204409518882917,
  4074869133963507386270172326032209239203742780262680922030153200763179450499173,
  20608502999122119119945944537880700809097225165473746491788225284964143291573120004267810733384327623858452268049393386868296109423610846587475726474660371306882576744562,
  20608502999122119119945944537880700809097225165473746491788225284964143291573120004267810733384327623858452268049393386868296109423612758978163673830738391592935426949234,
  6278112211443965537749393962272155031016076698874666239745918070256546986213174139091619177069745012837,
  6278112211443965537749393962272155031016076698874666239745918070256546987929689792766793735839676629093,
  14902526054260594421575950687725282259385901256215042335039121957032548465167214135020124555554190817865807995370337176158899360310063980996285718200435,
  6278112211443965537749393962272155031016076698906401401712315232891120089165412870593103399008978927730,
  20608502999122119239155653618788342800107135036080409326912926359492131422545313324471846701976167475124264457681294843616326912976498675901957343997233527150260299956340,
  14902526054260594507779485004348296968050236619647368086768763299080883011802469144292968903165818716447632792756704688188333533232856441357202634113132,
  43908480668370545760319005999313993313602402284654795199133304965855471721661039832931404113310935070200598727527200232099652854381343055753848059570780309207313852639664739536181008577225073933681335822405468260,
  54501206172945217822919818150047324518237562040532500100628196835722914187377117724024282841767951609800532474628133855370556378670350289740027017911894504271989497759620993676839530541985312296580320797653839782148131717215,
  28499221831147327899083872560131638480101624649290511247834710980729601350047816823356957964978655600665595896468024389209521685716031370860517607657097109170760685849594501704721625972831,
  28499221831147327899083872560131638480101624649290511247834710980729601350047816823356957964978655600665595896468024389209521685716031370860517616179501744935955611349147552009370035028068,
  35374532234879605162978196470964385230083239516674192254232797763519414241078545353537338840759081312299825390020088365140343299334458928338475493740328177324293918599244244837920811414777885948444784,
  39411190857266186667335964426659073157458498144400917680747810781910141638956500320920191650555781599008983064926060688663238153908112705569035618121170243748426279303618754579958274214226852394168484626533,
  31751325032743211780304131425713380010342981241270350067347625520162617619304473296703867152278299948568748375405783588310998624316459142652153026134249578937075828233413383298459158698078896243,
  54501206172945217822919818150047324518237562040532500100628196835722914187377278223324003101982964745419928215716367687816691250275381522361873835196837303553444040025057171937735386719278539288556467121105837910961838686322,
  48918965214399645478120528411907711718604199614161323188896804662119171310763440500886807701544337324631570448676944228063867232625967158025291743735672269532546135420009094182394038228902066658070703054190230950117497,
  10776390832821589709013193638852006720917489259954952551335311910984633631256976357142321586482501996033553684873911265325713231708281,
  12006106343536526953888107191368686911854825794386932096873287023770912144186972443208546187359193263804934562962243027634561026211191849076,
  12006106343536526953888107191368686911854825794386932096873287023770912144186972443208546187359193263804934562962252271776248800322191163512,
  13376147150610167117650186879190150512740403675436013692311691552627458470784436242647959809891125525524243255811000803013180124167855450247790708,
  13376147150610167117650186879190150512740403675436013692311691552627458470784436242647959809891125525524243255811016251515401046381350837168767077,
  14902526054260594507779485004348296968050236619647368086768763299080883011802589831169003799717421641492865702218122938008326504452220321051857809244261,
  12006106343536526962569283954924238160902582571544285585939994327000178497657839722641867459012448436121891800673120249272604267720326512741,
  43908480668370545823815842734543458174759365540054790084687057438894301651557062604477659191013663615019577599067923900828458027409968794721187422851079447314531632849170979445001146908226326707611499605458616436,
  43908480668370545823815842734543458174759365540054790084687057438894301651557062604477659191013663615019577599067923900828458027409968794721187422851079447314531632849170979445001146908226326710377272726627549285,
  54501206172945217901734984094276031719535909694966718722482158825317593214322751324212221393142838169224069634254239705399067640278166904177622814215821789004450164318309241996856197272810516546038937087344820844461097353319,
  60720447811752342606937766599242058251115591422078760929342042933192234411195549123521350612444139820709995502731500402149356123182036926286477202894844928188611895148524406650056030310513905682190467917493560153116356548838490228,
  60720447811752342606937766599242058251115591422078760929342042933192234411195549123521350612444139820709995502731500402149356123182036926286477202894844928188611895148524406650056030310513905682190467917493560155882129670007423077,
  75368985551935860949025491082546450008541573574649132642512999305611793746725452226676557253838976684315412179331734267014034137735492659335722088596562577639289860087553589484520918791108923509030385881737327431589916375046619438781626712167,
  7792678835714549974568265030483481260600930833181870160165747835640626054547950340146911073720721700687748363321447,
  5635081761478168786570854025095733677749115208193170163841122148587985483787044002592647091388530,
  10776390832821589724597222468139503245090547244785150690970974275080382347794777549381050780224780132109633546978292148762949633704052,
  16603083107364379492261382949758321569512143965831677966544833973886575191939777211170153285093769844910951122491819889474746124925892536180439948270291255410,
  16603083107364379492261382949758321569512143965831677966544833973886575191939777211170153285093769844910951122491819889474746124925892536180439960682750083188,
  7792678835714549974568265030483481260600930833181870160165747835640626092898788412466584926000979833763780951736435,
  3657504033681851765975489760156244467760316345585019806974099200863371380,
  16603083107417879422902930110321420177657798046510696608666897947757617874029563310101005297402764355240000838557064329879182849341901793524690717979958378610,
  8681917003043584346180665455982233856331251062467223682855249224342676024397783989354664826053190429970346487324062842996,
  14902526054320619845732974982863078443065901995805514357626321524971564589734683882245239585358971088019450951639761329564642868516689842424201558163570,
  25580212609919037645339625452489803370149976345708941887024364857091599330382564024725141941379443716766542081999816768744662315339341762399497142462335345168656070730858748009513081,
  5635081761500866117510278145750276690500144297276168724729930604673584273616433951674936524144751,
  9672627916102685850513192945675660909602843441014965408254632293295269044011587883949095607824350530399865529196828550733168754,
  5635081761500866117510278145750276690500144297304653451767008549616077178201585283685153965473903,
  9672627916102685850513192945675660909602843441063859493129102970080328069441806717073439319739686741373699579209417979477295218,
  12006106343584885909151955361764096918449719404195577807108016963258553531068075909853626037496692976566110546939126687694617909137046110324,
  7792678835752215323430722976437407267459174679953822765827363857221730582506658028112269060218907453163188551483513,
  6994520152150066890429977395842973836974356868926842872015886963987220866901735774011043072263048855994105957,
  35374532235050585454121377054365948359626386650814309490708291269117746579815225931602516152093035728324499575566014255278214522136982763287102214050951578208832385569557839877997042547916972613566580,
  7792678835752215323430722976437407267459174679993213912028713127440039572913976485896387107167000912455153889640569,
  6994520152150066890429977395842973836974356868962199412652150885584249702788359791869317686438368266692460645,
  5635081761505405546212711796734080708703590825232380840974261169959892103945014142295312377774184,
  13376147150674819775641528247954567029160781404492868631121298784698481694092987753578753403147102097714420775999392320831800989228994470787940467,
  9672627916110477787994970116870553970578495396809990507353798941343589330856961627272155351120425286518153958647336256899580008,
  22960201099770886207959383671972397696660315060310775784003368816804162827085274063714429892201935279004534178364281799696763373546623137085368347811945546619402721020548808818,
  18497710728311213706571202473789387199412447297519253180155531229989598994292571843987206638563423767966684097698294947317620447332991365189253084474896186147405940,
  35374563982984509345439859764074008220222565080580346534003478032616983843478651070553964208840902414546910704097408203629833111319466975216835299543594480411277862059955048853279669461894948900110450,
  28499247408765665723919549244789535737418054883871313331129453187358027333328154826319222361733091549234792422646160520779021386681887491339375586831892637878867215429782701142399612158068,
  16603098008379062164819338157913555548645421014690850812266209528296615595463087951904675781820879294040356895958942217714370225227891955183454944305818173541,
  18497710728311213706571202473789387199412447297519253180155531229989598994292571844272422144636023472041890102070611405766008918405661542210726362608800028400877680,
  18497710728311213706571202473789387199412447297519253180155631670904873310707275633924804146639504892768161421310244690053631843554626527122465242328266388785922164,
  31751353529074733371007456848210959239486303962779636637971469756484429088035253237742674538448390123358062371171662174913739912737339915518195966299327645880742730264106835058755497986806251635,
  18497710728370818286925039974742061742969122208805359947938004504881817293054847624052703675543812510254370747398511308512254714205969219029121362535538699671699571,
  83969566592850783247835329109221539719079921988440472208554604277959257778344014551807274326227176562554348457676387590809665162022219663090637550288872958423833703900947106397039332123476799869237692612964532922643775825646576470213941267948175476,
  31751353529177044739725656005222904004604976167017508076545078420415891620633796308505438352245545548263849493029489566209174842940730791859659931275644200606359826139948075305248419459720872047,
  14902539429099194511266096529526730863172111550034523283311755924026758400974604928061272431565031805774240552103062636244100258014058598142541967720556]

def memReqsCodes6 : List Nat := [
  25580235567750367948042344834648195180923507319274687215119541017190308027015995985516909613217276746827667858133493669310924084749681100271263964613047159370317558906312694252503148,
  22960201099844870127996417626457838333061224831322781924186743359007270388449272591549960518527111050619388228592362050952618843302721001363654609781645719533897113147546861676,
  35374563983098495669065230063290900026378459207388209958175790409126389845247560072861610933496989241878603028292401932942102899532313661145066151494146389635345494548881775039756343534872266953261159,
  14902539429099194511266096529526730863172111550034523283311755924026758400974604928061272431565031805774240581931465474781016267110757824838087073857637,
  13376159155541987260945126279518334658608929398511570904282294710071122473301252412738820182858663945612506266812914051331681754226983107010101363,
  18497710728370818286925039974742061742969122208805359954931840402882435320751883798145099757760562604167054117744552385744825075374225734210171739425713840972890213,
  14902539429099194511266096529526730863172111550034523283311755924026758400974604928061272431565031805774240581931469299557242622565357495284017185357934,
  7792685829550447975186292727519655352997013049728443041792813323839711756381813848178802633388150831475058808455280,
  7792685829550447975186292727519655352997013049728443041792813323839711756381813848178802633388150831476300041748577,
  16603098008432561795335693336704085175430407543232062804217027016029299855626619045612200351275780715202684524390195998763596335939966115167692030022555598964,
  20608521495006669103282630136339827892582814682296557190109022574936155780073522762119033381318135924073460582114761969898882548222014070327061996352721379502868124467308,
  14902539429099194511266096529526730863172111550034523283311755924026758400974604928061272431565031805788482953972376572629804798230984418689405894787173,
  18497710728370818286925039974742061742969122208805359954931840402882435320751883798145099757760562604184732398641036062723608523593983710415418379519564330650828901,
  10776400504503259967781453712046042189917995538459068319140155775574937032030737778979811358883235701557424360672644664876376265916526,
  14902539429099194511266096529526730863172111550034523283311755924026758400974604928061272431565031805788482953972376572643536821774817569211272232239212,
  12006117118873135969224930958035040156293917845343709523173877231437344246629829328414755592668119493933545169317721492878897990190708621422,
  14902539429099194511266096529526730863172111550034523283311755924026758400974604928061272431565031805788482953972376572652119321467962129459128279826532,
  12006117118873135969224930958035040156293917845343709523173877231437344246629829328414755592668119493933545169317721492881663763311867527278,
  20608521495006669103282630136339827892582814682296557190109022574936155780073522762119033381318135924073460582114761969936862226883432436810794061157786778490370861891692,
  12006117118873135969224930958035040156293917845343709523173877231437344246629829328414755592668119493933545169317721492891343958064732700783,
  6994526429614300873867522051211777050240023489315655016544847666877039073613616807088338186275841954384969838,
  9672636597131401481881044017159892533172603417303707633649180491346414931380990222688393410072987008094853892492204900746330160,
  8681924794932108694530750963242378264638208202859055134177874837849708944326055390022182159489339499166020913958565118050,
  18497710728370818286925039974742061742969122208805359954931840402882435320751883798145099757760562604193571523221728963363229298235913522844063350440223377256743012,
  25580235567750367948042344834648195180923507319274687215119541017190308027015995985516909613217276746864338421789326981305993035771904464461493508679156119650536815034559408699998324,
  16603098008432561795335693336704085175430407543232062804217027016029299855626619045612200351275780715218552105373363686382723907682453400415813984985567658098,
  18497710728370818286925039974742061742969122208805359954931840402882435320751883798145099757760562604193571523221728963363229298235913522844063350440251925905473650,
  12006117118873135969224930958035040156293917845343709523173877231437344246629829328414755592668119493941194639378452911558180732474452148327,
  12006117118873135969224930958035040156293917845343709523173877231437344246629829328414755592668119493941194653110451804337611218406142443623,
  16603098008432561795335693336704085175430407543232062804217027016029299855626619045612200351275780715223841277670916206274881157439837603619785835393224867955,
  14902539429099194511266096529526730863172111550034523283311755924026758400974604928061272431565031805800351560409470687215361792566494415009864218902643,
  18497710728370818286925039974742061742969122208805359954931840402882435320751883798145099757760562604199464253548499796405320396077624367765803216138005312661749860,
  20608521495006669103282630136339827892582814682296557190109022574936155780073522762119033381318135924089873565591451296237034696813149773013131704080910985757811418529907,
  9672636597131401481881044017159892533172603417303707633649180491346414931380990222688393410072987008104098016202471101722853496,
  10776400504503259967781453712046042189917995538459068319140155775574937032030737778979811358883235701572872870597056775181827503816805,
  10776400504503259967781453712046042189917995538459068319140155775574937032030737778979811358883235701574589353896204927523395439231074,
  9672636597131401481881044017159892533172603417303707633649180491346414931380990222688393410072987008105638716394463527463944308,
  35374563983098495669065230063290900026378459207388209958175790409126389845247560072861610933496989241974390906517381906646064918593915204578107850282750223237040041068258572546060079425115708057649268,
  35374563983098495669065230063290900026378459207388209958175790409126389845247560072861610933496989241974390906517381906646064918593915204578107850282750223237040041068258572572251786319003491280158821,
  8681924794932108694530750963242378264638208202859055265481724972797806539634200783131939000614347961065669099087231189108,
  104226850746880855908714607117782244087994345105486492454138553526416261790359165383926377861534591070124136213484393424009815604704269119578263130702563349394585864913005073806071209977049197888820583567075648494489774811107597265573468714303655780234651041907,
  8681924794960084308057823109722050492889270522739598997984427360212268628755940914625659257811488455959150269103801237606,
  6994526429636839213328145268539194363180063377089062900010945280823633856998522852664163346989058498508423283,
  8681924794960084308057823109722050492889270522739599057071143715844564577573481675892324365517877746203653562365450256486,
  4074872791122868247168206488417493428788403483009348660616275673099409761370223,
  8681924794960084389665714608790610591407316907035152849208377521497017254281099496857659001249569365131144356673484619891,
  4074872791122868247168206488455473049923660359818454055904435697171701170438245,
  5635086818914698777703349225769713832782264605845262881582341883940283477637935261667786897948788,
  8681924795002047681266877663990181945875649775142159574428217085932340644657229226445180093541420200130436802110037426277,
  8681924795002047681266877663990181945875649775142159574428217085932340677889402247315358165873781077482628028901293817957,
  4074872791142563773127012063707384200052034591635882411055550795621500342042727,
  6278117846025037594593888068803471872272164205709260864879776280569840175465907299351518771958160425059,
  18497710728519830306245388378354664653743936255678313663272761236402615856334081457058377363650275568693270843291818695851795649600658818309727339198968796682453095,
  20608521495172685182151662136985472146711964309686277399808115017931750819284171819093640441473902840905309586591571480665705015900759744177923187864196572604684211388531,
  31751353529432824137242142813087819321104791868995791101401205734501961685406359931455895071464384481511149600864582289176819675705595048898357356248227870484938270579872426678909149119266619507,
  5635086818941935455855325199623980239214876247369439430559416225693296972067088697792862983290981,
  6994526429670646684588185824110773654560885407551156083006505589845090506797330070793485998690892412223684709,
  28499272986980914643575774843478043707834288550259914346529468282941406653680233405213033280055858523393918810050494909554072745642732166983803682790011758638339720465373086111617061355621,
  35374595731830326767224054891222740102950779161819345896832425161520256099658292749423604522881061687830942609974926294348124691594593274454685208208295517715256122575591357500465407176024105531277422,
  222065948637312307437329586802385391469443038350203163658517013839201263442400426890914993098330297820605341150898830547821949216389149358462396637686232100456564829019666614871091066356089016706066663495595151655221490126366509799720188063623106348727602823685690156241939361868838611743376572998942830,
  28499272986980914643575774843478043707834368800011817377673829729835757763265403926882041285518078964966313736144066066682242646125019991840274225187434303509198123489042601419547157135455,
  25580258526055652074096477592448554281647059541600680521952756751417952381147859395538367135008041350390547571648152130739317632450794885832862155964222877860945441634652004610801779,
  28499272986980914643575774843478043707834368800011817377673829729835757763265403926882041285518078964966313736144066066682242646125019991852142874236503787462501454035087153008088143954029,
  35374595731830326767224054891222740102950878771466667294633104401723240467890272789880431003025342848098719851901743364349576755433560515798318627632634919074908109884930924739154763386331232661209204,
  83969641955680781766076592050382559387299200052655961492705403765239991805604876935421631931866874749911722186156185295346406649622120318240863105252204526521904241236518027717166098462655749569810571443936981445449673490571968797655974180531011700,
  129371230638705993451558102052431632905418252756415394079706615872799506682768138738161376507569082318936621771750897861106988606478965103749178486387093193138224444652659914677565406519714509177275212993660797563972457528231987837595714788341996903472349193674242696085614,
  93551585738527427134967124122435814004102686369064638570561002799699057750526060652276465194876067561373648628262839911768975805223799711995964475918744089452371778012499572896027356290426322464720795372547518293458815272847672224097894303706919247806565,
  83969641955680781766076592050382559387299200052655961492705403765239991805604876935421631931866874749911722186156185295346406649622120318240863105252204526521904241236518027717166098462655749569810571443936981476047699635997049404779881377150533733,
  60720556804381754448454008552551742970288214180792268876887632926857125127565276173189187074161574903041247623013718677993419198094270580786992388725595281337569631830451478354904967597615123928623156238074532004422929013978169445,
  60720556804381754448454008552551742970288214180792268876887632926857125127565276173189187074161574903041247623013718677993419198094270580786992388725595281337569635113017531328990436615427759137415157529914336325464466275368435813,
  48919053023479436160427779662238942293495524846088473834039083426496901114001789730626460591906010478632853007934773790364404397554410876785698628896926423276589974562245183634637813482123964589069413922767281837113458,
  35374595731830326767224054891222740102950878771466667294633104401723240467890272789880431003025342848098719851901743364349576755433560515833675168268898840671936945771554942597429377561650643359563892,
  60720556804381754448454008552551742970288214180792268876887632926857125127565276173189187074161574903041247623013718677993419198094270580847681953926164529925283151516567552444376044671776363213818315368616031912823320101155504229,
  28499272986980914643575774843478043707834368800011817377673829729835757763265403926882041285518078964966313736144066066682242646125019991887748783032866517642533034917989545709306087800941,
  25580258526055652074096477592448554281647059541600680521952756751417952381147859395538367135008041350390547571648152130739317632450794885871212932840564070436843908943431883065131109,
  25580258526055652074096477592448554281647059541600680521952756751417952381147859395814461733975702341791193999129466072243302561825535560964353946302086822562322501725007756225413221,
  13376171160667765271824480225815547575427845790674067865155976509695435634550264304253357987871953334098094910569757658189346808615306186221486195,
  18497727330097914764118915405241496750026743873462352268592574187422630479347514980559267746961536023945461613904679656449575230238509311129995580297041623023157349,
  10776410176341190901814112589452502372049381739896336543217837417111259133353219876635639876540700930693089208044805286606529258324069,
  9672645278339332941225040740475376238698965400153967054674788007948266541741975442526195042395533686234243718688943158903767141,
  35374595731830326767224054891222740102951011584553280297764715607208048882136474761730390208207869809930601431241485657129535779136786464458901822848612294622334966078524084317107229938452951572742245,
  9672645278347125067542088376250058049094994120731385402342512264440862100679800697382426679865831877907137150081773689917210739,
  7792699817372905456391007250413308058693953738760613321590813911295758436621011626985202522243889606921084775956581,
  5635096933842232177390098812729828432830145656236859128504686830090280368767196079337216473432175,
  14902566179064515758965565354211750442967847130537161619809031333664938378652372274131981441020079000194177926808864358968836330061908991358725290000484,
  10776419848074948189995585366069728955587500130925853172471111702740435706515479606653952950139426454224351055909733018029252926570596,
  4539872824095912609288388557621664569863387878152305195476276386498311833407664226418,
  43908598891543918233212829688212081691917346168770696974020354734622407361630176199143617554531353479431218234803328088164837809989683498687221764511043614870622040537802346751749787417663775240833259988764393583,
  22960242313429095298747156462121827929485411190505673898625142042961717268496892819788720557701019256051542423478256208879479908984874696652634420658064048955175916578819866738,
  5057926791823592442368313768789201410609637187355758464680365631767626756615988078721564772,
  6994538984807594368600542780930524771612726445029964852643691148181581896384435465803699436748580462454308963,
  8681940379016889240469073039884974056944354054749172796362677561358013455391858735265029938237934322692361712300952191097,
  5635096933896705672226771918807292685304684188541569123536538010632554203505329547872694107832421,
  2644842511512413043383652143502482505450806718198579301,
  3657517164019723008258693292998377961187608266357816533630170191578923124,
  7792706811233913387194891829435405866132306262502414836967150277189563583289667163416960217824684221987153081401460,
  4539876898562756305420999598724425366936553164293645324826528265673832982350843347059,
  5635101991278761895530883447775503247274350413265405933658747583763852990270827584830045783588979,
  5635101991278761895530883447775503247274350413265405933658747583763852990270845562344162104311923,
  3657517164019723008258693292998377961187608266382467588733062896940220531]

def memReqsCodes7 : List Nat := [
  5057931331211549552945207270166349794492552996467723749678363381088355647146634172991602788,
  4074883762640341640177114591278275792725908087144694745634638052524727192584292,
  3282898994014715763099873733699212102411247419726339663127662690405,
  6278134749717679218249170102016094493707385076872909549379687390250401804562842508986511095278624309364,
  31751439019245882820697601235133067654885272779408334630521872459561116425625417728706879631741926875423396287590805207391053293252986296872063181024859728123139342042780494258801593517493190772,
  35374659228610069001133045907276572271119541026812178511879984369666554543186385396565079080279261635031710884760367171216861166652671069180728054737968521433641223885963742609012524605461465742704756,
  31751439019245882820697601235133067654885272779408334630521872459561116425625417728706879631741926875423396287590805207391053293252986296872063181024863989323544848542567244140409120608128335988,
  35374659228610069001133045907276572271119541026812178511879984369666554543186385396565079080279261635031710884760367171216861166652671069180728054737973268892408603948960657879859931434990259284738164,
  31751439019245882820697601235133067654885272779408334630521872459561116425625417728706879631741926875423396287590805207391053293252986296872063181024868250523950355042353994022016647698763481204,
  35374659228610069001133045907276572271119541026812178511879984369666554543186385396565079080279261635031710884760367171216861166652671069180728054737989884978919032344670612287451388104469128823701620,
  35374659228610069001133045907276572271119541026812178605505163119931275958538846697479161002462619272456239603028910323616983785397478891087608645816113485754274994475022089488829617152823653494685812,
  39411332342505221194990340041847716486121534092463769930536568293872873720719631571821903022775633682874766016609745338465565039116756002307397843607481827840666837558761054162059531775930314742363384709236,
  35374659228610069001133045907276572271119541026812178605505163119931275958538846697479161002462619272456239603028910323616983785397478891087608645816113485758536194880528589275579498760350744129831028,
  39411332342505221194990340041847716486121534092463769930536568293872873720719631571821903022775633682874766016609745338465565039116756002307397843607481827845414296326141117158974802623337144271156926742644,
  67649622412112727881194535214396216106672537842917926796474403897405095972556569558117977037364148277175421467849692796836982544327470475690602580719935587170995920001380875575954521289903409061916606356811614547521888890125306796769396,
  35374659228610069001133045907276572271119541026812178605505163119931275958538846697479161002462619272456239603028910323616983785397478891087608645816113485762797395286035089062329380367877834764976244,
  104227131375861704582940840402251359238095998769319826370266686406910145442165440961955222038943671878650293514287482059942921007992468351983374889620181555359395289333134068459142829318356771239881148286015008293529071203614090772163299737822481087128864620660,
  39411332342505221194990340041847716486121534092463769930536568293872873720719631571821903022775633682874766016609745338465565039116756002307397843607481827862030382836569512868929210214793813750026465706100,
  28499324142676753163683365079213820203790348528162639801616203675860387227916672104208214755653534170123199157447905807637633400155147633920243570696472144431965888664821482694482358239348,
  6278134749717679218249190474511229899999679329956559365049744371395991710551183750193062150275633512564,
  6994545262277463029202042097938655366348442737656562267314300801123906522275104410671193303623913786570178676,
  6278134749717679218249190474511229899999679329956559365049748632596397217050970500074669677366268657780,
  6278134749717679218249190474511229899999679329956559384039541090112594139714186390885912521634085339252,
  6994545262277463029202042097938655366348442737656562288471061203002436687429249108912036334951294177470054516,
  5635101991287841095194370471291243519502239747849910407606728481435778157611201378075365544034420,
  6278134749717679218249190474511229899999679329956559384039562396114621672213120140293950157087261065332,
  5635101991287841095194370471291243519502239747849910411867928886942277944361082985602456179179636,
  6278134749717679218249190474511229899999679329956559388787021163494684669128390987700779685880803098740,
  5635101991287841095194370471291243519502239747849910416129129292448777731110964593129546814324852,
  3282898994038517299548654440558664203311284097548564700136064680037,
  2946650780207481204357061444952270696462539456640933297061986,
  6994545262395789176083211567724987562721025775192373153019919988555750585586174924832389075280684340127006827,
  4074883762715841510899377332849983798697885505723260552502695991794584602738803,
  5057931331305263431394863372301417813720844047584953776704964909527453679928650088761720947,
  5057935870660624763334368295289196211619028252811459277039278975229068485213415042188443746,
  5057935870660624763334368295289196211619028252811459277039278975229068485213415042188443763,
  7792713805120032273678317601172495243789702081102534908747707886573006386012979962766657768321920996477928212725876,
  7792713805120032273678317601172495243789702081102534938211473237937778893246352357113699911825855892693597409050723,
  4539880973062515046363712351441503378133462571816351775718816956527481040969057435764,
  5635107048733449976327979730201236969719298804796280554280980974954698324217673352602789447073844,
  5635107048733449976327979730201236969719298804796280554280980974954698324217673352602789450416182,
  5635107048733449976327979730201236969719298804796280554280980974954698324217673352604030699307060,
  5635107048733449976327979730201236969719298804796280554280980974954698324217673352606513182605362,
  6278140384278521420026718153173960522807907430009193720891092275968728955514909836212137554419993673784,
  6278140384278521420026718153173960522807907430009193720891092275968728955514909836212137555661242564662,
  6278140384298751193383377133945321728802257270570796505693556686235911563645624687350129602403476897904,
  3282901940398391435521541571254153699171161247155737870063879258213,
  4539880973077143703502575833171731965295024152044858035964287766694384059279458107508,
  5057935870676922725796661766646624643318769948097915100531991014233582026093809258050289780,
  7792713805195362824904110446811619638071212361329488537747567799210211309069743276748904569736344245350878465425524,
  3282901940419548219660669195587235961847190795071221555020012126324,
  3282901940438060434267176315047871900671670019521606526499961176165,
  4074887419875202339387384119825560353058644617600889850407295497002362558480485,
  83969868043020841569821951716393104898588386561255500439113204992471431478503414659955739335161762801975947356578784583385285115365411894016187034106851157248460263142785175454650348771597686887142471018949885046905857613632463076502896395450384492,
  54501450746258024406542176067307938678482219024159099814888713920742607779684819269852546076618953121506771381044268990967237337596780037973110322801933674311692991961255950142306956487253682555356486636101278814265421398124,
  35374690977541376977735603332558834028821867647796902288432660753688553021550308744348297279798651767109036543285763454749835089291912461613836546594541465287992720493714879561138745298379121785831535,
  178906217877623843888985945556188807109816139301466280749124107873351213570243633435769607318629442848336010261372206133462312227201014525003437554261635535091795114508260599487711534107067600528952440277269479213239144229527263352553926653056918478277381720080358312641327969310394817839219,
  275639112382553325175806488003527420656068158455731105681748558977286717015711597078242796820701956112417737376999763187215961671949494848441269393648174976312381415298411681420352084638118529079118392308810783266645238171956832733435575240345148287893885882388285816119191027549599900930498226996910377375108169776,
  307092842774751250218268117962585941681973408153431493613304250539302858867808478844035238851505897728317950224563960164035549490258995604586599526696155519209339883360944035210591301720343510669394750291953799366768728643355970075579436759176849992269527107864797530567425062828268030774971568547482004222649265260593273,
  35374690977541376977735603333836447796870949473592008022621114531796128172488843029830758581188971479892663855585147829843666681081463385349118234679994229821033220017295433824093734258006407114981484,
  28499349720960876896158572407082006635659117678296355916217068206857361528243377494532915031275589069079648813910612985846242312753782753402433577578980952434536516038005160414438419988595,
  12006170996117143991142003239477567263520491222089019315344991702494145441185580439589096279430337465011450540082199662680103486589467033708,
  8681963754920255116633418583254834266958141335863001419900518899297591189452484144117975683863287315508138097082431701093,
  18497793736529462318069478052085897201518304383822016986739449019070546620225598343466930826339704630844496978686308607593128633218688647791744557680500717278658670,
  10776448863415118041222070347934110092630266276719952137078670459068877672249810108489179083028922787202934532810793664068179213942881,
  16603172514549221548703791048014829031119227136788776161408771307615882981446747134459489554317433642977094781314529869525393676289913838486791777085302964340,
  20608613975392312322109022331565523102977961133668714989130261025534724836152781821636629257167552941790096391577437849972750485654860500445535510430023936332437987262517,
  10776448863415118041222070347934110092630266276719952137078670459068877672249810108489179095812562251223789502538631964135444385628275,
  12006170996117143991142003239477567263520491222089019315344991702494145441185580439589096303167601473510839354399476378800601873849412419685,
  12006170996117143991142003239477567263520491222089019315344991702494145441185580439589096307915092199897768433155553594058424372228206624872,
  18497793736529462318069478052085897201518304383822016986739449019070546620225598343466930870225853307522135120146974528271510271998014169226044676370587542112632942,
  10776448863415118041222070347934110092630266276719952137078670459068877672249810108489179108596125220241933253310083309230723024814177,
  10776448863415118041222070347934110092630266276719952137078670459068877672249810108489179108596153905837911189923015187860395689508979,
  8681963754920255116633418583254834266958141335863001419900518899297591189452484144117975709610804883297104532225047724132,
  10776448863415118041222070347934110092630266276719952137078670459068877672249810108489179112857342837123871401204601892016201567240308,
  5635112106251690164895961645942911239949262820740174001808404107165294206897772592898064329670763,
  9672680002921715373410757030084013713560068639113631550056801709551650905434403743936282926905214694165033402036623367661092965,
  3282904886797934610593264822635917160084561908419600702181183914087,
  5635112106251690164895961645998715369627251169898698712552926029449833672892208483714822770458731,
  9672680002921715373410757030174167081517625225625271040132128755475043853892218247728898137264135260253929529518443224921276517,
  67649743842654031243209343188327998231595849299755895618061570084689487804240198388915685424788370477749318796657794457749276902341075223668795423319561304872429636458852601991814993575715985177511866699015698060910299227773149958111333,
  93551921586648856684130141656447471653611181348094876320370541923763300927618213042752428118885805042500857066734038501592758490530896253704877175321270323879664736588463275692610942472576611987694600979844150169598666726612723847881677114005106433720421,
  39411403085537468780993002132320190335263086553567933126173024529516901354975623564640175194976229850551417153184830447988246548585557199406852172745869146301779546603626001779625118493002820419200962265189,
  31751496012829731374000165408741591194740511523372726616585827424127213253255849385627760679947855120653197273380666442695804137344665878365883401840701232522580523773839415830992551465133539429,
  31751496012829731374000165408741591194740511523372726616585827424127213253255849385627760679947855120653197273380666442695804137344689449369172859924860611938358626271772087220242588973789085810,
  60720774789836238406200941367051066886987887483265502586868797827049244424474557664683340165340735073662942072881490116927756314281618503538842466834390971428032502814722986251822299115099327976403139719339450249176015002550992995,
  67649743842654031243209343188327998231595849299755895618061570084689487804240198388915685518412924965719103061673963958098169186840501889687213936714373595809195707372219351925006034070510868744904395668341218621868854393791311064137827,
  60720774789836238406200941367051066886987887483265502586868797827049244424474557664683340237371080275387533759571917538884609380434761195407779909305341947167262132940462097897763252772330335223285459985474493189527496738764226661,
  54501499660569348868157726841691918664360394182331311920945827553288398674885969870787982031762587850581928710553263530852023297868402095487509253383270216250486605422519915411724712212933268375231632681047669406462450598003,
  9672680002921715373411165071203710695147206856275796918996427900343905639701855717109896645972080611244131546690382392959762546,
  18497793736529462518693845804554142992780828976880472998990536440490017682969903409292695705899815147287940536342126319915882603703422237096493584468734699480875123,
  199321743100470189514440804206731249789952353422544442775040750856168935512048398553890858825756588803473569058895111350777951598805572738139900666972211482520405164339812297774250145899050530016624506715162704270952469909566127638606643617393830532105770061339624293130292622458708109419602509925,
  160582040623853709415330274590271143041267811748151183043797315823559510325052964409151738755866250986369965632545293968436704257952356113356081049409333624970816549793327512250364163428888628820531401121926619841237399319107404191729329323749493719282894034189814358161776269213827173,
  307093118386403991947488407076663551295191923687489390542003349657112771363127215034962960668747777392995166571208734125207144196954813630745685075604639217935586869262271499289180870365106285375844784836123826134668664710353738693764015674215572917694143938574748283309326091748418139146066082994532681363575527801880677,
  247407226351489367688171713027000632922716093703589932688524274388419048005985075984100995408683500785189798839113728331156339410133993078082559085342014113318319182093941225745348529185328192209577414149253982127857346750217179479177370662797401054160103681164912357526522300213305137241828457364686004551781,
  275639359764910522413804363543937729146793072588293987087477156387430322412044044974798728196759192426789377164242674098481251612903203296208716067688562027817299220601045046897601740547724362878996712032653652536431404302577962263905258783870538089817556484838542749076914049577336393506688559281354347230130929765,
  75369391412026968056434447758234482765799714855049640378829811970469072301120439300731345968936048697864835952416743180047145910670497820857408554933587347694183482202641744838587531900210468010777910943542472296952362056923145989015268032611,
  178906378443522903904132442884316163715992964282356210843291115126817533167265408283808861968775660618926615150806302553762953528219967833737543779124933939839842891959756176489755103406966956023541476994966828582115161775564299352921734754805656332877358400374962875928664251663940441604197,
  144134557947364097519217344926067705079262957178588133907360584773846355056810234885856842719462900486100109892493119155378188480474802315552193480628331475294870962469181297644839953527208156644877037480543471155877628800280440271336394820700686500194906706073774676266428661861,
  75369391412026968056434447758234482765799714855049640378829811970469072301120439300731345968936048697864835952416743180047145988590306260208777925512556482700165672563803721682453243976893611616216018820372647699827466126017539470617256198243]

def memReqsCodes8 : List Nat := [
  31751496012829731374000165408741591194740511523372726616585827424243274466356122014177991156102212826517908722386542337855271198346096224290036271982821134355603219382799198776177774726529482867,
  83969943404836189435290295460822136063170651916589064941738839474043239171378806906660789719269571868568092708697899703210976427224222752309162340898964587613409034579415528663130467582418393326045915719455606813746954960108727825843707915166154867,
  5635112106251690164896199362637380751029526543845165961215675172941305068022537144773036806832228,
  18497793736529462518693845804554142992780828976880472998990536440540728867101268345563046491371415036996370152976043325601079794816372225285586268301525726777835621,
  14902606303988487448999179517942238238763255064656443177685767096809495719888698987658801449401071324948016935166741168340023410743591663621073819467891,
  31751496012829731374000165408741591194740511523372726616585827424320648779152213897996771687693853593630574570169542424817580185586569977883575885765627596091113505417949030370089096227589390437,
  20608613975392312545627037937003425357973034933090257533851344534862545267264663142867487994027443626566091618994989686011851449742252745721395439738550050574491045789797,
  13376219180826063671335718058814767490847648229851615616460254531701583101769108561446537203786389581455307246511521799114843871770761092926865507,
  28499375298739921456729812988946884330067813221087939647527203211455086004954810555847860616970205813699250776656164014923071126461930290782185381570901736340133781599928659408388908974179,
  18497793736529462518693845804554142992780828976880472998990536440557632686179363603360782393536282552447941610342175866064612496892185035930448882047708418855993445,
  31751496012829731374000165408741591194740511523372726616585827424320648779152213897996771687693943746998532126756054064307655512632493370832033700269420211301472425984037926497570916084849573989,
  16603172514549221728779373891093662928665007626594519221577845351775793354868598133186593801643179352769669636985135978934569897624323124038652844179256967272,
  60720774789836238406200941367051066886987887483265502586868797827419165734625131171095090965849268421213383521445894339800354415443356977251184123554003614938763818731233976179216231579448303824003218024167058996563698081142341742,
  28499375298739921456729812988946884330067813221087939647527203211455086004954810555847860616970236158486390522578871304842670185076837499825573789119537495023387539556209892398419485720690,
  54501499660613253565684054253854763534632502291697154535887425200909482786405109295785438992239574494837283009231794101595517304676131831133646080273105022981238842038185656370206759627701304104637638414149166180458235691123,
  28499375298762879658980635089649031616726045673334902319753754564459426925637814188449898968144631776954410878748529175003312268315686920858205783530566969049156275939138212763817772580965,
  5635112106256229634343696427945962185369264232706552281419428190590836867536469520845525112258659,
  12006170996126815915884408811878559462388776773708609381328561993210770202925859689933880668065732590989042015748176478744116014112792510579,
  14902606304000492520900052778597349843005278963071109408742595402757612472488518879598993829575475625213147782415686666863649500768556471264003398303859,
  13376219180836839133677810470219645639760884868910046215050726859380037619636552590402934201925368028719866389030624090644086968800470907923726437,
  10776448863423799327073408070174775482526691009259939199405950203579864689987278392744446446969126714654944369560206018497892734009443,
  7792720799100314087186031590787303765931812958588102506545245085177545775552440554904147180872223672386340640981107,
  10776448863423799327073408070174775482526691009259939199405950203579864695880014008659092257016861979936434044008631756391292540682355,
  16603172514562596723444999601268650628290297356105079845593030449357089156028026895878281582177597366142909173531919749724425310587153782396967412432571727987,
  14902606304000492520900052778597349843005278963071109408742595402757612480637518396604902902201571624884131194648221857160164617742806825589115203092581,
  16603172514562596723444999601268650628290297356105079845593030449357089174185815046681682325680646910635420388349647286820111464329900720636682955947579801715,
  14902606304000492520900052778597349843005278963071109408742595402757612496935510116291434187658553996936951032167005908580206905899425673819558411239525,
  14902606304000492520900052778597349843005278963071109408742595402757612521382552553523489975832118067394988679654260559480642812350468666724305381949539,
  6994557817436948966698170014134399203968553393723523768201077523817481614893238509498799928082148681653092468,
  6994557817436948966698170014134399203968553393723523768201077523817481647403627878831852387038230560447463534,
  16603172514562596723444999601268650628290297356105079858148218108108911333852005055861517985586369658883749724841291016468613358420990302937296158834166792302,
  7792720799100314087186031590787303765931812958588102512438038882215342121674505577339783466927738218411469015089253,
  7792720799100314087186031590787303765931812958588102512438038882220089559135916123193569147863076566993057346355301,
  18497793736544363760750755395768618888785759768004942730921227572872704565894760981523503877826251196757269924326640325965897753527350760886459498295073331855949934,
  13376219180836839133677810470219645639760884868910046225165717945144189215076611119433759489262070650328403261331970023841637383365955258517749874,
  7792720799100314087186031590787303765931812958588102512438038882229584446842265761123778434736283863983795354927218,
  18497793736544363760750755395768618888785759768004942730921227572895242839608350692073673978002241613174206426364398195034416234969367493096036307593444432011001966,
  16603172514562596723444999601268650628290297356105079858148218108139256052899868172027642519438368150417086206607970857122835729057577296697272076428996706418,
  16603172514562596723444999601268650628290297356105079858148218108169600835500124274709817125786719329752769395608928746534834880028851770357937316604824977522,
  12006170996126815915884408811878559462388776773708609390407533484228569294075622875081132911188480021711664415175265658051225452468950597746,
  22960304133370776215204546158483187169112160113333101355270066635820521091365975488177641468985364525624773044727016187097306528716419350429168835621868040119045381483491426414,
  6278146018925340510377924314731731822266121712829162413336391637916014880532349532086285336983561699429,
  4539885047617131246653202118688783593367269791742090947715156025980498413885057990768,
  13376219180847613899652164179498156831351066280571023164977350987810419822608005634984293173704296783569053081525982376483222499310441935567781992,
  18497793736559264039810077914708373342194500747600434612494790270347706484212635216143494302447565349762239715788968649694704877182929549167164730747571451698544689,
  8681963754934242593825098581491481685752102360136105355031814323347918616161929277032769861758504136252642603660228231282,
  8681963754934242593825098581491481685752102360136105355031814323347918642272929060984550932927457649562256671504760504369,
  8681963754934242593825200003849629533485734124519613721365956346439270911425237680591551355814330137342036277644359827560,
  20608613975425514777921126274775203733585095389976622489229564246651234757160747644684921982681187782986416515177371657805649501282305974877229814290218440710956136923237,
  3657523729246113107106679255935269308991840870705712082779135875628662885,
  5635112106260768810426695218010325932444870606465896545497484498933593875837112707247406880522343,
  31751496012906464848882710313659408459470331349463496110763674831762536579097092219128179035764593338538853155402509850007687932415787923511411341079315959608442153636784795509115773575760904287,
  28499375298808795568921895028201301538328580384614379982231297061482630632375463345810994870688769180149506991001243118804612606731675214340897290321717625257795250887259082511537437343846,
  35374722725931247365718414152971710877597409800413474578955139294164623153211019606437333892814451648114875960976500886786536736600075948444615832538576848161752976238115475526003167263677118427365478,
  31751496012906464848882710313659408459470331349463496110763674831762536579097092219142166833111806282618147282290129737073253941737175294126299795702229920974284105983342343170842974852125491295,
  8681963754969212432458892706160777685974554167098848614660571906078362321129497385320023057499288756215680035496746287205,
  6278146018955685229425815952483938287402711653725264226857295830725906112735056772924992316095333728356,
  22960304133481752286178528184962289396891041048924530644239625697384159919257269453594684296381950454527599982081546399233740090486060193286594615284204738127405430433456586853,
  10776448863475886091559102827789375107085120462366451385775176055935557713529689357602611966244197219748410916403040238026257639276659,
  67649743843035505250494443240238599648097360104653659826930464453845303391103286545874278562119536794606310574008026769465030382731253752828114913788162467895448508930745280754439513379916577228865276774631121415390384260002302252679284,
  6994557817470756382326054662453785453254809885955161578312435572563831338047474157835665807224079448121999475,
  6278146018955685229425815952483938287402711653725264226857295830735468018112735800991507801800639119481,
  10776448863475886091559102827789375107085120462366451385775176055955253319040515664261523841300409171334810194097585271749635695902836,
  6994557817470756382326054662453785453254809885955161578312435572591529113910006188407706522688404672154370149,
  10776448863475886091559102827789375107085120462366451385775176055978231425784047093135376705755712571421791544400909029503786455793779,
  6278146018955685229425815952483938287402711653725264226857295830752679395267617221364129885978927235188,
  4074891077054258705619551351792704606328943851488425510754455092378355268649061,
  9672697365150570708482714204499432938365942783813732097013369387363573115270355043854075881851002333859390424962930401271218276,
  7792741780764947106492407276916738649886798217079211697885509271570507340207178869841841084569106858266023439106149,
  5057954028546563692597914323026610125675456089966237003882682936261786362419511471381872761,
  6278162922673614085664932356315479095752856272910171824361617421281456918141625472880620592485363220581,
  8681987130893560073696986889138395042266521675183268025840079908774423252317291161746436105007543442538739842037446475879,
  12006203322436467880322765322533311321609859167026704049244538822660301678080575065641227894705224094206653403952273973355186771036155412581,
  6994576650105745536208329117359351046327406207933336486742255278654702476594818873061338563625285016873730151,
  5635127278652069168687647522255822660336533735313959115792503547153503869223916649944634297679973,
  18497843541382925414146117505812931714254855096439859766859200286967780080091466790521058621501397633787323499087426540827402517049400211057861824533209737665052775,
  5057954028546563692597914323026610125675456089985412394233185001161543594684510077854548069,
  5635127278652069168687647522255822660336533735330575227870130551153694614994603007264885646688357,
  6994576650105745536208329117359351046327406207965746648992161499724725831136412566793075605163021799703445605,
  12006203322436467915047394456758241582971283741446124954267945593028812180311374659240125918751334183388333542896552003423952776411621359716,
  16603217218181767602939402984621741431063645625376426467237508658415201227342138237631239943750568189353260374623189559516944339374558372268179211219874480243,
  16603217218181767602939402984621741431063645625376426467237508658415201227342138237631240006119871222642726125184137348639624704751244661253904913246906679399,
  67649925987921022503279429280772744467638739326766362878749473908052587020293268926976554626295045033903136310444676406678161755385977384996829110732084563239796109931267153358670056844936044264704185582693551793068508854710364951347308,
  35374817971414323726816145503105263878855255650975783051328145435943083717842314999893224985454480734425707098053615955254268489909117337873682191291696084860393659110011863521110921429273179354955891,
  39411509199768355035930589498755611750599186583819931606881302767929420887052737249161040674994662439992493386426710179140243575829626535536406462055842517324792537596610661694187755230540569435973078679666,
  25580419233079881044429626949313050271548015538249276466393675988585625248663259747671978993447887238934360618877708302290311028995095234799441201219437280640479013289004077889683564,
  28499452032605092430171580539753061064134902687349977977954872789381004669424053482828112418457233878531452466994914708244081022554568855514971272248123405539560088071577031580818957467757,
  14902646428888448919802859124236828461648061977051164166278847699018601028537126034154994753958020935076264725184966131380535623386830452201142143746151,
  20608669463577213858610047244438684238949126375646788607196265394465849939274249877303390837653307820892218189048607845036037891184502512310050985411485146611359499026535,
  18497843541382925467646024138002897589245180354979381433102116658348397593127352054257530699712914638810919777389553098991114350100135870563556180373025093237997689,
  104227599092229150141104503690704600684161883399117947589012222216866358796081903649330688855546836305388726260927445103253872969638536740234144563406432877385751102073620107809123846276161689944833299233453035425878994951000652585296899979122560412297783935077,
  342137049504801411040916007514430009742349918279978298469088974569499976112053009578167270971884503603537435827725925221185214411108098628970835804847888160585748905862258094414994526209725189754264361075321550071381625488730488196692866441828090685189554028283031583053746304505322851975449289143774692133545303502646855663717,
  160582472987037987892552227992012516201307677086804046402887954147777355230217386897202466153564269620256902288215539842917632625289675532636024969000227507530549896831088786818120705538543943749019274833430601031456970510015111256424381005396932878211473770878787399291628702418665580,
  222067343758387871823873268319777833909465854193656440040997211827258851107072663398706970956711728575573287779736279787417602388469533850147090365244793783157686176218837171601288548529103615891994191912411711406677321507240743939279822843595166629700103904247466731232214174102144518967758716048572516,
  18497843541382925467646024138002897589245180354979381517028900741626062068892113379976853093108970567135143466720280836474882545151849949908842150736232751425519737,
  14902659803679028883521060183335515235162162156922681415872861492732420280669956032234980275638361175451253641941385170567131256204097868539834595082355,
  2946666647769474581717783702100128162149326833117743294906472,
  2946666647769474581717783702100128162149348959295265087291496,
  2946666647769474581717783702100128162149350342171895702356072,
  2644856753871670515816887083255658466321793925382275188]

def memReqsCodes9 : List Nat := [
  2644856753871670515816887083255658466321810061568835682,
  4074905705708114994209111510019256049827627157309665779744015606962383356362862,
  2644856753871670515816887083255658467704689174681682036,
  2373959488697429446785320581104645196432303849574,
  2644856753871670515816887083255658469087586906456588387,
  2644856753871670515816887083255658469087594353941020722,
  2946666647769474581717783702100128168312117920857938544361521,
  4539901345597879412428301642650573403306709278326373164631762016840466344910989099116,
  2644856753871670515816887083255658470470474708298301549,
  2946666647769474581717783702100128171393467138023912401338465,
  2373959488697429446785320581104645198914778234980,
  3657536859586931111242955385113216680738773142473834158328267236813504613,
  4074905705708114994209111510019256062611236023312957822543731255109240212422757,
  2946666647769474581717783702100128174474873053537628771450982,
  2946666647769474581717783702100128174474873053543834984710254,
  2946666647769474581717783702100128174474873053547558740295796,
  2373959488697429446785320581104645205121005977709,
  3282916672279744865186763435914178005870036641507415816879757656161,
  2946666647769474581717783702100128179096939057329790276141168,
  2644856753871670515816887083255658478767789106777227314,
  4539901345597879412428301642650573422296535825485974019321306984611782538865314955378,
  2644856753871670515816887083255658484299322936651808877,
  2644856753871670515816887083255658484299339072840597604,
  4539901345597879412428301642650573431791444837824252839905009585184643599541122433138,
  3657536859586931111242955385113216699862528969805505319149302936720310372,
  2946666647769474581717783702100128191422467300249213204299875,
  2373959488697429446785320581104645216292225941616,
  83970244853721022536607443103117816760563617287675789879017988951311391453132854238344488052691334790028304497011399373009002401530732445552994155909838490668769589049253960231238097465995157575419862248804444991416884438579710992200797515938922617,
  6278168557244571210436541030542594696397174804193988123739717361534818143117477272531844254916069752933,
  9672714727550849570365756407177866525034381395130162060351223513608648558978906123976395307336547667712982371152240581017796709,
  4074905705767201719403878965228699652297183417723661738803179772923644984098920,
  4539901345663708642008494401708877027020119611886944227141488223171507960524415959141,
  4074905705767201719403878965228699652297183417739110279541373078233369434849384,
  5057958568020085762565367714876680402327439501068415626838958066131755251205692639438635112,
  39411544571347976036124409118245383463254885696648455859422649862034306905846728395652009083314669603638330682398331513724319865585920717926038555972528712057310255747009078146898333625620543538639876849778,
  20608687959727389657544280611449870835701186742870011741881730803933044249893819395955006694626504694287496791116399849653706401333762869332410240735272329041917735141488,
  39411544571347976036124409118245383463254885696648455859422649862034306905846728395652009083314669603719938889433970454097409221466794474228869289965410343689479328510415936877072891296456857449330832703587,
  35374849720089161624795719926044583904719530618688655951486609839975071542041310384999002868037207752829895584850874001012089314819449667257548273386797304641889284360098274902872640192154475219189872,
  67649986703300667253931493974185677978837751948284103010061555113082075704798290134896082433419879717648570058177175758038467882489148563355871161758910214342267702008600836473894173695127410715971937273068060433230047947045307826438243,
  22960386560187801546145973560583638496504720564472394521771338869431451795337702914866224418563724397962031634792061019610906449178458002099125216615455513633135014738701516901,
  20608687959727389657544280611449870835701186742870011741881730803933044249893819395955006694626504694287496799955535008698323372496174533708572582124120231317031495663724,
  35374849720089161624795719926044583904719530618688655951486609839975071542041310384999002868037207752666492703416302189013141518750712586330806276362918479414852040388667182788965196108624212934197349,
  28499477610682593001803370281303559182385397303733974656121246065524751177110240676288034460798337547054267787244099581438705643060686009786501063014948496549718907247821107105317646827636,
  54501695319395212042428609478569114209218620954497210579977099388214308131085201291361032886395075978433777012226234455030936236765023876356284522462233265581247694929683436154144811042349235173158468722959764911497612099699,
  18497860143080219634600722917848358904402058987669113825074795715271933387212254599138153699651834550173587986251425928133580166205740746945958544788284535756816500,
  31751609999792805054425156470843670927805759760857665972080553696553911583432644460340614649188957441243954202654406896337427777022009040472774864777336027498261309159204097715787277712421224548,
  116121323097899289483519181670820027493429828227746634141695686824893049584236546113038423756935793303585190077024107847541773803580384839476997953176051819006054383888198353870747128288256700832181718780079296430428586106739335018732343513806595607387959796553810034,
  381179334603622238990671496690456929340584920684669316361919606425731490433622368989771515007542911361127977958011604496342908756240659792749031936968567229926938129453777847424888492881645189956836723403435485650014783294906331761720885918362420190606612018110673066854401765967825239916785162405659219469204742693136531764270792818,
  25580442191343951956179782895528958652617867237525468405439709890500013622607278869887439019414868116592659152861340380606692691210066796753355231251410091006745163215639157481341043,
  31751609999792805054425156470843670927805759760857665972080553696553911583432644460340614649188957441304643767854976144925141293425559061588160472833684631574664466997905793303146131538208292964,
  10776497222222802523354923377355286165059120946926066494971246900737452113450635393091833101115899202708152465993633707743039356207214,
  13376279206034711961392902101191684511862469456734640750568172561368056430933357196856892711809199547577721952594977136182949569020340113585930350,
  14902673178793745012731368945762870014880119571381544075897007868690888086380024453304626452939170926350910960049495167147058310240389164627448034099315,
  20608706455661744598652342061209430903675285590262186789232732845766449365071029497533155969440937271537926669525443903018502293519427164591941675199358012165730409447539,
  6994589205208885754018277245194094427559481369426739428658580590317428324165728178893616461034913372434923630,
  6278174191830700821836832603180016396519812522822426675826649915194727571523983386677675621706307534962,
  9672723408657485296922823298516116290486392330708458234189803770456099398635511003088136435253097899773319536073103225425494131,
  6278179826421887742662300813559141092236995422452834422404801007563121228989315802252556099392195461215,
  5057967646922310123553864385216581551581262999537161160199855424910978114759588192113852511,
  9672732089818664746711855497337681081463084882094172694767305929098365545632708915180609759552723708233406477326100701169778783,
  5057967646922310123553864385216581551581262999537161160199855424910978117525346418326175839,
  5057967646922310123553864385216581551581262999537161160199855424910978117525365037009403999,
  6278179826421887742662300813559141092236995422452834422404801007563121239288326527004904213642317070431,
  6278179826421887742662300813559141092236995422452834422404801007563121239288326527018733079248111599711,
  8682010506859871132087129029520982703231887711553392024111854040795149458552175727232610184724946486426225476625165647967,
  6278179826421887742662300813559141092236995422452834422404801007563121239288331149083354009674015768671,
  10776506894052052218288638751849878545031000424159702929312592743279638243615067886380454351441039979018574333142876844246133367570527,
  8682010506859871132087129029520982703231887711553392024111854040795149458552194902642084454632710456011647090667033657439,
  8682010506859871132087129029520982703231887711553392024111854040795149458552197033207864474170868602469801398198544040031,
  6278179826421887742662300813559141092236995422452834422404801007563121239288345015306257329354217291871,
  6278179826421887742662300813559141092236995422452834422404801007563121239288345015314554658647658397791,
  6994595482774542196752981283996001800554343444099772264014257660138164130146018358177724832043356187920367711,
  5635142451047908776372842957942416105595304082940345694512581327158419655553793601263992797331551,
  6278179826421887742662300813559141092236995422452834422404801007563121239288349637377792693824264274015,
  8682010506859871132087129029520982703231887711553392024111854040795149458552207686216527734512041077511407952059746418783,
  8682010506859871132087129029520982703231887711553392024111854040795149458552207686243300974132070705656469671938939093087,
  6278179826421887742662300813559141092236995422452834422404801007563121239288354259457625328007966031967,
  9672732089818664746711855497337681081463084882094172694767305929098365553566521957188272139207837970207328212797038541652557919,
  6278179826421887742662300813559141092236995422452834422404801007563121239288361962901886929981720690783,
  5057967646922310123553864385216581551581262999537161160199855424910978124439779221223440479,
  5057967646922310123553864385216581551581262999537161160199855424910978124439797839906668639,
  7792762762504910755908857484275353558019200683192885476605452630251850323887616755228452376006012161473383729397855,
  5057967646922310123553864385216581551581262999537161160199855424910978127205552342382346335,
  5635142451047908776372842957942416105595304082940345694512581327158419666338627183732267248713823,
  7792762762504910755908857484275353558019200683192885476605452630251850334540625418488793548481053768027244931776607,
  8682010506859871132087129029520982703231887711553392024111854040795149484663207470235241916746582714080881755771028570207,
  7792762762504910755908857484275353558019200683192885476605457919497733399947303050283138870684093870814594021523570,
  4074913020115466662371505658674461141561618022840748151287222418799733211136108,
  3282922565076186510495391679716999933840302530399588248714386669681,
  6278179826421887742662300813559141092236995422452834422404815921789401400449218942168212104833813512310,
  3282922565076186510495391679716999933840302530399588248714388897893,
  3282922565076186510495391679716999933840302530399588248714388897908,
  4074913020115466662371505658674461141561618022840748151287230716119096678940772,
  4074913020115466662371505658674461141561618022840748151287230716119096690081892,
  5635142451047908776372842957942416105595304082940345694512600450917679984637106597795587125477492,
  4074913020115466662371505658674461141561618022840748151287230716122820421156982,
  6994595482774542196752981283996001800554343444099772264014281397425609235589870619664378916665712510466850934,
  5635142451047908776372842957942416105595304082940345694512600450933128506887005464429850052132980,
  5635142451047908776372842957942416105595304082940345694512600450934844980942053415564334502051948,
  4074913020115466662371505658674461141561618022840748151287230716133991637778532]

def memReqsCodes10 : List Nat := [
  4074913020115466662371505658674461141561618022840748151287230716133991644463212,
  4539909494666882794148042912397121251347497378663151604326919187614856564455595376760,
  3657543424822160305581041815072866230290687132748546062951687726311604338,
  4074913020115466662371505658674461141561618022840748151287230716137715374424183,
  5635142451047908776372842957942416105595304082940345694512600450943427496042112773809897974333556,
  5635142451047908776372842957942416105595304082940345694512600450943427517611768875646514773753972,
  3657543424822160305581041815072866230290687132748546062951687726316060767,
  5057967646922310123553864385216581551581262999537161160199872589959666522383232121998082164,
  4074913020115466662371505658674461141561618022840748151287230716141439117754466,
  7792762762504910755908857484275353558019200683192885476605479076281872523310554294211468761795856341972131488530546,
  6278179826421887742662300813559141092236995422452834422404822313605308667263863824960649848733499457654,
  4074913020115466662371505658674461141561618022840748151287230716147645338812530,
  3282922565076186510495391679716999933840302530399588248714394468453,
  8682010506859871132087129029520982703231887711553392024111892343730039677773583788028889293137302211720874977791658819700,
  3282922565076186510495391679716999933840302530399588248714394468468,
  5057967646922310123553864385216581551581262999537161160199879455939083964485947777786118252,
  9672732089818664746711855497337681081463084882094172694767351885453278760457124985080734297078080374674536881814727061046362226,
  3282922565076186510495391679716999933840302530399588248714396696677,
  3657543424822160305581041815072866230290687132748546062951696415030444151,
  5057967646922310123553864385216581551581262999537161160199888038454184023844193341258399860,
  5635142451047908776372842957942416105595304082940345694512621487071061264651407688612831177539702,
  12006235648775134829003980264712260608872969872789161251155685386940691822244476457760485200446889472388491798238650419848845827869157294190,
  3657543424830999295287152748079531373096856375092878279429550693085413456,
  5057967646934533443627545322824005254128633288736380523317510595927362292366361082153205828,
  8682010506880852482842361353171982090598457693812809678909148383076929317948812505248050921377816253907733032757980430457,
  2946671937008236311961942826785553799832845791566188114280563,
  2644861501364527365257660654212102390353156667917402228,
  4074913020125314286870992057741914475683033195517733349715301064560794798588005,
  6994595482791445661808590174589601278712455686764769366845487204612761524629748594440935686532924555765678181,
  3657543424830999295287181232902445532835976526157012979470980697849462900,
  2946671937008236311961946651560063685854471812010260029636708,
  5057967646934533443627591279293827270979184964791636084535571382354562228527065757819928676,
  5635142451061526923946822975356604488525161719493939261414094503937806041252216822012971194777701,
  2644861501364527365257665803709761305670984263473365106,
  2644861501364527365257665803709761305670995434689986660,
  2644861501364527365257665803709761305670997917189996654,
  3282922565084120173992550438457351298989781213865784583388053897317,
  3282922565084120173992550438457351300706296867540959142157985513573,
  2644861501364527365257665803734412364922557751752917096,
  2373963749932257587439741968258644648138063478891,
  5057967646934533443627597844434772436291782115663328558546003722096940260473289934711423079,
  5635142451061526923946830289658913188541909956453023514345258094355093922944389978121995835146344,
  14902686553812419952534943636694258148803842375604269224107568963124525343504346993565034216814194702914494020908360866798991461950876268891480901025893,
  6994595482791445661808608332377752111370579119442773811730258790773921954685938774367917174342779072403996773,
  8682010506880852482842395160663471995299828658815927215635000502273328145673556717697248015583746865287484410626171338853,
  2946671937008236311961950476281362041115850418774477455491189,
  2946671937008236311961950476281362041115853184536427424514146,
  5057967646934533443627597844434772436291801105515442886157153399651889954379143705016860788,
  4074913020125314286871002636117367973225523945009655319089277138342799476129895,
  2946671937008236311961950476281362041115868396279905065173092,
  4539909494677854150774426488929993067386243455829145259311091285018985374828637454457,
  3657543424830999295287190727788021288008328982397695116565841901680263277,
  3657543424830999295287190727788021288008328982403857885527399610149568612,
  3657543424830999295287190727788021288008328982403857885527416987587248228,
  2644861501364527365257667520214630163857738310818005092,
  3282922565084120173992552569030780826351694696231994528624050176114,
  4074913020125314286871007925334766283897311434194778494467459148622037034991731,
  3282922565084120173992563222027969821524249851129383674174063968371,
  2644861501364527365257676102720486069082212099411607652,
  2644861501364527365257676102720486069082214581911617646,
  4074913020125314286871015859116949852183713260659817505640866270170276865310835,
  4074913020125314286871015859116949852183713260675266017105956446283184571940979,
  4539909494677854150774441220832503233716101148294653350004818902472656653892395008115,
  3657543424830999295287202596432809136050696214289180544862952874017292402,
  2373963749932257587439751212390652239908680958054,
  3657543424830999295287202596445592714318693958939134020706528182289039481,
  2373963749932257587439752753061803617044752433266,
  2946671937008236311961961950525932607713393725123247264301174,
  5057967646934533443627617540007873092414721764492658041254504658479599750235115555678060645,
  2373963749932257587439752753072866714494370250866,
  2373963749932257587439752753075632487615529156708,
  6994595482791445661808649187476469832785109203794273878627447760008646468812383283038211861016507141753929832,
  5635142451061526923946863204257290314703423429797962540926450493149887065271047576217758748967013,
  6994595482791445661808649187476469832785109203794273894495045359264975108888922421599046706910370062648344677,
  6994595482791445661808649187476469832785109203794273894495045359277758740703432019843758905894032166233243758,
  5057967646934533443627627387782637934699045903641611027605552827631085021759081112763498612,
  5057967646934533443627627387782637934699045903641611033342654514916814959842220133154291827,
  5635142451061526923946863204257290314703423429797962564363052723403022372299854689897139160744040,
  5057967646934533443627627387782637934699045903641611044816905951485940280801806503870988392,
  6278179826437059884292287658221498227094860484219067670881400085489083214688549640047922554291368165492,
  4074913020125314286871026437509019397885815369659354762018851661206616641175662,
  2373963749932257587439757375144402057863231766578,
  2644861501364527365257682968746124208560802642755715122,
  2644861501364527365257682968746124208560802642755715123,
  2644861501364527365257682968746124208560802642755715124,
  5635142451061526923946863204303246648991955170137669424081716301695932392987788307512612717002853,
  6994595482791445661808649187533512928148149219800588332292046514379554615926650627293363306601655684509728869,
  4539909494677854150774453006361916243127643213006095322733375320056202407070530994286,
  5057967646934533443627627387823887229463424835328646872201126244578455776146163427105964144,
  2373963749932257587439757375156848023254741352548,
  2644861501364527365257682968750746264884386397769957494,
  2644861501364527365257682968758449735420823092587659365,
  2946671937008236311961967687689413951629164057329022350458998,
  2373963749932257587439760456519894053593150652534,
  7792762762523743109168967878503475962479282005790820891517671629415989924695224735016063283599931531994789651284075,
  4539909494677854150774458899092242959364947830040686855715105445883335312679204290674,
  2946671937008236311961971512408995778911362755676646870810725,
  2946671937008236311961973424780802183495019611137894059147378,
  5635142451061526923946874175801024619165343533632570656047197014290390747553297484006724487807077,
  14902686553812419952535059697898677182332609835151951102646271976404321255295245542844637644031947018397170133773374279619287746161216964146459625717880]

def memReqsCodes11 : List Nat := [
  14902686553812419952535059697898677182332609835151951102646271976404321255295245542844637644031947018397170133773374279619287746161216964146459634630766,
  8682010506880852482842462775626221749899620764716810051207069630932087921569510430783765571414678911453143636180076855417,
  6278179826437059884292299881750031163485681314990714297751805425231944152116575109169343702511532441709,
  9672732089842040321364581887878481166224166289420174679770410760657010338475693132145526448433848353913618802388185986500984946,
  13376291211128163014611690474475346448411479128805677618270270501138815459116142247382864337113369855791559738564220174306454374790099639148281964,
  8682010506880852482842462775626221749899620764716810051207104987472724185491107459619652195432537186067318955590775210105,
  6278179826437059884292299881750031163485681314990714297751830992434377191115295608458988865055343313005,
  9672732089842040321364581887878481166224166289420174679770450151803211687745911441135933766891632471960566895847477951839142002,
  4539909494677854150774461845465340106788301180392121608751315597224564059080164638820,
  3282922565084120173992578136233213855051373656954907287743116345445,
  5057967646934533443627637235580973785562000424653735877003787840143888353932581900049580135,
  14902686553812419952535059697916039567027568779176945652616828506786092660709080721873367511977997651173232406268763334087458982830977160549184679182437,
  6994595482791445661808662805864439777645233475123713923694868619595491373742619254569044800376416048627056741,
  3657543424830999295287219212515058365953252593808809941727127585049018483,
  2373963749932257587439761997210405857472287735923,
  4539909494677854150774461845470629331307840484665031883328949559633160694239335809145,
  3657543424830999295287219212515058365953271475308443036859409827590897764,
  3657543424830999295287219212515058365953271475308443036859427205028577380,
  3282922565084120173992578136233213865350415195521639691167861047410,
  2644861501364527365257688118253027275246649993229172837,
  3657543424830999295287219212547017332659440674538067763449284574636146789,
  2130812476602224540656381043591724693061731,
  3282922565084120173992580266858277498429401447148404931131834892389,
  2946671937008236311961977249550162593427372586679455337021541,
  2946671937008236311961977249557028572844793946101667405430893,
  2373963749932257587439768159966921418758117654579,
  2373963749932257587439768159966921418758117654580,
  2644861501364527365257694984237066755695443976438480996,
  14902686553812419952535098384955242038341446345162883918174133348094835731134491701117636421259276253646933851625519810708707784513247226445616401088613,
  2130812476602224540656386575108177115480171,
  2644861501364527365257694984263258494395708999262863478,
  12006246424034370382297331153960897576899480691364775207365627971446822413905063383831603319357460132434708679234631326104331795646226169970,
  13376303215973780455362044206601683521194634232017792435828534510524562213200597976696234311669294950855701832891695932339923349324193475580919919,
  6278185460927097915637297080266941671951630778012232605067015147561217442683288090646622977884233203813,
  13376303215973780455362044206601683521194634232017792435828534510524562213200597976699180737658369489949904241219976593221027384360334442029318254,
  9672740770847380636853938659615119881234696260093333637378616783335165592691199969901659551355637580904760159641653295264432244,
  8682018298741401795200068448787123629612369546413047913835069349701973942198988943578429576954714322972848473400006672495,
  12006246424034370382297331153960897576899480691364775207365627971446822413905063383865983048482737763409409864332498819893304643180601606259,
  10776516565690316936086615307941120441122149919725104125407165501715108008804378180888441241529341541433365643968045001126331071070324,
  9672740770847380636853938659615119881234696260093333637378616783335165592691199969920834926407166910897078268609445408118014059,
  9672740770847380636853938659615119881234696260093333637378616783335165592691199969922965518960439801088367686836258991789310053,
  6278185460927097915637297080266941671951630778012232605067015147561217442683288090667366258915486204011,
  13376303215973780455362044206601683521194634232017792435828534510524562213200597976740430032422769785045859469823771702550252549084484163083763827,
  12006246424034370382297331153960897576899480691364775207365627971446822413905063383879206069428181174824308031709353909281997636358645481588,
  28499554344042685236081151267707533076548695385927808891882309451445979163545024512221396263494290491570613391726088323373313301878107098014881306777122160624099519163095752552951330373743,
  25580511065353111030202664783888453832782247553143498043179060499703781274723748161963425816699120457880907349323183640304990398455224466785389489582589548786854508247278923866701939,
  16603276822802246424437286667340483928379119217510364939978035929255021052035773824495469433151585607066204104850865693207947604160697274702143524051900235885,
  28499554344226350009214088175593251818075597252785932248970648728952257501532724997299633500944568534374527307164264694572078745368278661484219075458549287570352631993120021953118369742949,
  8682018298797352877870512543787823315378086142171129320651426267883795082884388568808587276594432053872513554749025026149,
  5635147508488978212506056103640786117033356144004802994085111830496497801790953180011625908011105,
  8682018298811340700327999383144107899167570945806481785795780662755615253158523741132321840464409058499991169628553150565,
  28499554344295224389293274683544671380971162199079046584573749241247324192247180973574000220045495221512139245686070899216484856623132112398701226101141869501005196957306061429992373551205,
  18497909947769769335550842007596105700957142337381853291889396275644202141729756526165843878589663597747896027091921596390771396555848622684961338358576878618345582,
  10776516565785809389590356906173560158185117592597076687579198417449873502546184928989442282423708985704348922966917169768951023075432,
  25580511065579784069548909520357622376359972964189459035154316584861225960061325324440983873719199661905876790915618419816575202158230266667574061687127012009570002681005061271650414,
  13376303216092310038193108361456139418615869697720303166645076651111384937291349892877965973431644029825706011477656634571809752998500654693417070,
  10776516565785809389590356906173560158185117592597076687579224017650746685221557938781803927348019945725985836097349098851355823374446,
  9672740770933092354799478783258379909905931892482153219406329002515677674436284627381990255331625182434702321290919504672391284,
  4074916677281392681893083880388276928813103694806464974645137973405709944815728,
  4539913569159326963609267468147143985713824583628220305831843957826982318038540353651,
  4074916677281392681893083880388276928813103694806464974645149036490747093778532,
  4539913569159326963609267468147143985713824583628220305831856283342779226143787843699,
  5635147508507136078072475603064296186603006942188987651329341184115636714163473907768094947803233,
  5635147508507136078072475603064296186603006942188987651329341184115636714163496033976647880015987,
  5635147508507136078072475603064296186603006942188987651329341184115636714163498799749769032237112,
  18497909947829374370653093549987973419332150679290667085177041346781438495572618523136707051354917182838322508887273661501643715979644950004177636636651831822450804,
  2644863875085388784519672692620282677235809553310810224,
  25580511065724031124191467928127118280876927089693375350450095898765145121341666620058929801728694184555964770007971694862533789501547959776881832661352756404141791369518550677717093,
  10776535909227280459038623098666382110140717028306817478516910416066682445467051402744247060146708525493464338970092657921580294471781,
  4539921718133243755514710531228221018438769312680698615545984639640940092514979086451,
  6994614315353185595546756952315894114518233533905954141549224262814524408734683592817059697583881836922404979,
  5057981265232864466944005179367735775294854156497840891037063902643684244326269467340570725,
  5635157623371117096995919498395746840085300554011243726643944682357956307442147348542986256449636,
  5635157623371117096995919498395746840085300554030233502056661169609261787693552263177061855985779,
  4074923991603396925546722888926984915734476706750574993682295271006929620303973,
  5057981265232864466944005179367735775294854156523408093470102901364183533971432011151442021,
  6278196730089242011168317864196682303501114370857020743831492369082013441791548783728135064336295067762,
  8682033882742255048573106062530968370141671289099123095203581980631901533617038357819900537205410766610056918681057951848,
  3282931404182254867729427881685466789032915286170436106072043618418,
  3657553272576300335195768356145925973871341567184340755166961127872725096,
  20608780439714594152974224091608241788501067870208482637998254875356211295390536256335108457469837688206032082406586819451576107753574011811000069311285650693399711055973,
  10776535909262004940125126668616411594104030714866625265279409052661138366384455173814371341198420244901793444001360863189043642499193,
  10776535909262004940125126668616411594104030714866625265279423681354385801175385759173925989003441675569196676877793399725673420226674,
  20608780439714594152974224091608241788501067870208482637998296838679199858500147104313151111161108886611828960995384050726277861385230943840003752796568317335160830820453,
  43909071783353124793477484449293067216368438957881145387454004633385214653165640324490651113463304299147760541967657173796062094974995958665820838794488275763616827042119733898408396379548657145318484476955983976,
  14902726678520301436671653470033178723415304724472976406242748792935641511813611027326135032216042641195129744821274419514821341091432885407325233676397,
  20608780439714594152974224091608241788501067870208482637998373771564609490250596637087862861224872097317129612422460356194247409351256947293471940504704797187875404054637,
  22960489593251305920958418751149841475470501727013713008785644199385390227234718978759167721791998119214426923635095500437750203152541222778268877676787168057014236656231055469,
  14902726678520301436671653470033178723415304724472976406242809482500842081062198740819560448976247566692576170110129078252623156634242016550638201208953,
  116121844183884736412443433156378795977227679158841895052239386490650226051321122796027442191330653900745426991446144626452990956600638063934410132410953879806090716739933245434674587487190829526355969706803526670006991706383109571199945787866748194792871302063390827,
  18497943150881234699001737789026813990425619569853374380671225842162442497849967390292438988735991271978092464179993187150694539367036845449953876819616839638122603,
  14902726678520301436671653470033178723415304724472976406242809482500842081062198740878647165331842838309503588580225742450518624890120399075348337066091,
  5635157623389274946264383849965963269840934874318302701264414246990235410777399543897195506368628,
  4539921718206387336642541951364404222857435733266692032040959520240733136784937189480,
  4539925792654945337731480411649266584664414941287808521683483169311112732775698661484,
  8682041674728694486835373440112800875677849611408488330817470934817001282774512514439044076817138867276732621439864340581,
  9672766814315335272117131574110952809203200386265533751223714178130838933154477686486712274510901367200155440359200527026618479,
  3657556555171817278266694586583270250378465748248416314768755843494838380,
  4074927648795583691524263639247460385189653231722838591056825572138371372679284,
  4074927648795583691524263639247460385189653231722838609545110330615356327264357]

def memReqsCodes12 : List Nat := [
  6994620592930111266172608186720281410509451047098726949632021412378317522061342905844130482360604192982564985,
  39411756799238276017999507658298859670579286688410312544090669143798091257491100360792925890082264875056919735330288328804057291559707684326617221598741362970008387329558653066979534975119650985327335899238,
  48919667687353235597322678900847096985697865843800095601136306807065676598484711616530571607229900314125929960103023033704073128354832305960283984483246927739690269751158849646459008019790577600429488894715097850445940,
  48919667687353235597322678900847096985697865843800095601136306807065676598484711616530571607229900314125929960103023033704073128354832305960283984483246927739690269751163597098834618072538440104767617918472549708398694,
  2946682515374195021936303029619342555441619904402224469049454,
  3282934350568575164279498440935264973128184819775250896540805628005,
  10776545581056530247475707150632651057222567341811698003631086178094996062350064764306383229967264621394586925262216600494739232587877,
  12006278750402053027075655045005644134664348946320514486221436684049772253016955354706780828330856548202114872883963769415028397211663925349,
  3282934350568575164279498440935264973128187901149360020605080502388,
  3657556555180656437227178329453844939526808637629823803411368713768075374,
  6278202364705716350695472565326163902385538583088945794802083151632238162682108928782464783795218743397,
  16603321526501667211900408071112055658263896134695202835363192386676962689536485522786171461581527131387947861869461513032716123288658977040286213831786758259,
  13376339231167932189147358746632050357288420051058505248783672198386523517958955060800759306002132283209108241672162747113361414723536718426407013,
  14902740053514967267115342147927726887659316239924893399732874600288806493714827328176354232522057768099477289218493445735863610414278678515358941577331,
  10776545581056530317603690010460076181153915090233253841209994956855038333071419972383859766016492292017483880086323273418939342651507,
  7792790738049384836851471720245577187291789508768658381091757470484393613138228859442400335847068353342098862637157,
  3282934350568575185643075677718079456577802445037151308135435468901,
  25580579939918650115736970181270074603913788261005354058808126385973976475601229756281079611549310897599549288223257815497141372682487217245143268940923597199628744222679943120748660,
  22960510199978682677986567042873673924985807765292317162734201216730433273855078983334781073670610223820441225883964441307624815443388962679279470499712275404565250076830662772,
  9672766814338711294379460961249924766229889894631533774359506096271690102495757103776373655390865003891390912389564800399966309,
  31751780979597967425643944639471144866346773639356783527643193005133238258749392958895975350457333162936605282918640440564437691127346590004415531689006803022185886433448775996247668701367697524,
  28499631078022647117743947322595165357115598467081212236869536460547268370459516600571554161931056449384447239522347780735928226877983155311240081280652391467538576264167945639144526512244,
  3657556555180656437227178329453844939526808637660637613646967175482900584,
  5635162680871199440370233052595063689779868660528607041781630250926807599717859926127505751474290,
  13376339231178707487069326199714235872152256416428671444478839513322310686894112837046408111639567194651446132472292259579974193342942027308925036,
  7792790738055662312354662819095979645309177382629185148246570319856682278295529710507441446390462329098935106011244,
  10776545581065211354111419719732701546509528165596681904897647333830296286643918831265487096264875477998638138733214137134776102092907,
  7792790738055662312354662819095979645309177382635750283298941835408915703069461617891818698020111093723015456817260,
  8682041674756670050142078102708660074594698232126738211813554966535334344348514477184043010406841631579396291621688836196,
  5635162680871199440370233052595063689779868660557091768818708195869300504303011258137723192803442,
  7792790738055662312354662819095979645309177382639032902386742742883283808103273149197190244138274192471481700581492,
  6278202364710773750909761086692791597548029033150582634237029940086403912960890573708239252222949326951,
  7792790738055662312354662819095979645309177382639032902386742742909394797234246865001549899347768319919572257407092,
  4539925792669574037544088557867745531925819315155719752798156743524546521540169629812,
  6994620592952649565173575743817479432327429722181461919795085900624457830046446927899496449130919288132468847,
  5635162680871199440370233052595063689779868660557091800777707412434735043316264797674769306681452,
  8682041674756670050142078102708660074594698232137709735852318737953631197184411333868283720164805863439959576240003481715,
  8682041674756670131750234426854963720347429368618003030126107227710342976116515591735421411626524381498798866680700534899,
  5635162680871199493338792085159376979277725903816937057594970397230331476522345502798685917085797,
  13376339231178707612802238332209559996020862207885549638305368741916586661883476974645750117722297340960206610203833604771566086420428829880549491,
  6278202364731003664989569563581535016786652064600545751463915320401879111002689374043017192877753368680,
  43909111191325182727984115851855358451295444774691131740254491818699763040902879219638777255475493685298942551426600548983680033816640755083952271755729964394916993735931009353242521757797304632255484436929642596,
  14902740053574992454212688177424707288282927030022650461607605453769557621133789257775468893876840923356025457913180493142638445597543211831035134672997,
  9672766814377671219580782446327983374554290501428597229797235984300430687058133135919663080428064505941371387551682389720432755,
  5057985804747131497924828856441701706344476720853941737843521160338975308141414795753881678,
  6278202364741118515352204591591300262448370812400989276494198066301422783336872622128558783524861313093,
  3657556555201281038328879940398836472833972324487182290874416889623412837,
  13376339231243360048342895939205344688181086766873245851986678819306478965109259215037456317802034705286229368585438392223756657271639557441257582,
  8682041674798633417073482481797746047716947806885516168504003227644583396908807777209397964865648909395934171419209171058,
  5635162680898436167416026926907977171458857648507107270122726101512024659351020902954057996566629,
  6994620592986457031376075361946966717996879302651760650192726511355011618372273441158430997050501788424601711,
  13376339231243360048342895939205344688181086766895784110527963479454560938019666802118370075957388160976107016849319587306400187494208098793750644,
  6994620592986457031376075361946966717996879302651760650192726511382709415270955419974556597252725866345398383,
  14902740053599002350179400480619944981238806940046073358797557554818773094042965117694361205294604376151481094075717039036509097933261973838787555754038,
  9672766814393255073562571714760650444714024155049283188075399010122923805339452127987961390370613154390257248999774843358216293,
  7792790738093327616140462073649458984120939193642523555487399980549626167499034819728616311147914018657444079927416,
  9672766814393255073562571714760650444714024155049283188075399010137655662891475899404602527381027668663255814929974274576154744,
  5635162680898436167416026926907977171458857648514228443359575652994269481006638527781686845833328,
  5635162680898436167416026926907977171458857648514228443359575652994269481006641293554808004739182,
  5057985804747131497924828856441701706344476720954079993269957115779063738751650695760576627,
  5057985804747131497924828856441701706344476720956210593472729247164368316597266141445095539,
  13376339231243360048342895939205344688181086766963399083392700086137115619207058723243274566520262816960876691835311210780623734847763381160837236,
  6994620592986457031376075361946966717996879302687117190828990432966954676714323589544181755256256549229494373,
  8682041674798633417073482481797746047716947806944031023558447635432219964140265828150554102775327530490459276689494179944,
  22960510200108154733120030715042355896429140700198358646444665890757703351065899215440272067600224577075973037357038139527705991907349526682356532516424427267034321860329996389,
  14902740053599002350179400480619944981238806940115126535942532622127975119673939530836124880600031750858180478684525427839456791235319137512726478061671,
  13376339231243360048342895939205344688181086766963399133967260582533870131256049239965214341646110759832207638940540394743799167124957197232308340,
  7792790738093327616140462073649458984120939193675349537172607094647773261701037084378010569276564541693214607016044,
  12006278750469755328317885400395422262915296457594388296658918118226776240859131972337802995333224084413914895547517183313739036262208372847,
  18497959752638133633559575126376160849424862709043314395617959436613853149987663119374171870620642534695525554344042241426807429180920494922533348730855766069870703,
  9672766814393255073562571714760650444714024155090028291718749212006661448688239842332470159324479057661359916659905682362007655,
  16603321526595291706363072228264448142937929677665543855212006904704242616530172118578896799083613258537315417430257332763411257473094493686883032097916977263,
  10776545581117298196516943898275417788261230879475661600143359122087165599920952267220712996275914214661344404774369004984810250960997,
  9672766814393255073562571714760650444714024155090028291718749212006661448688239842332470161236854297109576420300991897765347431,
  18497959752638133633559575126376160849424862709043314395617959436613853149987663119374171874277821591117738847446258632607376118690897692602917286866471751437254759,
  22960510200108154733120030715042355896429140700198358646444665890757703351065899215440272122073711264742247691712719079639670601736171096101413212996625554893067958836553056357,
  13376339231243360048342895939205344688181086766963399133967260582533870131256049239965214373381286968565191034711195307915919975692331191336501364,
  7792790738093327616140462073649458984120939193675349537172607094647773261701037084378010584683459979287762662719589,
  6278202364741118515352204591591300262448370812527930062035890694610772310969672011523539499256777343090,
  67650350993289686578095293456734272029151580999732048696934313604728525260890497680231377464337914318089812641303043091455792296292427868220130222484298196701860882331558623651096746973046659920087915410894468836045045920523062243885171,
  31751780980032792355504955693441731568945118873606447953475840709326756046965393612465789503143777525050986553875779475388619163126256123549845778769561542566270425845569897919162659315756892275,
  20608798936097192656040334152190729817701042597655264898793565413036845657597933639011267636064156274721838023828706443823950710826509686049584474194262574447363568238693,
  25580579940268963500845232879725039611884027740127319967512647744922465417148611541155451035412872025902733136293875165868917563863756759659180647920373691421236615453804893417832549,
  14902740053623012526307408295547023185849200230995311664451513057634966390736676699629881263160648795801853234827735220064309451049340334499553893220464,
  18497959752667936157798222240577240866865676999185467138034359990114892544984950110291675490265427133740004362795533048573912360560450191656784785770888560786079854,
  83970697027995279563673459742480413114029822631673023901233402580806024953522832260668677226655094320088873687824642961375074851121223278517464629963268312614672561505744148821832781644458219057734461601309656727737610273650032620998668815483994222,
  25580579940104109996266792146740602947168496677941288172389653796713407817182008451389776772711904312768511817467599799669229198614374406087738388383969065532367292363974393076514917,
  75370067845957389888694727049417305543814107227705135481202430797627190940877427279006668294260446274781057638571923613958397677576562708422335699719715648923502235509835977044915676549829044598699265544571445748166487331337792739234046476398,
  20608798935964379688636892976893990976665453132916519164089736877306883163078272737277279163810595554825343740642856915824647269199981570258326925996125944963450749386855,
  18497959752667936157798222240577240866865676999185467138034359990114892544984950110291675490265427133740004362795533048584565348187598347629121159128639318330507380,
  35375040210998320660830388196211989400531952145551870592075967762110897491591837497757539126462019046347914838066658957275844321652845917262771684291089659093438424081519174574123370263171444022116462,
  20608798935964379688636892976893990976665453132916519164089736877306883163078272737277279163810595554825343740642856915829394755665135583444646843844616182212444232155248,
  18497959752667936157798222240577240866865676999185467138034359990114892544984950110291675490265427133740004362795533048588826577278707691367337261916299483512897648,
  35375040210998320660830388196211989400531952145551870592075967762110897491591837497757539126462019046347914838066658957288067846528649207992731072886364847903180247137454172802018303674214373295849582,
  20608798935964379688636892976893990976665453132916519164089736877306883163078272737277279163810595554825343740642856915853131996237055690460639957198504950574687526191205,
  67650350993398679745568423147239510519421841994077018720920725023720407769485857148120358001942754655529298345742549774241668383238815408737884555299607486898057442146516754171510632439970784121769324919152932746370357703265744892264562,
  54501988806931533771428817060765992804483470266946738644577760210480212103032350021424414881597523328994244783200366904502821860021914307712758210943224335290277702574395427293704614056032110531286265284512606745123645227115,
  20608798935964379688636892976893990976665453132916519164089736877306883163078272737277279163810595554825343740642856915853131996237059515200819830581277276973668190716007,
  18497959752667936157798222240577240866865676999185467138034359990114892544984950110291675490265427133740004362795533048610132550620637346349620448773801862141378676,
  5635162680907515118534527647561170149359479153795359223359087971477883177261481562396915229327475]

def memReqsCodes13 : List Nat := [
  4539925792706145844520775605291429531242159882788588360690546956454258305866294165619,
  9672766814424423082263473061402353836223711686054368493210883616059994900482180521297513390412065247143280688436148515705782387,
  28499631078275186477021272944753234358805892206278707102158773667283003198929553878548965838545971854207284136238497702115303911141041746388095042373867931864389303798747521193832699134067,
  18497959752697738561661557212539449340799530246405165111254584375268953791482778447751034658674303105762595764063023543543743734876064541008520966165395758342471795,
  16603321526648791649009755942436172791244982772293239020183414571666900447605607378567895021931639822354122174487864365112074683851440103864569012466520031347,
  35375040211055314040054160787467374588414207788401748197966175667229033851743020857592713857029968271582937124782238718290095656517289697834924116176811153541750882684502398976969062362304886057730163,
  22960510200182139084797901150355768392260412120236698652594087370915444096442029929507953858049761538921152117578330179949962887333025053598149267294036691601046831796450033779,
  35375040211055314040054160787467374588414207788401748197966175667229033851743020857592713857030012214407302905321114599721870312955988274070047108749614474796051066101001484614848524865723088543416435,
  22960510200182139084797901150355768392260412120236698652594087370915444096442029929507953858049790060434090497278523519523860281470982368528179424219000858253479174756554375269,
  31751780979879324556287124443024915437957950177721582927000315648004001259965803130737945428314219947731738734814017441491375121650283963890384968241114843539402592935605144794536314472344846451,
  60721319753765934190465125916212710904417236055950372304224488083037460549221336199145808444180062888908171074147909668518292895726678396268586089571635921142190811050324279381627552667755843302625365537093705283455200148203962475,
  14902740053647022605455964878249379587729943463857441082190171314790562899944826820441980399107465401887364191663545196690495894500986789692247023485038,
  35375040211055314040054160787467374588414207788640167428878389768918312357869594283378426040590709010894972296588045197992336021444059801939101267411179119899438814925741051645754723147316379532525671,
  48919667687826127830983940315536541503684295573687215793473631240952454605104731655722977131223818434645171823337589446631642004172369559732388275415203619290458504530341177898389279705665742026240773182512491357208684,
  43909111191537410808773211594109516371499719573693861832090159015388448024170578591490781116462095762944095228610399534904607439981231294279559257021326834944847685356434661699423545925812079422766921833783427180,
  10776545581152022849026722499391376892992677508747565973297656894351526416580003624509409940159446617383494287436321761726700836356197,
  20608798935997582904409880829176750983976846242021849641959299684983982070345327130657948958459273261984580499406935112470039522559247183181617118914596977059317859614835,
  93552761207404601482943162634501862548024657998261562018420478246486344042712500865948293654189542386959313980431158207025706149260131519012885534956571841751107075915655894279770695852567557716666598308774063890604907886638590723434231421643320387633253,
  9672766814424423082263473061407988508330111791945123985108909063318164077381810468345561260044992986028433405098722814702059630,
  25580579940145323340042359246603980539096903748548745508521000809555170458661956798393981608404676772518305936873524954215472984159359190584590964431334277115248094487624546568700019,
  16603321526648791649009755942590921356069248666835638452542178380300734527198414728055070081806540777913970501429483709993816435571044139021506527056232972404,
  9672766814424423082263473061509411104178924521101885314396966132349379169269052670566929292491547220003528412941061155085156467,
  4074927648841540028759025668282611622880341703252306345215430344232182460711027,
  20608798935997582904409880829416851969426305168167021336451729889118404904524657209966657106101864166039617115230508372865857019945048325907376813708616090060094393811059,
  6994620593008995401181217891076688402711795765769300405871478689281413164377445164257213954894285731612393573,
  4074927648844822591865827645956205127428139213174725478521979787149216189448274,
  4074927648844822591865827645956205127428139213174725478521996381787943146225748,
  3657556555216012924971481903036862656023935845924579825477156750834008148,
  4074927648844822591865827645956205167909562189298945355628789902465034371727461,
  20608798936014184348384484311928066736223738662222771274950596731438779579164291858138070881562622310996283011369372075695905212782178906571206552304435101470262954164325,
  10776545581160703908910943062298684493256601383906505730170665106022384405910159973102829290517190937440097361750349758697278386667630,
  9672766814432214991770076134444907238461304953098526656360101234007338944298382903255978001591735540492018076912504560384409701,
  5635162680921133445386906643560150461690262649809952556425713725593054939363730881184560051191918,
  14902740053659027526501438916337584740095223825247440998049476104975500305776837591489860720899055817353182787035007459903434283308871596876065947058286,
  13376339231297237195633328531007281799401876853716180238655966460262074468142637397008594599996790759370052080638042684717458516144283709869195374,
  20608798936014184348384484311928066736223738662222771274950596731438779748201693675178829441833086081539009950920234716447921072667203812562740373960016788637741727285358,
  8682041674833602897886456778532954710532967020459816119348953457109643348913194830988575120527081193816104018091067048037,
  8682041674833602897886456778532954710532967020459816119348953457109643358408103843326853963425311653431296766502726074483,
  28499631078298144741093183481872171546917143707655943590555378459206853074001891477320779643864990575983473172908082025887173711332279234314095891857541237501453084993254821465477199560819,
  13376339231297237360053297228787173860061541858509720571832980402143904936220656641770153740140193386657030698493630362115217417820258024331739236,
  4074927648844822641954231123570487971460536651233684885663560125820545481113716,
  14902740053659027709683815143284824761549034620854036370239951764920363398266834340199106787864869339092726114293120487647181370942080285338330069139563,
  6994620593014630012598384176673682610883321624500496967666384715591495872829931040854496386357265117274636395,
  5635162680921133514653530539552970060172579093743696987767108401246926338036551879283418070253679,
  6994620593014630012598384176673682610883321624535853492435086643785596803150103431785963745728860805197135981,
  9672766814440006985202998751661576330864383826630404763489284033716512193651998008203062672724108332744991334899142641907925100,
  20608798936030785971172521231842797782641291400097093608063560767234760674389457054855272137126171763282872122965915334265371608795852388933710575348963829673991265648748,
  16603321526675541446261063798052614708351541252620754750644930557192152322851212507409704347310410331756540491887214964692504497058073795878792323029133426789,
  9672766814440006985202998751661576330864383826630404763489284033716512243899343722582744814504720780620310504514014792974598252,
  12006278750527785930527487876699920544251488940558418555806006943896273231169333216458822047709083673018613217361155943189606941450165354612,
  4539925792713460169807794504915407824288350939415256788414281981399454945613936132206,
  20608798936097192566633349934189908611850409681600814555144122650473290956651238973097968331049039677117705828190856076999813435707917851427601414477607560243215814951012,
  9672766814471175049855058099383119454528917938282631998903557472550623882406287451056347238682460463808060218740695128653430885,
  7792790738156103250167015246601523488709205840062202120973935451822827892196668398301000934823256990114156215861363,
  9672766814471175049855058099383119459586349928783944794477729482122940733116502151454322894436649346789702007063838229026570355,
  39411756799809749258415442956642331393530482568948392833354709940487685582158241015682961560338264261992915268479467131171568160926635666855374593296465870766114001049892701051288264253615076728891098660967,
  5635162680943830804847638900478605745118071304111717547826251469208896169218890095357182680694891,
  2644870996286323457742961530692583216392324281712312436,
  6994620593042802923015832561371874570508772894370970460126114373131491244043613516739427401237596520761458795,
  4074927648861235622484349007879053737656789470762533938063277651729477228626034,
  4074927648861235622484349007879053737656789470772832968817028779187432570421358,
  10776545581204109777144118489270146428092176046091147358788147808390675638657966740288646610107179290970679900002140115017660335063155,
  67650350993834650996934761729282542272573310596651493477971842319521791872716065368664466465389114056814393545823518182772621834281703069637191138714955810879287800050634971355477900782199390009049488285834790728464346302621883856846952,
  16603321526729041484948010231634277361310917829766833710530225388527762302892330769532771205085377946875715255414953292631192574203615438877499134523785609331,
  16603321526729041484948010231750338583092336053493237283206653897787305964459647974266499513418673110678663514153338653033659862671136318978390792227563765875,
  10776545581204109777144118489270146428092176046100226318055644388811634588918550929113399424804913512141588063770674086046852101898355,
  10776545581204109777144118489270146428092176046100226326204629277134144089909859970937249515322220537565830329427886547854556499607660,
  8682041674868572504250073690462176256265413942657637658169292374447724803524087735161599114426537414325572788440186028140,
  6994620593042802923015832561392247058329857182238894558531085316504946824746682102283644416189330563907649651,
  22960510200293115504405618999156121454763572490292349906245454894184279840827556998754993183280998030327924339513485972273749650123019521198221802470651726163956167529106374771,
  14902740053719052918331379817858776641227199626084084007034714125300944392053673025101522301803152730109200595324720232297527213342044091234606025408615,
  4539925792728088941837283041871437468702288272945361037741367864603252644217583566949,
  4074927648861235622484349007883801151681597786354601824602160762877603783573606,
  9672766814471175049855058099428196113220372858547378174641966544539985481537946092176159767761388611084116823336743528412807276,
  3657556555230744864505856689348827722600239281469294236356669136738386021,
  9672766814471175049855058099428196113220372858563676151732966393608202531393359677039212788527540627957210443415801082457030766,
  6278202364791693225650412670719277885595021102002033262445425190412588763274257990176848879254988783719,
  10776545581204109777144118489345477080740453476435461719755195396418985230447952149017150322245172390582794044791304297766219912249459,
  67650350993834650996934761729755434541607929549127093253225963056236136980409053560175652109139941271718286139462566041210541256901889610723221472790492991610452901471899807322011635476529375425708789134729819468827356635473208983945320,
  10776545581204109777144118489345477080740453476458159022173037092275343686639994660753127259246790911690608766470555598791563581194343,
  6994620593042802923015832561441141143204327859023953583961304149629290536662018313257478466201919992651776115,
  9672766814471175049855058099495811086085109465229932855829358465664889972100820748160929442747380234558340370690298810779893868,
  4539925792728088941837283041903172644911021256348781195328748360315095276773808341104,
  6994620593042802923015832561449290190264677914129819326323953139788283123945004334998734214789480347485536363,
  16603336427609974486966491361719038494058574609660973225510771975198325705823595649449270999209253341841082203930709530650768150426437074496995526805767848044,
  18497976354037403895623211623987521414692586675518606202220257186832157063938951793603211213481726633781597402904840970498015350290266523655354221693124761153699941,
  12006289525767677478075048469115786225362921099148118651161391225822201188422717773641995239590215075107172117022319713664245789360473178213,
  22960530806595082650171296148062045694145280135037334170660122423097844858245916939610299626685935719791206234553856300795156409388096592511232426957860814527133985090762440801,
  18497976354097008636476624961175279240384057885773952808915220004082844488859641809788373974729581615600165013665421060636712797129587818322559839587040466811224165,
  22960530806595082666772933837367772183662885567660138948289180827595355965122580772718656122922338781268215531407501322884158021696981550586916243272876413814652589247124209765,
  18497976354097008636476624961175279240384057885773952808915257669431706951863109436603992440521449585191620865463985223561385042691743580512851586557256757085864057,
  7792797731929225735084773203363186044979032656460136880450608460817938740634199510011894606000210464113627674247282,
  8682049466715133542166766843145365930943680030954116020152588293498795366205449284498371923280106480594561955410987843682,
  12006289525806364508596537818958899183737802250063592217981196661821943781562194353714994712043496989583718119879139756660357953712484253794,
  5635167738316808350025443022113176232849051581610384701015140358447519935056313052208598301343856,
  5635167738316808350025443022113176232849051581610384701015140358447519958166670728913030209142896,
  8682049466715133573554521876199584808793240639215412046488391453850529912786836103958252975433873439513592228254297227365,
  8682049466715133573554521876199584808793240639215412046488391453882265088995569087354023630347045560322159602248401420389,
  60721374249444750661401000115835166112240073771610965234572977369862499214755370154219234447910434829342576670343382868408888753994424919307162269573331785597911807273803525372001994475371528466568527578253186017752382550417080435,
  20608817431815726575409510680037041539577930161168339268238135850293040454128839047854984025839296031286215827112975932533002252404524249741061332772771403890569297330292]

def memReqsCodes14 : List Nat := [
  60721374249444750661401000115835166112240073771610965234572977369862499214755370154245984329196416282164062661725910962421983711206940697312744414022164866399942682486889085331262024902862044298922543428325855536230803455074041966,
  67650411707797390048874791041053348587640013069837035699420568963492248725149534953287302092969677736954368180180778114173673144862628209557825527796485480281174391244814558311081189656517279543912560976600141119907718998867238977470574,
  14902753428437602623051961235930373280419745029336428681449978336446968738735933550088143412102288385926684063360739035335237187556825286728610479013983,
  83970772389472411253227116975725640491233275681273200757414194826046517778740319201519598818629018618755262320768395365320548211437999658023382868047750250427304924190349026091454956331589192419243465231582022705292482134960779665203925584416014446,
  31751809476210846124033896147508157465707083434432569435081893715898565245632995629887482482279899770260484303396873067528895377853079428789463998315410076601205943525069834413953066925813071987,
  35375071959160218196939652104692608330433850139302538798457958771607182322942668027205202883297823692844448688226097047022976208429461370925759448460369228455838758410711659357550252772070938121207911,
  18497976354097008716726424883707420384645287153507312791028312997520034300078303660543090869105444795827247329993183376119054286667407710651428934836604496938205299,
  31751809476210846124033896147508157465707083434432569435081893715898565245632995629894476362120927598956969592738301943558059632778220199630185813463430878846679505234817300769106501858145534056,
  25580602897997260851020096665477204096032322209135517602929740489916976861630733693621550112565562755152489665556568485566567805908290805719338411190838141624379845795034744118640755,
  31751809476210846124033896147508157465707083434432569435081893715898565245632995629929445905709372519733111599723697521099242142341584520705325870158148671702364616728478112418478637219723346021,
  16603336427663474333573666636484860036195002974124067231147598264375605235450568399377744723895453531381794527207710656065884628542736604833417592630894395493,
  16603336427663474333573666636484860036195002974124067231147598264375605235450568399403344993703139112875160092732602796588578550542301355399179754965975302247,
  381181729325915014225519302473357277609699130929275428391759955183637579982180447556557217578092749373924020593634371599468223552577161769268415040585386264911848271967633402714786442683730590052340847282112290615104296330546265081977461407458232165516387719627858893377022582289030805012293043716764041502385440985994310119079936101,
  14902753428437602623051961235930373280419745029336428681449978336446968738735933550153795301813232376902334364502604620704278020616665260882614273900659,
  5057990344163610476186447549692783426323828513041256671850422830957935678309064416615596148,
  5635167738316808394845035452483326328668493232321420553188637404786302953344447605834313066938478,
  9672775495484306855217072417387402082107649596272931752292408626549622500957095149260488132553145540700482317049018116992467054,
  6278207999286788398460929988664343641065514873365895515243569530219551557951727715471585252868038983781,
  25580602898059080848188616968604198967437031299466882052606778315891625921207805035449544890365844939828993013833175761155885798610034396421072004029460905254688325871648031944474732,
  20608817431865531384168773587106864802266261056538376432388139801547532212511063533614000384781101128676977941380620171251424661102275554849516213711094197504674235351154,
  10776555252825012079079602985080313308501416097387761930146944986223866889523466245629391079141014310559956796082323406284341690826868,
  14902753428473617731000073659061489289698069923813699931457540848367041216589876974711513375482661282806047342520197535820134557839516728536934034833509,
  10776555252825012079079602985080313308501416097387761930146944986315779508012131537679295145687535047288310182282492904816536967839860,
  13376351236207506723740587713857753340506223722402864282457724940073469389000434216142869759930252813250564296978206795182401614769159955012452452,
  8682049466736115269575296215629489747985765725770406046465710342311385696696779046468267783189629728124085532784402038891,
  7792797731948058426419692289132052924648299027180755656940873397213812298611617403384449626121480981166313675030644,
  12006289525835379857447534640913798020761129691092874219519873172616188820133941744309450910200297938734516497154762543207147511048759214180,
  8682049466736115269575296215629489747985765725770406046465710342316674847630786288551966336376320025490652187665283940453,
  6994626870501402396186103631530809222634976579716182625212611835447255122116643033573371597760694955071963237,
  9672775495484306855217072417387402082107917424269518621240005480916793507583344353728016380115830275813161228487261513917202532,
  8682049466736115269575296215629489747985765725770406046465710342348410023839519271947736991289492146299219561659388133477,
  31751809476287579920330324657971825373358096309085667148149249216305750529339894975330757122283742964890018790978714530932852165544287348479708661049273780457116763733648204960822270833167958131,
  6994626870501402396186103631530809222634976579716182625212611835472822324549682032293870887405857498882834533,
  25580602898059080848188616968604198967437031299466882052606778316265641200343210546098994894360931674710086408204527265621317215076934226192838133754705752396038502295913191920894067,
  8682049466736115269575296215629489747985765725770406046465710342348410059445387586866454967529505094481177361129846472805,
  6278207999291845839530357972665855859625984179981254311302955595380741284027075683332062902718123278451,
  6994626870507036951970846181642702003479624486727275203274358464280828433429973343708451267438871848136015973,
  9672775495492098806686628102844713513287529462289781861203995066875319905705274288189328953129993965612422894426326596259283059,
  6994626870507036951970846181642702003479624486727275203274358464280828456378476216883678462280404517349294181,
  9672775495492098806686628102844713513287529462289781861203995066875319937440450496922312348900648878784543702993700590363476083,
  7792797731954335952634143381122314030798694087409941863466188842457707169690288264791099714448694367452886771040367,
  4539929867176646929796033895920814798195294338492113845366405313324407331117789151331,
  6278207999291845839530357972665855892451948186904827323008198655915814609808845636170314565903832711283,
  6278207999291845839530357972665855902299705273468859695023436374411782061187105253898091183822490370162,
  8682049466743109136861130750628943570336309682854856805022180514291698553839356893973801202978043708703383217880624398451,
  6278207999291845839530357972665855902299743576379948513098480934164044868051166348804063175614851252325,
  8682049466743109136861130750628943570336362651435832601238426046675863612918462367201033033578281238646415128362637721715,
  16603336427716974096145252402309578609271188830244954360804621989461268491748251641568495807464457360272723934526329527476276013677049847965899777020679225444,
  5635167738334966178921291551177849188797980974731842188876081975755335867756890362221062124273765,
  7792797731954335952634143381122314083767297006283779043334375240908474549826395409504189473147214410396651452498035,
  3657559837779119573562565436812973944447222702738344081156050782329372787,
  2946685159974586145735276041878688597451666578919539000803444,
  10776555252833693185715252609286905266357391385650896928938918455697101651122784082705784697943053602827620394137221896442713436782693,
  4074931305987770466340936904078625935128171245629934845892209145791400184447092,
  4074931305987770466340936904078625935128171245633367855629888181325121870954612,
  12006289525864395084762648964619859821727498178610017604677569248713753262264877349218003554587381904148962388504427636075150499904390234220,
  13376351236282934689325656336507243405459024766257024532907179432673313797976310809739708814829790407292521757477384953320353494188135137386823795,
  4074931306007466033548854766488995443656016747354162944570551467771047429079150,
  7792797731992001267689119952462228701339748761471398009810102142382264589983796468733832366469235667567583233179749,
  104228347437325557754886639200803681648188837298768434084846946652852650481236220167626412567155975462236538015058263874875921000083956715953145863936105560459879994716357911554520888314686260765394259787796549876535149252162467554970014666485332782919579730041,
  39411792170976639053037203220352061171403938317695495595218611273123837232610784048335210747445804940604931897290659263048315389760130295126275745920272977111779540852343999804739431199911750056447807717492,
  10776555252911823402571637727490565270042690932639394559830595464195585638403655460405024804626569685990322902484997630297457107992691,
  8682049466806054149592925081824353117865316070822001947114678718650315119476578289272570813149795208197554904728375656547,
  8682049466806054149592925081824353117865316070822001947114678718695273252540089022220602201290505793573233596206362591339,
  6278207999337362958957290072627365442278979493710194339174392601958360457790390645545459586696236761186,
  10776555252911823402571637727490565332023082725355472471262881048140168316890615240042930295664353092612542035294422991643525090705515,
  10776555252972591538620521036923086831403724805338665490495079385220340108826243640295752864433685153999187366368384675444228688642149,
  18497976354395032715241801553895644640210027427120579489753778726563350621926146871057278760226151524131668424742496169059231572448232577901551866326681182807523429,
  9672775495616770610693108984485479764515362887881634873563565351718333393318167353440746358613942564609908144665080704953024626,
  5057990344245100588386416987604918994434561325658026139284547252743184086745773471467176037,
  13376351236390689070952281595530688591983685233429010568932299764613752202308844447887770182325372014265688607883706609636424607070026169056559219,
  5057990344245100588386416987604918994434587436636504134935060772071983922574727157643411571,
  7792797732054776839735589838078773832267312656118887151267274522902219554761087938569135344220394045333187177152627,
  7792797732054776839735589838078773832267319970434326230404797821346040405308180553240990503882407949259603000492147,
  7792797732054776839735610067911143634810309392713895720367252969363221157223651440035186746727579972966466886893682,
  6994626870597190264296237782118084748041767248457871129982670476005303916683108556442428369833329774180696165,
  10776555252972591538620549012486393806526116031654283705057704805387208914607030781384688253439515823014415937581765649865727757516915,
  5057990344245100588386430117972254369668151978576279106321934582611754882104714203558772851,
  6278207999372765273416171607628393508051046257894672495473015789253211396851561055295382348160336199790,
  8682049466855011534471520003980620057265783418157206817191805470728964221617862898089169645117221570462861501857454620787,
  7792797732054776839735610067911143634810309392740156484501432924250685186233411995093283479089778088228832901529716,
  6994626870597190264296237782118084748041767248507959525526345909261040042765904670587784540512304999561166949,
  20608835928015706974485979281603476919463146650793944566495739472671618162487187827237837390668925438058763349428992602983579791175120684218547489403799583865346247098472,
  14902766803504298367679712594694569083286846991835039031103848469757497747767471640824499364715596674143848505683589873528323890949221066348482121760868,
  9672784176676654292725667762879255232916271794607581081457018059426218594845856885033427111899995763069870323855618858905370725,
  222069137484846133978683331291350051040613010309643170096314270859916159138400292104972046877696736698380836678884258655704044978175342039384610435114556345645202581169055009651755504245876836431178657730237663584135153684436449200740972383968977855959332885474105703354828104887916687520522978637381748,
  35375103707920545780087522482189826188530848569458760742829136667364506262228129707998889421596288728345492468905365527052937668425507381445035501091328659093693901655740426321655959649012101885001840,
  20608835928015706974486206655960560563701535082903009764993473059854583594137821136088809356403308376735021194921736749423904612364941966869218039202014226609831263142000,
  54502086636037133264034296472214860795625013744142611760152303104396571299262621562232100753792184465149877594348708285729064723130424082905075766896100207155083779962926800115274528304334061333516857466054936251492517937251,
  39411827542238775100144869847677471634556480761416838848714855110750804800823506045238058691273484427714453305517094598144094411122192160270394857080588605608830144050924815178238787756963652905761831452780,
  93552929131088504103014919262256619041373474568553989880364866604083550908748879239323236591096395420635695864019875342761515483177329750871383706006613972979180610618107405100279631721995628966084589437184217978795257344453911249829900463449743927083124,
  35375103707920545780087522482189826188530848569458760742829136667364506262228129707998889421596288728345492468905365527114055329376393181538655769869269202910124957452102345372067401768277919271026796,
  28499682234039898965075536726266456836018312188673243009441104130533039072151545354625069518219332143323970079558445114225103498407824201440599571266772557513282103067498469666903926571122,
  48919755496787695729005967507947909003426059268855026927411519761385364576687641424050814239315422924400668509403640106042505711687490062586602627740484816574234656511485657117539835426909111206078914390606617460670572,
  16603351328985780863012563140715269832454157002984834355570815042652672790037485103880845871031577889610156992864244573581633909789417921996106863756896174190,
  16603351328985780863012563140715269832454157002984834355570815042652672790037485103880845871031577889610156992864244573581633909789417921996106863756896174195,
  39411827542238775100144869847677471634556480761416838848714855110750804800823506045238058691273484427714453305517094598144094411122192160270394857080604473206429325808573094341814604139994373944288593772645,
  25580625856323151500994098193239509884121445769072806871697911996758888758178302858801511444288664104976851590826097478732033672025634946433212793028686866549752118240322727502020709,
  22960551413433435328758776669885532050746644654283238015296408257660709837232076181570175569681202702221007933516645973413834221358027690603110632529482553414514984346567245940,
  35375103707920545780087522482189826188530848569458760742829136667364506262228129707998889421596288728345492468905365527114055329376393181538655769869281071567696368463472272522888134698191723560829029]

def memReqsCodes15 : List Nat := [
  39411827542238775100144869847677471634556480761416838848714855110750804800823506045238058691273484427714453305517094598144094411122192160270394857080604473208803112718466687802779857005734659383124514898028,
  20608835928015706974486206655960560563701535082903009764993473059854583594137821136088809356403308376735021194921736749459510553120357460114522267536376213043832181424243,
  35375103707920545780087522482189826188530848569458760742829136667364506262228129707998889421596288728345492468905365527114055329376393181538655769869288192719627305869053122133473205328071331125723244,
  35375103707920545780087522482189826188530848569458760742829136667364506262228129707998889421596288728345492468905365527114055329376393181538655769869288192728149706680067838208760429111661623182950508,
  20608835928015706974486206655960560563701535082903009764993473059854583594137821136088809356403308376735021194921736749459510553120357460114522267536376213056244623540339,
  60721428746248602615059778111252242990735375312514213473326802716245472843364077833941530235008918218837060426395028085735088331083791714637856470175114354478597914604360973567320381159877680667068468875356258945278630848915112044,
  25580625856323151500994098193239509884121445769072806871697911996758888758178302858801511444288664104976851590826097478732033672025634946433212793028695449052526656270108978427920499,
  22960551413433435328758776669885532050746644654283238015296408257660709837232076181570175569681202702221007933516645973413834221358027690603110632529490256861542386748840542318,
  54502086636037133264034296472214860795625013744142611760152303104396571299262621562232100753792184465149877594348708285823228123459572928608485026797232620206700707902848501231523765990621065576544233564970608650504685944933,
  31751837973130659915778236373174174758490033829147124115734447405076425226752902498132045451082376572862954953277018403099558508818137836715389269543181421791919923191200374354557670393606635640,
  75370203132512756935123347157052214609785710039727420330496242750103781119618100181295466038176405927272442502717171172712535976984394532863108468630854450099245734977252583048747227273059412611129959384551163259339900028461790288693836447859,
  43909190006738726204372601235735643277718989894063637163419404657148800638255077967072264044652084282729805001116261296927513312564167752063170155011812928210835898622622035665367095719902708907830857921518174328,
  48919755496787695729005967507947909003426059268855026927411519761385364576687641424050814239315422924400668509403640106042505711687490062586602627740520925074830804686246681399213465746692246826721252780658456236916848,
  22960551413433435328758776669885532050746644654283238015296408257660709837232076181570175569681202702221007933516645973413834221358027690603110632529496419609760626188727156856,
  54502086636037133264034296472214860795625013744142611760152303104396571299262621562232100753792184465149877594348708285823228123459572928608485026797247248890100273644926289075347199650547140906050682176751376229463674388595,
  54502086636037133264034296472214860795625013744142611760152303104396571299262621562232100753792184465149877594348708285823228123459572928608485026797250906069156692911930921207286075614376226173096450069244743500032908525676,
  31751837973130659915778236373174174758490033829147124115734447405076425226752902498132045451082376572862954953277018403099558508818137836715389269543192074773809937046334530769483389825916665964,
  39411827542238775100144869847677471634556480761416838848714855110750804800823506045238058691273484427714453305517094598144094411122192160270394857080633563789368201976269624201469710996206435575862272262252,
  22960551413433435328758776669885532050746644654283238015296408257660709837232076181570175569681202702221007933516645973413834221358027690603110632529504123056787995077423005811,
  39411827542238775100144869847677471634556480761416838848714855110750804800823506045238058691273484427714453305517094598144094411122192160270394857080641497535945844421526222242052857392311789844821517336696,
  35375103707920545780087522482189826188530848569458760742829136667364506262228129707998889421596288728345492468905379145469429042108994816271847575402785372048006753198379785483483343859401763715022963,
  20608835928015706974486206655960560563701535082903009764993473059854583594137821136088809356403308376735021194921744683244067725085050742245786176746839557829005671399539,
  43909190006738726204372601235735643277718989894063637163419404657148800638255077967072264044652084282729805001116283835226514243805615307350874714166578416247468441775895434737434254495746394600331072575362302068,
  25580625856323151500994098193239509884121445769072806871697911996758888758178302858801511444288664104976851590826110609099368899161862432825668406836421302816839516859874017220755572,
  20608835928015706974486206655960560563701535082903009764993473059854583594137821136088809356403308376735021194921784352190591473182763118409969551038214896537830443647091,
  16603351328985780863012563140715269832454157002984834355570815042652672790037485103880845871031577889610156992864282924369984449207047592415804525832646623348,
  14902766803504298367679877014802165161540452847635457077538716971590533797353843333417866310596760370241193877154435931386708149257708946865340849258612,
  28499682234039898965075536726266456836018312188673243009441104130533039072151545354625069518219332143323970079558514600581218514398530790842765757456212670262836841913222823134338576744563,
  20608835928015706974486206655960560563701535082903009764993473059854583594137821136129664528462091273715280088272548635533929859945132526952637008771865037869223286997106,
  25580625856323151500994098193239509884121445769072806871697911996758888758178302858886030180599439930251653478125967615647565735228058072729812126921015450537784146686909424725065844,
  31751837973130659915778236373174174758490033829147124115734447405076425226752902498236953956296691202964390721419472178215242547888216051495556393207780291398579151443872602011557040699887386734,
  28499682234039898965075536726266456836018312188673243009441104130533039072151545354719232856568003219572530159821878032204340809441255503515428216107338777435909846465339915802679831756910,
  14902766803504298367679877014802165161540452847635457077538782718614961562364759110578996210970972278407083270377258623697964963553723327353619222954096,
  14902766803504298367679877014802165161540452847635457077538797891056195640427061792040934720686794425277118519357412034442353992037651168435074898067571,
  18497992955839006288852652745828570703575165766909439773553818607275150881853178512792095842121208333436463001335500152728305180533074690516426667868058112704905332,
  12006300301326737168493056295048191815979215499867205844440267993609741527170353361364197177503342728726752452102268901508228883829482651762,
  31751837973130659915778236373174174758490033829147124115734716791006312229797501925022534731885368345471991154014756780965571087746128746579599537119489064263746369360921993312075719701144338532,
  54502086636037133264034296472214860795625013744142611760152765505826739067380127819268477979331456146548372748527209792862155247802245180811791183754592872312932647697461506898357577226327673461357967793455364575889296916581,
  48919755496787695729005967507947909003426059268855026927411934801731548594198902641088578149532054359479453366023532457115761474431875054583193775629912317893472720972093273565122435305996588653466928517112389279481956,
  6994633148089597193553894819244339263960979328622269218715611199994075033073044299352734336052776934688489580,
  12006300301326737168493056295048191815979215499867205844440304664140482729279255315563256998586792102221437009576020082607934758610705055860,
  10776564924645580667377298058945771893650921540982599455387164543726737301972194980860222309918839831508618993423411699880970601955442,
  9672784176676654292725774481332013203027093811917113768981183708394431890126122850180432766112257075830687867078048774817054836,
  199323889775499853278658551174342785657966634555267861325025442461760647983944057609698705913042585792864274664251508928566402049468530275577737300918527772281523835595486882527618115870556070062807817104378911392452153929946323620034490402363808181618381403332269528292513752911222726378747068472,
  48919755496945326591464753893265810273731770660195778148702664994563477838543354137364913135846252119319906603459886114606955082238480856578988829957419241743960737396640998635652171470664755865395885137356853563687026,
  144136110261986899458202410460656863495644347139667356288370205709748098676754236451218443620698242373991841159319910464988109262889862115334742137191476978393480425203997340660672681058101232065000873197157374606867664522027441207674506070964664110714870679955848370671020212345,
  160583770076202748529176803923143339502859314880469077649148706623698873712956015881139882659143360207772798137692224087968832387096750061039820231950670799351917263484875885198143362039003279858402252839431396938006596694859485388643376476417035955776795770002363951046472549895766117,
  116122156837590080233305623758610737164924039769404819370851821151510553470547066456218088661789586649923924659072610386073754693431327064150001861109495770735215338652751563732960781090648928677315873036829244421856007090845294776781500666598793178746201808531619955,
  10776564924680305273135528702441052528937281220336387319813906509940657782040853357842668052779150437777787205610017148959013717934181,
  67650472423558508757896283422045474987305986928471079716278863993783422958770007638935454244399769214133864002293306358577093604806077207147316208012626761883050928208997234778083746292094890589502588934722168770130213361611042133966962,
  16603351329039280733629580505539364381893691715143631609822553781533655927771136799877558925195874339031230764402615021109686162213984243500377442303201312882,
  18497992955898611136705567216259567272809636886849938889432986581663803264577297004579614407821586795254947843505938151850197618861483983531118898469226700493422700,
  6278213633918435070275262717788868170960986668699375057699752781209884541324071140898374879286545940595,
  6994633148112135533014513497041191495685686779437998144283986970579306886103643546928570233511692270968176748,
  6278213633918435070275262717788868170960986668699375057699763434243408676344858862713553086599021527156,
  7792804725909507542957865661215555939641371869213226988524534514796493076086047120710190059066654743356366206337140,
  48919799401012329928869544145728377228145143510181359425659379337246548437492080928682967912063396475865595687008879913660247053946345752746715637752595170594370937420001826098608733499239511838907830301927631133933683,
  3282943189695800440955205178536882584324710204789200738561903820901,
  6278224902994602336245638569584720922761888918227021673337541599118652218966456705737596287752872329323,
  54502184464879305083781274329536157181193899219107512373074145517884537265652932804391056365185316937306999616942058512076474655953835041866188328176447090303243100062180549087167330024668822368630542904404376686296689934451,
  35375167204671790633779117480525300018135043848182964243106828034067826720693738693017727334303437452493831858927288336659534430886249659729715988628901066948591316638542917566897563609148057673138291,
  83970998476338965229221368345765178760862456182102962562538796239827352903008918620939318434001349341866048463675217972965070565011800970064605733989435362914893298699793518939802583261939511699864240742822532785505018743489328514163723712317489267,
  54502184464879305083781274329536157181193899219107512373074145517884537265653079928888191525129845419869885486196157424857955444887504655167996759759333867663800277572593125572294740507074812338025629604277198364919606935667,
  39411898284731298035077379545568799736161434180636938496949100292801148409973774036046419640762920374839581089957105684805374686287991231371501515011975309689046869435043692092319974943813277732392548761698,
  12006321852106344747958845247566956320969921182372499553104185199981132100514190932022510833109867988602036347603576867119057546938699284578,
  6994645703170199026385955040115057356453470122847795247018920577758077755312668851749214932242250231138549880,
  6994645703170199026385955040115057356453470122850741591025518294529725509163907484402114708967598496528269432,
  8682072842702426290300095128256582655888803218610391184472160542028507543348928177628391018120268697368569215217525129328,
  22960592626869692094980824145668233033992611198043159536206838207163235472495173328657358684558339747074467206683504750486634648172777548060419726709998491611605007268958896238,
  10776593939942344899713117584576868747208875066959636037949925695995130459850076368517679965363141666571453604660031829312583755235429,
  31751923463173919735582920418020047744591510809215619749764110744853406698118088255228405519976210659144052692609029794896146175432874239515701877305827710688187806393494151944281725013065531500,
  48919887210486197820379289379568686172723856140540102831984945124908602042409436742970122888456618595917557495414646247034485925280424015589566311407359183710993526425096687877544727986032472969537792498551733531574372,
  39411933656374416185468249489885750188588799706170463373801533304319708967737232169731068061098026649824673528585355979447228818951728911320796764419771150604471711262294152414439684316663628188304155148402,
  60721592235290550602497588228079647294588010745799642696117321079916916339994700061470018920485425274637079732396611345632031415609747304255382443765890274623788229270752097672800560988926667674432276146345335901624375576168890468,
  60721592235290550602497588228079647294588010745799642696117321079916916339994700061470018920485425274637079732396611345632031415609747304255382443765890274623788229270752097672800560988926667674432276146345335920984782459310178420,
  93553181017104213417973177279864776812378749145742669460236000351098853964280606625303337557960619295362271807863954927211007539808364411554292491150281427399610630139897295846030075457630384969542184157713910505749832805762308623447124710879612724183140,
  83971073839168964536754991670374950464925204239558203717611874166240785454497040356179035463185585735870605296293330407724723851648994366518960687704117068704847519501842351472772787498202444953306335811516630235277939547917838408854520557099417716,
  83971073839168964536754991670374950464925204239558203717611874166240785454497040356179035463185585735870605296293330407724723851648994366518960687704117068704847519501842351472772787498202444953306335811516630237190314787333700446320409407231361125,
  75370406062558310597816908596599758789892940960655844042261347302821247284381678283852104153967990413774023882960896577475804812845561636997860796494532927304299315959115736544236833907365188556721708240748354060545697659000820905013574238323,
  48919887210486197820379289379568686172723856140540102831984945124908602042409436742970122888456618595917557495414646247034485925280424015650683939443521868007565259291446582486946204152566488987941892979600813693337705,
  93553181017104213417973177279864776812378749145742669460236000351098853964280606625303337557960619295362271807863954927211007539808364411671172329699409275648895079647236585884033835825197322351818028403640415978775588591517436221963391464181088251674739,
  39411933656374416185468249489885750188588799706170463373801533304319708967737232169731068061098026649824673528585355979447228818951728911419274597513005877628553413423276149158190227008159230801465034014821,
  48919887210486197820379289379568686172723856140540102831984945124908602042409436742970122888456618595917557495414646247034485925280424015724025066755260709163892745171433182681758266987239965871634307972381802221469812,
  20608891416150803642622144437288117909071188827866722011777042948324871631590270165926986265215380945656455796289975819707672281351882666571142914610141501466650906329204,
  75370406062558310597816908596599758789892940960655844042261347302821247284381678283852104153967990413774023882960896577475804812845561637186187354865682681312786102363993044307692198185003209830265543607378421518234930660953481118897107304549,
  39411933656374416185468249489885750188588799706170463373801533304319708967737232169731068061098026649824673528585355979447228818951728911475078762547561309081021963231550691277845262538464000380989237035124,
  129373436728010211519161823847832787763663513665388839378956373042795986140316572032269585749556275611596136938826888034334122947853055723391920658302598520716199587835630442473423550127071540259304882435072826948403076576707182758144784039620310634439698607938302161256562,
  104228721609328009419524932486292570767891572061175944034625983196645835044188402412889133550346145499494539808091104934809048647090843994209034234902958859941054924958084573373627648120085718047693930544404251330530322415757408910460875322954715154865089675380,
  83971073839168964536754991670913010435961615536858163363640231422465935120813769643560037054207009604521801340818380123933262123306442988450766430612601014290042773377424677554501957181715885295849135208734821476398707923263274288415007828400668740,
  93553181017104213417973177280464235882830067409000122101391945510546367909320070525125960002536679884512993135421847116635534530721187810748860289542666141232708134333069362371824783795202157418899427875129964173473050061066389524856660864008089033310322,
  67650654568444025912849793016395755914560045068002530992076399828325002470989703239073884269150922716625686848364032543884079590216184760384866186817722071427886375404469518695114685970124355659918450190045993314385043537809995755815013,
  67650654568444025912849793016395755914560045068002530992076399828325002470989703239073884269150922716625686848364032543884079590216184760384866186817722071427886375404469518695114685970124355659918450190045993314385044920691591350845556,
  67650654568444025912849793016395755914560045068002530992076399828325002470989703239073884269150922716625686848364032543884079590216184760384866186817722071427886375404469518695114685970124355659918450190045993314385046303595529346809956,
  144136498339916912776036417890756682840950684536773690618167842683455521710760376700015932718609641334186595317190301881708058385678463618099619508462824643112166555202729903788608165086386302873585242705971145812342346294532115751150764532584176770280389367704707995971091759219,
  178908786947141513770074325342933094260149664734299958151335090343886845999298465084351352940850421454859536524537617931997674330596643687255209143619622424371442207132903336585531217459334021095326584157666141538622003246307486896978225777811290356977246656692732230800316236008515951722611,
  16603396032578202005280910418688062026076727912930095193829747629555141346823683928295107441701981744351664932245468226519332715709330145969433155026036195442,
  14902806928368244849064466066865864496636539156682716992393715918646546619032632202413318806100267966193403303923090609075303622688048560884026113523813,
  1123109640436649036389881902523762368496335385943718434531661546834880621450186132742647622496928191973395242947912881738203115231609371956420398234515208035355713482140886101408139190995132879341218841206500251370078709527883922563108188179102115457113093827037684577361677963196242023623382715186129394287675855727199486751099007600725228754862436762578617577163733906104372700441943414276211,
  12006354178445012278277072229238330644426225295400466332967367053317135549059751820367198441122840281223775469171705199486602956425271640180,
  16603425834928566261969339993606526783512803774286237837000521965822433935988297735796893828346830305796644857406705571478260441092109975428158166298601980012]

def memReqsCodes16 : List Nat := [
  9672827582365672318584740243457640141308502045502314438282366350039491343769370385171090218153811418595638771271210208062931058,
  8682096218661743450016461759192648621779948555892328992311694291094155115257146844456473153645065683341280014225863147630,
  18498075963803934815255185318956954767833016838577589009056325528386363517291794367024148976887143805692960842536711802349169761371391534829987414678243647291523172,
  14902833678237525726290839694399240636051675032928680273617483669346020821611013776197441382199779433433566853048184712182510013434685687015675148370021,
  10776613283444583918203082122119078373113497830918674543463643738975197788828729160605558694248866078344362408990008271517014321332338,
  43909387045007300572192840120747990273322797719711848746869022526905161757957898918990312831082130779626807706602804316556056262239726900547811776649278330967479141318593796687582200501215089584240010205049127013,
  35375262450297350673141009609936809252118399933676490562485394437775745547977500855367057772329227602176026407805529507292821492780437355077279385573748742462514106634116698658853628302840335426125925,
  28499810123623866537235407843477515848674472999598285165977431008263340880463922047754796199559556019141208580103372132873573096189033493921858162102881783475672118472770421422518019883107,
  39412004399025681953154476498545918429496134786908182253551727767859211423948309432974703468845260422315537133253034090429019938964598622546423025872748898875004841606991113956656654108723921075598943649893,
  67650775998331373302734462602146914057457896022151648264508214207632712199839731268834662261182431772249335581395189953298980206032204045002379773201388594794374163108404226197676096887169029350378912533603128319060531002283948814696563,
  6994664535850264813672333805265735968067597608341110156529278548214862720434000889992570714417575167171494009,
  8682096218682725102094377925193743321911352539902512781226258303503836823914157269567340628363196003560204700297481683065,
  7792441043191035160263175610428783691916398826372290472083493132118948446620252630543718488852416238245481266610277,
  6994306715295262200086863448583969737258371533896314259323562740657086941546498584113373241516488127884165226,
  39410023600980423272185688446304632205414466599910676486640338291839429044366669009163927403823588379168260455736341973495389105234935250509335854634434563370121174687812939085618959936041978537641069445215,
  424660081719123209656334629805601447379842462869543748609724474261266130446332312418670949372463322351892574105958433154898118044032835361432882037440799947466150129617372684896496656920233541219742392576819029438815534753897604237351457028690321139774290730464004738756863118689438056233914676362529373416186905098199137389752794905313381,
  10776081336230172617125875552598467531678132203970711767627133571013838668237625442494799723763593297364177680062775877590415475212409,
  5634950267411155313566632126593637950973115709589034228776304517041364974288922712563193676103781,
  5634950267411155313566632126593637950973115709589034228776304517041364974288925478336314842808424,
  4539775035878620340201762783640137760878662537738753851778164355249529381101254803557,
  6277999519680915183880473816607773331735925194910779130461016511423515863550105929112848460522999578674,
  812121816532114849658230687339502843272182307147184846983173088437408705342742321215024852450270260149936544767123513946966065420927211078442826865269185064501056338472483736003279331279311074116876546463793622675531801546531332156835628826153968172813297487242762291933703620607910633201301433442877031915013842214152030942468649104335302990077858207991773907450129728405604,
  381170439898887354206077610171055834475453591189265349584077730356269817449474202583825857037263013755964471586759520562151681579291667312241271096361514680888165973254809877677940440000644326459916130350092491362325472426977081436156489896793567494038759628979518023744810749340718666421973034524397359804800050710570301746858950771,
  7792566933367160048586973782191056833801399204546414486783740327186679166777290663282165450689584485350833480073317,
  10776236084612692622921405457367227633999910773168133090169621653601677554834331480021071795616791585985369021215634005033597052780655,
  10776236084612692622921405457367227633999910773168133090169621653601677554834331480021071795616791585990518521955933112225935824060532,
  16603023502342651971273832355601325756336123500400627801932614764500205273438131104396072331604087046436721145075245821614937820606195304313331525506976317556,
  10776352145608764193324120038122772706863077031362372038789507043587797344023843660387113636988395049374655311960457403154899242188915,
  7792650860019414633405759682811407644741052078643085236159417903766199863675021079127636517523227611578790834012270,
  14902472554233911825089248078829889415369481255386018463074282266504808583584852036179614211446638467033075115954614863916368959796529202462388740096112,
  9672593191356671675131512844420285130097402264191007761149244459792011361247424116369734698539518748934130110545342405475958899,
  13376099130279461871956543039505803200548491763293114572928289316069487279650880294175021922850312098617093126240630944856226263901553137011720307,
  14902472554233911825089248078829889415369481255386018463074282266504808620255463235343941916615742692550213783723746642230281742108073846103401511714926,
  18497627720241976673019831913363704241043151225278344241666749300506852798750032928708940468690409929481958108417376765664730750602790357408436120332409156139745395,
  14902472554233911825089248078829889415369481255386018463074282266504808648776979830876437732677812407735690998999525385314762033791777751054137611386996,
  7792650860151243286809392157577333474697243125755774835752943320055619709598157421521845563771391260679886513176664,
  25580166693617569305089908598544080228512953951336805282555926852961536499759829694048182614211083036441363704842399925279330788040534165392846819394992612798535012955094960607658068,
  10776371489319350784027024406405960017462907236848681272865882000182447981559350577980564570019502520436167447666152333180408637423699,
  12006095568209589125395806893390260533501080903031144190943572294105546748087520831463006818112881891382598515240037858827378766425387630694,
  28499196253460114622620961413845244250376199272280718653927803049577816779020788376006307039649095046028875234050560026766331854430836681928320694021988968102974700915276617008131642556532,
  48918965213847937830913250728082312119332263455549939820980643534577114706925414101773751904022088814861806682872582075020061803652835063353845369730138538761591640848469723350727107714517348224923907467219198880776296,
  83969491230291358629623952679168448126886241453786017769005643095218363983567885624642256061865223900874319957668741651586534267437166756051022560015828946470326625395854534582725443087738558730894245588698094920300318715576721431764320338995904612,
  48918965213847937830913250728082312119332263455549939820980643534577114706925414101773751904022088814861806682872582075020061803652835063353845369730138538761591640848469723350727107714517348226464597978987081864642681,
  43908480667875346312501122623293090927422255083465522156641920681742154026637729511731093376628282268624524897741503614555863148097170718342361782056147441874418048498238707913322096624502157990769491558928547954,
  75368985551085850102704173978171358110213552545692011008772585786005683435388798993855425721889023635751450444541250477139223226603040588424702866512369444427783405434870582654818764260450079312160176050640195609887482923933789047516201812068,
  129370998417528624835124510399348015022951492293153926989338138535405721818752156479580622735015948134332378751875830891591143157373108455147405625947066834038032495649813629793428175140709255613950498804664497844380425206824194830111080835019510590709863798324478512005220,
  7792678835626664201876036689043367714345065902845280456677543645665212243732144891155505477740685964803346634178649,
  7792678835626664201876036689043367714345065902845280456677543645665212243732144891167520985630845323648038658441305,
  9672627915954638017250509113980304513197340824277020750810240490190217939249491211255700340849266591997328069581349123225878617,
  7792678835626664201876036689043367714345065902845280456677543645665212243732144891177820005599751805546476143181913,
  9672627915954638017250509113980304513197340824277020750810240490190217939249491211257830954438648234406750931125421843902693465,
  8681917002917694107280514987703484490964410063150761100149931506159360943288907409001815777318168086320036369361712250969,
  10776390832700053670674999209994825021807315780416920142726698653006804088733129152364005735678987629321311279108123348461640783822937,
  5057913173374504876786332404579524655347215986204203582454838754775277441990524734798889049,
  5057913173374504876786332404579524655347215986204203582454850770283167601349369426823151705,
  6278112211373161081331054297404234618497227649579282612102833962048234579993146169895400458994127536217,
  6278112211373161081331054297404234618497227649579282612102836092661823961635555592756944531714804351065,
  5635081761414616377286174367930903372818197496821937661655952088018695438415648543580323545415769,
  6994520152037375238643903565389626639283183291128073709535122046043017453913302049743355103484951628335874137,
  5057913173374504876786332404579524655347215986204203582454861069303136507831267864307892313,
  10776390832700053670674999209994825021807315780416920142726731567664267901786665601777782859365864580218140022340461686214774804840537,
  12006106343401122195143064719845754494695792198751855734053564360313572840595345586927849217013813596802830883929901954549813913306883293273,
  8681917002917694107280514987703484490964410063150761100149958023601862487362776352654787144116037635886637515164458614856,
  8681917002917694107280514987703484490964410063150761100149958023601862487362776352654787144116019147621239450027630854220,
  6994520152037375238643903565389626639283183291128073709535098308859971844461311751079757791428267340177932377,
  7792678835626664201876036689043367714345065902845280456677567447080600951576480957618971112523725634265459756761157,
  7792678835626664201876036689043367714345065902845280456677567447080600951576480957618971112523725634265459754532953,
  9672627915954638017250509113980304513197340824277020750810270033591118219520717487808930214705386324602297763496348072139751508,
  13376147150459311051075230121156793231594518438135827495577884696597675264581361662543359946865724752415485716303855412050725142716830570486497362,
  10776390832700053670674999209994825021807315780416920142726731567664267901786665601777782859365874142097770191504182113955925735047250,
  12006106343401122195143064719845754494695792198751855734053564360313572840595345586927849217013830641623576696653377363628933119358449025106,
  12006106343401122195143064719845754494695792198751855734053564360313572840595345586927849217013809335602425379146596963141058687242643767378,
  5635081761414616377286174367930903372818197496821937661655932964231971103843325510039606714826841,
  6278112211373161081331054297404234618497227649579282612102806264253248257805220575038945042205544415321,
  4539860600527150660603541120263963277791834201771638383263846696078668876841816883272,
  4539860600527150660603541120263963277791834201771638383263828207813270811704989122636,
  3657504033631763299027648867420487452104915044437738115528545816166858841,
  4074869133917551072606291934979574116239511109988617287367735087706434597421125,
  4074869133917551072606291934979574116239511109988617287367735087706434595192921,
  5057913173374504876786332404579524655347215986204203582454830172270962207917433047281238100,
  6994520152037375238643903565389626639283183291128073709535112551134005117546834390961112002996375710493638738,
  5635081761414616377286174367930903372818197496821937661655942526111601273007045937780757645033554,
  6278112211373161081331054297404234618497227649579282612102823309073994070528695984118064248257110147154,
  6278112211373161081331054297404234618497227649579282612102802003052842753021915583630189816141304889426,
  12006106343507511552950205628040060588224612292238140177469436363843464522807379243496689499576976482409933358175882771397568102733771112543,
  2644833016624706783627365053472369907903899339227791462,
  2946640201817785324120650934454208982834629100625753201311850,
  2644833016624706783627365053472369907903905545441050734,
  2946640201817785324120650934454208982834636015042419915358314,
  2644833016624706783627365053472369907903912992914342005,
  13376147150610167117650186879190150512740403675436013692311691552627458470784436242647959809891125525524243255811007669000300996703297544010399854,
  60720447811752342519128844438785524813662686720101744752111081633040927371127467911555693186609679533768911492809082555872125108653764542573185399536970695207529221081311139788748574954179334600265326564161474714815211679637569651,
  83969491231238365913640687920957990511916269618399494466615442682373766754751787030908128179296023927555919851252695215795288338687814560403203714025593678444590719660614742293811862832763427070974012310506035185543680903539357406900806244763566191,
  83969491231238365913640687920957990511916269618399494466615442682373766754751787030908128179296023927555919851252695215795288338687814560403203714025593678444590719660614742293811862832763427070974012310506035185543692919061113783631462853271289957,
  31751325032743211826220288647331914734248142638285791102323469601047116683317335137379246394027557076815958833692651296769502558378624171946009499774941284399806991496179198253439794448784621669,
  13376147150610167146665483643430278822265838546111346775071143100758989168433620563896831213215937253833759728896825729793781245116272568681103417,
  199320669763677908285551408699806565921750584651729350679150269185514606163284105241533693474378715271826985857380053157486335373748126359800026891268626569588930346925852959524234584758648382463168038180606595921779271592951178044405648163930157578925695548836916168743382968875137727182312308837,
  7792685829525337853424704682692881792707886070822995331620029025339530449396504568709427126916360477064259422650457,
  9672627916087101877635094838206108738423885051511997337835418456446510547288358465146354246041221849945209949818057003945361480,
  6994520152133163182616025992860508946689565083908641749268277153789075434365182065470871514311383215521136724]

def memReqsCodes17 : List Nat := [
  5635081761491787203062333766690456139795118881554366773610133124880431002706184610632830218928181,
  7792678835733382699710705950957807343614204734763624676560778796362254410331461721353347617744914566470811355775030,
  7792678835733382699710705950957807343614204734763624676560778796362254410331461721353347617744914566474535087964210,
  4074869133973355234694484847667193836465381564402118578003464389645570928803955,
  6278112211464195474526256312012634205922731865393699698723201889107417467690543928181126353308281995340,
  6278112211464195474526256312012634205922731865393699698723201889116979352470206128760548337058512830547,
  13376147150653268947674446606020250663351999471169073119389285671694856257970258372443933607329242812236373181457380367789997375272409726696358003,
  10776390832856314369314951685218787142504199552340943069320730922762092062696107483107968539022784902986532428276776525369697448034413,
  5057913173455995040186903827204159643468152955096926513541304341595797881860340045844119619,
  10776390832873676629338652146846886625269148663489917004666189103211434920987737154047242845016000539961833879836752124794704374988910,
  10776390832873676629338652146846886625269148663530772144128955646138188996579711232483435538286296062654788132111207864002956617449575,
  3657507316227280099290284532337793936601916624241079188537588778534174787,
  10776400504468535517862867922722643628295678687453852149612978139775381484553025171229627547107101385992311029672284885198248056979556,
  6994526429591762635556142391990320012447699930743514120480976241190263246710189106710191232579307441144725604,
  12006117118873135969224930958035040156293917845343709541331559445023935606811487169964646445835596364636767267856993003129812853351624278098,
  22960201099918854380065505010379757155059700533519403675371569183717655685486350111951041127544027281550204487022203946212950843690746636987330263017558311636249308917056536683,
  31751353529279356567606519531401408375859116540857106330836926634781334133626426145522502829691039709932921807560846627800606697326843198551651376316708052998069298336626742557894709723731656818,
  14902539429147214841970713557984863819235991740017369378827516521384925444826762801863972874359967351889961504488919755001482684382481429557271822467187,
  13376159155649741594213004622117776073968248956565943411615993097519302309706952371509923688879695099823039719061701415417797302482478178537766995,
  22960201100029830633657352606761158344317559980993197478441019806531905426525279930161925693941825710620187847885885512606833843481896884979342476209677485445270856997656199237,
  5635086818941935455855325199623980239214876247369439330421158886842622565760863731387173181128787,
  6278117846025037594593888068803471872272164205709260793667881986219869250875117003839690283406183301204,
  28499247409087079339637435745318082312285292563939523671937130503453034417721951140546093500789156024538044993878654174265349231334323337310795069490231144799775804604024897384910580940876,
  20608521495172685182151662136985472146711964309686277111504476894942407041374506220339828805658736350089484739491504639910463678913859368652823648690181168180822908534853,
  12006117118969853654042865189601921596722994597101497414512997080787970006619439514593511456612265418989574398540291158399112748581648793683,
  8681924795002047681266877663990181945875649775142159620384430572897348301325130817639039153414193472098928880843447730246,
  8681924795002047681266877663990181945875649775142159620384430572897348301325130817639039153414210419694558464093513449542,
  35374563983383462565191118213774896559474701878750638374190280495248178920515409829572846555393728782328256304863979637624571318711375681852136085286599253854461101142412897317886189693933114402930757,
  8681924795002047681266877663990181945875649775142159620384430572897348301325130817639039153414221204528140926161737089094,
  3657507316268529351741128417706105131308193962219132712746811936569098320,
  22960221706664726772619339521025313686278452742274278099466442109427016656447340478819335161104127188640412787626515225344774701691387298439702588069459166601238895630849671283,
  75369120838551942503156408018567755654098796419100533713398703485248807501795950934593834436626286001151519065857907287280248988915268067299360690825625923293226792638609671251866671938434835264403032802576104042846820869772542162486259155058,
  43908559483677975069317788213607736289974072373976613470880341431135385506262849557289487557797242355320358877411671002979724015446236196193870023910746115199915160434890673958529230559352932764497190969769328761,
  3657510598872885305675001942428579525965739674179912016701218034522259532,
  6278129115126492202095128709715641381243678294992964469525226027601988868910237219788027781036387336275,
  4539872824055683642950752220605948652224271681578824902375296969128972047989906735172,
  10776419848022861332006172236256931002604477605487131874557235301554709037943063737302908267951265096469145140148904723605238844817475,
  5057926791754325814815148458003734664826887771707147775372245111141587539477648160264028232,
  6994538984711806480260608037038712650540156912591201646939279098191541384991801115564626428864792273241702490,
  6278129115126492202095128709715641381243678294992964483767591676771762097237483190230952926582709944403,
  6278129115126492202095128709715641381243678294992964502757411832059996808318394164060047980085509881931,
  6278129115126492202095128709715641381243678294992964502757411832059996808318412652346189343631036121163,
  6994538984711806480260608037038712650540156912591201668096065611040027164109243356930717702011460915021152343,
  6278129115126492202095128709715641381243678294992964512252318713813371877567678192195224148403474595927,
  6278129115126492202095128709715641381243678294992964512252318713813371877567678192211818770994220302412,
  7792699817335240141336106541361274228518595298200808884631354750863195326213755926176425263664731939929657088802891,
  6994538984711806480260608037038712650540156912591201678674455306884043369260681086087656614614569168909107269,
  6994538984711806480260608037038712650540156912591201678674455306924524780762456028736747237432166267345895514,
  4074880105480981006150060146806341737372675800588395925991432537211838118363239,
  3282896047652197143048496074837853011707955315660051403592244002931,
  12006138669778476677852361603320714467848307725912649075001857701642150182604132213110148510283073283883859580123884715923378408361146253395,
  3657517164019723008258683798080843185762634834887666534262179112586772595,
  7792706811378297470544419006141221343478247468451125238257329098289824396408584517854862652817062999510067124699237,
  6994551539809312056308807015068947505986563362662402787166661779586393428611668460275960194221574882498248819,
  20608595479142527218581169350127272663783661539449913685770312205379418864779929055134148311229896047506557553291168217255491428081374355218181764228992090293862390300773,
  22960283526458439284547903747008996001993342725039622236280934071759675110277696319473616243320961945279625848812330004878817651653235384266106862230916634674570647054325186660,
  6278140384278521420026718153173960522807907430009193694780077577813616234640666415690942332646457147493,
  8681955962933816067579568298118187055645310965655007468351078613171244182798101067198817571651205563143379277168575643749,
  4539880973106401135953655955503161784545158738385405251724795434664655740289115029605,
  7792713805239305773230623996422976799608789248797594142744900790177875112981841552913780845599654151585398661054517,
  22960283526809864145693781058051401450221406677338364215117777941290470210811710652854089420404334455864808178369984856038391509406192710626873215995040668581082758748120612965,
  22960283526809864145693781058051401450221406677338364215117777941290470210811710652854089420404379275391409299244273566494652657931006718232395814315284272616660094744041226356,
  18497777135025884097230224201738428089504905793417188775013948083462087128994512493668808786006159180901953710044376013216052596605632410629138727601804063701991507,
  18497777135025884097230224201738428089504905793417188775013948083462087128994512493668808786006159180913739255325004387578899181356129836636856754564334825859121236,
  43908677706992834051186521833520783779387766422764115721682600300062079458057221277168211280442437912339294807234125631659547478578947600871217844470201585498544784065945280293840674250949652735133202430092836948,
  14902592929113872272911691188820657170072257365226723671866584133735531722722749484945289057500749991544575052497044049042972065214195799551808298025049,
  129371578969325657236286229642074444251798024505637829185804429116830288654504934159445575576162797687847853711804573159651170458611831765100102777260599397898792670564202257225199625276356898070784108604142582349768270397085805380159350205619793398849089466337639650951251,
  48919184737493200330435518212987508148626187514504017383251157801677576203904831174830309768334739345332220980515665382804634846044903957567201791922117053143394014211507453463051588660815469536824029216801026823815269,
  6278140384374613236133775950133279458761025081134838127981061947493217994208385182330244140367246327923,
  16603172514549221548703791048014829031119227136788776161408771307615882981446747134459489600273815073523347525030992850802897462685649537972469634869864235108,
  54501499660569348868157726841691918664360394182331311920945827553487617954627429790898474439932007100360476651964912529477790543450395613620477515209902458326274688966093634116678479173871211401142498893998326082815187550291,
  104227318462744531018069600381148005538948060474088678847040665204148760740865481928605112744606890206863772797930280203526408736576327063367721866157576643211444226987396805073382698882703675858870823725589202396362861211654509120066098270902069412083086458963,
  60720774789836238406200941367051066886987887483265502586868797827271197014665875059197481155221528294596811363673932628041560196777264685370222970120279696115030934782982614136705432016973992225570809009897589559233328937744793683,
  160582040623853709415330274590271143041267811748151183043797315823559510325052964409151738755866250986369965632545293968436704473772707298154060752571126918404705418515781587832180719099275447266311751326364719205078254042806614238218814726913744964416543799003542006433956305921441875,
  43908717114434320418529675591643511894800627886368677111066880704789633494195516880964565809413306592612759861100078777514654807261593536753268688450780529646558161146006716151052643752828281946068279608120508499,
  31751496012829731374000165408741591194740511523372726616585827424243274501080836860225775274474603057438121712402995860252771617419860083196217187801518687630064004146279185165565110813665984622,
  18497793736529462518693845804554142992780828976880472998990536440557632686179363603360782393536161096307751045154474681475858907038539477111162567160524838859505746,
  16603172514562596723444999601268650628290297356105079619600948543635005879196703424780927088031408214145432105497362069520333252438310368261720203942260834386,
  8681963754927249128303004027675224573269823998918507941598632667909478772651121706013713870341373007990706574907438661701,
  22960304133370776215204546158483187169112160113333100990661811365495319051269185415764802135565843426973822594045300101552989870780386320519495584701393019256661274152959606853,
  39411403085569217370340728961848011437782193626277467691472217574902847328640501221461798834385189125087525378595186189548056777861441116604010059133305270988965077940148504502892704165719595008898350645358,
  3282904886803223649962133781415662809369720072263881241784811323474,
  3282904886803223649962133781415662809369720072263881244267294621764,
  3282904886803223649962133781415662809369720072263881261644722274388,
  25580350358658587626334286722899639028583188563034098380980157205276702001206910842212091992438954997562445816168135540557544378753803897087068259053699820995588417249115694026915944,
  28499375298808795568921895028201301538328580384614379982231297061482630632375463345810994797439210185815118368173495887314460244944662586470532018978155032903431299476376209936957064675436,
  54501499660701062014951675810288444632855552644936818202212530603974559617630996331385175229379236919053660077691627509744884667778957355871272498458332189505252999978390985997799299730599556051350586101241107495644652961906,
  28499375298808795568921895028201301538328580384614379982231297061482630632375463345823549906213923090872504095001337151985845176909660154591949304334487216172116990274570240395050327539820,
  6994570372495012480299489321375248259112679635373697779622563739611325446545286021155852267556866782981718132,
  54501646404513127695201439558019797504301678659012801176048102577970343661895007805264711433712248530951192200642071278701211290364220050414189523730231268066315488869927881964411553080259210873794100351849423384544233455732,
  54501646404513127695201439558019797504301678659012801176048102577970343661895007805264711433712248530951192200642071278701211290364220050414189523730231268066315509494550140490515029480169371326871930718016381709774316699764,
  16603217218181767602939402984621741431063645625376426467237508658415201132013536534160401826151017550914174007728666100351762188966233139857808199113561145445,
  22960365953404936886443756955596071374824089084624594714349792470223483008702345546813558849937915561303081038845945146159863166410296064606912618531479604343415318520847466597,
  22960365953404936886443756955596071374824089084624594714349792470223483140530987681374923700173669468540290939221288615767814213467851737335795317125573124225197625512067137650,
  31751581502949724737563319938305362368285464702808858664975259233122849874261371073860593982752225750878433570908638415431229596200315816758140272084291417724787487594932257415999904142004781170,
  93552173472890652053926807799130249637524668434697721224627525973031758742462071721093291209094629898420200357708601202799963531169699940611127573714700925387888382921663268871642928427448667588925798513482518297872202212165969470242553046375446223323250,
  116121218879841602922006220815858284077432964237558094824289584918477412731020401838563112422230996889869244592014397718876378921949929444735743267825867745889993931833445045551438586622427052707818116675580828204396898822849239053110299829540194026065908655487647858,
  6994576650105745556438211420946887587065419799712290290447798638500863326675706463758146212230805815743873140,
  35374817971727787466021845435017487652934510312943143171764000722004765030198569453166422452327564557410510085737103518433087495307904239130232394525246275156916553005115205541316459593934347136467060,
  5057958567946744620624997995638683781944745262256653834393221059228422804700424375698915438]

def memReqsCodes18 : List Nat := [
  2373959488697429446785320581104645201397281587302,
  2373959488697429446785320581104645207603494846574,
  2373959488697429446785320581104645215050968137845,
  7792748774688730857264374429157805832608111572312294671290859196538130363365372230521095064177531161409437808984148,
  6994582927648863720401875600619871145362574976688287463332924450747806032151237174148941119441451826358911043,
  4539901345641765498735688033016113673509301361090028329870607336532719749595258814533,
  5635132336106756960194792831010342399466111689432398032078742183978703038378030557370787433349200,
  5635132336106756960194792831010342399466111689432398032078742183978703038378033323136461124534347,
  6994582927648863720401875600619871145362574976688287463332924450754197821285235188238431012836357566610866256,
  6994582927648863720401875600619871145362574976688287463332924450754197821285235188238431015602123240302051403,
  6994582927648863720401875600619871145362574976688287463332924450754197821285235188238431026665203312467705924,
  4539901345641765498735688033016113673509301361090028329870607336536868413000719335493,
  12006214097850451104282027329356332597024950558155408843609483564676516296585139680290893794910588440871781474530480403851343149317353111621,
  8681994922866011312848526724017861426252166938707781384924634096377393392347832844718000049537088550389390196555292803141,
  6994582927648863720401875600619871145362574976688287463332924450762720233570487608863921808410334777107218501,
  6994582927648863720401875600619871145362574976688287463332924450762720237395253536257953714771701258703011918,
  7792748774688730857264374429157805881502189132428141322348771125700024367039550026691708800642002539534388338360389,
  5635132336106756960194792831010342399466111689432398032078742183995868056252634859837887255543877,
  8681994922866011312848526724017861426252166938707781384924634096398550169365812799543567139573827984374382494366815420485,
  5635132336106756960194792831010342399466111689432398032078742183995868056252655603133813437300812,
  5635132336106756960194792831010342399466111689432398032078742183995868056252656986035268977819715,
  6278168557244571210436541030542594591353988626536907836315311612099829307516121917504276556704625393748,
  5635132336106756960194792831010342399466111689432398032078742184002734041832825180796706625617997,
  5635132336106756960194792831010342399466111689432398032078742184002734047995585845044981597077573,
  8681994922866011312848526724017861426252166938707781384924634096411773135715531520462008902859613212851409936867528867916,
  10776487550489045180629979148735793705682149153905001331652009461099117157404662653029091588040626683552927585557845811939219625345093,
  9672714727504097595780297805548987629324654212417603734321153942427406172352385568531110077893657851460459168092665196065849413,
  6994582927648863720401875600619871145362574976688287463332924450794679213663292066609040859284629753636913220,
  6278168557244571210436541030542594591353988626568643033887557914299104991878146253342253536227869589573,
  4539901345641765498735688033016113673509301361112976848192280162610045797868424593483,
  5635132336106756960194792831010342493750336415184459124163205639572766839962859382953010523340900,
  31751609999792805054425156470843670927805759760857665972080553696553911583432644460340614649188957441127632595032906042328705386954417775337872733656004460677476553581791111441680415745146945644,
  31751638496303372223389925807370440845376332699390494514898746316039233732317860832680620168742666415012124291835539566903237088220031496999992466489760401021528841942843857185902015921914839150,
  14902673178793745012731368945762870014880119571381544075897007868690888086380024453337452434624370106692985458051292560058263263675894694039258268631150,
  9672732089709576971534580504295781039894217023574218378716573921538422487560846945754560656339142450215431996988848988346056799,
  5635142451061526923946698631130818126281845383030724547110044947955648917880610519754244019781700,
  4074913020125314286870907430529398490679256321306805167665377440727326682054724,
  4074913020125314286870907430529398490679256321308521674074904013063046514933828,
  4074913020125314286870907430529398490679256321318820661689313896225031102726212,
  4539909494677854150774320419241969211247647618672452945832979319157610338367705514052,
  4539909494677854150774320419241969211247647618674365317639385443502211803065452134468,
  4539909494677854150774326311982874333796880631749950704816455035229473796590780350531,
  5057967646934533443627486236095864089775110274423637687611880102824101109320626332020965451,
  5635142451061526923946705945469235332787527658070536446380092168934148784708185556322332137619525,
  5057967646934533443627486236148898972133586162077609262172766678438541795620089860411424852,
  3657543424830999295287110021033718391035238966885772246184554990784806983,
  4074913020125314286870912719753918064073054068226249904229788030092752524017746,
  3282922565084120173992480128599026301696103502966036625716092731474,
  3657543424830999295287110021033718391035257848405434304141144017185472596,
  4074913020125314286870912719753918064073073192002675224995987372164552390410324,
  3657543424830999295287110021033718391035257848405434315204224089364496461,
  4539909494677854150774326312030477162200579720088484519152236819717770561079212900420,
  3657543424830999295287110021033718391035257848405434322118674269684957266,
  2373963749932257587439691125428886412527379873867,
  3282922565084120173992480128599026301696112747114638853731173662802,
  3657543424830999295287110021033718391035259564913384523991020741174493253,
  4539909494677854150774326312030477162200583981294627142787830008762410692577245200460,
  4539909494677854150774326312030477162200590373089498261370700239652057865050960035909,
  4539909494677854150774326312030477162200592503670577274241787274702250578102405627980,
  6278179826437059884292112454384450026727643960639243938575803798037961200217091994000485606194045255749,
  3282922565084120173992480128599026301696121991257709530538942332997,
  2644861501364527365257610875646399766709857774025769035,
  2644861501364527365257610875646399777772937846223732820,
  2946671937008236311961887367888161749214173009932974474592331,
  2946671937008236311961887367888161750754863521713269935112267,
  5635142451061526923946713259866739288058946297835115311041556772646849291161468130532573381328971,
  4539909494677854150774332204771382244396428124698062095065967584594801272921048154189,
  8682010506880852482842248661398816804656599147303479784399788716844297053150777510199777990893849202533464924120043880519,
  4539909494677854150774349883009965176411278650973875120828360551638924009531245920323,
  4539909494677854150774349883009965176411278650983437012474020657924463892478508662850,
  5635142451061526923946735202901686451212955298488372599606788342094638981684166212581523757400130,
  5635142451061526923946735202901686451212955298488372599606788342094638981684166212581523764084802,
  5057967646934533443627512496859998322621922480404458976841456103241540331388734896134881346,
  5057967646934533443627512496859998322621922480404458976841456103241540331388734896141566018,
  6278179826437059884292145050375203695533768053509477773693118173387742425162111328120755469038292631618,
  5057967646934533443627512496859998322621922480404458976841456103241540331388736137380429890,
  5057967646934533443627512496859998322621922480404458976841456103241540331388736137387114562,
  5635142451061526923946735202901686451212955298488372599606788342094638981684168978349679940796482,
  6278179826437059884292145050375203695533768053509477773693118173387742425162115950186759258717371957314,
  6278179826437059884292145050375203695533768053509477773693118173387742425162115950186759258717374185538,
  5635142451061526923946735202901686451212955298488372599606788342094638981684173127011844168024130,
  5057967646934533443627512496859998322621922480404458976841456103241540331388743584860405826,
  5635142451061526923946735202901686451212955298488372599606788342094638981684204933418873696485451,
  6278179826437059884292145050375203695533768053509477773693118173387742425162162170933919087023157018708,
  3657543424830999295287133758321163437195472538000441469294867055327379523,
  3657543424830999295287133758321163441020240181888557407174904945381736537,
  2946671937008236311961904579265316609064911656376676461183043,
  6278179826437059884292153199480778949882218668540013483918273130647517349171023033730513918951716421721,
  2644861501364527365257626324162486917358211636007272520,
  3657543424830999295287133758321163467793498683420900011797840102303858763,
  3657543424830999295287133758321163469705853324835341481116889351531003973,
  6278179826437059884292157273907393850372060068330963243379284828637559186960765648404977521322578083915,
  10776506894078095226515892269688942976469477532915095860454461450344602460476679449051006657660425005754535695788660075310554004389956,
  9672732089842040321364362173362231962737568155549079320978915450461535698813655583146942748095727389431134942965844000072990789,
  8682010506880852482842265565187550230800465442925917072052823639330278911647711884574389960879810458401969419617517502540,
  8682010506880852482842265565187550230800465442925917072052823639330278911647711884574389967745796038571547082510705819725,
  13376291211128163014611386634223661209079392724816281976688141680065087898883988062456968498692056779598053165281710190527437186478009666174517324,
  10776506894078095226515892269688942976469477532915095860454461450344602460476679449051006698141817383811414066398492694736995173597252,
  8682010506880852482842265565187550230800465442925917072052861942288970494035845266356186623277469628906873589638195511365,
  7792762762523743109168795924635539542523970160025129495107190248636555834634081013718716451557357940323622176423986]

def memReqsCodes19 : List Nat := [
  7792762762523743109168795924635539542523970160025129495107190248636555834634081013718716451557373152069582310408270,
  6278179826437059884292157273940308478292572398309469280768723070961125261028230067605407386606843854919,
  8682010506880852482842265565202722576706059962418987305960337828061557080242006947756981461594938118085443198059031101513,
  10776506894078095226515892269707775583285766514701711923747712288099820974263756938140073604703051658272329358877048828038344270348371,
  9672732089842040321364362173379135655379141876850542785418083898297317481782582844579426130140469995616349227636224237446955076,
  3657543424830999295287136132020718735862682083246243043983532277202288720,
  5057967646934533443627522344681905213798693086634120415088509805820170010676093737882550355,
  3657543424830999295287136132020718735862682083246243050897979975031652434,
  2373963749932257587439708073034196164464131965004,
  2644861501364527365257628040664274377926755194255245380,
  2373963749932257587439708073034196183082811850820,
  2946671937008236311961906491640556055740735848749014874193988,
  5635142451061526923946753488842924761034710742437940477148451597588252229759261290754330508263492,
  4539909494677854150774364614938921344278559725517262433604212877798093113119780962380,
  3657543424830999295287140879479486121662785835291235177737993329609146457,
  4074913020125314286870947099518649241977969652527988606340050584820804815487052,
  5635142451061526923946753488842924761034710742437940498454472748871428957462955993741621328085061,
  4539909494677854150774364614938921344278559725517262445619730012089459563236124852292,
  3282922565084120173992507826394012560373450636283636816140373524567,
  4074913020125314286870947099525770410953689556324082069036828362617494319267908,
  3657543424830999295287140879485877910796840493890409203941160358704447555,
  3657543424830999295287140879485877910796840493896571952159404763546517577,
  4074913020125314286870947099525770410953689556346396590733134922007598157332564,
  3282922565084120173992507826399749675792775316946159425547135746115,
  4539909494677854150774367561272349523814747536298831573295682307034936929078056517704,
  4074913020125314286870949744076313264568326646063260761301995194206728879472719,
  4074913020125314286870949744076313264568326646063260761301999342860204396773445,
  4539909494677854150774367561272349523814747536298831573295702336037864902675108528210,
  10776506894078095226515913251309633081256907021140034136080625313453427037573830342026454869094417842971458054661033872588451662135371,
  3282922565084120173992509956961704927687006830175981461555484164178,
  6278179826437059884292169497406669406833296634754627515903434426785569877496077332135241646438677545027,
  3282922565084120173992509956965529673016373249840491359488195231826,
  3657543424830999295287143253174780195063617634126289510884973901790838849,
  3282922565084120173992509956965529673016373249840491361970678530116,
  3657543424830999295287143253174780195063617634126289516416537521537417285,
  3282922565084120173992509956965529673016373249840491379348106182740,
  4074913020125314286870949744083434495331416094642711978446965747397252076863572,
  4074913020125314286870949744083434495331418007019667893015042654529022847352901,
  4539909494677854150774367561280283372462676778636696237339289314929427669677518684239,
  2946671937008236311961912228723361827971391851325516371853379,
  5635142451061526923946757146008850768770785997010953481331698300688928342584920240964052804829253,
  5635142451061526923946757146008850768770785997010953481331698300688928342584920240964052809285701,
  8682010506880852482842282468935823846942649617763062319160991175282462707566509503196688970103836192664794705101382156363,
  3657543424830999295287143253206739247826655442698920931663992683668308036,
  5057967646934533443627532192474348366070100457756493927904443532476725141431589826544271429,
  4539909494677854150774367561317307744706196461971452678634402487014750313016059953227,
  4074913020125314286870949744116666676874675609452576278616364459832450762997829,
  3282922565084120173992509956994215346236893379858234371363510222934,
  5635142451061526923946757146021981206819104984186837370412645181499116620741935209382659837722693,
  3657543424830999295287143253206739247826677757220617213331453245719380035,
  3657543424830999295287143253206739247826677757220617232691861370099531844,
  3657543424830999295287143253206739247826684623210819473804867632148250713,
  4539909494677854150774367561317307744706207114980115942408586240468773646894936948805,
  6278179826437059884292169497468841526291661424060743536970375610573052665034060200461719909584215539795,
  3282922565084120173992509956994215346236907246076989059910637715525,
  4074913020125314286870960322468382857143677200292266615091435374677698087813188,
  2946671937008236311961919878222603040474815485299748400070724,
  2946671937008236311961919878238051542695765356490350789197908,
  3282922565084120173992518479393113965115517489314186749021342990404,
  3657543424830999295287152748117882174834043066765962174635367491427434564,
  5057967646934533443627548605395951043168054796979070231204285497003237519351740096291536965,
  5635142451061526923946775431854893808606047865971945893427497609243547921904622864417785889620037,
  6278179826437059884292189869934719450893701200053736583218298347037399933741628729208235389094227673176,
  5635142451061526923946801032114853713529952752911363581968132951522544075528425591458010550698060,
  6278179826437059884292218391491543900488282721451585103033680538886684625075125292575359029850909245524,
  6994595482791445661808572016581426958060801639361868382311059892540121981011697989969421825749336611307651154,
  2946671937008236311961944739155643750390447943701584965009516,
  3282922565084120173992548307847586700439769831333487584148607336546,
  2644861501364527365257664087240328362444491702989553776,
  2644861501364527365257674386227942757115902762461167719,
  39411615314062736930742775115530520538514527374939581284335820463199700749735550606990753299964912258388214537897191009118883430865786244057852110823380080100120483295481538501589376415051442675842257584243,
  5635142451061526923946874175856828742950604200568431508588417814937882876948458249996133455429733,
  7792762762523743109168972936035334510495911616742915256895924469961181315139275097809620845526152309633914734772339,
  5635142451061526923946874175856828742950604200568431508588417814937882876948458250009787162034291,
  8682010506880852482842462775712198602157621083152682802690832203077391639746151874275682148080146081125316469569374453861,
  12006235648775134829004346488151828693092001962802228129931637209925364537291200434908279457693695718327240046889927083070314052496607019123,
  6994595482791445661808662805925557314251988684030793364487524117827634310796275420751583594439966201820610661,
  6278179826437059884292299881812203184466183547103696364896459348636074569519290179764463836993861386355,
  5635142451061526923946874175856828742950604200568431508588417814937882880029839273556724376469605,
  7792762762523743109168972936035334510495911616742915256895924469961181319400475503316120632276033917161005369917555,
  4539909494677854150774461845510298256467947427473768556906588574512010009671330234486,
  16603261921841062818158740430309711036385388802619395129663892991214536861003451926168380869952438573964762283799318829270234574439515353494945485660093743219,
  5635142451061526923946874175856828742950604200568431508588417814937882884651899745795196151332979,
  5635142451061526923946874175856828742950604200568431508588417814937882884651910808917470690148453,
  4539909494677854150774461845510298256467947427473768556906588574512010013395066880110,
  4539909494677854150774461845510298256467947427473768556906588574512010013395071336548,
  4539909494677854150774461845510298256467947427473768556906588574512010015877568004207,
  5057967646934533443627637235625169411110017844317655234472313209926724508340936527854174309,
  5635142451061526923946874175856828742950604200568431508588417814937882895436744391359678981668965,
  7792762762523743109168972936035334510495911616742915256895924469961181340706477530848619566025441954796458545643635,
  5635142451061526923946874175856828742950604200568431508588417814937882896977423840047489807679595,
  6278179826437059884292299881812203184466183547103696364896459348636074591833798009853651463589791268965,
  5057967646934533443627637235625169411110017844317655234472313209926724515255355677051519094,
  10776506894078095226516137056374788794207406403307951202331217337148657037903475519386864533963280698170945799586471620464492047040615,
  5057967646934533443627637235625169411110017844317655234472313209926724516638248443882111077,
  4539909494677854150774461845510298256467947427473768556906588574512010030772509016164,
  7792762762523743109168972936035334510495911616979262095801098423937456841638223231809426868577738823226704545775724,
  6994595482791445661808662805925557314251988684242932573925331047450756155250300895968652053187817607733248101,
  7792762762523743109168972936035334510495911616979262095801098423937456841638223231809426885525324772606513048649843,
  6994595482791445661808662805925557314251988684242932573925331047450756155250300895968652071165331724079595621]

def memReqsCodes20 : List Nat := [
  7792762762523743109168972936035334510495911616979262095801098423937456841638223231816292875727581097371147693523052,
  6994595482791445661808662805925557314251988684242932573925331047450756155250300895974814815234938789575327845,
  6994595482791445661808662805925557314251988684242932573925331047450756155250300895974814819383591023840395379,
  6278179826437059884292299881812203184466183547294107391290400828149015678181637838902026747339798020199,
  7792762762523743109168972936035334510495911616979262095801098423937456841638223231816292901919315648986418767331429,
  6278179826437059884292299881812203184466183547294107391290400828149015678181637838902026756028525772900,
  8682010506880852482842462775712198602157621083415999652077153367289807916751244161260612690278043116808517316120639766648,
  14902686553812419952535059698054937865389051029728369915487359943725864954368964240822968902727475684380146003225728471459898505834224014095812646600814,
  6994595482791445661808662805929631876182533956086043436144300209737940472167033368967583925629698127360819300,
  14902686553812419952535059698054937865389051029728369915487359943725864954368975212297768716068910629355082150169083387814684723364941240878065856544883,
  4539909494677854150774461845512942890091242116827673998779107509461154740280851038308,
  18497893346266190178464470618303988360572669077366798567068055014448384216446588706257577342432702415210026897218516379721051906400567150562746396141043965279010931,
  12006246424111744382572158220846887252849184654500917843394382764526426318393294173559808220262900682479648677008259032761773812980041842764,
  22960448379981513609831005631002822944111024171979173213045819118664288575542469548663815281189940845558322501824053392870879139221874474146156167554014925371694105732313776229,
  7792769756378474167369800667019577843922053384207202414858912526197689788115027901460290405335722084766338195259481,
  5635147508493517677879035124582315783854306694709802715270669224330121621514240538512080829743180,
  4539913569184927253112493740155539361684364369227084536159090197167332790729784492153,
  9672740771034388192494863609115145327381296108033377532791860393472131517263199749730219769403591309008717413626622275109585006,
  12006246424266492678280723644398592160343675350661581980751278101873583561922271378983819363964175578153176071390103081631337775242115154031,
  7792769756460082340597912715196204522712665429578392767054029126068405985277287692448644378912777206577711438233716,
  13376303216232390690784693580908204308944812832293180212472185013610876569377951606021859602023203091036359388018898927470348213073574108083847278,
  16603276823123245227963566069633359703166228649843158750260283757561688593522212414075688895368244252954631488307384036745885254466440061380222216084478885999,
  13376303216232390690784693580908204308944812832293180212472185013610876569377951606021859602023203091049143010271528895539733939262589732920361059,
  10776516565898664297916837485278492790979430569526900718156332934483831440109823703151856547491595215960145687294550275947823088140404,
  3282931404171676627578396548895136073126759378813709743813542674548,
  2946679870759561541010595477739344045416223305030113443512432,
  2946679870759561541010595477739344045416223305030113454653552,
  2644868622516458231905314732354945511352651765651669063,
  1540848160973567369805909,
  2946679870769056313664507393718392575261254409004210511413317,
  4539921718147872261654159616465586904012137686938124974136120057570076107527158628463,
  5057981265249162261176039078619707956802770742670008291184756438086355637121202928141336687,
  3657553272576300335195765982412281094908593195862846531302722506483499111,
  5635157623389274665123359249959160071169448517657568277308439014236491571604588516201747922944110,
  3657553272576300335195765982412281094908593195862846531302726230215688307,
  10776535909262005057005021168933648740241562296589725172543155141515574757511675951521820622722140100230609582447748990379883692884069,
  10776535909262005057005021168544440238630112755089842615461940286910038994216384346527106329831177671075006396882616913899109911691380,
  5635157623389274934040873602652398867010294292323434737948941038520528743803441392380805836505204,
  12006267974939711004113391555412091467608083058406787340736378348056917305371200310715071227782547935809954880017358297340149580726665543763,
  13376327226096031306214778892583276049159776632367702657762487954110388252921718720571389435727270045865361655516132035008980315278853998974926917,
  8682033882742255481724533462240576019105141815630726048717920848374900269265846583960573030883889750517343698847681151045,
  8682033882742255481724533462240576019105141815630726048717920848374900269265846583960573030883889750517343707536418930771,
  10776535909262005080380959504441287292128693576953472667681865331364276935686179047272690023788046386560185611359427812300377363644495,
  10776535909262005080380959504441287292128693576953472667681865331364276935686179047272690023788046386560185611359433343835448475975749,
  10776535909262005080380959504441287292128693576953472667681865331364276935686179047272690023788046386561902085414463317439680408584261,
  16603306625259610290303960062804201332839904056343762110943486060265941166526632564006908137261541939675638431637159232033538256080118766948591770542497726535,
  8682033882742255481724533462240576019105141815630726048717920848374900269265846583960573030883889750524258149028013867088,
  10776535909262005080380959504441287292128693576953472667681865331393820324800943128308733544668986665977644956710201635172311180050500,
  18497943150881234939751125553490914355332931188021261492947600970358007474697066735340918525939414895241305548180395749869467966763194291202923470488176032166903923,
  22960489593251306219787524628484245603105348304222856323748609353900851671993212800136013686578480934554198600397885943613733982802417458133822033907541478060858714357853519979,
  18497943150881234939751125553490914355332931188021261492947600970358007474697066735340918525939414895241305548180395749869467966763194291202923491231474440858697843,
  18497943150881234939751125553490914355332931188021261492947600970358007474697066735340918525939414895241305548180395749869467966763194291202923498145907243755962483,
  20608780439714594421196005992650869574248682631748743684430837612287500423649698414644141420771413407767081406894357069678572695386475918167537476080282451244469594095732,
  20608780439714594421196005992650869574248682631748743684430837612287500423649698414644141420771413407767081406894357069678572695386475918167537476080301811671212660818035,
  20608780439714594421196005992650869574248682631748743684430837612287500423649698414644141420771413407767081406894357069678572695386475918167537488405812077033075596066932,
  20608780439714594421196005992650869574248682631748743684430837612287500423649698414644141420771413407767081406894357069678572695386475918167537503812707514645001081651318,
  20608780439714594421196005992650869574248682631748743684430837612287500423649698414644141420771413407767081406894357069678572695386475918167537503812707514646242339455076,
  20608780439714594421196005992650869574248682631748743684430837612287500423649698414644141420771413407767081406894357069678572695386475918169253990193283708657947289780343,
  25580556981716399275139918638889839837366905809914334904564210664493185657987702299185134480381324550958047311086489504411384395047966919127041744416453313333367562544742161414094963,
  18497943150881234939751125553490914355332931188021261492947600970358007474697066735340918525939414895241305548180395749869467966763194291210626943790382124368986224,
  18497943150881234939751125553490914355332931188021261492947600970358007474697066735340918525939414895241305548180395749869467966763194291210626947939016981216428151,
  22960489593251306219787524628484245603105348304222856323748609353900851671993212800136013686578480934554198600397885943613733982802417458145296297359641603882259233467968716907,
  18497943150881234939751125553490914355332931188021261492947600970358007474697066735340918525939414895241305548180395749869467966763194291218330397732152784826728549,
  18497943150881234939751125553490914355332931188021261492947600970358007474697066735340918525939414895241305548180395749869467966763194291221411778755713375747768421,
  9672766814299751271263438772136628339369837579854676789062601002267807122692586752116838343594803464487591566672995843687383141,
  9672766814315335272117131574110952809203200386139223955163776724252345603638889219841728820004089858200260645674162456091820101,
  5057985804706386460110695104383387693173640659025430870108191871650340275828856702978293830,
  9672766814315335272117131574110952809203200386265533751223714178130838933154477686486712274510896217699415134337610140213379172,
  5057985804718609981329312773641526210522959799723845122209131053827962317844974223302262886,
  6994620592947015009388792338476484473334315263534670598200840491099924459010601390306237884311816119365140581,
  14902740053514967170136297130526151761507506013196235413890225506745123975594261279209590735527322820950032441984708981823974729951691020679517092249715,
  22960510199978682528571872543048928659033118985439435623393717262919340762162583823703231336706328885940515769331042967920935258999844418063511559972426512368652643080961392755,
  20608798935814965217654843088530532530870432223546138649788995417803004331846908807826312538352571528032147701709915935108242110562624079495964888935034438774098828525684,
  48919667687392643569380264173508615323977118521840875924026788007295669914712951799342491082215897128028584880558775751069359524603465738782363888649776588503765521279886920540589077821784135772354210473237810444435571,
  12006278750411724752151782046790839585384823443401664455664472177779771604964385043344123576447409879163394801687452115640329626810382680148,
  7792790738055662312354662819095979645309177382481468255707344011920981646653892136515784620882095348307320915230804,
  5635162680871199440370233052595063689779868660481132437062941942008118248516014173574580203683924,
  5635162680871199440370233052595063689779868660481132437062941942028716242233113166860323136929867,
  6994620592952649565173575743817479432327429722087177726804502927087858572801129987147133896094447431749664843,
  6994620592952649565173575743817479432327429722087177726804502927087858576625895914498026476423280038918684747,
  9672766814346503273824517177772237168449842752726251526433437582386640929143535735814627539126491411011741950924201754275086405,
  4074927648808714097162407153370370158896017264897275765470260348707817966075987,
  4539925792669574080217803758455769850336597983078580197506261661061081348155279343685,
  4539925792669574080217803758455769850336597983078580197506261661084590429615095545925,
  4074927648828409620174665088157628500422002574320702517130757445606093890519111,
  4074927648828409620174665088157628500422002574320702517130757445608576369360974,
  4539925792691517098752036470697471803862158132081586522765582439254308224996672929867,
  6278202364741118515352204591591300262448370812395700063843344031328216544693805503052179682157124649042,
  4074927648828409620174665088157628500422002574320702517130757445627195055931475,
  4539925792691517098752036470697471803862158132081586522765582439265371317481310781507,
  5057985804747131497924828856441701706344476720849680524051408582577902764114163072876347467,
  9672766814393255073562571714760650444714024154886302810073762505715977849687370623007264196833990264420379228282618668341264468,
  9672766814393255073562571714760650444714024154886302810073762505715977849687370623007264198746380952367735306302904721191469140,
  6994620592986457031376075361946966717996879302539798205396166840373387947350144442531362216053282167976296526,
  8682041674798633417073482481797746047716947806761171955848031890614209208488348229807473782938110866956221964915214516313,
  20608798935931176338752325363197197316274432642063607535431903857807643340093018470471031426900770084911324574090553749691397894384899266202515003764728951889725599580238,
  20608798935931176338752325363197197316274432642063607535431903857807643340093018470471031426900770084911324574090553749691397894384903090954710357305243871067125256421445,
  6278202364741118515352204591591300262448370812395700078085656415489096208459855489142768682482806620246,
  6994620592986457031376075361946966717996879302539798205396166840373387954999626518719828302378287131767668825,
  6278202364741118515352204591591300262448370812395700078085656415489096208459855489142768682482813304912]

def memReqsCodes21 : List Nat := [
  9672766814393255073562571714760650444714024154886302810073762505715977860265736581561704790045209214346414421975856997849170009,
  4539925792691517098752036470697471803862158132085411264661909848104847037493723463757,
  18497959752638133633559575126376160849424862708669298724824134040708696771762972056189810579806258822419588158050042660286131131357739500526680582221291337050554437,
  35375040210941327051403849225328807834040876163508399731798494174375789576477685032061832518310411231469014164280885688629722182349312873227262270308835857006796911656442616631399817918379101140090949,
  14902740053599002350179400480619944981238806939813803666158587379133484100532183101534317021833652209435839837992305952985271533016010634558923154456644,
  18497959752638133633559575126376160849424862708669298724824134040708696771762972056189810579806308061420106592482087894264680046000728003039204557705598681452642371,
  13376339231243360048342895939205344688181086766692939009864885558304267524748125055231715502421347413398150130321105836177477197867130967112810565,
  18497959752638133633559575126376160849424862708669298724824134040708696771762972056189810579806308061420106592482095015448569929076372732698750985283532508213346372,
  25580579940062896486025823659997269212482462803262172503720869458340560395739527101622655739701317085591662799570797101374485023828009540917922355791661928159006777995487612197208146,
  10776545581117298196516943898275417788261230879257767465965291870532573098242770325559829073656262892255016665674599302631713938669636,
  18497959752638133633559575126376160849424862708669298724824134040708696771762972056189810579806308061420106592482123500199043620725871292539276839643348335509438533,
  12006278750469755328317885400395422262915296457351629827041523256462786079629449332950112288909326363416021127428060718944135883518250385488,
  13376339231243360048342895939205344688181086766692939009864885558304267524748125055231715502421347413398150130321131583727399448860143513135022163,
  14902740053599002350179400480619944981238806939813803666158587379133484100532183101534317021833652209435839837992338463366058384863604257327412286914644,
  12006278750469755328317885400395422262915296457351629827041523256462786079629449332950112288909328493979888732247241862789563307634365628498,
  14902740053599002350179400480619944981238806939813803666158587379133484100532183101534317021833654854024362259477252221944042714339436642013081607929938,
  16603321526595291706363072228264448142937929677329836430111276102141164238212111579616601005829139823115755104238879213509376709445835660605149958692100309061,
  16603321526595291706363072228264448142937929677329836430111276102141164238212111579616601005829139823115755104238883474711694603200564650951746021586783043668,
  18497959752638133633559575126376160849424862708669298724824134040708696771762972056189810579806314626611140150693790945780126117087474247058280759908735517348921412,
  13376339231243360048342895939205344688181086766692939009864885558304267524748125055231715502421352160852656309978596251661574723089132670019698757,
  14902740053599002350179400480619944981238806939813803666158587379133484100532183101534317021833657498631874626822875739539033309283731061573089009926212,
  10776545581117298196516943898275417788261230879257767465965291870532573098242770325559829073656266717005495528212465109553825474216004,
  35375040210941327051403849225328807834040876163508399731798494174375789576477685032061832518310423786577788877186020245092687005466420710442666591876087322615366260557659111637684497430959334589988952,
  10776545581117298196516943898275417788261230879257767465965291870532573098242770325559829073656266717005495528212466492440386068152388,
  12006278750469755328317885400395422262915296457351629827041523256462786079629449332950112288909330624616426633927847468825743410608885530704,
  13376339231243360048342895939205344688181086766692939009864885558304267524748125055231715502421352160852656309978621999211496974082145216041910355,
  7792790738093327616140462073649458984120939193517784816833748704842654433523910686937064570091342589930394793082951,
  7792790738093327616140462073649458984120939193517784816833748704842654433523910686937064570091352270122665168273483,
  7792790738093327616140462073649458984120939193517784816833748704842654433523933635460535766768064253896393449603143,
  7792790738093327616140462073649458984120939193517784816833748704842654433523933635460535766768073934088663824793675,
  5635162680898436167416026926907977171458857648424026711865109052113576590663965824377621247688784,
  5635162680898436167416026926907977171458857648424026711865109052113576592204609317987549567975481,
  4539925792691517098752036470697471803862158132085411264661909848104847057353650012247,
  14902740053599002350179400480619944981238806939813803666158587379133484165724288953169932577473752551676752864111447278396351046517841511143355635269714,
  13376339231243360048342895939205344688181086766692939009864885558304267583262983392306996583354057039365466043522758468882134767527990283925258323,
  9672766814393255073562571714760650444714024154894451783990560976394270185928182461074614000562798101299221535952120813895090258,
  18497959752638133633559575126376160849424862708669298724824134040708696852682383244741772489773920176736875552355505606709785401183821355332607338366696952098324563,
  12006278750469755328317885400395422262915296457351629827041523256462786132150971708685479182841645437579364690558515479821124198533793251403,
  20608798935931176338752325363197197316274432642080969740911265624362047667935675361565745632127031013344299040965284483083520435781977884389871694977686388009590851043411,
  7792790738093327616140462073649458984120939193517784816833748704842654461221740096003263243180160509744594113593415,
  7792790738093327616140462073649458984120939193517784816833748704842654463352313525482563077340523522812299614289995,
  54501988806843724258153236462040395083696538202316313221462514529459424033898761511425805195786120699982576295109725230861446216586847359568349790420225471730555621962068378693794655316112117261558854668274137928420499718212,
  8682041674798633417073482481797746047716947806790429401429558900529370482253542848657855711133074900987723606366918738000,
  10776545581117298196516943898275417788261230879285004270426738415263535996227800610469728486340192062239262897733950783988173664157765,
  6278202364741118515352204591591300262448370812416856871719771884492263468420078161357585626572856950867,
  6994620592986457031376075361946966717996879302572208375579859992380979858054201888614899980737177390342733907,
  22960510200108154733120030715042355896429140699821159397858148261168877416426022621000659708584528298309047371755449623147913234499357542174236503219430999020426017984482246740,
  4074927648828409620174665088157628500422002574346450043942665973650238173413454,
  4074927648828409620174665088157628500422002574346450043942665973668856859983955,
  9672766814393255073562571714760650444714024154955569397398033695830943190014657397911143752622809711232565299649220911381676108,
  6278202364741118515352204591591300262448370812440658223017848156436982625600465050174507181934763901016,
  6278202364741118515352204591591300262448370812440658223017848156436982625600465050174507184417260568646,
  5635162680898436167416026926907977171458857648459632624922672187748612909294994623677428467171406,
  22960510200108154733120030715042355896429140699879189904575258273792588315102080123197757073203270057214602082318097681175816900468007502690202299273667212372123136986318635097,
  14902740053599002350179400480619944981238806939907966998872702670566862296974407522567245237472766472242070768604884142577184292226075619732400943398991,
  14902740053599002350179400480619944981238806939907966998872702670566862296974451408732334904480385767149621952788863768481602834371969900490511797911635,
  14902740053599002350179400480619944981238806939907966998872702670566862296974451408732334904480385767149621952788863768481602834371974049134057357508692,
  13376339231243360048342895939205344688181086766777457741118220314085892887765728588088392284151311328797842544366153284841741974210839211056103504,
  18497959752638133633559575126376160849424862708786178542391597255955578715236964770385440590181674274834362756111637678923434128122411853907458074226023522164342867,
  18497959752638133633559575126376160849424862708786178542391597255955578715236964770385440590181674274834362756111637678923434128122415286904870237464610659967959109,
  12006278750469755328317885400395422262915296457427491797160626861649361004787431742288651365779416922434036047703211524394748548247053074514,
  6994620592986457031376075361946966717996879302589886616807451741540893595075993963369185750761329384824307794,
  6278202364741118515352204591591300262448370812440658225391569017783574359658945319950173851377198760018,
  16603321526595291706363072228264448142937929677434744929048064517710588105564596307721431600606450992897008830772626940599364821260677066333622169663621496916,
  13376339231243360048342895939205344688181086766777457741118220314085892942623384890558110662838759932708179606365916484351978001022268389656690772,
  9672766814393255073562571714760650444714024154955569401055202904522587398610387232556095309596698648455710826104468231502889029,
  16603321526595291706363072228264448142937929677434744929048064517710588155498621696882843476003552008912315910692597869095125498158164674905092981838524448837,
  14902740053599002350179400480619944981238806939907966998872702670566862358092024587189477786796616506173112670138453707898983376922373246054564026449989,
  14902740053599002350179400480619944981238806939907966998872702670566862358092024587189477786796616506182607557844774660209183734512716664013694520524869,
  10776545581117298196516943898275417788261230879325859336548414218363468891840615740437536457565397124650603429292647982656130116354132,
  13376339231243360048342895939205344688181086766777457741118220314085892942623384890558110662838759932744399817462207241765288165749774787659628613,
  6994620592986457031376075361946966717996879302589886616807451741540893618024474522018094600697371280358375506,
  6278202364741118515352204591591300262448370812443302821035223396375509975995286910723756551228872654898,
  14902740053599002350179400480619944981238806939914244581432944253547407787632653956811237083395725127562509960533496267495252231605196051001900553470035,
  22960510200108154733120030715042355896429140699888861725143862155565448639498794333094253618479435960623983696044529821675322853883263239835300277350076329354009951646283726920,
  6278202364741118515352204591591300262448370812443302835277591176114887979489029654755390488464230973516,
  7792790738093327616140462073649458984120939193570306386351482716815975789033000668175162138605233027411753406103619,
  8682041674798633417073482481797746047716947806827001188710823112597280418271157877029933650316367900234616689635045343307,
  4539925792691517098752036470697471803862158132116009292523832094098238358104868388935,
  7792790738093327616140462073649458984120939193570306386351506518245606824175534569232459009860848537526616197365829,
  6994620592986457031376075361946966717996879302592833024284368643588442476317941615593817327037919584127615063,
  4539925792691517098752036470697471803862158132116009292523832094098238379206033801299,
  5057985804747131497924828856441701706344476720888031344912311622019976559899772057816137795,
  5635162680898436167416026926907977171458857648462006377742981660915123763247897634788867590127694,
  10776545581117298196516943898275417788261230879330398838592008095592578482706549990440062972627917983656457341189804638952149948039253,
  6278202364741118515352204591591300262448370812443302849519988784228418844961801176604739527966180311107,
  6278202364741118515352204591591300262448370812443302849519988784228418851827786756778465861712301326403,
  6994620592986457031376075361946966717996879302592833024284413744374292208708454436795422267046382154337419340,
  48919667687668496756298501822115186878605147599654159209999454111780122153910531378606408693983470791631764962665207739034493730570525554979068141457132376407666066369547580894019081109020539971205463830528601546686533,
  48919667687668496756298501822115186878605147599654159209999454111780122153910531378606408693983470791631764962665207739034493730570525554979068141457132376407666066369547580894019096408005290403482321372855939819503685,
  31751780979777012590658613519402724173189837434429230768504841096873664803888220661616402971908463576694863672456696847849402698888226444747287054278310237390305813215411044519273614356887765061,
  9672766814393255073562571714760650444714024154963718411543759113143743680740536150858370983816370228472016740035055159175217230,
  16603321526595291706363072228264448142937929677448732720117706170690213501449893991356095803558032215325386503889848552823928658724787922830920475275809914959,
  8682041674798633417073482481797746047716947806830658328376105017398379787577278184529012311834548471179487242574263353413,
  13376339231243360048342895939205344688181086766788726898204865696780542742647813471208287842977287273630078944024250938210923376530591484535177300,
  12006278750469755328317885400395422262915296457437606720154585622253905144409251490222510420986593473444860056577214831042714941383116128340,
  7792790738093327616140462073649458984120939193573588964190025884290777049093148893162112819669247447414455513186372,
  9672766814393255073562571714760650444714024154963718433486833451400064230701631215645273177568369600513627634894532417691648069,
  13376339231243360048342895939205344688181086766788726928549648296951080900636138096060437707069644753764720438344047734851438119492500138184998993,
  7792790738093327616140462073649458984120939193573588964190025884290777049093152717916024690404123904260067600498774]

def memReqsCodes22 : List Nat := [
  14902740053599002350179400480619944981238806939920522135820305763412762644369536400862459968527801025441974961586292201419838942503486540504592628580421,
  13376339231243360048342895939205344688181086766788726928549648296951080900636144661283881453977227079095538572951247202839833436727616770759000148,
  28499631078183353729839202449486877596857261598872111291436532618789597241780073722359669271061192509831123110922053064650513915462635946001020604790880487050219874277252156872764465283141,
  16603321526595291706363072228264448142937929677448732757783032494687319815243837013119149613052927501576075299611437815970575209504615998212896750408175452229,
  18497959752638133633559575126376160849424862708801762550239169898721079254000959900205395886861143440967417972491068417344399804949597615184466408816501001309847621,
  10776545581117298196516943898275417788261230879334938271368882990206228360195476913730489316574320394068549750786666459355886847721541,
  16603321526595291706363072228264448142937929677448732757783032494687319815243869609212304397198430049931404846779410655732357208097598743955329525711226732613,
  22960510200108154733120030715042355896429140699898533493625654799333258942688147950918124554089868403551193075995968146341665876710149673715897816654160621703303978359052238917,
  10776545581117298196516943898275417788261230879334938271368882990206228360195490136725323717589693399229433878442209549620492998017093,
  9672766814393255073562571714760650444714024154963718433486833451400064230701666821590289724621592186924575254160661675110629444,
  14902740053599002350179400480619944981238806939920522135820305763412762644369594915747057725444551722181370423720638048848938512273159294685379495198789,
  16603321526595291706363072228264448142937929677448732757783032494687319815243898130783757510497018944515909418527710538171037962169431143644963502077465919572,
  10776545581117298196516943898275417788261230879334938271368882990206228360195503359729653048923496592341890834246186081839309680607308,
  9672766814393255073562571714760650444714024154963718433486833451400064230701673942772048994107860423695468120846778572800786515,
  12006278750469755328317885400395422262915296457437606747391328965984641490834132639115123217642254635517806691820600483567208479014025101381,
  7792790738093327616140462073649458984120939193573588964190025884290777049093185228310543551929342985945671879753814,
  13376339231243360048342895939205344688181086766788726928549648296951080900636210313152967725462307174274459225807948025027998603373168728328175698,
  9672766814393255073562571714760650444714024154963718433486833451400064230701683437655494185412517086146404798838862925565198414,
  10776545581117298196516943898275417788261230879334938271368882990206228360195521871901532471879091197416845984312426154629940277936197,
  9672766814393255073562571714760650444714024154971867462261245550826981402488032652392150354232331366193263632299910802761973849,
  10776545581117298196516943898275417788261230879344017202114800803122949904288747034421923415454491163052309331908927904493913503891540,
  10776545581117298196516943898275417788261230879344017202114800803122949904288747034421923443152305273120025541473639910482154074538073,
  5057985804747131497924828856441701706344476720932773983592951123113402100254680014782857270,
  8682041674798633417073482481797746047716947806944031023558447635432219964140265828150554106208324942639869031735144218745,
  7792790738093327616140462073649458984120939193675349537172607094647773261701037084378010580061402272829859515596911,
  6994620592986457031376075361946966717996879302687117217274930253554196760919043224000828091093331729806524517,
  75370067845835959292894903583669133278942126210773472237838881998791306735461234151584347049712810020650556455981581902864401612694164454311201105597176884229896487732113895154527119702118848740954480856151779874028294365324858788554849058917,
  93552761207103151718749788960453384737021564812521198710379878319681402673836141481619032577368317114408310057018074184538681762057487318913709250852593104109965031830999863424354113536818995440434746864212075612608053973166997257438235092804140699680869,
  22960510200145146983666626108273318074994701320819888998942344931850126214583460595873464043751350234777573365575094604187361868258199424965968206317837906960823458451361955956,
  25580579940104109996266792146740602947168496677941288191733216803751066469790985315037552342808388389060269493164249606107488255932510883802920537584561134137375274443287259303379045,
  25580579940104109996266792146740602947168496677941288191733216803751066469790985315037552342808388389060269493164249606107488255932510883802920537584561134137375289655022048249708645,
  35375040210998320660830388196211989400531952145551870806074946018496674317454900201728286467099219669298645141837596405905291709744752793370833188158278763161799077346494055476843386693214773173420101,
  28499631078229270196160788332189466630675788170854524620724025045866915522264816338834696371272015908432219800920864075642462366838034585088350603993639487853233712664479708688090208141388,
  28499631078229270196160788332189466630675788170854524620724025045866915522264816338834696371272015908432219800920864075642462366838034585088350603993639487853233712664479708688090218168396,
  43909111191466668030515223771151613486372796666304689608291915818304093283409024394875003192695742726892951064836208035010396689174461311233256127445846034877820881201568930541831419893721325747953442442074980441,
  129372856178610182284183517602693011322914068156099905738895008534987154341098795783074818527637960623483710671809286981541941704535102677020434361710447451274324751779502552022918361918022910124309112836017241050583653693242154789504528036043917200043282989502077796155474,
  129372856178610182284183517602693011322914068156099905738895008534987154341098795783074818527637960623483710671809286981541941704535102677020434361710447451274324751779502552022918361918022910148756136987298210824883682795751590622909645926679191442532259796544974900625486,
  43909111191466668030515223771151613486372796666304689608291915818304093283409024394875003192695742726892951064836208035010396689174461311233256127445846034877820881201568930541831419893721325763165200814692302919,
  60721319753668104953154102233204121775388688026048565252117446275440056294258433665841267802369781580254908922532505530059945628031760914528094433299337163484266385048149756831661463353036692528814299447128921216645049548260311122,
  43909111191466668030515223771151613486372796666304689608291915818304093283409024394875003192695742726892951064836208035010396689174461311233256127445846034877820881201568930541831419893721325770079624928855130199,
  93552761207253876905243365580614338015297993751818496570592222237375372620314514505906067100899597107157486362472531189895405583360999544311396803764296904810690130051858073397248169475379789997745861658366329257609963037074565059896137249524034738847813,
  93552761207253876905243365580614338015297993751818496570592222237375372620314514505906067100899597107157486362472531189895405583360999544311396803764296904810690130051858073397248169475379790012477745656329921255101435278044382325529774607831473920737364,
  75370067845957389888694727049417305543814107227705135937148697259671042389957049373255381248584884920712971584897619828329970692269097659407683673759714094419073241818139382815073936484821069977180471851328495462112942086846164184443379712069,
  60721319753668104953154102233204121775388688026048565252117446275440056294258433665841267802369781580254908922532505530059945628031760914528094433299390132043299175860553483350003273614970523198548099862893871772399176069687738437,
  43909111191466668030515223771151613486372796666304689608291915818304093283409024394875003192695742726892951064836208035010396689174461311233256127445890230564194622162971555428695103267995100483503581688898846800,
  60721319753668104953154102233204121775388688026048565252117446275440056294258433665841267802369781580254908922532505530059945628031760914528094433299398281104988255271650717363111314077679181842646163985265241729400114685249650753,
  67650350993398679745568423147239510519421841994077019130167072304823071998108852048317746553833802095940957089500534801106146143537721216006724345272072836130112547739727518804983140711523099301373159450034182782985963777390392760926273,
  43909111191537410808773211593649113295263324069136764738961386593506715081599973953365605851213876734947769511004876938419763782389574189656318821754536601402765938736713519548614632419276611326008024735004557380,
  54501988807019342930033179712251574058838328121120501728969603271092090110008077390921403709772864476135043861876527120088055004603051262151081195819423245402522356171940164085080048794056287457175235877540526696755660849221,
  178907984113466702826732874448562103823645362128746719095072108825540452505808698602674614033990902858668220992461166294710228225909037051851204493682278798884907860383504349627613901335334533999987589841260658922626975746229365522247117961053158599154586799987342167202461145641074886508613,
  307095874521732594508756215102978007568213423213862850645444242023446491762934106573953401600401480573818293271839273781062506216895547735689716185857015025651413246129585331579670162212213265242046131345086263112689374081725677451669554506141361729921948127576057776971204646006159835404492224584006989097726035921928261,
  48919667687826127830983940315023600911612412505314099236853748340464953352991510181132061866107594636926129385444665455616719867125613279590455174901108008353309541920036728245792277285201049954182230202479772343271491,
  83970697028130566301182612370678107461769708762149370418139384149226184937034237770654984557349026521559282773729877124140695187778200526281881139450471721456376023847711060301995361449475870235752698884012771866484311957175139548414754837308440644,
  83970697028130566301182612370678107461769708762149370418139384149226184937034237770654984557349026521559282773729877124140695187778200526281881139450471721456376023847711060301995361449475870235752698884012771891345157456256918076725554904858689604,
  83970697028130566301182612370678107461769708762149370418139384149226184937034237770654984557349026521559282773729877124140695187778200526281881139450471721456376023847711060301995361449475870235752698884012771897082298623049864423540298223601516622,
  144135851543095967331750436393178399883981950517223960277763086433593664326225438521538991637353040002966574371026344125805393842565389649647737370741356307727371214361545137834670997185689653800090461398747515270540305029721086839875681379543473968042087435024085438673143464005,
  39411756799619258035792821182833604965446314256678650565617627844872611623965969268229411272128723804202602171958364094830469272738803809368926292339290139006930466944255983258888835903529422365797372002393,
  39411756799619258035792821182833604965446314256678650565617627844872611623965969268229411272128723804202602171958364094830469272738803809372208867231388805185464973751639910760849524119212084791055212281938,
  104228253894303955367364772807957267757636121661477218509127666526156594675297452562145569973054541451217256188693551163835734382987253596858664189300885441508827903588650277973933359421366400775280066944057156738255247148613629879549099110854301777357618413637,
  43909111191537410808773211593649113295263324069136764738961386593506715081599973953365605851213876734947769511004876938419763782389574189667290365488897044530722596736866041574132100850489279512737092193157578834,
  67650350993507672472807482364054237119990221120112078040499375628128758126536453325365042073327495740326413715356430074371390395770558808898677810739977183612864018104420197120696153981158757509681214465832897143176474050582792744599621,
  67650350993507672472807482364054237119990221120112078040499375628128758126536453325365042073327495740326413715356430074371390395770558808904312447444130922447847965748351402773377070696890747816728353183958098361492307119313367170613330,
  104228253894303955367364772807957267757636121661477218509127666526156594675297452562145569973054541451217256188693551163835734382987253596902069987406784392374956476243080810050990815404260052270494978480916600308618508341780261418474315308007362206989198557273,
  48919667687826127830983940315023600911612412505314099236853748340464953352991510181132061866107594636926129385444665455616719867125613279618976771954596157663697920985126407037903433752206906068406191629609622828941394,
  60721319753765934190465125915576025677840487419677804422265782639562950696641319118154226929902465587235765987042981382815543137288314647838355001989849666623686504952860210418445723047272867801378746313952109784560683721324167246,
  60721319753765934190465125915576025677840487419677804422265782639562950696641319118154226929902465587235765987042981382815543137288314647848469943141584354532355851312027734277258894761792870377959697538924907224187353121538637902,
  54501988807019342930033179712251574058838328121120501728969603271092090110008077390921403709772864476135043861876527120088055004603051262223712527701002912533644318569126929053967187434244657677228503370553599727725963051095,
  75370067846078819994024489791581194226226545232570307489856840379805786973871781087229097754399042934246541437243183023018058496612728815781332013364279762577181659406362117164799967517627749476101732946684531011694468145113611131562350805061,
  31751780979879324556287124442691986411557202740348948486111951692919755715424021934972324540819846915573070357458888400679954731059312073948922835778699780663782633569895035490554732175198191681,
  93552761207404601482943162633520927660447173768415759375294105553262683352569088711139966155157238635987455649605740862530638197045946544877214978883371038065570254904562385362825025000431140907795692414662637374558123344320462772103951165047644991258713,
  67650350993507672472807482364054237119990221120112078040499375628128758126536453325365042073327495740326413715356430074371390395770558808971927430423822299301954563396652966427045393244744835458402934818676594595080310914176273784569925,
  129372856178818617277033580459754853985938532676449010761721520308185949281782656071866196250783619602846548974453505685070615739320094972376052120489152685252861589383198775306832194443549624111096432187107310128489695385805327495951009728474626544498708768240298022404165,
  104228253894303955367364772807957267757636121661477218509127666526156594675297452562145569973054541451217256188693551163835734382987253597006243734553766225194640345954589822309304533438929166592522566341381982579864772963066146296450116201560969674853573394510,
  48919667687826127830983940315023600911612412505314099236853748340464953352991510181132061866107594636926129385444665455616719867125613279667870875114912877503324105505217184397959613757255910347394455113112959669567556,
  14902740053647022605455964878110481172488706590974806821244134920453907279932097678181189012903706962941296068029014690215728763107405852298403168714835,
  3657556555213066575675538606723357648659795895711440940892894627133128782,
  3657556555213066575675538606723357648659795895711440946424429698227634248,
  28499631078275186477021272944570616403828577691119792643570964985594298626255401557440611888583483683280477710133821942316022714584981150610031030460874117049127191170196534176715779145797,
  3282934350597665742470719825945109332508577140997889762313326559310,
  3282934350597665742470719825945109332508577140997889768519552073801,
  4074927648841540028759025668213773436663662524962864917272503511070821781471282,
  4074927648841540028759025668213773436663662524962864917272503511070821781471283,
  4074927648841540028759025668213773436663662524962864918813184342653881904660529,
  5057985804763429559130730351132981354047723832029627359382045024856809701481353828816060465,
  5057985804763429559130730351132981354047723832029627359382045024856809701481353828816060466,
  5057985804763429559130730351132981354047723832029627359382045024856809701481353828816060467,
  7792790738118437884400809026927047683736086391238833944126659135276675488146152998138889608715074152193520415211598,
  13376339231286461868695395865240348350948206205284222147282383252820880945720670926030463518088205284817822882582238953377369021130221527820009551,
  16603321526648791649009755942397485691274352033810838990631875359515293404848371672980395137963974434930178318998626492876576860650813869301290844040413380690,
  2946682515400306021720185965108082477284277813793762921152588,
  28499631078275186477021272944686827882554986583949550074280635212231521908083097033661609342500667130422058412065888733968622729639591453502138565183759594671093110815072955994823049019461,
  25580579940145323340042359246365560987185297873080588134143411063585073133979197688693881951843866114587414518625501954754804718146088077808643181985699636556679370531237314251784276,
  9672766814424423082263473061385450168869561205908843096992163001583113864408514029332346062785134007561574141568166298566721614,
  12006278750508442480374859857213950079478875931412904083986465161423951362055252460677610662952011002880098954296244268675827076704220676174,
  5057985804763429559130730351153606042421209865234940289965521337834115766011422310883786802,
  5057985804763429559130730351153606042421209865234940289965521337834115766011422310883786803,
  5635162680916594032982256252984446335133978965376629796334066908738758870683060738324094910791764,
  20608798935997582904409880829128730793352475590542817462329351280462414144921499800817371222005178174925870524460226946656728145549181159784220726679452765100904403632198,
  5057985804763429559130730351153606042421209865234940289965521337835656446843005371006976049,
  6278202364761348411273927478525007475328787573073687775653339951828756128083976178785092219591780663345]

def memReqsCodes23 : List Nat := [
  6278202364761348411273927478525007475328787573073687775653339951828756128083976178785092219591780663346,
  6278202364761348411273927478525007475328787573073687775653339951828756128083976178785092219591780663347,
  8682041674826609068265554146607746949022684618718060312081187206605861572642222006065445942181725890928134778529492697157,
  10776545581152022849026722499366266658539604574260210262148889044526247708140025357373732545797925902448446935198484994062703753625669,
  5635162680916594032982256252987728936543472530384773197913440493074180660594021248577082112082003,
  12006278750508442480374859857220943990707501024898648005273929064641260661304370740884174289108889430531570106479293887042084171408995123284,
  12006278750508442480374859857220943990707501024898648005273929064641260661304370740884174289108889430531570133943311701590044287259741847634,
  8682041674826609068265554146612804421868247978601906785356980280062227890033187369903415541507422140141685528603361476657,
  8682041674826609068265554146612804421868247978601906785356980280062227890033187369903415541507422140141685528603361476658,
  12006278750508442480374859857220944210422101792853617788691127659918208643670494893378811986670181418162772924627641124989086710906460831816,
  12006278750508442480374859857220944210422101792853617788691127659918208643670542035414481507140798047624449672815415904876217601500827091016,
  22960510200182139084797901150355768392260412120236698652594087370915444096442029929507953858049724868331896024306391884201477049870746507871978472474393916225472294114207531109,
  22960510200182139084797901150355768392260412120236698652594087370915444096442029929507953858049790060434090441474464554637940411191365517879634819222202712470046154322242502764,
  93552761207404601482943162634501862548024657997631038993041335543651115172109658033193433634818788315848764110848790882773759547411598040927090467938606188645902131798678584020369200773545677578897870664321127653872234926497948801061920636463400892563557,
  25580579940145323340042359246425165835038032268101148809238903868985347253175222848823965488699531388152553672873472113983338099693739993308212897861951216117968097463123474762236005,
  25580579940145323340042359246425165835038032268101148809238903868985347253175222848823965488699540467050703585303902043486228874356853438521831167682249054835782137768747318934175854,
  25580579940145323340042359246425165835038032268101148809238903868985347253175222848823965488699540467083299605315091930778236440093111060039408943309701927623088072202067917401948270,
  16603321526648791649009755942436172791244982772293239020183414571666900447605607378567895021931660447045140213437682504864411917028870793349505128610198192243,
  39411756799619258035792821183246851637447329867551848488332491904967873362633120453694333620683399986584503773276088347690567757642740853762919647828422936450306232483881845451830258962268397394554954973288,
  18497959752697738561661557212539449340799530246405165111254584375268953791482778447751034658674342496935314489719861602393354567459071983245167476917729103552118891,
  25580579940145323340042359246425165835038032268101148809238903868985347253175222848823965488699567703867388501866806255367339810318424060490606598203611688615811815415195127722999923,
  25580579940145323340042359246425165835038032268101148809238903868985347253175222848823965488699567703867388501866819385787709827252277532491063035078478127533230664200785847220633715,
  18497959752697738561661557212539449340799530246405165111254584375268953791482778447751034658674352344695347445361624132271845061779236443160874867648171914160439411,
  8682041674826609068265554146627976817707835291144948530363446118388045352942843480121885421742966702658934338116662722681,
  7792790738118437884400809026945205524855521968298473161013835340062799209543424251900490853983751746435683381608558,
  9672766814424423082263473061407988508330111791945123985108909063318164077381810468345561223709880601846035524954084276748943476,
  22960510200182139084797901150355768392260412120391446948302559290636874232356573100191588830006965628997118388775071748455046839583403888556169403631096063250699429053881712741,
  14902740053647022605455964878249379587729943463857441082190171314790562899944826820441980446249493137604287692598188736033165351853639171928468066926693,
  9672766814424423082263473061407988508330111791945123985108909063318164077381810468345561254307867267736167296900119942859260014,
  20608798935997582904409880829176750983976846242021849641959299684983982070345327130657948958459262290506498052245812617404530247731333597140577380215864825612909904461924,
  20608798935997582904409880829212765951844528523643827970913506116184671749139238841701681349029874442963395059405776821190745298690651997534855263556508101070972561653843,
  16603321526648791649009755942465187975154345742039965719372525608322276801818678305879964760101832558942743775213046817013130479001301534815282625460049608782,
  14902740053647022605455964878275422915428920738704875020978614006780536249334607567174543277607487002153054428291811610514140839521803374369668389208134,
  6994620593008995401181217890982974637634601781359271859494801571484333701623563832540048692631373903938977876,
  22960510200182139084797901150395893100141411362533872468330388126114737156160636978098085273900733854343325390275295490201179471021339902678395096532314754443577215038982258766,
  10776545581152022849026722499410209477270642202211475645888702807676167111544835702656421731044436328743867225209489286526835570704468,
  22960510200182139084797901150395893100141411362533872468330388126114737156160636978098085273900733854357954162304987327292313663006648921892089042337683429629997746600584347732,
  18497959752712639616469874044279003292693705982603468981647421576393295117263153069460307980092387111279449327008941970161795011402892926535089824781280347508047941,
  25580579940165929808475238429098544082410542306806940002887803121021077787868308898245643751741472533351874300662049589119628258825637039946020094836124284383198990367594032775102532,
  16603321526662166475605571113388064478879776882937683986571746445952736454919391470032014716736187305476872457175707622000117597817810355094400524549954404421,
  22960510200200634952747334584941679187021181269752897377362242863393516798910979235701297312784955671738455649577465810546541336481629149481892142641093369051882905650477531225,
  22960510200200634952747334584941679187021181269752897377362242863393516798910979235701297312784955671738455649577465810546541338855367055544049047821390390698079404296259305540,
  16603321526662166475605571113388064478879776882937683986571746445952736454919391470032014716736187305476872457175707622000117604683823667673829825878288564302,
  48919667687865535130987100527611624548963295639179105110605451464527761484835862350535361198094009439224969134996640930707132894321907698306107606277194952589182086790240544143991283643713685381243298009066118472335437,
  16603321526662166475605571113388064478879776882937683986571746445952736454919391470032014716736187305476872457175707622000117614982843636599672147335091126348,
  67650350993562168298370575254940363419482304164460854912935556265787850808147657380239127844012380683790508422020226804204216268124059381234742651145604915814526370355303960072532194621518899376807069119861226362722777898462530875228228,
  35375040211083810448310994149759345650372343127484575882467059839379767923520817299208362792328151296172960079677268696653633164451710003168461320794540737248980734358981490353270632334456493517832257,
  18497959752712639616469874044279003292693705982603468981647421576393295117263153069460307980092387111279449327008941970161795038176125680556027435674188927504089157,
  20608798936014184348384484311219768916429570159690316034081172147318686809684285992522562644316689589321769848612586356260897799964278430091564566006912842625461829501017,
  35375040211083810448310994149759345650372343127484575882467059839379767923520817299208362792328151296172960079677268696653633179080393402728310520158188844131600960425651487363752247647536178231378004,
  28499631078298144390779964836719837144742574110521293540497336110767035016397537363242250651540195447077723380859197391833247325838804960103101807575919301381914167521238546904667418001477,
  16603321526662166475605571113388064478879776882937683986571746445952736454919391470032014716736187305476872457175707622000117623565367980809015526092933759053,
  22960510200200634952747334584941679187021181269752897377362242863393516798910979235701297312784955671738455649577465810546541374461256676508779195649774455175556030079209439321,
  18497959752712639616469874044279003292693705982603468981647421576393295117263153069460307980092387111279449327008941970161795051562757506098760644908495575333273676,
  28499631078298144390779964836719837189446260156566196888807286946602341209552279278865125202169327382455000721560902338370125258515019022223074795382493860143770734253153733435509615493195,
  28499631078298144390779964836719837189446260156566196888807286946602341209552279278865125202169327382455000721560902338370125293871557013900847653436890084928838253563204786914766044921940,
  18497959752712639616469874044279003321709063514979646237427176149725359237445426806054880860600028647969621302187232152845658028034898438719499939894113357261570123,
  4074927648844822591865827645956205127428139213174725458493003134005375202689106,
  4074927648844822591865827645956205127428139213174725458493019728644102159466580,
  3657556555216012924971481903036862656023935845924579807499631463301120084,
  13376339231297237195633328531007281687499454133109377870823839074073377022409296611860305549871754096736382182459959236720973819929921605340168287,
  25580579940165930122907915435676279895483706941183600563099022772581978359448503810497310543163515495713874314033726895562400960384355959468351841660168045382281340026611876458791022,
  9672766814432215110666284532684843836153991833160586755011915737147833505187197819272268273145747187372210708323143475069911155,
  4539925792709803043272912345543363494859841409567788859868793823625909503870433886323,
  5635162680921133514653486653440401894916088774815816274627021102106650949955813730132326552371301,
  5635162680921133514653486653440401894916088774837179822035416376940094502887087708676144576528485,
  60721319753863762988735282530373022361861756813274678405189212969563577462261414447220268036398614438254823762879257870179969022349867336274733972728343796318837913395917255687150553269810543997187155209042993100211253595106115667,
  60721319753863762988735282530373022361861756813274678405189212969563577478863067037674426760969413630864720655058226646721418479027707590918843595561437507665996309786425161631627204258921832660522245727988900159481820589320241235,
  48919667687904942855444580911408167520819751356682194252795901505253662409596716063527659270760132881605989853996599970279205723831657208658365992155216366245864008394932762168069334476711681817688655546609177861226562,
  48919667687904942855444580911408167520819751356682194252795901505253662409596716063527659270760132881605989853996612525314730887857380370567275422067358206832242679713980782152386750009167721589757650179013266712559685,
  18497959752727540831776806310175994677950952328039814316750524872934463142969249457337188763811920442864102486672370996480648210296097813781983386829581817682526295,
  48919667687904942855444580911408167520819751356682194252795901505253662409596896139541520040520647740704110628611028797802858953796421520072288749109339869505112649363401499315525228604614863451922090513729311038636146,
  48919667687904942855444580911408167520819751356682194252795901505253662409596896139541520040520647740704110628611028797802858953796421520072288749109339869505112649363401499315525228604614863451922090513741723497463924,
  18497959752727540831776806310175994677950952328039814316750524872934463148026654211168498780416870466371963395047302414528036145836799649436443680883848280474320979,
  6994620593020264512751002595913228444223843473243397473979866946390074430096836319106688495292617338605273164,
  25580579940186536498859495887278200133690256625098066730400970626144187959355673058194649129383942312837962702800600960276336467406663681970800363408444457125634307634648269877084243,
  25580579940186536498859495887278200133690256625098066730400970626144187966349540344057357276956277911639588935988294691554647539818716542787559894681289299616248567979704919441735763,
  31751780979930480206210332202987941516075376719607979996570469345918373783334792707403622913889626491088541321889071240287685279726024140526025770581642604140829478019091865077354879745203044435,
  9672766814440006985202998751661576330864383826630404763489284033716512193651998008203062672724108332744991321070288207317762163,
  39411756799682754758542878030738235422938371970381254411482891462025988797245459968982483506417653010031306392140429705854891799706134565328792190973551373527136811569209609879328649875617253122903298474067,
  60721319753863762988735282530373022361861756813274678405189212969563577761090624632660572110450598290448288782954732740428362723922259398920991044353380132423889918292203090446272717404876271956276600546354865652046183714754068596,
  31751780979930480206210332202987941516075376719607979996570469345918373835421868872730790013978675323472237406287920889008281285240943943918932584479238217124253368595107475135859420499945848946,
  31751780979930480206210332202987941516075376719607979996570469345918373835421868872730790013978675323472237406287920889008281285240943943918932584479238217124253368595107475135859432912404676724,
  10776545581204109777144118489219925959185746959231749959879994649491887432022912696963439928779180943578577238118826270460340777975903,
  12006278750566473152033588138261790150240390358290878054014070330606228842811340873419849546661574745205259411206174873055311207304465940575,
  10776545581204109777144118489219925959185843051025159751929628385011409160862458875017391375594019741875597642892332959967765343436895,
  8682041674868572504250073690421716546131672588774833387828098645833941953320780946051986548199962889273949268870282215535,
  4074927648861235622484349007864811374138273446823341217576461043988674659614835,
  3657556555230744864505856689336044115646575182274006051107563978953785459,
  22960510200293115504405618999075871678850516074134739603525443506078028053376486539022592268831018610379343001192286350375673999392618748847401877244802579271647316844517130341,
  5057985804787876627168219084327792699903263911851751587413047088556611487567359158597386350,
  8682041674868572504250073690436888919274010452024240264228940752760700736699518275238763196542583199051702073254699663480,
  5057985804787876627168219084330739038620672715020589201209640399960863889085885434107068536,
  28499631078412935463852703803233603424552578230432702870564666894257916559096103007049043073919547955732399173435001074238645038792531527055357057756515724845616978290890643979297436336229,
  12006278750566473152033588138296759744049321089128058824510141997455943829183392240000996109504583914718969593570544484672415587580179120229,
  2644870996286323457742961530700286656505242990060961907,
  6994620593042802923015832561388172576857175651262782239590541021435308699019926719162983951476930697916317797,
  20608798936097192656039625279274208140786696999796704066771082156646010081236251789123571777979631407310030374797010423011524013915753356273493939871281685285943321231470,
  6994620593042802923015832561388172576857175651262782239590541021445961726806934305175140452222961750006628452,
  5057985804787876627168219084342524581256629486471872547697099669590470581767509364369064052]

def memReqsCodes24 : List Nat := [
  7792790738156103250167015246633299725947501679179680846514696838513688040543988128836615900017384098215782244417637,
  4539925792728088941837283041868792887300973976261481974878174211053675555497309503599,
  8682041674868572504250073690457118824274880033871309732006165563254537032119049244645244694376544852471172055130406912101,
  16603321526729041484948010231634277361310917829920699512737311537190923223798154676580075777664127478601430241004788273195183821913910579548784397579154227301,
  18497959752787145866878397575186528019564829285344194313443427758622135558106703549554236710092660447757940880696495908862294264796893955103345371111487154426740836,
  18497959752787145866878397575186528019564829285344194313443427758622135558106703549554236710092660447757940880696495908862294264796893955120292939083340434152292466,
  18497959752787145866878397575186528019564829285344194313443427758622135558106703549554236710092660447757940880696495908862294264796893955120292950146437883770110066,
  25580579940268963500844352994387824786209553274487772905302184450455219358893933079340691445662952044316317824952877510031134863282983340821655637965576476979036870207931808383893613,
  39411756799809749258415442956825996516976897065997103197475570485230485244735385324290144982451019636777922273235011638691730858069473054497984534776194155474028075137228598861291392902959841379674034798693,
  39411756799809749258415442956825996516976897065997103197475570485230485244735385324290144982451019636777922273235011638691730858069473054507832283023620384246136174192082763144022960772543284685223960445035,
  75370067846443110691496981259734431736381196216218552965293455228107479365778885450650842398606903019513879818110742985535098029710847018265413862562491473793465075279653286191270534374814109158050960168958778429693766572316363586577893359730,
  75370067846443110691496981259734431736381196216218552965293455228107479365778885450650842398606903019513879818110742985535098029710847018265413862562491473793465075279653286191270534374814109158050960168958778429693766572327426684027511177330,
  31751780980032792355503863539683684530233636480724767080462710504286755943638147970179863627332159279985774116083879415889836855894529101586923475436597814816051002830637278913611416790999695467,
  4074927648861235622484349007886174870412284891692689026813232374602686286659695,
  12006278750566473152033588138324735250858013727140982418304118749447355436498952184718620730513724805942130174348130176435017317870375272557,
  12006278750566473152033588138324735250858013727140982418304118749447355436498952184718620747129792140991649595911130835265910659534267089011,
  12006278750566473152033588138324735250858013727140982418304118749447355436498952184718620773240800447353803545977821956514924123857628692595,
  6994620593042802923015832561400396101733021615796333715898478044640292241481339047848166587600800543250776174,
  3657556555230744864505856689353088940217122936105110000901996615592968303,
  25580579940268963500844352994417627377322765545213259115275734092194117604686422188947918304570357983427696865415206350668682581749389760223941146622213440349844669408108188190244965,
  3657556555230744864505856689359480715964502856709305721918266843464204387,
  4074927648861235622484349007895669809253037483341104844125328985454336920649839,
  4074927648861235622484349007902790997404098015960280594051763649354728742518902,
  4539925792728088941837283041895238867474888300724787424291172279492284066649339396210,
  5057985804787876627168219084371988399499847789151675532692484449832530554078039292595011687,
  6994620593042802923015832561428917695129235513491127992944918618345893973861468566407335005537958133707112568,
  12006278750566473152033588138401668255541133760653847141053479933761930906023811335917522343000699739520011439283869323794169427140715806835,
  4539925792728088941837283041903172682890618954986216286602401015378670951087520809070,
  5057985804787876627168219084383773868087252345449786349901776465835112744194384535883219055,
  5635162680943830804847638900547540253916847937764055667593859013824793130628050928101797086494831,
  10776545581204109777144118489364309743902512719184796058864345086492038540905188919112931973464460066882110962992496169368014550925426,
  10776545581204109777144118489364309743902512719184796058864345086492038540905188919112931973464460066882110962992507232451810471051375,
  10776545581204109777144118489364309743902512719184796058864345086492038540905188919112931973464460066882110962992507232465464168743026,
  22960510200293115504405618999356745834520994107199950319339969094945046929364434456450208314313329699424950435867687927354293457415833816550322576727511224661776295774345560172,
  10776555252764244059910537243217725170685641209454811166678001453990453365215815150379929635661915918807336004119056140903528134672468,
  6994626870461960328681678483789139049972285593771229375198034658824589936885600965721457572497167098770948180,
  6994626870461960328681678483789139049972285593771229398999385956926429116548164199634039087390977161407037524,
  35375071959046231412911136695874712985824302997297377205794153462639414619397223242394352635318740486726663108151994284293176066605865147110332145830082377315524837839356454460885928302113715683393650,
  18497976354037403895623211623987521414692586675518606202220257186832157048766537796199226211471019659217661877809814346206644498792847953386105704659157969164959859,
  18497976354037403895623211623987521414692586675518606202220257186832157063938951793603211213481726633811061141810249306305928952192357442186999186248331138694250611,
  8682049466687157978860056545973492111712340659837998401419282885520221055250731239480368031520541171746350248438115926100,
  54502037721023335967051693756589274817530625442808820204063351897463521315140053504113848828281318617804932265306437873737500873700895476043030673464979824098947744263306294226122169437410628535151036908028827521046367043699,
  48919711591853723833018308533243762581796646515618555588722993646476764737423215533190423250338672070496442247553601319918913783983033654579220170340327868942889429765951447987668382552281032370723790387787472322101349,
  25580602897997260943500349496950525418228315993379491775858706026951075129404473923322672844530177879300252909352927710107651644638452503662617537784390675228483395240018849025032307,
  31751809476210846238824598302798069377977821101835695541685676259060926096848212019002394850021113471753937045347706663624949878940928573628245464370080176717902092295085683126167573534432624754,
  20608817431815726649915520341021583549488448632452034156101399725650346242893985040249542133813499855957355657490040989402259146232716352270688207840510060706214029426789,
  9672775495484306855217072417387402082107917424269518621240005480843133984454042301817798359694914307371914865167792211208765528,
  12006289525835379857447534640913798020761129691092874219519873172546702427910316141515217256995457191360269531268583026812810119944861581422,
  10776555252825012079079602985080313308501416097387761930146944986273105781025889804180564662256090223747944138337165909879067941666932,
  9672775495484306855217072417387402082107917424269518621240005480843134066436668669021215696676896240008135758380319321693683813,
  16603336427703599197519954064444313955524096078959928858036023749655901023897381016049793589785738727109611028738460231713295813804415510517435111079044251748,
  13376351236207506723740587713857753340506223722402864282457724940057171280250962076248140295428470408681692476453407558538541051781998875069317215,
  7792797731954335952634143381122313884116348034400045646590165970574993920406882728450601938967529911177101914734661,
  6994626870507036951970846181642701886449789639102752368334750878345259662574743356776457554371197740946620499,
  8682049466743109136861130750628943366060632741301503655413862989809247652763352714345760840890215014562615556789874786371,
  13376351236218282108708523589542124493411201846272384582668971424727377875252964932474968865604775676964843246543279342740091508864186549842018391,
  22960530806669066869037078350273148695614725843218971547295334723609479716667338095780983314199367333539706949511031351003617151217044708895767883467716780077076952315269283908,
  5057990344179908464248918915852130705373755954960777220855550431095959393461416532419477574,
  7792797731954335952634143381122313884116348034400045646590165970574993954496466848726174882927281683035354616889413,
  4539929867176646929796033895920814698498675137652926474946459988848481480311621877833,
  20608817431882132917549652414006086188475418847673278402256985584581693529714695918732807128467298909202490548969116651938333834837659925281769203910537260777433552453700,
  6278207999291845839530357972665855754582833358856876479505427531832759801021471346611018357339269693509,
  9672775495492098806686628102844713351448543664676900840540449723302360542072270932180543245383983760739230986675539733759721559,
  16603336427716974096145252402309578635314625617060351571294291944272973623260245915553194343863801530903039631030548558425542940482554331256842571181711556710,
  13376351236218282108708523589542124829118589281755747334224610161062817923309137996016420172514382268749306061423171413470671094135554796101173349,
  3282937296965473703354331847210169242893561388514867238696542666819,
  3282937296965473703354331847210169242893561388520398755148961742932,
  5635167738362202914116110542970000138585477264748665611285674830523159454127313097844747530207308,
  4074931306007466033548854766488995317950499604236487524094960694562095142666324,
  4539929867198589997569181681602587551672471276273614702539825537062624316337368727623,
  2373974402925621957438091261622772501755351400524,
  6994626870540844428288286951816539504954342551868247200213714070177218122113101429674699912460945450402185300,
  6278207999322190613051728149249392794399793334842679371745133406854264323144656133539136566710521430085,
  60721374250080639913654669524927601412691636541368497623628522307647930633910868820828298721106075278077321500340525386176246049851961785694931657294627734742316757146951791482506614882320987958744241221219956309772222455473963103,
  14902753428593667943563323846974703535406332884678321551752872792648424042626221375356290195558014333802696065167680462195127274002619994169099677139054,
  13376351236315260892588289011315472354131660806703743924984986063024564893499282456245532747195360474681580145324821135254503593517848770381414510,
  39411792170976639053037203220352061398077329088851182810063351262420240404053666166831273941287218415525124573470322591676226535912707258098215811720395751323404485162278716183862559837606463555779059056741,
  13376351236390689070952281595530688591983446686441175184032455735646989265256145256331802894925944721709300762804566722977460414932589171409158245,
  6278207999372765273416155309618387725999514725291654744106958422034520992643486184904957943696979918949,
  4539929867235161804546057297295890354322083745947105184454445800709493763692903268453,
  28499656656352687028047167632685461065957263088155208461433815842242746158916162719251949975908931127730682045554000342175989279374784650234491132868608022369321198759783853420899426369637,
  7792797732054776839735589838078773832267148083051501861876823105919145314917073427877870252006145372409062946242661,
  6994626870597190264296219624309561186188781197401847244491179084996500391022941830093613577373691814670762085,
  7792797732054776839735589838078773832267162711734901454136205876217259016968426899327824493628431243684884614479973,
  16603336427930973470568310505492845100142583035100175339996613202091279247963975515981210853284374819561161380458169047981914530906529532166272709483570397285,
  16603336427930973470568310505492845100142629787018809590376479220927077518696225539577220842857990399815419645604156664070800983723542503297357683405687357541,
  16603336427930973470568310505492845100142629787018809634319393739959252161964350619241348388920478650351052136472646468479038590907214172842567532755853246565,
  12006289525999799904275585933488454115908922996085617335749542779612827044653985716327257867010027531663719448815737208374643309291898929253,
  14902753428677703382216788352959886528591945681483323508421650168197853311468315845643811495888198990959772210273967888215047740347650387837297087152223,
  4539929867235161804546057297295890354322107182568459226030578404474924383402424533093,
  13376351236390689070952281595530688591983528294625672468339596413863456677859652373964112646232532329420889189727807813285334942464742948609196133,
  6278207999372765273416155309618387725999564813737445781870701656786354179543338566334767300666295910515,
  5057990344245100588386416987604918994434528093474352264267983939568921195422036357056299109,
  18497976354395032715241801553895644640210192368832351548328477922610510234474630771702979291619006600542554666973860887019311665219312551518708853079120553784115301,
  5635167738407597506728382431594304260299724137065373851260520039940129767991803257176482225913956,
  6994626870597190264296237782118084748041767248369479767813606733794544012983385265253380145624536572843262053,
  5057990344245100588386430117972254369668151978523014120376797368538541201060538509062963310,
  3657559837826261635678054212837628988668927892714555138366699544540938348,
  4539929867235161804546069082796212920844719362612334225371504654132574982225014095980,
  8682049466855011534471520003980620057265783418073091685764452037756591019800559446102952932801797121446259006924882641011]

def memReqsCodes25 : List Nat := [
  10776555252972591538620549012486393806526116031568033972982702945580758419523809775156140616173780238855726973245226595286502690193523,
  5635167738407597506728382431594304260299724137110474692505832841118139460130700940096106182803571,
  5635167738407597506728382431594304260299724137110474692505832841118139469374856456746994215551076,
  8682049466855011534471520003980620057265783418058462995799662852042968724624836850217902409029870507609808745521145053287,
  3657559837826261635678054212837628988668927892726880656929405595876130930,
  3282937296991919695396920787889932958866727844897626189726252531814,
  7792797732054776839735610067911143634810309392671221996327386977631294973227450099229406783936668955486327564664933,
  4074931306040292003448548335172956507823916592433745988831364215683854160298091,
  5057990344245100588386430117972254369668151978531536502064111185379413945842330404293771364,
  6994626870597190264296237782118084748041767248401889930063529570919118789054619088132748181802913120644300900,
  9672784176676654292725667762879255232916271794607581081457018059426218594845873501098631511494895835410051082360014796250611760,
  18497992955839006288852448660101925945922085616880479311322146671673600286584534361641484625872639623938723479408046847220858110302752234763311137151360214115483758,
  22960551413433435328758776669885532050746644654283238015296408257660709837232076181570175569681202702221007933516678383565505726014615301584587023762786050852077787242827284581,
  14902766803504298367679877014802165161540452847635457077538716971590533797353843333417866310596760370241193877154424457100941559790069288363286331785318,
  16603351328985780863012563140715269832454157002984834355570815042652672790037485103913760528495370318310135550320487349824182204254234168634473855555676012659,
  48919755496787695729005967507947909003426059268855026927411519761385364576687641424147793274661029973814287318555324254918237122705886530060520907672222760779227675257899445138641275761111990115593926872250535438581875,
  16603351328985780863012563140715269832454157002984834355570815042652672790037485103935703570007807004445719946817530170438568795208173795909122530311325155442,
  20608835928015706974486206655960560563701535082903009764993473059854583594137821136156901231060919511595713102060527743481291145784813445489065961037621364650781928783988,
  18497992955839006288852652745828570703575165766909439773553711888799854587454242604116014575788537877337029941388772173247654790077330829426223659527908077625213028,
  22960551413433435328758776669885532050746644654283238015296408257660709837232076181646037544339743158902923115562858685345428274244793751219395689747529648319506894587249295475,
  35375103707920545780087522482189826188530848569458760742829436793461624530964154464690706215210271498110491008581688706763263284027514109742350569596091634284140702163974261394765905281860893215752307,
  43909190006738726204372601235735643277718989894063637163419777187330850573549968621726162315397423561975325071468158010260216697730226624735843747266251609115507662617199559920043465797077749382635222424412946547,
  25580625856405578244035210268527080097852243464920927918598581921675569358311384037695692454205414339672386424375686949473307537725593316868120273725702498689972442394692537755500659,
  75370203132755617309277344115901928229057306225391653908660315527363169646819678306658442295226442148874560596287028900628170885567719186411419655708596601171222173268373391245626523914335614390156020326021426675321524517224391520709317623877,
  22960551413507419580827789547664041046009955430927059780447298550282147051517840750699152139946950674629250486349394168903692864036943069442115568953044704102966895956023246948,
  35375103708034532615271412316159391188557035163671707119717880746795147974337632320938250523706084245722546251046209487807457735351784068463552633921963606349148712591136801468865811861632524526878835,
  16603351329039280733629623607195297486078272998450729270875117448938637498923901679532178525330496140336582137930905032513127680579619548918628479356975841396,
  16603351329039280733629623607195297486078272998450729270875117448938637498923901679532178525330496140336582137930909293707796092258164695269795298711055433829,
  13376363241354835562586519795636947345773500121629395124894922483940139511912646783609409308469058433657652361643080143040362601377680399441789027,
  13376363241354835562586519795636947345773500121629395124894922483940139511912646783609409308469058433657652361643083576037774757701844664311414899,
  16603351329039280733629623607195297486078272998450729270875117448938637498923901679532178525330496140336582137930926338482644864905272389057511168420044996708,
  10776564924680305273135556677985526609880234306270033576212290445597355334488325980805660843273194914143639150719390034860714426105960,
  10776564924680305273135556677985526609880234306270033576212290445597355334488325980805660843273194914143639150719390034878091861557364,
  12006300301365424268463601321623811022386887603427119647661027332925360746417457835127356413420785732186398101486282611236909763586140799097,
  13376363241354835562586519795636947345773500121629395124894922483940139511912646783609409308469058433657652361643088725546218506602152946780930149,
  16603351329039280733629623607195297486078272998450729270875117448938637498923901679532178525330496140336582137930936991518081361433475539402875002881316814949,
  16603351329039280733629623607195297486078272998450729270875117448938637498923913903108254809149936888350935832878457597045159578101715664031661040579583541364,
  16603351329039280733629623607195297486078272998450729270875117448938637498923913903108254809149936888350935832878461858239827989780260810382827859933663133797,
  13376363241354835562586519795636947345773500121629395124894922483940139511912656631440155305714331071294476642984325409269018974124410322326323299,
  16603351329039280733629623607195297486078272998450729270875117448938637498923913903108254809149936888350935832878478903014676762427368504170543729642652696676,
  10776564924680305273135556677985526609880234306270033576212290445597355334488333914635318922531770947739337428353966012566816974700648,
  10776564924680305273135556677985526609880234306270033576212290445597355334488333914635318922531770947739337428353966012584194410152052,
  12006300301365424268463601321623811022386887603427119647661027332925360746417466674302184435419716394127768700978295322911011086206065836153,
  13376363241354835562586519795636947345773500121629395124894922483940139511912656631440155305714331071294476642984333991774874879348882869665464421,
  16603351329039280733629623607195297486078272998450729270875117448938637498923913903108254809149936888350935832878489556050113258955571654515907564103924514917,
  6278213633933607447956984463747837188724930539803883211944723004876188974901916032170286589354751426661,
  13376387251293903950166234644982825029903664413281613868544885111763199929317854534974829687288072143543482001881820873933027090675790863699738719,
  5635182910726266325307993095937782257619276935160539364190279513545783971231666666300173007847492,
  25580671772500979809913046352187593806612351946192304560237580522141621034309800826640483329513212648275179090290434935361049521153636467683312609636244256448710607386009639972831310,
  16603396032578202005280910418542985620385907759566732516311955903179055253090331645053195075620893584603040273394647116093260190055305491769456267308204949586,
  12006332627617045760909180858388104393690374218600533984657214067953199492268376756176320695491360997061822812665838508939331334812170649669,
  22960613233430604147889042583302564601235372365699056595866183384141439509072101862117416712198191490056590636506489137526092475505130978170691122927835472727665598166249635922,
  10776593939942344899713117584576868747208875066959636017577269644618444451749664744890393995162663821886805372042327064607185983111250,
  18498042760647765792507525668223762795499384465826411532182832905725673096490187075236121116011039751490593039782377315986263260353967378014686609994674268376531026,
  16603396032578202005280910418542985620385907759566732547699722205425762927360922810618133352153978430622794778377718646319990374242482151987155406856352038994,
  22960613233430604147889042583302564601235372365699056604547367939774350326714252238894379940376150683045547611655700314861434696900542578263596712814003166055832780350914953298,
  31751923463173919735582920418020047744591510809215619317582395123631548966940323337729277358237684063364508264102063665530340947950203101854239918021318454233299232415201904235816476893806461010,
  14902806928368244849064466066735647421790545079459455196335487101319941735984284174856866591647858052574963363687113290916007657402963894185292586942546,
  9672810220105649072726186940430467266494638839685449970873446714228943533265899198702523521549909847078829723495238245461131346,
  9672810220105649072726186940430467266494638839685449970873492670586803158211825440587975508458690360027348955093888939494342738,
  14902806928368244849064466066735647421790545079459455224508397519081549108940077053090285948864133073576447880645203047881970918760221832957358645575762,
  18498042760647765792507525668223762795499384465826411567152332551368766386036672167466105400346216380139648644681424109049769362254149181501210906059986359230267474,
  43909308229770613565224402375650014859566613616462351281712760241750833085819139200492998334084464457475839446496613870192017715448137522027466699511799806119345456951087024840184981159744251325007525096178450514,
  6994651980747124697011493052015810152824409071080435320054092078784356519238782737613946976680200912407494738,
  16603396032578202005280910418542985620385907759566732635585506166704984387242496267908106749930662079856468825672944288557866735516675716898722374485015658578,
  12006332627617045760909180858388104393690374218600534070906880950904065358796896762434058711918111613800313391757188779646068193696121290821,
  12006332627617045760909180858388104393690374218600534070906901323410172292410388253028157864631475303351897244184392916287170592061560913989,
  9672810220105649072726186940430467266494638839685450007445276669270230357459853698378402730933147062461937287199737817674743877,
  35375198953403622064449758633008431236536991944914731033571693774690759697389238234193738183500167280813410481145399003911057040168434102362196195497639860956652728812027077984856151090627338322575461,
  43909308229770613565224402375956949815172262781613394753071917118917221964553992456684104489148583266389002579180759756031331197210741029540080462849017852270500304980399023877894254833925117429162859738015072367,
  43909308229770613565224402375956949815172262781613394753071917118917221964553992456684104489148583266389002579180759756031331197210741029540080462849017852270500304980399023877894259983425857728270052076786352244,
  178908786947141513770074325342933094260149664734299958151335090343886845999298465084351352940850421454859536524536883270844475024216228486974704056273563353380250516786870643864714046005461703796320056315335716282531760920213798691796242233727772221974329296334162467757747659767210424205432,
  247410557038774650252140046102231453629161300526713100084552195274015482702129376608757333838751681242598087269663544367405505216529344993931417801292696572039272063207302657184724859008828466615223471593567256192132507052587198655644465681493699612293428703406959906220993360794737027337443248311725651722354,
  199324426443253726189405046756465875512363863276460394975900240173208461769970411532056854527636744747916467956424836094647079758179590752080361485543052214761177663758454026777404295223236949739925730581591305538964025222341235688114495027529361707962559280788778860132116553694645008175904129138,
  104228721609328009419524932486292570767891572061175944034625983196645835044188402412889133550346145499494539808090676935748071157132982385354953038441382016671599081407523640956237958745878660602254939299722830737922299654333398186447105874142584637792351551589,
  104228721609328009419524932486292570767891572061175944034625983196645835044188402412889133550346145499494539808090676935748071157132982385354953038441382016671599081407523640956237958745878660602254939299722830737922299654333398186447105874143967519387946582132,
  104228721609328009419524932486292570767891572061175944034625983196645835044188402412889133550346145499494539808090676935748071157132982385354953038441382016671599081407523640956237958745878660602254939299722830737922299654333398186447105874145350423325942546532,
  222069735393546295392330435451939709498830728442663843567390168379853625759465275132802926311494428964590711947868386991079447323544980211981755695381340989092005169325258732681027454159750964548648411762093992466516814655944212847385239953740051006405593177247217294302555184413372724411719477213069427,
  160584202438481511526735485609106709433297249050634010001988211547749998204218664806008150832995624726113296082024862195941229449297941757179443409884790176732905234650439672012072436169309462420582754710531903918086810735909430467280632655983565634254248744513548752251348181502394469,
  275643070523583303141712251043049289265692154852417385361400615381123937464234764032335850717759313092553440204179390742258882227797941609878919749433808763267817476884014378001388182120043900597620226399366507710334105475763140255626734867388269226793543377234382369228238491680487196358188612031088639452898459763,
  25580694730723837248412957010747201088946441714004312072575610641274200835327335099202401693621322890586467200145319374727027340500469241941343612215963041750147277829722937029361779,
  35375198953403622064449758633008431236536991944914731033571693774690759697389238234193738183500167280813410481145544266517777115111347781563122277292159068266939884317024754880734800651373996536037491,
  222069735393546295392340235678252414741571903742285436144794688672601375915723286196696939129970657453578141092059065409341146995304573440586413637682297613713094959931016917681922556138552426201648685638234350187071213605576983461934141089035993442431688920315813937647472538618862975362300710652215411,
  6278241806778278221452074996645864685602203035893510286980250874878527695387039456439758088783592226925,
  7792839695346377608370129537418723271789504606262502297332508358483334018627781928496739123743542882074503589462136,
  9672827582365672318584740243457640141308502045502314401710549525389110929833617093994945138966319779438553912578425977350455411,
  6278241806778278221452074996645864685602203035893510310717472271303103545399007990532599737726924750898,
  5635198083117566475769110283926449661795405700588011179053337789470989941225858259706131471204417,
  7792839695365210232090111160452219634930197807673297461320099149370832397383887140222294193369424262159433228812390,
  14902833678273540769586458545359020203676230178012041083961652434496793997183151696625752451084674613524056801360741718421882830147218323044140180242510,
  12006084792544140328924098607085318170866454760274366366550284163859910987471941786853825101210121221101577659186797189566439373311959826532,
  13376123140390937270138285347337037997980367645878794861370070190366293150074392529587128283943879973975096939577523206250491472813572413741531236,
  25580212609816004082441769144469104050140227930698717501234120686133093221104336841539550027179243803919200352512633245360624169900639680550805140434934479572030633249192330524950642,
  5635091876401162786076503697467895221825169544331402956653967827093369998801353872685485674266733,
  3282893101287033799172230721459847645854441885536683011604055654514,
  4539868749588839762992789293291239959314957111727769407935271157764133640941425983602,
  4074876448318337620448203854990557470041089234933245076338260436503053963886713,
  3282893101287033799172230721459847661302957972688714278092755304569,
  5057926791827666942126798669081109157162551151537340162871002206786038271314425829546000485,
  14902566179208576255411175968302407412995503257261823559582466419810156399725633073935800995388205931066754869641561631543485951906370802998131643646073]

def memReqsCodes26 : List Nat := [
  7792699817448236120308436710030027552835221283631423767415374362166294635922649959126205796661770607734736336453733,
  13376183165793543427780309312082095348578512086093519825280103274957247874214914116237795949995325664837011627699773744550273186671800516234641508,
  13376183165793543427780309312082095348578512086093519825280103274969471424690951106132116106481102515918648395594435339675738969748298331461976168,
  25580281484360936477591269231892305203929143601720282421019375384385818722076296009993007147729142550837056223991909246559658616994106231041784504856854042787163049729802091603361892,
  13376183165793543427780309312082095348578512086093519825280103274973545953706917696425112500314249997041475179398455411114204628227686829568950375,
  10776535909262005057005021168933648740241562296589725302927381473394705784790263714464229221817415447989636146439843937986113757511794,
  16603336427930973470568353607177793865698787014022296727627937760576632306135227275312717350383625156626635664978749232548738682485696918372616790975049760877,
  3657559837826261635678054212837628988668927892763857234743668999277576300,
  5057990344245100588386430117972254369668151978593323940454313904592787502598504824734744677,
  13376351236390689070952316320074111385717913100857032606849887022309032038977911767644167762367511169870567331502080581222591182761962451078217829,
  13376363241311733800264135934988731080484235738988052437761017697108385523317737761467155819002788735833090552129982873642516840467354042959528037,
  4074934963183239821942537011966812756041106947887903435677324769973444875452528,
  5057994883657504957174169241065769191695580243344090322239403204288127204744418877672849510,
  7792804725884397308504716864857949306050094601770013603801702892826408393510024879249739253075613890047536919674995]

def memReqsCodesChunks : List (List Nat) := [memReqsCodes0, memReqsCodes1, memReqsCodes2, memReqsCodes3, memReqsCodes4, memReqsCodes5, memReqsCodes6, memReqsCodes7, memReqsCodes8, memReqsCodes9, memReqsCodes10, memReqsCodes11, memReqsCodes12, memReqsCodes13, memReqsCodes14, memReqsCodes15, memReqsCodes16, memReqsCodes17, memReqsCodes18, memReqsCodes19, memReqsCodes20, memReqsCodes21, memReqsCodes22, memReqsCodes23, memReqsCodes24, memReqsCodes25, memReqsCodes26]

/-- The codes are distinct modulo this number. -/
def kwReqsModulus : Nat := 44474

def kwReqsCodes0 : List Nat := [
  1008027209276036536306720310685051135077075160306592126776352296668396043382462725297659227993027531003314796753855970634077394792991351328998955588744890446240328326137766913625552224898031564922522003389569142328193263980442554189656332486761560329486622990297801293411938994356940557648225479467456730460865328861233756904436580191432948648844598493515659995397427302961847661326303344,
  75366820964135663062367155567990935564094031680639943587856229857309971039597715125047308615706041354104222709693383176792772672218006697760425012393293923933145794518908508373774863475701756049964769564930773357140696817121349249064923103333,
  43907219622319786839942574468476113852794134539600517370655694876433983211366422759245947107462728582788414682615580522762292422941071690598995677463390129665346884234745118114325873093655209338099685116355805285,
  104223763824900975547356174171113925898315505677444808511476135707682794338508192975971114238119217744045943134692274472576620488046627868385876518171513429592573078636836412129336502584531966909435458725627473196439623555091470424606359910178635090785275805797,
  60718703928116476213513712040995353655675354971708265481123750572822719786288535039769076749798972283937783550835030139333327175145872545730585328540942504881886723616770476977796746743524402982973801268470662000016382236306702437,
  116116945962488075669016081918128078210424084661309390500337700505557893366064039892870707965810753619923489381988979197682758936461634693542842766801387005628440511635061868407842592342292850763457371308070014761650913295038267438891540153229351035696084641978318949,
  67647436670761703547190188749417415452031781078239839071705743998188665986541492350242106837803850158722437233953458292174879822038020079548991644413351753550728323995768910943380604995947732134794887183353284754161894881010868758249573,
  5634950267411155313566632126593637950973115709589034228776304517041364903417159170669602492186725,
  5634950267411155313566632126593637950973115709589034228776304517041364903417161936442723658891368,
  6277999519680915183880473816607773331735925194789127621660873408406395019716279466013340193545600172082,
  12005912385794675494880758855631361473805266909913899166384594006852648824115963233688983294041740684215618847828508773788153303458635907188,
  12005912385794675494880758855631361473805266909913899166384594006852648824115989751136774060261249100370228022392798640826874625008798597236,
  307087054890956995678502932702522965331337565489514016736503215439216276851081642692697451199587787205008944247375181635597784364268409682449813418280684568318603756909835166782586289879212634940703736372602267382305066797713247268032943073433990103679946653617133974388691675525273290784882379481700201249274938543439973,
  247402341342673739836115342289772481927726789575426250155195992980745544369562618206188633109539395337609310147322854216959617784057000789277195448932953791427477405440238854514784815988052748321481223379756671533066749403337989327972257813904426469625443243999367690164261091947060233501769468667569466376295,
  178902845970972457719671777457112944449498662773512602421271282485267634860200803689067891978034556746396808249724453340018125569486996374863453856985917624930761550149039067100995398307465519882551549569637991169891983302174859774641505514691260000002457959583870851160345797037211270381669,
  381170439898887354206077610171055834475453591189265349584077730356269817449474202583825857037263013755964471586759520562151681579291667312241271096361514680888165973254809877677940440000644326471921169924665771804118229403118679441538612435899610009446279966803118636487107298901013913374444145178564562182935410805175168216744591461,
  144131712037822194364959368798940536319148200494408525646782859223127509209659971871264965278301578758210981639917776629884722118519701262516622029549366199101087400506871764606931068212214058048010901700748787414530684744635367887385869570385894320004796670361513443021158219879,
  2970074898658492644933581829126979751803048445302087309036369229537316430399943687858629993808066845381345481579983115141758014725705883236855948847663667352046320376608584550116546575424117090922928101421074022940701386987752672086764953409796694089023398457733866157994913496962427755109926574695402959288547717906601619241150837175831593342872583268504791444894819858434691333305057997656098774228808177415891061257748372511962587032533175959667,
  5635005899503510225741673317594229224086177619400820432677623132604380230140229535687478919561323,
  5635061531550470594198542123137723388258910410189542472671261927414185167065665486673986358411372,
  20608429015002862910558492951661416343067644126141774036617336258773843465094163378742009182305321083009822194202126042830552142378729537534184583622621078764216247451764,
  22960098066762869603008143699361403884807779132664064129440369155322043276394625025670102625476507844427146109307054184477752356400094746463952454366222128249299179098620625005,
  48918877405359261918957301078852433274674894485337099824909865060422145250478801854914718402702359355368915236991314185937290144991233105079498359462550551295610673112997707674966854230425698577595863302648562535694454,
  54501108343839618015053356619562442140514596044847886960129979582197037089301438892182746749071530986128772892514867030322966198016472697166330076257555748560672094818209256400592374602910901276492621903557881472691489144946,
  160580887656699011180824952325604016910785808825688510812513380368217853652665334979565640695652963017087260060438743081786052611343272904105159911181788612744473337287125328077889201187245505117782266849560288751401830805771520865408689266792578343352036415000662223027139968889061476,
  18497660923740873300078380905941621711985647326852741165272369595866870154066315825193536038542604559446280807031287567229810263133196214069124265082436350662606963,
  13376123140563344242054384790182115668313353735691734195193896534119214579424276880734056917668321607800365720920520053922648935211027717348786291,
  12006084792698888754850237563924058702516047375686513147123653182011462587793616693662041155059028820305274638405725296624351327964535849076,
  10776371489310669622847826397995945382974106172168070308123108971101166299073716730151045096955269147361553091974348446677130616438896,
  5057904094533398088976181268812495346078360807763656700412912300107302378164984215424073844,
  14902499304391313759858253267552131407517487602329939821306845176715655011932785444406784667513320358813806841967515774500727241096171426079689364406382,
  12006084792708560540693916215693561533870001141711776113629725559317483884574529954365959311387626883791190082185111911929375922644952809587,
  75368850265441209391235033672452829872134460866929741994353257746016947837935932157256705090969270507379034740024519721030353912214592034608980159366397656317261316134724963807977123664775740362618626122222061706006505618198908213026776154228,
  14902499304391313813736038894513535837750225783459947656747423501716778482292025880792530713477213394184536264756148366723478612828369952546711165665383,
  8681901419070706266906135160686735959711094970014731569764472705651951124848457272816588694765682817120986023616916750452,
  13376123140574119849472978385039866582309701164209655524427936653851927961660989116770346423195657730541165668418404531060243061858196965549015156,
  6278100942302051365377108326667498103134672674611068249979591924729849600836810730616330214627979624549,
  12006084792708560584100142880643837048976854359534459304296100081366979227996054360924418285856479310420675228397438620842714091764083523687,
  18497660923755774742759634239642173142961281585450595094276025809087128296158168232978664020292290901676187117174615181497744430625012132912704531690930918265454708,
  13376123140574119849472978385039866582309701164209655600289970325279253087933686052688550366147999963161299692707193522998054820995047873847296101,
  20608466007087393710205421621996220804650879349729533471801908636021917482582599096514786275658906436837995809176577899070907727173930878829462963277715574066952508276852,
  28499170675359657476666871437459289161884305895111979530200512613412262947223896737895316830206804358525521765950478205604543430341759857683514838149314136666464121979317128075840113344628,
  25580166693617569397571223932117497308963825804866996792243968841025195803674941781342734689337162115232150597023013669993586355291970999619649470669504243174426794446223633272012916,
  83969340506931236677287645834883767194503468465376829919255872303696608036709786369878419227379853494647138622157913873490497363822256600111496570099100980607301141400563410369951369327253035107180406671735223495767019183697477204178210897140383860,
  527122101902714072467210089135758788805943318010635558800618868980969893311118374766650666942504186385322170055283651620104831301107963998597478545388118239291027310746185594898872373019131958275143418486210109617612284979667141383734750414488309287276887977692705408184637412922816437744741977710100029735868179100599550297032763693970350294295707764,
  473132056653831995766323393999668604957080902109155595488262283308114348746910880384243834500036070328047961116372188451524470880044343834908410056967448729832393251976628557002233503471044166363115574095073125159420493612551647755104289707397738546283452613489398158848207579597359102720454499205638788852968158291553255939142312178466637021300,
  247405449986133035973858473346470850803405903482580906440319571480231436420145243275937345402414626941016709223637972830229505799858458232580223195945973518540777170760680972248121879588844451261625039293719824228359535241683389253860124584341987649332866078729505482191099072084743814127179938182950655426681,
  83969340506931236677287645834883767194503468465376829919255872303696608036709786369878419509607083263190779711763512676186472141483299171680719703342448195053220253270554705469141020020976790286068893026994405890384005606431831890703129632593805413,
  275637380694950648974907411456983332530284157940785178836037318420983606092920857276641107760974964850510007946565749185832655165691906618416417625281760448688502335270523799353299563512486669379484337584732721410304634486117701929353547413962840916992266727752867400444397235055577970215520086885519102384015736948,
  247405449986133035973858473346470850803405903482580906440319571480231436420145243275937345402414626941016709223637972830229505799858458232580223195945973518540777170760680972248121879588844451347337016013410430378906875131535157042307778970121852582054242080743910857288214395613275326896539165629061148246132,
  307090913480812857430732045993162614571979943771724057163375208900638887351396242142193177849795340039531405973364259956926391143707446370588457519378659821779237974080421673908692839996746139266090522064197171643234541599542457238062342329074596797183779613080850044750021498660019368208352018293190305861871576004362356,
  116120072487755074264170452066416058292698155854678823739163101729929096359125054941915872372157967514321620505714127504872267854057928763904392123685400565557983428481118267917464038346263084990246483918978379059948024507703423386099737300346930935350927974497779833,
  104226570118403781903588195860394698461822649657017269124794546445895113201477997671612793302789995542927120887050967501357375070062909980239322548976584549451027749886114024368702642415002338176275351058940554504347879304507467279860316826642095690905286017139,
  104226570118403781903588195860394698461822649657017269124794546445895113201477997671612793302789995542927120887050967501357375070062909980239322548976584549451027749886114024368702642415002338176275351058940554504347879304507467279860332233555510830600820097135,
  247405449986133035973858473346470850803405903482580906440319571480231436420145243275937345402414626941016709223637972830229505825436076570363845417877565603525405180959892760450417485253062134075364048054736007400735630733994200895026754378275786916279594404275002478535507068902445939575583190912333382877299,
  178905093909124372048348918834596029495770706234994580535820744200896924842335946883343665312076404622575840787239747983378773178969322775660068106630707298550089041362925322502199527113647218936848860750170200472253654393748564667422238658491716423436624663536365914795190207606361771081844,
  93551249890858173957006293676394023636602648258897910735001998404016035372994813512117985716687366748520005966232270634691462860163888352552815649572560523045284271138013076215589314552758015510357442572147642700507560554511096981147619678832018232377451,
  178905093909124372048348918834596029495770706234994580535820744200896924842335946883343665312076404622575840787239747983378773456410147673218414321192089870430742719931659211026322846569563197026009829605523254823613827789434109017924378101714251225186886398193719984032181135166903593271412,
  160580887656828372774325129641002008322117261312143285895691585945485664674948251956126193158386593648193216469475015064355085894784498931183233212811718992732097598743806018628578497107618621007573975327863465145733844843194413458386308552754877350812625945707885581510829199073804404,
  75368850265441209391235033672452829872134460866929743077227309555678969472288052161612494533410539751111898724511999400586720437785025905073650839381160347413998209128721374833039016489650542825863828162445509268709319883447531825672819179623,
  31751268039466298710644281470930643566725247809414997738350753508753963096657510042450027331053748360422142657692783758342964940827789049630853057065959570090802771261951750748850195276005638260,
  22960139280088150381264382694125453553111200494085869995336168034295650530355064644616281644317639854095936605376655406539695795916428584321325727959979945284663861906497142885,
  75368850265441209391235033672452829872134460866929743077227309555678969472288052161612494533410539751111898724511999400586720453369061728203322873482979192518800435999278808684569212406144082003968204706828118160802661133354855194798482260072,
  473132056653831995766323393999668604957080902109155595488262283308114348746910880384243834780664631364535619950164800589400574458950166334352363790283388630057740998900529417623159033427067272257789770499270709907361992207096412733568754093867431439894849278007035069413865798234333447683135970312181303027863718078754038702852624775804679946356,
  424671897128683647394807159423530672820219961825342151855704169157243031891686724839373271969662503737986504005131262018002296410908567840892445095541012600221289241028307223711044341526765057963463072383450416033003856171638410441292037150544497772104848052045396805926031992062951298171498792692989567394959965882728016266645032319385716,
  48918877405398670244728460164963500875523632924952936503133793156818543491211326576946861118297048474612657419014196396448383579263481735938134278851021322397744015312454371247369699527182840711113128984043335399506024,
  307090913480812857430732045993162614571979943771724057163375208900638887351396242142193177849795340039531405973364259956926391683432382407023105365761734232768440670894577979930904556506065907734899543419486624769568747887377737099875287828680147992660825961460489352211175488163468758082857208215997355522747130754433140,
  275637380694950648974907411456983332530284157940785178836037318420983606092920857276641107760974964850510007946565749185832655678632294066505975490580600723058759506130961680630766526620363040461730547215618021141113952535687361348832290824205266607143027690940870093046110336172081826604765043418393633071198175348,
  129370766199477781298603470692618927536594527815567933673686481594534765402857533211447776400289657503315889264862178022708252310794640254842579902129183667607948924228870053361864405543670411471925660741410699496122362305234630142645494537108448404567253866313970860556391,
  104226570118403781903588195860394698461822649657017269124794546445895113201477997671980123590895872376313835801651449264701494214196991646986492735720171121867607364045442363054183795193015108032176006265589150653728632716708188962860260570968488976584949432436,
  129370766199477781298603470692618927536594527815567933820430381468743098413935287328698792046454172132068763104924010322123727654645754476894638560574606764430522646191267633741059967483794863742737526399202974118580923803835002323564605285849616198464467542230516399145076,
  35374468737985876989113321718141481165411399287442962000394322649565349074245257901145081779356161692786128350092728550276570601447721127600889421555771875479408344185931747593519655149090365439737960,
  222065151426546914469872394648357481836122313988702129337938171509909912384786102102391798334534097281096688864231092714825222812901747043525671382722767813708648951097801775018654576915143149023733432793725700326505033157639346001661689792538472599677803952841151453052176816445106221488153686291316852,
  13376123140574119849472978385039866582309701164209655676151940444399155948053703423089527340633743602230076774158753013581876354211368823994581113,
  93551249890858173957006293676394023636602648258897910982601881054978319643555350428556589757001083616097894687003816524853216558493264309779286564364427824215024668596384956309232720807078910210783832728382502054618454501893249274977269846514802314510452,
  39411120114614921384095021086042041864158824882931653339788180823625671362848322463154387081919461908937832998094605171117175586510358824928070171706923987458967833765986924673630083500744560871856466165863,
  25580166693617569397571223932117497308963825804866996859946391619138049757015584067300627817053407343050093907014588465756682997435279794216497090156559062297045242441324979071221864,
  160580887656828372774325129641002008322117261312143286320697227090889438388723735881443192411342872474568306118892026581738347216082027356121650358383799774709903964355575913502171640476418625437490862445779531519873886297043681372142618311456627433024379815742550051574030232006754420,
  67649258122559679270338200892237791058829328529743637333323996809119048578972855610728134763154895555641446528569101232972371432776902430757810265393507106225506407013221381909575790641027484729392015404951541274561439720289928913748071,
  3657500751045085628634752593033724871894082239959929919485439198411423856,
  28499196253069827471698823028827777701985656544526778711025682054323121290586212933555541071388499564586238632881133277441581219611396528751275688342643517843513691015026821237598924832869,
  18497677525214649464802336323470146229295068630166921115439558473558685654322595461653330667882437792901050678600362295323824869417503095224895496094541828030595173,
  25580189651551933263171766419200024505602360036088632660832745474504899927158314150500017663327227127367888876191642920247816812630362654743303344662730660524101763528294498477342832,
  8681909210987206260170675965165417614675392284051364922999188703910216264689280686692111534759763494634667999530629529712,
  13376135145505939973424294010404726819120425329600039119331270915632905796913571294351869415782939851936311519555229949244472980164018045197680747,
  25580189651551933263171766419200024505602360036088632660832797561775864887325976836197026345603587991986706792453107234150248003643932800050868092358522621587156832038686719900713072,
  8681909210987206260170675965165417614675392284051364922999206382315408950132948899412689439132289738232652721845494415472,
  6278106576832548761857077484671042644714737971509975931075457003871450826953531563485982053339734802553,
  10776381161001021105131581638184547959480978240109844028959559997266778919686282175389512009620142915355883955077656539919486452826233,
  12006095568045169625480356682081063096233271629045258550792193307674885595769523206987560018304288704654670423847092414699138637686325444729,
  6278106576832548761857077484671042644714737971528488129065854176320584546500098379008264011313044586617,
  10776381161001021105131581638184547959480978240141620249899900688544094393372741604514918778970994236243039340132971500012552381071481,
  12006095568045169625480356682081063096233271629080660819856478155915238092789291894489325204919304371470900884201839475518344505135495184505,
  14902512679421994493517343434741484902064092635313150568752886858287884703711548028188932088736192423174701700355044254155739923261624143462417864458343,
  12006095568199917929870059909284099451540222187910936779875030214437367929280677568770819463454677087837061361666765489124416782251049746547,
  18497677525453068775964482403633331494095638780964902122928542634421652566016208208707057269326215056703412348921083609776064180564944666464630622531651414674178160,
  6278106576913468186663960373419535856438007791818992914115856594748087302262869710050428876048582377584,
  16603068206296197129161594528766705227208430374114004806454416283541751282301841624185906863072543923152280610343720826477691284516053515834897617154714370149,
  9672619234996050165919474153191319451528283490479553887392971409061418418850043210275155433043870209597786495044654935915233383,
  7792671841878651945777200479182320814135239071640951281317541460398193399516971319632820179761194790653609005678707]

def kwReqsCodes1 : List Nat := [
  12006095568199917929870059909409989200791383998595321207437206687414522213700921027375008359848369669356854621190786121314214537583817719920,
  4074865476817276998776839111215181626421286966683977911575536355533782523379824,
  10776381161139919442452877187760287296781159895624437102018562441848061484572043608435631731581764058522540306485304296287739795734629,
  83969415869693587637430603072754414849602148565602804272682334477989919446642983815829067875736005399685508636320576133450532870019378805735173936947738186194970174220199355885282499903122287022941156691808944729984567755633589146168103822903476328,
  7792678835664329511296154027533282850691711045599903501863008087202903286010273378605885217140987481115154773377138,
  20608502998989306331356110674461939834981829240323002755792511339482808092016540754323906008532903948938854211631075438443725870640944348351344039401080522673339130314855,
  16603083107257379763031461107301248497698498941625222515237887718243318261869145990980900250881942508654280778071436591507407658279812200199594556274018222195,
  22960180493209974055439819175746140713431275738594741246261506393453870289012732252881315570978610684360164743428720718875416350423686157711051118166167972821846672439091593330,
  18497694126792733882550507197177608566267870052851959906896713561570038109540385719027645627514724019038539975848233037381337918784399421690011346865115935057117299,
  20608502998989306331356110674461939834981829240323002755792511339507918298296804419789332660080005725937411694532619033743154137674756071463242484906994793236679864090739,
  4539860600571036773171712269495187190545652940794545375895754013139561795499703074917,
  4074869133956942195236468661362241763079586620187058051867385415184369271242862,
  4539860600571036783019292573247609895148124408589843620282076499681888024970408558708,
  9672627916063725771446006477646408800761422324675171765288517909492024124385181232139856376120301959213120182590582975726026855,
  25580212609816003897481014459549931063019029875731233112371415449645537651072406241807355519742272995606910951347425917596215683041010441572168661768215457883995990327989022359683187,
  39411190857266186439362268480526406940919415927791895905378944186160957901146701172307529125176317488304297576828352787720509610957104863731165617626827311453795124364104814052897753902799562983362721087589,
  54501206172945217507658057860513950807451311812828621895876424279075166836441125774624516765849517352897665994092027482953719753605020792285695681442698481785118735474386630587248676647385524888392304086697815278569325330547,
  31751325032743211780304131425713380010342981241270350067347625520162617619304333040871031358790373860769068175251222918669296055703748376160537983897930878947829414311755139412840580064925974637,
  60720447811752342519128844438785524813662686720101744752111081633040927371127274195943951743956444818342897645693142848014879354365839334895746562321190717857967340002185502541989820857176568885112128184923378307986215245286867060,
  54501206172945217822919818150047324518237562040532500100628196835722914187377278223324003101982964745324435645332913430619972995862031227467028954289327031625157380947503933663751777969518835525613338860835695430967651926128,
  104226757204279063296170955567157448728822789592204996537647662641358431114248445408706099291175264120782144624960471392469218145724790237157753799286742077140652304159671728823579307640267856978598712380394738997335178471517652262080080967884510984176730767476,
  93551417814617438189491680878724444875221512372369202142735795540626464048720815688823115890660242525690545138155294434014908865288938847402912632919080018113665685460413072315511643030743638860903313473326504873240013994569354124253289586580622954922096,
  48918965214399645478120528411907711718604199614161323188896804662119171310763440500886807701544337324678322255408840940472055780414053938183998035611571254604907131137113871169153695077258811500360551388363427339698292,
  43908480668370545760319005999313993313602402284654795199133304965855471721661233790576537818050911689918358527157809035781012842886580467838061196371254644600279981848426254424289205283902167376673576254793777264,
  13376147150610167117650186879190150512740403675436013692311691552627458470784436242647959809891125525524243167841746655161930083144088978692833390,
  28499221831147327899083872560131638480101624649290511247834710980729601350047991670710802192883813461274494214763794878222569424376577064933462822724411919737518040124165695932528128688243,
  22960180493357942509774183564535518173712960429317616996025614212226497523435046405469272183289659133234546470481440629731600633948526613418688664009666389590522748436552089701,
  22960180493357942509774183564535518173712960429317616996025614212226497523435046405469272183289659133234546470481440629731600633948526613418688672592159920002076466816766247013,
  8681917003015608694988621963981501300575508597465453003146223754396588661820041524788665974810335097360916890374410666100,
  4074869133963507412787606893822584124147925218660997282447125678602705410916467,
  5635081761478168782496332323520082066492018720035185130346218600597411174539306472334304210452581,
  54501206172945217862327648721949084168028207378738605412850776891323987258613055315155404296540135686465524055223255903437482603630449209937198702953895400551997770961307045382028188948058429913429484564083509389567460704371,
  75368985551935860894529616607908222447563844373032835930775880501683554082299660649503001034444369936043509012364676273157901819734489978807497760652417552722120227705832045917666197707442189299730005286601666279356769516444545087841461600357,
  22960180493357942526375851056285233822552337052404431304760571139989439446464602306993247360011319298091656585299736589212761923879785582657583651131393884269419241549230964857,
  48918965214399645513492044535871693481470630761304613371771219492586012230918485138976516092224242882641533396304191951471200923812371835091264360541806343938725659138782625545421072735107124823918911053308826216497268,
  28499221831147327919690618432673606875001277562760914409013900763238927180094027012022641206681129872208911330610041469336102267331441228258915078761974972509020098806693288775076665753701,
  35374532234879605188556228055234548698071970409089970592739492830987682437789881636035996567534617125923654765528117861760678014316696898428334163640823353977720445514927611571153182276604567100129394,
  28499221831147327919690618432673606875001277562760914409013900763238927180094027012022641206681129872208911330610041469336102267331441228258915087284383433019544393807271129254734924939378,
  25580212609816004063945652172020054424511429338128405769809409433915914360579571005448860802756930965835491701561460130881008612537555675065805857765444301969951687122780868377182323,
  60720447811752342563033581372908138060610242179141225153722004743946750092667908283278417791626923649919477936212892081104528415843106167285217448264250659550972855835191457684494668092706987388606979578898551568052217598816092275,
  83969491231238365852926180218269845527500249782128358904508577777491667805739039525539087488486885878185305912783634212059839849151555052011328353130410261724403668171036466315248165039541378891037141726951101508776384517795837404742613411010183269,
  54501206172945217862327648721949084168028207378738605412850776891323987258613055315155404296540135686465524055223255903450037712405131770670468901029938603666886060018150823978951665294584589687433685280617944074335274860660,
  39411190857266186695832756351073473519106359096412045317018181836917348856130960609287336207849127355397054858132062447210991418334326251268050990260124715691159951079760179897225015934604053509787505721458,
  31751325032743211803262354283262857502721423348002687874055295007133647638468916622418568840057926964186414620368614521492297927373928578051692511528759918837843211891053906093921045341873438834,
  83969491231238365852926180218269845527500249782128358904508577777491667805739039525539087488486885878185305912783634212156557464520301143041270205689260807281000003298457265836876260773517989241150159245206974953521348674710223442515144299178623077,
  25580212609816004063945652172020054424511429338128405769809409433915914360579571005448860802756930965835491701561460130916365132017040205183600802976134806928842751664425681911218297,
  31751325032743211803262354283262857502721423348002687874055295007133647638468916622418568840057926964186414620368614521528869691677086046638420890923237707988927362962788070164274833166408745061,
  83969491231238365913640524432454103944363308081547726135408606211679432853408019416221930066364087627407331321582441285354333689419532464243708626739733115509164778044050699889560079856976107812739670029179888045669997363324255722604006165129592933,
  247405894076973859937942977445086098820234864621137615874612283587675118570200426278449794659625605742917637809870610817491673507776017404430533038267101762055401636541099710090208833726432761785184196745506321134028626951785485991729525177552674646966897938416769360296736362674525595638808725867285953446003,
  160581175898261307159810451576658096257318679097354131018013852366039407564630329595695177541258568908595196750909831839162986880175199870836332188491360352859756026117365789354390355021560286027817422003809486568678705440252694839673574007464662860729947378643408508966563390546182259,
  222065550031750721595264190175750821120529053291893109377344722602103844649550876642967488600450947250292284626564125346289364929241232163636404461301423403488580832564412935401329577241376950649827109890252702405845332857921883656169893366827564967884688770616024900779320465522603988323893735540981874,
  527123048082749572866313473752093555271876774175497385191362713413919741429333246687729090966059978755519651268410597909407072845505767425647185293658430700490779042109643652260515215571155393966737956706221276415481185983980636178506001836416273970999684584886805050870750194827271386413246172541990231131255660210579027668465737211979892246992126052,
  199320669763677908141429398638333328355254277210812835134479049325475216719280356591588178388214961557089668387526680752284658031904541162501081095348962584990181267740059289731489811833439502177363774818198441813610600063478253224244863502807034200079778671529535619797040796484282380416573767796,
  144133781790575190968062862240652731733720379187509093356874221232730109328891825593562566008855993749816173554283439940721373539126653453566274141829690398837014648070842011738824158069925841851041396283502052013826390220220684856118224107525679696594221510782938395296514113651,
  199320669763677908141429398638333328355254277210812835134479049325475216719280356591588178388214961557089668387526680752376490387561029528143046486522102255046648566279893278520521113525688016563244026727539814388025031342278623618298866535408220980550968636321592839202201276288759723774738497650,
  424672659411405716595979093029448616933816165891699448775205768778481695882658025152943489375446864068250061683429751446620413356154144699017038153432868688097045924763712294016687138010335513334407224946928859480520157189712696906721579305450109899955654972028038514808956081739297181656777840040071369721347452943701239542112548967481464,
  75368985551935860949025491082546450008541573574649132642512999305611793746725452226427533344152356044115828225101350349259238369978938825853276989626855862937552770421092907373246501025480386550601136094023260117844126359293579566223607529573,
  93551417814617438324778054100994348725212058977094297579189864077744802026670022952558509719227241912688545068738803524261409314604160344623270085849359703465945177853217515484447649594872740714394844039355778252997557994269133736253794787061867396530291,
  48918965214399645548863116180667681273997506260561522290830866937361408201619542132399813836618614797456691638052762832999795029833775153824411562047461825070954021095564021846818070851516074208497192609623867282030707,
  83969491231238365913640687920957990511916269618399494466615442682373766754751787030889632029120269697021973615524115640313908578853975493149046133467155639169082805777727811564537841149947008316548347901229957721714368747498696243519999592032567406,
  48918965214399645548863116180667681273997506260561522290830866937361408201619542132399813836618614797456691638052762832999795029833775153824411562047461825070954023740138301964441230278581025826207094469975263790891123,
  160581175898261307159810764228024860591884276704882877615424201975431883853879347697746722900601736690090537193013083617550265751037555122453988226768811845961496497792329023196140940252671994035008690685497676346522143581913792637528704557130774794796331279240550004211943414359720051,
  67649379552447025926500649021414768002266893790435012496511122136384666664325895624881101131800354043503551012017957215485730671583232947722739715241246717509148813599671132469689946200761991418589622489474472128700906080852987550302318,
  31751325032743211826220288647331914734248142638285791102323469601047116683317335137288325799156411824900847136120337099901465623127493572508663874034435521606199781564778069845866215115297325172,
  67649379552447025926500649021414768002266893790435012496511122136384666664325895624881101131800354043503551012017957215485730671583232947722739715241246717696576171866390690905012612507150062307888140651746609682497524083628759382360167,
  104226757204279063446895127410567015846943457451088482064546377847384416875537392612065238198276280070589780583908462362185793644794817531776815115189906350047884071807672119237529468849476276835145534641367170583358171051159238523283040328075210756598043836517,
  129370998418987669972195921836370025887012472589628246970088174385704960440313981467546409580133463491482987242474059984234883435477332377558701028635165854197174745377434265310682250708374293611309533683367627754134410359401009296054721196533113634501211673629362232819827,
  67649379552447025926500649021414768002266893790435012496511122136384666664325895625104618973531365503930854509539197376039423449110585524018879689471581472634070775727712823606173778600015712082785539659792810196935499788526705232183411,
  116120280922373755934947224189641639159269869267747090929895894116305147454038715557813226659557982942004921625899424819259538929189643749962931041614456943464548219009789200107962445217170864082473097289809865048851353631394636894954728067085936932290443574834561134,
  67649379552447025926500649021414768002266893790435012496511122136384666664325895625104618973531365503930854509539197376039423449110585524018879689471581472634070775727712823606173781244589992200408699086857761814645401648878101741043827,
  222065550031750721595264622537124066316237076457262775002301552941873414173738142957200916230662115125099733582869339829217627947283419118952923394385720916471488501607795676358261598491754101379565737827178769871721867690739144182482380484663072905932286330181432119004715796698136431583734420454310003,
  93551417814617438324778054100994348725212058977094297579189864077744802026670022952867609538606782864370710111648076999606676568239833635915253686514377683794702930950992466859282999775193314675697092354727467091373898179114273518003699667836729930219630,
  43908480668370545823815842734543458174759365540054790084687057438894301651557062604622735596704468184165275467522143173166048671885103137579226245602224558607291513014647952875119894650965277646415688307873874036,
  93551417814617438324778054100994348725212058977094297579189864077744802026670022952867609538606782864370710111648076999606676568239833635915253686514377683794702930950992467046710358041912873111019758661115537980672416341386411071800317670612501762277479,
  83969491231238365913640687920957990511916269618399494466615442682373766754751787030908128179296023927555919851252695215795288338687814560403203714025593678444590719660614742293811862832763427070974012310506035097574419889700986493341597679445999727,
  83969491231238365913640687920957990511916269618399494466615442682373766754751787030908128179296023927555919851252695215795288338687814560403203714025593678444590719660614742293811862832763427070974012310506035097574431905222742870072254287953723493,
  31751325032743211826220288647331914734248142638285791102323469601047116683317335137379246394027557076815958833692651296769502558378624171946009499774941284311837730482340827339880585883467055205,
  7792678835733382699710705950957807343614321764618167871237891472530425200953807235353378880036226127832351565414515,
  9672627916102685850513192945675660909602843440868283032944180098199934439512749459495406119708809636591463583681161123754541167,
  16603083107431254417569256224107550050361038204155044055420394573617823745857842152130823988322338455378066877108525378501369807961032661658474257320444362866,
  7792678835745937808485418855947101493223337811766143199365898710756049004464557039039536829269385386702807155081317,
  16603083107431254417569256224107550050361038204155044067975554059570492587375508651389140091106048097776607957177304172521368423241497778615532470497264402543,
  28499221831262118869124620792124319812324530446134339587875172537288503982798536821627646427931199702026435650755983745480117694743310423490000151320207731978539428688745266299712432963698,
  12006106343584885909151955361764096918449719404003394147657206919445365738882981966691030444817796879093606850028969324593390078384071901295,
  20608502999205127472305774673002462159112321691065942377421388241253631675749333423829968561703207818051954911650714998049469640595483331045482976402422100742094175797362,
  9672627916102685850513192945675660909602843440917177264105895095441469254689985556459517151759607156094486081666124208337584229,
  12006106343584885909151955361764096918449719404043853844172584750484261939237350540009035695189667147240381287292950548615963680428765610095,
  20608502999205127472305774673002462159112321691135391518810146424407655345135647949524058670543052135609575964803738231418435836009508725688934692624644605499707578318962,
  9672627916102685850513192945675660909602843440949773309717367920821750081564295363448956372185004671587011488763131095295459429,
  7792678835745937808485418855947101493223337811867903816544205963769672002989813654796968389173307944696043854430324,
  22960201099770886207959324066937295349077563494533987955317663292111710979296828172619927763094142695480571625147320903871517302636207155776942087550804097859461122885231050873,
  31751353529074733371007374421208973336477554736561461672624308413492192296606272160588752557491260521775646566079617693276306773727020681920261069814685516811558025263649563051066122856866185331,
  18497710728311213706571154453447906607437759204827252236711859751492505876431876616761880932503195143946517072897824094524044162142789116844883773972772762984644723,
  14902539429051174536150131275864391010381719004707034081665228426717887097950223717075521930910120764202080665907425520155082282169078967854278579585145,
  10776400504468535517862867922722643628295678687453852149612978139775381484553025171229627547107101385992310958800521343304656873062500,
  31751353529074733371007456848210959239486303962779636637971297349473826548388897229860161463875178092101073055579146966593966913755341918738910069093049639935954285270647293225241248262613500015,
  48919009118427241338666895474881207001277378730563912369628830502944235493067361003031086927449946270168535692487938769146020855920817457200963589110234003748840187963011485826664437114333753077784046034048667102806115,
  25580235567667941574922044861548511942621616932472959030267561239227319455609628858067431606277547992692648874301869477112735816101322234814615656979174535110666686517996170454499428,
  31751353529074733371007456848210959239486303962779636637971469756484429088035253237365004035183897624685148193528590812625169141418348031446278421336354986754005216095851987012543159442324389987,
  16603098008379062164819338157913555548645421014690850812266299681634228255962843622476738595873315156561483773746785866722222122207111022043102845473867432036]

def kwReqsCodes2 : List Nat := [
  39411226228464825307774123356904990972547405238019402571627195515493995134240855331876389638153876204022918640078131788778936249870887572707105890246012213743967430818595278967544704067297856534749602185332,
  31751353529279356567606519531401408375859116540857106330836926634781334133626426145522502829691039709932921807560846627800606697326843198551651267125252280275306150310262865798621371553719124075,
  13376159155585089149000022940174862029830732302991071730575677378807124079029996922473649153932034190875304214438367458267287929700846876109373555,
  4074872791122868247168206488419867143257920780690281838619316618645353836839016,
  3657507316250851123736398574308388333720416601464019633305002705066655845,
  7792685829575558282888717300213477835500380047896870187322780620105493520504891573506051117666090706433646890647667,
  8681924794960084389665714608775438218264999416277224206608401080672915884659149663511392555385186571879410529591748198501,
  18497710728430423308651756624554956894020888712416014677974877284157784897929035942547234591964641559119655079443836591702137781729314964273066758579287133619814515,
  4539864675063480988589064867226435022709368637005736447372903753300390306507052023909,
  9672636597162569539539248634212021024227655029675599814789550333585780472853945600752715171997497798939003410825669440815038579,
  4539864675063480988589064867226435022709368637038246804128712088172358175014873989221,
  9672636597162569539539248634212021024227655029744866387485056059297172772297700866943955321866621449598109853095910404632412275,
  31751353529279356866061191157926405369588840512440885372976592282127420039441045332840195488022783348912528034458427432979468057290253791117093460762022523439117782751936409743820895698149507187,
  6994526429636839279074920026246526103107624000115483576246751328438413470319127778553211257741201824579059813,
  9672636597162569539539248634296539795940595511653906190970794359031652272418245894866481453090637984833705336752778253799587952,
  22960201100029830633657352606761158344317559980993197478441269150244826780506175894645090654192860410314329777214764224033289200907552902073533673252691146914025343408986259559,
  28499247409087079339637435745318082312285292563939523618060350740483184878155431955464496919096045559076637665842462549813616209026203537607169656364988533874100202404757637161703562150003,
  16603098008566311381840773978158986397906077894931850066737890827875686795043408366010659081126417453793151876727212151317071388153197933269664797720741806195,
  31751353529432824137242142813087819321104791868995790537164453484181202070971504606766461591527933509913990943167077636297947581870631139453305769320933131842548427559503814296442722166215475315,
  16603098008566311381840773978158986397906077894931850066737890827875686795043408366010659081126417453793151876727212151317071388153216421546125961548425134192,
  22960201100029830633657352606761158344317559980993197478441269150244826868391914779346540124816244441568462882115585031643342459595484412978040501011382975870359952437960704110,
  31751353529432824137242142813087819321104791868995790537164453484181202070971504606766461591527933509913990943167077636297947581870645871316146965389889509226514943541378746360690195859145818226,
  5635086818941935455855325199623980239214876247369439396469812981612118149221898066998779786035309,
  14902539429219244907011839005556879737320913781497596622296901097246602786786257586009491436811427114312859989177561128526651877315060915141269636644967,
  22960201100029830633657352606761158344317559980993197895136179818419670236248886913915113439906833958584248049826998489782098882579712862989339864835746313813238430412278333561,
  16603098008566311381840773978158986397906077894931850368060445075255607123992039533235659679620921070500796106853817313679792472186790414041257525645469155443,
  18497710728519830306245388378354664653743936255678313677260558583683174964125019148452247276981823615727246714905889243801447341779872299702807147354768063860244595,
  25580235567956434666925260427423887645304325385544293693345959569859175646247719897435794864761482595319182271121101573260179871044459406963120163111097580861802151578065328414851186,
  54501304002094721579566514455056352476490732709686811901074559661219574069572888322877917466977624449007241675438913992799518917428697146107642027349569027085703642592532060745874615422998311431993568436411505601313489748089,
  31751382026071280775383493662417010231422674885307173692440638967644416449744992199548702933709592651215445673302976984673107094793515620022659488640545580352108703947807227855204343334359466105,
  83969641955680781766076592050382559387298963606521444024486247723970542714198476823558021013679684234755128348039931792848854780599920919622259016601332451972210824809010411197736174095784970155232851979030543531645987800120184248603528330424418416,
  39411261599980949015285526242969949421578716969583440979202847276878325635317767962451142261287836801421907799201972690613336783313582505056593697715352357476529951165818660098836138548150793146918193397872,
  116120489357179523648931258304758976570953596008673628934709091969927176695671654858902315299490309745053495607831261847435721384509178009962412488155881441927189486694208384932717545603076050794104603713937467436725786075869059648191223385512919187294951230770708581,
  20608539991190048013682053079964414427165718296072816825836578467359669994082588176789528486457490080566776758195329756204739471158455604870358149461244709035891269763193,
  60720556804381754448454008552551742970288214180792268876887632926857125127565276173189187074161574903041247623013718677993419198094270580756647669677626228078979950291192399235837972868366687727722238053266361048530979874227290233,
  67649500982443365212075992376500527464113742877390836262967034495406645390122004967864151589568300538377090471771060143776604249627203985301757664187850410081562425201169734194931758991992200818582372551077757548402959166770167564992613,
  75369120838551942503156408018567755654098690304615659370606728735746488508879607198757065655757118449412377019685799358903240113760663486472511834763654396076789676665725614903383811874086415111370829072746312807945635740229738500317477339237,
  67649500982443365212075992376500527464113742877390836262967034495406645390122004967864151589568300538377090471771060143776604249627203985369372637052587016764117106388561655319836249554866856803352041799928214211191859735340567414112357,
  83969641955680781766076592050382559387299200052655961492705403765239991805604876935421631931866874749911722186156185295346406649622120318324789889335482190997669061575124218690235090846271587330410243807325629365119919955151178075431879762175656052,
  54501304002094721579566514455056352476490886177325321760188951314461315493922761960955954471509164873350130354783011895151784799228343326100884162282924037563111089452046324070626935517793146221288863423281401097235199099001,
  28499272986980914643575774843478043707834368800011817377673829729835757763265403927189641591363137687417670728758127704679130350902641124179946377495384408577324866417233374188389310595193,
  25580258526055652074096477592448554281647059541600680521952756751417952381147859395814461733975702341791193999129466072255088075370952120717379561407024668948388504817585441048035449,
  25580258526055652074096477592448554281647059541600680521952756751417952381147859395814461733975702341791193999129466072255088075370952120717379561407029818461454347379414614188163188,
  31751382026071280775383493662417010231422764292518765882274945787966775753147145700129105972636768055204275970958175173377647301050486485534380773830580760964643477248608397754268494509181698169,
  31751382026071280775383493662417010231422764292518765882274945787966775753147145700129105972636768055204275970958175173377647301050486485534380773830580760964643482398121463596830323682321825908,
  129371230638705993451558102052431632905418252756633379240701588444640075465228398259799763138662032498627254374254649664219845067171824507473376475911868804218302116484551997835083768193249178592828860145851250516727866201323843024318898317753896047109975116244466277744761,
  35374595731830326767224054891222740102950878771526272022111270966947776761705142595538034211849044111013946281527834683908435265812888697825965589384742338354775699625818352932126002177589572640374905,
  28499272986980914643575774843478043707834368800059837471319348798623083580981979873714445153418092207814902482768835558195312145108248427183859917999142167261304993046801700053633239023737,
  35374595731830326767224054891222740102950878771526272022111270966947776839079221000628709401591205488669451904817012247191355133807363347821306645670835658815883292188093320520648229942779502920925305,
  54501304002094721579566514455056352476490886177417154198271812799456962588547236607671629812291086626280184586814793343443651029066614469292015476787538157260466268861579814873142007843116421992287042221286326626234114703481,
  83969641955680781766076592050382559387299200052797446858733319921464689071675866056263961912051978644463756662508697132593453061691495407266328115670298701514888154331977289181013841248857875273813075366669850893316434822296730171844658781614178425,
  28499272986980914643575774843478043707834368800059837471319348798623083721237763752223495422396593794812608958332821329758054963378860472385063508691818894890996164757101335157998043201657,
  43908559483677975069317788213607736289974072373717668862565058270447687156853196468054556262475805815707475599459229528045187336410489415561545318218067514257018827953514046229035096372641880368614492944867721337,
  28499272986980914643575774843478043707834408924839748697233671672629558379181099200132779926860120869452900892126018175690531623958513871986130877225091656561310595311334267921910161670265,
  25580258526055652074096477592448554281647095556676302469799869019119763882967869657770394746414946950018448980112867033257895973719952362962897395616132302000990118041002593555251321,
  16603112909741493462164410225580100340025689039868816312990763917209521191064373716784167010397396550308498021126972900660983450737394488395198247071126847609,
  16603112909741493462164410225580100340025689039868816312990763917209521191064373716784167010397396550308498021126972900660983455886907554237760076244266975348,
  54501304002094721579566514455056352476490962911052744055899514299789163349464349619038251355968763368456800708297334938537390456905575086279060545750951323665359581037222052643185784881021368752740351854682359738571093180537,
  75369120838551942503156408018567755654098796418656054830372243141331814064409532772826522544438377934275307850494300982257147945059169913619346541413509951557740035117907753991652401052971743452317423423512807457872220409970500195835089518713,
  31751382026071280775383493662417010231422808996258311449649002169274352212229522667867864186820093858719052473647656043100385289496167102793817819475126355776021186528258083286956307194320846943,
  25580258526055652074096477592448554281647155582078908434006002479393086281695300040734033735723519777982842191317373027689240609582972928326457895581396902270198161454506316968296564,
  25580258526055652074096477592448554281647155582078908434006002479393086281695300040734033735723519777982842191317382875466951854054998945031156876144705777566893695422320378872397940,
  22960221706664726772619339521025313686278538945885968766161752570112418034897159337244245695657239640986803852990697590232639287905487279720707210225227057982175330092078137454,
  5057922252341921446027422465127289825123784410777883139987530708287788169927171180086820980,
  5057922252341921446027422465289340755380207309056532255332403848543506199050574563323805812,
  3657510598890563541613333565863414755891655470651948813541814436193501285,
  20608558487174207823154385788575808177327638235137422414227895711138247951224829053701044936702157710908389129168498902606539739378539330131440238369634120700372431274087,
  16603127810889925781252643947911561709515794102297018206568679517040158031612116674036242719338592682378905668352394540892916950170442954745183523410239684723,
  13376183165664238208515450290645599762831606813800732439655107685323016724162619575487716206715671592423371432768337696762430810236179208894414949,
  20608558487174207823154385788575808177327638235137422414227895711138247951224829053701044936702157710908389129168498902606539760684545182417851036691144122103553048117355,
  39411296971243085147882724570838013798934442660384081846828364289535850629233188327345911437534039818143708924118874437407094454127322609322692344784244601405145015809234483893238308929514469455324687237223,
  31751410522658581832477562331583258891618719282885595942486796413325813097203508360512728211142889570534819753285376933025542986730154398540882703716254868358651601320495259735339763346445566067,
  22960242313262631026270179059681770800058849689425423960760269346765448294002960023937254972385810415035336937721591370768160524868552855169511067150436517901220212033088258163,
  13376183165664238208515450290645599762831606813800732439655107685465624489999067461822363540818298959050121167413479657896445957967840272645488743,
  10776419848074948189995585366069728955587500130925853172471111702743718299085882970771906611276225711397962966198300120337235926188147,
  8681940378932962443830697869802816255027380036323770510483217092707629353489477814806736918118123093526242410335410847845,
  13376183165664238208515450290645599762831606813800732439655107685465624489999067461822363540818298959071427173265766068694767467969243453262332011,
  7792699817441958577190287918748068814350997885125224201908568032257374516921390902473608671504352557952159083004007,
  14902566179196571237387566059015190959332186355913887968585785951696991259681844117996751724932890276416446226608234930781836304574597449572405064433779,
  6994538984807594368600542780930524771612726445029964852643691147979174938318934166325580299154408063484887156,
  35374627480533661610595360810066478871456860802815671789780998287849704005985599438779605934136928069754819299286995380533776368188776636886416374610727934141730844365699136466733199864095495524909171,
  16603127811037050374428335997141532430083500805359933552457047158449681586944191916661865731649361282484446526106678520812596463497224802722326222765486833780,
  25580281484340329842695246480832772636431302666125610468757688183722466158153242590158805217755172258727226327151730474379132726888255648163980168385476461218022483053866625952579691,
  16603127811037050374428335997141532430083500805359933552457047158449681659575527872755920159092359341736582233203772808326471175155191939474108954482005180532,
  22960242313466087648903563089557219235078073538500267898342077083562932773503240778448491011455955642968988799193697672374886302579154366510178808831442944223930723614434984043,
  10776419848170440822714980092974702737002724666749270610063703891418599138921310740443528986395123044642035300149463659452739616243828,
  12006138669884866165876631901344232015727579583921363377919293269876158323861899351657020966090647586710720344698947371988719001492282802279,
  22960242313466087648903563089557219235078073538500267898342077083905633613905546516956676772402178604302308098588244490175255976523825484218716030101543118757389755392515571827,
  14902566179208576255411175968302407412995503257261823559582466419851011584008068847953498185840344795840745129289398371215461518300860815235016002175076,
  9672662640552603883784483464101090384573517865155094265620774058869167782356595718102974877919807344900405202659832691353911406,
  14902579553951135349652513353537833564456173958203603670371753017420229122230615302968263713231663168583124752073959714862140101550846479231568979099758,
  10776429519808705454801203733988510200723380730495254378578094370315037274734078276298510540000758786860675706058784764160646700925037,
  60720665796717679982977057256717651462934191394507847322777605750054838268106410807995943888374012915376031734556034578962422578993378112515261105454330971344486776880501116468605886066208767648014770147163789976673954312968536179,
  12006149445173116451659509862455138899045638753012041853864032833984751389853760683080500228558417971083505652700128557827399625816247959668,
  9672662640568188346235595442476443007824954355248383686133400019838928581648684015794444665324382757156183198982879814211666035,
  18497760533194479179762328047202302151855610839139710980305625405886221428307642609673889861530444482974769337208434194577316691865365532094612235298796775931183220,
  5635101991319617275389574604406611186307527727111263693804533712377806115224627199312317800382564,
  13376195170736139101119729176948238023976438231977774129315774749329754804494605376155284990219100441823516224730758805089469966193086583547428974,
  7792706811290411742928844298615090729888188675112964636694051667102538411362806036451741540909131929466661235982437,
  6994545262316905071419071241145495901568413835514710044137440102164359088376061843410175205746939062656761970]

def kwReqsCodes3 : List Nat := [
  6278134749753081441918829741664658408564628632765730379655936145516915840593628053002298530310178340964,
  14902579554059181406226703712788155376952375460091128822558576707412427289252341657955155165295212154864948598871397944301025624428675096443220561035374,
  8681948170940383207737940579218655972336083736605498509098630726403731033941014634325511149209223294399722260338778177637,
  7792706811290411742928844298615090738037184534952947736940837838927981238817135028031730367202580360324245469331570,
  7792706811378297470544419006141221343478247468451125238257329098289824396408584517775903570593876846848970925604965,
  7792706811378297470544419006141221457564405279926214497627324882232714521670836295053325831385143141242874216906853,
  6994545262395789176083211567724987709008155204817546981328840963754271086546692244201682385567716532464517223,
  5635101991383169652078194021441477235690348344034501610292238556939656648195322053098968978686067,
  6278134749823885907416140897616207086009445374268966658045906483166366102474552530079348937467919990885,
  28499349720524672207366781689501494241796929608177997677582501317116235492876913363406359113935662286296670309656236453153218227437412008365894039956473915100390694146300161458184433959033,
  28499349720524672207366781689501494241796929608177997677582501317116235492876913363406359209723540511340196443275368135291773154385440305771656685046846811921857282629658912328167787331705,
  18497777134742761247146758449893074182652786739080015096573857495893408376016536215330992944282366537496574284842242370137779961901642825899789359850649023266685049,
  18497777134742761247146758449893074182652786739080015103567762447426150122872179688758401144228362456843216789166340998153672023337207271132191798174032761099387001,
  20608595479142527218581169350127272663783661539449913826026040132630026749857873388267191338051519932050490081387704428032440524276349917598844763802902783375399837761657,
  25580327400229664708186234139387686553772807050079343782999221968054516073526942078816601317019211791562497400958408886635339274075273289632138243413578382294997829931739520888471673,
  25580327400229664708186234139387686553772807050079343782999221968054516073526960911491032548520920637933164943053314617554104185521267858224301020852813348076899045536352541177282681,
  25580327400229664708186234139387686553772807050079343782999221968054516080520878417749397495381447392552924457535427702124919574223864852945187922884360612646166242886714438859358329,
  31751467515833183602293819881653888752716860839626405552652425373263043056862910492341217109707688926178826165475455940689185369598312916208390272185749095978810129701683568679246575309539246201,
  31751467515833183602293819881653888752716860839626405552652425373263043056862910492341217128540363357410327874321826608231280275329231681119836266754341258756249364667465469894851188329828057209,
  31751467515833183602293819881653888752716860839626405552652425373263043056862910492348211046046621722357188401076446367745762388413802496508538863749062145658280911932034737092201550227510132857,
  31751467515833183602293819881653888752716860839626405552652425373263043056862910492362198799450942685779170704346241931586704149234407172216845080968813231582317091941428787150263222297060180089,
  25580327400229664708186234139387686553772807050079343782999221968054516094508631822070360917363750662348488298477188522729595282530082072696273846920540622040216300948386508409405561,
  35374690976999939849518772255989177306066887263757853943076698937456835967786738001619181673427031248396213385997115915058885385672040793901793055690649510370493593658772875770705166819081771969413241,
  35374690976999939849518772255989177306066887263757853943076698937456835967786738001619181680420948754654578332857642669678644900154153878472608444393246505091380495690320140339972364169443669651488889,
  5057935870676922725796661766646624643318767574340833617426586804140568537224437552364454009,
  7792713805145142389805324573915187432169738515810342535800898230083007689723959268879356185756627951398288537878629,
  6994551539831850289562741065454090281919360147823896559890861016344465131393817616675736759382341457651499129,
  7792713805145142389805324573915187432169742173035355248107076367711739524020347034197184427327997957544847653273721,
  67649683127982839317457677179899276159272694968506360396060654820275880832862614850925132588658655687847424478960903672363465674247548799890158313280657196057900105692631887938125988174867129219138766084843163803093685200249361673879667,
  48919184737493200330435518212987508148626187514504017383251157801677576203904831174830309768334739345332220980515665382804634846044903957567201791922117053143393892559998653319948571539971635710360929708534049424408677,
  83969868043020841569821951716393104898588386561255500439113204992471431478503414659955739335161762801975947356578784583385285115365411894016187034106851157248460054327752872770502634254703612874964026326576209451026666148248702986831417644186534003,
  275639112382553325175806488003527418350133460981796519592770384408988399922763872804627369689851173811649902987815334127257403974616615768503076694780253092189208822506280573776904927400255712019541391358869690482441003391326189745155822416025826160969938587042685078558666605239986678755971288224528623967996805220,
  199321564212075255962845909775496622599252190550285532580484042971093395806729067670565320502812580253174722534636723824240921784888021663057254956613575936363832534195783935372044569909294370909364045313256543971423836097134425945822207487849773930870084575048617442373253566237733210824509816932,
  93551837625146035843037474270654154884776104528533488105221291040572331467378396313632608662175741879073445303746880390192407257872638837695240581641553733717754567628007315722192113229793690908500163446717214970454878023352746476341368470256164397711461,
  43908677706992834051186521833520784399258052614552232974109566903217608466567841630671162116856060562543884686466813823122645487979650019937271205653620742773347357915882095891831192531948502266286514807842013300,
  93551837625146035843037474270654154884776104528533488105221291040572331467378396313632608662175741879073445303746880390192407257872638837695240581641553733717754567628007315787384251996060509589665233537915196704485765861042717371512120941585176545394803,
  307092842774751250218268117962585941681973408153431493613304250539302858867808478844035238851505897728317950224563960164035549490258995604586599526696155519209339883360944035210591301720343510669394750291953799366768728643355970075579436759176849944726242048536127957996827260252854718198685867102608915785063482265239662,
  144134428588673346634833323878990846474838771239769223482193428418272956021675005224785564022913937959133477993391321641813155554631882046308097998168184897555903365794550538821525382889501937508739946573267482298519750534143233670223141463804290885833243552045061732563911049337,
  54501450746258024406542176069276346088635310598930643247735352245218869714443407973203832496290416035736135642311507583161038438462458898651238303324773303954395405044494152690364790383699515625757875534332843740784744398963,
  25580327400621191492559610171223365905455751018116989958116480395918329152045101916248623522496520469337977512642340336683079453905421705444477809703856331539594810004361637588697204,
  144134428588673346634833323884196491603357964726527569320341392113808211532137304672743827351629570996465035265340163036822995120747571406489870340504866531751875591729852159404410980288660991084133890506482414337321665779486556460894707612375506427481436224585269084098522251385,
  342135821249463664883175129451889330370667071387625922597173932676092176612570183501285908515232020072960728773061084058427066829366724977585364789761867290382128287127601527309301868820073568718173681550350680152857976499315626600835952081718186523114571288242232017230120852881306801863890058318062878733519923016528204529767,
  28499349720960876896158572407082006635659117678296355916217068206857361528243384488218151766039174926989926784826591561164117837260347643279254857765388871032339355136271670378274238234740,
  60720720293815020087621516864893608493501663161995816810020928760625285375298212562484482407647535850893480201788587414903409558329500366733709214500969129236380657662973782754406858066804818297629643285696080602300358380591710323,
  28499349720960876896158572407082006635659117678296355916217068206857361528243384488218151766039174926989926784826591561164117837260347643279254857765421381401110674442656362933265868587124,
  9672680002921715268502691244627209914829268759981000237928206911934237915263286014673558544459265271538740455642841296360767604,
  16603172514549221548703791048014829031119227136788776161408771307615882981446747134459489580578230187332522524732973482108901777198420894439270039324371255412,
  22960304133352279865809527087865128075304982234553919393969893371680543356655848061115043906043903155881954588979078712157824957370195778259428058051738838893879930877266886772,
  14902606303988487287367689287984357973991149127546221709674405542365474011092912682601651595556434746437105861139899188487562834249601764472369931681908,
  129371695078559514231259823901068927611643135679885086873995239952713544455119716880097290420722679396438132491212655993555384708304260215201699470750095258949087772701475832622248235050746115033808731839996522485825664861528034972496299775970834915769538605700386029240430,
  75369391412087683272589911888208646244328379975247627939255954214052088287795647994468928447599799106145218748967739403109182176927870532788419218811564106317567902036784663700598039349173780540673376844235548754875049049499044541404378169459,
  67649743842708527753574067856919812590052328648508972113446362855845811092417681520770737993666524645767408257848169127618392205566290043360469341333334625529181897364703605831907419854712794172106024795749708849958340580479925970927731,
  16603172514562596723444999601268650628290297356105079920923705635893060766844637782451955026868520428846520356556269225173992036238095967366386128410496991346,
  31751496012855309382626233320999061912573888197210495077426761391354498319130645355988627691630766582934057929903509127948591112238242855937965727911348399442149430732133344593724025523290832996,
  14902606304000492520900052778597349843005278963071109476357588497290273120516283625391302693866074890896534959282615649373917356939499480720579719069811,
  13376219180836839133677810470219645639760884868910046275740310217725213551704212525662862166340614669706936967991212024693445542421460480990904435,
  5635112106260768810426526987786862348209197792032899048804170343282667673996521542048525084590194,
  25580350358658587626334286722899639028583188563034098380980157205276702001206910842212091992438954997375018490815997946214818114604631703443750696711577678929224558867522883841097832,
  54501499660657155425855741688431859981966088726632146663240894225594733640120410938444257183963163646639811154597176184960809433448535031228204986638955795536018481733255736801387539492007862656648088621912198803028414693479,
  4539885047620788199210498317759639121195945352997794547435369687535897734599945814130,
  14902606304072522607491387199356319565002207036478338013432820213835095340129822444713518985564386338071271940417862296185956597057084985116515820765283,
  20608613975508523636922076223002974024955337568327538563662922307066230406388492217978049971151190578935251684627578951885670489839339898454776613925425969728021668626540,
  8681963754969212432458892706160777685974554167098848614660571906083651545649051603754192719648449479349698478852879482992,
  39411438457117089610206325983710918165275961082709211960829447073765807412028861940113542382447247671868633881446331563536025276096931608473809893833132570925135389506757265570984260129034272605275892416619,
  18497810338226756605398624610135563795069333383487252755275738583481504042741717427290695661446542204448641856863458865062270756541068143553299290546584543217778795,
  31751581502796257259760505659592922185485633549820640092806334083563270691746371296644162257564881728759105617901456274013152826381959106568701712246108331165998462634435155832269105095429062771,
  10776477878737925702553033557248563269769878761759721312464445952787502468579804586972614010369990536394610254660924752620321338687609,
  22960365953404936820037236000870653534309081878386056076151239532057618217800517492659088932606902505424194529163063971550880936597500084038890345897704503673192877109906899065,
  14902646428888448919802859124236828461648061977051164002875966264446789009216447168956145000145993343512877033153759134764586051807428768812384111362169,
  16603217218181767602939402984621741431063645625376426429572148526815340996636154388300068618402652935927818457161000897150842497067799896924621903770609123443,
  16603217218181767602939402984621741431063645625376426429572182334332118183855539944458343744479062205901283594852310841444845268903165712124616726069248262259,
  12006203322436467915047394456758241582971283741446124927031202249235903842449383339313528274307200394906715381296995384727285089511517454437,
  16603217218181767602939402984621741431063645625376426429572182334332118183855539944458343744479062205901283594852349192240845336742544435591466999506747523173,
  10776477878737925733721021276817987404292641800327188787364237700544300852496758680311525430784319376126911165077640575629095139672163,
  39411509199768355035930589498755611750599186583819931606881302767929420887052737249161040526946913104268516401427548917963356605488144108704226894181939596910347293009645012602622367963706957918298234552431,
  39411509199768355035930589498755611750599186583819931606881302767929420887052737249161040526946913104268516401427548917963356605488144108704226894181939596910347293009645012602622387992678079525826866774124,
  28499452032605092430171580539753061064134902687349977902526791142995108117038721643998323753291172178395502235626962867232004776064630903479504338354077671108512381082069275742187450400879,
  28499452032605092430171580539753061064134902687349977902526791142995108117038721643998323753291172178395502235626962867232004776064630903479504338354077671108512401111040397349716082622572,
  28499452032605092430171580539753061064134902687349977902526791142995108117038721643998323753291177235918281958834741530489929651529045154933090658578793099863147948442722768180191309463663,
  28499452032605092430171580539753061064134902687349977902526791142995108117038721643998323753291177235918281958834741530489929651529045154933090658578793099863147968471693889787719941685356,
  43908835337572321565790700927637612118683560963272791642405741989383382963316099202137305183557894836437646797511031440046774785706355717373490667243185974250506793518937771419736620064507125273739105322479779951,
  43908835337572321565790700927637612118683560963272791642405741989383382963316099202137305183557894836437646797511031440046774785706355717373490667243185974250506793518937771419736620064527154244860712851112001644,
  25580419233079881044429626949313050271548015538249276466393675988585625248663259747671978897356098368705472104654616234213783359378937252318644672562463023257283887854302198348775535,
  25580419233079881044429626949313050271548015538249276466393675988585625248663259747671978897356098368705472104654616234213783359378937252318644672562463023277312858975909726980997228,
  22960365953404936886443756955596071374824089084624594714349792470223483140530987681374923613924014809176472860855072980238115666052329489972334241682507814694914997402626031727,
  22960365953404936886443756955596071374824089084624594714349792470223483140530987681374923613924014809176472860855072980238115666052329489972334241682527843666036604931258253420,
  28499452032605092430171580539753061064134902687349977902526791142995108117038721643998323753291217695551244870338020035070360021942324065017653395789717451012370380162687864736155364884577,
  25580419233079881044429626949313050271548015538249276466393675988585625248663259747671978897356116526481399419751353575825733877691223202889524029711301423027819807796140987485388899,
  25580419233079881044429626949313050271548015538249276466393675988585625248663259747671978897356161921053639167247181810073187574809726044988284335794819533200667008281719283858669679,
  25580419233079881044429626949313050271548015538249276466393675988585625248663259747671978897356161921053639167247181810073187574809726044988284335794819533220695979403326812490891372,
  35374817971414323726816145503105263878855255650975783051328145435943083717842314999893224852570525209436098127472355983971368137524293605305702355775694364594793877638743941618586717656153833561522287,
  35374817971414323726816145503105263878855255650975783051328145435943083717842314999893224852570525209436098127472355983971368137524293605305702355775694364594793877638743941638615688777761362193743980,
  18497843541382925467646024138002897589245180354979381398132598180092853534676253440939592068637419673267370684519278765320109437344265549582547077912879133317988468,
  20608669463577213858610047244438684238949126375646788568236305223619609237225230073592090798773772907023256888071142703788317767589119443578692674958814832647426146173031,
  16603217218181767602939402984621741431063645625376426605343626296182837573490145910769825716478612269922028202298582876156175895472510815376839557680712515699,
  20608669463577213858610047244438684238949126375646788568236305223619609237225230073592090798773772907023256888071142703788317769719710084471193912669343564114227779338341,
  20608669463577213858610047244438684238949126375646788568236305223619609237225230073592090798773772907023256888071142703788317769719710084471193912669344946983410931138661,
  14902646428888448919802859124236828461648061977051164160644195822487180439210910492634336329272651465850855391826479632349508754226691733655029959295077,
  16603217218181767602939402984621741431063645625376426605343626296182837573490145910769825716478612269922028202298582876156175897189007980765872750422607855732,
  20608669463577213858610047244438684238949126375646788568236305223619609237225230073592090798773772907023256888071142703788317773980895190979211251301991186345825366311027]

def kwReqsCodes4 : List Nat := [
  14902646428888448919802859124236828461648061977051164160644195822487180439210910492634336329272651465850855391826479632349508763470820975476161912307820,
  16603217218181767602939402984621741431063645625376426605343626296182837573490145910769825716478612269922028202298582876156175919503538921205822611410176245869,
  14902646428888448919802859124236828461648061977051164160644195822487180439210910492634336329272651465850855391826479632349508774255675301240362572185701,
  222067343758387871823873268319777833909465854193656439621188115113634634730833396138455764804277963419479875842520156837665887120432365234089164289765400848695091637083703833277909651089500819398818692973142906520327320472668573765974953637478960829981768955406822124806397912882541188510400711532609651,
  39411509199768355035930589498755611750599186583819931949608947204511057159317096154216337180085340233768984602084086917923782023199849167055148837398720782574764715350209046965017117277785675376140990939239,
  20608669463577213858610047244438684238949126375646788576028389577218705716028559146108692439315222928753665048943104497662763565025937544244797422440211674473919236407417,
  10776477878737925733721021276817987404292641800327188881077911348156832484479860046240334659854149274334485435811899089391838632738913,
  18497843541382925467646024138002897589245180354979381405126603572067564878927819495254315898186763502518009583178459504851085537988956700203774152111842166021947503,
  18497843541382925467646024138002897589245180354979381405126603572067564878927819495254315898186763502518009583178459504851085537988956700223803123233449694654169196,
  7792741780802612393374488602613978823400628983897059136500361324246575661079345952677521244415142849576539069218913,
  13376255195966338141769282733007838046487302871750025286428454407086400965198704327373210480811936600379061601300800868201809309300994754453307503,
  13376255195966338141769282733007838046487302871750025286428454407086400965198704327373210480811936600379061601300800868221838280422602283085529196,
  7792741780802612393374488602613978823400628983897059139446774090414108211496284774303803592224388870345615035465825,
  13376255195966338141769282733007838046487302871750025291485977186809608743861962252248674895063390186699286316729555503769169962793432758312370287,
  13376255195966338141769282733007838046487302871750025291485977186809608743861962252248674895063390186699286316729555503789198933915040286944591980,
  12006203322436467915047394456758241582971283741446125067754412862882578173769247575971298839674008933146889075993601910315167837624189714529,
  20608669463577213858610047244438684238949126375646788591612425400335822624451987617128029142468788266351057049620177401818861987047091530985874953796602167293672778236015,
  20608669463577213858610047244438684238949126375646788591612425400335822624451987617128029142468788266351057049620177401818861987047091530985874973825573288901201410457708,
  48919360355613374324306209391892195312770779471913776960193129447028779623986944183204608049383540924395450251899570445858321812064320340154090057470623313060648558675213041966236592592848825909513108808975124604125300,
  104227599092229150141104503690704600684161883399117947589012222216866358796081903649330688855546836305388726424840719855254427914625108086978622863718689444984941630459903284264843535815434765738584391894075881240676037001582661243429496693607018189409877164133,
  275640101917089168563140336690320734655167068222642610723765830043300477214277629758395105545480326014265905112986903362387914994438004741813511084083653969850548274501706844057827672599454477606088712794378328144713404748700969014164000652176626563172235104659533566184525877167662138425853715270078086343352975468,
  93552173472890652053926807799130249637524668434697721224627525973031758742462071721093291209094629898420200571708107681304161641420048969672420788794421087954984793403831383709740398411988671317118386444660441879179030679021678542533140799858620385788025,
  104227599092229150141104503690704600684161883399117947589012222216866358796081903649330688855546836305388726499346863265033142134645773597699680069845330067143704018148729390567626294755577522578457399758633534222895908227866200326095204379257606291943748403315,
  75369594342254666223173651514860283884329931148822326877476284935432179078870675073057860401164680624648342605998180613371282255541421705040551744327381451618829556437948533709074538853396977410187188107679231876996508143587308279960978587763,
  43908835337572321565790700927637612118683560963272792107250554205527612685247932149734145264913707889687437464844119722836485697142044401298587102245846677380110302261611496415330750122189688221392728671187501157,
  48919360355613374324306209391892195312770779471913776960193129447028779623986944183204608049383540924395450328832411912648802753014317372019571473657324733429309449073288507494276974592515103377537953894533809819680884,
  67649925987921022503279429280772744467638739326766363594931465539759179578777245979809804042290793586864105768539075219954184383009770943568452564195612437349377147779975584801961389025045468682617388691522297863051476783140364052594789,
  178906860144534866766947147832637048450071298734533429746014304371488524790247953350816033971279795555163657998861935282830373529949246368787752398236487897665283177105024927565758353500506886365400803226932430179040727944757435070570857887155761233053518983816505194335942750604002766684261,
  160582472987037987892552227992012516201307677086804046402887954147777355230217386897202466153564269620256902357089713855366761627151710392480964569304062695371096601692670869325308724347737827404606362041637133590734798606206050262963560115280834631575208761616116401751349926017695865,
  178906860144534866766947147832637048450071298734533429746014304371488524790247953350816033971279795555163657998861935282830373529949246368787752398236487897665283177105024927565758353500506886365400803226932430179040727944757435070570857887155761233053518983823371198404445487792119855841395,
  129372043408658087914642194685597504590076994652634324140878918032694707252582601933165226306956620406966004163827387673534409110121530793659573164127276204406461521903122911672276032524403999482728123608168650887995815412291272668215932875008682123845559755651444764835939,
  93552173472890652053926807799130249637524668434697721224627525973031758742462071721093291209094629898420200638582732863231173653082503408992340888677320295306716156414297800548990461579198593774216546551851686800389352221994294776483016608260623883698291,
  6994576650105745556438211420946887587065419799712290282514035444744209833308921237194959269360219942741475425,
  12006203322436467915047394456758241582971283741446125085912201013711579236318614923098602507152344042514707169865740226195923185780297957487,
  12006203322436467915047394456758241582971283741446125085912201013711579236318614923098602507152344042514707169865760255167044793308930179180,
  6278162922673614103822785699235703041584167300695343278277077951459852474445661848146656937764851941473,
  10776477878737925733721021276817987404292641800327188917748464032466105371051169170837546371291896555363207728656480069728766154637423,
  10776477878737925733721021276817987404292641800327188917748464032466105371051169170837546371291896555363207748685451191336294786859116,
  12006203322436467915047394456758241582971283741446125149464549180774171801894474327314033295945013682177939526375683609316350602865807851631,
  12006203322436467915047394456758241582971283741446125149464549180774171801894474327314033295945013682177939526375703638287472210394440073324,
  9672706046374086028802329816767064176934313426591930580200186905439978363842184324274594950577800579212311947600560407853531233,
  16603217218181767602939402984621741431063645625376426737172268430663283234970874066114772320803701622715512995086200124004300958311766361659323100382852677743,
  16603217218181767602939402984621741431063645625376426737172268430663283234970874066114772320803701622715512995086200124004300958311786390630444707911484899436,
  104227599093152732927206300845382831675473216113092154620987860941795885482585933019632114026965927097091866810723994249463308393096549275261684600313081400179364399257652260758945142684438561424821130343207624409720464215132181819167918284451399938750626922600,
  8681994922782084635483690548638338826115534009643513930266112317117905399712579670611056505171818833593770229976625250414,
  9672714727410593877408005444524556946241229826551954591876638925848863820684854540366519923981157583056981419165663851345543278,
  4074905705708114994209111510019256069003028982073466117607762289512083607453797,
  8681994922782084648038737342666118368821965851212660233457699194383016261178300379205797158602338132138582114614486499443,
  3282916672279744874681450865955674899625868312176563785442997829748,
  2130808651820848759955163842789638986334329,
  20608687959461763946255199866871852364632172981803871852238225942774046350646138205605444479732641093739923062112955630228746900178994509208924302008666844783110163595376,
  6994582927603787132514945190887259281966328530453040237714218867525073183611797183486783420618609567361990768,
  3282916672300901635083333657321234550823895905089498692924532850804,
  2130808651834580758847943273275570676629625,
  54501695319395212042428609478569114209218620954497210579977099388214308131085201291361032886395075978234110741447682029871986326287967275593995389997007661797122761670556123627553061367469350691992009810556673762182696796260,
  25580442191343951956179782895528958652617867237525468405439709890500013622607278869887439019414868116462274988701452686680746205907110201634660505364619075851308255091435466544578670,
  307094220841920782343596845751216539510942216238037013066835564849391865174732690630135441424156657862499544756322342232403764949345068394400649830499624657461291803893267448018413720536262241148786771887900134330884591979559191334975410801570062750073884939801593299007457672675926760484932254758465461021186624076447860,
  35374849720089161624795719926044583904719530618688655951486609839975071542041310384999002868037207752829895584850874001012089314819449667257548273386797304543881644435436366418414113339880976598696052,
  93552257435373183258882609082266684716178939110398558517640597403614264239576862809991412261887496440127316692470911649773104033451912645250439789951535946073412639159821206425262239523768631219003048849326992351825208979414966562936515868425726771069028,
  4539905420134209714153052416411648921396428613841599296975530320014060540315727102062,
  5057963107436564653054485533782678786978361649157822378621622132899849711511992426892427374,
  5635137393552365918743838987013687828718047032020609969084817190152795480572001262749656324571246,
  9672723408657485296922823298516116290486392330708458234189803770456099398635401811638755501623956469995544464154854946054996067,
  28499503188461637809654618034246503803366567005283575183553131387184801646798401626287691309318700363688502488006703443806769358150867126805214355479793828918476126929194619522254084636782,
  3657543424822160305581032319957185618798256842281425537362000972888801380,
  4074913020115466662371495080052139988391767757304224189956910789918942336778343,
  3282922565076186510495383157130688496868373754307744852029195026547,
  3657543424822160305581032319957185639834372460525197089734361215444844645,
  3282922565076186510495383157130688514033388547514429126017350434930,
  5635142451061526923946808346578009608600864313997792618344129446440937698981133662918353017503844,
  12006235648775134829004206232277029545227729559629362008208476814038682854053548265464403848996245205689383577784996837320973168369127915635,
  14902686553812419952534885606066005016037088034641831003207484233756689873109501799220797458118974101841736692020645220867543002491749665750722316796019,
  16603261921841062818158568023260421405449539860017716021623031334560899183944297253446300773150574111397681637120568981493521945394749767507572205840504651891,
  5057967646934533443627584714061544436515293850945186778294401404767523160839779059048513636,
  13376291211128163014611551576184777106465854296182599716020006162035984499243023622525515022176809926829346709320361858560831178776441988650303603,
  5057967646934533443627584714061544441804508875573348064913671384499682804526650322869157988,
  13376291211128163014611551576184777120453701863886988457654976431465311830857211751244832702806812432205374799717048634110091239420105040038920307,
  7792762762523743109168897074083373317276513883521565290526238055489381015402014689081724732737861268449205888483429,
  6994595482791445661808631029680169978666807045736197721718874468922494760004974386712625422116889491239469156,
  12006235648775134829004291944169822545914047847653668790433462854070674538754357672925460862930450702924623642089956371915683203749376622707,
  6994595482791445661808631029680169978666807045736197761387842356075250711442742572248353676551125862017532004,
  5057967646934533443627614257453605629230019067098722026541645965595206141898797127486013540,
  8682010506880852482842428968129674467681222951194832798927489988185899222766123598130078870624097935126676153890500444267,
  5057967646934533443627617540025551338931478689953022403018960574780414548094172912985440356,
  5635142451061526923946852232752947059212384358903110804436419508129479799721893900755755287838820,
  5057967646934533443627617540025551365377473106230865368961765417035558626313633382346915940,
  4539909494677854150774450059986174452586066985400011971833137591051941872304566698084,
  12006235648775134829004323112059627590405613633041224698566024663225680578747507431771501607914275752204129874927043725442560403466871832692,
  6994595482791445661808658266407215735969293287063798207850444524002408759690128513565721327060601193850339428,
  5635142451061526923946870518628533455752266571184794838060397155538679982957619582980773005099108,
  8682010506880852482842457141055264643285885805762423822769257528428902258204487442860416405157543244181862449943478141028,
  8682010506880852482842457141055264643285885805762423822769257528468571226091640198811854173343078972436296686314256203876,
  5057967646934533443627633953009027991233446972298530258357474626943022022731431133659398244,
  6278179826437059884292299881757345541294031075649162382338352621226575174792547362574675325705286713444,
  6994595482791445661808662805864439755702175549753639600111746715539982121138484826234306302506456207285682276,
  10776506894078095226516137056374788794207396288698179726832540477442818150149977776010583729435632367532337987083905815747948730122355,
  5635142451061526923946874175856828742950598911538557599776316193429038129908802895071180998770788,
  10776506894078095226516137056374788794207396288698179726832540477442818150149977776043815906717685739703118202628187851630991479079022,
  9672732089842040321364581887974269009047022461564169245850094494487823621099115507285901954817166098577994710019225365304377444,
  4539909494677854150774461845510298256467947427385799270145206444120568014638925873252]

def kwReqsCodes5 : List Nat := [
  12006235648775134829004346488151828693092001962569584737649824139546177513302650848311925683853749524716047174985530121209339445484610846835,
  6278179826437059884292299881830489119139255193474182289215616123076660893648403283087682750588972826724,
  5635142451061526923946881490195245981866419635052585778976077404386528226353307819582298884800612,
  5057967646934533443627643800816202990478488418997789880489412796381457061263340262130057316,
  13376291211128163014611707836899001388508065217698043126944345546975552381963969998500071259753574345657900536892858979661327821110208828200910963,
  3282922565084120173992582397462304981560134369740447055884118261875,
  7792762762523743109168993165804151724476180806547933391415181755317466298025613136015456737343897762742347541184627,
  39411650684880395690637704474469303849998683923596569722788230202042256981600469809211907734778394646642359144370044833418168488020941961329547193418269559699061409190770105291677416685182120943291568160883,
  43908992967833467403687754207459945050929733743486021486995040726857703010284862620100040626071294881905742551664391216282060167228285119851300258275829182916577337397830977633075119863808511029226243916429983859,
  31751695489350084133740843601168175090979820113806803020152568038922190735162095461000962573075152756485851151311069889514805437249918060780918003083844943922982953724626703427957514830995652709,
  35374944965030800934410278746184677886961709346633524926388217882979679764332912498332416230073931978759080340486982943306254889764627554022791884447450911023388840198934636254632370743985006259339365,
  18497909947605856368422674323524041230414317269658907704008684014137692062591465916314034953101935280254351469839251690533099210693373947355931591763960544219824235,
  18497909947605856368422674323524041230414317269658907704008684014137692062591465916334407466523272962859736934076773419814947843038905587941871739333071532736053364,
  35374944965030800934410278746184677886961709346633524926388217882979679764332912498340208307433594736350163613797822881301770567148872302738743126722802440470729208812768377334373255681288445194076275,
  25580511065353111030202664783888453832782247553143498043178886876807453632195296047244824532784185817044642140374876031189860299947646085519584086894260327090196281491258504910930027,
  28499554344042685236081151267707533076548695385927808891882116016093705781072365669800581081182276849960795482457675160429511555394568409443987865193862946938963135010263412160928378912869,
  54501842062373090794731949959734063471649375377633173327421699810194228328090324488280415247027521480263775808839890082272245167340126244673559995980149358254830530550321003021382391764709670484409625193015810597371117961317,
  48919535973378880036057371215581614300581427520422698370919350846408824541958370871402888800253045905854865442432942337091771771632185539844097585501409469006937103732894111797424913016985757375350803317083766652207216,
  5635147508457201991565455752565119513348727071263598679736996257452543012890854734579432197849204,
  4539913569130069508179777125061898515921246453165478437419827647773255089600458784867,
  3657546707382320536116673953552361812933375876188618533107302792418623600,
  8682018298762383378224582086823141971415868752574864088802602851267700740673138734824596034461951358209377174474506698866,
  25580511065517964090876041345567817075909421362292060626732903629933307873474771833800940337913745027612333639202387951857158694630026432387949671443722199380760776915938295449583723,
  12006246424111744382572158220846887252849184654541377698790840850354342900851563132849322025127685313351175157655422925921477630033661984876,
  13376303216059983757556232339744167251046310813868576321402946047427324964732787134250278878253429969571984097270300267544519363375518977535115379,
  14902699928651020624098489124497053664397707433460747302590879026791351871108374939713846701608685370259782352969795993302483726715149803679443032342631,
  12006246424111744382572158220846887252849184654566665040321750459044804260911638268190522028533423901342041108081970965532596434620264874099,
  18497909947725065756504586358817963683777137646738891511439591679297889237689219349991682830105781618383832507510531553449100755844707430089326311656379054598324331,
  8682018298797352877870512543787823315377800926635799291778801635650867423834868246005382096224784893556467264120086790252,
  20608743447679868460110837717395399155660314377883559899592986365005930622356739203981693507362508780765028901485680416219036261241714080982863248677230174179664231333995,
  9672740770909716409470072471184539409542192545976063620562264247898259511432018874194698545303444500792502276315631046820298860,
  7792769756359641470400204417318746513257016284417595990828849885677114435978727563126430772088984582909200702767219,
  8682018298797352877870512543787823315377800926665056704534311603831501318497138514597135668277772537757739993201959108711,
  6994601760289487475586120980043969110158598313650329581611947349707313480133714833200790924989319004770402419,
  8682018298797352877870512543787823315377800926665056704534311603831501591475557429284014816952720357320376835864018419827,
  9672740770909716409470072471184539409542192546008659655202130969567921901082016238660864102966457106904665800962713130317512807,
  7792769756359641470400204417318746513257016284417595990828849885677114680997563466949240235740686115970359326015603,
  13376303216059983757556232339744167251046750242822190386010996137937787588685088948192392756182488247067053227288817973667319541844917654635413605,
  7792769756397306869973902126739042596716722553526194749285047681086629241298445678312809372631017933081954591506548,
  12006246424169775106317767867239198594711824512370358206324099607965880697489816653897508153658217249084628684408765801973253243630024917108,
  2373965880524810965036383601628095495638622601317,
  2130814388970598077245720000890614394126448,
  2130814388970598077245720000900544348487780,
  20608743447796079938837059361164201042158981057605883687600763888945362005179401168048882966399129492406369167021418233562919185689899130763840958351009351907326815305844,
  28499554344387057301329645087957354536076054070517435343832601000563573621783301110064256849358833052757691180498338887012583690407369543632664267924429472500096125209404750411259270398067,
  67650168848186184702374954642047821664478500450423771412489998229314091585186931522179617661541250558246513957900483990133987225706531966950001680424345130568263161226923746307490760746484302033919088443787861830525199001141135577055347,
  10776516565820534104436376714778846430985552627909387557144026046713493845324591002357271908999044379039194220715094843504402055233652,
  8682018298846310262749062389260111562734927882119249131253403310745765868623195553106026953588209468965831640279193747560,
  9672740770964260419451883396623361413381735972603640888118991669341586703423525644062061901316075810411264121268778971930951796,
  14902699928735056062751914943304136378803511720205501346545894742963896019818494520440113007938739947946771536990317523631905949962590447884210124619891,
  35374944965458251227442875617770461659610808372539256392596858635117631987754908149485592611349967182934823889557345841645786580804298953631483534046570740351959249117393705036228550092458402344206451,
  8682018298846310262749062389260111562734927882119249131253403310745765868623195553106026953588238742091086997240314855528,
  9672740770964260419451883396623361413381735972603640924690792080999651422459080331975618025197820632661130486933625498452033652,
  7792769756403584435630405551021900457705264714965146380327442229908826105524673294191904529650552787279158220947560,
  8682018298846310262749062389260111562734927882119249164079367317648182070078304813138731147920559470442011569723777351796,
  13376303216135411935920190199283497869876198910168368532868976041841556282778005524772699515603859661829526865958541131412450446637580219955019891,
  31751695489733753184098973548234344176896764753040319578593966454989703507360556057881197217502362885254058629996343076252585068948231219349791416014134484670552149722299622027455211243662606451,
  7792769756403584435630405551021900457705264714965146380327442229908826105524673294191904558923678042636119342055528,
  3282925511459862071351880752680791159927020333449072020869636882536,
  48919535974324663831327278651573166724444577925126548095589689846218774156433489910407463692320506190017143421220273332277518599683089503728058005271163761886717174060489698565715453181889165997688112059029341977444453,
  18497909947963484933917001873770426451753538743451420349547409911441919906386896296079803280791081332906297689136950232292567641234805856508660098396258624144539749,
  13376303216232390652097541523559731952507565827146193675390703126207037138264960136793455632197938879087168892642106703405116950319950383262531700,
  12006246424266492678280723644398592160343675350661581980751278101873583561922135845578047018931386967615610679321646362276999050834438127727,
  7792769756460082340597912715196204522712665429578392767054029126068405985277199723187630540541863647369146120667252,
  16603276823123245227963566069633359703166228649843158750260283757561688593522212414075688895368108719548859143274595426208319862397983342025883491676801859695,
  13376303216232390690784693580908204308944812832293180212472185013610876569377951606021859602023093899595500878149249339405490859156550566061932643,
  10776516565898664297916837485278492790979430569526900718156332934483831440109823703151856547491507246699131848923636716739257770573940,
  8682033882714279855642273656877587641345005937126877806881250438445931973656634691331939656031012432787632208556418400371,
  5635157623389274665123362907108673089536072384009478155585039816232690149771196190497490660163699,
  6278196730109471575709920095164657993129212675914724530004118312741703282541990869486991832370155815027,
  4539921718147872261654200865757706668310169087877666607112065085678405093359600730227,
  3657553272576300335195799214600216122521091491314454780302728188589965427,
  4074923991616527119045662254576675984694428644672584092210146638742123873501299,
  20608798935731957118615592922105627974762339113563452120867054550289405922860911787297157550973786015442837061076764740812447416154841923714337524043331965616008358985843,
  28499631077907856147702995633963248451829040009563959148633812129606288219009671169381115375343214742060921377926762240019263174338448055352383999858680522753044421931585768994463890735219,
  20608798935731957118615592922105627974762339113563452120867054550289405922860911787297157550973786015485510823419525953541718900886423890731763551960276734982566234161255,
  6994620592930111266172608186720281410509451047066316790026717956157215760199472168161176209081387731064914035,
  22960510199923194376873641222611335199808800327653352060411668862375711982884203817468569606984124988343555941438742499497756758366954997395187908555807204636344251400979808372,
  13376339231167932034398993589010949842278790343688378419366751608099253785974256137297470931089330467412803199691103697998214892868718375929249895,
  9672766814338711182477031963184522798791196874200631850805425300177905364486939516538029364305913893473193858195213183510052972,
  8682041674749676138913351586900170538322176652181035728996087763588724477570662684218019057969909613053861681688718803052,
  22960510199978682528571872543048928659033118985439435623393717262919340473395082005306415016834611845591428327477607772976868466402281222423296380201538153905952106935915511923,
  6278202364705716309840296432025222305597924861735841302572535436651282414577477938736480707294006935672,
  18497959752533825460784787436922794553539705850386373945494922407190972767334908826610991774269050434814036312696344493011085213392463621761706616966214840223465587,
  20608798935814965351765861100924928485633228764385663849163238992920349333489567684357359836853721213225498095105017769445241736744660957877393660639885256974504029782131,
  28499631078022647117743947322595165357115598466865121535302805487998875833383177932930683962999796108195961163758782493310214660754829890572928524081211154030900856521870180723529151610995,
  28499631078022647117743947322595165357115598466865121535302805487998875887927124969615881605980066402916967780480186352395980971737805132404845762813162191360926657729834079940844856213619,
  28499631078022647117743947322595165357115598466865121535302805487998875934679078573384739721908526246628769448325073185860687199831277075484355076306899892012061479687778549440307114213491,
  22960510199978682677986567042873673924985807765147240722318954520880476650951961139717771264887516245974443993425125325131107380366402529503317920580810646343863965995950342254,
  22960510199978682677986567042873673924985807765147240722318954520880476650951961139717771264887516245978101152785947920375832449254528073494284112747546494941689771536378953835,
  10776545581056530317603690010460076181153915090206017130462225716899250423307653398016867110182531859690953205485990967777536970457189,
  75370067845410954905165618516095777881479459128749506430766933314953490864992293851413114388846277648193414482649263405470970153308337728733167855201297473438954528093644354994583605262741735957968222413144768525581779213647705024753047371891,
  14902740053514967267115342147927726887659316239962558782402834151029572271161815446201686904496195075127756896045394083447519746845826304772983163388014,
  8682041674749676239354266861186240491288030193211553460948021833637711219306295375079813245559921556076244853413011390564,
  7792790738049384836851471720245577187291789508785071394032217437418958972981437570980128806117741233894868880195683,
  20608798935814965351765861100924928485633228764541924462091725302950160247301228931227176383283358394889609347304925661721554736811192208635087420738035129928999660486770,
  75370067845471669194882558689937361676888199333303932291959713713222025330793003328755492283783288162924520819579573715825291053007616302407775573845936620590837628404400391841138338015885774014564635658276076163783299787324505259984431677554,
  22960510200071162914215285084705116294422282767689348868781521295719726226213930931263461340200383316176260236922771319271831372924444577081957982981115942089948521514711384161,
  35375040210884334107003812671431760483134449436248767110021251618227493204627851704976002997433290754116750577744037073447739427978499385422129830452264105250265486390663948385248604043134474274603064,
  20608798935897973376299048107106930267713015179523556759806483814761557712473312476436068799211871494885297704847428524843630561689641679152535949506975024556294263799905]

def kwReqsCodes6 : List Nat := [
  31751780979725857101443851849214226651480685457340704623970706372788283501875167307465738664405840350742101984557440362911390990013096915910734933387358382976438128528234530153283351561346875448,
  8682041674784645726444722295678447433998887995500187916014822502013434685829540755633314654314045966047985151620374659184,
  8682041674784645726444722295718907411960638159743901155536411590191837479420951834949354796930492275272106509037669253236,
  18497959752608331457069888940432354395303376505250389528962907043546520582012217159448503820219273513353172064662933432008940635729074628423294342984400281192824947,
  8682041674784645726444722295718907411960638159743901178514580207645578440101196239218455170999352994993291096017449844852,
  60721319753472446829764315036879149734127686855235285102544424298234059733946944785192735043469487832746428822135242944904867542711451202850074212120530421642037047494902221314581842350609070765062312783605512960528071473120608363,
  22960510200071162914215285084812116671923748987554881446947237328695782235002599818118622483204306133107270214560331921117827912322014944705134043696945044247140127540487127156,
  13376339231221809346109446965318304881630327139482072234755218015576133836754265692716880246026210078394749418762119848899758866998785242849345652,
  28499631078137437799291141150406957321619721495798523450920912032282349452385315029340888985019835032919944653836261171760663457806757137878536421898917686100982305166932824866050692808819,
  43909111191395924966519076916966325538729631850284232292241440981358360824230738178332732606331995675806968552698054289754987513494528814292485401175178699326835902846371752839321764701809540467119385423543140467,
  67650350993289686578095293456734272029149390352908878681129283073876126635117156628155310613784938961013259855794937594117788291509461818931032192644526875096767594771648401509833328261631507197847142759993376534401097656029342402281587,
  13376339231243360048342895939205344688181086766963399083392700086198233261871927785365543563537011373557400337264129293766943503101868547773890670,
  2946682515390811125491561732951274128301986803874756572807289,
  4539925792691517147990995739789536736709859855903693588051289827759252065671708868709,
  178907984113178460876366048161471452528605690984194250866736349349535280426930435782751749045489272002426990199850288878456916492559198239877209149557324496902908725552072469852136196739680300883018689601196346437921271183580106672480558391049088961997442163597519594717049176251444636483683,
  116121948402503682111119454419926373042309990518098633670818039090249643812102157145772999418016727947655455478322001466836712036972222706516290077482854671479153214516596767120550485618120067317874565034792248204080045719639587142189189630380758040033408955114717300,
  16603321526622041731709399270968485095632824167754648869987144511074288593688049596638281016021038821381892588895707540203334664702600532569421315554783330420,
  7792790738105882775626394512399858091898688432536322830665436592420849690438884235262883166932778119050058328572009,
  67650350993507672472807482364763575771142095696766981188604152867169031247414081315502734937362254190117992496004648629546728588123869934008576531327442248257300513547630585394419173036097372167313641822877999885251051221859659102158948,
  104228253894303955367364772809050139087104847771056712114615268425208231226629435330677202733755303872349162321270994958971483182481314073729898585482830779474232143145329887996693090728179943921978462815608449913055206525649705705404821373773358762756479909985,
  28499631078275186477021272944753234358805892206278707102158773667283003198929553878548965838546073003541631292964480821301844094059893845744769183886034472271968830228170687148289815412846,
  39411756799619258035792821183246851637447329867551848488332491904967873362633120453694333620683448943894051580319955707760776182060643548278073677697943622963192777069294644096330935705230646476469327298670,
  39411756799619258035792821183706014816983922499908888086853131740334820878986839496319234485112752846656020114004339808019055997709308728794581543504380613515618085575658470516422424278283706850423775494260,
  12006278750508442480374859857493706239859995252452270560763676013284705771872560747640597735532250080738565278266211493417403921656966152307,
  13376339231297237195633328531007281799401876853716180238655966460262074460828318675336886641599100250489345405959762372383559576812281329530175603,
  31751780979904902243500648185258878931474983685889490000363884097459164460193906608905002521256865743037031046226555804424490825065484584290036899778894035733309578464162197771696815527160971379,
  83970697028198209002077031746593248515073575151930968334982926222671669611931853428961259176091038677291127381575160297004050047121614444965868637159732184160244971642836034649277583634874001522774891592732004321299206110302157111430748187707637868,
  7792790738124715472595651911919372575695521843719311184297437957114487384946123115325729432971956072534914909470823,
  6278202364766405902277384926483921757992294049598881801037199979830461874025879289906912400180673380467,
  7792790738124715472595651911923912069590057689126848413170049693496097963334691973217927680108129084780067819487335,
  6278202364766405902277384926487578966592043503789289520262332650455870155907867359320231043056746496115,
  6994620593014630012598061875247451112509245528056852223443324269054454636466477101818718240599986192899965042,
  5635162680921133514653270879869509740851727472978036331016312945388199955318077747102114483667059,
  6994620593014630012598061875271898154946480866449381736158433685616626492424145207305635265606280907272028274,
  5635162680921133514653270879889205313952402108087190826219972174280258978792124476748097152745587,
  5057985804767504088146677245997249749051759886866531422315348770363705264761973172560068723,
  7792790738124715472595950302327003288222953645965534768271439507640468221717167091653680321802044580526722414411891,
  7792790738124715472595950302327003288222953645985230341372114142749622716920826320545739345276091310172705083490419,
  6994620593014630012598329703231814474866937656167883426294004862831633576049312811919204502256916978411372659,
  14902740053671032576851397164784702712430654415912183649978575365126802622044473542525082170652870027102202424425176499939944663731010718200203169366119,
  12006278750527785930527487876699920544251488940558418555806006943896273168800039022333605938946246594163368775442577890016236774006811918451,
  22960510200219131019914959974650843123214054444344973153866909813505453684465386778298916951237913475366376944111589664977855592308089683693992240558056955427764266539972296819,
  10776545581169385062298483345211182129131980393854853511860573213371970833094014804915130560434001782732228697721217853261813169586288,
  14902740053671032576851397164784702712430654415912183649978575365126802622044473542525082170652870027102202447861753869375044919121356043867904469631091,
  14902740053671032576851397164784702712430654415912183649978575365126802622044473542525082170652870027102202447861769168371810842340798058758817153941605,
  25580579940186536498859495887278200133690256625098066730400970626144188015307100994344162962377574257867384990187001309527811006427314286509627052750545059242040046959765564988653680,
  31751780979930480206210332202987941516075376719607979996570469345918373800697333242343128397760880194150695998830357976950354644152241235704279994726848651695488463435088556384601225529935003763,
  39411756799682754758542878030738235422938371970381254411482891462025988775694999530110162495947727557932845880902230603435803422129216063409872959952899551310661221338131666368673348633662005129900032196718,
  9672766814440006985202998751661576330864383826630404763489284033716512193651998008203062672724108332674119583803223130970259572,
  10776545581169385062298483345211182129131980393854853511860573213371970833094014804915130560434001782732228719290878103735769279692907,
  9672766814440006985202998751661576330864383826630404763489284033716512193651998008203062672724108332674119585186127068966223986,
  48919667687904942855444580911408167520819751356682194252795901505253662583471526666589410892031613270155052088449346427330605861537354183653107106768436933031359783301424273704665601232197046459961741235177970282594420,
  22960510200219131019914959974650843123214054444344973153866909813505453684465386778298916951237913475534607239792172146478716726507024055572244176832868638250887999953977016436,
  48919667687904942855444580911408167520819751356682194252795901505253662409596896139541520040520647740704110628611028797802858953796421520072288749109339869505112649363401499315525140635353849613551176954520745721069682,
  48919667687904942855444580911408167520819751356682194252795901505253662409596896139541520040520647740704110628611028797802858953796421520072288749109339869505112649363401499315525140635353849613551176954533158179897460,
  60721319753863762988735282530373022361861756813274678405189212969563577761090624632660572110450598290448288782954732740428362723922259398688347711084531346170988105411928009503961219855539956330064495497998365900503910715903639668,
  31751780979930480206210332202987941516075376719607979996570469345918373835421868872730790013978675323472237406287920889008281285240943943918932584479238217036284107581269104222300211934628282482,
  31751780979930480206210332202987941516075376719607979996570469345918373835421868872730790013978675323472237406287920889008281285240943943918932584479238217036284107581269104222300224347087110260,
  13376339231308012638631840573285901877397114846543420814046142008278164762124505190307378367981917404214416295110529431104442465417630479507390567,
  10776545581169385062298483345211182129131980393854853511860573213371970889075167121284601339817328613978472482509775822270270150934643,
  20608798936030785971172521231842797782641291400097093608063560767234760781446426619510674253339656439925059216482937321517920698467446738594659012598749574568033131692147,
  9672766814440006985202998751661576330864383826630404763489284033716512243899327106506887404333970564882081411998697447554875504,
  13376339231308012638631840573285901877397114846543420814046142008278164762124505190307378367981917404237852872479964531359832810743298180807655539,
  13376339231308012638631840573285901877397114846543420814046142008278164762124505190307378367981917404237852887778961297283052252758189093491966053,
  22960510200219131019914959974650843123214054444344973153866909813505453803738841253916276313736751315638016523718938267507743429083793966798810668952934588765576912365236322416,
  28499631078321102551817350681967290107345919189101257321140486186234753746157469330336245181294048129200702366803016577271777813205206355644366108796926497239360473241582193200803454124147,
  35375040211112307163501405631335301498357770107835885809939118743919811455605986951136068990020607497897697450486425581413226344190936227288235968165996241815010113761160975157009933730148210484117614,
  8682041674840596802837595099650283212876608300269995084416363914684082250168140282581003888598247361936780476894896717940,
  12006278750527785930527487876699920544251488940558418555806006943896273231169312591828629767906563616805469547576876604283222538430699602036,
  9672766814440006985202998751661576330864383826630404763489284033716512243899327106506887404333970564903651072249171403664982123,
  8682041674840596802837595099650283212876608300269995084416363914684082250168140282581003888598247361938163380832892682354,
  25580579940186536498859495887278200133690256625098066730400970626144188148191131849924439818596462466007270987407890418917871634723930849208468058295399093848342806812593017326534759,
  20608798936030785971172521231842797782641291400097093608063560767234760781446462021725265014830021608214250958618010606092964504239541617999146632792909748153141060305011,
  39411756799682754758542878030738235422938371970381254411482891462025988980428165036422712499277477122561419243112585442144630226103240626284002728989278970033794413658410995864445006387799442734536006303859,
  18497959752727540831776806310175994677950952328039814316750524872934463304808189860377830069894249059532839569646508255985901331499473677693606779540860107936301168,
  25580579940186536498859495887278200133690256625098066730400970626144188148191131849924439818596462466007270987407890418917871634723930849231904635664834194103733152138260718626799731,
  25580579940186536498859495887278200133690256625098066730400970626144188148191131849924439818596462466007270987407890418917871634723930849231904650963830960026952594153151631311110245,
  43909111191608153269549722928581836943520715472665400114886027172540698634962783805058981067995028591971147915782648792118638270464333620670751798324403574219060525662629537394166482065240515488295763004640002160,
  54501988807107151694565072928370776332955534823495912803370947417821168811319372601135714518017200226906191448946996215050598183948813218585967794607415835081027807400928539208777771702369815131043901190578018805696835616883,
  67650350993616664710905843090478948689618525606751078507362164439946417042501339080670624084305644266873256873078096488131571531550874879527172428172535967709055328953634225124873583845694449734972079861306599563921979651734364355493998,
  16603321526675541446261063798052614708351541252620754750644930557192152409100871241291566799293292828308859046169961598103154199487550334000204412318052253812,
  22960510200219131019914959974650843123214054444344973153866909813505453803738880695948378456202305033970795564007829032375444869747324191140950866497119508716439613011139035252,
  18497959752727540831776806310175994677950952328039814316750524872934463304808189860377830069894249059532839569646508255985901331499473677715176439791334064046407787,
  16603321526675541446261063798052614708351541252620754750644930557192152409100871241291566799293292828308859046169961598103154199487550334001587316256048218226,
  31751780979930480206210332202987941516075376719607979996570469345918373965639045014415690787585681905797102084731131637540545083193384802272306456882746765351380248580737242713919011191492837479,
  25580579940186536498859495887278200133690256625098066730400970626144188148191131849924439818596462466007271031294104747529416395971139694967112552995547611446056823769839791798091891,
  48919667687904942855444580911408167520819751356682194252795901505253662837595656990621871515626077294658159630675348045495368594405772096269955107824592713610825941862044907002546153368725039843310027299939517977329779,
  22960510200219131019914959974650843123214054444344973153866909813505453803738880695948378456202305033970795603399034161313598988226623261366103724756174464012264243413821751408,
  22960510200219131019914959974650843123214054444344973153866909813505453803738880695948378456202305033970795603399034161313598988226623261366103724756177545387756259003670528116,
  31751780979930480206210332202987941516075376719607979996570469345918373965639045014415690787585681905797102084731131637540545083193384802272306456882770201928749683680992633059244678892793102451,
  31751780979930480206210332202987941516075376719607979996570469345918373965639045014415690787585681905797102084731131637540545083193384802272306456882770201944048680446915852501259569805477412965,
  54501988807107151694565072928370776332955534823495912803370947417821168811319372601135714518017200226906191542450973361662936095450603561719512225088712866296309211742163345194293529967906629517018337637934652636708269785200,
  67650350993616664710905843090478948689618525606751078507362164439946417042501339080670624084305644266873256989139491892524042813831201960822416111698362479650352224232079643107745379813548865706551249898193680074105224897739077343510643,
  83970697028265852431548050385976334889929976814856252871534358542732420967886964789041553458910777119390424599208330464669446215162451548083868283936463146177083420064121778900638113959289815864146388742180130199821444300097643425804601817630179438,
  20608798936030785971172521231842797782641291400097093608063560767234760781446462021725265014830021608214250993974604134336223816121380311284775430797078294615747674505332,
  28499631078321102551817350681967290107345919189101257321140486186234753746157518287583017495176141990928292743217137628479493159748198387839199700643004226096532205287245797439788355485812,
  22960510200219131019914959974650843123214054444344973153866909813505453803738880695948378456202305033970795603399034161313598988226623261366103724756196033672514717369931858027,
  20608798936030785971172521231842797782641291400097093608063560767234760781446462021725265014830021608214250993974604134336223816121380311284775430797079677519685670469746,
  22960510200219131019914959974650843123214054444344973153866909813505453828849081341706834397796327044531474137079504264406811399020175325355078210413456094252531212116260946023,
  18497959752727540831776806310175994677950952328039814316750524872934463325038031308923691999209360787138615274917463433956833246138384570031462083456828324923441267]

def kwReqsCodes7 : List Nat := [
  43909111191608153269549722928581836943520715472665400114886027172540698682982909777158512057784489075454203464697337235345524514697588496818742821264967526408826539657202865668630601674533464757022660660938276967,
  35375040211112307163501405631335301498357770107835885809939118743919811494293095602920195166569816292980753072812477522566338133139068912407562836966770206775318518339958301062396086516994203431600243,
  22960510200219131019914959974650843123214054444344973153866909813505453897902269755894619909079958177496317599846386109316288252083191554180099715526542816937722209318300090484,
  12006278750527785930527487876699920544251488940558418555806006943896273280408304271088233587001257361486813927640555446236434124441188696167,
  9672766814440006985202998751661576330864383826630404763489284033716512283568344841972439439491347369095393916013395476512637043,
  18497959752727540831776806310175994677950952328039814316750524872934463380670205374069972644595460178790222850510996584768498021196242011076714479705581340440133747,
  8682041674840596802837595099650283212876608300269995084416363914684082285774091690936314696809073775436373392443322990704,
  12006278750527785930527487876699920544251488940558418555806006943896273280408304271088233587001280798079482359506734056023774683055173271653,
  7792790738130992936830045004138078768451114699662148046530657523376538701471747625854774651748741423119981673447540,
  8682041674840596802837595099650283212876608300269995084416363914684082285774091690936314696809095345096623866399433097323,
  7792790738130992936830045004138078768451114699662148046530657523376538701471747625854774651748742806023919669411954,
  2644870996277801045457618135476979097432997703619575924,
  60721319754059422209737227252989414235349148557178644680374130551954215223107323780935291831377512633176842577213046828612835076968302662574253754897001117913839868644774280703977971259020599651485775236666325598026576329523003502,
  13376351236132078690453148400023526823111534751614108766682719901383224199464457362098515413347952184215224953175445181518821610079486333317677159,
  10776555252764244059910537243217725170685641209454811231870217021109368877253737946838929544557427497799157787611440480518110706794611,
  10776555252764244059910537243217725170685641209454811231870217021109368877253737946838929544557427497800874284776829513710852602134644,
  18497976354037403895623211623987521414692586675518606202220257186832157048766537796199226211470868659823890038940644161743416444704675500872804679731872102035357811,
  12006289525767677478075048469115786225362921099148118651161391225822201178574916491428613472745964664456700880482295823786582833393022926959,
  18497976354037403895623211623987521414692586675518606202220257186832157048766537796199226211471019659173466209948231021646135481303675659887934354682774243198107749,
  16603336427609974486966491361719038494058574609660973225510771975198325705823595649449270999209253341830503764386552717901014873922931583006248568121776734322,
  25580602897914834144970720487685593332373768964416083116006078105769087086371446142559538124673299815754294760440297906128313862351474828034904622924491519674366353121599358680498290,
  54502037720847717413392164909260669865241785181872990463607826965957811875012582208629799937421134483107090287931634477483937147651990303049978354344641221915079586460628497038019700748850121071247945454426662837886517575794,
  35375071959046231412911136695874712985824302997297377205794153462639414619397223242394352635318740486726663108151994284293176066605865147110331868147300045791757122496195558664459290509502281807954035,
  35375071959046231412911136695874712985824302997297377205794153462639414619397223242394352635318740486726663108151994284293176066605865147110332124673291116974181922424863310029360593987867776680001650,
  75370135488354705556969645359626876262169825347075031990714749870282268348104910182658477146579772378434235345205357522647507959176490400513056727198393116555813261900205662788420508724070046211221120559478627609663684956496267985511257538674,
  20608817431749320128960567548823985458365987126235385393168015174935948153915384957199112312914400654557177351514345325377249595711947569411481543510285729507664232317043,
  25580602897914834144970720487685593332373768964416083116006078105769087107353173551117083590019402975362075684296975811364479929646464063669707432928519844522761629470762419081838695,
  20608817431749320128960567548823985458365987126235385393168015174935948170819153460674860851474553423461639374140856126423628628291370185747648747684632687225726192189555,
  20608817431749320128960567548823985458365987126235385393168015174935948170819153460674860851474553423461639374140856126423628628291370185749365244850021720418468087529588,
  13376351236175180365729720098472102037047225692668274561157622469871013675046828262400811812975612614588406041625265822013329670693044974382284916,
  22960530806595082650171296148062045694145280135037334170660122423097844858245916939610299626685935719791206224706102160630667179212294052127375885174958421911469176505709690996,
  39411792170563908844848589699808573743773163337004054974903398555097575324922037116887868698378470274742573774622140825209369311943810608369671357930215922697417259058038507119610224143512592137655468425317,
  39411792170563908844848589699808573743773163337004054974903398555097575324922037116887868698378470274742573774622140825209369311943810608369671357930215922697417259058038507121326745959958111149383172096115,
  104228347436234052264592247620537513252848731721009770935395208418393143904410512246261942885006991741303236428098286397065360386623346466939300341841513975469503597514659978463295214165067803377837247984948390498740252634715540647268089301548167994271456231525,
  48919711591853723443932901110563681408383995830545707750876384101194899389795673133514233873813546983178117249946243797768251280569507876752142895278488369541800635738235995383105244187642396714348770616315276430540915,
  104228347436234052264592247620537513252848731721009770935395385275815020692089856255308586927993600863509822800071622950109197657893754143520827602665392655524499802186237800382239244423739626743466416267622434789836326106081540820176022400734324606047201394789,
  39411792170563908844848589699808573743773163337004054974903478804897498460487457349486940993093219416964225397240424768386472404735384309556397955757780955733887959511829656280512515351261411077222231703653,
  199323710883893581136553941418725780522240321818785322308618184249564651555492503588715298180343603247918543285513400755943820478566203505513453692876409190553823994774163719700127174768355575335695371041814272021784899402025333342774342797806459706614389609835028018571582122778477390022583648371,
  22960530806595082666772933837367772183662885567660138948289188619504862116211583475435025389335475983769214700505326256652534546983546104971148554703229132245155080756813496435,
  35375071959160218196939652104692608330433850139302538798457958771607182322942668027205202883297823692844448688226097047039274148948667373529891707944478208905314232565131789341332441233125884388769908,
  28499656655962398681937116428125561320009205815111646897393843003152781448688829525428059093998187731879951526216900329500197260433500218148677283742566133327975348897024520928371678249063,
  25580602898059080848188616968604198967437031299466882052606778315961753799159177466384043160829600374001852171251095338260603297005597478663435383600000759131328031064763413677015156,
  31751809476287579920330324657971825373358096309085667148149249215986581952412316010514546284446603780508908269334169070928430453745895564437003082033514158872504791593355625080238109932236177511,
  28499656655962398681937116428125561320009205815111646897393843003204868049542879001854881990721403037135322363760707245706383607524104905464623917553668311328140457099593284769765984108660,
  43909150598837411937083661484815247517736266207117217086614808446720248820311144734831445547724759401953676583167706415192432271010839400584266400534518243221893159305428755048644091219199460595437767761055776884,
  22960530806650570901479040678678803358582468638222083643840815210693626524347280060035344503953686246696138132663031067553927434986226966833668449583414696794802638925324091502,
  12006289525835379857447534640913798020761129691092874219519873172546702427910316141515217256995457191272300270254744655899250911379544014958,
  8682049466743109136861130750927333950730046619634483126345730615232808227913994302782396765921403511947201572818513559667,
  9672775495492098806686628103177153882515753699616448462416764941388239582532704763597348967831121644728597760626690979804217459,
  9672775495492098806686628103177153882515753699624597491191216431958411817763859437918587233642776766305346990872244497607819379,
  20608817431915336073718742036627060269255127561797925811182056295986775559643018041755947874071824485526980689001519597785558579224470713997628804085556868501144736825460,
  48919711592366022977596656020485497473500324623749885972045060933306499550234143571325763674203212400412794032044307024369801025537930088754926747992612001565330752989264185247813189983188251122263560443550171619590260,
  14902753428593667943563323846974703535406332884678321551752872792648424042626221375356290195558014333802696065167592492934113435631706434960534359572590,
  48919711592641877331771211181561010472992872166282704729344135447051952495231977697257307923766963147468607166118805350819341284593836228045990483214606925429403300590440717557021710846404398361439237182185424146202739,
  83970847752370052654504142547837756923337576983780795719249830002803623790739960829183454258724791960445355461587233009573108882390037761797183502203185263539861643220179343038378122414057972572070013563198609348109065923840867816390806944808697953,
  116122156837215907559159148143895588897304453872016030901933313782851073618137352300158984257840937960268083929922502202744517305689193870645521530154561108488952220215868003504536357862155460194722456345818312533029492375009857531966340671625504654502650626694185057,
  39411827542238775100144869847677471634556480761416838848714855110750804800823506045238058691273484427714453305517094598144094411122192160270394857080628274545858853169719054875422844130371427914723098820711,
  67650472423340523156669479511083458942894170460175835401195070827801676240466039483728266133186255894624995065771817530654490730720425354778611547699759700901489388354474881431616057219178452216823998075377545643961014288044720260317287,
  35375103707920545780087522482189826188530848569458760742829136667364506262228129707998889421596288728345492468905365527114055329376393181538655769869314303710888891261853585853175202363587221902262375,
  60721428746248602615059778111252242990735375312514213473326802716245472843364077833941530235008918218837060426395028085735088331083791714637856470175155099476183078736107881616840758596346502558234997230786876544548435934025285735,
  160583770075685310166763567872574257539333613800578286342408884015631247720308527526166530836561518161376606164893943097884290833329370438043353587421037248287085318745353795098100901994632999812298476691780717696542321487315700511067079691656859699567429812855599539296102947465855086,
  35375103707920545780087522482189826188530848569458760742829136667364506310586972117055613105037205952244044625960855162677375065432586243897222754498102048115641320647204404187703039330118060240273523,
  31751837973130659915778236373174174758490033829147124115734447405076425270158630476160038761845493049391842674669023547612246403801939341733347055321286521727860418221704603943692290185607184499,
  8682057258764517654172807115740619617262082996967193396158705135035851395975493909659975885169886911798512390875689320562,
  13376363241311733800264135934988731080484235738988052437761054012672463612557881349755756685797864659150757175866996175785016405718576465636819051,
  6994633148089597193553894819244339263960979328622269218715611199964246641708755386867589361024180111587999860,
  10776564924645580667377298058945771893650921540982599455387146257818324959103670091877227956631870797979151120943307236203732920369268,
  12006300301326737168493056295048191815979215499867205844440284291590489656836908093401522231198691410333430309969713603536348115914131243129,
  10776564924645580667377298058945771893650921540982599455387146257818324959103670091877227992852074244799847827485831189245409239695475,
  14902766803504298367679877014802165161540452847635457077538843408230096157002643551480992320836931196589556983014479765181602602237167490134419263848549,
  93552929131088504103014919262256619041373474568553989880365660316964958205982168258744161778500337847196725503298019751424677435661314080230062516776002950666215853328906966333998814659573905957899336049035904574813853279265461659185579871107900124758117,
  83970847752370052654504142547837756923337576983780795719250542420299716909953548888032946219500676635021187729149331262408696285168200396575983847921935093299610679472895872528075107942089474456070472615592040599014003165883425824840850027157061748,
  13376363241354835562586485071116900798105474061528122050840708263961515197089314270357645062638364553223372664960293062854311318120332644719263860,
  25580625856405578244035210268527080097852243465039457520773078866430501959806710563903846855212809121898671038849459376438746952293221238849131810451432957350459277554037051670528103,
  20608835928082113450737259402702817172788692187955713796062832332811171678625374751983918487443032073400565857191337575799836271443456816478258425895910708970350733033587,
  48919755496945326591464753893265810273731770660154564730941932736791506234394446975499389181633919550834790577007099579841098922767660269573362601036365095638991844388733748053315782091378725873253879478710714117652595,
  28499682234131731588618556182689242261978358671322040097383536442036619399444173919772042627554853196416772188434648884802925244513305300889916101973547513487375837983828535178041153749106,
  28499682234131731588618556182689242261978358671322040097383536442036619399444173919772042627554853196416772188434648884802925244513590917202816064718775318935658187878393319901322638393447,
  22960551413507419580827789547664041046009955430907716208759154255972920101216673515682307393882131349360451228287155489249507188050642665348972880883147966192689978661038850163,
  54502086636212751699469979889534158415687850473726122421519178565252258593813666108767575479928529378619650199330533727095926403043069723846922488884148309070894326696013361511332738919421398005443189402192099725370963787891,
  31751837973232971743658996865808277074977233136023940736976166552510302112353547494105069955870392604366282896401303538345556650015525803946663844728126576010682522754523887967109834591547883634,
  31751837973232971743658996865808277074977233136023940736976166552510302112353547494140039555956815742066974381216823872404644988633501198150230521013225787470017700468220078919197341853651894369,
  93552929131389953461351298297374139617983554545826065076752436281896677504423878423826084887538039692369845540135547236242287697648937048842066716241443594184994905035470672679162462507104794654999425347557914011457361354446945761875878494314939371290725,
  43909190006880211856137223091812861071177557247561984924947101363743930447336851355487521125206590816481185745220177139298478775045471360305352894893802962355730023547640574411855135871353106056220655800842453108,
  22960551413507419580827789547664041046009955430927059780447298550282147051517840750699152139946950674629250486349394168903692864036943069354146307939206333189407687390705680484,
  31751837973232971743658996865808277074977233136050690702297306497703889660138794909490747764958416165940718968237665406006864063126434122372224000893799096047565040128107498974565793568765247604,
  22960551413507419580827789547664041046009955430927059780447298550282147051517840750699152139947093282424344337143422770244356545750557042409247049908953282983880242666299719781,
  22960551413507419580827789547664041046009955430927059780447298550282147051517840750699152139947093282424344337143422770244356545750557042409247049908953282997709098342138773608,
  25580625856405578244035210268527080097852243465061008426113700682451943415860644594442933788940735991068351118143533029402480559899244607632651049268187791049086772182927905782235252,
  10776564924680305273135528702441052528937281220336387319813906509940657782040853357842667954771533461644499393917494685730158562246772,
  10776564924680305273135528702441052528937281220336387319813906509940657782040853357842667954771558322527761507316700179663718643466355,
  16603351329039280733629580505539364381893660547694442420315284992751050131340726380736904631572783442720213765446513863116219083178486716144773243451477590132,
  20608835928082113450737259402702817172788730874456685131362470260112645923573748641129807950341271865058005938973037377253850800373823032146449048513648731329819554873460,
  43909190006880211856137223091812861071177639672991806214408552952321903952833567127227091039112009885068558314999278080615627615593233337611534217580418986663168034882909423718114771758030414716049202416395288692,
  14902766803552318558304354055552192581978913892987089116298029810771398103549427714735646082532668606340624797650344765951280125455704055125247724879988,
  10776564924680305273135528702441052528937301449869152725551620117756680932072703170305125477265814916251374161972052898200393746219109,
  9672784176707822259463616496762491139972732947736989392046419137175329708389015799403583730599629944073283621370263247393128552,
  12006300301365424268463570153734005915119394792916621481369766592634131306593383474474983955727571587974650994374045148507102568780041551988,
  12006300301365424268463570153734005915119394792916621481369766592634131306593383474474983955727571588007161363145364454891795123771671904372,
  31751837973232971743659079292347862029265453913700962734989351456979314453214771660968030934693148968074364139817172762189770622120110586781646668637180325036289470101740619417699053887778193523]

def kwReqsCodes8 : List Nat := [
  35375103708034532615271504148556261261148993390701206994604456330438137984100015684744414880712853583119266526745581984763488048871118991905434325716706403273132565376955785543919935073618663538163827,
  6994633148129038962667894178460883972467244438955006319497940004837405143744564599050811596576498057364045931,
  10776574596335932180828985067231919180034644476613985744515727682568998753989531750346560017688633366868623222623662783510380398248052,
  20608854423916858655116965583291445187879054247832287001965809765189790469628873263693430649303205318434324233160453095344305598934034831534832342195796407495576597299315,
  13376375246254329512290655770431068242287976976298746515193620646985682765524588845892620351259346066467460011755469519466258051611406378548658288,
  6994639425593273345645198969295589860547071631005075841035900807031112166710663802832041212582361504540524660,
  13376375246254329512290655770431068452104962294614669408971967435267728422665523216300070176510449857509480931364842656122998133897691996930179187,
  8682065050688011646551909108243327849734794390559756120354928842420505113443185182264829959787881658498582576176488317040,
  25580671772336126508790995829957561177063186698524355766554332974596470775124856002689906382613137969416144644355127707166764020311997550086016437065260299334519966591543350430466158,
  25580671772336126508790995829957561177063186698524355766554332974596470775124856002689906382613137969416144644355127707166764020311997550086016437065260299354548937713135984116105316,
  31751894966177372032752459257203689571464233484558548328800942641833023584316316759147843987418651182989096754492228284021383006477568157080901586808873734970202630107758829239309977370332627065,
  25580671772336126508790995829957561177063186698524355766554332974596470775124856002689906382613137969416144644355127707166764020311997550086016437065279180863426167618798013389865071,
  18498026158861064561086166622979651394603007504463966784438732555477708092601270715817881427482862211293507327838545130662419218084683311413294345578652574791106661,
  14902793553265533942611745148590746070309080892845084974863561756210644671274001160934904875522612247616668000830530157590628957717796342724227721199717,
  8682072842646475126021432728429511141813812547986325681364596898196990010853995316666021227849003910432939980441208946789,
  54502184464703687436499195779001161274801881881378213302369505927884391379501721512626785103826538934968346139096360435168528804837817945412384021949460767007145070302141858751645778894105648252767523948468041675805404430451,
  22960592626536763367409197486390561431043904650990524980032982857655587945848496843118215617329939903889555278006948402483926094859529932446051092804602977232322403856708468837,
  22960592626610747304047600908747576787393963421676737189911128394585007754623782690961250439978134747939084442368743991894761301333122594775060554165333317625518428525274923108,
  9672801538928885559138813305921464577939660540381562008739132550962432938552436565450590833612528496271063081390771725398114419,
  6994645703170199026385955040115057356453470122883151782365988464593973749465924482748189016933697040726425721,
  12006321852145031926059856474149694383428579388779063398600955105018091107950332969990481977796317386712078736165993879938452466112725844068,
  10776584268139138548063261569886774743857511083965582812680372444617858086036532206807288654817755770822753425208819155366153119137913,
  12006321852145031926059856474149694383428579388779063398600955105018091107950332969990482141583510633318328744919962076288184009407437406323,
  8682072842702426290300089493624935893285110061090412820918482657903723268892567861624855459385106251810592377788551200889,
  14902793553361574216106559397833847160928762886871720786618995441490497624331579766843284696288860528838465842177708652341195214693771084402054544031844,
  13376387251337005809206398816127864308910381439991419881142107293961915520460761365862036039723888198707549909083053995531055646775778312700887161,
  93553181017104213417973177279810280204184611542805181194513760118795516593533478785682655915962013393736600618617681963690758127712562449763029080996660676680741218353383522267348879657051429655015047463426355274941153035128285317455238522670685319200871,
  83971073839168964536754991670326035626745436314127467610539838112142689957143876724855899510966593478829428852698750499789438721038205909079578018269291335738618251651351901518143744941002343044419791998955428019393573405351121790936937384167473255,
  104228721609328009419524932485563990898844525935177766030982114313471510583054771116874475147844270666288687667278281138894536021792941686797103007434710977539027683175592524839065799057936878209360107677990836913424364563051770252556526620299959415565607370853,
  43909308229770613565224402375650014859566613616462351796362992166744806573463048983048550053059424127580629329326669944520023415693335325267065706896894307925648832980614885991625777779692480298866463418069418087,
  54502233379849198826058410849218279442924512444474311484200885996152332550141319268678838867993585206667566891468817261454594511403998543896051636654526699291163232460173787067573441001823426112437672535944507669269873295461,
  67650654568444025912849793015922864140724715188725271099923647527784909889585268220371102268867685674523287672455024995565104031656766668893297613366842475603720034677073036072880697231934965272369863075046340468945838697571684656742516,
  60721592235290550602497588228044275746715514408538164116286017498945267522103045493066318528898069201770816284588106936793701200289348529495506388376431162758968608790743691902502349164127538526367387215284217327287767732155449447,
  48919887210486197820379289379540189355221479029464103684549565928876389941174064428602186196714141133627110103354794905229092327704946824287836491771931101609105702520828046290138147574891369234894929159948339405258868,
  39411933656374416185468249489862791945124559843590547266668873656099931221872710268849586085653349149439759493952735402293506771036796613625251152932871969030920021771556480496163215390632089950877460660332,
  75370406062558310597816908596555854013551093888341089235678134794475501526905622347534089490972715022214489075334212807859029182917183627014049590623359604179811735274143194365229259354513130831823262023005897977514270927618177330721059635301,
  83971073839168964536754991670374950464925204239558203717611874166240785454497040356179035463185585735870605164237851985772377951385881157988681194913939329918653123503322059043071988430839519986286789767669340876468997278379833701550779483794047084,
  93553181017104213417973177279864776812378749145742669460236000351098853964280606625303337557960619295362271660739361751572835544174426828689085583427958774734330468732533145844595019174659479290961947921663735702348625173873496600761862292060759039148136,
  654301468627191337033585528602631852399886806420799070466213354477774404781697880640925412279857162546584893527742901604054627561364920319228528149005790842386181568103790846880201792946528976928161717191060780955983542186844679511389854096866192382443262963365853547581436052057785452133977380184494326815751484848279940131152032057454858871630347834894434173043,
  178908786947141513770074325341786703576766079059105081528106656118264174856562477136057813370357484426856887185013135598825139107867905741190341792432816779045052624113813019725181283389378335237203289690815290672631024352762854350133668367120233787005788233626517905603462981635719308705893,
  247410557038774650252140046100646125359936645133759040154800881543629414122647467829900748884277421944040885089447523759394375803601177320900327885522405783629856834284908722287800449887000596662355699321666367216469175698014657425865981748495181054788271576201694255738998295831704006601221117888757784379507,
  144136498339916912776036417889833101938905702809691269240817938185474334916739970407008677922722155565706032693274202836201409493373134722248652531343902795608632872456205367279194916870305101446735643320717190567072086925856380326978105766795302070004546187074697109899139022958,
  275643070523583303141712251041283056017009735583262551744945519738336053827011015678906383140960087116919278568774559590626386815301714867342906101195138552411427057358828226405505934825550559657911826652265596167277874490152429612895168064548074938961052919905566453451026259303349881982018460957309955406224883813,
  381183097743917697252880485409713106120992410413091852847616980579719836213670718792336051267240501519335978148688328434120400234940885029187861641987735561834205401602355520689808229710207142807446903748283572809599938830410956914279623330148151118087288447387284995039039768414440173738972378439473935423961679749158266544097329267,
  222069735393546295392330435450516757166188538615290958319092588127252389456937424450953538678586553186789914379745953512209163713882605448016292693663119851172823588907496483556231734231332361835038800730509841530469387342559059767593455921042177571228810650862210160396608142542141045598533746440470638,
  178908786947141513770074325341786703576766079059105081528106656118264174856562477136057813370357484426856887185013135598825139107867905741235045438353637584616986193078009001529368155007752569882158967907154522102817200428899729978234591895999163141182568269418302051249746410376786940788851,
  222069735393546295392330435452327788009394488480215730859094506617696010381744641877751851232908838062119016419031714412595589701118049540866539150110006580848121396026627189674098621900694988120778504340755267667870522625524609833530011120657431923591413999786876110900838629523627689338558411256889459,
  35375198953403622064451319786557724853451194834095331677812360853664824727449424066101894654434849384376784113351907118038615262323745251078071800957515602363324136183292813266630749572264214260088948,
  35375198953403622064451319786557724853451194834095331677812360853664824727449424066101894654434849384376784113351907118038615262323745251078071800957515602363324145745151845385071809624879574964895859,
  104228721609328009419529532235367991386029936076484874382400117923843236649281527506532784905001462689865364799407663411505985370857007137735708571425293290114203426239634489616233762635312772347348722405688409905564841143260866001065384614188346019085915848819,
  54502233379849198826060816104060089897622844618123706675427254558400613309290923640393823410480518448704402855301744627380562623351359193158145699494585220865562594644011566996614561986601911686649940950926405242050988802163,
  381183097743917697252897307518138882989299808005354071600057790578241054502000519950813656175639176427110965673224500255169676481718463493055099952429136173706647151567558920091376401511447379988246240964585275072577764836668429785477119588940347186970446116754190155157047662084727447822160296779981430448984525703243341557484814451,
  160584202438481511526742572398863780166319862456225668184943133306668069583147985292903634074025750864881075774283928861446466000897713205050352872624727775214057294314332818520165991175109239275784178541427481558669536645404727039953865241622987448139489973425126087671858359342268531,
  222069735393546295392340235678252414741571903742285436144794688672601375915723286196696939129970657453578141092059065409341146995304573440586413637682297613713094971936056492255202997931309402343246691020463946384057492119017018413077303981715859611077366588234853928368474532180560801993610208801521779,
  22960613233430604147890055865194441432149032935016369617166433313204671443506188537461921575247369726106035778869988440059032978685494617221036755881671399802544773679713615988,
  39411933656374416185469988790041399951929364334238324445155979674926919990593528835509703196703817843670082249681918162088701330748098323716165061801093349235979215901792886676135252800593701051726657552485,
  20608891416150803642623053934608406903568970565810591410169204993195943471681301721952877377226169005951236284598164479531028090377842751103390120896974522335730413142117,
  2946701027562690518618581385685150928809438190217286665830516,
  31751980456450833195532249849992804102515510687506379982151672859685042112285470984715597104371874138661322703495668961823337684761503427792483935785126837245766878413439041715956121537483178084,
  20608928408185529424893518151364553629367241836694039292631540286665455915266323506756153244328547212191351824444314344601554748370716567378502671568565147451506675744882,
  16603425834928566261969339993606526783512803774286237774225068245443797587215228074191850605997108229637830584180157038999263273584232592345678638411767480421,
  48919975019487173655086814246981225181387378452388789115887651406324818048790722635707963613965887058738803679399281491098674267194089306578446139075578146329113254913404766026220936701342626165904953303186642687623267,
  22960654446700396558627041800569100922722689151994628170251104164274962427190242528406939061710871763294903961363348215587858136511756521013295659730651773642509374481069572204,
  35375262450297350673140940735433090126760795932783781586528571085737542438152060523668812624691625072902085725605741190153869086077029704373557997983960681493132021684766932843551619730287994554155111,
  35375262450297350673140940735433090126760795932783781586528571085737542438152060523668812624691625072935893287900056915324855269859375874146561031146833364700851573642441797354540724035449847727259763,
  13376423266455729519375825495461175030922990716309204347154939242505260520834058220092940189636249831422480701810456909074651146164947785714434148,
  60721701227822133953080418205935645146340362466093448562886979256855602443747244814626064497447840407059061819239941083988550641559543148912826186755502623853678256870315323308137927894958732957707051637882479538556067513006817381,
  104228908695203292093270525986620317399257998022139752952190868149727812278681863159283063100615698433923516788242252745119814086979895449960990626533585970915022133528743839586025611926453510041423328795391109104260176486296180659397054713422633709778244730995,
  54502331209042607477271790050970466120329757319331998482442524314699057715789210738815660313763067693770669527694214201361314595520616825428334060866737986579382133769089170157251764684640083188217544793532316094357767979112,
  7792839695365210232090111160452219761239953638545935678868548729158978800104730707035673138981674829389648786423916,
  7792839695365210232090111160452219761239953638545935678868548729158978800104730707035673155929266310297080938365043,
  10776613283470627300445894531015552701754657366518224439371488135879080174211607930653026443081079733546331139541725239081259840503924,
  12006354178474027522954376447738799457934782869421509339244390038103070398832497028623341163085167065951226287126596031968113308707770204261,
  9672827582389048228944571578993451921700141335787197886953592833833322959259604400841819872555318970071578951453515618402435187,
  13376423266488055751653746252943169341678636812216936612964245874131087968184070929553607869887405133906145571157601500819976891151379039578685556]

def kwReqsCodesChunks : List (List Nat) := [kwReqsCodes0, kwReqsCodes1, kwReqsCodes2, kwReqsCodes3, kwReqsCodes4, kwReqsCodes5, kwReqsCodes6, kwReqsCodes7, kwReqsCodes8]

end Vermin.Data
