/-
The first 2179072 decimals of π, in 2048 rows of 1064 (generated by tools/gen_pi.py; proved to be those of π in
Proof/PiDigits.lean).
-/
namespace Hashes.Pi

def rows0 : List Nat := [
  14159265358979323846264338327950288419716939937510582097494459230781640628620899862803482534211706798214808651328230664709384460955058223172535940812848111745028410270193852110555964462294895493038196442881097566593344612847564823378678316527120190914564856692346034861045432664821339360726024914127372458700660631558817488152092096282925409171536436789259036001133053054882046652138414695194151160943305727036575959195309218611738193261179310511854807446237996274956735188575272489122793818301194912983367336244065664308602139494639522473719070217986094370277053921717629317675238467481846766940513200056812714526356082778577134275778960917363717872146844090122495343014654958537105079227968925892354201995611212902196086403441815981362977477130996051870721134999999837297804995105973173281609631859502445945534690830264252230825334468503526193118817101000313783875288658753320838142061717766914730359825349042875546873115956286388235378759375195778185778053217122680661300192787661119590921642019893809525720106548586327886593615338182796823030195203530185296899,
  57736225994138912497217752834791315155748572424541506959508295331168617278558890750983817546374649393192550604009277016711390098488240128583616035637076601047101819429555961989467678374494482553797747268471040475346462080466842590694912933136770289891521047521620569660240580381501935112533824300355876402474964732639141992726042699227967823547816360093417216412199245863150302861829745557067498385054945885869269956909272107975093029553211653449872027559602364806654991198818347977535663698074265425278625518184175746728909777727938000816470600161452491921732172147723501414419735685481613611573525521334757418494684385233239073941433345477624168625189835694855620992192221842725502542568876717904946016534668049886272327917860857843838279679766814541009538837863609506800642251252051173929848960841284886269456042419652850222106611863067442786220391949450471237137869609563643719172874677646575739624138908658326459958133904780275900994657640789512694683983525957098258226205224894077267194782684826014769909026401363944374553050682034962524517493996514314298091,
  90659250937221696461515709858387410597885959772975498930161753928468138268683868942774155991855925245953959431049972524680845987273644695848653836736222626099124608051243884390451244136549762780797715691435997700129616089441694868555848406353422072225828488648158456028506016842739452267467678895252138522549954666727823986456596116354886230577456498035593634568174324112515076069479451096596094025228879710893145669136867228748940560101503308617928680920874760917824938589009714909675985261365549781893129784821682998948722658804857564014270477555132379641451523746234364542858444795265867821051141354735739523113427166102135969536231442952484937187110145765403590279934403742007310578539062198387447808478489683321445713868751943506430218453191048481005370614680674919278191197939952061419663428754440643745123718192179998391015919561814675142691239748940907186494231961567945208095146550225231603881930142093762137855956638937787083039069792077346722182562599661501421503068038447734549202605414665925201497442850732518666002132434088190710486331734649651453905,
  79626856100550810665879699816357473638405257145910289706414011097120628043903975951567715770042033786993600723055876317635942187312514712053292819182618612586732157919841484882916447060957527069572209175671167229109816909152801735067127485832228718352093539657251210835791513698820914442100675103346711031412671113699086585163983150197016515116851714376576183515565088490998985998238734552833163550764791853589322618548963213293308985706420467525907091548141654985946163718027098199430992448895757128289059232332609729971208443357326548938239119325974636673058360414281388303203824903758985243744170291327656180937734440307074692112019130203303801976211011004492932151608424448596376698389522868478312355265821314495768572624334418930396864262434107732269780280731891544110104468232527162010526522721116603966655730925471105578537634668206531098965269186205647693125705863566201855810072936065987648611791045334885034611365768675324944166803962657978771855608455296541266540853061434443185867697514566140680070023787765913440171274947042056223053899456131407112700,
  4078547332699390814546646458807972708266830634328587856983052358089330657574067954571637752542021149557615814002501262285941302164715509792592309907965473761255176567513575178296664547791745011299614890304639947132962107340437518957359614589019389713111790429782856475032031986915140287080859904801094121472213179476477726224142548545403321571853061422881375850430633217518297986622371721591607716692547487389866549494501146540628433663937900397692656721463853067360965712091807638327166416274888800786925602902284721040317211860820419000422966171196377921337575114959501566049631862947265473642523081770367515906735023507283540567040386743513622224771589150495309844489333096340878076932599397805419341447377441842631298608099888687413260472156951623965864573021631598193195167353812974167729478672422924654366800980676928238280689964004824354037014163149658979409243237896907069779422362508221688957383798623001593776471651228935786015881617557829735233446042815126272037343146531977774160319906655418763979293344195215413418994854447345673831624993419131814809,
  27777103863877343177207545654532207770921201905166096280490926360197598828161332316663652861932668633606273567630354477628035045077723554710585954870279081435624014517180624643626794561275318134078330336254232783944975382437205835311477119926063813346776879695970309833913077109870408591337464144282277263465947047458784778720192771528073176790770715721344473060570073349243693113835049316312840425121925651798069411352801314701304781643788518529092854520116583934196562134914341595625865865570552690496520985803385072242648293972858478316305777756068887644624824685792603953527734803048029005876075825104747091643961362676044925627420420832085661190625454337213153595845068772460290161876679524061634252257719542916299193064553779914037340432875262888963995879475729174642635745525407909145135711136941091193932519107602082520261879853188770584297259167781314969900901921169717372784768472686084900337702424291651300500516832336435038951702989392233451722013812806965011784408745196012122859937162313017114448464090389064495444006198690754851602632750529834918740,
  78668088183385102283345085048608250393021332197155184306354550076682829493041377655279397517546139539846833936383047461199665385815384205685338621867252334028308711232827892125077126294632295639898989358211674562701021835646220134967151881909730381198004973407239610368540664319395097901906996395524530054505806855019567302292191393391856803449039820595510022635353619204199474553859381023439554495977837790237421617271117236434354394782218185286240851400666044332588856986705431547069657474585503323233421073015459405165537906866273337995851156257843229882737231989875714159578111963583300594087306812160287649628674460477464915995054973742562690104903778198683593814657412680492564879855614537234786733039046883834363465537949864192705638729317487233208376011230299113679386270894387993620162951541337142489283072201269014754668476535761647737946752004907571555278196536213239264061601363581559074220202031872776052772190055614842555187925303435139844253223415762336106425063904975008656271095359194658975141310348227693062474353632569160781547818115284366795706,
  11086153315044521274739245449454236828860613408414863776700961207151249140430272538607648236341433462351897576645216413767969031495019108575984423919862916421939949072362346468441173940326591840443780513338945257423995082965912285085558215725031071257012668302402929525220118726767562204154205161841634847565169998116141010029960783869092916030288400269104140792886215078424516709087000699282120660418371806535567252532567532861291042487761825829765157959847035622262934860034158722980534989650226291748788202734209222245339856264766914905562842503912757710284027998066365825488926488025456610172967026640765590429099456815065265305371829412703369313785178609040708667114965583434347693385781711386455873678123014587687126603489139095620099393610310291616152881384379099042317473363948045759314931405297634757481193567091101377517210080315590248530906692037671922033229094334676851422144773793937517034436619910403375111735471918550464490263655128162288244625759163330391072253837421821408835086573917715096828874782656995995744906617583441375223970968340800535598,
  49175417381883999446974867626551658276584835884531427756879002909517028352971634456212964043523117600665101241200659755851276178583829204197484423608007193045761893234922927965019875187212726750798125547095890455635792122103334669749923563025494780249011419521238281530911407907386025152274299581807247162591668545133312394804947079119153267343028244186041426363954800044800267049624820179289647669758318327131425170296923488962766844032326092752496035799646925650493681836090032380929345958897069536534940603402166544375589004563288225054525564056448246515187547119621844396582533754388569094113031509526179378002974120766514793942590298969594699556576121865619673378623625612521632086286922210327488921865436480229678070576561514463204692790682120738837781423356282360896320806822246801224826117718589638140918390367367222088832151375560037279839400415297002878307667094447456013455641725437090697939612257142989467154357846878861444581231459357198492252847160504922124247014121478057345510500801908699603302763478708108175450119307141223390866393833952942578690,
  50764310063835198343893415961318543475464955697810382930971646514384070070736041123735998434522516105070270562352660127648483084076118301305279320542746286540360367453286510570658748822569815793678976697422057505968344086973502014102067235850200724522563265134105592401902742162484391403599895353945909440704691209140938700126456001623742880210927645793106579229552498872758461012648369998922569596881592056001016552563756785667227966198857827948488558343975187445455129656344348039664205579829368043522027709842942325330225763418070394769941597915945300697521482933665556615678736400536665641654732170439035213295435291694145990416087532018683793702348886894791510716378529023452924407736594956305100742108714261349745956151384987137570471017879573104229690666702144986374645952808243694457897723300487647652413390759204340196340391147320233807150952220106825634274716460243354400515212669324934196739770415956837535551667302739007497297363549645332888698440611964961627734495182736955882207573551766515898551909866653935494810688732068599075407923424023009259007,
  1731960362254756478940647548346647760411463233905651343306844953979070903023460461470961696886885014083470405460742958699138296682468185710318879065287036650832431974404771855678934823089431068287027228097362480939962706074726455399253994428081137369433887294063079261595995462624629707062594845569034711972996409089418059534393251236235508134949004364278527138315912568989295196427287573946914272534366941532361004537304881985517065941217352462589548730167600298865925786628561249665523533829428785425340483083307016537228563559152534784459818313411290019992059813522051173365856407826484942764411376393866924803118364453698589175442647399882284621844900877769776312795722672655562596282542765318300134070922334365779160128093179401718598599933849235495640057099558561134980252499066984233017350358044081168552653117099570899427328709258487894436460050410892266917835258707859512983441729535195378855345737426085902908176515578039059464087350612322611200937310804854852635722825768203416050484662775045003126200800799804925485346941469775164932709504934639382432,
  22718851597405470214828971117779237612257887347718819682546298126868581705074027255026332904497627789442362167411918626943965067151577958675648239939176042601763387045499017614364120469218237076488783419689686118155815873606293860381017121585527266830082383404656475880405138080163363887421637140643549556186896411228214075330265510042410489678352858829024367090488711819090949453314421828766181031007354770549815968077200947469613436092861484941785017180779306810854690009445899527942439813921350558642219648349151263901280383200109773868066287792397180146134324457264009737425700735921003154150893679300816998053652027600727749674584002836240534603726341655425902760183484030681138185510597970566400750942608788573579603732451414678670368809880609716425849759513806930944940151542222194329130217391253835591503100333032511174915696917450271494331515588540392216409722910112903552181576282328318234254832611191280092825256190205263016391147724733148573910777587442538761174657867116941477642144111126358355387136101102326798775641024682403226483464176636980663785,
  76813492045302240819727856471983963087815432211669122464159117767322532643356861461865452226812688726844596844241610785401676814208088502800541436131462308210259417375623899420757136275167457318918945628352570441335437585753426986994725470316566139919996826282472706413362221789239031760854289437339356188916512504244040089527198378738648058472689546243882343751788520143956005710481194988423906061369573423155907967034614914344788636041031823507365027785908975782727313050488939890099239135033732508559826558670892426124294736701939077271307068691709264625484232407485503660801360466895118400936686095463250021458529309500009071510582362672932645373821049387249966993394246855164832611341461106802674466373343753407642940266829738652209357016263846485285149036293201991996882851718395366913452224447080459239660281715655156566611135982311225062890585491450971575539002439315351909021071194573002438801766150352708626025378817975194780610137150044899172100222013350131060163915415895780371177927752259787428919179155224171895853616805947412341933984202187456492564,
  43462392531953135103311476394911995072858430658361935369329699289837914941939406085724863968836903265564364216644257607914710869984315733749648835292769328220762947282381537409961545598798259891093717126218283025848112389011968221429457667580718653806506487026133892822994972574530332838963818439447707794022843598834100358385423897354243956475556840952248445541392394100016207693636846776413017819659379971557468541946334893748439129742391433659360410035234377706588867781139498616478747140793263858738624732889645643598774667638479466504074111825658378878454858148962961273998413442726086061872455452360643153710112746809778704464094758280348769758948328241239292960582948619196670918958089833201210318430340128495116203534280144127617285830243559830032042024512072872535581195840149180969253395075778400067465526031446167050827682772223534191102634163157147406123850425845988419907611287258059113935689601431668283176323567325417073420817332230462987992804908514094790368878687894930546955703072619009502076433493359106024545086453628935456862958531315337183868,
  26561786227363716975774183023986006591481616404944965011732131389574706208847480236537103115089842799275442685327797431139514357417221975979935968525228574526379628961269157235798662057340837576687388426640599099350500081337543245463596750484423528487470144354541957625847356421619813407346854111766883118654489377697956651727966232671481033864391375186594673002443450054499539974237232871249483470604406347160632583064982979551010954183623503030945309733583446283947630477564501500850757894954893139394489921612552559770143685894358587752637962559708167764380012543650237141278346792610199558522471722017772370041780841942394872540680155603599839054898572354674564239058585021671903139526294455439131663134530893906204678438778505423939052473136201294769187497519101147231528932677253391814660730008902776896311481090220972452075916729700785058071718638105496797310016787085069420709223290807038326345345203802786099055690013413718236837099194951648960075504934126787643674638490206396401976668559233565463913836318574569814719621084108096188460545603903845534372,
  91414465134749407848844237721751543342603066988317683310011331086904219390310801437843341513709243530136776310849135161564226984750743032971674696406665315270353254671126675224605511995818319637637076179919192035795820075956053023462677579439363074630569010801149427141009391369138107258137813578940055995001835425118417213605572752210352680373572652792241737360575112788721819084490061780138897107708229310027976659358387589093956881485602632243937265624727760378908144588378550197028437793624078250527048758164703245812908783952324532378960298416692254896497156069811921865849267704039564812781021799132174163058105545988013004845629976511212415363745150056350701278159267142413421033015661653560247338078430286552572227530499988370153487930080626018096238151613669033411113865385109193673938352293458883225508870645075394739520439680790670868064450969865488016828743437861264538158342807530618454859037982179945996811544197425363443996029025100158882721647450068207041937615845471231834600726293395505482395571372568402322682130124767945226448209102356477527230,
  82081063518899152692889108455571126603965034397896278250016110153235160519655904211844949907789992007329476905868577878720982901352956613978884860509786085957017731298155314951681467176959760994210036183559138777817698458758104466283998806006162298486169353373865787735983361613384133853684211978938900185295691967804554482858483701170967212535338758621582310133103877668272115726949518179589754693992642197915523385766231676275475703546994148929041301863861194391962838870543677743224276809132365449485366768000001065262485473055861598999140170769838548318875014293890899506854530765116803337322265175662207526951791442252808165171667766727930354851542040238174608923283917032754257508676551178593950027933895920576682789677644531840404185540104351348389531201326378369283580827193783126549617459970567450718332065034556644034490453627560011250184335607361222765949278393706478426456763388188075656121689605041611390390639601620221536849410926053876887148379895599991120991646464411918568277004574243434021672276445589330127781586869525069499364610175685060167145,
  35431581480105458860564550133203758645485840324029871709348091055621167154684847780394475697980426318099175642280987399876697323769573701580806822904599212366168902596273043067931653114940176473769387351409336183321614280214976339918983548487562529875242387307755955595546519639440182184099841248982623673771467226061633643296406335728107078875816404381485018841143188598827694490119321296827158884133869434682859006664080631407775772570563072940049294030242049841656547973670548558044586572022763784046682337985282710578431975354179501134727362577408021347682604502285157979579764746702284099956160156910890384582450267926594205550395879229818526480070683765041836562094555434613513415257006597488191634135955671964965403218727160264859304903978748958906612725079482827693895352175362185079629778514618843271922322381015874445052866523802253284389137527384589238442253547265309817157844783421582232702069028723233005386216347988509469547200479523112015043293226628272763217790884008786148022147537657810581970222630971749507212724847947816957296142365859578209083,
  7332335603484653187302930266596450137183754288975579714499246540386817992138934692447419850973346267933210726868707680626399193619650440995421676278409146698569257150743157407938053239252394775574415918458215625181921552337096074833292349210345146264374498055961033079941453477845746999921285999993996122816152193148887693880222810830019860165494165426169685867883726095877456761825072759929508931805218729246108676399589161458550583972742098090978172932393010676638682404011130402470073508578287246271349463685318154696904669686939254725194139929146524238577625500474852954768147954670070503479995888676950161249722820403039954632788306959762493615101024365553522306906129493885990157346610237122354789112925476961760050479749280607212680392269110277722610254414922157650450812067717357120271802429681062037765788371669091094180744878140490755178203856539099104775941413215432844062503018027571696508209642734841469572639788425600845312140659358090412711359200419759851362547961606322887361813673732445060792441176399759746193835845749159880976674470930065463424,
  23460634237474666080431701260052055928493695941434081468529815053947178900451835755154125223590590687264878635752541911288877371766374860276606349603536794702692322971868327717393236192007774522126247518698334951510198642698878471719396649769070825217423365662725928440620430214113719922785269984698847702323823840055655517889087661360130477098438611687052310553149162517283732728676007248172987637569816335415074608838663640693470437206688651275688266149730788657015685016918647488541679154596507234287730699853713904300266530783987763850323818215535597323530686043010675760838908627049841888595138091030423595782495143988590113185835840667472370297149785084145853085781339156270760356390763947311455495832266945702494139831634332378975955680856836297253867913275055542524491943589128405045226953812179131914513500993846311774017971512283785460116035955402864405902496466930707769055481028850208085800878115773817191741776017330738554758006056014337743299012728677253043182519757916792969965041460706645712588834697979642931622965520168797300035646304579308840327,
  48077181155533090988702550520768046303460865816539487695196004408482065967379473168086415645650530049881616490578831154345485052660069823093157776500378070466126470602145750579327096204782561524714591896522360839664562410519551052235723973951288181640597859142791481654263289200428160913693777372229998332708208296995573772737566761552711392258805520189887620114168005468736558063347160373429170390798639652296131280178267971728982293607028806908776866059325274637840539769184808204102194471971386925608416245112398062011318454124478205011079876071715568315407886543904121087303240201068534194723047666672174986986854707678120512473679247919315085644477537985379973223445612278584329684664751333657369238720146472367942787004250325558992688434959287612400755875694641370562514001179713316620715371543600687647731867558714878398908107429530941060596944315847753970094398839491443235366853920994687964506653398573888786614762944341401049888993160051207678103588611660202961193639682134960750111649832785635316145168457695687109002999769841263266502347716728657378579,
  8574664607722834154031144152941880478254387617707904300015669867767957609099669360755949651527363498118964130433116627747123388174060373174397054067031096767657486953587896700319258662594105105335843846560233917967492678447637084749783336555790073841914731988627135259546251816043422537299628632674968240580602964211463864368642247248872834341704415734824818333016405669596688667695634914163284264149745333499994800026699875888159350735781519588990053951208535103572613736403436753471410483601754648830040784641674521673719048310967671134434948192626811107399482506073949507350316901973185211955263563258433909982249862406703107683184466072912487475403161796994113973877658998685541703188477886759290260700432126661791922352093822787888098863359911608192353555704646349113208591897961327913197564909760001399623444553501434642686046449586247690943470482932941404111465409239883444351591332010773944111840741076849810663472410482393582740194493566516108846312567852977697346843030614624180358529331597345830384554103370109167677637427621021370135485445092630719011,
  47318485749233181672072137279355679528443925481560913728128406333039373562420016045664557414588166052166608738748047243391212955877763906969037078828527753894052460758496231574369171131761347838827194168606625721036851321566478001476752310393578606896111259960281839309548709059073861351914591819510297327875571049729011487171897180046961697770017913919613791417162707018958469214343696762927459109940060084983568425201915593703701011049747339493877885989417433031785348707603221982970579751191440510994235883034546353492349826883624043327267415540301619505680654180939409982020609994140216890900708213307230896621197755306659188141191577836272927461561857103721724710095214236964830864102592887457999322374955191221951903424452307535133806856807354464995127203174487195403976107308060269906258076020292731455252078079914184290638844373499681458273372072663917670201183004648190002413083508846584152148991276106513741539435657211390328574918769094413702090517031487773461652879848235338297260136110984514841823808120540996125274580881099486972216128524897425555516,
  7637167505489617301680961380381191436114399210638005083214098760459930932485102516829446726066613815174571255975495358023998314698220361338082849935670557552471290274539776214049318201465800802156653606776550878380430413431059180460680083459113664083488740800574127258670479225831912741573908091438313845642415094084913391809684025116399193685322555733896695374902662092326131885589158083245557194845387562878612885900410600607374650140262782402734696252821717494158233174923968353013617865367376064216677813773995100658952887742766263684183068019080460984980946976366733566228291513235278880615776827815958866918023894033307644191240341202231636857786035727694154177882643523813190502808701857504704631293335375728538660588890458311145077394293520199432197117164223500564404297989208159430716701985746927384865383343614579463417592257389858800169801475742054299580124295810545651083104629728293758416116253256251657249807849209989799062003593650993472158296517413579849104711166079158743698654122234834188772292944633517865385673196255985202607294767407261676714,
  55736498121056777168934849176607717052771876011999081441130586455779105256843048114402619384023224709392498029335507318458903553971330884461741079591625117148648744686112476054286734367090466784686702740918810142497111496578177242793470702166882956108777944050484375284433751088282647719785400065097040330218625561473321177711744133502816088403517814525419643203095760186946490886815452856213469883554445602495566684366029221951248309106053772019802183101032704178386654471812603971906884623708575180800353270471856594994761242481109992886791589690495639476246084240659309486215076903149870206735338483495508363660178487710608098042692471324100094640143736032656451845667924566695510015022983307984960799498824970617236744936122622296179081431141466094123415935930958540791390872083227335495720807571651718765994498569379562387555161757543809178052802946420044721539628074636021132942559160025707356281263873310600589106524570802447493754318414940148211999627645310680066311838237616396631809314446712986155275982014514102756006892975024630401735148919457636078935,
  28555053173314164570504996443890936308438744847839616840518452732884032345202470568516465716477139323775517294795126132398229602394548579754586517458787713318138752959809412174227300352296508089177705068259248822322154938048371454781647213976820963320508305647920482085920475499857320388876391601995240918938945576768749730856955958010659526503036266159750662225084067428898265907510637563569968211510949669744580547288693631020367823250182323708459790111548472087618212477813266330412076216587312970811230758159821248639807212407868878114501655825136178903070860870198975889807456643955157415363193191981070575336633738038272152798849350397480015890519420879711308051233933221903466249917169150948541401871060354603794643379005890957721180804465743962806186717861017156740967662080295766577051291209907944304632892947306159510430902221439371849560634056189342513057268291465783293340524635028929175470872564842600349629611654138230077313327298305001602567240141851520418907011542885799208121984493156999059182011819733500126187728036812481995877070207532406361259,
  31343859554254778196114293516356122349666152261473539967405158499860355295332924575238881013620234762466905581643896786309762736550472434864307121849437348530060638764456627218666170123812771562137974614986132874411771455244470899714452288566294244023018479120547849857452163469644897389206240194351831008828348024924908540307786387516591130287395878709810077271827187452901397283661484214287170553179654307650453432460053636147261818096997693348626407743519992868632383508875668359509726557481543194019557685043724800102041374983187225967738715495839971844490727914196584593008394263702087563539821696205532480321226749891140267852859967340524203109179789990571882194939132075343170798002373659098537552023891164346718558290685371189795262623449248339249634244971465684659124891855662958932990903523923333364743520370770101084388003290759834217018554228386161721041760301164591878053936744747205998502358289183369292233732399948043710841965947316265482574809948250999183300697656936715968936449334886474421350084070066088359723503953234017958255703601693699098867,
  11321097988970705172807558551912699306730992507040702455685077867906947661262980822516331363995211709845280926303759224267425755998928927837047444521893632034894155210445972618838003006776179313813991620580627016510244588692476492468919246121253102757313908404700071435613623169923716948481325542009145304103713545329662063921054798243921251725401323149027405858920632175894943454890684639931375709103463327141531622328055229729795380188016285907357295541627886764982741861642187898857410716490691918511628152854867941736389066538857642291583425006736124538491606741373401735727799563410433268835695078149313780073623541800706191802673285511919426760912210359874692411728374931261633950012395992405084543756985079570462226646190001035004901830341535458428337643781119885563187777925372011667185395418359844383052037628194407615941068207169703022851522505731260930468984234331527321313612165828080752126315477306044237747535059522871744026663891488171730864361113890694202790881431194487994171540421034121908470940802540239329429454938786402305129271190975135360009,
  21971105412096683111516328705423028470073120658032626417116165957613272351566662536672718998534199895236884830999302757419916463841427077988708874229277053891227172486322028898425125287217826030500994510824783572905691988555467886079462805371227042466543192145281760741482403827835829719301017888345674167811398954750448339314689630763396657226727043393216745421824557062524797219978668542798977992339579057581890622525473582205236424850783407110144980478726691990186438822932305382318559732869780922253529591017341407334884761005564018242392192695062083183814546983923664613639891012102177095976704908305081854704194664371312299692358895384930136356576186106062228705599423371631021278457446463989738188566746260879482018647487672727222062676465338099801966883680994159075776852639865146253336312450536402610569605513183813174261184420189088853196356986962795036738424313011331753305329802016688817481342988681585577810343231753064784983210629718425184385534427620128234570716988530518326179641178579608888150329602290705614476220915094739035946646916235396809201,
  39457817589108893199211226007392814916948161527384273626429809823406320024402449589445612916704950823581248739179964864113348032475777521970893277226234948601504665268143987705161531702669692970492831628550421289814670619533197026950721437823047687528028735412616639170824592517001071418085480063692325946201900227808740985977192180515853214739265325155903541020928466592529991435379182531454529059841581763705892790690989691116438118780943537152133226144362531449012745477269573939348154691631162492887357471882407150399500944673195431619385548520766573882513963916357672315100555603726339486720820780865373494244011579966750736071115935133195919712094896471755302453136477094209463569698222667377520994516845064362382421185353488798939567318780660610788544000550827657030558744854180577889171920788142335113866292966717964346876007704799953788338787034871802184243734211227394025571769081960309201824018842705704609262256417837526526335832424066125331152942345796556950250681001831090041124537901533296615697052237921032570693705109083078947999900499939532215362,
  27484766036136776979785673865846709366795885837887956259464648913766521995882869338018360119323685785585581955560421562508836502033220245137621582046181067051953306530606065010548871672453779428313388716313955969058320834168984760656071183471362181232462272588419902861420872849568796393254642853430753011052857138296437099903569488852851904029560473461311382638788975517885604249987483163828040468486189381895905420398898726506976202019955484126500053944282039301274816381585303964399254702016727593285743666616441109625663373054092195196751483287348089574777752783442210910731113518280460363471981856555729571447476825528578633493428584231187494400032296906977583159038580393535213588600796003420975473922967333106493956018122378128545843176055617338611267347807458506760630482294096530411183066710818930311088717281675195796753471885372293096161432040063813224658411111577583585811350185690478153689381377184728147519983505047812977185990847076219746058874232569958288925350419379582606162118423687685114183160683158679946016520577405294230536017803133572632670,
  54790338401257305912339601880137825421927094767337191987287385248057421248921183470876629667207272325650565129333126059505777727542471241648312832982072361750574673870128209575544305968395555686861188397135522084452852640081252027665557677495969626612604565245684086139238265768583384698499778726706555191854468698469478495734622606294219624557085371272776523098955450193037732166649182578154677292005212667143463209637891852323215018976126034373684067194193037746880999296877582441047878123266253181845960453853543839114496775312864260925211537673258866722604042523491087026958099647595805794663973419064010036361904042033113579336542426303561457009011244800890020801478056603710154122328891465722393145076071670643556827437743965789067972687438473076346451677562103098604092717090951280863090297385044527182892749689212106670081648583395537735919136950153162018908887484210798706899114804669270650940762046502772528650728905328548561433160812693005693785417861096969202538865034577183176686885923681488475276498468821949739729707737187188400414323127636504814531,
  12285099002074240925585925292610302106736815434701525234878635164397623586041919412969769040526483234700991115424260127343802208933109668636789869497799400126016422760926082349304118064382913834735467972539926233879158299848645927173405922562074910530853153718291168163721939518870095778818158685046450769934394098743351443162633031724774748689791820923948083314397084067308407958935810896656477585990556376952523265361442478023082681183103773588708924061303133647737101162821461466167940409051861526036009252194721889091810733587196414214447865489952858234394705007983038853886083103571930600277119455802191194289992272235345870756624692617766317885514435021828702668561066500353105021631820601760921798468493686316129372795187307897263735371715025637873357977180818487845886650433582437700414771041493492743845758710715973155943942641257027096512510811554824793940359768118811728247215825010949609662539339538092219559191818855267806214992317276316321833989693807561685591175299845013206712939240414459386239880938124045219148483164621014738918251010909677386906,
  64041589736104764365000680771056567184862814963711188321924456639458144914861655004956769826903089111856879869294705135248160917432430153836847072928989828460222373014526556798986277679680914697983782687643115988321090437156112997665215396354644208691975673700057387649784376862876817924974694384274652563163230055513041742273416464551278127845777724575203865437542828256714128858345444351325620544642410110379554641905811686230596447695870540721419852121067343324107567675758184569906930460475227701670056845439692340417110898889934163505851578873534308155208117720718803791040469830695786854739376564336319797868036718730796939242363214484503547763156702553900654231179201534649779290662415083288583952905426376876689688050333172278001858850697362324038947004718976193473443084374437599250341788079722358591342458131440498477017323616947197657153531977549971627856631190469126091825912498903676541769799036237552865263757337635269693443544004730671988689019681474287677908669796885225016369498567302175231325292653758964151714795595387842784998664563028788319620,
  99830494519874396369070682762657485810439112232618794059941554063270131989895703761105323606298674803779153767511583043208498720920280929752649812569163425000522908872646925284666104665392171482080130502298052637836426959733707053922789153510568883938113249757071331029504430346715989448786847116438328050692507766274500122003526203709466023414648998390252588830148678162196775194583167718762757200505439794412459900771152051546199305098386982542846407255540927403132571632640792934183342147090412542533523248021932277075355546795871638358750181593387174236061551171013123525633485820365146141870049205704372018261733194715700867578539336078622739558185797587258744102542077105475361294047460100094095444959662881486915903899071865980563617137692227290764197755177720104276496949611056220592502420217704269622154958726453989227697660310524980855759471631075870133208861463266412591148633881220284440694169488261529577625325019870359870674380469821942056381255833436421949232275937221289056420943082352544084110864545369404969271494003319782861318186188811118408257,
  86592875742638445005994422956858646048103301538891149948693543603022181094346676400002236255057363129462629609619876056425996394613869233083719626595473923462413459779574852464783798079569319865081597767535055391899115133525229873611277918274854200868953965835942196333150286956119201229888988700607999279541118826902307891310760361763477948943203210277335941690865007193280401716384064498787175375678118532132840821657110754952829497493621460821558320568723218557406516109627487437509809223021160998263303391546949464449100451528092508974507489676032409076898365294065792019831526541065813682379198409064571246894847020935776119313998024681340520039478194986620262400890215016616381353838151503773502296607462795291038406868556907015751662419298724448271942933100485482445458071889763300323252582158128032746796200281476243182862217105435289834820827345168018613171959332471107466222850871066611770346535283957762599774467218571581612641114327179434788599089280848669491413909771673690027775850268664654056595039486784111079011610400857274456293842549416759460548,
  71172359464291058509099502149587931121961359083158826206823321561530868337308381732793281969838750870834838804638847844188400318471269745437093732983624028751979208023218787448828728437273780178270080587824107493575148899789117397461293203510814327032514090304874622629423443275712600866425083331876886507564292716055252895449215376517514921963671810494353178583834538652556566406572513635750643532365089367904317025978781771903148679638408288102094614900797151377170990619549696400708676671023300486726314755105372317571143223174114116806228642063889062101923552235467116621374996932693217370431059872250394565749246169782609702533594750209138366737728944386964000281103440260847128990007468077648440887113413525033678773167977093727786821661178653442317322646378476978751443320953400016506921305464768909850502030150448808342618452087305309731894929164253229336124315143065782640702838984098416029503092418971209716016492656134134334222988279099217860426798124572853458013382609958771781131021673402565627440072968340661984806766158050216918337236803990279316064,
  20436812079900316264449146190219458229690992122788553948783538305646864881655562294315673128274390826450611628942803501661336697824051770155219626522725455850738640585299830379180350432876703809252167907571204061237596327685674845079151147313440001832570344920909712435809447900462494313455028900680648704293534037436032625820535790118395649089354345101342969617545249573960621490288728932792520696535386396443225388327522499605986974759882329916263545973324445163755334377492928990581175786355555626937426910947117002165411718219750519831787137106051063795558588905568852887989084750915764639074693619881507814685262133252473837651192990156109189777922008705793396463827490680698769168197492365624226087154176100430608904377976678519661891404144925270480881971498801542057787006521594009289777601330756847966992955433656139847738060394368895887646054983871478968482805384701730871117761159663505039979343869339119789887109156541709133082607647406305711411098839388095481437828474528838368079418884342666222070438722887413947801017721392281911992365405516395893474,
  26395382482960903690028835932774585506080131798840716244656399794827578365019551422155133928197822698427863839167971509126241054872570092407004548848569295044811073808799654748156891393538094347455697212891982717702076661360248958146811913361412125878389557735719498631721084439890142394849665925173138817160266326193106536653504147307080441493916936326237376777709585031325599009576273195730864804246770121232702053374266705314244820816813030639737873664248367253983748769098060218278578621651273856351329014890350988327061725893257536399397905572917516009761545904477169226580631511102803843601737474215247608515209901615858231257159073342173657626714239047827958728150509563309280266845893764964977023297364131906098274063353108979246424213458374090116939196425045912881340349881063540088759682005440836438651661788055760895689672753153808194207733259791727843762566118431989102500749182908647514979400316070384554946538594602745244746681231468794344161099333890899263841184742525704457251745932573898956518571657596148126602031079762825416559050604247911401695,
  79003383565748692528007430256234194982864679144763227740055294609039401775363356554719310001754300475047191448998410400158679461792416100164547165513370740739502604427695385538343975505488710997852054011751697475813449260794336895437832211724506873442319898788441285420647428097356258070669831069799352606933921356858813912148073547284632277849080870024677763036055512323866562951788537196730346347012229395816067925091532174890308408865160611190114984434123501246469280288059961342835118847154497712784733617662850621697787177438243625657117794500644777183702219991066950216567576440449979407650379999548450027106659878136038023141268369057831904607927652972776940436130230517870805465115424693952651271010529270703066730244471259739399505146284047674313637399782591845411764133279064606365841529270190302760173394748669603486949765417524293060407270050590395031485229213925755948450788679779252539317651564161971684435243697944473559642606333910551268260615957262170366985064732812667245219890605498802807828814297963366967441248059821921463395657457221022986775,
  99746738126069367069134081559412016115960190237753525556300606247983261249881288192937343476862689219239777833910733106588256813777172328315329082525092733047850724977139448333892552081175608452966590553940965568541706001179857293813998258319293679100391844099286575605993598910002969864460974714718470101531283762631146774209145574041815908800064943237855839308530828305476076799524357391631221886057549673832243195650655460852881201902363644712703748634421727257879503428486312944916318475347531435041392096108796057730987201352484075057637199253650470908582513936863463863368042891767107602111159828875539940120076013947033661793715396306139863655492213741597905119083588290097656647300733879314678913181465109316761575821351424860442292445304113160652700974330088499034675405518640677342603583409608605533747362760935658853109760994238347382222087292464497684560579562516765574088410321731345627735856052358236389532038534024842273371639123973215995440828421666636023296545694703577184873442034227706653837387506169212768015766181095420097708363604361110592409,
  11788954033802142652394892968643980892611463541457153519434285072135345301831587562827573389826889852355779929572764522939156747756667605108788764845349363606827805056462281359888587925994094644604170520447004631513797543173718775603981596264750141090665886616218003826698996196558058720863972117699521946678985701179833244060181157565807428418291061519391763005919431443460515404771057005433900018245311773371895585760360718286050635647997900413976180895536366960316219311325022385179167205518065926351803625121457592623836934822266589557699466049193811248660909979812857182349400661555219611220720309227764620099931524427358948871057662389469388944649509396033045434084210246240104872332875008174917987554387938738143989423801176270083719605309438394006375611645856094312951759771393539607432279248922126704580818331376416581826956210587289244774003594700926866265965142205063007859200248829186083974373235384908396432614700053242354064704208949921025040472678105908364400746638002087012666420945718170294675227854007450855237772089058168391844659282941701828823,
  30149715542352359117748186285929676050482038643431087795628929254056389466219482687110428281638939757117577869154301650586029652174595819888786804081103284327398671986213062055598552660364050462821523061545944744899088390819997387474529698107762014871340001225355222466954093152131153379157980269795557105085074738747507580687653764457825244326380461430428892359348529610582693821034980004052484070844035611678171705128133788057056434506161193304244407982603779511985486945591520519600930412710072778493015550388953603382619293437970818743209499141595933963681106275572952780042548630600545238391510689989135788200194117865356821491185282078521301255185184937115034221595422445119002073935396274002081104655302079328672547405436527175958935007163360763216147258154076420530200453401835723382926619153083540951202263291650544261236191970516138393573266937601569144299449437448568097756963031295887191611292946818849363386473927476012269641588489009657170861605981472044674286642087653347998582220906198021732116142304194777549907387385679411898246609130916917722742,
  7233367635032678340586301930193242996397204445179288122854478211953530898910125342975524727635730226281382091807439748671453590778633530160821559911314144205091447293535022230817193663509346865858656314855575862447818620108711889760652969899269328178705576435143382060141077329261063431525337182243385263520217735440715281898137698755157574546939727150488469793619500477720970561793913828989845327426227288647108883270173723258818244658436249580592560338105215606206155713299156084892064340303395262263451454283678698288074251422567451806184149564686111635404971897682154227722479474033571527436819409892050113653400123846714296551867344153741615042563256713430247655125219218035780169240326699541746087592409207004669340396510178134857835694440760470232540755557764728450751826890418293966113310160131119077398632462778219023650660374041606724962490137433217246454097412995570529142438208076098364823465973886691349919784013108015581343979194852830436739012482082444814128095443773898320059864909159505322857914576884962578665885999179867520554558099004556461178,
  75524937012455321717019428288461740273664997847550829422802023290122163010230977215156944642790980219082668986883426307160920791408519769523555348865774342527753119724743087304361951139611908003025587838764420608504473063129927788894272918972716989057592524467966018970748296094919064876469370275077386643239191904225429023531892337729316673608699622803255718530891928440380507103006477684786324319100022392978525537237556621364474009676053943983823576460699246526008909062410590421545392790441152958034533450025624410100635953003959886446616959562635187806068851372346270799732723313469397145628554261546765063246567662027924520858134771760852169134094652030767339184114750414016892412131982688156866456148538028753933116023229255561894104299533564009578649534093511526645402441877594931693056044868642086275720117231952640502309977456764783848897346431721598062678767183800524769688408498918508614900343240347674268624595239589035858213500645099817824463608731775437885967767291952611121385919472545140030118050343787527766440276261894101757687268042817662386068,
  4778852428874302591452470739505465251353394595987896197789110418902929438185672050709646062635417329446495766126519534957018600154126239622864138977967333290705673769621564981845068422636903678495559700260798679962610190393312637685569687670292953711625280055431007864087289392257145124811357786276649024251619902774710903359333093049483805978566288447874414698414990671237647895822632949046798120899848571635710878311918486302545016209298058292083348136384054217200561219893536693713367333924644161252231969434712064173754912163570085736943973059797097197266666422674311177621764030686813103518991122713397240368870009968629225464650063852886203938005047782769128356033725482557939129852515068299691077542576474883253414121328006267170940090982235296579579978030182824284902214707481111240186076134151503875698309186527806588966823625239378452726345304204188025084423631903833183845505223679923577529291069250432614469501098610888999146585518818735825281643025209392852580779697376208456374821144339881627100317031513344023095263519295886806908213558536801610002,
  13740851154484912685841268695899174149133820578492800698255195740201818105641297250836070356851055331787840829000041552511865779453963317538532092149720526607831260281961164858098684587525129997404092797683176639914655386108937587952214971731728131517932904431121815871023518740757222100123768721944747209349312324107065080618562372526732540733324875754482967573450019321902199119960797989373383673242576103938985349278777473980508080015544764061053522202325409443567718794565430406735896491017610775948364540823486130254718476485189575836674399791508512858020607820554462991723202028222914886959399729974297471155371858924238493855858595407438104882624648788053304271463011941589896328792678327322456103852197011130466587100500083285177311776489735230926661234588873102883515626446023671996644554727608310118788389151149340939344750073025855814756190881398752357812331342279866503522725367171230756861045004548970360079569827626392344107146584895780241408158405229536937499710665594894459246286619963556350652623405339439142111271810691052290024657423604130093691,
  88925586578466846121567955425660541600507127664176605687427420032957716064344860620123982169827172319782681662824993871499544913730205184366907672357740005393266262276032365975171892590180110429038427418550789488743883270306328327996300720069801224436511639408692222074532024462412115580435454206421512158505689615735641431306888344318528085397592773443365538418834030351782294625370201578215737326552318576355409895403323638231921989217117744946940367829618592080340386757583411151882417743914507736638407188048935825686854201164503135763335550944031923672034865101056104987272647213198654343545040913185951314518127643731043897250700498198705217627249406521461995923214231443977654670835171474936798618655279171582408065106379950018429593879915835017158075988378496225739851212981032637937621832245659423668537679911314010804313973233544909082491049914332584329882103398469814171575601082970658306521134707680368069532297199059990445120908727577622535104090239288877942463048328031913271049547859918019696783532146444118926063152661816744319355081708187547705080,
  26540252941092182648582138575266881555841131985600221351588872103656960875150631875330029421186822218937755460272272912905042922597877106678738400006167721546384412923711935218284998243509208918016855727981564218581911974909857305703326676464607287574305653726027689823732597450844796495456480307715981539558277791393736017174229960273531027687194494449179397851446315973144353518504914139415573293820485421235081739125497498193087143966151329420459193801062314217741991840601803479498876910515579055548069538785400664533759818628464199052204528033062636956264909108276271159038569950512465299960628554438383303276385998007929228466595035512112452840875162290602620118577753137479493620554964010730013488531507354873539056029089335264007132747326219603117734339436733857591245081493357369116645412817881714540230547506671365182582848980995121391939956332413365567770980030819102720409971486874181346670060940510214626902804491596465453301077546954130887141653125448130611924078211886900560277818242350226961893443525476335735364856193632544177566139817039306328721,
  66905722259745209192917262199844409646158269456380239502837121686446561785235565164127712826918688615572716201474934052276946595712198314943381622114006936307430444173284786101777743837977037231795255434107223445512555589998646183876764903972461167959018100035098928641204195163551108763204267612979826529425882951141275841262732790798807559751851576841264742209479721843309352972665210015662514552994745127631550917636730259462132930190402837954246323258550301096706922720227074863419005438302650681214142135057154175057508639907673946335146209082888934938376439399256900604067311422093312195936202982972351163259386772241477911629572780752395056251581603133359382311500518626890530658368129988108663263271980611271548858798093487912913707498230575929091862939195014721197586067270092547718025750337730799397134539532646195269996596385654917590458333585799102012713204583903200853878881633637685182083727885131175227769609787962142372162545214591281831798216044111311671406914827170981015457781939202311563871950805024679725792497605772625913328559726371211201905,
  72077140914864507409492671803581515757151405039761096384675556929897038354731410022380258346876735012977541327953206097115450648421218593649099791776687477448188287063231551586503289816422828823274686610659273219790716238464215348985247621678905026099804526648392954235728734397768049577409144953839157556548545905897649519851380100795801078375994577529919670054760225255203445398871253878017196071816407812484784725791240782454436168234523957068951427226975043187363326301110305342333582160933319121880660826834142891041517324721605335584999322454873077882290525232423486153152097693846104258284971496347534183756200301491570327968530186863157248840152663983568956363465743532178349319982554211730846774529708583950761645822963032442432823773745051702856069806788952176819815671078163340526675953942492628075696832610749532339053622309080708145591983735537774874202903901814293731152933464446815121294509759653430628421531944572711861490001765055817709530246887526325011970520947615941676872778447200019278913725184162285778379228443908430118112149636642465903363,
  41945406571835447719124466212593926566203068885200555991212353637182269225317814587925937504414489339816086579008761650246351970458288954817937566810464746141051424988702521399368705093723054477341126413548928068410591077166778212383328102621855877513127211793444482014404257450830639447383637939062830089733062413806145894142276947479316657176231824721683506780764875734204915576282175839729751344789906965895325489403356156131674032764724692125057591162515296545685446334981143176702572956618447754874693784642337372389819206620485118943788682248072793520225017965453437572741639107919729529508129429222053477173041844779156739917384183117103625243957161527146690058147000026330104526435478659032907332054683388720787354447626479252976901709120078741837367350877133769776834963442524199499513883150748775374338494582597655609965559543180409201784971846854973706962120885243770138537576814166327224126344239821529416453780004925072627651507890850712659970367087266927643083772296859851691223050374627443108529343052730788652839773352460174635277032059381791253969,
  15621063637625882937571373840754406468964783100704580613446731271591194608435935825987782835266531151065041623295329047772174083559349723758552138048305090009646676088301540612824308740645594431853413755220166305812111033453120745086824339432159043594430312431227471385842030390106070940315235556172767994160020393975099897629335325855575624808996691829864222677502360193257974726742578211119734709402357457222271212526852384295874273501563660093188045493338989741571490544182559738080871565281430102670460284316819230392535297795765862414392701549740879273131051636119137577008929564823323648298263024607975875767745377160102490804624301856524161756655600160859121534556267602192689982855377872583145144082654583484409478463178777374794653580169960779405568701192328608041130904629350871827125934668712766694873899824598527786499569165464029458935064964335809824765965165142090986755203808309203230487342703468288751604071546653834619611223013759451579252696743642531927390036038608236450762698827497618723575476762889950752114804852527950845033958570838130476937,
  88132112367428131948795022806632017002246033198967197064916374117585485187848401205484467258885140156272501982171906696081262778548596481836962141072171421498636191877475450965030895709947093433785698167446582826791194061195603784539785583924076127634410576675102430755981455278616781594965706255975507430652108530159790807334373607943286675789053348366955548680391343372015649883422089339997164147974693869690548008919306713805717150585730714881564992071408675825960287605645978242377024246980532805663278704192676846711626687946348695046450742021937394525926266861355294062478136120620263649819999949840514386828525895634226432870766329930489172340072547176418868535137233266787792173834754148002280339299735793615241275582956927683723123479898944627433045456679006203242051639628258844308543830720149567210646053323853720314324211260742448584509458049408182092763914000854042202355626021856434899414543995041098059181794888262805206644108631900168856815516922948620301073889718100770929059048074909242714101893354281842999598816966099383696164438152887721408526,
  80887574882932587358099056707558170179491619061140019085537448827262009366856044755965574764856740081773817033073803054769736097865438593821872205839023444435088674998665060406458743460053318274362961778625180818931443632512051070946908135864405192295129324500788333987884293393424351263433652043858129128343452973086529097833006712617981303167943855357262969987403595704584522308563900989131794759487521263970783759448611394519602867512105616389760088800927461158608002078033415914517970730368351969777660763737853330120241201120469886092093390853657732223924124490515327809509558664594776344822699860748132973026309750288121035177231244650953496536930900186377640940943498373132513218620802148099226855029484546618147155574447096695301776904342720318927706047177845279391604722815343798035396798614243709566832214914654380145938292773933960327540480095522318166673803571839327570771420467238386246178039762923771312095807893638414479298025880655221292620936239306373134966401866195108115834711733120258058667276399927635790780638188130691563662741254312595899361,
  19647626101405563503399523140323113819656236327198961837254845333702062563464223952766943568376761368711962921818754576081617053031590728828700712313666308722754918661395773730546065997437810987649802414011242142773668082751390959313404155826266789510846776118665957660165998178089414985754976284387856100263796543178313634025135814161151902096499133548733131115022700681930135929595971640197196053625033558479980963488718039111612813595968565478868325856437896173159762002419621552896297904819822199462269487137462444729093456470028537694958859591606789282491054412515996300781368367490209374915732896270028656829344431342347351239298259166739503425995868970697267332582735903121288746660451461487850346142827765991608090398652575717263081833494441820193533385071292345774375579344062178711330063106003324053991693682603746176638565758877580201229366353270267100681261825172914608202541892885935244491070138206211553827793565296914576502048643282865557934707209634807372692141186895467322767751335690190153723669036865389161291688887876407525493494249733427181178,
  89275993159671935475898809792452526236365903632007085444078454479734829180208204492667063442043755532505052752283377888704080403353192340768563010934777212563908864041310107381785333831603813528082811904083256440184205374679299262203769871801806112262449090924264198582086175117711378905160914038157500336642415609521632819712233502316742260056794128140621721964184270578432895980288233505982820819666624903585778994033315227481777695284368163008853176969478369058067106482808359804669884109813515865490693331952239436328792399053481098783027450017206543369906611778455436468772363184446476806914282800455107468664539280539940910875493916609573161971503316696830992946634914279878084225722069714887558063748030886299511847318712477729191007022758889348693945628951580296537215040960310776128983126358996489341024703603664505868728758905140684123812424738638542790828273382797332688550493587430316027474906312957234974261122151741715313361862241091386950068883589896234927631731647834007746088665559873338211382992877691149549218419208777160606847287467368188616750,
  72210172611038306717878566948129487850489430630861699487987031605158841082823512741535385133658953329486294944950618685147791058046960390693726626703865129052011378108586161888869479576074135855345851517680519733344334952301203957707396237713160302428872005373209982530089776189731298178819446717311606472314762484575519287327828251271824468078242152164695678192940982389262849437602488522790036202193866964822156280936053731780408637272684266964219299468192149087017075333610947913818040632873875938482695355830773957614479972700034728801827852813895032179863452161110666088393140532269449054555278678944175792024400214507801920998044613825478058580484424164047750315360549065914300781583724301231375115622840158386442708907182848167575271238467824595343344496220100960710513706084618011875431207254913349942476171156333214089346091565615506003173842187015702261031019166038870646614388977363187809407115275281746895764015810470169652475577408916445686777171585005832699434016772021567677240681283665652641229824394651331973591997094032759385026695574702318132032,
  43716420586141033606524536939160050644953060161267822648942437397166717661231048975031885732165554988342121802846912529086101485527815277625623750456375769497734336846015607727035509629049392487088406281067943622418704747008368842671022558302403599841645951122485272633632645114017395248086194635840783753556885622317115520947223065437092606797351000565549381224575483728545711797393615756167641692895805257297522338558611388322171107362265816218842443178857488798109026653793426664216990914056536432249301334867988154886628665052346997235574738424830590423677143278792316422403877764330192600192284778313837632536121025336935812624086866699738275977365682227907215832478888642369346396164363308730139814211430306008730666164803678984091335926293402304324974926887831643602681011309570716141912830686577323532639653677390317661361315965553584999398600565155921936759977717933019744688148371103206503693192894521402650915465184309936553493337183425298433679915939417466223900389527673813330617747629574943868716978453767219493506590875711917720875477107189937960894,
  77451265475750187119487073873678589020061737332107569330221632062843206567119209695058576117396163232621770894542621460985841023781321581772760222273813349541048100307327510779994899197796388353073444345753297591426376840544226478421606312276964696715647399904371590332390656072664411643860540483884716191210900870101913072607104411414324197679682854788552477947648180295973604943970047959604029274629920357209976195014034831538094771460105633344699882082212058728151072918297121191787642488035467231691654185225672923442918712816323259696541354858957713320833991128877591722611527337901034136208561457799239877832508355073019981845902595835598926055329967377049172245493532968330000223018151722657578752405883224908582128008974790932610076257877042865600699617621217684547899644070506624171021332748679623743022915535820078014116534806564748823061500339206898379476625503654982280532966286211793062843017049240230198571997894883689718304380518217441914766042975243725168343541121703863137941142209529588579806015293875275379903093887168357209576071522190027937929,
  27863036372687658226812419933848081660216037221547101430073775377926990695871212892880190520316012858618254944133538207848834653116326504076424283908701210151942319616522684220037112304643006734420647477180213530701240988603533991526679238711017062218658835737812109351797756044256346949997872511254408545222748109148743072598696020402759411789425812818821599523596589791811440776533543217575952555361581280011638467203193465072968079907939637149617743121194020212975731251652537680173591015573381537720019524445436200718484756634154074423286210609976132434875488474345396659813387174660930205350702719529839432714253711557666000257844230310734295515339450604862227649666876240793243531929926392537310768921353525723210808898193391686682789482811704726245019484097009757609209837240900747179733407881418251958425980962417476101382526439551352593118850456362641883003385396524359974169313228947198783084276004013680747039040972384739458348961865397905941185993103561684368692194853820557803957738813606795499000851232594425297244866667668346414021899159445653094234,
  40650667851948417766779470472041958822043295380326310537494883122180391279678446100139726753892195119117836587662528083690053249004597410947068772912328214304635337283519953648274325833119144459017809607782883583730111857543659958982724531925310588115026307542571493943024453931870179923608166611305426253995833897942971602070338767815033010280120095997252222280801423571094760351925544434929986767817891045559063015953809761875920358937341978962358931125983902598310267193304189215109689156225069659119828323455503059081730735195503721665870288053992138576037035377105178021280129566841984140362872725623214428754302210909472721073474134975514190737043318276626177275996888826027225247133683353452816692779591328861381766349857728936900965749562287103024362590772412219094300871755692625758065709912016659622436080242870024547362036394841255954881727272473653467783647201918303998717627037515724649922289467932322693619177641614618795613956699567783068290316589699430767333508234990790624100202506134057344300695745474682175690441651540636584680463692621274211075,
  39904218871612761778701425886482577522388918459952337629237791558574454947736129552595222657863646211837759847370034797140820699414558071908021359073226923310083175951065901912129479540860364075735875020589020870457967000705526250581142066390745921527330940682364944159089100922029668052332526619891131184201629163107689408472356436680818216865721968826835840278550078280404345371018365109695178233574303050485265373807353107418591770561039739506264035544227515610110726177937063472380499066692216197119425912044508464174638358993823994651739550900085947999013602667426149429006646711506717542217703877450767356374215478290591101261915755587023895700140511782264698994491790830179547587676016809410013583761357859135692445564776446417866711539195135769610486492249008344671548638305447791433009768048687834818467273375843689272431044740680768527862558516509208826381323362314873333671476452045087662761495038994950480956046098960432912335834885999029452640028499428087862403981181488476730121675416110662999555366819312328742570206373835202008686369131173346973174,
  12191536332467453256308713473027921749562270146873258678917345583799643513588009593508775563562488104938529990076751355135277924124292774885658885665132473025147102105753525165118148509027504768455182520963318990685276144351382136621523688905787866994322888160283774820355060160298940091197138501798716836337441392759736440170070147637066557035043381211135764150184518214136198234951596010647527125759351853043328755377830575095674254426847122196187091785607839361445113833356491032564057338986671781239722375193164306170138595394743678433926709867124522111896908402363274114966012434830989299417380305884171666130730400675883804321115553794406054977217059428215148861656727712409033877277456290971101348851843741186956554497457368452180669829110450580042998879538990278043835962824094218605562877884288021275538848037286400194416142574999042720095952046541705981049899675045119364711727722204361026140797508096869751766002371877483480161203102346805671126447661237476278521902412025699435347162266608936752198331118135111465038548950251206557726361454736044268594,
  98074396932331297127377157347099713952291182653485155587137336629120242714302503763269501350911612952993785864681307226486008270881333538193703682598867893321238327053297625857382790097826460545598555131836688844628265133798491667839409761353766251798258249663458771950124384040359140849209733754642474488176184070023569580177410177696925077814893386672557898564589851056891960924398841569280696983352240225634570497312245269354193837004843183357196516626721575524193401933099018319309196582920969656247667683659647019595754739345514337413708761517323677204227385674279170698204549953095918872434939524094441678998846319845504852393662972079777452814399418256789457795712552426826089940863317371538896262889629402112108884427376568624527612130371017300785135715404533041507959447776143597437803742436646973247138410492124314138903579092416036406314038149831481905251720937103964026808994832572297954564042701757722904173234796073618787889913318305843069394825961318713816423467218730845133877219086975104942843769325024981656673816260615941768252509993741672883951,
  74406693254965340310145222531618900923537648637848288134420987004809622717122640748957193900291857330746010436072919094576799461492929042798168772942648772995285843464777538690695014898413392454039414468026362540211861431703125111757764282991464453340892097696169909837265236176874560589470496817013697490952307208268288789073019001825342580534342170592871393173799314241085264739094828459641809361413847583113613057610846236683723769591349261582451622155213487924414504175684806412063652017038633012953277769902311864802006755690568229501635493199230591424639621702532974757311409422018019936803502649563695586642590676268568737211033915679383989576556519317788300024161353956243777784080174881937309502069990089089932808839743036773659552489130015663329407790713961546453408879151030065132193448667324827590794680787981942501958262232039513125201410996053126069655540424867054998678692302174698900954785072567297879476988883109348746442640071818316033165551153427615562240547447337804924621495213325852769884733626918264917433898782478927846891882805466998230368,
  99397834137475870258057163494135684339293960681920617733317917382085624364336353598634944968907810640196740744365836670715869245211829978938040771375012908586465789057714268335827689785547176871844277261205092664861020515356428406323684818072879407171279668200607275595559040402331787494473464547606281895415121391629184442976510669479693540168660100551960776873353965116149309375709685545593815137895690392510149532656281470119983269922000663928753747131352364215892651262040728877165783584052196460541054354436421665622445650429990102565869272791427529311720827939377513261060528812353734510683729398935808712438693859343891757133763007203197608166044646839377258069092372975234867029169104263692620901996052041210240776481903160140858635584276095370865581642739953493465463145040401995285372520049578052546562511541092524379913262627136090994029022620628367521323050651839340574501120993414649184333236465693717259144893241590062420206128857329261335968087265000456282845575745965921205303413101118275013069615098355156320043107846019065654938065425252291619918,
  19959602752327702249855738824899882707465936355768582560518068964285376850772012220347920993936179268206590142165615925306737944568949070853263568196831861772268249911472615732035807646298116244013316737892788689229032593349861797021994981925739617673075834417098559222170171825712777534491508205278430904619460835217402005838672849709411023266953921445461066215006410674740207009189911951376466904481267253691537162290791385403937560077835153374167747942100384002308951850994548779039346122220865060160500351776264831611153325587705073541279249909859373473787081194253055121436979749914951860535920403830235716352727630874693219622190064260886183676103346002255477477813641012691906569686495012688376296907233961276287223041141813610060264044030035996988919945827397624114613744804059697062576764723766065541618574690527229238228275186799156983390747671146103022776606020061246876477728819096791613354019881402757992174167678799231603963569492851513633647219540611171767387372555728522940054361785176502307544693869307873499110352182532929726044553210797887711449,
  89887091151123725060423875373484125708606406905205845212275453384800820530245045651766951857691320004281675805492481178051983264603244579282973012910531838563682120621553128866856495651261389226136706409395333457052698695969235035309422454386527867767302754040270224638448355323991475136344104405009233036127149608135549053153902100229959575658370538126196568314428605795669662215472169562087001372776853696084070483332513279311223250714863020695124539500373572334680709465648308920980153487870563349109236605755405086411152144148143463043727327104502776866195310785832333485784029716092521532609255893265560067212435946425506599677177038844539618163287961446081778927217183690888012677820743010642252463480745430047649288555340906218515365435547412547615276977266776977277705831580141218568801170502836527554321480348800444297999806215790456416195721278450892848980642649742709057912906921780729876947797511244730599140605062994689428093103421641662993561482813099887074529271604843363081840412646963792584309418544221635908457614607855856247381493142707826621518,
  55416038702068769804617474008083243436653823545551094494984310934947599446726736653525176627067721941831919771963780157021699336750837600571634546436717767233875886434056448715669643210412825956453498413884128904206820470076155969168430389993483667935425492103281133631847225923055543830582069416756299920133731754891220372303490726810685344540359935618235763128377676406310131253352121419946118693508331765878520471123643312267651299641713252175135532618676819423387903654689080018271352835848884441117612341011799187092365071848578562210211040097769944531217950224795780695065329659403839873699072407976790408267940076187295478359634927939045769736616434053597922192858705749574816966940623342726197335181366260637359825755524965098072601236682836059283418558480269584137725589708837899429105498003311138846034019391661221866960584915714857335682861495000190975911252188003964197621635593757437180114805594422987304181968080856472657135476128316292004498803154021055305970766663627493283089168809323592900817874119857383171926167288349184024297212904349655269427,
  26402559641463525914348400675867690350382320572934132981593533044446496829441367323442158380761694831219333119819061096142952201536170298575105594326461468505452684975764807808009221335811378197749271768545075538328768874474591593731162470601091244609829424841287520224462594477638749491997840446829257360968534549843266536862844489365704111817793806441616531223600214918768769467398407517176307516849856359201486892943105940202457969622924566644881967576294349535326382171613395757790766370764569570259738800438415805894336137106551859987600754924187211714889295221737721146081154344982665479872580056674724051122007383459271575727715218589946948117940644466399432370044291140747218180224825837736017346685300744985564715420036123593397312914458591522887408719508708632218837288262822884631843717261903305777147651564143822306791847386039147683108141358275755853643597721650028277803713422869688787349795096031108899196143386664068450697420787700280509367203387232629637856038653216432348815557557018469089074647879122436375556668678067610544955017260791142930831,
  28576125448194444947324481909379536900820638463167822506480953181040657025432760438570350592281891987806586541218429921727372095510324225107971807783304260908679427342895573555925272380551144043800123904168771644518022649168164192740110645162243110170005669112173318942340054795968466980429801736257040673328212996215368488140410219446342464622074557564396045298531307140908460849965376780379320189914086581466217531933766597011433060862500982956691763884605676297293146491149370462446935198403953444913514119366793330193661766365255514917498230798707228086085962611266050428929696653565251668888557211227680277274370891738963977225756489053340103885593112567999151658902501648696142720700591605616615970245198905183296927893555030393468121976158218398048396056252309146263844738629603984892438618729850777592879272206855480721049781765328621018747676689724884113956034948037672703631692100735083407386526168450748249644859742813493648037242611670426687083192504099761531907685577032742178501000644198412420739640013960360158381056592841368457411910273642027416372,
  34882145241013477165296031284086584197879511165115298278146203791398550063999603265912485253084936903131301007999771913622308660110999291428712493885416120380204113401888872196934779044975274542880728035093058287544207551348166609278793535665212556201399882496284787262144323628536765025914504683776352825876521391564809721419296755493843755826002531685363567313792624758780494459441834291727569883762262618463654527434976624111384513054814498363117897844897320767195087841586188796929558197332506999514026015116755297505754378102422389579257865621284327312022007167305740692868693639301867659582513264991459502609170693475194089753574640168308117988464524736189560564794263580705625632811892696630264795359510971276591362331808669215357886078127599105371714022045061860753748663063505914839164676567232057145168861707909846959322367249467375830996070425892204815507991327520885837811176852142693347869218952406226579210436203488529262679840139532164587911515790504605797108389833718640380244175113472264725470107947939969535546696197267632552299146549334996632341,
  85951450360980344092212206712567698723427940708857070474293173329188523896721971353924492426178641188637790962814486917869468177591717150669111480020759432012061969637795103227089029566085562225452602610460736131368869009281721068198618553780982018471154163630326265699283424155023600978046417108525537612728905335045506135684143775854429677977014660294387687225115363801191758154028120818255606485410787933598921064427244898618961629413418001295130683638609294100083136673372153008352696235737175330738653338204842190308186449184093723944033405244909554558016406460761581010301767488475017661908692946098769201691202181688291040870709560951470416921147027413390052253340834812870353031023919699978597413908593605433599697075604460134242453682496098772581311024732798562072126572499003468293886872304895562253204463602639854225258416464324271611419817802482595563544907219226583863662663750835944314877635156145710745528016159677048442714194435183275698407552677926411261765250615965235457187956673170913319358761628255920783080185206890151504713340386100310055914,
  81785211038475454293338918844412051794396997019411269511952656491959418997541839323464742429070271887522353439367363366320030723274703740712398256202466265197409019976245205619855762576000870817308328834438183107005451449354588542267857855191537229237955549433341017442016960009069641561273229777022121795186837635908225512881647002199234886404395915301846400471432118636062252701154112228380277853891109849020134274101412155976996543887719748537643115822983853312307175113296190455900793806427669581901484262799122179294798734890186847167650382732855205908298452980625925035212845192592798659350613296194679625237397256558415785374456755899803240549218696288849033256085145534439166022625777551291620077279685262938793753045418108072928589198971538179734349618723292761474785019261145041327487324297058340847111233374627461727462658241532427105932250625530231473875925172478732288149145591560503633457542423377916037495250249302235148196138116256391141561032684495807250827343176594405409826976526934457986347970974312449827193311386387315963636121862349726140955,
  60799206283169994200720548115253533939460768500199098865538614334957816500899616490796781429011483876456821749140756237676184537751440314754112067601607264605568592577993220703373333989163695043466906948284366299800374145276277165476238255461708831898108688068478537055364804693509588180253605297407935386765111950793732820831462689600710751755206144337841145499501364324463281933463890509365457145069008644834401804283633905135781572739733345372842633721740657757710798305175557210367959769018899584941301959995730179012401939086813565855396619413717944876320798688003716073032205474235722668968018821234243918859841689722776521940324932273147936692340048489760590379580946960417542796137825537812239476461478329269765451622902817011004378460387565441517394339600489153188175766505009516974024156447712936566142539493688842305174001299205568542898538979426699567770270891465137368922061044154816621568042198384767308717875902792091759006952734566820265133731115180001814341209626016586298210766635233617740078377834237091526440630540718078433580610729611055500204,
  15131696373046849213356837265400307509829089364612047891114753037049893952833457824082817386441322710002968311940203323456420826473276233830294639378998375836554559919340866235090967961134004867027123176526663710778725111860354037554487418693519733656621772359229396776463251562023487570113795712096237723431370212031004965152111976013176419408203437348512852602913334915125083119802850177855710725373149139215709105130965059885999931560863655477403551898166733535880048214665099741433761182777723351910741217572841592580872591315074606025634903777263373914461377038021318347447301113032670296917335047701632106616227830027269283365584011791419447808748253360714403296252285775009808599609040936312635621328162071453406104224112083010008587264252112262480142647519426184325853386753874054743491072710049754281159466017136122590440158991600229827801796035194080046513534752698777609527839984368086908989197839693532179980139135442552717910225397010810632143048511378291498511381969143043497500189980681644412123273328307192824362406733196554692677851193152775113446,
  46890550424811336143498460484905125834568326644152848971397237604032821266025351669391408204994732048602162775979177123475109750240307893575993771509502175169355582707253391189233407022383207758580213717477837877839101523413209848942345961369234049799827930414446316270721479611745697571968123929191374098292580556195520743424329598289898052923336641541925636738068949420147124134052507220406179435525255522500874879008656831454283516775054229480327478304405643858159195266675828292970522612762871104013480178722480178968405240792436058274246744307672164527031345135416764966890127478680101029513386269864974821211862904033769156857624069929637249309720162870720018983542369036414927023696193854737248032985504511208919287982987446786412915941753167560253343531062674525450711418148323988060729714023472552071349079839898235526872395090936566787899238371257897624875599044322889538837731734894112275707141095979004791930104674075041143538178246463079598955563899188477378134134707024674736211204898622699188851745625173251934135203811586335012391305444191007362844,
  75675141610504109735058527620444891909789019843154852805339857778443139338839943104444656692445508859463140817512203313906815965925105468580131338381521764182104334297888261196304431113887962587460902261309008499754303957712432306169062629194039214397402708947776637024881554993224588259790206312574369109463932528062416424768684954553249380176393716156368478598237159023854212658406153672286071317026747401311452610637653833903159219434698176053583803106128878520515469336392410884676320095670897183674905781630851581381619668822220475704375906143380407258538620835651769984267745231958241826836982701602374149383634966293515768540613973427464708996856181701605511048809715548591186171896680259735417054239851355600187203350790609464212711439931960465274240508822253597734815191354385712532585404939460108657937980586201433660788252197178090258173708709164604527279771535099103407364250203863867182205228796944583876529479510486607173902293274554267856697768659399234168341222746630150621553205026553414609952493560508549217565491348309589065361756938176374736441,
  83378974229700703545206663170929607591989627732423090252397443861014263098687733913882518684316501027964911497737582888913450341148865948670215492101084328080783428089417298008983297536940644969903125399863919581601468995220880662285408414864274786281975546629278814621607171381880180840572084715868906836919393381864278454537956719272397972364651667592011057995663962598535512763558768140213409829016296873429850792471846056874828331381259161962476156902875901072733103299140623864608333378638257926302391590003557609032477281338887339178096966601469615031754226751125993315529674213336300222964906480934582008181061802100227664580400278213336758573019011371754672763059044353131319036092489097246427928455549913490005180295707082919052556781889913899625138662319380053611346224294610248954072404857123256628888931722116432947816190554868054943441034090680716088028227959686950133643814268252170472870863010137301155236861416908375675747637239763185757038109443390564564468524183028148107998376918512127201935044041804604721626939445788377090105974693219720558114,
  7877598977207200968938224930323683051586265728111463799698313751793762321511125234973430524062210524423435373290565516340666950616589287821870775679417608071297378133518711793165003315552382248773065344417945341539520242444970341012087407218810938826816751204229940494817944947273289477011157413944122845552182842492224065875268917227278060711675404697300803703961878779669488255561467438439257011582954666135867867189766129731126720007297155361302750355616781776544228744211472988161480270524380681765357327557860250584708401320883793281600876908130049249147368251703538221961903901499952349538710599735114347829233949918793660869230137559636853237380670359114424326856151210940425958263930167801712866923928323105765885171402021119695706479981403150563304514156441462316376380990440281625691757648914256971416359843931743327023781233693804301289262637538266779503416933432360750024817574180875038847509493945489620974048544263563716499594992098088429479036366629752600324385635294584472894454716620929749549661687741412088213047702281611645604400723635158114972,
  97392189667373826472047226422212420165601502849713063327958143025160136948255670147809357908896571349261581613469018069650895563101212184918058479227206918716963163300448580201028606578585912699746376617414639341595695395542033146280265189511679380745733157598460861737026878676029436777805002446733913324316698803540732323882818475010516413311895370364884226902704780527424906034920829547550540034571601840725745369381455311753542107265578356154998744474804273234578800618731493415660463529797794550753593047956872093167245365472083816858556060438019770307642460834898761013457093948770029461757920619525492557571090385251714885252656710453498134198033906415298763436954202560802776144219143189213939088345431317696851018401038444723489488695209819435319065065553546173358140455448378847525262539496658699920584176527801253410338964698186424300341467913806190280596078548880107897055169462152287730901044674624979799926271209516847795684825833414022664772108433624375937416105367340419547389641978954253350363018614009515347669614762556518738232924685473569358028,
  96011536791787303553159378363082248615177770541577576561759358512016692943111138863582159667618830326104164651714846979385422621687161400122378213779774131268977266712992025922017408770076956283473932201088159356286281928563571893384958850603853158179760679479840878360975960149733420572704603521790605647603285569276273495182203236144112584182426247712012035776388895974318232827871314608053533574494297621796789034568169889553518504478325616380709476951699086247100019748809205009521943632378719764870339223811540363475488626845956159755193765410115014067001226927474393888589943859730245414801061235908036274585288493563251585384383242493252666087588908318700709100237377106576985056433928854337658342596750653715005333514489908293887737352051459333049626531415141386124437935885070944688045486975358170212908490787347806814366323322819415827345671356443171537967818058195852464840084032909981943781718177302317003989733050495387356116261023999433259780126893432605584710278764901070923443884634011735556865903585244919370181041626208504299258697435817098133894,
  4593447193749387762423240985283276226660494238512970945324558625210360082928664972417491914198896612955807677097959479530601311915901177394310420904907942444886851308684449370590902600612064942574471035354765785924270813041061854621988183009063458818703875585627491158737542106466795134648758677154383801852134828191581246259933516019893559516796893285220582479942103451271587716334522299541883968044883552975336128683722593539007920166694133909116875880398882886921600237325736158820716351627133281051818760210485218067552664867390890090719513805862673512431221569163790227732870541084203784152568328871804698795251307326634027851905941733892035854039567703561132935448258562828761061069822972142096199350933131217118789107876687204454887608941017479864713788246215395593333327556200943958043453791978228059039595992743691379377866494096404877784174833643268402628293240626008190808180439091455635193685606304508914228964521998779884934747772913279726602765840166789013649050874114212686196986204412696528298108704547986155954533802120115564697997678573892018624,
  35993267776894540605082188382279098336271671244900267611784982643770330020818445900097172352043319947082420987715144497510170556430295428218196700092025156158441742059336581481349026931115170938722600264586305613256057925609273322655793462808056834439213736884056504343073965740610177793701414246154930707413608054421002956000956635889778992676305177187819437067614982175641865901161608654086353915130392013168057690341725964536923508064174465623515239290504094799531840748621512105618338545661766526063937136588025216662235761322019417013726649660732520107719479312652827633024138051649071745659648537483546691945235803153019691604809946068149040378198297323609300871357607986214254220964190043679054790499300783724215819545354183711293686584305538427176280352791288211293083515756565999447417884383815651484342298587042455924346932952328218035083337262837918302165918361815542171574484657784201343299825945668845582661719790121808494803324487872581837748055222681510113717453684178702802744524429054745182346749195641885512444213377835214238659799259882032870851,
  9338386829906571994614906290257427686038850511032638544540419184958866538545040571323629681069146814847869659166861842756798460041868762298055562963045953227923051616721591968675849523635298935788507746081537321454642984792310511676357749494622952569497660359473962430995343310404994209677883827002714478494069037073249106444151696053256560586778757417472110827435774315194060757983563629143326397812218946287447798119807225646714664054850131009656786314880090303749338875364183165134982546694673316118123364854397649325026179549357204305402182974871251107404011611405899911093062492312813116340549262571356721818628932786138833718028535056503591952741400869510926167541476792668032109237467087213606278332922386413619594121339278036118276324106004740971111048140003623342714514483334641675466354699731494756643423659493496845884551524150756376605086632827424794136062876041290644913828519456402643153225858624043141838669590633245063000392213192647625962691510904457695301444054618037857503036686212462278639752746667870121003392984873375014475600322100622358029,
  34377495503203701273846816306102657030087227546296679688089058712767636106622572235222973920644309352432722810085997309513252863060110549791564479184500461804676240892892568091293059296064235702106152464620502324896659398732493396737695202399176089847457184353193664652912584806448019652016283879518949933675924148562613699594530728725453246329152911012876377060557060953137752775186792329213495524513308986796916512907384130216757323863757582008036357572800275449032795307990079944254110872569318801466793559583467643286887696661009739574996783659339784634695994895061049038364740950469522606385804675807306991229047408987916687211714752764471160440195271816950828973353714853092893704638442089329977112585684084660833993404568902678751600877546126798801546585652206121095349079670736553970257619943137663996060606110640695933082817187642604357342536175694378484849525010826648839515970049059838081210522111109194332395113605144645983421079905808209371646452312770402316007213854372346126726099787038565709199850759563461324846018840985019428768790226873455650051,
  91215465440638292538512763176639220509383452043007730170299403626154340013227639109129883278639204123004455516840548898090807791746360924393349126411642400938807463566072623366958427645836982687348158819610585718357674620096505260659292635482914990457683072108932458570737016607173981944850288426039636607460311847862258310565808708703055675958613417007454029656876347741764310517510367328692455585820823720386017817394051751304379948688223200443780431031709210342616749980000730160948145863744887785222730763304953839443453827706087607635420984450083062476302535727810327834617669705442871553153400164970766571959850417481990872014908756860377835919947193433527729472855379257876848323011018593658007172911869676176550537750302930338307064489128114120255061508964110076238245744886551825810581403453201247547232690875475070785776597325428444593530449920700145387489482265564422236963655441942254413382122254774975354946248276805333369832841561386923634433585538684711114304982483989918031654586382893537991305352228334301379533729540162576232280811384994918761441,
  41322933767106563492528814528239506209022357876684650116660097382753660405446941653422239052108314585847035529352219928272760574821266065291385530345549744551470344939486863429459658431024190785923680224560763936784166270518555178702904073557304620639692453307795782245949710420188043000183881429008173039450507342787013124466860092778581811040911511729374873627887874907465285565434748886831064110051023020875107768918781525622735251550379532444857787277617001964853703555167655209119339343762866284619844026295252183678522367475108809781507098978413086245881522660963551401874495836926917799047120726494905737264286005211403581231076006699518536124862746756375896225299116496066876508261734178484789337295056739007878617925351440621045366250640463728815698232317500596261080921955211150859302955654967538862612972339914628358476048627627027309739202001432248707582337354915246085608210328882974183906478869923273691360048837436615223517058437705545210815513361262142911815615301758882573594892507108879262128641392443309383797333867806131795237315266773820858024,
  70143352700924380326695174211950767088432634644274912755890774686358216216604274131517021245858605623363149316464691394656249747174195835421860774871105733845843368993964591374060338215935224359475162623918868530782282176398323730618020424656047752794310479618972429953302979249748168405289379104494700459086499187272734541350810198388186467360939257193051196864560185578245021823106588943798652243205067737996619695547244058592241795300682045179537004347245176289356677050849021310773662575169733552746230294303120359626095342357439724965921101065781782610874531887480318743082357369919515634095716270099244492974910548985151965866474014822510633536794973714251022934188258511737199449911509758374613010550506419772153192935487537119163026203032858865852848019350922587577559742527658401172134232364808402714335636754204637518255252494432965704386138786590196573880286840189408767281671413703366173265012057865391578070308871426151907500149257611292767519309672845397116021360630309054224396632067432358279788933232440577919927848463333977773765590187057480682867,
  83479656241461028995084873996929707504327530299728722973279344429886464127253481606037797072982991730292963086958019963124133049393504933254123550710544611825911411164545347103298810478440677801380771314654000993863064812666143308582068113958383191695455582594268957698414288937434670841079463189325391069639557807060212459748982935646135607889834724199794785643620420946134123876131988653523583129968622689486084084566556068769545012744866314050547353517468730098063227804689122468214608067276277084024022661554850240089528916571176174390203375848778429112896232470591918746910420058483261406773337510271956539946971625172483122306339193287079838007484857265161234349332733566644733585564302352808839243482787608861649432893991663992104883078477770480457284914563033532650700295889062659154985094079727675671297950100982294762289618915914415200322838787734851309790810191292672271037788980539641563623641691549857684083984688616843754070651210390625061281076637990479088796747780697384731704752534421563903872012388063236880370179493089549007763315230635483742568,
  16653361606641980030188287123767481898330246836371488309259283375902278942588060087286038859168849730693948020511221766359138251524278670094406942355120201568377778851824670025651708509249623747726813694284350062938814429987905301056217375459182679973217735029368928065210025396268807498092643458011655715886700443503976505323478287327368840863540002740676783821963522226539290939807367391364082898722017776747168118195856133721583119054682936083236976113450281757830202934845982925000895682630271263295866292147653142233351793093387951357095346377183684092444422096319331295620305575517340067973740614162107923633423805646850092037167152642556371853889571416419772387422610596667396997173168169415435095283193556417705668622215217991151355639707143312893657553844648326201206424338016955862698561022460646069330793847858814367407000599769703649019273328826135329363112403650698652160638987250267238087403396744397830258296894256896741864336134979475245526291426522842419243083388103580053787023999542172113686550275341362211693140694669513186928102574795985605145,
  502171591331775160995786555198188619321128211070944228724044248115340605589595835581523201218460582056359269930347885113206862662758877144603599665610843072569650056306448918759946659677284717153957361210818084154727314266174893313417463266235422207260014601270120693463952056444554329166298666078308906811879009081529506362678207561438881578135113469536630387841209234694286873083932043233387277549680521030282154432472338884521534372725012858974769146080831440412586818154004918777228786980185345453700652665564917091542952275670922221747411206272065662298980603289167206874365494824610869736722554740481288924247185432360575341167285075755205713115669795458488739874222813588798584078313506054829055148278529489112190538319562422871948475940785939804790109419407067176443903273071213588738504999363883820550168340277749607027684488028191222063688863681104356952930065219552826152699127163727738841899328713056346468822739828876319864570983630891778648708667618548568004767255267541474285102814580740315299219781455775684368111018531749816701642664788409026268,
  28244482580275320945499151045185177165463118049045679857132575281179136562781581112888165622858760308759749638494352756766121689592614850307853620452745077529506310124803418045840594329260798544356200937080918215239203717906781219922804960697382387433126267303067959439609549571895772179155973005886936468455766760924509060882022122357192545367151918348725874239194108904441159599327600445065562064611646556654875942473692523369559930303550958176261762318495619064948396730020377638743693439998294302091470736189479326927624451865602395590537051289781634554233201149759948962784243274837880327014186769526211809750064051497558896502930048676052080104915378854139094245316917199876289412772211294645682948602814931815602496778879498137772162293594378110044480607976724292762495107841534464291508427645200020427694706980417758322090970202916573472515829046309103590378429775726517208772447409522671663060054697163879431711968734846887381866567512792985750163634113146275304990191356468238043299706957701507893377286580357127909137674208056554936246464126002437968454,
  37773390264725128194163200768487362517640659675406936217588793078559164787772747392720029103429495624476613082007292507345291707642266210476730378631699542374551174565220227833240968035246676631908610112067458562873174135111622920788651329412448154716281820798771683463413223622341177882310276598251093588923591620551087632980879931651725289380012378174348968321515905624933473702068322321001186373957705674738671021732123752243252416263580343762536068086691635715945515278178039217743228234366337728111863905118930759016666507429527583840085446354193171905313636597249051584091065822018147347990223590671381469051160519223012694823161134174399447148330408624842691395023367134124251238640266572581309439676219396554073865242298978797821986379182997095579247473203032391164104459069079778623155183495930353059237898175158914576504080251094791234217584828418819501385461656803017550355800549448948848713516053755934023457489795166024423383214060300959371055884570525157042662846003544028236787685509826781617655203757956554816778960389274983556087915411777494235734,
  764161093294003899982199267257086957326068774974224802023307525187650255968420760693229988587579898896460744381788170081548895226516722834045277219106991415764639485231126794730865803195076455197675628957428881796812090026387145257858315277615109088631740243695680567873015235427804793414266495223833707117511265375503942372098784668049139473446530714079622597287130503077258714875570502582573466866613802351426056116197405543436548698005444879295970287590352258409782683598666446586045694241390729095266249932902973440568160683805726626057277088407073471496060064561454070734432782514087474275506722304845357006092214390002992981608211717047917614505191008132670375214930740567853311106058352912781007391749949197845112915913681107394055175208019630539350740248509553772500367054665162330430425087442324262404632115078997336929985407041656261041976700202415094892411856092409637604429612002364590706449770627207919019235964807048923636979860198283087284228564752353162882791324295524814447505521909672046080689545181712204930321853740627247421519740305769043602,
  68636078079200477623242955182947352202724437633902772139208776706571624163975178585925442692342853527432885633685078965196207251941655606187037055021846284543425785038300009537451829295844046491883868579348396115129716058166574509670367749583666669312188176367964494361713041603724305065848513174926405585519401800518090847521186822461697614924323831948643441590855801107307031120150224341607315792952875293683582039700338911211417068521936658978945950315438958901530382714300192958907414994359289408309707707836287591448403704503861896697581120185231923186865996803858381237032915620757883594878094168820553160512819015264759280757495815456422134145937816705699286829989561198235383715788048047870458417539466549769017322031089007030336291176730844845037214566964440146954517385743415781015861878383927855260939913057025557555906094705149809348777332007279757303824598946680968082222134848587382299928179409082566520958165547247524456674369759447468637633242890426977610679193391098330042231029372829879890320939109268283630617361017387812367989864514931170243712,
  82858826304862988844922074156406071470591374055246657569718702173552872454394277148091793644376506378618613243486357974112585208634599278036887924983543632984576876501650651153450086957212395075447856831736315571535270465242352597375134088254616096614407466755142268360319598010721524635510691718713357316854856312808578344356236709596509499469688206611851180860342028213318012494109915026014354500174327307936251130702982504994179942844511464793291545995559095878076216366685917910654359660652535253202736507259891212556868428020772464877220109966318295595529033933122843648644759735608598407609472983895424339326231532399189818522641808312963335463568748288634656185048106322888055967378445620009414656034992808794051153100575871295525719641115068503407737106043803712595755969859493620584775120263549473475347481892622541903526716144292848998575367406921652716300860606543737368235565886264863436891532180955722044567771373683104580755845296128328326063196297285279666743629748008213186279218690442843426307357607039996694307895081472697302538173756949227517953,
  54326156912040594832860949992366412287881226419148504856328072066418557059520375030322916894489427578306090910852410601400683274205583969773823150734996108758763704255564964086855071942256344966732430656259250474581762733281816017019698166542426378763601453035946538450325476674999737340835665138186025156520283637389171016545414882674448009105704186162626837971120886141357279611099088292970229692128180978798951391504270936786444983196420134566833908775943006442485623012124614511697921939634409508083229281294270436599146482749984375942113020418297308417178813090379558545603247170819195302771465794555475544754284434408139388908609776017857389307518661906505018077165001840744325854024184360501118242990702323417243674525365349594799063334540754371812699399833719218485418735979845348934592268515068182662490078029335012658824974226241885352526636702827662499349829488748331061764208429016923052899608978604130065109028179805040587107671179041130217482796682353001960220253185576789843317586806378359968791601538922220236575765581586611409199394861599209159917,
  55334178303334764313163501270539069707932656781241590643428472136023521823674121473312449994433415591527431593168747788253315509277033620290122259779480985539220006452716228085539827890658423344755282127651765057266326769114107503484587189699643487577513847914818363510062146681858509634888708145697672202016799119946241777668890791713686594596072646853881077878300216136827669702622345941873747673353799888440342704680304255169412715873932039844437460454781611305662517641275982118193966110185056288055594256606003231211618099462212930100247091334715068226843045868030090424286168202556214094608790006519109949557081581650582898334073946608445756578063669027284346201858732825292479650528668140850353851983752363745192562279549029055790703028395010485483592983454281448730435804705331508151050300152142811717539364913316617262123540552786330800208317705563029496359420165433309409417719632623411938710516157010179805355167937086029136675698609712412036858381295769530779814136570017476135696698614606849143969957383763169582460251334210807262171360194301808720988,
  85514150241638183259752595931655318658331171268579415272066122184226614118251546574848783126103478345467492583087299854474212064450952332450508774314961665552517971680209917200264093749219075699368963302813916472089635817717355558485927065245048625164195405508013435103233898133783024977018227549063814999647233340796130414697394763726508692733471084156856084309213162404346298639208416600559045985064912435052647660676003444416181864036700837741141010943205889555986586700778636718969440896223213740341135971991331359465536854466923676525890121084137774324821918127478478922872648929700323718734561579815998348391004126010507469645994303319788106349139238124905030614334079183280040639070986725961970983112659601474737253305268537177421465540058739246237276173649051987133680677239525707813606866832613950143295094748515947246675272016843165866088075127685847555411843811690116220055521134844889606682592274313190079630115870846701176549353930465633562253112447277966690058311906161019726630739705425314398184573794494867801346182178759390769996020290839656772878,
  46905736401564015047696448993947541474608339918696889271156942345492651246645507792554028105037622035967530558601856492056062879090769453339208808849477828894851122154743230191383245562993881020614490266876010207753210915684977830740859649857967152617010039475494539917698791323546550106407355816999409756248149967443278429202762644189793918158394562708173301582160225519659898769376164019861207466755048861110855726764507052622446130222335852072273620485057289238815884938754535229186399714380884061757286220950122506515863104258884134355431973729856217753072022629475552483044445340434888878581170341345342522354319407877972846760181583227097745180929342193189815812482832658950040704855206099893783900341914163044639163880549658786501375046341695655156618298878630705842306967660254053024811471007899784211830489010464056896539702885595530925558636052158957375114089564905844156774937105859648014315874614491250549253191164653821585197370093280194530320572628452658046046337816631429933076646646530760590548962888724189716060225882617577539922055131509377200624,
  86308556282049357575272499556708922163423398360256532873102919400704117691922085001511673567010195897100179701957812089291096941775436990436820256302405482262540190569650771058157424072149633956036527028333440730575007367456226058464988611510168961218111905847171446106871976101745658737379674069713742323875383903031720020020720592848878512391174647167374373792328388196620168762219134623389376259952702567213862211245898021213050140728890430032253550409586681872413936993819306914874471718664618311194260316166407037731648700186479960024304400324224180940227853330901150988087067826883531720076752255313800881878043169019007280483179928741412547612308960683309582837766768828757868868309297600101197453389833195258861963013291709438581661537417179449631917715431250695985348128568461937766989427745917091880252001274990555940728969659479333167224362156789677696670803522903901848573080627567086765862710476940920356559302535274341896592700222704923318682999156093641375700498853730459639615273462939697495174806269645179301871998678853758141597579931480660855723,
  25683743052827641756700502880404894298995809481035348339341449278859252621924155472319971433850866373209266327282435149336407045896838523456247443611752567669877675972234392063575074715529181027626140129924804228839902978799254185174991296302839907296355885798905933177959087690739056460256235335672215522594688382984528829229662751371624221729546786707158409241840841475575825393852409633020513497047406953995678979817278609204622868397357798151118681526598846069497589654813146511503926263777495137615572481951161198772503445647107385134359273555387124623755981938132142384415819290700463897716838872079163617414324970791096581627464297170728717251427458983568970955346268201690853561089448984071005819203021769451207717745887955195104733841847399807963067678858451675757299043069715426423834980098708699336709121083944535062459224323123482785496603746571880148929379451478705406079245759006012196221239287200172155886663457349714095337211516559857579417244198890261670161016115578343150254603287811984240274846085107224066767787608552476177738330895026100643883,
  50550205456324346167859451941795669874968515244883847513618180667108316165564209369270520611898517292617141714434655508706306063551012949400309759167799158426049197120954322702678432654296572403272088714321999645313202587109677165128549669962552698607311763718207498827399770601991362093083230736838206455732563765982912578131492224220427971241441629951265945639792759380383804782623160424325399132851123032247037561942321733047854078576244013291717992979240783390715757981426816864655382946847399205888631655934919867896962840447344968024077092831376408103352255242717404107673565424441004483347440101726441052954787296345898640501203608024451190350994974493973617181575277093780209236668135841636268319263406714182797421342546220705415600050959674045616840451771747952790353254932589120483385746590096781730416000521088934610768754004241977803082885181200173369559127137714195011361304409753279190504891583246399143483531648681548579178632935123925552510211182788573696060276931301469661433449642302114382483705633532793858895267672076688971274435815632088106650,
  14956814355879657690985776590276870745365927636497555344961730807816098710324801379513617036776345759497568620801399637455176242514778062872226597145548290676929571364357215267446898788941882075129222575650914355282887461419509786242752788157156640076372103780319404309584427254926998716923433189002214150311399876526068876156674021019720171960239086108297492763956954115303227546017387079562599357978530244347671639959146231793123998998692843797570249236955158729768385400522765149561444710597196288988815710941517170151811474351364385400511624620213117480079198374970010047136343252328157891135545045337190527506822915618500332846956792622620819044247334036250389279207158596003936315336884272437536679969864793474113319832861944146065392278409990314384035456504705678955202482717601187433564369024350308563130955905525039049273161331173492258464460902453507919018441129932169977045183285358648042855682220873721361649058630325636891308410376021567992702000532235543980465311933977545904404507856802139846500969342954731026924994758646605809166998416068464608729,
  39438082743082858174796941728729903110131926755738979840913642534796949434803777033646349584768629825901034707278612186230019866079877826842459338356389195702068535216032116352300649887446002001704130569853651546687520238593751832803728511432748116996836928492204473805706334966187112409478359158696268586435891413598542535776887749327436345147544886408688180303696524317556883002058607732569597160864854158344684324899630770113713446751569302448854820771241335577323069494580672678452359436315078727281579015730700331787968544362795257190236232746142628687327380094977411228562376632149046532940720261975390717404222595392428881645597965700309571413891069368450362682310539867437532400527015347458933256795149418545378088270634572959621690853835353703814181155738163782090325615198697453576464121254980760051561417072980469948135934831505681166427932193352798227147157673401860887215187996693502527007575560997198828630642854481282751392806947027501481632897273143473485285295046048832716739789815636788047804436021090073207273697493446304997314425715604331336903,
  87618100948873120713482710815889857483265854207510077953118326861708037070935927614936782530858340482351003632166378957426202550350116861543407379504516482896755698358935522020173679548075781909502697981271148703431190363112246128295303820512870430929471974594690821025634788995431771524379696211281224503426066399268852133079196370277780448857920573046990800923440186638113252097123096476059989947925759851008173039606822219975327301606582628527582576695078547260349382981335825281786706085126560022688717811253597829337347791412736284188656175920832879447410969703879854736984025458063294835022359393543587480223989760916296250110473931169449100666907230634693130169711820632535269244043840093724284428209709364856909468920087371753252557030543539828727812301139808093867015474885803445631871319602678548793893316205007675264112044390237583342724298699654786368534102848857370254725502365663418680919038388670787907208403619402164670121534837978151832826472578628815207101081499558980338118961569441756761340717046538512170902123777884333649651872119905407581877,
  39439752836414395304424591390317881300418879188711455314826746998705558793104024038888408385068734162507165727418513495208496367095554245043948394804597915622828248378793415272036226336956180555637107681488889361927574265993582355943153088793305276755874751236506584396947560429719200231986802435171993786810036110231256836425607959741057415362829718004649774857371837863903703901539737491165468549971645394161121641761071714540176519056505252066227788312904571969320599024137539598386198260320549583950167555250964413711822256149601400302303540789920969867750786720003807426797053030716793229601564862280851840335235017060858951291222324611783025316362894394607365277133651163164644619909902122492241231516899276785586373631552600250348848781323300191018939961670273141699962651194574263676196500243473717272902846220979839487106598227000995491887769618850543265321180221944428222842515255614118743401804194614139451471287252759239125596443735683397289633126767823491035633296129471910151571431157954909339032614119186547523762472153110207936911584874220582274734,
  32017355850771224379698579654915806279502740977168861148076163151618553068566924571717692204436684331273989337941116297224516999854685622157024175947117699529165502116855001089857619346394559088262707753114657752238846343519376539734984802454976076024403080844890106838786972612370978357824516680117148598367940552904619826216566917202742628548239339600182545994092543081696910329784112340228856001905493427502231852947128296096939768137341977042781213001473286776057194059699792755124617184349569856417128724811834654206423187145518241528676305675131162677177350617511245463387994265291270105789956718057214365579183506917779307040757329043974949958224106238105149176502385041827300966201717509405908054089572837554063551522199658207573513157075923615398639459211155864000988097552610538382568992721584785041746065161511337883360976012114848700556016581249247068256844272045472896309420306650445298646223594226008554991589149953606498428034579492757009497959450602378775019470624632394954957823082283066840818802521076639074230973720916285337176806216446935432317,
  91785530583317142084798863034084657264269395570026857605753934788858709460058272323051910811751423491268733658596079989173292891589600181509181633740080603547520005151175102901229924870961545928026206076169827218102916731554892942374085196743307916607849905578210193571366243599088361385980851615641747694605478554008195353067080308969763045294686823321053287823743894411568517627171163630940147990964945635459295013073900362682100732637008235615069126964318335171625439030469898931426154426359511363466057378654951244574752621678954703628904830484996804037722513431937373441236618586944588064018584073147633792940386340435919419872355263015654608051868676068043160845128459160424413269879125385602991599672787661951950531764883134693257366894644382558139108486209663742674579831301222343872583124422033094571457541470479293875858238997738515213523723895596643122356432626286011474890868171592810668727084008203377186921535235269263472268090825989889840026208152178282611229313118208660070996860365409818326807558247767069504109975861436243552161945353029200254667,
  36799648504337313349520821075119925892663899564756985870790185612379157886437446903787150950011255021003884531192365296559946190047484662064234794232967006052900370917557818870819352214687142723527763255989808694872111384598001412384216382782441273654244674883338167971620112886191415401936712909478990264666443156098372961501968624228250672306166720943546571425149308642488778598682759588749065077260250951829536765181182368616944724360783764294762469226319498921964644068316928766161506050813846319415116202577907863071801231159458603896562526554223346234454507394788690268159497513116885143694521021688319044616862976332522986385181885004928693572764766823855564636554496400631764828557578586661022855156485990882095868944436254698679523822686115969910056366082926791533753816066112247869531326158531871763885989377929188902998793879810003697307848959270625410484859315854323395683104239029907026344379787569185543408976440760130844481978626507947644083013494243583428188591525929347143631753374958970107287350127078898048163504567666769320755305184043244610074,
  3216764718360837084750651269307076608498252990003178503058536821395127350386382460564251033777558098646433980171862081426630741725922260005110913426810746701290143016541010649332122837908275150010035300156545975083237729654396973820477416265710657408216499606262274961879533479070659889748717795643340648417456457479069251701494998100953534135489087548363275795224072069862910246717035792514417667038866099069857262605812408253362252189920004189757457653151230000644457159317017716886354833330519215820559461173577163211322339319653203861990051161781713340010705766526899197081692022194647043237953564118660639205586090344570641517977821450547222788529872101978588460700474200284688737958442289499743336562718779917211379161644925413297156528795295326397595385359209501386333805075613695308995475848830242619627589859415137805158050257675404017857958524488311721050892770892272734319738238846873071682302487886885855101080735227814053714065207581072708481672639770987314551626469114232861030369329843303003236761627142640675878067318839715150027981633747790787750,
  38307986759404591073921034587404219617034925808189907205961291586420202885734009114955238865107911371495334639763988183948804530075074740372280936820535430494951948332833470075161979008687285439962981575605891637624723069162871111137676086480323752459664930411753946136464337804671165055504670671836221285795048067165630427626711429999113487698447050370637900181096888629721757951732433802780617470496302042492916619171886243355599282093243919445711886321556320161654247055375938696624656334121541014032286990930159132885808831241242882876373872742838038590710292748633351503090445328052597795658920554562434297982794134891756382400771612173324736428540160610044337641457220785921715591401037832020132133833096380778904095723810558829392796374381660686835195059277019515361601722158904287856784820682919441698718192862730827044416303962547130532843883379133747687358261221162583602728961624559041896770247453827583966522993712351630489833012421417455788591594256059792427721819908556279848605617453684478923796907975594555154646853163024462325674034895845462256744,
  85820204245739199425309426422450420268903815015268360241255980759752364816280930489127461511962315461140082205639678065853540766868822754265038122599916207601708955674744652423445201766165032594566591296678632462137991922296145867142248249288064768032108647799410041006003390679275237362546027742960073478803835668752200348245769490845686269605771570191917489226063520812973879744383548328613693956245039297680578322340217167655591776684037572348440946176293128849268993687138983882227106027903799001904558336007973927741092665573923314702590923389065438842235132411538801855923495613993022391964505045036935292701156630515335191864186482344249991927202729534595990630487236080415957600296681211168317236603811054280359144572024825645610571405546242082134352094810841715828957244507206354681600230512014084805435874252617101768185388355755871741542477544977222141926131552526910917556333193232224321852542218272914915981058368970250352281300214119248601424806807975369964777193949068046835528083473276103060494097330916903167830979346366118327845318687164626807388,
  33656704566010423768505801395074436479639222841126979451347730049249878649656367949099291327125289776519181754279628060849323755208153611132403397131655043918879601983821385850007732424617788491875814596426423378897933308194881600401131265256356932446593984006368903152547229239914144743770696338935761926039189247936317800831026114195485436051577871600495578865657970665885510428824663630572077789022667770425126815719795332251076389036819762844028610258805392339329474672024088541276492386447602161162620824212991660362299184923782236300983478119522913821847326342285759120979805478285250591837983368017874112426447460022562414980691400740979721023278539575615128345806165411117926710427990579394497134946328950456512868847841871758020504583283874853137369113510255062010277534580943910500102183397324565047288947687929892594501987507671223637918758647201214966061151280487096488630562284408393694438721692120849200851558381251070741955187208093746942459731172811721051928903896370394235776862127668210931827636649840421249381440979598631142254364839654999834790,
  84307021764385554351257436828228153032222380834767951113557014806318200453220723794891863572149106242526993994671015366846234105153338142684770627585203524099207972086991453730109551641503317628200196916411546026820723669255275141842996992053985343307306805737238050416719722112737405078927266340638850686734458560773266648384578027718911475801323105519878413365218519071460681389868867103147598264611293795439526672867275994833590259744587868768496462683484434414135917714587766088077845357183932937193739323640835633757668846821111799350554102085561884901020160050563954168745108220603555410817666460524124966224422804545243216032036019464135609792001959024049792923673298924553990101980112140290868699920575891777188074146122205024728585715367530747814389730571787268366360157613610077228631963885264623512553807731945956356796538236249992655180433079635962110674552852142902629498265675533527310046878865731047246649332656792733134512295505918623293739332608607745135077530901574443829487339779605322849358301361837958626480321297368474817516476913662110360369,
  50910666650517171150827820093278835872259839404630683763181180890442362621998812368268078579526219721668720174551747262781803268305854880397097704793483103543985590784355277667603313988460527150313885633246768892710459585193289513916782385773577265810047982563935519352005520408002870596782497393747886052835649359149783803779649600052124458347790017560424658666519980770288394385163809550430492196032443609034008517466042962743097683871519459826447359402342482110447572911177795877313415536095275957089861258677145625239945007593802060935502489200847673322930857422225502064556902391265436635785242724290560532057540308210145123820902174669757976534751725014658374788480805377351504222240429576036137543248619965589193922050469998210629316096756517907513229607778575533102658584257608668676453552092774827556754517716995087894118059363052499449670123759800655349987396663953944170170596981015127193331184076792327185395398097640485278467438723164329100290654953086128333026640075801296184992070220025559721569575883761687843643467927558635739722535648841330601192,
  89574642809357858081132331433115287482179766039712579528900364071989233281316116404169377366280132597382222374268189176489596422703380390592959649696482133114473166765041976781108490966469425717069457007871264014486522428469488976172567465352205061621073001019262483146821203551699501522007316384004132030333242312167082685468931758436630430784350785928104478492663952652398718644173380085681692321347429754583269402161253332837900960648627785494126679513674045877416945596140762656625029900692267267876036587137932796041848839393393469263543415480951836233233175229370352102914641331275203711716675487206347389232937851072902951446292741546761947942747166916030497829288961474587026499797079206387240825023006425544995904011974108535167844409018806462937483544396144003535233103040411784572289029581805810321237438258987027473704010683777715925126453570650830092147925834989247512745362200610585457599736931352970781437428413405519544467214894150574528391716037154530825255583432025125424166244575245629644579107697171521470951850550035505439063168825810578507463,
  56562047914667680556984384552027709969719889807233714869563567031776877637897432734928293439051455670607446079704769316462781214171381827437856146219708808702106421105737785147135883737738824076528045191427137488110559744718310093937519765980210024101251123081368260338474491087716132285766026393884928495989823656572720426357202637482564949491262914191713064628059566982549360326132019252804346170439028926027993140436137026582012131285148815857311178210413103357288871817295262711200081475064026830464189887697478791731737038139991888242416994212152776045185956711909418073734793310997092831554681656395271010461137625406644958618385463898220899677832955011143149959368039822230371363295742321735744647342109741491743641994731958840052638726959231836423254918455955045343778467094704509594201202114220864191279049359945213739248711074323149511380429379365543637217263481907571135312709307952729522112479531498969908089466574769556512436056114200866399056099000380302506124236077503293413472890501316772809713162683495963409292243031195084878867103533520023712730,
  20291659297525265703921042149634952385708560572343462157695698513406830454833154590753647114699682420910232143117176922773853477041779407644100130104859609270721132052318538222744487024332710398781147912754608083611568779215131131045008366363100751751102590028086427715020962713662397401075288445468331618211502789264307297635576105511246203324800531059951115054314848295534329598305742724517378865271930007323217362375873273148909109455374027048118555719905168393874535206797085921189640785489504109405699659887159886336207795504521932156336124685303174705443940294182926355240155452316098682553138970188015397045962501691796648125015559323114826730056338357972603286017784741496004569725783495620587328730124514555763452302986481495441009078835298012070126541095251846066620176742045257367994690771908453787482060802904825167017661982073061833123921935356900407052154989390344659388090475077241695436518580750664904594431888629787235716030224813522046010906352145082806397492755128476943549962033991644887919743790209571888632002475020791023790730729637463263366,
  74594275563784535691367345524014897125909480368566282321005003940073106632075257283147115192633289285206967239347175098295260212549476433019535743835092582831113391153906337661737307723630279889869985799450165923769067548837988929400605162826140048150469482814033083916434248650939635458909132805951116334550365634824519150583179498083182728134795050772717335949663371882149192837871164639035669257799424573943554730449355593968480327902086141968150826064810924688543383329866390745478052636291615627988031878282707451630327863907566533621975063224248645769459753596673200603898262930000761251494798008956712452569559827585485769012463686594942242277271771518496417510715984163572072412243719680672039270647894278942171284264133427118318479441334606472431411501550985511712414668243312352062840657226926069047479196447297528322749569819632778728162595401202053807329582500497445930809782409529912965423318498798800771681631986086512088315867256506594414061844683749631892913745993421603484822883158289730942161473689255851699271553115588887600721703410244587440208,
  44342827300467309795555666811501300338889583802314643138290026007632285034758307808788951803139810207627889851743534782251208467594974300244378958428956807526632036276962994601808349419949127065591308400058626563996391104068510412820071532462564263714563557576945284927112635577196325065896545536482125459263355257292595281499341587877651569223119151023373440716991656476398200089698462984399775938539811213321810328198969945792617649358297483733877523528594640351382382306269453634581003193672502069828073843334117528315731434263989641634712705303477569915580031181591809113788026883854757697292339888286032302997704306662886955301210272705763395989768941024996847949816842011992561348075644040655946238370872368881254894914879487348086141681055211400184551700844448429484755073273664282722206336582401745498808291301883914015680905000084954657373000327477972099175074617859515799532022372852359204007425152256386166756203188398117618611960221628474319079702503674592828046781785366473935600354038278281845766947823374571138221219326167295010427069409520265028052,
  28985909350023944908745626205345221731194095778301953605185038549614062182530618203651827337062111989390244889753863581809944918157848783365288654365422483020278924170496896511041727594750178122678581439174864942435730090917126487716059592097445811462955422310022008512052258976477811482703942677666427827462593951174380719861872226558650403002846914692786468003183603463817264057027074226203429718755580993868712404656223338914646583055430131550952851097263005080518826527268533537293733856918269371716773031611864749481042421512791591014606569795333133774095936749326441463702427524539335030130992833648540706984034399121245249275580299798824092066446404258596620088874191649877302754037292042158109378147131362262886666945474212449552849091492193371936234029433712557556998865296623645035351920267776379424820828605689362315215231788501452131321491469868548359447068658501098131420589267641611516210940535678073681008973424587293270521085357267638056422884092966588447779527954671073519329547471301507922084032823220442894467821839654711090211734072513972475735,
  70085553127432199967512595825680632358808838843662032622661914149347404364980002473983320924118386674296092694607014183881781107142824396577963884398647823137154249894725830411451495268724236189967630588168208463274374412103905527652187107355645257133601145580455856845586504328599176765196193271143498665407774514500473072711714795712227572018128864464407775174603282423173385337652989810442322404677246320479517980971576025800885768975134059480548268772884776293846454960402703705085394190927699370668045517194160403763511801855136575451095247034602260020741742823849481782254906365992084749037583205744677959106755660640775009347129817005818769408027992690460594987211763415191488225186704395573100179371000466572921803728487979715692278888397041982545657064289089858279586256599013759687500785698534209443995971523667673559911557090061413018853956006933050826115788315979018829128777653969640675392080848582290475561905186375490594176472080908485239299663653777468709856801423613707637046742361802921867959247697776529262929041798392750534329433844765333985012,
  28283627985150263745427966717714841975733906572871543054321575235449320534653754238204844850884634590853386677292538520444984413136863751894117684862613603681937363513393254080685226921474307329134467625293226408453308449386471515618139413634350364817794755097633925598827869036963238633034257944529229237752032874489020040532668139354752855017464531717214599508145561364692526650227115337381817597855795041988075485811336289154900903908060775415757361373755988018757307536248737001291223826113438103923437231353689889153374949378632498494176428141704528408296939917243232867725641504837657731144933521553852300178110827616363037090205259503779092534110470570046565251977925679331410886632640592623178893126031528575871642421190333798725775874290129037593626972723431489357257241883794186276864566775868692027601439805016387143520477673880900578928363381779738845734410014996643323582225792535171105948560789182401521998285226946509587631492471279520164467647402704689545435103069826179991402234072854891546806842095743207506621154487626644675798636443880232586360,
  88691875944227152142965066416138496381502797217307126592057826600278471814003420926569307030904457024596467576490185278139314813150920364104984596906022531447482294570702527043630406111445514222766936650125425237207439401827752508941432915215170599745459312594682121435106227633033185043394889512767206372915124936819357031910469357290527628876878250048505480059732307532652277925524199131596179115220694196854791873415669978109670256299399320816450717417349056433986521998663905570935211985243906798615021448623928438739820187602285471230394945966157258750965032007124766575938137212480113415355061675472036957910559746106711254171174536954301471914199373197227971690211613572625243116472289366644142621243854981362369496357128211603685441607108231775107801298304253814190892249208595364610821395648113205316073707772076055993498150342406407751233151215899924629749784547438578559522708926710247919919964504304016600562176296234014928218161152050464381405120101763279790269327122270125927081630457940869593885030885857777676988057712027746185837281858599701772111,
  60371098273932414719793766386484316000841579272530611640850151500165203002001427433763904187886226352747022589848494690776947476132763910525994056603823823716369435554706581748273071824741827263627240462399440284444736424586444751046902997652674973443569857085390578191599585996096750612830910194748865650751261397136329276415834913042083009508511004140745574437849278985760726105769741819633696790755188383220173443764398053682962687328518939530815972138409987536577466354932531139362559789543000911914267407538592549690157973419183710401699917900945678359628573224471479073204569647197863154908628412333251748127848288098487610221009742783475164627905539385196688956965108760628729574590889201702386720740106024538941519547393281424662231268923626502720564026430217769031895555206112711463146717038915773390065452869232720808111578757374991035324446693616535175221246886608059397380546894867556025887068710308118989220242174952934582195353009915613553607315909567346990699248742680019538217524621053498627010613215907572602408043008278683562931983842710521983547]

def rows1 : List Nat := [
  27511764233027995892687273053118355805687527612409197424447633568095687484441045467028352365141527656270080436309747745376780982087349803849825992488106702977549495352282995165465598506874283176285208571961393797828505779014996232139220462341524168238038894466242673730018965433764765036341251828509512088864856294714398779566559280749164896256218592671541469217676839605450082164216260561064231444357982306919657804705747148460072968182372287977560496089158178686729363237902415792047283646970210313975180097841598550007055364938753212574961674875872583259925957615074339186228437988301346044540880817809685491194541193470268965059919860410997653211196581062966550051161836517062029288087760914984616731644268641970892306484630567545738872024760165257760852937721093358445387107402729259191524626762353817978693064215340131633701135735635111098141821129662210736726269615672674830775248874448416766573702400485083937025583859101226694835806839154547916601645691486305239359779324467255886717416048550387114903176075537321944728305822191558078807524536969327446017,
  47360524205864696869757706121867761972058749104516514271549542385392023252697512349546546309061329460056650728309872803387373515537522356318357025370064940926380803173746348540361146600048468762423108947237916500745179705248628467276633755173036873683856440370498066179092008317107882104981833155261485053735407503510822393924744563010969204227884473716968895091118573692689033665971852253777032962201670810655181267580094085251506847757921913893213809286961195312209050380181076587488368317882781425278626187966760682197703909326006729615127557125278643706989835444409613917379035454851804039733313748052358791095558304048153480453918785403824323690730431027406264177776265730103470338402112966908481804616249648739473458441215530258152221499458222499419419547256410317502114422808652302802213424093193932727678195990608112598623967339458989619071679777780259511631477576264028588262514815821643994413506196081175890461951158539082613354960388032371352224516968118059751218959002859179739086652449528040782713027004537743726785553250485039746375739464609840856589,
  30184822341614986583150346608218622360580194811455490351547426626606129502687840975477981407268239569314724876098280345081189383404096153431486301124867646531547875845494652222753187735608908350438370811208824417599385864663093970481172530040203058134090447450511563770541035014166861912485252694933482978510181114723298740453961275402222190958440508723066232688884970422345670001194975185979649409914897138536227945887407609904328542281277305818304024945108706336986946867400894810975397100908494768304107115295506388876524905456599942607738863473945525114489720361047937572544723966023547748127494160698351013147640236419491461059805563757044651556671236525682827015744528476022078175397233716409698626492055766876156445774464466492547734672972555705388285907892317597067686398249662945556019387315271036272012429312017642522464480318195446833376399461313836144570416088834222537155878358070161156027177541424723331527813566940098980044458238998420064074895892389238927522891473294553124042477552083805237951012393843585877545499900127206828665999857909842930384,
  60073296238426290797218233372747669464015269204881430422739438838386988072365034008809524512726001361525704157749789546427459286696216415427519072078965765676204708762910259298887712834058061317182068879509627355230802280366588530930270461940061446449186278566424494208162102038327611169622442138639731157130118991853169915158165025834281284874149275360507355014927516496556894986881445782807241540090116176936589862811374592790322578489093397688160867085700299534572157942098099722053214575142715411220939886987456280116533207925455196985191038428157268351201092367995242906867995456830838859301366721852113536417244228370492060364815444971779988618739061970126506684370640425124459951909006226082179845415139874086156189246593084402747014710167254716016686017397691997662011119989301553540628177813282386798739883185480936514175269040502739923269532293931036045698425205947108776022321016774679279356253076833772206929809952133275493410764068293696256538097982992215020076190656713323330719175311095376967431445827047452191856565617305618532166042594645538561688,
  37599345327673827887812223153728111341735545170735532082760440774525442307854537481125966546355745960432703685421573869622444796092593675008309891400068538363588177874864271068825787874079928341825197714084223048949791551798767827468475408492899386476349839175392445932931291380807387650050522006666627273438445404989680118343255349997625011921767875580980672332416782617825708911630179808819558379107540118050962160109308042257018054929764678411538769143070882475312172313794037236592877104345544696266599992623393329864113710012680408116027696940228713650729810644525201655173386046865040621292457892714722742676386142682367640851641194766265143710139385568064270077829659680486077517949221215629173867163546498898538357515324974315835413991322136505155138410903090275543323644120225300770428211147141918147570961833137822943420725434103155582818669328386683660726916383696779320102142029046813370491534380592465471149708354012272410065039497421641886692274473689950625289450277718989469132963467585879264235211633546474686426054856131577840361143149026954427505,
  64803847888794329565560484433918406020270451468278242315140650702210485195920723120049337176738352370930885652643448419467734538241329688543063024778255435028195957175433268735831728279337741010263471725258000551089980879204274477838536427497206543092247960572140033066159793981569706136609839640552028766999172254724020639606096429945427059154600073536731549880773908300158133516035730111114109280154122806666705878555092703338500983115676285161649242550929283039087709889349460723490286585602054220670371568046350038260527637108239865979318483093676416563607907066052334341113779312161202058809514614377394768353883950472129452834986548086483788501946767694562326701998713318455453483736084512767180056787542358871951058956527978045378344846504681469516775381369518451030832390374965716214330796386015448161449552393511121218944302382695405786011646737366479565206587250815927530571313438356992004899961804325495020521955502061792779930564245836658721675351928175033449923918332562361626502081490355786124405183440403815991358271738433734045297449996405991865666,
  41535612424308001626179337509214296580882832219570578431716979462845513309683824600036989961805929879506603760712432725597536508820386360958809040038001760475078669744332587723215438325998399864395011449541507700972822653695839438085091284110416290966370127424988176163441016674234005068361676482327103889422394820253086967222925243407506026512988576358781375008510056886874328274718732324289847733542581504162589550238544890684967676489282970728115843511676077617260489135585109814789508429849836055936593710532020599790443697353401662876453206371886938218978015732190762998103612568387648387269853601294481607317618658066805968373389411982650087326242669600240908832076226117839991574402105842789845063036014199339283624554027683509989720421859620902016210156519223584211948820209123783927557185605541656205455347196978661235058348962821286082084034973119988107725904545863376610850509582385030751284259642859749471596754259240349558609796434019664667217572372370707851846466383706717029954169832988691247281876802738125496293898760722340846570950989432016548760,
  47933946794685134373263039223093317906873031699418007404800068725136597857958599478019949652342728688988717813516171550577839158713864040578956591823213708140058713808836523047167127182200601860881125726033986240354206752127690892108155226032930044410189063723659195711953030288248586847825648830052518126081035421351812247158400462751059244487058370954083531897521523610342040845076413767423473005882203432316047463304350628142321082948724090259476441189103223374049794740857827762204826182195142821798112437267662584689519510699867374022732300260261505970642152746023269994970061582359282822297832868401997290365378168160028841173067332449662838403243536504139753620550910521974909579986059572694138402426755596748637742930858314066480318445315329081532154943458288044293735568005276670180009478873358860913649494583852689279136559434288174186455594102961792995812608097064547465090234261840345010812403353900061073469412097838671627721613708361451511050077201170421405751029551149137025545335020681411652447691784586943540341187913507194728683338966247610118301,
  70049726189561183989816053909200891172772452827329958680838010737813140018760672501269264546450976733747002367678201352356732426247888048234362900999633010976573057107450862132187796828074343989648355242714487573058303218024945210923199120417862983211064561898234504950543971618030395685126538014922516948784795547241863827862758232782129939782074286755471092498218244686147958081408355004668755962615790617175902192718697237845472411298557573179374795351829558429913369281405884804215715380746853113023354946272141844005632397445875377275180714660165706503537500007800054761003678636991113239858621322182246246434350103632239859670172899284252341131543432629303907359534291441393387428218721484186131279071626858266847205954664035651133279272928367042153333781564897878724347231657710811890588115922053413447767521297746355065511098018114547089217012441063492394924242267383494394078654658363868597002601991541683855861557896701272200232200316861954197028924757421666766801524808240221111561909829095288293422784064903953396720086499569654470752118461343409778577,
  77364263165869169876274954188683133247514531590023354409517149140813592731911461920067757921585633107612547070933961164415088007272939456368492532718589155168814720960114154056640038921028118648545950411900558007928394716199676003018770007299166134878103899189799277933082603333383340579193386012599266354350647100912606346252385743463526847492979065780017287665968256219468541077987421844550471048251138993654279944593202443898985134425672669327861329504851702042670416810423988787766282835019312545495101087037669638120603127617996218893187778305204501948120474270520457321254873390393028668085392898551453951830701677372533915679276903907336248590343351476117870517797664710107502450768161655725395482009480911058631732989175311841603640219503463573219594755860083208292675123788495516672506492207206097412031293135743537452185545498302580415651798622780164689374817239713381123695363735811057393910536917973929343197751880325243525860808275537409997210154008004697992794342234544768970758031314906549976457271996996280332692090891558381760321398926448802376910,
  8274209066808004373992504541223684971940977467046731673788785204941656447370713254372831395409623181337647384889412182775687605827547211534840641119286609198061422822955249075885258711407213414016352381199891274778913139757468280934247282311021898430070244399964290644450844788027668653946357835978633014357430738552248011805785516300305948035170230529176193766804489745519006229814174022546879385980914228583744941429466840567844786299687303736686339751013910079845588319718939840420585178312625560990751642566660914485766068367937448065297240370993339629283434833266104136871344725962944171536616832569298746075193490043675487124501251738822895942643220617183770595166566490388962341590342836592467623892154316210947396500986925708950750411415781971894579948516829239976768526059094084769255556032094730179889261822947383468868847877421474782112462900504876162420975722951786073395988696418605399569127426110537996486482728821472986544793727051143103641539950430249248903898719047380481217370572566371346514715413122205631956995297107448454232578540931960703748,
  6243288730574037414313238215835562671427568755755136182019176330108628379725855115674172305047190608736162770832629644295804827975636308237643616154555406169800458196446706678102433478459880692484772748952982620451694370037112019129535311291971380175955779745321797068998107869799671161406472583557313852803781447946186458216347452039855897512317136407974683851455920414500521772122914466992786476520100365397889970941956779542290004143845487143488528556517630802992516764442476821864906215121917234256868516006058597808966236688320128396531227030746548182119994822538814300401681144503621167202444620482829677761601656378975763497955487255108091057813394203472774484748769898419218280856304164926029917623036263225044182962965215438562876070374218681400473863094501591091325421030325613511075755828734786562608093256450743463372334224085585816338537153069458782692020523950672724753690013980114964316594582971648686322048417952196424498327948806313464620108913932870531345561503788769211459272685051467713559958906322386507647782826901680360130617085698288633635,
  33982166411661335548040370382100344583808150558303401797120822493909503856609585571395374634762832404217519342656686392559177433783255482070386105633012623762876981734728224250946153189070215082050421810397748940765721499083247852854595100246795973930841106272522541569649389236827358143460772759803346264312598278889441818491738026870449603886707186477083156478758911780354308201318656582034354073422928347455769651498683915039761412613360789480997559164824906255168553679482474050984649608568188917203699873757964398001165295270277237226019357555720232631014768692847626362851893048492690926409854724936481814128316893832831257956621359883554452066740895840923148625755911051962200050308020425737002899660124136355648802803399956946560958857632199260300046853975598028765558317107063997506660476148677763563226116127152242671096736184025291082552446153885776660277960808983028370687781398492381254517178987577906769165132460310875518147960012167620168554361388753511114464644596594898628685003842938167759796191272999045913439604283622782145743849108066267372039,
  81596833114583132775573719396476213947036948713448379653367208865076094944310674893862810166860809354876204062953142683679016223243442162500961919886528250184780750093092989616878935144048527844852101949729314912293366428383610958359117926697321050328658637196191306498573320866152431989177517561330725336906062894401403624673579168612419076797307215389609926091477800392182909660567805157424539481270515827865608617662808876754852826435345792975109103743243148049050997201340093871209967992266732745697219975739749835295566344453243455703262602782931368938896296769149005111791641573964151622345962414387998499723972106259104524266556282960145967901286176415352478643304785581496257111395603251503631837450619425879073297479906540337812932343549647709599415970216918103681473383333064151387713221517339840938174656833323752124521204263514948017957370648574825588129624111414646926617747817386015615569677680806354280813392622226805735860439573916273877143508484770186626531697488864738682430941960189287589120213872770961538488095065653207344205898497856821448109,
  93443271437941292340729754793264761829620403614436411274652404369175428358566140595943326100913231448641642049764947955201717108651706981224160848217072171016494824798077491801666631807604571639525183860958271832720865705298255892664923127405067312348772034977998295609410636030516581681903848011147030423901820457583727316520859225399475109389001211221942666544590867792691371154950789666576676546096288277775199570554507297923666208523507816894340032047543740400762179909188135109499396694313427985992158062927042138267562143534059246720235020642585410968595512829598880167947485348827623226089882142602796694948833997353809115310261572752606151664675747231126731130456302101644275628278219148792466989753209783265292168258433047908547833654269758433077955719520001012078724019881349498443843676382704117421003695116901118016832699946612010086053209415790192889761397840351651115993464204441482768205455063418483061619799460270489648952438970258434171773190315330932147980542020896195125075929364901627814740773224772573220191350456805599978569277543054657879842,
  85946840858678413411453824124072065675598264826257619030338341742518485385403847037100690876508085350864021762101015672829143567367711035116439783634404283023478073545669143817704745089458721178783915416653092472697951952686392823300371685067876207877548178391081973218290478799329139607887417683308186531819994065979267822132271345963247140952946307619739674998463493636097580672536615518078598145349535821601480260233176252015063663993913514287751153532124112251505706572311520853765028432210158406189825700470439171864907241208917145612024917300437993499942065866379857873460604806192281194643315629256867108796971234962364061937388112180207379159818010975908011327225784300250111378803495792043918992883005162429217600337641079337196813319206758299182607848524757117752420168349348194140053916463935218273710489150036580479259761583436513553494384319150921462930819950183591670942530265403298032496761584396347114353247143703922148617843828261138668855215984613445058033026369143941743559917537871666881400452968934351987652723008458465501565659895211301104852,
  88169394156867063517831922185595530500029864832544477477719955016508265889671396408898805679580669160658060940485139280102227697615613826083190760332454846528661464942948396677330080707320067510426251414296244714536875097068785066005939402651877861032765470280632572990619689759188738667230511012379493292597649574826255195927394471764009255618521185772443088894589313045709752725867071455651423603418198903151954572188621149171034530596578450826186807436497735831757700864758799643227445489500780966711961621513676950853089233612386662834811029398046074355342727244281049032807567670033772711209491284344874508135688221560330504388351754108148303753443420841220816836058132623457677542793161986045430504448510555800411679433767132055814705872720882536047310649679318479637352788447885205873182866006563349325602359088898353777250797020050541440210559461072076492440913633722789739946639751234117883663125090061416232276570285410485067974498127181467643084141030023752565373049527672754845459997871633253310506190240215181468100146512628510397598394128823698621131,
  83152477649679577744191332394798552871653023199869802398398473198178817133310344339890837958000051319653452338339010909704447143479426502628574031518152035465072823118385198658029362135224379754319380198343291431250275776675431686988860286567701350037258969644586868341764738783906654442181923585773107870023191744542871416003026828372404946436034787690357332618811431010813218855279858973034505344033037227691514045318236187832171998898905508290896624197658559805783414287373064809852907821459411264949921965113612567773076994605802064072391808669002017569564175955272113593375897911604759823155872535644568257143746585668898203737054970452907158469737635558706092801201769780532935796783807950227922001052016768988732541083893192509071742888108107086232075510184800417696968262903923998393811623663847871308193201855592678658980709850229537394942175424696253547043954732413392476485210376117773112313850016187130471064778393248758500636199119677877532680713924689844038826593605108546523692226192724034991210383162262972411440835568680499807460483713592520753901,
  70144693739164092864863919053757393294556536775435632948953085479197356181168943469443443643030871444254910609829482881581159563562993377947392209785110406721664480320531067091303759488434578734398473707653747404793080903438244339705830532695856299847938304808177975089019323978819644747281348548648563997367907690393025212859195095945330313797518529818662620117612609532139263391827182563275830591189372106915776438388722784228529009122612514080523150812027262477370667161537297962365171711830918171522805265375933737558128234864296932266784713386959887691580950811504993633735690590084289200705482525461768954164710778011758607143286624044830552364259377579855244869608072673059076502488514081476189179998962929079540606916509862750703309100886611993183653478110689500553232123231040994315669757128432110589272907562665298306834612688174350276344573487313081278785396682594804502445089945385062622281565720665625908071060090719474158064342896173131515706055811399896076568427723954812062465492792246644108673930170526784065224750410536043235086881525438218840578,
  15229519878956064995606982745328922732703853758452092709242946673468959337778965806769512859044905739913079487625397989989468534486708427632847644098046534885512094360642889373837105351559587950751036819995860092479405220515488077774998306131379026412827371575710612817362497836474502072277561952126743273581685496119698882583112616695052224021881146693062574953847086995865745998878927868473871986438379048046374622281612687127634511309478316617599707595085332574602849374001043645034556580449442950345318338129078508883338583786977108498206651020627957076698334451779345271803769114102075574774315429329032629532114978826203515987412546422884395277795499289564754347105898585159005508490056969036939946380541274407827207958812061095018266675052829100428644011596909156026024587211745604551094076846979736827481459790404552190484180115456634783353438088153414037239817881907757630647233836848076617187887525444073186583050118647563203017139833900789875424411026277749259455787263151608748702504806203816260628415675429971100845723607943683883177569711607177476019,
  77362998608470922561241903344303868060751607783650278916662836093176759695530149368127979354666523938986549220821261327763789820294679958162439870593623917051175070504939244293712287520721004790036952035305417470268810031314275311744562464073545200130335154416116128453063638220620318271412034710573330570609561041999774412943789723336195293680711629464974174674606161944284195771506421244911540670731221384206414126967154566438915947177796949351958346843367832214130374310734291743734376354415907377380776833554545220416075583245001412712899741014947054886472434158991296092282986240745516058914963102100059587134719209797239836831280110175264318686111835170173586754064926579151374058216297242018837510297720276922807801732353658524866103735524636051974175871823490873819774519960413516046880860827255906104828222575767463581916629034390705475970348090440043043333174134614234541274567798725892324090915108730592024279001496737015134772151425714802387818972789099319232118851804003049762893873119886876339770569031907414517629750558295079055157128977260343546722,
  25187519472277750347806298881580276408830585887321140899356256544526325626293042854399332825503295028936990777054902947079622008390293221444112657382089568543447852253558437312693375479376599430699100569908215603145081988649438948867959773652023776380526949555871454270658517474445964682352694105685193373700491448623760659795743742949313762849542374769629842362040406990322328625482822335420165228291288443421575127060202153831784521856484115066939436436446339032946286921500120033173722315945993702440466546440107095463778627366769045642599775860341423376275925853631264370897307579552699685031320690918306791326542030640031482455986239265759757317759128625308946541251662284071633701497902673843253016190101372978864695403425694557263052203876294232648064996238163085500312651680544788556819973108967957554426839220485130919026882403377120177863986046398002560372060692953460153673513009351664904759969041534844228406494643578396273959796970119995996897055007139802671431539123914611613581834068087605346672553050422397928096566221091111847789650335190031281930,
  81404706478740367155552114034070303989072232339159423512652971711214491591287469696454455709228043473384101385887428050725149320183676549865442619068767503039795693902421343747525920284449370703219824095085287439294127815958647543036695336546465043812295538569601870814630360006810223193535677588422170662717787522895393749739449846068819589926057904266324281818832976825708783089016435405464175367797521401491698161349930449104204274172990731837969851312455958606399199659668996108005049400729639709895951757463495011315239540543638424771576730579689978093511231012700060683156013470561688420818621059065843854685352265309940809550686451819643104550056985286403697227264496407220910728050656517590053633194257188261901685209110944462304938727622601300966509801815021611618931499175544866484510193964089242453518586296685358807237025208629039637513544240841676796106254077453543971872022038982925881504881746263214401932459126384677645387821490032187360528840161581467693409724342496695967974551295215247541300383824175967755422515486890349846758461066315941988121,
  17971334525092753070140856142635030152714737087979022966356830017879902880841938939224918844891176700803803875888780169770111345334911534802106585087570025517363256882009759552748712253571825516978753150955690868985464837948430351870614923135734029631365279127615262306104314092395653522974932610180235741449400201075752924889589293245803518893483362322662110704722279517896431135332221513311128130269965705654236666071242736067583376783519101251099443703046290763466149644955996730321258522840068128863206013843915352393209115790604734139362973234927591808942336565260939483133648102906435863118308259658785978471502344907874767879956674248520510401039997571039402206306917347420208969917560052888987367593966293674017209821954183371282339328624773171964386256653145512699222367766777081986434967998415260451946404590163957896049279139291043490275683817268404705229814089067131491526250441754527101123578680129893682849339139638336607814229179455434491680970664913188453781202579621552321288398882948309602541545158301556456231328450317418576979979910789556567996,
  8252916553758612233838070069219579639419837426117676769100507357501471041273917783596347944115924160740964918923864162314431509843379999957412386084556879065017966046590401190093106491459764550874416917093615978054671746589930170413753904682544419849306977396303361433004032263704413884245648531960009102403591486043419567188919858561565546577508901443177712861645686219001284594607421607429571045831400462012463901102101932368874623187463906390518460908247466122225868317169890636064025404893508750600193538323584777977777184156692711224004455167705419310730388369438797889046242175900466660910401636227006450671672563298135619169577585613333903982775996522509904038709327898622159549437997063064807096494177080058122705593309162118440046358937856324358641910615400682047879016214044578771739810295260717300099121797113754243334882266618671805934535003597940626101694558948798528738239461925927383005865786236901271929638265926393781959687776344919278138391527346851031712835011677541289696340176336880334761324250065479448355160024231256646080107867025860376099,
  39080045175626009065555413098404273574300500668774331352820617072990338937053222546700420588964046523936142830791854041696667832407095595877094232009415610955534334434913854388408610824862428985961974125657170424006787671236859353722710915670406062194347260204099413954720131755244915834594427491919291350235583440418720697434588605383370185897657206225466863899147406171384409111405424448924181252805873784443759903370271443232078520464193147559475831429194169719062976979044988213080192587590485875701028049890092764667431817419312738798791908667056460174141045183654736392112018312726421352990750753167418604113908507917404417265800928896640035085618299372472136843413149569295704019813001606087541279574664190317973325939240210741676702423535174221182857151618329768142226073090296369487133088077855566632397283342252706565073072518903090395022975145545081413444428165414364410492175062270643628610175717112048366581497058246357800755045626453744628052593284156788579850690105804527975626285722083047835436681313303172332381352647075257795233015289166395286543,
  18999573174578016782672814602226403818995669379948424210982489742008823311140013410440951609308313090546550315955515473977480221462406761105271613757998628354396966578355245670079360497518767958500434785944448348747345525999632392588201044528789576723339110852081379948423471531895261281875108905121354654969246066557673451857177405113980900507493228007094056920655442879928976809138532882392312742649637907197997852490903046095850203281301188191897987538612770509831126796867211781006094288603341607408020448532441414457945472105469892916649981941599750811708399758552531253479307072377194823738336760655418502113337357535711604984088630696264989015115562982779223043334984493678391519856268504325200844798554629691262997883130293630646337045033155263752040473922415707285777998802963532890069840076781896975635402176619429442475372564984572265506787359093405723897937819146080319827113924804979411004922981431759499199310328089795747253376814606174543313264489248037013462642669263173424435742705177475650675563413336005917831376373759203890204265171691865422448,
  41360946598636267754333221729097280677212181229450177664232716733109192752337724245059080858927565564344115484438889532132702856054060064352403401177439426383149269420366767731249233446046152792228711747373206820737950407753807024875139736974872208079418362724579267158605875684373825696601528845015936360579976487955466689796317276414458267140983930260584443731183219527357824299238053046097925321759529437646696717859956554797526010481116090019255987703160369289053546421969361790098547207855125725975325768780341842823941930116764712780200132449054170687194060874864250992490041243777990256723623875213448754686801805700267716590457174167509358537466327846614717022291277538164893581403754204131631796620462601683005835840278084250847061028563214676349216441559656539951244111527225209885576318078808628374443953733638662891394399045918693562979931691320743108491238782696708173798380276007328352371305703835388120192178074557053921312504821976693406394280234533509698054521919641649696642051922322293325224980990680943829860823933868677395445267363219444015986,
  59040665286702065100494097867130245089605063631147497897543186327376379320227953001087717684402618218003859090607702934597864093296951123385326149456558596771175442461946208674178988143477802702378918386547507367250701231645954210423036825301549927292304970650068874455290889366465514819384805637455447031971718642272096587063004983436657183030945852528562989254613260790172374623360138208947640472176710210783635306328391852894263097083524184268806663972454351949874594952723688235110647593837053136149452332629900606135442020790080078443591851423810954062463592880074917472326014282915066473564694914907531304041194874612758425172542299337656191322834413615968845123050979229080934778061000120243079336754606956718867847589029167162815104791098481996879505375747610343839289298183475591353372834288849228539396595016459422968490216357698460365666770688497906149378958662389785139503019552520711594791624303805713391044123512797717425894997181320899397240945763050438176542023774937292923666640858263563047018894284713662179628077947581410647203968690057335883783,
  23839385156436769291095321263095302372341887763775951325585719886841563511434654449213461836258200177391119635659736209174802895107119119312161615049356614001989154067719147406045020084890078521044898407155872491318142412374531473909585928549192619551275281540455554894860530439518305516386529635114358554267895788433224703032239846296940370036386670597551896228216684947215516799401023726052761920617504560496637170762638459530053344438789944328543663014641420751502676529987148414838592420468435150528589264835412959996419063836222550061620298517908079995517161428927433221628069635121629029650503454559800242920380661131224998757487778145433349578136558008300458790545565523759643089947282941565846898062943112725975546930218879127310353002168642276336610318905110863359639860709747374195529341785078013653378687767911514738332525130023719102358758867980393855297049983218303899853337353315103458044340257304227586826097239834223150176408033273176226319675659897729718394229716522776196734085734441374759147793179333989243599405813960322813465924785587565505751,
  59428611613176739552834815080851852071547951439266728751057441386769718902087776119592459359290863839696200576865099629303818145491280734180972040320363366766499443919936264145227145073503705907609385752440000947482297136237721592630836022139158855909461407406976301297086569690667624421861836355204727903533175309360779778798470802390218595874487896074523749056283747418931026806280481743381300198221277706092184700815252327145986723437854310497839043649305860764535756025983828162540984963998318112971881438639542654408280086193057291799568887988182572440923086077708626351313609463097677409970284727668296668542908454052022919003034322471898204993824806075163872794566894084973666516228133694882858339531350502170536111817502101016960937372882174683892618068718872117122032067336498312812545726927631056482587901068575208080633928751364817583758109695596993384841991062692241136561171129547967778123862393493414008547053784583782851512327987308840937357211004586036545449453018681073293761108679782828034366133339780538614863594371635008771193119559848021828992,
  67779769409139308492689239716108751625981364642795191163033917961291900176095322165573491103747120945790041860289922155117591568303624947160865051863227974295613651983035189714287602237507160599904685227028482420257009629938279147818015406641691792596965023061674967724784194741420092429772971388832511665522273033896444730527049024147727564715409237680664165282261122166055190351049532169538299957017411465102998489825164390569909394598682049855258312876445683898434210936589431051140755583849278936997409501389198821247991620988839243558736555452375362389064107266313657338688715014376676574392829832073461314039495261709530844896580056558463095232963187124518366166304277498527362023490678591557693622053472426111253263891430252893766737392628606460991664258399987464743414163952677732246933313408989228213523671609562825134923485926804073551815360719656739502706913535763434376744311724908455377670326669884144911480888480132493025843817701187856663572935398781140646588369417283873657084337575104479912359736597243445574271838473362051640986039310219592121122,
  57203436510013963890649452967142056089086176982883163882838252297076581896118954572982581073394540172774978345406877641107780044074292966398079580266893129468908915006186184189218530416433221694927821339211827719021675202080596726274946300280538877794596218568307438429892564630240890633667606473897049687362677347143193464378269527837602861465838927893362323616036869658885994407170901438576500856237035707472881230042776474747037794632000554372747365847240261839025081850203994131095039708124812210776128324595639956407303784228294941790417991353653370609295358041284490195677174363265587334302844014814990754651032818138782109072143398374541509572180872332163931411848854048824761331564993540303113131971438856668338021766683608295032360405951367759271551656796802958597338036134406930781375730116130026579702426559178634319436264662301868725879630575563660782899695363498145223886600730147718791986416066143908057772551924487070829109767355499112006123175361847813176543955729503854529236536694133485621787892615474045615045230885311843897833507480699448020815,
  83047802929139502742186788691980176555468181445443074191102292721931864440749790317259939771362180997111761468900013772407009234849963308320304297321967582789400084665235071155111834810320144835294744885188632413303960676395857662392727435386476553325926113916010589720694912160419438436276922502040836018348118271585534392555374582362825523726253314359699646366678255933821009175987444402718522512906425157453594796130527189599488847824353172256275413109599850442774753526388871189264977071705502201056823253071154389564758303122551162876396883514326272862981524075588799596209804394659688932951904490105741914199814985879000053348961206916311175468253485829007683953766264145205273936078651380572241506897185582776538952151358565897640730148811113373869245888909822760229733951244135075100387258948206647854453929055116049254655683017922363526377554626840904947800372684716102649508826206935748463164396897896270083376303743017561945738907884810424309285523631029835517451745446606529767081994743205995165291596008715652115461296735413957327751678443484864598339,
  13758485625055460175079220988358771933860139489675148337638021390341529042836264537637458087828153790470854457596761421037723612329619640229202289514696881144705828930980357001504103694841705472869227519704469469729203495196976621766414362032109874971729908144000371573928189152840831974229437336774778258709218717225298406930555693522583678625387769903710832987797950516916962995760702662487725611153210245228717970309373800563354059293108901874004957513305645755468645881925344372271704841107604583450525724291768442356100139456682456604288000474072926191657544095336500054458333133334866581972749276001242323822517184689306940857232461554239281388742202766169379793566344104503711559823675771431249127962314115016452888044094239005173464563780362939532778780163604410427591864202516771182359108124947844895488072585512574549607995691801297131720540384249096087363621351310975286209862242624187424357837677291264179188013767520032056332618924101861651303481024400685680860611048112942740900937527485785858684092297315779366886086199644290736157490533034510746792,
  13921393573414693782678405331319923544330346071951552057006610011693010611464556489168050091450055613784940454369313485910618419330189545486385219860080820040286332226857792865947499006936075105780234742015035317737300836494989167289350909354212097520747272504366618800613349590930611407110464599244759717542401996540730654084169735239250415635500390264400292275155191086294136723600026941207127811308763653161522443351622669190123101713629501331698077009767031225923340995423527648984420891092439027564816170040721739272566024295837155710671685414187130035713102305447259377064542064373028381478419102186882184665671383261282637806975309886082906633039669846839624674768851145064913151861552462947924811159873110907977115298058809209285816227706527567771953931120357319433459343473372951899415721472276190367800430879590479992664242819620163009888371488450439801224462455602660408616133199723284978761593171268140040450561896686909847082394137085518132619963768897021241523137818733130015601121995657035414106535356384524396556426727217434505317089708620347654758,
  67412814640719792280574469540684927959945904582090187317658661625178733129693572624876301827480530656002946241810151431318690240874938411242158215083730741283373100322266839576907350698817682754848177304995391310318465327838386562671747600180627887580492540088784039279856464964515527892734502001541003131905096271080962889523768982872651391408194511671959166631818853373127982279478096384186330812324934368273270884716848408230651068049840198996614184868219292371243226293284424830236101798391004269904077447991908376102111123960672507192997931365177067316450479862322551979702992566531510159660459669015088706888298252728640598951425047655646438613971390930202571945855825271392719811327758886955446292060520268767522136796682746877587452876077863449138269956348008254414413182534720494801421265432982967846686054377906133891020607653897467837990904198226428291713569800434724666969930157511495371520437403191810795486894324062290945862326245220966757449528566016465787368842465402656045769732900129583787420171151005742659749253328682586625702458378115218220127,
  75760787227875362544176785168184919799494976491000369349095508194502055638112249647967662496507858023271236894462286697963197153902499010991176720532965920102432741583664628510351940054145719071486388246944690382245688388500782441039250163597153748490569452456053125403791760331016534775001998649580583553661420716997411733105525404205521107731858104589461046273558070947146683528783522244243951951095964801933997282254412372911975335233397882005003209483077806628336460632466710018008706662889771576131803944530851778599796791617562364245799131874799529518736756020672433607862783164465504713334255774562203297058370652084614814618032795565723112891379150610787823672417063157427908602758268048328204825305959448653553053355736089436683787788779088357733165815665640463336311789655775538674513596547437928824432776177665299775378844321226267587896126638330684384900580057761373094604324573314159787616555372263016164233534510023746353682989424782425580648076643361805237741563140378933712699900811546084081424058692844640874238912457751936646699463735915844119317,
  79500858480652805204513861789723299109646117709762971698805474148640403588839279500405680966882682526783325875358351600505794585314848377702967618326360649136605647118508049163591118168057356862567675748362796259542314440842686944417808465459001098300832470127327673251862965281011987566742512371854719174196446109963814369225276487686524296433284880267104880448880155910644769829183364432563837983478922499242473473474925585572931518611034534137335672274625782767187551285229615719350186325172175999942277944125127694916659641176453311307678394358755701511268339788077823089327672921967390656501679098849598999718362018377246697916468158884004015083264133901702440286390700883106649068349767628800880971315772643341647052515364717730661392722405632571001397299899095593747730559636348560061598496125351831074504282805991011356152764613718732307405486443870951037623912931744139267996447473236182136331185858040699365837776065584149533283266028778546968943002292685310193430198737058717358218098006693891250766257084746595062899184683469499119620505628810062352434,
  502407512125659762183568345522576684049165251570758414614413289520970093068729022716370563859061059216969457351312296992925835675318834452109537570173563261816644245918307191732592805373518481830987229456262172540444189864039750384513606111006210718088689290538855653803212319776645007978808922913907197183215533766071468815888614665937080218118486409491244157801586964737239095958580311735493963934232398121883858322269062273043691547964773290362031023158462282118660828589608169094090006189644213461734468252143386306086410764913030963038606156122694775672705661641983226612829559405418526700993894418145266998151219653967190513843135365503213138068242451734889475925031241924841752557403818235113902616355370936864688471015259866820062966604332671588470284672528273675136369158934985721514957696957393793129333387868587015586438472121908813119471337087338232750005623992374477172103479216899958700150469805895623651885426829398566671272305833174739467989387917984475726396699725651509335049449623932989411838095115220273859361991620893155937352131938012702984,
  81882968245692466401589102452240833407352947237676601871908356625734394683547048362244546199371292199455216077052265379834751066676946325551156649491168070523052817308690882682380129412541814673058459343581273433407463471098101697337845113700036146661477797375667676221187825394236037065492372256647519270025082488886040622340981154511333422390177368411359915337237318467663405071568966819381035854807990739961345388882685756724350459189974006910447041116287865267920106161324719998448237152334997836375230143135132826955395290108649420581860439615905305825975400157347529974982723095387057721000539641886970487452897359156879270799441658104944268793902227820026173884246389592211392638749541141959433002708467142370681281377822984874389225801960673229557664622256072650083204373463689206974257310148877783281459700550621125297094395513482069706780920457890090055635993193030074671042570179184746799520164509853815101539696173545527780430626775794877109799136259366223493706483705981684191440900869283841758136960770262652637398421792751865585534001802494738842479,
  50763593696251658159800549011079707269532448861374349938844083661468592090201387462929729093845395689309155247032545649484834255843539275002683980891951243857147278892288180047279791059416493716641756765094433746540972890144063281301891438633928063344349424002602288104716999725533939570764107067895059052416329022129176157072028133796306498598823224267102982642645482279327154804587649921241321268182767230903475595793031158482489483014173171934310466356199829342266084524197727430008947575190644364250704011573813177948095995339269155798840054782895365239563674165729648804634630573673711721580999020989445373325540664924455565704797720791458123045061888066934773161154921352859808111096403564201032065031387832981444308563872065793894070562327958687446085284069806283901283199404031753698172910119302742164874460186196321594468453807557098722129647584261058043710144144891074881337667213835454142478713666653871820712848476170700280230771398620015232852846749805171600941770084830607816307406741291585704585798091435416092906134945970968892571056791005567529007,
  47504379946338211192119990091221539655631726332987359358386665001897021037681056553912581127425650365892142910191935677400796661271382307140818828418649325456700504789023579983462966520539034526722973679711222964757638427953370703079415632893117466348996286910518604722726888778758797953654811330971852577488362549950780896238311682394650511685470862613640217820445276226218509468771458466676588999479371028457027858288649455781921024708840980548840494289202758632513512032768369165509333757568774231103616106683832158080256433346454271722024956218060593586057783683982546182236449833541991908181754923962168710528049514224637589120113615979984380345538987436863794164300305130378895831279248454986839906586006407899335281278519409840167197297270699322133907184209551782475206802684636165397716512345743403044324661478177119961085537282430917112635195011915381033226170096078197922946035526018787669236212486362488512903544283973792325138955506401423913076654675381145244024706837652806414248720891345137963859994493516086771074601432747723851028474946663633461941,
  72301607736297628897725128300258084687726530151682029250873001346219923156538719904106055074193036339018444239787442338499826069676057020535368456464272727034894392366484590024597949473948604166711335717028120922680527815688335313264331759029946538574852184710972047718248056721561923131996627637828206706279778643822558087274035538875576372258299905067359154147149474372649839787057663311505334211612174534089654152155497746247888629118303526040368732822025070893530843523458081507195695889241260528757183964963055076628600911167261753007281738884588123735985372692992626426660021729769040932291664578008028615731050138340599605215180202337467493294109576913999967663852175374648850721464227683648609183197332363921592490390006967888121011297463583734052586878544570222146208736858727966414530176263354155887940590732122253946707378265467560810746496041804339579538721133064646799286122948571393385632976161785089115582766119790233799986635770474963796822399350957954508205505111893034779357024430352830442834702410590461224680811375399707428743435120724179827100,
  8293319137141928877140989863705462711361421706031603887715873410756266034626034693205757463632653061205961474109678643663281284892462172769906044003564831372701718432611076286907062962876782483372521816784952087018738888352668188068856155382102917938468812597592238717575687377663652172791829359888912481290484999654764459655545951531923019867342143962690524533746344986037179272054279681688929555879457553413146588128331024557479280502008666957169395778015341439067707468844437199722947314209624309846450531853965219060267110060566217145056523961676291582141003930733389291862567033371447241709240794482208195793496981155249255732540880883164819519948492518859797181791650718864975353694319576366026242617229242548005605957217481535593409253828324333447779423450894659468295480156164008840235503732349654987866217107668010625102744723405477738722823370632442234657130998335356361790451296645359207727938793927009546601461050918027326975551357136549094051709869143338343735386223956625316705081322123467368781442761854788305850058107851555678807693973242122087306,
  61826200908305041506079878672078008638748314710467962218043947575563099086244244382809070751636039213609739671934940819820051893084634184185137758694213859700251923572103523597814756562837006498935806194277478376736716568604401242535394254608374734622249608298272472402187537341510443884271408930329039663170598527274357572249198043964068936908330704606903363403761135669272008017206016525870166209246565318321783590348318466849633623177354463039337934892379583823380148352466207076888417756468257271713619148355289440361157962468253470999577854148164846673573561133803192065822135496782962945837948992590906571508585899240368777247095602252060304105945472235734307619920200387034244022234909496718095119479811812317662161328126574188879267178040238578005598529232561568824676516359048340588004483845823024199841762420397502821442033237813646956129181609088070522692744785023579437156142854961033099970139477214606174500788247541700679178188133730735538786796010124219243417398732897632280986762293745343728998117259300822232462437598540018372660873832647120725544,
  91306433644995100194782544525542561198544468963386192334108861190236636252006167177340726844487670870786339928851878574886890695595205756080655359723625548665768065997300269614499791386394913764334395117818656169724575011955527139876663310241993649615936734233367659351899510821050854558659024045243950149586570975168801772980081992225972528916152832643287133019120720262250559930210552005936427206720674365808195919838946862415075380275165662282604255844872369634231527370496473601247293747058235189463777287608586271395235999069223258703599107092753607717873127548150940351270138170794870400279463643368842771692401282640444753830021680605559739911153275674304250791689664936534610664903033926454798262450752752970355117029389549392605026116732805080636191135041503872255354805249503072592208321299167699393857896052191904022659329689320152805385584883267673657568583799428685543148848459878043199371078484089337419779080033863696659632700048007534107331302869582860135928766135088569413072689527062211944465709013500028507817008173296936069944780801165089977469,
  83832753354462231178900414244561256592361906713778221883099012620503871386374611075471382433334260661119112499604311974873003557846753855809319405365641438724087159307028002233620240342092669248410365413924603252815139106025806900867924694784641513774253049081133374859256590325210843787058369018030593385329700109696000874250448141845892598569653455698082723712762554004837927076410170208700067585244432577526457903618268036052623878996687562686845758711349482617027872642077405327791783966059302468053761252878362242163181476420476433345658692429156194617414792930326727453319879627590510582556439064127960599605162941055835770035365632428567139724330935998617848544097181817255447779140932095918405016499843861280737887188167547887565056631963197673047058648946240459492697664532851091987443373512156644888145132509782997998568283018302927181265875799749152594214260663844934761823669436130100077834745045443839405946382531641746962167963754039491521160083553404587300703416744768853863537241759119191257302962875769986698306028450551254255778130491965735370810,
  97538898051449828195851720963288792497596687858557626872836385771428233523466567958926948548919544874241952228540275810132725725884846046549518516222527214858969727263289515266100741919597178328836594559768570577262847855954488372407579162883631484906477914553487265755850111942264869962439109009594842195050118285457021898741034571838981790486364649082967773150836776997335515074170081220258053885245195363983453187617781231829233845161492018946787202174802452815919012422558651698747259021550762497491226737659456330761660211943484032397991440702488173434330292725710928657389894240649561810909797654985118424771133900728809299016301869411421261170343722496674766825988818337774891530013580023146024260472055275799319899409643161144298528316114869897317486423082626493416316845278016222869452176524878906995560991510960158794169103884595635966852936125991245729283769357494996000637454051029331252353719421156501331547537362809071428157731851185927633100144847811577305157277411636321762995559710643742787164040829830710463054191559937148153916125547811264374389,
  3974521207357576777750742115050829810085737523835183835753993320297598915782488050412070590464407322768848308743534512264547062694097544451369757257089150573023242573567272108516847067390111372101828058046032247916600738326914541593198292432543374648604963396534224817293832547511140375938437780558100267902359338479895865486078741941416884073043417349690424069174289582911338815739432277101561962477635519024021712746862782472197996762662900919176955643810538569264018591476166954319407769348965559060313034157909445519756029662487545487909111753269937093712638067225675146306074023344598314820578077855253816934364805356807945204538688872214580520228137165269820116250616572973797480750029723392190975012204947494170065939296729602873876719522255063086438503602286418437662400917471903283390839953674746861310109327545085370103248816456357548955860367991893611297876190835673731227482378182701853106426309613472487143605493189037702613329120207411857020396549233685908632729003478722237659894186318952339757526448262322846781474167839417587877928413411223019880,
  55483719196620859931129697830338865167585446227913405384476083942355534490331633000124757996527616852631945329309596273131467261926618198321945664800489127240421657304136383304222664897851556264565532197114472973260582132148615280100972768015104029896520206386068600459816142852374999120852093472923079773503015339059776478342890747487781517348157362688287288473096086418866453032947600753309358538027704926007328843294119520864829711317593752534438895881425554838517329528360113779153290113357598117475908082955904750657658456860498951986993050662506017097078329876063046816009521097297787513601863205458955781800595875717191172323509157871375153991255150526069594760593315763509091797733208336136807194551564074953303571884225636931711834397325160573650377473214535005635956382624749363822470583684752142607279199552510745513042443383364054939700333371348800299785946575449427651830341211197021029987336199117764793004764932649152190991777236255805271272577992841862212722025947295783642415695183890426186293194985023980882790182277086708707193539801835763828047,
  21762702614902491846340252361295645126001797544961312208728483738833193857402018908281767850298505262156335275083393941014555472125637636854640790946476538165508050017967373743140990894748416914300650811821039900941917142905544287434869177808284127163283349333738760189805192382363730219765007029919984095395364081929393544844337867252570777295959613871007157921472183707580415005441349860049290749969893790348810208279250693005742360174677126398250444798794775513836887538882077572120635319586500300839106544714907549279711557218460901553945733251863898128582468776959800827417655549925565263787184749887063291494390803074172603675896802548718373999961968293266122412170677133971378809252017026230147178208006391621359820529738550555820959403332647089156195552235663806264125747913463825374925991288014312614436201171810061047225858418500286341562115688441856620282727660065536243416531861727054704601829523329536489605733307453064730077394581740556221801029658695455429623213626808519358450025873573058666519561744637181113447756361029316422929997712848473992479,
  14997524697574616765240133398871189935029199507259403541776788784275863173386202123143312232454999521022646419170590206372156364870441042698336333313821695884831981209369368359190411493162347872763662759215456841070241740529792569429819149817406395271447869051184234337195592612319193757906211785809093205884794836305795612156010565182075216489529364750499783642596878804760925999701865361111313604844810434313726732714932517640677959128270418092840993021480957457866349377922712137553712549498364613219105479011950805481637782317553188054048344745682348295528213063830359546479755313386037131657640783340885935945737671967408625251809781817880369860116613883471299915377112383415452874048995646902826030068854276345189623573554618158222214071967866843102682655738115194937131618234925304365477918872773039577291667603598906829849792753264457930205625004198215817833679758324582016703344016375194361307936066877060596155074581873007405885541857077712937653954611123552017737452675365027712360102626371140850249375451997238811849720048529540760537575504863349851760,
  39343403658952960860734480553122955335688214567118057604758841942058349633845421653770202262887320328142627192419113469807153506236406048801061017613964306550666466714597747927512750131334659676463960699440570311860560878122806328967816576537275062967283576263974828384647295018917985604824919850079916092323997667196476783301263846508088042831110985025546612968618556503500123610685297435664465619849209211012663758311954624011266194893008382843865999999283333794876598213558839333097596539435168747702542038052033733823178938782825430477368592737723574788865668587360925686910563774468511315594786736516484921786038920469205739213739659762934266179938759886105571384739015869538001440033773942596352486926368960908705395262510961272908873767982224107476784882990262592141720651354432719916459983330333820509702367037918912977711390002179646455681701380894182584629598768936359243937980370126043700019545375320947585656686261869137769323655538553373664018114260401171263453205372512446880839250455380642547662809345060391086151194883142464773935945361134626325397,
  90305310615515404757043183580698889116850882783575406260470081334894277564198811046150339108196697436038560732670871560877665885891060896072087471582697016905626687199268158483351741024109506049761333221030468320093162948196664178664108925963354038629241301524764041519532761824707235278977276957745431491457204054179953185788374981085050571576711105815852167055220110024031214717157984645854332489073410987610992956496761565447188062442849337194222747404498379859647558413348941074260833361521207750192980151294656720842115507638816459889661764643697603289243245105302982505122426807037312128083935122022554084151320294799980575137686493365567616784994713349269562577390784837182482831556792981972877868629036310560685800990722240215387661471364480196561481124538862716542334288756197979204855730192999750041758818622035508435269374224183477542357560534672554956154189883817856029267690850613136595288039173555602456879717723106032174576049759502322562941963790630937955810449095876213591677865829539303065765309230704398675706257606714270638526055475959525321304,
  78006326107107680832162100145794640977692680069139071937272531922852627428957389504137685477459296033592272625266668352170703189496282724565284582414254606303728040777479798854129463539799924647469133552433723183045353848908080893152518135768485272858917328591746450365612006882947050320471690415376867800192930506366957785508855054236989012229808779126706105235629735806022201829431580735552190937586577473626473699288881279782933393499869773523241375993155463631192982070653727478607258997312069306272104015723943842608756039326387063929022190308589098777220198559385372688147932288292236982590464309339788165229985971114388791916811255637498313161109319061156325528926120586515985149397612705562408767671406059062759367897286320465589407531927159129511701844375575853523697820603460308111408561622204290428905287093487193875366819942119678716034475116563217044041605351341390173136689463887385553138636824336997598597061645706267041304591264372849891483568904556090934810115809231807301845998408799090461574931098614313315919784060635683188419505707596210326850,
  84075395110460713677431506318655681175045684291098593609486346869593672277580773060728837988142468100342685874419533203422259222591131568718551298843839977181848177575276528687274786799756095598144332697980232246925174800848043735402673868444648250945683719869661983308898587835257932328100478498000016592407290314660281505647241103452031576527657717145051080460305129759639033690487822708390133104005385149373537497295161348972263979021198896344486620188190295769295043464723057845265200580679906453900495542748739603331115133434232393928153928575524189254275336899367076736032707695340715397783176932998580029024738091222270247003014973214830993493324188082111825695862329465185756368975416357468959866026651728710637317821154407328308409582293717686280368564515915257032902756903685712988312781187473459607417310097884731562838649486193104350166181226630376959372676458853838094304945302303026801421097550250389072148424600933987543991538384213775459724640986873792660279416620470866328438766273660878272150035989277651707445477065383961960283431028523840913387,
  23785639795368257883705830489472663481348213171908883396336724123153639729520379956140542026523557331822605360301516107672701613667753472021089952406019019073107167115721315313139910873460499485588793055573290748667569249917791477776275257215331530591915437576402085562431149445372545956809702564757642444230904740701449387200931485566126738641899425494931363104759618933034909499307284324090098660429647764160636212894769517265674169221041267919762026291755853059616058835981509438139888155464739539002210859787185924059647802767889239242804773232416801150880994290751300672861497273785041600155380972786910116538163760299560019987567710528743417964863494875902284345081024845232428506194564649282883380246745314360076653939325316906934715341110259091559509809996077710819240434008174019090499522416945936708415512633504468374235408291264653803549416953846871915947864482169071971882790453741758978656539635436417496421138332391272660853829567746264220437486137508696560381441154467817463182415780125489762580240567221816519025525646655104178403139931552734970128,
  27464078379677343103957500116764350123239218721736939561572561209629465861258179225997122936015604832529324660590007467538289113588769660502304327546441577272041355353431069230209904095882802842492545660922550473678663353597767011475477937895122163950391748837006069208321431310565114032165914971605450331526087562443039751201627044475665497445082910844914275328651257884320143371916195074243458542671276811026007996977327310910874040713888398593020568547705681283700324106099488089120372337515691677129447677010573628517526922673867332490411057618836343343739931740573619353690777058069918700110387550682586512339634192984733096678757320329048370056903353621683728691586822484931645864130995561280761354315839479796503645798442252939980325213460972862269536267247076289971779632763346141120704154148305304401967545816235986063466572733057403342467568253998855700384203956509771995410026837628297511970715692877805882319026171014758008973737834649921004305707615859532250733610872957027150743122979203137211031512057869458182420174183205651511753381284579981732961,
  30009722859113082820909053314760119678185038367530347047000578748360997590909129630344182765505119842942611742125017453108837615277210320916233088335710208577216259509925298643641820689439656908564775124318290301835339510911467513718534246305851770744343216131691304544562072955779149889048547850294942518699230156420482367299678208543277081713993729713647285516236910280943949049809571114798735326336108615449092136210719578627182658984645459587009069249248820523435112868738626912529335695565624401533344756716240947811826571155954756699368423562499979227723332856784786245269498130382957671588368253903484616714968014138599194055597917917858281975784812372478022962734271327380701712131593454022544168614641620641854955622017580271717419329604030724285575914037487524125583648684782653057902112930150460093009791132893911020928422212628874397239879299987221712680244269570436408269175123947288580976631735219034774020783010825008230686748165992916214204378559690700839634317491570400704911133097023046876615857483135080144475992852020727860406246909862458183710,
  56631825492066663392868941642231681397853741745589835502398141347627568661622118636756113454018506123014505064146476620025479372737016911509105700588058385528775155356834613555088814313744985636377736943347307792236920232819512601988334853193084139129692103451156646155817184516091865304897119538011024852574989315864723399926745372521914878779978880756267375063872378056469764352686130677476116156403088981072299006136202913855386468368424583544342072490652694313192636306455791910328174622465230508681145392237903469993576181922838411783111273426609317171605472302748587000104786605983536876204234909356314679354437007086760444160809343038896416912293846293502166110021076164054661453282613302509899295539192759629946278263263211656587431955173359427872479954828722781079314977711035342554381663505021820047559845719470764296782715877268483623611180659244515952829152301818089716722717634965228375068073131741445335093301055862157197336759105167204885674541572816321725939792701826776592787907269759586524444798627848766953949146101776057760360711075086603455755,
  57129623454066377584487731406580502181444145701216138894429425430127261439960397515488096841753887787099771053156896057795536359670078069985650119553616995819109185333740366199906618677458653659378289515861921683583853720551718196699002906225244297196477607657921208349979814831084253380066460564654628441059597587010538378376695134144117115765801529197239328318237419072418270556211429248125950086219348254518565539701258406477745909416107789844866798787983603594306705082646985065096507142428798416650133033647595971329458356905875969705836598402375264559514284152743093476002848059737445115482304008577453819441423549187838092922978318441402238443611232216885056243354185884325115447206432849620845632811941082705883189354288454365054845356330088426685693563642890202766923084866336118299142987263879880682998086123949763295104635913382691252518794669450894153964933273454972994489836299473991754744164719717317798726839436024010521661014981526554162540385451779521584002495879879741049524800475355816454411607964967437476718422118358157376737048968165761864668,
  44739957457386389528495665189574478665977781950752258882987024789009640653185204742376952389335501218478599660074089650383859514701804072345776878385607580956164533921688489754259830599175376101323206354325344240488600003090822619003730634184868861438763736494178874012048260950512759863390509770242472529801758826392293870793673252211167057926441409085437401485304590250371696374774586071914054256943815611701443788844188830915922927192035841298716228668505324603894356500230734167083751864595368025275824052092374467657335127060160117034908068222327234121408469596673325161565758066590243101303206411537511687407756787406035925878861719736349367711142654304847081133303231866339855094943143974804840787647767832770534880159671410169844356697808454878051823199575640739788317702711356439242044520333007609764367969990040958549556201313584805875374947256934033090917283239418369219324915186872354773939212756117946640185118001380750102777217130642042532655536114323907882035094537707508434889230102069364851728497612938332579316328040240236622477073584885055861960,
  21481895075688961464986471085846445373294965523337264188383262127117827240693226571570786417557289614533829164489186520495527295263300281049823109857339430816022566981711150564218030749436110781361389682204877365185667020919787109427227650347063385085500842117094040508256992457562828262781375133270805294552322160845405765437854007179908127688366953749752286406714615345649011269387426711403621513820477587549428565722785336658487290869174951010237587497660723016951857365090579491818691542049514818950633136723233600179192443975940164167719835945106934272172934837133152708252285878147644954066168266066328173859064681708480980195630954019100230303837721074832278139011682082582389277936139561206216213391578640790409627777430623945887116813593241244337109448308742299489657270496966891909767872956785683749182662280759470730876390942917918464672898935038166571603238341300482214907355731011475604391076423070499714171792722498893625118537718445653611243536680334158347109999781275045931072949201640040438736891084890000220658968949509883554543303448063469068362,
  64269262252604805038222965665856445463817257872024223930603167450160539775516554246030743256914538414066770009334817262533785783695496880181971420758304790250454493294344080654706966709208196687180957451822379033311686660106588546461622251368075580728178399049938203254035222214791278735733792405058170479343611160465752035096499203009430633851515570103965436156004250209175408368025107569627240540070613073914839978215497526962006777174612537517747408077042146949807246566921031380365590139144631933785249560765128958847039568360052405603773226648488976759864722223687045726002513146533027894907366831754285279304364168449130901482297794441453977670005047645453944199744253400902206497079506577866762562579041678795171932282160484279042228145745555525850110505111853205128248170449340850065111058596796611348054315799010027116370414625588451469531501613765309863467935139830644217212539142104848401806995555589338646984470972207292044160017446457448578988521913325497133025482098021992094686705513088504112321598940306060776407088621530225283963061061498449297470,
  45128120643925095268393316301653540689292805651871572657874119402174780917279954187411811373735348232049240285444372854241447866735317203972840999210753385213768521899202754763751550880323820345141044903368786105511397455564453441335280589331495072415453650425368635876511464557763852861842225003735443386084194572025780836246705161354412193605212492654785579790112658159199332255421473361025220356400358279085755073052788354315946741793742649740740947948944779573166096230217323972884026016215508990745102462967183685916037890598163574392667278295029918179570280686365101245445154413181429654184524519788730520200288020433895520952126242506820736251646482968883150509597010002264372135348785826025335789842849926425984938269865559157455227722304478367004512926203259072844700707182646394299397105796504924027215130909020163225789293646620690791141890917095548585817099969398458241888623043463864685370946920190866442500142370490706054794401636362244842049461414540733407720561367537799471743464186961441635564294715919709591245729889392338150010412294395852881242,
  90316381893911829364047567480132005483777642241308322733790168055134561187865263787390846029832484496777676526714460909842724092219442087290507772474227128491998627528840954536122442608122367302636241666463676956582340509347865011435452230172110431829674611812712477267475584183473918296468924243908358983041077861222164667413927458084410934467091407688908115480426990464476617903706913186431644872934811624753142709479512183711895430801606136867423308652068568392614804784456647494574832329837112783484945756818482357381296729860250944563100213870768049043011088410435606595632913551363659537905774508634658418379378550213855073066062032361892026534379655424091388667805176486602355686801024443819982174081868308063265793445013660695883116352765901963710912216830217994317817811597562569334811817590163704539548800254386919502939484296333878802324540268683115920771472660964081472974256413523770713265586567292609352131356326973863345139232379491272741604407165332837276663606992078289885158189007406817883560033839550249105442191369494384025928975768041647987388,
  75441907101007388250260025052937157120598821799751905251548135128926507035031295388797395196807146312979739398855224067710747813296611251424440942546205865605638648411769737650932223200581373898885989302233630809521934265228150675306773116834992003074978449533317392356287724988901104982913538099432346738706479293918382984736509174159934422418013609070218537683948237197255148813881635282508237808756177303718593310237690155181489566802645106695566763562703316375504282184693552607931286771716300815229705250139944041110995237587821689870722832415540437859493648816597106019417011177530819779600610206107580954184382263771744158930893440245480776358985983864600448191306329182121252200728063408905627313615628251425972911690969621167408247163145189174736006959669914230808783383786865901598670223214286915701414248070458972191054200479042072618389456591675766243374816523343101319777787506264814478962379685449183339325445226328238983995521435086472399882461823467833341203496969634652310297098007031272981130029874875884515562844310131560990894615878405840038361,
  45430627502838434516836793994311551940672336880332618381301906515931686201918396364388118286970411649458769422113657698149517318604394476819223940067014551279282540565303246423524190837891152091652075345011477513376176131603034635001583043241198303450459731115480235291472675565285396154982517322187028118914755821925109751881474996270183201238664665544709627032211967352066825688348737596450725120796914516873963998729508929286150574509391835248986417115156337107720704371942989785258541065122020872198511520119682006685154950907756992161931680576122550841079956447357236211513844260591187852361111576674624616760589490884732188251188189165372941301847563650836229040968772707590630759517373446538123581672056998615449337441355115808285999797250700054256958448290421570329632969541837206112532778185078243532391872673797539010604218982133356800149176292763589739749151033610294485487554126594588308262730872974158135998785058970815642932415956520572243886015842078104750426281129044255263505482966134319834755788519322226718693036456672710264959940051166308663731,
  72740445456949737487485211033177549364625380611334474310806832630846622039370773105244279995137450193526614235225514186805510400502143876778592990110859251867499131314500087258371166936982497699408416160624284063083328979971618705057651962404924316599951518966497547503900114739890318968783264557847453725180452235972687766876242850753816616792488000823409032034807146522890222308061496574270447722125026619237142356260929122601825058373181197103907517533857713780776213177245287947915831714843227314735068371778815798520230352800599998697766693700822670880420433042717610360443602119574053183239775082537624353359925874480669523131409508267297420082719591871616960153406545781475710124329470340498901172403145627070070858913555130659474830501092675331050476766851006872795324432368964938724349140188685802176697065515885025617415207031509272651458735885771669074118956676294168134057842406773388665298433582820992092796000256053731611957486517297171140435836830233310269244755634963018267857351110563974947335708175806329870766803421309668272612847950604361526544,
  21703635540658329019547411263216179414368623878244681088510060879820657196947315316887276558292548410060026288708470726414636981454676023069064848000195089152920883475200294833011835707147486046003231803664663011378346148102080104082416246439862858027535254054148117877257844982440121535808832631115767938834439941674255267181270687048579050017001882766115402598966456382269528408612570000031201513414621462743588188113752159623550909618693482530381968085084967571308026522100175445215043882446963539135452229483822752193978161006308157139473475716433100288572011561747191922667719543692831282660439606992546372196029142537779739831674438120809721881883123622660338707532678942538559169182977283327312615508417484951235989157986019310463020408836581232828339328287752748597870536473295156141142985324610343025553130194964301167037928656376695698547963744374046951440475248627476738025589674084963027253885817383209577772704426596764502346241958872573593386155268081204775136402786059671489936812371201186212349054817129245481543023804103650148753567454311180060450,
  4261307876822158851442673029620840482261369497426208176099993500334461976884187903041595951539264111965464774820849603536188945761220485718626461432327497191880858417216502492556122848670444079452809182539144469876181366331943960646378224508161381778729282783976485911046345562271722217817692297411538678621460572420158898217549455474948636317672274364708980215462007325013023705721216266625220053039613516788310130085680167987713860080874414496085961030410411974853698311136710708247974741971708082430169166617707713127633313638154531589133752541683984084786431775066750394884663677721467921121853612236316721888038066106985937023790963186922402591191463458461497417121925501992547479600484600633459818646080115937447037316631953518908792056481072811877724020397440246021297391101349926966489897822336465536512949732934154340689469433738182663778605034749343327029083756180110549346901793394287399056637969763478106955289619876461898507220863458747577535586844687233572491790476548077510392373639618546675333495970891747050103139694380902363404579903070724852963,
  28514308887866880742498163585636339314194762523066152520565896307037142091574467866737683351558224442263717555290549395328823666896153326331493583928128224584932540555941071950713799703563742340097316130986462139379530870947165361256508033157850445730000941413946001474525441403816920993360411596583800506303682545663080628250094880200341800214558417554634801876535677644115164771043843669008537061169050325303146835437133581809292400768050958188888031319229966049866511923553334427159951307690820852662967740310259473022591776820132591077731585784477312075886450933987756187266253938362357576251588056203092312138665780721626116181270037560534462263494983862525666524229234436513969720823782599576261080998493754227356751224109232447930724282802917623537533863708763873518155274821112448002459124640511151114996644626198433900579254635394962288892436232521864025248104905959554083650286893574890542000912533867434313407342265195998144887626448318552732774941228785613062258218781200116285735213380860436525201235079083015059632454682818922475989132871694359851422,
  67573258150924982124899051846590727823763964923211904205643849172556431873441622962006044719016116127860806915970507233831799024001062116474775843902375746789131695701182264621770289457119136412685871868635824932717465627067280751367431597507565774758376406338044944820668352178332133327896776383657446746201728839572367211098154016213270068168740231366194833250104464856464603641253174133332379607567293733052122974579333525661685589200437596251342030638342943060971584740953801974115495300102821650559592594591948533482273271554448735213653447294239495596453047880531794558629341890107779349027602218084991851412571653165137450875031401466774251976476204616693113326045387896451657290843861519443114016151423070224716393990100437906864103416236790741850646376825660389550334773489673113343136294285431488760312473133541967098000845264274014209763136958762258591009311129973793600135533529207482985367204276126984764006676698661053455207287218738180679105816290748701076736965216687344878743827719973271864925542480668423833027410696091855007115354892417444079433,
  70423182545606838670242052339330580317306477885933229299655466216870571281806631581075969880379541902867105158968218399861722645652372721592127269985616688430859683960287171538526694147931732893545844953150218593008668911797136649492410539530174013607858891547134085003976803645381111572086129563947096455742708238731268749887309705900533731834616896934170930000086168027800589567415228443663002296526507013856265684358886297585892712289731225045019397539880195992958594667444885279234641037247334135338390259480773955176406741476465801453303755125878391520600273054598058280083415867508782021829802912417977315235385770640677116684521336866501090644399184664729143841522843559577805241786922134390262097035903035025270328397986765487111297164150657689153935090940421630029212623423471285210839542166491175188768489016016350794990872514594428409076951969961803771282792923306313946321509657936648852867185365898542823240463873382817848153020920308831569726734392558336432163206608988845807113627763999664957064813332430080443070692281796296832861316394983415817887,
  14262196654990514044999490513227583290203973389028542575136640742837719838951375846035685933196763654229787959796756828399831018152542366659857278588886806485189459707162034673703516804567897410832102068776915310505668766877329334920023893505744369544516023429794578060306718931576795190895808112827048686785651794949425317989898545584635110166292415067016117622197572925577322229957957026951427313412587036021325937476429476772338553939496080349432963081459079933815943114610237436482609052748926091149978175992425233969728695252416687315009238204121285426136163532491366251378662874417287369277732668533899905091442880593169617682577285592777855488912248808866962902222009071053198672733203501256083276186546860690046121765511410345328312712044352295100167947903133505342535567838691922343124905213327943612569046803304540642593143348598935298788225495318574248810376413754148449982952274890279695089814986469076164438957523435665064979825941525032426325529441165969405598958665076121533992974864105280830988791971237287616972907302953015863380954319401820266910,
  46931393035266362835832196293419502205582156281151008278370219142231861577528944307401251206982236257041351162127934474793737507085853449040251894677691474206491390247315240473922375703568331255397444736369775913101672485564252270498558713299184758438211851524915321086608709389477465558909768150090915524531843711016797043942272006065934727864923765594695847171642902578632718343604387060615267993199251780719606018199788961891441329681532735536565531782787898770454849256568315404843368663589348279115378499601462943301785359189222687135602115638066888736024524286151770771110671285143971739462566840777072585891951865720028302687827488064624862580451433334454133086163786823325729625795380067350910605339652325575968241504827951961974945905100821796236567014770564590274789801810063095188896213790376936533729872681282088478870106308255415850421334101495828542771806949463381388168245190344480504922435510003314142920894225768313480195104195395648342838316899469970689361239529933647736059673795630161780318422618261992081634867619660275866447118087603253007087,
  45350853575490894833166708013253482497118067652281580236070823339041428117022941352536003306330261124551686492275338976533327508837308735465914111897983419770812110908047137442356324199743619581423276740560044467491569494557871493554792225417642982230757366515960393956787295208307621299572905646333279790560873601966838068415216005340982287176820543030494829640714377958967789178526513442090147965699695860332176102839832232524209091874975695282502362444942356873501034701874199053002938096986090876149456728711268068719599242400646532771157004612346955067259630156672290905445568896694903638197937468465866534067955971944629775631645824343862403793489804730057570983951582161392144404188942268166553489541432820615539268199333813234143139879087206556441176100519791030792115944641248229869540395866978962963602248076632631118560938170907553225965817149254580950048642819307237586533109347410268460883510176552329792792588642969057722571390829119090719641708538459454433599189629618258137957661952533777093959309375586959791505854695906008160034355707922057284184,
  85855996164771561906337685043293655454747429793082284034010421477940049481806545729224483426104801520489332597893682357594775848939079653986132009777388783890023066496506731865265056828395821962580338070209708988714146215856544262375254313938425321275734074533191162955171187913699270353917235081499866237794428418843345714929271033322663099327159181177798427378975014789433268497205154307237560639987729616687253234709907174640540240739876530764999282725555733397102244685228197440635674154423398952240404254833976955371473159903911519958160949598512103745365994424396455866218951207314020177355678185319574500159138619106408997869328313648390096137571062723478005228242118426427552831612858697601566046431833533610397233746019991538893157302858826916092049488454130092262588377714048796551601554359374511078984718088470096060778907622069368407378496336096342509584708257256336812670064291029822279991576193941230501066561932438529131227088307156747196820218627201948474469147750995873774866029631262112393626268432315339171935691378989196606671277097343228082519,
  84750619540620344933307037842679837994177188238477857304923986255856611633528615279571343531452481039163835170550778772229762397920840708871158662399192331933649557410994937541006679688014265020731066633219037296882469804080705418631788519380478271412256541799994252084728832820347685848972552574718194114111004174156679999964197532840324093311906319210471346702337851518168229866134384617955922289227272479295126971190232496391380440439957405009271208186132542943749468080349527402878663862439341710885765745650985947669489218450064054656300785760186337903961142713096570463860917634603875681169616742477001757012096224159952976060385348857001481403137001128029694543163723511250880211913858542622105689948995183018091417190615926369347364953071541759066678807228201488291988205155707763583295672191122035770424951685061882953088988913377428009260557482311908831910313193929933455923134282290824495258005239231203546840959181180376700411041242952060041674976055582275384027855722899442909707922037347988086735001702235402887074872415687791506214652489173325524770,
  18448633360423791742749855343362819513765938627640328174263624814720096570576172733932197137016249943760722325613278742493777785892693303359640162133441364984027113913384274707577695437786011756649108619427071829174412426544459813637859434402043228658975463864348272914836757909061246208432343903919234433434967727735561114213200143944432273203813690857297957363267447789438657748903859180992598862969779258913747052857795461303205433036775220335508550526418524683519492934683524328602941689945753283821030700597142644539014090180299182333664744077884707202162306238560559758221344837729629959883211943413369458344614783596937028326827141048481452882905261664032814940818402437682798083149452046334013147931875223737780641449565756210605303373736314667499714281990742397055859815350366620904650584483582903706278821795170109549763960329104655406069264586302126874027033337628709008636077571723127591619507653913377632919582215602395743429344688712980846121802689710424341709083309910985888888352540859422769177682881207561794396901190756634524170061632008101418475,
  33290811300309310975867707303631842545293345309766615291752366323656474216904228061697515605333059925079176825022364645999570337747610841475018859988302655204068322532391058724489413214920420150763661972890004060592720424962760719992999765156898504788208519098035733115741544655500524131490124398995076737791147971421276661555365700029980643522358559463340291519655744773725774525517368467724114822876372680019635844862426037986498657582130805125486775367180449618700159104473879342430418785461787045785436649442843850304116481926667184975252670736583993025400618865946300442593498642188736746677914010289921935190341984732576022585319484839338206114648070364899786708653140531734815143246518534005640853019289907636016009140767076874864987866144724164384262549228598167910812920521882291519447434704103619261982249688650183287881228655261494487243355986406705534886676421607699601535508232824182707156181963143431092962804052569380172100643874560935856366533754096152099368441090064234555949678992586527173749829803717638644155408339933247328130954900909116944267,
  64709960605136670340174411830366225048991020282241044980053063939224651764328196320044478643107106451818292490155470746630136658502775050796766694470923111695074284579269198646547968976985744247120250261993627690491868938537969774824130205607630433892247367574753831471341754678297496244770665409381981829405339527866772898388482829911423927736324571601437337526304802632494216545565767197675193472054649944251600989150852653750800251075605432655377272342230719696794527224661597386602174168903912272254713382591553228452515226694697281730317552536710851911358876542544357904129824103543174423276434327137065420996321570636406096871384524624566335269130122078920780385412037602063411955394534694669493091620795819911659307574198269298778666503659082585310210717015018441367529138484739081922356470866562195031986519855569037476710947140876135315487181593027818838207813940008699996704517400589029294720495124668073909517224305516930104803827814754464193770269424932724336812520246015715348610440607590563320374178837147535214395727778827463861841608721343254982369,
  483738218263840092510215599762824924148323911002469278925362538480776998752416827751579814453455921809123520162309235618726203561806371374370501246256812488635116226947566896813619087391386116827810422466418488137749163775823530717510933636515920783202850748781773294567957228802702925330393035629609655090811123459904500640983146260011339766003729813388131614498624607384004103873895233467701560476564767743753091353036027730649485481818157985558458713627831537680464822152484180500243604859204248195328836784036387899563193321631831778397529919375524219659608965065537394044608982289650830886050908902496512647211910969229403866059091378266635979448407832676362544382973826316123851271358831895110725809941985723942638965905949827824178092350475995807282287983383670661002041595376456908759360820905304646456054983510903778477908765197460005749378268569622689236564736896640023761421391404088530228530142292402293423918474607289182440158403161965703700511650374832836121305179276792029495844961075787312193123627924907087747049402772076686395128995958103791825,
  55275737019903563985512824029479351343047014985331634148827241470870511372210732637816770795704244352542402658784910323099442185047657104762926221526379911773502945540414719797361893916413646795825081052536221009567308707059953511023282255406880818424246132905503411246368206259564429291757401920097057467517837870949738346200035152023509658220513234951881288097417013828007277492706073842957867654565122328069601873592793842250298239452654566153768909500376120416256518301073537003907029150204753714277894368805917320302711857789917666634257164269537166959331831417686469920393292873147806545499610556358587858035598893825325627842779752774869590582901784353170386419677914076504812980943838768811633599534749783496325840425665564883523023097152638961085263284139935517370055701579243314557133926350649126910328745743368016847088321019831805725899635641749947999141176464087830985873887601262243929152513512743163114240916595798544231194074263914199573700819368632439542888918921590733557117772516588695449446490515695732422360494291061139881878797814569230082568,
  16350893376885360878491509761407672722017652632700630404298829853236041000240401829907150582095348667865854914752310391765304392444451966513425148588659357253061878933173290841634035522164741041543526137582181818791279065282108056644581700818846212095327641882361937393715845416545004613763475572691672524761025578021119822121916167692479946814851022110835468697760470650797023269791794466405825458784123513783915987868576580174717357584005545002169915662489343277570531623439857465121125566976159579416550043092783958064367856201761093695343227442032372778292126410727927331538805426571871952314614760851241207116214537070523460987352852535263985551737598862152283252706233171771057646834420711218489697162632921249061416662418876041786839653352081340399319997458485163686764908868591045268078730621605021495859193782271492653332286096853650503986140379957839323592680910778905485558610885924282242259277447736511781827001981388531607305680336579676271784577742916999791936962962907299726810304970969706175036178487280491571455323402489700865182505718413909708998,
  14432108632743076295346483010602917603173983162988558076971443395677290152947924948925730531036288092988571097742034339038942417749608496785311587575244607210626352217999579448328249649817968808777035604906974060975581511209516205013277091078039134611475100496986771957804672823682217588508555121873788238435502397135356476753128488751114558439441307561669080219404705402509256163887305799593571007095421524240238973866144984302696436156975938350358000865252066344823250934289128159468246881311076706480727153921338085490889321744630597885811274425344881319621755074539046922922607786828636587515668094475047862672273570769537148972648601362808015084422632659722114711872171544581877426158697079388695592310355347744844271027727918126541939125547604844318093436796646334042828332733741850629865499460012090566860910949503520844183899163403069633435199713722340451018393656283949057157411991738814206864491885648968163335519506600092884333252480673558417133749617150550934263718940232530354259938439418771874208814554354356164303489103148152057658869444782706449109,
  95335212843251910491246905432173805106794185988054401289425123258990996231232405387739821014464058496559741586595232058144988525103769306549748931350603293607448181499898201118274927781520113240464303834000930223108054725959755121674670665922944438571075829356865159801179019948045358247172345030176398914902214494890216019868415175873791916826610983857384537652804189009337550323487675887576583508168084898048899461346384675835827589450046648026022470795960731123470870190122939638421992508876853711199854331293724294847578836115174083358437533109066594270132580329543981526920681054804215521024796511454543319711530574099549378383693200170656410239939685203415131733092513860829839610344837564348547094563741106045616668328026369760559410786005301485403212528253223272517323249355788226593959508373340095059845300844861549376083077293236978053902069489843652286792858078158108085806495326331730564681609178514712540008807225793713598591960203211769851661813820572666448797145605056476417427368418914506734245675641604829030981897917595674479970441848154395604702,
  33784356812676177157987374873165244588210016410619287671529519773096125795040132799512512304460717376533044348897583775022006741467780169732280054567344994253724138458236775963995722855459307838519140395047441361758910074146226819297696949886128652985517880249933196635638248382941924743192355842676350731985803030153430748618243783252279335799383568537811327556538647300247674306723758445557066433223967058378975019401109845845303120397416081495286336512248395115142651395213619949280477614567228484431285659615449731382785953307673696014941586370703621756586701043035869611457917148344582054822959711665470211362772824935407946290706014037201690357789239932630327260725450600403646050283809296100760006762109358216154880968279818045908769907558279711149674858710365979817790055992046199210862188333938643676754535782363369890881619356421821095595110093983753747755465860778655943306224849127897875450813558000955361863224778945578216728582156558348574169205578223436150325355191306945196005289498694046865586452883932391961240439959477905755435190582258127024682,
  57321602699353123762173162563897324757116285960699970829394959814645468124291192894493216757893635877523658708312626129768952214037121333371373636570097496111467954738940216254866841463524981486568437129932566103690320984324524436374578928327453254010137873546087085784915339133018487965021588810929903714350114962119197243727036331890117992931009198972066058919499183852698678005809392309173781954298508516846681299233425946670761777675588620801261412614640886156063703867564612888143788618168840692105737310071471275560282552384610494287319949838014192749437510069479060959762757040742560527920403735132256437205320096902712617878841958243923433165252466820942546627297934824209502732777029535981564982473381806163938715477491975350493217917432066843409206201758084778305188754961244239520118964907047660186063573332139879373467391490808812351345513774071558682223545588457544686343337754031387130262607146224011717060240106522549119864684309641572194492446028281732525366703537230042424986606480531127501954356523225687382635156061797817749036314750495732032582,
  72282087901580037039472207847114408535302162674050665051256166950057399083273250689952126975261606027252472836652446769954693569475947257566855811894258537772576809839768588064964418575387172908716236658429546000645728360531387581386362944104313462995374182776271853061591934261217713201031002114525657669028709745553310907385811128955140392716687522479984987499178502589268902148245957825905186445482530867096054152463916486748199695691963759719630398096105803354613278943598184350869745259200054859003037296168307195762268543536417311817450957993316477690774640274025905255388091862936860458673952113310468554748440381710725066369101455731473828250535705756613939175526069518689649250344686647491465261560855050379139420298199422219947354382317832230368471373302474855942982638040651298489197127731269793994244683681397971930894515313010228207176024113229639122806181570953761845202287863361784261035310734175920397829165437023953430922591085010805655918772527775548002700192946141441537672275682553321417372014074713478844343631675916143872255943304949771961233,
  84222661604896439624205326779704143080241164011968089101092063429038027925515696795324416192834866410838286054415369964365931969137777870059360304820229130265145922961345580297182724384196876724370844926367550705633405026837199449354732652656320662743808369958263351676070823549529856158343311952439229700398791067526831494422487587059711975013571688080770880163857843277818151302778683116858919461143010895892183928971335941392888564885450916372593983597420767157074607149752460598639896695746231577768604879720148035767956484589821970288761612319470132095592421448835550576272323443484264260117532230618223035658508047011011899193252571720549962926641297735042850437026228972358528162675637896302038984743559480612173873906685354384530392931298819388330411834237783614780597575058406622541336293357809319478196639297423503908480593200697899176788339686913197482588647470862799713132561371727308165334061394625685505907275458645068646565277682555342972140883383727882010289029324031324210200261063566424436966120830417686932201048993451559732117466300908671200835,
  57242052922510628503029406692705805044006818192273514256346584354811095932073401274969490002544720797360379164669703195033832848355167676058310365452708576554980028239478223137188703965216420784140386320050168755928924424891643210796200313711074626069359189558182399883659153109700423581742946007359612474329057210929097629241041065662092350379244313926890303062203407870584752136844349814006643996828177728832830680829674748510726842285639503119239679399702278280832904039187942701256403173198670548090381729010938267703276181873338233299287354251791214674169684443841609957921734925475411516955036329294606721879838177984886836278290997984302172041753625222996727432571630803326267942700883466799312372277892804907269063435938633448273734946871808806945088824068997261658713437518740712443535899935749505763910550260234884831930109776287518455556142797284284876039387213049090254184884269775140116269376139550458568990473003987622256956952852270270070700223631278275647209189072366145338315064508660157166725030442531345730761424825299347355082009481110740264270,
  32879613545589972387692438810975970444457279722559558214831857922116838192022376660147053550332990566389961139502003559003953143148531999733956110064596295558214961621580455163249615249846254913386661556613057471073066064947612592513473986724042947052713945870057114461774359248919999779853985891554580117570754584198570746444171573528708831815566490671161372052484212406756883333463263093946744059153928124346865274150763671083329467993079601213226236297192288906112943956865890674688582258888398916501883553307523319815790355358685515578206546821833215907429103474695675663392485415223645371500388621789026343137853026622744881799998738533234152500505075994452916010384924296473792314485199676400312042619311018390010745597693245743996519682211157017225000078018520076909279952748195722352249009245510210083294350604709038217623401235278483873772731431981235331216735074162478419546325344615208289122378046922908509386280752677373364891675275108867186907485731511798719112758973717212220069790268627015397703337623539168573023532778080515008525981753295550807877,
  88667281565096669161583911272169869938875911268864848545345289838450017200753178809612734774403004524167503239303836706170710130550438058717306756683353374537830368559993775908695130621846552857923593391741917120541796998725613245326657739756970932170562193800461482857499893752316435134747073658820981060577886541651473248981787009463013850792559222607297152262038819437484391431059409599258433446565768173968932611045987010037275435251163774416122729999410186195660514215969412063551314485971954528608097486825487452445903626047313806483937973446818662497007215547106019350023864838934375622763501279258494173264366237202327855359419493045001115249370114763463415754264095574739430694456354236208121224117637357697086777635930193563836444028893630507833322803667474394324865707989508525087274183268352719951577926527198763749979076208438946347212620360783081738142804787855497828978622747244177003016325501339705372417682815323516176906921997025569996205464243726535775472510240312994355386459483147019494015602668494303183783693655466186656625470825860748948397,
  28251558916038553495064513847442211882756298620633135692134350535417532546229427385701851422160479791812391358185702336381354453571127711719432166046614310154741982155492904756210901895720806062349088029040678545667463724177248681190074206557848221929501065966835352086790875855344900927132510735378131123286004105291883550482825682124393180978579666414416419743846503597543167041838521459077943357731496484574214860854886745291314574589315184834205058542721160275207010530288121820442571850407971773519382644415143034000038965083547606952112614351514494096991515178332585172479894740524206100459840736384351138298293353702855164153281846898780435921758197601110371882601157152121989928035754608388740947375220406391233628982806618731953235529204014220009515480880706100745386563972589708030327985512405709675299487752503483811914844763960690239980085887510116129006008076911943810302609494806598476196904805932178521399828659016361397294733342452975784299759023288921228876174536434315837531437849574608874737342587958758219901935389814229423917941515613153979302,
  51464137986089598876754136943230404870285554197809229580446989901929045589068465978383379944925127160494133779070648657858949675759940506175576329347568082892202911154918648820159214617765449921182725498867656896225170636148321951406030844868842947490817141227669895297665284671870107291933779292824435324313828520635706158076925928260322211940276877904292408365323232151023540753423210947605321017167804788960416851071973969399186187946346189679713546786722440290516444396478293266946358491866150401165503213795823884640354533706750014682450893963508407963388339316440021557629487655451496229849457357045563984582865390103120311995586329789859964274241654564022155269311761821934040528049770013958185699504506269083218442209858065603603966505204050926529449163112247412243985455233459397360215848895956457603560112394722600290911023235818327077603181928957893191200422829722719276801057856446673340203186065797599897673630045155344121222746492117841921042993023304754593408148695733885585311878925724359962470195810494083427130065971636437516574637102498705362916,
  92900609979797982081471471311289950851849200398640461465302509949141434035836955688421615182000667253985853203567078753447410182134499703959178739753496211472367771510750644341932067097848101390611946814299656594694998030150150504394991658193643406175471200602325330510056856619953988521096991796810306515662761140012393944127405040656002217098547779644246858748631969461895510351333916411959039718938761054426423024644127859663201484795527322743409286346200984059824533857638615193364432098339181957496295052527170415941103294160552007079700445274265503291068016829182150548865729790830657332005667110403931664289460739742761327206991377358887764684076726016450379690906737624912318156946132584214651124301808862838501872732082930493205348834908022579996208931538204345874620625236296812240775571667614708332530743518028015646615241233577266654596895015351209640740987993352511242368393255508040779538906513598486931485726874899490140853001062540369844024339857382126776294549192772819270727100759505419454503790918051636158083628887001538672439450070274989843218,
  55676474032471439236648434111606209310196018250317806835398572583913357133449303614491708665979723338814530921740318117477520325816743389458264967527525203611262736721097645431340238065872011251345146117238016383594726875228176383566558961886132167299893940149412510356465833636887760906588376967418291919203119456469780942498386090416033096376452927942341930023017400543432258546250947435455170968354369756035650199238514737184926705972332775797911738152474353163342411729845894129107504555042885877762737340663304160391808268741726065961598933607786330701992223184666488893045271524055117461202230160366192193936615793786736961581625973005821281128255764679594940281466745760455774706739022001976983182597002938195414927590811337332360588587778716100672583596232604960016058991488934220473616132710075452300484394310989991637221886232625722472307119791823049444351403357447663970836106986071445700692763966397349202921834629764438186018937668805345127770384815690854061403280361502803860949033534893230357925117393530415841133265471290567398884435930822283033032,
  22116592985419196559797184885423887158089140369301617172570015570614836906812742295502793463522645006869343077482074666368747614762002275018155179697826673741459504387058872387338963291213957303994663054340289132774681687546695021614124655037009126591798302903887348417613972343394556935660083801609435561378553746892071454423377646719631384646526315701017132358397487466544236302779285419045015666457881859979478971251481140502377690261728979301308065657163121212079142907054215088898379545365916435512334174598794809276941751149031174605522455785458135586702153090077031955655899599746805741613338361641691140099233415564386836225866442807940336267010522666936192467472371364090542898520518835100369268187997465647052545068268393626406994422311791299733364106678173591597162898327417728872302052609804248757771006988196240372912716284558358478403404924364878183372432037161878814931836632132424242420147187986601290829544902098739959542872139066776982756308916794217401688235876539750420302448986418896369096316270120557681969929154992775142543788129467665083250,
  35126716846644844454724041012452806421783273222776043691610288078358871843710051808401795801410835281635163603805346307638919476150186986736706050147556545191255634854744061620273938350356278561529588946817016999401433231109528721244827047206054602585006670407579111413682790697868658711779204356114892996871988803259034954625868507864515607372171539953391070545742084470048998112828994216021222092624494727454056103582092642512678039819054526594437375194281321713703361259105755169899284729469534242980723256290258883626842678447029836313294966054416253861474882834798167322881097848769413234367188334829751327755520981118356612998485687021734497159455814205167601363168104474987091636494315666700163412473152631466469447022286028071181399281588875163721426683212141509231720573189111732882598052520156090041554777595240408913500940365197084870074967833274323358869463126879009850231317206614113210860760486195706356624523048720492970167945781458200903619280678213945893743377769312698768681171248164084910525388423933369089463540923580231081725576349979969436459,
  75444894856647732804498867623578917302150269879645498427712336025239601367889026391276316733486900994658881028631022374955359950171618779405954272032568075099172304060405924475934755878192311507086038643640016697693588444107736870284577037940928349414028221295864075270639353993044472385084396885275777983552083175810709482686545514923467711645118856722380760062998781844878270052720312938847998209719432022757136352039888007560979354968507222173819096427575684664407843849762359541643789860716673486049953642921576909269615170952825421086026688812876213228288701239411121356084998485602261674350348830521151995222130947223118824547392608085441215344210434543110428353361072322446109504754903082384976233787723979857646707148507270115503350791768894285532565557856891411105393768123007641727332335555556958197951616787651611271588023817370581258433764454963932090336308884238313464741325415758340853287016214784675273660353298142198999001039965166398578162708358962481375811285205027468314346218654210028735798453064197217331119032520073461929812872295178982451117,
  70328323475986403956270619085455073580791658971007776402290351977055165146315695428841424375579757096894223288731250154465913235682234856323088186214869175254442042503115517112520932667209352445385328575930785720519631126771596563353595646066381215699176134271050357968934692560977592291135575500449546809395941988076919375288865024897112468591619511911805736623365074921836732839574906693966899486388125465885588838303308642792235459716140863913280169686706096747793497025136967094921185182680683710393297681827934909048809926852979497855733371545681229119082889999649617367275829677225427182642232866400132724327309242950923056622134697756027497131137749640216045186933589599433451701314743167166992535535262519182296068551102552106617693913058993047044013055539478586631684376918286472343532485938877973370002374344405223057833850423369748670050160028663716354807214257274236347165982592000599527350286342941390667926697237987304373539379577587467043870950735671245544966030978961181945541702455921930096405938055229427692173509881950338542439019622355656650959,
  81189508495583475832679441371943347770644174306876072873238603190937646745291892183927340565244912505869565176115620698125003931538845818440649081930551382206808102393363085653595383285081518528602490738088819397197419266456341614484265115413169562835251959112442838262881010308475545489736902540358823648314244059506043336372172311369797376625377898329148146768547541189710236465877932945245536608462987170976671452153935936295650841686793887474517768464701970560120629111965939271694287820010473842269120842037473633883862747926634381707460086181651770124738002689102832486145467289464377033943420464842419670256187916489725183867462223041651600018564312996541175982085005633239524163204667553500133537296849174676463194134992237442472246330220218595474064637882118823459394089968995866776637011429528531270793556632378325619667821366570922060283102565391354011906621429239381641120806961721604380993879930032791351939616054590672596572424438866730988394948040500199586995408776106691389068427993564695024599087865610481526261948802916220377285440431076191523309,
  67613456578986649276023103467080783909926275476450002311159881515250166756373957401905770341261342041635904480839076537485827775259666285431629883314207477826120950407760433388366358024308924484034883541028706147339632834646578357966974592587401134634576232160810423976222516895973476817428512737721348884312642986891670696316238734200146948985214230208355107107105025571884627785644037605341548737134057035304716047710677529320079908300857963350589136486977471509376122562844835142793387526367457072220025676912748342237943660613198626760944062105152371984859747379297406177243330777353802543022189439576676950956672798124850084862642588484579677193561466464626014964951463471490061886726013021674810746605411192668918406378835311056304417080835780199922329564347430329597913588943793800972704425821506927979988831446725329768967209243310967877870437254704049693782685353327799678176291518671277541365726683693491087292566065622815915263350446694975679229497645839604031247826096808076324572917963135706380553018179506155893461920055250204212768920472652351959084,
  41637059762275805273353990572737729245898431134662089469356846280770879593423614342618357397284121665260195438481774502442968737870447818458084566985918167574593630071250992994559021579797126797928681418361794529381147438345911304949490625457775739657448250418936610501567223911406337904426932767178357282347840242922904037674700397134683438554640642707102611753009130847612735756388934449578014367197801389826534243776067204873056592069332816973770772050673214000573675534498089554053868887867159112407602402876493610914648563243513922828961692053847422089604660805903823099659189334258907900622370408006699792029798194409277173502701273368468208673831027079479355302208227752154460927356207151719553874896681908468028606626805266261730739559289324327665608205589264922811457207893258778236808279305050030741774353514258764320918185432669406906760079190821342039636895309452563340221307302098645862976896554724865262428461104736657509041771732052323741407565848993239270868216794264326875694735191217476911115775407999719992668288850793903934061031042132964682504,
  7706477052176909557243268596647176986382914115377976976000258192723944692010496600428508547001480918081081726650456796718668806462058478809300711671419078497133939149939952552454520949465078434971981036142877818403322057069463951547694697276774770642486460793923519565436635083070252079824653742742569969457756462611987386294345328054150827620990662277435844486270376709248843139673126563568059785342858198446090082502281505106367269141887603978831977318626572931421807329055093538562444488808705158512055619441373703285405475722146340713736932655210869322270942390754299408994425444590686757411432252426167234352191278258543884559516797829932832364273745745254454605293989680626351373358721485080882020551865995803408148832970125378123505679305081881856850573123325755554241960542735831944797643249922882266043555852334960668090550290521633778474635193474971302232949396551041598783974016751661859360517933895039246620524551126883731112078525724424579962329445016834171359514025209517926468115682982031361882739642662332167644152469548755816408435821258504424767,
  6996938037585730039057901105154147795571791693127290959982213641159815952014586136789206666635321839445791129429493727464246482392154779756157336708957618405753220985047485835708917663527278094953542744825251137393829123783351841471827848818093776259467255433420690238375597658467444988572971001533657025938386098378883705596616566122618812454638780740364377558292593401364517385844624554076490296162202292447917789014243272492456246105728329944276796783144819346705517570835029425673263352649065141412102378610932967188631037171704617628931161672590290677122398588365964149245530812072857084100660761685435166635303413828011338196779122899741266552449513483389346361812822564990534115031791411670938307677687742325698034291407998029191076113965307761804076221944515194026040634703567993538832743785881520110804064908851752700820562380205128642184248230026324320559979983469262326656447019563573006795390572441503981642390821362351327177145861912103281123572699330876625534408941512051799027314738681826266444752804067274640857238015503894189125958937399265016877,
  52743769741533748172422037707128664490771162603154417119414108348606899529507444772203362744266818471196563615713772424615456070479650878312900133434911136292975583609060175949453796861506817908507607566212738100117918293076118629911635574502602021275654360951138569094815424476722607340061037334261273608044855312147578890237559057711317455009411859748652962705885639173897159515988987014175869648654185324863779433780506989345553880505233124949841887573046444733144459850552473986539970734623381939800857730435695476169828265893810030602411218665685980207253371656135335099218859560107881521955992984830737114161764839950330037898824790345410532502054955693588016154598918936886572124748963613671862818854644786179243581710112551851317871774504307353645029761507292301108330802551534951869294849716900991730394769733378956502295614877878048366582834827540230192303690385819788534303828558273006721561304247679650997367389863963084595330994467366005278953510077510623540518095062072959121477879266263385428792589775958630580646504484526239133538342627050430867009,
  46703622040633976725299136518784230658396670226258056212221073354116185029363564161665577923776639586049469324455080590361798644275574129498302104696986164493137010370277508486015396166586451285354530481559829638298598154556259248659186328817630110149973720692015386987741862165578208788502897085678297019269582769523940825795893466666688391835881554906943683070353276320793494510936539945097204283673067035144196315528875321482218932596717370781271405133474738608096369456351201901843916055733840805166382914886247935137940371319796687585625948294207463241614819626828884980096887564131779026576910555080254322803125858998458287208325735889476313492606249627183220073181354243953643770564819295399570014455438391087844914419368047106516347403117037448245850518578818068662884417079356604269800316323634912030291975370099601066619389621731876226707182631485228441727943340681810310183841753499734969790135260460838986493841708529346927915834559424778741475818626067224662481177224985686229897440438439218402456036091912369895978248806446319555555930832816734602312,
  4066700724877475998063268452732025570156216876628405832688949305051939005049504958701540034854277602462485884666673423859744545671611419843038357063974266667038555609645239035702010736523283527692067722136663585746080761599482575890261556442866496737256920804685117462670246787668603228796511978576164426500255366220799720399986561469155119965918926099875691957219827550950647597861562647423557864501138970419935099764066765571208502958421155914947290752355349927410085129491938559625940326382025249882249214444755882700290036795187052357627644235584183330712046012462993991548419581355125514677093447144330924763732150118612798381856025571631417442644210392318412486156130470981480247338812569605196772694383214901046524099815011833941450600842229131941609950099644961963307661716802799661459649084857174082378057131294396610368772726979043490318967493232166572331903721541461036471884246356801971257097712420455992771894016308075557915318038863852263293491228689445871244071873985131098072996000054029691390863266714179236497562971925021288399097084846804390717,
  63198298386258976031273818102754934261012824458351039724617260027124726441028393060367775439840384623746557117766042747940447110253227526070881915259623881035944912100259215675509990359849028736639465333622278560198785244807812000092267255630431187021878325473868804409188331048255150339506237035345911575694871584408122253546614612133683291417713871207911325632996961058630638814550382930706507642500409597837720091354284328731106694070419993253056831695331854406218096083461319779933817165917065487955211443993463691039132585349777380538014249409345036276165813689500309512610570841234456296013280703948714675890101664115170393932146989030266726605846735059647527480561780786795393551032684912986766565426312732988529192700824708774002213743115658696907606589908547798087756486559413089027045689772974195596550109221935693238497816225875176465524209255740925717695468860519010003160801289728987052861085422973909396815077500965971737146008611522092622608527082988364373624387798127745117082236808061077077413663347955743533547250663440979289899184082181502006262,
  90058136781545284857759527335953597484087245005388274103999870195212623316986282803438849726914169586295036202722974886898490039741471616745751141334602734497423550587807218665525873506412530832457388035608515766265910084790720477045368897507199743566506306631675876113475164418905099495304411719985149916739766229426944516621408087749135536734530651829997758201465753081579408167503572563130826897527686949131751660314196274122716209578299745125950736894997647865130983044553916761879316366404096977873117158004122655528863709140625817884692390364398767943899441959633227733151062417111111758958204213822682471585586231593661531289432191654892821195976227665814359674319046931897070954625498480234955018692311293664029290996670086387840042890442086248366177906430206330593392032243436516079432570246586846689771534328077217098798011814855157928164449213543001525299613772360107729210859513145995246165942271641574763236570257188061170634876292627323600831252569965434321893745077967445291542789471272289470446481314744124221166590081005721723304438700873736053316,
  46830292870055572001906994319987064544655062428217271171245920681242948105505040470592410528835740065648454724560748756247634725962019554163080869913086567869678755397008127911768669194968381351509880852095827679294878548181584339038957648028985092572460862530061488862865030657198657936561579559825729918943289477161896205693546728054418563501846263442674857155608884433767767751811195879631684185363912337497661237712587055753677142553545280102361912882466084685673608493413331195799335404233357735889637805318390934442804922703521622308714944360673004231179796828639051719515750520976559027309967099890200513002263326473818452023997691129524606155729336699654182678756146447436938872908878942599227147563262066667329080946986292953431110762432816432736086308641338648646683683340341174172433613790860478805680045975432893327214060803444750328434411461171909670176253984282266864683881706100253649900743173847000861481761643196421460919937381887765482706997939841539389749094610308060895210562372337339552990648545654777111323511505835187239748697076352293343549,
  72561003011215891267832849264645292657116115146530034496144130407078693714179233116662476964087635487399017477537102018211428142144824621320489013665523144244134042877529811835667348556593691796255853153675107980671452796637458994210311881547454807524651853170218249967058200928170347143305649061103029660077886218643958620309126219537459319155011169133155954733941172086135358840520458592736046321982702240715420614033109614862990759081033133065914757495394365387018430653038342790401430598298810968662879396068421340105866813687700862550410669655362243076097486920666744068427555947082594037595454393281264615197860109409221003946623938100024885780821530539641236263035680445023302479433432134418808431469281618392368201869189398393330782579391518765988615852658830313054820647419923861166216919045975656253336318446768950752992586777308978113220554526893234119637741580704297917296184933765166937562151464881384172662171532362271080278418137745960978655724521653492678760880091880707514451795591893207464840761990517355858488913303280635078797052313167676931577,
  37318795949072123726379925971534942241650491860959163929805153754153056010835414124426635088411708895426440977027422823212873781858481377393550974933555114062446643689420453552379302295569902568889247247648285698792777177043958436924724006222094132555494329232680626510065606711248779978803998822145863452959171666248165322874115532752641124896656236536271790517082015310026735395882470223528163997240153464122032025797780827313551205019368428155208185549975149151101699141271160844540090762083005141646188255296346203608737167901905825189468389540468266297174866800839302951260776692992406943522577743863181275967950694370015606250562785591434151241339403032771295325310711861748025772234948929252198097430895212231461957666207592355635972669076798666123329105952796101834310690770203222871625208361195649481175299713274973059783552852128578547844286181685257107399791644850737946301947948601093793836405400303508924994891380108931322703064366040921361522517503364759125529933623450874620625221161521345334640590731527324079559395600327487909738694260663614314509,
  34795793642528207605767366822455612779788579850905074655759995233257680197851647322235734446612494779990642933510320292417061814769571050772801917271665422720280245480655682926562444571074844343809247355832405957279281370093179495842802006781667030234830107405474219268605401978802767061773311698549010053252658070039193322183255176221950049560232954318807248709892249330737590455348878518957734282512509676519718567996529101719951017464781430278133357169564223193407571376783460869671224381217307989693831217042049112414515862212057381989260281325336165063327096126811273544576450343862718373919938943796958561167126683833937598558264615427978133179120578291237899892276277256159512584275400014463204457910654686673241405336586191842804226258216882737103215382122900160538955574580481497079514288287427566570758148260548242022106120376883410734370446169531356584731584649952332889740861389260374365455710313573097870305157976741864883330833346830617761996495333234340591686783886452470412755314395794027884216137596849182823286006692891160507611815980980572296761,
  16423560905478275530999022836011825568757238788125858293421121206435351362342333545480003763735392284413374664475464899727153248706234324739394940743678490417272542657426758951827960203343622606184340654829291096947327758106315005802505689492133983705710619553810369925100616045006231958956852776338414533870921568787580321274603112849248871469759238966121654100784516651875999266072990204583456279634204397156524456500393326975841615274186890528103396227728680145702700318962787707751372895137492853891601345118147909121245542835114507476620614502078740552719831064913195084319393794051393560862448712063282330972563106568067159358712039921409666332251191044508321653543621993777585843281227230971764972700282533520236033469451608228728472752281846877737507229883391318768369026382449348885643460614702141015933553708337592611935438143753258368050686926516021319638590042494502607779328982929749310257474851915475821236842755637397781015150277718846739673439741825642715865300921367338800791231126616041891722846890638267871722469773414700303377094862942467836229,
  17217912573978588957230493800358591236399689631216138583104648370796376626799297615668211984659341559339167444688620035568965184061896502099578794947503421345106468294189135762409949557718833764748449361489033733873640844876651285799060056918035580217574328223720982964054139849176861425411357801923284322356622012533756997103821037145053611352158087544325887517731498123415979007748415485246874718698284371642775679661218822589836358646123372708731616395878299381552734158028806222896032274479197315134195894883841952929056752913582847028899729046824217811588125445002757734897566106936993830600284424883040855689756491161569382878286204590171592066183555970557350218309269119605068711363792198916388264700303239855998258529737206759685021223259479609213701331543690047347580052669731636628087675468684315441200544518109639633177996327073327007842426159432871983671001853052211000499358589809347272782613245222554744663365234690260799520188298486579293564334105861920635765802134949712381542333263308182496330203863618060743007893628480494572747655596897690479630,
  77258435896097235562688527717695095754854674156318936544434526825222687331658583367174104535186016897390037051140387216074925657286694144634342819342201078799444793152890807044167837208591403807871920204687148954042965778274232772630067548268392572047428956919167600520523215382114088732406797255883699722977039781747786554451339369528046730979198754644054050153559842149017649397089933682368179786182637137747761899242139647546815218023565700846506246212580093382393758939853525532473703072687613186932612577333372902749196950150840481799877283736652550640271936147773259880890814946394227307546211379742525447857306562061623275845663368716041054565558219632284442580016130922925611695217058561742929711699372987985526865736798162230768594917332186376150773517153378053363994725317379046703857552722373827813588564532376608389812022949751795849901416896634521878608358384118931384728325768648734746219535389978008754241505867497801560159311365405520709508035255004812123123771815210729800323101759183786254056596253994854471076202385234083415014218901838963027669,
  8646062889973158305000605416610521126183324563088749423761321117383235991026715443333980903010767519215606860915099297579489847091340484776037253316486633273997745741707870588584989036478250500607565276677666730181427983462997863115472471904638130827026950271552434583777132888840113322856123276424758054914145334004307351368200167103048967407913220417329365588638081990240250424758979906199739449424061393859002043745081712616036278391241147268209085690526837422506891099193767722077768737126770152907129682261584375714966534629615403528980698498199023815881324900728284203166454586451867787181771772779283212526968322976641245496739715278796804347658957612653385245739151343813784500518738591532963414053689484439722550801196079269028116229367043437115837195386577860034194671309665344253552356135039263743335590248778009316758556650202614245175520231051803797924160186816532721349074474187926304637935701957254656870769649025628311394908306598139258771657534329051829883074422093153945626718913650932778527585614188691505843112818062116453383461456499861027990,
  88783159992332083497034990096448289736199726084130305016138343757350335026967919910039457648503139889980405347620797995103556280094271198077141386253746894200671129290379402110509931288176786355712128822058452590232988278448897285576764337655132098372084536519727356629454075207868377482599376950854745853778544015186687032127032510837885755352532742246745616553017529469704928603493523766319377581531269112157125054564936628404613157549323436161143868941551917955211604032794138704059736596828772355549369536724926033527449892888220448868443652751589546895588589071831729289129234577442844192725052768475503870270632829799758538825993879067899636766347263679970911370005004519151507050208574470532031134283753039645068373494746515254316164069588396569604776248100769812576232402765632471455867811665356335738413320375632857711145794773611775891097844959748713454994540500897494312370266916002277962151601644314463215567465798696913430209173753793295373631029348259418485153134577006494373909764208589573177423145767288296790675029922315257328698330263412335263163,
  49020649042970821006326488156767632425444687039213337678948960012513626523547256517022255955699862842510886689684710787260016733242215625124292721308055932622130721409368643549968987874303526768849221231834492419076374715747446252159745764663572427527952228915040642776786566115191933191817830567164653048138101066673424591568641744576883906241920186541022526697061538909990725499842854841956681924545197470930614227531512984453091827577151361181673035809321460322584723528118255047060621542622432455144689645726938231665552509598950410934253743085999797137004258858340304497267109629969763233607776743734798788356730102864713845459287916374901454066475193948993522123624743661317478304868846315160365922435767627623446665395897964687905529239027020107572189191382148316268524904958486754329312418264134662722820936532772839766755726728973193812934194305723962072329200718638674667030636460133111116425468025122894305331125098538601201236070449699785210958598753293032771622679823055107676926800022074188490301650050385344759710183016737826819436124165696392522947,
  41035743185176583656034123276433900956511863260791733899126277207213516175222255241829612433962825182328696862544411862381233064034533155601640695747232038365145663557498734411685994161655182496042597983926781613148318090253450716466644267026276118597649132476829527278057032238343515063672177066376374024903046590962859602719797255378001418201998101813981259504234866248344043921136487236662920206393962884531448374890102608403614840731200674156229159669636694083603264334149637120985454752501773669601971461784645155559941672637397085864959877953242158328218410939164052835679070686421078034660757197989148155400542005107300962796234727249970112217781656798449194332226334150338567530824467734104550327428561157455387421400071928430177447314230098365760751551277796281014722053066817420350596794105098046656313637782517247091409925552471036812670513824675211720052849429521974886284898527787835621060048781271144063499088164592445189801044293570832904722016072696604619842607722478310717143909349289737950750564710538029161874918869946353013572935018732066873115,
  1731531091296794862549795815121682207571231891909138338353447102365979448080471233882744403505346799952913354609413927284465139119083607622657983981564246382915999044162845276818935327913567474032273515068909877547218155749984883466946222711943435139572756093318776721574285783033018304222517049632971612296836752748983294723150697497887414002192670067206567729213108493572940763592895618281290011097847243283038465197437585736859123098178360303140528230081302663133041399253399217941576479853470817863611377200140857083863943770352918349740374183511622370040173188269393263087505487566452909326566503024394453622727917080038157851325290236510568096258917942400163871496121216946992544239867472620600571311538783883388307801653788387752115931194493595694917939405788488606239594441849728928723084955792607211329771213723886969863602368291622254647108806210944791323990154066781602893469428215506272126054179829178173824891997338295301682667906177801353365047188633978427353358562327918535797792266270380244569682968625491187486853054978579659891848621862374855639,
  35321563048992834865561541540649512210466103765481806025067654913403327386294169117762638138347851183641056999660949202044895026294461684668551060662420883145374012687794781398595777699039877073994170325653193556130005281435994560612616083223589903248956595675275769853245744035607612886079681857619771788765561985237527447223599272020602389167187908147088670683027939897683780233375796837484716792042056118846144350842383697378594825884978259521414316768984959213193894128750695961491932711470358745336608149437546971429195290310193894356371835937491483074230449340295962811166523899581106000938622216226552529766106507452713589497334474072816739263486222629713471555329362444579946508231979087690744585253703457090077440815341678638701480996741240038378085234273977881746910805353305091194433138730408380430675060306862695321245229016675038563185858593174377694941574108105727494443840013991522952924016806674584246966055691076975969873109507845182518576898000939428637121910166980788517105711446695070312737069620047300356753682352058152491868239083974088092648,
  52704581680063915340134937352547150923527044161926572110042345848085322398093081970121586417329130532589871715885516842060650340556996859371591562193954595558557009347711681179835995842798195564356365309389050941964641889243417661217711754573714429402729377177659183107443058151531596094826350633655723861413920813075414610740512741348138890687520896517547286443489020150187201836613841728079882729582018977486126338360371109414086804414638189975514419051152014024187628978688233866528874956474011072459905537992175155647819809184955876752778280803822629818043941563979561725694090929518577447883651594478720682678596369454763706238206696202396620665921081278183219127468081453031421779867353368489380826681896912999835199422321272638771597576428521321515883717146485428812423122468402839056157796819989785562510271070628379399431907357979753622873719947845210383168668521420822019266723155810117372442375609151489386343666526579426037168289281580693159057152379480256619126870887647506950850111370257880233381801903021002975975592681821635953507064188571900594974,
  44679741742025213094724619195027721323724702570296163168146476218464364465179953587775904809172469556739679455373497103221936945596277893779193834069725378841550206295838748309619542046154699022268434746176771131973748660008793544360730243366328086536847335066870740890018470306769821475313373154286221515513181409541497972467067634369769645830928679521201994140665404326668344081968691862291765441036492080785729242338875506180983659122265379728841112013069101857603049832953269421418842594286621469527688063208257196486713422469852641941902223624118633913028417184472482275572337996970748200243758037179218073420208053693574061876566416960773912090981349470212072519721369964234420930547846506923744649042088873263022615635791960630923699160278236493000344974712377945595124085823970994657027536675981330477750505053663457471551655837277310078578178715303161327684892535760784621147886035180402976569605848671756763665930874801609992795078717891310420384947894328608479705150428332652457188642319839993285634226860788344374530927289314609254429906078711173676695]

def rows2 : List Nat := [
  98496330621775148848993377878678597852652805705486612173792135521247023953256081906788528038324229680755447174377489501430231501469612254948953383627569448693046741980229225550650874297727580760951068798271091938371422909682687285963219428367272424774439090600368048527845438548199558287433441890955230992659295884828977719675054392057716689385523977360925820906934305789867423572953120514850903846524931400689961737317358162222944554161493578714775062703761924980363844001609136117137295576618089263864679402793656703853057799129885739447837576390926794433365054967707422859638087218703995827147580004402224042140033035903609605480047188473046782868077409898322252624531680320340844351093743194993802990812417921108954239270965425821958485866799241157884478152195574983222583356742267989600980320093548651085494676767134053103434998643497580002152868358357213659782084357326046612605704644092005206437488086840419995854086974773160175053902530649036204494584764408820400538605715251822177935180194147116600865329482810600219159446927834603798292688186777848837827,
  13148160668128480874790430234200377130896464781785599461837510620688441358628450630346441913942893762354742777586769014678228907006092683252250324639953337566728997660254246597951963260902742615157481865278192977983681101331339651625793318419407026964988951386923961261275369592060229690087420834720840833188415826838019383358973224335136412244321174979404766824167809635203566415433254150964501977910541460943749815990445792838028880133562481814072611423275972894824141887025957454934254722746989976877162316099322885042028070838100814091887352633318358420740748446573397838429805347106002374219987211762683334909209073865337959074928089283030107207550472450851183334676304759820661789998004462744803370196555021320441396423674506953708781697379969379061637848201169796270721270358480479488580658308963231288673402963848241128765952185362411256969749199057478280326299861231724793050323637705845698785774531610386670675558440682408910511818429025803298514096157331538756311438547792152983663838215871358824082012778384097362326475844352630281664756079993221483927,
  15632124999083709893094632955985992872843352125242743349437902382494944578516493612703264233909454480862002835352626175298183552529788046502813539911284716128115341446038970316546773952587653838444574611035156164180927334625414221790331071472031059929495389595843688577348949522598210383159642062327307148371669179896744454184189037251127283530059298273937473757109927765235637036064734872478483968420374230975899887438787654284159356597358834506093612992449258746769154280459813281582587299911030078063159248172205221320601077149233660100318271006672726648894955094233689793548105579642377154495413717740799517750146669546557410080155793417959830131871546171383822033328726313699780809375628169857535292539023656811435865539828428324170005164199005176438351200575693343042180293152368541142405986805738973771720903281648623839549805008436023535858255461885594244261292892143414789826709417676045222513492987299743533382062762240633100488377452738118872258181998221942829367666600004037991487001856867455441231957351871237930599514821595486770105404782025853908333,
  56406182622252080286486668097631561071376418909023606039541245535703806675356765247266803675176738455646966935960226342580015557208962384036477132142966921934724207987296298616757967460829597127485706790346703915786585811127382574325190397829954457674305752992830286341862425450224962419791639827349043594113958984043489575783324648221652497253318119305558561405031050765485899155255426528862875288955457736787420297703784684756366424947670848543073541328403616349134710744683298589809511102012425448846430712271748865869643672237512574076638075779685938518232158037901388513245670422527853876610135195682865233946040200356733860252055134753079007468945261436163812466020943396881829985725346543552854046361041312149937692163026148315182346942096279115494171946607206655284400443565753266414389342772209055751842369120803473798867079692283986937508881614607383824642000815393674001886257307369534997308367252810149430436456349752135453195195003507648237036184538497563616339744294309886387198988081880867474958317602229846725019591837178700154647194377440245879644,
  19343305273778617450245249707149907000518726929283458717863091748438785506397547781397976147102974805258930692216662225235373449011353986266028141926476293709768013187204140666876255459542229249384946271177550175862021378876760029805157411237809551927818159082066363654035686833244556620095160463375225688255854582920019306381533873656517945743702588756264732107732276466231522699379582538162507411935992575434703207518963927929216230912990259044551217209318966179934694954150218683377015220759113008886890238579915282639867824654608874627852622681424733188588572416651261959000329224404728408961960264923773072793032869835071995091733622206904266211379357378789633982192711117924375186838175762134729227304841109052893127397566546440159910892056359539550622684903481778340163888074775859106047358664560729940094200063120435623081164981455149655513005854611735524052167155666041333475875987920445592175677563283767227690115416492112246422360395403368455011342654247448989545996792036442429665248273506879964950157404621482511116740163812882370549267667972800574632,
  90619456179973094448723746706306283461937692637284371025062943023983874718041127794451518210864000155847579128464012873995097762977082622634588250520781834576050530815712768164616012674561513103910717697384557873224133003000553471951166901258113520801563037304690809309792735365856491357471135090441275907649029919388200826217393959286123336572970664641027058783855131893465796268593304795602601154503596771014005799333688900402207538482513993086371634336600792371240645761765003641061220543568868817740625305700602301898291109153407117751712442370364363715890220116231710263565013024399121540427012730391660434852892171767800544353796026814476987479405571599377835639966210066927419271468108962040736111634720258986246474408196120403368752089701088063354284436925218017425121196785699110583349449991683094494698470780636754666776782538372304052848929117305480298931061328228524301397442127840108229799225637499186161909539509229235240387265633496244744690348057513565946504625030962501118599636302403654187824457074024589488060507416839071505803242418375586267960,
  44894031184207156184266389930059683519608809915500540819116094261561779964945557389362335095602169384530294074153542201700885059341080215377441689697655239000700113109469280003444356063607661310302728738927422665249899098159012376515704327731921850284488111933201103571057194443871218352322554867726440866734045441353674039901046417928811413277329570523323399878009160267002892904670034550632113551822596454563655802704621531470603214767803873454420398877573153641972943746586782763362311198646746083171624959380516317910160217431600363721351355065556811627671648322879623900371433163480958689243847116904830789651005911049650159928314383120189325251667689558973105180207091561282127947857682315030996548701378014203423508621889445113091741552012125037797657263051175884455791816612431914793499879371889746676777827243329227024826454802849998567554945269468703275037839400366514426856820813090209490578996221008140773669655662797895875993816037392940818983260231197906051459780384494121855073472344404641363331714829781976698669655140051818454197633105563504488497,
  13422360339130058979717346782373472329230517388505004636025681998062728258112455591586015018439090409864180971710075461884773934911273571127107533095079036197946170873344664805241788806067731106455884142874312055368645075413123789205016418245598529170285529823491756815198174953565040453735880040973693100210161974099408857233681398906852305802152257830798584444988490026722154928888612925028852813527173780318207628086658198702133918612113360246187362649128598385704246054788599442082401809197362711751540474656341180486288643987511052601860076320866403208005880981246682872769158288851453555992972145134318817716645564502666336275157142261212702829023587031467862427302335998951338331069080367912289759223209005353398361052808487974347050510512429799469695877329008120707972879653583923242657673392144380470361706529595672993234416869309201866257158203504592227460113349178476867831063630236724355370932562694982307261863131091050164320612674246086791670377930940669607135447772041240171387152541478713374566022914274536828100929205588900795084837232678718659556,
  21283765493043122746445977381115639667409274991990309678315704437927396416667510978926409311746824187884653928794391428071913722819450621119960494201416756751415522656932859693990054101116477675292564944042879583571003684509070345801908749999309273423323790664741074628981171010402778833821450983160613718505842790389539496134598694553433217338838044229221868482471011714851583471060997578697619681601243733023068446927105578932616600129599349859749171845033446105624084001095249031129151310207353660669914250974416710891804427926385025576622062566434705688881209134312965478161984539675154821081024416062444931858735121428601085815587151941939765526106247809254081424759646627019194378550718698349687692657517135017640200359938353017830278176710220244928865565462010559567415771159047285830165422561420054826851371916276898252726600077033683592676892711746614588644325629544170512168608373571659761027823884860670144632963682136373033174648717632014278800674249348568445726886782552555092500615469758288549210812222476682290277511682236950254398732456186120999673,
  80501457521453467701080259152981604212231163287602645784892088144425417823517877294636849168637871033559880293528797513166009650345021350087861481652756934254915758254478587897790042101592801135480971581549325386490211513898577566392705820047833081031935861720959285030983719779563846649873345549013365660629589933126670354255179585895342556852221670572063731668209322415546565287062082026853326008665800583966090695049703022545349369418434799181485403175216153188936016989829712382727329618815135404187049273485262656664081364863788716802997434199218404526700361558020387500409637218865537661056462525859676231120914555806149237446224865590525941467834123013364881208645131781450546417941645672385775090452177054997583323609161824686637311995974256373924319368360663346878883664893997708709923975176942932704315716340505835198994772125986124659567580313640200779332879786511301194767901228493345593727454467773069942456260202388754930902233573983039664285659923462394343075435576614858518612844661731439799759776844709297927738276470935627949450937574975809402297,
  19554370143859221216058081004239743853304543467119143871226627091401261538446277366108865182715566402048997387185384279740871780398587857487216892636293407937055160183714050877149628160787383362335559788371360809666315218932287510522740371018412548297128568954164194927943850639454838617154528632987007434474646146503414460256193649389255719342320962385728409362207205517646982530400643228756038069773146999660101861018409083474528089280983391290914925830365117302996765473925151845027724484495376804763886401906348729677479902124856127316639984427361862308855173182399678817158183206309699648514729573723694647944254825014483727864303542669964431539815277168679844685777773176724214993063597651813595392768068710323045802519156036464184552722886148251459740929971994529105998334724104185420272085136054307357487622738407920016763466151090614719108133008769243989050542838285871745960020088457644825190313755480860179403410944189883726523194071831370537998352344375954898132153424084287482442809898880471971054529233998476551717751441096350331443841574283608079013,
  41301639615794455908736627890914427598452297630543934086667826431401637571705618813450653637288873684577300189754353864153639381737629018229633304944189194065973057538512133986275646249847032791841511149121135250104685119008961170790218889188062488253842283641190655874808838120731232314134423335314443360965627192108247640392720608888626285258851992830133305890576527282957142619497916499589436317732474958095984149163996087240559405897409518518453701084239110782354479538977220797522617599737993180176602584167834585215453135785842096991306995209918786098861244401060741198637447153099351033428616375680948503592757047442658967956619338287688474667387627035779875559654940146628998920998697164854072303398883936761101330378404511307837997043311605332621995442577030710396843975279691973081280251126223600777540005130859749830464540495130970480342613835409134454056413410146219371605655280444840088045303964949297382686502274528229948457746734337867550280099756051009152886664658790262577689571241879315839487297388771483538424812931191683160601354302997848368635,
  27731202903029710778302774738958134651942756160667428436070204002387686104592077696567626787819706560612033973047229654813734461913219885892321867439123224152577419290782257091414018156957284573833622918850794868329493305335931935720916763645955813679923869635567492986511324827139460731628550124132311737264877398296514923426741322472886328460210413669666442677281041495943027672387634286066448079048426771915985645126086187040257274427745143079017361515617731515750059883996401418804973069975506691012924075303749581557846276831148373516100826421056868786356840858920119268252437039035251766690092384082646752617092602697104070471481531020573979976815791829812892353041464919875936156322124516827461722779681573302532557352230229683398277994160348264985693826397360590562321392948550742764853294267105896994589264214411960008453533311450406865373131957148434854150415172347068715966588934687947761605065252053255188779427620006779291742862951480363937155624921492192899450678409720543460019562984744096748624653637113020873814175483338166165615185111911346847323,
  65538248531987858181814501053869413158042894105310850262582815712311114555123885490445347986700257077621741380291892762345238939140280529309686455602087074750296305685666872397749985911356208348594264702238540331396655512294052067722982107716988749068312321865667889253484373928939824303927063104601678559287530601787022213306811299142564872664971680328549439089540115982149377017032767620929876361529476102296386400390994665174286052716065117214013250959270559294839736129981798102567138533177106675033131782787325121501327837748650207033135506227558130481080029460517179886418646938301427222915794350397991778016490528277130295624570910278494445900502500126475623251401612039820325502752696951967074235168421191098209014734553452473851605450203448865261194845794673910324946017546065949133473564878481268188018707352591838083903679072721987136512691128737953771599527413426674052986058267277760841997469706419659029959562956055600022176378828180964658424294431160434101540324161837112411833413369086040738182186785929660060152609792043026905143222568143657469655,
  42007161049260710551621362987930055591213266525433447237515483179612564078677742430707008766220291814065502136019166384385999886123275152903529870349532107528969061140401659802188280376805348714902083087191780477531360858414106596751960432401798589153532443423362991003390367726189914046681027614857872154303275752435932050311716517034302427376082327100989621495063849691002902577416713658504489820755135344694419418519912145668150684357307587654127131665423566812227372223338758776739362287460341063681565186649322813423042420400173053913958045034059680448257513405554904641633578438160588686022799179151567769918483857458197898136201297053878672660688951885072200744261029707371283569426697793382087809127052674022819034488781068280495959107943088810046956183587209343232330440969761237719689629821199168787098339611345262017695940034586738339782341473219138249974991406589677344743402835803153747984899676192496998518224017681930521002245510857860384690568766364128908975155436650656165061922181855860639525635204347894591616798123236057496837482343890555964335,
  4292754772607193219830825380715538852177309242994131441902635580211053579886653626415101464607119855982928954907551481369440936071764942629103403817182161439604176985281732820882103690612597704683140598765898142685317003106627425740828091023311681597595865485617816146064344765193028717343009218001005873954834544037627646013824276340532946558088847737466836256169083430972700699748178242457419426260777097989142290035008433211923977359095594574681566469478110101036963569468678903093375711027620866070878210655553779260881641337529391559615391062381538131481317662760323198880497921677961104910238832275063964710076965247441460982262594476729758448101388084101452159329887353851807306981009460126167868930860243784986072082802669244510981539169597360182132879440792230675841298484903656303436908701425831419899105413985226930754669501999027720119934380998096571948285919876724145591715959557500060243914734649999094962280732089018531774166215707333892838863916441375939741779799619064527740965797692825365348782886469722536557545252280316884710392694299440177441,
  50565410839248185380972246265514689030002078212754945052791543698175496661875134783191865741255835539740773733416015611445281501716175117999639940611911008630470479571340953158279114969755061425259661879019404745287573343889299080029769877893086987339902732472293618765193297280946392158801058120917330356069608825523217970057600041590448817939229844535803797460712947076082006515168336564512412811294002079114608274243109520336002850578510317812969011196732086099490036742606578833236759989031746784188273762112822615043735782612823923583260235062150253881205038087610757792341102006638835964616931815750428606621212402530812757970025787253844905787402407677517611828280220570076803317314373322249720895322231769914830922918525246749051877165871928339145127222439107688038146764776825605199162428994666415868570033589710058172746117001313172720152645395750670172388733144385271949699753724585045185112124532376009243047239954398933276325847419966021261252980566184976823050412057268302788959012984790370101236347773267203908107116393032892689698589802760428530981,
  25791957324080531453599950680281647637678616204990872205057179263264470138021032744757850959815376927943735399559906920110868457276158737474149781321992210097946361683688376980068019326724635633139361980228446602908257497088761161261939179889891414720360559936908838930580535936933911450316665837679068253381015494633685052702160528658989694225709635345492408795324498345015230231036833493083408235168291518964166715750476290195346765505045433189157265705149877638414907912672838031790537940390655134324257931330413249480760881046973124954534545785626432924575397544363110660436528940344384293413102992185638619690395362293619010163993528535010572993277183944687864902771924119694776679674321691661740183719065604639000765211961148350720755592910178537877056954207460072534754632987591800830202715029774978915283989453325540719516665753230926495139421142554045115377864569662346800500105576656862225655975320006948536438622303798485693682238749031954900491665783397436698609183391998723719472588452887254012846450566305472362710992642785702458292237304220010398925,
  14376074181197679980049611584889031365744048147277693497933519690791241286804950501774453583056740426732857897572640251681129144017289388939060078622033980666196507858085348249079437151059318692320640496738656353128130407910722221357665482187805198585300198832071946026351214279937006940708565595872468136554341671216007026774829236204014529850560212244185483378259554164191001106984416061119361341572843855737682243702736802105490498596516582972944555191824151604065511839707202720208464020439307298630013905543486080572720871181258779384498490437052921037497010016639981519494762949998642849373675253631752188331308710888079788392417704627889360773769147013802057889504947811588756399045026857550561741605589946250346009210210935213094767593435082242287365273888374232113471060109204939561731748853780227314662884160388678815342375391560037740786683286939848348080670719236001585719202923111341735102217455941199598354445613756191796311070401804744803809438397548267445519775059366593295007869513983479298733887810177945608175447381355918082998124982315003735066,
  26543377645218316617295923566550503629887119356012041679383725200771593141903519272458016944939389396886129000119117055885151579807832197586364396223411559124784518708290402202070552688856767767572084330196215790085294712798233970767046678343101904313793909567418493179487559919905514096196893922557331938718224016540438942429761659128259606455657678962695006754576610574970349472098549641722192264151810279891105903306539154665967022021495454292522568011997322331862993012889772600548883051801907365617848724489615573216482574547538161434670840182571136375339420168400511442960030308232427627244024934395610559393307378279093954401080585108538114412665516154280952868117050960782891078997195299893421677946200201699898496514405533694909314415663747898278927807417117097798317152252276910176290637536782986869272805898815004823069790734921618995536707907033479375433604945307207964877016335038661247716798894046172089012433709581716007094122493621549649575492391338905213792848132560065407087219295204117451146578362108110624285418078166194941845801094848226063578,
  64009531803805531752590882467441944083716975126383772221899903516608185037840103696419148911071627920249788407850357701405616347874226400006355817468995774598161717654247358213363439055746336700418263131436114181603329667629676001679942055334036403518166605499089721637891019331493529788162093954196820658190642836426624132370590392568046454636658820270576326491829158713636046873638450544974888393625563446902584799733972437826866792004894254402223869489172004665582573288023324994353981089464662938621067826158527899573711364825491949666999004651483304786736213896107397991573499337265679173820506794890335785170348015684871190573315030732364815754371927707826788849883018486465398211832288477459906823397462156125853826623722831969860252043378627735575155507201016059787121746506973699977488505823686182397405962823899061718458168239669939404234038027152149341645806650609425516633060493107167197330836033118091222672826165364917781545471333613951369357897079038129100817208674970566963962750528372743979162876486455768107697904387778853689843730036014312948664,
  92623107727490370595621425875142932668782847880787628478186245956781686625830268203644597885098295089252594417211353558594114239951535124148861005811481337144762057489372241692219063913137828116201787876086438886050658708324086986394651945116888379527746353597780059964225118812756016017915902247521397691067986320928338406008610218467139811866120510377179678586471588911919780820651104987209273293674446645552278333155612798465198834836197608015831317906745512410020867752382206554614559397489786921632321555311929060258852766336700281085004036776020246255778526526697703400695921577615647642596347433564716021855127675264892216759980154725911835301779011021484702267325079585252754842316261589296749128014980057541492894372407464438111610968912792553348665043947776470166897046624970217334733680794773210861934434226421608580130350246371110894166810265036737521403282434293369193737263789168983387513755579102654529523137287857195672725035232725011490885240111221231522395356681417563608279688942019932324527491150005680661906710073056211312564018295049933428178,
  36112004413870830454117779908282985239103165217553221739083863377240702608516018650975472284511975391203976275960199053838294949822684160694237074685285118596668768797229864602757184502991246920648994694897748305050135197459222778942804945888936266175575585016684911380345406553384045092547795648368531413220672805295322177576799732975000077209030258510443246399340674510943312435873235986285879361322862400827815076560815539481580746263592719106228645291219548991273889934768984063069350153058083956513944024323250666224298765923968269410311308341511967555361378398542211792194114495619165388491859795707643267369745935938106687751104593905615875963496617956775816312907314395200211716241602363878096329901332470378593865529140518948540202174774349411807469378036532613139946208945557490603976970949550080264968790833922207730630331527199447948997819818289566397872623599650538450840226160712887069191795534834127291556345078392909554962176378094144760392676202991209797852610126161587127075355867886070133229374148009805349019787651172350139260320282831938137530,
  46174386185487073152287896043801626021519321727812501015366095539593948266297850096472147696304142092856083675536971457674465825137792689300349818767309536656154094018181213814515718934852114137632397475912493597045511811135126263852182268414222905761672336221741638596959428555841526603258173569687347871528253854686617083171567897986920796685793852038673279363131109701750909153639715774785466923898418800085984984931159137283608134143739359840877268138815763164529904003317006143551587132104849086040863099554582932498512694150896588966201964410303356985757879719137187474794198902398557644542753175912782182067919400959794488980216551994749107670219496596100713430683605884398062502933339291805043787495845783955975219184993991566568420764440157702637349736079804389437323371035779462949595697528642416907667162597431170280130433527213920989591016293150314406167603304487131088893032925209532460424387158071374113333496752189467842043520120051017155888101407279033709013906082962325736543490225158571597343839643254968282425392777124223574763651474626863042160,
  3673739057280974151802633253647788062977836503169624788766304946589041398145368349648376763797240301315465398808417396936142586717938191404814312622118490104771070020651363401986558245954915189360886020775433744258793923503783385025011677270527206099193802611795015938187100439454786426117842514617256027238047632869979661131161471745987885542037896030485119369471921087749508553862899585037777990447987976819174494142900098035975024431445721638798732593334748433045739408125512479377208382988604655248714452068120314432872021824917133324123894130322035955727805144049560581365140986160079051007464455743265393945391647302445540904493591899500930070180617233371679820223173261954865526065376596240693939127964089260841611488033064649940540746459731482403965686343215931299439370778216002709558712592639380626530906372271590302144540827890353670167098152389832704238400163481012749869965938331877195079369730835694367288565061102509453520470419059542468201989827961069973226213662816736312298905624737776292375576101165400655938523727391506690645767946392058971652,
  28649774345022841403508880830934461816836667371572514163826056268400920108841378388920760123000864027233105874037792368077723633760999633454914229514026340740695000357192016355410390524035290727326982389146458549806071219716833951774684572732705783001650434385226732890660418884113825083413613799619810169705273677247197959326117762234453981953204724407339455212937548499646212828779894759263556471124809844788635485768440400796454086534311784469866699631550715355346753318278942174905295408470023651559371913007076532061016462428460575445913627408024944264302474203872311368140350116491673880339796281288237086263147773710950925211669667728400056696523553312357273447122505849334210006543804671533515249182317846165102580881801644604999405884890852354086151838940436071934067129236726069448064599978077724922090290386244074458697014205902219888068460965151709482306000964657014364407668066372796875694071351567827990649079063277209044524503248575792807082252032623968335485158606931459783852836169456336186314956895751252054275834084337654387735755811332332244587,
  41691304462333288530403416818532765079629533256719680304662622269392924233817614740621769438130181644683625060288786882638848622844076864987050543822925806584870404035562573256749520111431937547754077091962079537181488250616630692548318888716236852515548481080757453534756650691089989025790067471165361044635484862584532960111660552481236658133484434023033838766947308531146822952900928520339707297247845950326397304709692877275566741078792127067696914719162964677848426437554185756985108165871827151474955036156500371320738054521273860737134932832995067948381046672169613166745564983864106655385195711477979897804053131531304695355956012501223073013512282359030897413153187246065767650692731207540535622805396956670940455433100169920093401603015109670070870330896286586954811171164472224295645926247022843837363168276182638145452738190115715089522016695558952554622067920742767776923081152264751106824433913416500252404069330258598945633927036419440753978120082182135850455473521574804387050965377446147811346871656555888351972792131850455068355394307605036900936,
  29623878364086670129443989385444418785088158837508762900011444690128881295585567752375216598684934324220643331265915748872953995338622517538068215345051124474409469110451163239958515057551231258294012367477151579026785466343783299768437518167132466395464302078876838451413313112004383627209472896677974394888903403933393477149165560987844062612358122351295492562595858319163624484491123953657658710507880739670881097669121051336720210884909249834814108085147197931198325601491340711816926537717669488632567738508113099293924279731126967745834906089590146797112197545328687949100384969406070056456723771053491890644506528029557447570185785935333025343731414420530358189472502565974199223900855033384792966237076723346362903759950087543075025796397415020398849590375857682910017344100301639017484856330642201175201778857984274579591250260727814703573118803108254072233705618403981464308667013264139910735002441887725563513180201251858081489754097369730814873054088717373474428409192916434244021024496426392873573982403810584200373458695310703279798502293094662680690,
  17927241787098062523829754926742717401093133908440060317715039883971756517156642506614086351975457345974732854603525770816379080538731580692280533069866107176170472318941722385413267567686410850693619772850880899912059322947870172365995791125474049023042173561164395489353844038661966783227383630991110052858370782496250614551882569385163576399303075590707409177917689600909421662686399459309871665187527628061216776559917910290609779887602911312938589553501801828282284251271767414232794377249083446842157094679010491342939738156593513336070619125183966348987890494708726441344580810241396525389714439089177752252411780220168874982430162373290165423895888029875750062831044553948727701249308315249497974712676481104179236903256497908621475914072338569985684899320722812683150370989919313076022276809177596019419663136065337542651454170789726564216949912776720193565187129742389742007742270600818331468689266029409808583955345298132643374294839713715782663489388817585285996432152468492022170504236438629715317037861202578285472396855010947264868652733936132705317,
  9184960842867973063004361654213462676610101700359875797906998622320548802641853248629251096168796598076953897654536145457445540016522391424814892972938142790625588597012238728348902405738552464234439119934502720657717152104991279089921169924264097040941620723180394969416889854265615303280722468255424581111427009573232719015598853789575571161924596312339001389238727215278612420381681489646782141666758766918285458524439413730677146403734330940413644769293578325756754722460492377254530663122614055017563811599943197027883656146997453561866251992177475878966802204666776259774383389956603904036282986148270213861905360663668457915145149129662414918969008081539878655838537811570342660344304822550131978660476762711151914132960639612967956751485560535966427176487338775484216680732679344682737453566108015086057433991986215295787876111855924472352713169009007276022927785720407394928408102800388985665402155563337562229145898264058171848809035219592322984559191694639295796753009154987109014103988738347924936289310579711504620617690105468930136691256496076455191,
  5336273179156006459648274765480572318894713984109860130286486656162666295762500981783944574352039379491631861623245084104361645553981702333968280754081606767892350510276470520409956971481930783215993225562257913369017793709375425041782576570705962239705424120671641874246415575661781751832110091846264871776509119033457230778731788048493776544253945247149424091479337073513487876314576985100249674982967257183895783784649478639854402312145464070231609321036055594619547608318410781549758552449473221438932052337349758294772936978542447331921658533831755522494658487593974612031368176924912879005517840370751610615086328433445673849566589150349424052007897413832212149246717980852846342868204470275783698828657304473701798754988339182164436320438360275261130900446100374779902794907612459938112405161919960596513900779096342935831190343056243567157340950561636287482782058761548998813622840063195111952017808096749067049765894282031932459132425596171141643166944161801552406618863311739950687964377815538097222929745986867436434377244602250082170131493699181402454,
  20915767683955013168181074034283041126865254986803264579323184502950977452013898055358194141019131984833867985554819940171661584883611814850491864675639177286330583746651251909951762786218221778373921604284381236585503598776831679887691766786403769600339672806404573452597520193285403903843278475185561475310226363733593846397999451197734568566544674283895819110350875024475420750117547265579343040641644816400018548961723573698765002091463124400680506656182113202933685956754722666466024686854200803926074056629829966228278866733064506550328841629388295625887554096946807070658121980508578924056678207301913200670603642168364916525631353776254830895948420536098722955582752459315009433419009078154671122572710798521222737556158326103023920531679278861411832982264597557653404542346104902957223958753311957961950228946050308356974031984824793750389739827953899206897189129627097026816017999488236851544102490634503793304638505980500689368850921596092493454617018696647022532619388193016821226484368777952396181368777350178398760142879720848366410773287642886925358,
  71469783972618881033845033371181517114847157535728291113771363131977821202456846096977749219637968473749691094564421462352746752726128530180078957354303275355058900276072417108242779772273273590062666386669601352230256085097299631537578243379250716217207440633313796387517144392662381145539390043886785184247175875379030663666093268883193121032320723514090703360541657508220906033720166811388503146846445191695043655886615212595069382843445815287087122829314072755593369968121099035159101642125607110757656344306351170567316743528958194754952161142519311002589041345289007507758318181226707486169370511374740514479454619795301747600610679345348377394055213592998818346545867982587586043173404055460118233649355330635908322439166680612102928592930996275724503127489439096429633208730774671500777330083393431588596370124433769577694548260771609767086154816667942389103506090461460441303968713689488679983508780406806438162177240634791781191620062957777013993709343944321724972218231952125379413260275336745685586088441059085112302706065537968948611903334311829339108,
  76196185654145709689387436957061234280197733557389624076816315844335848770733607207064012636724168412550983009513819576886151246486601910441900040538733356712015287826261145314440019490501156417180146235530033460802176758915614799503714673327458150272811272118264669225554441318839859509334196239859455611849476747865322071492014140435873483891207105258163644906920398813879272899285398846067946999733862878432225100374328066659264199306084693616756774847179955538224978574655672505567489493096000388111650259900059937401738666047062621238852848170109467101387683522002537004909446671047557900086274869986075801005598973977527485320741834661939937899976107539930251144261568920485519723078407582278483831235864781682863472397050703377015510803721686394150717589120252352003093644538161000890881305020391693411591082327549299699784135448332296718754241822465520037962279043106977024167654829394976164049500283098389394260224304616904843558047477224038717866934915392885786302298924314368417304703015701090230606750370244720033264134872856010032197236565201590949293,
  41482621229998231733207306487960120379727647315563630376092938373423468209183320342088037583199689240992749363529073564984723927517964835646038113180744527184622345859794497228431805274062500057844200483005238238751084855426648661840587880464120681035919898396098727131150641081845490455579927609435421840067176453548615105282475682962685981806029377282987924425294387085412073102529404983278917912774900315217552148825260347141601819538454176711806252183687581941540703676815615766181720477998692331464033613803346520401842615803902641825361857224684486061288736869992720274162680637666211206929034619695458113643447415987140189211660466226582661590542069763943593123662045528756034216500347360119434225614914032015794171185171542756396517256864538467095452483713059489858255974527756437837209390373760644875780538089666661399183963055434635153154818588677926291272536342628898525685446469814497461892414958636636719814006506858886086022426733798812768796940649702991545245272132575428195324917311506620858665207749095296510075340404922735654828295702569062935888,
  16904146510697177724209554461302585438178630485080605899063738090543069502613842422270537535459859099326696733216515194817253453274733360274472585272453947857870490548475863311571836633235913234758825934064152103907287193632679637592847331316123397815498565077459574263019250136134421817786573268459498039257419696999987645982495670940955954906451431929975329699029290181133468491893973167337404737610215349790280131722337912799863914710105736458088249640377936691442602252243291822035969479652296324150462593037636643284086561602312161099027177979404824423743772421754532743690307492626172588806522332614106033816532093232026699108708475868198563990498575011761996369059699254104368753291819072004157598262345466727015736971133357041403209379345126606070799065586879616157998493410954090321243654431087316158637572737481745017866557379398486692291175992043422476006485976005497828062941873914749664566019768926361659828965655744580409914268909472497067352204701161915360094527363253066644020100232018732278197614868663489891327347014448203242931178410091528333303,
  76911197051252511890297082942974883981371499778052781649343705604326005352698106918986588689816108899269920434547815535740465293822554757923965125781698498673421821853124073431152960821411209199994061601015821912737301650176958118619036689779275690467857101810593937314388119291474944356522189626028632586636519017453659212186387681077742091583646909091651827398075310306649980624484927747561884529732947271391489972684077858977868656048723305752422857172473443666741818123270841591791478616819780032875242194648011931593793515239417409041909841257809909038894077942046727049153450002486042745530730683647222075893082199445234721452184282562092914376814387802139693639978602212632210982207735714412941264065376526428543482970693655116806728306148155350067799273428746717408366660205372922048484087025230125857179145696657952396359686270645903720726805879439813400667670141176581252233481048386867717405879736896155996217846549730739340954660431458601540495615776456167344721264274687461408302063879359804284966224722325504660952317681724586362611284833874076507582,
  88956774589588736109519742072321262333556151933824717602181868389530067975021207690438838128356258145012500711902715651443462706481495059019699613904056079067372607241129244719947702838483531863329817619994731283314491596877750429032797703476193806295512384013842291003576769296985959054439828926666087801034405967055905207668370210159521951394544773118741072352794560844354946676079288268193567646665891613621404247856427926815625448506316685268327524656002747765241279427053419348280546267028159924539124873937558094012591977834653365573562593766808769975257460270216696492529983775381969384625470851886151047522647513648918833573818916971219583268100419576537702119211827256650889668246750486669965988504204119161533208988567238092601814281176234479558294288085813698860737275497491213068743742194301486676625969169519536885691174938231969755955794021793887372251515997140544728970839551036548666281965036848684661039274556841436359017774403875651208077145636487772844383315635724968367563148103943896809211928233741450761863056577773779414533302578207887933713,
  55232819306677810347448788145330227671159824630146773913180646990171453231819572964017138299344586652810423902920440420503010850372288970722667320416407583835211625547293542097706718652620762946720436336432735056632041125212872258941499762804689148555075973614650511764125793028369745320360465061569238119721325105618061345213438176817327628414181021644134170249175584365681145479777519582806628442497503791747723620420424505736306091115484024269956433600353014366659751182803280395342105404919103056731421075413023579348772342390739593893004368913281485468821970534826806406133447603574659090656460980097171769957520437556354521685044224390827808348072156800312138051374475573866335806612898256952535572326630739519540636979469139273919509297099291348801486760727149785168270269050710767896576530440463362626888722627429312028751738497554214315049989074564612156955425357015201474626587358829154486936716821097263877036692987627033326926764051123565917877363247704611611875283786408803828013634904145085131829558738033657159237554043740366009431266249374473501836,
  94088350123180570255108941846936668830380623604361689986818150462814543993708439467237952819530328860609963154780541105397983173910481917987933763099182400716369535925678358669990852568283461799920448492158286825542660666948065905588375476747789006303076397732011916264419312313733282236418119343830505865855449829986899114668131171194218916017937360257596321853210486874992047347029942678712761333423766834282256575650157489720280343180320624484957230973900571509314538918434494382839737345157998051562591643226270141862062369447593021410508502812036049109939053684780560216627046368552572741329060422899563510252284751907030825327384995555330449578033090259275316352218098898826291159803371125701721767669045456806492230515747468915571710175672403541893506112888730240431443198695865218667607330385490360277460963545019525296534070301597032409851150252930588656719011250832847149680648943813007837186239244681790216217356912288723948021648464737751768189421222071035655596507979484499008271935528147914340403713871720817609031988564587461081099105936917743794712,
  87936895032477418648580648196799561464367082487089936839513150720305653030078868598203607206699167376164147566542877193535910445211691676928163963645629783407370647882740618340543570774121613832028737879037858589327455361495644612550505547826687454455090886889469271859889494234495074838218501843413032362004668070019175045926284083850536431267686980340268115807098103458986041308417355099569441517991754323348063307326133913997978800038210913276601454961115704285802816067516233813538630524295638330950320192878164132492230047611795358249560591453000424644788062130246897865596926292576357402879940135692116755390400269966455602568297236950495909960271709738166616867800483272929905942810296816157469630606061010622671702125396674795138938137485389535175783294513642600693613777744000566993017402011366773178770446945060129226074969110615762076378933450413733651195600329078352359646532657474974352867211162980756758510838501606998969358671522596463057009139087628741649254170816909684730954886023329828880010165296280897698772319690742102700934888093445551218818,
  83365197843185355960674763507221611787287356394656554342761406855941242591214170781163030801019258762199380989589430509396825182771303303349266488532956187952664463190634938964927974779630581823776065803540227966910818093226725142614287685085502340363959705621412515137620467224442897997855454131901372056002945670634038242991780751257244844635771525893472233684526800050490579407659261183404627646998353219893312711732710511293877462720081317263208671247247831036953250571166846693391999383834165301330924772942935847074388263424007013217132097282749479611635667826150715662825021252062763897515665851340604552901092611263816622423668992710649041886270014421128735923939982500565800643250607509458935850072180729322308246108258185874671334067334432680515475652761122900942154655618310341268701722865416226907574466637402578505819839033726685391283425113889776103701554705969784284381211041667496423619368984063561387622795954521514689288132823943963661294501387816765909292508975324716691236834827515460782728044518243453759655049256806485323099928145147534550927,
  55527796279414245574405255218825323955625085721179963530195675811774436762550973197511556514845137285424074904838081995588091516117939219104261909284857816139051482314744553101516159178414599947122390516596944103972729574115833974593906205007758070959676589892496143734348781563774420837499914618345134117857213565765100288216534378838906972299886294622686851956288323205705378942178959367844899972838082251295857374295653148704304032195433016472204581397905745288020747285881031140858798747211863286489844734053114604400480011189647421657199931158890372059003146641812617920911940887850066778010999185461909348926691850911899853281758015614963442527274202132308326262537829753747808496486205747377298059504902145550108969348064510974333005997985553203313182691751915919500655848843655165633523507949744148699554593468266676174984193192323919858493142907033972490741043353155071618577128445270455615148720821787901075809945990781903407684845590803485256121124463883238877600772564059505857614506172929101763421062016322763133570869841611333843351915955219934239104,
  56556597310082316994799784563195983411430563705888413585723243945999371608451544322473332574743269029321113405536052609072416883753354361412870234237825270895382357658516596417328110042367022479426589489542002462779779309893450760213624171370310651327597596134899242700470471725333264227742623475663202251798424952498212765595113945681412700766231548515825735963353826717922669936333918066855094802896639701633580306357779206151292995868181602332782682875613869534898338580784048677565029162328102232126286237036471167259091116220744994447033715467171935579603406495721839913243157175868905635782011935622777763421623672475667687617220610152133894288442755463803914298293409706376846651169968454977492484216234549879019005901223071102488058804992082026734152133452619482271804045246592288442955419081544921458089045704939272983216883413429953682586746410836728468331328743219812300745130314440076835740244627809770130021421871235118844390781428645714867130316274381405338857603885294690507769112439640284427539211601124684855885908711120433136983355129831770447543,
  95273511809456262736507213423867548781623509663987589890781058433372203975442049861899214534394570010766993023334045070623558228321979391210716339044784574064959683736835999610270559810934327545718226581916273764083264919446339254141257047278930012181409950288177663218498545308566679007037626577058382731749561209175232476012728488544222989867998826628395086789457714388158096755058011481632951013417845494953248474350246166826049086054349862607076952206845769308881019936388602056908101664505187218150057434727469240045662801352442429043237968476832649959785995418767960988824064974266522958440697297761914626489783151028740066979236203320604044535479441981998947525319571705208553161777916410772764613921571177402991355550151670979661965240622229141609972270298654087146907919329111017460401206520811903347933507409339673354381066776442516210910640978277403934724092269713998641932401833676257879516616692114857084403473110985771860414380657030581140896522799033707067927777173240196063669059902396600617475966027436477233417132112564069573043007387189697608262,
  53778407616890456503696412101726055110506318058783071771045716789172093155510051312624885074971257088277608184629735156660641381318577569232194221616981981833861591091112129640683476454149874892596769391552088999743483482510977171733477484904241570447657365745775288703137087391907218250577299317720421259661778909462781073748939672753336694977597757614013390964005994959912477424058226022767434791404365977500711749068727626934563752876279153861033480986929574289849008704137552160375946787643984362695913728997237720073145336673352699683662926085657058390388235938311896147636133170436652976443607494016496971739566002324847531278261351162745169349859149728425780115663540112574883834495782054756513486752535339309492987778566824738322471363412781566382459050230733983253608300387302483963995418402866298087668996005436067463747817597385932001097038400943290848252148607855800720302839262481484210735676894365084782917239431353773078338286204525607937143479890247754480001573891165778949114366003679354363932067762630211052152101359215469454499705888762836579334,
  6061323911023381234789116513396064823273430276115853432570782259674566926399445065492819990540278815070629903621350504523173250136706243941061807667613786614145637857660442074924229269770349845012651492167176963310516767267848837295490056786572397844276311347324977198906007618759140896073066582151384491345615555711510845132159738291100111428738959946162393850583603232344208288145043391507378081863193720783803113641758373487519765079335205354261064839646800228318032347662678243897034382828567674099388012245584182825061658871841917739713484249557535536154283510624483282114107566096796995104825227942158706931518686822890659905445428976768340784284686635169507359290059446525171865184120454432711637452459124940510317749743271643304786104252035794032712103848084464363330137152901498842752377949834574799875281511965159434402988721491706555591849396373620235346368882181314372081349365898041885261814616685646389742839150595583703947123832173452734821361569612832630851650382152956508420824710834855636841528927797777756366598286215650221250746116759032116542,
  9654147012294283854575672141738992979980052464181684733481802173252198821195035184670582808429271159259997015375097479007950930331880565580101398081229845654681618715385799281286103766006844083084983972797637004166030652461482660428311779328935587420559345188132647605029917983382716373959860235887851346092673231951588729729246677097635098946770140282292245909364931925193174285969415236656465995111925468588648001037779316307387944437871151634358086838550980361673411774679552505415696325551756593001109871034383335920075203177187132116942973736665048161622813974369194360219793318911371477579284604851057454283287481793287227871096158968260415191032160358867794747925929885099949904921648497138544125533916737983269837424487412745470962063371390474048360794157529363363904481795414111734936202604851201230536055436888793862914480787910052555989328252773354359247067399972692273992775653397256696715240967730735176129922142025550653142954908742617053358503331777460258915289378865430766613971869474350204696966875056766378250013366544341201497803953340948430588,
  4080871386953158989175443230557614844599297128725620764700238088330825578637544806735453859876380858476365069526736280986119900402679811302046101019445980359274353057449296242273773395520169158005332066975513019731133703912561191330543297941699192948293905572679579528177269687932911425777320500214760199698152202061524517942389845818526827978979744054165648056210083302860547301031605032014574051888761984535029699992646579565001904482782417386095401791037025463814362445250887029226639233664043519678003566545443642503625079529648921390656484140182736971450214526431646621003738099504185588748963082465740733426300253099497815591421287519705271001157101716377498833787956568653934426611954407741443992487423206042266159771478006548964334962358396221135312572898201355984815657020457482109173737866280253930704465543688974749065847794940959812244787432218660153009734548024696172671294778795194415134401730118832367448720447806236637003524258617656838084857368856902370922908821222720834170089791292565435419407826899305573151916990118070501895885964740481390462,
  60970734195449422706775403353710296483606203275561731021591434684415539095659097465499279153763329473599602008980264079468292536127789832058536058561861189451406113222427128611166867250257033634886315857173971160328821238663749187456626042953189852087917692798532059687082732060772049087562497623985063918737880636107372115907573362989705665746883773515985230620783485667267399450197245706160417028656143126685079755716895080673861961335761307793385665294261178995576128220396278616303669765729274631760052262488130026201593446959933230130444390851414406961294909514351132404372818037803052701614745966697318233961655755091009447720112313016992708211043728483536465802279843531764876043952080736225958640787345819153105945582524031075377215743214571344778184309844749991891988572348815392190452015661719255542998753345400238110974852027005371147123897974701015854753862680281323170286201290386585144236448649286552358171372029388017529410102252028569118718607964501087652984253297163117441865075201876929274642106131317620308506790665882560616162451232983338560212,
  25199613207285816407020906231271834484822300789404092439163274524087456678136735570039755142780739200343533132128228732868954206188188329141890423929582934929305948139194192101543032435674476992430684895495202395456455030650470971258953086410011569687327280575346288820928949980376942767152372469074527687494117376112489070191987929642324749483718639132922040334047627285290480570200588772263597678817471579821421764176643490054851532223351305020047426608426027581114308115877357853681413656836671339174031607056503790852843226782164643593015192070991234338444761974897013637518951684986306334712439357199345332511924340248672268509671224442280954862096706420714603892359340106844004753696386497513597358331093783260019092515744319203761229377089055745436284773845335137564981164123368922952288866851999159162996178672081918371734730700682281270186065027530298339014669995747944610702671611160278717065002344548526553180461527980301358894310966438222475439771623046764635318028199644937566237115116051978758708342921467498000152971410916725705796936154875615717823,
  58311177101359012535395568712745799720175926065461900593796089784619027221814507235879548427149913315039620305124110916504419669755825132181861783569427554061455972705352382673571102318081972085394860182205482689866360286956681834866852454461440840695218263328048760444691900826696762964549075457223692332744166491319556486439945889933877587009880543318639985540493230677615918285928743896057804640984208974055068329611397239222226979036469776787551730396664474157472658465478065963956489535819557003579716689122694699271512844864772273981174181488663319289946594706008921131898942967719657048618527686134236881500004172380028297670052779227655408485543334861688984973871867886189873232380042400963864067984351716251126972592465867872110705380153194957716494850629815798946941714282042164165586659907286198493849175480269584619642294779314981223836415385570380897890076139010323497179696325471965649122745582635413234142436435745947492979278569607763591484728012121820571237229125443324556605340748495181446769058959806952003492300124986619376210850051236442547826,
  43573382132966096697316535354256247308090288177611337397206298364305054086194062218385024498547566872126006763397437315325783835487482440978097393361487310202390453380947415977664560313768110629892140901661232700390050502294761351885912410647065603129801460888994927862354781233707563735243212718006105308551717034053603307376301871136693532176984282601761121860063584896534143606709141997792464097211427449546989146355548286434011040147223008474005897193942555677557844039936570126377009233040177201570971402261897254902499639625668908485897750415713042927159289338014627628178042451243346115672917087218116986695871312610665581097155155569633481984422493772789984900169133406501392255837452536445871131537749642845154005364042185976909329790072008362962024673223965883741317529058662626944673521044260379193152110356061561327177958332423894101137830862454629514095817189416538188260985813625507028147207441010322838569770121266793214647280115968243771101640588292038122298228255056488502000903159908409669801425015995974256102202631836172557111491392144361101853,
  38455682860703157664486057682509194621585069508284940853018066449912071428675989866884127906465394835715319791629682191642876269125672169472287743672269074631085341954406113360848716300832207815371548154354645837025948503616747070730275849967231328096016293612335740850516758670470322859872473980864732679403949139379130849736324141390294392845766383519842186763466430180868960692143383196042210094720984397666522822544368304222054701432565119426870397199293424806391183114715967928827659016065848116137229441994332637690168222434355926079908820340023435099058591392977157604947270770283095758427070913697704371357590202672271213553449733043050674103705440773459584309227693748403956382048859264704386362111993542255000025611449708505270500916289296049847398305977089314120419837701870006385807844261773612787580995515950384666207484815725018212354082543379820275256807457417795530258946819457764606537499326993288820539515184740851474436356821092425017105258634953457915902871522129953659591580769737340686493813561483468625939742529349372392299112609535278901474,
  15209461916937523396079180058881837850668857882217408930223767078926490559017835733029049861047566240884046301744209164607927659240335005213697505366658033405013128071242798970006273729152590701666746437245667874325600195554242094453363343939195676804590871330983447962129663258116376546648089007112474028151564343463108144532733971543233454492686193074483735329034242902270632344509081553795123775716104927121798185353585099415538718219449427086114969262082228311054505260176469442149847969162493833508643899797943725725850349473321123642015645445958323210258673382120827201102361718132916281347693613362316300055518541699451237030874717693475306380949148828231811460148473591765019683057147047139716805417120760854152779061484081543527705471113866193551918255549673768753756559018915892076743526148852937632107873123875720648408237375303288464023488292875867457517411964259554732547129988784413376971744782895148060629750159810410965179248737254241586060709263434511221805151576805039523207983907038445590802489767512428111868311223535944953623328051564284509116,
  38253284682769037798940560973049659821677479429060522906427115409075963049075004578669480644240791416042498973639622383553426568824892490309401353227598292267618021399446801899603206758034293979479500581123563398697279023670197762898407331986142970899455340903726057682234474886920102976488719461875862934213170932727776916518710024989966658550838113356789617481139240080692044146256653829452233915516045948248702775240265603080241608406335831049915931308539474269073234720884119182024847075732911507212454468985268553115998511179393810802097734738174933999888973856536994038759525336217482394715478348005894603936659188928996217521047163046603844441237345091038293248389456001298364934173204224321656427582862696462987054943708647463427711852938248043935821601986070062171196591832591807574493655660319057421033069753707322301404429391360729974231482186205712797240843229742225306478470222877289889172044541364168301862059266947810650015772730346839982955110599642751983442090994298239413615583265388406852983750196100267432796083226766089824373992304583819359944,
  55203647109590825189916629159319639863860998442524559194442374098076505561175057896146435919925564267596311962778375128746537965238665256816957003269642878507201847166057379227252095232109907611270241949139628074816965149432043193064899696752352377801336017153557941527226744043835477478346154171361080719710473088602374503121389008132562431720497688680228292550243349395991782746769594115544309850361643131639442573259674614175806634244925060402322028029469873751829312706554137782988619584810935026636452075093196152508201502395128106961883020837877917531424737800666136610712556138095687549097630224818254733695777442501363334650527296241951503070016298234339909100061555024946737128843219723533994529380672234196217016163432924793757445914665771562668285110792098013823602779085249086140613238204702960336142123967891694992342321715288832979939112946652538472686405318731979322677702760178715157112713190221683641694532904519520461503355347344697871415224470877070845614120831498011066671652074655536718787287374690498716276246805308575835228041919956073276659,
  17569577300287920706287306356228290710931722541244102899656219439303393597931272982490188505998207530280581826873453626207698842883892896355177269977552708928071198383271264164981358505660929746681941433220376360160317023864540103804193375688745593512383982760565299379694631115736236765803515756436802079790980697358928950333631027509478478135700064703167653179843748938593199284467970505014658422277826960675919777431422848983462296380957522453292343592235130441203459096101274485891405058274767759110361971874811262596027245866765571472754939412055513362289169042638208357399520615723946451744498991297021106570959449855647567105391013640465590616591177906243645957393460718577711706111845170015454508099885004059315587509512061655456314620073873944332743915654082222655166711498136135073739954893391748086374196648093278171002639550259140477751934720526936117215529192894891128512312563105277097234938677089309885624797358932759808463423218516249853050362731645550860024480112879487089021875287345392941316146620881482680861416201591554912204198602598488609910,
  1008935521986004274340573101214273402947594356726977628542777276759795406783215499987080260583813286902818386210006100337642379198001944237044206333199893214651697433457699128223182611409070898614415408199147374743368164498243252660816669669733619695332127776912977263579843015097108158562779524101403121972539950098548370069915726381749334231984170867848596330912936697738356288707840800239223578231036122923133431387087137560726479553068785676787614086797853884183975085046835092841447196834356692453914539697267038657031729624183897923545368707062910535840958625288172928169247104639591376543397751033038618690541627854067967188564523146253468346430020306636243007728041839150504839977463906523527004766822033701569158523770139905412638347648466384117910763416394509626576134524834091389875379348887108440822515024794471987688839920035737926073657685493015534302684384838893140272196682038727684904065078641498395483862399144327100354841428571466367581410868575684974964249205885698437459468657448018493422802795823563775643882682326241877622162260709045198459,
  32677347735018285436069393524165896011745073761140640689598829299446453818686066474728889919098229601789297804735791247963218691536870365595294443349954251605809083049273594088101251280459106505047664962675822241339331580270942092343548241375457305908715656756767010920950546711178377321047597669794363570249991724776409909961842234225938966846991544188772094653007034437183115728705732067398759578214079407363342360849638323335917902277126826303276948775320046801847577053943430079511966677524396159166308278083959053832295112723382075507441530788977762867716625188109118753519733009863771747861881547641160222390303195596789815373333325829836004518897341313857960092977745880614240104591501478206797394363629199355822760236751034782755648662712188255528531782535860103510822581450261120474709240171860256469006846173176799057349011007272876892619452758833587582219473843208345786330528075574549382895239005984568272914134643234881714858460678305948260145359687621596708124955323057637815649344565257825522938249626575117074949886687654410382705337408989210403686,
  77365604542858451695031402232363375702641796577852081754489246557099240813236655786985264535388801118891932862519259222135566768155760927630615575930662647392608983278347680214605557131593915751341973623814379449788885811963343728292321966320335780126113077010857215989820280124527014194405510821109126282616707080627427106208073756237473911790188063039151918982517186661375757275971038981146281320941182432120115782881787555919083128416589810129599397245828288503470905302829222517897243132948789737432150734138953199236450940330089444177994978550611469561529485655311222946235263060515601499246416469416535817179065975346477474751894490338863769454910133847537957012434353283214492982757320649460057035879741372847308556850024140578069949444209656454542067040671269177034205589354592147513994658656379532449893948072963453595989773250352242536697552026259661902239113744647015156377494681734403794532885953949267776387559086479724780886800681723558531314356329754317660439253838540575689974298509517127782488540660920326559828127019571356428139254066130983872519,
  13882874323038507006601992157068887156531369864586671792836573552565862718814401443171436793748105969137093212168062424716237296617153934399533680541456986793897178488910159860309541293529874616910919252380974294455148855831849949859479590242636642554865556331493468935615034148837488463129465300565980746769773601945598152863062761262676635577359767581138421612373314597087298604713841740124888891879713327363626251131133467653762929984089037789520000853939976358474428197985767807210489634599077801542669717456754261723840220327733647639755175491665338447273368535249669156297692483436265047461988233594559385423887390136417704694539579811875271215977684425117995807169454668617498200389141367574252951992353630286409958477380806675941697155808335426239966791371918119745650950142157414450246559428230866854834547550417532809049243969757733834069200365962698238063210584211683115360806396000302983486986250141895196159770985309893415906918264474621242983607543464462434641837589126993823538014384957364332358908803400365035629450989571731821193875360604033750257,
  33118252570466934470275756657246020243435805176179804305001576612206859107119164478367877552875557651495538646290031477843352420182232281862889836049955671009471307362511750465682887493345110800437057008572073227508319673684109210872646030862698701217604409040280697949111839643660521843149230735163158890444548056797832255596285773250306390738623703331339379486490735595468517965042966618255310526459824517353756325028373943551018059272053090105142909243352731278690015151305587405395535952649030281312758926687850268380277539808784196954244470759826527714763680134451227046469658616014050005981355426600455530412564538564899316031280559646970972771764775136237931869535642851430445630127610428264940367974802933019013443998609284058688100268883287786069070057522291637884595429511271236416290417249259287033518121777245720634744414071045798701168348653894086087934642885814053237220522033388278249160655075142849889502673047338689414665771519170670071546284933413054595326178257624745577860528907055681209392136360207948400190453482271750199199850351721819829155,
  53739405244748816084011428682985421981541739946151944675665399110862570266172891572116167086128078644225968780654055240840769809262297989089743886487188124121528586210714417131468273941512454023152718464160210458750969483759431807362021929374001190274750271765673435942473670661803986776730560640185899053575123002306608370871168691475791336384086232538434926718606613904668433787965167900709509607700445453556313624051358161617384399700872078005727973747669733000195181571665144821563406218186569555695230599732096135279604360849164645440098534029608616745334380968998239436938249495509471695416706412839424517141260191624738270866976931180696097101557258147853194625746145350397626055465125435021452414343298249241381217713203403237186715206273592816337441031547104639631117708345350154482594576086659775717391457660958775366724984051724570082595821245485219616437893131098824817003842233206328850043254208492159442373470693012469333391888763956241425406832442961396568624031641284030587825646523428183365665189585503699094325953094250608082468414255314370373906,
  65109896765398087358749937703345895301949519517021752264520732036027546394131137116116222899004570802847540361406381477089041361896398146793609058294820541858067653745684521520114145135847400424917141834979108526755786923646084051029640568547162911479605166051298601164218923584706774478369791634369220302198889638490152417264835108736731345839534421502246261553366336148347864323356138053007496676208428757530744847676122129520464026842561574021989849634090361092184760431288829692663808182477416243214918051745760516527671485956723605854481485440213290753231193378970542137669259894146244375806251615321799734696371796455473353549249001405607436631064741766799857256986302528399444346379930518242598412579835864959062789069536518549591816028252311296488624546624741498780234896199049347281966658307147577253201586835547077836728257562399243554639377454477973382960292239539101363924842457990895204656398045121789111868368461117367495659523732158831922247696642959496940073685050284037768906265808500246717295897639915288552871279469207921220672013205280939645226,
  32270868221231475800660317858618410693450455257909777395661801233418741794136221578605007833903459125252454048575436327708936373481376250658388020484570153291728775365851028430430373809464582794463170347696134486828805493874742078360720918196695607797807865955740709604430297860930907972073074960701081558685015948097534353052729341161714831747339661005175217002301479901086903452297704877598405728629894181021529690074555659724334836185037771505508603301115053176164169618772366138127227871098651734520385737873021661272225806239456342389511827106389993828193946808908917142686787488703236974236982543558888324608458202840234836262358836434932664801755904603428215172195639634953043008484166217827151449459540901179448852595049472655691194579203679365403761138674937619135288389765488612131811530304716061968670436442884349882255233129687502916354586542686608894604692937059649512844897404856780035852704039935626048982822152555719969935257945452617407432708598911300142906714002259432746902189829951795534427487181116421174293434661858125957750175413534118015591,
  40012523994839390176617521611923006320392693503074408005564853217364811681583302031705897646782329202381824767644909239971574846690066268487079269797454361050266597917187256545818722599567184718953968963563982739116945400828677220839735648520196059606726455519342925230681863759467716574716398510375801026645131490589465320117025939029809267215532618811216870595841647293227196915373233155149878813034739889489625427170463108520020308934976074748096952314381448595233628759639315703476429000525190908752531657407924492946317614112816050060433236781492170244718104090002523572907450940087541909448501323427737790282037687775988388910224289465863071885783632584011400402958201515727775055220497671741806522968128144535963077468399197436150775560849014830488152662261688754968034628330406849672488458314489610898411164185347246790495429842336879295028505356227380869303629064349610638902734239816444371298967524622134998071790983253853751824514318229817014980471474405208206771734829307574244607177847252459461857489049305096509795390542253069212360701703837910857146,
  98302257724852517384591456079105588537047066293052686115149625701677756605098715221893119931908608040958932727146520031599118043637406495544985222116311079240253084120858743275083025736046735590502428762009605821782540707253588194242748229061261156506709906900009646228666919350261335698044849903060697708791796420344947066473435831304985932397059589076521205938976976179995460990255750129252950517564633281937784817982728921626883979150390284154892848405010183293430169393085976918820760983272888921135516982344564447333253072962398579235645767684446557407881847532800320620409124850379079033696967998575698548117548118386688492826248933731346365620962364360176047562884825574687983523166892032758120831192672738707762830879194416406020746280318221576402945658339747608798691752555031704962919619171215072124527733136375472863049900375024593485960032115144992840662158257436742274475501063912224218890391206885714990281250332229301019625987938312748207951457466369086901110213105305738750610287625824804729782975970378866527021744112460837370072764091503713333614,
  97174009051602135428701865990605537125909298969887572687800067915869091084574078027399010187258340250270675234927908455645847233838793694839321219370566310273581109630944234629357335874395461017150974841760325948353621751671249004828787869344317863407778956134314765304472710158730835918654422753350609450045427094382959523450061795081549912226067705369540347087231670377358003858882018536060774078592030910013073668615332051430948329712861083660252455592697326600103297614111917437427678278974751030295465030810406048421266292749225871319580437832558381427972820610467164454539667827506633761195615471808114106637289044508607112165066033989238555537675320538799346850503492185865362156116256077378507833681394845092505697034605431168901434565623077243178045128441499021187993090482889896661964477429526148689757457320468170131393090511705612968133624656576703275299788425636726104684513955787617455426140794992788515941932345573064585536376766627790456519468752359050707029026423593768921741125833571439855472717969334716699045245738576573463632340209580112235447,
  64441723301996887594841115885919388026520824126254157759239535571390099406192578857624383439670825359850867717452030647712597168716292719811087226407167316203119950574953533507855790580552280567687094003588621450841939451102129664180301025071900414351802625839184169633428710839244701121728427303277470134379841173301244691377597488172808378086328358480604109242208657677287522099632400804299449293049868849898458249983713858916691314115948053797704200159706893471118315733890104746479878081565219264411241753662668216817707694323814663364194867908638258471341439078678526625420255079875005983442086433532034033854071697004858954238194164632023644992186969351976251487589536447516344494064161989416711341044350148248437987463916000978580071488654135135723460466234792972728314241559208002510346789545427521942413257040263069769465401613548546879857144294868030391018441086389041448112375443712853308239937328366819623130295691856958566274113770338858536646227471931672503361104073315657007652071242407975699950151716821900645117887028746352292980881877100729033972,
  99225664211305601375775977190139941236326728084538940031909615421499319261336411225553601183662732783852674019875478187635393573394928471029582528710380997565439732567129487558224783626807452739034903745390658115194195726455858788269618859947491839526549635447571365041228605931178327747043171702175554273381131644612205777914607365779146307623015698777942799470800066693339080866312852037258042871394552756934418643828321630754249357674340668984292481754076245634843585997894799507358408972112726010980185913187269858204360215449353734228209983215127996754771510867255688821989769067943231991850034564659754689420908586518688541565005301770434777447943867270393095250807174811438806676944040880337002762289229403949546456869467365627651215744427275561854727297092316077100833032761204644001950108825543666118384017506433079878960184957256409227026453638384878282644377846764678894521861373535543656377606476678170898450543551146912314274141648367976459749610075175159580739164799319511126936601648584829390733187973916908788195618674358831373515539061314098627551,
  52129544487710458089772191058276339894748491027833916995225437768143940741866823756712442332351482346586764996451945247633087053644068714145683260663976945480193094371008679575123989119060859807956189770286170467140202639004075521169679039679720071713355977146779184571361114940796671246292299933147763421654122778357482586275349900679211197806030788574954697328419646448724815492388450416874884403265627747095296067748119527859251481070284907091501865228753429418363140611237085873262940243390981983868089791860127462081893950209887488319592020920204199143110243288618404386721469844721805882747761188553143345477594991570811215472430488110982675308501879271223606726542472255495116778349951376070493031367598922164576741761560889488299509311427656818795044573907260386601558121381695557713584204354934789536420233897464954927668535362013175286570550588094409771668261877850356569324883700619168688132576989889215377016429415477035280056119484224729851874877749535465998647312837668102316847838642080357150661043760802759009924176268410207319104116864752349250603,
  64563867772961804953661056181453874745364735629557600768283850026539033822042359255398293284193944942050008998872489180621128704903913002948556514749543445752448228715834065454230746784942749309634700151432631241612982110976577978086462089636434720880591553642322648312645150216051965026584720667061301204933869699220607212055074846983132504456790361979375114510561099405972270610245531643418423159313539053072773643156367264580132267637726686186334792960994124327001774495398230432040025449854464125821814920560149218878884850042818418295383774717036791912893763087010427207210527934076159095560569028788415435937041294487067737642712638215283791146308614599688138515495896934947775300910908956450628879874949987918977330055395549969672231130329962237357438567780028847289642133583266974725834606152803712627432217243252933925759249244741154505859760314253954019027327179534824534471181832675337725688313193570020831617831857934695550625098741480850738372620144835846400353369127055621195890629893555627791783990885764956240379714308839097111026422589746293176689,
  67223404012789249994400301464679220203830421619880771734664735164681098205658445677184987499742916295695277744170956312845961026901454223339536443247908988275294511632099275307499379381898314756794441245959637262578848779824592170128005575802716147579216877302876772414278390459073912739294267884385771923968052299403405334707357333451836725155426582639619999309836730795037244868646114937304957612941570707066203289181107238915527538336663817080430330556707275261677419463060608701555657445230874655839612405030148057910614581630901314898861882107938274751304764124868278016019084967844218901110183925596780158884405085393976838736014191230960600868884840958759093979887545712509890277211540144019262217279654656498959921437569114290202041111579248731265080755959728472786996827891626827869491152476745851922811086526770098192794353379135535005146898579382371388273535727171789383014221648571714102900699728235323288484621928112894081707974024421905443693038017492997032084340110873321114536842359999320908951566908596491522776672296396942242423418831803521099116,
  40280643484735443798320000362808190976855849256117523929774165820418448109089512683647084624741173961271488101932945586738194325086126535883736855992025907815396082128790730606533354490598834747010168086963731773732582913940201499232920969270678316759681476696675208077482680711116784929358461984186261721109253221606852538815918559880627768721643818351604955385279364210903131036078162438914712543316537004929543573131191804284196503216157809042520133124856053203608591448176717054976690739276489514055215206092541329165702491817166443720366613685787673325110828590381921544766528622524635921917501303428439331954912297279269763953174862232078789202684450835204124961260947859764764050513446164577995797419209394138731127672405794054104620755970157418271819156561183209665877740814676916977483766418386081752547859685152469480775281790629399270652523129308948664501479045471076151553997996389545735499561642096460474745985377240519452042446951551105760149422144598507856289800520015014421723603039442834244487088873811175695484586881015884730508202936051430137010,
  45069902681581989459515045374857234879807161323689988928620499341347784459648262388689344956413068869396801624022569609725905836903591447830464096918458265475815349450077651607581956641240074336117286666057806409790685068438390865501366034171566121774136535246662924038527316315842924751071820737619974257005266362873424852769709124146326043911646825719384474976527412791288332764753400458797875672197285080251587765490565589220471496205252104012016698764453817493876153962176209981866956434937752040786704550275749542082834382652727990664040463085556015793541580183887088771405230057777479101336075834637081603741403358166217105237795477803108287893113898944795861169392281377248209766223153741655518707243003784468387344461018587649662483023535529068562088936705012914503374712977082985920552405187831056216521322461228800347547325593257117509161765941664823949729133523705438862724084837055281700296298090586508047949546245822401357141584900673308445738818119674451429115214342793926996556225719864391960677530383746866722217035568908425034832947667841503678368,
  19897475626360760561739594959045378728870880119654187892476530782025541234215275554653752784851164219300210400696015444285500717437035400703359356505398651785707006582099804195744951235876447812486104147556590450055377874542573276631373882502017264896961612910104812793263745673134738711663877099845420670270029601117226376272726745210181186559105258614533881970128991196384735029017400070680631462301308053975457760287247409909750691788261928319716472128495873791803549559085450061798813211982114298258375305635097899123594054486017902486260767194835184423490587190753372944339592409185352802957201038394209623342775620874772317011752756872410122453028153879584509634857983910451921318634956903039125641139059641254019436292949491921353071715344840968420710642282289811864026763507160796935047021002318781098561356791065930660078977625531978982500663151562983354439164449258057007801061628032102201957047579865658116809332423000560664896736948762426172410119907596206943468594040616410905711553454537680923271287235399907443591953983973721101334949165692714299302,
  80203147745605054466184575323059017078615644303819701791495676539404594356060660507017393893132134625850381073195038674483556019491822805167730576850268843254958908956081419950752565189355402263661008481614620386544647710712187951630698336202140746124327385607330074172908534137146764662082332653007577845780127550787262783016182508700842818774533207879778942964858597581928420499648296204273540733853100546993954125461947347217039952702270357793858512968366440678898374656563613544478066683846697651766149996185439896235023717671102740890919399583145146872361287138497242069080950442236785510287628680425188163584026162985180721152833223758097090574535691784019381600243965432578250454451969403488409243408578999827719151230309473805540308231556081860716158343395561728106373311060601526496414815684043194623560436301743175092077130490886856047273855173095380847501448651760497567736078331544722925343359638456302152171049873859253102039789581433366384155929925508944602780701796227452105550671191316326265279936696359892383006096981600167088134430020391177191630,
  70163778003830037112641824146014987041714805662603384977517560384954919157914179295368495970628632971745221494526436400040116851275873879434866688375722889961342993866402364058944824529124282016580047816694184780636604784838176185651558401746037289782158565908314893065117791985723171647647241893043153199908815499713774207210118331968619684944051847134805103762448875818172772334427215708740008524939194933981030831999522885426263085181455141049674896425768172031457741976055401166514371933763721881865065248544503999376609226777707479399801422580866214987191247013874698956765809816342407951357037334868399460740014838188091091227850498742256394710285890361789248694551999049171162317092974081951721636250623714208252611907131791876380037382099894155167362903105494029053725379895773700088178658870490439209102611278111129355194227781921470074363737351900832947336873223965494763299282753183518126240071189203456588554680950302630425192198797773744326372609289111090052198687553722810530557641476148246398586371897727977619373087670426497044115114128900621261138,
  85306037367229595816117021395030074141766112848332886016736716732035880470158024784864639807999576764707923310644566260337307361589922617875267426013536007295278511447312992791452450623340290963971759232197958011191466992839606609054620079823745212245036016910411563221953297269544555151828409453955078674040937185323660387796280514312676627403643982398318817605978528134663946956055581184589398070501135751682068069489438552913508828544734828151760971542385952213273086132204129233077656558692790957004784303955681994015964223359594550228105654377995470862448559080037069501560801930721464897267316393892553815995861702205913973027090063858841495346162764260442837389125191847819850025498263035851006341034437633407334699031270355830801124354815866116467990470409954792381287897186780109815204978806050476668203662967250936939607313669337472036724300318966620499750652520175471357865734643836467637926850195846151069676536390244748995432199723190611693296228778946122656683064351895616389957450772210945127991885324449376487789040544224233470979587265217693777637,
  7960407327897024558295386961641263246575492104481223808933638076494996719634861554060909141594976780877461912277082868446053257271801923246319994667678926030359795781182790004713940921719399874076000999706958163447923360510616646007787559395457858135619117973484724275643954446900185370303889947219983080588340583672047301059337164585377733373826188199786074067450906292255488990834435844707186834628390792947080116968639485118508116438134602812347712665009370864349808106119251169983906911241127884922501074046700100249875549803524056367371564404834835224610219675040334226809019609191836769753918448889810307693136036846490751851920899807967484952064252815039882199294501631224441929079058217550021246415643878011473635348603231817697699256886234224365116141378358486034572918456459731014580144233910343661909121175141432240043381471464957028036817478157339925527876758136335975360559539384017686767430474620112279164213879016271782936332025735406498294315950055471411440663728022590649907729721531848353962105920750948187022309948254672970184837824611212322639,
  19435007317776200669540599603740376544106287192417866624208821464827827943811361974467588435956400543384035329212785957488140007374970832504832785755627877386652839778888430937242195945555354368165329371988636343681790751801961273509345804109446551725884968026121015346697273811614985607135933184212517820869764413662803131959266299800800499938017991534491839141860014917652009555057429439030632354051291327228528953318386128009002420185920683012455768851599860366708821440361799497576930101581684048963695057071941618192298699854618110664316242154343885744834338880719947667423092554142522046461326333021925412332655422517900396237001187722488012189973986745402327831011155813888762532752346656497928456091175839397247695692295816479170577534606301700752743140171314093470826207580556365138365779777856686672314338997158540512838175395172886726792433519324279446404274845572204271370383384282433585631425510375691018147458356414678953450868562901848676091677061998800659230534436395717282508884259966392897124775740130935543924733240791820455538176637235332220935,
  12540132481590298902642974259278789454750065499469212124666206626082143493200208055224057223984383044936328281922845488932895874022579320820777499212636085911890296466098389588810029238820492462297133229297037751993136100980352670524486853226374478046384325646301000814486291219945715644790099446084293682847965274461276533324488110332420251747386222344906972367553788033995966640307214375360233103696573323152377229874426905668961779628232189871890962510009667381607994856169911256164664511017559716379949948745173586586770840471684474770849909769979447071072216462801394627545923362533618584457602386869037340402342997958662188971415880457537565078504261021206974369709692144094113468994263087437856931812699404387145948959983500248233904352960214104347987103068353429770829833207751807152848088283370145995157366923408952207467531109020004087766773452083041072554159390052576034609120814028417742037713070084243715867293605934806649256089060062140073524622034669434043776297371417295657738443594005475357783364787173858831995725380639809960264540532720562873151,
  12297815716086295737468456654236008290043057653315412716898974622851338510767066427511106126351131616092424346656970070932995217809475711291051481146984681636209949121191573759093465466617608592524996429649049953008495876078196360047102673940074073208436244200346144947032423951767853242453480993775280280525924048657628467141218672997407703083930742617401450032210497262071517016718491281343898195596976652192019081370003672782082548084440770548894977352900740939641152159281309852432760682475952253308028248314091145503496480558833631436378808692685098402275435610953038777070121200028980325179010492325077885025908326341435485168772200998294771996023052438855804487383316035861722692030067101878742606941786040706999025075004932336269299321409465809964653142858940295050759938374246713892699043308896968931712215225093296152832231404015224720069622519312187694832867420029173664435680663582105332804176726151562302124288855432501934774716280438341939284793348612220573524012877500894115331923097650828181118963550249584671068452926448455574277121347428588612865,
  53169290497678456625964182472669277834400266072794741444083706645758512376709200048312194034837292085600229027797730864854147461858811157024028731490423374710220512254210599660703538395064823345926097124425018477808097717267392473194016550396078670123047395765332806585083484125260088946584673119157291745742241779493354979891900782062130861080386551622375812464835540650724329292911545092667131859296769309032438050050470579802957471634654618685966633481647375637582530295286292373436789494660108835291361314666383280711983717491455000642982081727450617511533164317850686055995804144705051451344346613543491323777336900047757585040469935495286508212310688552096189971243934341116809879539624817085293385576090027022794974124179740475717835891513010194831142088683249433148178023376509533242995528594436834355197273185178049465583509919430937022568193180246844883186770873093472780380591552502312040642236094709885301607583705436778374146441160534217600459326489012510109436888394937501080782355178495090823589954072647462043742888105083964558842665486927650484032,
  83121820919225254911472664063622030793455066039883857248600510852807898750922954152053685929261987791689221592205220551985320147926147108591884318686574115963789931121609989761109796335654449027343590983289478678839749661090310579656789884814633779378097206339058401025151480018804012308861312975542072153696492705801455275021614678086913660749812251621634354851006334434910353420533934694524974769550862656936276212610915726891851277303763839795715936693067949298648386633844544863127608551005181894581104146470845401536291458227457290153410579881693540552831867360382508835230473920214607034933191067272651277179914138372267050300428895154913480292363239288242207957730865773544300787149940796063032576958992623920596601385554180341966989324367028510494283621790242444777381925654599726442141645880183324265738561878678959852363478423536809059927119995597854014483596606215632951638907300427568254001923588832030019113497523286130065109787692945531139668955583476437080703315692464770566831708735818394804538875307517147833711950768797640772884648664979182318450,
  23153810551758734071896253879853762143717243682071046881420524923936550870448913554165562666671315419217636666644546134197065884404803958628401161360336854813455050935903141657252576055258698787030511931907553636345440251545233958233658716038160852821850071410354993608466278407506123683876446214589192177914259300649731241854636559956751295850203082278410326137151135198390612415964633398239008789738799337167288720356789486961278469180298840007702404614168435709646116237948458002436915344623192970276370458105466861864892006481857884470461376294282061421070348036308441116780061481502391369013966575803093965904415912512096952973581273097903258329274793996928243831492062590293309286010332391740383834274571135139845774783202448838602196807671633165349867303474540139992159822111671115125442585376091673432769990400584497434759055642063076946934728356506499107776795892650798323481084018224489117074966510406187591847485769721036743268151484201956972207473448220879286996083629358763165389047839004874274793515152841972707861432196582841706939049681577256828050,
  12202075109236346551769315157232381050180225855175182478223413643178816520685066139422626534469728935978057557926078321667388980661251923880001695343252262005288995610861328799507595735547495524742430832870191803056477082736701434453937593763155017509351851587985050694639052319582925230975140740525459563140074366313653185988575773788784190261411868954456504216033706478625262724708543417597795006926490269511202750263095436740580164721315926794537943694975261018446608580007831271913160212350913829704258702336416046448461284709186343151986536546609026761822474718012253559968132352238667955973692580689597530371264802448204581370182034328690863716598337757108583301036874346577411062181431765563396210063858316746748091887170773765355898662202949987382744425547924116346546794060365024746024561895259093499667359512271273205240111113918523027067614277230922294728810133192963339978185503182934432632206469801012951704557043006325015625043150836576283267412300204950639717367841889100514252530524968862567387384777966286621649736240288369309617354373373136677583,
  58357017944714574708124906980229776815688257225708949890899120660554025206080132245048251208137567437661986796426412986059431128300054088818812331334729747312126744443118675943209106681841781026557335326213877374737553457827904151159313218518285887774417722966204691386602093496942560536450662133317325961987682588594298794267093801141054153993918960836361924874187916930646357844807215658399312037940118324480201556714142859863727859846970740475543618234815879601141366235245480672034561475693978012289565852162256169671298369008539004383451036299591188765554858501038242000728257383191539907527071272412720139581995535663735512890906976251070304892027945259155650048553046678249437412341710845111272716022109419314554015799975257597062357119650920779653514558284969464124712726275202638568898807683516345882147443822121862964661262708267422635057195047392386350754121166483026200971276710048982671613245191035278362070128544446701113052325226930150870306338451974189270634069245458809137680372957533468067793504686478745877073762192530528748136198511385757845429,
  29107665429283407134350225088281889291524452778398747219008131438072043020724546793175877846662665684652886150768840312232121873329607244268494339139482344004879473181001567234526177025767088679077948843575976135181772233032469991166575966356154888040497320129756009526598823496022332949604235511787278552924080285877667806337022880002218103354707338193738262267571929259335637095406157277805724414831116404280200117378104537735697122670282206349312690545498167184995028115689010796880290011256589179055592345472292137852872328218121250345182059548096772277660713101778603438829573318206423587236993410098106172349638246868300913325653449234684068069390174735320150444061138347551904288775406077581916178115413003992574037864435913019078461131559812287433383309853783972802072728689232029894397339481981775713924749169464666678961234291093703387932512337739713880254983507066465501643565968531458265075610705724702998374090486017243764198142270431480373845293687436005363912672650761568078131420041224119594940392977016342812407872080852166630645923056703207098161,
  72252902696023063081292602279781774357161381029192980622509729023421402721191693803271329832008372850667961628159235828668657609990441599158720394183682247309036694969071774570121777144672683511194579923576437894693565354208606297301046730719822766077439302309468861548281095152021597052550236156478355794196881755560913857785219222596477699410230570038366747623550697882318965569824146502867863189211312240606180938604883264517308401695014208215732606429222886911152502549936021800510419326096907384748832391402415585332601152850704306609322444248252414417460744488445341855282414037622464301160849294866458299855205426715174054544202062807034332941069337272642970668910815358484014909456938246216847992970706873787740628928325451342260408837187219903835552674722094123126765963381557250244846112695927469752381449321640444689895162240069283709586273806888336291637240041875958645520463746275695830507984538153471523066411007256923629349276393671091313512704030545769699668455358471455918192837712462583521412445812027496607847718105699457043360508168509589453746,
  30795183950034717251948443599494854468526812973590190690653598903356956031006447968263120457319101154449655511226841732515227738630308135975821722905976613762764176616347690912507016199955375964321155753439662168827108403675119299960008862463219998754180943600530874133962692998207629668015488090523558718680761698556060434175392524049679996465176000269269165516987526525067739508513040805388445060926010964368810894202685615907389985099082501549463918220970064845536636689968589228638215971107671797678975011542808723039128878869961867893071982867549919743262709341000268510325929632688185241489579124432764872180145298218574977142929436668937836438222965859111417940518494207357064528325988459122593949274445571466776515114569290313952537580463375857964158116362187227661518982412205351322422488256167742459676541254033178449883841113760735007720085697277626487365278338916361424964210630883493089033208487794286440497222682861859946689343794851334855905828206964612394649757412236283139773381908745580331675172722386647360336322942216531277635847730631534297372,
  77492314973942733916813987517165017810326131745506377657709788695976757422149371635288456874197560695360039337332020651649369708149229583433116310372740909866257470505147022723096296228767689369377387123902046516729559253963757042296827013721597849618036234804337906397035855824221088235298723949688535770504518289509919376347473203519382811144209254673933678229258496532200800152631802914086468882484513127730626798081559547648285041727113926403155385040583548821872063249822568308378114474967278883332002871767003436969011263337714068149248560992223709551854738445717905417687392791717851659319868288756418186776876841019149180793996112890707515885455246994765082176756772116466364276819985224100965213050465083407275744849661976161460840590607410221444976223667994484837777546120077234904834680479955363749200222871127185135606616822912323921800558278141858159904406240526254636771092443831733984763285147065350007978318491582401175956590053502706403840870712334125490430058925526833691094710188568063097486389407660730095765914621565050197607344889921706745959,
  90100871084361834433277876536825877230822334434543292752645035082751036885278769677924752905435163484717783060043423068025104169270984042942326154928313761218792561598055496179934882234043222837656531886125750264078045152954197194195477977406155462426767143364705108681554032166445251623107122601230893710475506825086032404639086714436907732441343984928414678828471479332996215272656768340104003538027202527541843522537228344897065811560857105993366677451985660472200841601908600007880595268182669131384173418199055901058235929020135405146103729259840892444057996292612098298196317512145353321039055651854357550155063302303939832174241638876581418283754957382481357953537641564860019910209763533920754849348388692816112409042860516889724156259375795831898950072924596046798855441909311233298527184462335677735993334804074703720532803470697637002715728202307305769614148719664204255727504919503663230046513954181407251089307094439783121107332766875928037765071725136087557193764856367448558888257887661339184493021191882292709019500146842343636992753199546115671386,
  85704507441432163390407802999234905814465652044962335154357201055418206044026298913181811835652148013865548465039391744227689983209599473453261485153380908818440673726935784293194085081800541112501203457445303331397380446948852770989980569600051914114142279477629690392241524461598136812557513984940301589089128390396906823715967622826543755905616030020457274561527945965191825007133487156545101752772344850870016671622088134714559577331251876805648529105407392802221120032862781056402439800380701905697739652978779098800316200668984037215519624334297992810095608616020149108819115097937929003694499120621765377482371955324580636150130098086504424252934783569851494288463384019650862826192681818133145352271022161786885639796180425572709401969041952782218972371157604600163990908887257182510468842834618913181202969641334893176005480461049509279897517631114740226421967576451984887245324003253302518248307749123252566884756169542393488977846191575794422770855820578541006163487982613985550919249337634419693864702415434328232827684568414269943837235402540939373073,
  80463434382820719655314032671584701694148331391499674109081253099843163120731085050169063293191018211053955855670398241962916952076571999272307176373081364238940148232626547055090384196166395745836874762673525255811990719183623735843687183430590922179954499692223300342870822693305654467683677675587796083757183281068255595685431680457476896844792012444397487470057375724574087492178275642473325859338271836011855063727116823814246245890459076029692142808180577856018865526909992792215471270895924017947650784451441464551717272454847694160766247832606573541389446198858375674984767805369839295763266022647239920413652162373636146664032315518541515481118581084433985515043673480709801630625247510197150466954597491414101130866168163686042103388074565199493245861160487111648627998380248125394189901363772731113383426677853259232453334485375966471620833853741226355530893744390195154157567994245323803340830721684199478996812426888461659706083339733717714436498679876718797251261506319728855406319151261038649620313740051544134572104490446705194515692273936673249768,
  57391603105431148168922251592576687809534620488181913512012841625814721027809659799919441603443841823262314480816732189123799465974694473719947344754614472906985885420101625230641968059723722842337324511406540283755263039707842698045973210194934570025250559594698145422107028369067651113380082719704304519247809251178562729103526279169742580684026273075841902146284409178984425616298673909100537002978855069858231909288554409934577175078784925479171378543226314655666153587021169160431720984265232313966065488930853830196834019241368671420697276336719758147787236143301726125552055830024756665571711557695597207311136616476492124100074325367211171819026986473496581301013671137322293076821469823309586260175527216725842477594432158344832516677179538137449644406567381383266457517449057480046505684021118589827064600254984222932072749822069747698062260826601109618485569352118066229299403801572610103842829608898746065630467985022929902092919324617716061603848014225088691237342485864417312671847466345121490808553212758118947482517859401758447229142593819966479033,
  90875103666661541646865470072022022545975348098423501364848574947885547459213375096376782165427914135474670062812767442222991188279981357269073785469091101556810429717305778842476385374026797415237094624639434605121639245148210507976032685986609400873234156423535667666375312276348010107704548905103240579565966741308311579279748096695434726072474106920153392090933458277744733961650093575247112417075063503208867717412193495146667638712637372846116040877063015837600111533649212190203318068500324666379221737979268046636376195583620471957455881725511200080419911461363395552011300394239159753566741136702232551901934176455731469482202225229548333297745560513730774251770977444659807607594546606593103127348715553264389083383702773822074314568944586437175412106604933774542490470014903959465745943771237897280058429396210552675039566321492376729814066350061202360793595072500261188229881702440932306066540097229824335376524377994159185149339041722501469974253353780504362141093577235490088186907390269514016697214836261672332385111763897273755722811689919980399572,
  93746032217281928453409332584411696304062383003542688742902118242985645124579520734798462734619510455242561373629943301498393729111087052996951918353365053484424284804631047652208342085936517309658449613028583365481954359818675622029416138432116325768598256296720182890678112418686878459731338714041872970071191986770129310629309694989935481392187592880483984513874075864302765615714733518354407350625531234366496005310914881303238446265204351362902626593330681205115888510435856994564993886957070611192357275711029419692899418765543688425692806386143513031063844433431339619697973356152324266641706639024036236559357494425103835682493854306636956562838134975783190902427704990944514111124123020604342232889259749143823157590798442351778454112872425949353333098571097875538683981754825212175181030821817650515556345242994845390457756267446578551759148916225117807053288117045974059759864583008005610322332538430075098113431012045083319042286546858779944012296561656389081595922394034392226001019722176573621711635990257575290003386602274925942193559612947551851369,
  93932496927866350652388267689411676389089823146190959683386123118586714957572705756863997454271130365918183847178081808417520100655662130476326752494668205997463936880649990764134258089308204090236323835178306322176172064336320110403440994091584051468783262604775680407126154842603468338802680940447930891937342390363864402549244811573907631680266467996790175567187064136332402887050874571658713959164292536144025978402908713437744417589566558113073762968893475271737113137790003100827293871224879869141242800845027251225463527219920187624235080278447967843370236807361439928590481111125419311013509593127276611248889546891945355636218793299748845867834814486269804703990091628952883689113746167315617024100451577570016037783703395725392613540532501146574192248012182431698530353639459885750411326222400541097051949162925743792819168762049267568477748603451383969467990943530558615004279444831120630905934432470009375367100560449265560347274778079078363950451876244839269798731353528434846388813323043979277480220152961923554860004734273095078678062530767364333228,
  24196132427056557794522660656950161892625626948238005695033649150471162428579689682908969058363758278283892895520363223930960420462287810637658111782742762532340505564585343287393682881055582302015544340256660561199160833124527637674938321952334956317862584221341665748262887744717933870329083625039959451591113255050506004055193310678540221401392893077471031783341055948291837130769245697952206414022795846705868857757846872528947007508518500453068757078397466638450736019535737073785356700362585582066737243338623835066357323527255029874737157104957827619393563501675928367423085383857351276128826173200948780873129781099401372087532187962176750723431042040983005430754543089347560999967053006260089395875398030047816817127195093934191068331792429451595438511210909172267321832118162279570595447822536126829509548622172312363166507257218634531741072397650382647261206586272339002819509088574096005768787459135373146151589768102894467346086010997367803156129155718923796941378351231627407516945694908680544178759792003655469263444618177373227167003444266776046094,
  92481205879706465849735288079241531563932434412578917793572590178637582569380634250443054588279581374107560228758444781096542765176706222370697241979180215229145483395625622846078386629266810605263766773584382487337825864288501212332924720709607596068275605802893569806800904247794144805224614080192982744535914261300673153997422039808044537501195397261944848449519911402819066003262802697095448716577923187991552650311232355363968668453024301596197349226235227432305360422337560641777731623856071805040559182350894142161260438937320034975326339693176839639740834087614896605346765002018018095017901524757381590514466840423320462519585964796028953155907754720418751680422104882739795248273749674258822122908418426732735405062974739562518609784580701322766115173325159280125006610307845655227933906611955467698467069311445434165385872999911772553407583626730720598192318641581968334407756173587601158541062885902514859706630256627278188193432044354405942641747287444638497088753892436548269542567705195500503048573967192593691831322499523829039519078750074774192883,
  41283393151436054565549927400340005147528601176491368819754058351813010642819185427723979888911556544206132952148340397465595374693176797126059326227357889369439528140371554981256229183602897098844835199959092724761429273847611342739427076465965860996751230503243760925283745354475985587192797451354560409284463123838891929763872245094869466433164585861170878840725956634464887728389814480697593346348920920847479336641147691694830437595998302984485104669711676118031575670430748683191350151086626814811080662676444881876373411910463014864339513331694386486719125305119771222260512927206628882836514602219447081969546319782481806230642959193438031910707567289113034166693906837665143733400982917691778335023511377237807008013449375124805050073219738123851625063208104966695365173928688581397749077190782452979419561688697223167521045066713791920865389367499863148664101700444576299589453219559866395809179418510560086861372835205544642033275428459604284332904254398613235909889616104911040370538129550774681638755768131629919025081570271907649077578436021697722790,
  41728321524831115467377986753486330097098407188529177293638378968670454493802201715742430599092277663302429744170450074589944751500765742782902593896377634935315947832002254243267251842300506882020825497212921405633725581581127104741570185389317829398787712798274886567150463224664385555348488786876641355612761048582420589186519723435336395723609948081681739740311903093045100043961806912344770855514924729667850895219861090165524898357700496192037386165583736313265234598245319951059160583790003979969517770697952469522983676074314990085485641433272200349890338404285312421123402100498162429185892422243495753608082603067624015469578806472961926684527511160095905378548316367124548486778820172520546398558650035823500202150851642366350078776071519856145256264951591055507477278537981540632716819511175410228892983782225453367566519025121682301691819839425989997594117695875215092794637661963360871925094446859022136218571040722049966386358712990530555270284104677262021274466745452154577237082364445335706452251497567870517194800500802567824607818185487583892258,
  88164176204903611290431281674832076693485228577606793484645865766909520661008787906430168167533916211520568108446789415912337414636821138833757732614027462466645150989210440638180830560804013701008907417193766295844421691227908932831982677233321279200768091661026838723843245442068679756039482673658206734515504267630881815855803931916173275442955764365162015166446685575937259409711518783692173299938415788276602267092529147461823418663672193112269842360868545204188312801997803348787565882710587023709613027479913234822581376961217046227422496101673375478801063408551486622869956915271626335017898033982736448774282315381482900134325678883228760716511011595871871450105783476297528874339274581827686000452775717724788020989656438529423881738799918747129758741165413323915565108908775257686286616807192109034326503014635427492044749312465201473231975770361204501174793986282152535497202671790895051950859097956215389121805648789967857306884996390327781322940152073050520209607654688325251752641013550651450298021343533658755591616836749428944121480486599822561119,
  87972086693021284995016647952381706495642735155258468462892001418813857435106708068039340064939802782040845015597431112977796802358220439971891827408195202452301617599479708280586003288928867410624713286909469466843904201205774106699462157238511091569237592785586844939773606880019229349147175801631652547472728540411178250031540494164953211474507549665480231018551844742049336821498678673878924957514706902466239047396630200661578109357920463627713503946978434359174142643778031190219547522692089547968878254856457071355666985023275461239882302786890131757321917167849301636501389552913159011742248960737494602029485127985592450773793569081333869747037415739655825885737413490358278143407462554235516439689046077958386649966494450747565796993514935135973200133033720811662891676509869480729440329917612907230111404658911382427272632968517609428418793980260523956540664593300789657415766970867192092945253931552743735282800482345750914485335424049182058302117366937604973842272159134835520404257616992806428547140193685561411027658280857040342325875865694650092023,
  8498308267843272774869277955040661110043597647686786538495502722558854224986136573631739614809989360847409717649547154334062370732658697527645921337429714124207051122564494990791441924448328393791380420636238002970028206239318075619226485397394933083251970873138458119857017100249136525227198684083184047846936429025111292751766993988620343878917517267572217442145385761100283487432190524333293992809488390615294064110187937539411343031719168526355316735298536398677616350661196822472348640340968103858504606729601476131074024007426534024368037921068446153419708080881220768071106438905886342157852825822877436754701408310031138429853493528249358504036234592392668831144807754671059106940654723734658778941924873236437024020240175175970468295402550796773098444317986354134645953902276574320351884311155975463523304523550552928506363115240811767846454714132798134065927467320835452822766343059530547343093817503778723176464890964910442558796940411705277662970232569524636717758458788220284605305305466181722096550981839675444011935670278272108335560644665752280980,
  58628703330757873821082112921021038961652312284879203280376653872019582051856182501442409628366098463322528411015741736148823414602873774984914984590462988903284925608395739914059102412068455762480345904723595368839274619006353006025286844345466005785745687250028879740781269950143596964947641493185049625552169444528557452948072324330277365557456104296608835697425307361113031082380003158538736286884921091749180339054828505462786410001316947199894889420953086446502679610071504843926206331171186086120818715732734551370014186768692196704885901036242331516776017271742233050495306158524791962889675944421346235651931221942844071430978955055985886244201736282607350511638463571118784683471588349062334258834361427479382954834126341741688260288873554781665323832154076835909681205488454817189269206203670965360564089875928450815742747862194136716994322945869330495353722967997800487191020347824739491797171976726253884952817305136008922705243085564874504121603355151493103964186380892659519034350197950366229937107061098032834728693454151359671815062976637443099493,
  23695704953495914193527271514187376586945122363671079380115242166244941198004465572125975358046399910239327977083871847534799854360306617746854816743025350911414225363563383883543544686001108638480214792763158479351071062272212328900030400855510346076806651955216865671891813348506806937700390687013762540552466849767101445993496184224689804170186023510196499013377865083234368694437821639202188508599658131112658894829177348973611017473924599639788237708464359325646405544663545645062781650789100006035789584714117881140014704556579246847933898590443560951939559830484119070859683908269696463010331291954054835663347075482559716224095724560789952275137431729204329442145717570211196649273295045892435115422498928418293096801627909990143910006516066465476572330384646243951138306777012416199103093992894039811606167420760338291759306566044008716224229486412092768005484026354604602128643129686176048676854587332459049044581544689760012917675937178287781574634474974431747224571417824959332658959901232631654318097855782577535504957177981990246125777284944635352521,
  70334339313436451383042589815147736236791994181688328599187157217228765199470314248248787596411631008191276660288566473109611646667671189367634721290963008692396234207088629338631255612873406534679097419938288166385060278732800485054491820199337871130829493390254440845445283110790671755781580093867536003860355768063981064235751099733184028068507709966620139938302157057490439491154383090561583001130141099139583290325869583767619707448919113263121640981843472560087662111596951333890462589050402103971688752976341156530163761401724174127541567757338515633409689244301406179749753717442566473493454579246967993011026194337636448667537561087691613043613748330479441225952612415148981699807681018481895780038325763387804353118569719951740840404292157320717893877089593155702274272826581614974080133206343384008689023889391833314200451596140089861121562924364169472543135617018117920055959285439183334369451919451431715413500742006390506071676581905824216202897696844090552454470012818868581435495454205566898387862448320752121741094873647410915786040991025855586394,
  1309155175600279765865384075682363973583472336482553352052477229608819305408210532813113048809262550440623955759039194431714152652754080895298657263071634073224395037998714881512624460631281385241074143597940857665785251694389927465562180588692066232504493702921288512745927021376748342927777412718922155406268330082860090179218753829486291501624540724777886699889007098050569250698581837390135076394365418723293031183658168633364477932900707857451061139914809110997127929438493913670158424189691093862380272576452166781402236132290468097724877826864188122877993432976707163870569511990189632309245899990217975713134517425936032513690208839586085467504777322929062846481720319507281491180095950512581344757157055467848443623776914819179984052906677154792911742669334885856708813947344848621438111159547544985280405742250695146472008424624472299321579226467217881452064820830276936119217385236785674096279108523422956090632666710480288192263713909073768444809318444989699293106036870095308727241026213678870697269856973400228036350475523688004955869735903902069193,
  12830707106179135567674215877257598221912943186457454772051328945878273757752103071194255451752885836334459358005524008931209918825706554866392314480862374414595305590030658095292440426176752542067710335536849552465464357701017897964163130386749523961082890325772448991862299651984232782749959589340831031293267661027241080737954628188076342698617617033100934680083065183477132870542549962326032501161928273021299349341397996342615126485063473483275913631786824728944493214660618479650573040671874828415191474168416908972295616067007281977661083114106186927435733553564627254143794098134638322862433641334789788909126415318730406053172477381035370826694106544406226612937662336325906138381976319401303989855820948209539186024819909896648627135664987570149795340067644785868204910762709697757054915087961976919441390159412568326794263957901827825455689699680322317815897782256576138716770132148021155272767311173416531189220384514736990231647764759388060160755374833823285458259506291023936001654473539429828766820737121927529990736974408113423720201314234045052593,
  16972775590585657003132022465479086657583451266545682630554619314754718739127923972118469217783762006326246681456322496877656028010455006968281528657542598234834009264710128328430643025697652644694135027062145831911049179319414349301770348702633346016871029183608374125327587763154022303956288776844723280302142987294946474939503146491804133514202393881524875937371592838326600354064289535416985061992235303829218610486918255269025574988931977847206199198050179722622476371814459796413713846207982090839588211870480155631852081343051685237415842174781458011563058311767877089770942569153607878091136284354824022828394565804195220130311977227965959838840936358355901185742704482665056343842162536049834085438904028543049268993066135302956244002028267343672871926207940297350617969254101291753762660825396822180621641812462173118967334743094220887670606305467169963141821559029243513784364350632262093120680143169163849781012271071502167924720562634687067390887567539442448270838250878826535655819744166357784924176318814836216441222232363549938942990784092165099611,
  23532512011031423383550654938890927596110536939808302386103713047566762605558309278494357851978563905347432674505604909407708591886510655453008198264452528174087746547899161511634875393067419302334275836504964156863538834492970269883021283850750117307225319474121886030606608665654771424490261810915095583074276082948581103520110703303058709257951235338922157247424785671676788358973767617721175130586934335536764903674373881704440543698738593926649447153503815259632505530020490676462445852260521393121962997057825503270457798044858956070209902153446695370684284521782144523866710469408107506167317478569718979427878871605283450429022122439834339069476764641314581807048184216581860366937640989433649381426799919717981523351084157064761650276045386329995224430338938448698694879649254150996947664654689769216486142392356827531850965408813353323603150184543091811589795300960882380182295483646650730834615875373909467531125542610804096592752714562722552735012176578243220128221736845401883409112563696058674173544188303029104229540931213916325166527162812140200393,
  48524629267702533556780132121100074687510492729215067733282463405433051464110169458015239281064871651193748496284714520592286022164309227073291131485055146260876549103696897085781125139947748938328842659805612121831611530304191551869772206964070517065583074542955680205586064791985611372083202139733715897180100934195299240863180418622996944159001484453489862067964505307736118399136114400730593042057496786395373172912778358482156291480030842989176364034258219775859099886154229150648818548939194649244244270734606536628241104380687463464244524892172700800269889684009770499068790618994349059987912329939316865429778734053637410860411682122328032144301845079668191420237115246394822017709314272988455433627298647398360676197355206465441486062065827311631505717724208876556248722268292666020371485112146244149649995152029735696346895793491184861387323567372723628672295693070222728261893624209144683434264680026607719950221650936519124299129890949673488691609975570841538563266979992872310669681200387350435700139029251245561252590033221973074262855770905192682914,
  20781601592068468518949602680324164502321797845493500368685311200743998786753531880447347851395431773960600553611144063536421618126021263865730946905932559063972194920380562876788287430919096154068691521231893627892498701245388290743083816074862738967877453782363709467889116034175404550891697540592273940492666239120406468558191112089876130221444569725686254529501304112171998091066911541574687485849599866199083983781712633106815336413320408361685895059251501682768475240163473441553578291894992138591091122483181871721948688386571304048294777424440601099690156383523782761290959674815107225829181329982874270549873596774842208562067520671599421809118851021464388153607962345415092134034300612997868682579602938497659187127068051527071418619605739031888512824338726837664102076717571266109274582233522905129948528281613592546990669160185027594016816244982303860880138242498830699639176230939613485459945178006710782255193242050873901267954978440156989887507912316527747212894791531731284579690612883700197518951091669085067985676051658730747998414456849249212797,
  90288124241008840884778373159193613204548263035674749277565413855998730321590540762951436378852229866981851496708348605274465264498176375321102923062590368635856799489149248808960412651107338909663443593384412495832698268242760102098965945460477365239871180175186513673393394494426767754232119108230942372896868022034743959324862376943741086660282017476556319495108722588920221524980324583927172427958667737838065801661372929777118446650250115258124073070963018040694074965568499308726304218300157041201379224567873194025821310945461093699749222618583746519732322036812782167978548254038535799586852096711956323580355674470587232686279282060364871793666055944117539018089837790280843442247968708856595271612788363404327608000580450948161376241757342033947798630322367382842571940605835474378389044641540657909999318560812430846353396799172288126378879916003383378858845547198231679388933628377732064114661702595420850885180512900843163071504331075395455419907964650902316442883447406871971893546673564945681235430496129888453760929770893199421463048220766023539824,
  32157616254876128425412106161133133648822454132448975453566265349142408224913402066175007211269430612496634133218785546802945912491721746410381867136215145716495073219848969572768726883643110536044271571542891366815712744283321333976334300050812739567187482635046210393143243199754919580909613656257002432016658070951887305899197870679368295244048534202386527588450776292787146342219301500563804572513175940122856113554368542010818237158690133941061317832929792041099132745410547130717453300472338395654618716344570340185560471813815780898159470368494257868219263636344774282218605964247457947217015002581733330227320473865732153469489387723270055569460064750620414873316115686228526907416880934990174691276069271989385055648400243370326559752936860238742696015916450956508885490208984849887625009506966763593812316977903451178055406673492287980647697339913892073568086405247056322186738247850716446114309809549488092473731800719660589269647674380197026822410328865611136584927486696312680737684133674344484354915694758172853359440100633227523057839938753032550721,
  67800795954106798161051287012353251890481593561721703239862529923914117857155601316674495414313623225134309093811713897244019512308210327892658362850240295904940492941532776864235979783872458059395139056795560489022429600734317792826184751933955564593715046875619975797431690153572144066875808686554524850048273571308531731244135792320993581940084780355302666178999034001645004709491013833401772294629926564233454788104605647714030170786181447811161624796255323924406800969011790922851352731479550364501613013003828067884533563391135173141024267843977071244855993926430774456327190903208839351852366033052369976131317334834526825772849605743916715539515852956333008194184226563499761732066839099307221655802854054586971189012219660240669460829422781432154324365761017502059129601843671261833291453458847496239270976581693940402863874677684859859221382070348649830522504843916857753454819551137494718952124618141523990215336585113352535414111656440333991014817160305596064373428680323910031407094111326232632399839699537619227136973500148398583884971448168151714974,
  59079590177449277445111306272842013163584376417920933292431674400554612311429161626397607066356038600656083714043830300413434746398954845945112697033377583290553364122253592752497345534833372325862570963384334203596640897285644317895876135181009427545203740088801072788481889595167231262118912500192087373386133650137343488640425225200177046207266882007044656184738968235564714710782682630045214904324105536355452559184213541968651137397886663097500814256431984740377591458789590609845742607885786320231440257646052463724839202431547042711190031890420403338170009864228643418074777777983442555989308922906974570187202046818294167524913485599606198009894844748916628760419800602597001273656939362975409320859454667562340804615013545821550863207226603893401376730576253406555169815277785599299882419464266516768776119173622270209227833605250770480707590718034363357075638283659681399539076072706818136565759198668375105461152180837811919647554096709582495601782824567273685631218502098047036246417619868271774847822246349032781088546314151737181432979288325624993711,
  56297157373901158363108704486025103004969469142583869370651203770466308242164894433580005968687302148524928795382422861000736420364967914869424254773064472810425508729193419606670525645064096087900244040642473114135660990065146788809327913849384648065461017890562764563556445267879731766008564598590457594504529363273229140340624093438516314025260021020853250028031418098375233896395830762373673342548118934277189269303398284120364951771760100346751920815833829363212820663131089145602014822523045528829442917400514389131182798098198484322902983869628251487394458203910940653280188754077209490747861179157700171903879128063762366174401440452070229245232045405762806965793085020398121837840206720250120266752955313083494353471936341772734063602625796031365119785548566937284640420468489277157780434586776100852896073693144133464873773525015924521197659754590876950206056175781935910774036258357653600808937653281370843694390227229865322218288437400138825811162971553457567403214986097554286886579874369009497050979860937702783572233883314539804939892101714335826189,
  67400312252799730336457106160728496826402668234770455830154585574827171372435847099486137265871302549402449573855889966053537090338925114540555812456929413788827165199000437610796725728059987482047989567855938858499483469651949308978149972776347330585707179027093568227576306393049702296633955287633799130785859314207811335111432012102601987304216706260143575841179770790458083808849808816662618535883559242006305302464346289923082030708064941073041567597710077523985586867594573174476709455684268903853112849498801814477456650509614898991517629924164287800047413850804520329530539184097689946319969559127867694931959273366205430918120556692462152740786651432352659207070867879558641686045277535750207487671433377060119129403158574310767777795213590261308082898324883948320949988456830767241759299430340209439932270827548357388507419917136940049879858619423446279608414447356652037928295317016335118153029312723025435629105545863957777802211658866611269335740729443614557490563720071282544811355783402901604851760524329698135502747147052635429352648136623886958489,
  81951679047612474744680084772588713945527367108878475084256882598396368306676476645133082342995384063714939655126025964126916639553294222162779760787495529174856884218248637463247477832449298323544025715676079286742595284943389896764343657548230757547840335036965376873654980223987801192035440491288268359419539718436472554090531421055666320732046388483827683792610550038057395379402151364136624967493537324104404348623823362492049535442857905306545277265072203465929044320220171632423583137835125210957641527412446577626167543609470974335640076904143622180682993551510913855657373411948903218456220443877152700482110127612081407824526498863610383265084808525295149522635542646067184454304265338266686100665577169517144295655590542368193393871753203864115522428847408796387265599650354531601787284299590624897569431465725329799565644275381025956667255876113030863545950868484208170230903776010731371062342933780745475082378560549479876902139056655858928600919904560260320637827290761553970383110180084490112148119277796748391027288205755978205350883461500219034837,
  65764631105684014250421063783316509790934725949942661704520723269101718680689315989500806239975869483897052416122301717289403904669984942721339295681261610046509028456212675739414392795031958650235048110471685635783540426485721275402638812871946209203813254648116170313586767106436587660551655133113317022718232156877362195848216856465284606970661905439540140651063097333651381196333165949030392164270853542280497980267149118956364251748913441214263615547808921452836708221694025987112632114388529939169630480481789296298820112380749013052942492948016114353302390080670657213781679719856861302903012993994451249846901001989193605982791697305147594346496028833289696608150563450566093781292361334905857805509456421035309073601958446371216507319820156424220132684566877418323310247319218685156434120327170305730660785175385097069171707917252855117436278713016009522089202424050305756402153727369592667997478107072793723912355777093468284756010763012791311995391762818615943038207783982432617319663133362063793496768750895240236424692319045416738623583604828374392788,
  66547759485902892040201939593770656732119490991043352855179871403502030760557820191483882880946496482084241766992456758312262478070390557653141263260242922436203719532918554718091596443185685205788235010309107612806044570442514799758960888028125997862387743549659904929673220844972443458243503689780365184909951214229401566917453416838309035284779643067608611599763678720495505795636516693834521021205712467189023635837908339119080206899596896990188122321855252869348573651888630160452941028179736080689549524036066488944683485357371170607994305471921648759431314126975952516610252290957537550950933718544900072907676126346765291664645580371533060205534741620555668380872331011456706082197136019911669601177265351241440510936203601001758405334468987565349002447580184990285112905603628154372796762883123816577437517662456404578370496485690904281846741434107660754984114657421533437962825237739351775877039942552131816901739901861642141354392779733470876597369481710103318186376892728376366023019205919792959179148224416394031804147790028285712517764484105931564467,
  53633092415797021262648130428083893377067239822865434173173648142456296618079313695325091128754694980155031799451669122841384464630874102798782095587734617666779332006361614129983611238785269844967622494946016222419848188284417597250896504323883882677621153869449072231408003864096674795565960336586550083450157466810037154981215455917708285526905878274626801895484098548064776732259308336464326667895198132303438478055425711893324488033710276608066426197680004014576819261412342142109083788260348803987158967469186812759503541904068967278139513219884211832561094874735276486643671335936837371907167136153442892072527305707780561606591615442358910784646554736956343970737221781859123010944369231395220301011367407345705952613302936743793212040615997089068120350786235412780541682658235374259385696643576271097354086523033339574924977199534666256942812121192667488866525631516970660724002193962668428251544756149635793336584523772409968735795322759190097974155172133484533357868142287399385190209367827402155999142045644643838160009990650537188148493816086550357227,
  6417743866297516789666554999878895721790262309084544806465185693092556964531722410894516454267967618197288329584139351338445960416728545739914150804959446613534398450142761805422096598486710994408250815132392521360695106267337367922332214259952302229364090476645961545055948420488131144131720464692670497597490599351169204390276051574466773968708032478040634377784167250219888494354098282116000727729150507598693656847220169410461894445826185511600415494510628158872485140345190055563466615244737496076611357787483740038862938848861019502812807817927450349584057529284529838909157649132473101056333147813464026504626291567537790921372478289700319632596891251330215246561205435837622686092820307774168700459043526358174946367245517897849317506753904640416033638472405464980750039300245766107146606057194951091402482327352669122149601607089722072205462881003873076229689062152629711142892734633921437857583816799570965129751212882470762293756572134890623618601418995950002939343301174633003329729078340263825278379605300004735592754684871892997206561365337515374779,
  21962495517969220085573147944574288225924228767773212885980653704654024619938729649935943563230213110848242495018006757189398611897262182430778317833445857036118160941397634465162725658288616878213013425589073818405734222752790944015079633506963068315858425959758344133931666799730480514710420516213562175409048777330227396980656495900945695698536584320835620615934529254241892916173052220979352465712270664005413539212620953741607025988131267956667461709323717405236296319608936529844425074302280497664164038282925713716360306176259672499571761536958524866449317201096085345723423625450385444144127163847672628333308189585593647600616352498590632887445032551137768181305334664669950154774932420985686593504901062114129914177309980459978865399855599720886527297388216508774800198668603163056123011444933193578407633418331385977273234527021265265772962648846204405032377509270264409159921265248626771659965913245715413925400153811699661401449792205985286546311988145874191873375518550958118710196924176642924238937549451631594772453110198414508008761556264407882172]

def rows3 : List Nat := [
  9351125934261844683035210737940004183828936058544070651726449168857872854526507281049117224129415223468484489897349653315569393268554021166559449075153103970832462344595701968564326756803854451935868733514968195976960082012537990084001054633523364189127960544687635703710651413568371551244836184919250949941414462463217845967667191164877674448959946443158395848718188466274202784418999288032751244966696486793458941329860233034829288762606371364458073713401017269924003140999628987593282399732487871382265254741903488221774981954557079637800427801458791944118907707143580110302662454293625150543461651519860793423856239066455154590868997009872757833856476910334686388994289636191695331383106351444319469299789521504273430274505489128224046567516837384091737414843731819711882264119670295140010484497368688360489262885407453712460157846887947781317083920277018500839599401350787510645356146154845035346787490153402751409018346456754197604548330869216939024898067509229922940715506923777878266699123015899093808133728505552990599347167842350786739058036553895201811,
  14771552751613837266566870550325145683158295906535700608065726990227214337914923752422195825551552739047664151524230841309327935561940500532444145395061094916327038715303701528100887540809332947909865917839654089741191987143734113651271643824052441584288769757149771141471427950829588702992792468332133705152675643942311350262877689034464663632184445921715758792411319963298754131201832522267869678996413293411317636653889683205119163622399637364006506242186919822306441981351532197319859101563625698621817485470888837822021617101491243249216532386557690852747254785968298124948068606644449351918303748366550817554225733526851403898786503007040289933438197230196147340864828347612607301982226861441179898436755838915900846999131405413831939181656430884349788299151717429748649096383896734306517121736027545375783431135217215018269592914932278747374257245721360256626384138952626279302130009966196300323252201313821884482221538525312767676304855187006831468403992681854876538405638483192100247223191661009134395076785551383704821428491510169897533907897563233992177,
  89038804763368137484651689226357162307184064156632492410866923967601216010814456092321337429145784488061247863773882641020861802495130573388369415850878231970981515867117095173880286795801510678804493390248068909905291953284466968288254552920787080905016614853675330813369070048013388285854616540641332025069383559631742436588406472615757600993478411408406299823664823574855435335905053612627428200187848052953044769863226366278296327416370115311182340817867398766107281273257785139211380768154189444041763294630490061864780759891264283257299873528716127741833680517563794195244023212888549117741506531116818362269895319004959229250837626080500331743338563784867495822310586318894073980761449692017917513933532988588534336449979130016571286809999515576368835796903449984723426041943185991220465827495644137636777021611431270014347716120164648321329271182571328791058413578619311893745953236310239127088901391290916652719237745868641703648012032953287516120129170609592709077735616740193911744124471246014178496797282493661458990725500824349970890968096364168915696,
  20898451925626719343047171456304432399815568869354337262302614980035283716651359121693178382309796485222062854188473486939359438432529987537651192492335099196668931068393430992917742911260879728304331663875840237022011217239456114473365412763340270584541778577485248631649999170485476948432053120929273998661075263131976433765380295221416374236023722185067791138872580576777554374253574423899796335819714032277935613974470711946114165176151512388236279056488635894726860573344797283092570943913779516563058538904168168987692580836506882500936119261078911242709881222693468531985170663717420468096376655728936417132493864433405288735279025508689950937615120464984509308482094646064177940775927273518750614934528181767517108450236520442367768151326743193251095192005876749184930277695596540981225396357711694671126060236069439457213648076464990166378437484109735730098749733872155726959760331137128831583803062490323833048619521149826235866733363594360815330962043523180699058672531667967198977573967198505633203916276929612784504325093027849365575704663665005042353,
  80700021043379054365452676915632116230708153866793287528039918102228796675492741413814600656548508777948994478550508894914805288265876884445662729390819614400683983080524037256950641143899331811663770163075193044500215661609123977876500738743398612137767631637994991603580029425394150936118287792564890199706361151183343773228780513781700685461893977078002754504705746574409611518650168872167815808016185486410808986322233409912474922580811185326998795736203036360120248633970529467124019239868886269983543109200456227916998441698832120180955945505348853261754254953638515063118962530921766529165824315900458349693970687658654243281945647647853735525153068989109796668878100256983906871131921425419886641928666875453772443176144635415665762871405535364287851801766219647126689962431948273100939741710425905524374968733303659687214601889996692802582305000250494743195788736177439811819412948004602950542736866923100793833552779750038359156208164728629951618141511824304864955870476420387157706452758723677080818059040842352377577575400884687756111665813925119356731,
  90940209614289011096489957150397207159050424785782964191398186464569806900388364679836798101237694632288836091585443010494261487603503799034417768599956759933050225323476525468899552580628931781172182316379508778459343728786415144638730344373009824804924955400332234343780588846442656516711172540890242516568074345760295714812822409478460558543210753456382184804837562589157517060137146819642168971776054953019924695302390199614826260170628481879635799123969700159444146867753185645831272547174394450082162982830493756959752133974391203106521261696229281178721499149753725472129306870385087565061502752264203373041216162349639788099435270804166933227218359322427911165736309254664967124992961439907500009763571020509135217210267487838180045968331069999559077825546489128367433945158247815280574610341511343563810566377035487980940326526654845824868458290675564358632459180753460775801695839975806488137704343413010596884392991793174174742867125143313255177595667391206113546736483115197935420861547222832758560401773389173211141862365202764491763082599430939167130,
  16035555066396640063769917744823839840452727764172011229122906118559512750665064983546029610296574754375906955550751018593507588378946923408088442421040443517845101844946977660224325727576337213826673283184851041913722572799003023019519881457021217165722765189190273755803239808560285417910869633038050283058254155207922154675509988166071263796669062669622288041052194375553599347863223933308807429440316363392974318457429479645304848126672429605547789372416592547542572729481830358524079897060138339019218816473115578505264328106710783042538278625507357514417809437945152087696441803929450533710695800288060095926155424042953849392236692825186545787154155054376817216194941624398023669701764585168224184823494985612261220525940694686843355828800042360426716492051983003040063908216049484182231793780018789714732654139165969414662854460720116633852755083190003281934916500791575742541572642210731921314240334532607660005408832422430395364285170101907195968996222168572420582700804488458661600852468547117664403374541716972573166435712993493887181992917594663181328,
  64866184797194493997567376889688942187412505181286522654368902847895239453189075978183784293738692711233245224027048550113680713014991275390637656776195040824729457795161472517833405829363143893747277449678965136481140700231327461989829246746688558984335554557604277573762760912058048480271999849553952672342626971751222462169690127800810984444255359151750836095039154280956032294024501253444800135907132943742644076571567194141395791922713654100901617029910319986570525840925799843414159079094047612707383047817895510947309066257504993635142278626507467665960409187273722547794729752121567356857260978856646457541013819301847821233651569977226361516999711623081473538687445595345401386655999956253624683462963168340979755045640501027726108378785182034937053327921389434083704172860535162743180971964185158133463861786405808528993261626747920282290077980614873787741173358302761312079602560784881890468622896278439020499837036853688102771127764916480789399444390409250759048332890872832414244933523646308167981840710198476936630553895402873674490337398474907585950,
  35606072003587845043016881102144264988472971774495941058452003823012531660787088599066303712804121528907855153422131215471139478438631378025693727576221585767928915212630006697169938472634430828463068278319532124797579764030143681437346152646919895021034218176259365978453266760250667448846712460966866173009706625245017692278852056906735900843160412459284748056689469781827677947558847010378813457163188174944289989298716727868572546655367737283112444617673040875235065054391728319619830505638090014071189077122132920908376622049304967945786678841810035863738342709135352809394255181980793497854644802496427368668433552167080896583682049543336741086899344362297041444343961098861270196212361682942389358044719702097389199208230232314642350567106499113603577319563884719181976988071005806703870572501530190615358555901464126696691923629059503854868733761219137217442714461555526745228257400058034707483503081485510715399389168383731109275020581701951231311776778518448777687268042139392860342132389958185132776669365598180645571558540380121592971267768643842853718,
  88091790995730806801022541165164298547985978012005303253225752499741035431088380198432200235756740827330608396642555936595175830516153497134438263679902877179428908266042597494911477071422970252511258606039005296024025458262483257557575612161312795812812156853840855916278057092937246612436720588868157679076930350517895756393400311125929797253577754420056996640220213834735660376916954413189061916061446825181316017660986167723206634974560465097288265951275397273336869417550848721788938864061839846003716868968509185229834465775516415629814905434676268421144524839941312303852580518486801957088922618832522355364368736458347914690356787225982557597559602168145222994919737926897880657277499602061831236191259842299974459179319190700446995540584360693267316708926126170133984267188893421249875569902430595059536766540275330755030949068933593376555732175383356648904107287803731742673096181407451562072125983147245748301211066094797879629490438133242706116552697331798122204673427121226641381929147327894366091827878882764146146976422205029114448418441381849237635,
  27714914690697433608081450429276576158754217052493940928386373294735778423424077954882095312623534027550350571028903943133681481995153566109244774270469991167237898955163904637498396603242741993113944290390576059074155553325065548215179292254764254508718962213113516699330454312000074718298006506387389892625648905439739686679432127054939232744427995717336359106333484418514695342981280896868740832375408026260594329862056291817544122229001840210059258435570500116263341389111647224103293543067992468631553900279513923299722276621299513099409795053020739055958119151243330404078852497109253724174743013883031797018441085704513576815129153624429492503752616110118373210046518961467826972444261780434649844070818194648857015566472912494001832315747489212272150548567617331055173286755555513727525722807015844443069091168420794485271927516752388469452014058436541244190068829957459005435743080561559465242288193127203292340924903397654714651811131459251905725804935151124366891654022600627554580176117435281431489499916146718935238144336846404276729538716752608133950,
  98759620778572778924985598283482328917720811777733834663342418849227919805296830926375673184709704872233707624758369814717742114804321363094148725478149263087466784789524555610053498907888898459211841022359782737316521280197485413419869770543953887497390145741221190480539008552547517769182706070979677126597248844196823381058259943529823826723631734242671557829646010506831004613792748906560307636325981027936611235706225460930384592230956994474648995943528035957281220735900214846748760962849701879898071617087186011317039698435437109684351766492479554420274224706377160003575229427613743288102773742437633846548182324254585865229937019088847477674002680010096731972668495586454467670798787717513539808839832073277017804624993278618880767133092543389284289547339980467826791459819674690198306839892263439290357185733095966285388450311226586325701495178443681391853583920429643375838949238481221756550210355406710582772688757513784359797904449145269179059270350881467187781681401490099155462169014256978035035958724739149761619033480456499169804389482848716057330,
  97080720504665480348755712333122224862473301639986713795127886798643810255425604253579275162413162454955297310236459199301134961429522185316982957104068514803822139888376963907581425519571199359171118755087759625477377513592338703229940139176365803706784400859562468763995140147145722468543401280785856430439394706997121975940645921442901071293191405742653347134164128664510758564588123951140117795508073216367810160373433760157315563492556593937367165619355004588107322335593024482569699655583883053413186676168998085666828277132356870681226254846298210313176077180123905872553472420474152001617666021805882461949664874606456387899631507124429153884042324507560321404776242580365260920519148291010271577459241426287104455972926999565011286066885462748757187665066969779602823041381108469308787168483579092546278034944264254586120459971996080031663034795899289456325531254253443173998536945980583602867451850810533130476475285376287457097777675413077142430023253474040930306942182911681643903916557470032165881100062420718524757974698052765170972745153025094618659,
  93728504011681495778142596361240147809683786888511251471276223179153314870448712057937765503040166429701507673885504773832888178731212460074527612354176665768817010114942899257349101235646676396258065112713396498422824502730566937089237358164609535611643437505650299631516797453409382353289997025627180216562436255117986972162498323095658719682960254668065000046716222402396653824185505730658144606359055955496419820113969652844393015739310520628308914921806342871553537005900350470864609635410978841060965660343653544490617007078995831805614533906504770527431566417609721517919489283364812866046083530718819480534421773042360408411915761644613091367593152863992339638705407205479884795798861699621806442015353531790044765255822727670645936350572878042757348558987682966892335724288086806246324897918958416944579002959286322888293828009160324606353202382231247377367874061794090104138153305761028300884886494159225575438094606302586267698917318461563936799577053825149341530483493122434806333316884026997670244732749061897363345433278280820774402667097781782078312,
  8572634456094708554852142658489101849573503186642174822985673406328525642088746642534053395045023102754493429019160008441503984952021532560016392766936647780958412656042906452568061709558520418712814813474344515393746475496344220538926109954944289146367538957876055842484190258311817288502158858378806898930594521539281374654088777536100423510149310846076543290946086796910018840384162250090888837411244830646123775233176545420148684333531525807526673468582177646255479877158003780737152412484086925690704928900666781140279791636537433395145161411107226456176282259912478849099284872988870529808306524599355173740824113367757972723356826803378116357549983476669908238378145543916215512856385576818804480343213210293942162408135480262308822241912311925661205255016134989977537211303331839809636216624718633004541360033833053057938607902112932032887174995145272045062395800542689317348183540808487347093887388619010213621756502595911351442127021011648093093037494167291593624568786003466022400339535225142449151606042997647942423498377961134986659102717829299312465,
  28425630398244060789798697342060395170075318757863061612647145001003208115941696043578824718476564441351338509186208978574621805394727057491475888584634266518241468387985808048248820805502019288776349020535515856240018934643324268636634117403031223423717251943374514014690928714729058901506152389562284615203146170261756675858620951547768283562545064316264374580760714178578002758760804833259675887885318095959658148160080652129817919584398592529518445846927246647707609151685174638564718762214919321562301012713105284450748107002650244641785872435677992213039965218382791418482652816251046147211630479078224202348421762350643914152982300554362570147636995887845014405130574818011867308723759652465204643509343130396665585629392515681038169466662031363943991734489671398298156274119882627235109525122182170475068625339926753779784668099954204214991134354070102205692681999404251665893392849856566734733257949343731185204896148039890749110350313946833407778669368735475491107761126947029878211256476568149156669190955293673205595772792951298209071515773009178847796,
  33743002145803603144778906200771554904764805424270513167766893532669437359097224008315940237583883147635421404408604212995770165367296599020483630577798545770670281905871864830613825275278600758790702435874381211840974392908362239891253893167318426595596595484958814557352731191074691798283457437678588414439809369945323260657259969758824219293587914543693491043904226378176755732249873147569570134160414988729796068385741483909738944823408130109565830165946280719178447982633284555363597451218726033253578179240687001068616506202782368106342928741450813730609548908924744506622773308385268109020908132431315118495335969689890391031708643714328426824906481266624069267042133671604705742655313824243422085609793500650141268388679333024186546223074720253207178938050317199178734911226776218997084782360811160079801956068213562664092459514059419198886596052780459618987988978124604450752043911951087425762535033742853443599668025487721129385619101220742965112088842954685544392519090409345969976232251366844939593914310582200549776165119323633557844773870072751670887,
  70183360897310533306167400940748760848572870502540396522062498438780791421232920380618831048172321093001720191485125537211230915157190161271374065368354640345909017516919077376312212625722658664549644959123749618371939551519665045731490348698140453817457369758982275113774563078672356216976682523924529815904675621852858455891453014822265840535952639098539371766197101587838732782383755847244288253637262108186657407440201307721398294034324598455034889846916089350460604602972075243052225050884840981344559999075868131547522204656145766233140452632696535279292379792937392919037486967196463071806072478474739655051709747509660626023429037646844450582247222021323863885571451323474982034996604066211777772978606443414673662111064805331614307054651648294660337643562092912703240902104351027595403970654729979272108961839673150847030362204984020805668699225246595358373749601331417900353700524645605869477674688973094413691010744202027223857514205225470819089634991421944317404112374851728895430801845740910319994611280556433442262289579340517365029531336028314329702,
  49365622011880738379659686693856304036554244937571974210249374057019369451384825698600195321516256897140183511652549600636011031202819953496704616097462082917736572997856457130696516500162277788527383407259835596739708240463152591767380422974317852831564944495450369564011093698558179851150272119159176380048296581307898594703973120653780203227603441629732969801205906682469014302949399525015898904771050802538351571584280517815264264006574584027917036556283411551999177884995168857898088140509686764825608157587168921378526143482401986700859594918343799687274938039243990012408929267645452342219220757841378533424878833535474932468597801974307389167814296105044449662857971986849317044974915506755212791116158380570696819657259481529866721333525808676789995964951596061098889306228869661326312175575758648326279685711415335026472140795023598595852764820313639865562813744761293814847740202250445085912182509562477907388965494526502037078510053115696562202984993747508613619043976299599031311900804319752458094000091455821745452662580527403998131693257001827684217,
  22318051406820050230929661772701854460037043301432345251646866456105217206929060367202733353961577082848882372881358894045344902269945387687846572485781928755820170263348795417825355455575490682500699797395059504613420534309269819057255312303387133029128503192281356963960128385345521159435691409774601581987774123819889586672711142729583108270898639204621803453794556243397185624971271409579259619230781884045355529797774221068893673388554858810722367687848593822515403544099482252905928348478013601350091515811453292144235396298755483068015588531659665633944781862223936580697312612851200242204741143375961776991063339146375805203581547030622952772170351482123853049326570584461131965622545238528606444933091816747127236972720295002626694938676067390723574413268607147813063279625225213583451461753197073528090113543146777394534710240060895178155583075721182150799500558837744547319261292538304998174304023070223890981607615311099288865287256021794988663396420618209213160431768011778154296636735078724191834058059780194136413801628579298183208684244469747609594,
  67546593513927192027086066670096446912642578969760050375281909661537566185545806264352294921657908349843792574319715877064686820018182320486899825645633405013849665576402970834480618786696893121635133966878313623511774979419930548228986619040064715435959579227544277779439667263372974662779775357319608434724918119021011929439259038026026484174844478200516856843034661441250061225441185536036696829948065721395351334078869245327059129149828017411210718841342687878882980021071193184154769063232133035664704280199834162572610516704131168493867700277509498844108513693169564448607593170835467673690177738942973154551145922770111036084305577182412122340329282298744398644640191956092300014394993453060442579969384917723978161494511312042048686379167525306349006652395804402898435392555784845807220033202925034659744813261401733733484152208726498583672364880564331283046930530487353905968489776941066248996816465510182556276908923306543747477325157482346420761826937202001112884908374084156663787904917715791626174472533569211027963136363961933383031690960585634786515,
  83641040952185421892539384536519000945682188235121967853491290747273345761908795277007145342964288577789197970051773733189425647467787059514167095015125436325458585059092777722357441369061070592541796579407364489401336846212597403776943629267107864806916569414494764962755479752699750611239290659055560299806182775792321198690451590594249076760144944330214475381107886168394173626824737953620485786673661943401837539950788735707695697363348906096623415203303273664416840915597267506068186919542897295549678007420888087319998422933180164226391830114079597049126719567266193876235342306778374503739921556049731619654537918413623760136660987343740561564616345985238478285233197307913701982509058532692942864012889661556236653366808679676269021933858700947062040850270178945051681786827703193427843070164519313139114857909616968441606620928373208333878676414883913529892584818453086699758841288965867024287556877312359003496164995760829237752268936555707635413408265577248890243575485397525790911342017983026115347451748939422823882771044974234435922820366214729739913,
  67403671012159709430824875344769801066976990314194078502080100063845162203542748953285695525801669871401279094554658446853172976638859223272280239229572551621704395377986809188708511955501483450065354205895881728190715946327770613634760904731651841773200177627496686192983004847842222516625268124106031714365194567283488928109589044695107654103618988534832669434021847931347638061335551520236021763656182711315453253152483185016002550353002350998118745684013978413245041292489951063561883988605939985186066266983743068215608935364080372210569221706210654029033468957152390066799698439819719944948847363799265627137914408554512627737680336924879096474511063094304810474408259752902764930190996182867206680083812477082804253485451549448267335177099158651397207444535596290620297896514822799643822846241004949253809663171584947464968773242941714860117757925464809222939256348473448497344768767897255186768445780419301043588384787449847191575466125277421065198340368876821770985647989749664179637585327608894833993789803869359050038859150041822476926213916322211511707,
  32974075729995059216141953417954539564825806957558191410105474085836697638897485443567038088777622534237252366858625286860701112073766444177034759239022054029211833635920768287468191635734436212258468551849117378281498933173294328687866734127709419506140678430955963466118300937723559315500840818820429901112536254951586587987779332016060230253996395820888578524640683893060314881551188185106339280138068829477553386857687006287381871755096202301678908295772993703948123553225117730651413774797053438937964519477623368044456610377282423774640653174719122855087525701248555303495842547755111923104174126089604176453047384486184959876882445549497422370796274252261378595615081527071735522514060924714662877076575923280000636236617818518201466129968973204506701938791223390280196792848576421517536050324280495374126017027574030305342271641863949578600006459952392766917288951034783250731781367442373727643857425217753618604996157784516405621251200757112686925439127054804174130629085265480196487981111437341575547549991708223661965071527972205089698520513649053554727,
  84482972071078145745145684608611157295659631757938864748424633163765649448116161921604628737029040409753672886130662513809093509849143091520136859403499036297931364403312590118696488012087866614120892897810507017559263159328947593335355585396153573748647327788469290051483756269645692713830108719298422825611441326287969308554351482195929480670805922268245906695987049805652022632188600045813384821338380107140119370503199986558912494606613140897994650450291669772328830601951849785565324355223479476176792576544582052660516799447607227055026040253806930549886106509217465565888873017888384128959995965915932279304573808414378982357797812216639154001074121336095716896366700574845895205479261619617366617966892473003181633077684291239817740029380690464820050593056721097047072358576276559715286685740580991153560586905724472242083498594270765145780433987934167957681379636208339039508329344955805953637604854622311362516792364381354247748419480435893321459881942136057929416741226159998361085501672440264935290269294762413425825638723031974350786160646176951012185,
  41063220308171661124148867644033887297576584439522022196100737434541485089168713374426783595270561315212526207386933218305935658930621030492920953553814549511601214641984397939037189643986934878415890922090939070427578219059357094307672370243890053453120967003508961922242988160876864329829397148824960412446513280821124892241883314447492688036342391829666716628224156781839675243796659674581169914928136901450227978013597693138653945547206845777717459138536178479266953710369508963772279061281236547915708886907667689081937493406103684106738600541100262787008747059471065864514391969805597069505565050151233936665890571733133644764213070656757319919039388118938253075210882859516147506809468839245740011135470274786982168621274321497665188300319603334562235534421417368117005957663493676223290691848803237345192434912465665329718238417396919865871333134120710517073683417241234472371867249415108427049615549503795501528738224860538460676720392875868626261698438228056015875786683092512230401599897538489228360095980752159490258074717157735374806690050015349853590,
  36976722971043715921098469391204905426246339608550824918232865843934026293826856371525962389474471783369996618020115478824991332365221595665340485701123258277081886215013071577934600274395168927524355182396240839150123473924668651002227673515415339817443806293681884318702195394674578806838733045026699348204740930850952940088706951818632548354824966260706650249956468194106470407122731100421544185549123163407340196180907498723670338997499343924399165880651283667905641695736521605028224488521757361133174294735635774830847833098492957430573060450412840297114897365523337025293332859341544883137400581072624246477515535611897734274294259684019406813333814161074909164044307805277729770093827687366826928083628346772591003284128128935787611886533037994391571099173130876841482981473167438924150708123330466386665268851715228773495808650709021102713080114880705251086164181615255674817104786219400105612800134647100048960081618136339861314375953783573446347009738022397066733317884712174216623797833950508494584056480430059112018417300502241962981137643255508625993,
  66729792121239683362625433079201974575553798577860333993611397314797358588046748266319055503171475107408265754553845260052439117163947985454385464047744527444232082011580589401104109453833092047559831301278034058767338113451784704239620884935829339947629489274926307615195947580863523050039063526975508973719632143202797580886958529773162198359442566894666349865566418285278405307103946038370553195307057814332061654837208763730542151049819639823162239461555401624481922748898899154818161610141291114223327424807105120278497238490440264296807698034403160101365988085642296075406956955713350800535659518884145626531983654599814935470353339657880494761273209004855311359086974714535368901571896984157754811777941076041901914565272888404051882795084900826453601324291522888893797519995599859682889360891127109103099730675706218659729673463984306192842955042921054669160915418280351783236841552181865567963407111243064385515415624897517639771881262098408736098299238363730302750594187706262635737848136886836829333969889277444686969662949968966027691600369860596890471,
  84171600019718412362651997930127874191392722798698022724595229401524322084048175398124008257637136067030334477654114042743699620541251450482700210515174118908825492609774721462055366779007552008799892323465359252612737727695456712154449995014845268543259740875744450235595031758880946786706242795049681223173819531934699556151004209215360832603215306918572722599298600395392547343180646477064441544096308598332098942811738979506827495524870662827328053647924741072354611945944265379787498697959643221449501435206166327360833877895746269008896094162137344263820026765753391034189247610563598881700835396449558521922407698130525217319501323741964534289761658135407331302630302854780224851925520783232374548326796328907125627475246122929296414094248502905947415575992751242508506996634735376429407383918207419091625416097284459162561447272170590829385767671304543843359908261608628467196328751602860804035347208536219374949413665519915085368923735127485074294814451965416938229179315309180378204728722389455877264858456583583688835417610564721255643864015185687695779,
  88275174222434711115526234369721170763345046653272476633423782119587911761578339722874708451279886599245183279164144598280214437270189462668035792333375174806410499318521884550682118360856897563251181387504609424195574432639719843107892775247235667228839552735523606622598788598539632877284454683694923676064844122735368292191324554704074421666820674612656707964301200553515990474170854616373362027038659522738064231262187406268909039981671086150219582650064497781735731850521577151608476313142971006824824913916249289255612638476738621823334522830285701381554374765057846569058839482531341998139629573625019198571058084667923649110592908805506833821771837094406269993826919706824470532005794540835186100366116156094508242398650419987316238383574666454521887359026121934531604858339212666377250620851905462362373373281142581664384249889798596679541759200369130045370371962753606871830137648121274105614824487959863510850054873490298447752975753493966553071505515441039093865374166652159183354997382566893264526862082359621402396340971224268268700253395582693224380,
  59983242690845304781419914989311071015716947495557635219458745768629630183899058242012787867557969347231850307446106034839145987949779487113913546290254862822249743894474386826616436068318124885987232687910766162305380086029215833814432845322407462355418799888174723812853596838289500620225246463573161082663603643148563553160504991541441308872154144331745253732106513961197330694878139130968733186136669619394025720049930809999534821942765587811323521877812457183423976468069730697934060813830189077853792276215484664088231264298164212394174569713566615398255554352949817223901452223591925741943146421826647768886677250217123294152289784461629105662854200714538834167814891345667445069291290631913561846915331585581350764875413218594557457701564866526167466208580107002355681687581059596769989019854727064175312884874941390708664208080627694450131967019703355181004171924251364427448521978153703577709617978036554715010064181805027540735836312100758486904203604530637430343887615238289835573728526027901096581135839900820251064150068488603778514517039936269383226,
  18882301899591271000879075416628748322394452285023918486791381569205686354321704163358637035324353038603138245178894425200804853014804232640065209962960096641776937613082080687020130883472099991664558057470297265064248590310071846989531069017432283784757153675098497043483482059931223224751985485354554519808422814507464169325174171166032932667762278190834897227510030808975252050302466493512646127848908741183038587799856966390634505200221239345266865799204423861484757242890105114328883814583700148678228333016407276114036941362115737169985605841735445608033688890692524353381053971593150452592094012886826761957851131323839763615662128576482640972356689220650459488317985864101056438186988942899276314816131141197839485143896402016161447028222175648273420064615301617015673045186184377052127062573422587150628959854886176205229616886565215837784247149479866487707067324817990842497441413030772781221727570393898531076626569482761976332874465960455935018021232313616829469105165367996131496561881423079790028197020753072041377449667453062511078456579246380038273,
  85686022458954061439361499404848428696980648326210846438074333655839868808998847151429570101451205496684289667486610186687651297313962832144102683416586035991143893180762564434460927475028253732472243963582314418661898353373236916808695029220481436237204812347239217482268429106661178494353167259238504105377931104908157295800821890410996537405229404620198482059471956546843007682203732839906146792078803130621080742887826745652227951039753018549245010806671435652203409852097171275158839048613112946667339640992434926471623122346056816004405457214628656625616892869974683821633904331762863708095828508190969741762120740550851100181533020817181367176854348727208917260674318103868754990964287428041065285744478313994874978924434353732018837509779534604400528119785269275442489632574162987942882550607639516510838711766467376638752697508837939890328835740211229563543208743741416249491051576822711741771193223294539197409213659086000047620243281888116116364492871555990829981454358403717095653052756790061038582200502577422429256977373229660938546733692944968154326,
  5685823408507390915045923150813226767810636325059586274551489228285654069452221056355802862241676405576952603221833562396373988080142461187550546095550941227200200166732907897800070963848283124462955965450221207433264365718697134514468968889229510802001625680799512184131609833097021782768602448714433613144592320601473497481486913207742459736433949200730885748206722411847926824053304598692754589707213154584154047723222208392080363241272176311628918816433940368693171355826800063517320974505243783052633429820515857292937290651440822520931400383344286009437177696508292941118971208737078409355275475946676077007395829963258388610673745079261804330672514053521161337678960365385798503221845083723457258939744824492032873386027992042012799506284586176929349347486450464919686353383914495693293534991399224536641881006310307109505687734454230964589543614186308762414944474198666983477134053009577978720792914623896263908846392996906393101638336383213195393793042804984875962794959779336483584800378416101863317414981336434273879803025779702183088650364181062215710,
  29282021587181445626643551912892390746449491042735969276652311469566584458181144763773752350128593126592576075055650198433567754320917506901135878671619549365520291390943771733201558080722733319100177931651968154228088370576507598837597021754117738087137985338962896830262981628055301107557758978534823854812982810501496288588718232218048882601827461644879029172841840002936746970665260086282843883088133563358024351057763528593351544438010102449942174781896553188470873781552236440714542829548321311895375408182160748659797776227910230823364843617233660291719339926167882868980057891191156961286113730404222996244445645228811797471536635791461504943812179699911719553392915467985888569082819110314718381129967865651453059679813190800422182709005693044807483008345642515023609363752556383193517427034362926840234776413899039043362351851350263930095966444898776041743786038172342060790714371194447539522843551677888570909340590984262800755500248725830650557511259353896315171826065846001289326829742161791308116878212721039217579698337007055600479265997432364952544,
  75598623484474040961714756628827532509173759154603250809601144327041198731596968007968936040759775018037409417146998188504662898263050340628173028231979912553091836280779925113306555777258958054972193754768545034660721841155705309674742472328699207294954176864890518966875077362184297915115758515906698154334699735695187655323006157281995740879843326878654838770370483886796963447104488103666255295862834343848046267812214764251660197642270203629450879879092306899776262202336341177118201539905017307149399611554840371522826857799838510938400452826367576126056398439135294087394557427764849924141468582429138579177562329540201682478667600210215138266641101300421780062344321791952368617769613880500659250907025290015574994875260137231942696283769173901232800260299278068310630273490101100314067077900457927698279313684945163089509182904830296500190892833649883721439618079320874232876806864909920444950735986052895721169951904040833898408356330664385412889007147543866567070850184695379003257164362715713573472251059295865110984068456897156582545572563335559457657,
  77476180201568378523640314978538098315662531858094257851058139046154652480727198329095772958055300883576439354657145791359276746643254483845455827309139861671777995943499455031747714365979668345645423457823495302203379392308962273442866717466798655682537325145377430092237212027531693856659776107823598018863075075604083677127418714589669834570275384870360304258428021277883107135113277277749920464830373404864279022583676007739008365615912219662842690363666029854323536317994514703396394961386871671776305654609188565518443445168903346245846829124143175358657498912475955608960402921553939774464288772795162230612464779308826542357480107178091527740165487104682655357030989813108310430948667539415116316766582814037008668655476438339770427571250447492214229690806227876085444048588139957127475613019026375150738783118851441005371031418316347433675117492320531768258391503423545058602263058687027792432296916175459534404574473997117121192077899158121806247094415506947273514012345502046290677833781762141918901469088070798181006734859396797266934876965238322019108,
  20873136965799813776062143345608391307991994916188426151766201151633013365240268650603921725403434552867518082580104629058208364681107351833729751961456122525371356771188784251994023543962242477517373345353389150726288232132196100844063151547998599521588884711599783751001062597243954442905647837242827112768861308729717667450387784470605049817926326301121793285779630213417290584506938423127857447098281990368933332322524565878486499097175032022167285214998827754658306559015958435161855520548978267361357962795749330522011191610842080236996138900439932835066345181640768389987922413230641588672500479862191487276091383655534567175784547455676041291332244609551483125353611287145210743043635547898213697720092793013726170489082803939099983557408289800561303263280487840702588019085387730318818712730746136642050910874961241901769134499707745752836339783231561103564821247090359536816103938413756883377157827938294135462391627057605602271779835321108182513441990267728610496870350607337208935530864008142659916508722359726946248604836665891130395850751047449472699,
  39264526460552266518924976453080721310935209623157608488311382603647916682468008414223588777410461155693227078879326874361283795757685381840746778209846776273672446911189165465543048479710421523977928920676389663589638356641805894421474539622623175326557972526814663117697801299371109824534052292709330039962951371443831951350573178805666396104212257787252801325283848330829972881825074988518314717684205642585248475129554534338676312935464407773405000721996838014052269594709199118955188405370077231658195210530473114914491375858791465623887194647984526528480268964713172715150104012602307121222879224688811363287433466723782055811179420272164792256537042244877632969701292769131500425202259810800999798855902356890432902314785387387240209474483853941778367943233256130938177205017343097962453249510339055541937311556781096005736046904087935062129874882405284974393964694658467774362370280141430030440166179011657976026979051136930909194130040439925056649562424683802034050894802900026376220057864055215622740155388028003468955917543127621861314760525568998950949,
  89323834728790825399842346397579120047011707656479780085662647461192149320181526856763348584378214733117677538206424894580965820041347269571623703837207793565976200522780225182252963200325369276531984459658381037550792834252785825917456435006260843441631129701955375474851856666610908213017688979176081186745294529881571076612860214031901965386239562915131391540587849663072019421858020705480546447754769556787208960159717907361724140611419772765025290138599281353137970925603612068498388821519225181321799809333597821317510704838060219422357710899459174705182470860381957578800281615561611665853316284726372858902442337220872462933270283531749284100443472630417990086941692873722278380802882663780139205329286772928042365659125645148945492893200840060968418317839059349023762050002243391242619182832918010847706957415586736411928012834964582068331157546262339166418139061988522457343683067739836101046423164641331355323522737526644533820300409551032192889761040287882571654340181783887410155412948949210975077746095597715247869128811244829284257197468820488565490,
  95615768512861059352678026561439383358592178867356600596530098536546206425434637910629888573898318354369679219264775780379760991519977631569730191138816967770383136174316445378545700731936052197001517354100766869601305437275881607049987789365017422246617438193269192862429301061984254163460485330613122444410053811904217052950210203949284993280229187520880003182408337953638642237831826693545467637857036064039922133069977838159195259555588878191552733115500131708794901667727284263034494974713565876728143942654920526300619080005910944956218545217579084841829846693841949558812074700106037683563441033205450016151657240720125298604958894707972183425970164384759848658280980869054903677261462021539863629416377179304762721831365968096850029180311410797043113811864184914158697584986602245464927651310287275862938670400213000595178163586440778748117806522568506530713507342458944602683462083458031339214535422338754448630386070872785027777775086776299202224027107432459134004028928720902658654473562108425271922286631314180112202868765811959272712835132421508816450,
  19120899669021973736772018155467098939927354219911627316526245069499200284852366347161921013531794460181932739607212488739815750393461817020822302795639335431676555278850293516327345947265795104011499734482377420658757303463602505161561392726898206604832108554232208407202400309137515825417460421057455961533919845890027397157437538022426415567778759307934804245360144550080463441240544089726593996633007997972592129223109419470783842041830759662553943244560963589541422566136737969285423713764749526337556977162602199226734913942723609178467619658720575970336763996591575636399342505878894376683014289164175738503388810078600218625038800881754282047678427259567196048406057121007965616492691699693920855774499424977562114141333324323795150936409664134080844752861415797124250850592580508106462051245722168848201979344115322991552482048598975130100755988479695867649524880279423231241980738873590666649649151139629244887105704564341997817437109316921664762069094056656347912220876673531620143957944457621663868466016550053394793158087747107647644547839610999272348,
  90028514579797443446604405111760455861770084338760531480088536735702115650361045487992840375321759148201882993997086526906455381591739541840830826296942142296036192656880385459991453155319530519391834550185884549349557882374650985608212984240079518041763726731295371159953298713794809681866455468851443625835036662440852558593062441470020188212204642192591723459339896192579016317752923865551976562492371628465685389344727069088244110281325841910775755054815966754311956994397841516332406889407043926608112156186190253032207139064676977326836815066112376928002489683557571372311288425827689287823109567811899669697740948934872414661497397279494126610763694029582362830348242237176331997184323999039812849393985868272446460540716992594084518183571889109435126417684691477909225283783753239560194745349090551016423380781159966344826207141587238135420324049317575753370793509694613482852746513771468342056262363219717296199917086663830438150499887260671726765724838996673949347818640599731199005296600353299413932648526328093008221083677050197128707669900247813008513,
  5272966844060610164378230719136307049422049383419600953509993987135158792521973942806151356564313408161568884901747824857836606800403926759962908630937903111506727671941876882462830751887950689739054897988939998836266317622380542165500973438436075892142420468068102248730738778094787723527390164557430678984175586097805980115965586660818087835319300271259737913358957897334008763443118861486976837881121510877126677572310183325111391985166650796809644853255663841758311669493885921614166745675555382378604424455712633396677214622446741586901295620545652768104736368260978986496300568279073769198631560129161425693064781006989197020226538674162603049633997127366767957428955566314014881184615445820075931678835668267089919455698580240906776542744450798568453549054758781082742772021979660038202099786595196994492933543169491649170554412944820929676092514799032258890049539549957229930180621792621124071101622095785527048886053819284236085295701406576742213483133260263421770543730953570108907807302213549826362852887826558691568563466259473132585195659138468924462,
  44583440227704967066534993872354752090977064881709000110639125571874068247047136722570921712228672111917253220469145969221561229752437455506882056173695494066627332526041370446290865446151044256007632917948614510692258879443748157789125088591113417223303156749738192086397220651352015828008698246876537375323344666978377328101114526195995886665010821688159759495666029035275833214937286435874599676476525820860555244733912117129797672981403798909728650697649203220992792404020662929795608333348370973437110383136407411648476005069852015674472277835899960842557884272473530611705160202186456818014842377128587661659119901186881409516094024580682619905112961121275457411927534638229399475349910748595614107959401047161296588915916567992554444225077969298705769705847914304011825454535611172427337139999943267212771932319339130006890262678523004204477598136728474379012867170965176478255946009076012677038666595545097404684858912713323990972933798358653508097267094853161645453079087157352995507516924250275201254820633988339034478284894862532638437039404450543436312,
  2404956819485038629028569337191554779296289884532505765976820764344629468981452443342055804499465858237505365957053622440381842993593544150681350709205774449799905166769053802096217663656068357815873203792310267605286259507765452905795272104204138524615686057656282187475538902520578508007406933729429877374630579256993775040268566158661680407615422161938897946385363383112595824418797097195495224074795953951942297685825139007695483654789933863568806182905679340765197580246742179102503322169643776004412820779904903233081231761123799725721469283312184717521295801191664227393514437669837519984530645787366407773806996529187031231945950041645141202258269724698146148818462890498727283619238127204197791615571313447996875757033935401932546128936025654403122892178220340954344388369354604089544580247901808476297034197962302160294516112476916501860059811641727438266730728952978409244016569577657255557295761302425335479095067619819197014241516659357446039596736185325510610079244346653294418180701214764603012486296399753334724745983433900868516046724022521613626,
  33437520040663234254993084214185882609820943615743240845647108254431018830907726258570251121046551644620072039153746473932152920633797970985170747730380605362838981511969546064420171139295668853118832806264334317017170205170264852813184125163439247307171335549506051586713611010580504697835880611507229261275769395214080302982839704314172657091329508291125343176943080754686551329222427649904174047481341076368194957397746437968651830444656683983184841948244176059863821383782353137304522859498310101762249439405390186494271323242724894320227208505266704016110654929802726886299503201407835500681783266124429473379347087040369339474448836401463014307665488869199951906540631166476781940497301003751985705416725276470230859199227399842341493349983909786403439076922427293376689266049349441694715697155470599042174219258825753425929995659864267684514106123846878806544579177175040277628236063300794375840743669481319018301570912676662079893317001720205395490686409451497740977410943734521094285968471727023406450671007142874586355868678236996339079944880743760883533,
  68203121137324451571040418642925879449637775145772351175866088174938782675387764130377951906050406476302680647426906879414474482693519539380970178496731946452891438922238632801012183431411809807504797024389919357272570527060547047281474647446208222454074714169406520696951676001055917701364897132278420170033566432055511462217933132322217119327373477715778865837696990791171131728353740193571986318244470476154481845770252344124845509681281166649709060432274718336680981167836515700468018768170956889324184407362310602566274757479697637472090635484029491734727487308120195052709637583607462545479352954234171272681981339902641902576337361165697385508744130241104699836432221001267728682180949890762368689263384417518856262832129659941213751796989052092475199878946684512057837358450431489084456881613840158803969872920098540862969471322598632313171273219428914135494323359122937242309660154616499698557962763275554577984454403223040904934659346663308857369596023285750180268502120007127142076555657726407983020729194806512936021776113609391135939353081217736284318,
  94417396213554536050024613878796067604080531693002509344182571342161361444011915228953065300777905397200339662894179465964177798355925342228777465640003439352647735178351593305571994715981212503801755954757774595152071390843361001153790490150789070567088184457411450883051229970020996961130971218937285330835942880990492700746796012809697182928394128198960521323361070521443176014995019958953589718336907828313863423685795679656341929304976981520997452887831214597368460756747663606003968791743542138503489532629582054474876924133036611832868911277831754602912791295567600741873322554290824475967304300804589663453378198753699486335053772244515901054165665887069898901375388802432758515141185845435365298749157271886535640826832722511014700909898627167722415287768986226770369839699597828165579408882537183764537402218188411874481338287947196445493757002072346962533601592218202808179726049128292420726712980024237600224648500879889885723158842214694614749102789155465212305942486102726047126981324149381499017673574896094118268050477173013164589468234540907505186,
  16610154107017955417597598280422938627155510777799674591224661638474771460111789648586772191861044175307319060399730981271821910672442441948147115278343039206536812214246550226930206567588127647543438557347426328154927705626600665467118487652072673356547316696621770698336458358268302077663377786474895873125521947859905262932469843638246857387232842777898399257375979040382852977873976846638096241754775914830964299155281451658037282442319575209277265826932305975246124505643557559140534014297675082443347466243985834376148793899641444025141130024688693719521578304486934438407345590866909464481382353532042192534791688998014391786232376017552145946542744591797476063616652401862061888475586487380583089379600294714755490167949590428156184287251585293982983632066919799567389478800199587980348283125992532975991050207350736266025424310513286294034955417639910947632944854290444810268915259589521457320122663991033216800068635048620073570348589610617902776607181677068179366318045382379191259561984388576095180289432157965212056576110939899154968840313775493935408,
  56953449908009012703840172626180182046673795994682954369719423257922064747097589525107002037741719426389346496757154272504046938718835727756344487694459508498638877616835505884970028685726928054212917958581319142283803871372827552868306454333148688092151697237876013755279811045966988291777962410970709137037883930450645012459886785895788637091048216529811520583322780817799156082638433465541976031504888419198608484062649003995878169329427061962297453127136532694441514636256973427524160873440269797879002146362696262012037753388367754969157208241546392424135057574943231795379554632385241993089406051134109851878055884092735591167161670187118155350582366098569193922700064682288358994486575226714800463165675219420196618307034521639282318251127783428328954142472172600810147875803021229475153440371272332167086572434181080477957841442651899778860114020271232948237623382689209641111630110322175485080943353504340776283415930030005339134180446423526240038073951095137011158509534732482237438035089352893521658778097600325712128354195312255082041269876035418900771,
  36511086047181941080884311107425363917138988135975319323346515798647750468457586989391963118824114415430357040008264012677795384110666509640790498752217172264156490434959626706563289904578376011368513262468346021348455756462607773521883602166221683273267524660090778680934843387919815646612082484867805064429695846021029304537246334876025996224270099370735871074599684633237610502937874080790673626883143222400263425418349464974943378764251078629404943559708895096801337624024819095581134913297913613799767020614698043501490706733150637876240206623907027183279048028514829560611547406959972561949296683021021193050250622682638808965406298455619793389128419758811358200725743561685767723665936577518536374076870100824867273258270559473587594991527183547659915630391378571672985440402751717388265873849917746309881277693341113336407022766678610507168850450924177681798125076910950909144115833703031224085067230545812454372712593920137937129895049768896410465834850748194540118577023591724690129665114821500743422992828122279978737566992007129628455472834859249657682,
  3078846795064702194730980149497744309949779104146628500906670090421960298663311030110011132782301805889845558966393460875372851907436002284230389621517161956418065627000999956013489692855739326265725163640020407998471412336038886746834087295761469762659715075739705145216740388083854201531984940935620834941808448216518439071864548579354119886526224032719177493852757822503822693597054005494545632486688166937021367054984886527552679637592542953115273943389962168015529068835137032902484582581507127636005483568596542941065170419630389669909871302275853459041651175097486133027113604353170371718416809873141819585031564870772149478854628003926277518456650430912603414221842304210133140285691502890354177509096542281408332982473259563282470188681318906977341224009824572047781021244257867941962179708245494715165738807912130559425579829365910185929521458891989736410574890894887746130638684259775642325268634634396779838391211928481559046325726844298069038018489373878662677601466755693021431752909926805769995789731762891660092351933832885941822434444837337458570,
  62267504976827361392921256590388559093917896293628679219569856722077114516768711517036384009901803018928779566852973917705416096145306993759159622783391711279810129843002774890935874894539811735338157684613950841856380458329867284936286928780127547239866389241352820450578035388536484709732754492568009427559651602910345775124513594193215268950901454459524169611369806470811023153333882766622987028410072488660528760375404302185784296422316353133503406804027844414752008268900378635478415653636895673116883950433545631780101661551036438448861498271395607957291390579008646612982441522813477864422645334901586371744886261087774283733758627720819683069638318058811078938957283767783011869997008943365606245718983815017674655124808934944770008373453061948200224387252360495475711739466291361825244605762600948866902565813293113506744377932320250380205435018529949807781052599853044887550724931255065100388571908248547838993266028603373935687364455746756966011919160143880775298766439451357947607144709888932776605307411631153013911049232821931105880973670474323440589,
  8828564002679759435346427421078414906154092962408338791081565789909498815712690236620043280215289589615775222060621457988284049182338365735125431269368037987268684755236920077772138117964924003615902345770034941153406833557382487391313539191475815852762541337589984203618879551380731734622447712358536727905300835514369174708516100914754482240609224557576103986096635678828945500333604333720846556725164894623272786930989509455863098301143787825883212299067132918193976522025724558400814024130932133420950689694190778702026153575802182105123290813528319509157259925550067198796875146302345713152953633128866961298875104615085935633839150702622404505679511688694605110946627672376072375052884555332350474774899801582880457530050460916902159645238303826292106303225851732156752808913584883548548712412653274247165752201579356043381984648837766055270265526784708356010243568608832661178809770313606137790936091130872340772096181023901578532920354712719691056747947044146433121314395609675166261128944405036638819340286420485038072860987919829804873133499004845521940,
  65734654155537801466230578392118511432796651242618604478370665694246510969746211106625572671764171963200006067946154444738300958784936312325235285189985719809160006814191918616838901518124804643471901284000707041173800540248415993671028492407559303963487240301375351991157511804441626152220088089789683333245220004404297312612251617655694246030207535958932402085289249243527073965651388572918316494763448810446032143908764832655167298762199973683709458549393433833258846205940157298446429786277862823329069044923276593292449912404613383396901524758560101968276123720343055108979231752867773878201326684509880718026820392202804849215743424256804673069717712187345608571520356706217008389369827536191719737107940739990603683952061279228549713860022565446739856276967564477699256300949570927013119192982495577576375085942369144906834763454604394437131867956302588382681792897579073867577438197352081312680685284194436531551097133568125748283469790178901431827752618088331363997360282959901000051972437701525586481910612361767641145832369347955064737525034060992789723,
  7195082778497001196031316247555100872885217381291856087677478561960638935124092507858062866821553712362464896932592034892191306713471710997703373628959597835095325235982712896491987110448156130108291858127392922110179269486428196832862469292108464389599692881655076958228987337238615783294284880756219323095740630838089146283641381169292290832336756904067876535761639617542666459380243601974719954034836508568871288552924293518679946556844513208663020748995316987888798390898954565467592320605819226177883766122253354733863709677295930239911805566228092649500449877527733462521733263893894949146540382124321807361584536114046021555259753667202239198810502846810737704377232931215975362275051572387645294363483879135289887879058215501111042335845183102276113343358047897141497715251577898482989361644918289793177903264672287494186754532691836408798282666191059531425286630926707017324059507062273866705792873388271849518797606853228061480881864659328799427797461245295409526712496904410461310739091921123969406835184469699304716866174240505192229767529852966848673,
  48368116257663525545752244031843922462332556165225141042359232732018883363608901360504726337496205823706184846895299865267466363021958716136936786724835356109940373813996989004405153889590391032827945728151139758776274744531842930536613637951698172746052088546469232041759114350013503950753484896156924950900207556055754384170290146078181869924923939119438241100257051821388230098035458587811640045530311277179266614743774837366237460202073538403482309687677893623056167893806731785663137163538704715874017289052724912520827168930437398229658837763226587058276813473532994786385827743816547793609856131567793418000201475804245593773783036039563134913576340135030348407399275786595343912755160207530865236538527450378885971248667165003987741926537414501116049507100186493015358275730695530268422875848340321047793053485220954907925735639770275737320455079910158184367980977313035164498978068477009241246589017179499863901523452423144640733146239704547452605043018742129943821257064491507354692970932063802903775911881873901579103827946849262860649355770579275356999,
  84474878454484558005063460310194327718272203125080977502995191976880246589639811415337135068436100113109962982510923400768862681738142858204141106078957011495068943086279652602887953539761168458073043529965627122092196855252288491697344907527823409037934366431756882408319294978354314731449399148449444634289657179655332850400946759399635949907338642665621874810726324787243040629049467920253848591539802660863028206837106819258636756161674883003149343012810529959988806188629972368964165204568060779510100917746573081454691925813273129673025592058716565880420339131539744159172871948757014262221471927891106602750761289442732242913669946659270657251041936310238598175490798699438924388900893934634121382813621947180798111450300020433901579204393125539951922260908899971256309233027142912501440398187050042025960878087081358686649017724447369521944670349065022384096930518259399680394210385832160164007694778919242121489543593744009993796437285613036289431167437089467447379716761820864159316835618424004845427076218560664395978802142164316651900960728174606413768,
  46555288918618196034882585207484555661908969318905511599162690872569882176388463745955064737773914158066740766500977834149348421618440383883109376015393889363106315487134597252904837036883415016860751585799025411531953560707703814971227446960968940953052600980817492700921933267421388744897485958260981627811239347933827705619740666378971366211011150620641783273090943864210443410015684879462446967599935247049308499270573111248239759233598986452827704154827762908516503796081505783509823027587421577959779004592060888004354874347352982814703676657845392604783416704594176917489468082537728362160668568691135194523833890891891110912798514587414076502852590672091111527992591421284355439757589985220717590994624144692846326862634021582660249829211586948010765766605491619087786452758667194236834434314341938123350021289777131425000529224971673107771001716851188822998892084729467521062242455347160799120832204726268215968866450816735096164393399244775114623696703082302094264625367491347034074245876652408826191033625198046411371161227393497964475670145458128842701,
  6771962632936917848228627912056184982809090073238861546445788578285840970960477441126591618895177662916625271687217187625165136317089796176464843096986550203832749903690139566167724533477735942841050791076893352387935549818784678123081259581976513263542563940234617028903607081664241775014401517898713394071954068036840143777538230232741686512733144671792770675415259373709342131975970409314814919948898722867822674696519315663052914595713618397495524748019433927949365635114979908435426571310201971443459520117787594580375078746251804995052213989814784595033178625784899977510091836758799219228260550380285078100178544158073124700713812448131990189182879151729748063153541840272497319866760503046989214001220778491865416706288946143739873621697146657403395403546570420713258686633362792832121561488105450732644643989838002417068492199129748009428508166943564929578343441236526169848230319409486334102166069882846231098338701418928078207374832054307495416428963248139509455899337044918261866426541508190058270723588418982809980191510351770638816439664279347043773,
  64802695785368103679866531939037687765826608503687181035728366643365057717227866672879309080997221922188813671309348050105257264157381340641178162104806787143023891668115663107287605369457537784780650585029952691170323330371671960112352344407475268128928355868286840263257160569745001944449517018066181081906441054552466219974605510837665828858129814451526749038022695678115007030523761609761607516474358393341040779805577229347759913433136721597866105507342278371167761831994859302758572613970586584709868667953396094629188678055717113687861007855007438818571064126920509669914928942274974254510850292688489395447482286306749939427340324868374491455647358303787886059847569183700454233012866275857927095106789690533359734293614200328824671488045835314413863079762659740489308711076885123230786079342451220171545580184169216407608957713287564519943138023272075005128755637620339753300605391520811588010542944317855589339824635645831046924158286611788490100463414076094998214465414603928375102473505894407349196495403702722453457220124463687003138483398423091832402,
  49015795186593378599282947015985795919685983868598194490544129809748419955368963699635471720618181358552592623299539916937591709242861366421855846766772062305444148858262537053208245437448229030278027065751038001710881783281865145986558325871955464585253419757769782177292361207133364124028163497001437315008855271291758919608289738898020217608210487754500133361319171319762085641491481379640663040654035429084875144609304542879788815724796980056566079959438836482028316033894667904451136553073142332760578710820792676043953535466422536781850268292288474386393039583740097385870142651086344620470517584760549904572725750315085058585681974684292904170671661413318850438469807973560177710481176836641077939679436202684819117731482408997692555128826314527801264381391375696394891108464799849976779062995454495157317870080407124802833371117026427230154423913602066185340630711308281520749753719314684009710622503719592163865824282289408364927262824559605155252350591207841467076056758736733618941117427616791555301719943675684792853267322657804559329786442566694443389,
  25456899171225377298404289632547282555336798903507722310316422225593686622402932897079007749621309571349629289649293878759756447666331001001208538049136577804869477100465384219708755533249565430227984049186231967906253176993147358452802777820588676922324779653239355985991799263382568607931297153065955394878327773888071369814974640506625175143141064669754807888250621080369303014952360247668717017783045944939821354666812018915558951093237791066397432171715286101290073335180113311141356684680079103996224531505962071620704028551570261433581030078027781650237751720096785624016907881512749267410160630231957867333096674195332631791548690087721251730723578980925225302256322654190233991410380309934353845802706803344427165192772582342536905924927564449959931893373020241561339217286882111688625658527099872906016565710880738948758361695217062095632682460903996183788978720182268702378535683441810012149346172306767528635990112808891008964737792459795688250073985023807750959129815553066924895357372764132385668467817781405763877234876040325129467647135943665941345,
  53106314069585626346336897310651638074355343126100690967453765014405198118349235318871940799399909553892895779875047727780327084660936154885596579969702595623280284617474416482632048724128298949478102988228377461856185823233466718586883495818421919438832220412925662182136162779449004102238014024216582366043639132312295443465694982722206790823288070241513735241623122747757303256124704268544338532247012797778599783518199543021487594778160761885270838202084834997471275528202579694699665538193959379828961377844300795301854003696616611576286812079579716153560662027357626724712099348262911458725856610030202616546006848143871460837279792596145993239211017039733769873495439047451665419547377441161880916700728524973472353480092459473691441023228343634384103720771001346205794664067075309824085550357688699700784814367551040154533652214918883832021327917374952250859104094126462615872664616191769631733141663374449384885148595135867901870079581736475850407096563444530063108651340154568645460985779376822846423033101732799271214469555313966505481727640197265790621,
  95388132535096325094744598989108785901696922581986048732516163148722533208681152503877839030921096397314087014632627748736199925160369035164018132286384101577891383454820869539491141654192122441037258823537352832966225404053959955125418804695534701692796581808422169114677949577090318147199522420048905885593746441615349093468210952738190692493401258540162129838882360671129904727853825109322126760086356788729911106064744385406313070269157932911471683574893086073417620348424225579743251001003864368816055246682773280148166978734963320996341723779237883035166054871671792874001119144726245671247002497622458224027397707027023503237712416913149130844802726400994497259572092359302306992730005224907365141977781182720305259060505366479310184870828397624359765410245471902129646244072187868542913071991156022134359810926127809924492988353214211516880443052422313351720366875910920612181715721501323049150385243127601602678071027790598783630284909951332333256554242832331269708260482841091164629355307970134715999285642688988970076744233464896500451148248944884381190,
  52031620239561251550801142934559384022589044523549160677057526417751973609044020448336788189156897027789366044998316755033346099743453906679681237983313639844586220491826985980185062808365058175856328286723970216470379261157543687834566404659060788858593615726073376479473628394189492835760504833644940113498654912082100481325506837562819702568696995491876219763972045027900446675639511937613156006454486485525074979942085002895444499533574504683662276687208248316413599480307060161182230915617525952849002899529342873761735102674241881593715994890969792225772144013909127224617888387436080519675153031479114143357320736585904930427733798447129195444645430440095975183097418233761863378115291280151786636009016476974544958957323146795549938933751394956436260145495926467373472160218853132654468600885372077221345275103105952625307111023553788569164995911692208388877078051735438398567867015096378088686475757669825323540442454284008826874777703285382619976254258199293420591217977808277870511858452308972985638768651127507276341003599414660122279489574955920360994,
  60378048483855259599108171236282744204017849802110317627877887503036302263616097666758010603955547997874569981579733423399742444758845313933453664591755258134755046344267161094890817996895922670464402169176805100590718447352631235416442486477743878776517385347897501402520406932991135325561481360435329683129289912953561529040275913176773412777046365308522132575486307933547882996383406999371515422494380882406473326312335046138821594795169175925450984809791108923311377895396640746083457300976511706075241436288346609180038490635692685329640055165359978579130606640474557190848662504146276335720442508766033207641200276837147202583957757254830817635228170657759415327083266255391096897305850456225936898498975622702158265265280620025184416489819196909558212078989726717646133800839566487722019320463671881723954704930209279866104118469570486847004963864125953067376666038942176189387542375224018745815972284425229079773722925510180886739908398854921449138635625388637891615918884240512998193651713692591695779199884949414977115194315755826307059948575863534749639,
  75685597038626780540072008974502527051939796981252968831191645904520975630528337309486023832962721322569007376753391116829471981277057426243752213758250320087363753204645000573891793465923557708362204145285013907946406724667360182753798544781407692125608569448105416619567526475074523902545170531094066263668247457573460704065275753577743201023913341138135775033225611439009760994695213981770284146108841360856591839329939313580819527070692709276077217177790987638546344602405169049949774757748287300933978940641473694571985048299051348428670709915093304457966391953558914780109443450982701736772409790494805928838465752690821406840936752248884246612560526950978010126057728228735993798499770457317611758694198467474290486401231996744622268636332600764110702934889723601262149845968416031874245315843520548918590453569419644606333798849315311695475836111574976677407031544805789781705045731922588154943114390257934504998955003727042361826456804158997001369770936461843182966606907313547636451203468088044854463947988105468098496701317954942866813882765844465058517,
  97712368142674585475571382290726634603164381375014654291945359934360820628279072531886575179734245746612250274430190922429627769366531587168094442427862498407494665563526804502768435782113627340694356164251537923224666458237107932145904446111092210703976045651010128697605935565797997230393938683961799189869179915938694708632424160101610309887378543956773148297234896594767142721341284004376210660200550566202333951957558645128302417714282371577693287679784522757104237281724684454616224472703666186405467249250144671204565478357269214470538798054274436506654919003697852300703720061418372571130911168102172286721258959485746004353295033114695796564900624462269539125112528680378263752083462010919392052994067353165017583782632764100489944648907195082147841020836669964415554899731185444595312327881988435193646690756191744363874898626362765030272068609251880972360884793801625295039225521028318591195209521603087970922306318243049051361251785266783098964840762618711211938564523325880156358456632568153659741400635166538527833027993327618187316429284343663516156,
  63255280877405476696700018814831299264949756061744994556048405651692066062944190747116474057556195518345387406404646634465233320351037784476758856666609017287520982244711564504556724311091957346662677919503511119124849140645554352577254965663926785221917623854753819710831983228483946922294953737493172577554258096479498589102686359453576135514660375139149684512296745547842471779306074999924871503917371133105984182400457742575917866712195051742896119673898889045793126077836316129782569411368450788843444978664044958957817797753763317503868656921432845659076387703508545492288177459213464479036409671937884800156599085262761750977394016437406423215378834130050262017131975912486458792300685002533813548915131998471093397988436544604827289154971076037317445126097171706215491523093558078456283921799509366499044096091569942149387112429146631205469132238606335268740464186976497513460031842898257475120258445983103982014060948468707691618383086238789106146824197283200526150385110681990583517695632365696941423626101521553817250369391988202927136854440106294367264,
  51203334424480829528507786502235886684798729233633452675826546136476448809927763316550213007449452989543396175266117490169121300581095542449122673852851223438369598397804839752464510120588267428306399960890765573443634480149048829835718981640964510119289853987608822969226435420824456841236875233258977838524384542275920567609260795846727938663976401333752981741038008397136698750179251888900509616272530290638512244815629473486671807921675743950233541879714637034135950706887960310150164644742239232867292371725653842901470659068867294069484254271590520534093390143210813138545825970434858093148550633941870543754820191702268823175109013294136171877005809113345796164220301259802204310738296686490703750445386844284408790945807138389620954492075996155366557130684404695271299487830971345078827572484489989734970396224651104987770041793712631986655042482645042713229161230932461641353303916768945148358569270216603190656899930352729669425409329858504714285408386710889273443108736345700269111924324963772982294009440207520246620664473839172044257548340145394080354,
  62734099909640690720756229073746841311985865787988559142521470803517849673589369335350075446723246131252582687046375634396463905947907039289612597648667056907181584602993604285664165237827113760774562109031798086571731999343128179691294296204556952012433154460835957656507832446721125850077609968907142990621463722501837031998516922005081391020537898391562299250064687356797954066278295022474592665617686886293211625656050084542945590329173720098208588173537468783182064470226861276497609063433941566490264262194495999726278798874206865377484001240271202527473344361668130227204754587027046409864346757364149445560401804690256490853251672716709512790052393421702743032886141323309616964755602018386215997872360962122757042109968737000712257994295186963004129541887796287240932784617980486479076998905777338860558382491142283163748692878538148143146224283984962337855773508605110105092612932309949247418926751316188186207532574038684806964904698279991221611386656638203260191359684025156492479064439833300318078952369616518405614103384347993761781821004743519090706,
  54806403205691171664322099215471240461694247104315222205104885366382704720835222072281792307724378621462986066830039443184031897119593875880719811504839775086249284520537660993570351138469597842959544064857515050620849712281233606395414804523183037590392304193129358047025322396391151279375936015140870535146062989951940745755354886861982269324695538210219472021248849044263655395305394353300405061335996832016669879477207952586691433189909211865226058496088149626836546723498404814381094319857403683774663709365806373392945879466445168261148333459808948132301423449736300081770030290154167401795744361620184220760535776542316284564276440937556897155378728695987224574072558628891627542274001393924890937205554561607842415395618839990558247974029707414788143572707914922104355774546093490057376815968281968019771590645796605754942541814453299247981996657119645518856556568121513349098046580376847618266013737175683727413061704644380829243916537132963826165307231060682333889999510255307327441209426994137920110104663208749715410587445826115995906877240942869787594,
  62694298805477860776458005229407570308406385160436059312555658553312311655463865541030072699344773118169078662801195532248099561712788155639351901256077112884694732263635778302596564232697384744696747938171918349844120102842351921959479411888645207796023134306321717435406924886237588135079501301954212568538960669312542793294445046041439975110593068307589866631208970917867381443106267328572913524733573733413996498162256056419741787984415602133012302960042148911478485752643862518142961913689838222749415586395787408237809038341408792976445118888023372009886401223617417643050637038107692783411890172940132946238563930853153224422276881857172889388516865007590484415709736636539394113814143300708417983117234397432128982693088281790845460835227616883923670670181937790638751868898267898592612248770725537077468090917381219556815424678175824986359084577528221087337094710053447043162645326509875418704826040850494328944967115115564045037599221831531506218941768079740040267805916373594923058021891056162459013019130734230922011877489054176347523478720509575083012,
  45800976089449020142283215170817863829715178754102327793778540726836395180372272739907246132811667262023853629580447687448945589355612941667877115144459521507280112452897838988924398057926113395117163372724763220356134137665549360910760775428863941537509112835509538910175699273481058020524474988606569414068805981571455349610211640412992071191573822396496879006157717959575116755908481929690435593444902893696486190086611848364084454709229880820186964350102416589280672893461892128839980588675472338226628746748982760072139691790819941807236451438298943017355303225114789118467993569437692565453511408824626441787817540585204627520911945517150715322322900317837863929972645795041362243073887474295884203865379630088782849749101536714044872706052239832746544345293565280769604772215030240603299608201442874066463090243695582201751481902127695919485480650025159662766721156265827038707214581147446979436985067657688235035063279085526027524578452139311897121959560222778010521705631239634446112700212586723573709009024674069492576669653047973714276265705359574487908,
  76199299797549154709567456866266693317816026949924563786133450401286482682564546781442573431384860066826797672708278086896403276259416788405714594114804629164881285200102610561984527854316767343019418002873928094615194818546866310990795150448813365012546122141354279122839130369472625897800273316800303122198079222723393023339699024932381363017812136011313683103886773390012252524103762883920011468747397830196815162344845844170847115405630671221502524006009566845020996544235778554788006584453063354586519748517271104686923708210374238344516214463591642683264697674851191611783934195142162634345728069393696716440345231117981331367472558103023300335647091931311841549327154187214539550089621519955776480953224728170568462835256462754305762000017214990289645138438331171165858417764510618582508210472454698908552605715433473640776605980218446223023035764928698353547722866911672550929264234953591129778086706764009141760472511018422954289469724271931395782511177137364661288610993859615446366855566406324240965511527124487408138633958403290683016637505159378894470,
  3244679444205006232380567807586140516179491567587848547537980361332045886720131374684222777393383010159278738266403520793857372733187872211600697886849105688767373546820717934420516918691207339060230403595314402484827552498849668639056151812913549133306891980509583195474524347688558773831041434453993397826437905600793257790326877238933597040892906379862359132688276912048235322685331113094927661454578911147071816782987954873977966493933404999580445111442637878055006181201942856580115116049659751470936084824478407151016568819151547630853708991777495003154677919940554302384555684329587122807033930365508052035902690222574326941773378330207785088164599774998435514703041899310927886362855595498666452151460832243270293986535471171461120978644646443256180023520004864169280901251955587967777071201415854032429272796513998214262542785238361824897440083764657199183395660336509497078523288974588149334773099486397383182019324468791919227598192870591900590754067357185234811868346434778505415782822449079858408700586120528447163358777233043808270913739688950568455,
  53523261822111023731271368814205839838547470490005360938657617777304878307855972175388186172720052568368730086721769154412628775495032392221164872217861522620911242592377467055016125582354615442087445842149647760255957274029184716453158885258827884286855889496508427039429899354427475578488409253424367596461265438109202556299820515414801937470048035796677458741008841318118725823857854484888166827713303205091480499027063386694690993512487922710050927746141495291462610517648599069299238175990244161879497023565718095144258549957651792962105674460022141336737548079860359695946856983379772672852875925060444184643577824036237766702987283237060452744255506815180955588868358914753304570116921730819041368219619792444604264993438484527323746191137110824464335016948015502532841846287334922661345689441390024706633554707881416054856796686564326698130317836216464658820830050364454812922884964461641012502375768282189455118458059573209093946206486775093802437912896018008279404748174220633279147128420951370105619432717629286857909094932180555689790662862891547375486,
  73198693738466419585618899770827990016924649425190347377703988630149201118352837232791996507771558163406176196984072223186782701235403499438429168556505151743837735392032256115992975687965574856371399849841889818723863447747735515013535079191081808269895360125247825470432140977846932329438014725512584376086099814602199698631548473576292080996702231230779999766892614937094813131176126725029020251125017695385831757933248237475871601959893096899542945715238027789223568504876418241391023269149165574444845124608305145787417507387176744173551101307645537897887522221852058613301075912720128415816099012918291185666715739299809291799149161000466033329225776086756566635965341818542256059884318442721810942318109063106059677332784039505960669772102777361411827206434298538442465877284718517883633752819325425830054996146148373504141918616198629106706387911951762050556410548148530782364372016539996520950423890411674976436029024341956762244685142089456568032327777818280402353171727161613847452643425617030040388071688888421475795728132416306939771904869321017748493,
  43952208897797746064132160659123542873066349856495138429915119375415682688046403440740031916487524228128990849604910887524818976629544394637536219830608530266297677622972823708841064030679839570455079864255624132956970690312606937272270497385849063548119466535336602643153554561276200224543650140928707010384502494229968246989481931106380584896383496684231546895857394178100478027431024343617063937322667141404764505532068525452777271337995989719129335109533521837623781448282123898331839226954036294419444779393386294782085653916027686547422160219745416250347948657330874869636214605079665721155856826471256401983236872218016273702740854612331531487465319393626134387278498409826789986196912202669754590120334748717152720342378485320199773941089399183239935343608383194483504071701605001971940795569291694412482684602905546024805566374925676902358565496305630549909473833868200225327275101476538201571896891764386176038466914712705020901016679314353889817992613894958205684315254271733398458496778421955422849693775382141987539836280415138532709515070677831761849,
  26867492451878878256523880787559339874189923941064660842841595176800291899674460456234768417462843614905240996146091329907825077671729948737993004970609521902915918788156550294869249948263886396823849560868500579992081259169809576250063252274297757223532446463129919160295278283878086374379484878160079866918449449520338909118199684001436019370933054722190471786161995211092911279170019766720202163966918422241349535264054150343478493730094810750009923037091538820155082003301200760403674004750282381217235331054698371010096575548811661428174197142241111465396494088106871353167996748974279372263513581038998825451605536725102136416929003210731223430072399556914225246430126273566681782285901690339952558864708517542843979342327492533998925840392320798359932521574358425230374366613899386320008006457475088070937998462747096657080943692993610700273453815684801439818002264979616549839242472149538551664906133886994794487640706256601605517178911310515789812484067441540438634321808049603577636933696507502496754659653517150085997507640004559542637011962683350423969,
  40932473254073217465365771218978633545568241703910378182426567244157818438494538256203497811749471046589508232140820478205399922170830963792471914357052689273788296301720459841639676597939924684512021673155759406108501108401501493958481324314326483170638352293389835732862962500645396532323409016634553497614539777543545510180022729878166610572423124306235039912669272559398387044682244056902175272089059731403171949939375760651704430817843584689023226409067025582563156527103991987874499600566965311694201789033319307912876404500245292607775735544830851499121604626040796635700429294141521078517939512489293113108723403687549333211997169415582242253234526991651484270807496498243209108709130271922073605282398890333776482440248216436744892838932717872463012952137775840656766503422548447952734389296263521706924829572233723726052121486755901243751068863616862068481075325255190808700823937566799300052564004105686873213457742011004302127479640462677207960288680754533284461163963670296167636106120956409159039226759772561277082336910179793240276009477905049390594,
  99035509762328552456920149233803895551145369453798964243907753154386610796172549357971644803446126662353804145557367642625144590571925802222930640330494317739911077459948051848434169030124710528400114530117015926417603100466879843400676366135754159381073949023384595997856649006331001925807617965927489021730881865451249156100845649219173398418493640078924253400528851274097826072818449936233443967778341643032861707465557447095887106612285979843832898882778608994982593444570625520846669336207364561329951753464990966070993431256359749029656718468035188787644371927343228496757534874380605868393873208710712341196033089306023521935023796475301514159372862118229525906701857585590486981033613106195370441077208602330006694355982298997200389420507124130963301247398988986501613446041636976412991855139856413348024401090382042098050981881637076560253542288520642504748958680899179466861171932503324823024105980558476638045521378932305723502009715574760259377207677608746814821345225316302087888239853556684084620188776333889382394005969382347555811966044053660170851,
  55431409286335709215944811601753296583413334717730271105970905178115890170866029901605124794507024301232306702621797011415106820022681399975072583213035616679491261005420128645322980067268900094820970758541021988488529545960197473063613284296985538522652381613088966591450912488681312595353629605766031975042950411884393972470536057894798628317140039684807642119094142756812027324542331959311195239505629062261100996439894838164644874586683075485778532874081993757274852197413718094296777741172223936413560332119093344075567878381130451998451486289800060848386942062185271928018778042486680802995128970347329446317094600385951254533868355796890584651723006704488896840610863040612135155203874213928449620222575465858208669864060498655425885908145530994843493842733842178645051398542739742909585700856146256183495270022814173253676539794691275297470131700638354159654463424496835263505948534474472107805610781082964942647881002597931877563923904329178532763420375229756575274340829508454794701524526089931388578312391175126922556675728851334043976962540393117493371,
  39944952935680106037969445956859752498772673480790732676182452335521216214968023449292542886551457337565576594555709239533428142462903172781540399834155641983771801898211247608559555189995062073007140345208155033298149750702442677264360338737539731484313740709266544922952042319900734594639311996535056807332981486584110919944394627232845367711284847362246063313602859105963523719387163459869636443906854053223193152413546932487576730463381703029447983522602051814944458504961203269092337527162355133526234320721943009358815033935989744933526957874572783140396703969100170734149325310220632630169252370180120244226884929098195551171956120838155014485836571665102690866487173238190148609924699131546082001992705047305688761418932981083102352648281081024854502208757221283441343794849997279202583543417204425984693274091417821439492801799745659873698287428268267484421213715468232751128534165237031653070432582833721123713760969593993754953622322221974659619332529074042487602513819524269739101756371975343004479617825043115331506758256273534347625253914251527570478,
  78437678852418719663462419927008025761083927497622636549001865320645499515580290839851327262732196728478302538522190479278689389538780368699318846603104363352437327154699898811186443670114028426202615047388235899747281493343257065474637022451887289061255030273791902640396577417606898976983456646470520471635921448307099584306471727507633718020714597445652514188505037163773818902969685284409258193174410055576089850292327101600898257223817394543698529654769490187384046465643730713195901140761317428220388331360297085261451234907307147624534050245423763666685575740120604059886955630114415443141696986074032207886003132790553917869674163555240250767653085632242737847149746037784064609346812991871902892759763070159840887781745192690147691030030234979458511000180886606216286801110915116104098327308808995433755118718317378655877648735885449036687907416918253831330636233820582015488544982788382174243758054923815972964061963105821516709190326318730933813850113091332770930342511221097215505610491387050426219805260247611607505971037943664771529353491718612506611,
  63673833049956487877936569791129319587827777406010753337243279000973240725607038880087113730965963445709604117508944479119162174551697096484476204617412815453612842260155130158952586280695706392444354780239051686133854986192665676227603582349855691922489069011645986609615679554154921575812835409202539317080737814650788320352665134570706553685699281124265670844801778646149740454921184312276218452244108847150757019088349502243756988504945424105726624609458320959625728720309947765401073985580699661980195345005065145010549240188610891341730607592384394612465698616056090945417729073640093913219567683643332996199979654243480265694068369867061758741316765050602713588257443370721645881952261339705452052344128092317306505198995450285853835228737872869829172758078242098261060609015092521109089899643892978629430141114006762877499207817237947462091689983896189486307730602749102670388394335247424342123671217702461011602406111857168705082440491623894343504702508136491551551043272507479410247374781922652059335513625530181219642499248821299260177408010371988421254,
  74472160296950027742685077521758669179938013625842241739856076699165432757061230452867280707631894705895440618842131571380033984874086809414461845854230344951448521053991248932455486659305335584578277144237743385339208241277632165967538326650643063880695569156202622259469414290079987698344209146999897956832667090414139806863332515652569687878992257432796139643702654314463933379900081985753079788176133743609483928302233803279732038653646242498055114022469226478931592944918040382983649034888638697564414855608560537177228737148228236864278113657203947496906937239915610036828075141178473782562212775995916775814038532986888513655232313938431742258535628070191544007763016347647781261324380248421865669855274007641051190109545289838256348407045580809052214769722042873822020644511165580202158137220466347663335175617990500897780885600932081454176443903235241939731547218920920202474270405857913543792600976807636298756614782644338926121213456594456801042227616524183764018673453391488079001363603528432174780401683146726188067936493046865873646311483282698049202,
  27876255454017850917749772829467569293545166609864194814583644478909603830458285369895608066566619036031004530472002422639388157206867469006192987308224849001681634892125543375444758038873615865885924859755874278385999295417099172251153402542222969223436617778192965331349674775722097843019381844505985075080564948318967922058343414789051025761749099758200123472441028507941231843760147142137829511021873589939170816868055988133546991379453783137711413549197124346581093112783326621759222758936993477049843525192107351757370200545734513058731322143846208760277518405348937132376629071120552694905300388822804204808210851928761076772814548927944032272362841247943192644192430796813703829482005869742015013235319872051992035387731421588221148597431823879098919932539341503787689959695804327251777689866125889395442013917130641886295106652689606241452084480340347411331488004313864731715844681575483653167051260174664076072809596721327294224536104266792809469773583638349822811476691695969557327702827912099792608638170176542101511158110926832874859506462623629925924,
  96943781822291692343254853616041525142063692521477459809419889268147764439053761119174630260741704144922419498001706238668169466079892475169718500094287444466241005863803558630650636095727097973493070964889076063019079233461701974566562487128849867382678546268945120946229054827542330251732132827853165175869340541118457151048346328320081011525254131193679545612612161031974278321038795482539174314098770652570060376719683830478692910032674834420668406673515088586091662976572277996926003868273349641875833211808091686185171345911568508931494044819961072502337896779899188725826867053775743512465081379862813483506643132466270924523654698351740704265136988241433088355263194547542532484588409399378463186733813366103100581146455151877305014130815666018061132268352963971146240104983148464604395200616373542584698260521254538591505364620141659306152413774330372464410397598500156892102790937867860318517672404695991572340529003816760724247701697815214861519474627054614221125691272253815905020395830514685850036024200549094550268261850958754262109739913220950295489,
  58289174232981343154069257570588015736545351789274152712894131431826947690258885478659919689883599904388542274846947311875197488771215019159190888581326376998121590808969182335059079714874613336803970635003695553942259073453693326389696162384254104794629483793746381324612408253069026914650215171965524256788471272297526679202803841296615750218468110886939399252687943950326728700875818861049300859750196928095204823757138945438844241621756626373518033643277401734125942745582026754402788121409286880412030002270631808259318676648149044725799446704594238281114878611771247129940234353193476389778948446256041745478020529553081502542980157090392382147214574805502696844438096038016443726195300440399081842658748795326360174773439634741333029275581820008464886098183291707862124370345940428150160414770581856441322231887793921639889612736992400225160535128293723655737319319389834175384397083090358533308571836931136503700819056545043298422099381490045445400448618221405506052871683134142627896441695333980296879517536667847550967256739077347181693399759001189891113,
  96246520616071885649119266426940160695906161044378014986669982843324652576088257101089919591111808350303650797428123070939519840254801694462620592363635107199014815677440001231307254102560560159316840532816997339070715372088090132654154084084869464851337622748284991612747470532225505791833719782998021737591424344714866343808459910139255494465966742373011912156910484733069805081712972731380662922967849316570700310830556788979123298130375103174678340112081353091466073367511876218722324789683703827950123954449539675885373844664134720247001588520176131215481437213347926567224469179562586330030699458362891038126489523388807638438188092118073979276831412308688094691717655267197134112902715814675294427625213295015430115336903892213841013378832753935920209051942093938979412893807659530870273550773042219114300432566846240722890340217115127316890533946785187382278485158224704841277392682805651726037644584400682846673735448259249691621423903388931811701138913150192228541073818145229259218514857525247618384807758382986666755676288831008601526358935863571274217,
  77289515445831293470980084717828967273412903707607159708978389934279262557381889563194050727520873259994565456085868553582631337084934064139349137491790772182285311600949827036679278923587884316084918389533623615765768334222895927023939153868119581529960664520818861843896972001893567854894942216512361017184737604606038296164427331173040258699852153721647753632066072061232929323962407800474280678081245429927950935051439760211929113037802170395082950990699443939119550034072157414801775922997193282716303971339380034926791334165089113946424796613209472508981957237504911331291669842737114895866286493361339703036247163012832100708415202627689963068189695266669440516751132937869050034120042841739429541445844475412467718508710301949763730646456618634940656615955590222038813571361768234778463109885474803141607518313054403428112703507195990142030588149232148841293569445296431703131903577937739190165691257717806985121801152036378471823289495344465514626784682026303966630199069226106232408625749366744026581397192480133160604128043094030117818395338456973477787,
  55496505226719892039806465088098765959904026835458290840488743590121024857071905695585182299648163245701570374833507162561778784026024807954364314277409752046296007705952321593783926560584763183164539460869129139029707529324575283112206316530779455997093588019101795478468222029813794967339008709934835236592521531747809149296359576803641645315741984082949704240390235340265922135259853080332431785857740605690039517496624783114615470747101524109270990190694605559239683056148077265373998499618880204526136957223089073682258369725346732930434907962315838626126344424086314103499740365508692160500462809793942595737077522421277559627928584177313693090364594363844939823392918548955367647356087898997197780703866209274631851985085192685262453825870249573805010993816323870820228564474021890350370205158682457112552023153087809016194370538717681644829394491186589768122858228286305889861029605283254438604524159887904370477377371368502135393822653949023421710889783710051749817597020686825702725971239990477731332089067421121200821839867778705656294246938200423781349,
  13066630287587520925647732731674636966474625706120034671564090347896314818682134598061272968256545576749859197286737975381067421738580194869393292329785455610079000547253305167081854955082957331645303896672805738782805825883386743956721320161223642719023999031850697809484729803770517200091305626967205284316649649046311031340090378152174924340671446624526247884447970326708092047966021525362297779841303529182491667754733386109757717520892570062709539841927672468102127146446516361829038678557363550700118367241542895404774834328434837475643045274450680844294328800326353481326604760172142269400349628563970257256283718828008954760238666306549747045349843766403859894645814480531950919925945149823361365390441231674071296632618704241988407865603468894409807356511171908841621313370383284752715801402333740874605509019733708360472009020165095766376037863721883200386390086318700252115943278393284792647056206906139403648830945520239437276001155644876784475408356160399848851377292303432353009793967833698300912777997949717046285314100435349333822674849658177523531,
  27196015906172828462137140103053343920270345130194910703446174565771792191324143736496939690489657328257566913276453108344568715944990050920224047579942148514139245457253260782716471305699581372348962272410151358146339359857391762405734462715784143189580687674488008034901047315958190724146417291159828969702593777767500673203833675999208981411198985757705456900880667351053470372132934890554554972053530105573246966105380660995007027547522626763831652725279154833145361939167195510302515194171781239124482761114532218866777176734174064523789930150371042110232238847769373142553479838888837413246016948494522990510710895587932162056322085156530074079505592494459743510349190441133791566366617724617723425057713516044266303431268508796541039734739274529051405512410302983625893362358342678655320477807539090909460140438067643829114783029646518215386189201400711494551862692991324737572992206115252478291665457569566383251147867252560975782740644380460707154246177387337680719306797191303107259747170951488737474695034915202425718743866194207982872883105710281579364,
  2714634532798473494139024208229738660143735485609080295713469226533118264067965254434989996978086293470385536157001037969986461806802893285729725290142829019704050111709396040179940077279073005957406453592391666388114459764187426920093782970522564055698299485145116253966586742236308393508148778211469714515626421839723245197256393926186481618297743853241064349252541686264352270431372380466259855686036939297507794006992109272687025326458806166692255729635224420485867181204509342716663189051926245014908460068805223509444346582740225829051295030497996140166077255644874614627097868897325672101929230098245476543800864374001097572366609241372318680077447626862945263917248970267674567927348695426329629330779938306069517425895653753303319825137466974625871617196767115785959129389464190051959423116255426558903604042611724998909306405095319996461071997051693828158842491614923639600111384532591716540276495476617295659031279164951736029421362818726459267767827689602966497224763374234588532554323573191763216539724350146857623916565043387680021015694435823608634,
  84573501025317463807091205815681879683858394510423679587670566860802659482952325594202921026887529115436922289471789836330628408977303931369921911471481628943832342429101443255465123776429921208276392973771594064139740520923053096407841631655435542402370608217818229921582821565401767669766120899144806005952990654376236361202630598895100772357556516592197145167836743551290845111362955595308758670837780019199618165568310045570228278919161302403618351641223162709045429397967412823508433094522021606266842689197180814965483076922146809272437721832739709295506752479298131156698823159331096989939122543447935774560661126904642965640740541928822647854797979744559229982135300293155312717617221863197089822353116106940684881575528948162082091816672481312890810462376990701322935328445008140894151893110987965407214618275748055858024353816151391877200444585065798479202545694411477966399229790532027713023499786440344218249616320189181180432647831115159468111481647264547761763497871308668875695297626030316668412146343026244079468697828598741839503171394290013559087,
  72255770537385820548895316960180686323258791510705889327168594220715607638907859760776550843037319077176693145523913518622363114271160854458040847500024799875823005870882654914622078726726806363745375980674164794484814973892387547284593438752792867664432725647955615698313724625104542888500733489513025043675009241929034354360108566920829426185038839729213803592097852633481338499592725301325821086087156279941191224265330135185468301475883617271648821814983502877885575396597889061068322286186195298276402577225660572474465593403252865816014386518537361611416307557297037999446651141140540794271475377811114255133972834961152875330388644328160811651900971960558504031993456527982222342807299181713054322774875923028252948026550571740861992523706296814981242042637768598819539599684750680120317039135076007001949208483688796385142405835386068968037754420706427165194190884481774909538052581044824739134996228296437835613093745711476150935895945792653518444582440734844891009395575602291056062448456125600438212279003427907039318710752380856389211364039358354010582,
  7371156598072563030772823585173136193707794908570998474013366850020841298191122359596968222596454588321433935711948347789268345889740076030693945402135727476634284866657596679093779764676816301584881677064603897065832759236308140929955039458378138514377201135323628926420377834841213595082140727120895337331687881000034208405761803890377556602679235794264582504634285826405824664704136419947470546611833543879107633145242000537808999550347417398247970896323065778806615087882093271595756544842616883205894028796721171980537283624065611890799913802883209434331124691268141432182067023539066525496563617615132401567956891035488079558258253280000374072431650591530590694165524402644222655346570827097143842841856265032262749319629589024754165345761282409353540627014400709114820954833364938657662856625027302154425979845382948191301499938168390326408029823488774147168249587848181800555206691015613702532736823984640258918801203376500920647729115868497705912814253936463325614938138098819347295892191223730295843415750510217738760027425700671307213271558502718326316,
  56732297416556993878969323828886666047534639873633285056162548773854356883005726249740754685155054477920664951596322925802293266172296221390772547495226462179754608682099390454206571222320193765629382978088618030619528493132084967387233260394748697307938567850075940939478674254988202420415470667198240680737708036607512546417371045935695061956103385552732209810939122754665443071528565396608248218609920130748257076988534894691543197165697224766161617667065198873444896624586286251522253842901560874089954342176951754103353363403734750381964569616208605048641414584922244531855693921046091709499351230970681243367449929819627438739313209704016695375731733639240662067336606643546095104780339053198170587577123827378025247349903133500461177887772747607203425731481597071163454090918423175198274427763779402582949213724616142441229924935894614340088093891446700320346521898372728974239743797153198307296124285026965615884663944840556777668605819505314833709768685171863066764959789067888706831505251088021562700170042329256525775535714748807170330384064659421313222,
  56028818375188180027781993016740998644106271998252745569596806164230149058371294203283526086813465820686611208819994256087192395986575599068847944798957284718971157601126635233211871997466584003580218134043653557895102240963230644670362396496910274014153840261860400252104070107826599150449718939463765389742339594447809412596446793881059540177061710349317906010285848179428692776802516063469818648761586233701525160236371817879990343795955115086514540258797264232005725044441943317120137468254190708531072152085126939846628017711102642445638079158824956674349287553422153367398007018414596890640693638164153469373358041348621682362812485519628207372517116447100484339267712904709544982177124599735379498959250181926670099192319815139687203924078131733288227406183489936891596258827794341812597822374682335655696616170703773942455538602130433493640075319533984910869963335613308498200462205237942126112738646977343529840614120293357476985428379850731423029608600645839020326683297106647485928028070622289411984685237118462881782523378018175736273865633857652511458,
  97691425173865797681334553312596108921679675992162004777773660173969815700518930556320934768057520823924709307505648653540147096925863324475352400235795142080886099352369049792716495297330731217627022775828058433099277819938043921726811176593651677463485868115239136038172399380436191370870417832458368707326879275915124213279306924936806725671640937958115437410084474318079847981845622953378315920943705859879306743149584212809177146937159988393383659676333285508452144871734987298280228722459721110033706788519570863646932674715906123201811286192207037816689825406153183076538439839566907198048513952994033311865280881232170777351327009709343772864506905524832018864054459121311179044127994901780460651193462138351820079194171186947790208647877508811872244776343972876005334911972357654068682019368086771886415436808009906851236046326960994085099039694836217157071869815680859943192755078361763106352286244358297577723971617124439000785272578744254553882651665801545049441516401692449890426834573456261734020571401179382531553966917865085328616022779776182844821,
  28672946293714911091163510449320107800723707449634925691218904931357361767273707579489881987081480329456080270142457402799289156950749771877632590121855832116833245638324635426413663047442069533906874618048742695730825289285497755704465530725372653544909165505854490500908073608133007772880591762113407812702207157721799184691999647647655001009776601727964696655224452669933769931290031683521179052832728749544751298134025062913810954966857283877952905044288966151554228237601744913735138627397538983742878364570857778791777228294183786250926281394514140283818107124993708570349600679768563369686476720810794013433268992292032107971528543223093687838982497846997755897775841621288966611830971893956180558988873478822385862983606148281970638853766387023699719056887914200150058932781576679554126561532407775118370166626802333634507878413669795089586402858492504048493379617118032804557079693217083088711762591995943564413971495282622098711793930564122549381874381430808472755308389172693462948996786375493611546243336309926769946870192230881483903481460666095445247,
  3883761208316514201007631833758934939996200824800998604628306243249049275733571918058260532493551274110735860302253057698204994600214598639757850583213910161582089381025366404328385622156050481874565965450748771370455025814588687870941584142363695825390500441026067279434510615024772280622350966331573612514266794341407466520635345465839222611463235578393993709702620191622134738856245398302016554714620847629726525746426872338636231531355355681663605190357189524466423758661980411448025219901302595893499907018346443127068059900432561387112104506890557506790767625630503842626225137290652256549426548273213499848416053950047182498565601847314490742691964574526581135702651071623877334688337258997786436725917411557016552924842063152187379159524644831952515980633946037421867350241980390342917288205856935267866581582011958760698252396492923489146794430847865749745083669623296079018930796244587484372517492298595716781255748423316730358061373238720790093363369257424578919538675866761134125824716030708943168749649125716727634443030554358794396727983916055021351,
  48333240544829591240121878313403045929441621292750499845016709464849534409152471837782557600293979425014893421463386758834589638702611272977948184530344423147131244078498214846735862732653628625501039736030179463212553543423298346504287829926979525076211766041627496983635949960324349579121030004621920146211722288584413301742909151997456174122142548151012748826300946974835123007217022380251636265424573166829154744421810027776127607297892368258611620666702210658425698166382179841203878410264487735566199629191877992434897623591813120793421262858085245471431809776763721364584043359927672555158766872926818986466457737181567137271273270691744607683702302787924243821403830439878125470062137965560074412906471083531304202892912152146345225675356683968136278189995449676285459172951332462312686271207307031686740866015957099166315864652238874562344964515990749792099459034313921494067984830272254572430514353045490785504685756559850314186308483486501057512449287567182899127645724607259255296433846454729452076411844381790283425846409298456812175616938935965975740,
  42929557152915076829707802023978916969252199569167435795107281101358448780347612045865179866632782748015063649022752319205745215355728802481958656569366630546997062951144220612555045686914803274486028172682810274248864026160189341813654088170275190363279822038270382089835124557790353616534469844285133454838643525481083128499832894181729161208390713906848687892138101036796504435251204222146561436472201498942002143834420124097014662363438582726929610862525525118921290714836045667955951686533053105451019783216574176268285593469187149247242547912327152909308767435328387505631625953639199685925802257094130454164678572397376266871116228209347413738395309745385622839540124847808174876622182715157013569546601451452768614882194513411059801959086376897851029047454766574382151811345102502465128213078825731151825135732082734220695504162056314244492977578541810479961944429363946697398135936691118451577779926435064354447789078668856676365556751013302039206410994467486972380018901857712373933385189115176152917903357035783597959554448978594989542466471543277067082,
  72651894378379480640334221433772404786786940630662072056502773700258523743934557949437175759482223948482130909053923116986640964837350683077249445046879290633705387963710117044090375203852640296257030044175089847800778547400690983159410928873587189533947358288473512024777514415286414333015237602025716546639313515169580288664731538340423443705796376486698042917498972943309837151215686192965419767908754359006588519119491014260755969465368844561880990145071492835593653328658780734465634881032988679671646781357384388603935675481267316383463260815222677433610342562799044580710243729086055639419844097513553481936898944385856295365499862588604857134920887479532609109770303465012940402286028361334223505478683117531048043788706828828150004082704666900724460766081328348616471638169678446051551761653711887635152359278589755531581273539168302801968872202551866090543478414559163466458713173467524042320513784665145484852108274337280013486724506825679412532619761659887652396688873925240799849352814127096654205069769479109091969184310175731322507064339087907860867,
  32900306398353516515980007405308268960241703702326706976447029760260469815761395292209643118412199081244329745349697140355250428613898420598735576265543534721231099641807557394304984758358977867534082777525594534690720294929013861369117193813173601646476625497435511923723190337566403995542447783944298351828774246412327916622487261166153119556515318379303744830710564919086376924643039253332818232102651629843824798894081615315260981783582054204757574239190790661089061726333635275358836728525323566999568627018308121674052801800025536899293369386788116744077729916542788044678413562009362975545691518076713312963755314816579909072931041379628475994177907248909988399465812988705098836726884172624560065468114480637174295084587982931253382289570642635558951957479210047487800990674713490817711659702787400484855846184436218804559755361397818771100160012097380658520602274673984321980195069095331623045898291761625860113602182893530594673628712855570420487403580738017522416010536449207270031358736274465470777935266484464080671832023727942014344723474168049821435,
  32190661854299254690278390239469367565855047152011417500088637443752809863355356663053144742780108559946161239902956286531638308517479794311770261662110750667259113679565731261079068742527132102089342043068644265621908898010268788167758633391987936068177968001520738645811186433222300276066097923728491881652219262768209018854780389443560320424330725687346061737023245268043661758961997444611691103048605905531997056360086339357467682549327302610292972652219997013784745668336927819603268412053872503967733874100943023310659498597575628944088749450232447104514115759283854319043656099794417786945650590867372794050181035891330078022518367047129478583932589452033737115409652517261432458213651094928649637279067566775702907881082452198737279403819995024928527363407436172234914601313374188261577753944998175824449373817062049505167229424285374716677617880644347567422409659208038034162784725694268290229252125238485853373479136715924694997360835010090841599916137804841580776617930919159471885690996102325600636796509775882954357381862985180328592847704137243664895,
  14614505019206944691005545175316280653305226400767770893310898674759236311424921196473798385954255778544792305750680638612690209013250630793951922213386091859506512594966211156752477031726132363270363423717204669236175272964371717948451046238560425822273820574669416399792178115941355964646929848306709201425779742380093529530764213118796303250033849846428603634072498312855593980962748682443195781859038887550090259136755043758914720260583621377666420090901070593053387190959348338330299912816614493302348832428627809450374459419962277192591212973961871592020847315534698082291794557411069295622770746468292250640769884404759019173477414664989263523613471702165066560590473280364968243983685148167372969698615723107288050308655420546534599832179968137693852187938647137415299348482991880895775760669754960742573489972049994459247477655065588130988577915322125348254266184290083358153300425533240532142124836043612819221729578384448001546002989505011823896463097856070910788010264937937656509471879322583388446088955461529462664001960838911309128568907495244109929,
  55918508708629877492462935098430541631892065189010221083687385076860449558367008844971994147118076441320231950290439872981974058817957555924943246941547994050095786346491078935958277278660074156011277589271569746691856720880461585956897392923464608651825973480987627803273578312282423971491807934995218964891498748911954466018464859793933432798169521734810473007464831253068075519706380791066795589876645300045068524334584450141943807605732159724289332940953577690289281327309503733441374448424049652672649123074576028003390297467260071906965178930568460857048624192192189552950120649938297904522189071154499699379144340897775117026140825840144415357391257526878211204779567643328875396972624473187903295250147526864259374561435487996402355502556241286564188871149563905477942768587250411279911978525278635555326054907754163728187879421667567485785614162304336382407650378801560198809577238048798808776868188531550715521356754582486210745365289042299172215641243296548596040476034010896079300019701881603401870668767349301168067625375834101944939599597517992945290,
  13819672487642943530349403840454890206908114517035801938191590053992538549904281164432095981042972560098939829781428018158679033616012883408918242656076965727547631996722453307756635651498892403328017852909671591215592207966059200516647151130840157471985733155950814931327443860967772896845628669479813650313566094452938685876216472384194726675264827978036461664616546009384320096386651058793835840874963614197063437324407440617596395040543023084204531168926186905477455123081429286713145478724936722627140194805807208956072954026603573000165918462286944297073535927977913514154572363668056135103373594160579869350944593076459253643501294918340746568221068024329544721198860420889704487725978522293551441435958666171084057619129648024968957296336190810647342929158012492334159507279086087473472977792831022117036007855457695093136478690591301928975081368206937476624409797390608581957036947956217339092242356878719544888707655404175386489494700125053265954906591158579312704816593456876477106138345165728635656730814481072241362520297715123011521636643617555415377,
  73135312607367384511610608415135837496499914467183123847817266127832291011902305693426788974768845305927887905349031050776142554299629387548417519639979120671487710566996732225389139322340156445850150383589716631779696503376087263341625665152168570773753040224794403987545693099761184759503630211288883923449592670037904222571028065129805454695532114953758276649718670663197079169226050790892188740761776634726929343000028544451729601647189015641206994309986169366851898334010548662959489946569035360554157029370869503683225813239174001133578912283864381866214276391120167628509170158013239407971658678751993359226067740973101511742268902396322001301650111700896408566091596419960202060399859516759933616460872516105373830608301385470114691786335380234107417724977129694982389334746097814666330889062394193197079768488622039448966521855308553719676675096359880517797472617930326912831826748620578092652565290342801908827059014054663747001383302588936160171501548886893591056944044972172021139245648474988858366001193030933405042481909480846789876003827669218171908,
  67696601829782035599207189778042923618366306679457260518896053823472875932823011951586555180178283133565830986137316525935030805823962559082865729213865472195779312243359147323752403786908253602164629481320488457398705136724638246505998731146037622534977822103010145429875113822448213673526737210704666777974242250838584648872949096005218614774771519966024655226069621270620854168787239515997826861207922328864955994712943920009967608462614452966881819111809448899195588147137993148152932958251607601071166249515565937202893034513965776120215825001792716582114749398982521641313983316292159116787863114903503708046729113467566457367760316704471187228697777493720498411552534228368936469948659928163890293333295967050233310631864547159461989211746960440747930112114166497492276966387934136055436280135652188591691916012650170347349219857791215599655450788459028002419792836146886166968729406732657944855141210293316476780504320302389291620949699409462681126884776194192988872830204532548355595645610497507526105244255809386273420635892776828442281295814647347367073,
  62255972829437263774877683992863763234539366344505846403222027497341502487576599102151954483914148945282238326814839805199707655926889831544715769511831555106187300676856804057123078324335686278130316986843408552081541485255677208828951940358785837202454478168634608411970360599469204205022389505099905474622524732812866755075605926657023819679854436973843036347551353010142231318596659835501729091226635606839627244308404652362865284232381423499086766091580811529985673188270001310938215761913296593145799781199823426305914119833894125626021521474556185978394081691455551300017513102083825563173616215459035129106180015379921299481140928264215227003187999595833637241432647124378051975244525862986609139765363120503485519687014261642737394425538704104093401178690284831732444669643839274132175880980004949886150245568393213699722603951315999095278370145480127595279256570668760339430121291197850593657439413065417846820219003381050360714952969682719340824995408242161639655390093100714463887620313491340775627556205877748079843945811949518820071320525940334421340,
  1243688746110151026668901067251610584232452648551398239240043572195668307365786346362847139477187605142398707775353711988544676572934635846988478103391466784785470873151504290874245923946132610892919503710118254923184207210437942006267224493626435095955033758381719510544311687327960567532982916131257543568252456465008122805226368146115975321199170660364359744808288562193226739368656062542938224900619956077533306524648443072734872088797672926968147974853263746082115171227217434461213726243363240118432918898637112347583073897410591681818816689559537182399583109158955865155107939110515371592823919727238518934595024177790551515157264975708724287679440973145302040959076917387500961326483707455953415351331344900038752803101337856441911474235022452362008865534205354859562097776348591737878062122554402259252738483077651799963738230090961975938017475257830796156323362664637308389573846711167092750644157476328242109681866702142077632683755260776111089889449646732775343901491089616361841443514027645812228960506038155465315732310359157359227589113492569009356,
  7147977688700731954102283427174875749070918716304762388723409696302534078247465097250027224145260335082791705095244089375733331231982030215416350786778265509321713781712313716114212318124408063309815360743763950265425574723877774795160370760254863489482815303352021941346466963751432715280802910028162934418264108275919524951817369371136515145376975746303550396881557703938983487154988401323876915333088608396152038792659834262724317749276862696354131068465624484349311650896687484469347103405348229548440424944548029015008712091167917658606527872481257977534747880316689003510874585681745497070497359957113398345543688948216100537152614530056399124244539962580313280228578155567533705179614335935483126071990025851110866754290799917035370060643683886576034328421346749363284798134599509524459413666885886365358016564396724558897521380576361590214842158335086871769121384576004437560818745484730537879160685430938408101949720610599381353773087430936080254374618360436914874112722209890114767287794789539517337789411265620467480077129380534584076556161636714032813,
  64506738962178520907892224643916798604380401984876059535757297848080536465417964743416320801881522629972791753618419010572539102352610066612857938612848287211511443312174816440400561836018672863279325396928232426014000725989950970512646811985138070288116929747036513882781618018114314687279332331454315102504802737697359069296971888893454531535369515189875968892467578877943475069709594838918709199985678213907843263703165798784080761347005954231533063135629197234763111237012637437169883645699391802040236017065484741044827168499151197376191570800687543188967229491535191956193124787701048836490034307122021693271644873789074869716889055669789349557482685994538815934237990106692455380866035693093474851627199700083726662594609163691191866834087603981605345718730448837878445994564106619464928279029871448513829662277069771018679726274836234505524986843346217582535199489358389264000821604257858150101486886919441391356686968831445986211992334972258493374105532462372231784115404225791978377626057249768611808885686579798004500743655996168491050849723073534559981,
  15616755131668419573344751329229644291365157996632553834794507661032896848698762817246534181038300169434521758808549607478490075673039704749799412435126184213715027756166827369026168815088921349350732182693228066051823157630541607230367138987483779334050158419807105831531091345171439567188012503059886950631165440619618064708073612376753683950228243987528605105113518141919737956946936386812745316528106350383468283573844055142293480079936682108044936068621646006766344830319224958931559540458169497241368057496365679330791963671525698071861874731197459621434447874538755676792302136148597286303389418237450498917697400714288423976680628317290119085740325033854522235403375989440089793296037412054603543841820076325880936286978935955808509497565067995350334583706800572396726813294621407540131282863688230745377375496644876706623705867452856052628768437103120859783070774298894233319665993370672470968952524985445820981439492120793934365568025694559226089370437968088305921735499028081872394235008316672586298989188652170704858091843945174164560090225973841145776,
  22103057688690926001961997563649835723155371164800780419034073499583084414551229428177602152104935813182396627678715737149982841408036881971422738830208745015739858523972510668956996234962835492727345082689120271475257042705061118459464718285320545427233451594086986241199063270746182667956011701275258350864738849204602785712850234784675339031318786296649552070645507689584383918676790667856947756213003776080245180827345252143205516063315040369941548606130675953365971680023592160894781404681853314710609546833691621848065587071341055193617451037101599216136199509708650137780533897593988366937873954822789683336138162870025109398023076921640166695991773931224839082644791280998578064053243409137186218853230491028901137161083086808748672381158597421815653709296744655184929287500406515807192028280529922444162735432238256495251742467157748268961216185256399893656944505583510328185664131997626697439111167780948717936965736903761431922383476655463730888517770884496832380581866104908902147878769073115712614123453649639008426994470802551462468087502320398977365,
  46071330432841705373441390389323484250318168830269138738845884794203557989165117728792068933863168270043214700842467578529416604696403753841191237643274386841834063376908656334246919941284466004865121778043276898551840227751809879011069676458190953231321128789090149768694698126335988541954556717571267667883715576312670276152597776992561643721030108499313035437189899247009395752824298729692241071111800967264157307261862392713715782806114143002017111426482584889272072257212203277130099829499920651648922455188366142159595891282375248360621720444959024857568099691558623443816516714631633100487392293226221943195365465767781209844862542039608301127767452831340676229436884135422093949607182598326001355753099690969163734966559745037380554178792938203007569843076695439031187270674422084002598679309241436629052273054873320374993181703899256416167449649356926652153481507710571777303188284522175363855090902876005207644455852172346692659704934706045532756296067906066323102672442059559496173835522058814667667226152539099092237347001406561397500633569448750968771,
  52084832351897942123225929201006950720089427540980857268094505906415482184309235205988084931561998371348630863160817753099343135682611939113131975531178789183155992277502484615967066466405284880921192853256995495732701336628910201852959715102098731818463944280052695190904330022355676019778705309066426484472311654176854222119167486235082140555241633628561937291560265630374851963379831249371251258466854494417939893950361305635853814653497429452024282804730393196391966568679509781211945037151849483955346185707607532969762060421264450505727237362397565744000051885064382554728183969647559539802630009732975909676681125019203508629139643085638026878054242269120670846669566779380842887975906633338519183165807333128864107796998027738812163216461819722979938232792250343923207155706556369315292188293554619023650716907691665853411416202786881452063334351824445869277959804662797012743488199998367141615930040385490934771232162308539249668813677226572366504800742866450667231972813565442043144422054427955692892481651067906360543142276229820510603946839073598742744,
  19025274298058005737842467721405075868932757823896493302953931675436558263682933422786679969086201880895596168898194833665683085048883617646031216687630865949198367526097189379850864296154278013157388422626909720754930123834769332599468506448850358448438659834930060179435497954684711880581531834838854670090003623901656750909851974382608917629705175162644632104682240045354860639954363499876179329543924509327532211671851255361710720256583335435269680085114896326771841394897101579682237123237779981704531349779534409755378224041468783103118732043028771398412667428430830099637565151994256408235324995905280936608017708154802977468046987301844281722489133366907642573498314953015491797186038684886416413668203152784150730160382876090478550704679705102972376240049732679654044375743461492630923299395310213857334039465464313803932847546016682894570398520289897056199050058566331681025424796122497994161923808081718695617683355593082034329171118611940661424593023416858928325402281122375144878383804375333860052459837715219808574847409115965605101261021357390877587,
  44852230707278675102693405952584004438769166088899837692971157675464446866868225821631593841533402184543020044556787861653538779006847964816115461477425676643466678616571432139560580510685249293020348631118769790675737306130865804980539962498308851629744832342091870932486556631685998882180763426336180380330937080685655211630835704265987849396277425742722126865260875537703432427972131624718656218150212721001533814352764044674384081792139852471765606453271666305344360658788502002162008322243397547438846569080848229761095989093615129181432469419017754297201682602926069362867759394413039980700485624722707461638170802726093244910407161694311272169324596134669925072649358332736922363720775270567953185986989393297451923406580320289778734716023174722746080557162944886163769004988028768178344620062203271019135123357703649008084555442557682671091481559673655385825943822195135801563771197167936702062224568634854690598778034658974565844785240881926883092277705460494635561584140974535542394776734275305008393605426533858342924088679140936814423285879009223052915,
  27999159050090651924744141709100477084998890303385633941944104864392190202256628773984626697129628687375722161881712782123563349047154994707588680405946324980613245053389545238627255245644008130368634687268413792193795785077498902782431583827323503310967089933015706641952401640480259861958294666114657087896993126661948681911951688997857138260889720165022115150000459167591831413795284292401626307590692810259150476906872272115545836998472442221101278300842149489854275989287579626814082842462027344811563776158858566660628707597984538985888539735915067846667744073558896211764902638877304631228815008241486403525126070075059042685515458730819944836142517500969198812147177694290558463647557815938880662395420189374908403227510206348923283093410282378940889895317257072781466983925467615050901133856273474822826535359010089528178689238513054833708012163757061868763785954802148810067207114027051724468180760760129942225757837851526237298044375489744603759100293991487767534772424112309983814691187957254447449604200948758632104967562261710980657037545797784528755,
  50670681333011940370283684631830050668075306247064752243618574382697783983354212993579342251352034923550310322632422449618848671977535580316521471061995841040622119083596690789796338081213639892843731074315823093529694423351893330134370824326438532789908261497650024662233601347971746464208079836954651332945377557662272524462050785169967201989999340101333507207580771040382655836481700018825204873862694727977686819841244971301436744461773836037845058867731041552138029551148294138196811165301623559891014775948075941177157011650869218541147100498530766154450326362434342050527856128683711788698624228453711227804753731921404895699108618357580954983844456601308474652765120152251640460086388254089210102461583536189885561567954555943415393774502910066121558706401665298168145491504870910453636023369626790074204524510787476711108581603883350490730198454596575431151627225013288264132732720045864750400359753884115085871236676733053671651766723592347410822055662073897145896736124428601318448099009966194185512659140312448268215050509682117223862123115265230071316]

def rows4 : List Nat := [
  58654273609247852137350152630873645042097086869752775065195387346837523167170317938647078333812547030567421606759571812448172415490067795539503394974344065110140266883233981384072995257794268605098038571003884722484823787587024923392172716067232378375966828065587790533662110909733434199797844334852653243507225336039871946098706430167889540908433831832738009554905680850927913218961619966362620096226963711045923058598579332139457181218497046923974684711940903162865482672781602334664124586755315372206986570758884561592003927637676159553914381141064107128036641827384857021316647667552407500949113768318919687594594576779755050543591395884768627920441607389943866059704875573603207618939929078473257012189386351243450402561115311061598160410629347212590338103396221076910135920641844272757256362449921884192969284504886557168081476678966093634642719375556300958026571667406069670450700559764523975309356692672134756563223105217097972678820117567338442025858585630995827722376701242619501402141241517017062574823919937573153980565184474781497885071568714142353624,
  43327302122681085470827797568225700932570140588369636640436028018657355839449184790336263501554324008794445528858414945115640942709224065884058157027469906282629123540380245799757493270182391447626286719728006741510646157842608708921008843375777396856008810813692857565080184359309963392248748227346979480784064776775774350810648131138541202668180146216960634863869351822833302134661336932791685950307992469114783325130820766910151785797169586601857927299671940055236690498805765228834054038295723294956666106181631097892263994073011570024576283747735763081837981616381190797360315872121983138196203449769816206423985075228327733732583324372882160597886109873551913778558814037298650838175116326674547594083452969670926281699808448890104436399294171335504917218530444136127553727404380196616706233382973802404906298258609513935027495898750528072067318378647302489130579054815627366934203153365934803545221237593231989288843748037324107862086056224621755669140664965603256270152469394700985147116009940891283519475682748329672272176682993494445340679073655254171748,
  86583901039319287413336870559291380027727314775486977554119840138896045288554164615529596730625328830411855501188829841586911577081853736377506071335054326871353825913285097958561423027436039576496067859801089379556543087594553873213235007603007730107917896408379918870861963208679051158891374126204838541157848822039592359433270452459141147350780545504033581903384706481014248689197256381168631933216497629814849539646083874849543969458515257951809116266545236733517450163608333529739655892210921156911978316729184425792575755004030749046664227090664322428513245440807605030997258302179025792182169082377943883480865654516580322492664139624733960511524759583935636607443829936677311897124381434507144263490668336746267965144875760421649004657804566810897623735246630448651394648231966040726712639274053714806002028814119479141742109645063130559424100563987780307683154549550715730058201479251595904602466115178393678560161253240627524204371192506137964850891981909587770580992490842085600103886023943155706409262296585461940599098696476507408909037102041073773228,
  33000194344131318989829114607687934794756379260766087148325864793093194260650376503122078960597372119426458074333932294645621715299286987757237442174524351059370152244869761304829777561255990175145475954309572978672740072177410442876241952705751308188966699039025134180461879139639175199961068803957945781408699435579293988614007114172498946051202315286273269232409802703440393572135190345840288779882338142266098933184966747889266988742745147726958495465807735894966320431968422729390540234206993659346551759464401935696808875736513565527378275584560031781257854725797390168904462967021262486121787662647754837065335028591870593939017780464717594243236240820479795837934985204559679902540515940494547744176083957797368673769058556479182794887136785629764703619719277273687581742206193421215839221471693970525072478316583686909212066060297781442291451540611950586526514128818711064918796979431604799651288474036540839996708323631467927213244936269857074070471305843482632931884544051058661940375587325025731566527539290215236220741530144657593072275088832670637058,
  21488431961565310418901791255484578746340538187505614044231461197845130970565453691268255794448780425882950076968232189862623811110723687449921424691504040400313321866823059154359549671890135590314696913736224077614431031226486037647919392677174935407534162571025588711228300980455394033370487328235883976509095216726564747258020548090639892790959497565422906184606794762581291478097037557429248089816541744855096727088920335142693606922157665634684417142514188413007346342117709133884972815682697556483084091332633671724772500819038332573981873743660364293416815416085287464587255653507621150730885068803456968232915354060692724241361263834962430252227348220766743282446251953438168663298333351231892641537539026898020923069024691880866165342597137031996465636551784185225207740037755013360935861416370449092199891298081723596202953847731659451593254575127621826588269650230832748779521264161760154839038458698458319371172093681990832889325916016831523789841750955421456573542447703079868907388542365511940355299976861512185036911858118061965525762964582474395494,
  63884952305229390431920834700408595906247758692673900383856751959635718838147734081913671101305078535558976019724131868873517693888960920970811996086393237611436761070356756751954509856677260928307830333384947896302610290498277851677349656630179240458141888901686110371492187075536854421284230029436184629978447099023892090870282586775997932900240687404128958781800155126238506698352076101525810292220691850589879780761031752744058602314927111485381252502212065908659017820258780104224742644030508149340088935536994215541242794024288330163556008454806114251973600079468367674392891368037545225852503564337492304061188134789864950179120395213927258935188503227479728304555377830648563922152548181723320806672527665964316205418059448070937337627385191779318699473024590811653170846477848979352443357203806146987009232700653873512378118935558807382761431387104773213306585242921769520098652215583227076240478674720185383578343770223504250814245712843756571479689310363418089373299722019185677528387336013394417726381562202849015960447422841069146815777966019357848536,
  7566769164334614029548215017627807940265327540169883435434195316982597257270323767232710438850214575511607810784903672734137568505475128333182816818068792348394235790283046532570909969893392931956859422151042753161377858913302623839957249246256520923809821631002200993851783878629128475464749973808460988491571783874044619813744839068734059128423831399226835506173095377600773344155197113447780113636712930495399900198370576056147210774583344123575225879819732015437084932129176882040450744949109305178697056711770114196561695487469569955457946649024598805818205226782805544006305517162010917064549665772809123128273037117934488881927575250994256805720457156003088351254835453182167003120209888175665602481564333985612103352180312220387245461764927719760756163989992555884482471253975444199575287553381607523828907495794340847840981905049954722349176780899897355542816911986602910505481900466341371555736993081687879278573666964628266282678449837678112704991616800588086998350764297274029251889063949221831873692325603991587304511774483342679125168538532935334055,
  74069546616393992231256623733289130824466051596075681864137729049551578853288990615412343781361699480463908311094735416191894425279561023915503630620246485820967519520566863096088982742416026648684310185357920109341489959132940129700809792093387285245068367706352271937561210705529957700568521654739563093401459950709068494399952610995037011491148583565840356944392440181375872950668205071295542099185087650711181272383052550942709701808367332460479643916371196248167128781688086672286327543572199760279585502124996042934207237855661033521342883540324720884075362274770767226570322161459853084807014327113323279558962703353311330191389309874263357207481014426060412219499873952098204314094001173960150011637464937393337425009359679835495980816817494264116175890029744537902464510011573256811536605504921822907182084906673068373474135408768646880362810534636606363963705084006032259444236806840701090414791408074372432537542045294549232054885409447277733086772895728448351993062406233360148946570102953727693192398007913742461289880620940425107182168700354182717824,
  69358852896936838712339508180711265203231606942139435044164221180458659728470198747058770491745236140621664718268422765043098722130253292080624410135651901924297683194184224795323048872227619999813059343435409634087341494009836113799290104049021651980016965345105093201186528895001349855481579764869199753554001996239218303715570495661114074906989061468803162745650430929296856492049391426632560049095467246245060386702779065977825588642987245795155182788954929379136186433549495607479606299394332898956071018500741297402790275983298534453665473738254430506492187558490547253663137453707765892998875453181707580339014469761261208012192364849601319145375873842088703277363104544410317520421681702024924246854339384818323972011733672714375914035732497421907662839518726209487736422890355550709956806448138539121394944076998176571221767587769774137476930080385309241470259267309724342514738979433308220709198444296349368273455599927565430849214500589594985838897219490804800211031010774694575030279867204560296682902433004901958656561523385066010860852470512592510723,
  68903914426044804191068856917115605546765577541313378467343572819135579215212524416342672879351457987262360684768794244924543295937593225680382412430804044151703233035468059302554598084018141938839130991313780395165866885640534425045976863068464703852930422812537128881240638371919682513155064045865821220270334452515002455569718520449427126617557097790765220163140992434562496582346327419996696591909630315077216229597379413304490691235466289997678706396442754397053072010156786676514625620966498520697707102833199253552221017907154255491066890989015714352252320882493548326405825443322899338818143324607762021192763535560554018124664011806449074865679249304575303054063589985810364305066917883604463376007252105930721019229224189532238291589093412822875051098014631623957367143457654118054222740156504411131105058633768086937833038419596945386133732892471602532229369731322493799729280059926755672479757909534963414170020386634196145344182859054952805340999776308793433997597891056860413390126065078612560823204380454544863133251066372391013324302318546652650929,
  39118054325741690275954071908417628867735299986425460585144807032455850880023749219853889982576356904694020369388274466818401399841773978038022542914925919574927731783795745010729161896999328831375419807672649180013064389905496374484069145828464261242049616787491900287079969791885341262481087950554207435264417947194040344796510910272448179190320555977587738427273813105814360328119623482496877066808719029887234172895279364187064069484639801089564315352334229003147981016684313694791961472060973085801361507055166513339144332448586946901204924773255718230581885747169914636031877933013847597598611209617071626757731572976133468570481409796915486001251242060298788553533764784651123129289985200406105400658342503451634685630309405097898362527739341235446910129362617019899713956710393977453100963054901054483657021671991872203463575636382441116170937888938549393556125009047936371715422408061034381188603305755612486733268456069417527934409497025997743501467019950271079144783210978457155621888327410710976530634168129793345934674275670724413469431451621670473376,
  73582685317196054281712858870830159316048841492190324363058050330721966018280900940432717917990576993235443881050324067491860691578406289873447376709234225782244945434828081265677173212580402386928936112556530820450653066340561490103696865856206381088416211250724374687218924209263026533476485100648824018753110775238799051914751301701155512593650950277663865604759932677726955347806327049303948934897959809117789256537443265439374227850627165326171004913012764765858878130048084071184414269029062542006789764961699662037240749990183839249623080167971334236069975708749062665937334634933117472389156734441286767762850073286742893474298435416914069489814464185413445247285102226600079613809607527010407727596892661516744436606657917119518927091206931157006078461310486009590279729514654677233831975300392998202306775086147937831034092325166793058858094449717802012406075320584269045332099732793580656207789144551244404825526930353303513359014814445164701717409678054134220952991809060291260715683392766168926744561155320928000933552341934762481168750783337505214486,
  41230046935912724551684094934356435920208400866397288745264476416812224319790057403767520411314593569082948636502886651386671870984019126520871938214610496291771605611241326229847291819735019232646934760673591792047346019502146850204222725499060500390527173983088239346961329546058235596168859614438551773255682572004086406671572614287421586562936534666765030539943726433777117552486333465468661747102947425707471145240840693574593305810664791058725770870394121595834972080143473202166732002959217783114654794156763235809015934498393436031139470196023680643647101552654833033229032494848874017487162555417843234598358313173685674119482164882832198303929378208900666864165635632999002589124253674659874275784244531350568116333665037981361610334287691399779093956537587469917820529512660654358748024953105462079082869238253173487093488509220298997492167707593046651158113338304783246584537799959642245110552052822598551357995433140780468738288309181716886504746473420060161594458175927648783175100615405715334080277700173393486915972544835849957031169089050234790041,
  82696112774389101113682498365112435221732941277060381302634181652357514835007798682610689357810835786811158166380254286394548824474315217144653188212265603371686438855279490837229672715058599839020073704352045196213006682618638971124575397983167483580286609024375336597037955301742860170982285254346628226050297822819229679749507068469470141114718271237717945439542475455823176370720020939524803055024861529194258380746445612475663032936211194064385351261733638375785199093033778956350709984872647563288157718587782973537054845621840616651638052116335535956157136554883040230839048499053464022753635053221312628579847488712087974239197129806515715622514535737622964969957851618947258601930480188788414077064277898211155038934041729907842887791396031909094756427746282346450496185589571867270893050509917508259060162303560854100261506599582940941882231711766856103431094090151955603594197629527151914465465701146273564760341664073355301078406612170688048776765829603445926238647585574773412285590994551261972615033569804674294654465241074799894679978464892745481446,
  29270461024277249451728542720251707513725879735089028835651237307514021621311702640482513319750428220989513845528136268841773267008825254317243579889892752698716039884633307640274102072542860753914632056334190051780169548164179493173488781224447251861194100883513137555490494181672864244172188026388165627539857333600411059599433600445109382525788027664814425790955484257632566676861865912705148389804415975502020223084423164817145782010230876136894006217159186369664756680115058939506917948617938811069135739111929119476457163842439850676760927015601387625473877555130821614917863311075676996932639836360199843056398867930350363110146212592618232432920230504873973555103880618396303383920224450218778063418013902925080016547655990603908806917718524407509635151958193085485349436375269314283472601286321556955893475903752173339569860535581813340404683458712039407449236354697080135396702968920564153270576178507436941042162002813859740994458039484371712237808591610625472912894185014337332011394192377699272849879216795704857208482621178953745099590160573191451033,
  1592195047799861639973513634301812707663619625642182961355714741419682519778451292399518094802761577905150529962456467685941080031965524777784431018487536837769304812085949347514957536351908366451038348117838304020087249543294359801839909611614425208081024615483437721590074746546970789568255917810215356444060139689315984451593321201982737877807460527984806318853393592553264056804758713927361712743904944420640017604659600972674199501118019442199470307638680820189152106960803373114792754504691807086633068304717712769938884349752036150838640309236770796659624074665303205885579543535898594777542084658544662131174173213638193761117452671984537710736595659498165968875953527256553052258677787436196995545270088885043127590941433023642951983092817046363671057700408235562634578787478523448239984694378073980038821035519714677936743948439795042261555530639372957759761213908282947761609069866159952443474072082548727474163790541203204376326497675788394491159485261755081482364352014490068449037552549504528711277590244026828966023991381226668728716943914242335690,
  71672197485298549065028669385313900278006222810546594919496576773408717385262225853195847657410136500168835483562369923544012235969360060512297048480867065598283362546162498884058080568387476805924167214899254667697070427975947074439924019217135876892945577148244404837002827609384443667265579592053332863638211834362027746460871764560182369204997521426141119495091413659399395988849687325390545616898630962962774556931596271112913890687533714285816832655822915316734128890277343355493447886835534106128230021846623652602520308299055735996294121284036158487698284476721665060508430933235779163412598672524107411628555608874176483498207142090696390405828539182621622899826869597594938059048857536815235174514964661426965879562019976643810050615041800687076584704534771470059633072335779079437670642119611920582425444418641308896296689603339150013243279609922778353395891846625759931945266902421463659868461586505934071484008604030338552638224638158915811836335966437381856210405820132816569854031673556381630196805645873480396751605716449040168382782016031003260680,
  32668396046855898129134031175368012912557689000970360499259145265139775772983468530585536936351824757233378044007504755143509075612721952284629606722106216074612377151537118688504003714786281788426461390580536475028946907239289094722636256621257205691977369329031393413587569782287912428335072502728595632347802504078961201978921641323874369299169139774347271497800996496729789539148727048958122750145899044623890586964294927230354129335323876189211564588764429713638978164132213843945580346265579131440291412501168851998922870799882033327458850878739620195842849169998809625666397846140216095059729972870961243304576253129268156432918037383948191514649529198853619766896498777534700409893333797271594905193918030312440938121636064272059749937430095796162204706746117408573410974428749024072224071920084911858181518124276338523114088091933869905247375517969791533483698607788473417923759000206964547789804654420961655824545657572601098292794621201603586459098001214611081297486526766493775485550163800936391440387470440680741730711149120395595564763786368725212586,
  64199651815527268261024910471618972792199637288140577295437189483001292061255825008809586482343503115842725044714417992408858316044363542631311998838150344747327397732657258291837424868253221336201914847369762675550760047847475071302633152791442464845831054261792732559597899502163649805680167217023986364221513849136789469665189599636981895289292091091581455804158302963877917869354121830040998688888707650560675784523488371448929958031397226925002634423933729377836121998946004608051929181573650714060521324366571174865186510958665531766993318173830344832523723928096067690523685146455827238435892090666957383546278011242910414205647458071394447904816658809815878347299839103102752287469474046967738211615109724712756091818216032132711544828799022091580995446717910239857757760075937066236993152851061780016222800130689503482824380598897428078097863373237536738751563996250020268891715608720568198038132159271334649860797832469882632505217246773232158505276772769080739518020633239202228935130743426597860593702510692638789504893955632192116661135515559813269057,
  57540944016636894260092675520406533365539514595944303364729869725224613028739834973048301961869455565752979106778727754721134723081066651220266183702365900835311812752978241047417681200547328540882448388546683741423365059125994228687922948350772627145754704620061650940034891292603995543195783268320040354268718280682549652538315835325773079887414298463873930588432411167585453287548999719550230033835213264235652711070175079374880683078560332541460194332096770637493574153953300374788399099007025314629659804152645589779939487647541072485093192760329489791717413621378419810350684961640393871356109818785335064948225067534562645152529774032989275375616918174853755507337163704805113108209276849359945306955812100822853145418170553396237627676852364626589367737334280355878578128082111574306197915537124356435476888116318086833937758278931522464199549300169784479090007976647619878336146456619219757545283023899841128019862103849883015774370873841082808014473728766681903237096742894197093402433644581613180747722821337753759924689494885688725904871418146023764695,
  99508013866043470594351749860090523183122013945918488907530401736869961254394667213996723140303493622862701101830211066751111569744130936944850884308639209469638005567006340478765610370824098048678842658505599647762752933451721794819545507384938113304238594644463901683723440199071880860774745846502332455205724897116515037354612483953355037071663354695583359220890033148110931050356252415751554607393244446202438951629450718397676169870974697327731850083632859062863381325773471767970860082863657847710142436557087371372940575360685199619901423261535191218781832403826601040993227680387025182826899050139287494337547628268055926443806446358529156983797510240859940571555962016906118060638530479462781011636883711150185564208324098816256980545241961108050107591342574231162743886126499208689264393552121508479061673596495341792033572993192298700945731199911697842268853665105393723073414833627765946108202750720135484799053771977521102080214881391072844348389583374523960791312644616573885318211704659936653431264959034724197008910572073105140310031420016078368342,
  77549263847812555726811479079790178690706587063474951441625253213465913541611593773542711274878442640103209138695354514175104568359401016226775468370908677917638329951341468046889569352868045362009755798588010754417592852429641027544394174983197584543691671545375831879858306467153427646260166170736520150241250941328917174724357727936423052842049153843136718688623786700688669902695498242234826535568866776437975758217353681724178526139621292352814651019033040202959808631994332812220298985891741331294125482553096868723311629218467821310026202656856968633389860311490682515184065358262028492036911080130045106582899768893986223020029873020266682395983433721483435941141868009441024239480597129516215285958031825836245884073891924717130756271362697428833359520054337402297168977565143850023979631220832296886854415180768757504850991986416003851929064901878184328260738036579415375088922473330912890232978391570165470989902590963377562583277115219769901272065427673634314435963386698378990691427314298771210280981354038990518196590257528717110177255359810918897180,
  59690665346225255996108710602903850682610373659519036598094590387568023489581209837818456632847510122625581176153911397278786965663647603878330958458695212974136021230392623072758316201715327098091760294702138897544744047645354181384402323951927105008365411261449874776295766461315292730408262464670170879217673162155902352103397158595470580242283827027971494018602228872477449515019204840639089778470639368376384247027691843714011326399534905539160928436499378627081492308485158569104536572034214111838272419259960984403071513288390846139536707141210527220506102534051019402940749759574527174929539079385860638632271697588309131577548083427308450034582094375678511762382918133228500723956526732881809023821928341494144956554284260221379058861020041883391973178632547226069678634981468979548112924564919562757485899108511676602352010867035720624104191113989650805631017762544678994028211648920629930993950416269193632852505659071223682642913459750001143812662446396194029226124931396646008217838602422263402909882607071413101340225182292518114507453249611798278098,
  9090405986688873946543453374152928352732068452037422867061801875774419308457568459008304866895218185054620583640072765206482316024479229457650350271610240236048276091892925914186544310797306158572168975813014599779416671685835670145627974813776287791201997077337600915488505485437349191072444887826850797672742474988775037169509964568506621052359813315597357709655906404999570137621979292143842319021934015133733714638856997560257526096919920416796982308783513389340972127413617967133318021610655335147840122718050005605899625441087429177105963861488871216534202742021940010898234916321433410966455236456415744254761628061499486226281979471209953326569288357570768742314825654762139665761587018860883087352063421381805508095387106264331097921834012391015587323449789928640434008566433244035520634294570835086745978222019072043491820981652741547556192053287163770669883912653893258830090785933097325279803007139032546111667906126220914849586424631374604742928512122584090588471531943843113310747680446329529101441178853360841472418307882287955388926542866644843467,
  40126017527830053237795047173946198949841265861788389973276677309259772363725112409369357153099344533436315957211000477806131956256649419026610029205275667024981564837479664097209386142874282180671772944466864229698980601045005527182047419353303659476484286197418817359912109181105178317173557233620487679773497979516425829722861089343501579983963113356714420777512245221594458881235393183178984277679077619574751252027257634592410599926915418595094605377094715366442336816034537749447820380314799452485419024158225473078010510922138304388873009741595897624392851682724173540249533525649788361744765198146214873797373350201389963174984048031417473311253576810877282054402753015794992122482281883158599032176421808576117958983050763104579394151675401359916459608896611203563607240992607138768703535308360231371618275879494370788026235451349994710057516165840831401814160964148485556955730484032393220524854208409177214991579667050539409497091309426035844241073566596751505941297650572681495317756547067231503130463608454835845721446246720883776265194604923072910857,
  55171808704011926298599674373996670398429978562924491578367945605019382322891997842022914384619287710339811795327919640087064849999273641610192982828364419870228318235369601337295269640031432055042715716563003478017192464206518546075681103879480426458869192365485930336260644027694822097406835423424397801948531719202606336030218984998773957051431924279415742837146691717756536221538380395561258833625325561989888138394131519059407836144156978797339022026664366760566126034177238527338171700746543287622673577991734420640145957598560581198520436099074878620106330950503989497135317475818349436118333585257563921246465585146177331430099874708293493663050146531674574921491274225822088849460920942321143346282517160783182427482236806311975876268107227796387411914481207607961353984499878324587780855847079140358040322793321570138959365817735396784757753859198605907702571498519979291886207175540665044143674061959756902461075245136349660724935824938152862368659264139236327584459542351653026603370230664555840862306562445697110879197830061029764884611057424265295474,
  17648662520787040049090179046710359849647006034864761711029493672651497009872703284799059993478928185130602369007493095737937181386951682139546812959146498623414918326207550263876824895095674867632026469345517551029281824983911964679091823935241871555252286326831894208769977596787361174983485889930089824631185447842241011310191145821330652805811241230053589649036369265243691936406940486516075632836894857192461337719895892533652652570482026720647698022098371415108748082727121455265654004946322613711755652255785578543862048439727451281124698930395385132755720873858613633284515498099912162217608194229832953752884308497481526598950959603170767549866453741376304678326072883851651589828190598366244240984123976754338199564138877339025561910404340709254058733122719515004390733257007402291089271063985702642339450723016625621780326505250808879203903983023905630409308301813017261457073083950018428619529012573812442180643661159699702227693367937704896765160022948925518417169030129907212012965013335062700714227663549741111999219819664698709566640066532421003947,
  14517812910000178032454064536894501473949749005669062242571460680569254946226479467048866362893504625320978470128681090305962783791319601090907816037257598889091566804943193195890596973623783181042943725339610072872574632977674802262448251157855302750058601415419087537221131528876724434954889393712681182357650797573755918622609547587939006855053792263520713017519988485814137391208239095529104948088632077345265344956069737731565388547835754306823098580903306345184634352421193590099177251932732912298929823998480331430713420889867686491831766482764551648509783183127571966685940965467399168666738031142877256054767215666764458975682178499580369793880035091827535854837351023803509660322552556599141555444173691944962156924331126508124794987752339716009896404320451632415661243250145503431660567536064435401981471072977478011550232305077658642923557297979550551397602321950701458779264414739212118715575931178810856734946743677579086970048686007610485539674009396682669252994853769134670998340658310623221364207499710367664880906366581828908867836544765605239961,
  16874664350388545496579393366782999422123905754675789611320021463888751427704284851614103790853626728543299282619009124004269300184230897419472337188277076536459963443767507305972448909468437335025368601750831720395152360017879073227288852436370333004444092781290593453686631414701046593418834746892826299882363013060137669269882177988517212454145733784882303824671916659511051746324312790315608741488607081554831102132540133568685405588343101887088938761393732502340880796593820148048303164481123176201540243450258972177670052598768575291107994887617033468123201993231132192874341846612599870181746561179146118689268370252016529911989888749488292420616964965430894423463417530646262066320412705247904652222594748526298821801665103773915209569257176760513915129079083306308913138467076780713608298991899449053998432749402438897106017627516486543243504174682174047720535790729788190300647621795656051593785317469975436785042996228068593836058350652163718143758120359463898013538578900875386377999442527513971642857645585388150959986542599611112126352521835373754089,
  38382994071476719479556565333810335609209165135879604317564521490021087374521940701660790742117146389209287184760160902492319110422671510290601789567464238340951983591142408642645711070748530076249802206736383779844598841477515071622932192031026050055150907697894319437834821122313171976968730832874683832939868019319165370266382003482464988882800995308021917638041975946273043423705049816862663146331381992449951350409336852132648622166261430456380155416702997567018107991459837143013400320349765295216438577834202480497460481356556278767001411676453276570915946987857471095170775617589719547014691405289876238634466607521691840515292037064341671434458101488124590410883667693696301612214043030796233418792780707414554309612195098803307323271225143074674379294908470001118157872176047256284368744402999903490723523364779561482607275430475073383579416952085411858141421163366331884361393046086404438120305008737474074303519812587955651210154379618540181768351639553142978892109793350644218922063827926017080859661513409231014455095980500497093334182603462822266136,
  52457862436893382874818080831166321408860189627933379691796702389260039510884923222262487914699524694482213222071622818763375411744071764408256359777491004984411315866456552169347946993853458952764802986158402264099994210004334206449394164465158608227497279056804659105802319981404181666468971070381589917825990524437941647676653136370381649556880784171970666908881871118929635540970894493508380867208740873858916782805784646387301335632900560817556570518689835182885385581894187618464318855418835322055865514919608401350510913042964386737267017692094625684048216955942243816283631760549072993983829018770713786482195962795827372843849302107651701114120971271895136778113363452251194325640609290920398920303114286931102996162897157416513531226509765663872541502188189457696063382654025201746274843313786593668353589272889441372227122323730318997627121875635903055240593344068040671658854991089223395103185228040031630777931393887881242637399457661735057804548647097133656122691054526803233517094657822351326347119775415664800121647618915383944543827074135711098802,
  73825243581929452706387243028983887862373972699481019099564763398726779743818824078646963720613457502040438651404814540848637229480891874953336845383329185692611600136090526980748507788080971992207905493846449129981160445105124820157681342303697584597931352507649917267189783592046244135583539680204390112988082084879270599398452081514555277160455545091663910861465981010943648552995834158940501132217591891822740788585450573707541719807935765713476422566400785520271235964984181478091852475405178298598358719450900926456203221456793600320098036589140365924802970597042389340141784940898340588942082813754108453271947659401578491808798841278671288346973044453463300113407842446974676100521632523146960746179723522751888911366108472825044733387698808997882496174571432653895931989193809453735620069779566007329207375987877395334012242628246381176046655295493277601516544433987977965759642130364849538029733629734054095365660271566620956242040189725410026903088730688596758323634848608003136749337880469881081792434870555858612604433511134155068347210280388630798842,
  48647959934426910709807053082895065139289872456094740899115049915932660761263981350418642126839879243828106390190244271673507646240245768175241297734377047211534086168041782949967650685806251274752995065595324988186611187221699214720955606547552197614550491099906975684236752153392973559712252757150876656596645027191717820529388510936944721032791299729978949595372179654148220468484710797133152924225658106596490768857512128315157570089156883907751592339497055571554396120342875806175188670398308678334081013481683943703392193419742431633468771675540102879059518554697024410748369099885315922357683605018587567855736374585771484106340133489759087774905833455397705795352135901682664773827250855655781354887635988320027857706316422404683951616571696563311771164541224971808621652553084508026356189132604359629200964032384354637212951594753702934135578205609103465031482793614106566034544208285371600231136681319091964102873049208500417437038337446281046462094277696378558093427578759878418333403996601935420267148826128194886255395043815153360888198352817494735425,
  29613052058898947452978981927653623021464927164086320292356592994191752454776144084306022379318567606483039434162187536270414749761396384298639152870831145938517668485369224524791339701856796618981007020472212331804541923079943922150899183397221294664854266918247805798787826538813387791747999298627164543339304246091128474141007611054200897125853667283631486089863434645693410241748675676488649993201676076913951174561630327374498044609078090640304676349444315588698973721502306022408768962808996777200829540097286219693697999085628637818920687343124342519125716658608488533132234261843260558367351735755946247449424091891352020742489171844022318266702073646768610186247364849275801473588812961571164530777730991879061029888628714930204679227525167103708071639439123743167928668219344462247657260407054599859682878959481812296099664498418954355051269746222228405582160178156384893241562942941023547244744065298275956508523080398810417675310953945082956686670098059680397238783071088873099167083990986667030216146571722478408522623333842572081681007339653460321498,
  43206972663930918651492548013701038387054784958056923908090714701468031944118829167741001086760714636703460970165877479386198655725149160321261997199738034901648422675449125967393123979900748310553850686618304829064433556813925304490175567549772245865537013114885452145575276500340012894742742237558340321677426586029415028540595957341787349070980159085826530220465780692136863441823833585505804406907890487694695230168242268953030195038490457409477237858413080942448126386762545261790718566784949159447575258904329859715562539168706640500338691147025275287746323076394773662205021243171119766975540707333112675955811430766435083776613839374188211987281402430195925772339924977456535991737370482345525690174683861816059068502523687172292558204547178143199185807494916821191010614101754667530762028915463213429187226015691453233924467835360929239259563179924773642655885414299302894571429764367323222629236024015550305643202837051864402703207009413308930740789714593411354663062636587285718897700556917963920940895404949675776691668312826151980538685795163887456933,
  96126973669872220449857426520785733934500552182495973648387278103946120544515637979612030291659476574699341543271014074745772892654422996600802191430751632012114712233628868911003141982697620811610237200462099132116432607069198868028640972266780902380740359354214499157461979683557148136771420102843682700410344318799421436138119770538705702515776750087453539287747201965450490621594472377056510619675999908569487775939149115942015050991367741964053191223539274975510275226212593290315929202063227431563163988355989476949127802825984508358367998620353352020685460559216786552835764981566953231585885723872988882219155944803787090891648567299072137386053604371214396169103856951761602847570707412208855744548038615549299960111090089529305615092834665028803983155291889086590281766493385503602113010042614046121856202729086358517057052077500603308295180906193350336573369268872311459864004662237348473629802877988102147101924585493748777453115962897925405501780747491964778406746552790393195565813896692543928611681270286078016492471757947690040713838418710229217335,
  18989407640808971431883089221639365968753798701420400378491301275010036189355286464804238014072668778949947024252513956832936672012672774688760322848694287301349973554634498410829039902461431124852884825552468148762739942714989089896406588465382777488201549894005594865085108465819786193302486083380072550353705752672616262712089574838570781071679039632140611479857589273165206651387414183990141524080694271641531248414657507367162101437285661506728048482094590121411539705704846221539045505320545140864908348169336750662852070850447616870476424706292519842182340567119317597738507121384356616120054129148709109996813318550345675525027394805609455333324261650049742736992368959557120323458164445061839809446368120108418926213314665672159947081981768665914883268231854601655417288345341670449309166374846568976763423120189832643839103418758413624196745799464920222197983459305656369275684935977767109310304141130731253956424863850145550075794360426654494747022596898510266337438301815326070463610412035069829100774024752336575842434925980678196106766125498936694745,
  79320383480118918046239934402048605474005397291988706489083532738462542597815237701653934090663961614181369936262272422063733819843067752648038741771906134560708695128829421341889432614115598374198430965061807992482485995574739758659791783500162512479117682056611245687897954672289441161207246221821503611187196038675940463408153405209319548994528013639239204558207050232815917711079086385994326625268337083516221862790696351346100018927287897223967334211224885525379496233480501745645714169688636010053871749288214974692896253474032490659110794774699550166290271429846508839179574390119154423166333872790505489315733714008430333877117939845502881051522538785585885276786724654682252601394142126380025151105253620202850883368116711791314535182745826907936214338287363671478550254061831507426381713513107673935765006518722579662135584845251998140046504966442936944626432535342270481087358438651531657478369349438175618439389101920993392079359173023513361343336174093788943324363676621020575206404986003394762611773065979007173384350861190466728309191914054876182490,
  35409603611171758738428295310712978874130067815729007187202852534737368305268388208851900652888992067114141756148218048590301612699363022004245730365450630834445212718140481106462655021833491808728134317000593894546477780717800755411594479566368752313028096856384976646741642397940380978024006822393043975148776185510146807492444313049368424027979663806970107218594446946675695263158838285262613400278056513954164726797847201873928734317431956342714686128687031868026805130778331133364970514243458619433993760383134891953616522198571734006026268164233315262753256152699866044674282100016307871335675641760570610365397244034349964075523914459700042488278070090182478520476973060681827286895011123040202596546463916882653440624513894380086858263099263707383047836303898086010994899412575125614015344638442370874909562441301959987563891046520966754587766008659039521526930724947593463765524999573981368704682383578222135022751562771743922399554134549014307806588887145132813370761485025768523236382933147428059668809646209984224762074394269002794291723758974789327985,
  62424729659085321594720533236949043402796626630740273131643223047124289657816081090460225680448819724706799349489374391507550517355788273674663011336512806280676387389443510734047785428449458103240215302688926709289273432162228866530807917255253664825319222486046719040118814979669189723839048992144990637834224725829744875713871639376603835319582212583899500531756700955293648507888404290003623246079851080944704118776696569852700224236542148408230742496591289909650888536308725432732151415989181628756781130705162568510558151267135934483217802678350896047258005426171033289518836389103244737167483205917873365096282974559694346240925565281665664281336902593075874044002346731373767779248672610262584036880816938609418304354216051232899431137753391065117317425791903877442755577466603040662009904063042605149202987043184601327389509099815270306433694469041004457120223545117101132875640395937024233171029839349008207273903649597967324607011744165743432549961178069176467596474687979151557278151624730605833452636485128981677846980881899113210039395551118696836023,
  26765781946083927775887735609407559829177542808611454330139500455246551242910049113728859660686718953557118903733300649089756833516500494824375020133685157284996369674642591495360373941154960982344314351093202218097093597803295497595988950811043501360621642003040542535251820091558762332175442175880859419299401661600036343910153400940398613816141852965918958274686221760040075402240523491448741154144506035042563623296960365972082364925594214765207713745747951220023253307577273544066672546063855660020024685704460037275403923296087432532813924489275962636999746081980307612158694436812543464760058234517098658868757896434602270548007083790041330514172192659415761568791150191340297485850517148608173156097398981871178896399754385938514812712285659202786935286076096100145004686282143308100288003423799080316038850406082976294182308278380860352272498102367705906046463477309524024902511871798642433919025304589573203908585078719522550177703765216266421852819817405073400266637251528093405208116710112696986779372259856933495194326932012590242307651827771352718844,
  72532778020551144835864447823011547118441835229325114932572698861749122603284020727778843300201824351288952626434850401801176692189400301384623039255957312898153724381695307731589478556460254890123359844526030584211078366417704984380422727756181463614970822052978940468419642105195952976344279449380087623752745873654043686032392568120396815397806203184411751734063549646449468864312900565992397103980260552719134441217649315767012502328215868291339917094347218601990614994727041937223244811365777364784334202259996962798552988234835813451982181425675924349886313315764355498522016187470094484862457290141545591894888707730437495867207924838385743401098250062896166079971094418369987478443956767929238886241602443690271546527600224939349036905471674482965770830739242100152832723379609356923990338824465601298007919176430314202194237399396437444250881398720311047330446839944062988196979371975773532541936499970332980309505730194490517681341165244535932990515291198614709570353745265578742451856888960135130446546702707588099460903301835695366013279171879444954101,
  56034369228648022224704476758696090322096842256361340563483682971743439491345035015456271211307069128196826386733221318404444149770373845094446175483054536899360682058038898772474119523892924216374678456249854279850314493299533158554300276671540262962651669580914607881017471430699174419986584732904016553566585762630805024149558847753348985236467223893416365653247943645100590252258632136464125849984679616184355234035232472111052122663609157360271302132944820897661410378070919365580262218178495712207585119042287800087459286773627633230096904378031370895252076667175727182998614393655511837166922372541946679808216666811103956604393375037280755451484806816604367467894326404537115665863750531512081271327549205306822200052569298501430885879183833858882722616677568345546004203873216650375630854083599997383442031879253515109883833853900329096587405487398852972968379972293660129231230716020550973393093605034590395514435053077998616792471614432707476245085130197897386992709933257895246455475067636682646452715255225433388053548362739162623925296676645875489467,
  34475772733560138382737290053938966565922305985710484827743980497205838211155382009892096613694689317719911147471703733748269810596270612913139960608821877214852557889824960571511974099550713992866920154565838343101426030808586884932719229841589509264357183140924710470518451287586998841092873590287431203934376279851641103244122629263110011096914955445030945335769214098033156765480642125772776756252536621018085063681829579287160839823402147203536259820636455200852312805800326716866834481511046373704849973483990721027211903580088432422211643344450800225977952817971722699732374386451794698445764806394894918334385251804287869326327529024478904759379404285984527499222779721000238911215489383823913828729899317311947617390611504478279287691102376475502522571732194818147370630130884178898195981629995410833902444106927067375959569971195359309384961102865740765063676944908930185586498703728972723433457224927891532609223247702287726296424917698080302782362172393798854005036257155488753610089011456864982824376781505124828205504920676147252714652189663004968857,
  95997677522593974060305110289858039626218819712821705192632230895174681586477249400663476252399854173196026161036924195715977601971694902399328727439746588043656593649688016852863977515522475999764941859502680405006409698435113073797110441197918005746465493078021521252981008731406046947356590646892418148391263600007362471055648198258938088745764536277429937681358765419179735722961270008929684713696493683678963525182303891310399263375859652579616496449908909552435508658902553027859907755325901273060023553112413722883395464048657778331615768298615178650924137474237208870130880543952259278853023943092165956490984077060959426129628247967788111335332629528747975409878835566787900429195451576744148678404482363922335095660072754793914016971072318582441279892338820023779406397575365725162501335163672644359159774750611925713016230090937345100474527618016380709677370094376805966714229413589600824755383245974803932060796044905017692070585123672619845895683093796806254340250957462165951887975505779654919550494928671233251337556738716057356380028942990248851218,
  80124056867923618924755604824874955328263873146464164205988538514774334331725912973171197400042649872224381061421103274992413637133754743240629667251815657913864370256202430396479048900504429852624465756623621882085409494236850573272737762283655293864213194617852606260499906254796884745853044130593739472779307753507819355762734410692155894072757362859694496638890921585132706101710614979762053857085281209575276329498576677719475935215242167687786817343705567423740243650963517997153302057143111464013586402829024515173261076716920225250063376243107416178747624311018029013318097223112382400446652702557913433386482338478240836415091426303214665547366175962561696659433120665985127670461450435565056763231927238034514025354212809618536406586065956865009005429840500460935485306206267704765845643230355579621397040128414507155132958915455166928658278389403391529922388233290253888572605849243307420504807749658189661060918105854541979324802037965568280399926145969205463805877136490314877440480911274281654824191745721110244974231615616924754790847307516632660981,
  95237956764638767882534315088220817956674771470680163510596475683188983249712046092085569971337574144650469347830224327100384214768793221424857135656462834010324241282632765420816089448070169154954190788990858389973870706701541666533841958350716971451934192037445743820510407777297327360839324163745628589224133765386367495504954305663770843450836517700464664638153286744482262904960184686050368834407760844823970025677621323572137726913923930959252379422056676983704392607890348267373475452833285765991776101256955535019262055179939802157103124143114530230698589870103035894212885231515064441420652849534936220244215603285094454454628741407401845085733373435077630594261225019252553251299186342147658214038307979527387376105273026392418224264154215090646009883184415256430726001468614601161949130240366938247501714189422592020806707745491575953845423781388608702178664247860286824553825706070078528273322265105633445664908743615822952264506909608316956172605265253491502070413802190340057017883118312374199817868723882510105974751202349065416840157335014317837335,
  24819386198287179971086117048195607925864281956197702496700421100095380047388039200472454678730906292796860054268202283888668402908313352076886505277918656290128921312403151147840465000757126177971158769600362591788995845532035287764184783978631665070737509669088361316739147668310680483001761136059412558390261849754766696217285340358592190345237671511643133726006710559414359332135805934319651546323178338090818578233195716802322563645435465739653891585126961726835665295452993366536165073980298734018388646124416365174666669893892482737826454263142720386501175530970761558733454310267608916815162421264870580775063592788200735717780569088816079843345659706100924240360984178262541720215278830719157976674288514505877381337614484000839126439568917135693227613352816047973256116480024364781339419493919981444634503389773048307901722189787611415267584913782767136404814522241700976380245927541667269859014203411158804515183793647076944899216519582332638281683336325513023426351694440084457734264891932074127715509564322610386891038570095852192162848418489882732686,
  55470423667527507529843122908730541983950440894202141667808219680982797670774928984971242388093354144951082942562973278266923004101161806478685421633930127455892232424786749160761576954116883021345421715965846090848019719649487228542292491332269577189910652192682352097342852936279886092116791707629485847496149978359834308720070047710218568974412617231091035586226249946839024978024823106107738908043031729059847704522430321003304957569659557590980897187735513274829633988645718778469106403556448961252735144868231053002778188431067681436348836868815197935919480586451837858659731027120780587817682834764220458041748546527255792593212754220935506709152174607418634501047954448472804322875904278532798925864532242985233863325720785494344100713049181600750957198178380956000287475827557145959121423798241034420119904298000834846679847791736676339167559812330736044998178330002714620794715396260742401905177826968287930733427372635545596820513214757796885165521578563821506100375744210687869817590879723105471878597945093416353173097134275573684804654936846085893279,
  51938780548353518384579551278889710753852648125918197952271446731488978306681441294809043876475417203288367931539487319278428206140837821111238551859257372026423446466169852063384534060085526687169998825468531836845011643354224246766319745613460084963085605745373590303320585846047421171983158007289300135611575620717423148933047964474680649638129316429235235811390296699494680014506883857295049880031742947556236767437649942436129590188781636342231949340725849731738971847387427493550985064726969684412652067805021942042876107362888938588503873245685564388165788462809886618203203578230333800993059130072333413234509602597374605200435709986002981455095784628320015135735925460273515967564416365301122647127864032448240077379969176466506023873396656356793403983565680722196540488511932248820542798091297110077004500227754612066171669155913980976565982271696317371323802330818946438128134866452495995445735996027340374953198103413735458599614954983609176126285395307873845707594632930371488225193038171751154383500267089958265452638110372525488774392601354060252214,
  54919816995798737164535132550990520879677994407822530807758169956027111277585448684402760529394514288800290953802848541101226157784149158140774999841496292240198891308317859666915388229009946947450247844902571367356972639792830403286063454681985901480867741408921089040105765750311041922161494187431458784761367147739183053531438322669545383299223940456133606017821411886509292207929496640912160035905115388056492162705446419123651890820653277589199738922293901200268232222369773672330039382172367465305265074391406830947473212603208840098990148026780199482685855351480657053914005769345471367320387577245130697596060567953900372658461138451132306458337250580531679344725994305521750085317786363398194721774384983941664621448550518877066168902788747419777507278594616784819648879238392429701230219526438487691711692941913676453989753022131894427468986445119523361135808699525657384995132272344858932311386797831195178438771350648230787048299803447155070141882053104142668229481600816095024682359788933239467695015594757502235926020424722638494100311367044097453658,
  61030801205930892752761072852639425752928436218637764253542781899306480066569636727516169718199072260193757116892594797447612487628882179865013674750750063832347988396497740048841235756668657161421583110847360913934500027320051307981281570222561690655268330308366563814134700708194221664848221041593434919082040564085952240388003780734926165030023171799931482592911800377474465950156593998138623869286906265238206123362367459640720983507701108299079028069034109175096357314561823190444770495486618716069228030350137359522412331696418348799080748080408689982217275513161958780967752165398983096203489409368385653942119612308102110347105174241643465517192077927713852950602675186424396926553672334478410068145595114903678283881757053538003894600276907056312702323014141306631680174679733509725414626095995788159410727806596654228530160830980948279808777995415133063418519778723030126639225399955941394962110041954607825206744250803288180503393892187565244451699554137647784167163730755847972338659392635224018226080316927670846826907128840619197491176562869996908497,
  7308233756477976874846675305269192985079280366818214376796073050873808083014464297598254170078643973049610834186196966195963220184035916356341184358185982051413631915309125174406624049390924513588519076270688936627099055946468937668006920468283630462501640210274379178544802485128618216125121145700035734674069253679036890950259239891548171622541825245208060039060040615540589290773206873095800617499719203647120978841924466670920444974987482408865905266935889487752575164013543674237920145307220235357683454468120686595139327263559276996599573777441103790910715683586584656220858621071395493545391225673280629527519007549409048963943888064254557072622115936312439491645972564910184257540822004722888846634512803044831901784007401167647739561543647139523558199976935901084177521973362030832625761659684119366145853311420753211952927669717042067051859842499762834604123163908122790890056023914727625472304465613738919348291198454930609446294509615911536755252862610591271212204144684177497818630501112974003941119350818908357333290551144074304444675853303908198677,
  45858706466753105873320444866438195473708480984019014571108015111144466295074606523305173459452577257589307863700719576792849542202391372656825993183849635737174554050387357805408322354286682509834074246191721241065928405281116620092328296030172136384928510477358529839208709892631698435885742206374457995610541443705248822335802675674609925440227768400935931817775078576733453207311853083797369573820246047450096045240556006415683554046864181064155915986925744890303471460863686842071415295195399688863994416298501262198265478995063129214796056471849993133924449529728833783355225306656081139111557599979071382892418373574090519324118083275321057583443407862876642948811335953007811514259578279640928378127631674688525323298028567924732045320938542101580714740180947946116048627767867343775751143759233304925499457206276842336439469327017336108444018756535693160788031270156774329211095460374669864630589643299619579908391638851073583655397358685803947562940402286352096347217039450470385257108531336244754542001052596712178357874633359416592323562570393312801881,
  97993487698085088538737901567888592495993380410450709566819780689097913047531270144691199081713805793823536727157978743995647891549064076938192367836672321819058213639903497314398119674217404866069196506586883151348340187681346790426439557385900654837580715281812895107414409604501704396548535905382780434813583077244516003786097373743147217940264953077294295524732164285858641931339046225557314287679022533447878688563797709322070475438244713707210817280726216192203451676638569854214600293710661317844674349494603427459097077940257119887375313991238132600095632063682362858307898741532274462127591793546312149215856310068890958077806059372828374066045173381475694066896879074464372890324045717468931622799152607670087495794636552981080060563205359323461491322115081869171155006556665547745497875592906074227619249013128677758013421084016288308729212261577650952210150804466374403297822650479584839492908809137834911052701891586665978153952243363020381943077972210074929529190141757752516992977147935001371899644889115206473629667612182183930848992602460041899154,
  66997385219675672930964342169889806341929533111660152026890675526392510810172592947411597057246702083623791445765730763105504694796613415062949874761664184570782385557437047474057201870953392723123250003365765441821501626602351718472672153312107509640158510189813774914265452998666920870889036949102304930463034175089835146799025697287651150445102675835608349627733345414395387961968611228627183777026264999954378975661863845224244739492492150548510122167075552405102103873300284593613184584427867338231426176973563642708421202831884367381928347131950871731221910120316721141109395899922884674801741656760993787819687707634475970187870115363507042680620343222196248189679109056279926872063157344359507897852923069671951104333055667838495384096125277958389105487968484862086797174930084521443594253462001124108426656675868978082776276840134698294192958020330574004749139789710591226422104073255789131404774670952163373109546710714788243474697322536208971843414016895152093293728957961799009745313228076318182899433189695689530472370399538905839657483550150819470100,
  33649460754156809390948275449981181003115143112437162060285082116771605290150303839981778749861963500489080522089690682794915503815722397466511442040712132800560653624460196857385732581380945079434740660360543591168103854745541390100521085682696417436459269757301112314276156916406438293041441912580970015014762604508430299473977704434060255848315518370986210437182444909324499909412396968072735574990974754392902557984797093482190328085059102331850565958856934103697521787966167710423049423523510863007281287132147932780402066461426230078561408403259834892557120851189853822385136209728791951877465064186101050110001523921401988115501033319067153914966127363813534906201898801186062648881416943529275130201207444850693949715656963700528104436457965400855804416248425718544837208664333866575252285810948289217257839158191476913646032684476202255833788430706626820136562567060429166096739937396333725598175402369018835353007990159396724928774572310017813388850629426776845236106426208547207080605367376268476687684621043656625525457715582096848955125604270948386990,
  4537060236388671367910424911491996301475646726002794069393629208526804159391655694283101370172150024613412555388032120174802466199405716025981142053849733099095858647713112190057785168213546567692543695868395539592269791198151056786242787386355969635159652578010088777516139485947653028933659176240229706578369853607110049534756757228407933874696396982052754885413863809128046556795786738024779624558074935723887491817201030089198899323795339275624929514306391754175652362056553753374784035475143499180169624212773057517531727140899284179971054379976646930483998576569703889161802688948286649839647382240305236838578791765498736162847160152275110555356422709303412906341214050374706538761104405763127767768795582839693606879749299247305575701450712864877603721671366639964795168121815089563593221450808534862645244138042319376365335527483533321558341288886647780139622494602435843022305917574155275447784716651515806015968314346993860224116703396103314344414215237812127052900415296832835814274572054807634173997685403211427870270994658214566961420493586005178320,
  30749599849994536775963901544332983729598770215879840453042417236885395654311324912800166886143213359018145988153451156496930872268799815440163790362584744940276762231405838302463232783555897049122876375516099352286387594826470923454896604043955282969349632732961945392634125404435830649127279699414425771537866021215962838480080776486006844211951284281111860656338162758796685046790939303024381941471345044461099623814170804588938597963438244761200943147501391451102903534584642339866533775034032887511784456217019070082687537123489425484526795290596728991141621687172072527895413036625313121616871840029084914010882474192903310039585332809030568981619595841464035008818383544776616176408343356576282916036527855053342920173444239999129821560656392330968312326061134984745904753481757247935228998935009434950753963734828911547110172984407907116384882298841792185428317498575601644356222646122594640283086477663873594598842450470990867877167500913930038211751981118425649944996192501939380472533739945933377312525246306404342992510063627726440425221293353639838887,
  12558650282148393519537829121923251329550479427077479817573069098139817583642674915675638034024163503008997458846644559510526377303887533487344021772585481657032600335620490417735579097347598439475995845429765463674121075351507013851212617101709438816386818003253445607801138931545723258763168759141418393365682229624660091462055145978337911564647926663543627823302548582197820709974731091603511064700974874000731522287664739629127786218446835550020204307191420072846279018318639787025702772268782391036972445486411058889166911105922029444932943627035413309880526880087934617095630484602882766011907089407300282006643598669430991288386695237929866628178898427269704888604473767609420261537717791790967751278719747104408091559906791907723417208080859904286004545456751422771384737823411005311824430632388715284408626875660506972347847736219620237658441103372159043811894698293130692861159856453139893139948999833404400924228379125175552174621891287605139468988472677187466504785270664362574831916908491537125880541454036326747869539649103724005746130220293199503101,
  98775060288023797500255215749964464245334988591590936954395808452804500493663983056378225410562624168321730113237466365081832155139049801939199625148203485233603520297989224377311115009165857010326003536444475177424698915893573470565875149762563268039695816969490397599461063976343230542272130876246685734670460622349378419919838013099392802365227419198605426424971179228205037053758742713666727148553094608077962908093583854654683498403635552168457034303500634102350285348776635304712506884408723266759056557933478459113321260789019286980993596367757831289572697042883799355130392695124058919984490604631927762990564603947687565277618898780750820211548536425379197075472907112634428136059928119173570992152555519802760560371809051890207185773505552327139139625015942725393023718644501766178359500536742452835334629660040084680727285331808352724863433160206496873873921616095592777074720918638361912857557193948445722793390984130659405999651263847999733328982724471352363001173194587972985469557496641486067831936412121572645340765807066896025318540147824874797280,
  63120191667380722377639208723247542101321740219317052468831195661303656707030521912378617793925690762722384770505239270622228374942381430610344037798238210887741439631390151070820312754566079546433713534599280628719694697255592487623405608599760254233805356029198699095607613736827707044286670464122474056996749209859838361282936506774498024522167809570099379281101073932308678935464775565148775074794665008756926950491325561264280600598839499515516257640827798160572755744396120181474978004513217821297863743751099747673376313134440669322169897906481415224596057960363749293853905804580982603556819528939522166957415642204303664372299146967604386441942130136759001693242269349130492467027077824818455231134611034534892733150600012302853833423036382471550255513687456321669366560444146424555698182319274119450827968870469417670296601950745024985165298061868054638134752514384332789919960927108581220089357662225697993598699221499254647176821012765199595978247005014221747545861942960392394590928828418146877484191361418987382812648355343241016964934655262953455634,
  61708335109501680694022867505677634457147413217775167306207782187706492244447520828000983425570457784919191688417677178688630332126895491976457394075370098837140048702542926032963877928754377069560437339990100294852638150032628997285511301036985819326744885052228421918054554082277475276074653898905064374798169834717774907610376006282890619457639678129928802002759672944986154770652047321954189029670858378060569502688599152022861683177931813811133700846648282316429401940350166748929939240870575647942513199958612783309735265384335938416752475309684246977819186243437711155992528282731329513697878214074254516312686452327578082174391542146889435909773181565802205796404419421225370147991892788537903377743287340955117413783520191979152796500139386884855693747482161292716729572785638473863246938584052924674904022413438951883238010793146018342916216331965737001597942739004500063841651314517655908597002647003221302219852249741391577952987929096349728985117601811374469220942531031313834496135599318178835441647145038785547166597698246724797440311660606198912250,
  41569090447646624571283638206166742756470277596897462784181051476701358042590385753062036572937840164916694827135928569273543067691788670004922027323162640407025502795620934962162273386194868110608449358956017870858831338441728876389093153740724000728025325627642840264865650196869797443042592258495804741792279253400552524744950234083926561723909309423006093663032348020210867886808965918168479273683301432714695684457049365421273852364197627489417603760297520161535938944876220235739135468342725946282950905765143194209595516072612741353598331918412357841964213428872566873897084383114104658560037688220324630865651541079929646904657770652379505345960246149402061560544843064378729945258226263609197006342345695812108101880429485136828673985213253451985198680652792016175389656184118252242529689346349832387862657383224882146718221239216145216332527567001704289399052465482587785124125185612578868945553166549754643047535031903559023214381285817927533984012460823890717054605835960586771990218346528305718682775107625066537094529888302119627302931858892708475701,
  48568998529665057338471038620599638943209413359577964476992214153786551124648537943925407362192752468482382849973125718645765551508695824151349798157017437827336637993430650906064980929838630333539425021822566381273209743546622445887643499407355388635877067206336811113229422983654052688215612702459628857235482642183145461433191254583311812559791473648401291468622198673758189771951882327852080933278280528503438813801952845546505139324690269115602676843585443935076285667261266508394535898309320803700107893243658291550801322381298871464809135644029247125244100245252544508023246157822063586871671105569328543801624683461967492375522775131051001267760576438799157199485970651760213891464063173502233846434583948354350279819027287973032028508468840198759498703781461796686462875466703998963042483342254904924467013293924725832362315311997123989446217658842719338254666216103821400699023027742644385714175745879439789795948158049729059777726218748279191542139015671040424987960383839873080715504253039320113817262336691434188476626755032586344926729416355440616416,
  5812600689785048902465409536738448508044199481231522643777835892801077052872357981319176422544079026297752232994316244056822824048979585862042095903016753077009841255041439517370577205755550817551260179018120073513341772372476220812000860440795123951426598964340376424506082959966615608890385710684640291412717376571513488794464268910769410895310119099929995630930905035222777233262914701401786445146353118738378495543882500856927308783947452874920176886447311783104110199160063149881892999061015277816870842162138183955707918405119806759776959987531377577268878910886459165446898313347423547929805191092151468307163238553510387271875446767082952974905345953765259319251659451479336850638167973478663688327078954395966772983270966800627905395999829457773168238326073880180654102514617216288678835870661909367729796642225593369082458671032121453015761406563848832046204655115731003310627177636632725355105114011372947974242341799659537348942142140023658440811338831976175255058900924545313775605884224762865238760627246990302126704707809451241471629495570270401899,
  86666320179842300550700844075332796256999177187654265257033125495139708649447191452729448830509460184152955625147404095257980099014633837977690212939408531024885615673506063386349236844895075282334010075202582830620711371905942678155214109218605705420961030713293725553682257947355874625677765164533109298228760283792259302513185165813377060520921086575617430123342890846992234973515116314217452542671397892480500251722320908212457411077611635359168604652376411852083104556005139095894987309707087231114254702312167332038108548092017873914879344888372685456892148778303900165477417622812605807283554153313690079313963000637697020076253505072612334415101114280709368194022369899913082474246540127019401132229999320483328746713553834945796358368992886232904397225844938171077259058039497162595066369160424288128254838697159665305547425435455973433201650174716942614086413803804665953223880609959689304939813989144177810804401776804126311873070380328407813651523786595055100874035838497378172321001662305272199478799074360574231409928334586615303026591088028489438826,
  27192860592688546252611811506554314391860473863832014952014199240165101739767409226043254842945659258581776899771652026749864198907493364258824303008229914088423037033492000321094764235749370825153883596128554028571511999684121309513297601060622384467853304303605283324594771517521109132184692968901359920399067517466637717540893162635269159223166758528381513309573351829442340194857599928875715896113735250073352994468645177277810729355506620011166278640684583474212201535461842745627781395631003503800901852220399726275905468272699143753600658655126345316534223994033256987619903270018293229045380216469805315530988295337618967309534457130377128599254581802272613746556905822595786920989804611674009391732335754451424181559427904164840501217527511162224841376487939528948768911062083467875763236881995065081723493681850049201395396931150450840631833169795650011516330083782711074977286046415193311497771862005817211835717658891646355701844887330656741216711045991852850612219680110732254829518774076669979602303847200725332760059467869526790514319525735477141111,
  57306283794871723879901011073719703379511138790244228576611951347093824055168672986987094588552809896555090500583947977681636213599589645466936774116795236559330196254317145982816376377348304158535288710628200928673451317867057905586242287769770380335867189664400760452105077801090263740143632780046286289324312169848956969268126996557009611629781048808333226401158444986578869198915511649877595008201165471079495476162725359744314069895014347915521487018052440688805318244505486151055750824583348306015305152714103401346158717620493273768228117936382237726367695089960600576457607434908380867249533034011936473642216403187735017426283830918160337130530819470054814566633422929439437912961361179742997959789822201838204339375151390081879567578084988196711699577981480046861111020299855976962841938868761232745152462773308044657336954636549384040081977760970663913237654253918686820356685427661932684390288591996788147248350231950588774756415910641899124069125309416312561954109543530881464234340833160970495044930981167353983129373553934118732008867086710676292802,
  66231313666098383643075615682433710032476128660874213918935675213059506263362049826465500820665018774633318404810965372693993549925084609322236389181879005872492386107832157797902600355622266439172544446062893294594542958310015673005507543724742621184651637120770245996827747589021270774608232810877746564376220508922117628625949233373223067991761502464359913563816206074085843974251331593898633831027241143850753208053897338011591250879562340729139453038627070681780146819477240289396172216441758486302045164887958376109298506760537167764010412278781795500182331972605746176118837794684547320398918381170197786622080801810164834714314032925450314249522008211143307446640136242253192598750915751217391324329653494012095392865347084631588215049551680144287064948483156384372726304816947957920355668445778638297228895353441185206100695450417704454744925970866988636099344700619938864727344992791272223165852836232925364825934210735524995285484423127322046747107806424366995842385286374322732442018283439734000322418590192380305900587222928961055149938830614135006493,
  69104739021291543977494536051080648720801311904902231107072307706242833919528937220911487783908790449596315222989682708220530489656016395945586075535222221595738349596092864920413661120498768165209416326912589404845282229036070277275509104234760715102608470372049953307356616520160803158835638796224312089007094192173450477878774094071468706792259425905227518180949282295331821489040420843933377285890253665084263277258143948601959376487549244711520859661665883085955336160717058520424797750579059521204948991346273733393517973537490955401805020862425294715561008799154147069653545729992240709325803842553897467763514808951876988364635894254942842207312036451005027160780398336131700022763357322058050472099901287776893533759857416645852007639216878048573675392949503384098229397970658314255553928295919229698068777227966397293907779082178517324761087355641896708494182323029269132494491340375769778800008521206899488519501187042430819704776776564770516660073820649884857171048322723457119259180652711670489692290985807515362751709550528429039224365004824880744813,
  18574364656698445218053666467548379873567916422013296190351708641479733715775410615161742404449579958031556111579103087313472099035301894999465821929921964771056882282986141014201946390542328584438171240836332265624325123838594776356730120676441085014753981446342859310494968693638264004641625964695149031961110485447759191706584392706760240031145212717647083332009417568873875947770632409980920684630534774332419452200217630004662282023808277804197794933893918898522440855068666909872615099934327559421951361489460327548540028247463818557430386722484814571204128940220014152688477096246122211499922887643919191089940007645004267363603359564464427081897852741770774513395840957604462114327655989257121246407049760606889475217788884675365773130888483170413084708302811779259466701208771841286594199018778750963200281102375514363561230486554615329882829990461745177485814776012313343417313877109055770936706573655020317579004306722930314450241991977428096762212425199286327402583704007529728174354804106393450637326750684346881838874833235411216634188042412330340349,
  9675779416537790841258687982886103235278857332155338151988305880458531534690431308980963694066418137041548593149666711598130899440825457153552300652508228496172872396746508251900453245582357486877200667479497121636028208523543027838653611711245321486487942413213317008523154337277460768066376699618895122880491089111765955157364984738860695247166847523751446415213365489246727612258539361484165143858186917384167543482781317663142911693785564618171660966340291272053653025444763830653355045114641522470865121213129009990019681516959215243039102294969643906355219906513943216303653453974715157350144591560970031479537382507222864326791180222854544505100668683826497290748132584808710208874950514269642937392581367718416906545215610876157378020535279580044684913613691746825371728035367843503618901245777758338646770048718755154181150371412945491142726968772088619529031100065214806047938943042612112504746362225675393476819222219200635168766825821506827988016073570611080555786168670494748640420270006144009779441876147854976458239562498054449551257091064027083239,
  8144600925117778765206380393713571176447632922162141265648373947107451322905073720554233262086352301211192300993282164753643692379063250335682531355433034789629153304492311538091995755532944987052801903351167407527636655981472206121804385730030729787921735685000125623318067425988724010996896981385239730619195592833694861190323949253594415836595816138391218541195151992655070437222451106336712668962567275866773882387907913364509386511722013962859447865442962183266784517002027818841924009364903662723574437287448563310872878958458482352508201562742207923922033920450828194622615291844607061975822852133877969632367864013313041099556453747740645777576849035137916732532182650044015006462416364046311782779660535756676037161374420266916172189142991639230484973825428942219985454786894825670545771208306069664015175470113984382899319336352288857298115482869135960324285116362192220766798190063884048427152608659071553704971859335226057118104150457934735396327639988723256063689608410315441364214878261192854183849957430442768683851459149189187424006619028314479859,
  22644596334799531028630278018311500893000765762808870776888556671136106186168996249963879937029113619500621550959100266394298058423177896496506627565297834415149733882552363364465203622013216280321350049361959750702691727832370138371576432302888101329633287393824573874624509689508223833084417619240847605102724686019144743039151080377748192387105291127959055174988229390755127440803641693282921255378008849192870285467542546669735739705365362454007222398956201306760481133915634972776056714496409064045114809482486851179621640442806897195762975356223618168885002728569433652880013184412121411238983851952785119481467901665284068838218695868306612959039774599056148703612289809841138200615859142471286229860041718906453010082032794088580385760890512269876008642460648269485048618629651722184875183556528814663127523768706746675269172441672973545695673316677184928439431385995773850485061097313805782920944994446323943060687595811900386026190492109839871969933647463311406629451114715205569480402798735824309185973826397713404114160166237752693577223614775634790555,
  27521664824146099814862813287663118752410741743298743627538504577774254205757662739315698404385677291438378359018235173687708804803437428632366590745228853952283577868134721953766050084686198962633005033093604099782229148151475257718379528138489156804919218123836041227135829611649724710802612545920595248651142278339115649754666274486718521875618162947119647138066877715360854178694183861466074853653955258090169662377800006558368188471976982444587322984453088699029933788779526571972808991597939419343675227186634378290793682444032062463960186699049723190315024362504081305535338306531610923789527333914369792593690728697404262340424758703379170022149258343524101571864539834784545175892241236136735291362601712155441084930332164423007596971105885469586957117263203798513719294014487119501537158791633212538307938969441274689227398610118372085142869319715028646909873284817207387381520159116379451230101019666620364454129562919035548105191253438713160015241247855045224548041708580097441643608403759638018838607489535266269503532816480968167944880176159399293563,
  6431457111483516674756546277594216725378229613379520048290422881659995670507607348704290859084996849095294910463268517636522463170134879989376887798420929485129627852301598830153361268342991776614639254947705193020500310556054936776339163283953895578869977697143135446101324961890191705701201820667021165776654146051368534345117330284374109752675183557592471851518890916898948657604164533212417028081148467590773013272547946094155097286789671879618012204433502968796219644048327886379960409838825362938230395839698373949610171235821842177439742703646911258107515945266355464675143678868797822902295599477157643067126525971855615110357476610420964178412476830158403397936011211878112008231745037140757004092710837435401089199345949837567061274097176992139541109521012508398136549562045150243668431133989738587361130651247452423215425715091709831141400860264890539370712774412440669076831670854240573003611786905243232054426823568650032703030650150774804738700240267292414480020515306773270191114548987396349292489206289712904783044926853800283148753581059970561483,
  80692737300968661098886378902955732473773218392968237265964099999476679557605307182161869394599277816445253696965812245009356458994432191727916867639855789253996966098824872270586902492001784902712148635395532805946828846993357856689685299143803410528336938389808106541631250749494609447408886469083652165710685290293790114001017104187582043926198243372615611135685841730762865206310031274971446997819103881992609016646179754069102972565847469045071925244946583352764174639951788616905673265931633412458545178258082449007188501785142887176672083115995559292672621178256119044595069348961757228325071147520441276776575050868936709803366686786798668095854516356450456700098282130467124423758025533584949678345502763107561618567611024200622908622178680112434591564775661362731079617325234681409070011050097945863457244190266200577367179046123274420853797609726268687700946422725868500716364595723606381633847494349975206543190488268758253505156910742713458684179456955827177098027528168620203131954435974916468654922876308046662143131853417398650352264519025805451724,
  23793197133547989443130184302401189808568284287635611511359254505175900660902931753419723703731662676310455267705728410826619539539676802350046763923223819889539040992691678591566892197646205371386957697999908884131768915113743462702375576135602359532129295133933068804106622580955975301522759071143072612099804061120495954470252902245829810326046036661079078461456247718072122094537822437960892084783698815339985784383584762331111455294499316358956545170743494100864563756823652452255289027971719998672996381621378347132538829807661287146255347835297146301393797884322985295845439519676803864770811999621581708094439895803825070711358270798334780985661030080924836334010664378517170500867285605725665824900630381665925027603594014207243253350329071534064372099104955441721929617285189318787667540913587710997530683942283296170848065834349711181400922782530261593481394755173603558408942664474933095846199862068129248429990069049530956019916735927003422770580777725794298919248350750002625357538268748323634227672480871144139303257644516263630141577372991358552647,
  61831061547505505435003978879153453277021596044566357030677066100192017932140171479697167384697333397070560585989228309253129526494279536183676079287994017708601760847530393479112478861239694532982336275032741764624321782050586312100328081025353090522811213357690673482789377192908366864035028279947062486247688670440208595385347241370469282593722752895964155974991677578726870096143793390912193869911363019731897109456037301611109766624424400181780650555724623398592568655386116826127043340700951800886897139894921319480765456160954465122643149669349697436169839616874112409269250879164951012251867524836356160571234863846892796456667649848464767165046561266990865485403705281050282325415823196482458286149790041803457596958657165789359912026924047544686256265670714416277114320705726232045705864254864853864287183259235882721005017819259103218621025254290610641964932197384822924672145088027677363100251061465898752818456725920500790060992633179350293026339149754789980559159838740722820121116031847446073130926422360572014068318740741436847356693028138596844963,
  67816355466904575253185482659911617918864750699221326838807888021781507987526270959165282807676731436874076260554027715833284666790562252441503160456864894181125999979503530707283995418800406218376904052860463782206835537443655485694778361506263598993634787027909030997462772184241100176482159012705671182087668782275764676994285411305424284697967712936556371908112434752499188941044238998876558149098163133828344398678830561422069948656437056345681695102097143423812653705290231148917416269759846890675493815136882312553178553493746115050458035667819443184768513482917267953046515495980756411689982379368626545225447682319382165559881689756544989847223360804023621521263789857002732047970983507338475588088526560046011136366410695357973449086862143285777692977138838668754917368355359148530578245719109983029831395137570525256209580954017897695413946151720261764966079521063305486458118903323277535560804209288079548131044308314254117564693796449370088051788439064650598699529934562288497813679005684246906689823480376722839141414639383441970505255527456615243070,
  31168939958640952184680068901136191300908934268278288375705639519533012518018235004929310697272580570319664319775643414186491957095194411520225796015794217433299871249539848164321588401682318015676822058890334434057690623837262060541947083026988680883194001517792506775717517459372238471772205082093070415931173622020003881306078884009111773966418883673332044652964644593441976859642812624451256257788632315383190956542867923083451240276168883596525102882925470174588508778546743233541314358139890052342270388006077143178342526680299665251595805267396825662975785411273245999963482719371057021772767908830058490736336401316479936837878094275476160827790635398026354770894899217773445189729100846164905691264458400492070830852606455660554188794101768916027728337257152926339124809056000282337920177526406893511804497791997323780203805484515346421441121574092611717531775253425231265652789565479949524999661341866856113717265753576161246756393636346585290219883593583139219249139341864245413593442816603840579430340585830595161258412086641797040450055709015103142797,
  90145799585671974561364535372447573259717624162216656098154776510792433284597303502214180191043778487240617468128371996146283916642534803096672402411784837905118698833839179026793076495649132796657819771695645747593331331342626077489713671970058790516411057560868039039268658263487063454055157631398616763810774144512259412855075449421595294857398986305684715535148771193322794310386006628760697072692238839211010422054182314187838700284748888389056675063312220920514807870613610842837440600890446146679737158262720291116842293247482478917896858777805977609418186443163400288502645364455135506712134011886907855574994102050120205843693594383384314211879849669579667123182969419117181580494352579524060183758509979343711308802640215428816443443067202863030612449853715671809096783674127520201113454134998391711172535385170214243067321000314413728871055440789582470237649047523203097059606207612027423317301765690320036774926942273303227577627517007941506913023523382295229380423742991955311001375700873574048960493014910013105148285638699842929417364755785529415333,
  79493920244023171942716029023127159436936461304778015704697510260615433560235322727132552378164940552536518894649839034517885744396354358013434976027147384385511984781089286682294577257535978429545434990952690776186980501260973242575667396516641860943350384149618387370350938070380101695366304616092407294362211337355372256317992452086818271670641961004506900017835172681539217865847481240698829943944692847539212047696704008917516980044735013401137800552105630498825434932067996417341838113208226066190871983360217148256562393710727708004426030257864375469141406467379988133306274980434048844433937285851420929071406931327851505346968127345232046363566630091702633597632388614244380188240491008510158252293256556727930099661715167571103702279090057724322645193485395815336762018043079066346938595228276348528073739266954153406812865943469956911804724376608938315621924386564103131340589115080721932867391688323814944776071992081035475388423453896732654849684408063510671575237120307503288768536916612388601773535404009108803958927512100254971669370797871866429220,
  14014558824562342414467031323035012810324420163216305765377138709905272596849408782981186152588849252721860328952218240262829832327008176345561299714577465837854724296746182466438490297865300776315937919644254783948828268065501763316234010146327094725972018823335388133530254565390463483105173008497042615373676406203301379064787387371214645255533658355828253129869085396002636689072550568271410004173522898482171759994026807464914188870306381471153296467895593180865122302663699720471131747863490527766941427342272327958087000259828052580137853878320031180872150984623227074316277615294128040427317387669976955481915380842773570932813737605617669370728806121195580689008159939826487645120033217856486984320906376025629999288897307612477412283832696161107516489152282506445462683064172271803383431737658197124639514478783200093513333186552223389556602516470810190022446747793987501087746162698894095028131074856975128637090065771914143770296754856231438325159503852517313664426550285981057641837070482406073207871177055295453096981835197292941154182519583530833634,
  74955997898763199425104174380877385642307717332540519763611239063521989491743905255002477559239394461077761413186765509240689222302864431715623756205532535947588834188411031832605661608570780124121329727491660000489927474140215834370124815741912988770947116933111041130464645731987871069570113548766016847239555580887290897174691220369251189724680591711257457394391145651806106080563786530895784773539118878095224396978001845823644395448244656556278922902372298460832554705494068221878803473178991834160540268599674872180081320778855338243052788952528970977080260850788175268441974747503008944242700277303247293819695799127666762690253597622952462332687883138948400393681704468721851013957132476754082232304378228175049812122184923811060720044101737240292002257194762803149945154783344703033464531637313152749162692772871965807579765624902962412134273947494949960580458288719222182437360162808616446829421784486643308194165490980503506193935373441844498848185595049650263222645086225208709839417951613729261563166641163790862599661958483269538206406102682517040494,
  89883857919242168650982917047583952932601194431057299970094882000646282506414298088578461198438509317434993315875405684618443087248169038284969445491491211283899174426980355442566720592375940150852875841205623818670543118901668180971789190221229351887427909219551551808886890313447708457777145492835784529617248746573332043166606413022240780940992408614861966164617915731781241135208581516991824554105441256762164334410701735120323683692247023947522319864680946657670084414776271127818203706739477302725271299203114384513520199463470898105814668173287078775610244204807475308420410443016348726332678834504450244842310917755167367076052841051752145229349324802842648388484690020994452862646418420347221657095686434779811103662204260528403203412153418624039613679265397630572391767808239419738793739699311857904544687873150027991647682588517407844000561270342803131241594006256008060316896796077526780558515844477375732040986866150895683261795987193471910824256221882689002334105397189176036305647134218859359916610040431195689986685470952963076078686347518088766821,
  39900467692737094847486632625785263229965264902904755726556426281710673612277932681885116213824241463851419800618482560202162079647746012249996696722868524506028513800617648263418596708376361601771787875847872113524257127483452764923176264625743670922662113077335552056833860543070541587402449290035756111655557169985793131000681933285380018287774723250914115819850576954509512870720057652266342717714995753519942375852010832755725591013419830661178092084032701596302419735914966068109019295387886496291209154791318409276234623131144410252780158536443513026311959243846145507833436871321090511487271230958757797122207183607136023614162793363027620066151301431755842436447252712844828608334767494112067999001847319319046961301417860432255267100830950296615161233914007232481274069433748481319458570184419485195460907139625406959265565362319238294985722128612645094639194954110726922190617568177212932823950981632942369731247240843462067641516583724295223693017432684138741020941322315904311230900855917808980986398114724234312597727307258749654507988460850364940355,
  63606421360246367250297582588214239709069638947515852196010056708757617434222006881840186782896407971342119879894242005426232263910916080832822172062383218156600956376613115070352539431370438476406712570736598637047057472995577056332924928706676715784263974841648189874644206273262918091863456951408211126211183077842318805504839023018238559619868972586637538368548518808900275672391487967574758714477044963905966647638840555139832085110518086946733442146964388936519874292945007963579336776306583547913440943749848749178110525952934946088696039617923756363527056828663233569387547828496049149559435581123376296279491108962728456306695903129237389498739064645482345265301124597093691663681984294019757039611050180939637076776957461341673659491868407159799409774921295144753643557051040490718226804775346892192192239665598892640138338542564942877508240456558180339798752807500932132516595562648968432647209508457269426761962032465242536113808128554108098613889932317527610005936827481891930572687927052706681650947384411241352252246216405896697737766266947223060479,
  25937658904054510890872719669296026156460569223470830776597249422251734490049588103258711734985129334074828896282286845140658705958220885463566222379692684577270800624286247083910001271322746693291077595784116055523253942755096006076083705334480806961357479866100345694290504874288654158520571824749343029266450201290152285085761374552109727391108825404901954679022537325594370109330222334353367924791554865089056103150920105329770033114909933191441582540393767103856151258970841315151528321798116250944078384463599269824851477998262383671542281850696667162662017616097056709486112509359420925767250273704083583389316097505678303544284000039700202864233335323800308367275769471670632072715632881451354026654528053705616337565756556156045683973582112723349302665713737615780888148416954606951892450897761458277305644711560367234013737512391133422213509952010356177643077090804473048268999177976468760034480364441486413463468999507845551020302988863338483281810726992000889828571936841389153981116763523701359960477679432735219462494183398303417727528719732165352397,
  47836661598830001870135480072549967794815641222507319820777374949369340515926151214725240913312432853522660950991788624206214707618144436516820590669370269728484430350602521914049775512614504465725697123159579764295821796831320720497667628657047131171465971689941414194155855279213291655341080358645394236043976346169533528984633901443709771031718852633529786009866930866984352639341843697031885743906286547106851908002382479226597066957969129228277977600811198961917051876577047154804076234201469014747012300723672006374794146524884880021869725445463705686004723267422019698082214227784721393055099639306665883512057342095362327068335190537432350964241692802434924637529131968240070383892099468207970820508553026506084172906467894329248904226662371493914871852045333605092819272200266783545090067219293448357187400486452584361950094552025533853015019360827545508148367762943173466687018398966327368706671738897838170585143556166265753058934928379956883715661905117469340198535875250672746157717542792976654112430661688579214663048265376236291786363447873206048116,
  85644513319633775974521089142064262107733716871629057910904737837639993403176101329586566017868615084132025994391846880266009194120701567367052752104460254246476622255379685622112998222213661949692780512346135893880093787006445888955300930967808022056712229117324496219466633608501509594916809119443188318875572728807260492048422572695023477727362566817426430792407273243055492388314054863945929521673461205934733108122670744358544306390513548612458469235277295559595081633912403448808461557483165110280565969126047382200962429878618959522873019383292859627993498447285095834161821543866108691365440642590891158969812989744271470860637344088950811207925632434391216048670980372692982232485582499570894311086376548403737521383697754037253509308684024083186592189475434254656819933192028697364168763807805594272649094054318608688358706239930380932489377606395880881692788217232840100800778744685528493009535616813369878218813198796091570780060658751204136810551501389914072160545407320984244571124078690275295563717649969227320973453390327493842246971775604291219637,
  94004392913939936963834312381057271231601654623818608034169377923236080648416685167008845800707990539901913898692886788685012546791682529572979509077814007758372919595259230778985290095374969314464885604201830724836681645348889006164184872131401761979206738425388528296023984285540130893392381411757012080830155418887191011712203543960412588136888048929394096629476679405622656481939225363716863010600798228698905371847071955248636144245298398605497226673813992712323269791352678194750815424751582595707182151747793330838053854225259358687900112017697150694846872323977569602190530277291344179895332845717225695951393984500808185505028461731209346332389767439668678411629825366441222235054206323638997861301160460642764252472119953879776525470989913875733370958754446068818103330791592335169400268050996900920168136950287589393771494933112157241590212362251549726987858042362441274878998655931459382697569314305549817950653144186683273288195130275199567217538237057152252291788997389839063017399172994785964732882451480573157662397274681272069283546859972049158200,
  65493214263737853653777657763105425649156377280018981099444126794727692115095607280236282848806019820301770557360355034313476907412760284240702785624501867604936809217966663050628579192569032160921550382981573843650495683338819914203756320762894376846024766103943520229448101014041168409635222224465266984042964025300170064070372331719352207617831350035742568452310201544861847411294624049632889836405515453802300065762431476684153339805267798198723759552846345594350875975308122540783115285645913826698540619890759859202685372792300841475303461621845748488155548751802807500870114860205663005110795262621816509997046246093820030562461035531104034228743366878696989658957146052636013394740295502774288600482358997616032607498570471221845586671322714100697884695817126271499385898285859214625368691960786535613356845007576646743331086324711580071025086357042200427551027969222298288679505160390327842273887381118303297732968241604268323692533434394805615130277475655642243538631283413939265597296620263849694533758729394690259628738874014880709463380659799698316511,
  19290880251192560285817304991084121641799684325236402041202666033906135644140131389322120287306294453261319831333565412520582119529293214940536488230033713781306993375262675257342720547182598519343971228475497423228254040766261730855917977487126298870022667410474706114686980287027351481988793306907804051852169828722319131755837755538329306419343327670587118572766871456496475004679237066771990706913870008711630394429748229895181509410741915838284983000890515633749970923445812684118905572039013809374492672632599147334552216665140583847415931793774701388310929207297257480726892748636254501022618036545799496941836305185203348583061388608915374757681450689048305047432310417567254445678677540565353246244263845011254015881133762879227914457699932454902071005719389024332315818067744447266723176645607682348386279213909238724304151108883374048260207564476757768523134578578434649845829336240746480141597946452143509285544414656623672600705710744294714808993054625246150539546672945745477522309885938349227321181401218199372897274783639130242229542283226581272993,
  97886975817429336440054623339798479236619185224022625456201012629622742562381753005177632863755395427686041957675848786829356580164847516468108506725307386935018654431860678211748070671023860613289732571244782397944323926851468558707175932678693358768547160344896167761171634129966733645058979211075460183012363336069114496418838793412184219493537874996652379751539176305915964610347152121465642747239185396502131632591123081652835029486819565713588747677239629019169319916776864587305875528874759709015918885841340231494453516371582046119392953865006309019687811487252002463250058595509732656697594088092488527662674442466726398494549409633358854494438550708277866043263766955889909423392133453243745869236955358408441578541048678823088765914992585877613493789393381723956612673264586058860998331302388177066929334834048048944814411828434656375280816656029472988769848951911289727995059763032773051776937678299759925957344752814862839444189362992099002413580600242332685520325343646493589775270690343598809038877648352811417289852206157665771897459969312690499427,
  45958577489007150177102800505102185087463337480281826723866376110593672121511789100664460382809245724443141738580831441736587686372497575017241805055648156458882694424136256973792922559459020506132103923172279468628689561996741923400739013168793818041821283172850993591980470599890853152550606111290296074552765416055543234626101670881285152031851635233054684501630978768688625160955392182019384304322085788084740784823651151685245792053763628583004724889499062322027715010389354247920672721803903231808545493523002157032240483035751683461419504518377046131294502206404923254337208233095668957898208001861335005068753785517389822960864579261346012293364278941293472373772411834710567199474988132556630241748551125446135307313825080177595900205755256882935354103329405824763345954891191480026305941122856290209919829708922675202451182220011255715792407336505746127588382381239480241104044907188979390179213491779857502875171121244970710366288905267450506250939260199653995467076685614565930046721731049675699045562486633893772473508896872455308678381939797414983908,
  8700712484440614848824896131026973307385912498790374187062600105142158390408876123703653713520292948787650548885182853428248410038398553662313376457670923704477054434480282490886232209658664498591943363119205831620545310144578482233739950955681727341450850356502805930648292718529747212853238817532400077625654889901114846834623218046070717582378163621157379393336563514361265578824300183870597868274534862241033127098248694442254632051824297733063193782880524736277279010236575158387770445736380232431010591330252239746032544228425304763924993687412259412525344274571914357904261985598032355410755517179602225731007940379296322417785536177805088049496315873832128675554297068865951555521682850849181846715119760879072356978603646204109197206493004123150188837770458311397629187009238052681820978751665089521199378270494551399204447989433788484231222487627259892997895482574664348575579264603758622423085401606220231239583793967906186082020738486233385006386037167953946412827981719113119614782167000830808950785445813266954818166386256950925231648219178221346241,
  41759133543797902834142377835388892059566846197981052319282576652938328809119668761048185889645442440220542748969112069333534552351730720139527954521612369056345572702560858266064853839180881791607076066138641953390753463104231631434614551495468392152545717652301762790713467029896411934810468624873109129058828693056154855010986571699431794832040020461502892242832539872040350919383645420568065798193492377797399236164339232844122291241613102368123841230940085955594392123890261014800241184367325721856692868521171174389577355671369440365534188266303219673712204778461396724242393438206557571014652108390411058025499057430927093659718121325372945327612925571603381159932729512007956007811205331463611272220893115014719251795352428209704638353628132373305039579921425714309960203390688005783518739818893141181303060737189155369873116976049855114076377510951304991139839324182677506786129309334341944600471092978714189848380110311027418843783292048283906220114592454197652212689145317872121451331267798784556044561595952497545298575352221546817148984145111384250814,
  10550130854896234243628497910419440009535419847829409880436504183375719505308169336254654866850676594860210844032088836979178574562358881459948339271283258175664781489307630183188450317518770254338151217217473808647418369178051185427139283059255152036961544265579274334095174087902928468948476751281828993693696380052096625809630952244784114162334706388675154201504131753538500081328771628081047001883468965555544325765680376567350202672652996826688446781066574956350999859617889432443075158310549771763453238063905820477318116208907400124014920080192386954492021367930242580246465176983105671485019785695873997555678750296617328670794908275661321638302579365272711723576493719772988183876501600469601980762607172973387195864987099099687247174947611141014782590188011824536102152204220498197618163530033988599978726056037579759868030733147522475640075715187922016448589055409022006921571006776359249857239955276320144412168491543577800552659548499985124797809019990908814255453142011174116939154833148205738280414543627180464686626291373582349664828752208969958362,
  90036596212940685485088790079706097153615049303070971447935664014903112055308082409502443841987582416470860586489907394068754413110174450351946487233176746260249006611578886109716268850323904256421665793019714233077714453553878628432514336021250189909452614454005268521377177876674943223919259355906514401227995323657387859633667188679821005112248481754029247501366950050475967084418012637345880106622530400185066981810971904908813022918728763660112598163407302581325662620787942939377308834058169822940480343932468067552000853043214053837036811967449736426643299033781535255022524682542776448272604906490826977213886983755924420723772857806701948407548250245903136671777876794582809712007470914103345397923040702124704789597241630631679390426246365331538246802784629998492955829706777036736178091274486510961319478375542147347260977852214220697744173339302375889154517446218414658881740633219251066399862636936880015612905397748917869227522718660000064868860694384334169568976191047931550407379069948054142393140342772120564176101918465198316227552484709378875008,
  88830317863573072829187673035632713538749271862784783688027045784857087073472818436550765235117062567559404561475108174628886513889489019616918735866440178911396503312482862821277323414956625703814366703949649642201742696525412503138667154925779242582471839304062211931552939524729565961088349107731184650661085378223722765072330072986433681676406634827126596611335519405462150242795988260339343777851368966589207774770380912306198797675448538884934886151790229895133551513178169447938984480551016044753872934602081056423999956531329438181181794916820664342298614174888862468891091040157838357890464703385062422545091526178581720960154959041901980817249863332365323996203529983358128818444003123166844128209215710365003177932767165548592678876429119443885218233896509449510829929260775654351813998833350031659441874901573825151534911730252921091190759492242574830715970710339463947729017711117954838753245430821919571097116313655851113361677992674500225456746172702619265822809693016765263536797856218150440685524250206327743120789245928073083160954493228199057876,
  4227141254698992203722558094193132907397952984690749668849730282861276834244509402541973342783863713321629827188680287704885903981654266513122174665068839034388054066287613241514736498011322568352453964459177880877465457020953889057559869620433725788582887664304014860288134785667775223167700852815670313517086993687228395979776142704304433875367404610340962659814007959537338037660820668071019298809834646112535217262647461480906245084356091832662332861476571788736707043264496423755831118108613532063045273135501338932584698039650758945995278709868677366166565272940966270953618992380834352325064535406536366700812380843142129160848939260647575042436077337007697801048622686697327206131308771242883807951368232596049354626987547850697608709062139444670987050435399717068285577732455618338596725841529584388095410036379769074832639223226967631086303998106796892341608259466054119657825083379100517643071960066914226778080310863589495491266601968216898487279809973651882678777310532850591912303608390383406391113657529384738732739647586951190390961292144657800965,
  62782308548525764983192372138419858188049149140812202983666476256389535915309542442102381140094220105435873360217656075153784198983618305840809509579232887231314482568811590029308704194884195222515577142536019696000711634744743935005684563443769003357417602825549108885215323925060878448597881672789669026317200106720647207404594248900508076282339720351383460410116855895150189454592283258699909935831848388833334959057125432197139992855669836826270542692759878814989388955532775219571619884675840926692371227242945252439825238364176386688950239364876702931815150767258597678484923374584494308923193531065125047084459459822932339044945520691951947530503597462788335698461320222129938974906934284023355296263560276993322927250894302020639727851055890584430078972050488044129234894746728867838915026228885291287429527504355650209629422473679346403525512695447933149314320123748438652466578663381046029077025167406752254703544717816861485292245879861896172324465895281971514061410121927327569484710478372857694609245181691687995355804049841241104919757439292511009593,
  14280976592191588701463865514029775960129535847007686116829226443748883090358961861126606849828180729560094573218650739506343957012535482591503536895771466916509576445043362651251199168204088534882183992149037468832063892195839677180721260732788561951313557657524341345366570848659341598443546453769453590903140796550810660494682247214518383466501317890674110392803618900144192600451772699029465191226253027545038060324885188360479364632249905482580495776019740854482383090288704159731204703163934836548926547230251529080407727077303618518251961201662424935513390875866910423295025219622274262425667159298289304043119006795704120100840947826597883650327603103028484313256421105347720758350314603861753293827376171032952138127566993973744418533716325063558390500476440504318465550507304089903892699362886204694026958443150631088978643382529879170065955281987833755417779176288761977750252490672963806218479450140143711027157594365404088338258179644194308333085998477598891768522529027457842168969003684371389240369032563217458039652881882758186777509035040778567728,
  21528037441782855392463930301793557599469619528141809981603585622724554127597453696375361955709805352345132665746446826235548397593427568458345430580915983825089473892876921029768874299871189541517320435806519158561327173516811149098354192211828347036572886744881559980262163347287343430001461760387865900136880255812776602634600144920817095907337266610360736242308598843852524693473596609937969756917834925603693389615646024653120908008670272784774156103600087897533676639449245622950923406638335836132514639323912202114104758373638153882739120159065947488481804948983636563622348542146894400775250800230777863764248086281910281820347118317437303493344261779754369537719481282156429854650561096435593803114776643035513388882948516981378638751307499107404631767287595323655332912659476404873562844117507971390474005513323938961955512856978598020477697600525206068054835205471581242947362801219088311512081693681709227961780504089455783599130934763228080151499698891356968813611105140234198784170595077656404824631188859014808337761115523768193830635714319409642574,
  22671435498184739540779481350877889548854413001331746125100043073325401075314242536243267779801060578340073046225673594886885619126692356012329843557726500006474319751470222670528280388950057002152053908057026851688179096653597758126368885914769419797482970011325857658785726696799680032089677189952205029203490718021401691020056286547729600869263802729111469401471195506772843968772487327158127480428597810302450513289974410757541535707520610369102909431370692300027584895321251197846884642301068044903732891922605837738861309121071177058775287031874653045525558154038878565241732495736977488760767011950492894183245918218070770062249502878998405996609728435314033200749819370748032083424556361863165997415001581892543723584147565843571193494334859756354649191752511745608308191804386335764683071924141075004094886850106059961850142045861653689695511475873960660607619517162625250236781435059299927432365421787159533803175923627889878294913269018960179615887369958353631530305030483258619209352221459420820741303977987383790906406212477970343951141630488008217868,
  19413639283924963789204424567103999952897567048617902880627342384547397844728193551281160733812632791742199283209721893969611128149769722842643702754075034764079013453331331324564963028811571355381128154995238826309068009825704032522248214189545731194710504933927455593513204206562153689294936646864090563109585365986127655029652850490850254774598215669295127371133217455907531571802909943258834053869948164099672325312246083210899317524899234438119482066431676943205728014253352052621878287214890835065610874192721644374574088327016759943094565014599538832556482404066112833332293469447382298147582021317975355055545776242963255122256361396446854997894034439749368161016591941235650173277012122574966526646311730711573483666997513141825911584614328108578758134217376132983820767519555975541957172396642226764547465200211986278228782024036452599026354617705964647041183230009657954902487137117915631899562108167542835268880911798918327001510089430933502265509880417268148908812291287082952109766415444761833098113691278977477122980202133212746589852634671926624555,
  38831927714499914083410105952487256903065476732185557814100283844205889041468210966905433755520653291342320411149444100772459855641528901216225842635255114707859555321360988093289506964483761877632525942710870131467907675027632598732576679119043428262705147524536494231169042157035922697585321023117194458974786817232156114440928449874481225597231616794441503445868448206178121426891723482568747787662783616836774324940877324494898869106311260038047886581813424621072084554473642151847287687459371382984280350920827521176899384594910962462437545367749182746541846734745927049744842547339625754198994080811398880961788701145201432449909586952926214021933973003160651735918939332358754137954654082138809127473065435451735664490932758490061726388976458421845913459045197700840345225999096188791933984028895432356279060824936894154632361167752940382683462355519428633099565126369680011564888048929462661936465231843409883458602730585413338744627054535383502039757154252212852521282183013029933266179041222692387061468284264574806844585557582486688721350254173093712604,
  17969124276481319974611402653413800502024718139556939770266513648400947926201458975913818166904817723165938055052706907683977461845530991260231230083999798410760478293851415988787247984223909143764543073187654518909532650231094774263686363967956510279954330455019629951028984142909911558001888557617770337346744546784876147552509669944506590337393015003131608383205997298445703580164953993575687340656022199212181567045592086580305446081036536888051972130577603369779128213097605368580630079515176056476299641062473983496958999491685187097498944409345983593523263468128802598854253196513163595894431454200681572435605398018596809437149428655669441490034911155697973461530423686606894504700045389192164359456291222042045415548339781836115512898331262102507696743692985516832037854186774223763371695145553084726091429391925640068094877398787536390431328452109577870245721680367654253697556693376916893721596826427575374494974180054169944270856774686279433457412781934597508929237014499253445514353396620616846162869463188341163816873263566096684426618168508783583022,
  1726827279515949196298894654714150300669941787908569445027324080377784271503413853735560505077429615383765820055942220959407277510193188046442455891294859364538378440501595920916918099209322085122672924749205144015172216109792122102691572302365693498551243092306603059365779850296871735291334499724162964734825673764078783302942775073652195965175395117328425384809993466669701185413116405189495265549500814393148266488144464640209407832353934236123495389862481501646262872514068441540323241030381292120284342758340771587145838104201688625456195295922502893750379438292604020974002976591306686065952755327510698794454143399655516194986920940659152382011727678666162834438312481666252038836576254126699845464566305626956300524145350816449079591479909647782002448130287670724944687100703971599113759347014971086244076651521471989330630186021305048086070345183800627956418712285362423280665412324259297091097700292972121994744426228543308684127337911626984752085482300415690572101220265546980356715481577352519046914043093788933407978357663892407945831053809339861714,
  61332131500267957972581896229057661511991624099919326321505998246815961203508619616218514095538350773709738165512965135202631895293924356239514539031754422363313065739019184123145894299056068429253759897791824573698694733042393692337352111541335847620381814269245862206816051705773722333299611929888870521300396966800044633671809692370885305036087584320402755756772967005007093445629219875590098517416117101049895879708446952195784811694719989150710844962635254670316057917742116938220772209323526005718234236239343941116792458409152606168641300255914305681111177970827773615183230788938566750909280970836933132742700410401902946144372591081348354917074104732302975622169328016927704919328931914111490886972438904204922187582597997067564392655969402138114267128981672957428040764685833698703542339906412061908925873490116640570308240076491226128501018729351002460461822256831532382619806998211838401071948228998960737201090757034014732667850030562583899804980719849773423190191747246598372272074210855769543250590340703340504822422614308762808883420167299418449561,
  62886958921347234185767972108198054618158397333178314797813928850648258250881896576169717918714150170609154500399663989704484130921254691232004758442453751004184464771049347738441125798496196654994341689026437129512680562302820852708780439998811778775264384182314057616524661931188606904051324232395317331395144937095686946093074693141642761616609318597058895663525960237753074830431316525457281206579123672849821857534745553875476826027002266247481546710531782539114273717207458271650962764009915847504336343182654635440264040597328437116507225403265136655394981890509934793798198580697821865502181327039315360049815369763298650553658774363415217958775612451858034830994833708860254890915258282377983668348739557098706627632980572519218791453602855717737671378299615779605186852177462472797744589456125497437428319048153508095360334517620186222460126046248802268144890302086995405340681415438518493965990384591117458690409573581466833603032345644628063430524441222099497111347024145602396931181520775528928748789363961892837294870079331117133257969760228398317745,
  57754586129931105181072396948765794282037558844620777071732341338904151955540464755763270276533801079265904501991399911148631955713222124599327298591184973501322417377527672498332161573711800569092997008018124471868966578772680054555115368197971988268480789452275424334870367231884210352035048530872411544593847549658620092222075697993203380369371970118620686785419495255563324660911586550421706176765066648772023067335212871229572864628593292686770613076925551413724934001927652248539432700595619641090703916208440328327989866193987592464676893911495031828083479399860466583725069502132569217564902388765615240185217012211621274685894817898502864744778728805223523568228520359372244127993663796742824483964378068084949230172094688777742518660795932453717290802613994109697676546634094312714343688065892069923889663399237781474789350280943736602759003646241613009187349859596342804784736956735049651242784358854222294503380011326200397158461145519604154209120235447053382014780387410007225248623183888193780192165821037441670975857353741134083939552285787470682184,
  29437450448918247514388781233455586345077626270217716576308624209174705004017086640127559230703925990257096154954742574332757651801896883382854955713228848591640290722819747439084329162549923360313093772591162447164874142268157619944324616057295606007775572712147755502821957088598761030861652699743456773684934533075310785509520368342153820268676367990480875512997682554833269000521950313002848256936888101150090070833401009054160543970501044880124123142517279266978094246624616089531136154168053097688007906225531274958649556987999188853625530061132458335482857506369488225573730403719252797800932401965754539426019497499777946963916736741873698798782505943711750613684512558358007146559799183227867154283537193419549062224893595622487235001596551595820360278287417452051357454840974327538257555219568073477789127242952528547537741631054371227392203054066316539460792954280119497228598688626209597057713657674576946422985856740408549931614689233548567863314418192212213688629970654031711152797921389343628299637884132778293950989205495568478674730118373845505613,
  14781570541630118146051812583181526609932668565644749486427236111006399020153193412882598321073694949529160862702977939042236362515914082470343247036819246398275189526910227950314933730899837799279245439411604715911973315412320997178133722888601536303280053212834939228219427985955455416679258510853206403209848850627815661621488128466767270416201689843688069485991007452575301982376453842056047226797984563260150554934161892553326356677175294303411190187870568223554712015982950289360956336836118560837692702315069334026594230419562045967244077011364731694969106130497283217640846953353920648150058350182558510308549034880383374818319442188130958477422037695226471444172459939593411907054416363079721417685593828641120947165620194101307656939546975599640082976005354188661788231110201727155730225505952903350137402586928542771974669844636030298141183451832193293466211910497206119736836295670334194277916762383415463921665589720671002110390859686683905281737196527813921345015475687862913183328433454758072201247546748768289818923468803249712157862218584652381817,
  91603387622054450261053527730169177366478088241739088445258913852404189170539301360562050253228909091314659975223046546496264872705050427985635524999568943548465629053352838905240747682823469442512422052432146049691151599502745119211568291361987775744299750819945714978774047543664667121836718639985938647758480497379574310313556106922648893323794188621034303009967129575625060330359032217667494155356337239116889032366927392379605559478222318350257576956904849957835534199270800453710290967308048719319218734905095783279092933409790112305095355177878797425730259126615147330971950212836644394579639594272143484791826563859652532019504389724159269468392524242186038072871266166423738352176839344656894225000557581315184030850597256194696235696507258485093481378292837221706822897942641654257844542009284748645428513828372778381335135819408279535792283988973991137735931487315643412685577389382827974403739403858089054758537646920265681816610003762245923078253690283197605974266134558262895200074717519866139348452285860670989229139860073767216427450218418990687512,
  82105164071420660638958780283243197758108844372613835546296124606128103381311012814748306492500156551239064926376056315572415059444644757897193493099102668095708148423810488418579255005136768429135114112517579390222625874008845364163387127757530258196237227159074255547573401193630835292546627694571481133866548463902123036916905804954067841731055946591859830350306583139906831697648387610119951936625361388897622661650846673375947846630420393844658903846488347282284523795317069941161364108194469699672444074692839236413056793392301529191083607535780895440722657842315084058834195478235687997366218421868049687643075313951636703662637544391351854293973863930350473224166952865438439549227104700120921738010383576095311569449746487595685772393959461254950830179421864512497606909585532848141303982833219574415699412308393266379517589770912549177973118459399261534522139961410983491061840577367414824444133572465291503100508044625750253745275459855153929486042330214582807131173753191394089351712155180430170462205544797376696674789317309627148178043205241537398501,
  69540905116883068125314868090439523232437602316225250438836689868570661653066181904568527474665587161772658516507341550659451756136678425907159518526492326611989419927697833028837779411117501447410422908089023660833919406521113932372676135978853892342828890089773054733631268033251710912983926148497000542686160299429609638488644406004910294550396652917023423634660650422229602109878588006944215698577053669844841086867310506963029609061934231606638748990018828949512561559110240446282053159377096842656480346033781731481405384504499075920355090644590990909144525972567149530282726452152739661221826041346147501028649224457265765754529032405471437060123443121775206577764552719001153953342505418075391219150598379852615733705162295441197030788874317399891457948253499871589694378773437376751615663954647624352081865315975103666897077758328386505752358050171402323620418208538777467983029508442338331103745806536419079447497062847706547679482962188669259068217600673139160665816078583284251386246833062603366795467912492230323889295687728947612151536396030940627653,
  11976690109113804874054937787515860827573236354566858067490627165972159902992186708613896895137370683173156800919554827792046505577775066888521186692976521103907786318443369590672352028399996432396387686732036137916466867950311217912679120494226863196952264941526031838460165370450925925788004244059443494676228555085452556602069422687732189463339027671535820222547033122347985668270282524598801234683953776355174689122536788123818919954637844127033241873737633256130422332711844450749742422378266197046104011122653275889557238498505763648049409248040111162770871555279884079036125727883591241446081033368567697834958256973338399561692398900085029353534299965740696377950214085190300644954777473548411684055102877611086419856726622678722878593933583970287883595451263588076265414634051480829780026991158114186054762951288199430838665320484267405555510253322746134221993103619477720495243388211785032250462292214245695555003313775842857102650520168844871279318563741260727741141786989397154226727632286584861696775818739529467092943452537335065005696013460731802577,
  67909915513450348415839846752650573742397471474812540093578195354597345847076500744709732549393103595244087802427666984630842644463867363801628651193925985133419563039265595711671123044979923211736068489759175582631622390226224898462286579357279624910376403823104080481974942859270246321273900690507498877317321885468936424389420964928566442461752642327072727933081557155886648416319531614117369090813201902738952842515499672243034890237632805437291613982272529908369088924973885229959237754501267808873261195461636209004901045657272381218607340291854477995352899592119455188052138295626177408041273303794209036780753112567600804260495074061905648780805023437355891615538992746563307620080099691290761006320537323126937279620073905433437462210258995721397889190970317550197355937869240463611160272063383384090322398941891672249406584603868835991272521420089279274309866163507957283790514385513872952711298366789616191813948640736857942261667117859905140382347291400900979224913024997870400380541456406429066379039225230449217160958905202817816159901170435828913409,
  13588943930495096599605113324294482509836510749851489015128230584721525802518501199967290923019534159104663497514809765758541954441938660301023932894081909479278480783045240452965721750860347225859417577247107124427077986907209955806822251978998647932984732830779343237408852481802412599360762807499552231046321991068299808118204157702024037867235236304158690964281330364662533949494024268686257659183352224135410200488785056997471685240672865751943425706257347366754736503125572083747217077731732426112803077590654692395022906758282061276734984710635197644664427167209384615607255682037913752094903953881686272030842192749330119689065021855424299174257922262045088519366428928772287755130094773646300064241099299000459324667735313744405486684875877715788647542882513257102499583552305099040681646341314573144849393869833134777427352150116669767950323492087026670633342677121526488087953659299373518992420672251194807313265923343577207964529777754867438424768926160681733916928124635913549460964501115658857292538244691171975572851078655298454278716583023412111155,
  30007466352555048245234541048573187791003476233058840725783349844254988058458762713484532692040225683831642322237097645471405091236413440636195922050000387149001957833598078100859888605597284847911653207087459343563080218716211148958962680089733082142060670637691930990581223716105016338135993918359318713030449261801897108928204261003161499659858596679590094337472123334438951788213921316896137345600884721183405537041739088655022155389774248059789541723435365861490158428369474900604308895256061113875543858496272691509108623975548059013623804035826260053073574512487107741426347751250977397730939072528233632100264802882297270641095201052883807867694620371563957604766114500580804771764272878001313127741324430272340885129896856038315246574743679823704601279075780608924227128322264403079900615323141020797123800533820530512191173870930198385367908173470015597347513283321602546122502724867125834953157390056206935329540235971715394692464427438802759614864941292475277337413495071487803353778663631185623061534867577670632549018682958003825878848517645563087087,
  77219208318388986225367791551404036491281933272346464104104208811093126098396184018558463702354359467248574915309080485941831260967299406674844194400842598321754803345986174002004313785082861832997568177657103119631581865995049067237979178736721907515640653437764476306217057669856708749227075028087672462042253538944741424134363110166436639699880878573350453467245406692181042688115669543845133919605697691307452133941219295087691112175255550250227078914717380068542365030323737486778702558389059893630502100871664697857118051661731567029479585884426271984103550946215100054672653266686174429351162104756739024197730966147242208704524111707433388517866626228389759505203128872018952354482173947821942443997589998350060780412387921930656793257248728701976858924652325066961147397300880047710443386543722688439568250088571648130946844612709565431395575475805079351426756313819362170242297318784812277683189574070484623353836216595868433085796285376160313676474784725658660926676629257608745273124622235504415865970636998927681704349941168127979282129692269276650708,
  66724480088023309789282035593082888597853534119785021182140046842505467402549771417333366895230491683144437629773482720505996184279601382438264090054050050543899562203257694031141072966938554123861845341651357163376862041548822631196037539535157965115615791687520081674536224127084386082271549504444160687673507152786736164990684079102050438446012308262194961869244003083142930447840925631186320777512643059419959491771706413089068677746385439177938197576164468111066389323583618409159532116359788090633295173261028171014866694864396113101717553654033227890444701001976312123410764636362458309773268932593277419195714992449855964697617304672915269924740555769815934966307737547040710403479749755177108493121353924293299736757220293459757588025764039177569051215528023145210293130499653339373023200920505409685661504058680341637934252197386129365897185693312537414578482782700860598921654039560817318742975871919106932757121799520873208269818635984600672764338764820681561136791228409737944035561387140597390368679930474236923503106534214666419163614019702393423257,
  52694299027469339644081593015791879515442905334626141049155315688450125585550009133220611127010184435006952174617306595986416881093816304249760877061545783954493791871917977821405022579049672212207781602380149238129400854632371404052972776933521421226846185978211744358524205910970289419846246899952324223981655590466771322876361960183848743194653729812296335274062864396104175916247182063541974356857130071675436810628538358587361141488327923310460061344514130864700024719564721679855282367690019636214043564985333197688806488862002046177902558022709496834234610834925724753544521339268873693931289850485958822328147510381188809460451439780369235292336510900341393458467850412291741350494370619605866619482665643182166566296456063733475093289553432517497273791362242708239356455824432730660077315547130178084016931960752234418399227001189768898484463505526607269164237837900804794161768433438322845853768413811825116775638388925839402012061356744691967075752780470693445818276915779568602324958841160289598378405115255979783881841029014784762345089670289667288889,
  64765797782306997988192708835134933044589817086468179711128381820020441974991177215410342051654270270319998466349146952076159865068488522031632873225903815064835501000845177843754507436145059221942402418726282490356341265264311926550304063202575366053150918626942304009333102482986091924700441157769350573870042859048669736423070558612735640205404826776438809032580278850876909948092573290173311716530546783923878398599208449494428235455111107556714179415670619711986419956408981974696503835985600015377631978659426847065320729130183465878244925078198783011235042612991308041293778671171441743649417041309599842774961523852311952163541571620418554261725773289754274896425245583690080520697198978340532795249628326415693415613998572867309874226214028851812860019084603231750133307807483123616417826138051177933714470414812118995919098022374678777281289045303579959340056720430564404493547802696346463971915660009263686421734741176193906414540231793906317382851890365239862900709983098625224892343712260609858103040957638851092438950976336494774858416747664414121044,
  26996776851984981650675379539545328708054990529826809162734102724026108419569462737591630570306936049304955176029167714525673235033671309570781769610890255690131338374511581734260872080919768962376158247232799696762659491769689035000181087114738574349836409909279336945471815629034528700893317786462600184845835027509394656574351979662469396278967133275300103362167058028060203271745531773549327571281289722301694317565952958213137736407650325824120958394227661748987572818484763028751860746198159530914517767537614228781538324691582039685564713187068248641469435543418642408986534022652979350425310530745564744585987765188270858920942199651867033066055402432358530574124988971883964658269498141403272968040098567409447220294441441026819291341109421874151328287331079823292514506610782792101218010311197042776907694303544975283057095089336353333318510969023890698062935716343038815074851498982790171065936441270747611298518681777313704723445403745600286219167913221365782707024079509967914180334821962558626695197436112488465946582728765644989771594444211823492755]

def rows5 : List Nat := [
  17498968274483846421554452254335777101571115312646908838680103921379271888579610984245440176035892736009257986197434102460936289896955972601919021738070097558023753808355062111992331474090884681435199033503297762255410262247665024469857171353572652882185686112393022122353021905162773569741286349835408390327735481050807116389655729447668457921741120944840199655614355306898308612084948698645171066737076918157254460466820282052648523358699249990805955192782881458694136822989769294696665752303826034310488580760551170830091971011984925364807283615697678187742215071103739953692766152452449653509100345288959777029742778854153397858810660715689492621308277949265494362107345696787855068738556113335206511000951672238444435331586671798353595357645119668095745274000424340154400490626661379629574706527407578371460940023326556772078370794501025269804793497599536312147248881206599950447324540529569491611354376512759235712601428038891439971320628419546819688588417529292266886442621434063384323544903587183699050534709475844958153940545298839146518631815093973623321,
  40545096908945353116235023162645424287888032188619172536257980921796925106976631553486672128902553534276632117995418894408023111712410789106391179138011169084156147104326412032435201946687819777327163070488510951900436345084713867267715378928165562125093199330846173552270091856241962610481528464045526818176983236033294487179905087448562440525846670570782029673843869936935465436456444723004453622737526653145299219622309881176456806767139785437916584732095046944304384883707718650184325692701151713494961736980782426940804064500922506823933795683717612153905708238585482910045715628540523094477092336799211584887188615244229459047803961052354775294518432918217764704012674190255625784771039687550336529962214488179352640586781333262159209134904418941231255215399597795265706825746240764954866113924814670065722771960249573450805840870221307879945435072556036021889510992483703313007661853085253912740769203896980996769175607014847575779142527138022094159387748849404964683120257215335558064888819994902449124874438702696481904561785671518215321421458688965726342,
  55779575626527006292978459645061748964253000210922479818088894625167573273500296771470503279987579899629127928746607578196479484752392035222645594063126283248417539754817457010657092602259317232087409327491400979781869702601437421478631793853130815571167180161841988500770608288114464967535146217195521385239251104198410816414048220442494178279538017357430963694436495063518748203960509107089209844314167840644619109367713615057721430047516429278462760612587932649555864471865902984818220160210049977198361803778211895956516892253934182635010371363211577812146023709366910632191188391695270536319994253584490860239808314298724363262584106915366179150117100345827398845023001900255774774312143342156091021425630047292952168051282215647987913148361230334611027752033829796984764875107530862096284647678635312023068605098718087512822655052819891699944505458252874274597063402296033568538869497993828280147109986008705956848412151964733434766337627435135600524136353719011479120299222531533188660251537706833101548890999536990171736942984470666770482793224482341820656,
  74258791467811151897477490725584891554664700433292220398950649452770755329322994262674332988281428255689657332667865756193371959390806642919147503111328446751487396357728793429897564133604265814305092134813679852888292572515952463686670526471898396196359849211341569531986380455814847907178090786952927279184045229430102942836711083950634842506382085558653923276545286227266488341850748741393854930741763027955503102908136770694302897012025317701849418209149792382963165602229836198034820405795231938132665460972135883930448521662872143525751137236845059292982495611474226829218305794265334692259325226372031701919998447675715410489691608200556092938804385615393938861080003889314155142519880728134675709393315430052569037837144515997302344291450569986414675950303181271527278942502383466726331733374558809943544395003677567031091909407161141154055734088483428335359931921443710600685936602646993465720093603162344426382151424428391715961465813174247317051563253482379314749449200697954801646821898843327591528070953988212683989364231810654890448048927684892185471,
  6769788613503335244981138616373957310268025164231339411549810626704975020136128532716794506413100084685100521121363995839031402261910807289909816307020635413111542266607869548717738202141054740140240326319645639300962185517129143265244274594414418275602144551534404540028743249577705844940809840330272581809631796524917350701494846684157254659289949476236370059804890396576313824027694236662622690151478947116904980254949025258782220685372604573303597309077583539317030888708542349531223031802292879599064050177373344213062743143128615220905180899239090902879120512231186846024133278609750024675079171260577404575292564364823259159993166445098901914614802860025482343871969033739870536003763110023850308855156273942623157390714593247386985029721347782260711680996006044074990934185340057217199340913082088234123050761235269621245455084222401498616621573160299790401496699491727462378267301789409424959606884377389474315405894732714701696198582509128215714053085784661918613228061036503420039013081403792861284302253788112844894688305371033031235700434623165907687,
  63089808395415916852054588094762371192788990746785753669928142352470441171665252891003605377559735588435425423746517694185144707314525476876928997005954613496803973823293623899801986205650562460668131022520368054832484334969568965310038523754667587856799400946425372666150546757091298762361926700835987626785550302863066879939226509937739884608390668208206623012461299730378011574829644982605247059002013885624414633410581453363132825605320520059292648083031321203507877662958464544189169537342428139035162929142250483903626144425573581074868348925185396565314981963055712419995035132382195118696723815145833934908285975599196697217045343043273161935718967626863978978868443886119041809441858258695796026345630375524775831115431147620359386985073776707427651082481928976810133859699786143424430006768439420759554957407609325016782399296004574035775833310658604115555081469085084839959586167662512905315303224394011724448874034522407180535221879714738531321688962602853125348758585567251370781868635211696331105720317223706046781195086114266665602658062908484881723,
  15565972646242491374667624461437195284569352215618440020898130159548600299025188585073573071529323123181318499178936373414539913411022035565410510107724359860556317482778472401379834746309724538260700785102526381660274367109349768677960974264539232419633798976824844220980191330548596452868142462908735370534116434769696472966752583007869309307984984271168790440833818632677597338032526824224332968073950641806715656027142682112303123429485516536532152694576106468247007076793291110119601654687799208741506218692435255860566081435007054636572825128990898652988276265682300743770361058062226645479965700376271442571577258126868254662946872399564065097283240776143891877042497676234221451309179368774606291685183902468031364398974169613588291859736553890645775130811934551982918149128457651522996407262983389641873938024632247073639276859512913289625226756903128989820889247134957014294468682265559575277458228284299728097773832127325305141699246552250666146559135759865547489426015712380877942847279114372236711153038274775334142424071794886020283405775938586047439,
  95094332651136487754324221472663136485905777194353727858104371833790095179817963113508959960557056842175321440798955923184808524878083675500683459483934247832856563524764189493364922492977088581624231502049139804359044981004314932330105944902474718476398931631684443474047505681172374643921613431838126854709402109279571879936931386000038468514368458211668002182820129991748092639890989566539405829588860028274480269991698010642404924265810759212724690630992456074216611694183897204028455317073315231511142056785094965756120390076831567476272107045735661718784029626248721159176926327063591387678465536199985983182304514554009697426850377501200832133206958860197305121870854184388061088381433471343256668979262770244341992180768631001648573384040824075853991365579081178390854206293306812294729335597163936794620335391527090637206946734233815138342694714102439822438830866768989624415715064474790566932331808524642956292310160051118640956880068052259396549137978135636662786584825404606873151675168565871305305211587055927383753478689080814844722468403352770000119,
  12546712330388861562966960158721813302472824787916219784911643328606722244635288310532085836045805147849852094422354984713141131881735244076916983817007803170683363615105313355153309584662365539260080212583362096679555444629622348692244319084746391935174960159592862044537991279244395476191279923041584432891273052169124081319234088661680918543382424029454461017088275160881042747219249209453946970268602852630794031070690991309220431159645042981910857994426090015245142428334158154882276758200364152510502790358004805342809230236998208941459463316935938990700155598350644690822444986197170443076286932014459515648487770125948501151405397979633930100438405319067907436471299584718332138871109099823566722126380548683874189401010754001378810183931591488087478658787950015155396440761625775081863582179310117261440466688848182194560440513792488319715457124384193438967247551444236658936471851822607188363875070459294519811236411780972307434095521941405244642200902221666865483560810185144317155508745203070668135820388435215498794496039494729606547080639824562739470,
  63974406405137892953357285866899900859908690670394343487080081760714050432569032008815369471670760999678083787526081073299247949817333213953183877832823591673701258312428906473547421508878255149841414235013016726750821791110025579725174276007393731921421039260329708107698190589880389161813825799144434322105291569057878847458211103826605498946693764305728200945740752925336116365750936006367349850284388726581710725994107849303081301175864861158329066057327427060306999694824005860864033250510745707713620352068864946234411905631680698924069541256556398194247188892203522432260972317548885317282667739103757237101067393376638089815158426760468520362036724078914901879273556180766175587818153830714572203881772971875938956629614975056785345081345976592828371823671924314009741054372978445101625754395876245790382089029349315014810483645135388892803043860369016426589231622072189666519355916274979550480092555159519046186067918808187226970297962202088800248778717791258102117894250727613197954310962466401977209723226100268637455300186190885982565656265279366085407,
  82281152515511826170482175695615416278513963778247995239435931246975243690592186779426383330733739209231890347396557573966490982052618777270846169558736145592952198126893316443382397314238472615945308852540887188657764022385105108797310172252284529976947617375824995263247141181730160201833111918112228135088569821004818161146167604851873699956114717104896951452849696758125834536129780347732313296535965223906335742142020499047977949714036872153280706435798771212837235867186123284810142893866885703762072348447967592914421953864220121082077988765511025031152937169329199651538878042516256025746324085042288449977623894692696315286572937413430169360076035329369706417827787737793065010569739456116219240336676403090783541455138316434889449979237557815875014455206486934713086498330073898088056894346065207348759524887381452856331188696637177260653929012996245121362161821249758551092460860670329278198602652523263228264835722732391838349258202127593894057153041127362818836102715025364815499370099624982612448826291798672824976494874375237721882327023286078786741,
  44646760756001820948906734657407576764552556364224302120916796372613211785524325445167266178454961087379037460663294176926463458502392755446300306386677951156431097661700950080536746629214903192289315461344795220517567305078224066541216430977472513044952288499254238165437964069910930372676864436987715967455838788178236999390729136295113565859212624706051237992070984453068067510219235976258038209179599403622932241600021449483069498884798402571157588664260148826172477609227552782493180061245468044327036949428051996932474056765621398689679454104577806793818986787438960315493080875448508708413969377697387704317742865816964018711318755551398374341494804367385069109968928340845548658831507829804444292178135196816520654596288592489947217333292060737007254838521659865898890770988354659504458514681125195787272983135614348787393577890165063107586440694448397384650888544124079935717189272387604339267541421182404624139090542938706128239046744918290461763858177673659738693310685073570068839226144004967522441094393867947431047301757352214306870791138992751983374,
  31708032830179968893744273125215821356317063512194580243208618521125215636094841086274928276882562501686289940598158930419958816428678871076201109560759741287230522131712605071600536828028137772342999917730050094327364174874089319317228940480334599855226410892982215449118147136348851808329524371156096051075765109787038763128124395958783094617349039834758336946605791545220589591440569186560964276508524589570587748288120413261239285894873523560338104314000357289123785627432502504636500743890095572740636949446188365286660543726152454172205829830850965936482841958696169115725932419827358324585383144016706816148734750861264875198978077618791749682700117124818918466138987978076114957261378239841534622457347391337669061778806054634749248021501000162411212171394543562120000272927378809068638911983351608116287091044323730701597837680528428190952153900899546814560480934772723899921077127088311999408311819022041478882923964542865097988111642859821695566288129031070650000932023736562567548443741799311021817623100802014046166684899134498942412244970191755576492,
  85423992397248206504152537039228810588634119197203443941487016575998455338478687656777347709176671468038236731340163982840788020534954683295900144178046155394012922359304469985445894149744390975240122334235496542515475897214184893791435027789414016885281649814395529829554011283072905955477612250008820025122725613693737437692659490087374604434475687479171702479007356271678183376663649010405890049089190374645620178677383153699102840008228759819748535247250201437242104792848796759970557786331111404474698078827521309539908080311709187392213784736322633200766495163505108258978872205344514715051636392345586235874774466224273621281109257958287611916625415368465731854067726266281807464561236527057026139992916165305519804652650305545484991794037554110839891390539496691499562413086576574402038396516635578730617890614207972461756714788535806936170019844579843509116551020022736519845348479824964461874462583047674648261736123338632176788831250491277920092668848423818185480897273944618069227465490467321094749474591173096314265599310511814464984916465734889299095,
  62360569180745378234301662743162359500345076371867998693071862950698331108755676876752095740314348590022881123782362422610194674169308424929581882290971159753012490415058393440528022350651030862184459727403529392769896469538546962372842851718870062273433716976454998828682355302327643503763520442330312191859473589456042668354496126899092401308998337870135124523948795384596903934247060924693398335944514283381668768390601454197079224731086282168592765472336421218078738429972932575872522741969211008889948349564227696402311427539124474432419589510468682513841571172266308178034083469444691605476793293889420433966208647272271340585034694769837848111659256157715352284042764824972916255731478640882004014719734509654777030128475568141016328618137324409859068562663716058890707199676569693695577718697000834782679846572398312806248566411958355946686463368241014706634969054555589265162962210076841661897345442324855875315765411575235082441977440508940990094515586829666106709670902421885672635130220769461647419610124835004883243990996858554186876677309613636285574,
  99053167283427905552087494170066782095830556996249477733433635071383166500916099445860307019912063620947261628162815430505579730019787551337883522833593019170150243774923829395637935896295495380106173507005062115379411613692454017793311067313680790629158577115343529063417402733746525121883693915935520571525480391410141160760734932551286532242006682870834932947027112382304481910806367017055551681660516170852577538970942707296686930226006489657414662072615047086137372372464532543782557590092567538422619308420193014170554457973751975300470416861185897332422455389379399588897257396558578662120421137705850100415363247338063484930878170556606153341128860737674343207140406875176845301024918944788228924670924764545357811472726834119812515793747938590136536319222853772590745949489165008906353103732934604820812754766554480334689750994173377227300800883513866121639608769508033277446327520211238336638907570173658688340714324957376376131890231795720119331834684075713003556003589101914426717948486409750703489157155788012167219481317424387469848401936835506425753,
  88859536354064578459525802634894053684852456612071352028218360912107282448603570984859862149911072056038245919485982982354366474772443187443625938524431934988597695084769983030114427791664023536244069488936433666519120633002270696431428914178156515762413660679408644277393150876453278200005143114416938450213602453859527358241280822840514800724995059504215819802203211911703806022726228531527782250798281601848480446388454238187782171045347616593762607297088842176998044060036095071630593792353372760325679084296637714903184469807592422930615928875788093754556644160988810322733243261160955215205586557288084122820000875492308382839802493037018529206223877098770427810125622682864582582074893745065734680589573571270244699330407523545448638482611794977490652298806639691549161945675734171741466566677615589130228517249374989142315440420360083760231932689109975546265851442441306916999881628089074859690483068772415009109248226072211953662783562688880666917145514720406546986724461341839275466663949242227578726053861942662037939092649269513080814316765928250487647,
  21048635839380560930913730692084838813775627306414915510911084412526884282244779976582804516708878961001559623254578416946031392298780545287215559674980408504622708262598609921560665677605919647866196535011861033873012068186269889831755538563493334962036254588905835397049964181414344002208060299886141346858423913934015356423247214253014285912056576385693562776247087717263782078595318143314668428861440577879484394185441455390118963375663753705902427878782986981491497904899821810205290687974249099428432273239292737922935894937563460447117413461811876377556755317135332869446788663368525299779133888406252053557672745226875909425026988026230290295919800718727154390507570920489474278808112161753705708177786065723273944368967597196132409349773380717748506768066110002497094831775850489613168171047157601328115997979669711796489374936580182829314688532667068635647384591938163006141247385388455900458292731183045319492375073949535971393532734157355851621085639294721898095939341482083584956933469183118947980144332181463352839107766288844960868696378265107375503,
  63616449216691808790491033399484824422074745087379193547456961564410207232332009042650394967045947946721723223141046197781792322796891151603338708596999475128428050100075079366668644883362672503775902521102625881334848928731366640495934702802062967005570773406220297557733498918427780848503294924150006562102268729921694084302378690711214874594089050476760915559737701406543115136419939101532216931977506053626463245629378601040851025972253251730926509659234796949922483311768116594806088000826189237040594980770400173967458218924295489507168771331001039785153353453147106859570944506053733591953658617196314970060182160151167816445877799372327454843702167196983240352158951685355139247820559128279615349166301514580517888411480971867069842722647325396278568856218601357551480258411912578616981540276091270507419511403965637928982882852274086014503953521126538953883867793995172958629270947841273911524331129259464000726134649249972681810945151440336063005287128811763455747440049685242334339885902991306423665017309231172549322356936462708264736539614701936146564,
  88082366385687127431181462802429670841610218758998609649692350312982446820228624101581183380869587321577601822378961801576779989263352748408957310408461068537718696398441318584611504148287305023118066959863417933895317469817706686635251177878445758531114952252892091504281574922455591384711330427158913553411142349566732404385307357246228684692228408379373448470602916936013993040950654596190030818380252728256308220937269752752989520766338895811003934670501955027215254070784222031586900159951308263848419748777684991692392219653723166544757440764101009965061712627959017809881925888477927081016545937332535284128020075751048259116525137578340100895184768524910186221173555348636969841574019955602865124223618740583409084476878971542125953035591327072076061508973819799481185638356745062572946951343691678918263066507952431155826364371997603774446201879101613542447700627364765654919626761644468077219092292908086622811295988492478114867153425715536760311952454756156523696770385370476886604698021385248030561176382068757506758136412862878013776514061907267002330,
  97845877669182283339165129078707608669375171168917416276908095517572796980520168210271626213606970604160915617887053054072097976849302663763896866273605011398898836733591351396031547428897471385416969392931830868002123289632959938127165372211852951450167108432074694204902097667007422827466722215683386341302328609110460240156123049845591409523921046097565436483444615085503749970595533666022134626048399601227327364191069494399224652457000523913622733338328497275573933564959431552309012332305634341523510569628228677882109308461215686611444387076095828406715187534980897143310274396702320728683010530558547406112071090359352224531897377489287212239388744316548020903900810810885266922772461931438252909725863112461577955027598220706166870804876950054241987556204669927466398863934848684014223352872821444039547842289174547658271945439737217167460006085368620665973430515242833272893912510779922817171405917223602073852789264208037379292786435578021158357573583590602073781354710814495049045918321175530154501983683585986992326799363224360435624602028470500658345,
  38669263343147898299146785381491643329373377064728561197775471780210572065624167806204924960506810145055444000836915853863991964055830272863321210271592547804919890670890668715121943494416990158181216296916452965667288822617346469987438060666365012549193529951563426706148368629787919482858285181278413770269402216755806828356762152712510027225321755011753916761857082441000569786355201545717750960983903500128251287302913885175974609715463747851581629121900284214937284094101651557061686206462220736689554939314543518226625017737147979968920612065325275418413914476113922152134614069286419355821654479670253694488544417123943334998602980270985027141815954167802543245054515169222688322276807058416857108824894008108059824363880693049401400360540588251472745588258232852976555436600609761418817454395068351899430644076770973415827497543346074110326888197363251029598689127139183273239406546776520570126856021583738546587562512867371973052008354520571151156379671524228543756123193671768567009006373542503094551019185119622995140325974379209354374209118431551168349,
  85132549158654381928399557383125945367248250671147389629672990878885848882599701074227252504035481804962852257052082363485122693831562806728367147435055983927973260668429507263513827510419746889767672591369017306512365731719532431012869561072580528336315890095826698417353963848720165200490649064035498544923722942741837841103308077738694039345046633322001742224053633940752750598293574910869881854105227312991022233397661253324690730080270049025891197866095461412213341213891962638826661786556146344210813263307717607866380636342431909183254194322747324115237704877561380927960483576499695368748511308807062476127325750376659107831658785768550661988397945830269086027019641122022573660586407392914387722598907407359876447331552706846619167081990942108608514033280601787851430149967994736342366222291820690324453015250155785760152288473671518234944926548288571797699263163527538455765576440677544890668248996613455952180097814220867268863056429154013829653468573489967197242017176041456299913025141444752488487885952192226843723645329643388078851106993397696127782,
  69162546309732353545146226413765213929750680992477659734726126909397872213928074558564709998158942966851556270403366058762305340310983459322900126983226920502201581434302808000223658015463288255290470682507363006307811895687198094076715851261033440193829627188086008611697072396703943181261309742471117179019857430123990754035471650628805126492009560551345333620292630664980915408758176340212996001619491110349375157655887524827214237679726425642697736819889088217226992655530498724790479810006504684342655193059548646351596583419325601995394272542463731715151763524395140380742442385772476565961524567466993162860282648550406859122463407696639769427013669388291856076758200866943833756314593294171455199666977282218147062090620349763171208646603060567561493310916735968692629980336515985213008880240461816833186087792966500277922134760116174813520006025989515021896326415385131177521071464107072577934971822527267900599337018659615793278006617691118316761471579646487410695224537611456887923115088630362384071769195998900356580754727010719916644775922773065889611,
  19394275860246657291646477829595177925217284078607443295113156581166361862904473631555156558233734102054109705539810551185877748472553177016945619773274000762746629160155781498938499154800670015880287271396477885553340501525788846719648020524672424493955186437255844099960063063002898185781127353194003444827534004296065595089225351860155422289176429463530972839057155251922006718225204483456957283024858158777835437195126859654267081696079823466167925926073561893989559028954229820069011350119992783370576175407125834805827806812389428561931111141325049331642605280233039814169006798898037376032099516438489058699369606830710123179615266924530464923746322846279908242334798330374034450178644803988127559225902046536608469102137948423688814526296968662135664767020142672532056443503131171444137713514673671697265452265465106144038202743516102254601111621957755376909012981481368832862481603668992773908339405147143384874769201164261948192396449463200446384746884791115170448439193867653031100824238704981524520405573962058183162486945032953509198580564589890874425,
  68312292543450747373415195274236476418028199548731737721290125242144675404294585540242390647170225700446424875936387663670677479620244276809437785482576651284377690093142098666071018702933859331043773285303437168895184802547799127333139633667250697624004443999842871548273540021362280036387835780861930328130999490596589188937507538344269255703320890375832462846794994772016161849244806707260664239432321923207176003725231360026007938117888524025045773149253502497399425440513990997242778918511892389555672490883322532107988627081564000322527803151097668662283346777383494174612258945420980000290932969074377260138690910279140625985152505977668184401078167066934000751493482854055561430475539110533143757464229486209744679084475876468363178927730859885111355095794744954218629866774966961594744440927311320066978611380859054531762649459016781969714986139949226972233845270514380938951350464437551225486111708913966808936677797309943848808619331909104357860720849673073825937923963599328475100407272793862627167044754075719202503934191972545189483117279024614049668,
  95517907998691025376489096484598167090171393512067828395799612263119733149133778183433841931852367538662901900463343328532834341824921071916092767308013235369472648489276442979870681125654628061172604607332191763047412150640302017893205795687605102775250530436122270960467584531273866165214241940868340837589140095114133929545770094731748116885364094183528610997103416723558178602823498202031499867940174041719140283936210519480604819018245180081701371042197459212798404024268963005335536854941640086392177456769534458650883286298216584601645078000035989852129012395900704202660744988785062717607762225506063907453194771889250990581009367298919540995766335386583780980447935377991877121429774619764094727212140235326551777236163419660743763915386601945017769140062406841273162958608063506762937751252934367596073427199675135201580087373954838973439901238256568290785911442588285213661692014029900413146213680632352650865411218084749987584411183629097908919834118753766496048093626489329104390597725632955813887767446954618157978704191597558335000377286724607351853,
  50885495464202930971585636949785764048374150555809918840209343333512819551455518573334888164916769442778240555433697731192014372254154192745059760137984144373599420287605255571893780411489261257983036183801077110050042392392644156922779005702794740136494229184793369253543248404878023177744518417795835582575476184254957539587854945834308480441737087984926741952893230314895899160068542287957892948159000687353733333338638139084209948725511726171087294408886844785081163455852692141540299672098869371588623222033148558174268263595068936234481342247378693946092325660075472125674141034218490131189639676547329167424718993424330280290926985075229490797094430092386728774393625511131362876159197383241349167226826122826312779381175080740895894397190025426412664947980176442016454158813176018972659624614413913192067850352463830657764016522973204708920114691713372287863037038453134194264414249664984474404861773851352937310809985947281511173650719139881269307482690614039286422766278494329558828593837214847507077835511989622491195588237045064582005610170205324844490,
  21502294561765561859214574399009554822941375154413613291504304691417994122460933816513626279028278842138122077589424038840622943317279892594183668293679259604224184594177065301954864394817033552410287470447311715070347750834323733311632587672763683468584448656253918723946082732471350044895708680315032503867640173531507940034557285503700184560276996150615682914161170610461617408248462670335189152551882482127260072595765678899125678702014978667908471066310748764673098909147197987925985906257336497349823503126098309873468616273935805790735490824683049728409773238116708249151637346808705105219191762054169882625476054458177111799377677869654216992578557720426344244304207449548970339043450720611900769736351740195265632213928258312052824003746695459092804525968798460814087071953425476138836335351191121441431485055201235813806264923135383387675809188923797585515732036588317624241169167523814588592075164035236684372679175906370539219798112659770811394735167196299997052090170907589856916389066427042357007445027751201049039481483294574438097462603510578981954,
  7639870607875817740724911845069788429941383420608124283901488148725998541814802929492278783243561055491564109174887706706782011985910958909838688395117183801349148254992749142698552595177653612624215726624488960961482979703084202105160279671478561594064613638247758902011025199234215321006017523025742122375421074959187286751895521553299453226894251884094228267577442222755282076156072771039471825668024710660677383120630314662847443386204743259568505689287162653290832787843996507167242206138294532916600463808725630595241532881209370099229896006981396279686279567635198741824018562931984922623336431899309017048819952588273388079532658851449393812411543273205891645786422945268411751880818405095690469138134430778489021148797121162839773443054846149807935624354967141294733326664224830500436445454702749172320783995650868018761732703319065657954753952069292520153070643504713068812890320538545563987992101095667298287304794661005431635846234487441555407133814323441311788424196019037028686962422762465024004208137135046401599347205327556795035339067127216177906,
  3021623997804185763348100544838870317307162552564799599998693531968130101562970978711673069649402749166572674943432081323146138869255334949294118316387788990325940109341115727429801331814578281687913514243955787342059156145877368988080791707114551154762661682081777574724842787971298154823852036895916524054373052466728731303019258295249876393209857312091610561357220176392716995986861088676061338436496169518654848604616848482407438381180741734222448394789399827801473422230578654102177292648209140948503501322415155999901630714781485270516144322582547801434401095336602393626424931385229405475364168364670415743005583729847040181455710029696234698505997788557369980218223035492383187976298941569772123638440889178927527752847144776218920574254531510374799777068623624218990630309628221177321970823034774545506023858591140389896916662207787683260123961741999762365506363266016990661168908868774133378091951614977054921417118191101495434786938206209808278789573132789906002086339112784715368430438149815097030477088688163597419253413412219139628745781099342483271,
  41091782763176542096312507136692636588213575119987540115790280285078066983338418338266739455368319656571703194629336410927266727424499274732291380098357445091340799308568360484677866535421058668005211542648674972395379364215665358720818554125981945474275161184169366255632419359158569508890535314121833662399878022115042456600150236469108159974192025443787361022671294122829888805336794395032940480496167711072878810316146773037150218352890241464817543095490594488754104250168040699998196719379820827733464855815859107761788284975054685679139904011384562436040357440246191237694402200760421433573387260392537246640896649147146547300721952927374176796135652330678042682000242307412186674866946280587887873829952327805010706610138540288011913855730911380572755893681940309380718863793758215444351626559912030878482052393749351895597158155182804814807831310535096823567161235509631615286658578590195287177546425064129849451057303533243348909799720945729170095878408322140440501474114381709565771252671577981709767638478642064876136793945784423858603564966446314013104,
  86670561346276901749283229004327112081922956415894815282655842219261890253051381591180342310885149122665391794481743390432270050687428881996706196068850067332835361468049859608140287911963112748254664043703847828840079815791344523210166867374112129449681345101223798429402194794691664815031243187396911960215671211422794306820104087675680937389820546842147856014277688201880717174141274936746781751322771090467300153094677730692232909534956944916011690468181827234778161975125727851535569861629220291884745302698301566387491770219476050941748668411972766044408548329750498907825806153902003010352180271792099508178391212339700700278329061937133682183369615408265203927161518022791528640768315032997406092804831050625515722628713132768182478011691549378624832240172383707271608864192942118171856467481185694008705299611314105945829387033052862979188264932474201795512442329476290348834952722928308040122263722761102752038001209375208856240645311250372640153996437123370790374395120320285350254748277980930302021966325093290944881905745102985217283069962242195471016,
  51939329769370654576333432433256433136391221083529135557700812650539793164681494513412075121883505473968595553878091947374656627903186816171364161521554077453543804147984545840634474745085680280862324126969399311229640560327310927938491691879333596148535170018149698261648003440278228139858790148628521286746175384850348068386520168074767440211476655696438739675796644295886409577559154192615071966537341081706497482220419135035223932036927792390736955880577997552601903081435508492475981857797980298126412519269808310756574659469351128562797590578003419323476001369611447290131137293265188773146721410741275221010515155865713493912768855730064565566635935253545094573789688358002770721080754685197902156776635596085899524492722049775299815458625359295568858655219086203488574294435488340176616830553266024583599445433095297362056428294745396641017593878078757904014319567264450256538964052007148706853706562711746676157191810642280464382686780641781701710145579987859492981028674877471679017435503993169683528592116481487861286289116375992768471088743661617762393,
  9829498234064137828071121741237834222414406998486328823924065637743898084631704339814190170417704585646785993494113767101851048288345847591129859911326180631166520977109326025457776640478113979812027396279052178079656593348303196386372636054817261754402626843572645147411143619747488532813525432313210406553747535609140513357644845126503159949939847591233867625899886282674242141065631702826842027427753547852784980625547796730956213501075135701081437671209736106569338981128770064395086822635241957989987524453151326843577125269551165684260624979530056413423679403268694320221277155284522945590601316630023329786184272936970542564089572247314796084227996064312115572289888413406901570607916985539706270694986922613155059545816240665427626536098988246922842402217051092088452264193800405064723514106544629397362950062687069185743503468907870252668899031059030733202099770701955626708007842141750040248776436938270496675406914489563400092985235499129699604654028321299512881718293173380258934336088863956188145305493633210224670237123490797406812568724883352801820,
  87968683767489328659515635001584373454271486153424971252261517808647183501990499321781991553538737856234550871431390503843286965138769032905340152384282439639132568672927224870847796968092736560421516904023007501736619499358544714404152214106474972421615230372466125530179653345435408898008690163071891588084555221984311574223129451967037586260587762633366848507527528479034425016537649163317928320735720436314962933262171984120414969390021578987584055068836313189782803270681820620114709707824647760276296351324513522519224278604476601784554635868956418344082595532543340887101615107036746824529220467808485318529560302603933699879125296023073278584693716270374914483889163375005262169733233215240070875809848564628977918098482534272120248127256555150503057004181198951860921678780927093724148047112032092752163821969300536677508468358938654452815223534755755907638023785215194601827245682363954905681259327472895456989344711418098131536495974851541068546097863303248642987770186355313674508110767638604733464029576882115288981356644930949310435890364514131755241,
  47809925350591481309531471226234135406460905980393007295409692136945644985787813148498347106185885802583353800866348220745875475776920674100675717787021480249068099354034049780869747523182136878867192069420344186215299004686685357497787101475284582152153509827098635277035756293849313931604238871689907398239561898872218842061190277094299032275736687186079770707721559232641813601697172777407028841345717732062530298816172640649801780192696415503872932862487451156694400901469103714665895280769075063099165801904028249123963456798392695655715947613669438739333006837383081812309420441592959517187192492679792971295029491581185269446544888160644890910857473849722526625613598337391783194959915065439983793983509005174338788171829551618447325706942293753652551534711785761849774779733167716071499421452638170475227272955705001733744013560297812168718861307295720086827047281509944936557613530068382030072487238918604555823405676318762623625890434079602395529144081868873503916372993471628157658628534654447671897796640094342024901643410848630536408494091288771199650,
  69804578807137977951591204253802570919860455967388601901634414829009972971392282778638712630801766921370493497690438081956561880129790914650754406845318051694049624845495251863363242222261458699500929790456268865970393098396956023564388968632992332376590811424860358035451697820676948892486638330687917659426382009263778903165827050291137857297509740049386753580516323216984736338584197352048763394553946427392885249745167489904651459473884977874365758947077177943562707432572285536101492929675650265851006003218146153612928591069343214878686374342977020598254510958054174455625081164881956344323355550915407022873450617663489800492811148486033667358805224298027624506580641661646093309658322774120168700461864708735460759460023553734363668584630008298911593217465432173511755315755510186309658856027447328817436176453655926246176438777403799768860801841457644764303571298399555691565594231174530659483625020603643822173544096553539509045743693865104312934271665810521464773628560410427152372939781248710605985932017807577384367065631135068593058886083620234778064,
  98797585317840167290597876570281387580260323333798832030389685399914520291291252264234896619763397182681060237095975966298091853481901250403158996252047170767663998683531531966086875291254231153750347550051536740686846995676773305775107923504903457787782633964738764290564016443331682245650903957006685680098251827330581904243226112894851849188221425396861310033713722430186839559644173467084178320400757151241680837554131482479240045243081253677296897044406796431797426815935920313582151463967892385331469168480192378561366570636094221329625671822214085376580706834616858349637565564815213278800208251696180798484047486754286481247189232457278488099517849200238132149505597686097804392272136566791432558387293962885557531898513390471237808455940718448328361153361578025705836438593371292347805105809160715792371735883271261645606567945034809907997205084227305474190778110649402160166666295094593246968082788587382689608487744561183798448657304543205368926840349142345088153510167857570666874956376066630729363649798409105284008454623326178181497976141218187286126,
  86534607116650955135477832306274118114820717164665265427099148478807776892823457954861106715049473647399736480665299537367799934023532749648010344600085639769736337322294714697302776409407753962883901258246629396938987701586208937991855169330846381599653959133926292450056440676097423169030780271559700744418327838639200591504192666472875278979549277034150826391547896926883308166047956420911237931251245238262891323911425925924887235313534140371673379930617119964803740766444036108277815093719892667899588375052554760929420018430744438964934968142535424422875482634672599399787959797254722441172876007712608840939504811921596748873955586267106549030213240224770792652497769449552051080564104822068021729276356152237738510636020972031378948389087608773044443391070371387133163749092821549212966094355995765425050659702392398001339719254398835335819326042355334640709072858048652141533903522297060471220130494123455357789547124863000470556288945504460862226648523847310733172230385641865311802179351207883678931632431925806448500511452822769747028812975567230419389,
  69669115168403425219126668605613003845205389336911210081205025241087952203462366013906294095868063810486156703491895288995944342180753633129570224126076566283785776310584133249700802109639513491608642051940551379803738265147259899902124751359728276487048030240957692462436925511139223531786948292842185557243747361826577956003518901587687598144266576265825837773537988011685811161188545871990328237725765974792555501517035225204329594566895045977985931335460305804628712105099200265391999022032802985513499055895296203508118519116239331768415451061065516247882198069414695314021638542948465099305759018425477258768576414740917080050765864163376935814660781872244505837942437576287085454033501105370926710216016889742519017266477109118773401965876131923824401677866944731603643323591053046392692548647340576221166484269938330305048174397311935005367616450508447630473256376421666139818172167153111289102455851620731970070031125405052082382908931287575642187541678615691797009700938050142984666852120015915113272059232133736245100927185727349413528948123231159923461,
  58969097896744541306276268725633046823353137159651300040615332005626421384322314827035473586350919884465338356840048416846538351475298726685210475900910516731592462648535707081943035235987550492977333075317220355734702365170793159327874445498164459324739383779436527800310927753543734929701120308885081138511036298562059488346961563623208283108425028737613641284672645036795749821634469459924402320386636095796527312504891201235999628480875170027135590882128244592123659726362362619317174993060278006727038520443869442023962659430717338754484396493573940165446942543891831593959675009932984755318320197095868111474034114643077490787323473238318431697758006951047596253478039290531227897202831710307704415204096202753606616877509538749135648654899352851081375466230230104416440607874337993886594343197397276280988725535964218368862525286842920940766935310174676061436150402241061006575183857818459430973816665274228223595232656315600436346060661799295434268127824698023110783192217548828248443489421559050962496809551681614178408105806817300900263152721796074723457,
  97447534390082662384080704887676620125669754226324768414436029961270632036424767255662395841363346696342018339637825422544743063280535146449208028401169350717192513434491759163446481547381600589645676084057980165902557489767118772253952700017838346180768335742506196377939729071866416577565549223989511605044361810205941685054187658471590296259403076771869386054624379389529177382974148463926922111853547905990950972997607473872962647276052104595112827435631270960595023755731806195452598765319888191583707806094607301046153140796722525757786092730919024691929884517398716315076857663518649379762973806603165031986181720651187867335919765239567443188879533652290886520080140499811495657664501357148699739221946031665890119202261370639549215000080968080493651561790444139936547321194227076271680662326799317221812574576091524551670509765492798757928496616737619368534354686042600792782105050293510602699110772925833223313894239808716540504631465861786721994997496972905979157918464803703518738864382027060980493400455678609307653826192652631811202186385925165692586,
  59483274483164346145940369617235805971795888290583815236978853316823013314522929991540592302274058550374062853590459765785964573806521600263159177428881248018307666463770771998546947143246041543087106778821876907079694131367846057701838283928309479160915776228351293308159945269760684026594233928858711054408683063663858102047363209449653498877627578626990535391553279118811926335106919312733976667409148613974561452545275688380518228526608713496328388418368484801362645828954007306507915607410288908345465962538086962552626371159235948263845456087258368603761981706726337448128763726829988777229445404077067899401643812500275542016983023069545116299831343107188990986254101600293552441548625913761597478709185153402568888130198921884456611164910632688832423448309628880496579742710340822373667382825577250767715305186061648306335598019340710989716309884087467259104459888759596053032924889936385211939490968283710864571352345601580438642971035384668305968987968083587349785762678556588838364951627235452070877953346765867204916172087981314914169891375664645456974,
  21666338802887093115965529089096858324662094236872595520958765867639645258106276095395529149176518173767291898766779842511921680755258160046926728928376965028649208798782224421071404646730748519743713976053074322345155253212123587085161628521453800836861246295154803945332968377364248629645702435818923168622649949921863498324681214946737511994819504507449659704327176040133835522236081534000479598193685223092588145754597956696947562389495724732524848660706542882562876735928839761419619059132908399469163841005321889186943256572066776523238247316438079769604445729694465028343061665221698708026175757051241641110920735772620397041168885940376105843313029314448290659556842964872963771613219507321997164144170256546894610127030824597238418283604031166034891537160762328639666165618560009467155491519746730842325586767410973340298461696756421076322315367897998858068319892283085976337509294649038791074370774008463493623624008300849500735581649669167597778658081118230477074246964360473279351820384719889611703590083004556851252805095510667699602373878235376637278,
  22677405205106153201899838061149198595287500266294554227352605814894880997940795238178862244330133236455432574103883704232398092141614963275539566361768675243817655662510133743046480820755285156491167182834541304723879598488899915627591908215219594535894398739198788544787855883930195317034712402500720728681966631889154092375629824773736358962930373027486492513691978890676358246153690757238118890003868340893039793751993065381722873667753851141716182146406300539934079367210950941233283505714265283194967469485021225058627404548110939587405372888096652279949131350411485737581899491522734135204022017717426975610324053900259385589578491549406875910851090044566987790296358999578580439959472228433554403913845515754590510122367709490042907251632725064389114149403143929338160492141148298696151260756811930048851604289256533437306862399621812008375911431730894419899802933772305065225027098497205959635360606930155405423580935622219990176155133694756828973901009351898868910230562033456067478159556373737243150513104638843684616602221058076605501633844395133927539,
  5047198111267789378425274293071714287376055437904153578146194855984706040401016336531189306836965939759500845851332728473088004848774039317183964923212125759155986396831005033440560527898876611472430892073906771713344899959049955652866870431389745563864195065256263382007256053250254497912589372866069366527475695458554937936549466905956264822166011090722271664336271478599464599992674904954961512642308529764040436950307838875676652232278535937556772170054417615227578900688492224647258100685483167616870537047140293293794295759712945613452455275456568249439714331385804950973720607539412574156291011023260518521610876296113466237967436112342517799340059601494432947964164600310883776688705920048862018019633769761450582921768913766854755419381160747064364618355095042783676384472746207161381971191770444487975137788922899588473820082965070462231272806210512699103944589360789044290661289121648867329327712450595576499953164568888853937404965765716880913039242348569376445019991202878400273546363108028048839039864462866315940784010291779687774189828622227028532,
  91914550355495243566744611953366897039280307633613422784813008059024523229864536534759379247009771237251485597896223350550371408237388559899963572576815282498573230291020966336552980975186916429280761927498322965219448169604371548847590855272358644048020175814257540052934387946196431967349029347026961869732830560212662858359414291417643270438839971403798486296507440722652641634634289829191540694582238400532287197813012034284651150002141596938756059895846743378832151044581733491029314084926196254430106947558632673613396013154936002702882265375501691319481721677272774887979071308645912517689622702343482671737444762540360443612383426636852909793473026221774344093610047343832594705561796242470147957759938396128282186704046594736713467400380288689067343505606541962915439823233191663415772757772625566712728756776474035878251863240142935123099265241861053652623906898057679590093782672125122055111315834782392514171893266684869674104933862880589331412583648730855968523648709573522735515641731600057043568337512858648679877762687891197017419892629750373901696,
  68114553105639638913349194784911260028872720224362955411330210328883125217903860915341167857762338801385636434712302531331275834921496268168434618056550643768648443216916009932979358869713263459480476580167302876236263754046417737117123337555290761684576098412031481490671265447881308749669265249507283763395824831279554241699844491415609082123420144663561151439878692836764403819999607361303565876406833411029087823685230451771621814804943262467842034037569121810020485713346838603164091890493318702825651133422596513951836285179232653400316253031177685830439058553031434700094995404289931062006909384298598494625764243642747550200929598219970537138567540242399582249361468818357839052925627662578147628254905215311884516726792585106299641121890474290326898290300195391955649073481812466843389938765229124423119814574662009378080796511082080920250037221765646622654628516780697561651229846904028763819653602313563613649766389022197923617233885491819809573522970142320454913947600203098311826513470831957908274217797322911001498110420929199727079391310541688430564,
  76680682881432639312292484752803515563282795273265608341088161697961023963066523100437026823091533999011018517840853479666457696399564386232590725663075603947055135897585127025937635325234545460711578765677751713231407198493087072741725990383479908377522266238501618900013696653310225295738651936909936258963337910411775860518781920708777656099941098051551760524338381498578844158021483003773807294222057611422187341912017380974191603908969457081286919618687718234413339778059759399170408525740245952795358955168367104612241414848823507042098949464053346102981481814983849628748546950040743248430100423702377026935949778090939009555164281254168379512226340810340240060173185622836711787912863505765122105234648754708922865475797991986634913433674573178080001015922803245804156062040588149733690546883830568311188564269274466682562826056931827114971107908022216742737252056085239809705192876172818294917079681084956342092215680052226576590502708101059646896004191594139713443207974875200619703621436531076819492314665746833301942561772580296562871057463566793619642,
  93350904175915476056437228482315205448832642676308711147460636034732834323009419042086748123219633559808929813901374321723190294403380213835037846658247849282371602845709018509399863087689746361213922287446437282223068981442710808767398474519868597356568324758502379022904387433865650163543092049497513946517120423996380485152404382714004998736609221595167943665520971624671902878497234306879414622093306540351514653335343817621214097499529081334366887421960854630056294187185719897965490389226099400645813457698989029375252603159479352051728738371667007215479619563757407012855926075633358043611785695703271510860973326600211008827123199163759340997123032026138109889964222097317552741425536341306159729484372048567305363345356618321960256972367743766404198553908458665477313344243061721260086297605296720785932256229235584626284633318929283198361000259218711370399715055774932048759783197671362863201844282336539347163637945712771588409841768777705511446946524042208853820282498929639508467046570193475974601082109002237981389393889173661995870235322219629414991,
  39604842992793411658670487785711133726534928566536892887508962608405860497308118077965006010068109796230455954801189768566196762423893127565241655983194566147167582205720515073318743864995920772921715411527070251573742932740603038899701817639249284449614498921199600874145592011971106191781356008311793943700218567880801261181157994641471730354790676703916264480369152300163809750954986478577153019332075870767280738241627299798565721981668444519311512147215394626062415474788449253147452223428981444393566896520817283520184910446850123635346659443910177128605907892320369817781441406576579531416934275662744275647924957225617711224415082059057260848147140459239530795970604271724592752165506005137153967772426318259343164959994084881348962944398019280504469903074332958696420234779944060855529802601687627459481652470013204750956993158251056595655451124681216741044189201497129170591132046486929952189360787257198954332687027642112079711125806343717907028536568681881306493152903586491231366257190281160804499253317309331886197389137211839634887920380921481773975,
  15121555060714212378478249514649493285850008995173231334179449195719549373810225162043355850964044299950654948218174918298209802850161357646979930679132224784985129587419897623402048264287062020511304845432074564363054682985899790358840556461006745899723002864895895241453303792218607675721960300019984053461042369673948465981989033226447136417782885831861564108998106333256695880149087548911855294447548777707033254281654048701145290259162535198012387414010436036309205281399608185782175059199204440716799015338445864015420542276603949509852531714647656658866814588422462768154717748977060201619396947738552977951792063934259381963552380388424839581039275670564005177458415453647792017073426820789537842419318718112513400191354907522301885366424561518864030265041520622587526974644830596060008664808467397587469403100443050711008032857561852600337068332178341006973073703640321298250395459156645162518016358548892501886490417671308623474164512000978052671659140945866695297194326626136275546662763974798831324207660024708256555168634654157322730379846334974354176,
  5339118055495848517100306504714657091740008220220333420842716210255069982951669623227920520679012499910597901723864217585369064213618772371091338814995600185227362965360920637316839784737149841162314047954571631028508309649294656142890777360309568914137573724220084319536767372075167234021174327264670777570720566446538170861043049130199330474798596351648879646194492952890582573097904095062772066683569442798805496198375127327465076018212152053349220808519176266170836135723334251006968310417820797186065027973257761157165072402736511990861376703898866503275577438942275815661730769721836436801942195847681141757576578022594122936937628548376150113712094447772678839072637650618932744947410926405869319895905855996960097204635671095586425942225071342281083161078785456208386552686224968775589567428400965170789743998364521940287896992967688552250992454811316798119609584499945128301743956586455425349246733192769929221149864428842742821896234377707149143857760805808485642730371713537642453067937869457905752335076438815218106566079270751572528839918515710526005,
  61883391085362212756884261536867998180736017087567364217013332426353061934635454360172603885525567745806213146382054889977943799486592528073247712770153356672430512874551113052270769226215106526147981396130120548259553984982903822165854000278718281794527593457598160626825669353591091970253175878958507864251238169022868440885550462338617680937438712550030627677911446042717502369048260534968220034680627979397528237235197310708566623247325548156691201846615653934486047540357405735326497356594491899073616081176313352491857472402949142219105534669423028663739063083795795265229165823026099765074091873340013305234310103037778507875206351658346277844835368366559027055834947961298350561239433902475739693050522951308110467091324988204831537894226132235566343098114183098668476810282571550286827483833975719258734740115366467168262937015526822442127711052390917969319239127737977176880154224688349620140099732275759329391772408646348928364644435387618113834143988823534353062371783603772709222067901491315749461235248649803680609448488571989384119196847152483689960,
  81472224187543173353337423694900817626436893163678853454542857139636032750992289571258032414630563428729318699711759456583631036168351573519241152917458568654839747092069981588999971336036705125178322165870469415652062712941883036728616973277595474898327009337617091038055159386077975183164791131510918328012752515936515048860793988485860993081193493801277896709108478408470943154894557705504550361821811546026502333598662621190754572843333406546559236526779679009724022559037666277015717874530106783684597462424119414609270255181653574496408037076359218204807031707800495030515279198046841480292623759144109388211758454223002587105098974340538019608096706001729446131594353931902155249863917703060325109395966038206235644413794178842765240643899787215289854873908254194811268497400341380587702933160023497523314378325068346832390294862961289177107044987706230858455583007253858193699956274947316552089561794462764776882775111576147049901948228432386802734707467386281475267533372012101071646686196160063377135213782113885721215547739721693304401947166534830268285,
  9805531003676041798533591083991213560094604211825482838260805945116333374599933098540090956755312822504067646007341266354406248261660563576912527998130161592594268648699500472477533277064999384644411392955896914652204299081224390628600046503573812695217022563921682177336732020915867504500478898168703646096151846004855741439881726097384472127464419545019833559323176882955783064580208982952763154907355005465411111371947630436261732978590284651319161466655167663506411933457586671378181098415646592962365769083627160722338147885085506388631774907872349191987679896746362545471260440954168197799220710427640251548433196477390558104961000164705989515785294399191798519780608939567864719736389009852422340005442237631164031518642793802179526568429978142883832138959824393958877015579907839448920670917065520349676998605415590210576514771578737867513712547304466033499423963787796271176836236896244596776440199697869302789570435167443150980228986501287745403934073972426716050025587854988889409938420910016817387489835845628935275170791170549000543621962170642940432,
  78062798737866767302228520183704159213524224275962837503729973495914312511292396853190129753561162967230848617432317638929881754024703915228062546847910309796282934304213394022884129310475940434608356683432324956136475425798625445544988963516713644459379357350070277317673488451748870996682508104389915567709984887401788299074948442331678830180605973715188996429503241991398806477821402001041117774789688395551080742111648042275079877931031511511084338317728872525585366801323192752339690786930159258085241915908837680453626089750834211044419117285563214646123720291167406146603573964319013326735113831808685442753061156822006420507762762431630907633957468027315291779908101253549436125914719887523866639937485253979788879307769281320874570272961219939081254625546254109008343052040387108383857226421767563029049301769295115288579085478954134272967908455152662497710743422153765699549216931190035675588797196959360894440560279853228297459230057292902250191869049960515196346658738457662861655837092622954905255871509887801915359854417167213573070063569746236645069,
  99438595865304581695576681415188637516729582855194702568148675216121345853932624252174469525507007692700832805350536951638370248262056345211908643609455087863745556884165147477744660686802732090527456817539515713203754621706982626148475907106925055688718403630005305138681095753887480633463299948769553743481082454131098108373690707510452638146157137362035056374120611543698395643113673185097174963434058322907235834016182906087165871016013042159191713902364589705902734815681072289867195302579683764563989718769225175933155867973340773733043216755653910755754238916160702122717375920700563071368437478212135288989798668217762832572533345183230392747618654039192087965652589286081930704035739642080989321089432200851994167611717527353978882026618744562282022053152831427848303386860279965175179755819883331025625438230416018942339170386337835792103203778668218061890863264867419662008345377267213803004835349669601066224138642725292530005372917737061162348654387360333573151227139300475257703092179902691056833698681470070046680713190090063876906894203541867651074,
  97339382475859863862891901184985160567627206356818364125792244982802899653618617776686778141029039884734762717902348638353671988418153776428435790683635879056700585812134278486017342992731149852582942638130658497932171960271888398888136721030252937373068728428425267681849503279329574707045375230320864088918820469202578114374706774210439314645278658963807040853074482407805394314796823543620540986524254461309609568972992532000469372276519264525234710438680616284415026327290612571927257767631402242018562351489059030613122440819438963471259810672223080736248740388234464280483917599711890693049486869311881573358946333731378306463075822060360727221651203940831736077127229108945530997277130413106141567730248755030303311974593678235696920692900868406551784355069909796130120859134208252365383197216400257843865315526851804559506527621829780729270016262380753984531787493214571767442842240498063048733634559557141921655599069316011685456804757856944582581465254105690942130415186078742436405050757001169784515992851436363314191985622039283636376980736964248023175,
  5295501373358979603598744425903636907172462752084031212380308926131880232071030140461195590396734783221472762103942851915451503469923928686060878948272040131551785488924211858750326012076622758794866107806199431669460231246670036640694569880337894191692790930563800771255696111385511106823071862635087813016591596657199561663926952401328193712268673839971023130237186061442402816750002785237013297428005731412337710767305263002918854321849520377262517251966548985863027520198580555286556701741242478139844114794561403613372359291002402880016954282527637001726055817408445343080511456901070920068537510749800562299567939370360942165585240126826086201398966399798182668381464268876294549868698695601835872133246870517519561716040850360702192659349072702510994757252219108424455952078308514342748979583140906113813687321865624780519973309894011004757071818985229378443814143454127508270984979196457929208023550364363535096012517177168056554998278836687203057953323354892273581439095605122292942545110596156659899801588064005422943187694927076222111028476180826159644,
  66027043097290549291809577577590269624782434271968425210667370895391287926957103913170155241989566593796288840942869051952349190754939683374338510867886831129748407742561428880242025456470750857403395398767464470647241224405084157459877316927428065793845108082933471369745731717078012150465560773087987578705024420182513066251328457937966934267465917675447321287297992553229395654158286835862563929622701616958143610479646337016816903837002557364944013958190229025904302917933014131985196006053939593015118034855063021486381739005927865937796283974600501660024561924250559351652393899385785832922591711647601833158673958922691798677199264267707228044516574554501282171307485007367793445470248714883718847668824378185985568323003918292507222124723395438145081249592057273858216386717412145544407200077462566779999303388581438395224684186060994650551174949312624747545411490089929888024475117143941471715620484316616148349019046001190929625568516287760436851209221765372520306632610279260457121123463843089769100576076038205062694894518313368129757008494650362783044,
  50342429885580336356198454450541852394839890825148086679715953087237187329524617526196498905920546969084045225197466547763406553670508396129526943779829719822550740087246757960737559298851192270040140899223099769250729082437252930253655458496293343701951694483160099816953821753975089393183088183490256194526897726401106041349080453131450107139376971054634766542938733278849650778891157044338998759686206776694117023532572196970063355980127679632173540570173738734560027884615557553918888819015793780554417315212471104852527959766608726189792991456157552097970404808675605446942831227454025633219115710445542963152252304360826363084422103356833710034748286461973431203220247244393229338029788392731660966573419664813971173290576318607759419141898287478329113668433025352925249647921101964649065217824280216584448011941483756087062646822170527885558666093973084921172488988070552950041388669076368399430081887793480377554118045469519337436930740150043869156290274693614588145704566372976279494406160931199311174180452044928354561469971287682350175144537389283837680,
  7204168069639536492505786930809325864323795839791850836678526870939433960987834815131423664526254152492755877990653256163320812718635364405049101813148648797280648360849666502489207356975362171904757205540792696638443542621309943524325188309713530823407873141549480966574879196207042981321762437810817966000036278059616864585833110248343312510293526638577653971473510052211816165672635135384136775558921388335613754616690150611753776496372976412757297961854600653058815433746646375024676618736828601359389979661048870373212998988077189303455828424798632586508329716478813687836934043158699441584056073105170080740906242322983421483645937540666898879902452967750380630886424623540006792050169402576684226733377623470073850861041947110699435804534455704891685726842546490009371256247610593669638899731278465862443799144139951569466810839263252231819117286400745587634104562885751255056808152522939279259781486174754526947763804476995955050607030405723074802347057423446724103122965349505065170116543132428521975922325039634918024654316346612918022256977140890212339,
  32878860417394101352631152036911145392003875410900121740080037076406806582462780508755720410542581570457315479309584722082919046179453753955470558955349046238100816637319455023584810199222719291201617752024446686059009664014265572476843653318670352206558014589136521421488427956558662705933887491878639391231094985612126299412921957055098215904145913861125266562187945691785864140841846629181231277170185607642984140347592485979536413929570029539960004476524174118063609089107032993576012356745028948966724368311323482735638137007848180922045444878697136394407140683810853750237906792549199074354539111875441697879774458807061279467910261059726785068754968619102664289872660415540003559370620961468777480211955901297443475619036901503229876507442116594074948464211635836077421426796439831027568155546121057167915310722177793025457322874537292989194954644443021474349443399152619976461756050044687614144519713784817621178977241435546735467024250734783642218978843024064895284631438816343507529653333478207439874478442439483437862158000529594120169584499759566219531,
  45946385170657449406445413770883853227475395462267472178164107859715062639482911743733169123087794755840162452434673160765279230383361084033932278592304370696142336185151202016300371064733923601594093487614139315780147375520999305714396909361417808686920081272999501268940633815459426180425248707055293695120120933850061826700896112557402629284289397798199536585334676890135251331654478486211389757939533763847704378960005437463152679226126554035001329447959332038995044036912341008956512641833327189635116513065117671202257937290610148423524674378547404696125822110639983260451581254754677929322160100396891835166867336830393136298532998872877313365140099200771811594958529964781866067889568730412979681933386864036542998250248976083898727879968322479948612906215381195278117506535007681270346380699853213452396070408503822031138373124673544085400354980559889762848218255029841751924213819952951835534403125784310766698198236289049859569939761472019504074153418288497163679555729981157692899029453651754415265328609725311247060977431006428102157231991439287247182,
  84093996741383269759137019206039345242446281820941620536688358917458615199461028929758611633262539363485791650895497475561088704308265783353395487206043619313816874211841752981800450246240132138892154135406316330238216156546453399121918866588028283036730994712897808165487889720625876819014748657643264745543586479660505441931400783305815766575393391766014969017251101351930327641254379081724668999981078707432988286063210542872923068461896542162578575560161255234030058019732943125553442148865206998097004301429834507905380923445824367943874916281483401529428782991908462113223908762350246378918770122675476308791945324149114109125348773470452902228567697375702167027235152036832281449865303019336247358246400226530178178623061318267347574556271918313859370386942322406078341585617375014810320379510019132622268591620758399992841425836075502370367514373472500610845652123178206902693232717071701807175007667107024383008821349562114209666627925762947535365612231196303487297992396129561001441176843099144359806556684733183771111489825166860528824315829668157736742,
  93017505309619663515876755386412883686464016803290102098364145390136182012310600000775796607677144532374490366645381903303565964053774848637705689195214360679643287026511419820587140996218849541275905528966271743716378701546311823499580805167263878986901169705743325252330668811410230906371609653933829175424740572281318248528656220140842948358903054331768669388627252990137430129882853320414925964724870842887086812156215565905552011876699209953492885869512934925620588529975945981473505525503315145734981302496356660057156212941288201622999848145291580272745294336713461339895499251972614295467134110655087486873567899050526184186494670036261545565178590074743468302203353062126331982820548103883294377278480154352985423406909915122071140819165328421628682826366356108343235666218458349658424351140825271341844670438854605640891533111831123911860539878116762767613703658428481807313920056249047162328232991080660606647062640354285919007969734730188705856542992129141065083105024921181152561006374229243293904732428585904369109978087368701612715657608625272563041,
  37946186853271590894846828027643878196883034690139863099353489043993961413138596462884385448545178614698948363593025023338886138660578825349382042975420534819660539437264347797913552987090440975167142565491734186574028331056378689930376561815662351820475549941943497152154891214252064707929043762128454036356540042644388587991544652650458844150220834818998082523762637834939192990877418633119502333553507950955019850442946460037920770326472316538371677976322551046150834470572786498431040691955211902908981909550664375400366598915712966903738260586886220943158567621416946277003446146558837096145418383678165326467179887047516242002769841056810499347974174742755566238344821872394925598724808179028869791780821130782667388227175699536815810068349441770141103531411070982796796045742155734677372931318357429009881725107070010270568161059092561977387252629549670643826974876315270996332315389780214195846283702358552280297758021406191250393900095497206896922935154870995796216818651729414300236510071410275558943126234999452621742518340731495182266541367071120543595,
  4770529840551641440823160400941485932276718335610410319523348484607952364661069986963176588502819331709092775438097502969129282902871827186867656056560103883625974768993319181508684635102020444319141590772364683025539168088913774267233213994712884977597953977347922967893621930992511200663011566173906575736837676365937189211422368499120214755719722305574100572545257245385556505686460537112268226795019296310394584417455806521223889346737778117487711085358563651048040070235138414083943449149587336317033745247442076903104658940280706520404901026101806307144095089011836528291001042631126121723016073039142782998260548259374871970789455908633421705653769115599133716964152529125865507192748345937113075626822331441930750599400673536365037293550076798042151214351972532560562264394541411316747298778368714099675896563070199695608246280145049119912407121857480537069396403892123464697871225506696069651615068130060629410740080470757013091617350773347556487725473691225215098135033192993383343821078855438332361873569071608054558098436700574350850753199409765965336,
  87210434933222806188349920048278738112527503049208888174846428319016539600630466502915620890532294731999667891042999177453412876891030909976718814803093271626981236572060433159649649342053593097499554635341599843823862049425069393201426663783689481202199761417986083058983829390067395145517573549997170753892480315294109011851492614087594473721159393289263705069583299181008620840410286489923463260345642370424824257063909129380801704659653630724144928183755330479486233506336636375886561058906603353162911176597900236530121728575366201890101649815977724729054022670786268338777301117009431851403577621945481676206437531968784148518425893448140529583996384970253959762126359785945669110637060133227953341910530379540425978304137667516749768787465299649178342336427000745475481949471359866806915666645853291490308232059890281205878126815767430930721017613582263189992887973230932010149232126373267151796495548968924776611843154567161757493938401616522907844089423150876687054665275793238805549126661693777598953925561080406938118224800051350809372046686020039055009,
  14116539448199594173218719034097188255907262958428371977008581794185070102392475998828961357377875643588549634256114678078334051871095131257599993180519092190226656156950392826194790160170231224330575443126065446462500868662274804386674419442015394260381155782754000040402071218190131574640109342733574833610146940368545125644320347075284483893175456176463157220928781027991202902189223828247035054633830941944779746913088292457205029220624985552355105654164304576298864176806201741134808923422728834745432011980726606895692588229327024544775347217655283908061743002542828159828767471359831392486775453184684460838048150815663541946256581329635955059482907633010681564496651788032837772344264957347620939757595579306386710047774393400649834055072362181198948448212717277785138995684904476270086131269781577572295464760335927355634301851525659582920138209150226200880031749728538998215039065355933128282835302291042484991010409600808129227371345158145829596251438171754663416763065800124676193027393974968282716096494372311355756290781019612424029811176798261867140,
  48395466852385580727594056093297312405555373044799293256493279811483183320213731115623240409254441936217129357321551955582693070362086939103095626257928849446571817529163361050844013855636792071157188857988513496298042756138550082816695303908698962080290303553800625563214036681779081802116484387794827851293781711519531292060253499397876175464080018854911265094773779403380813851658217736547421223193282082698080401490534839550396438927820292472373482716964374678135415623079293493072403367516992521889224056696146996814738788518603142897635379762432426981910159665618186293922048809589153523367722568736438466816976741773574492402773244271852172458249037944402883067384456400185365607465417560537108254681792569364696441802072207679501529746750838413523113561625499529176351416883845818879384276920770036330816674413405717150430764455055708620196218750902138849321558849314636118516681921933331068710415721922258451362322199002670838022234873215757971191139682680384884040281459269592328395964188662679614930515982037118628310945019769133557938815895114153272504,
  22495358886450529525188569766476775406419896461256327822597017023337558520886222182600285359281446308610907067417161261230022530622943269439780326835730088162486844963806183381290631720666982539273397400494758569587351393454769511348187322641752631190577688592198023732093522988172495982321802051416465423317460267710479573856951746726028070968152504373358982055047400803013301755815227169530967519720161200920566230877542871069645863471374280667516783193735132565221483833173672308119816534223980262474376558947675692163436877669156494799894490895333548260863798232539491667268994167499834770469902146408996837582495058290814533142200622637026588908567589263050621772504590274990999327919762378666652919186395587687935663877764742766951607896083931623525292783250364155846780246181598805142926914406989652471948193396323136854634186509092841382717252169538362006323009210996206249425060811181486751298160865486378491683891420244074612537349911807444468004565780723476210113068446077979422132044175184816160101908431185778373692302853393992756111160625500938380159,
  31151113590785216256048538691432381224590429977294696432227371518952580297336604535600707534380412669670586791436932809218304113925179378607725904330105369386056453122825753943173722335852211681543044363584974277208363422787961783015362502801858578484425971986713283424851276948108214828989987454317220977924036083261987325361585956014193841365176258823231664971366187149882091304281551016224391160452496338425654078620540396847598413729509315814877737124018717977838047898994943654297767325701570538126378522274697246787424130079364232849781847838418709500092027232765464981769718563115946830120997154727353173557025264097429486253814814007859420937562638394686737163244650066947567053159947268781125617046006407444558074290199970126210536944280714092216615182130793486989728370011952930810736667285487985787148223531687967478735752661938542362400071391130567555033885290142377185416489229415567163845886141110633338312041108527645828402610255558454722593759618723463643099396380123444892556529898272029900367843915104186874958244295462621261555251986745094446529,
  2219649632955400007038521056321967658248422650733125362054626026868452266096888043838047437262323316166601591279368819959405025719999329176733931027100125953609469437966385968083266431931649658496339772919441451837316675736885364518202302381482637706530113911289136913462491327912603253534591991632345277581424766602795479540704330509573058571051219829120944316533594324084681380748875387297085375441682806609884935066699637289794431656792687636706605922664955035210430834357140335183877561742096308666225048152511378485882570025040515838618361645076359197566456471215061989852062746107207788534090089741333788845290560643246783723784423811624539607897311433337060960525973019965093743954562466866281243275277881785764509786865491389233961453938720160995472773168875997332167711844199589484861426103891518757536353139008447216715931361056590552306882270163900604646542371934043098508250773501548519931747183573730449150694975724800790842693598291438309313898554875494232274494916279219117441681762258515329230906270288626273271727137367472885363862123221521565981,
  40143461744208641223824870184217621137984800128918461150291340723510400996828163551558849625934702284245296564463145812208779641481397405213189828785428426965782243489218621245340214229187382487983128365520838811022350458713289651197529723939560011425296402196067696795758147935979993141849812041111542822165132392559070987481632337101916113979198131133436287560851913682356263775811195201592830109802456170110222573672111807537839399705619783478589980103958642732946843133101094687964634297877722682194448056999245536854601675335399408618117622592942776471534124000027690102741176192399224871721293219882821321458155833081032767665682157622328610235788886649557570655197671423095042057620106160092703642002340450972083564857718166824151192694485068151862935190561171280365926782136985075087749822073193348619790072589775826641428063197595598631453709706547766476800725878500630994010878945547097206380389483693036970026974582925418893568276976759232867767101698035097327693602728831210398704047295073357317572232713912886823089697758812579145493793429853594473006,
  16559315055902450692901802949396531937276413075979435030186195182849400682794556592773381062149016449883428475015304083572143224589265200027521484688613520268320201235650451901911872323559167037232979034597875506946927721571147182379966807463907229451229908534653261746797338216839409164611176212107568264733826146148780221208854610941607249501461647180175574523157572564916552016964627970618347370461961194707193166112753777075198944648689161124640677993406222196506865913705310362339187592819657416107839829879513864770740645142244930292524076236866433594986611393309682004315015611717440284570589293425048899723028035902438855797151315458832846190466314888130054461650106191633925396324995668918855812076832961375023195402633096304694051247986849565872764528769709915657361774733919053124868449462587226912095502070721707162187967918776070558048101519229507432633782002791831155368264376788757991198116796887396317781452995442566577309275671432912484702302278647522453354025140790949182546253529101439352289666482429845599342557559177758575824235233897374748446,
  33400472593135729262448398487770176548131880669706150228893096106568820300579282477684565057591640181294558696880326458117051128812605060822201102948137886762347888324825282503946688656047914724349593624085753393149412855950658025762800089063568814923209519216400318809729991980254670328632185674487704766797400805244494123019257706168607933337726166795237231022560304560734945720635603131707037596272146490194250879542596683656734967847796401786277500941708392596517921137188850269605808592871546564185389115112448280957513693327438297878402591292425270152380183942827764230778659980071499001127186267256977974935585858827620784419210115012275557417797638627058527065459889378332964951877011526441421644875208632942410854193186111409682762851290143784802343912480472466682815277274311548964625567080291229410470366544127961945872451600591100008959934764826857346824604969511368019113143213023072466341637342509019213619905879348610301168491367031251593211223143289163231551486390389204907304675379060333848146223790476336372022317683354114329733331141893942473793,
  19875513336595192369206055641815362927457172495382044574747097433811199825206939055925739070777436069154483495464543945550651751304659388351630848247463410990519949623679710358992713562010978505616249952318905021558146844677246361554697831683248275696313571755831470789709172877833718048519895459843828596699776869250594382809953116380964438179977603501130870739448519285162549058903110872332963148825592074274014344023881471254559590700119366547096738912587270273568527307775193968862038706430537341996367859408521578977244356095538320973712223499363623409298990125319603399472142957874751476855432173216712746227680332330005638232707227545294942172575194125105391672186433585944534926876922082387331430039261354663005729636733155649097959804899247266938645643746202249683380000505578982685667696711428018767262177865576649157700352461100932794682563677161539624379277129483813797234472909685220531233182015789584479574840496654262502039567468235473353258966746482118862207730244164139640057439589934451240708100231076667283429860057554936374749864908555630488045,
  73498089745784926319775144735958577735630772546785298233325468702009571974896190023249744687725350453317273092423088905788306207272855498567467904848611804926653657381113003182547299877874226322450523541721830132563417954396498386793829456411967522772180797079505564445083804357892004410159910087105620865457535861988133754425521273028942416530758030330807963603979606664242815793244860528724956074874090361813640624302017652262395586836828920962749246091188942919022126987681974610643447889946335490493675843048514349980646095449673288773001522154402956812345344894693259234979855786079219347904248738644206792284192513273004963905388381579374791162995933734710442586573721918359134231189246812151005641755378356731275277203394208457733093229393377414746291204143364237584532278001041819917548416469079889666380349031404208579751276702343697309017820412023120163323706816098096193762383531664281467808566072208949378140585082658256120641566908039133014503787374700861916342078689658413132733633143633823725986924785670108198872061494310116009326430205345194366867,
  30988893658736185274628304684865086589316628441742815813439912058343184793314382513612576865309377574773719660808241387978909568631924278782136534145351715120124156321455772612571711542375752304356111855891966314442308693667051199138153403226210621594397427120765465231765198966424475262047151909698917445511843743312560411206000481062834177449518999061022134126445340065348576158006336404668827392202261921447571115941454757056524353886708217499556288908901677082397310205194838871835498343288088860711036176903323107813796305572738981129127703868279932165904053146896325986391942915207644121837405335668958199426520915206072234787011150784945992637942582738100456093734037384700526043240047651510339744262915897859421619027654612437100731415331339560670120992357055893555586437332466239368273381376660988561386081756085525751881822982365620593039848026846892564831572720381963427502449053813871227283653813817411890381862937066879655274018351601106777215442748763186693851665268919096693241241457652517547713861679070746876905028630836414931896559562354278624551,
  58759933740486888805936350947640464042266902373943469381319809455398305963795278500402818801715189687315831068254147354750483209376687988786820162497720796546229659986970928634442711878404326348465824167244160379004862906335227396263264368969521863745855477379277081083209980065603785497861792816823801844373777396596758291322060125539286970613118307574973649821014731399951378011958363046578458621881944149784937009840275600685498026335735027690350133491599941063406154707873329060370723116124034187055078837900089817694702597408126366340233205234759494628647720279625211368644837784212775470890607510255301454648072545962761137431679308322714444951825155320253068899305853194831806190976281801667723036121660678136951717648759790641767207827490044745667114390302618481170988221888916649639386851319346911259894986247734192221039293185653734628244718989578758679611281511099659370100378346036699083660549953931420999423492601951720056003498594040963539910547277394697990413578702263206920254549841657267742794639612974391368521794850340618077285098742812276901141,
  36816402846752887542766483471728545123898591571606211062103861150414532497879130121380688937808878574113569402360108611727474907686345867962597361001991170298696396753605633035859850590240448570523144308227985585804210667606978466858561399205325248703555458537010107735008864951963541191453995475570655262775843576574584612584156310747495367701904508846045178961035630096449832567980305263711009034833683273800925855783963976978875745504097761666099027954291885893089179509868123115630538921168142337958131082941913018538766498384326660489096880186078698996946395195235541223544449510914904279326593168916538452464761210297732380494910269720631973144576872230188864547231035203360880327345189251460428378272357373813799044513964614587724157800991829452769114892564495544578208112585497462991227232646490397507964230600261945260981238603894172852569764474274292893781644102259782780808093811884898286656450750469903550368236404570287861926400784608310625668967210515107875998062605331021001223580899087864525527739274544838949424609773097681032881810483775584905357,
  54369854782487209796239602856463370367224447256026531392813243226027749446017801180064353804656177241828844153793279733031656426254964457524785225151403332921802994363668920045028087930145836265592745303693208581992368582405824492867970470048929341036743249680787167805287155715269795387317616139356132593003098518745852607460428071453029533444248363527863091514581116770338434981090347138086879895128909270471036033367710778140834844624686061472549883654767143507897165014452769938600227922887312461611888686514548757124587583194866819607135129780973428900934829960916137217184080568891284832030737804399029801197767445952608724501787884827582203141607966468453384013730036339352239132617464228397146920127293410803224014862978907413563620435519583015124060878235799054599370559833996396427254288844432193508373960444126803498854986780142412013984799469474267251345750432841611528318934336257825555762486044698920810829515812130807472484883173797144065755237092962046872292297505739043255293584811980266329093403989497358092902735650265209686282787669265416618779,
  36514649996335189185919828112371770580851290889147989502296980227753697818326436580306594608092400801768907232584144129719282424720380048659076248329843266612530268510334990265765785799633057285781580448150653414729103401186510752757591462138595755579846533174652421247970356296576484971699687784598414328136415062658803237353726720510020391872086548894049163339238448057175638872509301231379069730344640283694891453218747968903689080091910769648752267931968839730831363285516442848545438955119235162670552416610116191939562321215404474588449317760332645864833269999532761311560819867303179877709688547320697361110696873523008666132573282355451328892707358403815808959340954004776686337388220989994775888725251392894710257611581130581373079256950891110603633747143004818074544707123585696701876163044024859281029412448165330430019767812518488732429146546537476530840785629909045373784763916341069713494831641494317725925735989877414104258525650646992257533386670229379992990248338449796361658260177037602404285435251468929382667737884010050407781498010651565529747,
  65023025304818482902235166349070894498768111961215106508070884528940298303191343694788607197230910879065454559290442696210241265089620800237754863792190058221375417994513677375502934421394783438454088249683005596980722742714752346186384496330037201105848844426282284718356695105783641807090871181197634134679230482799919294233444343374526571185195827581724295569753655476535585715371587886731558237317912035819433685902461168954935845484381021820980564566711522781111528663148797912241046715034541226359174023105072675781565169079497535456954661023435063517892628200738767157841844853233126474816964104500932952639391072551402638097234507421452663467912487992195042495063983505756316700242220978888450142354933264477085420732956420064799904567282882730897363424016355981512716558570876026319347603574797113673228442544954614124103144112136532959073184466267811106274019900800574085133602171132919101914817238581103597632336215944590686068858174582721066360783247211055398822853111623083077224932071876031428355497239999095438674791190412064095816350306921536539525,
  59398291083644405778947686559064269590785558892780148115312960528297396378305223965687979329134158295623155010561975005747882584350683894802720131680054492417655413415536722967818672262975219357296762159745729299827845769995818570124704106527552347093167602108874620189498309990562680354732391917438803528523945196855902262991234055623668168420261406594601661426898163648963226705671454527615520840319977552181122228306946402827545830907880095255382670011748089440085824422344840901443930995076045874992960929194486787284244655294260355040153663048572784575067890334206375485651802605864654535049231546366067214955979231996128389256606862453821966213790956141809481962680234837370486445390985796041171310701243314722770694381624261607791747358930604032216117319023629010812414634682390910147478453481264736939378034508669020117854092269189072113908427362640084022560952795366222687803631074992951896334937247807842462077385456462974698567818779464133277559594959198587419166844783018668875825985063358095304730592627958788266281356695741856635183662967796335366162,
  56900065883452847893261230794253332120934313098617001394022451593986301533002758857448261555201163216558305401109024799131744318609478889442471917656585739383361529389164631578777520692609899223778427210762267547136296772652833826045803154881842918345790562055852313846748688098747574182995143608952757114896969846591330551571824901726406346947383162248457029568821347832186005021975794932795753714019469198710339192150346011748954935005764831184800383210704551000319729946062669081703284652326380242248581740354229851081369311162482037815682402670540265060927629574130039459067445279197996647299332750032387853445521820309695277254118331319492983745429967434508349456920794558330895721941669742554468253386465610665141619474027323306891805548871442397014824881413024333221160282289288031591327546040639314475650451024707847827003100830623983379035059208538782367438487469071591071661383527097558515843491321035012225586592857429605107691468925290223593827912711007177987873789790206010405379271265542602785723538506654446667038666314508709916557153712069207844262,
  87258032345585653143785432590390181683860053275496579257260690379957598881347306888807474475471119322401485057132580064528148510649450621787971736653675812418556178181865092565915089678588385373460069351497669402008541424119586157738199026180199575558106225483616404106207630901758560745738847326450713338575654604173253371130280137894079385793643399533627809231210839700233028364694233862029910331376974507251928193044810605361488981272372755345364515179843869973757297234479617541226385432501523178083972557268785022568712168135342539028347810191915420343242593460913311364251073193994337038432388613758805682715616485493653802378509039348336224822731820740996845329664200662680372687820264867057829851192845030221581505303564175689377542106313879430081690861925874286987546755092349447396156707592501916836911293037748049551990970398233638263648913505843039964819572362115740772576823369907023744639354292702053460448038310231444811459137953847492391572943127807412044060803097587296697310718198441066933408260496984151577165929551948655816486757794233936898827,
  75900357894212761604704734211672187920488769423319638405449947511159325479617623938498538240196477081852094864855924228773249668730030102462610446676908525456097605252767542609722175804231532157673532907534815364111375640334493764477315701074417762358231865170035472053759404317824599133598339181781909632989815139125754319138983372544052815081545703102289680299577227508331211659770422199826896583246941224511283294989872970025288692782008856127159949775135621524144621201185726015252469722909151404640753192199281734280327618599645702580211560174620906358907518617575300004249196720092148567640159697615970405736942590356827057621726980826125845805961670618866332840263385648286426103859307490073261464768345904157879793049982050590432130023886393302978738736196275533218595801266221632584664077546476579363380854496495709655491946816120511556943910807968135393846059750067179506310256122479527199604657086253843127219194520031050931912369479545856122379295846744832208038385192663153238284507062223554163557520160484585957877279643566407928977315177892543246016,
  37419516533248548662125998117972463576280561784916758392325772236684392313904636250636402302831723001378553839784405960356833268427992665461606721109596063883424295043002336365108733945914246608246878679142241097259955121353439193233952088570015903804469826631106954585363846429954740680406796096334008965964761233501181547182215652025938005625906215027290122242604041472615840342781626054598733857245637147779216047482744334411129673123767611986297866986308024179500473099054868078683929009975257836056842325273451249388464642611743784590176544695409651594708729976507112762666117578696019032897428626383480646025835183651959147287102541609034171076266775815046516946254495799382899617866660985727357260685506695869037572305499557209062621713947039685039523631294487087415247642250606521669707955283041281086860497392295365924315417259939327074860795667414593870684123275004166908602576148758879876235936734754629304596834705781824339237473999249931821377630383752990385151049213862685594862282898029098604098401166507322289995322405622348477842690882777333300252,
  9570716387891375728361113161508282405867748061283780997658812245009750709847914399252401416224053285985178406026775338192282678495278866724568933375945160731956862168560635120350246309928374185078076042047738430532548387635924125575316364522931635117865222823289644483191026924741636339992805353093665926179864424954948846174813289956813731394830959499581124735554883738711252190337005154680402367783261544240656690622404363579199589191618731985304828006197422232098836693647084018123214174762767322394733060040517262859354854118824613991225459936046289697141341652030935025735593612611451396476466490210627544573749771447155080588826860313596615759788880825134084175124084231421887595702639616666768421788501511665029595597861841596054792017855481164654185831131412091278284596904448081819980631438903805220749709996445926804268473445415578103344932059501563201963053976214180739908627084806430321780024760901439771564231200722635434932737991573155185911006524727748519971019847797665568944919671648616867079037571706648356280803259648676734045842056865018193702,
  42695253648169558145909093659078076868124386399342565535330465056785065548655571282118381739659983633576780308871040572972063848194704823330793522090608439862801838670895297949455903398039750568234493536783744414698853888045281008136062558329519311211934751776284520665192222527386696926300256656057137987467747226321911039544639384612184558577569269211274469656540715714141819794922961446403902152393652171319701682379101625390563079628676903703669998720101055197275883904902666193971648348114974239117387042271429504980391844092035353505646482647090883162717270439141214238422921600927129123600670102952490482688952858136084943203538041356964515930924338277301069829074003637819107214220109190692418721602775558045932649015215059414233531352862778826912685057008770944176708211117803391613231077884547695892356286062676906368115480861944886505985634982420785224821027355717116828604374279300190532421473269807603593366348559246819120239471480921233284186050062585379108555395006935143257214182173424169658289168710477383110597050998134940969399553351724534645472,
  53019452500219704236725633941992595913903004372603897653397233310189273199803667869665461398075380015007499405896396569604444634104888910187725401758136482992701898931874351475719511901643262456514200623107476545219553062209409076226563967703182232859593609028162523062797685291067138807712746419025705602446123783078902648548600649008785877722458281102434493870661477445356793732071453340808324961036860031648711604557638529640009288990565903880787201538168686057845360262395376158436587641315689542018451668042531125090612805758605185126126126372701960423621901669912907552891484255000203166394336803204057114116042375798035856595631247499469569849513586761717161486134211876492199857402360452581553140087609299196474462881338290732168822691315735551490184217278167785213038366037635612900768544531563881090587180694081778190789574514335959383903513995923221581547874786726203342273037795254810134334887011269882527069457297044292547385863958940316252418176801033883738925978285637951334907225664398213604080607695122990547942207745586977993303444390441999735760,
  79750280203525292863656227166375301043481541454332706533916509959467358711349333821669894856705573807822002173120939153007826526128684514242907265999057095825486043035452329999651555781461768952857780536654894859263172911706262038297980160841215931881886962902828715797871793688490402576691969478911970166423079447116300479691660296336654116567141292665838641676558425834662650669041699510798199041563897096165783606780345803858875490439836681107946259228094843989003473574576572212780205076636124247453027283277919753687094602692110264128505204647715113195909759784752009540677372174118439959013507272930599636253552751836512584260472280813050170163645829887952963874735239442289840412742307669265753891912937927022735871589067800740485921648396309083923403988400951287322298306185307149444124552897445431895856118740001809527520962851371172568457262195438787859256273722400118928592109735917744530909913760185710513365526899609798279669130166471364566970732370814846534938788898100994832982220454610020172043612751203153811658299101511869430491144759374415119921,
  48277698846672390919809215085158244561052008871854606987301372553634632995644554638726445232695578243816895531108965313406984204121863850069053799029011296556029730496460548219601849771499587160160186321879285776555148260986889146641786743554863988576721640798099307846447004158925298121200807754694044486902285347709395086821323407338738152117640444760483455529305299958930207165021318455760851637824162907159794086617952632265090870625000097852945988034121108255776072014188772749071012838936324373447553276610994629820292478457279595995866906046000101825538486745656582757507158587296867716751114872652122065893051470298169911459357597062405238204272016760908971936440310471427018901122919727832816021135597563255486999922433885045198582826291038182261226559925915970829197862331931668810629752541068411710862598703071440860838890816173401839452178676169102178400070572151153318183463981090485505984190806537984039319676526182549014496282638131368683019053727762902214082282532050315758144911052149693400800591718428867474232818892082210987075100960942227179606,
  11868752310865130548794073032475585515857271295685166711502658575372152497020735665542874804818838168943809294719392497078342691198162104713083095702791440448875294465222880916426932212089143735326343470189414186549875808544389783754276111604821944985733991946416345105882759641507497086868706533308767468551708636722004133550690898227033638087248324773623842767127299827900047237503365691359648505894871179717735895375235172704532988089768706037171689381311492611799076386817572277825030379948105309971413321067911176939082497857595017347343274863356684315499742555434287981387288858840828665550630311692303426240065192461820851294051384109438338309943373235611840834156109525474454266787441539452743808547815748171805542923017257708254215514552311689815984157630331041024867859344513956337205688588906905711908399969799521334483952287592283977865693169705450275524986037593813800658952570565487153992594249997173171679762518307807180065173051529563382632793212718062695948063416496910211160236464323589047724347766517250437018826211584376442266662047512782523518,
  87021789802726728027711822773152103035872642082452898843316831579166649925682161144990342466951532463913570478076852689899848932052533721012467448559451168698251650863150655902335060894613325964758574047430716451021988964666857650930833004568187275724168076705921604355468100929255939564895332950279715672189202732570815062770907173871031323842496009919676665726212488713499205697235869332407381117705573234609021579847223452138277157958034722054025896644153905341213744700508903387153834939078365114580792027210147906297989923573034032499697624060788973218431088244930826619080262204999011285974929556277217464611468993929401059494209733817594382878025044409968753401903886017717012459122767688467571523696552122005772424503653973769690285178582720108433598339845445681784062574904319170877438241040318671414204172036811429895036772565460710501286018318843305902670413591446899968847178334704082914681241547430930099815384258505632760473908768904927932249240953499190341621154460821389836454362734525542137157891521320603765643461287733464232652794907883819238644,
  47557705950091194441422576047487273346424607959246298170464153460651330840957147648715521286086578470735295517681275823209533816373144290474179840268935951138362336190365221936869489539292986105606543505797027155112426086430859272820573203824528633753600405371597766322099134912226229821552464413415294565515770151918986924072986258052706984831289548079625435319741712858425766114028200953496918021677875090640963889389104845046640865750372940522104112800095473196600465004394421684859422090144524292722255849059366382440277332836264503030533539930969877703430907123325762494149601610792428731668526388452751267060300570764109526142989664881812039606387340849855500941732198779667532749962011869772569041446902062477656553506566423759146917333072748915434058300807072214809831677481930217368453700212286491519944808643918607136506738526628029015686800738658482695676254210529864116593386924825383378787521349222969889549770334204786174098071621018441516177221481911004373337116936743087732669730859901037197397794961028429161868412757569913986492114247878143531088,
  30701287103774766452424063043283708377315256119447305575523791098461773531290644241044708945166904880695091460731826894492787888493093950009950702290353435392133255894765250328071052854241242946878306631082799514039926485381943346180295601431124328564846965317170173912538789746660971453942277274101144239387958959878910545664104268147891162685728035996783039870978666344440474495023780537494089169791738537209747073452739794605724927590824927825833506825690837808354569363668173955915005489117122945893425019397020896398720423360813109299527818850402771287385744354705819714490571304159192507557151185687124513861708461376219948138815550829388483756914525902356397006311126012211800437038477707067215788291447250470385711950858809347550637483829353177753808855894117419263293749543000850722248392228754394422626269598191189695630525279099346294615360936163549447879175037771374159070623175967245583685325998421558810316256244427655499025327501763136294312779601191643050971695953211299204527177449654633602651536565828841936387933775355221000752330624993891708860,
  30551349824542033286014988225189244497897136543887876073258396869412398388082043346266117220437998133074235136784990845864816666286201110167877285493227258973179629008389380937836886224309281603626918073213564653715350504886916477877918584277379081886131475435737043839641610866845447786051856988364354553941467448836225690758229765668051777774848742973152174071722240899625202713446380289384331452516983638073117992146783653334217478880597728426160203584308289244514390795487419205994670310937677692734600115726354786533037870508825586261691695475273604262765242628038247711129035653109206137550104153516350029477360280304265156068704450345658653273748883138871363601280833913126850405697305826236750606618539761570417421742759409404777662958560993046444536969357131235331390184473101670285366894180350236163261932678725773121497249824508730303420476258522565871384417192798648134969900336823663592588206010751421305993540511823982213935958424212886801556949601316342658839229035170296385493143120268575172092434167716759536738545958915630415154340888500416067053,
  34665408281307008328977614882496962892401604211416151036179777932102971347626579979402154699780387784794015988160852142135353041497943485318919528301157500655585264236187716442360830789734582505232932436402643759245918005632908723050762970364843550869676213310828770177163493776400157407706192909977311832715705372092053654029707767867266532779330859965800109221736238904135842795193350888221454365191134340143428094289321478884830738725770497425332464660948353516657817670744653783648028470969261013186450293122961659943735558202928820234450728277138137353108738681566684680584165539524063151157367921549112632477501265298070868653207871804612867924288077555706529278259419430075884278012095910166377504140143144565160939204213995507274987872445710941355550450157228970947059287154785784237549555530688277162786068182464764719997298003673328772074752265359103975496408864254765241431378861906622713920337483035553828434447644598243634065327813631957808343899184020729563312274240406329113697622685654000106238986047816686297777840312794899917073967230675221629509,
  65287896315037828467679161096745584887359347549108669196172246037943326536717532667964275759439960499766806612040016533028504949972860704275425093720773858637004154410260595244937075850036378413818607795676066806461723429500752397765145943294896719001839450853507115250826284545345273757796912248333719234276158203080146280176756282502407146025097160563093176724593076048688248790053847158052075074482030526496689819994025157949423211590278410432542583533717778889923951746366574326137285181100529275734664184818518156994434040881803768753519740663630478337284405581819299431249282069957456142382665305098134466430096988357988999333648249647226676786609483821820069176447799515410064831495092340231329855502076012976597654825143221427726580666575578245211435118357337237730492437142595702958551587115638880779956709924041678394507854184745979089815804130829675468152034660396987843938308183923747716278977138284443405134095116842773409217690725247631089224446647891168794325132220073651534562311855013874215233544503089388539861014611069074891095663596629481504685,
  46756229289415108923729431931956149182318256112906025836428781721949291753453882352799362858896363679518066994355394737960678838639432992182785568412558677995497954613302878621464651571399165914028458734870270526106981706256806358660128164497972466681641619698798867736847470963519634967576772411719388989116184101675724906528123016396816931500308252014897457973889001526824023777983097240046310850649974105912095015707758414148918052832467306183514095174913707885125975348247692650042368546235843601597072961828044309168026370057859215113722012165857223365413744447659413954964395531325161609658018099208779083525790375772675062232251858830607569323189563374733180715366869988498638691437039379137969021750962586928425716912905420020815546977772690884691552481174499936570726048504395080918943285304474939896300603185187727458210524655774108122548587461398410245523154697286056159900491973013387453043160232464499265125017042598959818255652388758779542910909672190883553577724986861366152804958762154417326193041179249699714236480394563630993072083516922495396202,
  838815119183724445227526366889209929576677095667383518896619596160537535008602323364828721267279457182592717871773248430958282735739819410794665642841537352097892288900210373172027586642901183835024010382622694185545174623600553905336844479903780231493500910433515559836118650126049569602591345769365876222655770632075180259102970974492951788854202119297169126631041420914010786425238613208134763454729775317440856732210322546073930167741895602027299203162479753768627807845971052132685726453736242255319250951861718760134511243376299053555461959175254804303890441737617913169627434487853115501952536997807793447126384248899343581917195672961221652053462230855341045461753516028530353170601408812136373334586374744900712868341362130746643149919626458766238324794568554952649366465017373025269911908734889383808220490313999050562754439889044634722325658585987911886688740806970103202682039916459653939827631397675758675630661191248528924856994955452747582595838059266980566909315279118773020597897063137870893388322070950897673353008555615294578493640663912452296,
  1266959600962624923623543500671735657509324621100978763878594000378111225548186286591913026546612160749803532560234435636763124118158964697385615082951931800657154126306228994298631809447088299969778236008373193275931245373029308031970839167921123822037759386912820570401257724448615797828970323720982431419952191356933990701376486572379409018973102677314647704915431246335314923116498284611912232044329798798865455048855028172241271964129621425524408143383318483554853164891565559472845494159518329931788517978572333349821971674522093982279470389483093870068880950095001760186510756826190182122598791106735765741023718866272469935107575855314875850606889265301101838718983521117215435351275938264329690222339493804597637855809073171634956875032708986570450916388205248079423522275356870825602603182812925772700379918530126352379901061942595703521979786946037934090907681690393742403294222448564906242924069041355557978176280993978467808750873788927217350541572168610625243531297175287017002171389265268626196686871238222001808199810556711287217886692866514086857,
  30731420302602941758006147543396996144541957801734713074532518466502487391866312265912601566023637862665201617416091315672128370430238318580118360359563761144021963419885177735871538027980839239623069592894450288127077113265979220538364752490063865053846735265471279601392705742533572399284392566821190075920761228272723860856213827653499339217228831328929444455418559118523325131830035127913792520760388229329076831775728434767105684327997447620079687854596090230370601547443724261146739763761410250891819342787823041883115567958045412431192103441351490269095501799996042072322609942749361962125944584701579942673840826916807034200373342817358824220480345776191805538441867061092786475446871109042765649096133678966932061865099048116796598605503404920596174158403183736624449878891035047061650009254994233945662165624604863627523675719584621270971010358678373762859455190356948078418442046116427432686078748084405425187122732222002621434798954295282674932403815009818480465700784161918386349257477692646056917675531836754822789203318027266531093127116436793381962,
  28009595413304787068427586157839815966786353122126491074162834036375848986732387826613769035930136232429615603116634579503348069604146809599985141673315641663661063813593337029105580951861002596596933585381337026672093038574257421678642906364254627773712451614250089638653859527580132228918653790607932844115312395719443330597111674626649023894326671796113079458231044119190079783881715223000670094400240063875922694362285108398908252287558339675045354327424126564539480106648018793370264779678643563015419592850256243936980244407004148981012850384761255766532196799894997511651665525680354364260473149980694157671149571790870619144799725227147952932796307353587611207582906805645927075287717611731266294567603663357133534836225749231609088499733950008239080227083401844218602397156226894697590112111641763528196178800201355089860699803555039550769601752355717349136765805036634809891766237472777944388920986795169389361595325081576104264980771878858319166602587545585580207124960203569014360241160676509441751163995525117604635545835455868373332737835385586657651,
  75565323846658898639838629579349798658078391202883732216541805510150451839104689209505644292618713072718897597198522462131429519367378454725128419139172808431950208148721448681809122621419507962485836787251200849590524925366352557539713012825226663193126747271170874016874019818205300956901210799493693240463863410052260628335978477750993619741102160991533412417456322272914289845315460446793246316585082059900844430445292356835613059585727698497651003576373809488904378981497133894411215534047828538341025158627345220929813789580151252679590501688381107977937378523140754536423832677537259113972316858792687904119567525558325589432624746316959593237932807739721523413165102332695551004256713478165687894432590102030761299318706117131114724468473809876166132982158952373367323567167154561417555162388079712000152345311199454178338724608675919653156964945975434352624147173770273516235218690845881694332649543609630690327863678272173433787234212201277914530736152844291764593757545276655117361662493776258341232669470386618010995264161414469436866655412146535572510,
  88231326044430205947829570646964208405066397206393173650735131730038804452622596036548486365969426951483721919405374886648224695513800141661753441310943976696304892594972320831753099626143078452993318016508452080323635826442101627431013661298558705422918469185853580002596570936106888670740836870849076125799471641309963888597728060572543836777759459494879039592655876319211032276505838730439987043541540772170815337122816972534708480460678481530339827425354606736133106255364807823517193731976382923197606879318639973939709329235846525925254878475606695873672602507496468659320534760333026702258789399715593846707346382221087165431159871108323635901506917046254335142205615002339931636212269316141645163467224870089085755978428672090870503505953911028556125649913517596449387846853627188016450215023465660857544006212932808424563547806671370456568519259335922474643444968138939640957288030077415667409023826142450163971489926715058806214047363887717765209161257743011347519545220374908961631221049043534651801900090993521519640471458864773560214651224794178059004,
  23518207667965078580026385108261666788485589507491586451266193098383058348262969071317067310717197280807768484805796587544413799294491070474718297280178725901703403330009230392538061041675484669889573135068038686174263992443690005077832346982406924270331223442533816869554568542413174368857672121852339245514519543662928877490400439455946655074084270251388154225801277993624948276125530109575941070155752457017401978850976999525956172086894340915972589634928359294917641877073511887557335239097533861390461174419754910858237894535948817340978863945061700922735583569004058562272378064911621799257526358767717337825450819281108102159023883118495295970302890454635523927760376697180464550093663893952712937566183649877213557432275835211796176974028937456777117102096019708609988891974822781834064514963240191341985954666751863043821782298053647680859641348784882765133590607031616600807385645023674086326510479565555523905693241365906176731915774394061383800816228694214783660581227966013786881036422393449289901558277560476721452887526965184984097572531141269697999,
  68358313111636230166796763740682084735220764819875198822986305280182288737400846335839839835119179770057824481995867123744072885425542588206733038659351234884997970262313428093258461206187314490573933429526185556831586472346508233563111689903929807462373018589617512746201102413502530165047359873912996687731657887933146811462093006882223088720615833096858364793811717587232211880440756360456266510160834436772313414846187126693943558094472992220580954003417477116924948572249761131666871509490601304242787861170021809547239131794441841677024576301402297501831938044884481604777014040813741893954547596552735396146035191133930122313329913329256507989652308090598585740695106919203279334733972661495541705616616081542952178792420850189261589084277089990815410205163517964598157545596880694260180013035578554702715987600680733145181619407836722122385173317731783658569999622159384875883922489929110687127774169313747256956513343006306522737924551056266921880807811832586731369601120907714665794436628833001440815863098631726419063330440445080582281128154889161983229,
  32731818799958851273783872938509699050069095815055996862377712942317619729404081394181360272405148208207379513631484335422793933427765368610352540772583999654861874606811085441599378263442183839384485848529035304569715109912504423138252492529540089600277653873866357415638827431411023599533922274661428089503023576301847389969569687857964761481338527462600017284007661035335997001107429588617909344856882386140221202628100987841947785566957670602082972972849321728359478850747856268835413960452050327339001159768997592348823789600370474350944012621810109481571513305005269673475051595793024141924677188377990789709674198562062060336577626066200393475145895121231388967680521585832148587562100493982743377929100085634596084787274433460556184821630338722910556433093467219264786656314689814420038187211093438973898630381721295790929911274307671977729157837674854628928521808203967143785079336373695007727664266755854199958856972588894171885473245704126545387279293835554230412841370132131163168616764950318207812335280786703605753169261111141319274287790446455907453,
  10830304595611994778892976495070646397168145146294531242943635554886863612488265612400644093270462720991938024993538960597443351284906593630428301040581746061232043944596786199437588182107887055290972403150885180446976720704932193264273274749474657352706314008460022706069559676968769935816122080876142890824382822508271626545101507650711225487767831271048985812589031480801153234822354857562501636134324457554897084018525624878558411615590629157064001861938267871916714542297842701318556353007592339174371504225236871430802869738972306594087472615583200288560564305436754730126975992391214093078205163473056839443576608050549539129145864564189519842126675570326140401652646471819168255617805000436626398681263260515677037375763228255723722403373265634399261010727774913476271761697800242024174542196335423683421089982050983996930900966833517291556051800329123750279741383363465570545278348537476157707297860282642316989566162153641506119169118695850763008877398413314433235221610864807537627562795357326192768075059179197538220805055360859214370642558820407949945,
  68053209984521619529034874717291587880433789802719917575528412495164553897366903667977458510604923731647493348513891310767047816893150928005652508074003360262558797465873389588650455491059441871151078989476427723914132008590273134823051471147108625684424430556126457313179759466908304134034969841895264128081303923795354233955145164368583297176727033879966070502753808844666613249520847059562360351328876356928310404235142307368983022576189398221045147116497508649579313310230516400702740418722925525312555050751962630901419042881583786080187226885330334260324188741994743094870980900779689622152127820403638718498691155689285267885143692081119896699199175939442227659858529607316110272771930392287503735276746031364987286014859087801089027696481017841925051376836394432779858978349967075106459160807997814986746212959429929495103455612395285189966483893151341663425625387229042078570031005057667238782499422930433187629331075992163341034881853078945786213043844699022597151095378424839640451956139526499409105419348027833381410505497503863252134416652532578346241,
  5431372420513436561007097502647497506018793298970049526351080384880012217081134423115923301825065523290008053296095052967476178277649903380464927564246078440062247751022984090446457608828400843839653757251633090869365950113166805903176065399413046783186045006298095464117932227606439454509746403119000404610136363756652514763392205640853948811565665156414499546999798961551708519238964173504861644019602822837023105319549445571577791956758859753036660988220249688649624023737697414908962278262671716470905454589643425135810721550993127870018109479337800194288116971384559781303437591174498305039727200508838510020486452766917597291317151669041458699094829963978857884712415821518191513119364659265502246995225206586123710861707775297248009628557381117264350439772399159135333727943712149397486397926247924574630926880601612683328108013730760678963885303524762479577296233036320607975313117003215631577396114141726709684579198896782331749802500904092769839889486946584061970883711871716267895059803799281868790835967674438673941108953719698618297673845895439244112,
  17443260728143441568333778396580093324162653119758863863145759699162822606077903337395378068615499543343966625340413723933605837613571366314849602284656753473188333959769406024258503338228269671602514882648376703139366150304655694403590997958808653064775272076181214153941068185531517358800563179789508106998207123263571467145311627582525008062009835302998598765345615877265590577677705235068007347211604498064883912344314969945662968838109923179375961515198326501205987814416179328900586332095639044967327409677561565792169512569575734306501117727944676997548463963676474095197874698574050025666304304969303782864673088907406762172081629100092708410880219803664690320066048982952654419736165080870899913997268065256227964180494645415644876701280058394443003877713557078046564329913218706063220815142750622404635739633230334171292053079551861594221891341743934642698600396304005080020428704157295937353099577166776152516245240929006876484094452448708296372347946634083467678892429045159840508607169534168927276857026100718961752877525160511457579234875828968827250,
  5829643483257250194887049167329327414414693861611008212073014894509422091561135319660150600951530042151879680050092567027746169752691736633588478953104875162792541522915736474184880129370760082642006574185024170407054317172875849453496755969256058106800091735532339246553976580561150626685714588862313687782502707507793892985221289837675733944406123896019462548014968669537166756920279450041465728456706853099431195910398723702492709010435325525980501157121226328470745074590340596438552820872919118498395516680440487215475323391256199459302810597525033416854656765184945399888524327757835037208347774127463818740545863929254471150555432279981820868187969864701046561341186800539651313467232381249441404741459647131100723335520281233852214050723861536931660894605930756758626679075053701611040703409092628267488775028597523751023854526779620553060275277743678194057795338407659371912339041612299389658775405042093316578069596534125892927690021058353472340561065145554293200917074504394701995669836627702247022883042665069045512194383705684670838235730118163228543,
  40018430494979858262176841561991791993512415309491580100793747740403927636888269384149937580571751713447558159310327457741875763711877571322468922722424933777711395755848434693143205619352281759976456338446352366793269416636529382929947315541602622781043404597128258224267019760969254233568002538348946563112495170146899400464009118807408707732996430309440435818340841417580184789950262473895690754781926652219934967405417288191105033252790021585459431757345887327695863977413383026542251574881272858188927328497769691108525938565217239184042582582314470310647604648145020222102865333086563744022595880471321869450144366817538530731589200519065754801582344915484431777081767125204611964939450188625676374145376864560060142151261292424645967306428464885104976111918846720498664547599992680177566433790034005684703754475628782493489840871400770236296504170750104540300696831123531729340302631722131708617620296043445482095434867636952493941538476675380957735512146374990805038295646709020523046739855643558238071200134051795358177592661179297460148692132026306003931,
  79956484944444731611937253694206234756374504782675939732127033728057813431266211173872224928063336398345193036803892593096889952092520352785719809923805762361228496065232769709707647903913942314021333686903948086876847433080122688699462034708237163097247047250281060331416470144741205421382403081283471910093086202697490915360722527512865977495195070144683595703426614602530281533848272776449790077688980744583010805807625802826525398467121849904439425891880218806297599563142816384851120947134995242272909662562131057200278602521302716524357302013219950531711204193338562432181159685353143642809886601095854368526010852934463784118853718262721650745414154290924125763428168346424803581833399866073577309409498606570661584407016735064684551083448304103407143306886135064816123133500844233624141744252203847162068581577800344074422408997737952507722722425221632527079828648342393603199360077015781454854997327914957152420477718325986255747117217600047591868613465766800747913882388825260595036961456375550948364552494331849375795834470825651120297713054890598588936,
  4904198436615568028063910169315079412398442614146314527207490634216746665622082073387405441027555277326425726662603254341416451806464620135910746369048140913948817349150190905887865886575608054633191153957951992269151017526113553536548044915380523524309209568391339236641860218486574056531386585891803888290100495441053950428190852170956897098522266049149770344256341520113354359560162080483345705678582847518288694326457284709415507066390042021847428414815072932114255525384876823984059640369467558558706507780528881184370543707668539402043667908794727576997674271743908241142251517023195532601492920532485233164430336141058134808121187844540168004984186371953775079122509816883959439843743490500927690743049721973216682690786818942988655432603934799602791528666316742452049935768321975982961409060960027750075411611823413659519543647682659743538725034335575607603094264593717684435256584561894133043626585493339644881366781418994035378125186361809861431093804686084238941765717091983753027352946053182177484980676410072780689353948778562080766076462886434975781,
  38491675496948013336164585535923421874443904872822023274827900043809743722240905566579827925407920182719176407315686878899086982344333242984617134807794157926078943786937879321819276238320885621982562620537061570533650998666043733527800430297853858257772582081434930689509974690284212321480543625214410992658451320869835695037934121927877015483766846258848514803532821005762259531238439549984559771836617746969487713373602949024320140089369543524642846703906282961292533317560905458015241533626970463341560947714703878331140804553272026698516916550545808852623472270091856838115291325160755751473298310481745116901185447389050027079662813573733289152194735131715071421181962239506403606625079376610114109097571987519506279076719920841561838312623278705367794958720934808531033700370796769814433398653194730055395503613737169035404412274418482508972554341132914140992101050279406078134345274545748910397870395925576771973032662920585002184124305611014711726658858875858110980136224271917836015056300845061260958035114622186897039265600676775227127811508691824093126,
  39832388951433073092080618183670533272221996712213824392494133845030855374291395100606121406401527729920472162474690601996875361612930959443531967021387026224274713425295198346411502152585217190733435287605089694898596618737246471484457540042632111691306610800075901992768527723122943384537537344556192707318420770035251888198510000910588697024636141339463736403629167648502431395922261089143124584310802491853376636547379542810198006394675491656738822093720679550224539749527936043218760416737125294186890416787560507158191846283974995177618984701201417284922531659976424913961553463045596737003669827139244746172240537756388452506057383117220633099522461382751543842624841830545461614239767958075757928929553582315837910599881000136355835802538193049608748484062324421301967312857279756963808915891141510626829367132533904432204439351225627134258357193758075555470995280586509274891485606150149058672218630181453955271543377441157484301460454210472371065909374589455601850747065551250496207976349526296285857419106119868433743595990276751351242842162787382704073,
  61790182264211619056545235598213465009844346847498934255194190612568539471215509383577839973398535979920804409140140130196920588481624165779207438506165929884295428759267653257646127865813653869302306432495148722915683419489339773257723831101860728599213827439955316707179778694631024120965629925156369070709797657462230224811183699337954003728904003552813838791669645146305017446678302677339156584851313373322134555912016942819944635586911990104670257248863039143131892690272342788076559567143550810085233287367618883314330625840285446138179091649151138986886102042441096949303994618815643469225923822715423732556186576373191113839350829844737578763090888190669748750346261607736201056147649195858889526175730298660002844920883309869356389666935736583154321980511463029180303532823912512265145796045112913620481416074263483689048725347741460497928968665471804311096370206936618003815649264601763228235467525772510063481083324604963974581894856250715927985140068823456587664328616964994470287617278607401627879376003134030536537200163361067311973540216574274552661,
  37724641467970163423221094839273520539921618466844316578051485787487389956117356157422927107997893783041174634233172312368706298879939563796932343814093077303166738558758336589487921922929917029253219531310631375169956489555627920773263344399560699134012345566186600272386440912957768174567455620426969663979149248546317615555834788491120313298081093820200166708214261953839391351949433245587415772583694811634921404847335467048525276266990959144485709083160423866343355234799524193321743127082642757150153738114470464896147792343239188365976041732760691839647606786632267492919332316113187767391913271315644913056937058551533950582292262979366928009889012737440110729913075848391948372516387525152681209356155068966128156527850437743856737065968657129040745040213967864098050162871632426642267337613821529562365220402118843091692449620167039837724022900775191199017338872565494516702488423144667330169795649313895385861239811166830825720223337246985737787251767301674688527011564277582005939357098122586901258892772753477512459695452503898261166802128775738056368,
  56315644421994581874028106568017531855645652955822886169552862742002819640306143910590032153797953969302185194232688079468527914072587719484690411764169152274721106824390965834936817407243912567260141392055375044387785097186906128308954214450904545348523815226121360913632796256187136414316494221393554422060053382734515307986723066880135629301316501765553770471630091506247921237391937057541387260377844094217302591125049238615493819007039732269827084459330938371631480611283411794863130846199594307896849641116870843379334405700795264780255324299882702122395890715726215449188311989117964922556872579518737643726521041961886235970807637082519160197482234482099443332365004015103308033450987342082127921412004204801805010797985617232164735044013698114855410588119726087395394254908628737839037468098832081722147968307431302693815436368453784576155752019947911774123367085935717692095928402888000062917208716273797741535129580502970994424191380762872308506357855702200290134327092777298737515761662474840473928515508631642153028208352650155756311959083682307340304,
  39271518105002752650033708689498428813235684965007249398847401056947343380563733840238243607253887330911137388407645000377344784709100186480455411711002561405408783699288695274139261937908513852292978958106283980590449924138727376398571948291284483476597401404143259818850245391067059176832462269483973611571814898528770650237921321789269536116379304464677102539916568443144432020298116859366166592552065597956848269167629977734031737378030874820811784876725458683733424633452419941410780153692124159877833997466997395429518681820090649697610367821528098952987606995710356909602837100859978989894633487209570802179233665748707146777367360972463992215753219402369880425601500007584041175731957498416740333035260394809737885653902886659099013584031964803732938986045942039868966162227548943655076000234581410708961509394692645277394235114694011127719149136925437858539483527264857552160208720481249169101852717995183756073284426677184767954071116218015353987918247749816185835646452280308632399771384992835920927055530786651556452768959162186920347015645557340287669]

def rows6 : List Nat := [
  26384132577036016059645969040322551231020295599709891641809071291457489862443029770711389414628364848487157678567794878143125124329355024768726846894693387893096861937217245242168739271859503264117183198135708927075601079299185145627502866219243697984178114140454031960916424784392143902783386837264171155494396304194058880675238187742910855178800207881176791477877311363880277285669694011827275547502000935927404948376919641741747437643099358828114902415856717211865451819540327446308508490018672136527178874236275133685438258435726097657633985935364879062020368888102701585005808302800529052500592040995400955993382815605515780805692775037640593242285382169458924730837269334803451554408908180300009713590313876036950646295255811932331910420173976968511078545102058841174742956674264086276226066772160763338326092443117163266104428145958606250699868607477542904124446463286078462792080416316171887736540720514693121214325169234294535433247282417296043324790290635405744264355101657618868875755289249058307322668857940636107263471314512803909679409368497933681487,
  57132986978132119247305994960140277818648319506098399949029248482264519690766949366809185292465402548007721990891772919609315660548678027148447837660439060031471464522967233738210187250391731552458699554238861364979298934057309118689822968756922198783526788848165620121799323557181193394789972941131625038237716074760122507890913913600736981616449615507711562475184867186427418752220983699262511079458767442710260549101837714149395384601730899334493604769733019287791380270313507073210981882099042177479582446759902008357116817844883047873914753449351938140117520881370598439846549557055010189474633178513544780605002453222898695956109812744537200340506843316195198363031817037478986266327072440653794392777506117384377391003701560450854244171829462232309874159926137923103063979751962906214954936751493482955342557326734057366254563878208772478017012519108061380763294191048376862061550399017105775493794371981498602274574327687358665472119372473648368884738636955047230458616875778992624179919242888086846632765621548945377584642693660170549041069679139658565047,
  23142697926688920856929628784233165154008797079484044606266020591420715726414911842725772544518517922522992289989255241793132955616293338761041608491996663174423087794058873508394787307283099169773983497943684774634480157906910420838749535492617591718541229359751899008922262172191445930678861976035622188127806388132245635556068069415255297897496905210255587116668803946253165815590264701717990003990248334019184741861117791425087957832200374313389994388787901749321783285709136225934523987992119413582964860423871824067417098622812190185733368156857032359430919908413100327424163085607040183967645421975659821525834228867964906175332880383375925188021355788935119163336359125653076196344688595555679031931342675338330663164340607697250337461204565785754274944560577318094734904463642115299853304353698384660984613766934308461700054908361012391654874021552018074383204637467839049999351856781079228972587469036774957913385350351336075507321325600291910315513107283177116250772551531257304962327220860225214648402202842798593292836688799077140819239883785035622052,
  94533615680282037531395403317643158940563253112358682394728921042814777090452957049128759352412051358687603284514258273469448854564319334456061039277195821292194131087466667665924574913853915794463552398869067679969535565940340083926630948915637051551833293940005032264170884889946017449665907668684722866810183423473358074816786082569926361457941434157737969727619536251481604750464457139352852592175783952785644120276963185951519925370647385437507348419804585231099524566402639452567114830535968678311138004081619234069234032609897041045680379348360105449292069273132391092894894161225287725417258807157698002902327692992653967222231259542378978187961729736923126986290413294069304779269034079608593696955308287063349885358980631703790655102345550359811047226307843243788750268086652866619701235843107548719344699613511024653823076326385989468574353065605827530017359129830695156395419433781212111804407015361531438457987316667203618404665922914000728615704709231838888371259011377511015467281568312617313584544495556934040160625159122144520263040073167862421234,
  73984156636061570022957579512596067890949180714872199201151338603342012490334326901903152471111177053767490379250704771080007807243797219997486780512705438658097738366084557141592231311250769943850574957208447061617646428970167342485313072653113141132969224499732589869379336205382310430468811672702967817935315147925262277150873178413472011750829199181400243851651872933219223671393302183937180182843192346206861224877124816144643726238466722738716927043432266762821335957208657592529933570469301671377062937231618402812814665403393929976479945083556352931340448149974608215731436782770602090362000236561479481796166953389820330364315197605893882403131045864624539039457563768870592794191446351316565638530341380551160738301152349650160262898331175266540895142764548739436429000310464975634186467063383937026404327199934445017653621194183980914054354312046611071022949147957282230048881509892880052029822219560313715553191807236758087351573949415863863465924264929827124687428737887107211779609342852822185075176120316328786505095678597846969439706685743639441733,
  41905638350440729438621752610060673994465714452565082185110811234734977092353306073156034383366681280289728355294978346861207930653666229848868445897302368695057318071709271048802093698860052594234685582421466323714836033470887905083467514163185997873182137711360933796792267130480840063571274044761901699021280503624955146493756285725553472201552916273600484207174507880795076184591360695778824861874794960279482146832553636964805579475195804226596181757545537257578006385007882894288015404514728664507693636429261656146409237609919442302530717760664764609748901300712832067009583444148679596428844265653348062698500890014358597934320495470073979019762402183186450225187355768195384669571307006288829263756160327876421596559312529249242216132957450406538220167262398618661648581434298883151920315905796007336630592644780176824280579377519254991161387408165551961800806191448772948511662569977245150821371463281903651808773347375322139017956945546985589460995099448197662316058273897392430853104944407870847269906403178359352904613848224060814013067392119403592658,
  92291196901683043436227971530484459807315903713539908523055541358503033059942630753008447497312132922813900414937292573158103903671573439298137236609677070372399756471131383650360610405488716098619039618499361053903230560359089527165216882441207600029377720542005493450599593284765791445138948041792035850852529938744500649077050320426246039291347918605296418151407354308345877036201626136356475367166760597478008590314293613337929331917500848550960438971811040988775200492122237069558581249625713314476066506933678827688873103244542439828907735107267733266784393233220192621936564466322054855219636285988698212459059484145389835524317193424912990061814639592356382859406169029756476311262291466746536626582357583297221661709968921215263224954097253009276090968909298153985477810475460397048056409701943861124378321613301721735201695386677893805184729999611330175309536392020079729438433442713241962980107195951189408020760785422475347076597267957086043738013371561484930232571019813287494389614948548783732970942781633625443633308269399055796881049489203758750785,
  45376405053657575719555719402413921082687609088769052263686540301870822701883547584723999228940340790795136796379635072634422455419128095770590315877255589220778969111186865369280723830240389236271049807288831287553507175113342480969287697201586675189142171434255763904895946985807500609279810043909249452408176625095274172741560161454315945185221718557495526847527727167389139029014720235059895496157417316989042855399440283027838377623650108590936919201540276948681440882683921593425318596862968867707355681783603419705184191167919396618337297000193822980150272483083508010971773091110587089489467230542892715118246415440910664532953239354505193052789909317281149964927253060347021598719613456500206310713361365178616544164970357368209762583749438630392248773435717559667110116693127919204620889828753887107153631368815546679590155314546236533727710941929274840416913145419700177540191661941927952326018882537303377523360121961711612555388978356176708377387852607563134205865681970192980420505034509501358373027020583244706964639692236906385933110811220139677100,
  6747724553614517398246578733436414551852124685804072880187810597648717763079789332546458009321561354841948421779175593309357859671946991950561912931679934411945972942434600010285797589940496943656661909757932956680542467013837449990948865697217529786249994440386325648873316760040767769071769110217133246166713693357767751796687482379811974164138932966510983219131889123061288321306175347306459432631236902194248765044265680064037237356520012431948237319111641586119940162345610705558803666260316221668784713489649977257144363570318750075329860063330828997051279145819777920607806942050549492682044404634256297157534094927435579725160157207979726607019969187009861222418896922478331223069883519302680013335158234809746911378369744867632078154664881263924082841865160249149549798644272098660518203571764568949935602043071048929581586506395191730563855938221751430131434807598669332650487479903805646835095656163984160231551047965988593168474522978453271156302256796382458057087383359848615942699923530317472056202203726152708976066846026088744711951867528525005617,
  82972888719675246604895413107910513002573103926269088847423715651830991635467374572399438350009251653919181018423706418278446319964905528885699393252826562628242869076046959122933888826367890525889629799260043658351292859166016816271158503859509920045023828805257871607999148577951174107145878927892859445542297574892663914906061225590184674242048983069603260992416053731980399309580318458741875611965516941030258842746132677152860416756259971668900919744620570788760619382471443068200786999515821869152348094620599473367284161874380183762446843114622719971835404199085721267006752205570817790802076422387700830231459632437697248430228137474801499459678297652451111647562844948823911265802232072339396724873534837968347090372172780718219930457961708748466832260754831194646363162955046142891818703440255160661099604396822797600851051090393629109199421193882665513643110459377398233754702234897098938238334960622241445881815717448698580076801768098313544889080730980104598298840671012861381855597791311265857946279763440209325404642565232144878549983704521267864862,
  95967723599386702875890628269927949214888088902597529717747890672029936712367876345198659570801187477179864845108982519553391404526404027575286220156098390974367883923433686902937949023880629769925569202312504277051089435097832023702609078772210288838691730652029707426870592354303768898474913311508457272408927276852932025683038229026985498309266427981696215482643789646128368380420732092446348106248237628678481958108547337889172165033709317162300827835446095355000157087325853718296069755081704358349922043478239737270858232696362370176097674845003041090604011687748131236415722492541367350659699997435146831130004790437633894683811507504479836224977568918706331215982573656934306098101058107512832028464444446692258358776454107654245446160237778278842301432414837607752722866645863176868757284362034638726464703378104558038408699001847001329490672016291067320866560152720035703770087723639337084619152832048823114035058253541286718497691898740183701119711247408166154018970145776023023745038112311099710264661414041857261089563696058312446625103344217698695531,
  23069183533005618851848711467565374712842537837536027002540478152676963868002814906708268471436627044938342088682979560559153091431959230537938970909123501683175231569389220817236677947717971362719241455588880860190380407494601510951815732199263163081536727786395339826503769350931962174930710360546827463851923840108589380482153796057037554136341945317910214402772440022859505105250788530056362548796203963051416750538902815483989382605618460596925430923050118448202444057353339948646232469861642715255204141839454588339064507002112028162690376437236786327092384808357049285566542256570041716643467942705669316946590355900250098110204615997069222696043039313415011238520208433078349276852128023229115251973791375174328405671719578654820096834839493549870633410451091155802399789655537286716719980635621882290898597135945659956583900719908411352900703212798486817378763769197501596503476210492679280029798828161442624704549931873587379611446122075041773768038423308899512489273821719117059951771345342994572972521521403834304607340293212929718359902336716755190204,
  83679889348578542813074091711212749135188966503880595036488660019305177479737720060385947944314665010410771923517224472581698761357315539473606361022608171954947748733465753076976238292997066593811303556669828383083276695476109668865318112204113255088889820627979806480301121722792334181960798412999720720088418393872211390347247310851532774836698378248679654485396054673324517828218373712906848843226097503190635530179412648238953511473878639950548602246000335769136031838256952239304394162767786502263671590542608217941626062786534137817872842038156593007446364067398966754926876493957184903132121136562023902615229840628730956481281693035018696850371310954723293767472224785729641708198589405216965981052533788923350319872584948893728640768329664533840034139733684656642998129620745325565166107548253738167396922771695636536682581378539295928048639346240680045612897367776564992644452755616222399431748911099786814130034087861609640689091934466010685781739964966919294071519797706196735563278083037486762428189532993799350174377033041267846394107423900040751986,
  5918156465947758609699994125596896228698815789024265778977792045289457268597880151203918786449716049993622264612495868772143477181778272154033157908743833318094502935381915728145418326821124819723259721432234940262895469574762101080787425847657147801608833404962554650632414744423711596789923705898277665685897719457925992692904083389327233247930254203274120827944369363547913979579720396366395782104958416314403965424093860475283325924343500781306594917949907703881670567144856475901470819362884606343870830873013999253725298366891041033135943943477132545251112552111092798727785951382708916366590952074170927525129902620455410308034810322700046208199313497741033969935705200813490694208037872203790464382890249902401221380463397980242182106839346850884930167918289662130425493338799654874386109320851491053327587732269026724129296625673645906875591489631205017424394526389397902442323703264903596852578213780965150454498931866068559097566323944226182229519656421572541809032099804496613813953120985347967114699342694938245149667475159852900475180527661226007197,
  75722496708151505803914346182401252180929356344269769077593665452090820250602780467149336326778720581681597025048184007645428436549500337194233565531706110028442303004205305295293308676376028645654611038275374154748491009312872595644205697610999302088104035318669489262396099535657223357475743158786184590483196642956322272610527164819839854633794370836572964093948882039748696069433331514579163972074807234334427069762865685088947309498159719068311061200102867523095201110639978597041881942784387319179548374603671903556930383994015483738186262489261815817546723094662836205565121691747032788728457031534544485852236960697986889224934532820969343567616792601084723826258975990526379232591641503276362559460774627417043325449345744488947721687627182772707294796799294070372568210612950899937024621719988989446787668627345794135226403349817753083399390670296652133803469837272890532476006619392545820659289701415261295072742629227932465791704383716269320753650111960155752594694061918181848737771342683444424052930660057334458886905888039317748451177410239735877528,
  22843859586720282398743743529592115562432243892896300272910568728872681616117730356952723169774369592914248446211898945750116903129574251482845174419871337174865767463539747457615954160878152194938038219063171978546364806877248861810391894489750730538558049092079632148308935231848037909066681345271782335322466125219499267652914275908909226211751081746705000595680931351952840080439007572617866577512574528843305355317484142917533742487750948993354373583595545788270603739739129226937030124396568971237739451673185967041931739307423102053944927937255669514349788055457033059083401130455242088377453018234714836854057038398030083490146661575627829724543844947365389473998534287543282274785381373116324699293836702958321529676293169015770163764597073115455682766349019482504203271623554376160628961010317789208130071331349683386548654072526999424381887465482728672722781054698999243638538389171009159271708230490667276596162378168640441085875745479366675438596986709554749996591202364718630251342342866031230832887254261484650491333914084557134897421213326279563751,
  41588593834370232883676361427210910916326438119930711805813705320521818716890340408422833149561397141000910171509937355016250498698021280775524186200458708968444383063445989495551440098765192200443482688701270198303940692242853914434437692525690603785633163635916959756362855116855631624525027754537619629428904366194589680239185158067914386065545763066653855089791671967227739752076358291905766479671803885645388188660350645431683355124532052382832782772109259629794743650827334190694841174771358669416235515154189766502736524377829273750109051093082586789846241868494722187945092867305656472937265721055693249737530172030034298462939903576040553269480197521260030669803843503995362245864967571735364486622960867665022114761971906683670007878619525727724960774953015827040191563034896276315535912935217020929815099957118977712469085446761448508350541333397848261343953149537191502413214925257011457627010326835919788551641036147376475962509762230288111889540471348042461791153854163232840054371084642690950362186833728775644555584451321260709365088896899626104066,
  9727149015825926516847763506236573352767195383297892000906729856532354522274816541019480074074983918823027932639144942369573528899527704109953394755282701081943357336971843195081657518177313617892037222004623202250257101959975795240224447773214620837600834855387730627390209188683525101963976707841850327839303456164014187654569380004166672187859830183324978043066841370878997780609708751312245373317921047765321963226929206244411860240382393958269384876943864799215827507678016075065363560192478163288489506739317047508196646271951189687925950485598142253735349188202252232254527064031100450586493401962683243996750270941977257999962112631549818066293540715583610274971906518427406565937254512574742135652740612551420873683195358915340183005643761475560005901887559432489987342354418536298897724641429112985184953106090530703685290951747470466217592782127028442720276324221886500362829327344812778190824737197178733122826245293390331056612313694376721597019056278625102314965083850517849547462579286335484676475056193895604871272476315354271306025732461970730588,
  91449957628661080519401608773839935947596879342063061649761016289384743787627083980936528689093624135397422309740440123377345283506225830076819495350573727124729146302429342011820559428587540967299824774332995253289388910288262385002918686066223060076954145344014154378027435465277981124805950108815688653909581055179251789261685947619890185128854853300197191365805093430865137339156714425310693345585359369068057311121352209014898432261639643263077611402495957275755180179589419401319774573422892233099739196245423781531637399205324766455348061014367306832579576051667436473662023462120548832579620677794658961534666628496225125599883736635615457380994239822341397785731811852669450921933340027839566052219043439079521876952862953625834511428833741880138976683348345199235437275950997248847549985348212875416021214200071674252732281865847130243740380124721275771551735438068693217817098469304772138693436239351851772094380919024767919123501634197498300194349251439227328399895275284543098006139755700791417081678257933982580345053035043559971630184552816829264227,
  96379517399826256972139310348886952365033887672353459179213883115787976624404445856862661187618660778544234578255621751391515121750699702826712148235376167533902997247943869400984398033723926082575914971225249699909162516822418830277064831538112236871275612260858402325217728238991975461696687100468066683951394054683014706632437280971730852617500405405846357996438713060250466532450985137113504784066696740812062280849524708273677848967506686806656952046159359064032782602281023655208379777490999881339305724930668665438786938362894312535175161385304765696084834268921637953176445418916273051752216789720804110223722838862096566304326937505381260580743571556442520301536065982737244631942002726368400072903913523216097806820898002503971154135638074184333838437755945688993432757328763589953934333013215225900120838600512520109318668826735672604998799535122658646076878454488418338341366254221969714632518921172825009741219838894379964774246111828756492740080109580681071631909055544066376841992483030382445386120476391807877747840955329367731266650623046349154209,
  45503013186992838587040497769498762308681601198225060378407782933137148693195576904124809600289428590147156300359952118751134960928464643882776366816444290872354236562624184913110970711588110759956848824186276594293115532643553365781078624936606809735256728328243880471495336516304463220419935623776365923546949824861222404369330506445470866983819456132717316706287211292233088278228768566112936704043109736681582156652530953192735760657553663381308114126150418274259197915846860975661711155359265047245289013979730748365684566763766075030008038868274480925601952501822877867751168351851390092399073510597032706696191540732872891168466075052090920060714564638393565915655426687110625860799966340457758882769823034744991771278741658923779796117044330665499088194970371992812185309204245501010187280970744329043394827028863200729296823007160613009672672956269791838625419239274660390007121099734961053233558472567594158335365038969578883612227716102099081807849942356230921096520200749681909702336820464796210938523210558762150886567676848354321163469821573876550837,
  83203733814319900742026349784281011684895754010218975450709832665427621469333908039904675311152024150248320056656158063597923618193230076288272946688783790788539740489695339314700311313244930932277053261300288505434290778900634031910022855993741995905453419829483886576419108382166429914611419105410407217183757715506151351539277140087755200122840978187258166270893127396454647725980889490463874441203383403984705474826484342166015060409787038719760453329681594560397417927703866116917540306056042759474927373175806087531129660798807172302188309181631035546996789996768141132238405848721504511097775413092733480856139943138919564591791374612961227432649028945058286960183976632667681848636729784429610824575327353237855810127991695760753661632844571547967757002225920394790124564718859527332353801320498670716155091587828895672746134396154959024810526757899163956156292280024734147290929456542414423842797513489457306058339555466206627021001410276707945843521164890881686243697965682341977082233313015802821876841167102851911373496255504415650032201321878072083632,
  15672758328941194293009420176277343107493222163016969037110211968178145961129850803567824717557225952337646404023992449941171332270648140922089039340677416590793358224796176127195757906232160753334804425925247216637653281249173787913554545318283886538707564763973408162444498793361431231856965340138644220930574391287276338158138712550673712242883009985818632101563534940227831056311703310767124990400513200129348970272130995215492391507859042140268931300460986561523614052530392725431314097867037236715981350870414441556847409342428580682669188705870133146463205081915056248476004435207080754087821149494621150927923356416767368335016422842786529339283279284533215152892040943012000817086185841075044157621681026060833568283697384319713651082936212468002579767991155399907648403804992817180375653459518384595099340093392603110508797537641335490529395708765991342899729770181614294760801328372843715905906287968664004706149178465951433808979790174722888221305314151452675047969517343623347261533030009304974265653945794747407885636678194708758120346048621221197326,
  83985031983988067512355607212314224839768206933579702545411426785688286857621814616682467550295237752661408949262179410234215163541177570269072944307695709089606441496588167174212166831811496370914477913934086779172036360471833759073820099690945012308440297824319898307429912474750965950540243211346298334415639386846663845113041716880468008283501799096954455742858132774403014003363683787123611627532239185200931510869547854040603851429675337051449228581682317546757859933248970433194748116313656876224420921196163984780749399063255065861047264994627857091184829307640052302395716940453022977484337534496934791042788046497550916892848110273355938094404693489578483196619161915687678664744209176769614601596143007118763711598184357094876341973991380856286178181951683356605131978094532258542655251653405256418983604191809877564754700933354564638637458818370719308992777474777651940071210016021292429042884377518855696937984137461959487866404952885179702994403417092257126983643477923420004450897240195642776843574000469180688578829638255568576955243348105923536963,
  23776654121361365941658964893601269083039121890796693463878269946256898943238426947900195449176490799259672833320150204055056395822883229865421520127390385712551158338946014788267961307059368446271407317663585074877351536087854710599450815737503768721757586689747637142045085859347552037159289414490384555188824778224888605676817948448850542482711765602041275625108169873029478991692904177807320820294539123872885057804711502794340678197206798706677346899175968570170964221498843862131723330140364840906229633661397312051267854801975140106876149786782238295155301447754388009420919581119084559317284191284475424593024043441560468496036522322070391819795473902374792889430628755879895504346332729229426581981899384964339039017485919007454985194324377468897151635061784044765817263836980897975093316068670902736290679673652827703154632011642375553779929847464033232739853551610977778107521262296894986051351716560241028710377241294082780755589199253507584971547702149091468336554322310865474877713862288757608100792717858979025987591886351963060456666333631921740794,
  45303345927730124049043232891698863107254908590395013066665927301170260376629810683291888015400774006822293021385957645423568417243649753033910342475954667977697080027375943580064715248683506681994620785001781035428128258352865340395212327966035363240822318089825447710520475037042522647972286991591452243000708332000742959773227257950376529937676872026591893146678879839618766508408972120716214708050532965530683823375864780997017362177525182662259448897555479107900294328073777695412037888193857533624535557555386215137215790485645195524782723839043922555586085459837832420422489960586622158423688887828188750328772057840977870899101239796223592813041542814620670946907294304427637357079519463824063853539753893251455320403986581318766650671801285529209290281388464944991314896215110965735382736711051946125607048321120628812596874969053325465166098551532847050207218448979151303859961827075525350830941788153307371333348324728777479051810609940065062184695791416090258633376537026950336325159012400610772655185040857437205040286964190345060154341482587482135948,
  96680516971622041292189090136519426616334910151777093541878234115944342573018458460479674977341123967367460769375849063542999397454530071743091496740145218588375807908410093952825123993941887800098000852983250117971552469662980523935942605334256683484171065964689960240675931818730076077165696460027491847845392837597739561010543622972283307967124275958191338179078340962140827730260945983024116813392425402102479082958427192272091231049877774360082282040479398238357631732443171948315697133001082852534017809175846522941747359197349372218733486503775663769454517348058412741929648062378847469600323632964560718750085619940062901963618143276961079101024847744994817747303697518992281355769357501446845470381796435604192748202966411484264755388461609284317366732609511714145514664208775937211606640057131871831940378249303566026421145554655096381561717598832630660635415029101213817574070546034758943777657343347443313614570695499585520681596871920795526467023503228932588692655211583740457176792697869830936584416052175398397969141646921305288712473482152684048633,
  54416036667164545205728789206539039689657009883303927822831246398832259368184889730076202950191392217469639190081298224475781030178407124137118133347420691538063731963420372270013531282315612820927307873336065731882243303526775361685144012848142160469279280062614904237264752955289806723868980112463526170892236094195142983185054938776422055983978423549606838430804446309187389828110323261749424902459296870542909598932771886727881814902205185942496497864372201915084587252415137733086590163437389903690961839418466048047641285774857339602432888485615948165391309950784326152761242743730419813219131097138233235365219625656568413210099779346586712530980916312369454565524086709902579573737869073570795762333041520457760151388345584741962374792667316394317081104616149280635883891893012927765043664289222295248659619647425015639365130455542218413698115505602264569224268844270921908249138797460468842621535222232159695297204600356284480180514309235146490648315581470733739099094033063516284763645243070399022890691032269063357760364860551940902782680315937808826592,
  83867885892833398144312107432421057444077972553048758075438271808973816058294605104830293838632112044063237985310181200968004784013121041931723115880198941289995094490518235202855017478454727620598636970700962150536736780071040186618081413859627807691530330859735979222742977968064432368930843822216161344502909244442413428682045989239144100586494855598206028492271624778702699558974228142701436725836202019104692411143248113656782388531661678230591013029577237394942182206285322925329662810562789429374661505175320710232540395606954202499821431539771325543297586855252724801325259204962363918642824022950565291717349820738772748645347449926663833468080472843102113780927195036693983708889807928735328153398474260645007408084432945021048660235279258531331296531322453687733089541670661483631106827794190105286544385525475882138943087838755469743892676454966213807228842572393450520834542156644577393590327231975817176591609149922300536477728381273341666225338414722426299424119246224009785447297982912784403926399816969824983199881028202402018949606067126365661007,
  46939708920646894033570492380927010705105350938561179427302169798825354162801527272038979683516042369023818835988721040292019071056087510016790371111051793917137546623683832541447178593865302970564626260948159605973111282072557182811133246076104217747759645483911179713618873474878682539845866897492106177035032173667065708216985559866053152727023642929621060332762951293492175214297488361749897305387297952317713765169565607600941025720965264136722804718901948453657730523247184576856434531334180912602575401390394116388610927763073561477104298203714855880998828077011820768860435818055569742895134939208502703609985291365667242000409340681562664800047750369267010067187565498302678403949779028498408041128649042737318787323574923351577792665464058755270197331741525534369343335878177439476676986534109034241828856004682442717355891956299625079790827374560677653849024226242434139444105147668328626098116986962995732918948031309383657877203054406356888087392173364316856301974958824077856564691100584485063221748560278698708254492343500946242878114247925570928758,
  81603713337049894447935541357861767774259300350199487881893546457069989802388428594340235293957359036387799554858018444355982316908424883535500656784002486228853977905919021010083266439140423785834714153921125211966441271967985001403777378161139546945562639343963722916983970344316180226380185350772747903835838776038137578386470121363152065502850438209268547160480494467248770511152956399198461966070480199092254387591936048994177642432378782451275097624575285549009194966343005632504215824785039438656573470302650698002722496538162275541258123830022466850559270192809527663208055323913607488598549525769899507927614076643457646429097181815270408434116864875195291524250698686972091219727276416639989480352938155720610365285429980422793399098463092628786791888447458228183849154137902575761730557372190989173358087060952118139139228370173304768818085099171090504440130249073627223745299812479422165881185896380881296789286027173502479061364226666970965563306010179050522655425750442591979884309629281030657817347163705682133316954675385257041275570407558625868324,
  96666639996077175071424542434763807349935092557265250192876408649276184971730458976251487164885915989512553752282229553578092755157717734942544940646365328643887343342175307027972107888439357840805194777569825417393212928035281904328304226608115277615033728093222216146272802255172759402589140495678040276685368356006483751211956556037929089017497056882892495376800055117044514709040276477095266126178911643527084947663336330375047626681813493831684698386036717861807570903840999441668188850885715673375085945238160582885059497191411577351946916382663291000936319693762626563399714388590830624050022106856248393754516645389779526455014543848991742196831219314013729951184100975097941992374688409542501321236476707532895687164905935102896844431703315138814848447542911565514954932398604734701430994530959296573299640696179056571891557139592252223779966163349292409269002121723513543080937580132161231377545123487290335614609148164275810499520023608713598549648012759693337261148782204827141654286109728738531498106973275369685591326889312465886397377860527964731457,
  74438703755129143836310148088010255497501850563438374232649428840380798143255578001639249929690852845898363913292517937062540150226681735964657598594163322441515757367266219230425695566601862213826190880192581203723881546007760038590449038861766421200157127662440876305292839786002937708353109004391865881200087431950741028998065659379888701230973100697017955799260447386963611607865159837648650167943285933431962812865551608452919059142677920493990411896788778786674303929975761676465546813424735632581831341226626900374833698503187200117460321357251155487510227692201433444170414759365038920954549976990021428049303569545892006008908812289808480549761464239812417065357454304376304063168249955435897677978729067940476948112679095135574378201752416467534613297580009812957790997270711903936380944971395629625872682383589471854165638473292427586950984276737772192332175276539686606177282371596570821130355810363815182791325694461193091588133531942734066542884074159970819492402918388497625748315339375254667365082843965540113896630167639046301783547536947865239365,
  54798320943468147633789840657847245614207599449897741287517449458145346573837899796025595862692807395026992775699077608492022155897434673926377917530366643870530714852519470220957089282863695049358558489320909558686670233457554319254514425181288007849915141850033013801828358291916795101513506325891573568794876741918382330615913768592234983322508319995527848625505908486745504695160242052152523566763826664320624401134624618483553823191903078979048915649288167569495129760602261851595750909144277224633135683572235099411255280916228242406941132232568995320003903020219696821738613098796980072131163862039032729719199555770591894651777093108673343597019086754637507774941816421366245871228362571309690425221424092741444428629467641111573339026068992839959142073445918210129878938271304750373833166795787273900628348817212343279316790078017927782057627942474196395117775094573952744389586335334736796607055052701214254429947908049134644735738109236893078603566236646115074415941923079912263580537526359624935883885499453578608882349064790166624557209478823103870099,
  91721086516270017412776478931430636070317268396116681796735997405243721801206234819404677351511011501357530393553613503983876540463630317292404004439345422288665043755952167963855990474148107366357622269326643306422466225136196475599479394475167428303938849538786086663136566087608674016868254243859509309839009508247414611518279715147925387823632311603910159790837053267613356530501089255973694782566935222898154208014466204855019765323210218161662195303465718412880165026448317775303785757210757216727037351922240314148705332812556025237909652855171060447447911806731970710020686033490952336928994351734601699910718450704909528695777413179412053056639315825980800945415945684740167337619934446441859524845857806791846718267214579330271628648423325497020868147406915857052483014262513491301317931897383824525493171754034351063059441518585179933228918463985687661286780829821411290668500392562077476960056653243485162514854282704856142333971063396132693140524821184022802087649328246007079295186711877074641645736456342222618471812428438354882660565417559049879536,
  93629595664972541183719335697984699399826697082328312099109341255994808198732203868645749761500731501308035940504067340560123257097874696291882994649670095532299328883162376227702344608416178629584181003305951772290600660895813030583131395588588048276225962517551839426498063120045127181001922219497057669748844596592692997691620797266423414339698096085014545299116867845278772258015085742859764318050407162254946512152689507976140983569243094174676545181719566747204449842860326968037184108259382733558497438685580513595228455287596361386027589819453100170760894427332474687242958911647821885362098458294683030407511008305466766121316949446563866233697314905363048789078832874042072673383396925834828135333246261196639727672957698744403654713600165916747714238618199164530627228981557735662292266108971779771500834627946440936058431573206378347619517000016581060210092878404435682065201945270285682643221760713581601752221973467223327780274398943597115597803812762780652604670385750855602556081051666778183826369162112027595476357509273561033756517976994657794959,
  61144911621311679160046072342568134822109174704161025408424839924042350962196912636812091643490379266934922254635101740341015465437528316207061053908212266935397141446701638713391957245620135139204050918614732321829361951891236454920882390497224882879142572991339778222478186521013391414371601077808100071612966209368046726337703019405918478585965573088936450785793600087862868663380797636890280780619857010023224477251403933032211957205696718642388023218633477611259943548649924474751661178360316695263754160436006356632387105927935792175687119998228111108914246461015465535659621270420999440319758735153439833319560989417309386547454651409993893976935539224586430358876231576156258615874628728187813371123513458788378558042169776439852599278904996242906538896215821222189788781162583829659073632484969779876120071306818833725190037037740348722504297349609934766072848640001631992960669543707142711831921409924423946958256654205419145120455361423648841481602605377486614986411028375951629099962209123298192167833923964256139072775365707736393725119822973696786924,
  68915137165264869759651344357671228268583753144012628041840462286935889735824637378784844748164121073381675877592282230791549822108047959043483193387634330733994992519424337213632119153658108725527549390349701179531056527436888894408547466647272707809098080469973094052028161295824460656291655076968023561451397859995356144918568579496089902281540993189622735210747582448567245261951004826725615270172300934394302906880530192645535304297709997828918871272977567312250801215690898921046206103032654195355883084346331184232432667935024698940574739104932355738728624978680751440498738143435118385255825859650848619765348305165577465354849251847062358463611289612310634756134878291962080802902154188956716954705784126360651280509700448653394569212676107464890218260151360021764042075934304251549604712165606382690726688106032814204741220088866734941517997246444314878523028195667730092434525278035472371332498112111447527196051728526390932400074100850410135349534043775070868269290958964505677769755051816997654774249074987137689708054222310307369986214421344497048083,
  33886290361924620994170065952755234994560840888352771199512564117887487755426906953789016658371705059760688177908491161857021874607039200411210127386634258458451236459384881049049889171246857392696221806481134103477999102853345043363529355994699910797483860730938322241856554365049764945838570957547589241810795493776431689626073436458913015274465652114578614155770992104933437132765485502078197577561301902631627312439722426741466016940435362112664762066895571814714997912220390593604531712953095554012285510811212102657296975654697231782827535893252633833111069657658155611735948679547594241902955820124457509075373370460353622615497103954431129334077832390857018090461357962884855271634026996506312919099426969596622558949797562872128775719854241967347530158746347073305073784579614535454252064423087824084140807846279673687388788958520447092790810107121198779872783592423393355755619371324997959387609841477989821381826503432240130638574544885493589707048625142787242965210065664978707015683883864539959036508017111436410426627869672414199832654733411128487933,
  9343958086678907543407020267937847743455352656651292901343372346289780107820115522188723937312016093709704068632553677092619190039894188411459261537011666865895636731505221633041077984886772114941600466211065860524850410795479483814251404996368249707396894144246667174873674631685170456357754242310515058098647646417391062874599047379248881072743081426295248909319854957628983241719089619983841001815466443780823753328402254416041489599319087300847247285574881837697581895347939088019845806289421123611333546325400404665357173166732386520784503080166195770809027132411891654620198070895546091872385437261138749662997666582523147148188003237950038066701185989421959948218404892260458854876888023375940142157915429528712356822719394165950006243911835934267816404835416238496792420808770996375733873397271385700510172163901028140061996402955555109205148237278889395862250635820057623558604606700333545148883088032069907961231844923797333900331150588294838020687671024091648595888839443246563446675746335849532241416518803282548820899182410294068318220651171221056358,
  10950805267608243003755064833828150365835077439401630802437480979848295664872770213417005589113966218009352304353954888255902667090006571188533595233013070087619042828655767907621690733940856070615889361930134878025952499670315914362442199778519830043798444145486551659082820414113937673181040877195965789360890060092985718784824543162180245386116837858586234510782849182169145864330972476771131495903082734618524789221595763617619415803413031319184160775944101215743941774531300010795056442252510930673752322368854324279121353055759262100311221186203829750275381784254173117337551711968165240928436766301402843312361032923452318918370223034445497414188639739865083728606861694362513165598064294041596095582815279474489407960067040156066354233056608882241092462255818735880428279346966420627411245975215220276131826209673609273703418630680429620948015190112156463233546199496049740834443545314211500672682516687795066725418216964868333082337244585492412921673190981802291517170276395390765960845015945874597607378223637182049117249030372172847521476818938282858524,
  18664014070914099177883713956921617076979010060192305266297842195100992184012322062914006048217819490156194790264663131287502908324448371554662484940386152485353273663548381024000726950375367248133315649581319529832958248945699470154098386358837510527445038754237416350534548439059129801016033702406509141965440640893099287456350361224915848602375132873373130617776438334911416797427956353582643265650934389743876971254048909954397610309447012230170495967791613454602409207214946497104487480382550964755792337840850157046965409260993752929750657563244547864017818208689976035501204605289875237228409656415401043048746627607199592900351813908226465627800691749938188975755041245526281187695373575052501272801592229277826773719461371921651640018071110326066546576457256839904111265510326989847762004945257320763366118794668546807565557788161683365059804799752893885934462182727482769757353481167038511000881206002684512193161349872922797354351452516206626446755043513009958875998659114434873302760578327386061081960325678335362521398537214632713714373366852594289784,
  9279847787866474664495788358966808204514776727190703126288077107717808759446592879491058281275131784511939021920436217399927104174817473553005514968071374613766826102458229788902686407062087169184080590668402107117975507316360971232104299798331921659946411876739047383582397271020669138686758222340768371402512878602433601375456956121012111866856952757609838762420131806009730015109487704186475014603471909560016445913258160110887003424095108600659668246618613700340454030565015603210896111956432794011332320624412968527189733900293043875268264132523728118187341837726683170798223668198492551731114048429226360049729836646471747032035892511190314552637820369748273764447465796347034362774521095560749209997068596631083188119705267540760841852099074526412683090143476734298550655555049583671068719038492443885017162418959241597064389551791976124801051183266210839518091919316864715007622854915463321002949231384348040570977701398274451934839221971306082370165463372568013935034810121226605114976878294628586232064347412112626633527821577473245248312413542866044140,
  19190563714456193361673409966378271496009780576875416953445440599479396181489149477288393444938623785445710715026668290496140379849969979904177314534985205251546802967974626481966870228616423121477629241242965831276366150132159956875563032138349578504195023669392820440838149111506865684280960304485296973825380024172676987094580558823876675088046999123811364649817803232713886275399981430647461240477541717786963338613965617885964831756351902365389428609879813243105964107502022049060393598709159547794213809864179132509391514302291823591945291150294344931341236215198182158312032029486003940276690126632207066257065165460052747522401019923873469029975061163166192818509767792260931005135445649361164596566028491128455262247857268747061159462603273049260387319098427270223022793637175671192685836471857815155133520340200942557325702413567497929832606616892374772379092315644836993982219062239598351292774874049218848651486180067646836474766349043546852270441815032947346688059802599704514719086726975420909271463724793987242908001465960306126644166022286040507213,
  31815082946098885070980566227981549989279243140532399034861738080214933410263315505110372233887514816204398816296144993711841473065439725635803732060537419376715721551625202628791243475176956627450405183387160885984370464672049769257186263068174611117896507127338941343126400421900228426884632219249602699285376809615893194890230425833901286085290213585525352287293692772573112483980587096220893068466462636341647431789867000474061566857637857107584274947429648579667625487697959410694492681165765692579106373912809174332934276600823474451226468172447913454112832897445755146507869565899052824665349909387151111696795153643282615119827898668897109310169591041784502488287352319238448624226362973497576843928226311202000471321872017017837109757566855371393824758533811898056805524561758925329012410446061386262529720144955188459248610761575320195237921069318224655177285864226604778693839844215191391884947712040124803222614617113859479756568591174574724441827556436675503186173710531284061591548821249719371730212674392008204111754985468363984135677460883816733867,
  41710047033045122372699632967533503556837425593278850528484397099534151765903293840285069219964260910899068429037128452934549490793498403703950159436563446313995129824581333531389648303954685377742386758238799595073127916663391213576229300823813749950880424143677063411867945790202225251977023599544884292304632875492349672208730074226185326239441584686508261531865605778576997292533518074404638289730436121312487416649557732058303198526492284003382122961982940003572188960922276076892173732137561281714012789476808601846173476133583047799555570110846589918465264716029062432682309721379199995026002007677928428128010218904655036864494068516374694740097967052287174665334653476683285299305839175291925684229461333033502992661474903553099705929443017566334383432230441543437034764664049273950265810912648824151780638495584732129259848639143378040535637602806068612781688892152483564543619165845905112065370194484792425462055879015583333543255865910183915327556343253047913740702466588858551732641557851082711621409191150201876161758170251311700794414086348631483190,
  55296155411318677747603095539999860807938437497622730370371697491622920021830001353391812999182960402359294816224037573499647898156526226824692246618226600334656315544406919091944613359229476476175309840144569649498541787417212313607795570046231575740701647612827340963897976977401987616019415760152910910925312276183834786795185241937060797916559070575151805129542831018535917318636529202913084205780739267574115631345641060048148590659777277558923397304760176118610946668393831705136767659806086454653275384417193324821035003461438700642574999821742521821218920424698345969460171454108096717354784790289649005709369565850736027996266961684643111823719819499540175555079372487801969337650451347412370232785817170527287540676808677865733191918065414650702346930410760260438076498398418776243353883813581831396332297830451927354200012443477014391410202805835137615248683465400922414855558907372029219460949678309380472522542715397156446139320717562051057479473825563034044998409055189312252581517064469135994549410789766052839379950219126026120477205145883687727742,
  3939349274661742316966127244888142028639142022781241935332974216945094679545206739569773828062800915341955720929620870217816235957315398580494059913096459784367461688033276247131332187163639467180936674734403357555262197725484420249996339317486166811685800241610193571815876391393715915310763425043384067749110062398885979546113555397558396530539242511338515197295715072567194931591445438867480941270092974257722117019767807775541153146444158888135464046100343675463395438136573794175520229837046337812404527631159587874291541420416206624891261623850077703928634847262333435064417462265548889643289608471692123310844633335053371471733303319017211530774818159753187403206520654666303834024724044364192958515662077201957319351948859162981533005510527995254001092334656798597064540514291065710504302628479375935938805412008468120716572595896827794362993111922904628749893381516161241807541838876597271700031938896653365652735965704729837055565100268027923851679503365206653091784354680053222118117845683243680044326659025462859459910385475796520912343895032510595830,
  28451450194530989232771984892807878455467496436275646169662618364866620367155784981383986825287619563857360852041933202576410865853082078346093735426744174587917981650977606748034235879437881661119989595666794464838215477158445223575130963086132598323044566468192097250293449035786589888840520552887864065938982709410986621527371617524492691264722285626744317906706605132503314572067834404637951426017333495920626461812732873779400130153571573662376126852832110391120166194811558779550403940865122360419497579357189797408115563734672074274241577377404441091238485558451967364835048886830993138982344212485495620233919819006035489851804406713580331408724132658155808563355292356505562434062217386358710059109166690201106008519210620615217298898708361337945882584198929728135937846386408146209732157488764585454529056485693476254092899106691922560246425452910014982009451475388690585078215749901642383258266123330308423601713313301974026436592810516974600611297413499543611415077890155231616362758211607345219385511127230089600339937108736340084744585828116929172840,
  14715929271271973822535539639876459247383693261128037429940138758081761750693604738088259160765499660285494158397942913044178937413498128512994331756758244076734176951024244331173208054198122503155476482578701650865766702309785271213432609608282808472227355161279802179432486389890602925191544808852944924913238575321489641284456505833651534398394353706322369086818474891634082930268567197857966041601215228834098644950300613637984752788790195341774348444672748004363482761808233991610087405112235165967744517830819216702751251435494699668726687370827849191991682025903711477659826068464297168288715196482705657937945663048499534258282710020287457514253134878869888080123918252754748629359202579750028182197510099462917837851103466716091576507689424057643488232454106255171455768523557408154552326601776743209479015645205466875325651052514797632011122660267524833213955089931268326349301368519242840309426023879053232047876793848815781799120758839989511824201625492439937529250292683380891296512472328149902698230237888614435318987992150720017872694765932161051852,
  40507686364891235175167193707377421624358856294062359477043120052660625697625096842178121148882988002661604405922232933162417612290874337902228780456170135772375061952160342686280629053786496887139338571256241696407932447583136988591827299927578294929575130482504366602853237140205496447338073824577555825709270075915358213622487873951980644753650922833873219737894509894881222431666501069873961667298992096442059681756961923183986619179340847425786815461594145893864060229613295003812003838976745020863385578266798810656903699908156782778516378293459936194336698065297922152215366628883994026803862183878413895499792007228937116950775706172400234487289868380888946932582186337823435691207402895687188566870960612738621934987326322409606596069917602005453603816589660214387177128755309837099020713308471230391797557448381005068328095118932927219123165494090664021456835987446321626557573979283730870286061293977236838581491993925841574254914633515482041412850525611641438473862157948502590959169401670192222715205159244638478673684403410197602254850585962037452021,
  3401958672160817127019264607046079599287131210748035118825068233530449698126552095670808845419410225351991313683529115972228197796519175109141257490667527198799284399037274106458867169811835091012056834981767731009548469910066421703751012964027952668079262013464908265708373127308877034985381688301804159107350878027897814445251654077081274884737965503318298936026105151709009201102220710016694799486064988416099255778210332925422202382431616937945524450771166127819572028994905923717876307137916207732805190043595063027837205242860716863197568319944953596546175823793319549221835571406382172621701189906243630164683498799430673248974840299006267563686639344986687029574632955927635822741739047673664683270987254008256582740793730134212501578722469359336023202788021334475471169254724427882347885720204784810966824957325946506938183932899440856293295484523469547324707209576815500031362868183058735976655244562923337098003920244653970819808809751677590008294523393382538737975166366848481990619171892305302932752820522887389977798577574644330667384284668342381977,
  78223941515224363898742495170106566785302676664370854624061450751098238265082329219231169465936055216243701274300239492460008464419137134537390881710543297199625921785958368900227535469344199270563544994464648463569211473954542342093035095619125962942760332314028381564195812399216843570592611552186436729390811404988429954013503045826166856151191924704248067778748838713189871896738261924739749089221696564899815767170428901744966620596800868199091956648398712799600060660098336650850131726705066780738105362533240436156109801108476755494877494236585163719465279328497990577018451049091701533568613632443894879659034367590349560021664265581524443928278722717359459483078938720248473420322290052133606846053129294097497598893201349050155466399788069991700873715889175956776894727061811503019647289132576784816190919388459773052888173913796341910139122828818689576669158175066401906642575911857638875482934362992117191271054977385373015577838101884441860657830592410452724319669227643946881902302936603689392914352790067834549205228896117886051875408310491808917759,
  26096257118288327086436346727818162747255714850253575093560194453370570429727931651832436970736387485609272821695707559352179828293176304039885438950572501794655341196643840611832817122580580931386536690163234155042355394880397710071250704105678774162025859908400717682098941448674622992276289202550858081621731508389755388405349427919056734487660483097079108665922529310175974785382557147194645296290878451956517409594789439633768568878413363340735390727437663722052802244591605345737540661837169580524217180032186022858375322597888350188042317887568940231975197437444613352597457897400554662442432497593440495376268236401505734726953980110100256582513119575389158493821251296799677253621276460763910672269184411105916667182317481206619477228053502579386189871073293114319621955835900757325454926544053448587623799704869639821290623046526023715456974639821850402406160647212247386285369145422758281589303257867192003815231307030123145001620383558559708463628872856866182958803815141259792427122280065807217537599560975302816813243190882675811213978645897799156707,
  71233413006140507207378747754227133477723187913877806041160283389280732294629861094389948042687763090413828200824932764378445694666855969135097280929656029683784248319063766489758940229747652337370707590295732296764107444779028542205710833186416062834832840393767133814809415308100383634620986740923141625772592601642413107683838536096774393896453881219871847087835760284657585006626430131835637759834394232563195673889217864742511539146483061056176185226614849862117352993003941962679783511543247197921009990235995010185045226336213662954175879041155291163005950929887093720511199532095191976119111178565685631458237425273363487442621789437342555944388272109955258344048078153363012318172504761120985862139119503812768576842227060228808579228022789927013545026898289812867084694808586907736873104882413520925337799281517828072247304329560570662234561899656929407990430103180055883851549560037101536288339329630838861183757251344292962374362569028623990818089667478407215416482153646698525111835609376953883824779268205403556229310339823461721774992876114310711261,
  86981767165101021328174843226860492899962137442648917874708005217789914597936832576908254470499557365460738332954455037605455616938462993526955598254814369522745135159635012844381657623878219028344778419434849167543322089886572510721638012574559205006261383235333100174635632696788299795223122133592295598777147842562152819660095824803979607418806864814622218467350238464996209482900237216747151301761618348664856900958044527129241361077448550164540165882100946953185167094965320283685563439427552586762309399026264688025210023483988108103139591567221675210364031168276980204470846827510216007652912859618123289239199898376154654015288476402389564008009111707771686632584715188865213418100963097892468142777674442490984819462072099118606178378827256060277489202507756549609224153721848981913999493043561686936215964291771095256950970699006323100610856485554482317681694918920335382593839797795520178060026150453846602234805842806680800540972724248870988991814030172108374085197168446555068686682595762131761853474144377640981168974620203712113186150318053481637099,
  28051005793939581839605381572799053173564620472564675646573375232496044286662754228334119477101158614822513290574723369645459350778630281397035026933558672025420653201911364568427852227113049930847401550832055345022071115182925037824584151595423857290920559093155527093715730436507139197066270720836605065359257807538799662427829626027190863678584203426179427292783872074227039258647899698885201728543732963891417985649549871231317421078111745847834714810113022006691881171390633223774639144278713501339101361465475823547313216387797859422925909287326603980617051451051893526138463564900758234863291520258655103110341381404910157351617886075764396461883410175654441487477439695871259318206839292181168088355971272265371195267463913547288909010252777742990668168005319870623247556963164794199431877289989589073717447913822106916830314430210883271873693722363715982485112777376585439522066498763027698123461345369762104739754844398066496855150018242872413962930020784239040770171753087400621103886981275161331107671042265609534206562796480309195917122225686050866069,
  74919587195285117201863014572231112559580580300595904517801620915600339271581356193961524505829409423830675223104876027568331931395370615940569008254671634076885187380620283937649414169522478976448274159243938907385870336831106474829591656363194075978797738936856825365656798119405558294689075620974863970515862806160495538019929879010726988526406869489610033232728420340618845421289794321886897072738273627785013727011496387088466407860794265555255548566482536726238855301957008990944181411968192782252147436730237577264790630213627009294351935375202448246504450281774735303130558784042890529565361669557574603044684002013025834728578786034796429662285633839093850405959963382052013134597759495495915282491367582655773708630985343103165699186477493523558769856167640256943679496508265951649361856390677613408634494961092308528159575947324469299784378750695779652340662703489343992200393314202215964047530798772485471928990319033113606753874099262658761458295245462962744782530607137086100932565610910629015937032345784651094254156584863367597171410368246906821364,
  59502259382358689803420521458424156210977125941988605174184609810521802330913491593055323640211801353993827390760960188127085700221614994202352285301197851514825409266951856567653410404445485488177660629153334239355883040977080382629431894438507702390408475017104093236868309790449784932389215598500214358700771342871584700693024716766312285302839112029615848332287621873127025440275098869777524186719725803984567834528672337262681942591376892237327986963699571947508280574929908016092963856488757743668130599330030106516567168643311600381784331809476982492426608263925647221085630282122858435912911420360327206018252323794629310925410251245417005166491749697850176586800128632544573787252932671277451624334360127340397859302221599617751736148666793967656332219514934298376790374930825170161852849338344242504183230302641005578188318544289364087403203966008892343871002340926852388496732284456687365704234315669893811311708549805563342411090390294020698788366865009641636917052815658583564774755048831911648430645989966327033980010970627143154871743704811217006209,
  18608416245963219627581891687594715082363689276171748516314584518070543563797072327895745053875844710075645587473724567162607587558263162416383017589481237273465832842643349842119906790332769950618788667306344903282783764859091686806539844039317138256966595923657348223568760950460020695736736953943537344892878945414299449242296541992068707171799082027511232288302063740933243082840768023659962230745072395482913251001462315228385669963646481619930610803501193409855128773081595450154979098326100700084351632209140971316683905093077706782579384891592132099286598075166477627404210228706958031691019769066584929411630144904175524152840798558419204594222472240857954524899661499631295674599317874497834135019747600248558309355697881536973136321445251140829284181280450249199295984561729788649836529671737406535027575784653418707842130980573575850987089232183386027668096878674458767393704250610529455934480000337948441186910343848981992721780045698408825618002774024697155696345353705817713249665431707954879525776642112068569434074073694165211045301707775144950296,
  64201508567341856133087936907990859888819541774261880314414174869352930128628687697963497164412421773800196909748627996089460936425306791041745935712831904029831131550593038611206192754003474299601297698456728568007574786825685265588805504465028247234062122672309876509524679555116757607551897367108186648733913555473038717714825992498209065563624636888744281635475973802009270337279723575620585201948873117573641520856887998396255395067204576563708667868496167399289905166395473480646884163216126962321404300430349787937658955255912612733494431374931875585152203504887715420612832321554250103695842011777060581131085740672176884473924121518906742976799528434604620851042298929559015388617177785962596590245374799644805737542590339557173690179397516001998758369909403534602006006114570812972728649244155588597502427490101997527856958345334494325002578020434444086828907507743961736705538376157878638538700095357333590259466811975123738983872665368795543001841504480720527649445702579946868034994929416867471047452363136504711526982781055205996265002245440734287139,
  91949802538333850588539364994173363696431899803695321146317461717020388070866349064786340422458469135590424245140281425972094336803940426469576220351976052537466919686468405748522732221411263468200732680991283596804337124898651248471333865999581557036241284311923713805206985546305223962860016932609247618752321257009959416454501759791304831585226900924405531186581531978459314051354967975019715913056364079678742743886974318121596332024245369509081085401074867453223366948874174475845601897763958449021749345971047703154197947217559031048955150713033750922642894743661501146171128540489836287823217755403355815130890086002311190892831719794615273396398147557956104816547218228209282412622440866173161182953146270119621366199594108793583564320932964189356289507521834160949562866054760820233943903693829441070690737842159371100843550809934951258480556142602794888117357782314109215630977556334356892809062401470430406809674541428500105312911014407193181060055619529375994409816126454374436773978928455823616806573056868188932905552483777388697883384821269003385525,
  57729632948503625724161794560688062505674398343584068858652798471320568203326801584011861225371072994592972198314039824954643013641412093794464784632967308041240315791671468107172154657975950843790654639268944164367020267173333214286872793000675256808959472460540077392143662377470366937064798928068343630666235735491883630674089690534541962549218595948296352991442506812421957849397624936269976684320117178309478976453428215921105441925395673890680258742952347024625362720586244529916142578749920154783492516043423853492438434103038072737707765701474373435807984511214989021387726113074931251848497128991745909500393219062568077239325454554691767350021142782515915371392247521510261957518125558991922377560556251862577787152040242356430080154406473786864717745485337568513303957730505542984102745208488245638018117432441150886669417202922513871405259332921890393023484952178373235334465326269377747325041092055082762701360107626880573492834106150143211791258410932812267491152949691944140579833540382007949205272620731238583327858875647790567211041654416614707612,
  88361000624384130531050140081010798755577315225042463587242081346517078196813266473052652668700975390102354840054319103030585050732848566621892307361016097987301096045787862725969718214977745931912172420855203832230977437336272600910791708541590654006954047576946452693527389589089465660935532169427129426114018933681755821233660928809368683610841295931368976682546341618079733799311434919945061976741403836739591043325083789609765463216344296844750471808775387966011594691058469856934631546715196731054018943472532735101233055566492446253089798552598896344445382941448838257096712360533891982931364903499133212284219660873657571369432863633838749656941544771070613803436739395432994554889460443286211704228102975764901084613036258098852044456528892538656183554374669050757948211069811160943622727817194688442239013643555822522433014093711548401136621388410824798090054297249286908770786394338356975808913448554837537677719658959365875154327502949340116362862841933060481710939239987919008842034872943437214946123970170343033707916983162457660506136245905491835880,
  52452030731298424258801870960784918163583376321417765526484660862674494777513116337460985326156771682160131478190445605770892030801852154088126888224610854206843331279758480921954444388966711314446178931474129366512819879025932919456527368734483639889338998436121168068986579756748851654888633769003537529198775769308105735517395144379527270380044704900728573092526263167309907400068490459975878713209353348147998072978030685925274921540325080620629679368029096365711965545474983265755760946724722924089206137105621700979339927932066567094589212083904984604758648011445523278136028145344579543873365991854029550601001878962582320644671450963980891996756614659823701412873664688038594032665222408750886052884106719799914085448700729302201722026030478638071088617263141531392374899477819178104077545255536936054590363781619286394200226696480397586822634537581285355079620606463620227634100156253911994632578678836087025243725262830330102104489432622627532207366765291091628199888719161678669769861721068950090236405929175721859458476306892124704365027536328350650043,
  34618318970305082839153585060525172234422933189629437257761631522268739500581359156379950090704572007260968988373875369824262186314951213988357167356388063005629032547514519966181726778207896272799165637748029910225094724409419801468690188625285100423366590664307650167100236787351898041750864760380556088271198478863911696605712575811161433220316239861953996081064489115129903832189244967115181985798502770446978518416280732953187522170737542780783674506060843688776930498302304143646891398370082693964060694562881641695291665443739084757281969614641195715806636881312484878296005192365381669691441316437821280803774582231914250665372731866015855576310005458819146086341512013406605686183053991092842220972227727666420070998758231590762943912951563496720838098972472304203873278350860147411604828520420074395960779396766574545741573438143762929561095311584820920001996834922274622233203492297879772093259373458931853036322002185233292266043263277738699295254400374606548044762949827240422914656005290459866149053053303411842327747134752876324177468600510351968025,
  95048933541617738765023893191084066521380466746652964357719605228927287905823336267171801047870741509786532744155522815509790153143256991410913299525027699164121847989035341734180288807859437047470037468716698072913698781051913482317431997181756973247169341124042193238323758158340750503251210242327215999762255953608171639659554592152006263493832779387174509876695534287878977466443638551706502650448577147587895166390526126187671738754045938775924493697246870221984680515191826034341463515337517354398346584036650078008251337619581112539605958941718804721787463604668507755956087664614979975907257254669309501812266059756338320451208463864464994775567471104882581862451811482160241731135115533763941801619860829325848285029721564124935435493701472218371490931352746516140422988403472587358480471003049710367861996903966400318902701410218747143973930479667127146967452485821961590443588575047471161083558276186011598867992523277670077913488062706784305823037684432240837285577758508216273267775521575385493139188944331137097187976549309906304370838121079727316041,
  46887410442732940307277743637828844239775948723462917328964323648950423030339525477232852922518209786329412792277610699764839644615498030391036874763670074420720134868042097834465670780850085124892609127081572378968179538971471665316354179274132493745551049067708830538291046609861801335492736471578823175170229529255747672943807184323528278938787305850717216987840870936084891275829673184503523300910082450089460001683728969855347815677089860663702437991818712713748359424429636432094727572711041804433460130510702217782472919884095444291559247296793147664168646799094563770460369988700796128573467050871763579926726419077586482979580150961497179864393231187059023097451683435712523358744257165025130783843967812489541028789968672155583518182197672923726750882719132592890457053921699623157341359810162606343841974111595598712194855707915404099126084315344947293618259714666352094030430179436126307970778095387707949828645366676326353342206894534303062697485729601880846564902097499552566734013380282307886298068187052054125204011999043042891991240154630648960755,
  23480019294548752880557065055452354879178955987440250913007416419180939972946822103570189811867672154904495028446259968376782516887270792953349935513985117238049116955666124418804935182119542314545793295497329011549763279700425725292885167605567069578881891666892649627826606842817888551356822010598648644268973104042064203886202141593133433565060797764837286117478541013181953882096326373978186750156702010351613827622355499078167081762580063265190907230973113261264539480612746157639746972903819915758063074587538517334833468607608896462270121404016579559790815513643179269714327811600039509295305301566405385440144681956741689143950050601298995325206242564025699973540563356851170626312937882096557630557832675616162922170394518589959392779546333735205016889846436488820731461399285601576461906088270052183882944905283501856406504336417535013934985705100635004423277553280516632501555360016855860632161801678822889859277739807082344301218764982988219507648793745273249775716467943768259786538077709093158268698932185675410221811370662891505071916924055717515372,
  97985467954771694404608728583402007168255878503502580689802794309461846725801862557176999143666925677662478882563671023905089297579824895222709418467443414664411911976248630886752269173795608464341636763558830851295486537112507449037322882719925727151996600021666938956050382795190662337107102964526112535482018081623405931612383383278721545090905442719803200644225323600124989344843636759371914232277851596265768452530758485537358308416515247778499835560996791452905537128993380417358033223313804348260191619102805347598662385415120389560611327005564966892813167555129799676336653554047090793988866895306857810173302660568853689560211807721622589219199243117304892522497125531228211758822528265092358229122520413837008286387959940875331422920255378831925901788817597894307727113160489156785086783738812236288755855266118657336744602261173633288022556206861495846722660537793575255583609340989163829636599800730784500136994588212051974271662951889363661788724519387988391498507463670116146235590918089146487824769832377597870963455931545706800552820706294643107638,
  48171836412428448832224163453064177764928060031678970019137344145995290818130082735712024454178146061237267144018753822527453515155242450079079753687991871156710284530318732656311281918735814205042307746297225403696352335748306562048561086409342738331833463432735127159264239390049127973028883783463744236046441965815843840531910829032323939150063705253777010659429219076639318081087876557596907078407317323973235506344135855674600292812281944826263869185813672160413954633187907256169308154099694376002147684823666895958338644584339139734195773954458947379964993965019731801875821543881858049244015386570718876787890605894343970572439680676623307775021542477708237790441269041207606617175145832906568124019088806520592144597223687602261730245554637405620748081399377467009412522215327344884170636815244358256118696626136383402928664497006603799675017937631676391806943767843386214908962356182010564061401237788509883566708473114371688891394268479485387646650984117195433702892158483507258601976515246041543560676274641178103795805511058527509424472965571294588954,
  45020468225672010620986206771821667486885596778133367304894138883039656612191893305871404778455132876728030143220992705290210617713921277375905261246803578323361223167245131430183282789876952990465506988485033434839833599227416481068335963179705040480171635758116961108988752650503945545081890457820333988805527336174058906607625678876023448996558182195071306798279843747014713056703678040027908882626096875179843306216168364975773394896181344188241688650228996780816279756256922749808740208876881035943692992039572656130506812883876144119591862400223644524800394799942440582531726824651352094895966587269366348840150992837598464647534240305615590651054491691242186078781176800389930760906904835067279512140300340459488292084535672716329501200711214683765449414070692596214332856787457468380185393045462431369855987326420707337362095268253300224659565421102188316355553221022325835419869926664913531929631878234901491587001477499219108946501280172618658424119957747844638088817923589672365496158227535354996984130293949320567962137577698966542096156183935754851061,
  1873663140267325061995658143840958843545927104275247448553201536290028879027363715117097611575104474448575002325858148560788985128350955612212441353238781623331816561192925762099918516879242862423080170586007655853464509921222138629193200629166710405344413253099405031484201600328999231910328401724803603264117395877373643931580547563446116674421959053416946656368004997460891763261639369972680056711919008111646000296009990629766649508010850800515867038581971813055231732463017352876930349789853304607612670691519805210418792169386199911313682841025843874830863102275566524082814123688895195062447293752240366903159218186432340269192932376887151770807674952389899214924574176299185804334862960608936311062581001413806306012314943627930687332687687714744549611824196603717301173226721154889414471580764346364476457590703340858879379388551175194674235340453941225240645707121446590466567348092426153884175026364996764039796403950645360330584671065916086949364276706384187525076396896156031731192926863383238674463351811330830743913035433722790714103079528227165884,
  11034443485788218090802820829554428122003801952660218635952461056660631495761270251582303335224947078904661050788518613260070870531252100924188140333110980343254472187535643394322040465954026928504488556461425105265479584721663057299456357882715607728021482175044787001124779365707056730989211387219305929058086497839863194346632579224283402027520796201076674604694071705609535133339937607492713011765060222240784478082149383963988120054778938005665780359904311487101637277035214494728448065980210246296286374329333750053421098402485860977159460346265070892757684803201836190549885228928095376821315150435582517203728601695960958764251395013822098404961222624228173404340280893997262257739330366102986819922133775791637356034537807550181325596156935501032832994238499747515243381001151950121317805013879646562849154332489194337183269470192681676759606159187889763652603208651265852264245241199590189818788450828769443767663184922384879924137400767229406807310528039535402366035209984205504305921203882755655930480839116597306245017725252787907988546850842585551738,
  38383385199434428891591225364411866964417124240013588796072191061349423083302978966344308827110746700052362997432610231802714226622261875057254396907738147426352215524483240080437569669907102947264051780301516189102680092635876981841801303452664710551995073160643267550404874531772816479749849316816351888113254614996403183140120849999754505654405665114835838717438107104444681995736346286893002713717643069604147832273275678903050809576914347830867035401616202818491144123200843999282131818484332288134255124888668654485270842304284009883138554901003794026484476236363753646511055008102940660991524814792631730877440642070953919991675563931676247589083224270729482954432815122952903164750609810715170949321661681302220084899907335192848409001433236988693791759977923872805644858636356047169644366020445259704868221514419781591232274757877216398657527609840899889373777508937404065845611540453448898263567944962864224707161326587499595583440080244940052564753112758294582455523833993886160216709540903950962298436975360579443816778281566351717190156086785010229710,
  66937877214909889193684543867259730079749381103429453581189213029104857204996735622116733366350076432627405882954486157569614320478963305917252500296559546804876536262815497576765802778755902367873481625042453157027418353906499723714308623953642833379852588093656358087875872114167358200023785857917146541612112026034272557384221551801587463057767793952936789125329777005082262500819374164511416847373657252267778908745799682373452773273606299464292416996715508622928060803167877150190204161663020493507588377690661867461629647016770563441830896762661887440329705177881452434012512226794104121776172182888508159721642083847933339829566994034959379072820339780087960497013780702940145706183227529603485302837192226100593956449912415092778754613668231461289469981672588247118985447614664135974724040011672646403383299904015026352712185799138187518382154225304799215388902846165379294723637963334793127084664272273704354107685379121319034331192450634520767333438091681290392671092987571771480282227330708585902259139290525897400243757102169955326576133351851876638602,
  76199700398052393052742893370901691023675207451770169640472375386382876543190430290357981930446828632045430189142160750516996685123364451883139431581404652068503559767528406209686484001463298802638325495627213258275734485355830002225513318596228864977249448196664152819040702879710950567775583836470750892928012992146550898465270072696571688974013243287957198217231190281099092249421069115194270447735875202660217787299739380432917832163467212887284336979031693485924557721759863321692291013129964934565694568312672848095842925093551561535868203373672201361285171957991790678887948977874155795078582804005198795143793102409735137542445229106658730078654625141882080807307192689839135049253775437442026570165148549039037849153357835239195091842294100795817946261304621688184412174680622072287104625149387649178333892585359415439913580058590242985408557250448942910311306684106105252152943640589428225619515090298853496701185208964643320418793215333668475009093794745862440500944197952593058084705730441714228077856570371279475809345629087704798834697169323551696059,
  15512903946546491946976956580104477212211529717885424206301449359990364704881686963945459873956649568446800827974064859397628886154206344959520477876479602222481404518711220576212828951209642426243976910777918759891509169674884969014041781462488218992047215397897010041004451916374635484937776724048963056176085749019066419920856498824416659259136411497972110570920048346356219112592053159495207728572853502277178691134317095074741774046112597710544066392888757183933236000244502603875999517421359497976494040004144093986809319328642332313807310726052347022269955029753364133333637683830769912223911477705585997784287425696452597304589798916184400911875473810469804380559517006296303294337501124376916592072295301512543213940544337789162781914062155168208847363453419799988795161172610284106323369853456622714089825020691286704441169025820479657650680608338935449086211438738256599464349788032327217582926945169986312673587510954845587846314075971720196243370852199677928830820417083628218867104294024260058440043773587533107041888142219209246071491335029636905846,
  64488320319474101734611287867351794220941454660418534030155181556232143165747332666107989803109068170082688732101936459561785851734505472858980078728721154172567402441979028843225315410192140135091238671110323213731459405115614706721289593263819675803769072313032161582473040701388589334636633597677154707019773249548814517149561588915972704031644349512185974704146717150973113294738480850210707300489521237484215403899818595132249014418572919357094375241592155456929631150144938470339489307624355383423543950785791770587588732868726361377231317957631881191749399736458295599559616847144784415189854307741455943009162727770640067845262221886063381067248472690244026426741339072193530058424406225946425394836856547845053434905296743058974864956438929352506968728255730738865347979569737963739416312512211357236612420140264683198752349137532591965158061938726661939160510493592652713216922096224639699245339494168148769759450227569316017372978252259321139227972644699078707972112927010072893164141328975540511298607130045424497219982559230173355939919666258862848902,
  80161029774147281472179960743046863683943583762096637059217800358151699129476731548326243472252980038009595875555451363524852923366036661334521578492026850615194920345290214617851420324233104228486352089687974218454003873494172832011762737822647963978467771365873511193020707222560037507494078103946338951998454416631432297316080844049828135430303833631635314540529914831642560125106820856569001603029729165846789183221058699489100407801076924778257280672186586644935759237706601999726065952554332733642503894798336601431993073084809345161508804807646366675290866716936206249287398148879904365333871639691167273697027312653742840860973486972932552788541993019041684282321395857966024873754065439260849531863413469468678923583360680339445576185648701132596427755820263192568099715894489345407354516693238449214991185549338282445770766882305254697961282244041599668923715929509392373211954789450740806774448900380624434575224611555723894226838593051527754976545431808349023872919846748693162608871792151248292476158935141491415890423510507353496796948749186334430479,
  36252036510556721569888239520349805230153122385212513261664494737046124818609901439565463727101755621611221104722479265060881879218785645647702019187081740982742638851785178231952934190481931571564040017826008047464154536425857968822131471202195068707370393121533322394296471014338817639918115074215554226048219902450082052031551588031076765688121985750384512044736027969238848943985040776693919191780385131179046372645787280056649950159576253027673424749035577873032069466976206793710953140878746609071909005478715022757386156228403119997936014817401814072685593464247081865137267612797342776412408940702412250575912833204487675083824823354900622431962572928264805660096775092853257303888341824250441019443837490829289077044151815134327901263186270934410280583331971839380845112478775779052879961424809685375809766676370156948434874317475748991463889163350433836273988511029559099726899559047151129179455591269835942930673857430486989898559443261989642534349217117176194986881381153736011925283763481221877710943925932205737095626981646452645930525413081768047684,
  91799670945909756270994574641668731299851777131558862076554331510263023608492235320184002464426949822200938856198141742352942110120448887865176204772310072355773711756964540267737869878293238488465868548243072513224599718195176378206516770173496390729119732315211045083889636900343634564977138841805680298414053230978368787887332357458437167785962319311821299654426422746033116562189958073857091407481709077707206012582553725598818255400017096790909741338551791505034624136279629433752798039212161244942285734805540929961742218675526706638715401971649592580419828457272339435872738491298062505229908230414417964201863239335975640856264721140987102756842328471054420476927372279586934325516237287061306248948317683005950316273539272221555960371912609270563209001688446422399745990762836038614515601146790867195227442253415373563043636807658209294481681575624407583542094450414818369400724787199371608074714370480527241227205762001482655673842585276152042257561677566344890835515904034755970552781149851302508741216556160585427292302899331654735499079156121786647178,
  13433928249941590501409236320169840868059967723646311800323091723144906596018394433573246799472136366714309332268725922769959786634219848604764038331215159824633481575389136213747050626776094939156543444966503071575601905256149343412398650086334976877258201426160358764218865753091740518241749178412153032223830041880663938545588917876200687881404876692760597626388508418767172390688215137534469074205279687593862965749865441776294251870300911496135284438920514500715511087309466495949907089979305234012957349386688178592724423081521590660649960755027237608127238705851213727455288861773544544959385158956877519518026877985648252026624094448618828672705420747504353679984584680211816124511917916408388220977886418275681058507677565728648482836037024932871581980604355587998037575747633172000054495984987251668856570630335287606809308159018141059372137856078810315129253175041105096097516542537103085517485489928079279216508267024775246374998378504723411487224038878779685621658918415735659396870303193507502981382895299683035730430607120754662998058479510773229041,
  91430681628702950900718814134214582841561163276458979779431852446703335722015183008067730098434281459855594365738971990326286100716746911509026594642792375562493742351217445080312134998741021050402625411576311412306403373840230248447393613277714317783264872278720000313243799115845410732008325471765533577884197388111987830811612825334350013791097326458045675356269284834551025317569761378314436825247785430693706314325509640762249427096972762106167981630745864773136210291691319019350539173633877209593077288021138495225308523356420091475821132150814163455937327663816462099641504181427926147848561122509697441807399401218649576170877429853908394199011888587733637311313017101357779033475620443952626076779765685385041517800286220260173983153578949045444271657055964920522231883544742831119346960371194121860939647436968352163008411309212213761236193155509118775346445604293737921516689620242547168037781827463859079682073564093429943342717920802887522112543317901141491160047963896033187722047145519259305894869335049922335765207063933665786108085920057759573577,
  6056346934576038849108050669551609381069436621287588273316132286483143147176721157046192356146500377405387217627411136601782358558451731002982077899936468177687598057719690442932656414928889506161743273954534823316663997917484984027478354053591200222609439905312070766019667274321466731325059919615374919120610926487819537779061425351892234661396095319606252617842571586992437826609161717464971634720477389613148671942948249029198941916758308889233973117415554172680947533102737797997098175650450547360227678621069754045059261438837781516179253790106064022916738026962573434304645300421104252766230305520724757393067927263937131887228801269585549042486632283070227740155528034220557317260915929275132872044337772363815466022426272279552426404790691285346647439567039015366644825118623402780402537808866611353566441069137697238823654053705720326485133071180018862177768059795321806543675321022250428000439940618518128895361407337239506631151707000571386315302132936855380184898696963028510893012021795064707248775032099948367568717247002905581456984051446746945071,
  88717376368028734735561968531753075661201569305703443098761497230689528664441564074834588089865256616643797202895868442203921819431715127564111776147563714059368640001035880263891259692381706227637167628748062838160227594105114626922888091294330277664959472497384473093376327460037108435907859976671800558687028730183229667292566511959261005941581003650892906260399978910764693101952271744645199443616999155564156412151087143820808868075229785081480228623413531843920566639711524608904813184451923149291063281540279224893782282515457682716245961176395668864617423953715865744626643996155478905163732521825783332535644589892905951926058659798671344827447826266678984191962736059352022149668157043655690416708257527445881757281160956148185722436954647505083028443075317077923557132934876117839081302910599183552262237468671157570593774909379757938195247331632266235982695699804734334402616879654751304293461624266134607473252695703114881469691642933690719481545481790829291072069429731875971973101542619933564615328361822870151559033107061465304217006688253379701323,
  44950607141683526860988131227220540903094664606618585799991415397814484774156408225890354064490646351061543371940040138616035071455973601427862345148657347962179784675702189899513333644381929190530085773995045234934957189684612711376889575979332349533208953814539846770285124109139999624094286153561549520156418899621259300512644209686597252899418435036681880480752910597233600836548235701919868550926035004876573788295162923741832713236768658494640005967095067783453610036744259491885819559592690251239311072595121211563382415896067374800718324687784130780969382414829151895604275501754206517442088134014543607071355602676349959757596004103616096121377362182022356398010145592493601568971489793336585499186349730410349500790550971037329489219764058869953201896649335082043100488523059429848680178555656453897152963868713982393892788628313053889870441633874853236655056254302382861317683147439934461560931076538494758464893162151583588989339195673294433479039090964500201525452974223609334873774857090601864807051699125755933251820304412057338911692494979374444181,
  72101800486952748158248607577122172413829852529767035268850421330346370320590111276927084231224737403990344676189570010259178589661470456118869055431800013574114545384809162384560193982145769801540367447309332421416472755521908773969174173735064145951846078512401813774545883762985179066094251799695036587235132911540694118558004057561078043579191051543895293017860705688578117217421391550953207211970898415221542531647919304616049811760099940434131909911892155136512261155018131107351940674896418609402848692830550221199243438663096612299837616589812747306690040713313153258193032028149674557028927119805023083429490724610549109579955078936602634698465662818805549010438789895744093141529641433776902605064364098326821763362870988262723974302300550638516752892264837509508861372198333534606984890685568590244467888633643960437818236493160750697952536617770448078628521046820932682668289722071591098008197780192649525383047246360795893917370036932896635802205065980285338702996809222867542712913386999402663357736086375404720211499273339955963867139414159950635550,
  38162271317992876143298924595866321022805072720176632829028139513624639259879408411977424214784974887928534813292261758042969536056849641633358836124647760471766303398537726717373232324351929797334237646067007259056978477822590102247186184955108700414015527634922430585064979174699941224701667003101044327626530993015284206842468595235910530969681058431185510376080853681033317095349081348831311722359377438741462183926501715609032794028189935612694496396714332078290473191666678085182551977172880062773545399159278903401078628896366115708075792637125157532125643458797675822798605621785390463443878260224769831644730911677313769865439441397481344800381829810375495058853983542914632275329122606239178293199621398691881771111842441962771878992305735044724577538311943385179322128576603521216877901140477658976778435696351365329151493096380391047545011699675878027999795538955855005904553329793563702640770333481120559679109660880465445819911756967335381794020297742084467140554762538001665796195719912620080781668202885915862485723615599401625547770791411160067640,
  78260807710789473437289911567613068507322496315912316341975884627647288192023676271637519476695332542049089161024916483733496591727080014711527101290890296121104047246206562282096328362667088897284648491945054852414755813392377362692127662809010703960329946262725094714117691214291335397513015143177467168584029059686222170801110366607146302062064220739673674027544451115318680357371197061263214355234685554438245653255194962230924422262761618107635327121848671103874863324167078904688522332921111501979009872376674015547916753447485891162812686867360422299435607682697833173517639411375681873118531093914733161347146429574802588661209843333626447892327799217189381104902575089833295752311385116384118101924499132930087784725362736588016792732391195667737734602923116714725275438773239540964407417449308810335690168994473265062935681240746859168925465092110914231643396643496535539990522603047114871175019510860362143788792840744982527033242516917795343239338053753415428633449200572757968191874218427218858846662660281339159122650870329556297431210060847646238240,
  61202097408858510971345024453456269674845217493795199836601359599598044210553393057994635412156592603739545481307090026816164735807530907005794698595121857669282043359313336580210439358016107908279426644878203528015749847777187536663886871469284922335979702018592163752637064707239232807117749755236536241706263154632700590266304024739804533530204093931304973971307917181514886323851603514091871517272596320603977518189877379429833548962149298830651687972617323342951860291979123542091466176185808120657850975540518126245478535871423498722824507628021855541643937355728734131770795331826410695802318126782729262172479047867331323026028790147648543358099932443723491884995859948625830676000122047336344668680030217744283089567321206573109092985212685308293535203316260961238719270474910316941151648388474797456771234335574429812684461432753371060377023811587306886288969394132363006060504289965200451060374867696136491725117214171045397236983765748250928625319917610379605050700474527519870692438307972081336510745808625339870452950365773947943751943255366001421055,
  64641482243606164677079171658511765610859235634609485497644779621165511318700969902914073151483903908991815918578332650277953957841825197056152467518107456330457082959442889150666715929760412803354745155100439949339911357400368108214520100371663337695212133753239590644515065233379074750428578159695275696181784704238178420315992417112157281753138255289908317222708031933401849974624661506864137178679359480593272851964335736880274143158690076520872345466373639831869120209656207541348874115504351794570520219208662862157046501295951312793744072467620419226655674453334447296817148735449387338480166542826423783384831756543833361744087321879219971430971939075615289979919334816845664869894315760143802862633533136185723793167236606367549438005252967139974035099407121933737585712045559496028444564046130603362226362162934122457615116541938791684813280962469524445695462125087911893539832219637899949870575517487718861051045258709120015502718111214008330339459997728658704523419166730406855700471728611726335884968271071745003538903363106665809112216112279535205973,
  56315423878627922117400279299276602723091008788964486719775106448528542367606806783287027160214912208907383598679167790798465468476544328863327545926899764713611821919363719709430918976095893307419509153578998159456268174031091186213611238703266328745925123801722185923759642039717801197330135454863031156287645397333010353519936890891716582118447202539404709317833060123964167270931216369379193323918425977305276147922930212301316365295613762333052845463774496678385572416305553286105327552078438940442472330870014940075648539493897085636662472351155496842637074224198534072188433171180862478510999981762322580581202049072702367515599603855846672839734732595961271044969489969280704087235561355018834860982733449421192795115963891421701337136254059591584006576371033621859435409072149507971926424741687886613509620131303193981656443184231910367414205125568633280985520770932399557422045837289243830948110842330087641536630847241689763751941939984808639276953179016437278029776888061624908419337641036450961260406512736947334321364751668674541875423533249045251400,
  12619910255049422060899086534891218519778520803538297935164736163639485284975628497148856270364254376152530348567914218138341546765630362935943271568888511396453417550113555234226609517738178180389386443090830539927386531988392370825144349766957951254066405582132495347608244642379595204674037169104022865060164401188212816887278392342736929260620640964091959614590431451723416161791510706177671741511297009743626357169179809791310760755444007274823165853639170769125919005551128507328081677051347490741450119502481084276777357730810360845003755565026865827089490664096114629969042922698380843496813891492479886224871671281240892627970065093741291428012018819220654215938973633819322591270713038489421629319110049071492253628218620356176446854469959430764190727133878182633847902690514134885240883415970409316671764584851653904600109634729323170245268608078649180077024542605338592009166331507927787324832590160442171566874940579151896771159131892750178044518249937438743299329143554374680946834026083464252681707351360267844117117547680302578284327412712955509267,
  10857402304746960026445711893018058112189257572500241791066473020112946937549533383927107678381585580887567061329996499158939499040874977823550392105136301646716340862269365394034567695186527752685603128680881568916991604601367935600028878486501738703611861366168233700637624901718703548391653008880657523737679906815547888893864623380433678814473862636975144463533151364503365250987795413093994146760112222850127827345575515956198448726728886216911391278644418265010715934333181605528809809313757602195448423668918140487612969835740368011755189133005722699475919228724396947107244977040473296751338485372898919851448791269339956272762863015717827057355238450193665288694250301571288649098993055897745148064974007108137602067660610028335398320724359456720594945121684402530561416115047237679687125269315631930981608232979504258981667480087815264867736414493569584287953879511112090041388243506999888209156555403289250228805141696787929926626862224670525490667495362501326970031824510114073519298152709116828763161525453362313242268045222889614970917397113535255440,
  12360861881545414708532046722994693907148818860332682826172282696478516984097556132809109049299420589020997586802701182971438113061665016560694050941744708413659317294603683231488678378340158466652627793811034718565273429011264696899513522043813883592540845087574293404830480525702636746819999711139249943082380948147319257601152853824735720831491052716081699222814186753299117955244774879202469824783577017905817684337666777689021776490621936995896546765996942872180109781369213674462209747830040927181905137635612325486127214522261680518029325681831093141396659245310344236884339706735287266383000454195146442303262301907189759856124702358650054207598252489819907503165380324950260169372305831481731475243043594249891487918906280263409122726735334485377798532768897047616726158528835140603525270885199292171330705785763874939374555940096761537521778280116269037726528989620344126159881063216825320644381640612917117212009556747383916722296235557461243901559905448832262644162568712687048500344921141575761431548788382262449382571907205282243565403066864339495278,
  66391978261966212889029317080915069335476093630695038779648380650097087712584207442114997169855615899897478765137505785362724536521780662897775073271570349854774716789029566639583511119977254308821083008387197030016360375482320318110345196341997195708016263754256069696618343629726907066223061431318636181161133168418495161296479946354081551662886453122010561796238101443846201413252468510264137934116621666604435554339672608390029334249856059230477254301604859689878161532425234889479927499568040575087859615846563996882770505824808037526244409922842655810719653139621474222234153507700313618665229024242427339752232201197300895968910498540544742769756380596262269087884764367655193756819519963044228090247196597798141122997611309966894840654703043061615428405289846055561052774316709454797654256999443256151512704117768402472629905184687393844031749092277867137465048775654003526182336135822096915951653100302994702612137983269955154794300452825040411617899229947911176412173992693774165820202835024261155795357710192869502646054359241180066807823341749833422352,
  51194039578690357868099795735556646348184109235356638053216250587339612730165179209152696307741603539343614876508656958944166875931028197227084213006069890327681248136434088291450693535007842690028338969289003676630651962125691137082514952641307300205723426006143479478418466207633742474019652349063930296622337730820640228704088095403944892602375593027578381867271119555903626438180369441026989560997022402685189290570563411576345663453530917836449127065514652145274516095709269601981935148250423083093324020856938232573732465561978380507982367839148964413212119032538371930512612143512054346721380249172084457240675607838911836144206172196093241887871539065311934562423143050595975813896800145932726803699031531485898178421841408627035413234057140637242334416230520114600537243354544085804784915273835605370083298419441940878577289428942989055641118489012798817424271309417325022464998977618499584448243196333877136064170050575881120626018903546125859345154561817568409731473384201495189375815899601208752575627603329500301183188095642910867929936491408742632266,
  72138684915224129903291462932026823734909566257903206428045338516755725663359643282983690679715448949144144284457366131214716525772928322838722519122781850333184575375231181388910468730112025332934330332281767444790920665632501883887499178312452779568780325185708787710821321817542299137029990346340824319822001818143016950158675647723184551735160193539741180681625549863346929742793638368312286209015008476329602715420554092347219774875557737277125358437929973367550413539009626075460177047832009209000043703047720623969311236199692306945192122807512806261090339608085511993936257664560584547489298456610516437763230204762933488331366455334573480473571567444997734717821981573926294356614853325635257380075373424585696273226443292539121854835008471872615376119359921175544946875172209534021714967332300854303127734300844217039223565805237469978119523847444933383738577485114274622522039346757212327850661052691327977306346288737262224195846716672022151680829100052670223641512652274077600461979496685044241492903303752615324755653009315314557741560785488843720415,
  71406008765128076133114000215176092898248986294506264798639727812087334479298478545315123293340514068472557469284862631503547709257191442014221858878025727912833117798221233680779311687586547771399946239543986001782171404451158779337645825217591991088192383005166331028283723613412721407224623795391293388364187931553299328948798748615386139152307468917410066261860777226791348713632214751656850844199178069486195460193408937081923214192638277533759194570326450236304347568717345295839955367097394731137451394332819779112222693972545912493837982312660709638222596701900838145328629046106065868563209780150854223348481105906173852298620528178960495007325704272220203936136382479583103543259855072621403409859627786017216895598750303288281768040946852093886403363652364944285765333810979533420258752306609947377791748340996405620837330431676710875929826666843546700959970485895374841511522145022499454415283865780292853017658562910138814417266938379020705003419101213867913463546522874814071533820290191923514672126838275100017394805179223575910310629411782671583818,
  63781954648843122973630207590729496131322642355108491026499847418870181274039872030679358312315482878780386867207634549849519911344509912442473105052272527668320660348538056734851263693194665299251629026264658941634139609150972187236402755002697010883868324941421257120488696456582963616098653685988378839028020706070296399620892916924201175646292127178414438660944484153071327538274180512475604700845614196078604954485925581307161527176818710961041702864624451063869927990313298023938322923078600246111212562537492992069623605549739779337090550915061599580746264769307061465473365729538801084659307737092643932709617335897987551332985173533580576198203756071739649512102605682421535394322065787806543336816683791839254310296299786255831381508429023460414642850633182078026674085750429654935395449486518527564708814351323195973497899171415169373256883389331628338964518488703226398930556894518391912430829325156540236753850043094552275229862193634999307995606896844661874598947488234136640851885321936731143758946356570214222303717414812012726282910573318578392273,
  34795260680041312240444469069570034326579109561734228465513830287770817092800437032752644557620090294898701726471822893276178823467995953896680114028668705263367060063042612994608494995638275599060264777652197025375830641181461287543876098578289963422105950225341504398260961876098352165231654331697721441251770038039021598137974891320292927755438711703391163224807524657249729623124765093517943567483811431528641333029089123777146612469044864551164926799346341556211882281756423024051694895444281683141404904380578860590107370067182984993650407494702785573862720327108426027326956900641201555809469137101298425529054495764506457560037403149458790821054735591136399067278064814591917064338706971477366524778443386302556983881025898793095019713128407089187196967493940026571940572215929586883457866981031818359493810271931161525153017409040319451723832245963305267862642100074573633679726461435297149888460552919078229572134569264638347921759405780513036734887954494733446456067966769127826799049420036288069900260352216652526648809722467212129461678228224742717834,
  10535858490938180843820769671226221556492524464101160066383911818308730856354226721501721889134911144340742316720185801544096839417218455292470306663317439699203209991372307939208706332681495027024183632373935575659483558643427585271530364753467460118162312180861113799324835451482289863062536933279374737264046931267375653401997300907614262122865011585689448208037142836120485831617475039077128760465033612361352243121420491140962045858292255435749009027171143100562027796642732820368408835142189973676612851541741701550559669295433553384988687023249020610644580716922863343391855394434659741831033154532910259130360646226668797794557349045467488232753173759959372322731037104452113311533828930424773972419572744011654184843155648940489213580557085576275584955348891913856437916383424089396022097880195875047614164578733843443198087351575166749682003791537961029734944321094760732700463633436612590711792603829657765048983399682005284642342068544946993038712496466424858116044200046669339857416855517298369829263584910447179338446832504338447175872526993668623375,
  70798586379951176474378774221029593262173881717992112564960766549050364753011284605971998642239727843391967774038958231917557325994193790085492825980660767894985484333355330520442978146864226215463907056678047938913177651922049935761663882196322357224138758048818728755477834305533714162429159181440724910183373607258613130585839379636913731605046386537876161997656835278960391654122119712316370646384350875058804657553196720080481063208311821537956138009835355952609363700064531708064420288837726690826800942475061577365306953699946473444264179908807236585691623899636517578076237318613662803000677595254569830359350209310340106654882387605906309667152580319027018056510774179659964177889506640602788471706807792755570351022237147306795006509607538053426398202615407127213785603227432886168024173389459790505032137974846614903095301740230095495752617958896983609703142914084804583842017705933308727898829210653986085497841770226800199431723125607279669350937846167380814534710813293763452196474416319331178690649982482372761620561502444394472323379106960839688560,
  32674365944761324366862391058343526372587026552727235468109736136753799885434022478297321958647384707984985141728538675277923065840917432060501099102238929818938645721604168949234020855940480597988871990753899448362457591817958726478548243687178428051181657010359994896167564581441177435999415574156405419809407770607818178732780883923516652729811729470451824894886940253978497040401257850170852522948003264485539829339541025049341054446143561304537123696168220242708754680322577722467645386906917358463290996597892708572413606852947228418998881119769492577756734731492045418824993538607544853832734931602494458301840052011005971211224881899260140903390584301410505598071884441547633560933892955827033563839189207244115662413634679375541673890893091868608031263789230912916607550098980840430877173868768493062385333509150410600038306016394885368792106123894105743940346062401637185484252177167545163976002550502264396115259942943086934986907462978375997016129503084380366066005892265852930563788669584667848757260025329183930718547261012014353181230082628245390756,
  52638481662843067124140915353230173735777223170545453318573303986361162909280796514000762580295868325211303562521349985400678329057981002626637678051720624754016353702521682187355287204019963596188736069347306728409608128864989228165452185240832827912818493863635272203008598275445998989995835111574368787888127048557173814857403078036294204859420644334157901693839596815335852775087815743971924322779883170605463400533096961159954373203941299551771974092493728193869104247191680745755805413172816833655379652759510402582937660069379484763050243686693087498612911515579029908914751147143616550977810891689159389043228611630980896160154365423970713173398762556138393349278906057471453816915692648820151026214721832503409165624542935311732839683741755506978877246043985562610853373740287709972880476114915778576510475290891138178065469222072171325415946797805559574054495325587792843232475048202572961072119305427203445431119018432651599832951192425499568866292451206155443548518778433760228457318552553020385780679964233347394328325507976814317493529036535523570833,
  62272954029760362245967870224679610872900653691581103297724112719687184631712015310872022829121678513683286828899841006308305969973295124018343792808075866877889849604377275402758952292936685392267513992823716159644737329827017509083756802744666915911114977994466711356910889243791993094247213080730819842625931443479657908567008256288588361144633070690191063606859951853870417106238568043241122994069976976521718948993497188045038643217598286433134023273173503448755279378348641310419949659552577066904567184355021562018967279397342682162568608592248811316664734142989101387571275704830514594366360992466106272011244098723999710420756543915068631020135759846014673026511990342986506396760006966879582828924339782590587485678262692633034683723321240661577602951565372261068229038366133683415049998959342809320186542470360735907656081621959975934382017246180769581783472212715039912393733080598164349462313671749599994630421176381814783019102133447356926562588057101644687984556617203758742814909984339304652393122000356442486502802002210387238150855436080610859538,
  17427853246549792311015101812667413846629462674003407290924306775649178579342775165295098460009862821986519350148631413113382340818641810195988872295935856034372242367239601514627896565485335331740074198424260136066735529840754402573177714954021927548762566366320979513483892323984730934282729939095492262868525828037625710408140414070921533779824712193346482520718387853744500723852593605676595762204021945192479291241307585464859181278455595125339485377327439546532520168622505372850013045372400046474447907459782510294447904759726899493753746928089331155435505142051612363683441007349842994707086534872826168261194995444598888503596079143671119639139320911200954133512885508992493392853794766561641592545275885347906803485930421014317785771172451137418462432155337224056541214942322346734100328640923722757147317038093058466611410528665349292157043843719387582548918498944658974892112398043559253649190865890669173908088675009132330542665482077157364025208162483016589873036086598083796157673641177362734669761566653921348293456423991292807859979878815204292215,
  19091416907854973618725169309999132270006749972335155765795143664747023748766149644049261348608299760978362604927823173889497922468520977599508049882697239249576598722306469511876779916054956726996908515258226529522738588543930217342747557439187441137663399412859483123438484881279457601367100667616597439589632554530670816842945121140912212009108666989989150010205569248485237225542131071661391982827657429818829175183372084175238696768280591023151992531280144537722164743682595086088863644346720804079957456104290101965608808393098287160616049121636045869086222897375645574135743071591089367242331664477332829682418831492171649497251401194936905670952961527043291961756410101851405960839542210112530043203244772904509568672868692837978994453347325407832005428354880451308874136319369558168287460790465669459004074428841873812325676996716469267998695588605208063729838321123862468120288170434815581406294988306263459334499888403865260573742230738578664000237741531288590945512575353933694086944429394075221828471001077665809512756702014775408298259436553900777906,
  18030037104030191092185293284782411655189092287029012404160045214931709357753608163420856552332014438453889583422068417138823995322706356387242611330217236088753196924820117906522275084815465360634684320835251951083321606843173343658468059130157408787018229598765822830020425283556693204501981988171458261171598400011723232484622368023378498390571958420833941883302500041002600378834221148367305474960967792429704499983799479044054349710896265896766913002849909603860630462400933379790920357551625516664005711218771723903001503960954051845816999386430449804010399161286593474495582760668348248909337338629266989646970531741560892296662428914381927372356726030305011034159701503907594115991561792511656228924417675577202639271089785260599471315335700459048301245358602245707716058212332185295875822030519372890200177343206194287342147523788608300702997965315568103011287992589391833877964700675202703688772405840664369190902874387633882097145801017495101346458402812780113168139897806509007407674642209638998045332620765149608259774522758423904134502684618616814579,
  53371759462268303063666145365992028030084325285149817881771272573867535502851338367923056743243686962027275690495694721422424679884360411922631691556788276484222391196274036714598974144543180061688629337635623975254816109201806289442065086508865174388445174402936157089106653051819134408352417385390895294733126909002288147617359240547275574100872211860248070655273478546467081003325288049487281884647664513871948464700273983663967869110872249068944525449930136135982302100966496626582497907417933026044796164678961217630473547094105905476778743627698111464819594676539533132602160451880568520123818538359935250905586730481695893931266888871072451637580786918529804644375984939014986408867291215615146935054468003927753771628002844461708872834613320160278469351417103718981359285654440473889353364342252995356306714864357582266150708472242121395749058812364726080795665391821078069759191962729961376825052719016801350182593650390431489237422218299729435910504766510198435496771583639035605090274409454737620008662551895379897398695524944209452836893729162255864458,
  81857232200509734021124202427013381380975063870736878622413461626607614186589036757567280494685139294924694749767044828627850379939428327879122033297139754384364472277941952483005331330832659412681654814318367241851907164537118394561885376718611463451009876355610396882403469322743163868563893669207826287866646316230586562320803446703322414896584429086201191797751836078981178470876262961531940034781546405063456598584539593367839204717781619611519781599153348323975611162122210452896830871383545998806585780135485937490426395602017295786811549407988789989527859449531291247582481713710885909691407061933036180030332389191321684024237117855941479381751226153735529282048462011908783557824107679589872826483801883630605162587458132380717021270703116015993195665321105590868446372301121939352882993284356956065971989301484189419246965141950471310036209138468408714367868832381248718738058221779691668726770528694917232969297574129371576503104861498264996394254251535522789265581765932812281351990499862833891769509864987093885286522464162414980091336048094161672069,
  33424250017253335902412245206966274283806079157097461019323432744228427903009219716781979659790595491272105538644724076008310005880818190724478703436574542794750466602116861532820793670422831576774109787065652889958092151207900910624889386465174860336630488088385858365475419590635290169607959866719791951547267539998847762188847851073660556792237455158009612734637037295470996414489544035707005097959712497079149894057504201650307392100837573941328165780857198028511304247961345145042777636660548705739016497996388006749276335699901742142470860427633687015388954255448605196615601145707431101267836061897633765408595584416739699898991714686664840902419001493111173462062958230778705794867646385567587210995136468309977716094546557201681228539377673740994283039515574945316920658203714520458277535783379827116157535547547595988090288825001513269030621837535588152280080499462199263139514759007671504441201028640422323467572146522255433374645407695544296373365183294408114816553112317888568534493625651092338223250887519700640217856262405043920393115512742419812786,
  61180457520379031352263821500210772130502406624183002862477655911114130894749764170442763287774736669514152962797298473622901963622315436319141841799696896280359277506155139875578536726635378140081715318318793314798031663073541838249854774614347582122035033039491346267250843739731331346134971878652215484795211328065589745100203248729792239256892753749027042598668561490405375284504662614426425991229576994984595616886612934274152168604536950858277105538068424706396860778132899310628551128799543943367009919152088861445556457442279253309475103278639998286086647782469776693646959682093306304832523027286162884091854021075857505952335491745175635055894316749129117086207384696004878978263910905625739599487492495979011090191614659080207484962639358279265058364767670838301196885550505186157980972185298078202754679077735284594885548642095718480957735502641837966220105606201767241016475961823177144419881009610279477760819625624682085457499375939175577255504390164427090909940333682021018189188094314468725119448839760726106428947637705083816809284728704530854716,
  10727866631012203668875829064624965329442150404260896079559602848376811583310656398188715410222918563637554680861467680606261759125475132626589633416570626511726817054930109406586302669220422989483023764432367142194636490032001891029510553731974203939930380942870786655291476928813856458781496647798082331482664021665548467134062401859714121754244097871277182877853413438373825809953777455566863903097000614928407730247009172019952462062453919858592371345074239998517182249542889513234350318233448378831929595533487901099211718992253652942936533625825953909465529635813744972936997465118753385374870942177080817457017422516040904388461215741244528502023798390369991138969673477880497042088863931284389157986861499535720637694821492093062812513122808049966626255322428383991735202566745252299084099463258646834111304208458988032414287824148608262105774947533003770602151682554216858882552052891371938772498690820253933629404730475050099704407094693589196990053347830446358119649104831638160680743239747518873774504853932080118920921762003254128590019212850780087801,
  8096121869972156727878783603783428505022335910473861003790033681958215347953124203321923791186979738109328501036782788060812745282883103918315704414803727152691119589138273502062661678813673893005894349871926275421758678377586169291156419695497805005027174414821422531771664564897625594375826764309491260552928577535565273114929560879110821596194017570249204462620779468053776955441637902384442862707600133588293722905895613531099244879237739700126380103906210362971005400902332662052868551292388936540076639663983925724508244968989262459924394384508765578909028189856834334510996196384091164376705960548419525350568787230520679162057973980086958750046561196154504016297677700965470185284334977644679496028037224229231209258155238064515073175826397848971659561076294495873794568519845906093691349732270242823829358483476200972795732039739082440490265245937396257295449117729608598859109798319161919237155743147773056132758650301867128792233399940922106267909462585081169282796692381723798551276299352386088317714689728571559104796911352900853677375489955124718689,
  3957446600048479540144780288223208242567018451147545838594639977604121232182945120720779081768233151618455421959874974455890151199270623605189634073539348756409531560340706935958257608166769558749209824048066652756245519232200325145294175539646827190235219576379637897594175052158675420192853655966620145045633855278357125671205128227519609295390924578418855401271282860622031840304162523045733499198620336839418549191744312814170274683480533123636546408009522798679980816786143876702299176420421935770303028892406338233711883166689234725665314715426197369248818567744423683067628580803557766708524939432726759182713058028204744986831092388451839656929128269141358022850879202638155759445885778391763041538247774502736300479676856895905742907753282403183887419532847250575823699898418557360973793479262107564800127606600568485628952962703650334072849924570768216606004308519214499399461592740186790670249250918808425497538250005736411527656278820683168374561361164661059452960987647876178106573256994413006960404412757484805908154315252191475930781041409918043677,
  6639566726344353562456193564075135654672716790941187948848086809230938328738225004285130861556467382313448911976530330590349488507090436408551170896815968188535559683677670828759269590012226813063407905218083141753428838750131652921876633335743143710101634779665888361886988349983289811640070259655020476119906884593064118801374335280937951098305220586575519025533132473935518421572608823101683181764097241796642821705539235733182359972105591467580990960157125453625914657358345108084976967080717266943718308124966413928529324205814835226274469375858569571687034502237757777835981585809545667455462729794730797569320508562640503528302556722866775444828408620998138979303709253264259640385349961705463860837230314894810013719990131970126280108496986832790805995250749377542359999787837446577837123753575785267771063814356136789079473724792426181599280191554236358409224109269519498675837014008069125945944555925467047320392800470111600155954170202879503592920177039686011345630444923339774354557165457271495173534529046221587766932103972565405338682391305809660021,
  21232483113870490726163498817775250633988037352830441378850405352914195734486262214803329495448889085450792480542683741940669188555167572166221109208997318526676782935266132904276171207173433002345258919537355747509268743152936342844964077178567399584381489421046285181038496434277355192443854011056003640918609065983002337368459149958401444990129369372589395288983481155645581061030794545804756646504893576785275211183407994598744205675506984616282974816927434031957448112126921989132435503198370546644424960963633748486558714369342400084268306946647268678216054307605555515711301054996369421412014528605671549281450356360885793542044988312557195995587078583365330551210839284998411268479057129722024655013870820524474927234191950360303939460347677085153472543380769135430210323311827099410525437316371791899608133844403673509209111063173376587401600018697304252984202448885270331725146924974753931982350352522617616094384809705351245708751318689267370050744277412070979040734631226205290006391892909903319643533353377827730338009564355202372811893414222213163841,
  24662187626562926213165374744095230545401691905912102983325487384431499690081791766624445625710550014060366800133249580906410283487716419356471430409550576380385738522098716167959104852220807083954438166529535008774606811360273082488566261392866772837170303237832334671640641865105991624817670706345653146764074492658990400249294338203476654827303415226579042351013109297567830484813632976397632274673272990989392744963857214412908487064480704661630671832626973018955052261750367044376560638608975474809199526394403536046543998237735619024650269312958914022210598873408816322256258686174453244115894930355509977482474151507373411947573337355652762741851916424514620104987826294536895088446232117635800351184183592675986429712813985384144690969171907995167404678189358750274435035511807996777624987062847592913272616884488849391411287453205724835916236067416163446388013123511612633214157350735873789089864603319101047904951088053276243634380195320531364134355459364704198439973273192818302576008576753025832169671464683435884003914203707242670826017616253390298986,
  71526756221981306035295948446464040396885600648176610903305607906503876896844673169485434389183689353793341689876461040506024109359855532664312999759390263679696925137693692615910228511721654148892157262235977366770146398458552104707476388972254902217955783473853630081933437898874815680276975999495121254415702713764902775150787799491095614895742622739879403322128257532457845619552714971773748923110717580044852610875339714409334236416700073947476053387663802542958635529369130347698689906133362459084735380529991695237406505765703934901547390655652892580819446962840122139245511198760380740566099410523116436019256847220532851072587588370887878354074617797601531730495005829381247505250302170023610957367090784022351162225972381301444079847918133032105443244311027197910059137380934837758636139977194367200655924569938147027619184666121180429617186652831069577660924377161598315124593617280103901636552046619370925251253631396559201177821427680194280476586534858158747031199267709791335049110720516524324623125383157448751295415603552750263679614546109344416853,
  57810273138996999546867343518103443255259516930023300505925727997815904820223589052604792034825075042171734554664253125285259478440684213337897972455998381452902491341277243424509717951186446150628152839286502372129264368408132689423169315188818953852681800476310307780389924412151871985827222544989996778751458791602397076666044133305940017725196828827618138902540142141154032221880752214931387303943894838634880488587257312960544022675401194443442712395569023790715007138610641985838887956880548633517280844464472481327723859561052130130910151062642932763162472228598525710263715946299940132265505188044657398980037754421846299791933040060517616187986026555760768914956796240330209203533823006419857512128054908768126499986629682021600839357742569239001450967655189683001149858039500662463386168022550668707591274831975300014554060154119807841134948294656806017074182194482694202914591931179729442535235139331011218688316780023266376919519389893049565596364430499826362332222131737958633752729015980267624382084908943642831249679621625001635299668930446258458041,
  67249071090414279544743227764055860644979937748159790612922202930619833526180042611796654967580548290181068947372216120265716263043635302282129337245083943534370967854324380583128895052786635657171288036985284548714950798562466555779317050790289986859714364593077973507014015227544766934198239263898929453534319021801693875850287786879702046168231973519928076697586512760646823839169601486711150096038459388200510615266462562727086373994715025771810723089620436264155255715212790458354295905910120518508605199833582952027644524251235773515361451329122133578341196718707585660635000297664587218996568468098354225556797699786152958316206574320737210996844061946085275213997207746028379618294067782659809969835866089743865103656242556250842354354563015121971111673283365507058324791727356514276941098498635706661880252843453611977423490001604109135980658253251047772348737585884666978580299992241973665041155119628160047321576507005166289845399637919414471961275368496384841840783539219495160760752984767084138274604403017707579996667675686125361051400391716817256780,
  50138978371865837968976150172098480602272151208763671116355293561961304020927396418528693604726513966875563040087535856868313141286860922825551242269595679930350249011366770936403499037484587419891089018945705198578124784403575786713931970855498938099970654105791690209598897498738447272613724351806561649931638973511197033103939780409280947997343377265021224971434098237823651965892886279223277990394182050685698376711662377215144120227663379491737437342283179727940119374539049057971446171836025673221405521946218628591454389656234024894537981195596496870707302186078051319309467852848444202128432499307154135644230793862725265852084922694843993948530535272706823358639486081705774075169738521202106289594177160792541306991346081438246328669352312659073430366809538595608450167393229096542828854097863778722182590727434195646611659593408713448120299579604000576414684856384192084025832685521237954962489115862600940098765413585870619251136537194814860857107708376020972374659553114403073394942348448615252372266625317209081622694000211227591834255298281689971968,
  76101438519190128988074242805283555533252325715485875614477520119468011155094405429657310193621595918758219482207475615307833480300854994330873982134027070003112858879279673962736609207126971151381953771554641063374555849196316917552555991892240897978331242735453841796027845958986470600952841808664677110946415984315000959749470220759587493696093489235131553087952267531922887519326905699269590112428008437808975802237272111281427715809215786190314382328222158431197363867972722768495813632814701827652361699870383165480571461752017797801074900520098622253867134378987984881044503027177386068210671823485666103281598409185714908477074125773721529623628951428193949344923100247552946876881422826882633819921070500314822969078127068502360967952456156317625378443908683885454717662505486886145388589401906509184101588520883369612987731672752691975623864276095136945838426185218338957051864132632025229313913483808212879643388136298455390423731285738559006232871979159091218171033492088287365725960067510345169173034840664773124728536498697032255058028512103145813971,
  65500540219991258467124752296233047947620417483573396512933884625986054669020687274310798920093600862996258526495569263422443490758898712075405572391778889837474006283110359893639753683143163791553508445994998151790357191664595797264053563579622852232320999562529072956596862566647611821743688936552658420973588048382356327038462917410427463403276404424721791963389233300452352920028757301356303821117289713316943637220617508581520290849724636905566762892184262651781976519538524643036425620321295916089585335981540706502452521657088226438896955320033071238601771994269799874271196603530485283581844146085491345064443171308666656732474479432280547339137606275818904283656586598954664885617098590233571893647110221915544801416081086328652657202503734779658698028969756875969566551715729978174149125519450833779497446698060268643181523422924316776326510155053746777092041564764624751249672301142884839539706060560724653142273218895838355013985022479806163823494536612899404093559178092658682360641984947863949273925514675962185564843402871639984241656407922432049921,
  51935270942749255097209837640554799507636962370089615853142082854978064406575694610740124283011677091754088048806266575048744970010064481728170337185716876990520504312691267589423546424263219268161260713525593779984687684876663746373708483091302303187597551925243991782626402799661636709436911253008628435029788667148387735570095408509510925426723708716285087204991001466660693435254396813242277505204120843117783620864259137414037018939058491308853076718033777597798154504060045084281692653954942424173439682579794296332233121321810780129321979360275038885263104587257887904993301724937169929033635452907496514640560912754875288157487485046656478815713364324270157712065088264725709115452935541510645510350947107201788001792464135972138429948710459775527984274506977426564148834068300809230546462603894832672239604062464659457420252210842881282668896752789802434682655789626562663797453689109293468920924841097023571316275330238902076986731432584276094818388124585758734014097068671895618131122294700219784482415815445098198891529424289069346605626079565664394339,
  34279983588235711675751163292556214994709518352233124581091315865577359175847036941484881503863264098660524416089944214237244673185768540526164596080359046160459477472320562878910886992342019575526455549151862881037098556289818492084536281760741755782246663879072604677554834517443481890496880563765032503535926271374514988624054829562473693334496233090273911370810584071237265540394440666165466698127940161174380314425458361131387001800510642225047421267495399707590971527103141655363347732005496354914667194992566437711135196471224844213383344829914740191692970978273304820965702365744166216404138597571994011075505481383567509753677020862148022476905759312845796120520106065272215959974558956392927416101354477714866027222280787891903104933048606423488894126536509198046804726679290797077022905020257671384436845815634829002226658722453892420758678126480742598431037231448350739349163285687087989353089830355384383950079707801508993166772121535578504768244806681206008160925249005506560688200539439752940429777997773909548121823388281599786284393448937918615556]

def rows7 : List Nat := [
  38458479425929894905438450373697647333225685242402160195904472401639944492589154522209473819728573560814162944201208296923421367519056921053373592377816006656687636414636657904357378244366516685104935195776579079193354900542453748362582641051684378644502959183589839644056859368882636863710502768783853127777056659956030015723582371471547219056714260143368796646843649143949995727221505804289921810098950799344944214199021446892553928676917510398246758246373438052397350830280687187344606418762993203121704070483046129164263198208628507869517290189970014342896826244178078191626441719504450757666856324245674581755185913604359995857459882503553846674132820452537010805090235114840481953058880641604082355235129412814048454488103708569426260002716392301008603721424248429126495719569873219052427563394901622464546259347456703005672837508467249825279836734956177089836516547827889426186105183276920850360362178003391524933714844455014157911625050689091071382758022446505098609868832767797118325793918716216767883562241988675386839315756589776865201639452827388674406,
  51787566006894982173557480744432557759069273637848180513357096270189715205890970811986200522767934991330405828456720358566472410588945530875223646183843964025960112548528766088662848307636012870066672280267000361494230261254165504582961699316384370582967507053229269109161196749361273729163120586368847905250952735154380622219327300289599240793907443857366909352949258689440107342217802437077152816124253190882271732715433823740147454362184333256802959940771301498332370451096996545320274533507021770370706113819105163588030747477081980826531951055240343461890804087728558871026191299109229595088225181920585188744198634862518824566545078032953634810263484330308372418113655627830193910161835174032238450979146875216238771442392232324557636410797470012553983247122601905304886666493332284863290538086835170964354044025686679116884443421694025177269167200542365879524586487291931941963983705910834659556545737455427472252563872049196484680456121634675557800183911458050720291040917746197882965048612355528726975520004238203818320764255364096320893392454496759815230,
  92151894730501978535100152995735305428112836484236594743595960959569801620275302395941995334462820826497923607942188680411060241587415085751945806156888083430185412537819545969741423677874187066721584275223193527707018877628030323374028626604207305052378520354210425772442559140427008749076435248269386810716376693073037272374171754245852247735758270295996649854102311510138743237047991591787902994485501682558654515388125485742541460429120123228556148895327177172401226279944108268691399729874382556815811126238732626104264249191467303139324078996737861432904142084411467415351674268973370321906902874770602008842219032125165528911717385674777311366153734391751962707954921617093780054340457873789689579406584026092226706663974706474619148511446524438074152055212868620200671723263684717967231549153359492453428928874859317664269936209673407497745053070568431410133263287775921305762314700874373845076260305875774978732420714066513617994956945601081928431937367328417989351895954235197022893472976977104975358649956731850469509873966280139531524733606745957465367,
  34225096595010987669623734140606839350348198382718211868440601761576560254701139537357267834526945596079177094497172723469473343678038722377574791686895552041362153801428254867377695283703841427934004400130568978355622798607136070596604468533433322470819960517276152201080667106523795019070974937418216335299386518917007788988347636092361880526906006408280797134349789427595928872026107851555411239737304609759231788346880725383510590800218660449028979118967259367552139647290685797350736757182169740366706989613457874506109712035014795653751641661531216473254416789277507245943628192382562336298103756532891328239232227250679417094691318566996226763008474933294923772482025168055066631619903457800502962160950971278313497549748497080750146928617797205392087735573542634465404691750787836297830371222126344995376045870682546656732927753972286036781924732607587537503639605557551524704479046892790074174408099162153535237955159316825039170841157338947214833770587893695415348273160717030232024929094546655312055250126322531741427372940893582323130414035967091049257,
  18383520195357751110303018937387366729568834759002804669015028041569220627941078976828096269661012137488119556311967779804681249306478374053162747606283458684716459438243677534276082695576532344276053399712987080520898985614420659347221575351357313531509643256863269976011816768872330904784738782610883002718765026082629252331944769099404167002640065555971369918146697911356778065745105729647119638264380698960233881135307214985853687086285871789268796297801608941639363012094163552302777342996301526343577512504135198341187362058334547311853807457268433720690522085625501050610093794285614047418455921179339272708597251152880056940280536141144924020924620879487418362248544537016734793590201500699089471119500954771699606451569340980957608723061167985930544742494585592763754265507909850782622745241428056419619579470161814101885939670292884088175071326949126451479245871388347220957012545376287115461358447101311323201495490944640147600030237632857171395365471490013555869633069258112640479200531728092117912870096788138937329594906876916230917822286435333405933,
  96791602428932748444663155945748561132045178306464916622418132462957675091859029883332306551450236294043474054925561176422160938847117341895740719985035273669869338669851702573938066023027910628085352549353166194585293885401347619818297901927026997553976270972133207752142888313638279403779548104363968462169524948229844322968969208533555308531740953971002744873252835275736247945801278044550361060645585780357362625255636064773490568638324600588264572996728670647068819718804899591820953876986724126105812313371883281538730532406351716048837318634831944878552453402131059605432697873627899027362358152686677286484137632175406689989734882611860180029360022362615884959038938183834781502164731089138369537380868316436990879808593012837352876220600536227587287679465791680576358143240925305502388654829492572512760977104308414241327149223014555024915380116515701072599196608891033445877802018420198687255798348589279411579165489841807965598165292440028600089283308995984612515413473641247553705658072496073372896863956551034497585830017188013929340815934657740749168,
  73140199038284277122623332446058875673983859350076951311855631684573838655512292940803068422036256724591811386063504801552261670635649642867323459656693799243587293291166884983936420697970390191593194559703612592627063708371713607972229244838973659949263221859430952934455170540094592748703284351993881402670859152894963595076363807323470534623093244150957569185048089195717391916531000241571429356686909706755384850261080407434064574263428325221102071034503745383407217192728609307970908786402740375603419620326095180233319446604704393480054063586910294183143819807662636922920151962674547889054873008533422088159740328925356782478045723448555663884299365178593815428714734705407762504079807108683257127209659524702809312984905979030619675080599444217988506983161096380431857573493208970279214433939134282900983890292760099810349716753400553502665754851358206981718943173652187372727038665243420592696839958587716580753629304917458210275330126702362227330521370927475754927540322486653632392842887880718119434477544394315746337377421905144626384014838452230601326,
  36502788451471704790583180583489408569494249944151554838633423772040699601933580313753449760284449951541090113815606641323294310535403566334982500900534136214959747529802823984619728367006210584613977815827467657982601784729657646395894187742496331695884228391191590565640228193496801758163840139429208142088204546902994637652059988197831754480127119965562213173244271608021931664460718450670245160461201179763827239211348339438798962905840179686360943255300650628889732392513616327023907523959826534893994680658059487686462751410940649931153419873217299143125910097771886869455712444493582861381259764637551134279845737620234356256898312253042059021490709996741603215467075388165029658639915531513429055133316532483088503470195490556744841010321876589956758394558238286883108141862835473194755252747115754025434804661774803878685983787156949134278530829472887354120431902320905952954328610661326976076266926611352114662527698412773408524191382685828095507583757875182944195381669964759338058109744197040887688325257374385618259110897501964314793725720708094058960,
  55397098285800445563078599861108297845198039988230941625098680263516282280756081650704834896441683618365946329769197332664504433270265296440733260835948712972056368036299922692205555021936131309439292561689825893809531154348132895184916542872546286351978103023730034903799179307688612204532651318101381689879195678466786614433105801438125991279141588766717029067599907122292817274527854431917637751864885446905521418294754607553734560608556346420396176670957528745494901204660351964636873577292974282347505496786544592736062760898924697824189071366910300926678191303055919511695693178319754079624033842110466446524045818686393260964635303347112921315436957144220672372701903216128316366068353535914027988526095314744197670576401090753060472138657067665499726561399562590818508530304555928407614124652218099654353071631850748864789331371598040191058010242554171356618961206011069761203387121769536277481470240462879594479656892916665615162911773694618494617768316635945285117164140087961096558671942116381654578935594374741659601910402650699653760891088490540908807,
  66242236244525313285217856872117107507287258024370274958356646245635139772059647787347672137096977874372222228544415051625814759001600103498734216428737941520917280874385287068745299675850634623615656838065684685866591288392993987491928045097599357621915303453396402416281637564573379859690128292741879627625038064030579982239393509589219952785102916463804783293620919278040771504187300689178573817825379312653226956429848057505704338593699343393456044962325937243304357667147711664262056671619377737577018204936159782065517759604455742714015958506242086143202210279470032864409749853119493397220525601724380678398080630198033038714010823737020217802399919659484742081004162463139998938726781296983713965334369780639466764286002415282487378563941292793538360770760830075008546883668496834473813800019480999463927939725480926175571232307228799147294996278293181211799953119139336829142170800391710839203996253246571242671148076218732388866302732632605102274855876858248299627378563037502052629488316960894901291631372634885804981924875455352488732623943936750450165,
  47689340206821458565566171050775119437380589413425696041313947581919706682302632423409024450540958834108768898805836001905800856199491033238845013313960419454688283590614806279170274255056983630386819040807698607465088442367761705462260845439722219403554202652033104455269007046882774582145696636674469994288417347114807023479517943077836152757400116754238104978226516996793270179099132535969256413102120317675960263679551086925989193605152931611639993790605221621826257344736334202630750572642522552550069625037213380532448446537714971705777121738555021403641091178389721417976354731764860997323702087657166232862736406666652522444844237047431260270194052932539203881245611678392260714780011957184750455611615250384482208269186674529500194547955474267031195338846336750475341192430517289055830639606427300931789903397134393158405916100858639382213820227170819247577821001503916384866601709081390913595334061901462690424095680526240107056477766184073651996598312015914861912479104532820849003769623579045204928147481448465817268742916011125678009811772691222090702,
  37851486611243714459198466857630947375120942433520044650532973912516708301825542971302260674660980052603919627557983895090692431900473756401836074549348591017944755771628631505548876102867291818675864766444786596278272940399932099053354969138475743042203580266820050183524856515170342099431107260374750821643495885414321045735574198011829400651638459077831309473009929939541827181805997731995522537656235226168798804828472031495890625696894424278407617197478521211170867529446036705335557033361952699406435233081909574370804656078412350061934156495100497331738362040042273443789157896534958611591918135897244495607070322322782801579148558088663267009240423420313927164689630137056221855039903462294679176978329701524127573584580130897595258639855021546367705090070332907975583265256973309925199423352342674324526287834348780393209901478697413172811254964459042777973691266877075337938105295979219560094519647245214566447811294088842597399502289315673204890035956531488181813352488448698694800612536474277550005042040462103442555588086621442523793246458613086709152,
  61439688781633677349695124090077391672641409412421645618536462085838052194808988737746342851400043979235067024246706670697307923553229765566845704762902563225978319618333972491546952552514351434797307250589853935034414301037276933082870107555261221323794891532424850154784570097745683673957064624532316783427160599513253350384476461804529889100892576142364568920937121623357779190101698527465074331339403860558383560512529911464752510497400839238188040952466569782190675007745127340413746948598903243038421773757608092588363984942852491661239742134030663996839945731531459218956185429736941639291274586602149193256062908354788945387058909910287768426344909242758195382277154455075508282078488360093885750407133806431446435106635772542001072151282148738012783255219477266669643519639951388097664532433272355768426415313809782298046321315377462523540429060358017056192744688484775984917808674554983296585195346162001081254224267667244659198500373724670009453141832851380224433867264250159567592114147496245184912047206467560940593359887917979059001367488538645068696,
  20656149908349682257856811345564839572728890376856473485870278747092443784170154003374569827482324692217767073805998507558616687137871868309680967655837021661114077220785221064026826988873072896051684378352036740225003301294220879972807335520332084982518794763661742905528375912856416497413728193651143325413215966544797508896637844058341384482455733859312236750877569174580777066637614313837033604334586746501571999949357092631498313539476010997460000053765814494573326745861063304932150297383939354427370993864150604817313381076058253094394198785753236572332304795924957505802346554857601740783004076489467682586409510388043743992695534150692609552099668496362196097541990256689273001830398841155263548758410191862585651958949917543670137752629621235562608907598144724510634531684374203926963412512254942553244660392238541492180254748828765753640669566568544990494814915280503825352855646720044252289431463574597056054132111347761834591435006804097516578939671178548516522920677835710752551395314528231222460774326485780214710696712582490549532520029801187432980,
  38560982084749878105162425738536217494683456079440138680427259737217799597613484926836925904945447285453485554767285509262696633351543953191992620902229011791650354053205354155732396286587788501001210509448364369355456565298702510427337311270368643270185393046229863901849849779085270466381007410606419934676834879214901823792623153577676004525398309488349953129731567381103576713809506026898810326066044317643550299533074351217835363742263073089411890983341196386055152202496844393942530531427282384519772446016604039958354727913725799487690563099638920470629376050565218205421345799773554893538368033652820760812514894362469001742501483694891032497863941911460054023062161855699086102467315486460988020278107347373777049188343981529606960617171547709155804539147213794488630702751062591007953739995139486174490302297892181523395588210157649640209459194090016061165874111119807343351033819020401202992932403144329877164721941875892567634592321990922901557239337288860713694061776164509345671522804998274750927830263599319816399168556260449567993519483203844703965,
  989985380112658613333794775521303288916197879337327684474132831621538213505022329824795198558425306440627327567040485421579537173343830136579227169765815254227253190269172158356347906550143393222118454577433731865452718559410210622948825204347308783812222983168723577837337344515599482329233926957892944799824200949392664270739432327471320097160347570744107285030796303907572702838050209591617550700050166277924293181245052386723996858519317795903884046755651332557582149431535179594987901759399540186995861620669715389333257560018092077957850127158525013243702679838153216831510588027374558939822516507965568067405529335804164586928523165289250624410345072547517466969576647599120655684798317788386244416469541919134116638313595094269840789705549465807294598318386546217752106311455104336335366177573050374063429208912775022362094183093820379420494301832564881514621747314953122724966519403326669465481748253417252291247497051146161600542818805403541989472345725590790141985182981481459902714051432660710262296349194812593421453378987245830976048618886695851303,
  90729173392077225689609836520912793114821797475064465597613403875759224022396034735708491833781121498925829532335444378531833361017437217127075561619143805327266024494866847503438075251839224592395717830234714190223503503807941127277487289504002308047407224556001247620731599212504578861913386499033912685147243309106085594366056248486764753301033636598577489631546413465281763741261581100781736701249544796541160122490093946034993309994023927494381350400802944899168793936676108675503546923865708941470394616477845589307011895036016968430078158866532913562055689169725157812754395541621519521053001313362218719381457197443546784636798831874133330551292210015747304782227473543623380608200983366453685586892563315746920243151683123406729773141705079853683002114655362735781206338697324687906485958758167228676488743765465044904838056518022973211179540565437944615042021563406645608062174908344929657888829537930350472608621682320154984933606588503695960666607613634125466771426576696693825333353829686677801855476375874137561497408516836293864444543728252821275965,
  73341880697804038637562432135935333827691436403187220519444882699899867804379050317265195333242884761680065162980299075023247883443424065678288128860769637406496025630715656767505203705308391361662839216418450982844674305122844423983346413015302739217504201192661457275082813903767336357639254460529716017653757738989469139770671718421230296681287204971364532552899308640123305232260540816113878892531948786172327631527480204769970108414222399792911010289569196329428033277083535253890351431858828631937429265422212927628526004225453979981005955366783999892392918091503877736140092815308194078606647484238225957635285178492414744484368434252066821565966919769728805736670362156355124994436122668933058039480454627750978873567271612375825713839139410872431955195160533765155558925355182697971475606689317353105319152122983591730230267583927416493142243938974431008744911962224480737158524947552758284137168733885684513971935717435137665104895239029017063092712264684066927834839988628595942396793645641735587184019901875725463460676207062627896232203480537183635179,
  46910877638519911078379366902264789614265281989949894409583646926514431656582124717920789203351405936678284940177989652979815054754358031775856225586906101230234010936129553535763584329974630792884081670233667889701281459588474281994287498661437711859701046078611831222856749469131900448256430282620072487875253943979012522035179906701088644441733329427038504777629594843814990998912625348880022470112685386605943766222703650826722123222351572550376503854095253101757586873383531199693602416600396509280727438071375470484844568868489196872123109819909873074795320541401039597361969675230524421640561900526742759939791372686862785354305517912575047157660184923718223934849391969295394499883801965726625036517574940331196959794117212576237138316511479626055791784402781881225538340896398270497890725743044303341179108109059950541712207737379747750303681258203099584411948679998579401117139332423952627036199270637724170339781113332382715682773420147905472616543401932267144218019610533705026333742731904551879487134852498626682222111113189144557622104228983473903499,
  81259778110809013186425670889103674298030491363651421324982033989238262331145775400763163825126866684850315841111141155886426790721346040922170507459824720702455243140352011956531392458331009142536349587897907439371365970955272555666600702420283910074594624663130745446751130599377751204119280556497291512349150553278102298643060840537644098917444310769987172760038151634428606521830692100917992794170931936294247745806817335335970175989328603148532015687697915652124189670040309591727757081603018694597140799824436333287543192214073599695262683038565958452089565549778101327453943408643865269541406604205250151308378086645729974925690376170930028161622503187003032737144860512516407239007008823823906811473995804355590351241221823298274366777890385385862391814781588353258137893191305164723901590515007329258274620428914392667534952154942924092785612941425869372951468931427054442270009324161093344478176261888491644169256081359077579447386206015924040120633749989542529116340952448531423182474586867921351026966287517052106460784704974666154518814151035167349815,
  78308880506290252472784913288358585719687703163300975539049048845664489746888824842250422741076906915478241586198518421957909459139269455393497074170826012991361372933199089961244761127027704388927170172348861763196368502467208266987608481975265151178468397433083172604878540303329427864436091148976287974130203367539268931859458016183291794401009583249805875064583664127695292859826577033300623458265495553231665323056373735121952849214896392942381059559822709275997303299473750568744987281293470260662447761583466617049162697571797587242929114187975074878217153341997452680557322560031417046342203189757820773023738624697850416509797584452716458522043551397592875295089546522806626969434499014880200418118642039774220404270266955446032990925495943520252796488734580054345846849452975353915837929113057037617736633757952397710873933795473321185487906192685422400839536103687789915221045210650200380051808347709316151054412972685089966422824644897764232319476756024380976946310016887760572567989369280086502487446760824545957501328381000122974730565399913766112760,
  67858345129580303840502530416631173982221137922074743939663003407049607643288219873398773338028597936098215354655910072431709715706097105968688690664790679515081011519705136357516361120759637386375738584999837864530579030443943012950410974378372747321582107022267675703966141860877443969096247776142982681257255182073821062914291792898257797002330749298885823539931935639425268061948642067083324510468170670405542134187651641921977618868029589218724367391297929670217002604707954075998806965382947068262947500799209178054501087213183671030214034123993988674101404729131764442090801109198035244321133365358285271828432623672503700241162594822559744880831760673701548562891186654465504563052137790450573281851201979665409430270049744632546121224141128329366437940321984479276656109271707635594012205535902446730707378406810891604840226316131653788226130623476493228155229195223409251839601714955706253393019190674597189900776543585394537305708587673393775225561887590862665572607148136026843048094633781089487053325334693152865228184850150399380033663878973389341128,
  84345773523321999762575438761947829060841049231708697927266856501771784535760144406871716869009528068034318933563042709727787065088633337297031001593202232479700410181494676461336968844790945361149017446298974932300375802531917695505241625006552842611437307622654208268221345946753703366218421816566443477572096300136885151459679472036012139399463261145414446827526486615867566816023239217047451257013486590616430860058855687920847833606246304195846417470830336606533005342062042836863188883242668160351752140074640269007587610894794635150844959617000501827708966824263274755293913446482687560096276222425072962721883787469558539680869873126892374812698135012870259485298709385372271299505563015937166285821886591605207403805726033045131972167929147718675630529355727688239029226621973058048731140117530813389217011861801173372514366353087565734208941704807219335988747973642686198794102854212952941043654806166646656095350681267986083772342685220615877477450454408597241235728136293950248772132291814474603528240905004010177366269864170218167035181897467051204279,
  60543666279452174941485648640342337595905490601360969309168410629163679468923218912091274019517061803872122843070879607731137254413060541729899505483788277270466638641911377988697406327767999608103275565628709067701614858118516715255720673109259432660248555938871841243042256167746151083897288342422589148505084729051760618997775830070656525208474082088421733739107673981148807733322016588911410051585422388406367286567250897128850384529403162918837144537878661305400091705011115471854363558310332072119813348586311534236019202937183043526169084401955004814506589376871523847124185820705644135304874205156145120866680968865536473070145171155583996458356780034909490393274451441177991637963103382544506126729662982076892834738348275637617138396079392508938287519388908374248283953342256640130058887766579178359774040670750177108719391145784682542500121104011567813812956625725510917646036596778057996130862820011501251679248494760484988420373339395434686685902354575230954073815304116759191964033950082322121220319485821924434755293375301739351818146692053006768354,
  98326089762673603011784585548752703073220035324122391029670664816719559254532213478249740250027027480599816837621411818338760834879258098138151661604146420807520205374549580130513552975387831795560660953452750289995284305259958631497799031259959268523867599757644136022576047065119871932352626491081301935915996762477542005468332913608093323184530910326642695702736368861586841986355898696621612636942346269870652951646036590889776309436953289214971802597126310791986342343368337985427815924375361059523136767058842514726866925962255623338825444915338951480780353160096236272362629321093838121344292596168977607129610965328581263856352840691870726909508719908487588059768061543438498330786223732995053859544652872580091738482163952476186691942844092020325285863597342736521084177924065337699487091904006536284002657991027808588169428112419867803212676611908212068769439025689831855029507358136283325881329349787561199657064770323354601359330157371869985275952788401552313044666467007044570167374730294477842583797133957981023419274301141663356310472002062303466720,
  4347363362091860740637938741083779837265910226226628166836817461450888105867940209169623707026722707855670246696621523592324890655654114232165300123066831581370950117516497474177077104786711442312703082596497028065230972652259535026093760320464181040128257029715290996630179728749671607818738643460436560312600913080199055913449698243059810448121422323919883233051748761776106038024224869336078269834879905318712019365657188113798828547000366180337646164180800562110656657135445738035572162702066987066596116302669281335128597234227347404355045030184366157059758602591897297176293782075851521436630058441375435301528736386393755920249401991229614783120533902040215249571623751771392074048121632069561687837440675142766118193570409262254428125724467479356699022400016162793569997737936222932889951096671881472547244744233245083281611358850626177813475226377416689306796189069817385426207116834520208661722554021513152030142615363529241762488724019384328470314533568553211634603241191096900498066163653704830044010118129186561089746980695576919135851555938337915890,
  67981878573696873349166531702934832744826234967893671344072677226840840390785044733709169016194834174928447685766055823894997626657072609591728102611237088220424048967417981761059712165243418987697325405183576390689675246430494598140399601983368186282170586073372014699356972850002318515413576999413002897984546387206092599165675004257455772138558216066238188184326085590864884230577290245837548332719465922189060822557719303102442845088023804118245874545954059911879389866524346777606716241118610010104090734913030671369690732159434848129745453214650616117015870792378267767522436635663919196042731264289021440187347592854707425670344996917675233598478138865565705899983318601234615036475938171158603856970478924993590444127976041889820913034833021495306782619690302406082509918409496241117147501936682547196684447339851530387850051106979020064973535455938575707883336768892461107934627144419802729030596670946542694668000365572482505385372657003464552984375485605766436548468959198703255509085909374209804862413099267432372863561176180971636873658852587542928998,
  68407066740913105233311691390175906117790840555041040973012675087716768600432640471731730874894457953682806516682884188097638768775167722540150700393369379883713582313675501585287524033755398687094783975615794630852599146212072385609522922010241942264365500964372816212365929564921203419310855804805792520705609707331100361087257336551244363974172687751532206542256393391424987919220299243040151353261830425163982175998799403271770630652960196594660331660919322521397851742027560453282255800911070557016085197780657101431630121188091255806498603094804914667610772074550263450695615815328307044196446264440197895304167380833292384654515372513331684033152563896589471100879881182953236468004613394537670149121770428219428285050662218846305088040978357011532665491625524952638509627579674947577160349234735962801761556267439062330347004453811940952869755093858067970266114568484484630899149431515248817802441697409989060390843944185025304735724693730561618537934068829460142540221142337313972408574494586237761932255185568911036463768407051600360614064357081184779777,
  4059956412001046014130008907880893775952957450476550390531835991468545540757025419445358817282302171840873401560659477066982172966386591321277165192516662912421600260824045564181828242071555930414128479212381485951448399656715057646027136104073454888170722718008329681401203966223752409176259305011964574375389928646189021874107501694155173074879655579434122134018619457111141451434767911050873858437954322814623925103215251780610220029850611715115229246844062336709270892264532410781786234930020364861529930701368469705066369587621303871918496736262861287731353077213166220888069011784522319949365322724431774790440805210124268282757760576852072110323533635517332228465853855790725929976584978688690119345292746422752555850487824174159627743927269508630037391972324328096423320985806746974551157236703879559324457584531226002395645186342413700109861502651950965012763338281967365976435594000089837050721922683756253424579642152081415381403528342327457452821886539984540277441222545229422654145010246288388525706463919904127385863747237719701816615015593065525804,
  2449092982449535013277809532564263426263432798995168669229691978769462307638213428791853401663826586138981055665067401063420828539478180020453642269679016347991779681426970196243141837017933239208206963911456865343575178937024664269595259600654326091604270903277334124879376220897854569431847419434510620397466555147205617061019461222686681596904838394290430992831677354144429372219257639217779234223773397148488181910169982018278621131812845363263984386215655096776531988541783185586741582390043053451170737372867280188233545785306959967788067417964300979384132540544812380831903058654085153227854231354283742353758721688236322055070652706495251356963675212104632064184322393563779520998965454720016968351074307701939884197870709476949874864200855470745726706021712740956692665431438337769024013142789997756778724179571357223060632305238563514763132557264467597733776986284175094033938121692142673563864623543402066943063507513940274428897658237003075649301065734518698212694757885041191961361046093431644074153374395772435885256502313780947543195773054518785207,
  20986386116227304334532958754748551273383279722191850350478718978842492871068961821089941715867761208380151618886514540012858597164630136449651605514938227928344490837674328198921142910431061110868692165527920798201649329374581342150765511878489276738254879351178323516112085517841083762117528150078518547781860767942864148432332331910972668500329341289140458582044315576107787857625774238384899315723739598381106078124677863585568996527368845240942528704596435920760579346684324145325596356248748821179120818397034784641754929142248619881698358368191292319024071712957000768746334505854605361897413652911487487882667012766317504121007203157810889243766403677309117553090409281711961362105392341387334225937678768526257135122434134824492437863318852768275374310490354455242143571369313856402904000656993625368177991878558718447307705825297435057486641270846544260384727445331835298489368389889780828901862307448404708449085284940303943429554638527408547590152688160003747725228117811611574237139819507406741753431841463505443424383574519248611580880039606683439401,
  90898737819244040021983228452076515479211369255074787416583660242218546219464307751521861355815198875404635517614095905437385700525013580939048596721620216069844161569078771684068127414376614091118139631085599151661481079544515324959921366825499632712373562568414745414312312060488195654935028235797994376777571835665900690204179933690917282410490623132712442494160142851609628077906360383358414199270915422768425817749922199305725803259512377120129944248407012279686794447341806792582657934958914767888378915440932631656700608894731093256105619880308605486520877456454524748535315405011168124284749579043721594155394367029071257786536897542289496401161850244371314084346303543580647721271143504313625484386609243615500319651085500509071583370415025568891024584004181933520252124498457167679255682218023266396231570964589079686994941373432621181495473897856248821720105582789845333331365484894508887856751904044595926531952158119244898113529022134550383565982719369493176565781867600470077316918164550341947667743801815903330993025665956668060102509265301151501606,
  22468616389719309021432141704002191457726858407865209722168098063403409743086907298822309751951983100298612670489081778827687757961178330223290184600190716087476842315224050774360779330699714208266188407940469258063274247275041565742546714723309962603957286538590552888005911222577468976219282389040655521371974945223212768338451551457684661127766882078834758858600648865735763165275569994119108346614456186706812749463392864273661511558912240868597078927007503394219875836535973430041069559226761035533059931059176312793511629714079606501253293619401366506307941570050211188043581494533791320858732548430463659635754453470236895764075477044155714931768679302277753119882184837301911786289306940111589359951274829912053068129551929824938272147795541012944377345175642511716526216166999185835646874649357924097724551332802362936675709907697852514226641191193585434501374096079376005086552834228065726478022042061307951699639533247616622891546684694096914515252563415426976727096542892366968403192535094906738450902029724318091231270182551951383460029378821762077676,
  61470179105698709532770660030841618105920658748656005148395218482499254325485613250858519743641707255380319640692807156322132217334545187661557552639031833939656842002946070111912900374032234397670106259189549411081661777562192162312113709031397199510930006010300715333345290159788935879859588478418005253796008798347110926578754895419075386106622018995978954059343787394706384236767750218336928872866052783454452202405805711362960075974665197771111263096946950342384651053143366709511076068629058782907882208713346420036439036633298098850085133781496316618857710806631255804432420769864751221658236162083468148414083152527539605062706669652630190259384874403412660635747377192472521516522939406695524534224812999183265659442375912055988200472864204206707422287275907409713982157237963214549916729673080286486448406832219033684902698992971020092041186578702517859183575055270334768877563858546273960750997614740057219289818296672620120311458260815855382692225101382561102542944306796243640089978100544006780213427670764254992593671010228467486622594117529405166755,
  58186269417505939971153767539966509833016157369709227005573096959556492723851825757875534178887526397885559646244749232640748216285423380363359493748995268060167541421978835090237310576875032819182590521253318493183061007022026785805278515630243241955539385657113306225224623414797114479325789937362652202228457992303460117710415744094124681972950029114139867615503525998194807352391545285811182229818156494479275635533223506290496237602188857729408189351450563943338935339776554563408665552826581360008164633345254494845059555667051631077088725052066260225605736292144516747211388601691629300542051242064155552724019455873595097526255337290938999075288085242342552687896232612745355757808171530910245963535539481476277196916419842611182758862589058043661548756206816374340800476001644198438029373414682867771761604142854126064256415809374396159129242713631367317761244589933859177730611332988466552457482834925231194587069989123810600838202270265985625763339190336729400012642906996683842381794361274698665931896190453222232936031663296014943687182809327430491523,
  89322562551911147300753148128807206426842226981136185520154479808760107287609450269249454061487952597780986360069669101377814123490020686919838926415376722551768749515204014883031204113020227806459645894805871377996768873493918703798214391672064590869651897225691698509990310203096657363301877215791078781426445725617411584185877699635635291576611517161175561912146377213801136522636271278503521453330658424042719346570805618056428626998831932727372468508080637253458677431435647134329913610845871145670176806024156398745240385833637939835633934944595030714427694213921659335151610028068260018621710802758990916345462460226985867174542310977297306019504557502121786672926863366512580710505001747213369207269807192779063301291903342918220130117130206861246373615361763948055611226790359599834582073680303215605083664016691546402608726050665198490757496212963311920460864247010599662752040679908521111887393952622217171839456743584366250259407567787455206883177021018226392892933319946189556214339398753777418233490776385599354008719353215578106343492646921668019730,
  69587793471722254480791181111963926392764800123517725719274788305783971136690606455254331919032228919360954971843249100904540662729238502740563383854859018826814943584364584398026261111617176584281609795765250678761179511632399263517003261953415092975005534048866409658351916597949193508634882192615981448436924375455651122041948055268230753324769740884727787435452359272108804052625835368689199319844609897160844674263673591680055284786340626912717217317175606167717146347556161980788439031135847771642605104747457663614383208549936721974573997978665227750353980618914088883859093213743752720336230257877956104729285638608513091577846496000873633392031048977816919904548372115769326147221016937339567708656913761110869153278354055689486050710822954248091805580809585284066735287814803865380214664675714389654758086043451295539355130958693211086299311106058399394249657601065749524026449463655244424073059903652849089666480404679455176056890276317171918768727725748903365671778563823216530569212911505032641281573270750113835519789309408910748803426109088274141371,
  19409123094371678696136360724776571046234861504060685470464577187891660382140143475097305369103110844079695504562377538119827552159521365018775633970735439580120471966019512882510545033173051621634109051819226052554631226435532259295747572882001626270808236042444590358136199045960449167540375537272061819889995147771614932760797999354053231793037435275849954268171872137473000259335615361921111292616389162184695669562033564970596509332371688551878420333041807503066505560625174160505262331664091925223825887095521890288129575052171165597917130825340460843307977465476881666919681447689732848391792177677642710321517452447950735880763289054167316031811926102417003817756596118256541525180967987602616343017278370327961732925081347047654857656059010727673521385459827689298733297583299446853656599192720272312841968966632593594772667223500113719502646730844926286095985262052240952182235920031470698269779266722504236559291924920543503544423909408805762010504653092697731349410857279976380113049279739865584198988765833201593343961046875079635201784729873173044084,
  27266965840609618054654656319302505014959888401925085596318809233280147303879129195795825101292043776533474108918075807247127240276166629686262222231660704487522921471507146159607733512382721669154552729130788761367040033447710520770059428997271177365919242991321208097064896312558843911944264248345550207274615226720992564456528346798994906603417413684761557731344073469800379804214122671320372465321073217357376049193206275564676654903913028689978015277912027247510532924595527398642066245295718008680915733555397019651293100483231470413504942935965118265724049820443139756703147053709850613146155991545967908038206332711270539764389461306833524669156764448058479053185626495783935454683629709750886407255782366929906508127064320767425390436885713810940745855659674181134810267297801287659770581626728457561593281266064575328698356754169437335171869154494298039532809562532967176474278419217105496385341428321986214861895267914830400454230243724462494276958818851304787948051509240221847272687432602896204859856831807437521486290992133913992180695380744363471106,
  23021020239908016642831219790393108898902868127744913987781601236963493538379048337388616497398864240856403886001217356037125663028241932844139371526035502553650068469137995125330157088169317619805957660961132814536248638143747081376099733927934071387102183560443794655957632108597263805611317386277996186628281065800063606056696516050027546320006428383399004706861062158978013591870802388375768955791117132702187191386124460922850946621788009123566467142528458131688323343861702634545310635732686171417326825210992719583249078323219289804851229823033793785926972269319589503335412606776368451920279901129435132900852589604906134817684612448185863452673249441239503370242895528566745576377654831303915449072417446990333489630103269608512640536887822212146215219423825090781889402643536751568910448856832921283602581574800998458320548765308408242561350893597229603185883885803835818566441215386708767601248310104630844744321880144790933674746884478564148174459091245398103230088592063710156358756516430959611273964015861769781314087950737142883177604366898196264134,
  75006971940565195045505167742397940196899862527890085237445807328867069741773963572545060985423456789852042507322860709420263948418286692566061665444072045775683939323122654078124783166688018030184225045200535518686848505584530852538497542612057943053533080747750826496088529445572785003441395589379335051184030225298706162915059642259996005856489572336531798691366969944278665789125256846260414798110865685571739072133078933108525903333113718587728703492627902715673291686627166749081993182583166832828500157570780161193169221931514754937755159804654092839991094937420103717085608605881785449005704104136040435137642468998152680609255401123465329504349180537477356166667104692983095678920316482063931739221248405512034780632111316813373224063216455415588237846091942738088502838312362266549744300558099898299574258432353764298631465635055283560477090757473282636770439630979234656297949344566413960851464371303932136774212470904452721540687921542630642597260292018994655298115142612604900763867141730235727276839041559723450666693866460588292012471144178831782234,
  82153389187605836327618181943322769555311258190484751746290562001346899644071619823205434718461102051131555093022682510749199014960817856260510885903658474515037638491513400032951639910621924055728300810352176197961683221398169240835763955621165712611219290508716325525855864961663825419359148218187619592329205699550637645818268557522115278701180299433546741536276207749785405413330313633542368241010846476374906388527984149007646469764854009479635895497546144813763697059163569983681198752505479306935320757076678014844770142471624190816682249007420711186488154772891718653596776539579933503342728214605416964960098470697958559264304287036366471307131478233061157641991322242064609989883076268583605552740990478467610760424178421506285175573529996478625529542836742987066457943375801014074021161861448432976574426342852870477855630830963143527878304194501970294657577773281674685808745393160393725331589928057943463140873586086177882633492774615118491165513068184671367734882334108513640394793920887688633633946138235834479408156961091429387734713893423773619109,
  64605642444747790820760496602713561689541064448321365980829389097296189121183429149061638963861069375208953468839833444671898212434780723874074576975545074368467471350248588183996655681963445288119418331726368250506118649003941255205745712036035578025141904352671837219213848299058032246958424323158984432510396544353505354322921674704077861468485976255744615351188003143056995492784716745449726976128393325183819722232836070752278129281301065694126294873063426883733818174217060864754827639424239140275321804295190341163517046980742335155605785756245099925320178749963664047347703898558730650760387099773184312810989789882085435595509432539023718952168202334424557257530787926339855090164559423733966252233516487505895569421729724489599882508923211203479589415465460303787861759157166139886932687374968473054965329378214756481057938082853005324470805065692942234001095934829461453907889066162640215013073533003319207456372637707709993999228862122432488020626348508885303601072343689013606427581425283987859491799796112196379757651924521867096088092137111977500087,
  81593043072934488393095757415924137528597779729189345385050803831986774590025186579172370808574164297153807884060713068680361982419715774763895072534684045691927595319372237022290155800656076047385473599044779967487499697694271376686955331951253377640985870966838632639261649456086841403745684207194059507017430354691821509004664939985517413893851975731215682616228622318810967297476060130283311937161140874727067625585677751199566674861519649129701933180849941096181392964927893609021253544332737506426062429941203273625582441749834509473094534366159072841631936830757197980682315357371555718161221567879364250138871170232755557793022667858031999308108305763076523320507400139390958079016377176292592837648747901772741256781905555621805048767469911408399779193765423206233747173247033697633579258915152603156140333212728491944184371506965520875424505989567879613033116462839963464604220901061057794581513092756283208453158465200102779723561292301260586353601164920990258745552140396979115340224158981324505722923233213104539246998366112750916134187797227187025774,
  47361243885140834659320312487281929898307568923994938195983218851032287546801765312653489593799464410392567162713737656709761900378241779526414034775926366374239012488538183785904729104693198892156107924714332756000290171862854251396340045758981746655521146070799322839961936491147312126919453014677556232618822547421749259398817667615127888878297907755343511217083990188345223321969034746579455094476892075793069119546690082595717167592631870375891663889328889418453807002953188098481029972424809255915504393827980862016983205763631025648868373336755686757514722339378639992704370599383505885905560518365479714431322159538287932782948909670174607671601080372804103484815226565648636484282454110489941301527089360788248063011809926914985159054102557478702153678847784255173468635772333438340641758901447020188042201840600012507928735343683752796933905875830688990009866762756606271358995429469308807090000582369577930211088675243026358782551205631158193738423127416802285193252239958929818448044557958007538435635544530549237871254056381423436492503917622787347124,
  21891968913826306731028522009679086457117716531202213996237431344790855045029007333499184252611096876138081628885801127188341154174941363451388680889567822705813438505214804376938599252578850067847093399732629602951076683755523081557048444813758213270991881704028121932722609107605374893567056325226489607815143554977384885571753483164646216519304208951078062789549490832143789737583340053558953425457371180856230185443410941852895513095759677695824021819543455445476524714266831898042366841672405864288065331048692161272550541092444862842360466663966876147105844227261274811965288811515010480668263347806452906218068056551796298381892871506926703423108833602202568832303517003217643956163405051042571225816099315475191043626338758855092048451506724838755449447928555786325977466367276246557645720319428334042103036158833933844201467867233277984922209152052247727510877973604183486583336431402763969391070723796763877080890754603191915200788416149577637354864681844110384241658239699368228164036303887816483214327153419525007551571752929863369367387669458325165191,
  19546578393646022340789867123877088666110461362640957639919655620296225771822659622911817677173943273852488446362636125648422069299840509967656664801226976925863148887795490060138494246298656870524908014301382883362081809730884634146320228781445746837567593989299292090446482599656139592628407710419921392541826216743024256480573535503181260755295068162462657195556551934687475933671778795880849638571301299366702600290205028254401101143186684718579896608518549500279117400554966044449177560972123161383279759528681651460606165070491001329550775907480344644581792257388849467331106987374086277300755104364314322382840286428932814628494129451646668272570991639671686030409889616806990615100501015735514093945990185335935030611648086858994954553660682200864666546773191947841540987210695710321071144350237223759089818666687000278406816137441506830047470409998812101510850728768591415330163221058539738262003037798199325447725538193050677527529436069455487456670389292835759987060311075354229668678976635265494847514978702374532535551517383788757112670904488589949095,
  30192972472450151416022253472709119546922834528977386708494507316500485524630799985937587092766047252126453031341092422736457061766637640186350101310985588357857223456627890217454796606425615506871043232433174650898274137593932795145966624626310606956233824173353149578966783941402323572768771487424998521587835651717726256612722365162852162878596513654429747517122560874325847795575848100169536523943459425076214284985318446296217063959904776547107547145118245044650558395883671520068686047476834090093638627441338935154650481579944414980039526367128054967737799013810767476325649458244630285907394070071862278961549028832720817736531538121063513738634543388569755387113236078924099527435987678512930742336314174754576107543710173705187180291175965640068583068897919044003205423380977969343704127755048421234957153910561928398380750475075525548589155129754634254280510958098039041045623573002783738965902450821017158340451990624393005610202431833010657224613588597264214623326299358979499979984954974563307261860270402551989769543286975681141026943464101030405691,
  45649549302325195907391424103852774180281241157484916825961480110088633340600972125340137378807147108482643552978717524130359717451374126395244665242250182381153256186443503028193687010515709590163506258885608650419110926648805283600197148485235034894368224801635175602794139878180975894463004014506535380369455779263708249993054025452210069419526613918364306194048777119275938581850798470680776630099907568296889455463304582170040817840947808940834029721137139622882961616518961851649416136812717359499449290179615187331515292647675294606074097945941738119841721595103442863695869237796757507184025299910766398837664823207338998624373533147175425516695999357842946222267548956769987388220242216321467884439617525111080710777248806218867936510606900027175998874184650753130175036043120382780790880828116951856129138528441792145628605961431353725785397142326297509841625285671159802649215352667458803873918522600841027544562170980641615814433117525769185303106714094377655211810055973596666208753308872247916949865246485523551219596632236549209533208057033511662731,
  41024824030747071276006637916978027523744847892300743948204720436019582276900790430965465881194864393720769977854684654264504725356659166036168871090841797365879133566522911428043244268137502065357122197363779612286565768688671073551432572912269759841774595521998000246001104706778872984910736346536070703377015669859435331057982819037956216422642878465917145586535915719601634754398134377644375331816548969839780011978276323077328444324145093208212521715641256054005736614995162432034682607678721939643617137419822472579442147975912838651878605480219467726492607814170161764870479947218496410489568406951289628865456704223278939703330931798248392657075353760764908526776373437712717981392786967113257069622246819533936259012742245305381441365930402446894294008222746330739561848127336284910327856850352911385768236402571072208880447669630028357030009924931763852950304089197422291647985562167570676527156627792939307319716435016137952607895059397582935732352215217000108351184752051655261225239868171374162475066366990644839218127067500391619779986318211199510227,
  15297178805342544024032186814458412375185698372169913713134477373890992882411953800170626985683412504886593043209003940894345243220305835804705299965590439164297364269872140429312904901552327595850790269245766509641500777468487888617045486921552831604955840752807092063515161632150059365517639604990036479646122086510309284041575854997955137118799338623784644865138292527834226593307777774099019516209256931994862390826203781770762703955193825178058711773738074424273943326592128136394538300455302417941563139934610191363665101714019715599570802423842130326221508437760611492688570004574719766247891960030333372552865994309419950450686285294910669483317218422115755039118389965588404786119885592091122720144101520484922179057167180514137120688412046393296112548510791197668900988192837944815466996035523492388625984536229645671594010345259606598228608184234585610471793085497247540678428458884370463973906577326286740368394113959586263345846704528873863969957475361530692944785088314844901222500338677612152286692760366676486056852941788509079635936355051558591450,
  33715607740384501724299099092154097167385540493793038354751997544384834825057178808193400935603524433271696972718392493528236756415718768617525956448315004015529638599980258865198301267524468688563375029696607064225895322834517272933868628163262676806383774736275175945942721663947030039766401894372109747299818511869073562403623746104619580853778966448425396131213846404254640404416565511248793453873036647247463303329726226590097489850168092654525366625714882203428213949135500286910918194285977284724352637273678166297843380428320952792145735723800117071875934898789361081781082105501271225088779286866007489915022862970270618390063038326733133856955457044835905535006073970508371569906758475542021749950886834266477115690008778536015924828721502800970107035830540448559738822768090651693050500780275232162529352912474752407741910301893630337123412118508395086588464645022854127341171453462900907441530050258548275864455299612783377820262398171179081529830770958125345331789775507333982392025633707423610130906791210259990301090292558485974424059497659496303278,
  99159635309568832894477885552180609165010911782683220674524633216259847011110981416593062754977981733940705730642637473214924215086423336407206723048974642504555441273562690590346067393545480925566444546349939477361093625832630910123467269497392216287863936535112797072643772839452659443278347478579339402241513735483031764972305326810556887912293885879178646094703172691555603802280773868901029919273359757023781925391263659016706270860597884665085997973359348926470382865650861766953741043686806608325493204653176787330980319610512402799309530864701866886033471558324158960416705354475526090702787686609137595871544631630345437726061950903265001028302045761300468293648059977619500346167638970750626882356067252948912202197292015160258683939306779838319012046320885844777216789272669134017242280348558947361341223543578529835077850058122734147005729124934847454189375769264019741048188010668638154063182522305782153384397722864233181458641702277018027065675896757119554399459608242654703576099658266546963955745024446403497040494339924668068603015644136801446892,
  20520065515373239354985266133775324177932779108999931242466626317979738868824969042468473193034793036133330579038921616752421053830967821237057459965108091142389419428351220744552892277758613663349646287249061105239192283994767008430913312885431895317449734063146569079128957798597531486368359247518147864696708607125521411016471677432242163701707381641456787316013020821300240352421688388664313373068967764419634800904219968278955538247455768485069368253812449075199725379830815288251646745611988086752218984325435138006919671638714298746200957272067702665413143328559027596605172807412132406805056629912445343922059911203765666141798195801428720323882914368231222421799305800667819787164660510648962311688295738297571747458834373161406613106615629898543028148045925297759792670256073249881587708178348941446617047955140983454474402199456559141819951378598622156277913474621883099490640375857059870598516354053227309007624541756275111809915046903685716773301922704363938648363927945873366322479686425105467414223618709587329970132319892080970345363328647900745160,
  10864163909061983845715537196178811262001317865681152124660042745415077684840612227934399275950383384014606927593065019144274897846996990027805466881637628234475639270096296349610666796377423297289126734219893814436609558891554592133295518557513383114221330719992675676569204177086297646875509260100263459421217046383837104220406656165492776667448336812883122917922995076806476025186263854246578491902321309398033352504291129781105388216065344595258270184649702060322815186762980475922946452387025705736079467289559859250989994587049862048258770166735788949028933017111394529706449161259606830064521139028466966397548174082155063774185535531035946598144059441287574633857873546721529785119841140288464952314211169225528032493792158274744375689277910798590824171380051421707955504031689778008682141831828203151550105581128891847599555566509841834835835226553309602229831546634878571085969832499288584879533947940232465870232451152746308576613237310945875440271205371986634496285314422745863797345861726295824819713451316896663758546762469995628520022544899353113183,
  70040462629647296927727558931352493418702951741145678638804417640819461987796109316460281814911975537932808430738463637721219967812060875682995003776835323903116366789941635652056998758108430345243488631060330124532924969252532635705884486313779352239666851416156618088822717076533627675876051231959738469937303222655355020439912318068940458270029983057378405882337495842095017692633449969163274140254190763850106432525466883251789907187347195860482187437836834287900655771963945772704710472250049357716319040772786887627698018871255126427044315689070736606921960901996974755262980396098316589837892224853638775819415973180685732532925040440220343695819525598443539719928510265556238353507846663937109771280744253504980457025213786921002442190679829114226772094935128270783758720298900774719247041858982800247626657659261072348440562912696647725622446382312426343294594051883237901665236187780583510372240359388023779863501745078438966193784371237751213443763089182604618085382631652494557960037789093831527560635137382694657985185558222708241955776561860106652161,
  80009366129210408383913808947794903659889211851635118258341689907670621836985226553219275942007601579529629829329698668269163337006456290106830103397762204812239838066589787873070737489123764669791488838924062433483747970836934801963161494246091990354180808098440764924515633181348794822240219504731599366315996488297261645540702403622754628163301233022898592218305040496520065087797535255345099356454630768300441960048684990618338836414657346446768059472863391986962947699522245272960216533121184035436647582700584987119841419349096163414494307107327431492871785085542960158553550779491753636716299124327163704664914583385155390033035274330632890586399025315709767953074599773664852434530629331039327039154560572816933372510447130338535270743132252960364087561697444054566252007842153188024471582576717944443672237535774016234894726740094350982530678563212756095741961365433838720146524614681298437734980658675787965123309040801363015553082302480279312895914304309227778344735481527709713058351544736771201611924716961278094885111586027226488312975887387941778779,
  24955687036461840173227611252601841145318185966215523443251806829302752253779144710090663034934540008137405368565409185768693607060773238811316741482014741034739077501785716359913012120738945366626193077228429294733441503594299015508122521888713945211947135995824936285013846534029190449588498685858028611045426887489260831909084390097603187395356053436027816831907656532798265894054352763021472794153930625893891607737489303184176926965632105185056688883037210197442561862339380455355904366473767712688932348057510204088622462151919692642348300547945701769453382424835020200226613589543881374506553933591322527185242640599351354813554689023800967994305748637026118049119837088883914827043623845823060657379535353910377338476972734006285156617536525371210399768433116290910059871971103025737319922307166815615723121147447923486050071999756704710496711437236158370175559821799530202388599860982509522294248367605256432760058787859353816309239737103541557078653345118066145870344649559161097303152504497895399984274830795906818826468047392875647788447061216445185180,
  80169176224729433040725939425311897907692232442722294950128161275857598890272398182014479679838538043709093190289132449416557234198813057670375864161389944342422426487718636701431791636989357309134905767395673300452058393687305711136634982627439757139586146679713884204929499539789737619368174455927249397682753535479751218245292573242174827713651885480790233832880823291688170883673238667143882856628943885748129546170230288072999918209460774571489676246693249400449228215115151868290505742008210274360954781959510857147038656240059156670932235030588925520931878652808327170944237249991768137979828968812656503777736220622475856868910917594762865434460357913723354529165852927039831163898363923049205537632229966434927492262968739998344276933633958243634442973619503529566972179865208737617307309262728941385576958194805522059815902738749321712050738754887942407950715053858742276379471600879438692250613695505699682939585565783157458210220095798425287085981770991817865167097265671963040906931159951290646208554201376525787217795314280888832863262430197299854518,
  5618058451697887815954703297527396272923352234192427780565370162772816121217997811995778894548926442390467623940581087739474030314096543112277610953038498830425255212818297947654379518769007805869350165005832115075876392703930594537511384951942081163008209133693480617020255257566229742081363104094395670276420931331971016627361316169855469895536038289049525008256869889290605510278894858608764950694436831220899352949567575197658881738571099107889343523098181327241709049057810654179984283987726580244248731081218379593632711619961865279149450810551736214997740837010856669513451650771578859538097285663521573303581406372585044026993985790480798160140333747146274311671287059864001593243707216238176560468026013515093233252360213222770336609922844412772435336659926848965849363173020662745131694499640527666066669434548422314481214662285994365715842174762153355958821687915991261552288363572166738797793617074185458625480960358388444546351537882198468695521511115217086813592411228874165060608533828811315308584538120433067907891175197004667076512002842313143585,
  59895875119918171279882051211596721401410771575775308036882422893400965517697439246008514917471688836705998719789164725451275108713122420100053506168725387718958627727765584316990896936349615590067745440758260161723788594586989339237695216214128523116086891744231497774816405552723319823457120639346736618729238488351079513814927695809122790328318737633691528256830868790178191479488906017791880596388088162091224742316596139081848455427267965907699014762341443128259070578598506122334054909018915004067266090813761435318607263184915173052065150803692715285315138907694600923724529188772724564401249923490922693966521872025235939583746178792684963972492872572564267278327486989882374297714253425413542346022102160319700742340293826008618935566573590972263958362079249034452659533423355923559999539512820322804564557617566121781948898829681434712928319133792865711552163826025516809048850014020215505047701798712862721848083976634119573580142343979595637004282589044254336178377526527418820221060132291386365058199526099629760013173133217556313223921480920726614137,
  38496444259440290221369113205443174059219250748169997594852798879801775713837774404489549278830674768752882151711748616809920822032284890452937127904192910940048914867517161034268144100097560129351235808553256518564252074577665811410116764536494016793879934011284048651754740247879643162908783481379370573994232755408712296872112292899136435412799792126144086283165487384086033573670464862910065693652504538094620514903582675355682124588963160740463620326274613518152333119178570847581649776905874636918068285805084114006836667913062776522901197833121732138652256550041066235065807368581039283301740065879626832073345703976981264545491931452620749462098001842805309198366426207321717785414440982922936910281157519844460869005041752554833630766701592973956020933497847967311243354079164049276640331535902087446076842669070307918122048652616079197161299455082483787739279647728268626580928884448227893751513473662040339272196089581486316281418017695329204929258713305716267802981466810181469979446610956943835995979976100342889021885097984695314974395502398855667588,
  75223172085759858484665340792683575165237631303876224024971778911674973025442369981540749734624474939336060084750047618860433531834169276784213100979381299333127718756978145788297021584166213000488101960998371876505594148364491375193053936570264280526853605497536530298336272318970636398056035421717753452994025730929970574185799777022728306364154575021083869362676390914941508964534233705146496867780380165644783594077891166075892685637199898510782290166561216383290432773066446529074847794092518770967617925824647270625831151992477180689309342670821900616365729759890302743571190612993682208605021909247626151702225254215944310153432422843165005053592420948557562510364768952962483447792305058130108482147008992756826069655136334222855410881505878372061376348413839885340330717897194841507695774816619166702703872337316905647154404971696551741366762266195767158664979020388244106182839587108824265373041334414157407754731480687738478989708436312317959878982862288676573177553096421921294697283833728111292697676476461823091807917078257020680050019986404858228478,
  62274274706528887935080677833719219381777012913048577781632572554148661994628447898723528201299467529255574390105600560803802265806126552995362274865847396998527225205154317473817386547241859529813529535655059399945168239419565359937043128652962913068506126146643616770435520842714291360702898299431418579724307879226417851651874988508572843848460604859096187728842608519457759000360610313835459508733409722603660756205178348473953965186686028700035831794189680814313811043178181284358940736247735171333473743170325427874289581730210662480147221249960473997951800351210068680496664055771278372022285574557893194452054904615967220160217931822618141630334272658445800140924337659314093787531568026246732542212100875713816808717985098313078796550982731552259279809527277328682306404592000859661992499475524986554323478430959785859896046554032990118992470385879168118400998738819438651648715425371098580475583922941422448476166246894896155209136202897523632750743783530373862752708627411252684407330537088451495912747464177678639776366950634354526073969113984741589264,
  80816047488882921806335801552580226762835098993069213269296290936028325939091376465952034074994835308906252889710182428327239995420981860640520349849438807197022517879577316171865851253723047622937213192801957429279480941115919166529621860483697273478199048566748426245497904439968570279524141789130117635098665897024654384474973848114570930768707586016434011216902674015510564018796840180377540253587337957329124853489974864873713015615793697037491268862990381565062687554337109725873792388573365711988146488219605280510064279643933202247938942094342471004793850429504837657938680933281903481322129989923243685708257137115992938121452740403047964575365989537537653470914678112471195547529245122999934849431610985591533522652356250815416605057917236602163073086482642165486369856587260988090207522362242852130019753966700225137893048310376682312042374636504437204751969566352449382724291554708261465304208430858554826358902519324832899539063550831478533050080569778375485652616759741435352777571849368475925777145444324365809477317334415287190059938950329322493928,
  98688071889924535963349231833948831684633721625612486929885473233048728619419873766536088026512783076773181103934845766538960701250898895008018093434970914456709013723374955670331234968084794568050129545929778648190356974656415419721459853678112138378597053149164031024377421399843400517200826286869567744505532903229592960599659845552453475546314765166197149349830687855136182603716636468218421011492227196970664394324276104327147013249703810108185202830687750708237028829538636774423797698059588483205261294469659889476027060229576246667262643243346386380426369125524572272369449032610414355295626912178923580137004078479737819259220069303850702790139741078014213427204427779357206317616528089003210667895154433847893712695462803086475219972514504034643442989708921199902774322226127154742349444737142845530981874165411894217042523046711961782083288624669088555583479386714984256678662684067593042116173471274451368971209659507879554842513648828508473245182244994817918890148906431412506588003385517200424598737540336288483010275150763772143359533910468922480474,
  12085170920939248281612140114883932084998465946524873357615781977518952967920856906697711228540958310945645688094464522191429549361355222768565116530291166234191314842386535610643598551531483300846357400433311914930788457793594522189117038023271457020971327116620015214843716195892767180601879956128827367769183049593978608290557335904023875122048545493959274602553247429589670890650503824643496111324858246306646651800600924325034306283692203352872825191027830011149146718415886253468345921869385928224035653178925733755006881107136177272104275048092888606650080357390422945008233846942227801977399485664453582000916408849073749294816352387912310199927693003160022139087146827003540257081459199111792791800129353513780343011581797776782660522582577316552917601981099238441967664682368145726177362784627572192315970521777160703619237590129803224074187431121387673993967380280780212799124656767789100567221586411628548809316169021626310072458007276358171048402571057283321611950601043568094250370703106216398699487649683104051473562242292612395872859322546169281216,
  58183337378911535578170128139870381947648895191403928578566676282345902196113475363177764021834594447162138239138395513475544161480202179395389665805070671606076264201577703338779276512173529609876508309675773155358989430902189303817595844880230220993272161420581018044684396972279699951522415583617844823191251019650503914644676931970969283903039221716236542277249310539194159644262728878740256883517802409078002705854444510834517815606768829999535035655671471327637064387167147401108905115052624880281852750812885813477235142159032429072301228545963910744430138685709384655279356626515039931813671546093989127988821136152845835332663219466135001374079077222640672545433813149140560242962853077317830077662551900018906747546153088546777337860541501485799009165116162759160832990839245090949796196210689093044466241468371012131349629064662827249810435884031733745859729955399295512720320931966671178806030692052603905671368900476439555798566203632177362955769858392517227439655452068550800381769831325992823110284822629933768193950424819403122540758315875842310273,
  56227140236808702912418873129513041599950675687827565554901854312868757447965786517884334635501609894433070831565320921403429563369967785573561100278722223171846905722557571651822505390672686360620626385197535946238005680670692615268938388360026508496977958022202585460209961441183283289337666787509641162419985619143871095180320447167300762060546995778924809895379596166375980398822872929658181575550579154280772952086310817492621433586535560017139826495832437830670737478392019901010909848962907587354144785041005335691668971200827278972828053393664926430261030794148596776920448167380923272946306797550060969185092686615951828464975111774209678279132161519768441487057934872279799684008584432940408003263968889531213091288254681407754373581859818489445050730731477787733960733615237094091407110359909653299222459263209524699195632772718434767824592366520044034801557634902960375858378660884782775177372692864249269552154372058175786516217846925069492795256970984036141266477189106880594513332277340852525755260455703708585771073635126486645413288614591684721913,
  86193904526556354427306787387010527362989915934609767156934646548582020616630460967683470103849366599699650318037305911022203130715659307529828443730602193239536980623381114817614229651841991838101913351337097091933985786580130075468907817930546167798250313859070366951906610527068852636679641828445780765730189437161628098433696277516962513573017523208556260391169571440897434903865014383554082638803931855029028944902875554441419167599477103844997500977588067277803148715272200384298639347782060738162428633812461518053599448337315037479234388425403650531920650406619440716557802103201078188353997812515052308646019615861050441563843822156361391479216004172128574236051064315474968766427829912042587413293666591167296493338225989314584696302427648159461776350204313298936091111511885949169892251062648502404453773523358434554238770633868960206989432507310421942144798561855426817054114067651400864884521633857363452404344113557361378697539738182235776357329901757836907199911394849118532698023673860718992017011336214212652618728515288247663623957904827233494583,
  93787715037892712822907447099096326404224859708479492382014687521100291150671978423780987713136757403269436182095589775679297354585570002928173494003687111479107485679107511384590334188971314193435370020492370708405273792391000174846763603292397642540995309225249841210767002871033393780985254844211989124171260039925980614212015375586270805247747695541175206907304291479523932277418998607434291335645419155702594787292704449635360238012840854268642754584341668622013040934100959022130092244912873452449734540787774040600390073123239609834103648245450750639695632400518210302946917820093539781944332478548094285779790024719353343660993831766625898872279601753215378064366963593972951125481324760598394140508445260239677876902566830580074746811627168231794357048726613492799726868877385188093643625465511957733556936470294166086810188496976820678326458864395364934026340702803123079091446605778758436416153795075656780240604127470039201064843148216207137179356336221374974692950466881155464146530509660791073414587061024231325255463701056547777301103185050086614598,
  39068629013477593919257912267907550010039542849266025727143097209414851659155528037017887513674492776916674573680131020439136322449183759176834143236127720675055951972015656679512289973657689490343738307838181507070344877773167517461885977676113490160837941097644364362182803053769531922747855655620608871331498121476432396676948092153873147944080400977430495554355429139521207993071409722876692497360967851686721284471882834513683523622645218986232750818391104625723420387544771684876082878215800824918181904042377189406395430071181985386544782636963174256352109665904045223527596139077057330591098680184700615077984092215440749283140946694015151920303026534558307120266837050726526142982231035804800085126495024730771198558159746939752034606824181846625740644825603051416788693451106186349265322567189860506335443120029565315546976142131836414249449268295757371690778444475527474200559743260346669763175749592214672330548342753334209021691920028086713381815176513467272467856018087280698579306251639181590073401917812633772062943721758434843473856737645435493676,
  44520210551964132041909034751090895590107339268507689928187673365901832859960770042196116153198923086688415649287322393919336877586319575388282868802432229285749062834698800318009782112783464473699430685892744593514603315540521613239180496028511094200920068108609671137169901631124957773356288814757767513379750010214828424349713144822155569448244251296517310052829330007596880320269714714305579972727024023845566932003093361534001346388226512858496049433741365136201759095500768872572379083996778771043278323618218079288644512985704722945918876390177410162154925294434044663345537960358152590844827165047142106494943390564029671203957889365208587356863848564038234012473264701575682856267631489490964863708780377365370562286324227491995329680995376011765735607066889623340654736346287530174001382893356965641419762442738806532005593571952599294161918250088559429804935625623475763876753250261768105102943789482800381819094016333853621848244778575211141902001157221548910141265746234094097604780590246929152237692070215043086599849769077258465120054623089267304423,
  8399098528361798087488216517501394768839219596197383521902537829218427400267994986835504779867088743493487788426349113577417379378963803266412166087864015102669353853929117586753982070454540099155480994055594771630227826822881996691199207772768569004256445342466159455191246984940917971312767081216355879737550546953960201992891686869013167822532699828311881176520517131424030310361907703448600685769071256829912292289041651418435412215189270926191182789072038647298902831244963716722622607947058907730151579237066505377355736785429749614128323981072567805447784550333802582299900614329006567458113138370620933451382728850951005894284364009347525826153481549343334392320278401906340610398822072400859571454785636314427709357818646870031383115060320239013819367383658231106319423511375220125930221646506772395367401083460724736060018732335957259674257792577875347464847438558336672633057975180627948174154553576632455621990677154365428762769211865397630554166772737118471255681953742987890612319779768238132231036099871107441163778245341555930694652870645143714518,
  25548170938674588622599719320022012567947708034575534068559395647116603949755093689074091411408198674034297308977593195477584940320283592528368682656012853793415929581760342834661928132736009861098620532510203036543891476695814561258705285147657904483312632612612754759673706139294643446550239856349906904417168129779315604542447811815168432399733102490408612023203526259945513809199439424226442073066994223020787573721134539784091892952718836515115772843356507283396326672727736552712778351096064883491611165972964770728339788176207106423696535857600017861334574247471646754795605576043159921159961710531000078931203129165921181455977363212813100884599685965154799159673348206925725869446510484090160725430379479374399249481703540849294827167393538793091891491059402738825756344267402920436129719690035532027807460129970151677645661660866206509831490651839908134036578923307774275792888178539747842534562159485168992563154166538046086193757661011592827191626549845992844138091790934502894462226987460623691249102226763569846247298755530512280773060382723147672733,
  39236971473182746508235706493645857416506527528033657588500186798302233361530748567770189621522377728078662970997138460124564113933535231144394136311364125063031705754638671649219177818188727804998651429623692032897521320441645948231116515680709360182325747196151283981182450028573594113668993630028651970864349680158377378960707340501711029221909942356787598529910642197942528880715982685438973651019956985537134356344844499948066238711559832680009139129230521345318710933406054852880528023480091981952064083701465298058753408827757824197190966845092572735422915973394209667721622675032838016836701268327087718197447113416474042333643324178455751429177479553973263018478223787511033467842821574771997718724907884569287855914978807215276216777487839372594667697466283646364324636870088891169603064008013321225544033259905510759601301217827216735090870830367828069535618798243249758543158370245511038222955269283087687897247615175634507109322670487519583543893267268520625106523486429896817851280346257186736577340840303172544172060562613289306744282270727818969513,
  4271369338673253083504352362268066472362036535955152200461086854195601500985180774249137520429031883739076881451106331945943196801603423831429470117790733995188051863224936330373742898766639557300491231154254744563575122821796031493192175536215597517354177149627057866660916604012942064133205601987988647919102808257237334409780655000467608465907721327762048534428873064107521635800858604283381726995542844073600686998025463466014465865058701796662801137504819512746475513441094129754440051736361505323319561402763360504371484993550097933965755693472835807893270151761668707167850521515782422118197723059610271802211376055775650822451073394062340440352245923246713297292472959059660765849167767975817545550062928970945807116984624833363185049505413603244603712252300284036644327050268292912129801325870485545184916693717561170693157529500261180729980457387032803344642240762456575309106117734268436397474238420782493396132435887851143322143968016013555066950049159500712952409714841832052405471308266600028940697737467479235778327956768661822183116453615298104323,
  67396521099012861667976551304833667095581981457301609573195278688976179497386647311258136873319825626672291555593417622508927887021519155223172012576187946221168196312511260151287866593308399728702095894444254838578134034674752957098479834867910095293931770677795952829355869338389284017888312658340182074131130590123178754931326003864743921842024311425027179344498491095382698041213378063957306455949852912075479453433788218603678168691624640186017609895080057570400076136175837268692788894012793708791687313210417674927481469886838669337429894529000953226206234395570903650053470220968367206995599192069623103968348888552467906866171002505227356319316229164801533836344066693306119163065233222096771750507665265069289452671046635962913975704179519954076385926914352972739265258583492260012812105943415460904908966684483534794767401840916934408211214375759918449789358879811999883781043954505822092654781530241924342875496615298727520625124216456524144337699821205757739769792554529792755483110222274978041167232906505936407013268381169371178617093653361146617919,
  58895816380085858227273146398812507431885930628540477252197325520103315021122179520602902261508148427987160887715683048894626628110875165719315803483791380475609981192779258193816013463820567615791947688858111977946573731371412896940425858642608461356780363809590304941436012976511086995327556982120044158668042851351485946280094502680282789078366103133193981570053235773709828419626117546312776400179255663368868410146625787264487540176093362492442105565222772843270865638145258939894095286299449126389851502639968925280789714373052711703482878632549311351468566743745502638079331233890987581997446383546982888408867958361478572004108178195267273630793701973161108035513307543426319758326623125873440471849275378555505659744347641467171749341623139966841084072883691239929036817624897833842304924086916049333585720849523415746389995902555929846484168530920932239450099842609353650712961038293914178384059673601317690142192294468824770343309980382663330910761357953567031620320156529942633836389917031552967101157171386605381110987649809142253221211885497858375452,
  67354359706691190758277342716570831105588157820265771905571655522991722592519941711820712747163522022416693262720429458500760267515572236450025357983895144030656708768964025198436204767366947624721322207648935318529813483056615726100467461609021782036809278980358443462833161529680014429438343481325149444783646997109430062787175190158305497526824970668196708424004153293142670724391091926901660270122754997262590066958906364102019680315052141840001461281315143170462928936126045139925563659908703511182217009204878683413815583686000102213931716293817516148142204543976612832848954879245148920391534687356412779380282294561882647003672613810072922278924383414328912195761584682588953224449126237210430995921748569360039307287559776435927825721958517328920328937364969565481001520940677075843319610801919152697035944972820542409921774794885510189257967383219073395543848219021391354610395728756414700979620480167903182327112961691883705586529423202821196777521103042782428532307576585752550180387277231195154073084300710042092231837895251060951014674480230778414332,
  96539691174855263749250181365167016598131693419695168209638648809219300276492890878559065782232219644004424438455034444715027147275661532604984379964910463732987773094665524160817455277311884016608169216947235615459456398424743513107356211516122546967311337547203210666390573959454583578898111861783242612382583876294836641978436934559414738874569545551068795338941134987989905995433288256519931844892339119891024220727325033047804434824826316795383188123453643203439769410676342050740277620992504416285987380085420633094044908408746295011804387681995636809774125121478256414581096054639454835383121207411339670965757611709217015691940467030052788338501196068812854369142591051264293797635963804426144669369037414470240987079006092865914566277473707054184700141260666367772569706618539982818395183869351473703021708291438668349189557395711468822489438347680151473178420884309080146588587691877121656412048383469507991060788242585359629689116479951397419027253785046319721607575329924767020136194879910736309856152434702774832874087074621397897509229894756287573114,
  91231819192777775556843021379643624950093850855751306244946161283158063084985942058804578704078785515289719360456282644804687204566172880931465167028752283204657047496845802111981776297074091159420791493023781858413123207558236599809265253524234756986784289710312193378059604896982190750251304431226998315156450957979143815249557321035853507966260643344733981207748446986453521343942991395784011881459016726094688838855923487055032101404672953629067700802205950873829180852655117756318673595463745915845363391393801788926019126055103459350757967533983990829864822423213165178011470479533400954086803420795695416413113135505666117924350822638514865192802958371094626166967342952888209695927144313382761321007621497855663453697598846376520810640392838659143588297104990724241461189967117103467866306169690503731543153385041441444438577519281212082102519526090256985712782919381403014206202610683350398499458356221159155783560795763515299610604051548273336617677383406496856449252423327982642009814218943291734435747866810316302538442076556722190100592807309090078580,
  44919184500382956029191538344890796446157112001822217342752150584642775137451467788523498681830251369238269629517702177269252870094403594057793411291506144947525882363904148618573414183329022012968783615917652399063989099157115955935567645903307681641441984512994186091071552617321947029535925682083110895481748873289159476087459481709888831019006508820422218668822910632737036085447107471080489254733089705230753833338415110897307630203273590578988048210780693086380536188557964576105762301884463372446961159796969993247663508404660592034432171442571277392303411504250570863049572511987677019386637092064561089793815422439773833602862228823647975876174148827770096248951018239771412569302220063135925192248893819373619055403561577008465329752655550304993852573128540382461495987932705655853196932478352187628282774827369394806596156489192534771984055387480442766909259685595602072789830026115520927791042822663101045418886527035316674729290708564254417222330910516356088208610990482062786970103694865589164539921911834540228033104218274841059056715058609153666923,
  25634029886335184644329520077686430874196752809376432643266722231122165568836798264617847737996240300491578030602042026156155069427447077514156996126979918891120200185202575317247316673427630162485781032889255889572865309670322755305836553346251461896995776292521145321211017390565038869497276736093836107601616001403227460960194449995949795605845055324658672681551614099258835596273852070776371529768109106483479807161440872778087897265351249040624816604721977283038278748934663245172861192548199464836384149320489628695983060687335669636905893657100360753718322809004650033325494518954530499043221201885163642176733533804936988983510792427388234011167822043692732678971762890529007227939134913007336213604600047168891662834829164515955753785392706145269651150282686618277589598981226616078817517242670127940038297245809088639805812006846919124730479624333502820499429062986893797346170335498196955459394349734711947573797570756098341031804969216510600097018904790593759736181131064977691545235579294499278504653265792607308076713457658650296351930093238621072253,
  38768892375712210477835546187503180074726798105326172855576086282078706151858108607723302186836796716173007939855760038996928378655583021998119832697537073423903902551709537909981777451373543552410778301137715106908354935724496520163885696393828331150882836185011203512192635905462087400913420032908867884573358610322762654808555613827089977500553907338886543813407467982328583622007743023980791242463509493662347447637899454502049465865105148224418487140692473393504624165585734481743992819138230905721084882235926205995688996691483769193218487552882331045688426971807906897206412011258948396415953155910514040006134863689803300410077913718736229031809775080956859244043436542169929572517284190594443274133733954296303223783073191515300708542264445331886577340752773309300815301756510387598561132664967427779404125526454470266616909283631440646666445902424986897093042461375318074737655449457221896255431147366833366548611261949045173029357556767198284129574480585791471023826373544252707415472746759206753801335471842434058662892762390587031503691069578792215619,
  52966173594259669608781940057004485197614980801131357968652929925730726608051316313843375086620182670502661617051748969580745413930536605642897837358310742082571815762564225739488558654194245533327083602167996047708319577234899461303298867240137381561814641741993358288812585185100357345238069008410885167038482259757335845375982433227337124263747907173826587243538321759054841403916134907641222585421374124928450234435778275629309240482921788325918215868391563757819933607813287982324644119532661547668733796742182821495911164148220320691807326874966564762201709783587922791005890089452871529473825093450713957590665636918587361998166800330330883594270454769129563867551664135368546646838728194152449323803213542277056127363776863300154655331217770306109944917816287594149662082174961689145814094010051884137368317977586916111737699818334754819334364389723046683161989409131934437671283300584626814866054607388829484035387397553190231613588903338033066737896418147019279902719767461014687467886922720310232163760367874519869140025879108002535450389491651185177187,
  93899608314465164053308952808759362152833639534821028788919348898168471212364418348364469295878263271121716758668171530750386015749677745105188095791326279231444623449616542104834342739166665110354440051346213915530465150062607396490204446652024145346464351870226723819153119898806885013107679665535004103832541837286888765091019861647004187306830145240647261275790260586935594517410365560304570561382211533167019903303580723907292310612183461687990951081556409036260237779306012512703657818286369814572667049875488700750775458963467601983844755849404694784120578224104579901330391122006375414372800995483794490794386956555283954356300721451673256848836695656404216150711422936024490078362808257246007930494528685988819782780764517316175134160522087172796471282934731881814855753521504253265580544692413102820812497463901901301062084240474026973379393108483833785818250802672190491254239449408655586985570899283532557472520440893183357269410457946386634958242401529996696162957609470580926926918338536418957917984372519346888515010351931312330069735678832016416096,
  9375599781905134278846895044381392358949001307570675107382178849969474636104245658180542313581365134325040581167835026770301018417413988676146347671414178542565749132051248201226906896357960270163212891659104007383230877986462249902610391651924041798479296129014418848985782125235002195382505140434477396055467593383174140940994102654097605237006698261434020749502113687327164411246734564863786437193093229333928546973857484350573781499362266905313731758394375432403764197910050284485247747586528521594286946386079297224622805428644210294825978155123651488392854201050433849070133767904495820654612373141701726919984050286910053277743495746375278631317740030946526196169365526691378634132857811686346986445968824637437536206203243297676495139497815447749011706860734137987524744966582977900728098950003532950081035461558161613653054067782629403695568104819395225624204232904313035343812731884229211218497338488080293489185929606219918089852558758895045564074917504054481701335071389702036643511703034177845566286171572618308757598640529788258389693746161834363756,
  51122068492743861068854409311767787660439578688484648034607154319538920918763014542862851921229319939209529603013558355495291958565242609225300859675636717790170084457139114431384310059157681675094581097104696600092625026990015096991869959466590247284103548378823322216720817938074201190433940477425920741931877374968046193309055548928929770822295763200540037271738836494743120898543392350210927915802957370122260708274608641174781364120788430294826006552814565032677027357222474210832190140844993769716739896642085714845597399302025520137522791961684768818728745815443237906112429822004833415967961258481205249381201923489000991212920168330895984108718855848677116453653218245365546996318020032677679992468368277154296439045093330173330201621781928636615717115994056708951389834533996186393970638594528210694906634075061042709130986167300015909615767302501668288426152732375026632084486392149052178070542762641598751393940233088093413195044269065352613033984962843984142833279616914133550276722016089926390267425875620953919360120504649286172177776065596275374216,
  82221467909588005674143472515860121785678661283968786665444098373884661545946131389613943554484554340388733992985287836342748102537524920611526458306235417288550232028622782482072584844405508755132706167527015098261856366001323253481771658029036818180099951090080719153026385105848092583246945489897239965464123216400921426819190070939622211864603324121491191668362594440769623558841439278057536439205307058465743162910351785528258817796420214777481568382342556500199907075304295476539021115609693922804101624749073533170994591637429204154588882515333953945806104743933266201557832073768056279124512390398725507937067663151083180530719574793923702500254653639710941697921294430888523204264210517075880223270059117369864908147999361347472776035905226977040121685766187499980220676093174830573448413086013884473148697050064680919402569710768363155532425516835452800654489293873573567649486016828597541095652272038487351212445031153162771217105836965650096187293180336991702001035264685349250743284759745367204742057035945133751104383959209819042702130777130644876878,
  95444301430706672015821907028003495863515099282457670410349559746569594337109460411680740298361030358924023753533279060843264313868059430291605488748157620322862700927676884957363875443384608736909628371011476528369696788361064971755249923205409809829954674257917733373833220867748679553702694504219511559724435074234080913377388065913375258354580037835633561429589962220863886895030063237994659182869451775275505241411493026449779251463171195132901694667886857387143076151150602315586419168995764298117279059642720729449815024751872583786121090151874340198810069918189948238336383776797392393717580273020353143438103277004474158532202747765909392836254198835531207176054842343533926360074774221110614475622658163890580306151229457902057812554820173207166266360568660822238516258135048370947211753163437023975765980890608303129697375996347105457778690916754269596346251155276745388431146688588730504007344460432648005002950514940864498283129277439915995400687823606950298240128128370750736792238928359533944834579758059774284422128596547610785733229557244099430835,
  36749439233828848662203154265534449456042400957370053193811155583027717533284257974453242605347223240517097653988473357855706242020075429409966387470386054390385814845871487804606083865089453322289030505677297582953736175107965791881244183290792732785164859667841672476465482633761893388230500296856063172150643520671310679318116663216306271781347806972050406296173286995006355833913682910205784703573531824084753682056449486529971734105035355734619350359250373305946704092946884688293700272687389888500939502866553466106117725815072042695831982702412951176529798387426625355572852775548023218639119849038441045154404186627727437787826483852943914570910332252329465880267711928339771679388196723121278115173792078368490115200282373759593656173505895324967911388162142759582102190309109349165551014527749896717584164167932121597508498691588548922085616117832286595755906462546473816499766521939503929506276876641351969037146198899116876531046803438246604630793901970568187998493815306484251358313885935892320896594200836592423084627586015272979689454759600701019360,
  51913873696705865901738010809055437167506365954351746535523008356953584806235831378625099007339832954623958473533053034455418993538418029439733034920466514243519485986413489343610208091029720888188877697277289284043174338318217615668415499336633126440490240410152971872653012535251478049754464726591139442309125328920790972135830981777982817814944122568869820416676461395341297652640262967212253918003016628124229519805006475016146285124954396570511778994862796139448409336175457158189975560370308027853794303250501363950473319737366294112156481700750856044480631513706355258429176618671222930199064630305306046148700450535892686238250317049729898795772933423546198804963339137772701814550091496703362308412438540998384370581248102025756550647998355130412398796548969188850921616031766492760214080375505707638989460592393302340756550571305291367057725316687512490892062738843845757813502754789113567071435152728962172402323691107565995441802718843698073864985130154795481472693488272675018915108235863739817013279909291817950645469892515256436772048644176935382070,
  44072161853368710929570192136982065517692056799030216271620519365280393875939251741015433650983032552460301277808718825568316113321180096712950950406093249625527610069241754897401277327025221713905391595015566103649787776968101057764559521700428283695602959350067044565051583193307301765656968529995261016603910686549989271297329940236564775733036006308147991374574073992411323591712313625731473211574161098199324679811756500515982740435462996086677391717707348221041435134620234549567225931909178679115387006904030756850629350570878229471670915620090830970455568886240475047996516810904222308238889320914674912863834605940828033378659131908394010682979486147590988016553652029872509824040719673766566234906676812466894779463711296757551923210664343740870001036994854598528103521547204603684422910519967014787867830926713914252234816196229038326683928660582251217374803113786973560447404407025952819839523203798329004466598041393841254742880521114270387139156391989841177160830933829527297587622241447688852098866461237350010842119852686288634305000614163334600712,
  98272047432612534719521191181261259302621870992544122272708181294606068788878773286196175337066278803708702225816653309932801611476704801300656985277195872945727068477480553038181034705425033002101575513297886481119112961690725241550028773214890481294508686553047865675878399093809083316058800040584722985626630205885390311937773434813130492463664681597558360869635025378607307802830800278221805811888970197815268729172999732456356696472338798964264318906236646739877834932824871376125310611133063009979427044221966611241037772994635881040697659542601520633737419951055580393999940135632763889366911620579513145257271126624363342299010025468909376504783904229550509425987150075796909539050867255172618486366427715536048125574443141981545770075853524151532648888046140069038186870720758768482428594020249256414954686806546302981571128528533429523631233727914858367581998107460855878037498792246248755168744870677295966267098874042455648297293968713584561231279164713207880628770856694194651301912053305603207887778964415157744239537979328378393987370158610435981621,
  14231820737031909016171861098497671318337843739206288963423087093022981264622627196327959078225639761473096157419976317735092105126961457049899583779218070998658728824833984809647404556137967457411763600553104373634915601013503537109906859167657191139634938882777514660453754794036917702064142715356143737055008377314872107989808107674600104896087076935722190109739897903634815121137456408777627996393382438243417292371899197321649264655222792935744812474605908266215666918376700532667217132116699558265785900275533433162140987895244924067203808304034068283315489582641907121427135787265023540339521411494397118160340188667324831555167867353282375998382199572520643703918901785357658350476450296123492773916517894754401097496330464922938083098897273255184672308460217529292883778807769373906694488829532738230480191824236117408542533119147931548969592361162173613489609775546257602171445052283884719960091603063710321112368028383668726291133229116700707830319560488715437200574294492775586804932123319370949982988979670232152993437698279637773106815279919738189739,
  83562070559732648872236103301140201288772875533441597404185493239638862809433105492815579051948959762149843580817277596006895739106353111256954744058326527829477709233979987193382946270553844854186033446238309364171997968554455820067469377535066160790818621740598475045537183358054434508956716723248000628147154299445900441165727130404278064792478772781947607588496543145867522472081515179144973393508238099549433463492646007221919896295845079651072010060263553395549612945389411337618870150523818062491494470727319484493808608886128129291413951837603697870801652609945177507899632438196753316882138895035649930891943139982264799380536287135140262656034716687814132735591482076491922673439201445883964520432952901601920121452951335556607827437237971148167418205941149705828071622991509778704249068113867585250876838587541179338707699635673986605812311562286106560204579956818767472078783844483669997786346113806849495841377776446615156752697508865490808781478146820937648056386988152069345339413610203699879825554605364406795432814863098764826267694201170655399641,
  91523733451253218217721713783416348784730842683063904144603770307901102796197451354919703166816531463270393631864517019745865362139001810304778978646453768022195298974361903514467632401189134382764067852863681723516016048451928457630535341850418173694084188559428540943640694874728934994983870084633998388396548287149594406039197884687045244387290851137329489284323364222328313829975035242542714781942983912078950109116469092391599626029367376108863195254779020683941919258205936120428460560211951201689315845293577670479620952335819827170656237190853353728348475345257983985473034608374475307962960247777323402269760685388217684170801683037946305168322344515675522291705153451434268191100263283531937375758868555799247824623257481124944019999127402744292576147518968146226426598809950987919344509949223724929337866146551446061739502714322799329784875844833192936446958721672825372378868445715396605664153107119516420921713416931594157237862305629475127637672308197152560576023482678438401561642499878364032127166453302057866991914230085918793237640288728646560971,
  46112894579634855860313794514018114574053256485350559525014327379679041788169694813911643478909015674160787462444767724964163407464144016332458480363211387867371374715379358962001268807963942493210628179588121196471247240786446178036340394593354937982427928992114397040264213050246848032019244598820050818775164902645092700333464838323817492844390738145348621810405858437077422638671786600805594797391113288709177486634536774856095771603509232375403030684678817982104214743143725113129274441740976833774373593081710787661531993990652361084248978954073316751877229627430843000599814932694471956665656149695364615843486124294087216462770404522362705891357471193652885004808172109365289155032982798674512301795201747205914974705163801966089929053421279260735482651796621574414444940723891717596280196723435228401496680846558702644525412331652745784588545901452819703721185028010089712575528916867059233943247136813020525800373004451892154554396979867726026063665817179342233014329794839751069742432608174779293292394554661400307078087970424116123110928130100014746095,
  29107204114705889357090265528373157285669995111976940298606264052736062217256010598583566711503325057594906777562682784074292552313555533064352578146630069757121552768755175569499907292154673803690809635614655486922008748465972738437557911364554099439253483189612290525987790216667302638075101008893085207841432903515928160694433853608222730660830890113169859030280654023162886232073291753284194532187594205909719247461807460846351580553921777778685817713180900685271758181757142619546740194582209533319358093647411126599534127271946852678165294610212478562386274484447379338519377448966253009976233752231592025486556060593710347438541781239582287104600220695332429244482499544563498700286302459796880221433603346745304384539351417240895181150894694201619725075170990768106139513669241211329748599592346266288571878689751873150382777861952146269318284324312122230587016804426951011273229863810958138692242811752727395246272776775502180882021602751999659238136593493758839485024655406579617654249724570013399229197112273820085920845945195048513885571515191494549351,
  76963253019285694447221938875087258369391291467580957580794853627361733713443908466921488649398267477599526008825882166419426261930169106282343736847390670090918127654391970270638686350634077109177721694570871519914957368092196265202431740674473983178214889473549312450930013691914503268104202652109276794525466141309794091645381541736647986133666333411809077667520893884947895584972187893422144393747162957992162480973056160260313608566104400335912303847858023074128019965748752804184294080421467142804924648647161553473448007398498817718109434738370122722255290912612659123218771021093588613696037104714101811738997084588382647201604747576924303388228800401345584042831775645276152409974693696915235453467895038985352503631912009806960335426751127303955927631156522108122376250017874104540683202113766826747203884185298680355310987878389756272006764239541763764809709228831290771947571867141364659865282413046126148340618227600083507050171557826566075233122289051425222406958985709407873097265364379319359460760764483446173664191040111595685475790175578476594027,
  61838631455896466089016814208122472651134239255857365439278260973565369224201294402661821886954172247006959350454909709420518669006761689465337081368223166778368073778732756766680753158359111964185375317344180700605506801996491973190998286182248394885903491723450805287999817041370314001238440334969105226115553427432081013587438291680931060610595881617977290747956564717363661543570469923131319563264190971343005934047331151904248188957841770948144333129242823258725557839732685125266263659501885074316824377321630979159537123742112519514637831303991221163984647897669930045366035543814152865075930664858048641232774083941402415302828426314982196553955868027768782466252967895887520246584393099581781828936510222339920558270135933680206111391722568120909408394390182917188642522085372889025345879843706433743987149986239408552398417554307229582122509830602634449054774432148467471267513489395884544550636462892956545634672545957749934629641662246010847675575804964860638666894734557460693368315603285846111980272255818909510992530355620425747406762243812720440129,
  41347230349847000761470100072992271364361007821814937460740116269325419029717801598448714483195193041664719244015280904631025375310675896593891220782018065538359031070418738563998267374399328933597905761630324356147740399926034896137978956329753516249656427646373944540621923760807859136632883820029293822100822179561607772367087211562877966016751562931714759559285391553976857916094413898512417683395515720224925168127519884740939870441386167954886122424460328735453262455044546797757621800616930522188764810137964000175908312452973044557066388946490906765307135848030806347248223959872687459229142740496037228172454030647994290032199388850948376362208230751120289942376059851574583118428317651234768761198275769324160803852917336395930221924517215687445544974491036192639516963747164017346118551266121695791513923120153163803092774895576531749664404767892752160481733963310085239025163966337662607934291192041122506537261778755964790013745977986232335396887794576871779979602180955291581233188538399831361406465334609535689488244814833769870785377182447866619805,
  908509379050218635328207487658087666340703800267700139587635566175858874609561515078786443748942595556453487490499752883185890580315526596153987559851994507421366971823198222799070383716564490752653776784161302044697675318102572904963598102429634334075869305353250388282970080644826307786015067042640210117928398023727916915385859933399460902056909429133097898158039967316913747119170854441502062116128457928597247153512735490838801808601937176318737472098278868355961126232175875140736037115876133894374239074706063102060739554599253230822404385064509373664216874047119072234962812589145762693141785830853457868093582575967751581102014255671019165013428660688914617898659133819168962548761005271755379246977949598300151588209560643594479568726524714783000210508007659190506913687106602757393681962387463696036535618044879233671196361096443590367780386975698700066128600908972763784170681011023878327509556049863437825040729398711012419062681184758871778219575668716391096285613114851310262988018445483983563346369858961601638832451643833773992517561538214192538,
  30928472757417935315797406077248985434243843824535587738806436843643496204622085681770842969823440204711913618136822156773120335316194541054529891554968447540059589205305702708123626437709634711950428113633878047429414010662718717664614340099542067035561333627325344883194252235266460975178716762252833328171342419911292259616541391854675874697896062910456096076086985785164005078836189331289263035967313579881132281547013497032137291056911886352743379874640009871908491981081775842489637713149006108710255073636447990823086322085169291078110582245807009800937930345942480349069554973999376414714329248518157485293857114229214980903177862809058471938051564389672315091378915303484719259995802800507999798976826316418067099908329962095757993557916740696644511505492599948341498979513543764436150738784959702373119932405267647245173982593364879155216161986655388041165056716373737408724703754379390366176951929572954606131776184606475029318018756555550339048825501467112975249296042500446936578549707880489043773478609994261212122469120034657283370608684076991732461,
  6978949106646543195068889585206971914268441467130256796909917908161843343953821576359323173590060476018374028271387912311930665217356382552974441855461583761873215681575535943102566846559238320247588359255951566301448338733468028772541151723651806439184542603290062282780037938508686861884600590837105869164944434545650668683317144654694489423491958520481878178581864186652628245115786007000346777967811528108873473070340738091621206231037907068582652638805098960059457151190977987815461985683940224542743719769048248289768868040262432578504078460446484041845351005170187869236198444496122152062906692049137516087297732254199910428180972262403198572191473967501393802967133905374141891311826148783437969387834707191356691280563360167565306831716340211946181202188998478234958154166682407577319765731900329568741580149128223293609928807855328924205287605062011826251197066362795080659757421326269879340926926428884695565957505962325130984536031532306445792555666055739549734918975207884764401952215093377418261105878027766306575323339240415793901200053330746689770,
  49071895535818451067339986761468642176047313407455962664376967689219267908867637870975745856207795103855683781073730486014348324901482925766975098932782717975508731359853653730686601696816513238983215728226617476770978226904675905049465913741386336738639549341760191080938433352488467709654868104070986405750083477919032671162991441576455886397827600040384828742842443861493546515886715731271921762048173857757832194101564681233308274288950519349957729656901780312582712859870819818020018642640529408637594041388185472087488790743835758010221570537512107870535602931211703151602430963131902654075354782687825123052097392092658746103909275330038685505582093918994669470872712894659537011377287835155430845076604187125435510067862704137482915833957450060195340036021564362438881831892340026390924485926815055033472619423899874976692696000120965537578239062105700591978420770505731047856838006931547908520175594417315597347091836581043427091634094224060682571255585501172963104200985667015073854138762860834844109039799490063107686525962628774696949770716328882687828,
  76500572760060399395274868370068115168419542379481144063048116267469143274130219182027637224888886681075091827765989339388568766382491418311780019544408421962707025067083385235636514201629285555597004867282590232098766651335543822476993781097973767224045392016265006255971905600219911749370266263671757771922665071459650725228634641843432317107551085580466621720093080282515943627531830293534627884413315275235159487655988799504617033885609505488430528673728617376999619752966347644379233406614027408372299695151031262113108894899546058890545976406074492027642444934241766631345970595584835524922144526717790972136761079437801630818067919995112142384230488657845937227450677869242055546095839385512881727623676115977821772219678987500130135875735087392879013989402749898134307206843798075458451169245996995237223319161937104505824383310405902495001090418034019707788459213873346939370408824226735342408403002406703294622699399547302683397404743615418092749528400911436367890945352704211868751690397363536795173548055241543480420844085372147835584425478301365861106,
  24022181461429241785740767995081970706117957561276067887544131610270263438217200097407301583442169789981382939494169673169341228114321636030496792746132475579155579694021374014121014941669639824526596040634928206453504647636752650014126074889187717428147440309912327048053987892043958763581439558165031706258549070785585852476596980944377729430859086793424810835008669903592920983951145721635325977770360111295714112364880167865862596993460543949803340337085715063709721466063603537922418283198257700460923594800076036476209820480170159679881611749306859917101713685832571420639446628811469461234880220282746655244079793620852325581796660182270165549299191417764516474311294484426024877814784096721509108082398571495452558797572746625102777292551904872907517964705249288180336154540526443809432452388250910224093705695156079544652302386742972727211115233776276444407765625444383312501724145785367188586573996312241813276515146767014068507873329258839979072162336953819428321660420301041799946194040259638819256850653598158525182098325029375468855650555339775626524,
  45147847298695570796867605584726387835882446894472600635742779711502318405949059747631007798430459506571752665210241246578268880009943747311412875854650420236279463485829338049547758470233337787503043049092959451644581399712860323341348581526161789503031017648512903182781551072044616008934673100966253658237673368000816336515813168780819116985299641307152298089926851411881878401835775431710370497487607761587561419320077687451406856009348023898390894845660946915572963531308441873754716066400696433210327170835276144803053913497222203519476885434709404097050376633765763549501615092242429857701617895118827724370753979020310031399436317825013009178738423672220723593036078578096900768339959803816693350007481986001412908850692889696635149670912210555284013929884518337747244442804550130685078335842132240909023183112937309893263224509968084903600924287929173084369688408666907818840812509051401974124025843605812537519492798710532516981340641771380661380117193494478611233079937205839995199869238264477952843846598190424271918660981408426499157746058205263484658,
  64744618159424530660791140490859660087216050744282586542731154059786770596499059515931294908376092024767815080887914730236418722892219664404339039539599938148964266902239408859828703597104277615306520018645788904585006784917279238854215302892474569689345740420283032926552177603760952265275434868633871726161542127548018416307222796886597029906363579299477887397819763439583742539502058854530449875628873252381543371543328337257900189472082851982069734614548854111862219011206989849958592907121905938749915006622802708139479053809232803995768358568034828985370262888254899854358846951468805318817544098507756280924382118179136272055060942741940435653170878561954711100648909290505044257686131770306755392533232205433885953336208030080621113408456650736950967364771052630814903756883602355570782551012424705861848767193730430246403450999496337370550762176325394818092570459946337932337963736703639303026461903621948616554295021545142736900630290836016468991858426431193645874363816394790627122530750060931877069472994852650277848846787033230073910948210941944821956,
  37064668183397548401371774884845845090246519594583077521084424583277104393853452900273266695568173992041476986801460281653072109922852490355782375033607576981203011736320242897652283292591115556754977411537987521393250477530870077474243872472102164278506283871638032619432376135609869369692374500510805359133077598331477230187517529340755822158265974708890698395848159652117567892458165035666883354503797884062369772680407201121554158196784175005919074693464854596578209480437045758290069096262426304130282074048392244642285052545831563484870407320159499382410502440041096775706839892289125674956900330247610998805847536660567459041717374159725065692011958233214891558409082330616548237934359020327289346596128786845529691741134063226614073812165860233723459173905915701580730071742002311432489745020104318611728654669557683489034331318478627329298031603224073095561132904767460096717781987313166004799195610118432893486935514843449665095873708517947001944570396567160733717524805926067264481610018727551807113125752732704785480353771980712392263203229692000912354,
  73531544733933837805299484477600858247588640654354884252744910374108677024902432377615594800097569216580901686365383509260928868235259127505342745624494215729250729539149467890887964172376971836175561556454145381931878387995929677541104602034801724033140587641225808722220436063140490615798832761911472898002566335265033391746122368431299301829037454796161352320408146176362410862469054994992389033616031457712780475870724998140946663406198123086396602450554056833110527919491172277212606136441696919556437921236411830788679866587562507445265868556818414699018451613848894967740330295507740705262079572520205221242507031661529560743563531432750029418678546782720093516743220489401651368783038220535168959537497586933080707271892356443567583317004611078381819522558143702121067524633687832076745111963374795519128939138625977645164918624733716977720941085152139953362567560560367886882586549586122093268291393150617024195410858774463906079666948859700420345740546119420970785407422782843557953905665929420080807821081815349747884417949658386185049950095229679950404,
  19188810986764452250412940174610333554985907692417592570150668706277040901475183415185458278244216838383182525086973439885488350319940595507054347599641227284354464012584946794345869556945947098682192176511634878245781372242240092019344270347982125048149285852692234671437320079667076152297384452066216057832572647866142924174456166705733145070050340650173830424710535802793298440182035499463342408544573270264992470863548021670243523349053052719303606199599595778466292916417276071359503824391452785121845713116007340729916128743867302614479549097910161389224509190748049969276859120022834431253364854010063434973047225720836275375954381111237057196861338511533383986825535069975782004271494929359481799566222540626900423294713886947124351618210212332413121753247699551722811035178979140137753538729271368617563839049707045400312211880460896526647882549165479922392162805908153154347113037500198306155061180392218561112640893515634728588907092288294019652028164469389560396413019101808637100337488241486468032942876871991427740706874777715780481764835291005157318,
  10567892413144189438923226870676065147762069304311477230585595833906011398960534134638293025735832426558550244487652621226022939806525617779015915319880522269284602641457917879166247341657781602893004480838478661998425364434996381239301510586814186476557294835273736739024582043993407411953749481776570798567247857780306764917364134232251095500942703279053088817682691756430588162793746392179174044405413620861870268084594549848708337214862378121458549307257974154998462056417806792044907873099138117705588011913968782988659360702702369540819707150391514498554129139876995668178565653356269775207581581915957594630377347682658907313370161613190786710975725736105318096342886946338802837717248173530548252334139735963409674628602247488439177192984491380750359881395212572264970194847696023273524686439310186333881511393424738342634852603580672702296266435067170602680439132157139295382045310997757200088105934361560411595244992647865696702821632287125563534227319915050469885110105646644135058737390967245651031846285840394481901190154803444128591023778749921744969,
  80146258689520281324463495933854976722739299982978307597248212444305188038319132026344092623052099897559506809713871249065773086292197662552673211828257593398801017786605901178059770305269188624332347623464396384247899577928476429758050456649169049941913360575923596780379562440215863052249329836527166388097728660373861595082224198976332317637073146651963133506707996302772579877225391242138624578678749165475265816816150912921022318571775316476072022797630181544973841836160073551975965387085959753959032462906029093775411765510633468307573650651907805251169538273558309680357074839108954781343790592414397652176811155110039779587967196131994727764152130035624824392389278376596871845484602321864715044699950175357675231490660530668211077635784053519178967331779856314521308363302462061622556960418507079325604596531841521746854264077397477182040995200761452300322608981764834536773402188673980083718706377930026750587239981215643837859949480948223056484522156705245076336895650722404138463323018577686142041155619239469224850692566990364501150976786733947889326,
  6659815655494225885936475633747802095538117317989168804735378226373468812365927204157581044136537987313844140754936057310450765055452281651659825644171211122477800840673048288166843875616650858263301720497917762294178358275520205920929375167109462356271312462203899896229327831087733720572051503068601871255715497279187861190670433569050745154623616599995627648263118766991319311129378220895756640553753714918433535656047796960075375615010114303546544762114313547253991530850491850883542179921098923467101077554590691568216921995791163989651355148532488333975029497142498329816422979742533098672782339850570707582779826775517385631434267832402671611051889481838504794373072688488026193781307406208449784528641355858408226798534853647314679277803844831627145949666487724627818032607381280864853925285724589155968117999920214014048065342796377445187205643369332633188180373654711456283256450651656310046190329346831770592451676424186369181840028128899322534045891069066256010452736986544647282545401935102333256844370331797855601937906145184708813730281387781215379,
  80258934511739125492565343190433077425510129672823507193474837243080326866635855402888379535412359263333476896265974817935655420599962184903106756740308416726633462472740594281121206777219769316301378752459376607344204172908334121908798727256630634286858056935904792790376402796627442671248282056581024160868135549421640662351163846046622098173009213501362255251587918230562104541860996727484765445606502552317744258013786108298813279690500054858930190265429265485530813503536842527647951957856974949470510097160909266088264378507055073138222227186202488136108001182207374190121475591202426558065800022649306896139575034856622456345535408525481248447025626234817909735144052817544928668356365776918512647344172368247637070389739122484199771269733429266119537109588449991637898331251775986874272908150093361669624155350761829392917338072044522241864942284616781777404614208068859723926347221833376822462834604028634437112321798021770416358201167961521780436740911891062798154038452740975948872605787896115074630255240414813665013783330027942409972524008009302531018,
  2786319010558281661574111217183569931867144844795362251270480523412545903999173012339992922673964989552477216384622061738764413198415995328904404051640199837897863239576994563925957084247974033603068885851815661860794075621433200237224395458602102017888616254134283707361080949333052428422599803815192146999840303475758902214811243337777346175849275430836810483497258364097674442177310285324768390956294505320519418613698903521250163650338926428524269311620299291036028649413150608565838475958177978323752328740645555437478686836396165007932215806679273427402474151560055838154135823221546918444973794056450094791488110055750203055041227244807115122295595065250607827588723026802120514180066707431816555973584204361342258549280094030044094165758039819432888816175076166426358829249006756700434667401800518518358812743786696894369865436688434023588449431389118804825962313459158675486000462043323424748744474494014782690390212683876264963867904747127753955354699237739886717194842463586357520094053423813399906119716062204512903354796630031594542513698088110891094,
  1113467382438098940952153660696357861036316321337620173817084800373246503237005084658505560059669309999894852339176174564728100623746829110021470706253244547033782416191263394196011600430192510726092264467479094438009019916717353484792860684906456726004753775089012551246984585730733018457233001289582598707319792102160874691054484304171360111511135631828141466689068312804455309154690006729042100207070158310255119652293257301410082035892791472855532455413934658829417681307965735879523173691480286276836657565590490494630000593448240154152349271196473693816835659725581418895273278895392343211686429979592169596513074281764734736235477215118854718669978535770711431905188607926848099987776395088574008990685706496414622858752358727997449387566454567160026905394708631615513924288575781293679939835174835526103390594543125390351289574215386777444963846400670408415290886345447509812071506457258117103542305165353845050451838601487722476284996828622529402827709124595009061289383677732523375673932594527901135028710851047775341011026225782367261485211061759790561,
  45566825872871021414973236220883709109761908832942956750012227659111951478475721319487291624250784235063328516760451795880187866489161852693450684594320954111747233260378418193582039241850370516498781324103930748840392422270224833843718536343605333377302294567504120936770679778989345442734982132144998838365667370951218813229130476438898067050173843081135776086253905255576035062070413158890778200113668449992234800704830703339565569717046694424878863246840912760181702061379521512584566411795933435440631033518591344957232593675645476840300714001385620816607916300400762561566873278181776517843293744336453170007604109549184567870059438455534881681768443311722305380909163757069628941979675143272287642633189155086042382175430288078836558708506545096869251910573579145636850385464602653415750777910189855526129162002531819519558494153251318497839498599899353900826758060663563313813240107345169652648325344364938100372080416617691687161644427574611473721492185546034313181845172411684832118663196242332865521588854433738923662477952951954479722935581921953312276,
  51139457648639605222764304035727787288596717363399200622646692735769214239533729173843739241613504972253581065941791921917893335540837048849955909871226940571826957658602361729883504210482776895475868777353615346904919758986076064702565475048605352100549139104889825661809073779837337249511518627073736136689983232857487408209001521945533334111084427388832474524568180541180992795812416190053788809226041184924763559953638524020070910844905404246622870489353326682699462912149648780108791483407296653013223653303011900623594623082303632781949766423405898317402254309657311701805471115702135628252893301120590307818548335135357903182409031875051960535600947318850066069174378606704656147034034795182738005282758965504200276402167341920519576567123117366419753170002776711012495366732167143189746155484193230168383961159857734756261336509556783655357391120778557456830420097966862002589428682250045915418242358931541436850217093941803132907088995685318068774530212723575643929353536045784458023981010535281311548371894601915368974886549785287161521853637100964893902,
  23206443796285574565549620872984183217134420383075284064200509437774612912525089606430925981286024648988422492334860747599643725741006583234923157684318078524602254333495054748277347263355867397025876750934976721561626631440437595407335648703771346496283341930712947426929453838546597002163629507480016513893979802726945586853911495614786207881259376985998075733717350002985481528025602033187933535413058738974412289115211772642442001942238316605945383222760303624961604666259957619647340919889205808959027458461998521920932611067843010530545320119146475427620844017644385536547981372525116586446189776345196840822373898890443061196656703943574768076468597530589522254083033155324710294908768646155048250311015228361007435816914401464249647280688204952401494561814208485631762551210387531420094912469304427343039488073072291093970911940075093496018962885047614245745505098138065652465301439910230815313665484694733472638765160061138654446715707507501987762443754540132689941111190033557133878694871322654365891279897303460083179540965994959523776528868697254746048,
  47954048326832680762908991302250828067732582719795769910062578543682447891660063452395365797476712156016183318713501338700399471821648939272893675695883750754969420390225037991573757906975723271072899914403164051798426068537942992925680607768996410142791296479975002381720466248710175833688892946227917342792841874429382506708662901371774955754908044591047985340695518122105515118159930970277298259864542762212555158756211815553698925477407891703215158956513062366238793368519249140682326223002075691012783680085740121009921897833572455780786197097471756122087858094238478242725487668865243513358597428552656914861919603823728873711780043113006058635398858340759679837769853218271937789424944230079226565591316817169367780309789778493097353890443622255666651111935039289738748557939046953742910407659773955426854263241117116055707650405831492727093401780786732697487224684906306225753489081976321310171043271069964418901295833823904500671319990294531057920468624600042190533954240268284069132041432062865764069803300595547590260053309826427006802327887525577436346,
  31512469224722383415960101530083400221445366197343588801958421964441595460320139834418802053994141684273160118718063524913447434122596520304531988917162324751254021995648261436349731268393445204985675141923020511435397849916647543092160048159052079386679535788578519665555517825783626344977536107878544906245716101799710495510795259618522918146189614223590121972625963475983385123638480644315752213379854915026210912917384405208115476840340530169253859283586368652119037511365797795636221826675121314173559182238880730103921167369888817216111364104900615805272514965548320976615256455568927168183421428909638367291775811520830527097472090443212607220008539805320479769925646083385926230608457699732983872482143045848883121649071798597340741313508727922912531669579665337585274527363355953399694801950287814100335429116047957239858793903398833370668784330427841378700950342948267423984903016394592319348472907914407908204841026050809969170069056490311531518372319464566283163930945396706226977746993894269275239768212433725645262552038911960396654403023444433845803,
  76790453799928166899913090302982405731761256028275632539167518859818074583448324246426984739755332964817981023045968935913689153194834869765159797078322584439983405132391679325178099608395538498385059934620755590916638231416091853000890907029483339852744991449746027638119416256903469470230076301308443961565004167492333497092482491965313048539872223028663524648739733242503052370653238076725759991869521980928493009713074859442055400885448266574116628533855152272675925602701956098516145006718320003581961910623496283643127150254061015565384663747214737167422682924088365723224683670396544700593670208178572739530441532758474489095223988514965841080167037857143583295229460817325283824907962384491139766519650755022056405407945069868748679314054463009092436833829315369389075214781081104752896416079151331708642959720095654431943472996671315172253239743954303619833512587513091214103845576168736273014331389575323717917143026704260200445466533756171929572399061634804220202185272387043956291841567582399304975039472401369115174806429416489018811969148646910962510,
  14226302075988325897331399824353674861993592180407127754962499894220661263082961286064685733823917972493248134179160876827194095563999514790828318948522937154255609001784369109954501465406336868623951997056516845192324188606128532668934752154032605462551326220395969232216585478387930824515219681881506473159330078423358309602734142468594741088869137209085518098248340042051248801826111845526248559565927432213457171067725770635559702324041091342065176422575691462706129691930351456943972643878161938881184711606466982799656086980162947583865107027931544760147804245158912325307887291504641587327521023091986248153528599014916180637588873437369584127780738104950991935137568005864184619951835406298458306129652984965952795355481727699725931949699396069829506627369687764188065994590530316580292904135804112903676935766362467899970613379713245757859335963404137909390888178336680969502455889501038139571465855359340653450278980552824362055227647540308578901977654914701637993956757679563875294519163701876016423776556900786466964202749764623821901754713553243982004,
  57049768959606215155772850415695725783797117884506430932521515706198481135338215220511533172327619119864389565202306340473488322284022086861952367603743606583435121501183854439871156375895367101441146087139878557238473936571002693228397267532234830895519598776689569041025968733657189144277973855372538083890272761573858503150286960670037859372330614221294791494890892840963427235229953511090578721389235098393809840860992850587671631532945702266328475086329909791947312472050201321627839671540997613496410139428317743808455968160445115689151391623623283693774092663020436704716230180435575746645710310627710072570048387215900021555569656513254055821122338077739492846956685953251742594683179175263690889296635584763058507486199388267820738977395926764229238756294268773227056667259152711331739047887505814730772018441788962317925727298284850681800601216342470633456055150042827313348685819013116923407054606160537280749011472223890262383687990916766879293170332362577327235492145609393055205665929078629018589792521266955596907345864251743246030412153837630803986]

def rows8 : List Nat := [
  14577771357538805118021184339793803383038974823127332605842874240183893862004820425817721285327093937663648226009636778071804929019567244792051912001577672883779762983288375903777656121587936981089644264966427429564494444244373186680730861691665724083685696281242302950451354769719259887332506356042689342841055926862192865179134158535479751401139104549306917949122611366971962881580704754300339761613555222058945173469489535231732914941089059600336294754428458813594791342417192740983727018155851156510572193094349177566810109883340734990546352220051625547617852584485599389166205562767582484155930326638112269452878739978448267058427723070870834097401199501380678723768142758361242210578255540790376343137120036903678121340457316277386507348484280603492471467283293845285362634829824480913354186095903438092824189626329689255567293591408828458467958659211045731337635660442949902680990434095384933056918511233450659201921968185654683602430163931716237010916105011275483810530400822057931770660640224451060679258767510782098228264629774678251717323804955399107549,
  43941597631214204382284864528819188457174453602486842895688833777450011323927190850053065432740917128086981380030173023266553322037207069507936505258926350318572702581723310456191025656280491868097710006894171127688939974058984092570211687135814945626263789824985209661327978391196531832048441535301608337064995931183344072671903512344298475109264921074490746830497148566750472575037859782182680788712731425385622908571276306465644530733294303935873363769654054225169297208129718344184880198945872212835296504296027466871564631372364742512649236779631431994145827983999443378350696501507755354709452081493436717703224113226461402018429889395331149912334193662379020322647862640756062216817289912997398297073887574255719997083932308575787031464934733603375123385816101978346216298086529623712676987489490898173234200336137929486647251847885704638864463065707428393804192645479177960974929186331038786226817663790791244250898907025441492737246986362784840881046223220895267317559916472568378944302547461614947586921367763516401739713761544886713823265700752642791611,
  85911789151559813702058444757106046629788610866453237084032085297054404093117070647805390704003343099656114862390695098644330083030939809236666251036126337761777055364458612519113696808793559464313618913209746066455735462449515446119962735763614166308375149896504686059621079147415137776243373693846761068288256171849406237742088445351103934518644056338114598054438909888273023605758258752681095455402274027178673407395153211072654532528669571530937657054888448954001250707535516920226803789133822755918604962501596874504692238816422675823819915071670793320255745332970910011264634521598091842744308623627679501356918823858432132849465925040904960320353789712266639544339028789982325596048469328964228626855445861738205790017115281629246477943961130775583158551227259429841142572163930718574193489930253505066556413153229943820570452359977008098296596175663991282644681892213611678647267473012115197384803466721855140022267335145424473128264714036412794298546255075126437071083444036688749012916958698367867332375060215719123327572831597737259945091949909135398911,
  99818461302201522454603990134728090315930290670792425453934702595110308939348889148612573429689293527649118790961334901495843450173690774742797855140227205927394464832830433012895387505809397262504572921669659082736596792636501237150932110343050384843211117413403306851287539660287996718751675897479686071143237159491763820275053534879478098095954652297867201348209261454309279408950659289224239135707770423346009404469899456055327952469901233311655484791848507189578821424309044141477076361750635179827864764848440639909121022797499364241490167278201348115617929225680538083424482485934011100769174175437602395440562780773105023621117472169123875471618130997835137014637923065049304025281167012872270893380416455940011945938594145428746711393517389488438455594432457029608625324632698412879453108170357247253535049734649662025054505871264089207911563515336916328909245244469994592904239217423416398323498557173250354685899897353683546735862413516684529092360477103165029245941179490909029886469725619809373376727926485088684817445132131713786271228062193480599676,
  84541656987148919379873867866607808181672247149109856048054371312777433368154384338297712009001312647725584012876633558067748345768810872935035921968212006976331979536243508901188769794202492173271961405338038004084858271910447875357270403745207075094276509956071237096472375062966313402930027715511481175493445048820698778644102776953982080477744995224483435321769795263064973385778333674034127318816947050285716949737410767777509439777859056401253187360058192544913614439779844246627064295749295833720989203077565678526860537478987882380254838456905920560864889244545999409813289109880923585602156622417377941048951509233700155446149212217949295706795439880862314399844962864841680058820244754255330859616638695754246924665668446935341032513144983221961510403037972122768577698065466106585403781197847278102566762071611536749463762704507040511706994320351889415532687438039318271282752335367912427712466332035535962372425487649340777885201909645741528261030067834946063654206413645248147103915839616993692455121455273641761508290268123731628998756290537195992437,
  91934769021418321954677603624575721022835849529844802424463844007167531600235205733312516980394047232239882307245725957861925465275177259207327218175591468855593656008331487733160714443043487581311895517341242241699521676093408944815315560532313655440717666329969025166917501092182743488367081246999323077902860532367882873503778941048354385438790205063211187492306206952073886808429471993943027224630766834685248346175447453392048488048182088860688396893551239566415935439241472560314066919572864252470414380821569848407460626212217817404897551493484938802426787059800809154632604670013469684103282318244916093038570944603153216734385665509199739327525655733166129670834947516937817496353185505501816147789774866797411253849689748359805159089086613892500508467261487388991957389062631704737047620986260489992036390220863441401183377323139800805102411062019782384222165341329474449535804638513095327074892195070813413119390555636276640603152782117199124922865119192560943566827285916393609696070196896346869617052799713508851621846099579373477874960364790413137895,
  49737471199518107439846128995001206503480673305798952395273716631111736400483701925227919431529991966865525690197285686661127150724181808348187785563933490688888957454166742450323097595908477548439181190809493902003626810042053038912344369539504057923484006631282952286638609058697348445909179241166277301594104898211470567010650235746734267801482688838119198096386003869983358895960249267076208851423718403747773865595063317488471452577720734764458647378971958168272640952551331596592468454458010979301264143956760327629363126016983760457060278281397526607976233753036403462399060179195856326719580324242610051694733540294250519814891005935021846030812122788742029518275618287780366389626420041959821274042804162797228232865316127167644737088063771595181508469561522587035841969455011950234996674027708100271240574729486812202801260834294775037655805578078375557016111494736167592061342237574336971995757988104292838533787419057132861083577026437568293057481626338899690233511378719292616379501172326604443833178225462333712023912320554889938812475337013328621146,
  72294207729329323830576445577530636970098234629231997005108864755707017175590992697449358277744923985062822509163695662012081445574216165447784077647507215861139522786174074846685500048491183095332236183514585538744644305576461285228690020625520855516885215413226281833643901136834907350346256321834315142150109054674031977356430634321824519726894097949625787151236524228970744345717533945075786104726389673051967766265906354928929365943847821888168136863016246692340172166661618732069016150381196599364717894138225625445736050485786950453256964908737819761671038928011411655268273608402758747391874975906003455368967169107023174682350173089635298686946319826953365612936821558043520411263534705397533676188442752197027727673154475008726192242315923955863834032381082304435149206642941982961446624108993858742443077443208223958380492852026508215598752872371657051097921098867914571821338333584679052932446919964404538011861418407664423881133929611923953274196328608267238487830290791763654357503723401965213298894873037364239757338754668260353231035813673361323888,
  75175317065099861107266196884578092633431219657423511595281108290279245359030901624418496640074825341328833457720245778758067851921009407517281404424212234194190151411592297992008322176454559608096968295276834576638673576074127040578260795470586974206370758703972072310349744168390311346751446996916100660595345611790619320314746474089788687830293429250602146598256885496353760735710517363203717666457641433859102653449443760161372057417798088569645540403887722279943421803652018889374407331447657345093245390183440014448038952592539261861848146415777419500595784856693259611388047654166743690160855183742906898120876112294127589359321163389944462936719488343015536402583785147451429459480667215128057523557626991862118469672700012772113210549957809065557631005612140156600544709352873404272328936143505457428269660940723447682592883463800075051120224593388523004662675364696089012957158492779311312487581734517688318390935925100467261251705960095833976192877792128440556899578434182985079151047813896756549420213388591285754474186384109450839463597023193564253642,
  74623619033740761152986825899779950576149510716264707541150736050210687875101109243152297611775817859576602250264055378416402613571580001038237403190824906625505305212057347844600419109081331583821651144659611667161963258147061182762187879454392570310514451297912982931021184719677512628193721326625282412996800012306842441527931714358598891741439697247285063303968574647866367259918139125746016822354841310790720631814388206077308543215873724686704153723043523421848713334262646232858388429149109453728109298025507477241313609023812264864105515137091621438909398449231728932381973654344397726768992185145509738293322678829564806985043624703191964837558339144536863853425530176406538628206767721685385562650836155902737257514177102559911821987844801679907456830790968510380579850822519940106161641754175389989134692091846791909280598176462348124455506804899449401345151869446721949123983645753021579590078068766890343668176279418748572800218344985698731335442542933776420906000653366005172199600338947579199304845316358141048641892269343259036669726464104272301038,
  82999765634667379805455747223839321398889623223319815589112452537941099975192317535098418570969788026415335211670582505887171241196516081601907337925608276674626887061323182554937510544162622476963506747274300177942122398421210770350278396203036430372113278943591141024880091996592500760965533699735345712420481148581670254163927080443230211012368616034967285002892386147998214860681020946698016737229587083956186070302831500689949767683040668704575065293856564826562129412231861037201683773607119471394636513870690517591983876860934840227114213347700378782925320093588126380212087713696606565524523346639220593299377100399565453676530649072456539323712823590065116166827762268826164790215707809419981899191041272323364610474234572071149545921414722175121818936704126048811514272236327430643629342606828928920251720306733123017632108723037776532644050635350237366609809597645925787485849504223607890894057442331548961784429593388138848633698600724277552855265942576240993309261629265329484620859542325814931361405131637903179959675168496453008203589541335684402322,
  37727318761460033038797395153412581944333472010596297504639395941346322836769367960351408405697272070841122129845233902929785770838823599651881495977370443152926242160581396011417060546845775211016503389846104702327495400963827751825908106434024017464158017183306399122130928152037805890687011975029124205350192381982837572251998663827355488552854109295784342673484535638739519093100369433190056075933754263259933473763160994126411558669411119675987309906097202475597181930824334821987066731754502221634661522538673944678968859030902208271421148974523577471554529052349319028217886821924076175949976113124665970802237183620435432155791496412778663097880080383713889420913071916844439425293920711528535805430507608192444525776989381547733718653369189114005595052646116412752356832032602823829921383290327578780781115421082634433634294125469548883143699426183053149774116016808194421222201569961920834228647117730046864405140271755272464044656826767172934942232529069344473725883037355445654695762960675839759540982478676199448093341705784412491206422089383074740888,
  59906674213304351680780996400277149088991926830027905652192653110831161066951637120136287946503201514802779685073373531627374687741693430084389106521099490819005546695440001990989189556679797602904044697166868125669292031480003297328657986535889762433960527195175678619823028434448151150859779810014281382422298329622552069524489417518144720246651470618019705165531734431245643242069998654642918235901408046369490676634526899453206186634875575115170149709765645712837368131952996225061819902594987763150137941846124013513300933623870539656535354798931981233214119821615497912619691878833915669510646381503656479379158886382646485023101184460738791996429716830023246357005622354990301517847485708245782334321499933335781735220887538557653888060349446460224131983534202724258109780372706016931266446122283829801585423168603834094147211919440664006202615299636981023735698654219798194539627134291516683666314781769164409791577361899367320841277014248445187212882268020650717861372977670499177041616703342289257685361300998744935136759490113697561629929443057807465317,
  39679021919603472620193690851460733289950446797755916772545224683309418971583790681803972695974872104844155971359024602179515083934062401359457672560917471712010467739530075913659973536994141061917213126947773809109216880328882701049374868530280210363563159197990461385540422162753248452397878644057807116294496712708691054505914068932329854691691290471796011687543635825721147970056428988781773400342073849531462571788788080085836323568737603972941336591357180330637540168015375439411151945039474025062365476641661657903689786479286355291796052203106065811045046992410573907893430672989738531551305400054280850683585998598680808515397270518279766043375804691638495689554212839432531338072261818584614685316615413439220358101885858332283668865954038370046067294963198085372041109694174004482059771538001434970092475005920047941764990257279605782169644690809298703768186647442914593632961425420122241558528176841790627781703375876389494452121064828851510403656618445753695388719183993600110698702738613112536834417650437417935370003917046708865000858156845394789767,
  89452552846226988721032166794314487759967857436463199999190500790446697128053222374847019583903509882204947946381914099996943270302060095807247867061966807069310406403064517646209959694394630524207377798634243775169109140156508843198098069811070085132045508624639595758174010209524188449579773699703215871943684427205112790398155143337097382291896071009449352920982618841975022581825688916440921618592707757839709370471363674606523340900774039703474069891008151975546583265491661954188567674950430388750313272564016818727219888012846384583528222499278378468365349425478901072470731929771045392223507191514192412113071686883643418857771788921614342550238662488985694309449423235526764451713315834099324937903085977772604437246409650918080417206795160818117888504373136571280998634919404727728482205420081721103839337727344462532541818078073262500690878765738987428166690941529132916232521935368158967544628371769508075685217290363014657263539185498991704094695809109652528527130351446727717106243821214532166169077366028105575660243606156520925317168247135368407812,
  43408756420059161832224744347048259008950132529460684705938993927743787319132197044930649993657597872481125739401858337653283293368698694654607078209490369348421046610198525084353012566919756508479570405275418294213374374606577595630238629649848640615370383343548732772212052906019321878259363921795825573326713408258580093177010965044923968405292042302766548861869779507326228955226865595137512964678364562681639196908717485250581564757078323718148627411673783999756490942778277977256618830516202706861531513926925038230835615422220289617137909206208692455378907527880716997796175780373732265145141483863624133569772760153692887537057182239997564364654678381275147726683816559716618880080468765491175200648391172262085627221575817813849066280935173582185840974988032004790639585132691441878988957754297802268396739747822201500717934475104551982297575706392871760314285277460668769197591474978904369863575729247262034225123566850427123178117658660040178299867363656524489322932214893245608274123236868845329816498226010189841155352077820881418490039145326830187,
  86919475850477818466259852238219443187160232185968022896375637728786584403972428978433864414464738758473465425833325831923504952543822911540647047515244365643882104218794268222660452928792728047549789482823000174761944457535051150800705957135970535123304405733709577642458818077679174692382058930824815641534928873144557550970755121978150175832649590237344092847872373652700064850704015969115731046394470104057822799031679838276533440777606765349506626939526630743111721791799309957184593793304528989679436012767541843570592613179896374433065500669820214155480508203934392226093596079565717745976166622466824201521168660398697914784891632193306919898685760777301876184891696509383662229661771768832462063906452888506165989375554517906162045705940354231462082872716823474162961885609422893764832967920351419460777728275686696890166161552198675650164809301350509768799567849120584286934104268146266118169196312192260773695533455735656557662685018600784322333752629259095712716213408793808571472874157647214392656366580077222496070781560667780207352717045016279775271,
  20631025860212677315901872858144820761709073077231598327236469841136492532904858824178792236510987810421868621244963386083658418801418511458864840276333001158691522763666148790005343592770803926232154449929268775314541219574916278523457813798728476785847942973528711729246876364740149230208737304532485090662281670610908795030010172799808478614796874122168618367482336325027328427571788448852254231664481871331801979075897916757041258626398832507722743024695086541329559289338003386216248869141645115737088482183224642614484458114346474001706007898390099220642686999166089373705533476689878872793033311469047599857157295335764660354020155966068686696142706077267018947094691238713342116640586612934510939726747219391436586509924389214054130548467047583928391434163800593975309962783333383671351882740918605114337502908151526753065371718490406220637766033997145331734317574407579322228793023365858359638819825194432795712493373427528533356351169641819753827335872127899844759079113969296592251641294544492033508766919261779393470946457923156936314217147837430569770,
  72046629431946220501931374483084671132706667729211746035163206319064751906534972567141743573460239379384479839989150924028030486638120052983409911849041922306282542069028664140367704503223771318903754117525235399942466255633186563248432120239784073626471324224814384856549191066360402783976711365343977673274659930224336518561863649221332142596211239177680614126175433362236575250382402487900011705222987910791984030642878009949399944552941847515873124190705258060070636693949886066282724101386155345258612116000496974482516129956310686977646684922751408361341629736953879320446176365830730967966666069641174976952397716486958354491241164352950547305153777771151064571389087510536287805150670540309109314347489833140046314239948497642213898014579910953994703394686532823679511470120872592071052320930566090695964333212561110809822384196341749390439740273767890481478865095490267483425627076431026927941166816604679027174861638353927036995169471067454465446232112945704728811577154537218386173236752314739451004682020608014592722255849487956514666676331539972799441,
  58624558456310634023834325999831023178268011840099564133220666377797906553796960488110691971887613794154382431521380589931300510216407225370358824723748792099648959705582242626444117612510549148219684869324749621292136358699159105676898806487204287544415049758459884214454736725156862910812869712723439973260272868183623458363129283903744815355973640681255815034364659834802769347103175671475988076683349678976222541258770138737144400422518409600699741585504983699213959432926613343799976759243868935836026374721155789769933007548047711869275420627592195301590709275903981638679448476493852272976018742577512513871889059481032099882135820816750401096609670903398212090804989646481643264930345144220100171089551812647257644334814451922937132030786520941883492609252027962657365702379971271658498395386284890982014651634039851475488513817382111389591247455265470576965786483374231769282232214215797988359857779783156701429212992283073506656062161265342427416596771378277747631499009849255409904492072472722970448938160125726434444976372173393323704617252659454345417,
  8238178218289674552273204922448128731639039320368282616879793619399055196383454786019772225205705769420310749441856187756319427865888199384370675563091900851126720000896242352205748270115293984573203914908849545723020894162147357874365173872862260145583722410286380283237456761422245164708922162423766095322583370958783491749724886946731140123144185375326850498203246121838092867526628698354297659418998978730382390022536386825929863299882859925142482043226384377815186115322940337471706462792335528376760029997389797103457932448629176762381253096012222466246817983387862231130302681189526936031638542780114215358837467716027972778534789560594436428723433463969553736750457069308802899373253858384104381696338857308137052164753933142024388436947164204351284280841141793345205787790838271944360628804938317606132948840555798526362634129966498224352832604528051878435743530592066123336102495833056189769318425558146546904931530188176301643229054143678617928875981711231800743179389736619009828138798637391335757315928302247903057771398642089129483849844223452806734,
  70136526132886041285188606368884020721588051898112989881721306965567735353378695494934364820375613265551560091680062783817106837468681306549811483801262056371275920917217908230104651973629855143377736524337948407140952100465467468199087324482541330453697735600035497721983956774195205262155449300559316666456700596793755913184614098790449972624343965605482896202402922535577436812248366731259319323627577855190628292091875325273656770297928714520002967519657879792342411261859810563078896921455337128178317444384829383088727359836516793607279567919598711924558060173568759897123355020795889814318551136784181895153463043740841601978705355684249686579711135626822713075044469835047374486952953233693572372080589280787002398508225694575366836440023311797918479349236349201636434455517780112139457685413107630825718760239549559892524388948127082553686513328942039342671331217032279549583938410457946378548431703970250372339797770675999728123886479446179714707031482630753420190200834006922045570579673145162523436653998766472544608428926642260185517861500990189324734,
  5504710635668457118579611199403260201885840876046262154779745465664569858225017624832708675211254128350702479517121000793395438800188758143572656684499958346940532114881283762316979276825438488581349337751356200695531070260426632313002938500155864172249719925639998573799493937498968811753353657889085913807068515075519810397674693434326864328859768130756175340966325553276726887111712532493202428123975748854095596250720507346595876517620575951464902183107333628321243400439903824530732065696524660090293962236811136599717552051456317698448408693659956732630336866236616613397232176656783712498567968698267821249667847745375060635657039033621289106330486526421206603919618961142038221972944372626618334945229522757679061714747032712903856906532551447488348146461076515968643109828903344372479712693725568813584041597085245387748299540700501649427928366069004431024436544407854548314368979082464065339328031537234757219213649494330128912631314700594948789614664893647198615050083740958181883426788002161033447116057525590572262286737216239445020487636980417780416,
  34793376795508287565507168183813114801514697847520576989423364409119602917373897884678426370848164242193288350496329997441750376057604382689382106890727876673815120453581030038338053017859215962119472172743637900032628923228969473765945774107926344483426569670983368625339392791774681546193478221688355810510182259843305930937080808015925059580891572853436598198029588533964012827377896433318629139836920039598946999201291240238461537635727642116110388900170847726969458542637347941383509980670969872061712098484480129554134952281077122288647273686451285854219641544396926948486606511627408887272873093197912673508509981280670030864894510055060267898557824490210462105782618499527966043518603031959846250807462298478166741754211964299468898329107262374767941115936681673628843202946248796128334905286698135629524886115535190983867356218174593629532212087237820612504285618347321431541000299461390028219385494000576754220287503082213293485414947697665078604745000422317022474194121926748353323867228872474098293114769639122778228867157291194799423599519929883336193,
  34649024711240146680541814687270503658408085864133588665926857104808631008942957590449957282329200055309520805463529695942408589947893238115121713342522611188759210470137540817879267262741929287909747702847869933163279876097285701694792508923060748980163178072508367979383915377279423514542956088410571316975981581497779101895247314048273325453545171627802042381042354312286001184461399469806567555116044669588657162771114819394402306112907009976775634245960145442262085949745729379094443100197859381113603625752671437821539122468886247167287846197413253229737542952627800388309292402005739539173409774185879717890213345938192800933185155759721265255236865716619109318357912099480942578365235621164424696490645676195658500587618184852183489893730705254577090388783358369794964534350710163422500582372823185155160688095214511637288443455821945913809853394502209022117412010051756951107451710769101136087779357331288355237057597617441420754093155947999066336348969226592435391231143732908775811682615376212170890867893840277685849810437646369152744766791195861867280,
  31444517610702615154002970448177190450261499520472235183873777685689033038969803349582149759065659588036245337496645675873245990200157923923760087553428901845745681339691239527713053010083274063307446070742224685930661761229947104162206239258439882148108195895849159067122131994077968464911477675015558529902305831414657541809637138328646448978049343987456828181194848842232906209745250490054898580627412060076974126504194412945205245851930051883955441860398702655158251737205452513693157134207615270642573282564981554241006017920578959952881347135991584345879730116099507607074496768735820717881434914528406321400684399407145349049926352572351363400079978643874009751045233222746294206610031373035614072215741300719808133839133902707656434365416747267256131564337329684199569180939735108473008783284038293001699781892687778114642923913093850880879205275851001984863410022651857416516145328372928467864338126081845447690245791453859437358504737882785329741785142051219080017495055596709184193924106576337226230328142830478659199083675341740842357045133302909890805,
  80144067898440946122077161187913285782322344596517362641472497751927661704131544730011807385461980154220104687794923517466472489424049149229399551427600266844302549191497037750605756586311762922171565265738121061582736974401961774794981811131742009893497258282347891069825264044671862058337052290011846655996501012668748160724662448329022139377542351246121629881252543103169655601295149596439667893976779123190031618032872446613209109309282053197124747010302677910243719481688754843010033432739268669371940215549783022837541371268811412308609704110691590440820674365274319314187961783607404719278274447977498168133935278288164866854896118001772060401405148592660089245389120356358083822266265412676956491868696099676762341885645824504222558430166883984644875625256952833940437315429662307397634961679874167512414806988381932263103979018410885956161201340729165821236739013737636940835481933591142757562565613070625663557747379204367467723209843199559399646933395445592534946805042558733150832113793488547190015006950811785048677287293774692754784529896976215526274,
  43259335741379109001733775151494871455094481496181563574664086145822140029177144813365523382265974705006723828021997452143606663170463016743930485773920162237251474973048507619440582313759318777933398464160425040162577266611529981522159000852962485737939334587929190229168423237134692511023709355954025174249970336068911550451772025120239284820169124876943425618693692819082734553492297223342586873228527757745251951654652373553514349588813726914842398114121881646031928242953612540543973751809932008510464515159463422670189888064048270192767577812345991809659390522840465367568231490856793986225370814053515115704880907548347326132166993213674103698342725177483614238990422399297852356203980988993604136962425489280421034808148004117169674123137242880857557091609289260030645279073079894038770321802001475391879008624025496231948288659232803907913153792613027205754996151502347407536024714660853214687579913243834857320277957308310118312660754471957749798384603123888997960697846230391398026184805799201973136392072459478080934486567642594865463227307807859206203,
  4478081540212943506618341672381646501539015395641930880994478097749439974365787567157765918599060458426826866856435818621007818318594223586984189296711074365660926136526914586981261588831348909435032428417528618127060065014243420047352991338219437740670726391771057158482883334796396052874130049098728544065047345110772820113424711385843493874278109771809152090284204395157703112835554993555486261258762373841251644121269849557132043871040370587754890308992835591120633069360365022032195783243574262710105816188997431117922529660806683293749780721923113745661648339242760496611381290434066257068298720562180810295859833902010400924351622346762576541520266189134776680050533740232665204803104185685685378247794722888320291363778990295576192209371767917639438522160940136981231966145570508807955047014015903770556677356800652026238485598637675937597188832904783479676989977268246478945717982494983396669074365275954185908525069521933811226091175555255522387617067412526978288368887754774807586593770625373113031203283002133636164030162976118153063015153177666045655,
  90368986921058340919528552328613341353288822371746637188363229623098196436166170749678866620843125736817312732880164673097637212372435655297853621936831149674253053073468081762024942417155129928558195541482062749422856520760111901557787290731107492975898371061706707047389361070477418371562745205753621739415308773815944643697670736941143471883793870995970167289063907616271435406963551565690817605408991393415472749057505925568468345900366773403648611629730006110937776249061064980117125413804957349155046480841145624882258113790886130371155112654469810458798679901971740334317650079709383440098496390493115429479542530553350344642621803663288500225051341668950999127761245378082236282893227347540859903688004838361158728456133666161582537124681454338785872304739015790751496316409820485965591172852671970762624621376446433240472883885575345263456544979701182572735920284497529356325120851012606170044401202021538505385058451656289049477222018241706912241308085142914798792824848092781259573269280787817918399743629994614048673160548846679006886533014656799866170,
  82200568000105449211038903778312536746631646129246191735109674931587428070496060152004471193723590682611150433875642590301774679139209974649229733214082710300687587159191683746929229616756173998799364835112211663093100067316094229890894849490818119079393679076133349317876278771251249973137624575885686349370956031268303337678852670141484445256625399760699419043786415729782752718750413314365559976083374820456421994230469976302347796015771019987473694826716861112327072052720558805262958761496290869392556292674150469732215044886244360002716402675536234526148294117286823201017523617724690911551703250401908882267609848372798760803071026834476797995128452958976942909441307781876496471594156447637715295126659052952453869176770455537161226897035290072602805353465123629363377338348586805781270998838078257521281960092942673813247997385601756658348145404486392245782500003008381835006029295029490579040380872710703170616834959698521325909908674240380171316935624812510131754792369634718957419901250653838421516297773003000447761095359885087229772684093262124752440,
  93801323774818757995515122255219049149375411810954325930411075546047774708196110365680878966695174787110138403672219938908626123306519255078024962725120424862367086335577968713393906212649863307349666650541662218553151352451533730761780916053915188048628421544993197804278452160336012076779670571519979345069461164538978596122134763535117416081505717970610464026406795512793439559195969205878566187404508477997109779881700518712224401856899170118992157746986316872709344905186832264140145933409574561145280674398776019687405271306090685859906298779818221800781448224056322463782462456355658852132274772568310714623728852201302127097069491956769787285403739172053263023608007318179372835724406630199803098753229857770090342711930487308562643693091724750110030884101909932018516238142756840959695529562603926010781188530199070254920799925574350605499319346394775588986743810314610342145758767905920325427320513323762096547975452949940666432277430875039725979100930909125406153845396548154180727559040728947060567322221359528995348916225213479600300345341191409446799,
  71233502782843081068405926902767357644918540156981148035662100669677506210732155731484884494417252112279707697031053951148361167106448975130509461825984571916452553166260938159043836251560299877037518189898097863164137367662542750743345464868858871499335107231189648751096309489019561927188336723155832782393665058180108844239603296526767491838408750076202645965586672627577096522069047004522548059422820684165171121479754475221125811993020036776798213584282667678544997933211883226171428786765612766726688420908847436326062759476235952823939109363459285590255060608249993112849955555797086861947091549207193780441487469981182086222921058865819283756475136345050096710830277651908196510752299265108589455834314567692011825562495166823314218462507881553176313592176016174418433158292071806206590952869821069264689191706906770063788852550430484691438751399903565909029220118222685278589167184274218520396394192491987135470133256131793177834657790654518175500674568133906418269446229440315350266207465204717727123546118523109409685442723834161090324748691888206836943,
  89049186168518063234736877687667026254132292855770169879858476655132201364361034499852829139140687530679648383369564932399063706244241992732566292934577969307760425286622874549336242187956158599411178253109785027765373439787817938254091808203724533565220515844824771387974368127825486982863568177259870709420103528263018153154036873280425329512409327445376541561983821069711708492079259712090637017670840681439616597861773890104748324881648313048621125273250467785835015173931947220019996931271018641560950587959754378447944580962920709818584057556077850434009308895402619338554356306394367275276667029303799005086270946441166809402786006093943960581430434874792902583630809499728321912613414752687474272172190104779935189053880863818095069514210046137066747999192139422413491737734178563150428258303963951486529434300479628988415858428871969770352359451058350637611514189012395897769415557202068349028813263024225498339143164156457517475092455136364284542652784413131045529602562498519546045270313514513539725421481713147908992952374170916516288632430171989003736,
  80267707980494451875555548748312979514915202362107830343216509140732551915507456372014954587143074400116360841149663906234580038885520891208767506517405773311913372117070225456388831173909653395767685950753489659557235940492520504105757074662656892592512400926256174959899745515148625249947541378170518160474697965334139129417122856024784686769394902161425683121250982541046819606418792621938034243129985534976927139416821021963857567947136122949869347113633420010459306984268814809227248912872386169761736297477419813586778052518018628098205747388657458451175595087705197526548596250803270125865478928725555655446692959614274177617017619740296453928508496038126661812505779843066329906604346048758285282164051694679155898481928493306303487856886440025448466422217251499218260351727180097048051239352372135693012599273861963394376957595850269057282975883929482099026207867547312302362743542594106921938856264822437875827019532211602437993665894346774746026442885547464770815554853106702455628198215048428953349307529913617250295542871647714185741141751347731533398,
  12838755681279938678059650203716312078220160802772126619097868382633013213772147663292843591202802039459084357206745913934468248099549947429918069530365689472840141926161822832865771607453752741343300805179565811976961347907963741912005064960669646255790586840580001273204351786528625398149490103311512432831866179915689880476085091947915540908433561958533317639254856145095579771523669854549346028637611925438948010979541081896480755051325040134588543377007159015174941593249530455890424467262874500405532574271002946323433637843596538467308883431982536508031521336836878289797775568265647688550258641030216838755883573314878949239254523392778283307017798138961519630253108616027681207909394307403999154461610969254951113606328576110889594020099258676905126201600139218608651966307150585297966307779442159938081946211984790995930118516777490194643678774989201965623595672128469866758461559241231496997565574528520637442975370003313486752510617280963504466123391742168946079086203579176766543148446358618236744785180368569302120110969389845259455833246132663904421,
  64774543998729905373324398288704319885979119673491485597739774905119216966885365395724063995606571705393052931567441640781061791890009266133140858910842066055232425843227517236252992322204127678844342726682907639599829488869994022144900724265009191132678768689410862377361797266126553211071192235346868702223148867437197055679098957933306497270548617894440190729474349833448955816907283970739478930865271511090679782161428745812418262858963839925128054370541825537047766559915367085379953550109107374027191507047980863037235778397594759550554075286413146428192849026717603427271815528158461888158062656936972947918187615069402602929185420058443404161048982489936769783575644323167548233396871427416013791822345301267305960806435624580145250342795180819496222646166300248517713807436171414450558999042290342743446068860316867471829589990051166171039967186809156223553611443917739391869069502552313043907243598517625676364322154128851855894909832105889349951370105627675003847668524735032033516723164383096109537015667528155773892492779920126817407753790087162257907,
  74821019051126267126767881233486684293608882558282736161613033894574962936454591330502271903174055156359406794094633333386260721006684146971348257978520434157777859406881567445707018053119118473608097381557755775001569568523183939423447586430283117293467132091761673757514655474753197085894493826778830808070073881754117820084608326590991949325188495413389818361032713500332681873104638640933892293376138055364610649589779979943893009574307223611004413588731498659972707865897075742529479141827511859562834519333127843799709606067026048977881066076951974091386028860077988995846923062298959231218558040737052538173148554655654020096572523593162637058144612741522433140249787736425565052311711573477622564504053830683813117067818449360967641972075915168585809601803200123798860395784159316561818282836292722987252927839284293001120168467427302824116466869361052044639882320760408507796310117641598953599551481605288675479506968279917234448221915360211464856923814874753555882189646017719217943759571229723641536950928136394747497031421872783749454095315851896510808,
  36177484533516772555762327472906584820788157166730098152519580170359703394005108959202494464917997403896472675289294093108715677149778265638558023296252243131829213406498426647229579642159662290827200044437160675313446171528765239626535345793802977337356325075772018988971863341996143079643266312566026689073442882180028607372589775509647269090537812750776504814047312900613759995926731626329335562120384998141643832212219311847469365432426940847601346364953407233408011036518318242890881571147838981680548841775149933404457249696100328960473418213281584165277597204518398191460223986450535670935661346512949154582331975617947586263982475559846729029207188390952359313352791346273587915713300332701979302489450567091196547028654770048722740688697009637884269069572570940463442727316539102053777870206546543442521116169398593207899791248010235679920953193119602742575933115829552437265172523077782870795230485119800652934531333963099558031123767012939430693808519895793118137379160372591560701518766018842145984543986908844316961131194011163531085401832570490354716,
  80167568543829149353323425089670220853830421893495470898089448245649652256730303830635257165893207804357670721651255632085182941122766026091716938807067562556008441345810731395316901851091103744957952598073909561925919936851415587304458769182084366363682817705882571917409796958226060223918014252381839958743486223116657699875494908281302669112700685014279076625275477237610406867259973639062242735876472477853984588466949757352876396338151947041138170456044508175637270697171231616762455126185019400971330571402128866854083657305361137941397538539741166402616362708303885953069312500479848842579118281937686314886484666834812496300308653841363085456063328312320499100483559301742842069515160347342392785901034524982233345827419422282637301338028850344112220423059327856314794028993567556614118480275995037541599276478242441662160347996929716677508487837496581102841423144664971953123320284111752080183212460379847133468109147002816273559572019262711103184056474151520126077880658288073648337001739308747676777051273868428715663973268376638462741402942012213797963,
  93672192134997069858793188200831176082620818556104350233484416789137238260700531086361843549173190164236010687792782320084297855615614419962845925343604806635838245370590769256880020115801685466802991960915951443193919524138262855533621674333259322770432312012386186849395294140424727608976556337862681005260896353982936212658220369250668415427522308648509294399281819318480320633104533113985609207697511706167825493617577002592545343932136665142574129014918175262603796667501495426595437425497900048387795582840766505835534207689006360236055234854579435421610650470608429433001076307674010542035286733307925839138958024802412777710424151094465573989442704194993864885852139414430587001939258141198945992211445971714826362891815470500901525858057086765552274588272380578467572762429550540037361881551826030365268138424350721533474606611856427259699879701819551029393851130754619408954987736835566347047172314797934113119446724140559198745962092813180454424090890637195079261324229021163069090882596017289827583424817476279448352544469289720791180807595293810921275,
  2243015935914775326868743792150586655153264711373059425848020397632299435093746945059034672499436687716815052364901907066203353869371840728797560060393900197089969540039015919948723331817906008655348377226012586852671894524718635427201764846405630391339287573332988737810076108079076429959167151490807313674798737019608737951413868274512935416757012887218309513584005725225141294927955472922754078899441153681017936450177581539473093304630380729468870442836831187192416892001883346753021369442203058421691187007582077408711188574946158129940367395530189775880182592727229171878876995490885574255109772314552176014651705426955583114635825681426286395148813007479206982226809226969108946970186568449027704831299391895456498781944492853376446604990988448077231984277279408409749304807365775788343565298367571284476874435440940064278526735611105498047360181627131992982250814278570423457980775691476501284463202395530098829469946305488129205779193992208872482659891410290456240245691125124813748417856655520432800507369562103189201273941570678232919843773647460680298,
  7491507502269385324422919338968643101466443037589854782136361442848468866922137523566908550925200498609199996696251920553574561142555926506282549649964031580230678952545391574718244939644602562794294063888023869862935319268617530778800582927090450967175624101200632619183221769185125106154242386838447125416679566374174373559231421625387253762486358425219765042893099381913124583648496008807777331448593913146992880995025978878376602261062371206511094367584457619728803764791001044476732610157406171285476248253960950877962012656803956601086878305167905086958995925785698140369988786513068666855949711909932997751932642613799924870864425844155680656661228637692583787143048463495041795279951284917719238618070280474505259558421204513768435843859264610058891724097801140549788431428655691752893198447107623013422996951120601060767699175062161062404001786717000095074787274486596055579455846195451758114991306504884611067555212069878971378601390538738791376578481545524367732637763950090796101971495615551438007365635275767832855492681543042298495163855020017894845,
  92278412061354586630790723104129729522457082177199639970924726896334133344630539724509247869781670854138268345919934395639131776393985750004131568157233569464254560041461724540165129823174269292769564245680396859032841190516658307268492295673572348025202619471154511308807506215915992233874864740346014031685402936639156007748671845394392991486782124859183177919745149419761921062291995786609990816078062360887989123249255434685851888267729546459248861649562804461899922203392833333182475951061723568870831817952315483535677717801435006310852407716821783609751944870620901032213977603207632071730401069473019318746771120486872165636631603812847284227897676633667332617517662007331472777806150896827098435352283123932749740169167905799018239444414308238304725097164318575308424550354827278558111634249228714335105193181541130015463900371730034874428849432704390358585271371624440744027977856947416236616395816146542644745210617356141885070188083963599116906588032666469748706961625879083165739355452537405265411924997654796982770257783420890711317175762054160081036,
  83720939635366238285611757665753270196624442735498183397517874372907168686817472593773709215453036997150127161880430352556491933450438766518469204071332669080072503964633993795966132033682238037937948245725735649160798535479683287678913561127142210718926857004535810762520546795969106856528832716341172915913965738983912373427882644923963447330860280089839470965885986526235357132680656654105872663839142998248556427270578789693521323099380952887570986059988901166680947795940958868705264546210787975839148208156805019176363744926186933165259975467300469593045362426940840215053946771483864022014886466694498898880980054638283119634239157598894114513422851895892964028227679590313769273243029353567325642935551954882443666397163776801830108993621479567888170176983832431666143390663405036329789379248761266497336565092668063130406941083903691359125293573095769705471079168243954108873240284345162212728459437649060684853887478992665010567489221552053015167417317550449204069341374184027906457445608980657726607427379020074091256750410873744471880269344963251860221,
  52542573120402665825241909888982584772721524033411864680890121499367088434955081043869291104445896311211214233686222692706639046587419124921584735500469509687552483014800476011104163142690083865862307810339609240679808604642346745776020116787778488229347429275269899720322047406182761368235728284319603458082652779631109758400558604348209215876507267228165255941104077936270984827241020665312997988594920122178935946313948652428026753607116490914512172859372477611141875957420128061162038461433480204483256724170343417970265828015947791827205567998383344976705138397760596120937090034322012780595871311940580334568964202787388698731505537945144594261849628737418600466410992279062932581578670715335085917530019533987111532658004293635114337300185768149717386529597344180995242039404566064196576133713842555114963983539981486776577008243739863198328779140638093350230979439151611460301301189558589717946062817535203527483934483039311825853819996800305873392810957386208887720231784353474636168525963030648843202519221435872895242545800968193842433387245180251934525,
  35488772803005997046212419619618470096175770454392620334735890006997337648533848362902251926119959411654700818304633126584968087049051180404168717202731733200267131401459839586682023008031030664397401623118193843035317398326063185036244876937866933010904319469887583901209803153952344415405104493307994082308480361127028034033012381376233348051423043376976088039494506465531724115277831046260697666868000441345089581340444030105830498814169143931549820246384864259541250697853874227503193068002381007047216787601666416175167614304377196881898326182399888628961037288260247593452266860720154095929598105777829143145458973944675507148277395288837739052675872927206854838676731077380837974043452321270633557801093265237759983743920817789474094508634587377907762690621253033018471659943671397109753634193560839316955831885241641530605664298971720432485909296891168512647523547451236503602196115343079756035144780424289045276310064825051136075161157632217655947015313077312663097352643396799044907060866686939546743018105433523529718905529331084611934690542045288993327,
  87394275803013113959948185399415015077334654431820488362509814519760944343266901688313655511247858529315300712393167093989011786900158473858736738170093070900326208370261315352734974327735342600178895652789712683124985514121388525069269433118177363287417181685176859874114093952677123785259699468002934430264438296054559998531595003261220307742107749280242230832331333689178764201118119812974929885602923300967988213731915900715971064216347648078349410690750881862957846539071486223650684903451148238223621789764064312692060086651411092829067795213008058639288085433985699442298972129837370337266404409875918729847002948849803846835029283850032329360530459987748819337168781347489290008739983970766235665259645623926317385876104650582755028068278504491441086834603735688805550219333087929345815093559898740898216220430096772450531932945620391740860127649507645211654505731717661945905094168022454471967392265942951781024318452820316949982064830939467240351380163070879955418077212917155175695240971919706886604620123659108824529926532031510492244949745949204208160,
  49031826459080814772683055702653109545831474439512585808552149038953794636470266860740860552886641814276819741357882068879324373038846518345475665648035275387298388114144830847484030777926603200278028839645689908014062558392589635622673407386259810898807786427939276352602393216002683975854433296251292555862966085268583413672025649445281228921106792320298745903180925233120971923974632231229809264565538274668814624038894154713979444772864162797474922198063848725098173392753123056300573220781850908757245575900610761619015621856388246336022793257841684510863597772532122268685935559510899433759866262400714909669725193602943710139992495229191886891340113398486195929831622917369606116978487526154837839368297126454057460609488229481949103090882598396992216437228941743748738066073558716968207249976240396329394790605147869171176545185031064574790266118829067939195582740587462922207495197540375583437275098394315811775277463059129465127767542498968177105554759141339630599038680421544945810159959878334781792342566956236084483508341753977188928250025316734347767,
  79112474734608890651347964803867290391185060466723732756889368580005251222039644104611727674424616205683045687518730166724888454708628038437656757791756290655190850194742439034604855554232135082489844873629181038108251738526624868099171603554480339333051846137371672735620869865316250612425415393158975345848334143190447101559556215069889741650837331745082768873428398424283894544982067578463986150298479902465228329302277259650211222505060539936499973564107101243525624631304811837958737397157241135447963530112357484188198466226739825801010730215469703656343413743043852056314654659345878340981488244262607251037527348072359317130300418526482429062699509277243285455533263942425983636016440722685853031011244122078326042905530762318431810393617705567827238094898215438615078679113006318889835470461051995356648972271103988721071793319150262032046427589810248006548234773559719420802263645809727793391195688305398110189906361127715266804646058668632094433770453378787813124615866267421966688119091592384999088022308119698858127794343308655198628735264506727176769,
  14844056416952659398412227783436079898274886145284972420043719222572708246864025408195131656038506029892743190675750662678554114093789176003845271670725724433711121956842139515924293207653625240846082576305446795087470360642441582865891161334645673729623793321677718359363982822373844398502141412291818354570071743913973086365756377219487247131461861736652435794480634002179034950926757446822396487186462956076826603904376228498215395503449999928039478538072755537242491438955392962552102377386185575165203059602712208123142398289663607680890789449672318266513803655583979955340226463068841070922493878096400169932570190125041353581476966752262086515194874118233626844276790426076820613284334675304213835409844021325917396613781035640553660416815761690889128612686885230231449600293228738508877115152757919761842866757879367657918687628792415750935270209804935461116056098674847712063858219250468923543061142008298190843994590616895892675017901989986820402727445815423327219050782239765925247281840774636860053473932292674650963230646597238476002018994806281449207,
  77776796641669635279212733779136423125899141415084925610405971928605841767686503067380854867588822225157635399436911841007165424892092876777123933109288588808283856221995096133207499408023780412522512314087932858148047997697444788502754604186348979204122490901600896740024789029247048967261010637091352849664760509416132251216593292335552651866040702979380321762500756320838154768413242271387499827750318617918167992425286983367325704595733482428088487950936709673890390460117085068139187692161980539879091550603454073056799689722601706883276579217011728311084361572532686105885500351416773393730583158074814009141252257929910723044649925691774988664223225289756037248730708715104691020044387368017429249325326862342593697148675312909743331175929474369777099757770597688833082911049772042676748470394132577636206707952370073214395070218475878420096961618899838296938914944426155190892876541089868664116744986701947049085454606619421013134387801313814495827011178998132205068591669717435017517075675245687748233746894682097566520759601665100816035706383236840629959,
  74474481788960328193599648635185575833214818834427914080993901086354098925266283057525847640140653274526526645694519799847480874838350388499654958903732373053057422607243576367115566674706195092579361089369773589691941765546168061502695575929807030343287717408390037546381135762719167347648335411447300439031309665042601894734220351875445977517231923032109294752969520532972591727524114752628751809793470065556246665738486003093449814130398278909304041214188703844801328885015679955053409653161379626157009241265651276705858681702781171238882485532476197606629430809155873619487804263775254167779215956782858153807706839695308438795565516019941202376615653179274517720585639310360406170029950780649844819291343129616484356272817432090850906819939248142739532589895939167640613202969852061308696052949254644744309811089491163105341939410401339303395972600927804794783578801586109126821488146927325200625005102405930949463354051079353830051194116474249747229702374577803149984372093088272259943080975588101888121249030229569214319823524700407861956181090799480630446,
  88046643050785151957718114693178067316857825909003988393439315570637322961205963577025304449053104390285331463574244033698432715890646087840463869608314142275399075474929646214597531984506841621398372522701659830013068516339879888501810532912052352463992475019433035467140204525151026556951459702436908778991497415469186574918155742115747556332507367763083801374641763599801200498391505367772490542173012293905947891887831129463952335717442121208145596032005852753164615589596996668677279455607335642274428182930344144140575051419165979154452232356903353363381175439893415234450395317577583382522187699969139626197061035066057298295844763225062231916537193380903722627996100184031865849597297931787596214200397030768985027993042595198640838022627857730930820867372994507892971040383174913493570873389033992669952432310362621303347885337254063573004944154890861548559506534816304445540920699829427698900606426247512219101057135087752748595262009130001494551918169926084252394257562574029142778156606596727661881228018320713164615666059100805971131783624765221569759,
  68841162294846850070408639902162490892111423579754493680646824118872505563038882110654572647779804149959822340382882434215068893357397426624430415326891472320354218572269148976906788523319403567279332437501593040903457167936313419448861553041644835126833414759483854383543960940145113441227141316484999329199991344574127553517005252172160429174962878435015601106964701869448185211179269598889051597338703932251531263230225225463192697231223435593416869500559774150429526339576585428615012334330298541375469423930581201383859568248882375384477619983944900108465279545647607739484054706561991915270503040123001387185853055973163260369980384796351600338382412296388326175669881825692022401243461141227523875235005261669297711667207337558370388247159817963693475756171656712707513541793143446967512486677699921238849971006175217984852165399227462137317305905154583489268058510344536478886524209716066689088936082043593512662849315481914424290985437581597474699220199435577222264685314122604361214985170979871405041342094452236598694665669710661416898504105279743064957,
  37992259228383137989681760782709591402881269879380730487180918022628895412341763765703050140678157609781116680445730767137300722998878782838144091998942864309121562672117158750942958031239010961347874417905664637532648167693134197302639382363040199329600994104275312096052421024291456542604783224271681110209454167714706432864812480059582491693219217537861599331867302091212206399617812504776055749060530784116884629728319222866220469737615723762717167922983603802926953625142426545557144759899666544220527915429378185324547866916316169912362706726494512167531068830131304251232145912540943984157955119117398617937630231214382709245340442817321697109521393274050445970736284420810585978591077117528266049205190177257471746159288929240707301065912909674828927078787276876293475593657883734064725680740719960532393540749736742425971657746694111988752912070418856279250494915212715711868845144733113602876996192246718763491271750210824606887654972706544123009627512581313871470461121794493808919555132248020032915299161390040256516278445986803232170196332082816751484,
  24417922581235373267061185559429353369235361226247038044498527379254641461133365966596182590821353061665474610453109578162632449118948405202764625874513334835677655770728545157588227379091227044730033547009005974427195878465444892858529171189880025157103222807229956545034563038237638836606265993859499020235226564395450343967602426511405087187074369150212395067283241433564326285544614831736413320850803840046946867619019513785255442063772026827282754587496377783205293793917133688596072411519269009638533151229872244127591608141557540926105711080848514842829459155408778201715154158732942102779228158484727621128170072151968896367872192829839139379997067878672852212696570046375557882021154440317612265862677342435408838687973203786577653149422944699198503660246890455442737184324963858277471261260968808209879622138723159613541798687837682603469982695789569341836471169505183776424507627237659818906059227750016529409558212927840224979119100026759437807880799914725555201059318799142320301834396854224721486249060413297198226360047778385758904275679943681443680,
  48956121418287186949176036747958220126146656822821872224458151461979773333477012346323258853051393188576885426205290280951981183774679204470820489362474600391598298555235888755653666382005971395805348491122545086748010266402301007818289190807373143466500967233249284840152109988631906076406597703900923311198613077378159313066186860765345068350171811283922166626536419257609742051494423428046349337851906900944832566622957455172138380425703083409234939942743764019296048899109805204024433287309474497864340349897676895183650616501991013394517379030658800385523430016734651565350853027153496678422546031760618640383553703915531375855148638077068915849106282933189529150157907559425766882709412772515504862365007813027397118234052932941609418146424327961914292563544330738123891262375356493588687735574731622440914381910640364100972056735339586316132635272679152224819702881518286014748079553144886061055078432545149085678298713340451764776710348886348868084262073764130270810978445406987610142821446003829840081793856021760318259973197341714414953518926813102972277,
  46523755301388516964290682730204302611678178143887114382131044506614477067839313659983186548933967537446288004870514521471549116268006883102330573612331041991367092907982653068644649794065055802196653176971943811263038136588009563527052879015497567993323664545080391524767598345531023526059738200526782086774206894585013515900742448724890150569833804324544862058288345525196288462037686263307753316090589657710994948671540172959649603419008917253340530394453853259097354074998554063207030469796750072146749667938373660769421462586459415096274756057736737670009711769887012145178902797897957691472192575517012380996780346062607599619391712410489068620239709414360387531739799883185239835639754347539004094203409180618709690004048528124332184277077710022620196801163685925035993617713398335576695268762863886877738012669790542188764448502526083018121018257791573465553383616907085859134814753810617737901744601369367976880667826205099376258750787125410243341157896709049548503283148726551059792163497903715777325136992490013983461267177855653125770772528712089030119,
  67122770096187374107245361439568307320584077618969045765279411331319794657925977953269366950901060030159476903511639626988533866872102831695870632758487301659646580703691372983929639391097727374019299996486347211222725996388009768674753099313262805164855857970202905677825525364826271900876318344326393639610581404874807324898708065297921077884429904331721089624471035833877951521181698243290363322665328106020878533095937549428633154003161884249276484960795160773707357878724893403885477433878898856765229627187549875360536860087454644346131526426768780983154896854491598870524114884554816988964153740862027396915133548433616293091735391107662362682909179892640666185542461996674470052617197224692997280717867218500956936350275954174721933051126564337395860476570942026446948364360231160040386203320770871555252065839485356386945866645399785237964676248486649752856184052374414819992750510456823979525776142894763315219801295380731981723769572043183065198375700470122767534205416934700551540923423911625935391800312901924707040069624476763436642779759791645021731,
  17928739024833817276776655500330187803075539948552866369479215480812633917614845581480476589460301056152164470938918340987399098385348619238924828137979119471557555772932083354552275774021560469252699380501654352446384893555745449139296826561713245294463787188637866250061095539366477316708677731280604318392901952115900384001720064360957259010738249461353241970314208608231124471521038504459905859623839925869133737452393625343556785572734539097750625808027632237328037678437608485137943939250136616386589308582619854609206709273165270890445521244884994082771977867997582181217443255592776178900550485953860549865403801926455560048659311113521861760737684085733742989526447312451945956004881341199298370650018830554420141512369054963337017613098029039446309003081267661437907222399182278175711756755297306895925265852231359974727155139913879560947641026473211835328312145701961098801105401222875394947763648598887532450546903780688405152301584014443362266571758544659073600115700936321910258879526559509785526561078639376816565856807022509770167910180267938287108,
  67335979323089705935129421284020545948465660463478900426107042837705649157661777868688867600367501801718581381401116996579206228847234858142950296931441935107245710932081716904087431524151288779772207943969437146335100113398681279079047942318184538750060041856436311090976195278925224119249463713407801364009948811250119525459453546071966533403059279775590289772497254123645116096901085907047453924116905886146771422950233519609521243114349970965298495638285527541437437728341261026193264629860548392708270821076523666026524528412987817869011123185412186563030394147359042309082900849192198185153562860154721738926058322726660796822952927119077056302142495826137982427735157923503799075290182866718571614166476611534818047442884938520908917730510623949975011524777499541693467044974366449849759903113587425843548717000394600121442060607316712691522607881065541638388125566944233676618129932246387977835445982599340636291610827725897053503536790868543776847303406467084217796227742690568284744031452394283978616447651889991312252319111924211771997476105532402873358,
  36283121810654033921211998704795411723015603115825939210013757227205691652944085297937052269295583228017402976368790975029792870092009141656708652577700470246911315655817870012351673018170022200957850978660550929047264478603572587380447450116860186150397325329416474992658478808417773509486357430392228800328141065154749433608794290548027405659717557867981049783497660735287812389290219911479522363221589292747058930364613617347015065457378894845145803420516616356688086116320673506143161368129022380754193348725454031940482350776926849804956572310719321572107714543144167287813767226772926713215980470474983808068062761130939280900459776797285512363894640133268496484386673233642989414005820877389380550380750077690320776615783449048603268726419455760771616561275110011422490697370837324694141111609748421585056990743420619715916544719180004055961248140290642996622849288751056517932258214873934637435656184528578321534302155942519795790351202929175339188756151986413402546560441715240028839372014257394072412103854423193767550360984399556348767691227738152045062,
  63402056806304821599026964026013038122473111473875237807794035472847752057801411858187607656693013877131204845126504752528890918568185491992816430716971949031393247358030679967810130860625238253754507331912003517255150140622728021310579077376836127551559391662099685318454108879636535832123195943024901197714176244866337375114997050972760007925123879817773040018217032760456299440103901747926799667240140699083047653492655271182155851277607275898017433012661906901821056692646704709173334522150155936036150516115004788343635268288840664435099795108020834422086025782843708176169310184817156603578687929581386074696803933987315458569593980510528012584192756680244960184064966561126351509111269087726587375936056756186895543267928805835680971704847454108497758007890928350724086251128040012438663026092946170620669636582312009191192370512232928945034739566456806696021067325892810840845474844583169936879426285309477516151148675897603866399060333982472032281147005390242578573503840236162826585133787734512423679127446229546798104746535384745011646538896864940596350,
  99443839991209328256029256987296665448570948582904515268339375266763629121590695561672860234386509777391167153832201552178567467609724719992265876868118614593603837037948942400792753805299698147238023488167797998318549746963563432364962854550301324401043476404172676609416907376231543241483921678694209109044644946586658844858766781618865594871389561861467925456547873069944534059702439520819491881410264897320190217478810709950736372540439181843675265471722620734245567731568753090595600023826777308952318876022137592749866453475442965577447941514303197754263284993843092538485756059714656909919584320218510279571059284084411213157080579737717087706002092983590632915049044566413613639540794042833519033001616776922708604188574403730073780469113225542266132316414805625234830408471829763842345092496753160350130787905872186421699704073657516776259539764882409204471178065488625359506762621694186655188928800818280644622650617042705643707877823425393848754809149737849419654945230536468488429257523506141085586087643257737275957095545675555362234620907935244217222,
  41336867213731054231955555231822318098358584557424652718714001001884016208387698359959278603562919931687765493043616571590712117503914815886511732298861814603312792681322407970031340838894228110033400076965374465490229166996224894149603666925045040083252520310745954091293261349570002584189397829670164389985795443990828571637571075803636012698591514203803887413903983055111502868460044318166939716079863173030619550444318687071924725756315917432269921023506268446552376007451544828784791663968440254821313385669666907861865501182243485600181771893163960301011673489128925071282228368958033017138661053308045793377508018508347121429684897812533544626215196141779014823806650673865677612137898530376888100098642119699976204864120988603423894660916520414691265313583000777955117134180555766278433884444425839898220362354241272075415512266487829308346231229331192038288682446535266557042316272195328284292343660837000612513174008155769196267263713136729172382698032144999564732349893740810691838938562044679856411748767079719767669758882328945716964748544180350631727,
  30254151046477522367354369417025501872337772137538027627475639748403485025335845522225284727238545777294815842631527978696737754300710881980499333228045878629541199908577573966199667366467948083924584404019207875326280304733528679855777989126142625770984898208755388698482281679089109841704159820494227856867540296728558902170470581529343705207030900537561532124301641588670042395669235417760146264945273805668089995631856709037049206845118799450070319627274243261677180288923431157915206100480243967748273505617588787073146456562139768568616187495424979930653094318173270164497807430995321207616651387593509232831334828841292998946771785776765942375453540254557250031008139781839090525075975518008413498436694390758341348824517559848415005833821202382226099035623799550887561700990078125412701683720861526741859309513906738595210670345891155695683772495819090356920194131974323520862038906149495962527198107107857861027799372291385660434401539397325302488440592914049636120963139289181015402359658618306696310038992575568125011034881204624121752489669525127259390,
  37115377716298956161413137245081931224943587620863738868460639843070024444438653104043855555760817351078421503944783562471597252984672985159426380643476503157064360912018672048221947206997899190771392415809154772833930309032693149744426261377489762333064314122538769513725349787318867433599177657300694404637043584174104040642230131589935427124309260089860255259779371631499890012903678300059799698846942558470859697242814259218155828620443997216418374984988789616362083665910592386710415857541227997101559897051295309479012002071676399107702651498651406658086025699872514438450841629402648070306080513952893275264205607399956022835801465104274865963042633022668305469876980623401762956266433022547114905074311440357271166938881431175490226398595458747840828001796620472762105255486504180722816709214482432968951437118205208080665519203315104913074717028383096070637802455895895361928473754237462305898684233463513792551736289970956305908968395586656275506969149368094342831135564733338685428875999920777167390652389479118676967971656643449052404710042429087048033,
  51836110837132027932504938475510692518645400452549822638788977416839895743426284241122495981809154390814372576288614344940832828323633533323904012240103431451446642259262335060063605340859020624276570325112578559912951305725778711846063258988735169802447432954165847446469244089159625656213117466818005116896592219609792952808200754159324224244972623680457872546928367238146520113282645779337165481410066844860148676028466463364060697677919989866059738470430135124520889642880264978884159296434262115926318065390830973044585424083491137938929537584542209824406669940941652125911974428694838639921660196662809760051443054787930384441029221686259795969292530514148892556099426691649957914786518271625439386490930633078584525367008005660227898568322438137690478702889748880538147971064966728740817445218556110823423212166011676681770224488956588102741927951492040713680838289563920580887114877064769312656949088416234770852586707216308115217997393313391201964345041384892965021980584619503446406692759457371874916315275405187455055989969008359825911322153651887109812,
  52791270365210847420980134646129697738473780520923342892722735100679303817192176058759592683207404882406145908238913812548971647903775484380602827044563554122025214737191689846723074192461046853336310699127818507952126939052595082527935746473687429920343884624866679152421876938704967806623483420804196826598431839570278238866142981983146361009130903161767342299883910479567957741064897463196204218662421133486195718586872298436639428050594679619776338710895445829493983507648298833078010787915183909475938385703572590633025620618719464082361251195947505044206108652831399129803276131992557808677707584188325254607686164403108361164606543320868652568720790089471809435611247148033264796833347709245134340185022508886048436917935253970395336833826574218624491313146340963277192747884072957633151958450355434681129046176964945359688578371713009060289707249828453512200918408528500302601412541418575697317406361850125670638712613390736627769178636838405853313909922681715948317377613104529664549172909091050759717406016451603298926405923367695692631612439569239036706,
  24909427594987100410846744536057716071304226617752609443802370486024475034712047482392370559144072373040672882951378156918866031687790756938433017225236054633529125018462021204395330701300108215926127084324099614954018646167218872397996888954365580955063598689961121537322766025132571538457106611685966007828015542788019906876938680209800193976164437422357377267054677282737530079223182619331428457496304014764001557426650225044878909797968400034205756561675603290064811804247237887515243228706786089086227404204834484182464103594673674971499469500655077261245721827690739320525403447990422750121557570703802545554418726180389975843035048850492621022945582610518356316736986595370052922074944756148685795187624126174555233796027560076261917007326122526192295637722642284966771794441620889954047558570961604165466677227869727806059121630202202340872685642746455191928720867952593768995373630368253209090105476627783790107262275879940674959665172317307820885623158498832158759515422882175831240011568353698635127159726283672294195419719454174178365509763811573413963,
  70412394771609744642489123973382323321485326183547126867338174417677671981460236895866648321959652898645788202015156469097013590918275069515984703362887458919058661323784979088163100400948637742937542991355375393725239286092750865470975836441515311022425162233146119506768844967484604043428829453055686305570514127207344142118714451918086522868575133552455109070855763167275427461833339046048480092213031590206131486823315519820207470736593987175458313011626455163294059073062118141287197073705352093387722653720837708440675991595809184601285591235640874173776244028779173350776933193040020420768405975299589606325663962793852248583323885565042915575029065841582905652934830694998823869798436215834561750429824172215385582757625361458540276647670775195628981468296582288619122152907978599097685214404600333826771510288154774377393256418485453894466500008324974836555450059443633898881908170146814768707743494374253486253246403814417417418092157204547359637740501562367430255860639144339093299018826467119419930915299131414492887413569174413316393830020489279332112,
  85058539094022662340212124846756467208824422162856597680208650485374172319637848818520253089142852160598212798541288009797697273674261549397838223630414673124859990414540205723918578663635643253400679958754902048927008571987595314514367005285163858496049798077354930758119260938906887171579451307178773329872038936068713186885320831569225913004128549863908822339837491363024319939634324623633870706028770060249714489645296807370692466235191315992309688759878156639185787806858018210215712825587293097031252369865825186640045704443361696140932120945380796242536042664806813494065926313759363688242925222810070287301466303071895831350372915820974445915482010962809647072932725802256970528524537686309791557974942575414985127522473216914646402288777627928229761892013357887298668947159431267884070720945822249914574083053378754570516287941494283992676268066829408202279792407481364900133746291030250984868987297860750007720893891429400035385200361843457725985375507092160666996168934336436341134216011484845830414526711805947202898454025873367471384078106842375891249,
  65337532514214797354122187754656935238397981560857536278877248632780792881840399504653501189479531804283703956367733821365604955166358745436536938682228989853232517557626681881914173097861106616714855026847337092939659822132828508966934060823968773731731875621903720497049817440583341791008608297011262096852345617619248300088446985611056159846217579920308926346648015068994920656176862659615478480520257018442847127675868848074201484593426750814767949655206321689870139269369733154674779780066437500608723983869105368789337152900215365331095700825485310918339576401461442498876501771624750839058925362541094210018438415308488695831224936083503862427985896246493606019837501131916021780893517988807135472047988446516649517922481315005298828817894755545458929942539629982574486226061466962557551481305188279973350672672020197736530919449013602469852583617891749095797199203270459218033152716920922118541102403648273239562960249269973864795772026062764266598345759609990168096536195264175099889844109066961179284207047666393760302401244317281599616099015526572089998,
  9865435587260187976926461613776736371763110433606586937154075972341494175649437870284574935324137573987599184926108151270519090033971259743051430570297523951776099583708208716198851099447445306142656395637961828534214888678191931648715097320778590509098824919727945988520622126543827404897029466054737550366236762508243277810275775468828530786088843113276039499642345224417506029306326409996819911655702804142307784132238126953198850883949876834734718298134553816901566080257191530432292891711291189934986495429507742755737527443830965983732604958568562172278013578261235637615530952274620193820821938619974538931407657003872841268419411103456736523449579910174591210255157070627515841269018145418659193332080137519221494391311390322164307810398345490984097789912671027305749583358884110460762474028662813671706308591895511945386434989943065729606727446887524552019759310660042571795411224735030235786929471911361641408769474652846690413351973714468286371876204136070787809149677854038222379031325933707416713376670300074174297889810942077917603705239432210746250,
  53656121089391206374800377785298281039996198236674488865485896217585510337960268903829044362011793066261410396857385775732946618792041671739871032624787554322674707976609866132882990768115935656396463327320474173978426536919919064671277819469114297696011851147123991624643858174696162016532038069041851662283435164853280008752728912546568562970120149042391843128848838966322603326649050462542451421534758411608198094443837348883618696588170616957640942725442813892694234777051574762228538600021294785887209796416284878482340297862364515765895391894495024129195137962793203303723224217632615584148495451690415048159488453264532655365328158485236149911701749145256502067388146556741836776601362288418139854457583817514921679875362363022498665042988093910269971884880259702170448590302025528137614336727300023931487629943329420875393463751047952166375936948592854529669238820611960924010892194059370350390088948956755436204365122381350461223237238286685607701214708199340063250050401594447613733029311307264873742886534301913566263560985551764815742058532406091588945,
  53688338012597063829271785958791348728751465702781750624114462327616535564288076138555466953496487670492598263900479023985157001129735104227349803979305948932177313778358946427421490828189607575316635304741329167667260958198813667519385608007083445979694485411874596378795705186883884100245753006979020674702218952467330629653303426474252506437703665357961799272351401680882572309331949322358776974720808316323550323053728765675197449912433107347871022832515434686531448915700185727147135713952818705744039990354952928219841943121751076012396068516715598009592481132330960972775272904089193230451381921405954869095986361563949787005209994004537373431567354908127037045102005813944075001957983981534123792549544126830335101009832940686931676314865221842126297503546963188038372296932731963697435520649355414328396057577614968768432550718202598966900121473966341211901611451592088727225082305079329494940799830351174391399835614995283176987410530091916463711576080335115178235447528909516696686772056010749497280038598968896901759596516320835992496579187153166517655,
  49612330531322300490379802892581565885346905592047320220448582157391494245442560076874875963196383371954892180348425782151467432798324626713901150955473503845122706744168158795314683679900968850352672289130370503480372551647510513950112069430326188844836012931414513267422774490205843566135720229760256924370832441473642641686246364411282148668230832788188494762575231475975914601911830264703265364351048628723308503013729871313054656816719716890905587991979239236783607661069139729150170285367070569174329791673497006282391209582141932733273361327046384978971169436863631742875989441795970005150265948402811553367844892890987111274270014556977186037683662578910129563249421739324232168356599413714970634463931210308426517347819460763480768667087802256060833998196852703913918886249039676884620136475618424530109411795428278950660962786715984160333835560517106636856399954515920294897909002016370361939133668720115887227353601700656960651464471120340094309551938779368928571657979945702661759806750658584312007097858804395220899315610725582190373890438252120855893,
  40529626870603946308386296435704822473151198882326496512339260018745058722155842006289564195572363463233173613353963598882815416324582086828205177181267423000996714555693996321100979208927939120619892522787251770626356739067691507503627904959061701902639885384824227979359566008446664620811785965292002397001725732129538122295857247548029962280452480315147364447607005840147011161575833015879860256705328696025037668589468895502325739606311335079006232681465896006105918344498176269468436062087463726002342873104877750971997372976122204844883615329681410408419152731530290984810606591052412794720672167785763850341333535295376861634764939398220611335116701808593374892009856260216375364576378087307987944163031329331689543608548188271827910802764982430917005189925637772067190128259564439681454972119877536246242858734836672774138854707427898811393103671007402604580950937400893191455037159643002207987099020306577794806331507827894038849602768786750115035265999596539119038509957541361864607763827610000130467442037558484194107547431362832174749969140172562745801,
  90983073081459895642637107074492931859335994967784546397529866823300662605197052958396554934787934076892729823865099728336887309425144775293325530109293889095059621663500645851682645654478451804215271026641454725572435764674125915003509734420041401377964253027655958003277921091723389069380230835700074572020775070513207685367672726692982572788065580773918193865262987951271748487023113390788148797075662977397668867455950268211387248506732653087696260326379778838170391692259670702892861072346955013708922273724157473521463118606168332964280894271093256452178577572704174104633709214904775509892915836562366963587170022547406720670931929112985049840901187497082556550513631276761951182373931017889405195526807383157327019984731408230101259867986402493126529986983706751746197612905864197151016919038113053899625915440589779831881118486367335180610964252293342023799507987471411797241331949703521203902276907616939986615392473230877439331993847393465549602467485145956108938321434638044376429674478060445428611772356228812354554938549367470318309386300599480810077,
  75522664098580690978871378998953777268055931062615837683270227356952548162868397754059831321881072095957348925727333607100177373732221572506245554076368125818209945643331566441688211124082029632424927154040257558438562079972481372543147979164509345891752823037794163366234595408270359566741034205830065125966067610571237001968882883335782652565408580060812476178346121343470426599076471885291788165598760336660595722972060467641459384056050985003866257202499991628345347601214095757561311377201422225379992258192630947647380824921053667270233756952747512467574585656475437187370293203808164716184881757492845639807036059299858141720705239145558163312398386041648372208155081340838489890108366584225927027318649588730149154750457798656015794960986925857407280916123745761202808037828969730368470554068069623149508576585780179457693095467489289107241726997087828710790670221214053753348991612709489247267572344210192995716317251677202681645119541166379138729020266989452202267016878474342065359295371655476871469752207308654175307695502877479965694422846207438005525,
  93542623446811872966183544752173259547240359911549903381098929253833230110812601119458291324789182614565900570919148049889810641092653198641549154390637115322616801391369207790311344117904493333053286022248811401118312169079855555276527701296897079941529344075774448121521583391480732658854902773929189469443022306033643612435270176598869780407299729513050264336292299768597882788072738423866434105556186732334052433044212654225809220261280793778683168093690965039307185188695755405355192447401018894341851303637710237191654247385569772343454416429294281841213550561603034041519730517056720041525484143048003267136493291551004752728863574315627221212482808039480492339941483316881684885611424639856277212489980104692524650984297680028198873891796716159975629949081031809457765499300335337276602898604130513720881674965579893856464931254930526179415435793243996726463822312799304382502745704615661222802116022529711119147260479067911433461053291629113994181427058595694120934870532985957733245015235674497331430597803470759811810499626483465849894290831370288242464,
  7670486581945540112226166400672097493477354322366078909827936291801786597529669160491331805864544186490197005312721109486728921611045049992850339238238734277274981710686396625516505450077772976335228391909363416626867302838597762854881190637657141567485229002764130072284646247766040719996946130087123096981696117764024588024040122774187119038281453640878770214050634920456880386635063758276521482872528409166759588368951256147440112438105841481692969689423082697724588266279687970065412237491137136835182738167865499499087896670694422370878594470372287431615091095966314464662011640709456097479849023363689980064399177284580701668068550509013628723686923113752175319591326036854910792708522832260794133428448438696455382340435073675175527928457599938970840653424134033300596542258451977435493156525253949040769054975535759742832707392614050290255313570590327766024728733093759232781801218057548701548456323215488188217482201759332595484512386428545698524379400556433592407757392438540423436702536630969342978657425267029908573234521675617101232614490595100892202,
  34401191017621933825534855414517694923404167850494813081108037421525083298166315034405878206840508107976351147787203140491779334056996245570005100693036175538679862105922113749601741647859581459938472721179339102336288987467100288436021052170030892146382834642017249337751459461845171864693842448751077048033105857362742225568981078359505681344078125767276467759112661617171405478682692221335071159277571118093621635640070319886152791549715815318620255816103602208833140622334375402127944239891115148261761456759828494129184350381437440406672132027369655909465688771867557646895937998403428439243642831384999361064558995730821752409575198040756322481727837193912031933520095796798854086628858417158654024753194619847844915636237942278008482519000342182972500368077973282965382738268270964577883062907325769696592585022478834799000892773753323379739199484980079456201626834352930708261139150815401573863587479108768681933062234033983618409712895981877562602320509009083023276126078423856047623994116114319918232855723035025632996230987986981372198738395349508800511,
  5650255198307663100161926979341137799650871699842950607343859928742669282132580622656104270929855532353319048429705759791802868591124267813327892000130663733085016374578996392684184324487917504059660568134347300211521273649038146014660175280495123235652332300882293156231890747249051812031716773402131424782038610674754918456813017593633682325956294151085066373324134586526263304427789203299630116647843105578867496556019363454066610798043443310176040536965878782070117783536645957977065009110513467180619645626804589285531392798865448871829236174789553813548224322788613243887453757306392553505610802203556061801658011311046665551683362501539697327948333920319912234227331816191361739479097173520972544418739761616799544915740666422638836210825865482466700004660304503176908034609680389374942128972446250737237880118564504954371774793059010541330915463276228206017617772683571994994721000858886777529485146183283002216053160745028622713940622575227153615311794832539529555274244322201853841213070608839943729003032416962236465006267920699801174507415138856917224,
  98812286945218867003655461487840180919059684641517409973838644035723069764165258889246501333280105957708743781305626269174338976633746852875990251822716980066713666467083616352726762816491254005447324342360032669309108993937683131442421973822993229788995092621454276031423962542712300927051312568496344648699864913368849436390897231264269856627625111959533090158560243389824306062209421268989550333474686793068196755961498527973316889311238639281597048721463117848989411167729941121535565955646022549236360297674973582068682453205195825077303793632075825348542447969436843239583002296648031945160688614692469830684283731363764352576359573501486860219543654140642015581688844968265881123465786302515920844396872909373011230188320082410855069462747558507218819881766416253532852199367845091841824286558030815143191247170651521537685607542529637607767667903553404206819509714369610937178250010403468338900472368357971887181718669016014165499731815939027534042970294782468857158030807082715952731988395708272443207294195414773761604963690540790662485698192149417427233,
  36708611922624396286500454742100377481547483680701662129709692506903003943401395314388437285136146794894202202440990456468490128084942230059632100179967311469204503257922153562548371953645571305199770032984963931022431021180511979176412110170676120373178870189983365634887019288887530215727875646836504202114486565320041827358101052483179031323330999480349305949980910359087330683426208375330508051534731571048365541101858028938714764639728679708648175511967444202706231028853344602840098064273631390115188257354508704401278803203088045899940139285783137032014631169008275408416316137011378228175894830757274318712663013695540649705124014514793856161607269587551618897759220093725494342263026666980219056424941329713649058451446070935457705336461927026351091734441874165996058050721762322370670527694064598828269651738596744318504935088709778844538955509746429914941415741063308802091460270719921816981821848327678140565798031917860610615469014750739181327737402257584650193362927178684413597620946794413405609798352525324749547488537619645521287202144933951857167,
  79718324013615168083394812033864776832811535403676188048711952576751418449881714329952895189630212192440467837805741397216467615035218358175419598801558781838987797647526758574881833126416750174981081514395677780043039165624142126218301249781398996126974931136631245345431654123137024654467892213863326167221095709595677587478136027439328252586788094319018783178688516281550666659348990111948420400865495430600380391783279621069720226191731013947118413523826243980820380447256042939688886080476618148544279243550226176043383037998753249363384433796393051064572901470335048442515082941002988571760220943603040268954525390226415655472296744406981609957048970618575948306612453968615335485514459733141584882306450872906274746169161269381122724032455997788502356765642104256352822432937822784133745390632684172481129474777303037433028454614312726146323105400535342687429507451607116821132589450473779985259062808897060084199432572435356599159567184419532667236356954260375134016043029173905968816413900464887446198770471389535017208878293005693458832943518623644105052,
  4728507958090822774526283793096212452475950455166123614389213213036327245839947785520103581781175469105111085624843978132712264257381830658248814921133451601187586782182236898768715108552343084383567291462242105743861733256661741960999369518703480299056647746589471083782738489439311337575309274218922336238702412781374746994393067173792589616662082326818485942993720067220424966657283017661172517704742438388735609530630771992302807016573157109237226340202533645661421172102504983400822458632583416950677974907621573373220845747715167283702165152572726906324207310811266755111169475431139342496252258865632055943336433200425193801686622369612079720805807408423669323592226845180555327820709234989761967121716779791624257801814465205156233999357071380001865432511399524061571396278600427487610222747036056300866489818556368512883809784031645130156569345453938673434284770685138722357292881400581667792774383039499142457190528757357218154481546820977692300397019315888533448318345887097841660833222948177642962698624400189562630801058556951873430032304591293135903,
  89824489278817580776525982661720431484267406228422069358052956902096633837016605316358514824802924808353213333866336552655846206542647208138004228866116415553859799434407771856815108755523126448545964525682108101363543381796045718686396281912497281114155466294954354934914680495744830271969878908369322495792479826449028468729907283707520127828417701296038008043731360423501447543490823255460170757247290533176026007168578534904476930884455602408001824755381632930999047059579577019350151577466033079725700373762325590290641339382501275562649100510616602673582260016757926804227712563042088963082394958703325881815901148357758853131200675974897321484873801355473336822289584377169733243596867061474174214824198491715314444568644103073777827889633659175734785985830896048923788864995744858433237190790563871810177897048941413043979539619304755136966890917381633740202841805918926362634932358957961233483397612835753302169311053950963729495957963237906257024403791754295515233462608114735451617283191517000014474899195218776476917796619525687211950072287996953030485,
  36967576363739907944306812485441194346876976488405834661663221425439246778329525291262990787626422760633017716949891901583354519093196971055514254380463454478833729585079524816909820866887294900137627493602761004590356806604586890905843125869236389738150787848391324473062098218760069893197664819333138005298121358847046135638942792775097544427136155741424126712134361443145769359431850753974015563450430072147733803601591564423151526668081632565007265449173709074223609978850175286048308790697764337802440143836917576582349960023328399802426143230305164711505246133869229559619835901852698923720616276672223918296866222996901283683721070457997382325955339199427301520158632903108662360890287431151145188936444167275058578236392047850730691490801507742138326134560976835047032064808690069926661685875568655729713085488684850305592742226645648955217523425339441150553472511264687430112250692050293658839346937774273574881893054763054568545441850877833440271649529676435765455423760868313855012846179341056413251536001101162313248669890378322767052544062968966439016,
  44662426976873712779025948486723050418835127387714999583229272010569081764772036574538306263212128782344682857126774021613199423767459690263443802758189654733342160761958999107135933046080063601143407859022230138144316756189416100838666846130672978799816026991984501609036445035430068857491807891174988691858559120889273428562407505986374642067182688584104389915699600486001678029227155404334781281683206974252590081899938524312948654909701470903489016580485705910238098402302920954845802703135799755060827800614928703420610189705928555625036906666035191351050612737683153603915982965440961198482603792153692821523175373304500745945602650416490638745217128821649779663089653203577927705597573878904708976072822728615561333655417465417333253195046144715961256134472838760794979203472778902606455940368389398305128043106897883209225526740309907276663255630982914337733624876390098037467995836331670749095601577678062528418158560882812510373045665167838123292026443334289247998953763700284708820573178148028615669470671760883017976295743657038637665430467430018221775,
  21707979011378132020917101225944593947603263352210034409607288891180582302988000139210576990206104119422259014412676393754756585523326364613691909630559005238784905808585472189314329512565509891118545790904743098672451982156484092911235670470447158165412242094848952602395442514968969986468927865337205038152583553395259594977924503735072336029292568166440317544720933502346993573428041628057585312310210403470741055394794662342247219765418606633075609383928430245561876321522936953094967261453911550427797429139462348116389099455719879805891080940522085663477364025185331579289422226129519671014878689533990411656262361099307862774431260985791519865108219376344239750924444318888327216723144731398927565393874690848378599983903019284755990844803139757226257799580238371821182610778254632805016627569293348171019992136884912579741783441246362148079932630317896300773162287411001414744682958710964094360165114643704044042410280223715486434163126869710296745723799303787091192660226885434933928846977833183377275536002360452697553331207405219443841871317065004062303,
  14257896396246255080534623195157727216068246797132398235071121466790333425316610500926828269783205170797060647709475332219113003163432746664921258533486982628499333649074975762717762423842457529376036373693066569858081324245718423191659844352483638391472367709112542879749284091671484105606173495255530380802548908979899833997441968816443581159963541944546824430018773934485156786299371412464202554276280346452819431969985156775942801589011724299114749232449636296653611225646208177808419373671741748693031986539231451042034208787494463834200742369467416737913771854172930211067252900498505893950015764465257842678505004128150514110167610902417998116367365117334363052042171883469733440960755061892283208002068232188255209316682682240552506785332672739354462795354450346934670886899782965976668015586855543928054969160015382464415472963426434624744233809561669748643267851053740487153078328524860921479293890400619194077585412577218297403111116684575194337715466605931496322605763957950667237924804556626744959016099044571700747685301825835911184702718173839922065,
  91146973869040710668891914404781839401525549843098417404296297100375889026679800375423520077891886893206588256735921633748993219074333077632368063067660313305809936503927849966330583441058395584235470613925830296256059372949699177865370073582595672916556375753338237946506670281331633677877857765403844507622370281560026646876008330083477694106522423132196281717170517457473158031468377944229920625843914516306421928076234721173733905412416898122211627447460479742515349515614487846451905980558527492770651104696899879122692095436329187565984975816004981782653422680617557997788709829039794776921498971388294412989921906111009727334464422545870811256275160768956041869526381765629725352532046547322321411273494490007070709995343823704310299549318990729038940393600846457924780974770689377792360934824065290804468238738675355043214380336072212290228590015216874744186876802189742358281150586845563682198271868382822712022953559526409811922062625661817453862043789764774736740130114106191782005477288908821348907136348279155939588984311141468449293179595876873104619,
  94662172429940553363456043726428831492716589843358014580972576277627480086830414876612040715194827495097876062854305260609174030415856194771042402156317612762503789082642330948321292769031081330963355364460998113468658262919385030633646688385280452043912065096659934376120972103566183449142063297509359110553383819962863761112214598310028863877752253889871071693077294828968283881800878905575896287028220349555592191964282070266016697470450758824123649246793082836044047799202556780810097082707396392589823723990315016973687807385505372806600703393590298940585507101555820395192945275576341610560242684511731947093866005647220996449700057971162868387884806864575452129887621201133230783599445579624275161906166120865922288443999371369161337747764796754640447522236519879189066686946153634030497850427056326973688971767816963589121479450885603249203591050005270291250661744571090248823185230873847337576096296230032316319317705124188551887400891445227583872030393346341370398837475003700041303032374616810528227896302406571954284743956136305960663672766163707624386,
  15179317685637821816707263665263727494296688264964215669098765755639538981517371539190373873661781085114373549171826915166465879543143669165745599145091346983005543469739468151849128526743682163323350024004153475633665554367478534356638434923082664101186379463682427414763213308555860891159915980692993333587379992117098776101000863512269661085823779600772982529916422452453775790786376770017620421698012012064777881681228532297015826515375910472798208581025447164389092145988599305873899806181444371246796092789601699593056731147787651645460418280680813730564113947700339551059296711792135735614221334977010355578903931203679507797267855206913096101330579957365565989842140801108957774963524903058672144033212266339457776033667073989866375655505668375901954111704002404173174191943945958741009491279189358322050960751544565831076463220207415567300734929839223758860243633021935876027023538348508090309724047230674833834275654193901756633053435905729253629066662924429884918889749301804633682740604187972644552879091037459015279629986419112064127663416654672601031,
  1439464825427319408260519252525514707780650538193970341483331883886244544685875028351367931069259265542345543140287727009644625932593620484150997618613559311505374332059576171817539372376834948965880556197103384605676517806077143781175119854958150265954047897160571142748167043354307983627680857375203598045470718987444627551568650652899034427052422663290067377061407384533145546369620398514634845405036245205155448090190444992779197019463405204021649225879685477096465918960525508020437435632499552788756401854856880904661726647219303539802576895540756070945089216392751733624848727460634457746061430015047148066380230750784671866268665480628749533438126508529861793606273054116087751320650670760095159696922847060025105918981686056367472284834036623131284002783496502642074294648098719581798919823422678010991367265869779572715637083820603846750851250378536868905000292924591381449676103680156504940064501720281008440749824884336338377389451464234998074348754194957065340487599306296865740177229892207041712379380368689301950471408053163679244276114987282434977,
  97345189655310351516300192841073985195246807211364384786874646878389054668587014682004042476626691197850527702329950255237592021823976131403013182078110942434189403502878184833569987541954914249076492818501276969258450798230992456397400749002204140040814982716177223278597182320744436096387298396961769523263044226671403564480136950111512736195952338954246697996090297111772949798526018120959498553479360399587022603538684446006003645587837208173448481728984962334331616852328962817476865669477744784117666778555040540203287723129129612007175618218574966072128601155009432483206606717083733843924471749765065065395869480652749851096435044131366631171614909274800894797155128038089060266123387702102460871260236923627820427206321488569558386924455619295439798282458631291559701611213933766704160478146545373984820479320623054588918302366359110708613236136202530060581680116956767791721865838986110641028446669353951289078736735883788090729393355689242298092189993758565251999683035395720430381542383232155894813487973033498622566948609440452371096311204294737099983,
  27752375902879435101480796024108531828227272065209171405271639955700685488899307132704442638117136161378421649267084544736015337153514032252266939931564693925488860927719469509510272056589820851611416937589185849776733958107395520554113611674745889400055792650125168022564291329046451224610161163775895860035519633084626368094842986855782124592378606449108626149528386738574846062432947697556506017344702322451693258195942048017443861827790099791026997943637738610234359901972902665721769349053124210820147901076234422117640498171094045646714796483185003646070652437379914957549074643793556608668735047068802888022737169150667961622726367791420445311381296578892190798930679280795196343855442993052667118188316931815153300081983413703363337811651364478449564320263044789056883253913275685500649887436452972401903932194236194685818609248199144718223125635036107099081438168200948881457479183400742088054928243464822020180900660893121848711422023890596148129570789868706730963283507728003584664725263332609254679883156281472166531042903551063818672394592622491897185,
  74662275644819232079120334629404623716455086820747807921200224810448240894376772964570375052148843238334778442365762659625774764216633838696810515560040511665892942265564305067431960663214938326852324112410309829261839656672653757096227270816376522222612795703789130273622424542802357769496697979160378060206119982965376686414860573724378570868569536717430528588672794150486971707923068099196355970906670860867044395694929890349846096408355212432082158722098569426394420680861525393226385146418582255088724356407610075557986030430061902939977503652924496276806301619395868967484282296966828716007054121885360112526214726199193457011249413604007313710356012354491414456113262081479722024456292008554596767107745262944640369871156673705233042276920606892199721228765159234917270882505266047849195844456959149545052034397221960570224287059634771994874534230358497345554348357522590050013267928952996834528300292496787153256950895599473560087716147867358907024223034525677092641861306526224026655930237961089086540285236354325701095038570359225167241337030774595282986,
  81995945316181099708617790431952149454086998001928441783404417575747549841723432243952542187721471914287794622704245511038404102299632182148672447851417004323907658205074417433391390254937226005191780552886683592783596861304844805476520701103870545679050667133268614691793209741543043700590057514024530381135085976232049883500375219010731724239132061208453416364254209019908397895169749190801982570754695387176043555031029354560318825424123415380260235799848612710272619459461730250150627201782718347507953754614282322402048003534771308735855438658380898655790290172089921523626028544134566644210075571317411536188136435968339178366853039551978979318334402665763958177638441502047463839169434940375471889635956653883787817580085294331051564780631675597639684628454868517613078492352192875843857174211537274266247549460074982946468911313202604982426666061782362167521162446765571852014277072651705457698952689158654863836532657746612478287586163955105690793757904746800241480846173002350065115943759950472262795355830956568529055241243326065912396556616297515992467,
  85697672860957838708297268881862477642824608890913102771680923341732181863894130299128017857681004118453317054878072993539224164708465927676959600861338467258917922246840196523600404519226688050229138252542744272966866868443469993646449538503029644314181683306795660659192242268642337258970297498677982237986970350915672882501189728505436696999118229276432013466142620966740346989188123349128498786094585083085411602679187495638399726587938540493758893762651752143134009156297676634840393405971138958961117792372719731200871190283872385042099513650208959965023869238743112300764938954587045374039132767427546585691432492234424879549785431942177295510329043666950971229057941054222971384983331845681678004716527430344621509373745689088342772654997958974002771586972817567162177471606239356251321321833770630812361990667620689126110335839976685279402280069332623042764363200804602794543982185692689576088298105203470416289061514269556632602412358456847740221615331750794904506189942775416487668128306087676803428013706151517593654200406643443342649696301359769571109,
  53844130547513738065151146567042728087879211161883867025832614835203359524897998800598432685214221661012138642344447403554153618125451232725417903752432846526134001564034078029508317387068633858218904309437268251977835434140441463122505028998509562964721998989599570276017161080026390045428066701936887008687376096355170539610915864885224752259827608509868639319086571570514647943064980794740035993567831575316978640164121027673592744840821479316168720146307368326807553235550723378451966583395961990088575605320464904398718780003877653449848279127297597926785893238835197843597745199337906050047835747413011343857767012774677655849643653499207291127505244780679900247638081336083769159343073447099908724612469511584999056938945819299683152569343465601650490736543456168992441785418309627877468642564733090801771234738274986537042768589418353870662496945358975129763649216620225195597820488201122024520631801743185314053571493988583535207253360592816564736622280375125433181190686358045011060008848948725199038611570686001291733949132919990989699652040286479747867,
  11411264149735235506028280563867318913520620182265447423753075914797277834548519658095711767037248911322187418488420537545664304860548417143542098122079034390146824643080476309399999880943640362379049566908306658934411667123307190876886902228908245509439357653700881395446857595822159242377133759289049456699134195775694872099345523487974255495973472566824570327524856342058030051906633322261472984466356644139474153616390319636890970189293421841296547064212044157983092821127551232309411970468703667558586291468665816011469075818145323886259946881306110085865524313303888523617875416245193185488543052047658769717818718606032450922670502356233075286540063445374747739810330175301063928587670660068366242391593447479238935868447466881343976841289522085262808015247811580908728272091068270714887926222001887207133583473116049387503202471350511097341514271885107454394386359982516893867278320760656584329964192668772911788055306398770758928466546501756871388509785305437747560815981890538128597597587290276419145876804693039579894025028062844944399772678833460349871,
  44715911186408750884801182504660626949281325505854460668072192807672263185419706089972727932883563086796658216563766212687000620861398579533687218329766943525865852181021971127999885232860145424388649210639625508112914524525561656625174539821079165832294827391989072266380859387770666920179845437333825758335616544148227413493668899462756623005823486416374891292574345426536872098616334719547256053764902611098616022063715172031731072233527779023562301161221588721906831847696712154544777718919763647675635988365048537386814711189717191680944245320165626465842415320460952197508138749436272739115397038981022050207211379642898167845657199983209578286754824619925524168950647562445875680476579827104206491828004961141789963265349383697099618656335625251912795274661164528932439425026053949912976789486855451383646298613870593008486395144827542809254258265928181162345585736964351216611275707865878738910047509495020741432855624753234068806946036586638224159205947701162724553507701883203412750616516434098924276636194906604051475901898182847041454067986337749589715,
  93303210863967948024522360219047075408495243809362207420421644466590941861151612542143978530353147142204276050991099958425827065342806551699533764135405683985905403911441118107931792354792978041774003118902834014205913178601761814010139067839451607973409333145292883356826676108730896556866634147469799092012916395177656476041001359230846407781118577017147547093052279610780512922592213796676795242302547778686909869863959328301752671349257394247665703796719965490579103464517210563161116284757616050280274147344205937987385709393659976458406436347102341051386856098154364194620709348749556571515258764739863874662911205252188619786447193534012187708564430494976466327211173129663074014742885338807139554839666151164358327963270714970366472045548239075241704873711090203568887842627143284596829485901099120563280067781728195594808359588637380060203312581204047411619510055707663751391852063501937756689087912226255291511541716115943112322974848079460008427361783694526536568638908922379219148889415134127643812867253543943836658764989351173459546582210462070156946,
  24962982968658694603297164296105830273629466407866954804716068767401293098388270112694174576728496538949967770013549707175873976988535701609968871924398012575377886300452996060389424525329812768837975328294347847471727369483897844303154455723327192581956779575201768405949103945102487040529777546132413957473702495806952190611935524656130076060817036606398636909196877967326987420698410215404135877434994424845398736628997937049319920124331087177158890833145936949751344415030896988848336704889533517343836661375049886678850189787624889604189195656213492559957946958215127187360222944345760312341161622211878306263016002561513060089617958809133778599382757389116617492200048019466539716725319999678782464652070420255289580612934879221570703235051078873381035613246905891254280167314522261051097526884458173958528674970087328173702650391141880863625786006867709535709454186272037182959232939429007320456890853846769280767670607836273145466135746451186141926996840036355245786682528605523608783926337209495568657305888535524273171830355557661956018132069697052314728,
  59160365741528193794803907805701776624967767708305453399644104114907444809189354423715875131637120690928497188186526517956962506087680863799299275143819175513141285698380499058383246640718435335730319777192340217335512524754028959464519349789418782111652442071964796335402808427682587455051430754091288697033827579829172527012505174857251865676052968575717104398517758634654927363349783745785577517598231188879635606429288261069152211387730469072911784396879571799691908767474462689390104383893089359068150550625180428342498482854745373909119655005787485236194426736533892035293381796879434588513096544808259521653348853314258590660527010020998130498690661069867723414515021618033218172517802616380355080061151485165018703481386496623229835504747481403221341371113390420156504686295863257338032731889363378212976312324081659465812529356069832594548209727187238558640120854265279365784370861213190084944463166922768047499180978163447051508116030554684547772712160353784055071044751740177891585014403339971197543933371902193716119959321721650434859860685990758148663,
  38515935225398283863657870494267924624822064659076371160799116669227004834577383495050767456171329677415741936054230465108639047074309668302135313137383915401860054831581999478536840792438863038942448666729162465474925205755454998328995505246549396464110672470246181615198685295740835066271448492976276103276615079546740980485564804519926700067541051461682403713366468707391805762245964512112517214928446078387295065526556240782332021634284227449734066706057854813128416170006827941652408616053049764141535310762475851611431896326641215417647883980573951816708275462640191334272469434064546092333107500561374885845601058707642805510491568322992177718771114228821399142351389997804809074196675042934268844058769309739698849212657406507384241325904995133280748918486312513660051689098675766189306418601450768899664364598478242476379218946820529332861816072858625490193606396597217345974246685348919077150969594715984149588357499407943076371650758713084303506596563276142496891702704725118289315301163513640123233194847773556432256180885507268633615667027747665131684,
  47304589233046845035827341392155205655955505440270077095711891235370032893938471907130123006149485000977330419016297408129412131007436521696769473711944650430267528745652642711757677298510022731815314791218667823176381430013321357233316408367630482863502462292951039446419729011777230673981708549428213168548786358442315756515126424619713863569864264862557007288328497746525656989358881220656154327435235054226430476307017596203998944569375407760427720642856615642749640623182258091376046133355409258109348656833959259597723292629928394070710266205069602619147507145467295379193605773395142158577367025812554777780561818384862923578290486304116967594759573109216364874512873206098977515744436062832010751756050589863773946426723725663313291514763629459652957375045560330850717021865386497970399826911957235654663966487883670532499176054762463736883864743239368030711240814009841313418719023246139816728474348568584332490676322680788298969985320550015954564258464295395783296713684086860555137613483163819971069104112487722930856559611628925194327289567357930854882,
  53462188059783036196731434722447360740190488254366938385949864389671584434649781948460870466842440588505813290948675281035089418917687360134567039840254095399839129261639640119758504028305987475198903836376336047952180090563999407111490163488116087975582868871123719784113127740474977471602990390986293201194341953261306875586870047911505842781189273601898845537942800938355960030555642490574933831131581268935809171821679393846089131100091378216960256961943915638570977210852948534084022252631538075764814352111017860607966202153645745198042879249215596091785146755347162834514809769847810667946952580438627893307285443075518674674031789920596232530696849850622256453798019332407147010538831245721597529373766414460002433347463421615647109080068448573310099697956750861322956215394896612907076087059457732110961395957206837698173332177227229452302011714958274624614230087924563915399775879888934360519280928053427572897722982704108252650603224747434655397124445821100941808528827664287215530373207303053699983319095464460134905800277268733609096752835369898691529,
  91883777944708673208051172958828522346346613521178777082202451523309869472048802369839037472245069452923338166809156021611945380712720856939944271125470567703391660685041883392112071020579718959740295371913788508239541844729720512583014502236399845888188480795321109613607068185762270372222467367863298882619535077488482192580101028167734878013651737085975159686350692761148681867915433063310728405287263296042746501674512098057246159835312497965083360962898465179248508654985017657926748368303140237251160519048200492375688697048132356701387122140348525975716982314939210350445381249343854754042877162926078715965971000324253508180067985047846704341071380230002355842292762441880983121027849845688281905621486116883829213807695590238595988882718427141298315357465948383508863675568725072370057882080806516430851305753907148081251981972754406042860721307233112513435473512282372636902059233468408952903944181747222180808802420374542922819505156020903257066566675135522211083893234433013109226745609089648928471600900168434256860302406518387125364447910844822863457,
  23428630044777153567679200512680158320684514548462053772408317023075118582695882781968328062931814157962923029145900923892191050240033017159853602106898165730959705470875430491535075728347102136736590782988988985918825850638387058232361040134273680214577279781265035144713007668519889889948812511324071231122542365537410930571377676466308898081974667344019485396742746464858366303858292683316324747585607341129560442350481513665036436982413065211648732136172781537900111843876479214730602485996966264597689599961667211415767874271631457434219196612543824868063795065670783793056645487497150817126499227458770705140178403252025837430672397938751940738347821354249264480459416936012377841557568380219322451567198146831319351717687676754293680874293230325331900577611530377848807671791587371824189629234963357730887133014206582406472018436866647711019508225654418504141048595092331516417566835335903568059777488262860392163051142844014771122767735978005569968564515698154440497309565618208141072345550770948893164663871587978269909672010477004866204157743641851008897,
  75122940133862157255979667303003333560896504571299486045088010300699570811832741220140288467318761211472150760828645008049335060583412440053499241007918978971569429290601945961666395357390057408281897958656106302142509405780260038780667470257278504231026792552686641647837572391926574083353101091994605868912629692897227996956161837965862539514577656513899156059691192570142677697195362212692149247933013222534179673380454569069002244863145436992805089590287985363991164961045693416352373816727007982486495937254329441475017422534880074605366852741073581421404813819260957748575398323964322027676898295299322299100591113948090306257867194685220754367233144156327474584136782969518209090757537380815225506815816345129685843055470034057309371956511533341188225791184291278976244274248668828946084173377276285891443438107966324185813743384655913361250656214408631185655074820365954063119945144735523664953074243612622082215877799181173182399879167726862469810013308993441341032556512447509816738305783880027931782366266800573386628304526915012174988111010662663169990,
  74089546788872498376069642675607327655020295306432024565848803574340919018457969670918958359215806431892115502078222540589621238504836333668640526509539885396018687480254395990775708635647118107817320835882410789339848496095045157862369069379091029833658612505780061282042832989870130361742550814179298851020439277603910088639919708838942244343747624450649943253350075532150135691645447402450634142172092637049441628544935517496673951868233770388227017428395306486621402208480235694617451935044520055084298960638549788480292304687650931824304560690662412014323288603587029046926956993772836995725611799981416803288920099720767647275016278368676505409280614368255993407537108512495335052183812219579418437687503437478613569746659621989929833979417746291399911050338566080297250556471584663407144188104066816046594308008476074233269689870583340799591401173561401519392927093827126873574129118647878817379335307972392211331923087224051198776757392537261658645494269708352486288423730510869231211870617197851882091508255323763828745420058366872399087894313476817121025,
  21577682178540349826123344573321254174317451021853549655579434151924041429385750734501873226311269652614808725692696035706812151890737658509891075362102883715027221145715342089961875581653159753732286965870661344104392456144311878952574621725088814221073288321486438369157788502205553043793870438751785534900033336463282506360668434588165228858439143410744908874009501134992575008379355751565553008791180473363980280727351149899654498396382793230869298165472619999417035882464036822960347475410975925924275022130272331811193692525583679483444535581223185016372875460245591428936179898410034101496736734869279655352991676468139620318856482628636652051194815519831936924360187203396258643477420244385483432927070408636023717711895787744878210908310338603375716535638376914811155177578318605865271331483470470710147491440729526717343731889238041195791375831171724954701510532290212277885637591441268359099147735772189678566839478966554619377684371992485409203477479435973596459075100013413684632705399423663318275732602790593132890071752423297998820287298154569806857,
  52602720853450815189558998015379859108330262659503409248220816969830945099051722229774793092960137223116207063180590980986522049841267516096899369087153126154106391140997195166527521026551374621067239754536751527722664273325007553303811557792490171081979998740034332068949543020212334916559755341384754334589084597210565126175277903873715580216810201348976230043939330123619560674056550725764476264186410382752250275024881520421201448948734273157672439777516519604877159139933757330521563160058281832752425124984289295045697266272317949998224138920458113922288197096728668134199658545089254147881866121431646461155003089429541641500804435126710007717191066081634911601049409528859150710273192453009210337615747852819011178525319609397377075883453550162105120618618460169594847924226558283205389174341419142533873492836262527475621065002689209305498038191350507515833153627295269023354549067306907079462902709804306967757772324068258908288250871922899238453561249605336090931198771497685349187710587815251157632178268800383643253208455494966059923161344902962298263,
  83665569562390291636399240531845738319733605689630290156720278747647422923743120838753647797980211706640414003623960342990547821460015964384903914086217248900119363936205294911649019017893767741770081841573646424822803477659833995594199947423513808772027356499653746518050592837624590615012486354904059035044355177396875212569939225314054666167532600959644015081447134085005994133586824015679689391652329956902561795703187363460025492750797585724069987753769610695549112455929371681615609269974014748594909719575283932785029551163731283631609414002641277143134385809364107291831885578184391193113021591853505785782678137409515139882872093298720891708796558403379958180364109130176058364283768346750269744791732736392549826609286541266862508695840576838267736355761018840756880462931100001763138204199133842294642175476228763268895103256501257806609110154182617597117863011849312041707888481703544459114209246267425738549267599297215826630124896079160280796283008237698498425662446273054786522712475385565870151842593678666072623746429361493122303169711499382137162,
  37773410189346841249858333389712057460987653349543709544581047341194560471667637148877194001858503801665391884435307680678552100284220806101815325986672325936086291194279528506716203215956292623442108503037510045802167820585943121317849865165018388971429281020467276648339658336122005041226995409452463109054148670165621311141881464251400068594342141622950137241195028940402417152962021482131694268734550617483257748990172706786802213580520163171796597062549914891010408225901388069271225998766190649975539725379242097878052790312274535372212572367819816862775436006599316051608547194117693360065530493270015499640941246294027607786146284263379978708212413096748277295256590403333987130166360520515294387227092653002312857112773934391997242946561603149228864638304821182640063463224452327691249279637091900448243861527211738977530537784151082701879026418975985538377859626418290682069666145374500018130044232891188865769486602758387733595904246273151206531070012956386671945837083873337411674660109199277138739518504590880125893321230007687377301554965648760019617,
  3356137685379172249886969875519586511515188992339643774040264464399244703988966057420048040327210150362418929403364111392633771455089181195813833836872539472932403896773494177275724326334953761776917290018350028832468838869879508195336556849368894203161722570960899838776966041143468873807136357328866945657313981958765026107072057534359369870914327107879116261822549769075537329683846237198037772362318097368914763631563206803790097362802810882875850539914129718152962914176534143652991456345575300130442216576916591725874250957457939576538937530364216805783753433028550986620640540754524356917462628138764346845935017174152786802230237765715218039774901845758107531245482746693220141002729393005729291176210352148806840965447842255326870716070505908990062809444940415441259799032241248250120355271084824283272875895582823460124807903594536075514524557789706861256155606618575199560559306293988157175799351422186440719417364907192416133886211269713196964709193626922592769482985453644914957000742376129212923236030596662135928362820306990788088051219996686027742,
  49656057464090508451435391049329139042533888425127709057601151184202035456414506444449010782789988848064713687008437520793992285780285701935342047444621277648009115981826616958788590973656478940478393707173135728739982258573969020772103809942881150464298883094494924044454786736122123022757039653886908685660888787876553698707415515085755293984122031653671140160654242065181334701429717868628670228011430701444166916167408653114353654457479799883948581817609375813386343333766617590533780736693573536015267528790695641189650202033357210733808899466309610824372068623219302146718458363890870185241132918134328309751658628358280202853556305480095571599558325799607323989738578565005477674779670391511090498756921023825514333579995503673019820745821900048749242699574152979899086871730421524738275240605907082474257011227827457923509399633736718748180532743112051847120267847752090083386487213036785571691640260973226149453488810879080462204228447443664633582506205040162132348507672215523386627142706739184529675331976786346613712332199826656324363253366584763432108,
  35904929872094923993713760828094399503418911483038155747141781558250235426575791262848678437134315589620484212081618549562823673704885374015744962700878453841961001932284330352487105542925179969360705602019073534329462020076012559713016860944185162061647608555184614487697249685713376456464226581958552486763535296772626053500058178860746290906891752682041228890909528868065799259408343170737872890393576060334005101882156983757269545998261662979798504872923890214839218468672883782317659559863016746105706145244787170759273139468811538432732880366357955718691146742133107729056064117946870406282309781559799161001330561753599614577820190510878169108395518585811506348385896341932492241019337353386825801779634725492433349439533473082088511076100196476808353529697265175207363655510909355072282687805558294524373537109200172114203211924134565477028680441528898107039458586721999950155732480998582819470502432768537185822251395416977225538186320759406240060167501352676384618188990508765608077076064828011790562265025712498942231771115445179330141561339192878046126,
  658367481147014924958601818663013481528305004123652954484744500729251524233762731062097827250475660062363921515278666357637896489775201064186328576807557449662811558302137714308352125850387487393049218585873054385357725774961646012494844102566475199471483915222867816393467300505240898145336041485599613493944999947708399445069451554450224921994420216197938422673737539379496232267222853868024753359925175550798810653085141159366209723068813043200275235101158398085367267838230644675147732734964397371391796206428930076052729724403673880522163006012546880132628475596578814081647950582899665364036263871575255242796085602755383340782259855379648195923950818707465115896227930413742724581371097224679642763775441356187592379372900702509248782616059462715808803826985183896826852350563424518633461132208245716859566290361590717708882377581782974428531208717789208730806864965752508268239488683558306014809481203225507260544472162804859493200853369007415677020256397748040036707199312779675749798570432240130303512343379384111970298216612800961141674867920590344330,
  6092038120712326962151602480745000482531612025714165395295967942096933352257598429892410112481128165009278907356034810567795424425760213014727289280406159580145217603954999382053439349706018116900562565772658749355825510453805442073938723186726924108085068952040829136324210989199215280714404684523438266010285541069807184064568925394578331055032312455345826601252528421034592986401363407261523462532886236137271284150829779267026196621568475477119241247250177529789667783797125311377925725327149623459551606709309460248921895919703902748401517771378917485996929435032616528499739142563969974472209628175982733865805411431972011695205571358490259003358825035396693880684900126935043592850977290715042157460821239398530558487914547802322044624087886664370552290220175139973223288678688038347042997299571673161783609680959438033046472501079062140132769707243973779291518019335822269299611160683719509832155263506426881587033357810251024412791004360908528232436526111062921624705504001152899061130002871383312993450073891829456956505464863326564296251020119435375386,
  90127668775616131036105010873797083991112806263165352053332606743479082036071811278414295898378421782142683492941943860202544985590061113756191290076483078860937127407553629714824856863504977304212766764826464956017887605603175750212161249680330203544424544151153329850888819224034339863853981329847909589209934093408521565545020860107098389760634298524519055512557088286615983162921523103198162965315331787247077870150713116574450314087492440602625101390993397464907079125533621640275582869441445946603647644289324243138410629907159992011055573787141455395568430795416474891840988797094759226817144792769848846309970659975182429697268041894441728711457857902425284315840592687860731474834229117656869677906187818996389143178029009599594437613553328507963596913968952459494712098384947493509772748584066159285828189341262359503767889095750750048031697919292777556235517953328533782427061978956821403687882225670155978399042307690342869645120576062078302913392873158204933604688247196725000513187529695236050799007226821501397243174527838393105369883940406430446603,
  35822063410136978086603839217585094914537181963976705006246010918143744739011286220261503851715395075024657003054274899899866321064469234705244852663584198692154850607363736359701037008200454991355302342276836156609237183762376613230717942940350516205898378805757616395631896513283337991080986287437150321833379374812710069196556609810245503437204319757923801638933837884972800962006749526395229245525300039151328652004304948084004416761663572561103360908903578702666604574118660112391535709223079935062756343586694121241406902000984297288599710552620460073596165971246245872800192149228237457047700555552235079010074257796417456664218137607677280214167634311766334760928051244875179861750146976511092314019985024752105551432183203246838622363869802149732529172680818269160226401451985715989863063647693846734624373533621229452674002973663218927557763133614330522129837328936241683809766311217843906465921318527657575424521497064085726126948555551516944191696345634948518955490998618547074921709193972150141815835549151778034930828416278530320037113887669712470164,
  53052962514625354808846593732198132460404700507874553157774453012722167870969923965194481002766772452209826138895761193998258213505953906108253438307384613766434248142635030356353280882554565828695145688348344389864084706996158155355657093597852981815412281024931162677166475542324543736455209716055534344760049579913059586066547480919699758523696391054306053299698617774555702748403160511015000927509830541778820701652887805648588835393009663784141645146430654160945346492749719443088430190083243450010711224850958462363311559565403500102538107765487088903824482105960217567469170761266444651549744820261769359921590010846789424863080931109744521680530599687470719493341482127894602404789986782270860395217898191152575910924409490610821941572188245138787525105378779992750563508926517782275699283904072625943009940683658411506015542740854969171093225533351399055771430122456225359209089289954878901688738794414981766740919472190858532075881342435241468440946942873442303467981486932066690547644081879075643327809690737431561065400350336256344104554056116584256661]

def rows9 : List Nat := [
  94641315699592028166095466040404330784296094233642800676425202468843790370266432738375267344456677436044759117234554431213751299871605349417899062407462480591751545421450101525935018579497967709149427762987677618753591769766569335362007526440055827223378257461241917751039896982850087804629116124702935977041571227868208415059989900350764905681353154496010505837825215407229584781412092260773883685833256991559582762574369910089538863525857915815462974099288929556581087224687989144433932867800612434479704940951149872537221620712182814722472056079163203546845358270539996995617334265564380213934441344178143274734745857133433696450456688363452453000414941871945921948433658051838847285289573281231874272357208174646490615680708810117498592724304880030470536065982636244872218133622058442769634789925536739568916175956008312751253637311486289182885319964774051306528739011160279514724037652046796752757209461295488494347706847358388657408629879684138685412903844567349179194724354737357796297310950136368563409865248512307442492548600122048346377696577486982380990,
  75338724738101616331045220181482051710245490270403211039317529141235859006132199580711523524653273082451874551901763212323926609195536053379339414810222239204305850991112781220834172998542853248889974937813771492423506462206049701622722575559272028230452461681448327794595772684057407352438726325121773860787252237395082920682586245829582866024223700916411453225156235086728357025920657937935807172316578253102640025916494865758515616632400596337433224058363576891363809966067833315205538194298175451862862395276222464264267619322005726094070800745379766020693215066048065470923670025455478093743129634469951193645702277704289491987473146515999174344663664311527032096318144743968466607017038656838929041372614517920528303779800159673322112621392111092694373242651474515329025677977897862791680074264570017765858772764411024881753870955028663662857026313043261821675599734075516308741184810159947785461719927580642080076450393930967650107912796457561767771723132528708771185643654798155721322671316710342833375026480923270927946936187542371713237432118820131040132,
  57754206155347774738095493302956052863142992396761724259517652596037853677004865430205037905560798497617984976754852229656890866878862727228816635729965074212178167101318446489839792745841046091740195535945218077264960164856589633127651777256587055663862467702202973067161904964760175553191743069427296380243999015786258795403804292501039962284236096579961742566414610828782467130865386722519747486475160037191223164329373613721418190451445398538129030657845525777681906421502086639354601117976077314460169807722149462018215475418346815698669749522143748395574360990937730628569538919333632277884147783147016358795275705807090366941321434646721421620873597452407196344419139871572266495623520912489482903291737923475390647902064059689445858181883163725056971508249547210011430612911212796492461448149452673204611809483177953710626138560659281107487802047445339466878405823283084368252349828787878723104380127584326528875932890559713908709489343291878936358752309503197241494331147802681514328645709073399000646460304594591932175490547053317780363061108023837904132,
  61021706542397776828673948955234340911459098032180074217482663080331094320351022449765405874305268721871751194126218249640705330581976057803075872413989529192593446488328642132208951197285705808517291260809700897099588738088426128194756274681444265890817019397069511420115890096932921263505587869141442250711178957641260682120364973158815585061608863608760914541064935839738204605497699126066486974172746045562007307799702585100042720721119043832265993412558525421874103154732225960508903710990512434637828463484517290339609407754596635713245910096175676302902348050460563679641700962115939272348472315463593430594204787839165445590722304172140218548572929634729920690259418299343356328337461915893109936665149027063145534637819213291049536491616796863368662028092059092817716963601643203871763611018915264744243719685340243414104096601517523306310100542766017299959240798605265798181703543837224418970867749115571413959050458707124131886615996672031061178678423881754290008173067900077007691033159476847127480514574501241696094212206856387171920333447701431277835,
  84283036125586697227992276005530237957547668761081699532696807799210562421987137764274839345934007705648568247345643742928962867324300713275697211782863428631803078460805438967031225652048157265505901735903180656186657636979013341003880481004269185373882883937641409303723697388825599380153016027650938952225625486582031108296638718478897919257273516486529948212111285822377852075525794704111651670983010673886368020650323512214225666290208385184973979692194597403996722592935700842232165444943381016940440014642172704369037253088497729676160838267952893272443733233324601305925841532585280185422926975505048512316513201174450200634228975749790741866476090566613136060664400449689696972123490151601031616911539126361411548120191754403842973106480613806672406794538419877630905204181864553988560016058082085303466741999225548381438914268860390513073113402078103220565399066756588118346971247318495742104925982041233006981066602672667116969869252369967257120839607581065990604885506525594537465333708163125197315273150999979945431647448036530525455225858388437036531,
  35848914496887615578098654561687941532633343292732632005480732988292692523956547035274150938764856434363473639056006758434295779253318528562866308026045643506051869466396882768368303391132105827131669010536965894843353034394424917499437032897561269118496786675396745756918673960184265955632586698247362632808326013041622007837763962863535663722658247741018746398460913781797021993624669433787561051423091603496737482753218542447344046986722814462197334456906559322604513631677572276976175152951313685227957989500063086648583338358879170854878326140081434318685536432540900592565775696365794515185243227890604661143245633459438333635555708743837768195479358597783206072790896851046376629561175361129876481100581050628573833021491418969175732364079223940038761018773068820804520987063069665011545608978239558975650821895298053734294241239025161320915068352562360643229146350152926876256308839547958673606574040467597603190075156026286994491769911033254919036462191565489658363878526176254475910304043111983313367489637354305033470837868025988572971423570280320308651,
  75777763662667141435845626237203172929182711565847738519149300268114400936179833637598155369213119461654115199332979236583635470079853115340443755117269765360636963496074570920891015388454102474218922736775392901525451487617826532699223409345883444360653235695748306747586395982373806239220969791130375009247277674812096148001483698284586688253999225417483124877990984321388805806657528049631693850928166124148420485590436537526055706720886601983714724694885590600234629566807486927644853098894577702525592765513684348179783768031252200620116549962193837682463811428394275757335877570761665688716293017001837015018371039585441795042905179302842629842405220488528768701799286881022341080945003087434323860985202259358393977991699514148065835957707915336042152247757054138158305980517242682030239138996187855331493701001817375994353405179948284660272427138923242066358221373564025556391612460435931444564771617786686621907569941935452102405595785870962624757823742240872307394663742301511563080796212550769818434157522130201316698531153910951708625859211707534683392,
  48984711424578579709299700955777490536934458930219628622329427073709139384880905807636016233588507071165070592209034227027683674404717795185621584642378538094843917021540309169671180144833504153501523985787862482400228635051245097875301333629274895658810135599835766641325841867688199418265587709254092820253657568909169206487016456520313519120230884477921420182323834812581925230629064059138890726700480170502380283107549877435951586109584784582047172320478214193595643523006824082933167694958637832433736292132974485764884457276942231814629169040387407843425399865476186007031637872444968724083932590304072463006883925274378343209997800310073948543255961995913054318338006680842170076471721171080831473130422010178796027276955184869315630000386473958596475127081806202029112810133721504829914159814652965925139134758706371057409846253174451755159298269263130195631632780231725451163375280493494782136096517678305491193717098108349389411841117284529615645043395305807763623103939400214746202138248670656132439128924080550843648945051425622308698270113917758395206,
  59478505746967206455657639948900823506165158225565200555796691516136075405962475926530219315383957703770918635363344128644336041922563641143092881385230927858644517927850386204597542368888150965913430139335350472349651327867496158750834395837196203126669839787897116632211286759597529257421038357996509963160278725067226121470749202825494016182727916804905828715215622649998606310950999171987955150379163544412158335771216658935147063557670774177455965046723469454445248778458271464984039905889737207190336078242914235439200614369604317659974379932847178302267780133277821692301466942679873820594282661912935915550241534659859716266438807886448062050279682904455324822018847278226014288024076614485697222371000494062350674316122741711142021592211570174269652208795884730735033377786843630900466032245551832580310406736353432215313256371953335646315412864393601892189735346291253323333891122035793313455212024376390413029200165188889232334403531933367434152687761776111174702266205540216938347703591864563743276148501609736069422327089308607225875039556213370209528,
  52735317797731572447688268710501885838486303984739014431021463616448387936481069215613600358072147241946390307629962169121096320297878988358402117215281543006237161225328515980224643399157044372202464484053930451873942975393879588182581577817189339120338580583359144752382433845995993656299864217873554151433131337773324135343945809545978778488642988655869053115554377129586633595495592066866857769462869243414197437184868229080385250175062079643000612311914676501956972955333436564362693874714687171405244092288072481970997001029853721090647620266519015108944919215938056824042653681861982156126999457275648679946421579928782912908324577029090939431238334788341536534188840835214965839737824833257850121094767525370725809284199339065677110460429888446881112693501571242807705299641260875618224627755980596803038251962927663387009988653077062054296588416469634559163346283564227567391457178158236031197613064851001015750483303015477030249124853541041286723614030603109834943042506728575608915140967276243590336456430749154247425405915084577324843763421680820285207,
  25955579589416759231294985385710398273157514695928297733664926488739821047211277625460308683185662975287877144243850189914179282309166219686447408549540158573750296285526742873726480527202441163434255442917005716318039242422762109318401895795420604835319361622537353814295314307852533081478120455781555715239932595214787956221784333971017620173457500343750466201330424144621511148699504266855521719101852623421409218785966943632275551296509932846247166947080318968363400297466737017644734275527262131718596833447513686818132761149506596443663003195560948756297895532257457149566901437287687064781633279390542761447493253623719741926700577669026862664256260889899820120579349265928126025508543640290269211215090725919685249734350837183155810343767319368193765367067172749692108591833088240589346254767971006268602951581774558301157937028247313911473862040762557417380149035068560612597967930632943554094293800418156400070761300759267933112611042843377477066695066937178313155677553536161451776980714360662822696720358874261429454051753900230294695699983263004512420,
  47045045527328386198331781520003824904847794211792678398582650955002373020763311245160099150755007601964345824837757030436165153733364345907750639479875369456718733037166639725355008343159151892198479029219700501294339949570671150484079399450120256568179765596114481120929933105911225034785992142835622524850388002898353419049400711771931121130717962409362878013075878453668699614135486271003600750793954306732703736174672646717212329456789507275669597745628085120230477070505117208513422935342795649753485784433574206002892952641607319014347585114120356910175199319424272210273389129535795331724390419592833741522546851074427748314878926369160857807930305359014060162192682530265309807459500678630325596620504874093175348477543016697409925823301806975932328567426213596776085475257805605396880003244309000425155019060379449983293845229926936289598267835862428095229881133017270023200724208815113725732110353685582212702478465355993074747067827654259179918439115411502208293307749258950294842996022677709323981603331918211680594978658091077234268648570726238517624,
  86916630568744061351067092864733162746442251238036876847035189120513202399915874361043962271238322578152944039020353602093373919114998818805250687333721092700762331073588852764144890028861247685422986474207787587453955842417710142127152203980142699015880662857098805717066939066190690383973744015310793203977127476696600523505433373819229897671421449191743971648926305292749081158885580695873160617849459169133502018099285506792887259846588967995360669220761985410745686289667688437773502757154177569375930817523727479531539411267961903504965162457589722393262539168621561045892261122899944954455318631502649732988896794420768215610594072840246013924555076310963485344454161951265555540015626728930134172547426109126108152094686625629036168573730461126208076495932281547054483037750351134769884801902594830331581862006088707801848170842616476834048247363351285117091096221057319095022686860660909831834740735042992839374286156863332360438208709426076396489330028340910536692021310222119696836586727456015312977651715118364953230467022544193235292867390164358730470,
  74481244312527034157972242720670897972117463256348589969071765549864934613269038120105127986542522145730978132282083657076073800503675613150365551642678684372416906555625172798349061758696317623032296696459660769857111795533441070826155039434082707439619887935136272374390879074548140831862166516741749717668642108752748374230234771272028671896914709430676369532552855507979815632799573638723705413352191118818819159978145612308537048360584899147231220405396772719630417088080217239761259063373947647342262076430867505560460720538890469103667757097079089705213723221136464761340231830612606940391202798979484000981164069287950251147442017155009789253430016033899741400592606820726209738810609362960992258551660661845871011730500409829113518445363926048138137153400115727276588304980403915040878121828367792744439087405790914243090498697254895569999976855073527842865929555149379060740375630490951914104622795138835764774036362005549702903758211044064271006286902185842508347311400950731335174432295707082291409612258243528846807941676643749009494584025286542649954,
  75064667640705423991351515763519164491832958715725742961113935304572970690064957736803201865756169123508829609324078992648763326933398452313827809515419818884812817812769800119885474225627951799264719498940838620269735522855900812216819507947001795903182303581131249192467513045138450693245275941257007577552171451485933803958451293973232424551802100530793930763083998392820178674982785068950203266195676769500779384775965703924828360713261571106503833306005323026595298124413242506694663413487940194706217040719279473403434273841495003519732752537421076728289327851838324052520194678361955375725340872783918003665228848815705159181907633594202112305890828972073649519071962567085941148216750097042339022053206793440915575334308141290468561623591722913257660037333932938359319174500047887388160711155511768400904292133740181138339902483727227642211555644048315196414145164945394267001792130786890395462459624347210633413834898355230683742111302110613713319104428516809395680363250711801912877643304921639820889856125213676243198409043794080140231662231519663325253,
  67850033908059212172868844271245226003621108690306593308404466920274147154799039833840866948063894385333039919684528255201538798518536200180578581791278828884915960592642698589540339892405524209659430462220769068158604852539567432545256721574589173970389586151359563141552859335901129536939938979021124706057799005303078615364306385828704519558199149130254083633131592227787445287047987270685460040269075825835941985842511475110246975511475100702670977280638022316749886705632739884537494120098848264560772163743307229825239418188097188470383113082069225342511606094543192412715187603626382682219841244582311839750650006298312703648811238880989616787302539833068413331499008653992460130428059188080109002770124236001761723653854106333681768304871076376282785015393524713944771590854275741988115522813403084694671110438271145488691198062910737063952790387412442199261886909178111327270722680396369055278194559260642510318949796098240696911807139479494113434045272878172186216113643122817817114641037980336072067287260075834986892091579882289282200398006185130039181,
  30974385231288717051555090701553557580242529826721212329464646354447230317584642526609774343314821348683819141138948414084422140507095172906521287252801148702431718313781368558904912255311805448811879488740070081082909332988796861319820090747163569829260609032250916526105086300087231588077543382422059439307410008720740244292516454467064981608149581704180647186013965040882292271141332104868112742876807191401672127585274100904310722919902558221373067052128691550101484324769794964057461847379377125177312122187874017739796310207548956912099774701212824536098429309977940228265520863705921571534487654527826241487787960511141770642207814285584584646556963314012317985034681123031755903924321754823025650230453675592753204555915654631587479383854874606422164099468471702645632795562606286021221890290902733253403174858768508030988418085480931805923555456683042335407321254737866394816867580724759415756876799235285597109624775373578497835381340852243970042607585568577248433651919503146014374036541063206755755164707586665093946973330260838452424262058224751003455,
  61748435724874299880636778110417982526631726505240766047199076217610421454592783013137194502490810591813772080860161705126985472490919624104497092565255178667366010168459456644520590945511792418327798728465063955748706527330271932035053890630475436178643888399292288951799398287265904543114162598102420146945351095376834473261798227280095009319674553513233733489327627974148244982863341190707413963390423005671308333749697557071143666865719625874012326066745579480936353638117922719429093691563002189727650918131649701437726486167812283243402811500533011117363138558587853726858470403109541065655671627229831612976207390061174488794828848508819250540308970034252896989794496359325537499258012545406794794432767026729021210995484376979282988943419335638287757654843980687240452126629610145834819242306633978347375167749124970271284412223697215420765350329993723651688208768570495830020040078027780470198451021545434072723166632890148036109007430460441969049845946286063042054043027029587430056338587861144009560885490208404589944479465660088682474537889275803493244,
  32039968752789158241629799950877198859687493845164247462110101850222605585129730069675704818658480621342984344612686258743745206630741603373617697338711052498336964375233831119199687223586400453245701760579376370958606242078744701128564722962134482036724256829521468447493369284277955831282114014096597674040832901159438314885600381728770042042647731890685545118846421868858750727274929104631789558264769835592157224620408173122652906394382116852398416539484347780618834348949041736822743617543086311338496165055973475496727326928619136308086876548060998434481604408154456017587584413144775012051029417173912399038688384684836804647271806504048282428680122370761992811488384318396099856384579516937999145424465986926614582772641371711901375713705892019929287843450162319928142565932571697909063669759796655877965616839836409216964477733355655413787811937736646228341968390014553372078483211164730725968135546954559885771877116755030366001543544295483308259552771078000183657980963551924472126223191092348515234300014997996630084499049587581779153306500197542990218,
  83025315136501693364122509905047898572417672838265641016646543637174569008029116569336553433535363313197376029271571093403870612124598622393347219535021321922828437500921393271702307702871809746050137221134286104558524892923075719802547605878833513260109269678169488562145211303419071956123711811451963334029871856660684130117546754419789757319364284702964851489595121212345231599275189268228061229894381498382255149640230543359916193889924465159179463647466643125287678688456717075541468099002298102375578779392899281998514665775492751006316330851516580611145911486781837086610231265163868932352245860585234915427167052851844945028272313294153121075502405463863899318345314690110199681604163455865176935999309603586612393641865193337176397740075438903890819938182018698136422076877721506231948649699943182021876573525936763553742412296313642938351735160124819426634641573243469907241200204329122169138517008481274584695829304707625686734474195063054937916887254075973419817841940325555459298804133636970138594068872315921571333546502196010992003958650107241953411,
  14426917019249020111880380563580792104114169595271322498474760345777726200372737243359469865707949800571361228210780043765899393850404040245744164261822054512747829650325470674521904528599536721351878860269766281909010309558268149404865612559838699375141066137462816116828302347100199658425552133180925686413747073417656199966198252066469987417198857746622701572750666444025336152661497806839619314276878822711500023652709499483747381260663771844964512812409717924907275942976523499185990005697482389749236739307519650476312597191816754089009490138854598257212681957295991553662980556374075974886570254677192841111153968354660431869980161169624930202423122614236877682679812800598649925975586077077757787212611940887545490833558439287358635855840513777500973662955201294634459170384264151388108615939254984758336314814384534030389691443090482410622676221854997158793062096946841549572500349828369742882210514575245690693700336208949015886288151412249686980747233699752150244125238037623600956420776895939598986004596988827788806233627927282532287911676885684015829,
  31751052293598848828454954647503996051036919576202147791890557332819138936641665401902916569529830266817126108492237804803329876065946542599158897100456319570804957828627577678628718218871930716575143774961676879867584658308807462574806215096419704050456085195001753003576234839992304448887059027285908621191921976853161891209026112570660861540583849391910726489838663114553993553054204085566427659878799456783858427182764830936135454428443431814923612006793870511065356139675655712925906505984595311742498224933753652011961969500145256152490461281058823049767639819518533852676301840492853731435853702573012428414129681670192160182449001368533105569778147845703757231001527352389262891350171851892689413006418377119910974979273610887529890880071868878749967866890733761003872850700751774675051042272579895881838021823024959677054839460489968102757947399116200090609771836973571640694633612326700209689661244855159298532959985826808698024009042071915519420889741565350773879986022243934286200077246586910083322117977358908242019193895761422906296151771107746622562,
  13696572378026340241124564391161014612894720273073546095097309307981666986889580789116023946850295290504392007058066956489951305032390615439119949373916268412471483708043052814688053456363435883008546572621964072867546634739663612936591295095556840951862533224385101102529731835772669752185658674917152724732637410450279154940503809235754902344362247721150581726888350281220329521561355377873680372556880165714236756450217687795627407808797419070401965094160281512933770131071007793717989328516036348600402867989286653106390235147985876263406764641173159148692950302969373070193954603688216921493951959044429771888568335856733174305581173067286807662843463199029716850585554623893600587761583433354621516672778018845579526943891527987859676452814686138640090482581276919363715790134133894127157601086599206308478964042569881879199727950183430708112452527445587511248582957333395476508184688550404030443911402468747232409490278454360262111211919110279248133572886528797541424978828832771544405174341131319066737093003348617248583937538924181099124723406348036274856,
  38545286644643145329358835682497483339006421468511015043509659476921100452765337037798648189275232732844958254910124287045448716925552944675045540961767873614807878333558734325463562611724617084951692095284416985237984647314798185797223090164673949457573077878966096895256430166825505166645453597190367973278635417700691016854077477638014553111728093466402558725864702450574993201893905630142625216405286174380723991216522768198019663457770728382762257960069697161884041079117074241498142541797441710392624558308868766210822988272880764557045242462917731028385190815384457460439195824175472755918343520785661859142848026976228709471273184351700982008506196040935842756127102446890441322420220104110388916050994211282543295414466455231960769350655985158485165421195386222517153243069326191484769770505779272239681773234777086842338365493480393037331852808840781452396550410241161751001861038271179517803431432182242593341136683073872938660035236821005405114302437094613066448779073568995790349755251335498580100358872696592987544634560654452242172278199167571526796,
  28669223557442065368344751203122548883063104281214743025665061524959240970647686237364242656522163883822344851873651242849012608877468855707785392873707919955324864698338975431337112778297610932590598050028051127153986301449563489155594710527533475698138562077454681407922809821592710013700576393023685119954597622663641153408669327318863925177081842657712168820300646618031354879130062820473115888591700974977509287836340225674774206433035431501123302839310001364674871814383988561949321519764519315928568595492067662999743522978490202033428072156029594540434089598763426857954431988226280744666307345859215589786921785359681682628282154012873242389484496275223003281191942112598313168698731457432581967906771012482249441985295414807259290277841042673190250176450955502925721924409140756622170056512993409828490545491800175531180467195634764927665396597456220282304641304991576547873800872472298883854918211168710311976440264376185466616630356837886906621895882269067443732389792955466715552613343011399355747716748196077862077134482176290499981501595717537803508,
  50678980472906918985153721232851011827973419799494339729985641934050515013875374229578082632232297441092145321848391366240172405902357747160097303675360366468487305114541492510340399044632126603158860117353204642481921209059742999188204661577524605036705238157339211424529278357555724040990308341591348914335328834123002279395467292313658518129855026265579954566566262191843088886459651973600203337629398441073651932925265208017557493586294906155330613407496270665419501646330498791691618723773211594160218394095232606321223930527252594349331041667571560319675933877405521751744421310977565815901406557828015849351469092617983444583679196162063452192322221545721589195572209352349515052558281988266171247057389098238553496814464257337953432301002738008260640889419904516747901283353399955714394135837941704770413379133917488027280652581283323598611234105538365635506490758553797986957188304026324594900789621852124286112395999872777904550196405083798725943346017464939159631599931756113684548583511562154145709567012635432886646032900799472613205310924048813437371,
  23362415009132661033848091698777786244306190419500358367271629047280387856035488473817197477286537436263273528756013676712737670900978674552232702147687998704320610375007559474797301113390180827749217263941736572127855753800581077217408109698092369333589055052687295095277501103938145810352531914783653642939769501581008835222600726037665519708473349716284015393316181595497134027297950719495819855779334216726590153786552420297007706226192426900255829472222060242314705526811606536044549319462323112831458574023788642042156931629449930681526323363924966111734497122231831496662323100857362202238442279734598220174079271933724748501637414672285677345963259429380936606573750979973120808163815429958097022293279771846224521361492303184442701641744200864035977487180509533603184486240853997182228359539413901698203502922636155576050721935092035065147044443621377768606842401306937776833463578265848010908109910291038777876352619443827840788839910272100586714367852711227490072844628374306578530664725934864087349077320171291926040637617574385603953673488735306423163,
  91085464251479903049228853222186708802415782552360909811920743357874538379346431991121319472235879802524943452850674501323234578533075376448412329779770060728553744386042545294814174719070699463586379345268648120797385006793234226653753661448273671068511827548717501291281824112622445736228118618701117502942592496368335611218007664333087366896090878789995756921875676598603578091723940199102914977136213726271835660703772466147034469964363547551544801671405079627946048828467912595001653169948001843572642044011890837226325391791843690034703224007901621667216020217615299029902192087746140429639710982678527880886037990290770807152482335706559565918127243206802634942079662207361649786611408409820926631301500372392638249218319436762323586321058610430754506710405783517462110348683942449601111862941890154802640160068570209159806245149159190410899727729716078732435069537914162033467446028947431796492024430868427425255529223432958068087951486723042540124782417346846137938099073067850583299083898778741067775530986656867018156618201891493622445628383679721907476,
  6175987850282429640403855221086788025291220926857846384105488900596620864302961934065651161263402607085324188736943010685796425308104361961914104189985070347801609532482101842535967932869505468385663219624723346649308031604636009856991708224634925906980129072846272796250193096249404804311855680259886292739935775028309962218461215329551083642699130422266704814413929804926877346014683915614554722782000927388913468727572714694274904065526256661799129809096350799921213499022321225388065542295938696339818957546400672197198643585234386130525174428815908216142231600311164323510405846601065870567928406749404531554082483812084545774173875960883206071778072610350605358764758377634820568987247656153446589212908077869923997489687576790536280314429348679313725299696500108067375183813418087337474546582822560159350008351421875629377144485940814098071342831380894766251940662783431415460929042622343151268405293617647535397917563264590952624077249271294295057380365879614360714724167294598379672880111761487755221011218447809476239799266201580714046720816285082366501,
  78768702055365348403455885442450567447825556289511870935826451090047556471535317320304655071465682647447139118143303046998920019294199018485669171225580446392675415816869749483942447287367681004441148892922211775366495230851702225354787516834986151614611754854678004852088423198613248127909362633816038093812130941361673498694162848952803744199833250893280329663078268378479440113361736641119853207258935671636287484583024066553748866300058146939060614334696556286648448001522652616640595848944839228166298674381199969860208460707310705625427382864368105930044945169328556228831582293542934506549595155626272702773249979031718456456227719896069329225534902455737305271544499832670674501187966107514143925727789904978542268924559432418127809791158933353332673182346128518458630423923855310580419093301687251510502925465790193621132388272934371949077939343731598602864922520616663694529793822696788262330093279186389196353797274717534406444791813418205200519813838897631138888349293288645090156499607726753137813583936824606897418699355378680743300352837112476540814,
  22446633952951246224385231572402690074880227053973290062757395655366265153994170614860970597240036964743581349253156439164957654819080611814255674906096003915248740430830180568987845046718584610419005627212034419443984447844601921707221788045882126645532000070627382587358884869147112539410286414152705590071460693469008645096653572267715612696997173774516312754393876453105526993182566886123701162483412622364690564376376464961130858594134730162718419604920023915583287336825876774409335959711696938868844990048367732756101085973964748106476707131122047753139811870007479589456989710666106630462831727653169769066133200836348060276200506052482930269941894748845895765504046981723610495943638388660296538788816325649987335615016101982588284545679097214133828897068988862170680113657592043466909855711721939405982505944768995017839992637899053266485645801638825119177479246993380234909454886960144190920564504190268518279392751642332376940477479323395943387315381369861660972165316077855877347990985079774476399843260078999199038570974316192275754063602054382116526,
  7171909692406150397926315196274504271614948912199902001111972782960784436360230445606532744202633556127907856450149254533441074003764382696132867036951466836406399606031350005833918981810143734314655858780698201799284418467002431762144324027847333274677505521046613248188044133865203531673714844018530202283871193555642196209745391085339282877032878274068913390271286862999218963390743909672195398232457962459437773448967540845089924930486833595066286015378297004453433017458182718171449449931084203404643365133640979307780956960784634712623684048442033407487007973182408550423515172012550859958968763304517783872292673025364940721676260314159948777767877324969892294174190193050373840492680199911771382494647563644178681664082888104206520308255272614558517132313498724608968492731081018319452742773110723592429102238628869003670920822394404588143043884843731189916919751701511756222645584382251387103015642528815461164513324888742965981086151569019701044950397603694609080613670873466411133720050049952136514700620574994347207155087506140389287127553694364059394,
  21382234006092003047988333997814471220359459448143732840559471648387521739892509654450229736080717408193417879613511117821579824297145121641437975530494060698200535830364078484879509125039686920849221305598168938286521700261071133778698460878352456355835784061581979387158942418282743186585655891722599439412235309989679878259171461422929767654926165818557384230805978396431912053732627963132611858815083042846748370731554010547368113668604456569775179195591943715026889722461875283109885010535469314741479177083787814969382973715533383425194408009370717727933613369249311387737778782825558129259674560504935382885885347665378202163882867585560478641943175796520778438415139245717113068814684572041637454197031419011240068750913561465164491006465464776308006061478096313220402040793094680297458021651889906138043884854965522648202588245537897237691175385511184512079830503991735636787414664620095975058944174673648331845946653220330086952550078397572667024547409294689995253498997106327948492995970688168096012640338885908601888153501444577416358848233718232927723,
  66570235839572307819128265968754648026625071616939280881155397246988921738716115479263068383452959631524377547054703604786933238773511542629230661873348051430620857608565252907152930067858850165072629114544937748968713359327769296028253125171061414501936514651258146053554324471592780783190367393065944820286011254679257781020741554510740434194287534935713345430161984336885862024851791780895652233714834815228584340784292046278511354840028155206089206992120891045027604144194340246078796495663890474255704667801372962073617744606877488133769277763577094317822521650822560901566225416091927849719988518054863690081806170610826045214037023350718852275932756793590600795855812382061499897093217688555355621111480659916242887724846571491805842120467788307868770899395520837995615360932970672831647157659437573524288925025279177696641692115224766980891684738779547706479078310017240032645772260714487472541593285066752700524974249772125759484006618170718217867875866537984671723393232363457942251731787269323912673746974575737640527363980584360683911458777473299748999,
  23254013486564096900790437401063419510608669013538133050491763524720146774758882283516431234852789868628963288964053238466591906996596457786385082579605506630062838663083480269044988215462728441210890016593946312560988681131616642440470721125945611583875998154335483996855589516662081894543480939706672049506295361484476933718094295999091206289310896232575605644074550706179347828452150248768239270286960335559165315043008607549672843311317777314263682251763256278794042860087604677509782910105256846218738514197269237929007439713354990177032856719452851803790335291977774141869666012692673868242550502976409656725744254708652588686291394556614372463798592587220921186149386441657183010245867017951853218013899371200378624224139351401982098211882288795365312894201398381807490790548176749165785227830308399697096657360086212184770694609852719990723320110147215962593988744517481937885936868022103115055646346396488299291152752051120039560262911709277826090647068647792194145758306426122609439870801909134974008800972711314784092002850928235790560399027712107184422,
  61779800026204708526993187340678406051113187237468370980543434995801743652371293874857279989047844131453528690900335953532326539343646189252978767400672150923226239805480889768814975547239333705957003410057743184019079575432643981401930692502685201834001039292540333791048012696456434958997132753546654302422123843107170778975629489113300884957857840176917489677430490757726418398562084312410677188673096109322886711621147794660721047464917085292437197833573597369985778340382114102833311259006482020337561533020806675454396461710608332443442421300780168338113344873329838791588117100930259338288197097236237805141607724147411697042491219569478873058196793399415623587588866019744825594562512603988866200125734341215806131944962325550849965597569196261705030902173327350094820219017628949236816936568835594205681312775393631774479002000398586270614906260718267451651879271670558437740007911930538587498298537717643896030777211433347476411929621129397678289080230443271245899374215897135730651322650912754818092628405668055269484945660813778849831177341704676378681,
  28247523793748231429017108708503236110327519051701647902860202622020381339917127039480880451550969393145241478568722563760763679765665035657475391172531944465759433849765385355485774227761233766134853327099950620177649760916479071029920044444404478838858081049965801149794142033510690646398227764211791987637295662496640263594159532049736017149571857696841582090520648230489231843645443321271775153349923813524631749822728607471548422630923654050392517157844362266262346796724653963514807395027569049636530856169404885545508490004257521183069768410566187156607920186583984805211017948930416152897168177586749980557040511199841736940178096774491842796497155712923759363910577830923157782181472702982979485194658316312383970103985786560045712996757685638140453944144703901804209680745473923918280406663407545124989449734317760240169450022089622313274271922785875207717762637011681768387532199101230686195799642513038220880129090589790510346523602527466881375866488353950360008434260938248206731614074919090580254057711374247014726108242959846171131747696715694809159,
  16789610083271100504570234620972132597122952136305451009584031418801504511389364718310791891236794203651908685614107561822537038878809628345603516765806328403177620808313488103087961655332299151203671966759483195164255220736759117799976184914333362012322511848205180162141625546259592120492803809246428473630619429196215909229795557912213891692705538045566409268538926995686446828546819066324598309734665976208078350831311738955999972904558639142387952196173628711704109778427125036671565837119976814387550770599279863882556572349099134379638609162818976890421938651491564367152376144679557202128945417166657679370376961868859563445033571415172982859666627354161202235029444302167571075559793214612749450558672389755686879990659867993485806590536479153421741301329661611171847946540425526571511358365746818571984270443645863568323767246396732447822711475190892173691447854157912003072934372435651234313506071194433938874899911707571022917251001672172137370311019304255051896363133982654941507320146448926556185764123205314248524277953409080500327813164212994994535,
  88934178509899721017346534058836992895588657144143654836564275321610752981109855469388057353257093927229475174525650389496927917422089676884324180838226255531634446493661637329520380888891294406522425906290789928061523077174926903611325788296723919302602003642292805285207201390080277647219325767129610149483996503621950261487992635479628876065330067999352041575446040723345628212943382666040183684331274646774545885389524289778973169541617678804225730256748358907859703820456003736142665913431216054941264054640827516815080868735352543328005058489612593609778839536262721038218169112426996984563649433295336338348616573521997940181787820550247850249382105243298688543927554366956987412125494704605354915997857561241122775687243370618889057030214701587138345505039114404114379228971312098997797638795986525813277767074501859873887678424174700567970250439253579088496534034858332077702618132851562804018456063534227076879265178650498310158965251482133902843710869050843937655311200427932204918510470747217979010188655824392951211163339045418150649615165633131434934,
  82041303519700410653562830334058373922191978717644694728519863433400515473955219297550777127238039323382802445882309031726248715005154574266443698161540841459554907307528560459003702945458608625385129359802195715236951530371009243206071934378234429866833717813730263059564999823864470404597151605227044175736114325144366326770433177639264238961901955820739068104384140308945527510120491562846746709113265513170484063823533367596167659099538458086656744333604544107429285987243269693150573835948724194428546694316580942769498859171323426597374432442516127620726805365729913097084246675120112107705512353921948315879824482225422738599370683271241849647441165838476002003128315884080134038083297376005887143694796395279462403234643708721325311058141371127928039629731065041767679539500119388548347561847581429443383722007183280836653748348296548706385047033121707441992397452680566159364916849994486513852973860697266053745527947432984170878082841773596858693338084042817845476919744635944193951281588627319644309849089190600902826581556460389579232238974699141697393,
  11863141838103478497504188428873830182121294927895441908247659165044620250688266432233140334885772855660349391706343115218445856340586340147740747620211384253108528178445105880119675035115993295139245544283198230794913174491326684359604904586223589549872826554189540797997029042172602371486421390791666281810559462724029417995546672566344680637449273285792269283776334698922577864523643836602833498000391389722242966666296068718045404070335719271971069384634158195233022709257526035232189057497180740345863357886804629943419520017711812803681060122377287316051878456571070907426107874879014176709406581823376806140456098366688002262576411079917126827170324572413623062043657339026329807111661262066761635977178881149178260272889823212310043499851354350852539388404591342926331852353112224910651552311535808807017923507987406776777776074954941803314354950734615630371091831501595486565478489847155223119423333674697044802666750436234589791122646363124676219115901697942828175523763150155164762272421837091826627772796514478130240295298704735973306991099280087480770,
  79913830255314311437997717616716164687770942708140146542378048755570022774608634599169780961707906477907716040263708338325013833795429031673379385607668476251992389223141984923386394353096369692814879841674623454315610414397333347176373032920063272132940072651397329466801014953179871634182345361437022132475042279442386829083030871105194044514119008304463728392351434411442381567174608715352660212558640807279805611933890665348428254027677989412646081036242885659333380525174034519800859297153039553799781036778995491298825240716937355762987055030916135966221170328221494085983518157573958420644178334528646802975564113838489331293660128555926095621695213634176609938160022719526537163958475344128173443090518476322532673877892610796445423952396360179211103115354644586033484857438259274718746574815901001849690442154592592628647927781883067732140210426528621719135928724432168712518707013984428686357337383395950853016742169100693187857721659499799650001080175391416970841959243022704375945806888504993322313046072735297414342216686679212228191985085164012507841,
  14268988922570491729401159570690861900547350500173065653328404838511427807194367515031862662306693527579440208447465687075761505110923015154941715132696180974648955707187973932335574457392436333721160883953715678681138695652256873747948051726205622240878021863130590729239049179757637054942636978597337608003759390028969325821392040641989677059227345169636677242968703314315487436671415326408337699816738667870448441498417615726653102937360433247361938709613278563428166838698228561884396476450441052245795078876133248677243113151134340924819293539183824420538293668807406279978261054759971355679330594129715669398149252508620652400394371501685465788502723684160349915863522264367718651688607153502595108418267298516054592721915137186841477145536015176356680568402984359785310455518476185290406367856296807160377774248569655699947832324115071427088483729952655631568433367442513386798529773643342028732609294178583828099405159132079349708448409499242713417163822089710016560885174817315954238229164810064242105723805593227123974261201350815647701431877291233068925,
  16605801588682719019755415393466311361489530008773062531280025293880809390884932770919278570889822181252859690074378676699240395767198782625762864959581078597621100537781149672763712071293723675281627058688692753979640416509839593983045728119158034084234445360616771948864789903330722270315497713886362937895217932544023846580217472930432224997978115568256475042565115743991052725809602166886212213260884702036897694038703693619925147713516878472208812965433091418527687889328860185736984755214238960463025902167584015688005620873379228552420821274506464504477264825236933836976516168663902120626876140195494903755944290705864024242357306381243468658000953729793794809994564359934040708367888620372382819767943276030929862419113239252778892240287206943234274040575617743358660628390392800714148871153994229121401276649032888844779413151652182281647699221548743026850243496379051614397957656533598900865259478831800334076517540428164327750050190905980900036575103825455760408466413280144903045387051419913092190828787967610517709732245886772396411664534465068941023,
  14116456147163323139536403763188700968641228126272486400797496205613541790605530146809179279309219819293542822238779940842551167922333575269366389613723527639893858827096178892506711014623299278058153660121035463507658001793987421783693868232534861642006490329229456535931835698050898278757540800927474254404382754064136549720869828707995163579465154562376303871032477420373081131478770265430739359662645042260190491902527893847125038552641971617315674337969187947282302863983093854075676194232545746632803745506047888807367797434638866029188121860609693274233814493798212811925216287626870591890704514846603553427891028116559381284512099124525075271774761142457030123110422178662850261512291074872456906790854174425925553698141351011144936801929168926708598962002841734295125986803229304770414222926751281710311269147927573683743768618040395046400794922400032653133040676688090305489881890079642039502799741818886745561944004976873971188934099125481607006538312788806150452519267365806344637999892444090786292860345649172321843080925655584674371544926354401408614,
  14502920583440337245208912945255996935775177720815411526731647546939949525049821738784612363827546122229255470102371106660059563658352446303720417131193969296540646826592058627201913316962678604083269160407920841507594603938551141337633518124749410770795510934496658103506117891219588786785014241730039293550274216098528345037081870563946480260566029095073615232244329940711204240618993514880551813560737437678114400622975331724125353328847957730420101544021701291866787456490595519702992837556102077481176030925498899943817438474164266618911689062616265695913205254077443930795626145131822116224157961657914452724590471750882024765930514283467688114686347584796433927452685826306228615399333058817653576271939649575052032201427634120669231618119227096366400675652500664604395501663148098212131159674612422709897145610886780604003225560886447180568995473258180679877843469308234595508347949483222924383972275919269974914531296392209586320631287040912726267149743971630139997447056026908084595774106892353593150411371689312138843992502375279547833662374789474841284,
  52318889179623942414026426462765060248342611687877082408667985568090560108906984819512074112555020152948977644324909306790843005973384032355759094280443116678527081353023623467000175562991045496840728845285483203222879912003213967954133148427962730388737763643688060668025415688696509469006322903238184674339528156425585482362947196227716384418672532724396332427490686400384244297951216231418245557474640192687916377314974360341264953037223460959472087557111745646461665073557950319888755626953694958492850192060719594655251295483818216433306117490038272055778932126522878224077696922858482488529107532016557881667703919718616072793398277629583084130628982320702473115834124354392135455897523060225812410250528208775147648240506736572205493612141438285517894019183808836492690670331872774551345037347874701749267881886892873335750159135347795631122223074256386880281998271239916028281737850913312955447296173819005179501195568882392075874859044017903481109837890035431674335264649306076047247917379542441579659678547315789641971375395593059520299296611333178735729,
  48825073978242679073965666328961167401065962488751286518293205199754742689481539221685787907538139717262008323340986469852894199800705588680739933278897310226665836945696683342260508756318147214044682426981251575096736249458448434462883981134485867845055142331844494360577129356999958682103478960075883114807340498113300944918080172945033844006099304605678048692136691821312556970442319735734060867458338232700433898296864089752554952236270579190428497377240362897831051044240988932601861041217920418751493978999314546135895416404940731507458386845961084152488299692167395571581450668231419750667488592811012928530654875408106856273158588921161706431719451378765065902015564807227268569433276498559222516708641474944961854852161014039552997648310934219995185354703014296688371317077664179163133631469731789702877183443775025191747804708611725105926877206927940633467372539350544568626920470598108140809171528931095129928057399756086700325574522963484732351749501946146569239242836151908637968007895066903794829038042583229315982290580350362662819758439231784405267,
  94451179727274517557779209246393934837963950583547004095014121921962332689218834756523869314804708778241221225335119216253915248623470617784018630416133905522057675284172860715165768158087595133344847259767566764280547889115191231822563112579078192817548949150859604332728464243723487517578360863514909554237381689777194417486083296217403136432607234087983244649254397415764610760508106470436044287871289296035924879880718965384301408524375417772607797996688858776255476220329773391028828068738555778165249761567728368649009630229143075374183344731042924182684488460983967412075265224497767415527138057769293744197110916345586835477077245069706821296543334365693961237562569973604759187387058134001000381942655688179410201502828764711003955407073063803186891898595091100992044754491789557453376368628698072470753087004147680024738430217685630205991581495790761789393194544888360848757926392696154737451321976499317027150596161982890115588368715298941662925955084754511291052004264495687060269323475456543746333035921406864515840494475658732479825125505211493220202,
  15318605305107332356920514492018396595468399872903866058263177619852082535347384554830493708606506772007459284182791582858536608241747612278049533694546759383498769456197277327272236503150373812864689978027672055552417768344579183237577038989364103785551445485349532886104780551316352490495433587898358637557437218222208103804554189507264779135971864477528381950428383464491980202751767610425800370531692022395944956163624797945872430805421524335562566743451568313196872678610654197513871071843759806391231370491273765790258129447542857236562849366010734274802327125043068038455774919110747010330965540177621286549543923604567698094556365251506431236298393381512152375541170539414432292812533191602238512094507553532141864829674436544111515405963563785106977399232666918718046423943094402780340500271081012042253190138500221878440286502017930796604928057825620026623114285001790548222204974754916484421978799997656262715329962836832958556212710851123305976960258972512931413697548764809797683052108195164612036359060240542533259274038456716184868610860217876458782,
  42208268786917150037650210372132293428729069331957350809939708772692644830010890327822820630428617683351489938321449237269446719365384227817755935502879739271275860224516133892752679863279939606047475384739892952808447086153929134487373440819867838728853220757691381945878526809738431036330880558471056401507951433741828982979714072554236134173540052269891836642892189927063129909721741573432933608764772488177864022395315474075405691872673869890515480899092630262178984657115871195395741923892613891766650385205279211278953075938735248770427011907070265278740500725112106861200959596158699782535958453342782922079791529619166279270074247010078942272565945994958454905187882966321299934145115011027709763868033490157568576787075523323972080854672129657156220510965846432214904453804900474372651712484296088906524834189988226046129361238583890219534857306791137837246559711324072551280818047899109220164661233253348024800841330779122475036318260349769357766076503639668044017023343296848839782774048194773082647664734600248332095730863740315170274016532091118457655,
  49292789193441075567689777662147401410811202053443829362354218573644326988394887953189819458650676441476880489565620857680387568221256293159238389927448842483374099669715396210307163586026323596454032676344790684096069835200360905872875805404636941971474620128121866405749032967131073226645180941928445814938182743632007157016566928393529960085217536776750516796011828370414107184279652389801855085658432770947775670238086696825773939736482511074508919711478904901610897393557090701088687684154992631573040497786984457512142983664322877466820855436055315565015003398283330950400279462540668551585559806635657642173873209795794045714186781993565694016152185955498484703058077580829765214375574930543503373934071902710782930273435285547499500603442080021210362421544782700231736060082390742626711613215060996574665424014984716562463978622891460853283462062555533604660738950416340705421459233653814012758608826237868805925528176406413685912794707166688919454105300243118472181538533806429419480484439726748395184990705056256525177028504284578522669383680705288577565,
  49748764865986193348070725282753546010127559732044328799199663414758605196437147846583436589515395780850583322802264810497702372623564740317767728567922478588118593828458769565257062265663098888560667444059774789061441491988891421416906210349777350297893069323428059133422060020579705379038011969656829420635605272142851011878788200904677864997189058930691802515407611986895210130826215690015435937890836102877553633494658100366084654188263221352462744341684926882826351829536531264660903363442035530778256389004078164723867917589249961708501164864332229712653521724766467293695077126378241075607207581256725449729947933285479736740951526902751317465806632644736726593513649817938772217084015274706173908736089391717340707966740771317995051652123368843726285720367587662193332110367315089325486282620088552556036688915965805302490516591676507859670765373239183525549152596331187344036144915627288892729791375198867257714333488931320395700564883177518777889122948972179698986510901064537835737116861592356684076097289258459548528665677089728360863284161112823865848,
  77371067153277541408530664466279588972094871979771630637649240879210350240407003575866682187906881230256485865634239082040740266857462047155900377059856579227308475218365819558552467064016929838468068376991778717948763210089957846452106604555910197693861684522800068596471902836367823270125091054061773725695956903532467328521322425729895175930855787739574935194036758316029185207129836170854874107003424039816201094508707244229995271917224891743572475209794214041998846860596200063378955605880771044521392293173193287990106145025194774491462360654862827826300627397100184442699950880079385733723162357383639386271551091176133917166186310069380095860802918972294061920520760287676962215324657244719974551838702771638640180981819847987279633970288060903095128499286089297582727942696114399555378887522862149136658647117911221376352802322595208300708506483978762658629514736395301254290361003309172471839002691484720580677516355256525718312222852886639793743971982103231491242806246773566556098189804359786238119111374407924049188209947327736780837470813403001205580,
  83528504853090636639428948613246430706589975983267279909161605716822133644434053274878141158160267056571049743812471492158536590412900064895778681086376726398587649316480993935256138293774811140267567917948266653509575158195743337651788212410529458260335687464193498553674245740858670997002644243937682316655745393641761736088536110418372169970881606396000831309681941371676404981748659608093889710905797755970531481653358519308455135296508119048324189314141834493553446386340460322450051322012126657433502092666211320971460217354838333013112445849082269976404109804238404395217762561512575409478841962694442396044748803884881510068515577539869490147475347743097670652519999211662258435445466842479521415267423170957702703367046467260393511807338746459104255973301326615537262986167366642217277257583084642650068818878442801773016073610314709704552025782880171618721981085844464806602154567266848542272632804435254968230051686540592554535036590554910189776078892990008590070626129597051653829200580618377679729235754095980375312314872741275338490763969596718540611,
  57426720614624851371297889868874759019325054328234914725802764766706942344670339043985808479878346570813808082548827620819875925564779837685469470302326282443115908705013729641664455804515279829628652867428262493608723726360216464512273589889892444789250938142594170345759329531244458358173081417452878237374736836868339689799065053376586836523203160887478191714255420428490291565886951287399097747600509265720329588896322608031193400324014175659323188067568344937342356039316353034235509099658643071772229987152546989294710111946055979955095412703688042175726335822496210857128154749584255063361615913753330152354092131787654336654030130608504263340909269070111027444030060188303691252603993652855129826270380325772741471665194400846598671220649664148503370019294009541553778233386519839013658079124349084524587955983361276088613022574885385749800685507502429789493369508158621262292581341636432124736787925863297152104277680571953292106572009657870945611942783941188652047751409187640002706625774026762518008538760380852295890638892966064345115182004910298581391,
  78932201913930891647807019258538940670574127422932163433995193161903392442890067389045564816906542255962712272486304951956599190376718654891755122249924569370982365522918266003945918162315985930518238078450012219949427982620664197302217589470255948318300291190788558320345486139235106638476293872653318981033248875170842355801439465317022040218662233486707423489880763602726090133770698322506871501679419308069328769060110871283006735385783682963108848527449789480544917781730515386148336425569698505693547831919835054468324383925618517827581524704820561163402620949229716670445015330797065566675718076802802919610629777124286034412708981319147200862389998899276783086977186667487601213139784708746553701239405543447812408322685311968581780133865172515988578464222603451540409311584590899768956723661569019876209287665011122104358389005795130918216805045753018785752017845820731113899866119936217309467484686735262729752182863976019166225799490647689932318606340051240401880668550698893828471534886148639408199837393597136076649714507065128983955238423788980728003,
  42528122031144986617061425515704659523497567087547018349233945872915388218129096443766495249270407016252262998125823026155215385915855637696553699392502625683270879999089771629238258859607103835346187998969704528722704438046270663386529084656277546147844790647804574291306574572973194434539954361835581039121554995873486788396730810330368700535117442970544848002558134870594748009348624215038848940445762597974225847026885854182502312493762908479826197599620900621502639551965052273297701888727736977789109670000240501839293495928431504379819471014905811101442130434223073767556835194779289504187124998141320249848420823825785788871734790438534873313617926443149052324437538946959730777190075201221097178480937084260819068709427697719946697738308056698022096998268384955863150909546397566878844836716827682760957821596060813124999655224453458700103273211895564390905845839087709738388283200424505832528500199722826477318702182890449808710486166386601749246631666823489078071380831166210393247659725036812906182425775128429832318024763080492343766796518513704807932,
  63153088848256278301742133003858409040358487608091630997880164272161650468437135675886926472450058882632785591808419925866305151490574504074003403953522309558569812322154030453337692142685161142735386933248779204902446854118225007953196905305432515947938876733111598549487030588314579458566565663341644235379068728450082343761749003735974940049390927383903305836032991480573219134501876269649521835313459086530820139200531251449571825874230715037074991505710344880479281196971843900929647027405889255469766137658438608762736510497029388778731442605684862065182488133083529936659220517622733172437827511394741698596275436726629537342717070202567370935210193034472912576463301759521065772826821458501143473544007074500246151722949498413429309047246402077291761112715169114054408062300874247070020523304853328491154869090813259556965760687244034724590675423515538381039714688859967798878465602334012152457066302750743428105937628345969375008589301032535026979811732854110470426650943276766007160377778929727675023628865269234250143157113789018896525802383053814516658,
  37042141263068109301915530491796740776674631529609230564464811798486504516996150312000649315061156375768784637267374414301822016039458303284651254316748244656914412517224965465078082203244771051402698181374749609895745475059493560000302969709783833852607333500084516397400402993155262498652096064014041850890983742171389647786159556640038291131987005521938715258969487233760030526887055333052216955380486688301879757636762744180482898439230846488851910970140091429999259961739309689825963090410275407657323844504747500314558521996622462552374318312264080405731278494947653917159260287799884328368627738736358262625870513409620252000863000083384293997320694917783137638107195172711324375489390391829261994858606802281125309093583534915444172387414290765319965825887641288152565568257944637651404212725679516601910277885997198341722805573843062947945938020166749145358766270671083640457325590495781811210845134413927327392052303638641474591622857286480564562462015273533792638345851241397168677874686710013699075589123142638422472875958663065322203767004882839100775,
  39600159501868293564426149750540729779657962624701502091941816745387615982763152792805849231427074237688947668139094497805533320842549253578443094253528019381854228630812075855550784003963916187893634059696983024702209386367575921374333616458115715178343290862407034742508537466343900039943030437863133050249274938559915767905835041529165251841405198015364873130519801877866833040898118373345897160079619941920067223667244622708845694719126672988321809734529046656877532189097943866158960176281961911644299136895788665835239659665127747099116715074119580451132139778206618876657740859685165289511312253199176239989562288755954364388375693105568014185599502162847749837015874935213642175081105030303326270026600135419195730486116428310802378748213491012530002823024193956813909311288929590100096769254688539010933144288982068077091736623996958544004973858311918147072275472168205633263047169281648349222877277916209172215067274737415833612561385118356373034367236896981681678833870569569479002039033670296565149396661334616610217769348418256218395486241320914324356,
  73295437897844444028992121725265054887572086196946597341202718302821082171501443235955074426275046248230120732412383468944567695249418618982110621826209893164493917459099995133130379454258509514808456343707390203027365993061110760972317260829884567836796335998641210287904783488965932954533794199460231025118522467459822391749462573106567510099885130938173523091640301398491722995963682448407712325485305217841900017213316529592474790560934720901421678838226676810340218631926983651687800549509288775769755683569727123045983794196259417627939439867639048955346354626255813469442899860076298005366834590652322628786739457293118931212183900421078504695438408937613040433193967875708197362325534750266649169548356835595982877364337107843303693951645677055051058167904500437339106240019899177189538069610190705427573140414729358044035589588158541527992371689252458537806327377641881225674077004551066472525476226294122710982572101091737334934164017606798906447186817531832153995462151360105483945944131629942628412040726516732500053812687905325547803754503664330967435,
  72151777450637347869911099335456770723120260748400180153504775159699400331096877348227957047098036915687514748073866389004556935741184718511263087029100299883356900324152245539515111492642039051442230894882332156274223939686326719228001855339194931193763114862027099155653271102451872308580178214890917618312785067055679526651234933174750058592379707266499359969739270335550475652075599755818816450883030164414312901470583683065583214408655959391889449544314850383704130673600882795215230338602485798781428426426385990271278699245555771795216498663421050214214582044677988493148338416460193177083462920725689592236529241672162253457467966772664995480743958393766614565130409677432761707168113070972414060851389330530806929895925547953195790210663925519874545059032352020851499318965806307754464296930203821473111606175789361189858700138198237590049038675290604029680504605540969596247427802888013896519836184301219053477088668608473304069747649154265877829334802293008839542482580567055935841873317093167205935845389882078019749377414558162087636249381007324142446,
  51587022246401882721692327497700817215855826098750998349650462215725282520918193183800403101628073375221004195231159101387904863830961331031066080622709818317555520934673736778277605356535407917474627119392206153986632873720448867017868016736767066708997649032250484521961308521579000588698122621015653830752598666052033355794798156994095172787700222911751432559337663738303638606684713720525541076697020286995622136810896046654781463633476205092576956058354686802584874957960414643434387797684381797306179928579865018675269502088742897531045591141490958534295874436051727451282638755336277114133284024244131225027497283007952713130726755518949770993247641017399206176590699618806006036543791544791318589111909268606394650327802065189773293807277963448958452100173607519592230739438693347830322515312579553247221080256995711086690187329896470310438537031868116706029413188552483581538291391656341794165647292706245277401339596797684529231112947904960357852319060992195588171562787275260048842386183973846923868720655314648043530179414872128972950452643472258783477,
  76873875595167700172442438149815494107686283031901099155335577550915925038440060607905302384577545369348385738195753317502602353213137695648144471346806921455499443631260741625882301392422776409515814682808471729065631489592618892299110416487881957898512903177389296955155575699089884685063572709664225928436789220210837262847306659438711930729360315904478465529562018931041334980641401203730258452668532534790096127717643997009357391071172136500517363878348531103491875513286837115051582760889929380774917873496925147019710860156322968992131620167729677850572700575179264506397563437898259380299007037644264944566937204619879334820947798313797448968206791116142122109262034044210710613761897064176896662109707410335302871598397747692288391877542516754064216842302940655058981481292523828403974367662559916224080167793017049157277556054868743606143801533583951030987735726499812642490807990194636226856813444173257323118017498941322912448009860056553114050498183529731957049947548181126297986431539576527459649375807744756104414315418882849331732868206233941059251,
  81089580844263073084164605055216562429372322421462147864739314242764294539406796980401878067926724446182975254851636866461710188652815070833335167285035326590070393523001853061859641700108464643667159072543277227184942607695539064233862162506028383246893776410665118636180286316275075304469887336486432169660066459873593093261111126824381654614936674324303049258951238073482109979456800372472508772281090360714832735969281785436909753769595857830686301458607808079459224610890356991867607870080162324092796572338580867657217600369171326692971760286251688648520464344314302196944098149072664591421954958850358783655526158480220174285167540676478009408510395325876741063467648708629814731891383586624087753623784755926343438422725083879256909208981692050355439817192015942528759366656891215626086190419684645146588853725015315248719040151086173231843570946411950232524617928658825558031544035987247147289014905644028687915415666242875572913276181993236435901178278658999316819212512845999343383218055082648329851394761054393548743878431151750387474635844032466904357,
  14062271495613335646416904843630354450769566234288106078192507991737867928065519905040143092261268867482313494998513222831582677747748080026376583116666038295101863993574181077615387638763406722850078844390504176478452200954977920170587949117417518765778885807814549337734159489406125305513036483280290848065272386304916638627909282020330867805046114343559842266953938631837227210095565904692140745042164803379092392805615268375800286789271586850861841662796539505253318854044202782696753167903857383564193992396198043908743657773489613929001064886269682027378345163519254429501294926495485199102274444341402056959803634202360462104201123218197202673607399821244218751093019456183326126018847477867182760372141780393077211543651975067917767039523293368261161872037619861108541791777684335220765469211415875433178650642600782030571065470547982739549421710728332089232301117491517799853913620945484067228199839507258088007216485467294740207920067241315290012583529989627708597560245726110477074341679146784015194145243442882904627043802609960046350259755362369207111,
  76034288894200172096926984669109773796672208241429443600056896655813152687071223022244882015759580609816261769842998827254283731868959130547091978841036373447975273942156322124980004151808631142939758859119311741597590375191506866788860979055310232717895600972779452312944460618512005278849231223039555020952106266457131845824984969816234170897532518571688131815025201587498161762208179818474946507608083590933894506790774109506845131281171924819184219602654896630876032459188724549751256429815822862528941720486047228934992589584148428291142775702488797573914783655901254538375412151216692614593033187147029874778301414690753680596135457944258976754595512387614706567742948172343468748629891978699030545468865062055710846772137117315632415838907648899586255545668603090946134214351878151257789769607778324361030632560934300710628819330105231685552366791947397051934710126023937760081935006687489839055387662955160568480034790903354242163731722573901626677525778636421510798347956340696370930093501749409960120977053280463948183109291633063292947565585393112060504,
  98714492396025303460966674656676370945123983630899971997618569469144869792462261915848016995988985250713133563187780382168545150804193604689945465359827353040286058733328196648216999406265034788912599032871410742033343367828909848825614005588003388694707055480064090012882619396399119994539578874874860720772968587695579800469430971035106792662532037825222628409016984583262504911593424076679413544658224361019864840916868031629253631541839680817403166987242898678270516782031893230837094975719330572794322277977169525996847261062654818453987600598691059302671365884248423240434573140739516773972185326255882566339301430909640777640447653923174738670102608820642514826419210132744227190416855787021182699431096095216615468531060958955429765757225355385427507097678721382098617235079720999092714031000498075439008528233678795406338716712488436719273884571467477173672028597020463245063237233651844640013092133626952446236244989193473112482834846099695925944325460382353694695286480854995335950700556725014785482101450092347712889016871450821458582767151558421261235,
  7133503185699088362907307149462513014067940684473918405627082724473804763556211154153127484494839210369205546550100866788322264761610899178486014080846446318549868115714428742432514726463653079201143941493725581907552327392375826992668922752590318114369033025895802858707289026943886721549669705894873161359486852299716018284593193025655666031891674234810858014159248399786931673850224197078936468411999914863040925333280575704311344925872934328604421254787555111146198609624987861187977173635517243518195296002905251938781295151564800604627647060125261906220840958643469204307837930352491523471388319682313630859254580459914456526459914458330885520806827917443559908537454504754680938983923657663300631572454848433106045903017255360509361895725292915577685984723192428926867732532716284167162052551215469973689648669302877915688569903703153942798001249290830172096707035828268631535375245053983497147755428940045388074866758523154252707573755464857646268001594028465017955786671228233781548808063580997299468151248186928918914935611178402795629803459576395430477,
  75269820367494451041869454647806776957584294516926514347043242013547902630301270962045612037572416813221475312128387172269506836138037707169720216901427255075117795097285190289792935176806751751707277420661587450325480712287576308260028494008460106064018572434257386783710506035879515097008317425872477374535962436985771705839575994193862197348093018811580223642835765124784081356970008373420125455675903781596658236792838381201504734627647745405120951991186064943365258197615077988407862504949778398436083648694889203744401135985822083768892176929495928573578203557119504047891879774649381801312774542418744254625774155638655471848931095363500002907564276637371102739558219304172574505010504002388538606221189402670325367230797977368554340512110852139450459367071925145386138441729140063941880964311559296009275597411984145811026318545784008287444556475983523138009009850103068597004721853712016431818185279828187053898310535931442656787344990466456258545715549062392264194315403685276482326207792998987806201904943407649575010292404448428840665733624751769041746,
  87572268057124011729002797085991342086914822586567726516807440443313373480431759225664381524645600387956455555443558118081042231443609465617776273394680245996202835625443590447241715804872188937839698211626014531804328460658418816833724005368885952793487511212334386870273021705241716650044891722302092499163523459119627892629265674839793608134095791301376642343338311438931075370351284696566021234234104615081448710731504299989347351022309841385321190094069139413559670849018756599425158538797102638021948103082380137506752626103988923015286433360194883426917214961569915421436265806676638064229745083599567925696523123890823652440300497738042378949009622134996775605408355122570747616087152365032443582943842843780650616169530094653870567657179335213706114945770284345838380274122889677067062093318796567935081097728239030351009732928581719427684192865985998505302820097232844000895047096712396079210946965738828505878054302639831164450914214002179002901811941058704856842266522480156683190887942405028290117511561975920878025722103685608699647084836275678007262,
  99228790096533939463028273099449900181245975657067834350081294419938455048154666055687684331644621832119958221514140699217540312603263804748435839954170633226702684280286433873655267823296147894171182777652257800666826986829942022489981733560590915620304916386807532088544064377608596556787018884330092168680339172130334941415439333464662668960106850726702979437020590815603633286801485581612302136841451156067851394421608161845788330033264408975168594895677963909212217851467494896867235335710177886875380779542115361476122558885167723609805071365988252893135271599532385773612161782877349685308217473581026097764428920745762342168135624347177069139862479200031116728498249055408292409118424613077075860110157009296785960539107261419326693100137395649493726069128640215136285038356333546504434932821715122915304542074418467747552096810304565532912222236288453527821225304758990805941666294248153124248190552762953113313244569093854418846708851483402082449762653730334142677546987738011256627017619257422584059930709460955922711086740462810693332034623204094874825,
  90270732536637835765862963098569913380134321213485540181657040897539771991654870367202352646517347518166228809554083178959765152136190911447944557471061417257370170664019260638344322754454661865694924076891962651378309705678707158746586981599505299584935400399764081179133976458960304567424717004256459933757559461125297985169078933569634157953400949722879807608770962026861626433449290937622731449372072864904060005057832033159558246717332998576514857076391266935310779366399012949285663123062710945818909167308273823930935492975859649826285764315694666521613590255509624957993772699750114656275234714725752086510819202644633503940761256013372608145609558496937467342122372721579406148342478051667597591767963373351800711537799220362472296202749478058235996901506389571221008832286771633504735710879558729846968862686902383975595423983345620089417411880910488804665557946613180212510777417354899269006890192391428025742408684670229070859911248488300898954131136953297337137084902754286122321453225896412847298163864835659407756987031390717171179432804504756892514,
  60002550128025565662415855573328731309277252676822947096778719954618535568837029872732077077640458490666608930582978987403776228049698054102399001969125442983132958235618503754446644285058264643540587051491380923041825784411594526766293539781095024368075125260626048859978085292322849335646506691902243199423890562961214346687665705276013596980755295722857329913985460860892469064738792496680345932917081885695007242138278953210159354862529491796408112931388855455692219081827159027280749385357884008411659513952137919960481520701230255365044488032241428494817843338763289706660822546934336995955695354110402352433300455814222759472224656117032053810462162881577940274993310206623774121799432036482465977944827047788798974107322648481041031890001866482886920555250453989480740305149918939916264543296643384460883082666961186814900629203820603497153545323354347638347047611662261620698743297523401185868660478100741686586865661069289569708464591912842688040792069441376987110416970084548229082350444534682985869761403922113668887313514279946781473078353200134971958,
  55103055294292490033841740248581797203330816154405454944075597553124544067636053868402888707060339670536161863571190194110066330022732743306600869238014558086418964221595786760775362222868634600089391151079608846132843705572277402001863434335506051913415976000247202479858176669332506679740504144302461642837738938101260706396676051995721659080949333771108387347499942363454681811957985374728724057906576009206984926473393679938047661300093234174970961403256271409663721426987059194293769684569204340023706278579920730074364907834378520698146597259147443179192769430196437417374459152795200744765722125163192205917445974253362871871484878403076088087793021904901402738297051818380204252379807593507534069732316739589700705429580103970052356399588263099303707763707915241104195108372537043733933524242871834477185981694624151690867394607370279810544939781310136132461406156416441503293845591001285206279996137932723534245069852352864657266844033433748002436099677888057705304005135692505832347361643477431263530041505841044680051754552555009921703377215892948907837,
  38605896917817012185133153841425161180733498099995846752486661090767929460193971243133438256781626732230832695019759224424354899733990474596769590136504976359830416597419767597293577569802246046505465167892713206616184767715590471824528585774469262553019376864522809985983398909145318576524997953442005938715260521492217770331187896402424891445442024395043664296473301067008733970846731135071017540801414027168993334896565238977898087095660455649018424930770573855494160732048517652281673346969494840826059179163635362399570569105359730727056472583974548686474444742418869906812248699880925903840826713433557206596836448867523614682812521289414869851888347148788893216576861564125238582396372585796059723581670618273022586069772063497360062633780267529497612943599334417007799897788771733253220757980669211847281897609908774314413839130615995541102439728567235130990102604509206374088583295341623612251071010289111515166710661479361777029388518556034621694238447852521063260550068614391908511097300789152895460353294599997015750580360036318418422849366644321985897,
  44832412622210182751557908195385299980172461487718846900170199939673429532145427767113864183293762588850970497787564584442329149413631685685389725056109055066426813107919100690297322594747647540091625107252281776422471243108127569736882933954824573794382348685100893771016424698479086606118168065460827226554077366994536093000427005757590830645574809095857632118018482604940036211601407222672784281767136481841984923938739246590593617631310323832604782107386118917055566878505426446159079663039111496488296068995876306475126843188382123358863325358484144610805211318569300474273804767787532835759228873218299122254915856326796360928100244311491170084367864349169949213359866909468079257763056362534829362250929078272317676449777216568375040915531809543336191264970235625504162808508695895880466803113354881820177393962107010508006647183443809466251290884193825250615127018200269825423598846359603210158038385537905241113754240306612559250607518796172934947132571880696104293960932842145259761462534082057887729135624266122292100774397760438362665671937566802219885,
  4564391557698321634743350965808064914618652177597182723773324471796768363405125747109791146883940897787119310694710551758036590675710428295209085054130293396515905981976103669519092343447892550773002738859379526082711685373651264725500791290828889142712140454672438561147116011251901501288054899621595069916514503782323780694925087014288953211065958887963996255745506699250832619095448624646414034066213125908274020725935211594260615874544775039424844090679882739125670210502355540373326845072710517655458245508070285593733450115156227501831247892447173165611634816453796476588952205823367277559797330611192895877492499712056153811765488004596415305163101058679705795954934356492009004041776401672062355563067504297348359580221480108770136457948992568294745367659086568356679343525261365201167233941464392264911451625049539256147929742331608203537465311290068884373491321218628754421155926958846820025714774822823668149639541106848404851515519672758777664497231860184456589824848340782197060021951480792703695594316774629620173938778833182276953606488869308318465,
  23178259188075643526404055588100234007808327342773838532287873932361331155365601335125311690660131048458615087766107235296267217146476021914160162781760268862369829834170556348289366483947975636302540718186092070831191854795089241216388267020730597308147956878678056097248225914668953920915533841517844663718656871660906109552916416128831265157449993012963470308361297431853060646383825669485499732343831846864397697886002138453327029742108480472422343088734939514686173742662752035687971762106975072322752306698171332234452776089501676917176259189151641007071588840630078947295229695396678481992053298469986707218475674619338480171088326811722455009880944377175004080370310860811432826920187300650408089503074504705599139538511811484481512302035073145405653636088015961280649217464789538553275098658889706097247525557902740091857128346998556141395400647834383967058934926017012586879558119523109410173797195826288894846498230745318404444325420836872282395442856951507842865068690736659463792701836236287089005413222179651796313655741302238933820160656155455534170,
  28004520462293631060853120085291991800605410084414637797998071749690388469129531336479961378858231173015287508238181509057677150474239371834455646472107238327301209909854010026061864896927326232014827012026463223965328054948022024809819798738065667268650616915878556746353823148888109415365404383762496967000847337192575659849820780808338539046612044308132913608759479364543403888288369602280758311740035697829172759068129944028926706948844743365137794403956223903857272397153135461603497592393656081226800600833152648420485932266862665106040256716189261842398428710199211006003398305495777538120255979313864476477119553272085923498531993070712496799247686121537942758105443253226710492111512703707033288270945073379453371919833524667640251795167151042388991474289369200579166416406956982167094107380809491177257647161140797058289481495206823417682545769887084604957759997049017196403867641938523516732054474554210986975902634520797945784493697109466925663268107367201090632871155911970821253370248865957959171921840352044766565419569302775196777215580517627330302,
  25432766137928691731113381261764484499705206057332607117238883781877265415018715248276653846645255624356777473896424629207264512078269565900500608018252747025940277862087908655771596428659878170167685110384620108140423584020885368290714161192482676766203619891236792175452166411919227597576466774770055684677409888897199267842639127764478589600173942645273071584749834724441603704603238984568301303322397853955640452489691826563894959506874464596380151267624109924782517505182906172299453997986483887818726618744205865502312859330976973436955998758609409442492615768160162500042075777374736795009352961963473314010138772992295360801472898499860181766721447626259420511111542826512621138325818823764469461949409390882890345661704514123969053765531379792252265048990264182142409759742639939644332188244438158349989372398425815984764849978054780982587949122640350154479230877732782835566181415791024130005652497858005075671526473483267621990225032329458725471219521143395368028864957800851321198191141221597501827124221544418694025744182648242573898113196626771251807,
  53325354126103827946264491571768729965995991432575585180814752429644590723179809539721622952087235120675205393492251441890404572759628316836640856972782107327343390285709936766006955544103355284031735014736283766589169147165962587203351525024138238378595286499230862596324263953208815721884230964144692155397177336660316290673664707095454425437456920891941575478006732948166019584246116077823253609333937803039370174630917666409903712857743695254014640436925211645993983991532751633662838226521619367658170628934648066789587878103168443151472955886520729151963269575334200456732715188588353589488141114088958902534731112445292160703369946857917294495280967030626957070966005861697214217704874042587362074923044277589369718462338434410411515781504416688124764628247139689836264327506756856896196315495467681025290941299811761357307346145775614646064700199969923107122781648280116021272358384984537141593917080820473263093577571614862490340773159622948425161071263787800583427912117757026124263902071443321804204598274280554795518696591895799064786441406498623018094,
  52184956901999344825401613262201045529961487146073217825242700336295504215085435072550130316694786205842593196796304580552787907903225041198047743907478220082157200404056269876024469706576490923792028793968474142219780327067487112683163973040493717330151173311397194034263424120239254007836673449834587577561683650958505706073875457789059763460275851923494623269560286332453230861585376313100141175157324050019870796913010258486741737616383908951305528478481293734473943961590370552566924126693555744574413559147108259157588386379343711174819828871942179027576457968997581906065244762240490561301324216046432184031251867155488787279472161470357575113220484623376674638588635093968500665664666410582631759276513273835663032414798098714737436330602974037491153565774657427845680923498651329042986729034089517568027626162846856528879636228629928070347878914589021936292039980123927476036811050808324282152978870296771557551574912781066072335836230382670917940139740365107217165873273360664137506269133147927562757773877882183906713768878585752399363145820824588710098,
  19928498674219762093562886027560270205262724144101794362628010699992452681574877686639919908510557029698788152566060291514912542226185788949411932153759016798755946272634757184512401952376952047086934795292753519191631534403822741629169251177423200292592813885591293229435031539357641760760563825312508548030044835102357048707572130199349021841180329262471585118245479320326603262735447636144163108009495654841405160466649452536720311074488895821089298926147753801081469090536039299861932746676159135976761783408510531420856150987900508491686137229440657125999588572686828925263848862562278623377469710100909263143095174406778968332647911536477425432964203912848470210797235205321048497719875412563349255384370005435155988117481441032405053707514778030247161873805476723739825872999613933257226452940204813320159611637276232756270442448609728635229762865534399925785281900404302214075869479231023184524319219241981250364587870702236771630629807660721186271986974006229741555574127492334701918137883605203838964143340923683447183356465794779515362002888783452614905,
  41981811829677107326312830959879971804452538187371710923557111092900752537685800592621642532512423891820032909499482734343236166252307603920826942475525686731938209981433693958859761271017556388218429686698777710944694389078367436743157050705901934541371013606131326427057398068253508898865279075448704087616450790176659060994832462927866578900715415468730679325204502637991998249724018012945085914412782559500236088690367648702453942397838190373268795115851589585989184030369471311880168713616950906282348050788609022752707861257547178335990208947540335742499584015667765510535679648289169556332894147247327843723458992220969176912838363444259631701140892190293334580667048288972845128569705303667826019143163888765763751951931556883358165173694056420784042964685096066766237773568326655369855016771888163100201701227467134166956119598326466764015915300936745093696153993790553487397274141241435008114602421265711511395774065349847469906335689906566602949510773762959518316250777198994222389524831129849755534018221288652003586693297815625314132398852780951810799,
  32147523899089511508155843553074569335370261791611940691779491607248063869017163412783714399076579121661722539489258305012381242053291059777909616157223470578653583855947899448582802213383102004500499242941126521625548726593268978968316639044535029279243726682880050706860513088245310694871554523642659364189388260936971889719704426548480594660344477004645315087815814315543783295297333709313985634218672984466462337699084915383574396571158598343625148505991610994813484374469817764610023892655062809175552654434250557394107665491277360025092721569430150308198932709038280298946124448403599538970136617892860750595387108256221253845738489188465320892195866104215835786331794114438187694260352707884683685608306843450941876417671183693288109668028733861672488623121644695293365487303126790111685924233133956946079497765485030306593339375033914581294284212355763875323949553318404991320700477997592140690482660250379381894373857124016499627499023073138591362017167778783940216993746388912217358806393797699477161936253543537790379447298833546919904012350880687099748,
  66964300527243486615316937629308957010341909095600275044671508410164643232837731103722494323342766231870357104972800153190720207773151075415971044185661667965842590199304685918250085564082968020188096057241867995771344732622158185484104953362840873184718160424096726849317460847774706627529204434518469327748714194984039259186904883961322074997086557744406121883294118215224434463473104480477430993282622021880626823903507467825148712743327664319451385279427496085974090264336748026529971064309992272404353686382684745571776758991100506494679634262149294335756773640188897997355376866695398649206330941898157623614676931131202895777823039136984227562866040623408057469270265851198786498370849084288414221904249812623153393815394290730063956587069920874615091634746890163271551211011727315030974871927138339417472201381832484591316906949323671160003948695419205352567907793710545684913603593718139949046129004027580869756367830961890407162699745047337346224956715615163593967797227020641869211498383772772480953359456727900065343170931182910463108823218774115948694,
  75855828934206128980075734658941853154201763699710197992083495380132996552921570205469108215679852764599673563700579110677449213833196551548181307555323199153007137038569894628129896340082227103038470756339311684785135696687509978314072706894010031364156812451349477113081067269309574632462717239689891566704623886285041001493925629472779113470059951355715056617990995232139133028219585704195693152168287266540173050072176132564571976709854467411924565325313413764877427986246054482612350266981794901388145499065336598287526382121148828517120429913915680461777430485326137636448033994544226161887227671203857178559709843136313483356837914985070031080212199223559797395988486572874586268088557533329707955154717779454920357430872148027512660933113474147062614396961594592808482862005155129697040289349308088048861822281660636888914781256000767824476092232632900697390399751438258433139651081906321876939177700355030599492737964093804373676851438185579881618604946979992411425942376690287949544130499849202620360314157414572436630943810758717772178924998179518418042,
  46100825849878618065285907254953057918864028330981137706452693164099876629712801790401115284335459728102783670272318221748904587577168262472921329386652039417169533578107491374985503083483412799958672663967830936923778059501595018419934020487559417039640691670369372209529035944745034981810169789482945555968577963926739802999664100321832576553677441255888664204886990529350906826841210754144095110814735223422896774097028950222992106541404001534390746406720265030973856805946749731894994832682853315310774649063806239297874533585563112528802966346881550138073603863782167131468093581124368944979109060035130743599690512377992622638597059117131317050120501672456385756440124002828320840804803830587043565591694055298299613710285021433636136340713409489877297113487128085866281022813218266229806861252287392366411064349897178396241195444495536350970806932696260200787518803347760128449545082039401794855701948050308532936358928223326355567990364181596367964281719007376978772438794723956286986830634864525992039911376256093845261183271521762734018075695279622123056,
  66039776792233333660540421017261419967440328009090790086195715679896357806920014617097156079860275483568131237417086875320696430146194269554224590152966086632545086468101179982765050763897957372386107843801497799431632132157529376019351998589610427308747965152380220569611254728365216804527400102165422695558306107623411578608431226207524454263709260127493491141085356608775012107315193771751369508072854554144265744086647774637188111288757663592341635370048682520256621658783539925227650883470597884434969250893925161976152813842226259869547127738949109644344064379251911931237261185518647604555267966360090152074084598732915769640573875100903789529012595181513613513418631767297389051376363003933961978128022839958009519199775775573837686859628876225305839678400164731706037105545800593120636005963258005844921097097145849525444653331195412873518083186148653290378064355808820210468263900456573936310284247418606263633190027257089490847428287351750226286560001098402110464526346649701372273793547132950125925812326759355354763473539742905641358711892249731915545,
  50113494347321307769568487471685558757546127716164417416341623522366913742668416715193674967181895967763474239765617328394027071087764125167991338666512936731732626842654716171945528578075376247133957470815274512535626270843639394037888582875485844426416790388361596579981831498386282140980405489816355629017595257372571679854430995960889094345924813875012650638741559904626463289307006655383264471988819043905005864755107485579190044038249650463387901259112453649056702865414403658152430508010821346965964751050418020975368873665022392308863603860477090996916985769497023106753000306647411372759651999703702346468720732490769301926760124886671312254882126355725815243076555733926484605473291011267314325670513638391058169080949143573365850874104973986515671287779154528954572281344944821534058785079675963655743963207263266455587418061628152781494736344973708999088624172304580321315533705186501799762010155737276254437715541382342990591142278905842544649773506334465980159497930450731428013409553367585576803496121833853047854493419163816978030359574001434083601,
  80459275128445139866481454541006731883657330998103752245432032539885994795781384263449966173860502878486166658511978262195323081649774128701060259156466640202655586281769520248259762418356140236518070614547365068893414287018599086542140221609627342507824299489079416519225482358641197996142961294874026402454623683755259567242366945612690335399454599869546177349392172027476651236161452423476754118700282715567686593692424583877115019374111347316667806072517898184352656519522636945391981077161872117026176436986104617709786731797255071520669189282429345133453363039838466827320996504659230680296733212455710759981257023641161270232241009530928767593316184232665244756033990946868199215440411394735275446185311290469156214793807381229310989037544471977157276928591238981792845578459297306343940683707032872356924770452354455141718748336278940698332014404226977733631910813465134279155714878588892562028500807649750210605879705249043554159079712534446539977271089746175281534582910434429015361579496712153566067384883419535411453414776715277870890641996833843958647,
  3528041349430242872829826039910739269030483504419074113655387074391736316282424533273566774665748862019151600357572452992504111513648113066511683657950757695997222856338261118471211337711928592689519793312740093265009930455949177747310055010592541642511202360205667420514616572644015244542750646910074018810350207416759515418369159072480514754694421969860120394462040573486718072150303563256051948115257568830709697035475641028775782646658870800622202851195195344679870203690843285122015908505769325653850430998642083673512339827648939854361174523068539136074264583747523322877077189316384071228506712933644409548627422849150055267546345549853282214117539052442789094717447302962603423830009655262939195508688712657195877567791513713407552495543120335761071410738809012916615876163173627234429851169362186279696645763166358213979658529111297953102970285308931151776393216958740256769510312702463403859230016697499217848410062401133801745181903156895098336236532613442608961020746278790202881771604765596177082739927789407503099731827361425908571103601437958924025,
  16716516041492950777964584639860601240968513405247883517794463331782027517060150676827870194469633900951712399018449542511965800753458917320297970661176868131039821541364955214613831479640667558334386985628304771976684394959804685259666502892026441922463629769411207509289356480308802457996486124068497473168054245081967471251218748462775941871071787292097215361301056282494815429453117346393152257111971628102717377567781010086397875307484697623841950776678208200541215403047769148497152125364735154806428466116688532355915839535078839863588370867277678578733836180429997346398867903708898676792225736955170357867383752508388075871601325012596413351199769796947105366548450705850546120571462018059981239090184736167492746875526343694962517290256180925067372555344159388456331513548748226013193190951892228949713779546234831196175661280058066182412800758365442023626132298886854697917571309779065303252312640196601644322948547132884276816294045685681778029419091298368468766796915880658138277489658998426594561619097218014136616729405178179185230626909506561521809,
  34244737419796529641415411850087920440769740352924637200140753137212819327978521507947240565615442788753991109551499239930529473022473946138210213781475578992588441679416774647668329838170068842219548619723529323053315592529422871125038453741374890455066041658195073294314616766411203404592991981799292148728899302124931068839737948847431408983229401214912249033086844738709210410398631634176895784903228349278494759232429833587308780341261778061798759073329651505436913891957945571142807453300591735329036221500126976865113647998032127320381964682244722623144596596748467034231166175477302959318123403318022131039351467738203960982757011685421536568651046583016661565634928149980151302673359506309477813385178370892339361405526637241324386575278138755437016040453473288774947478111905494664384865267238211043805422573850419068122263251064430326755593840007425031651965584543847916802428906823616545509055660792442918614235076619792396925428883345817705583455552267336064272450748892260277449757758643930637898286831422477567160559164869407881879371342356579015392,
  19044425391573795240056447393649869357602495617157076420438546397050634088528339147945015189340431893283747341432615490168442385592934428828667912619401414877927444857418816490177342371150314367940636660534416170645229731436664182359781667660989392850900073856061926402031802569783298917126865831979685240145046231371138739593162429811024585432062918343449431371654262356280242738812533575283601608772348354720508163152472809072629551030192457794844552585867080981835259592742202538308633477250792140150817251771753344557497262213961915849811350101688464734830960445104599807742199255847251966571098958779807895982853885979778356882225100447509980822851032920078067199400112036141036752265643186784066645114068070972454088875520190734699337905125201848409078989208527224500292469017912642705475377185619336829782917027379032190713375248641602223551676894718585610230291566858293965718334412046615384134874569081545445947471702495483919960184534663901341124139359367781207707359518410679882297660390699181352856410130222462927582806485904576061842527073321519585411,
  58110054452607593098297925815859123257860504081576408925157145465850624317480052838869272210784084094638563456914944399788184506012773811412236707759301267642347305805815889318024857851474113806048475135556230958529073895339565599390297815376605217193301593618291627926960667840353458380906381077048374218006651488989082836606738859093599086093272206765070591189707747775907383278227688357757524051384172567652311503965495744567420354639551979698676152523423536222168896317412448578931476016435667413207265491178195263215197425176403338984918448018953079351471867141420186925827699856680056880184672977114886494294062634596835206320667157896549172595152678216523925664629000282546650471931029969352194482865311984870348812126101008209192011184655557424053355725487617719686820502505010981170599006326489392986882873693911604213901531749418801293866491637746373428370637549819810747286916963605098947761859474371902216501360831775899647973521873306827401311175430342110831529694801455876700289360197856508260140048264813289027224439565203793324700560905505182865126,
  73536972731541950391590428136000423197844756838385903953809098717390688746651152588074879750312260176999268853073294229049353739635601989804779021008901025275615408196220313111667971344466698850678454084810890374775746040339202155101364231090654476459891272436597976383211743847219160808245545997286088182906629168669363323310115324834533890340878433388489029778973406638379938300992407402116623781790733181727419334698692049255160205943754903947028617293957525869356419677533061341751030843423638263783140137021359560587210804359882338076691170283017082447923029542101856256967569343032701300176253567277426869645413236681252507412960627454609916262006132973431778150987372188085514836608523043864545466938249704116896503881545954560824311822073563395754277268964643817930304505378039873463592558495863816101915450713862867693469906563574142842969905442423506715535543769566910246051871801039882656599625944890193491916143461756049212603630134615057274784265117913222785618346186170251458492376517937411249948562175433281110168006201802811563598200851083245031546,
  98131263901481021156873016681336656493693842644655752069571952108346175003698820819286861581176429073437865612608188650465457857719024632537896563019298204182940291454182508124290969252349054941929885697528466974346616328463165028336776944492025151165611199994999002502567807504533594979589996844108302729229602535700272665060135100820264684739299868469845178897709478394427028504099154669438286079459206356824251298642449562445788026709040546249836033490673529058699870411086748114373484432899561697662587853795605933466863975784661742470306441516553963571334290041245434785664643445250541229474079917018647484537207963737181242055756048982693592271619866481976086012189269700455156288261715531457378404916162606096477524384724394767711721083711245206217639959017897685110958661640783001331817106296199296884729971453922896422848490207115918759560178440813072649489913901918302115995196859566964401907080045167802479074278580807265649709830211243386403592864649230846047499334936313324711198961161271364571711894520382017131321653294842599897788070237775178765859,
  52938640427740685662045703283105626803533825977819108146661077775880637281822154696454420691662770031698267053149153588656825697129101173299717738118200698593655135427957534772786838133212853187646666020845830300331392511736177963397082932628182486974801929496518690487586049963518538647411566129882943554549027457658989387412154213657754124620921968208600116622325520692919659089665025309094659174859230411860329343814299777941715238589467180469759110043377215132019137585692373948252317013907548235121849204013197878254348696834158905667139262782397291518383726152513442133929104200702943942354715091173440835620092553105618788503508886310324606102242718242211669618775339309380033151158486240219308899273563004892588349707647532123072498853059248199841921909502027628120598216053943916591762960102987790578874629475720604114776890592332972230045467978591898064335674668242939325753234715979515412929712594413880058765213292048533267911326498101357130848636149965072574990145305054302001859987171848554766434257016087895148230216702632082326411194677983256760891,
  31537707991080817721805345197011314595410890388732931744222817545313123060682089824981073464854425447088196411402680397615916842549442133140428919589578116942042270861570837008805567961404482869811899282497087723562471037911359993004307016329734656422256053067986329837450520927115372645757484317700292817985932889149791561939715690485099018313326311863692830838194175829347580071759063578438468832293668142563546045703796078436855543684565493394441598653924137389107870025195535382845826083523164406502468111781096864972783085944578444304666998496498805302839663714612393771588959911032428826646576364338823390607290479594875976086407100277463448761545795693215627269320809258895087300373875003186358537245117630365153857132578124830823731096918515501166530531431566359962835087879849855041477492866248913805559734209008611817108080148928794442607210255254840059021538628559881843582364420997333861082330912681834273402766265441448445712135209940685145814666657955229854173846588046320361770401147917156010825858401148100942778983479176731260873254338002891091982,
  27679285385493158341537884946820436888614554413943806143064220242709427121161406424753535877571094018414166604299831610436840964171701510089172269543671856202028746819196415630545513388013743617042617516457857309527263509366395793056092433882471101156806936898784070724422930136763325302659905365741137501728903616762518508400301958080240976121631157973885563223112308529852197297784755398728989975093765081298673179784802547267242178668139867295433637617327804793213923751672102705606076918802133801588084755977528796417658767599220000488427417967887076947813272038965305716074330334138221253760110755651627515908403956472807430526633263623090681484948032790704747679678167015754960387411459036401200170894793757016526745440314723463930161508165063099229550576446110509464312302987971263813366725663704771281226658012756710926025245738123111893562046730211636351140833880775484167653783472655127894528992266899931502252736959476064454540173253697158847103454806096443416304904050679908955867258476854063616974927958054524026288206959106563177834280595774432264279,
  34330565193878234056787037849267112355014852384432839233644744060390641773902559913798098373406906671291199318165087472135541375370298139765964768645437853204836914753341845060988003116689012468177864350519150559956677689508217262857153285354687842387397499543824475550153618261317609584794775906801656810399492998706090502991177063086136965542796342085760063096716477900626362911800181559734289243074805122174536161365030505577624682883585162328551899614710621447171038574636643960455796790146620679355369042372417698146292976741195574971709878639861658431230800605139904143842081156054771063658546193182536774731284899119501073914947743460243106215303105618851899196133233857188794925880873219535806402662782282687279970979119587546326670380870553770197917840425242764858172294483985620540196642122105266027172710746851993168353211186965424795826133052428761273032880089359560881699435813192203845069436199963702251727156942225537414389353173941329845753224334265151271334498474078672390569552910213379900305475763356885108106573521890408073219368521214865185925,
  78326121872847864752569272338877853943228889656369329275166771878894991806443440539253175689293858145310309372088749840197889025137108575104009111737540560540895532539746760469104632460955129789819776107092466014161776062504986061925953724814215748761830766624375985652486993658475017773508677707345473136258813203914100351372047355737669894497389885447863641305473703533530351457018304649218209259048698370823299446954971568218277464551479447673953194622316680585187865162931741009114379815923326818666978026998520928845405466900202526902606549306813826553792695011690848389788031655649261774091138250007723049641312855229916383560547566101186842553930313815548154959941669971781042408830620759115417516468216267733107598681603340104791913590548131616564426832460185531933189865115687142152100535263773732354228933590416175342922999608613856913849890737292753608679280100525381399905483178227199431627946970451038062287300584610669541762835862899776627419977630915280156514769960032749714615429766938480557036619416710145818376941663057059853074529978176383615918,
  10105649203627374453082239744865723483601109527847434282983378824445733544042043774184246806161162187570539069467681374128556904133435467571095097625970952210624934484838013658524054147845717100423383963274028076371432355711085436776881284591946245089833662716083976369727080818607569285338937675057482407245830814385446294643258860500275160885671005741132632340292163010235072487202726639431935171457414997405960578923852471555388808407867170203931450352638631954514142248003919454960493232031015262007876830413606062948741944654134630064207125119719486383032393766936209927116678693356051403616971589454037669565236019169167559999822020366979933619282900153972641903360199555434125620899410431770130844866972774849107124062960849340576715805415455750023129773861662488754157361171361950432551207866443251388538397647516710586882405571984437215723089846452171299912340429936134396121673577068234975348659223189876345825407632610019897990191455164978239476759186487375968728511386139847421155609957360612597964463768551397984153308646973465901740730989689392414178,
  36345147774043667146275463013355082102163257682848988233153596114530125329104906764830061905672919824633183209249782563364191362491169154768613732764825929075517774127152135026699225366224344436776664756233506622684881717770031388073879197485866372323407565693560178382763462406855825508453595357641865010721694094751696704196845956466257102521361732161218437032864907023322989989216022220378918102926026055232913656953242887972611883216424779639366338666310049121221955693577160493614007817139131333062656930051208990224818161450198387383810080927026931138216974985706728890154062203066111781051476637444468090341695800272805758426342298333479553143066045609878952116512888482163300666072375291743938437317353540112263534654226927495418862193319829858188453810863434425067357112029115817197338499045499855988516760513457367311330302527903678586361544970986765935235934362595047633880310032453395017246434096263098999443670825783614224933128081977901106133621876666397700339610646547582905052048216419472500110115699157586975140657401177731811579976557979886340436,
  68174068271218178102227943161289565847982581049597159487032002786553636547176406503779766575972196704042028724498438503022294074945447333733390672120456555470845409965729018175803766287588863630383670848182409582312742210679172863135655721144758713930918487593310195007237910387004562996943432084681432165326227405778546676380907122241170927619553185628815677519392666142210948387394025937002634175383707796448301836675675165518007792851944553213620225082690616637829446490299695998001055503363327079976483820284744654324770064619725807670559556360750241773978955915488604472928734733954063256520940565741513876955616914353979257040538315551057552486297926510446936437454637182710973727441333486781325082539685652114067423927961748682312822837490085441884782025909575125270255101366389392632762693438479480964788165239153974200811096338249418430003434601509486109550681144042028945618821406589151612185661013081959364536795466956778474264264020788047550259966528662926963500144853594225488113638453157187677517610278948947251213392144603608472508373752872111269325,
  8741626623863921573601421161604720230159582943775231181009825281065376630961616332799641733155733928536535732445246523308038776381698542615049662467943534122639544984560795270961548543849457928511060605660077299825143862068444120576139814429051855792712987952326271794684049069973872734597736263156000312090717377675815793654622763032718267906660445404205327992870844776516930461060932323502112427956008770311687828655663291464427409474881820586302690154169749240267239004496108307924694288692263797914209618677048876312895632307937346972722355559674697017162631629054708944900948101121652479229554374477495108994565531136519417152390947697736525050760686740663388577123134626262471933926536126728092149061241966252564050707148776455000998359199597854670827801479162135086654645017438903547711087681600560072635357857464177175479319220248084507024511463370610205589490571050685932816669435038052983863579629746587571113601222327277229585791111060537328360322993104441616655922766604591955293927377662106553722776963550397424730442157698849878721013463583953952113,
  94517012397095488923922618979244689910142509538538171316949291121949007964794962410544726330269571502277051567656978297374124550225899753063122872111582752829553259948862513481590379786967152040476915221495093200194516537549701671893325274421735979614105776115062401000794196608860510583940267001472660402167949542691423461205096161042775784161840461676253963835420787324733036837404859485955781244991976033321819902815896790220953163765400753664901104898199780191998167585448282806223702463477436979212925410509090718480995026069367819410230419935036075277578604830121462311600578704872409541083463054328561194979919757607842767392156994834651256910332153531183884951018779685770953875967412774185316490780069483413919610284814940572290161928497453309367078802251986793931426320436287566755575620294599022269502673696255222264621625758837180918701865178287227994456917723515235435728073488028780947977673125748526870272552634426892313988744642319344068454817541723852181967035858657047305933596243933587685072922303857447481093410336303997756361061550688081709555,
  18824513835349200074229977846895787945930273084344186226702410099436903473567278675212311246688136502557496574655014921543384711413126961085719715289822001321191905504987691097989318554686377421273210215105491280933189340247288584943964470183499057932716600981712106995900350295469865834057701836667110643786592788916137941800375589593526077826344117663824408108992026611366359563701001417647793494252728191154554380920323719368893144471547350394600635992841429208967939337926104164800262367606006954090469717725524240874543638222561079941908816566531348184880030073897909985330317018859019764437061019668950358780791980505743858817395590968542061642293610089989540157212072004497114966869748398304519890777787694699937887218655059726464688875442924674268646617470753280446183860977727745184042771542856115402497863032911530718579393436106392777455236079207123221281041593451069160494163574437069194858933520446267971342483284016269788831996469576507800758513858946160715206950886347494012141137168559793743987189852796219949231124239304104970154552363928124138120,
  15653371998368166935394211964665105973291522806471759362013932705286043480401821640459334329150332854934037914523248559762574655884428845374349845948426503639100221714595429203997862457566078300279594340792026543075295773445464761724176119593609671251733741289393750420943489105690378163250810065474447712067436032174734372839449377691244362941040552366093574579950634293035364624718124157699807336294395174786882933800209533811199575644096131703043286404168665739560644224254359277013716659436903241159036231682017483959857954911457266352435488601970669384760118844311633231643365570831539809169908601970461506908058302796363360566342863807534770280280691738546452038440697330741465181352401913028809730628246581107375114683244464923694364297187071052580228726726234351972911479690340999422330687785375406633609814833474046865007924938785005664332910940734084286068877114982033970480144936294558624194910542846244612038848927053922477814287457205250181643726331862220252631409233710227166185465406450307963045940932787002146578443252499590517326607696871901517804,
  43402831560218790551440266800020865920480135296933767932649237090010968196912636311610247438695739772564909632101572374970357869013442246481416547366193090446818178520397232560203845460808714946199381738216639676951015105688563156584157190734074630156159434324543275217772825546171699985718020959316463573385480241152157680599422563930704423409800007365461612912057851209322418607481434671584488454711576530072602435556376449590631757685898259027152988652375639358092691462397603214261063554020624706092770542843602348885075554261384986263292855896513878417727953534860661453543924871245677176657065913658706265579489097797203408164944897976802397814769389447436148702279079095961098754727791263838218558216563176300186305328768245070526851080666134986898358770485104105969792728789083305167275999667702598541208572751053072505939035434320794272652844246249881057635857680666321591002210465082303150728379109352017934911993030349542737377799764493648571847051897661119647569119547214768989672831192214929769001296320377255436775934162417314057477731321258029310670,
  69048495425182045090860090001693701570596608016227824503790433564537126956911591770813134234087443802593879140580524947066855967113153330371582548122443574123169048143204205406665836807315932962488032084751653271641711604683880703112777411351240956177265285212224631196837703623175431335780921956877899477254157199929999627669332679718443602891298853106486240440785429867217437778353365741865352709862317637265696978146652957473571265321354543400604578663289540595046109057009926802375998325116904036401461243632387925048144006492647117366590599706873673029530122107258273165354661574585131041508108307456237001999915384688312567860635421793641123516272788497592545956078727304561243256273530036479812228434541373743649333290640620409925914416893878712724982844550242233952643189369729008361719987345918315518604025397550184748255121157096748287577091008027447970487299563141446836926691356747155457149396882621402386584906131244234036114522052502709662854949280994585663598421377967702470963994756297476777864972365041918062219431449465012390719724826122222955524,
  59080601272642044162676357738290108305626339552846667003986210125220295257191446805103417321013178440948490393825976627332281040820011636805230726143043337877399962187448041762863744295489601796492963028331346776286467533241544508762344025191689987188828852035513215252236946623348172467964742380829069747251008832047885821292694988903974058479975149028557718156276781509565185933228868549244985539642776422350491318638110756981983967606494927724234166147412695700450894882901857245103022248143995535080498120520856195308192062304634564884144753826637534082598045102484557066692098201387305165505288414639902990535506693866128258831259636792128608442019184702217252429541779965065098565479521186720975671308289482667675223065034759386168765207548620891508560173762351010571155732080569480751836774580024977944806523463650179669295442383815367171516365166668577403427676211134152679756211570565282818270168882444922703515780554868800116904340042228044172067018137441558469256267728745282490912539152211431689241006562285010569108702995560379614039319983472734112551,
  1991875722459437134700027551013419912425358349099412907602725245399757656018591292983350987621887489829643512747917075945658443878561515715337587989051943429321156129913072840381674575284598919544446963002433997743911830448297305190610871540354491003467761602696937691801589654658173398171219474510053817108219204456484949332221375328025425157976681315922837703081246178252364114320304897349653920736185611640938704352782658673978984201937183122664030066057387764897492798745400378775163734282211346571044279486344416361668230521511775389025014817566738566654290061696284562206646261846273973602510412822950643105366816351289210972935177190550273967133880429190486385381611932410105816449406623686256056534487651667592246008079952608906168995208496118514152366037293421272477745096405475501833084067412046371095055262912105602786475870367697401885892059572444073280800822250593670360007849961508489280335760376555815862334453037279269406780730483088482668048125644111533043188776830363260995641541627809408157234385290772479154890167517849851483381462005008448509,
  73318212885656027229472421842049200143381524889374964354233078039064390805317649070030142305796702821346151080004331704838763224882991185981075182772008986689047934185959569775348593482908269232631660084450960352930352767623775583290128767407799765040877493175891747680670172271869656755531502493650807019001240626734863438738876655116997282357664540972959116059445155993813715379112795277674058970451495964503998940968314663950309790304037963740217821327095619324633236781914287420143040619710812430328619252751917221478566287582538348299163806006154067203418532901881120495145828037104012861213805549632706630268442748986486109804589458938912881203383895938527703575131962663994379189365063793353106118188290709438193305196878322730857891246453155916595091098510265473783936453086236207387735051443003201106530764469847398891830237102939440749990655339824805515167028782406637671084663179464657926549453457729990877443807283255991258981780746767328967315379496200229212320334252677057587538607450911410845758096318689566480528691409240658624108513442175444997088,
  72523730120504296294868016819232339902552753628950865554348952984471976231724529677525821685973090249627527723926094678964993777044428863279518393161516917611670011937840350710296105523321695123011153109140925891795587689497048706748565749558947029334890871573536070916442517679542933241208767121892557527985231867315094309564248913908321312354948627700091896306154972358783072783825450301417904704267226853932384704806435159748006282826234275000250294308720935467304545416053620583076958727849480230758634647346163082533833260586341556324024475779918767325544831051497162760835776431995618421041661833534762190182974646019261226862650683018323969109733877576255597175340881168589222976309564493468754675706264064482624705181276440135733726683747015596156779807107474366142419596015390911485667941682383170158717595232246808140788937697345247104461350220150690674943576134792593518716902702656241356419270825249077167130322929655769563032187313161965770108694215020488041299108739637347848944556095100784873720343094763971604622149423009781794339174226142293243577,
  22243398734780223988677787546340060832450513907734369159523774261650723304963150911719663783313814961273788054399409322436828430658123054653408648113073019316560032523648689897479240571849686175373858939887629741135073370187972061572413169268185886092904729688090568729095126682064451181635796243903848611666195518711995962407756545172022641667353794434035317505102046336615520842902544281841077267506655784858245887494745351659944579594408513848646176517748917202404442554615526261391900683445968428006061338877233710777577666388183096865186212575494095462670509233016644359690283149355173382722910279659817372167959512918373749962436171816841756051725377192239306175267715738322896546558296139574111292541824472803440939326973652030665981168796149514061322697267681972280164299605781320483441576607507770058194594858485611260512714572738642268623210849591816738252347261422939681835557716561507085978742370153610573999200391615912237343849940999205000396632662307255141864366431843921546380566478675103608264627907391435767951956517470829581904068429048315031192,
  71173188972544003895483694189710581250251474461253170381294995601227939497850801357446191274844936584893735139914261514574512744458239041509328832465037545875619845820700521450866637623054277080355113802212775672935900209215945552898823374800005281116830714366948236970696839317364567145827458843901336453128599471799169953112184622764224303970144342647801934767325608067810539740430660795046039208793290743900328508201648464183643383786731003838824888766604415034184089663213031289755346605516152689621639790098017495214164174516703823564826501746988637931842163201311039943650692014326905376470313001121291114134337713510688328839178900593074523114421319150153393921242814896884118367050218766170820262487070850102891232701427815143758215036487676252854651759274886088704595981064479115038761605705741229132691803542651322382273651928616368116633318902010201684556237525108375540915524200573111329005618184831331579245448498098206892333045653367440728317189946886566784077241368229712320726103152495444192433131850484983510930223823768000572536763289854967762230,
  19526696574704918224962387970554955816577600057215475597937827580905524746065617586849383460375218030172323176829555960527686490019969549962781938313566418856782067534577006889481598566093877765115551115638295868739491601584631633816627315887812092287868495025466482308023341878236701219995380739657067661172177805605450092192900213595968350237255885623660405379325093919165393219388085371530024150074355660411135017328688759424117172025130433664675335139068268378267080675454845459052196908782110927542555235505094036057987055806622258754412813212598908136516889076980435898096376466934351896337625745543601287648580722052428170083663107328941779725361508526260688128245922059210434939592297372182582348555230386622416745331895670596886784572526854543255920115058796446320368862901710460646790667368159597424444124950567232887925376945238379637723203991543998282919474175219937961932385999231772251860585581104596384605238722573491762026469234827591311653778765765968780633542715391584260638084654648337755937332168946056320828783675880356180863914099009144040103,
  36524154985012487279586994042015480578447823895712369031107191073131865454597375810159924879551945885989435919326196538088580455935807775111338238725290859016884760490485214801086838856954214951585431372918264955703102481113303479876121729340413989655805380888764706131782704042167791327132661879786975507692332614039674276111889579023474143429925092915023725684456505342537901275753099412102728202067896827785817935968598155818646784893135550767768175375386945807622502444097289551571293813302897728924704771970238466301127651837198242846764291127253538302243588402744880855542970496444645842083387688892523067292706089742198390760234167443611824713162374989505959446485197415479653677405551113993403944730051785317246820803049522410420254893287740985036670962151712828686312405133019488379294078153103740078260364487838635868170254817344922157899843378827890141253869151667769725698613236285317752298824083399538979329234851474886305199732562151427638569121649460987139065859638817659595889580304053160199405717759077463584207730920365914189353293303963792272027,
  26363271805535849741172017714275866559065655940211176280275341285547265895263581092694554814375886723197039927737350154651326323572585677812289913721503626685131251975095344649646814215446415675683304662596200922056090050918726851609947661498140269258559418796528018772346003598275404955437789875108018565309363644871681693770318569097519609232188154501567307857527511169481701995941689066976701742517363996842709492170169724105283908963122493971461977828624967264848511222045446543178004848245453408111894151610958601033144560369341568888559900081525707005969478215851819047502000448939160140279963571814421478661361550460289040028340990824077127771174738991915732399870412301001858939216645302176518884612894064972760001512369150337150144967492115944551673233226676135313710985196374841989590801221082640206840497019736048617170144887189073127477443916933141742169257444157968843429819945817914629907797765653159553467374496423755670218339698198827816577100585802068218893056097096959571082704534615951707085811427783076514657918912696697462203073482956272240257,
  26347031387214505157002473442134915147340522859136659806714293012309828514529859499920903835362270032488254828110396746611850296914802220668219277762486855143607160024068965410227885543655103835800414751416457825788766719030911293070852003473359782864343496459614117164922346101556987957673464892757260118631017664061354410851166811193829828654259709881958657609383703752224242224817868158577505410914931225782668954236046086695081838675693829593777415494582848177233141572348459005506870655448342053168902307377047956062353882428909697181163848117908697543505468878224661099570233046703543974886155424995926568027185982415637086868725941689146913607100433942896109287632922366963347977089685277262761545365618515727705521719724044528365467463414972715865391880534938520479825519359408633789627491068079197208552811320250589495375777631728615446677273702716281831859261064277887438763004933989194757583214820189421547195533198577192160934399208872135338352587251864398785205213520202492664833147822925766046090449453991217697528842373154611727198353092989301062722,
  64404283084811673760634873975074617878060730950840338741873598145717704423173278957358079347494140894897040826715285357044036967585966383100342042375852680993726567825506417002889808684128608890066682443597133053870767706955089914287646356748997767778774881578165861315307627800455832577033271118080585552551073103408926981579573226669590600710356694876174112619389266445645414098208624062087792591402475217523588560216220005557862377675952570599680809915324748339512133399871587911136062669764102475246930850695462322134004359861765962300742050299815151437129737949707922994816632495177914021070067805542492638784109500562832706881860013675560991461072916342932659876510293631903871069021543296872016968892979389608531192326361844024202057783439023517141777946178852107583290504983621877870999654220216249570867509987566747914172324487345251552272486724922448056289774697191837847348655296262086323410142700401504223517419206337626860693880220060302117967112795811810119757051311417759803581295948705527493276367239549093390132866278906145789451766343719324490023,
  67355382301964319281649990717566828217841421331765145474054520521608909878877292761400523046527901524542732880408570774714423147995177477513338217066589166491895677250979580157474880632214022709492662153054526043397023613093424296080384926358173136459983754729129079425686669885922637931132522382176421424139120083506384215146929141571464688929021851245994758652115118147225504060631649994621343317908161691119022584033030019303111797550526498524455558419314199541827013320746257079231559607519808151962827724871696568419739091185069965346557894497146281540495930888111971930216233328931951650267548937336657425926281727166377708443108179521312925390567733968885139350064072051986906807707548347009077135768850426330398087847486874132827395855752916628067491356089857941782851001682950272083328351631316732007725539184971874655152826615104123222158678515033027726133555102013539373831766222043997119648909948290836912152876995084830038627216619176012636995469549797219413032222930214659471856205700661114319210618616065185628887134573983159160337347372579703944160,
  68334542967758159012033216590528005664521466555273659652593755772980722372661867938889378210216879006388395861551628235947559786908384880071068274582717171113936910029134183396694153926905019459946435318468533664387994997542702372756121296191701936526124107773239114666863947575925383553064699721837790829263777523162773047772749271045715007612468780677496891765229067783970345857272061525296145511618668305947247821631797867377065316226994196812213537042055557928112636553932084696127087359727596651014590160614966403584968153242416948177347001156208511133949980627975623065462091837686269757846155832914941381278615187484093428756701156069834801695140318477760291318511881664344297064993431715815006266133541274178064324861348446428346117466655427026837242838069960010409346352593954224191253990764867787860278917140947780604001342573136473485101945749721669259004620459333747273101285590767828902540494621236036770412440268561016498257047096143811654076296700025458316621595590894850402648607025269859862678429468886975483989762821293970939090178330870798403792,
  28526737722422617754844519633260151322110599462522137845209417223181613393297922847008382538528508768051864599521581509438269650845281956553989939006381166938706993562541002975247422309290120161472860456812890820943335740316651223380063859798254653082820802367213322867798322730789582765605197483325388888527381529714786284886358494874429447559337934597470292212390177362986294536022438959416502514472955033092664488252292403940591709599067475601658047001856087888412477044082700893218671188530259954577357518739481706444580472874465503326127250367738292321453470011106133916260898309445840006084040463025597281858901072984689130559144372160703980173327605435976317892728887171573806568131648298534152399171467923936555947823833658946560441493827066009355775961693661893384920166745603493652656854671674207615359743919680376776695418159389947627387823206962453008298591420253772496777350392815866089407817840989753488319468403620021918496529489363751748785948120300898666623385304638516905585363508251568361898320317092545151338844413592974401784822155553001280935]

def rows10 : List Nat := [
  59830583612104250372582244898428051134680745479770904312537593627732344859787818790838194713621178251041012044435002740812574997499585785337944726032045637178270830721228524893689106367072565786328625404086488746751388337437245483657646879983033689555202771150894575867250711722701006044672330116087523499643204458297688966743078426852339490002387223161280286173309561749030085948040874214867249618754490418439415680676297134432592776815669648123103685774928851799642953122700859410721975877485297109804092641738699078435419057791720971193726997366581420326846609512284504234917311668532724265129079167471520560769482393137567706059097897270682379163434790239049951040866434097202675851261218300921604396697996257592905201212889496820439832909770055060322863710438447646393499528991737104564733606110596327296523168709019709929898835700940514777655191642415840783797538440400710293848291839948291727238077815712517729614528472762285612262399701591586063112907184992157722903220362790283646355051097045974919800615937564142428481586508926384154040454055054654718366,
  35020404712363250756662885005566980043950063199545223125635311550236954478365248308063548965409276716165492205109750098002150029861245987513532464255562388235063117654593879416352719744210440293015501133381004282169121771415573778427448363834686611842537733141031579638412484173654192050183961242679941005967133120800194998437520342373537669283876368847724471790318849981574986611875844736753940536020562780598930676486102939402810856573387257802578106702560784267297383169827645602432266966546944550425825706876317786037736542159294514617922432077588336722729870514748126720304758790238216352009472602593813109627761781993243906892391491958611216512019531557178741197833124784548667595114991785637053311332564160257237057180475158193423991254296632124295395296415943366154675112988328215836403401385885188461511275491588930519287827261389564384963556526491028607436054765982101475881425329117108743695733015672908033737379226500913297735678407108564853547151195312742684529047334214991264610534134525285406962367677540202499229905255278357225546747814147145628106,
  4425891502196029813914623316128103895756204026735404951910895525909355301519073483959731455624977495081485816975192675704524920964016538923311253760945847507368042843666249436592970860444529102462223380094239478159495711951793991990781605715246483232822357530549376939741384807444195688177933656814251669048125493751854278398432828520470559460977184961906950321415212210426516815738174044728186726026989395251329921816285761055334069807190120247430078096767225951843847968702828110960680609939165720038288799449943097064403933494323746504189621790240848377294477757345962876556260106553985879109224492597583781821740476856404554856022897020215482867734127551255157939711427512092157161322688179535203329507068625965402034658963506215710068538155708818565221231633239839650020972586290435837308480444446911117865122941811904149473971703825533383695486481384471273724611424268441516661944313068186980183071509336422356995578553310072626295946769797970685834388877359382936502276239141199879405357579015118912525938655443115411563291090264259512499136311757075097689,
  19325650337963822451859866243646774635847964494909544984248383967612855750476837261634047324448626125641055711930447141611585400803278621360497200323060960762169526329558958870908389425706129409097044714863494569780336993699778884651867077936109366235329605585746473002707209131951977287249304771467218391985326733066863326817062173742407567767883502077607868303203037175849352029273994044915113024211875905979323852680404265657678496608324495537353787385447690571595980517204850704645415531760474097716318789573949595280759963617515456952821248504928747384397211921595409531383213132210563973299354609052098789882345891060866071775841339076287688398129514106429027497528842766557683580216210915639464649685871915111774404171873438411088643638631588269038143840797117713394929106274428564792847643449607810537255935126804184466576691419625422749587768616628861433383597486248632558108979286962255244064403860388410141233682869324285067495610300359887730113438701547843195897818423302679172841211848088514635484071109071046896415715889256767015718179889206602539911,
  2227313626057975047619547314778836080639841226025471626690315410833196795247825615532124763931203139414474930951910109266920302220261723893894134303708749687012024895796874275907478759843266473637413381597311024024626143305906559259383045049319543182532396963146718428865621081758689088643731922906357205167244049890735909416197344483559674747388844608888073743562261771386390844931593071875055339525168624615123773573078409710270714905231559505944014609270759073568008901927670535389267351142741085424219691792059927028861138117027598563442327826206085645276626522933988106049440056212212317955117037579117718516884219376448430531406733107637041212661149827572450276968303190238224752238178619224189704443271898118551024856774337349491806426789998959074054542008685719761991887817079271743645953952307862975141122147196592022481382744080374121633072742460133093285885867278867598491687742470995643741394577236750173254415687274281487988725484217286502105848713274809949374570119653032926485044793421098607534080490312058791367790144645105663748530810457778317373,
  3206263568954212885491801492808014581938981041599338882869375148120259850529826824956822698861788490425650393937716229244840389120550981960157151145012388880774338696827933879050545641880653784720473641306973295716822939177396080102775824146653184637677225364397651073582342437190920056159354625070086879006882961787972597163210643506870526124271553655871313164273137854429865305998110709587039272781243853821191975620244029503139727585040931407561574296253968737536434447425168761102805496820311247750372013628566666417936982509420053372776441444627859902115033250031198318758539601525760805990626810056275910753055767966566705266440045284776718594385857360554259608053446158768719039444003505458527483971662897510444026361549594819147688646524054767776771230716111459742605305151273816207180602953132516016057194111197421912417574456280377169005670428200079321950188752726294731892383566733570954591840530457669285494662723696751496950729435749993342080762264925831305102691587775253208974440646656484050010858769790018358898855171115314808949602537275060723647,
  42253900484328989251093527336946503852235281305360148236210907420065949040456659893707053146193211854290407667577193339755084873584954138561886598196175291478387552775215215847014790614676085606826014729994312742156968714979185095564919223889875912058230892864786477350534991468340570980974495261826684123170546289384636622658485257239867634584795638770986826968461274383451321343235779095433620575146476330822269016946282228527358125266283526078256783380453426174613017739078400448303226104125515905235394380968068817451043868368694164999500143467711100064434605720950858044811501857702240607146304728620114545900293312767827888677437005606315419427923553319139036885250360440437959908974254874360530086292427095261553712315674834720165443305740607999881221719719636272923332432966270771038150943635799716422191260492837950547502495068854577447054912707168754507299827893639113229095140415062966117139713332861154589997269742360904081449335304492367854093441316640715988659395835586427802091438666825217207126473452426087225665861527391473145183396719582602748302,
  25192898987472356321915391821594418019675543957424288309159945223265542118753715309027369348893581674908887602756434318624419609277572974145052596614998722931982290751361827419679484952976395333947664857431138058788027686997476243032886719624861149914998708631142563170819643182257273949060075811516446197268338390826443084299422518387677613995617977694781335391269236147721560699897064619246170025335043989851688070085315659771541209660465970537384189651070553531275498500809742689509908584410107984915370653771973599201784340660359524095219573897158008031265343637913878686908736843668349655652686590662444016891209919814463291615093934426011321220077014635032805185028013714699463008176703193495402316894554451461470991839362736702748084177601653022612926295788805000870129333507422720075250089328170466230263289604228540526355822973127407002241551272976713188237535882155294085636776257896979558419943704923543195254482827083654256115299736789039673868470753338091751675806532998497890853733679626476672768912955660976040715386612201451779546353336594226491671,
  43125795512703786487391826910350396183078060746664769152873189875961985285549840046012854055951362051363235006782456751688498276834259806183971666586849867989295089504653870873218882093222899734178045677912805587452065493649617733890438303937977501514702892701722863871965093324126417889806452793858415792772193088255200114929196105353771683248065657663790856944594429848176229601882886350699792360322816119456885698955315130014073213618555655517144480433725152015387822066602555008808638134871793605224644365170949384029225926477061234709105299316473517844754411010553100315841541966733285545005632191205644261348747842305715065918577147124416195738567171240387397489297227253070958216774550394764095092043181341560253300207844917667528754489035553506122011127382858789203591422095729479063925684392850278130449344856227640936494653389089107172143566156799491507247681003115083090244196788150926313346401663313569209667766430510623993194130375815901162813963950345444029117895863271787932269197571976364705991542860604985165265465797240814494655236434844649156904,
  82522826369663608766125992397313378676570175138342457820285752092500915775351090168498183123666260510861276453559067074771257084961491877769416121649955115521261200841473307387034217850675976456614467811498054861583171712339597822994478725925829483058312739334324296674194732808893647081209432628745418484201231966149585101563183449605786928380398166802572291961543060489792907208139335862212022772072975029116286845142854767656624629986277774744530935060654380902484848501919809995229320191507255700083333571390928345885784715673978936088505095649193845750637108757525288979279846555676613760169202856281212333682996997988729338419152807348079984492772741242548457060674643525665932687197438840717920618120975868311898078832190220661185698234738053682953144760882002540289576147432359592832889349923095671972896926795581660372244853677058578828047381916535006661026305057937756011982799930224422482918703340882554966281854508240723198004714239335155051519901878283274458421935981483165234869446512114867418665332901721497003586793978389472396869480088213571591505,
  28369290157334843072139804141589531684188061904896651792591918437267336533157752971368376010947235097766003312871094686842522293477110011852216497352233448272098478127546956708602237794171271843888755952613667942300622502711642130068002711165711882133599635885113767744417456716290124173332490952376568994891056613451142116064231156912195859595065814731217426711113791512845439867255387502929822184897297878391529388422812424937382900311564824108442910532414047793095368887224484774757832061798165403109841868688325798047063534537058115249276736138962018255937978495553245515718772745315704575908585341919926601991008457845647114248141646364378749928946060713194886677680515046051078676679684905255265800945584926340002634655905477752729848169514639511682273440666072992287690106348934478555197485935269427606797645514825642483022850628522851726402286655819570113379342875147275320952281791913856132631959663297240225915082948569424421412472736995889038384207897273641194902737373311862367409166229943051586400175052139447329059776214485300221840628133210370533051,
  27315607107999727233854326897310704082186165896117972787826157877645302252671887133674215649886386915455289895729911708625570675037139502274356269234450886203332133007185795651226805851696311076666694473212815803477504429538968009755161342081450870450371033092078060336632797717782493527822820738157140326607313433525809698163145122853927669413349586923939712171088658219151353443566177347403640083300444045825168223614768796143009246404155391844626321035821780617514605883248276229685632848158780046825428359366286748603298054922055536365630219715863732214957825426472580301285800883836815264048475232709976445077425987493759694750265126736091059816912713722374285979039778098947075729500274240024223391411595629334909841343566505052001711670830805363737042426348887093737042861817481847122559627694436338185587131760756280039691960787112250245504315723004246785160732235564454525823206268362514377336405304214297025557081886508766577660648055935779219892082305752439811217373080764180195245783284158440427804638391667074416898922731249387329167727785212996997987,
  11805928953820656632321982358542554729345021243486807916196325209930748992060203870662943387568656083555777365446292655431719502957389812195430536481953161626851499895046242992370408488547398435379975647628336098414451139891417804661714436449631305352345119221964238134435899346284189797648196414340140237034117902807628828811625407214411027416085913406963402437079949684840418744629228470839248325223999637802786865802155630150080582044050311207858659153083728885911760336516904017210810284911461454091279131418137119549111008404607922396219377050563481259264126244946963091456472877755356467749460933482957809065808066235252180810410576148554353708550719938463133560125584014803286205847988037366521039889771775781288720254875869199868398771300810251612900111371838868755078140340904369543896738722189726217347162887402615636210604997753077008107565492141216926990525201179414642784395119852523621156894675591701719927098926497816795997904850011333557793223657442661869466956161150038285056468234184939830813101682673505085508625898948782185570842485306055794928,
  32433442766792018306129191437199225490706476646082912100476211649107836505977685745844925406847173453673436364679442385841154212004832724175341949849746426053974123622708644720408112956859125912071349662847644460851822505980244157644305009756368012832446111746023755486332425436793472656200901932056709498609930523140229796645318792688234217646295704423309300509163231452719262960218659964395606657259763761158368282017559983383553032681100281125430227180108600193980546103311371822579060828730650181329602926684716520661884868636284416942619230184140592881295018250306054325194319513671104542001711259251794167625136989958535035278392977191357123563485516982469108481660508584936089488280547833794826496273113725150703584593109236186722822940671749528973794109466038748176587080846225128761218422446392539186249996707649219205537260588243501647534263928752042929322521888473655059466200652919737474368078127460834853464622140831671303410945004354208727395735173813398262145026816892351913396435433316434826216563670510603063354197273525731658678481424302461811994,
  78709855908529994712462988346811477600657621385216234926751123843955034025566368743946712060074121352769655894452608021453492275556903906428153364090627187977265368790061194934795011116249683226580219462287982154518435589227460919986964847792162204415866304306737295349603794394862981213590800823550749256907042250401149387032444745547797899476784001529848623850797402646391834644570705792834381839973883462147634843976370829017307450013436626312959354407517194020642602410839523810754650828998493818767855333563848478039796320497861728724677114576763769468997848825137257869867256325231034948706111532725281275623644272927499085594404494603553355385824508597874133043675888862371138286151696869231762665236896235522711833742710774039073475335457437037166403999790073330052395153050215430905327845149424836704063118736995997550224504226403508499694725424299099046745224460651031579472608165970019710848429330502840317967504529906300691330362316256183181418943156212547878002269386143641118763066280426240457024337264230367201519631165622686928741903842169557349012,
  25801436426172405822130538452629548656932415745599572765532160581977259702585178510912471245267941558235747067582903056917895789911786603460058545196026180545332089031907809601075571608986929740399655659548447635309868375607708152361008370379862657066657078985065710541072856677971450721741813523166751004307052154415284918663853012557278990409668800215348068129703497305376121258801944995824905905675375305189115002507283036894646956953459606293770688303661923516415508237730846175777152115587134177637427461885483296583371219005044146310691054330919464444466321998879070375660847191364365051711680423820471073246774386772520822536679516957382290825160613604443580211793603963367328025163482529039771291982353373583646229129215788769505040721780369699618305169532252691952271619043895305731790733621413630683743652459172767202310628623593809084942799010539377950277044627834137687796967003503680947215753354359297677078350787315254679392820294028357508348054988462165322194628037353608664765964602236868982444305293020315841381912947851344791076230754547083857933,
  16996148523949205417545849428986386812158468929965862315452760422812662176472595779919083482628270441871971841183319704497876776563524412355483297372089028316754784868136491338259641103318940773528595759636090325145677020492870620512362733181541798128663351260077053174315407450359236385187654832746952275997580180762266226650494683867583207838590299339051546829706235307312840275994297914350220696058989218888155050024359062843774196290997254602920515018975543483467367646736215459971695371554699535463450583974285774574223700661787223815472654498950145997055293199335034901622932656568665999241640280801426028306076017448874878894631921644044477382653277249001242598609176912441950964867876490868183809733832500674776633311324570782869504879071054560423357496312639647067021482040559595962014015709382033110107623261978190429216986631498112162276877402818629993060135554524119019322149845843301096863506121809386424356758189900845114770512361930400396018092282850597988524147967974526276399811819775610115913509307808446033069121228622071902770204593165350991773,
  44485712949859813124232671517752538520907301774257764776945840754913514229014808833681598246550144470264949053732367113233488710757748543125041471995794468086906662907511891767797811500582824372388230658157034678447318535682805739518189866611878504147047058884929347854030706652886263993219161183027234481299399360471140470901743493936026960462079209604768567717511098123467206502999244264738129955962247322231341547780820691349051532278660180962819694915367925496369475932430897179869510779553840985588397399594658776336556564165895159080463746547016958145986255112624354368130580148858737825023068238219331986321631364911844596662715040281646272384352404576577190979914177766732650463527821355722662183346866440438590786146564679467242929456906690070246348791718899603582541026486908826254067654238289806441601676248643339508682709702552689258437243343483638787113398475059434686174575681380165666934176904441641623593595416388245938426088967323736924572107088441976317446958184665232445477416160297718006083840858130360462699489771318219493849112717211019103099,
  7903082073798684916654940128704876297156500375003282913066237204269126816836454496668882159620855786245030055814480849438100939911860719120441233768695072961280708316352945117360012724390991446726192012855653841979311135572466666227376640336137378362310906472439949267203395460099655420133007374753936023613152991318026046733476406098345528290369415380137348718438155167367673030651041807316463826641722962573838915677230493144545307042412808087796402280800700530249793926961946421950572256752030496598173141602448616887723961056060389463301554347191524171443317230703152571450568529078958321195464316264795081923041923172139653488863560765562699596236810534518910741276297561838336577150573151665289655478228547847973918112664927058496787960289852164501284033573552781260836593113932082856827196331781718915076360705532089446917465970868219271752016574067676735221054954548696585596270970037746850728011089409204634027831505886295533256251208589526137834841555194779689524354159949624362792569045456860321868130605850090586899292358153689394439114270681380767752,
  8483008403022674933876996487389486338192718547954861403613515674379241414418072309175663413060833906464467731045371772244604046317761588018754564732643450822672444809503223641407493261415823032533460561232851422163094584891955039658325852437436735202841700410761197958532827477002597341115719084468893210210256960703965294220714591196026187195875323319852367816409875709896364820778032580875913613064906185499962402436578070397852177249489727318701472242173953776230394824158788405122712200686877958316568801318311076702912737331422436088233522949967693290468976863469502985633251275135148959632728743467276362622912261913425970897240227947704307792449874812886588505220397258738173679330634010059799790588440704861653763557345502950026417664547976841317336895384610089422354267585704977746900029227736198372148907294867819946297517602653205808064668620804025224754565506331694868921699692019485110319873550833921399590839914919149796750801149021424193596846646823659263740085576346807930711887086075276674671466665653793626179908714077532986586064595461558086710,
  58092888155940041679639124502167098464807441128261556615169481967364860654635780082366785714564773364540726615488745891767055733715486028475032883183201377133103625346483229790572155414352914493318094466833748821846767022977561212717143776772963887446648432685345250036199420882323477983892396817444392822658315338504605746819339659513949412207947159635461899824866193248729718973776506453671820784930326051511213102993132198470144947058832769892535871564267315464732763431582428542934761834029998720069681832979570136221415231036582859320393009079549651699151694357894196009783759873571070721500806777614833174962003996259573804490625530366435344637538740474141805944661258283442781915859737066125761064288154172295179015819104688118176873967362928020265647450773893932889634667528250496248537192102612300614439254902617772848360843871507713176322670182635093643926532110432624617388295232236451723576948848133116294475974763103626764521267406295197378310112575135658123065457966304637070786438081294116228907586042618339296560665678145851494590195209997946882769,
  40807340720109189136293599177808789577189827546683305273380574111643793479269660569701793961245520218766070044070871776245395933538851365245754254998022015756728190798919739431950164759892981146484369876469306873280815930947510531322621557401710254540172541071498451078403248450184078775678623098205074079604831006009911214991715384565156839369262948617482515618095846206380243254063944834732484037446466757270805945005996890164861180400297895174308401280415381589791268419869493694076285704600493881723961915142910152080558501034125290068719486440773699881827420366211684599237944868694345959283291022163340146327572990466878059205408129321499837317500292296100284703896730260291699161247878530199584408414708201344975316440700284499140237862713816609706489148191363432068317843256675199366275527900973923612241748599727241680471239926651588175934648471178309533634861825441237118655443117152599831992846796132557461037410882977668725177306116669828335472670214232066458789821324476392412793287491249072592245789916409614625633047042676550913711685479931925563424,
  79167733369997458557699731516415355458997085195371276362504040033257040545822271162170600234538895165580509881462760352558518485082439588682597331011245847639975221897368755295567050244078041518221128825202128040735273631884823756725875599772679743189065476538464044915514609627313130951463007758925705209923835718542294458077533292844373823413007567522435329261884319359979582598251401531595630449139999167749004788422117986129015517708117103373400764409291831094511792272995539215351492898411620008985477463414885797842344169706775827258805300863637712070272932036505264634279182609916085625415522305498745096530753956335064613681019822034749622292850088616977727979625496581352397297240367358954103147641372440160965605642570930346079904973957233459256289574649278899090121289302759264623478095995606044267603907805852649703530830265669207302751736838820895173765078637629899679852499450985847225769955710281374212476448462397713262192105029466625809960429310712708560553806844495480894966497204232067851818710378638583964189641995223572217180715732296829253013,
  56351950397967062639308682366234814653743628205530258839847126073834656114293214702760313148922712561606472202422613360573881709327619648519250125082526792305306425221870649545268993504603090335105188543843759041452828107954753143736914975264055570789892621628718262675891265930193395507212474675634057080929559780831538114437564441518321983602308409690769526784501232757075483208784920991613415952862465745219589369037257594901235046991054741957344254796515303423623426170070329638464578307127658295975422903051727663024292276176062241059614793909675367660649665352501006874858748441079656595214522879940049319629428866953752081544092764194617197703139840586042421060276247159126532095436978754563245215793650492886110486940079970540289996706864336688087880405075507666494761462618421738706729177348711734236545207628094803486888831982328628624903424849436925278851910105321234244337540712815673476646311035871431428021837186195497806110051148067591852409296751957566049638221323708850319145929322196090101884013300733843551824689931117607710176123085293779817845,
  31535769793519579533421677672733161115737058568365211592485800961822863964605214845159757262482422647857520922147332885384875312597152151717805107617690517340188191535929715383788086848795945531247591700080801642282713728778161196858708982081615959861372779655617876359294205840473215204695973815014481772141950828780239611417754091085792730084904128209113043449272666980436517557159218010896916903055708947057349149559578488266438891032297484069555664133479539721031857916126616926923153654899881099475806575426440349585317843405614744715926685216851846522011037528624521559595387339886351080924540657196897121088462146365215784915779323611864343727667696293505519986971286046091922323996584000033876582244977463945012951504469215417503155664110839172224396769462077228801255830037097849082394930367627661421532570562120974882057098102222425016668065770026575321519880542936121807085041432497971294299968966767351429655529022201034323026775031941539256686123009346817314163735246509686761727522000528248197864829777135008001662819619894980776891543378659174853723,
  64181160202226259778396142092483186312840956267178264099900472763720564238753542283480326720756754528488458416061289565926974138431390612063987694913430018835867379240631272945552729174275226458286825250511132104051670166603758055977460671608502289072011642047462780899992030268470360240958803388083827571362407976943289875595959593370377024147671829993284509609484247353773300303170189689578557187837822169481093045775683648325215066878092807274164359055850601263066188394189656130636965986240628242144573898073596522027512284825696810812931666088568288197971787971313543812517046957382770179055965334818398623089157392353318499013528937283061643786671902935734260923364039877713500480469484408537966710828598615915179296648854272021575908178757316117612482643072985816047651379035507110080237760625955949363128328980904871418510605971720831121199051335379753716858609763484914578295388355112777606596348054022607332107414570514737548284369943590969535861104038814471444963206636395942003891392409250151108833402516805164042421987962418472670037758793158692553939,
  88253614211018282904378191487129127830935697393315244383976079996752994788841341791472743201559408201750386053603470358944844651466727890005476713026539230961436703978555509098275987278123658634446057712755801715499388412644047621757033917964825524582531271698193585237822192285466922056869717209409266081516548366100935380982874766236047820867219027224112711712535034065025449660509735221472501521080703807246184478798779295783765134230960884813705321969747687668816699799629526503697479490469829174354407601160382137899862500179948035723956404567156253571285961861856706098715350946811769908589492186570714761371798246742075631149407995985103751124797192529736630371030444956869657344451757540072869413894554967788560872930618653605792942911860746448487071696305987384550721724001167917066818857730620522320893742275158175910830012320943541897342867908931023207549931139451821858922680825658461859665001885173672161959706111334546354838835249183548735321734542230117088713660925921560152205198015721606305784041738618888340355288817721369894209678662846916284034,
  71987064609786441240044989507496476312974882767666295303516846149946898512793920516380733204140079143538245950672868527218187950147468307582167470726435124646993664428230337893440491414422321175777861193712255620476319161103568768789079520869395089205635087936877404673797282445860169461591761572930790247699323561937239225814438462353362443200896062016972573322972391784971387414540858473797103098573108207191685685937147099358468444919930842227692912073297162808571369666582376990373222224806905034876159249457333010891869342173578909319087177973690506952278087761461343275443304732750338748673556316128830336241575463034993997640295651337188845575385261172696331065770614253280385648980266182497284797931423286910397162634289499890395833209152380657921382094136203720547857392105230674582908434466873514724999877550056733707347520829748515473196144333440248437196960383071875881660042962074135392361040663442862077897452872141255457874979960856441207950686194047499005412418846298502952624857862925714006366681582598640924088280060511999039526247725457108281287,
  91160122933416793683477540561475824790209706191733350041875367604409970619412857170357375005840514459984531144776122920283110818719492678156321453577443934983913521411292199815878943012939534333797596845477647708543595102542836169828270767195659827538659987308677752951512270155589055315037692524573791074142268847649822433392239978798228017427137061238622525596158503921946187285903490130199363479878145593820170541420172678864073133873489370694983959594617736030846610545841716934006010458606602561330400704211714170790495921038938472040211546136163107287198677150087152490059303882719240057315505696081833200192030182900140236052466923069687736926668911252730317196979887362662144208438934919279816406673714217528283511079889150139230588055208931568441808217948796722823841411712960162400729516627647442301005210768372712609531435357692554020782369704385578024956788680539413879870458432970833817375086372864694299973837821521771098694649316057762732266960873267340239583705197668182246891442329742066887782780130012852418516325275078878629783765141050399079611,
  78751531501652500001248381267084702362638678877169450241274331684694251450884749128840793079426217930635963369385687615149033573225038968373404191009408256158950229978784508481338837595176769726822183970050824891601669201387943580904551934366619848397083960929518098933992585082137209191207683456217713651736223798072663139111236192366921279725332727869791855835824235008209195873666803109195798332931253707676721270918584786701041645582681039970787107380261636367077452637399099152604261509931877828004811034518137976035308975461864254042374110905716386636395283069709654950438863948909226533098366839022171228617031870415017040858132715083002153013878202194772511138828343302579040364336538942434009403655679893260818735454177961633864157257077367542848906497219859283332801652600705493729285383522601287938099110921101633323281442167512956946732812766531981035172072624242687011469787832739364339275645647753255158075131461254786115206891352183720302743621706856814569458215375286689179820402234532464112547329732517111683204868708669358957509810328246511381650,
  61088709588705219626918073970395290456157135850994472318475843741595376342093680098307522363973286375887527135459754477242602318879628776382306542133808637962256316030460542336725886870726842763880498983185518908306724125062831741511158254262347331465916046023989926975996426569207802499656766712145107089305255158851242712823521878398930475233167657331541783424686634937213180171235312199011409126378649202986248538898488447902880038770554593310473209919074907876269457954961962866291012533424458968426554482912371391742877351827094267733515881838223985942406221981101921465509611553228565859596420746159541840803487416242296567349200968729816067275465169815264722405800236525511414972934312788931145404139326190665234841076426854547894602841282955778406198384205318123350466619551849441717744345615220501611119674666027240845199395676351909211233829705683215678536267742133881414853587520833420844444924990752654743611189123484138745724210203164261754108238423387986118243653658632211919720804022602296797023295646323919414062400989432491593462807641804027346941,
  2121002100038853585070425558011478145004232747312996563083940531862415745973550236724626609607603621928339799532628415127585265996070670086997967145770814154909707545493635547251650419191981755645103135320870066344880229745178612437801264625250269703717494883942997924082422828884219571472384199759306019356744020049329249227390601629590390627350419362289386985587396438474804140501329274210878758372371017862345090143362153921285189278600247906904167232550679540095334113432355109261085822697366236774713773475186265743284360754556712986881351131950419147179035563367792699438194043867180426810250574884118901922908891579185294235653940674399642667018676625170148783127026118667283700281977750215858507187403989345700139340457914113038894724433627826822086031951658644513479154297221074701573699555742381376505994286891417412928305074006816575605488268860785410252984387274572141381200013715448051063762334575396960481236001821179361586443380129259266059091945922209716276448376811694253809423295180296147204862343042812488557921128765332661861575588623758914976,
  63597626267131799928798557822795337077674467138908978885412671161011247795695500189357164451184004457780510823421804993390074253440277181200569962430152165566760502533823591485649056944811176341769061394207909824847240797325284900547930247712269438716253057472073984315694545382851623155605136124793025449425328666074627545788944831987227570056524878790558214479186696645176144351412096049385629854126410230785216115728920214921070850079475490800295116604458880589627968567103248424566757150950873835203352566021778049594840391555530254651465486609130870523885963157626093515858260684817338464802436602510194797845972006255259480054378503387864007598345596838608448139792387749803762474195892654258073689621009705581297807108937900248253386189401735774783786902623352770552011595680056266230703104197202974731591474126394939568840298217640021551110770793335803074343332097195654762127380626121955665069780027130913377762345332509240682555059906649077875175386622850383985012659320872352705914091541044092508261587832176587108523485747967087160972665785581804208318,
  41775948267896246952461057895777769165773518240885406669215677836887336677654643791115280956882215597947269807669693264194908868163559889248536629465297775782177872591122809993476143303682840096060594855843831815856284580189608111149015655167291141907531153700555065683798975943508872708245314337040092282183492042853763974561149114361886050572257998088639667730082590046399171755564349649244995532565343504272931928474025616036186141187864372287721815670986470664142762904247873817283810106065366278235936287324015637148524877171657250304835878509508672595878486177597710076438291347644869602742696829570237925646328424092565139226279215194268869786622297767232782862323428440454242948464020533917662417742104623862435253571245582799484088213514922196277675138983992345525096308332967972571007464745615777115619513838554683801716739295903482685648588555503017003456131273811445516204814299295780305372205867186303226478634631272462331227983296290806951712247601845004082131754733316806733220040447755236990560284581889084772786354378748266644300997067351571384046,
  24610474020146352886363664543505608717849905327637192574606724423517435028172147345798240684081850689491532553320317616579234939005085101254864620207888986996230288130542424230457942726301274554491629099205677008170406779037792257749345819058148862688883721513957054710900028839160040873311174698766734346901574228839870057765718746619997630402868171820434414543086063671428337717717861214365279564512662920527875035692788734770916031960016089458149508076443468326817611556387717017069611735779401272923399738377506673501566495744557602546562135607273956945673682196253870047672690407481192776534284776315796486882508315861961491805694818348758664924326276833255766614687449054024866182177359728980193391310486293444573461902254737211650877691406083378720566433354107677367386269435875247792631999103429316639902060797788321643539837653642225973510476126655057755196615133814722785683561020471896982941295367776482823433058257465820111403474139476383338288139913401475790898350420125447852898292762965360400804833062325779554115998681290634903050202695735813896460,
  43783876530855497788229934042740097725863035199652678871791061488202930602970487361450957765688557701720581709911689242004041395665684669607316788556372963452898639361375153081012606610692154204048235533067171752475900749946206971350198711718228377648066418396287603189620755061636411328190097900041797377046716914791209650933753445156136245551285381694715886028992539695409067382820599440709640662300701325852152873616597022709368023676112554059418959997070176530798303976213708601687760352967071461198848769153425903835154301596838922292932555828223214062636673324079879927860181153044029411432158033545840039784711310156522573998320711742783509599960465897947188209345453248035728595619281816253217382155713450308751665258967449032774544870619210956577743068186452091473979185550437299292834128116189021571710235580738101864383054264980693003795797956513928792571600600889824387429009007597791204932707565447378998817064920997459068605541011609497630616849158688307730205183776443211112250772250962081687678647800692183124960766311137403786976688312423289280062,
  44191764530109692585015637001935001609692575254098146585034452216304537574457775078223368192847784891389330279580163466295944292291147692294771761367662793630898106016204472698960719594149894615221928758588171362724383730495447738759433174828769620050245450730255780800938739768010584624279759233361163314839824082255539410993331794343866384193072825100899574282024506740247271496283129259458238752938221610325805171860026119648629989494718324414527548893404712593033188748832289471698433594643688102609382099315974236265986983997008158734796917613435793790947658045866677570212254525709901879945031976781187442296803127240011666176378469533554320283643860289746442020710915523402478816412596672134818518341752578751962320757673386167921919400370600215690093188711298555396914717063425540082407612725242630056119699720743195258356995584513207381788158904296557760841438240940161197723664561650476039683969867422344855115567220265835145850359200385535412995078603726142304856578621031822510193219334612232119464136120028812159773633256279227002080006624932893476904,
  23142138578866603160621176543758537134694693302094536814470441593868981220112643007556942061774027455949595733320109494741384429596609611224419245346708088546557764406176274545719140990651525039600060111873730412184289331617030902501555825425118996388525512594921672330011222969133691444976703322183113549831963899844672579451405506607735173061289019508943493450622664297723222819278481501282617890444801224320457817395475041946322549290061415756758829029645681041166828458009298190285497230522681273842052805080600337844192123482480659961983600253206072020635222020745888379432057860622596294584443696140087133345540176207770189363534099673244562607747983473952810946740115268830361965197066511276315046224875229603006482990427959135785498246838992880327367567191769876072565413866378891428962918349089005610204725402899896841740942078340058963566922366614493646838971294679653721459093312056623200168167967752234449244041077474506511756465382818836096297983814918036892696819535636695565675934135007800620937061643821982849291860509090105349175210137476172025856,
  19933762420555436507656537654098086562702834349784768200211135537253542412715312165481232616936308040089111352072961414933973817965122523221287079169560519106365401269876741495808940093796960396371556905723940780049870363231575692809645646411141928854729770647513229041835324484986598777833875704660154279674551872795581789746732823143022592793596197496455868020088701823485545589626644107871420842767813584862319367457376287002549929271966934857225472676493720956990595930023220583650273024148336141844964720768691082676980131727311772682954698382233705910221335849651280475184523821152816141360760356606666311968546440038790889362521539298997966022070036298101726014355060406682941410010984711727360293694735984194536014441521065359447850289789661574975029009829891898067500390618350053046959003500120497458642921838178216605526282905346967781285393337293335335627966916520020303385566541041032559344997425010346515149317875230221799588420979947462573559404691590791629356202778874053660655572066562874301653440566958942339662209861863621518183662662073849957648,
  93929169972256061546841945800867922019878325436472439899932649232061501785373476111151492920106749299117134046477968051746985002767614684449155062490987819358767459005152302989721711376056495566432499000787123190076162594934153043831321318890243368898476677333244963222021025784884228953308210748119098739323803775160860459965685116807314237730983177143263691075229024752484980662217064152248738252619589179739174118289950895036569634882160843328990123512125467173385847253472524443496537661224677402172926345622692639121863322427756506077234500753551429935530677645391136959253099128863339086151350903108960993995687995183547544177519527622938720730856647006124236563649877026368118556865507683534242424290875734365429268086205002037131107915766019720946706074360031637187925091182473716115288520972517708308566275887772814691994941056833011254379600982330667419795412005531863591373938858104550490546489356131434691797997195908463259066377658557900034022787699438092127082801926325566435488087166705819652925551033209613107011008330379150684297149074545851670812,
  3052972260480083129469755064798035344720070800553647406814674020052159234473282179022413087964456949046462218621409507851517373592160784880660102943340210064688024918931574003291527385754278669739360881707850477382916979765814791572050262214698478665312075930660135314277156192494412527223385973779847659319201028806368161542997066065467378751192873748579917717125258441660729212937071795690778649048419236725642025481650609798693394465823812863273147077421913298500534398236608214538386850302783551204284439319298727508332703876340566671540239953894198586960689334286551935258811342411145859960219032005076961600778259963336558187149096865548351349463003868813994303780241442205898867814649238417012842873613909820335720656805750126001889476988071864797135933474628373988241099394875933028981587697274634146917462813365042570029818776406740858921022851633761695850356304419197838556647520511197803379757691431789031505258847065670263914445013841674924682596718069761034747910724666887240316801858096517174403900097179969777810408334946202117355147556979092701022,
  40389570744286359594235107590408882851073864821643198580794951410502248622838413936883707445847955188155397953468606315689033603179357579952583991742176905134376307849159502832464335141091764072725561467023714950921015848925656479905273076075873082324104460432388076196033682298067416815565424720627902316511198673583809131485618249028444758796777727049246364346595456741643147204009255576499720011597971337241201551236509482010160743851729744409908589193118420364047039217693446772262540537711045121463221233747762909022737294085894540797716308857875367015993247118078181596694233065725445445868135401682271521621967285308430413525915051063011741817125119172795068923184992293127156057453008715035211563137383226297731808481753298397484028618690765311881078168742092330633485588684430436414287650705364306450728947048518266186083708786621711562781022643242846539089864855590014024267780250561286423573922201944749669696316074573608063637679527865338588978654620422784624557185618808306518391896706370159498793456023605819436052547048028725598082726522277870002197,
  19696035909986596497841770812127341463557688360085894401902502793332698383192931730575865294454212494471159356606799837759257438088868397528932929618985965348977387754180445629978086982819917509637949679399283575856066240975048959751541534650419239260641451073950155568810807505511389575488597915018598376119471679086464218700156882997462168840723586092314154418712000235307132104804941612969671806406534569262488318121289486414623835237263714163905438437795622729569619465518505676250474592135024637390711317364944814028702743812838801434959321569989442202356240107813472944880780926283573914716650507620953154244249370676993966393958140038356968746289722104539153635871465598859290932477996008810287757589829615045606168441814186445979869306587687748288674074216086008883427670396775265843933546698458723530635453526252305870185787909861094493838181002960982744431069721174140235672364952651954454462759169997787332024695894757226019296541482637652010170260110777927465533898395248682278166786482030272992607891607283706367225391172430382409538972221092080231274,
  29986678383789194386304764785429983591432307870528879982014457254703034202220605905428950778721981675183770945992740489753868131043551890803759734338480648571711911405447862666034908571687288260625624846670540736402107151243967197113846855413757688099290289888750657158355448639302336410852815408168724370872349689295158755092958163357643942209366241556466066123325025526680918569674294745111563659767614614408466353636552170707735380722330599946547530832995265764740583029188438021078688208167627487963603144262304096437871250660804671705728468313928306456838026736438285811005120824375268372756548260394220797843806431050768809806613990737870219884572004137323131812358081228448879617493683060475243669433356070334043702168945621532769226564214133792419393968593189986216006392988218729010757998504096063082873159154692936415771723651181791109956516884994266850083619659901011588672675449680223038676861163076238423230439687331060172619526416734302137440243533847384823418412287625484038360042204604366301039669342636345333593110364856363257177378125807472276511,
  58515965508159716534897934918625883284154618632077453481244926433044465947337322495022431439612334385051540800067451295711889290093032302859540837515750652083071124578215226108539508933897649642345671282782932530067080803951968037637988077340052533570563416595686978645985116334040975294026740815461041182065391532342294904706698412518583606450309034777867414286186381666623534634012720700414201327376617905082274408400762849865185851864562026414810642584162729627320661387398556116117331010520978007420695866663421129490585272161984899993055716191027082547617067831544971606512327772473841068821886162397929977722528659335594456366911991917131359404532702853443764681092616813540479900878417875302729191181930078990330226263062465138840200103298956374785882222968974466762619644163973720572359885737604195261432358455426057140767481042911918130585244259460457760637281573414854877152477410073301841176281788314075512313105097537038208157134514873379446354498866006131565559332517686201430637719192908044422605375375625083247918120724106342887098704446661043200918,
  55465455112431399084257721976064306474260962572367950547187344740818985633199309289486748004976809314164130817613647638662035527809790246930174781241260080910342808929783526495050147181689824164408302697926171343533172914107222322548518146465731212494381529975925117180120425864820643966972475836981915466640376990288658372165612138933978178633613909527072319360457953093858465818902303887197664824693330465190345302954250631011191095404663931061394503230906021984273163974022220245113347559542194335805925533968052917118119063961438265986448343577898370978814281316590749542239998140930795109953757918271919161714627538203813617893847909043225855552725666733452181459106971099070157136723366038675255506282715190532826245509499373612592022984634908314872119933694994108492530274846471716678246143766171499432116259344782503266914617176671984093614647060835288347825482348909322418076755475155501210975497020935432219472739538195388602772511727139532924830503697414219306745331995669724270557705947652044820885444564287592740909692989666580263507688049237418162344,
  12520987449200639787288179890556446282409811218599633078692781508787623111091901193173669024409638904030632893128729491541813682199216460070635181403087356092351343045977020682237891896807719686016141374279782362040939240849868935579118279557516177141800498063589557622638481511393385654127522931139616903411482338526122911303986431198038116928636765531466182411540636493035220572767222017878770709279590015304217614720029537758586675886535764680950493626720717232533762206316174181906293010652202986153832451128945033480675309851197331073552153215776924347477550188234097301453072892152981364542719998590037048078154851605108483145775366232187986451317942904031934112558460902068876201703338971153070813272813861617907340922644644325958421340101308185609502899024072865732750980457620150352532398095732900878291023808596925035294783867698797934266403908088065834034334626358602985413633426572505279107510732313381067129161822302203374547914404161583160394565632562874850709157134606531905211197079910475414011154108299664785485290113770777721641890723545580167757,
  97063800259830261224874557415939360216968503855806160590650148538282393513217855528640371055414340104103273281473579512719451893222948169070407081314644018152101661758079519771044430984601268014974883228974603195582208470502111697171379643096673764493110139920106461462193198602575117189027244940647588352476752055609520634940517325272662602923142370020705207032727346023296543363385898141097281684737755275876158441981618622625141593108263460431564111562508469666919616771620152330149404673553886261112558506468858942696781701239410408634741231514780219722821680892222989373080741685677313967988004520455638856626994884620751157911128808473428191952361466944870765461881556972405994215737783888685204367835248958612115031653011393093089466361158815707827801696706565104502387721251822956595149802935852576832557499454139169893819916513779816164246116346430430178410135357084043458507440123880079417876120725977556323846580700071742447201974084313635014968038185480787746822764107746916652135145116698940922545557251638158054544079437707999246283783460010536214077,
  39272387177568831644886172076861824493405707524616741409040776958146512452703259809819297414798545472238593990158397924195171209424403734799244796339234890533739667700491851538129733255143812224593160291419902866173496435439292778861330247860161916172326659772013411775966410308090591702824453308248140758232888141005389570537478011140257190908818562593810851267015218472074456515847174735165490542537147259510094694947511823951134313060065662597940813936980809065824101152775395466634755708457566258789649560812931484052176637560426638881831184014148182263133312354460049537204056639838160733322957004230514457860183128690926529676938061315193205980314920139309456993156085283269505268882798555026164631022649121812093415660423318418122927753678881050877423532522551249592100637837771075230923805245375605513882662261646011738111877990938625653868760938608513038781286267892945562209973676551975876565764336551829716649359637567214476044911134930980810316872054729234454684998918919651159637657662434185849837314945829073552362683003905450789109864531576128217556,
  65366417194576630975405663378653695865311490584243079826213918244944968931808583584622995276591227450991263344035558789160791674588717587534295100877903312970294723775554721742072202790584188138062293092334118955170348736155257113023428756094222864623301487474216591441439347151757141465117721151725334655877148678584431011472028527874646940839585720461603951894318302145278603901573435928596850850602679545818372149342613884708301909651324434547870875995154067147648382863919635412783903648945979073436654198324298485044664490498519198170252504149620127239613998692061348139686078204458358968135535592341682046284067036001535968354957978646570385694313496334008292201783021171465717820343465143537713569657835852550079150535832721963398050182612781916115793833969684613773398123702549877271044007041671252419928809818135234268499807576408011320355966898554729432130724140182316407821455873492983087276372795329747524985932837323610376113783945817446086386821141807694552049850584071755237627130312123300560261921966108833513445017259023244703731078493106366162430,
  56141772356089190757759624144608588269345632445320668125519349569237299480085287862508811748709684374499422530883628126223614983632577865735309146600399369116934431328480367469652864290750055131484476254962383031599697821890699359196753258047597964063965757176531148880853492409427946083678605402912274782745014483728415236610831781096197661892402929755790858109055817700507541949081778743209459879453620585114298914247900116111204706243238859196495937171339876204725923659236430088295115254502069180554460827022927769659135998798043415194629943330455208677755712839839079125183101110883607441919963282508020116817080312830826415156383002089170452723759566617853018126020204007932921907590624754124173304767649723369698145909950493653397218341617381467600032865860434739050651495330756293719368868595827975642942402604527756226654765502723022122815494604632024378290946819225990820407852934660437607022039627427808793727434292053065653334223480563569129111523053967905512431658636582279251737869387003540627113106339825650062483144002682375095099552519449865882465,
  55408356418884829725881126238105449401901221011293560669116057494622731092119136905653284541287621160135340397831352437183925861436429980512368421582515270186441008754484889820880548405493951090921811405095899894818896529333925423576963115191017513000521222727464782175211305349141263091415481062938757076567372897247468313321850649869362652765826373123960229707594879302822280769647712486184280605076780035570895916198041784347186253142986052207654480261954205167143955962435916946031030188252614681712871922817151698476209982250392498125372116295124684405275033775757162599544707056288068570547708424720662689657867701946164445254379189209778944000633632974034229498059214365185523167830554490434635837445299804901379085409388291832009213588885440657090835595647053476427101064473890730911090337128133567183794808517131930613671125475311186760804805419727159286597928465148800498102298261104278077874100039001536306127867185064593407335576219695740174363895318444094104637979910568040734742213650819456582638471702967448926318244348320848361946655413765253816409,
  94891726192945146549288305760416467233108550726758843251408144383369593366884813338925077582220648695022038627735737227169676796818089931336664877566404273807299507913466519603860714987799635359816483546663871446538354127443661375516693026438963278528574896024371171827183092696961336228923138200513111242323190542865408170646724292298789981703318885985131587296971440851976084252283744262139123070473724949091419686054315500027103405556426480600991935958587827826091929002699391545555217988077287562804118818782874711041337833966617505924024593295622632488620688057666175959763020194220794666040584481042981992647547858232795454424515917400643387660893023195772606296183779849858727155904078424132413920051973030742999154676458235563838041013945281517782343865583957037231929882884620168870044417292457008445099132198688194888107910643964505419363479410660980567105562157040814623156293278441753943916420732195100525062582860816568531018699481435831240395591100537476411411148683663784243646801518212177001529263204162998322922905053728240561529088509656643955325,
  39164118134907551107183266111535340668712006345118841490409464806134507305574502215040851466723025516875114024175193615531615667708080693044248225254284313675548377823818668901331774438757755683261711854336158898072416369188935913950118092866408563684475189271196021173267575634737906418481885352207338979483070038781330565153286648418773696387291760308156890758976099915015216113854068208690674523442523191549511312098424329137348065576902181777931843655573341641484508840141651698963006598915646606629474433479037133379965558828856254238459452271110847057476780991692102134025276784374400930263788557515019795342014255692295302281433230855877866739184347608765306127624869755861605311819261684427893380605547515328483943203750914048174965293474475888305728757980567394110093749449465019340884581371383797200181915152809343570820853506964775849285132632328568181916703380468650302604534048827907082266770559565872856159897030038592866637382929247874125784962061708611512847060512712313822155195354021175739468725905067687642409295798716273007399574952697773328583,
  55044988917419865709837159794706282047925318908866804380746566348548118085793045975688383760760345557771265820309495984000637232007988133958614347841561478811040581477128961836945767010471606665503455407434680575535872779683094733363043865208467296650431715064667330723047932135980445076493799452422399633469053791592935451584013506732255591874333710104937574985497149779829645131586899045579278194429627047165221755861500520033073739611653434851630666435153950400618018026583182760755014620791063741382890751808192065437770924462827162808639610329932435176594936748582831324731567156948223663370522288303481305229524079949517151466042018547955649083117632357777564224819318326046963523619321741217679541792082580004409661205558899284446275987422787719049018728920476941379526892921295132283588880913284867187502794259733541903816276833085681535580700873228699314290717438353241749775484012833567088647875134503557818579713561839547570470821706236889699378195021955165917761551636177014329285196973969146867189179848417931339610649783108310381466954034642038393614,
  18250871279727286800630793169525769221343775280974538621719729743746562018652776997749065854721495227182277833735597298960582872526500056285203957410860939611954926801747873049007825251874569853475729323706044760942637852356810816990852332664634240824832529858666183093496929825407229902479175080600657536382782678683934534124038694054868859378542882911230898169313921072028458484415579636634013166050962968943942514108334138841556734006020347702469481326437878698029378723112930488282972515072383181312481949757097519629975737946123919675752519916649691951293335068597271000318820379882996401478668778436322329712624042396361088070576381306484018994811806502065533633794649610731003408978019471810864486092887499024411307303098078524313570457392148227632809380243440996359837265618337774147436331156733710277358342041903488460172842329278868391880928118476792922454257683413150134660074585447054496861693850200752702279701921159712758088900408218711063371061882310932717054306026893368026713072486762779862622461782535747438873286079630222925097939466714300885741,
  90382184352610806512652395157507270044538544000128014948556266042550517954646718262239690344987915409238298085958971570097886520131055482947777040568656140854688961936304146293980296328136368659846793920610286613605309477985978452819207349195617343021240771393720207743044023032237959201910940906103925694475440181320827688009918066824543353566916458522585728752740497793401174989014022426655898497383663212132861581169373179082928760621877379930421839068923659588031911049135038081770201582500833794424476688046220255897259384805945529767568707465697875073788745685933278496172894806092462987055433642848893130393166801859761674263927538879787900848855547450823464364176594858626082794740483501997987410238168573964450737788143366319997372161178437798148667092240419261351825691249978430783384333603678127753837584046245735435928005712139360076739136894776036046892138261650710634371667604217298394286258147326201024137186781128822943955863213038388021421740256502569127308726143715082467105305732595150470504794200644435650449033372644170487065361156381028227433,
  89783213617108735266683108444408936975074357913972143590223783041066070453526991094267456040394704681794814799314759298909646604175229783657445776233666241965074497222419720169526132141249677551599101010930841686535288784771848250891846964155408037161221031048104575985968634231730445733617783816603895450329900255121768962413516257614287787457744308610346887459695655559791177798171125409209987538729666681506080066635137915026412194797648652016547162571852473108036525497777162118248168680886079808695042102019560900110335919194018935980313186658028574259726972954958545849573279866571243099064219308154484798416025574889928161598930392160319492139852924331831807198441803683012974948500776702647657302716289770471816560429662055127390915852543543935768906215082096524164411295752759625278811218220760573098674287192877831201381437798538466831536544699255284347528976218634009537799075760698538451618390541582736807678003631858116177735253959834920567196795891070097250002721007124645015686797932997692823421480424369253071079552263913860056121430426911976329495,
  70109073597981550965867148751416639161215768976599730149380552803854602899629676748013889021066840865856267090237304700913886124710614279486722018446633052465396255413391367214105921529021590728843408116358760114282859398993272905402305752956161228164040034201717968893877032816889611661313348568612213709761735668552873795049078269118972689640533504280324075276683728140291470015310249078955452802420633185920128947636842533510851855950457623286570643659621222154368167340661209694809199454367418585645154928896222886234256209946092986695775103764733789543727749977109854155435814404712661430570860991901614538766763600432559807303403977601305253537553191487933834678893737986171190434968437925156640718698697923709006767503773489510392802146599415591046047182336866004999323532470594805767997628723417941111097048889759693711069440943913420072929639092797693000966410771935882193583018262906629080908475887359945257699708924314372988820491590985026543094150187647948599141745763987700321798307898418761322072054121977819794145985309326768701384208047514789216191,
  43397535898544355866256217925613753759507532319731341222178479140595142327079006096980122084512141287343607342956748458125756487011186261188674783240920649549945351197807337098336727542169115284216031223653713101418119686139113763082964652324520820165612575034191628345782994536425913141887337402559380102784782512202294772216496227446574460148678641360793944778834649062553243925284071496743070519203661108417594552495646763763465679197946578705005960614211005044430533278460767924223884425523885500951983187361393119132302215246430541448008197557821008562070748003549329079750062816174935748317240153828240081829367587920247105865042885595280534464844965047495540140584928363336102057946379050491553877183120550296888404775267332363009374536847101484479561426339164909067085248511653846072089000236063441585158438109676312106401765334495199348466659953736556344313718106318839867373092277485234253560436536377695765864454013132956430557623430876290979313829498113480718598805609500665576095775882250896660405612543719958253819928172715800933896019804746504420274,
  39631005334043585399388746907547369337050329141551474217630080863050224809637946915880804871538506494188427162403848644596499610260566180821915654522298953412264410225208339051210096678868491986556926470231271103849453265175915462247090425423348234781536274823441325116207365614878677645549856867011703141892016328130315782470300719227390174412185024959100920327069844161668824453126263923907706091864660497334612000145688108962368712979747043116346166871772083211043344480378410946719270039256429571316406427811496394037742884330545656250862429179307566908063126847263889263196645908788065374685382536818464691818874922401201865390693169335083356317413322138819860711154033872537714779992861469036229490051120156390306347817746442452786544558685068276678974908727179035014309262077393821203219559007877172606303268625869183383825612523509893850340596257887624975217800283419963930652602120228383531791660882817344380313531182346015257283020194904144656713893486988311929292450412654266332872282729434695433410061668885390360799607828282326394531018532551567092785,
  5161579356461326084214660850722233342842750916176912038028815505626140431087476305929152038512141159536364008973376961737552171981370574195952511540391011363215302902532681068748747046905501767593814331473524885552332844457629209273454621344422823726342573370307726344793085074186737561216913362258968541554387452867250121039861075149980739200130324150084668381015889723121719690780813517024152611235351019907416363693280978020893065003072450690628198920735246334741545597697755615346840553014978220938705013616321446350624463394156772941151730552440598310545301543859000920180100096991924398725065701841295305692853254050442739048155509672753094598264759919030532224515808879256706680755574416398084495478545280472667572600133109873783113631305804855838841342975526450035366069662758322606639756880913220904301005682668548696649786443009291419874930173466107048807737078361521544245483341486667132491151213571518052679430810661114681554507874881321919811080491400714420358242530106268391381609044613033395742924592966752775344032442147777921274068681801579787651,
  30846182166192347310079624123813058224774393237010614010740293753976313721929837327399731241063452164624205376321003491399033910991155553676626755879154410484802099246968239190555516459117666196826148364610238419328569111503418197849967483599247955883371927567114853086866204331862234532082689525295974512810849080524025780981452971086670220581057269988011305718839015036232996117462467789267969190450713524163296104100326924738049971094569030404815490370481768499847689768788335396210933191148680672469272795090143894621429510556797294377924478208086557332554300462811377941480763087950244282145886861513694379127452258861861061655914008544107678607118147622011195841850866141619682804225000816072999583846244060510343591463072972548149143360045794118745263971971082278632245631198089247285837802145457718986555191947519486760419397158220136117726497523029343261952783279770278229408406169577236278478584886760073317482664042461758332909168563672197310915300119695298551184641744466315375504882729856920067720015102419229936284416307373446965834398017761329661467,
  64145801322203393410039503879900964508682395664793061036502620466065862293626654922436446601190868345238918721109649957256456430221204417437942552584465955640987420403849236861028095428912640667166241202863338081879702531556009577558590890090590759583813827872621037888118266388867649707447076711594786507325084034068354900166588251796408018109544589346100062346971503244368154755056235270030673821441434229767807852038074796441095667291144702034354321591344274619431690935995065739921703778892507963778890722428412194254674573152097136328982051916385748632650178868161531583150481889876789355468535919064692462454990038261222351894239755935126948581813690814878676169345592071574025082744722919016232015316965925964375975264386225681169486649070455103736131612024771127524285174200875487490127959564767322268499643172635974952631161164135491679461630219914050709647436502830843725380000399076933776486959396311686558646357635940277856913226849513448726522218097823434680963330322648195460890091398677364626520117469019994649748166866298629286980525811044761373413,
  44545216453206191520072887247625390733828997055844495669419751675009771512630380879844662466698642046360028370879681360336973348212433694750416282276761280253306471931880897767257711046194860326581882872506210189382206285131915567259430605725164736359716759654578458196791576649419396034135538066957018165653977439167558267572387588809844668663737249657273894211631598824867526470534259145334234979771703001065695572397090714483607454666261419727728766679129245796083508805303230117781864927017111463343390433781801052904019323112177931958923242512614854774346618179259972233956008799654949627348495547995017536402138859101869077001972924916699554525964050591853226502802574009099217126441890354237745861528785308010315399568283994306803263247528365737368352916612721469868288904717680104001151522989610403735133237451159682843567905291601043635755171626714866090941406006857538676971260934902071883348381431109145788702115350022638344428270268474000234477703418127268711822578643096500775180676831419601480124861839513162934856545466982007554003103303778660346890,
  99343567023210778872598416277622544712265274254277816636803129200454316265952746849588521606642424775142960446213665049758906879619671169674163359298512868339899585462462561711364818001264635307628111196777968968256605867525795940081884229523948523125683235707950795253398534617626008541584163514628161696236323788693280713128996035670212933300260203953995788504007015439769387576563227746793218518466079470794703392716315296821456289324067991715138110703495625847901377388998916883961364931040726732589583651560782853401612030072341219636974033335236736121195806655861038646385099928943981574097599712531236696310423238293424740614072193931807897370616140241093469689252053250629591525070060571389930160141606191164639029797547572793951029633694038651860849579886136379994596604375605145526044043862720006016934995697521197604565178098135339626440055235282877875293910446678627663518416534700045274264367192926241539147832941240036047279466704021504299480544634126737387976186288653781769928452957550579711114897626508827653929966737966229031619643557472942902866,
  33985927374384876271952446706745816989237319960527222598229158561116262260124487382807051031268205526608136237324799714683685779986632738275861283247985956408432810073048246786745421064280100510516572112666701824969076382100667359761150166744198893398715750416727397956093925693999670082547800163099494639125074354003940863370981513584406725749639529114823918029194586801462935880865624117189402234051424869056379491090401676530088813394816617704767211102650337731794971898060266741420491517547840549069171569765923145580742228357176699317682666488282508089676139672962624789725592833774833391882249642160534573090701924628489951350280933325447827663741528945712908940564898509330506752491872440492147901375628014070454798596121563753658453708755973309500887831105137646099832530755661944676937202806721389487002852119453346336567520234226088620526470563704450155596974502239255950269342848580205220049829520102400733370796302381541140681307399248197640479462615023572159444034198424589221531374465031177719131841044824927077214680126300898405608007395562450858460,
  12503402765888507206828469970408610231749842800055353030460631023363766037660540804581526293422083563471309651151956507032491972012699700821177541274995879238168077328444304424050183221080400907668012268828271825351417964337952774044563250143411823821830423382812746766524907713179290772461436547877064611610848059501079068879793277840278941815675401195569994239400439081769423992492208324747761595489143095762498531051596442875443887857378544680622885406551594180210554652477889664411582733364687852228435782033202979502617879497798787221093842585970627557383161765836850112401476050845783490734977583378193592120053293981936180523267039184509620031000158901389695449329441890293922835552668627755534813173776819263165795697808289674825802136257321502113039916574513201445484959501999769152321744665597963338804887205772347910211092739104296853374544352633647226741454588352651476958750385652901230604901799117691835416985100532503166547445916309390669161306693094921613359297606369335188061755119782991495526240460728885537681123947945262881996055778215768373774,
  85808827860622830035002908267244303080551851492462526960686477491836312473895547531717643938990076304158737062652024817936036019084427458047100802785661512776264528412796756838294743806545598756039054768898551093547185198282030541672007433704925742386515013064204229203093551902479726902033100257321146171575664707914365086235311423027945514758212372406002137967753372756492102622069427918713247670934097878582068989866782016711360319799714011638196217559165308134922865269176568405822077954694256455244504790058206913720996487318883461693710067872019482593055560836850613888843890307278540756039882402898808337725566274201492213668240054466089593898781964804052243039972881450610140516411062736892034216448285198808023845423618309735519229895192177735695159797845782856146189030130770074786375838631328509769464731687838924602331514571834658563363677634639488281059260458951809656116229729209369848864571698416133533872840513221690875986452766227790448904631102103595467519334468718263676117818795358007227105596174660616399452845713431938549226537761750820452382,
  92342523711782575173771363540383281099554271387286634517513339516689497293782415603373897291154737285035884509249123780962304183946103042067610095618839160114577326255235527661322866787228484946134172086609473005234639441068961376037782335223754715441926354929480275588065857330324398064923100360904510559387887717572693668933652811945735426880884055000671847150407373095768297105370395787713221327962726362262192094768057794794301876488783086179545267998202946213503850137993552485383553281668177676933009838751411162174544578854846885105708552973794548841030094600674841948831443525451481269097290337144174119916665944555248310828159771686724911610913274736949857625758322787747456278637791812727096663392355639677612772112303358386262858660294410319041265468932918605719216731691865623544106431943966805391169121078919283893548845555739237349929936769822262009036264856076680308600314702960807946482878914508106516839325448572249366146981589472410948716151242724418222420270200646609898632588179270135120296470563742504940475908065273950956473906022595446292568,
  58771003570848304616740283102259600275330121390878962234273157067031255722731486951127016822238700665738584955111050008559303017210542053014560475497736843613910040590276606226649600349320979592191185916777967179623221790915632078458584501046525224434698688296143934318510941328190612099956015132865896978950892334049943174626540003354753289282668976886012274867161198430424500083081643339373710093910894032176193341925558440116038962551062487062093371646988721892914492665293732011072402323053792159757773529717901224646101528906776331758427740360201548386400837209203668311340744971709502286058894321575470372141474733076138051854124896485483994432208522198297543305903875525017550410027595098955422066058716484327139074869173918305850935534505135168116713224370742703514720087795359437778546057501132599577085499990082746444823050566365997148537596882216602524469583576975106520516318421590825601412527305818929617799581596389957511820389069960530390254020822421609827710769579899999341604379193123756437137166146094795952616343992313386616361435743635596413927,
  93591769782878011058940683446381242961323596704918357710637396512800821082737492508443421182384891937756152960043628613547673450388813879376124950745802735426076043032001081063168477181389162518553856038442824394767759713018628406116392463107903313836649981224591942471970138337993451893137949845849193312804845688940998337671359797320152205032816223751324014060824590010259455825221497397253239902835140250216518313465649961204541614917347385551223247936651904732871648745515267266548096943602606639370080304957480799108876502209347040190109929005647297390444688090916835114491701523487980642463144963649317392689593398007167919377765702110802483583511636742998481403818876753441300549214742228660312166013933991426218449542084411468308654099990747024827376411497507708087430762307676191202836185072542465300917496720403625391145286946276267815413119016936697131451922418991547649616100911074358026826854866498363497613220285603314979295573171751233241415438763663888447349573003163447690504513496173601665649566978513479288912232761326834661991828550631757155619,
  90649516122918073256223064514199884470996239228557933728599894142843760426512046627980209753379739661788612309548681848677278790367810659990882812164773359896967875878964901729443484214079439097617786914566259044915924641840188104711891940150114744988324345151810936301593398751430535559115485213753142474725465293083820735202625056955804821814750779939112759178200116263840629646417064688227808321794156837314862933892843005123604999172225581915109999207422418305257430347417587926192790775367725283218413249587206235569543246712084778756889070651650482646091952186486089855710850101540182875142121379517633061403367896832748520010781099730087750840535181778499287435736218878580610279129746576793324580777389724601569440209645094998085534436602909645864182314090534858551876468073673991736707315229778095264460808272598655595500603869569613973914203880559396064717699420119264864750192629213284959784964822565454726785873496762789210593295620493667713558353046131630914445135682018697687663845113108013328882415166224892071594118552247112847582525042840926423311,
  92343467045063693559206346377245456835364511574256130407243783596136596896417753991511070514828392427931736832004620552882090616748569005736522366628954023983268718470306448434256390147314177498150045087114130868986468636291310270037875943310817415608077298378533755034043658604648942976901036983042550451176693360572409065199302070832423764081582740413736372109385653709971882530475564510801972710808451849647420069924329050062773173606629736212378456217943613798690269090928069151065037650166769930222574849245041754810476945925943038925843589661391817815701155387441800101671570971274030720177236445150836490886120429703007223062504789175594349239205974766966191740939400852814159576245859011578381879891371074787540339992981891525943889637708422141784024985209220631237209124564067512672535779567397525976252861965006648891254528966729052223951256543397298741550800911637287174698066694308306669543306099011733111446658609647293684009521647484633793871622579067614680501360328728310536266138746942635434968987849936317685723689372437087426132205784442698136611,
  17434417797372683813102693713342579828571641610069762444323646608583020536055520109669391923328354555328767264756590230212418609949918324346856614006052134825269562559227479389456246488410406408579635680890101440490266824462818597991055736490974277868015961410403152255446264289257729831949398216020941075106312994295729612067025213782173049322648219564251767846915114836629800461987364962674265115389867165171446073490330820246643928609144119590834265234407130488321291268602182575557403109213831931761162680916053619909050797215493165310120006711985829765371261150619087038144311630357280880938606509316373092884279027070180813318550012004820176119219945872932880731917928448395651198269642985143126285355601258409213428828027807155904020798279905674549153012224874324358757564796482950057010071165117001658952978042450842070858283471663844217508674766314393620499124739018390449511531334355552994192362207451300002915629640142344035294744237147095673877887752973649328987013916275255645062418039041404349200897603288674390739373952596457031943717565388364923978,
  26691629408296903342266770876431770645667529698542435126043752024009534307993319221653646453735376225405457730603966412584532939449277955856301837514927338867828352835506649202372431036713767927017781617911901043992286174720711321420792262612593707010729337715926846279916035252595947466589879878416773030920622958575539012839282255277438918162233840444762367956476471670688437286157273429484909011525732655385241314553571374185042296156914285935262863092648529843557490498248318500102396652019962917368315961193589090829325060373209769102339381335087754007569386714574333996906747657041902760135629143034999668235904038615772462817817656321732655714768634329387107698965955411020955871331738947857009721298078738358034177716867267133678826705341514011298858596489245573630460822218869657878238621500180474828768277893592955514395238095034610800697136386307301969353921955967201251006490915933713308736951001170947280486788398184978932215960521741144341591080587302999473649938966632179894716998884438573094468404648916704287450693833145321351714906339873094217079,
  23799437793112196726116429125886941689530302086803093551376812586812805729575630571525237769724368673360429466379193992330729622572976572347570012278829580590155536075380194001938627417201555550726594956175560541018143230895583683094294166244993884494926331183842672559812134057296271029876555420875245611282213540627883247627201692083223486285608928275990183719797682060951226276032170973041069044394857718973206106406885547165988227728677929955539653306415714524325200411135084177703062144916421194167609435534067252057767997777914658959164675939411912409130801606655568739702603704906557112740343690384908595002794131653390218932970513283716738205402531709110392738410887224896208452822318480799139140127008397930179576329207696456138979400245171300653280369757213973184374750477637032720677342116510650464607839899857290584303620370322031159876765070704683107773014662841853391001825411795729127319823202458249339397225075675471331316846636822692870802333293181608194808022913141768513856111068401144680671105607251773055121759199588263369340638359285898627719,
  69666026813478938520974729781934599098176005904178110084752648122868618271296245810398446467208470715591680687973849078911416857548492832113171671670002649555000642835964834055997239070799695659672062239969736793565234061895813344242501619016646890833130631326657648101424417136871032853833784854299303814564421141683010235943576371638168415063122601253840497147759387593154456793121694864233548199400268253764351430907278021766020080102513042953814912747463487685475211632549851282711147068429992011378003558259547972319259840651697707283375364218925855765181235271972733650287130638547952471248278933464730964489206203084155380223759064687307851932088860072640211274352720150994025346838456609045164592659561099126675095565479409548057989798440556476233980160326376768077031507515774147170888218582311712977773387652005557221552752625681296992753776690349602388753027680374905858396358528035921515305227164257327566587489041959211399891324325790327134940350341975751134545877923039786333648743975600664651861031655083919898392327580983304218355586167009361424725,
  76429321978207415209978436284890528530663980609044655599382610396681175254947666493998865530257467151934280203879060487179423616149282749233178103090058038672634181631714829296371503945991919519687523783527095299102989706045407646982864497133809698209276090396450388237851594708197594202894660705853896991705403259097564136589042509792133363741837708920732060904218279491255058677779959830708645719377047713344144781596725240552305598784612898787837711918796467332589750740891560699535815791026078039553606737748699260979737458939139155638181831548121800251370183133981290453081138221447318322419740475851657159572919891724018214831840102621884759422703587087393316878998332218832807659961356290289782045895483849472559825065818918968322461409668830021071220224533550635723036511313917802449283131076688132001673239531840594523323855231221836950849876430714554097285624683253433183030627621356444106336584083493730349287861966314958371418861483977590209768869282704798447920356599266363740997194363678140232416189165306189197352224492943578446458465127244812476894,
  7302853410781661070998741414457795165883181575965853790195404568710603536784613766141960811197346375771619790755643418799857782035555419408952688447685859577722384260454087426473669840377502923500050649186258585633250412293305944936692280591481179789740092897557526725860814377404688246590652844542012221893908820420359654027253774782347068463726416908569209915755745356060078256656341530182996574977092303231146000325376551529857793010263919767315760051673473200020378977167581322737920408143951497619415153387051992263732505295637192396198756358323748028464990440004551303598494677912164458699219118463005575136858957938345969744687634023015089440591498463367847550581606385218935539854243460352919156977105412506589650994290209826311959131545781256305603685953378977220059274225679795847259769894971121468021051886656307885485858438731072044200267657813916936435113004289852998786802226431122418214848218142741458527410713762557423889679279270713613394362923680320392744371431890673156105063080621318057662508275732364531432417640091389979849814538346845761233,
  72661902711743475190100589143065501507477464984513886432745578463029257551007876610420870969681751698845666702686990660829260830609169075725284850287048794307372339120452164459735033627062240942263855415231470853494628220232163745012965208236521075086468668209574509045293519063999278216947130427790715617061464708531845541096253140913720501333574155003435532446973699367510910859204386571546443596037777396267405328346142633024884511343945695117849987006059401281505836864235733054326221022675995933433172869510650199055185428274784257757770001700411761223463152002014652549256137934550435775225259241536348673925484271934196583157950071667113351886346603211646560418137098182216476174312752737848048088439932921194000676527918435259993163992779120756240457196796513937717732826289068806697852150518390616954504321419049911286303375646057764649969857463224021592569620559939892793954293405722276400302178271223963601740348746427160292990997646567134108953918924728500064958068080613904427719210178732149527133191433417957016874362519043220894712148480726214503134,
  60419243241698814921370856033147758102191395260015641560069799289441504698665650800732132276803639129458071632067599441617833637325774878927512918757357625670183262430475556951948952230148631324482959331849924181597516052825684494610359114821167035381240051604647710508456609650343848615353787433863785744140905043867711196976975021483253555805445367513752296248203623486275849947043273781458030118463581894144559399840789697941248451832323233095936026221346917189708081156409426794379380741869244176515531297582745791218650376018649770531492871832908985300466276423537585138620882946443394863008754668920486694512076888037768611458112237568432771052213965283233041251681795562278001521397605783630122694559280150049103360554539407203144085737106821863439087354069162665962433149768044558829034735259758723337168977017321300429424115018440482701196770127626998351208141163571596039959697698992247408714384201414303233439663815793294346504006513291783614281590895455287917436714647734103329549611158548384634682173252581181410326971429456388495425916279966888225087,
  24704778003749916537502597099719493388898070573748642577633379377889035986056137453315499412860698690236855180458948986238800262999669153196625630415554440537544964827399599276828218602064288482448595473085349139425942335170444574898301986038640747037660818896711048715954412170695507320354547000295371513522748450855339149129975404914382389710800771448089031093997812722953368928061665230277669362542497872151100599879147967505006476967726677986311871781202821330586632784193239841309551592370680898085437676317277108039718959590667572253700939872258677735459640211154283731620542459127005355188141198685917479236866706026608135027607504359867996319119186840189740032571201903780522721692471322267094112530633208616470293826283994293339426332940761989281816657763359349966958823406219114957359134024778136637592212264179410126826488762369092856720519497087725531424172099304251880553033561892826711723398559652279408409249075369172505656671058828437242508265914664867102683902302216560693114201198084155778689086920206288583165906544307658465441751562874539774120,
  64516856316660831600133703234307788039273947721560783885401655398112050933675578467841481362523831901934245338609768580194594025481322527962675056984318624028875322705745986165112324603882627164777128233213825493372762382689837759966170555773037440447271644046984583881659231422901174383614509545757812167446316937159709150508078822464670339526592921571033958250964328251096030021470562386885714075059154969332875975685824137059012435754195428456215938717543759646956276836111788181244313218804988872484643803651379050200288238989614458903695278493367636521211734897624169300678993466098736256971190399465596881488815719769613517910593114243392818656496997118770768094576575210516973795806050454582189234022429025687175027297872837725600953391991056561449278128913318443000610519948055298024106814557932339688751089707307105553639513576093463075861316832060021676574699259674041487207628829477542824268659551609561705306691962836469907390604186650000933732295429170352653748454679064763350298970091952434513761142988045838174841209535828364865695578459604898452826,
  11863335932600720258750037449344626602428947301333171701958043192209855890518250858239232871062148280498169382884555782475752087750532004744155511484334990373715566897979018408688114335124807175088347897622330828977999737899478283988003871128461075459597346561246713404298201456943831806140056969194233875260906990729411355231688625930449904356296052773013431932765918738210997474252756036242716822787385617759996319906876388841749185301675455425035790440155680053540035143722135755232777676528075608414783738951438670981725030416776224590711138807956006247282739747111172287457718065836735664139570060591367912718373482515950829417929199527155408594170037247242347665014260771887119524342115419323196267784018507471775494291794208080897853197262516047477867675392461331428849628821951292468515900523682797374862444174695498673114630861624671570381846209100344365884612713362894814494534901632231851022058188517967042269271800677308502969095357934910588882194648863489067603577816631108610450008872606092366007497342309412872557703185692239965688979258089589969713,
  51886660737109972446131513765818690615567225803180689413029255438556865927459579515242395337311427909569355193039996061924995238369516081249053300791321283924761267301350284607586019100884912060717253579584923160491618138238064423385864791580040029657229990646318860275569578988602911426612212133531690280163219557082552466718617728841162372085820394994479696147305693857387402679072078667371861052223068822689126758515104117101717163702049212289467927036669438505526645674588477282256870689550605742812814970698199150632006057191782901764587002971295955662768868034889469020752483207147200368432531014561951042115892452047075168793479101357397465406768749835698471574990437409133943689617653666957171957190573641801374936366423983932153142089511105312594528142999400912857542960576950152722326036840205307479823524492121882672738902412660368374359352914139992765094865238977135605248013565388871292379425097975215642133984320074454860147575900512251460462073304186189990506307549960348706331899732901377360831787295790515551854759799343276304614036039772178879093,
  67209295461618945434554880772957802198283118834835482259581349871753686170964952210407480157663781487079638747295394351130331296515679853893398485534355704812810138931681557273213378677997575261940755327968765619508371644664428328744905059956442583061423944764661036748872466618797660734665316052113994195102900345135472781068347813356302143439187472327024193081197889333449395949169490459483135799566807569558917041153345568957039393703911672837816139202229781997431244817882008095736421990787640726422094203631599482042054217328281799282585624891258183122191419640160841979095186576008949832887065036712979457331852034721010570316916290506308071077909473530896998956747956600500764043795562100748876986409589240286181528594685531054205972316938120061728017088550337883556483038526463405032291146187819399621816089654297803900226005487067671546539592933821586013642202892319420847951341935061128762218591628662508653488249491647823876597738547377063523529170012027600974984374036148886496018772792132874737393380132918418151242408304596832234819175977567544482664,
  14611695536438629869249995556788817817885904975189352824950730404085141680085474701721553639851636827305943333347784842127828700458348744601905972631591360396643312319079680841781565405997857062953420185449600894588254805446685041937096668809528566662290725540135864342039050291028220818245902708828039366485583551958741685089093396223340295670259388100333957389173467672645650389483521027414287750282255757430996515483145935998687460065565050749991623222945317987623446654428967111469380546474777398699083692540445191028840301562876011456366337420446944959756320977144191102009220540007296833524730682440923019853234396928824583872358621993550517756450617215127264851822930658600852413319263641653124522293207242861634652712829318181013577903454529330943515167724031895825818251649658937657930665546326044392927151001862324153628558363969527702064426287130692072120685710488892374942586195835407192195103669338686826722727541948543631328871170716203424085714375563747738012555074888930347171537852825935161543175125783046924746570242321011381270615283208350098425,
  84108204527759520604922865060137569870457713089140558554488348491049813073647344076348000099995693613703302244812156443188765962915807601882531866004063889851566878566231802893818084831690183852637486600387656558820811174687868983287753738413169802725898042157708919172034044772374266633646232634173107966348638625042759953456017431944184345068412389564694646356268500207569947370892145258802980089656922538404025493075731849517106246274272667655967920103034878559729811323792437718528790668600350265758141103039198495717927624999136839350403752488789143330108831229777730595415365846731465075991801626197183171154247804165088442718659884696727505264239593251323044466316903180911259656331247455596762603907673163764769554638031675640353467250640647684802093103038625606004799062896458228508285509065025263402812834868648256451906909929129246475686717325762815121935627556760832237783153542454086497686343964797636346975755086634879651664768600266367733280359392526690801692777541289577373966084856585372957543876220533818013804019508755344710195407213309471149182,
  10987257566294622389471482497534862295424578439492727709400124276639128098646482646811011347722150973511097717069960527999622580503622502994635795938514279081201484056168949614733326503282083874406879231693464613906652212072319907147551825890116441897377897371265916175327153636746338197134041462619223495529039904625813050091971469795673639632943666482423593674752067990536169006453014074436670440181700541427477023278047186476889464232714159263371902882622638255558925987737154733495812587902768502965249658891661114761931858149942457140724210036979790647293901973468731536023646279151348966695459315337345261711500321539077603925083642950171908184156133510868526897555247266399941491933996982198533351966723406141439291455166783826731423804816799910267750937675406929239046704806846393050595954294266064978776839937610493293194720434536892122551741188272836033702630330624151380466542461420831346285023606829326090158822336596986162782829927595974417406364471126929661855452233440668637577081600980401086750904317604494838673497692905657167391263285413045674814,
  93855732685188816071757625549051300590413349861905812020352454664174173176597608609367939796860129494950803552101200151769555723644720213414369730469100349219423613899992135222345538476131364448890590420314423669116129820063911198650953963493173524231248288219221583593045228246928299465870120651243287461061672539391482085614025086266486997490997552144575705418515391095137405307506874339634747549690671260933067165157801849807328950584618293283390084680725957121112565093277164885566266818163915166635411251361698054002579553978867786021443819731142967255144941528822291274250404173377164427590800834276067689197099853628278630887339955691394675801030062346266752716327570582212129303757996458835144027384132350732382453492077057950282022810718236859528858279715756070829149214269071464142544991445745091233566900675268615351406844155301420343009137295679336146137016365423950753726103565147837748466034855950636361203731582270396028124342323498453199423178017574457851092922334409531820117945389906297111970479315851301192204519873888210873903308684375674844404,
  32278247732916434575484578984473852960349223856196668568292142116114878540829005090344166732832861054480755887520029047051513543311884064249727077624100602783291645071624712694263508684943902769921677767674830605272882780231574328533154776862856199388923481900421218368368559032054215031500854425637584512786486037901362590566602087284329328213889865003014597689388886846325607294688896717353692104844470688038004518990872112330724704172452949649929438039805630858656140021896797466041063088115195158573792637232787757940595232793543558946700144115320743349078743781103082387690481919292036195888936549367732716470431026603237502726870087738917440828436259826718567598442234407795469089359688869708766997468496327165017189713268349939924184455975603409622902171373236700358819561251326159322921595723572755776432158794426587309763283226528468643935971468512441909686926385051246838590362587665588982552372458470027098276914629074966328286001775638667771797935728382920600048351695628117626540437776916782930831262544938376907635863828302172678008360102550178235131,
  48312510210891728078945832260992167744956978130177688462877226469292934604187964919526885895501894523198085685959311293653717496759392570621879853406642596613305494524406371633925980640750389959548594238072344787741106038572713787641334230140450102740396887331182210748499552127495793292385916032774980979224904577587713161297536941940589997083054196846628101364972881640465700788846876708731369917760526671279937620488042224689022298002731741001803275490360219935903174292060751283757098156393661172134118696782143843619300003927153963015210362548498203357743336944203572839298992642277187627137162075796475789819275142514378983879125642962352525575781601897887285200534148224355808437626140744429699618774423269030848946269398338192112535485008837964020162488070789581054563913233135579404478735867934003284029951002229314612501313158976594364887663935586200736687767441729569686301161547735478337154866767926517961285593829718351349459328489617719721503940321754205240561046548006005574673907836648898150686178957316574099440385901095046515485696932494707278541,
  85888008712508154383235221460590271916014946812210229712357640906109515900683449582734622367725546450683028294974805124079183467132081489518219218103712576945325979958074761207852949309638738803479199293930912360845442899392865636268363088591527960141940841001488124545609415778093940056150605786667532914282599248360561069665798000554482263859333829779608324511821963711870374149941360898424538451325427922383934649481345726786489972657489497993617178915701478870813611769312056919834758249855155388329366103876011389073050105421222056514107854736675514254726243825697061739714362525773554367287123475331510802853859668085163363844753857609129743604605775386386831690899937349968147265876729618535258227276257751609793320744722949640375233341091138527090124746867500331722873770535691952559422251104321869703295392508936647141552900014601497212216864271679423544577343329736444890690709168590213558539114753151385318581298252614035620379451763920751431862299181996686534811709446063160707235283855661185484791086145373522477750933883357760923970286447575649538761,
  52389947716303249428036424794840088633696830087241353753967451077018939264131760814193271523998427338634274181515135383293981361485839878008038367426932024772376431393705802758953910879135174560936588394449971080599624760716016923577767444105332076956338367067591241064850355064300060237471867601018990341227148742249081634174025304686498201049138195141152146886736880072703333983246213592950038805984679012228846931475237630170851778573108173361036221067640335314598744890707551640538672062229617508198221189784383286884377019271831023520521407266967608071169853929578546542112136676405225962234882820811942136411417671475318452426525442515320011594108058861327422683669228621949368326753701060844291403844842312705447840774121446378753140098127215580240874286712783025976246139373276460585450514362575134920817586171946930483743899617782035631216784109063105623139907158643076026799681385542992128526416564892444651750960710868289924555096062962186807545942445825513993681167605897760256669780187205232833375553999819332963032658769046101890397667685578253328794,
  91379163970800252804004991619393506032228986496904287718504578468870284656558975567883555198977439587488206589363055276932338963052037824182231046012826026961923566184213231647345193787585653836561673603384574887826316537570628486852211586575190301422411804448860780773021316701613819069546427383509848214323228947894889302723907926152612231904400339354171424859227332220246315451168056012666903023367799691752473916018473242273673172919518668873424452455542584929653634694548844796168755540857559850077231451027678909406551564770139256966740452373216081691871932455218478105304146034265013713916844332231400867114021743595096060452517209186869540255816963032637931421018992068383096869339438119886162901088754184707661842186431026803112422966313997470849592294301375315257971835257579884221417934006255029116039485873166869048679826856366328919079952571868930817467451521484517114522965975711607398674228884597600963842037153930948839722434881027775338116123469772667834725559409034577766070865154768407709162027942904105323982119328565722981818163132877749048409,
  70963513602874327624548879835966424161258068208234298491250219654789529996678840672361313707000868557507146557298381864048558316810405786785509059460613453311225813566566147894135070265867484703099473274497666815821988773025866450872370989985239609307808811211481521175948160816675087442680891715188825640331601449193274718489627988311203519563614282668135084267162090966457732728371533131677930958263296089646769631562349174906961053921883735626397886846804588501896228140989326957947849238879490647121998191265057823774850839758771779416162091725927631170823916258826176106893886467303664233225289905963581823977504356427493853650897196991309971872504489598183501812445169844648357964089470838155314637861948854278198323947666484690383569231644852890309127156133866577780278666711494744015268249723953961202254275946429892714094931271003926969172360491660550046134920601927392945914719374725459821646185889915235768029898998279839892189925273486053528099349101667852632464310128734462578324346342892716901384290449670830023226560187891414605863584672456236844617,
  75389109991441391715904321466938793967500633440354674727454452614354091156050096992374020934393627482351375563339255882184835698569993583655526025631086042050358322753589159826326018370759550196784133181458368995285218157655502024133754871214769163637296035784880431144829856360680594083401535018018515646692155633931785226043784154999434103323767658846626847042849132622252974520681844097909361984230812022873834525742020382520233191363182067129057257262374033280359991657345196075813013487502007779643818423569887925132647784491251338738132719805045864854408963565462459955809997079961341326970430050556219086497302543537981875163516476426924493321264334573934527610238272761585965175040695809712899038356480636943310177760713206132549906245479075655657471849778752832689320088616408623151986984706215439017225689174083380453745141015118141037825729302972875429283343667450076298415000023014757875403571791473483502549753267646327273399494877968349665490644030212568454031311741923493121717122225253406790491755936106200198067703040837593869579411921491671926240,
  8679227966397837402730728401344439200620556572415232597698968340296329987606246568656715193787537567190444930104281136732483203234818839300782339588359780787602018215703712335340524742563964589371845487911799733382642544419453511310499905648286504534277582934642933870941463080792928032975747595692755749439027876046443899700682236254656041874497388232556770648265320160926377158539357557830600885330588114547462852973340180378355780135037103490035461235279411129885362999303146711457039663116499258024328518190371172904762507044042729836224232470146816470266011563535107257834226688353594418576112234692811396466168678153696558208195717852765623880162807675636833934222360743545655127147796837622764900722294154821091486295575397237638444219444078926389567688813514406236182202902126165705685884835924155823523896768462058059897521879616425304256409521662540086760416302086963045610010291548144361030965035838022566299526995091884155639643016604717944467006990581375002937573601282131529803982619362784984546207955766326290631741596242433083306639527635518827404,
  62094834585946331571373455422689759772496715162794005653753504868013433251752212228804631864331738619043488897864372419631311380290153629690054485502682940906515670096205947131662070448236954388993659304221416321568794559710895720800790067767861395679887333634126133726350493676319544259483374202411812806128940239301658987480104609478473520292931207428811150686157256513783815208908004411934818920158553546496192867442195990309844318889737867643456559514729703484612834891624205705281692327356124982074615422006498884595484620142184639569455152465712378186114360636312015652489220272964030209209296042260726933326403201598504770092750282321360661128235693646835705231044097827052382362736086839535176995905119444155901615154537147012420907519407880102729497767734369002840812247815603227939237151128971087916700610380579524462364364319652554363928733020249395267903408881928035859597199453265085156970144553306481248952744108962951714276509511136735347147834099082279463348359910823730980207958992836288376905338469486744109904902243929130209090468582251048584849,
  78925384882074279410461212456845545628229900269484162239307170798407367927735934780037128241608301976764445888745227335128665116629189890336762792394426487703647175870763111826808232252807423210610830349321374730092548005557261364407440895916958434627805727729438973711724940863265184149584722608575809276313326248262644910874400005715246379137702005482058965231685794605382136415794077905844341991775929357266472770695893123872242314409668306293028662583974524907704342750403072006616161645960899115644237562340785149289928073295191744426065013560010403883829496737197473825269462817674269032200157044763279626182158199857738641011917112907392975355905106535398353914328348796377393284728144477065673201639233505740375221736813578797105605270231209871070785754562570053442975607187875714300274351779083223160404295443848696749773917144355725256861247717419523657833290247280352143329863108499701445640214488095436652663193550521860440542152101725607516048922125769178529647511384893285641825685953320900470015733246688488362692176420908478340164266408295144622456,
  48204070602770354423126317116092674277248405688264053309977101043043312462530407946789869028778454982884731740711572033311797334997102727506715395968389588834777990791283190978397829781333158019469864039158218589630479983020538616831607151754607240244335044768420436277147138823688613241364915617680174026630745243704591306141052428023007404767247560067119331582135256242752932119823042776669986083005933353603872662238316135282118764211923409034126950581508475214473028991053298517072494687138989217646635901835443930734159486945616288869355569374881957649524773864606960172027125052023765563684072845333496283995695876653508164719980136079928016652136361582017827693336141390677017033828222210601263141365288538624659181847632266010458124957798415451577351131600483846217534744652411624841045399252929404057075979371309416863427921505485611095719226837158711758035915518515247737934740884592027577943626727092881077746798146358533523290763255330304454329234418790503723705436957595747556417785604676384744454439415274673929299961189289135244718027406984113532541,
  45937079674989588311521192288737021078498539973160722562420416048139290636858097203603683178632553897219910320741119773023207784728746057531453612900332180277092726924542445461776208019097249250742140169323962364665740686024280267631880695455950816985514105896339212779098245742798395431304044270234508555913744943715670427355919689143258727853586503277752204528054964102711505271525098737281632492074556689405327824068464289068251693471652157138262818183091986616986411261248587180894334599514940261982856769714846715927395462847840572803699431212769253533525125596420396492968351022093587485193242484297211695935887697021064060428920314298361924013393119860603465395769117367554168270959907977588016796073946932994226920452783681607222877105956869858288557968412888242435966772603308987325764147012615940878392817898803023486374890330898605682126178127777357883128068322777081629654054658595757247100708409436565707960004775714054590890025750113410132095203050777279183946821240414432331002653830541710294405495628849511662805080282442447113795966602601427311542,
  71388092471638565081361415351349681592225760325874744087227241586340419093779152040438191175996002847443492133736983164179304260680266950924939230198893885821125718332673016297447954214052106589903428155855369116727246475728106438342288543683723636313340669029271703628246012735428486010361199697337226567687440297979879465164885018820504329197748819488425189072498713309362367396855961716226869331723630759386106980685565526249951709641095591890288428381688663686612529315145617467087889288745607156675635096104149297720330177517769165993460796493754265540587686472916940188850963046925411596712238958552233208360768127063432923790023729750898534966455447043065549879424654884769192478243938263959642426264621498087498563312427500501375894759043511867835012758350119912948703605053820581057328777405386357894616688946272371282772983974172244841859405765299297240610908189235375122315587705356176318147400110300289287076262633092756581265481449614840689373555694351011900255582653940578155574175514239102334671585500440724662379536534741052513107751857804892503962,
  26964939733665194531309586587803812757462929815738365896812065396064192040487374391626055837111103015909152425195396591108720181601864853470129221338906046866216606862550256321112055242399242974260873697842074218067106943123496954845116513955485746706750797659185821495499637594354269137176575721241557869375596928190157321016413960547816638315825811274271096627442063481304937265987216952116433094843707168050002551853102707279915508885912057805382902968678361347944688390132277353385928727637398064891198475253291161068358152601256480373373905189016878279500987918917914438199291166411243276008772034766719917477474963824045037449721689954369568285430782650822062803105899948306345188107977530380690223844550796519040142366093717971220498938972866874439009503773530422503806039292967384310692788411623270074073104285711269716613073666569189043581350811483897517830938949463675152447141843981498919581014305137834238523877260059764986762793975536113031167656126147769376052969165981025588609311780651284217470687595674619598067625502794826351074676218156421174241,
  74396612879177205732548796802285123727936334190153512853082976270099161279433361257706862825317299738511140950245767023872686907803429400048908497172970522721761596147970413197190238763076072246173471676080176131970064611274324420535021772305340483992019572666686555192649149160521706072018956123548964369885246797235105585247402584337176871372606277613569650497349581123906641454690534450656228985932869216957237216530146504986467959055199024405440673992404653942822219115260869884110702216145470135803171503972075930411235796901609319302121225415301542929581732099171783455836182805257085611505902525040441563955846688057531960028445536205210577307221321764723215256792454576821990295998771852204591704107941169583760712670160087353916285596515525919253680862059910662399509273006322511704138733383340131327591453176377413177319104489864959509882017599026839280389559537956720429798727929354961213426862872910229158102409954284125025700376199683936901626063688578156755053965389024783670716489919774379940526334298129015488901498093020657920111449659297913965551,
  36838092996504112697637904238812162722416393105282849984492554876008734381617102750350672712148186304749391334940249990032821723681344771479572697608026982539835498205968437570410195234393039912128345390047096496960170796679344121074529447968212094921091037047905502315605183930731093513065227886923603277280718636851321303895009640203946581117622092922224709299981261291677688060136723412136493288361702474104213913248801669410548936725820127563072521793081036867538004016622799907422346498224501430588817150314565198335964014807435106815230086520296659293328872127435085999722879767060599935319193199364060455882270681105973354235566201260622931420808304974591837405741384921819435605022255750005386056891116221406125952645774853876900826609604179389076021011986920939456570997835180810788016170758337170660718420841736288951802607905312341679136352478627805555238028928400935149572162926042397902538597305331369185604228112878180663529336026735294851123986918520882220190403746531103942060428837017682735797906444394576198377328267041952990518425989545328603822,
  46207357050457280453662700458207733665809522806828011740826255511164126852731498408642986171443782718749254157999309845549832986817509114572868718541473604014988946174662199538835823753963491712348524448295970084953482179833096698454590927416370271277509951688136322447607206813337564150160748693693689136327997798651095118004235037475357724415565263111513983514733612776765496843708227529549473181778972721159816126771745293233779223588717669742972733845079113061817984555221086937573413038621202856660130821156385603355183362616786564170807579986173429584876420166384806557323461452899368062401760440576681158739024854481638242885661605378462778302135763028796824150465546452601353318975804140177230834440095250848369700416267594165069471667211082072015434332529553377955834791370042538536348145924076679559538576552271754812681015159356855425973706273298846581896009964012677015224876631705462344658394040933897232139035704332915512414555648456027127702013287255306474606026675563812372314417461118059783861350843802397084617321316940369277814009697177524380263,
  2062036651659692776444975920847099096008595006553994874741430934286896115275594046634154632875346519630231640284444986587728118375618604567610387529549430780518217958079371938908408111219095347620403755572794599554974335402362692580690964185216966298689133541409966015764925293151808814511331887470288716110426388030602059379037604262710432762247083669707857708398654455072842014617547903013704998259214038930332740537353544009728553380254083425459764959488112987093972800241762498997899272263379761267575709569720151013601098471098767639080217199741233505134108214932597833769505861108681996566920820962439266879792274480124288315258719172012266305883357565999008169726424521544773314600651690038446480267592184308710530065211417315263303998572087445778515519582074672381414024660972765913587198354980048417932203074553305758618402238445531697965004191171799183529654028072234113587528366767489164936539585068570744537424630877448666559681965336053782455320735535309709196917525618521924718512748781378497969091510749221462677937108783166453175772569433027725280,
  61468988769060862599987308200565912254478986362681859251939409189141885833735429582514492096848147377722990288665384060809400323930960456048836296434358336896504016725840020964633959013350962652397944890195777229982329879419657939812629153000245205266767596427226787008500522657826496421597190409356040459528235566861377244867562539645511252020812026080775508088407553805356624486189929342907289367863826770677613979379610074738702182397240941795982636596919000601935180019127453315224480042326428029235894690849907644351935011457777560178970897018855337641900637311978249508075184206728986619606133104675594429199668456735304057579493151190346133907821340225296968773992636269364475040378565058779974208313733452753529774851666073807345154719469167950206001568448596341796600354436841187223185526791356434196652966156381775321742445752973511440972735194825897563717794816907869853882109829436852320083151510912556566909523211804263886541474740970616880407368824211529313692077160305085777262147240236694736990028686090896161526073138309923436812079791723940678254,
  14755234552306375451523244693029139602684935640539638061112291348779276744234101849002613253481227710612066392562892996342741071265882873577374214962613152565657566865645297057828639082670894092968409784530235509096905355798658025240552941755000172912022358965106434097935259624181111330223085729528286331455893443707566136092791272084350345148786556024292168905041851024769254334126978369791158585062526812264380215492180822318215273283945261806384012914905903907279560349473913656686092484024961879178259726657909395599871571525354643215246711917772905846938989361566104698019335552428113204128030198139087174432252852737091209603867885838016821119962158554184629850804696690554974705676427736119812534960770223104214155148117466067704190982202133807756271988254155165616646781745571129114070968637483874737849620908554100334526567680539078659020753958812136706033395285832988140778860572372648544544941307966783795244272424293806934216964279565306056880638242723546230972509702877412400493877481606593767851196099635400827080604211584466131309052408635584588264,
  56593048982179554294251544671426691472799972583536340421427770256328086608078772407871026522873935119207682138360935165300001131386479994920978161353952767416752169277309272412138164251379446923174377122907283307347000959624386773953956652295995977643185199882269022678193345885957121634891337156373185713490968525116580189762460036326978476177877725019810649393319880526018549032846155897722337532779974454783047373175568548959664015477981094090517626857408795476132804748693311499773281598770616501587641102997466071953625698131152788157981822006614368040353950984465842057942583658293179967101432254999087368204034733281320672629827471689179371319005590304193111159273592469017889627711454001513611063290045511603438123905993308598585109616500073504468933934797464018678820969364478684108302284494543146065064787314012189796635313972660332748172930320059540853819441286752944401665492436255155637541551913354342798556462537521845085590154278301782286975999683641079309732058628675723633385665299513581158541428929315415568353530665672107200179836581189012259500,
  18370015171854790274701174340968995573722828140317707185105672060132368902296475953069989987534399661722854307786765593864021488850136917725671101323835458248692843434366699500102511723913073649841356805147882811529128762288814656106313787142852299896671395853791692080019236916384032548740541082370391337955813811868054200636184857816141134664824368761305672828006746017126610138095691287128886532897078555316954292311117341082068661228699361085620580586989621817126898614321163366890747141998985284387180782120223003321229708282529690758942480469683986533322469537853103217200853441593531243339756324347937651562659667374185316195133588214505610144082828278277148340873404475204432111727910490373597998271693770190895061681044222030174922167582344126582984085327290976256061318941780521642753247477127479711521642170127055033392420791334441337979389859114041990726948311555873809408415185817043352088539396397315629735985850561330879305794974470192231400089381806691367974243275386352657226700322375836575883624051260726836145995254296288364378008827120339272018,
  56114023990127750599934113002897093358093816465910627811271198194902217347525694441431665593904704597922797590727135427839364590555523484668770975082254560349324424033623369889153331636804251692210118920938579192132500508767275130080670651801010780232396241500901792188407888195429274688782099533868510138973698629363304239219935403803766304182612612914228145724883110491116823502458215803205812168907913599193868453012547140760442583129383442824502558718806339340627905543962659430238545442144956705644872604340435834290800445822043656375387894692001086518510955708670266366101941996459619664719542703704708781737665262936274757897449350323522567820737479270211248692764955034099909220344024236320727382969787693732964555350106347960607786067310815248970674946289490442965762909384289219400936103965765205808211298012038392558011736121137415701947372318742071204880280671109543811004074522333907299700674844502650211406046585753408280194245949594402717698979236505541692645961663707853159449399173046249864011028497905623370480591516005030137731809289824231890419,
  59490210830306001620571165866831062143966169739827675238126027508695285493930951666674588676067616964726449587896147189350340546240033574983053349019514526326507103322701555818570472384826818418571486540979811334061605278868539633847557879468117913735871261449579741471194045832328077203807683547301606851960466572647638462645075797333774919563249788471765331043084907266068077220498124104974597903901566049527529627319483473917836232026667904540647045708419964911701671279550153497656327270627567049105735472954380088465562738214422463100884504412910613091156362820807161043086733127534249530460183479302980561451318401866746054997101832855629034076923313799004655179551972143756095902461239593576550631651686456277443561681719937572324762663485920147052323819424697808542483680310115485666035739867763009584426095427665288410194759514245273234666947410337520719531341593235325664342959614521784821547404414422514148821534904202572061764215256261071001193594153632098411182948929412501270483125466192964357999838230324517593285103682917798347652365104327909937810,
  32874420309615491093967361158120096586359775123534417106855017595453788214207966110624822549766012690810825914670057370786595751594589056658543563019535522283187262717196280429368991652457977072675398701086660300007682580542917138617303645544539525190921858042425527978448797525845745504212544928257953985898493330579041809480316609309755604426741072440305553314801234517404074308728042762354485612231362359091899241584959824509524456607765405413765501312105360696753635531157351504325611791771187379416251552713494773194525183670833120382510882560369580810715139264721755281752771334811931768378637918832342914103341253678815607092030061153301024918208978925155731485697806861920984868859001077256729366066998221583556917021626997820622171863274856991815903466494617610106761633863529840085017197181078763288098303519361687604033760605167051268788416980629394720373559131288131722360686334818972292099266629320496122179940483328104947100976538861081271259669947346197911338387645687660029195583100779556554560422186379977133606429225542457460094417401854052060596,
  26944493785571974025256875308207891385900820343402817218080984786695508925311764348095655705591203967291682735159850437546214922384745020822429761336431909193042452617883840798928724379140592412734995090398720345396019315886956482267891451848098835697580117154212515200097215062915312322909607810156263751656010722740824698677999277293334576921852154910533961968742379310043776122216766408765852856296102145010894016294596230620924712930022112685815034494879518507318469009519190423380672438392281249906625440425237896123815803986305990088403252299580172446230319737987272961422575619843405703039249241717085295661465917677992980649220521875582819110512100525619711898094439823622342390405449569302264676156216481951199397970769746458902743558427952319645933457799965091469319041436775681200788513903006975922946285733235584957471720463261098937417775566098280272858634207068373933594929840563957773490548811104957652811602091209815415212945714744019593677619581736555443151753798578766495847661987239205160499158011329164391725159882252988449980652986117418539250,
  36437189510239603987124095999610125035866654747719016260087553887019572062792979314721651209577756468129465842388271891995514655755572378529717454597795772107726404618028527965238926958564088837512401102301436708682780106796859388851985171432058818038613186777838425253029691273666081515414563695002625921242462651653060049082417169335313102532210355189972704654094177068189417085001416882381491918971940214459683687613138718731225011157497708334916046729770085335325166264716770046887909311798796468414356150423590847626227862602093481280798321295420747036277714346195150410347097190651873864425286351964597615051869022607699215308225428929173287637654897509604587264478605334477435502787156056629230579817389383391808764611837542107976688824510289845199369769985458323408962277428586747442564100013493904999590580594053587141760970486855490576893348158063565304410560105272785938920733234347321550600809933708075211643165589817389655933318249092094978157494952655244473314654786346123904034339393156246262713375910997299462974771811343532731054774533077933982788,
  44306465338548474263117780901685730466527769709719682320280854032288989830700830414676382607850387848766026550936327919241938863998540914154200715957157625562333403790710840064576178552138957832300703106132983208970940263418342887265137822560904817842109406012976000712680618871447961045152393466165602550195892969282244812359837215919583296633991399863555474009990876596388382788256968466514103709166800736237178199750435007173748595378619762063988291832577075549280835158726296897618263258346594391558415465614854675820017018323496174599134546731853262110989493691942791414284352834860526009802926216937304205431416984545394333893912120820547753328076203433631944246468257041091521868320085957621586914288481575203648173557536687439638249227205333715019707541587478873646401654505082093072908305729545925649650196993064862487858293169959591053984774546294567196119220813876495815469018076102918058950246992884332549884746695022882499772333838701361365379599237739919967526066429972925397598476830197340866750068993146427941068033937392025716008830084070827187002,
  37260467407751877995694253154239040903309826131680335437429853530485602556153312616945068537352324685931557628034385474833943656923557199887423393445755602905077128796250804302718267848686610202373846300964611862804630949903757972502307064128450228517147843839645870860082639860778916632500754901446987162295404257811745225487983194792329577418387021763204959618869078752120660213877164000078902109404740816480861402885360556634431700167751579141770383732351203567742938323018303405638474848572311028363155176463639338598451956312257445920931193057551866083661873660953123535749857216829052237076716753733787958197599961169113893378642941600378758669272101244548308567035715152885354767487722851350244567428620972999394243613556576760931637079589374299221720489147237342632111133362590344063631325338470706019331214778184395679030152900794163787169562572766475078505720246117059017054367604471510327833388592124652033614009853380232575015726044014566254647044303288379881042520345385719065993242161863442573235663753034143036335979842526168631825397299421774953148,
  377881186411409744346139838403059593686930370818549620049963273454974448311673182683549930816030486571825244591566610907320047487565878684545072973557167712847078274982534187704254232174903730711870059127116777305028358493777433678367390407009310732527546767695942504064452005690567507190326265575600239334945547166247111326857338176289697568712292271979255266757581217940464789435431202837597775118586424986854753111061520695473531472190687259375791138235537165419692617202124902517268644291197483936142859167558448310538400185342425606308344563799565435651776456276423522279536315455968130107521742292945570546659172664096839998305126797633151321797859299141860157580746430240550031290388282141327742186676899206356752020992949652098611614516267896282079950947549376575838066055670554135008373893848990691545464032437781317189214145646063102565126524371573536405551524185024041418141723340406885119742997791226829353384097072894020788540657624095329723662074634471291697995044259732586149292281461542925926498553424743770322733082465756966010129046440059570995,
  20212901193198551841320643888239310101936048411070730497681813914065820946688041798804770373243483849057725545033210292022340725495156743332815361298524729683344415712020236280577924990904066878408851702972371331419674082572789993794319544965392116169286691290132908642548018318514422090404808985442599797145962967409948809621156814194198461874390342445181751708563862732209048746616894809516915549561065683640321479826581274139270747847076657731014874319376892659336259749506995516591982860600183378289572408659440260843245352843887139489854280953385588866194464133283944534988322482282699698513408095876962930944730189106778627286536095350338962332069449664335287476037481930392072167955377589617875712622270441034559735140786414550374597844572106655250912734430386527683214831347456921817881474819070304237335076756489797302999890821068401777186683460594388269746860749962034868466933491355274422658919040480761661650610892401679194047551134240699088171531918356060222508753561007728977147329890881005241203994158911077309120197575578599878454856465883244201022,
  87753535712131351238788847296309242813384703665322288466972191195163788437302542221259187948451908823638106785248020605599604397897523604740683263601689037661366925828416547343770996609797891473796374413613735031350152499090800545389980121335661460846294171767991174390942366632480144960193686825772889572356314884487978024575783824991994452702942921469410351022782800963813379701971561629627569649513864311851721647512945965451333468441153221349527272384785940489701236528672788930899908435435072618122894200783886770521465362170971531268270697956021276361114730441846180276540120355758525544551958724676701223317640243087662633277565822039219080415195632654762839718522233446962803408819410600295181588345682483723444690453768421709505854164555638933575218279786890946772709615677031603635617575766111511098253040224425374546510249858032486685778631681620549431259739293421620652280348906591506231435131900885715023931503821634003121547070643820628748451644562621294403430241758109175005636244664486894879107720389481761244133303655291636562238745055193441701239,
  97088486139708768182256625905847045802773554385608308799918245983219464932267608055661050545681283118906956298863315552060060303852864430578147529884300241853550476850610580752056508758363784578296805785679635813622503976797491381833790731824137151661520831634381466987619713092778993713035175617598325225366844307736065863546458076510414092875283079673182738673465284911940254871928719440497238997288719894131076487089978367788512562441821757863093377836250489738183652623396062933532101068322177324072232170521767265991626838059036644043621633685091074830646142709158255014744076870569836305675499128283137937652441802356144598984866850823753009701576710810755998821225007413574673831645580405671489751738548093115181533694190872957405145613038244024218874840583902024819182347588200359924714558260870626820195336294712989713782874314826495275493033057653503532462456365476958685214749563895239703931439002200233015554536901854556155829599311327648675877889452163724140991267206412628450362395141436121963020660629346961764582572752282676092420400171397271713261,
  81510327193655935541924085674128709631105011142829685895072403327574878357718195235961349774137308584591745695508015650378287274403107955318179813182069215020490895357544161047185785769162251804501732783436633228803534405490093855497009458824208603006543060111156457553977253420699629078619126100145722899481080670486972734992961547416287251920999901530476830265973304466970153021194792592799658777489930399043517086073786523824858263159232086891862458299351787094941217276952214334616296389303052970269041949626438651372596681068652931915830756777669092753222888528351723270370207426122561791419161078563599136928407656102447802758598146087866393567542306263420289334432274480813545603902134718103126781151688710128451616695189785102796516153600930537993809899540220545971915112683278126182042311381138614774017513972765445180018960476746020645973351329239316642909192975663368218268388694587741423095157400626622032579421661672568131170380966922500918568527219242572216432680887059501612342019979818964663281668319835337569984307846977745646109288445880420284998,
  54244043034219884125175857929406544011761863482049249981860217194949716038453251621718445034347006189553930822886538843974117320906397019157109370286986668677305959533192549283680904654386047552530328593693023849836413730112269882792920285925737707208333299556096838534266344489152099824665903084214828493366534094447780322459079848289744202763885788599084774268810789578484576964053041094559859474096479098045331113164223617748957086115633325005181009717222174018239753182122580475154518006922748124457650713667052974499140610245294811907126696569377829539710172253654004439329281756853676805773286363580353832099606399327054520987883318343537499988656016634826864090049793304749637376609934723183022217527439362519667251048903298977818691337862819003145872254560221466831347235735722710918360862362726824063015647037369413535420948031681936701349852012554132083371462234988232653255457600164897910744203573994601090081079953704354180038412962265564510833102662571605444895483924181274751221501129813981562583090802052863773981840933586874214867591279703874632230,
  50725122010144817216524127574980055381435680885381713462732141660104875140352452583392308176191777104256720239694745196474583874663759903813520070962410158081173190413913068501033439659225758224066437635018505859253018105617148326472697122676393472590115838698418194708734426229420211964817192007326325855220036944791649835515526047233595889313622913142064621494891776007512373126852533308880032753207188304170925416795374647814877336406323803648119898384426574210248865165495264783466910385114290902948418378943978215944573998056961269034262787528412859890257741754195439106530557206119267303961121072555387930507203921250894301475794061853980036818383711391497455446333574858977957496733209951942618317947380159065807027718315599689432102511921796649784390894146005246516065960023044855323342187006568100098587576516987186064807043416639335098745297425686095866665929914257108934534682464035156707078384724085420789174501105698147242439555144648778060930884207167696573057973147760316396709715871218411115857872429427231853841119275692388150261653218685774863931,
  96780886204892321669534215115631471384065635311937042945403202012414296916073272581674782333127892597275305556135111537580110595675155812281655822234641612774455838297686144548081809237131425924451862849796930782039379778272953039119931410963209376467300924507363360581088567026746335527419740931711126163858376134153642071042550709580578508429933071385217191141182887896633387292847235706647339708035881245084811798892879741755136417817251091118170931419480262423338997574385859235691034281684720415510232397171691778648368275188687560435139009422312487704827901476403206988801017605479287495402223301856562442110845355616977951771297681045074203625809690769621808001668087609115801672915963174867174977827485793015436772773061888077344371407448773772032323156852409333470062736956299926874883159732934201326347647912158848862652080271625896508100098132794314568966569399360137812523147309740490101035739295160274294640699953692333543329311667829910657755539245099617517209446749374032439872598631792832875881880552605171059357207669682564165785009296448216670368]

def rows11 : List Nat := [
  53430119684896390162406950448182014509142284664156615818744069518121827784195002180380051527422225462499791803489570468586027217568551320930499091365688608888149703139510365796735723398877560442933624344060370360434950933382815590812987825532387358854814209509464332369127396745062499571622092741560619181569163722447111318518028999857157050634373446726696419261905597775769606320698846619490609540063147360689514112328275818219110818156187366917285063671293572640893178425013942393620096459251805432656781613499211690996500604406978381602792961539173309176132157176467523713080676120976459675249019255782224465062200155597642487560526948749385037900711759078469307254722426196453096125200621552236377858890366185922411074663924968886016770499507575128722280144289707566427157343793157578203230121828968831772772495257435373901081410745914222564665598072831575578426448071122454207077144744322412193489148407808524934572375822028608693088911043866054821959009508521582152148821969522797282403693348446364785932429292311907323560358879106180328935057992199643005173,
  878033349766839572804352988827792898742934745741989761397151358427410447633628502051914225152013211791766617839763056984381547886286532973419510444408379521947541352915679255778846526736946140171835623825011985052619430265305135676941195141726652285513603288174424709942136480431652517861780145559952580780975442289351079117640807025756470305512626302569218017053836992313811934067425551460487644295816981478614202940205462024790951929017786288058555750924075365692211789527077132433159593453374348371923817553912291006109507143767639666430870146137694067497131820884153258480464982435188093541859998598306817193697342051639360982343004161599773836252492904088376212961856233567022742717151602158355238619782354882350374921297544217105825909273186342563811411106337015947872936495004049671124794715117319607737991914462295244352059501681421377953741913103002874631882396013932831499363381666226547121326694685979002409476680921654331073672943413705549625192457128920316054931370187773943521841206005310826138254824386126703705127180147953784400806064324196064107,
  59007702263086074164071173546374527540386126865041872907534179419019893177370619492476406291488832519765078362380722395181443144554765095792525321865402813158180302095136354779887807613707886399200440468836617357950589728679956126472050528909409625274552476898992626469447436535879313029466052935177512753374627480380450997053884951434010953493433908008994875725978507923022267795050820655860575917451026374658610803721806108780066412796367404549358322342477826308554485249851125673553149603116586826098680606470831638789380515021036158013256965536510448801425945732699999316014468179602525441212468091957005763198980307333370693892842824790260208324906541799583942388330912228916462078351171679298860966629647483082821360484860790803065468506330316489895852153240636372363163509187014451742304322342010834378474747963434132153682112590598472517516381621586870916501332292555713124203183154875251893365255153598455141114662863623463753570114985538713861816712192074996589982149389140384170397204297413568321503203760937331643621735811749196246868834421793202734917,
  39213198983281872258661654863841697598087051608781497004204111659697938570612999986304228112321033360652198232476199949140278140890978000210268494074643311238987355405147515848544345307726887455225815183663412162503718213729721506677815118968615013371532639834546939796682576763600515921801828440164858828255388806038932027902501703445276944250555335929952879466084100585364646301371028268291867742955562787654019266714320338225347626038999700243906419363306689957915949869620943585495826707846896945341558491629969975230464315530007064052784492788286633211447688562295233788735345634577301527110049277376797975152318670125734464556212918746187677732428052750355666408609815632744359225755802517554265002811925414098474986572700842369223192718220434784637099434505383079590429945337904034513604575175569695036668205957097555193794711243655875067541520276264927453580914135123139880119135877799962283389509822547848319490715415932094020001568441605006004706004037995622279183828385821933758504448971706993231378949504909026454861029129427348683791032053305120075991,
  34220183397362267190008530802970035291714074621837830877600729850737848531294789087885519554241691160765510617665806328961086044407457551870573175158822950999598119174960315591928008830936841957870754072926193679744532543498758432364193947905983215987480725505554891440470093457383170357248833442806471760596688561054138103390809595652375613603149344367608562015574222734773011041042181764196611062143812691784399909162907599831339306126617310757390432627926140237056560802017782590562334205435279768942610944587420848234439591327202137408096333710231748926279838061331123739995028204499081650738814010782457104514368911364418344604858349594436118872967066634171444673731759872376899534701381246655499332181289828676014671589532183203839473908220532329663932105564590673768466368979806576930541516390226961461901122588878615962825758010395048418310919518689633595328730559966704194595079025057642310912485900687854811496158850109949591395561729736419733332194074810357183199691434852522843388986181380769767006274235422602077764756179849392131417677410089831857243,
  27975347345957752688966004847215276420707814446490121535232063815283171518607906641062462672441019071016575765177770398395626346128558541442046032030291362131778658714010711912615580116084814368151484832136631419538080449847144560017123238323935928736754527944792436025371183492923394709928418475998713690776372591525107285709031828542680712557326041006012855943361399080958074367248466950851558749291497849996400168115523305049827804455868263637562900033077962742176714223411672399772678595232222848828900585343118835380536215316033780573229681694095264057627398648980673463507724195259241039702483180263805755038351883221815177996985817457168682367159248033973531723106854521214550273964610026358744710624509958910759281827979615114520893424150695854780803109319634949049145456937048557329809743804209334557218462088499677378576413264984148490427154729350782846034972438551981779965424869060575526708635424554577898435475770171337283714838689550040629973540838925569600382608509311657609880590042863793827532652058908435401909614023436571787678043853708011219843,
  39411464187982627760424612181175767240988059733541246177864393647462642629326450479469552962935404439741214100835638980476861378172229944704971059937899342179354494408048373937199281270121443036206539851458922732537777937551757056711147194984400883497688060960877737347517557618320559835396689438160299954020505108103899469858476550864369498993192378401889235285073952072805486132466394312470825246473712852914236877506456270342617355441528319250474192770596182514373690274720123840524626842618170842633946286473161022503040554282195133157677286112149639708248685034092779897148389781683992356172800985071309528278360499435939392604726438374578800784848039234460046739444109348054401042552782646778085600511184237688210581357294631936853146140786605352909259393529471943062454412609118624944352911384119545440392733518659180372238841502567518259936173910493738796455814552783943212550652241766340147387184137636905455328856355188593623839474560598878188512517941678449348290534343520042544167607305626024600945322376355940143080362471297963478829515865236172041134,
  98655647396317625951980590212128683914623565232782621171057249151052321880561036853269990901932520019571449963027810182562066773592357028930998356793565723698262242293024084385336156140761512433411996665957915070483130265020594689871491858657474883034553163640284851144599886037739707973454172200217055391527693450225999237453935838302140850986473784328407351881843622017158805461024552147265168092752724986287476492741296624702095062680665457786890395209132608495785562378961823437139188484130352837274770409666319113140860508743574618005974719122233147864222620454700159681007389551808369810245005087656774877969555589996686633722717270133548805960459076329425248196882887160233140470888643448659846999705351306095450579057200573735913643095610991542343109524798980910104377127007781131966496283748301580545621629328279022470202416454747079485013074014258226210529148241626261747250230206201207014398269449163901663799570638522201761630983028428821088329884122526136619751284027964941268838436097442522825112935878239724712612073695653038957202353368175536864462,
  42434850614938456143227550041950090948927991456404830241599362950858890849663318820800778256407877870378176376708510737878381444099079593484720226187352964802563645801533023864166742224302323374456092155341394384175107164014409139221211458172760255214509223614339993605448917278730208801524259801253997782919278979371274147016427922607627512132141067386210325336582229342826492037106508353632531829277869472921664440464151661965593189468907365848579472829889384391450620141591713075165378669781350454560889281302986709490821795288068048724311990231795353385405164913804693365118562776559620909664118370096009458889022869791836735063287954140559256833451523131488588123328504224155805561772994543082591739608398487552143212477661020272058380670130750597970390177573763250347606663477918089156496027316371203488989138064186050273450052587457391162173058997459400351484500172969356955020036045811557556480328991509318149986728725244792827785111379060732328537014350651051911367767081805124494601785107204386369879770436382254062477331569243624332184791582404718989862,
  64121561791238912464068375861265627993642867563509138971849681578097076846642533583857027528428506078396693677650359729866876196266211617469590074058495699066493722387879950104386271971145236727794915342968853930544882011093388527135553037755966071275933626218002693424294993207201199903069619027461699271655804768415546621630223084198532860150808393831307594751422935802846742577331740273274993607433497288657699466790184774585010051621106326778006137489171423205005360774849954775184990369230501858728226323377013237922372445571418468310178743575515340779024348296585230161567272119766540553676141243229508560214216056874725345707510927892603253165068277647131452656977987660278026981541441666372618549706428496561040441149539618634404393531316786108016849787786913797163926050625415944666268483111068624457171893688044637306621643832887644875844068763895921210244814818391130892346882592948389739988005403148647723841443602492380281370838356156157580099800858866274098929913016380574548526007156413264071716667707449213298748879850986755456810717594515927500225,
  50247838963772500425720898441967727933448353019427049052318136808385225821467283894544123523485589316912021059853644711331856964246295178227118994031810816653331881425220986400987643015142877981887559735038630816546141559779822655984578809851304799693494521136226125244031734003258924717551660989992237788669891033437210637027781718153787304932760981899755014445512424226019970929770379747593054405826264942610740199532441433205784416113405707313806767553359482080212854428630117524591138364134580426866225102803942468983702019360143707327859017201131860613657425773809860290500693975407382435586251640184497389667197109494103878384805542845829939693372869375795107268152093706765614283889175964657639861045029388906342744339263451747759881518366780114218188266241563052590023506125212586192270596402643494338203597922064968158299824468280898955059875993016559126703045479229798312906440832749563855562282378483094172271758311385343495840194242043014496158940942071120650675724961529471248666626633304923867512347451790479684919663741567679571583008457916695076220,
  43268763634849267887713575530065838422965576309847089257891761240513683023723700019473570910752049654842689448987120024416915066338537982263673719757010701781221627988243835402744230824965839405812363817284715562056138314464288615576672179234135493211578659479776159144171220934109573814584708114890129801565935173686598396799033241517159409130058199354365940641971632179891050968288533372554967792993047189922780982593173758295377137257650466915557915490497655540217087838456861915721069997581354220319993522766700448886294386374832914250540697281991221585941906623235191542743785240251551978514850130127192334910759340747639990513499880656393517597814609200989146777751857204850463615153052585459237499054367065962123840739811299460471774357014763384940731088776976478293182447924940089560053669530793810813496774088531405551168052817539769263579510941674408905355490400745269923377496624425591312601276341379538236031828491420338020350348656464053492466020117513410276864866717345861669816953657078995343420921315015651724486214223673134557657835983828769468619,
  47678727226287074251392329392645811708920409139301265084716169984562569844505143926871745279084545891694846263725316339181511042231586062396759898346538024359426418670460792625791019922289834902736803975464326253235165171391214650349877567298153831132019990470130128269849087882261714336224510071222243663278308286213186969677528996599136066124147350211917635873047097881764307738093984380178285390137670892809775742764207508109386374904306812636979342326878133816767604662119382442100838814221389172641147390532469705844033938915181662981370369586398313791758002843351621727513497915579326031422597442626753583661995028582758882153703289053759127953606740608930682331616673683490669783832979161264930589423452264319710383754331005032969885662008972842290577028991090774923624408025555478088245602954457710958091954065626720130813658592997435847008676470327360490066502727059302019640517223953265385282909649700722933746619191047611015432750939646392658571939924795963565442857892151944311542225830856189667567028269140477396048579959817250478409115062012244816101,
  87670904863555724149203950515760334293715716035096288656988226012038685605628981513168184749915802319561728093429342072120699745289689015346588568294842451061169986814945344341725441965010071845965125098996105779297495178298233743840494585331687722833347211489265156426834894625410260789592523533347508920053412277520532846524061100690014660515892097485868722286026124399908830616697606970496639996456523467738707155300698716101109887610847847968433953294890793509855264183160218621426487743311759262739187137750322104564826891708313222100842443652497689767774965986842499017619617247163602578362207944277115841344161700286775167540171553680231539579271612113638607837391339376523265300266942849246438665167640209028809089309624761338128431006116035498415558631078944669532273488058396723142606547341589538947437510690495309837972590004358898335566129787997161851546777338856638426237964994632374379020583904175117052464912455584578172296634661086341890269776663474655516822388927658779408084403783370887634267338047804141130417923289623441917734569206095819760562,
  36571347199705398730893864951247986495107516047114740501334238215048255646410252480994139475709704248473936637451562836874968966248383457465157978592821951803729579350133378113802382946116662950278418989550042205060783561594722035331726446113678251533000589222948665269527269361128882402169471044295882568662004922440907408251640862615492949143860824564580883180388310089095348787577726275581772047667010018188287024334380608700543692494017366628227128653714923694684975721496888366654567103453122842178982487642376909885754617464889068846985019473567484796233188885412396309524965156382117364473933368425110188293416617772408387877821888458542492785908205356873872394663013474133117210261783679249243526323026105648614536940836280313489615417111499888319863949017193937248525415728242017512785939412762067236990125210645008355090427535406478651322039944044701313293651109970090114679128375929372283797756836244991123631808064029865042065400911248832772879741268544815496355997830396192670641720518489772292686912477657417936637717063341999588087755319732231883473,
  65254615440035675768382712643321209769565955408417380628569585843390383531021101470868082207457359250927159100731878769741439481477533591408239817966914142608167013031036794454119057241704314596207426156088668734290260534422100210681145418359343277434357760139297916199725745005980324616927426712204919073058824421753883254083876728326047452417615704824297395561294904968737671835668861260697863710684458230639250718104029703073433870620110234045315184787757235685532310820129760255778321614931333033712780538213126549956342900789218139976049488639064605613322658107445031712616645448812342966641047831767121079234808110199993044859783964109880248165315977209830979597078523516425620176984061667667444124684964342917575957147046651749858506522148340787615561863860782865835748378025797303563447756001688523349951357777991962766579367757887645449238967411022779546474081298597147579158377569764511190468216274939761661545918418276896180281850747583877588157693502144508483266924045643057904027073926311013427222412398531205330389017233464244642360715589284513496540,
  71903884848291581021790859022712424418770648184086370554975920247848993023377075949812870025315921103834277712294400517867863890939024859248622684506501663686960110716834088760388119995639039687525837148401708742889271877869382648861021736794857229979925968628738485899877892157227960993875677082989337042645000282274468938923473495763795758911474237548257997569047456729194929290965753170472908199855645482970497308210990388218724479955962603210289592319488879839938772572620473902204732705636834300008483214999822045756598127678752571770874600133911062958659137122650182129704248338039167633602331473257310341941804360346071185655166819517075056548918698572298134943169106528514925051894179553136161916121027566918743623895820441108755251237891960412671973391531088152322297078808800666700549972128602771938071648944795312097509852926506656733698449607329032759927968196466817829716043259950378839782903059950844585077842733552744385435014535847559288402361317392231713631711444658367856821555716427547514540924539039521159419416355390081213541376589400155222279,
  26423578225629178758539833725048794957056228455047328160992109022888212086712399980599928369703206283482960801557941715749893865600011430672082720512263912575807726628514390567368526697120444011296937933497678907310066333930152973141709493835242518652334050077097875102565492546561859927977331799659057521132758737308896510687552901171083967549707878438043245902226000974134101943173396499019540468652856175543620038606725354239561866745069729810940626423264681841079392772139734647464944469160297663228488490538104450634200374414595775238638002167499910796785355930013682353627768429857794662448903196167232856041355395930819364666822053936869468608036616005577147061747948699675832445666328682578116935350239779298391920370601894293961307798732880151367363455378440637515618810899253609158754228646140486195357857317064089066648166416350632262667747241452656782274900585775932598602766013790863442354914866844302965236204454155578323049724093620205439167575158868307041885320138490715900284103246588777524554719761999765049091277981840693786261399203780385742653,
  16712372088828499192987993414058807073732202227578114045972739322301323735830955769824839570889604716396423792920734563464331058758610051151277961495389130610851029935380047239949668975380851428906831224384963213198679375693230205988517406430435464470959400082295762034997727480157020886432512544397412599381191114818821840992898950333622075859194207645251019885284672124848092180574453372017488837833800499314617075734126559010559788809561153366606854176026574241823070063829916138050518081770519859081582404532485469872897213838184827867212550006185792734990612024871962816354719233210754651378695040693619106138849474541298326731186550279956337854759931054774467017782588605270562281835946326239377765932931406723988422606235786058462204330073529441237301328550095402810795201836442122332554747917742004861308986929576965214257931449258274903743703681210853529980092234009283492068214407850904492276049647640894065567726570772048520855802496160430802346528940939784152334553560836728444972154295896729235712941291904229127865956431363420943981850032314944437679,
  66463815965948983216256768042419328930423907485822926916802103019401347077722022597522155379490155837477228183401868960795710217448983157867724805335490140180491532911083898586259381909304780976092115411536251923414820437958346641577370418147513811966422605847293018526583235604263061225886218757653797072733028029963182160683737077813845186571768313143192703794555098741521776325948157810791604164768454484296689867792008829442636315446102009742854327593146103955399245828460118978785393561168237850108949676655745254599084251670705790979528146570127666407471935046095596065876207099737655221124143470465052761354730600626722019761329449771463593215267065470798848862212528287277919963339416143700682231170612953738212316372551249920830739587630116521215135088526068136270012813632987630670291703528387731426335510680027174109669124323095944815652003917082267540882083699549120735001677799760626432067353280056442071413790502017365481520162640721955613829285347378112653804589101205143762840074567078989329519090781767392758779867680743150941928249516733231321920,
  87007091630038489135103572026632228486331647623421696731710095436638673988211133441190796465284893250783161502157493117371738506331915413055190405864530341350647820490044563628827594945420211645657498982845784152061319730216593455309409143181364654271100616156407735654534880635551219944314912678669416142082865081186499821752069808799897807153604079391994186433217474540867192696953834480269514482251487135156865833551101819985136075913550973443783576157031657187066003460241598687825477346583975848636682939749153437634644160796031036238796946936769249243850113747703548689596093332450905144973288117288595352543096752327165033843360297491172480131653954444659806972766689467102201936302647951291510830624188462403922395213863526597605817867313737647877718706379998238843093182619839786400278394164737882678974157812370291612093034701851403057275124625389036227971450801677483064263150923329150535858320387983645580600524055800336602753844693020969277469379145830451517123820745517530287094780712982836159129241564355789312031683725186825361112218191639847870655,
  6778493209798247517905430823692033979373998445774600954379899389315924755051552285331486766845891989410443799466135463574614749642758912124986283942459684078118163022850539478353097410815302985430828139201468203410942637976698847300332355688461492869091549694282473122009670788648321333595030689337532773521945780318783068255239716346966630825604525806576774373258124449445527450331212835988840828390175021669428369650086983470414277650194788330174567315208390758584188106278031744435767957817398825699631273962306930536468899874768832518464893353189911853896557262896434840174640449744880433220890322268675921256268708607989993301342722527936214686648726759849645689783578853648717443144212178750131609521754739914674472741251777390833744054973855201909335662630651206714456298034414661531976467779856620182250231547818065550380478884356496512679656850798781836577959272099309717695385715151634704373215029917685697689371724535544217267167718682261810959135188788876847067489143151998219896604220226309523149822904800348103173432983160660343356118727260482823492,
  70337127776368567157782315122367770032912594827582121891390352588483630730491694631257314352267814458404815675916397074200619144902826381422790591399460155784257220355741808083880701906999206533339141864041444341299014949006968300747387976394651733024044482220619707774917379527760673015209197601000762311773909288735707403285306096805723032415077455850431496028421636098075345826748204650071705745688545618735223968612895728811298902963056797431963398482413122250777183495197999736364575973352696912673023920141131151889204635754362130730838438458367831793636081897110106802853270249352807554035200893234270496200661208447058132532793428876657010526316781719662023501513467632418845603353842796726077928707641530104435458424069533633408410124151106747950489801182569708770825735353828797174778895993248479057598224130350496108140176338492023097724520311227932237077500957575377846961909837574474326314455721757275782268577142145170066093494445212341405808339548689285058828932603622704944866409564967833146538415742700525995412426597861588035550513192505768677516,
  87246859990739866346414155551874174148443493251923808744082491896919625652750736599802952186936764259555022455017323737567227011550833941066636385574242812638077565920737220971836705823175332179017206498301277817250349283720049072247372888047624480589700687934569459127871919453354492907523778514777163585942002463133758418135442884318281053576082398473761488716042270732244711994363416559877681392640910357907603134653620363207135331164443720215314490632288982311540247153135922249513807255898202473812803530821440835032184851058754674941406766336390990535248194213319046921733347502281862382421608612711764704851178087564306789334115880069956375439417617974817110050604283588698309779517735831214700044354079547649179402417524273989414949159506298106823442867713248848029916386931384289759163222047233900179085357999776503441798809486518284303241624262425544185499883580454668405147515440726782124637900293008173205841296399716968978438730742072516465189700092070734385118189979619454002495198939592047682223421827147329948949893641741123781391820184922429534447,
  47412297263523796242026763820493661408970334301589722643324527140100762338274789630436882430145561398095563494276596982023953580601465555681585766580470613091305465354444639315678006821957752842468563953500059870085381812666674424259699568823319138138432621994876563558266502823373587441117632842145427492510374564977782405418933088291191017642480062208179538053256595588600838224392146227752717056164861862143019184174399174520065319126046349278226513742103780274779184247765167521268331161379016012018345357003045971651132805818251480592531710084819652676386220360974165021339530750567232986795750642062588375313836585086839744433704760337621320083109444276974704342684036757643471329816485862538851223488228186947041835315576815863358723105314171112617132064838371085004934734815398435122618390135752919626568005722681655183726112990057367590002822077144696113674103718064334741867721310130819109382192633489380736600216339713258265882311975948832284012230731250016651882219447019309872320244613768366815623329836212678803880052872352846581727772427623684051606,
  65335870603135986939905729469461714301412290832555927735219633256751958951469540405853694926445200915944547997092875782883145859100762866311796200375383255841128583531026237549409239818305472059471936318853151441273588793607253117103467522873394204104183092437746863792838069725293594728176123833110577645088498194279349762288755422716192046947388833948349335235637986963225368833664437545539577048312984827493284284965746862776007391016484498835769090766945457765955905105906300847722202286916808200368713568051717502929933779569273026658098504185689920358230173978159603538308401397581726252478012902901315228114983748196911507042836061119402248673926020054034847337161657951163627138301557436444910668733416852373370421748512928864199705747795531369544066610306846160391135776537961342535533487333884212244367085823892272312214200045560007369741301832549448185949240179967688397361098812050955097643287236151057568948677648220145778604998321863088377846903063948152858040600539404565274436458710946161680363551478235230610524232129335345233559099004124561311687,
  69048877091568468876961174319658331083916643669119178310548769675513306640624860031000138947579265949251732639566416238041740959983841021500423496048251148496810588494712707995443585944332780103606557747398318285405416682893033245930244124352599731773633193635911410945398697917426384574105877000396171997078780211090959224911654557386918107054808859348123347880291901912385130277259168702493366889136086398763169003274794679971824623569485432000789186656125089534676042040286057000960210874089912732674468195428590944610932509508906446930858922619724016236027976460045449888678433733977257612843159474633365198747452390008216004638471935066090269630899642190708851322209680968183370902769101613391025412574747731372904105202707594993473164026867375133374552199550550137457152741302002710514758026048433195944641343018933508000575355147078668454129325458672329680208786165184693169188292016210020540991153019242874046398069078143374944329310374840226159882343267658637950636560005395817231921422392577196991061190181480742127182815337545477659238923041331766479220,
  49477501787447385696613926304269948399078269666823714490531000471670486268635836904293830113134876690920360964929673026287392058524543195404551363850645645177429652940658277450165683995083917596014788839645843622544963719669491791605780088431782134822348554512430418434134269430143861648152401704236170593105652982583773221959746651472562946731196017243693227516411757480557925198033749941700164037377622191956222071530545350423224532688311399423177010765998957319106197413348471672812648476603928047051110611013595159226901055652748189159156418442419428316602670407416560592370966868489715487947031374104326670355651718493583557866594332539472719195023127487738272096448593653218423827615498709977804517623579114186689280113711842975529287786660841107240957465356488425425652975624672121408192295172246854151055227947506785195085570144451599995944823906300279784421282368312961888371422935266725350755429962664990262054495182358788572867325800583607246637076166270355266133444699394852656010316625071959830448078286637830045621402961863176923478038114212264118946,
  27920365707902463717888967240093056405345175373885020366354411987874363247780571989262471323698724106763754934457066852943290726123454134362017705363653800762000388793056024020360773605254578377440439885525999874243205650185434878936504363242257112808935162720249815932059621631128522298962990460481798927857718806042450330520547819209228218939090798969963966262625596420827039378309811382638956046576510331101418903985340119377497841619592385064030600281039566055408182243059292157592895716239375844960352167325916217304381591102267539733884480155729493625207319632363043815604556085062683296125168453750999345831939833678965750497865047761114108313172658845543580671507921748427946153918576743914656871820595750128517218114828207160067494590924245971356194373592882831334808904987555929386525497930206134479669687633203628383835221196550935284840608555977260307191569753635687171663624919696494513171261941242430543748725812737064537451880846789532633857963727048087385835045237330186383505183508557209029206807767298072450759516440105007703437877813993357137758,
  43732996315255730290370313379742085285524219347691846264454584306101855797153725180654715010873129504021106365879299679626893293203573518228717827299805048523458113743862076471919960289048458674679040772761069795243930953040382306174626993961886105471882818895304747679554346339947258559920927240302366584996134789058020077466896986997879921223109497782898908837567033000604382980623040212523443081616764872555120500267005328765785059244902721379578168164361998578877555904142511722114318430935477738010289611546528849030036299380955455339016088451307659875432860906810170600911012452138481249860636606607802159270156963640303467636120058213215154914298166619422779071489878877675181120051851337270503516082955301486201704702928522577387722884172971193255508019202105989765318298769090021751991044359937701871433080733925241557604803954261619996058508099783468526596302023831588012769270909872434873698983370999095669782733526132220700558317909225148891722556518149205732206198490337091547627128876157598944331036062147124474920193902926273426302548591786727264859,
  12239850166608863703773933069300864532107795005653917749194430463662964888551389986477205113729069352242004843973230186480894097332481495263712879408154752972148817195490463881329480676605079353142926071204020954100329397558701503575793368398879038000576572420000952164823247869670903293680828367251388773597873244959848739984125857706060631982609241142954156073616535360860196142969721835654605094953696109196464935684442337517660996690156082829047447911355226240212950170409501446345444104356660002093107967554145317193803366052253565843823818117297128570351124205631537041611654672337252791314470842397249121638110694078693213658548348386437420282392354519345612808300701571050113348216293195292096487847369486375637792070612204537164941234182700947414053400817259330406104134685278534100555347484245454831833722677542343000819333706582565287681328253451231552841026236662751631202321534568119973430217249872230199547040384636561541973977049129591507905254993881505655623031275768234362368570669617350703345310403206359709539698462591475415993290471917610539807,
  56421773550906547753529832116340359206664551209866480302569559876590369057669082668741717941832900057757962352280157303530402819337597379969013283912009153527719381067498705284998135701506651962935252149679328453394980530612668226082708132526692701402355565404266243102411226213826138953574884597362016766482283494042008278222588657653531228768251518693191284816837925143258106082528403137845904030976206632070008732392022961769628294104839180080641263445960067547282117710410030913046346205746769257154359255079914272701019814065110980005894915470982930270551502338438147786932693434191830784407476131236663562579308298684649290051410483714711426736150762498783465012295705008981575503190870692363618182666525885011701502511805379523769340572437920975502315168589866085965207500581645437226504806589138384294021315258584091126640104237059694905296557713573525334243380928390293106706157073935445161011592307466486096846410267527738629875516844249242705349330115728782201330909611183627991378733314136103031810336860969461897650137154567292316623282971848623545556,
  94649965442653147410587395752942649255339403398579344853296265716514547417590344262499999065379260336420945663806247092885149549358623311285046170317808416442337212060548498194788980104255511571267779475091050369410026110322394493475647491091025984011902028234128903741708256497591256753538723021895075577351943582844925008847609537068312664882399400603601183810188567072877473416672276027407371830878396857384511183446052366205608873192803654168255820315125442675740889508686696535141265467145321204268534616242861759905994648158067852383066914662639050565561293892455635988484900870328843714426437985225804762434260776660230684022714318100574283758201389906527887872647539580456434766696124969542620201159940857213011636673285981576727328448896889209322650503550916668918640617334949358920770922706642011767045094721633037470262160339497310221603878329884926253835109593685684830481507670758245626621113978265956866594487557540866803571870360850011651581586679827884373042579838762055905703807474408274091986489826668676535449395030133928229487629410925269455120,
  45964862624720088142508779243207526285422064303327829451616514464891917027215070123183300111959021010885842012576358290825656789494663001588748715986100769312886519022754109205845396328393857662093756311202321721463920332339528590307485871203850982898785511852008670336940276819508451494947111672780505576038392685903660269142384998944566933288898541322077235035640224657386927102609905313539333986303988269755808420871227170855401719101079810961550275479564703521838866638979470608111082168322272662550887158853329113579511219443432117992520316735947886882655392000301675278489926524879071794249198649457979317283743775829302570741858386741668243482448600837698333117869406467041895451011371411244068252582429693047347680745304861521774552290809779700496345851506275153736591375567863421240929925737521570626402110643325780329587843013525561150291394271489512185846620186933252170732166427288081631160873068897857062220968438950149026717365948650642756881435162680180751463378633519870775652657143791126852869011422542308324159067845568301275372232180924826982831,
  6560855330535123016525305645535131339627619003699933615639734490285053996302406234603290975438675695811594455172427727163151283857987575802669075350200853777859621909186226692400558661007921604446911262716247860332756618680476890390701267014905320976146665045921272615910346168912579038293853300236053719782863960350960248467613926147704396013528164164049095992484480240507032176278475453612289861285592198026548128859242694821874229757641839032966958840166903878362224117596226129733436721949699535607310457037301638636582801256222844362072181420368075024802473517327837680841240201409329926074042449309826855138104303193183294082782393056989110262169922658561062159086149626830623441742526097167260755270901388816920081481741431586435210236104795328314743502273820855936224521555377057000182463952758348949699391251890567431987913356298614943677025193970187287651344725508664199707537920932984815928333453387178899259819431513157314622809741061010485563909233324492951446958676393621084368096757772416886383880507480711529579458200295650336606389979450928339454,
  87269959133283235525766521064545856718703990463447383237910927431375444767568827648893692580497507738881193221086534721477291870687057756763480109767209138548808633861074040939456189265120646356681114914860939314290888210939506698590976445569590491097933078304559110424371338824917211130201265114220363179225988205297606376378095924841118991229203401961148838636091526527673317321166595154661408959220311884392713153387680716619306013594432264046863709492996644012723607937882626265719054855178332216201325274705223169432880466301843057816260096483988622677108397892429562463381704392337776019852720776484622625332333734307830288519686058343253032582746368090539328033069517790506658205721762877537467104355186546717434014882882802052577658517525256412319809791779746518397529924205838822577142315404743916367262237952590703323453664942928744213222578217915295012972268206272184684138946418091781494498390673475882963891506346734341789610755026970665737528173982095596717934744374886807102970781604072672867948509531230550469095741468086335723878450467422808730029,
  36824731096571389467442437571838652814811711962612935250421894365397402203227485564700347493791610567631223363350957336738051491082271914028019109495573894220831457668154898856367676541036428224407199518543385009667782968272958092311927813645984002910775965591204335390952057775035094538590670511958937298432906779713759534941860241435983514988012901330669214823060153533770155326042889313328257626301701436101225238580429970028940894126094727703667947924385998863126171515227431132287962027921608219725880292703099519123787315471421071790828405936748726238450520521258298185046967624277828963518101325688987770640879493843284982615756567676019502344223828028440806692520384774281646882913524466163545770537861158807623315700261645949218796709289467013997763686688525149397187315461960560686102739892842647426772433549072088648113547820855337553174645509221981448599558368314209501186104750193852421085110521098946025564753833194846509693957037309930727939743437942982035442041113388798732132477948029167356570510934482087281085934747311174290916385523164376372409,
  93753804993858453481741394100264736854547165064087377689367647764476379369339280138549209035775481616266403509285794719442775846898637580193679267708833312461560877555410061859640462686634997485267844170689056401532282408687873089345429069717769208743376456642327212081631924113818861326159890294262215859652063028856171418753957457484314837202970999871469847565489938050032615358213069859586496238782779240174668704884434413138260226344623918449671816148791971303326106843617258541763387513299898845755082379200205347311734933178845429573446425183054378842807159389355121150679161108640758002652419728880287802456086924652885285506819850691270754013334554480853372675752212785923463125971204428835348423485328077594892923844204181528710294420519661822217119177392730737152755611186890744780699284070928687532256825201152213171374632613165824310858274443974140303367716439994687413182594209032272263538288625487996137194120299955537631129109345615538104414757668050631872235496443793271969134838036251669432615499106831818029661346891067019718571985783431015248872,
  19565510007187651384251712692964834957387294654155911085742887063683899262535176911986563866998297945346269152915726196220859619415549109638543940456505001652066802074721664807408022178992842088424498097628388077993292837683076801501520303944261433272877426731778031841564131619605163634708812287016886026246857738734756122389384385837556840105117320283502969333315322786956313486184115129188496357895014979855095631466736268943004252069383376917379613505413320373604265897132431104233587289233460021937428380898489013873546506885110839385657126641722154554662609569409189620836128460196779832220873249634954059038106310585388492449117115222525446893153285571846221252384915281638714041390799436861894802599865920627436770142891606780775490562590714321386566048410073175985303248095967447948885609696591430200614849863218724115717768815361471009226599272607541121573960041675816818363385563577938665239072364692092208575466621612165387447678033341103069819866204708926273879615293221191945848728619199783026462817816471630455917913607382224623727828126920762430942,
  38268706075096124807640494283543319432522844122444366838103904545921130005267579622579923639497045088615273121374448236939618353433733676350864290938799086004557223714638841058843319248410617233957156985224490328057005225854549254640307989466585224859627740736739564429568866820163051556249505645283338460782512372212617190379937179656191519895273397085675687383040254515398314790111866360282860119756768410901754698671814960336987669420877654020553079665630571350692995630814507509597485323549670942654150722470074620046160975452052635205965866810026528003469806490734800040872678865627926000202975825476942980971145532905189169428972156347640512910444293969276150243233491886427000379065756368033292534199047963708985729374234492832478582468991573600991485672290974732000443148650115649623756605853909149752526504782380209733470513900321764444803672533326812057845956359545129460959114288987884215966636735706294656333963413519899765948983011508738603744712751246317454016541235096385631612593527519662839409875479858678198749536757508942515212808389469798562917,
  94469814623055360213696140339468425692320858567290197878243452904666879886228987828436287775632708742523536582943639897718854123632539407859058823283465275359266134151335571652619918494364315225878529382987209772033347701678623555256436526655889784358668130226511684597418511207017140634693905053888005747083625965966583369286906183930977003756254472459002032736690817511525291951388124115104186267240757625508688713058384935955598761082686152830445700434629159925179870524624731213222816141475672491886530843499724747469373354628797461201801575666652923784381160200248505380263330380439091572670184481251747669158708624095577906634492626460178217708867950721778204987519697557963333670100910463190517571306984293834434063554263014506905438530729241587293408877983028902425292030987848039912382349690662285112454392977727887042262073449779227494688463398083743079911133482171069290897686458304287221997083516593365379375517266981405019404961005728940242317853642041096337724229636887211446640786699348070488885086081887884153003710410932009177901080924295471760175,
  86458386645659106389465598906437747557805969657810004437053159902189594514410489200539576715579323982025544023711685148302538954165182064430426790097843088410482349876705376545186904845948764122910521326341717403544077301410910578407695214714963408533383506808542834363859099152295341696200591212683124897986347219554827373765368988937892773377679640419359180947378295139734716604224988901186860760542831129834762431582712287125561889125605016836609101956800302218574559923930942190043986132507258036548677179997353638965530146827193394997636141329259472873422607294103566024745735813617455898208580116168836888118364654577941014426469919569634828806447782365632580007048689657617985953332642933588161315350433356287218277309315369463813454686769418914729888532587152287798307314092005850850553821266079442172397767419158858306142732224260990904417818934164239948526593526263714328394052132633264977823584846793889760178345175285342248873930670720873796394874006600132241387037792940310821464527923257836315311718763866032001847610298225106478501053676320000625034,
  40673779566754275721533737427934704833816239436541984199051634614153113907779328773118074881278094977032179915056419757416364479150606202824817354022296776641975794168406193211380234972600318039286644978974432714329405048153408095793096602885263680116610658039775227625956048875908518214893546330965171222898420922785564069171244234578478004811270032003329939891199784401696626223040846829253055076059192972968732863711125966409115423187930599777776872740945536494242904650829978162737373840733233103891774964253647513081708672599979551679137891706792721007770500730499342918771985104964554425900643432106471700817660012691242819330193438549641804431102300643321186004492896907495467410917210991469359307027911990500888091078972169581156129849419070422059951312052500589525853710471475805315969082138253970534861993410188512374456008770003373141214734542829532453161479032109846076279645570061075761443694186504002836235806914978400465944621879366050507040964827584079530246759697359235415681025933317663122893069837381030541368612140999138911632116738402921470698,
  42130395535798202482771612467422072452970350961606336573649530684052987695951652625134946830402883610633213836634470496346265886083760113302822186863760923487907212716251543261573153181523741138729392258967399863497374622572239760367154374197349174645047917786121102036080358675567626798296756782850557446208215373995211320883497683687301310092473026571318778443011553589176740155287732082584163032571505997319317480576035287138583302190522789012770638178938001214259123312853862497657812985149764125431329443032289418334436532944135666914397046248753073560052673851730732036447988008240744936150063059637881547195904669303912195159808558467643112915019962948844555090334825332053082283024206158286671494290165829266318357290881697546214100623405798642970366844341272125496321252399591166993344775301817668441247854185646757570046269852525862389949959543028224150022906080885983573563044018270555074208100985597605682782961554950077695539976276608625677601567952847136817806177350176751215040416349085100541914480224756103922608788688385056031129818655179677665294,
  37491774704652489827719017903093968810573439734358298972430050671463759823400742882781452557938193061372664162962918957843635056854377673173688337496990938970386580099273688145961097488682034025109162078081148413695217528648624917084880907598911105505887785213972668718083994364798083686426311457699462896778016193782987758054492520446623153641233962470603479588373217218644325604605987998411772999559783434443070770704248820594504828877204341011230659794970206676948418955969709267628521944883770649698646760356876123486813627531674716918884252125049147132277066904368641809704901549972119441013862784793353176546526678437609531929624081856261373745516376963631151220057862411046887340557899596294297953679860193004605918868191675962646761117788632115616134460213612777077150206732004927737064261709366587122204343572693555783106434470904055350466612691885172734864034670917680695775593752752938128143214398024975775524526935252710877968783277042661918550451184792369990956174617442776782500837593880639133169450200718006120818551587633162385545128221764132779548,
  74702086530448917953535397117930214441842104524686505350592752178858571143404087439908790704315431344254295299782320212465723437447597355878142933223463461484418940957737921614080167926061465306046875991756714367452743068690733898407407970315229855971236986408617669614588245183444652956865975648515973844457099755032189339654345799966950518039086254422330299965680538112653735449990650671301591086299187872121944756891045209911692080908170652966881053911419857170102543990076889539689297478456808133271944500712498912499361186779270216378231820781374943321356360355539897235378402130557858078670374959006987294541625017760912781944292522386955155889131231046410014926429474523017164552841905023283564079230883297791125087522291862369867470975138578013178952358633043602699760488629918548119811221744140730732636972627718570014607834154879827688744833042783538106182378363043553585880423609475111273779531377774888109725091109914497987338602455671848376075161755816934393319875793932666549198226884909989247267725030338718693384188737841251525691512011853298471727,
  43175897377913783210743818910971015350475159285692197189343127025134626650666170456941684084626330706293480765363167311950834004888745676946720866765755115407707499170957792328089399802262221075952861698309690062217110849434335881969184956148278645071780299322711154535707653824926775561384484638581345394784679752565302297694414694909500536566975194429776110494768500410983019227196880437780918254322856053274155597851981695776558797593506921299494747301588359292709579256876452617382925686945310239112138173089865594652871980208574457785167078486666015473018253497951530212574134270522034773321341669405665504965523850558965345767488263653289728331453184242644051061542928864723345945961988640421728633639863469542327332450766839140579270788889288391450472927074445376283399646932594461383206011527175770319941455622237184996688653240308837457284079212228785121983857199185828934365254876610167987732295359609509813993223872262150097742930093725823994695955548533837738378211041453004756744908721457867119127194871674773923477872284099578211057000651503230635885,
  22124441610513250799010085971843995072858595045165307311594883975819500348706631028241239831227747448305199579138381398417731716716335229320607886711248481620473408455147247902344223288140528456234582919480319115358924560517579303669712007907478517551454371195014398911091968533588344711041945034607910989835735141925673295258209616980547946896650192337738756003674593663929042523487409971239637129342563914586416898807021626997357071989391003308176270196312588175997830282939365213636626039998418011699742941605887153023008386427902454427146861072257005677296717262841784613902747051409428241506719792097636995108446570073942734307626739811475878423990008194181774156619617790979401745041747555863251946645038109478255719850816439439411988464597999396738288970379227017296786031061074132251157913915810884031052589380946910683922367304160713199622298795516934072005780751616989211687603300485837557024477755944590495824796273444901454535705261463470086479037895357732347770692206922119290914276691551275534467949232060218520671737749856260410362731945896842203000,
  56971060447139436951764885704156631682787426827989872903195565316661133021214974870905513705984500414200662488205382032896700072929210969535713628383255836832811190808758971554804156759069310017319735754989180727964156711429419140517807987029639398299938486896819078639425736526448611128343972958133502053562255440582640765679549014556125327742468603947789717793101581041524004876700944744449741429518744624419561690936677748740301558108354615141945737079339581521469444475058134416040824290535840869004438178633126303350518487308359330470027020757311560469284600371449211506741526473209783107271023392297297845189922591932941370327208749551650727679796123764875895045620972579477747088653827919679280423856543179040016608151499182890199965322305014196039283033220693562610765498795827757419248278567168349205350039476224504058231244006004872403534671094842140095899836717153351690384607590624767262868826570037942264325729777663491773442274446738991450103924685844747652750558730591172420266420010279913036047657152479133135682438141806693801580291550312737354655,
  10569709084276282634373742307848403417528446964781847141725119604843632784188371479408492751307456013520383154516234607568616937962627894043896146838831861762886711790482382318173089293271217339159854126624999679970322512928359364671896757232959666707886043419367532523347371172624537644547278693741273844619286486584037836813181336766314662291688023853760415657708716180575806431283802594261253377443878020263314160563270899552806397113465161214196882473556230863640674847144315562776699111248311087880587088270290668078088828579994325415862772664493899808567387498842989197707544812079432413103384217991425062441272357392904679816019195572486805841628912396671445853100305209562173525220599077724604369226400987769042765290188961319847173186646111772392554865429923121928842853615931543121608874014173299965151314647436479526669512772308118081930010248444172955807796340030828322925767594674761316455495200743053609209708333594139490331080587278690415410388914865729346163930477026500288250227947363323176183602143077600632787944144786778308281798110764536159987,
  60365064305329991289332661355550087114675788517124242818903095058066357277293522980045057635525202204259915580591047338975696017246631418805356586181468291060325238469495424824972219886120856063034816651296485293092564364371040815672603223813668330217402063456872370921745800288413114033591919160659199590904809223271438385052512277553573483085738861626258782792147835462793206516305720519296740489102730443147266356668115469131507965890229499638677596468550083939685140812829388804117134538144415265697941996373019859275553374765206819268470479004331653418007484580859802556914815021550968757280456330623620285210943239610772353099454491419618284767646314296835057276487568938309897850502935855718624116773988822373007037493806591344944267018558113720914163880946325721442952408196617310188745102680572902331706902340152264086870085227399895327875257251205390773833218744198952208680083267035079862950110053377941662331048590115569956329536286547937348341407228336114264279184030645950444000778928300417989735972347463058747701763940896249440517689794816353729454,
  86607530226995707742478506107840367296812035394806034374444212077786132261841719487354020764897704196694904422523989892030503011794723566485349121438946831993109585603414714627747136751908143380415732909174907835638781320729299404204548313260621838959787937873057234188990671840090348179172475832363344120765652383956697219506695549735122899084095247321034160286454353668639995421265416988034594428040117162056098479377353885199512651561049340993745018361068781741539291788820272305117651942721430047642529406184208356999377128514950824300083328060231187907091442783833654476608241047396650151206625997815495791956014670001188651608704014593956693304468874867024553856815254335095175422028070177138862030986756909952559512267570227120313676818885054813731136295533796541878675867393861282458733878521740665115313288871208487277971310250358055787759380425216271023431039840245312702607652931108979283036000814791708554575397220665292092613650895393780389472270494968479676349426893069419563692881479311115303236031089558350771235078945422837123235278878340559382054,
  82450395869515810086164353340253044581446864917256838364269662604222714102749302249761795872211343202063087379616750652644211588664395537051963889144973110269594992729388806996546658267423990970859618059444420495367947100467423530841992952062068905417432810452269510412419429294645130196754189403765724447098503734283190250877093148213630114085004467664672019580807225465446087658378169686028785219155883708464618608831378133821940107514449242709844161351784923496303579952194152428895139053970141865470944467852548007561893112861506071780848785150080384122573760521541043149972590732291690924930228198534147213125684189639295535984182950597203994913821359793170215783801881212608779276436638222481243797566227759908762343920924037962275371753965418838046850841071434123282146704941771761810439002950258915144434914287363840594667900065667542124362606305904938430368820801558377323658289208541680834170295438746247890457291423811989796906931389409172594587157511443840716966911593967870564014271604397214545099756662506004717104073672582003172064142442700914754011,
  57281498054238393991040367002225924849901378979542867297138715372458171961117136315861143598450614048926330064564709540834195252442114634978706051963964764647177278588695105852595285038122964148123114364237248828666242708634283713176486182622982629024069300339883328155779496805311562483127227348861273024231814123588992365904784327203443904696637219212138366866039554044442926042549568718970808396504685102719584675771417969765348738739948485895657164105823946138486397494981645414345516685123124954871410072896031196362532722926883197596340361197242908062732940948105251295492209414265847971694522586764549062772996009434561410437927548044368714557014719473984309606306256667526415143493648347186505014533901379187852040500181240195273714668968984899674169578874527310250374155561164175531111936001411891729266611618342475911205103409202268586694705247876030379272224190576117344441615063227907759860183605469483599904051228309695123528599936905371727713468946593055214619419072522483126129213345718542715479651087662365078499600477035640183262098287636016905221,
  26238855216693441502468486052206129395964212715531337868305441000141542998320287972827969266959765856982243219523859107236711785812250328916716685926598991587585047870526532869405508600742536791539283201385175557911042417824290685139667835438598318452900174409322036584238233144679732468327478961252442667855494827746057546242857431434844690722974297210905002823167685281008837659501062317696269574562173718854054223219166914282478024579121191111767853321724636504985424067986876588806388105160787713653170561139035848252076632510465310480408536247370393078030686469682190744317496645439459987550441161905954519277035162038184434275017292617472441863001617429158407027205055422485557569381631518125436627691881161830197749566501941482606014687211841434951459768822954159777881653163415271499603159799559776129299582558097471961759584674629562645903062793726580294518301059632774408324798173621191982938587516796644284788936146734332855254710349909360933449252129578539164836630511932570593675928164697951396405469252992230186879121856608958375922056303315923077399,
  785403829445072026380901738525244927244949595413256214952763623826236825606827677154884580621002115586769740449903847798532137209091684163749026684733763320365714330093247637282525895838143350997020464991578764863286689509876045344595348670774708006388720994406661248459581183168487865092789053424593827643188015701050198219273396460487843729608146126626907560851796502584968227066889333759357347433152015603710335795157982687000225678967212261969237173869605454027199383525908436484716601555430362499355057295928818235440479301238803694560012249464378307003393654467593273595604455322177673892242424803629211028557936095174191213210588311431382948216764362952324204586956530948271547087645695542765414564061669566974257719873499126567004057058566860990919661211748092344703295670646385414908145546657874227357623385664628126376102463388519855947162171200769016678189061028255045378308352349536619656649651443519716432674596276510152586880017816449838235716772079031429448467492292331326691495584640573339568166314141546454358949474471345066927203917832444669424,
  92745657702918969645975881629628672697458369167766250118426684327537149375011286086708341460629257157940917998030023757386379978607870510058893134663113436855305540789242541940850281817799050605045035608593557532221488897228847374628797773284123215179809436871122897034063505361762690208307065345387346168864982771563526797918118230290296827676804356631829429721169476446175079317208373619288003251357187862987594768818816513402972903698082464415135631699153141251590095822963210139977673233114661277942111860762671366923965339118933361090586734678703149258234460477027749233639878639172414782564962207399930763204621487439405797086104418858081605627046284499363732318786488211817409472680440381874352831283893705653654756298240310780158920620931010050149789430398170452338155492741677753627075284258579273405330926639826015038810991472219086362401070689158236580513676606550600702737012970412541316836163837511691916013317752173928245060813407877618965990328795798785985225957349382059226143414021890412824819118077056495199079859369511063646708154741074324963610,
  17158363762064505249507265003918877431412862237070208028745704852195679314794697143400000511314169348326523972013757700933274982603863701894489257962572789548006023864663484175635063364475907557275847345654650922077220631511324447336875709235385521154360620536624945669719491371570531226828313388574573303260620935369036122458932396929430094863502311936418372113879772244151948665916422686764506699586628060972077939667894801677782915254584803298615626031052842600027925697527629727758565753663058248231758311413941276706378454489308531414867858947433316326970724471005410442195000746106352878901807348512312620479628257228023676802452514494123979292057811957377136240147907125411860938790498574272916672056449668842256381053713871413980815099245351377908796028172261329937124983696826883186936973184495204167163961617100566827899428820189180432358628282128827074631058558023333037474294416456433161781545565508194861050036186154877293223183098182718984565864114686249919509453467428070589145832278820524076935980362302322206147075048135282833551150378580927458454,
  84740371239834398538587335702954552734912403414014244760488454636779607325459544112353783735801301564871770796992653586591313134680348483527780670199085041918524255265561470931668743856190894442851357704630856875794183278597594693679578723109957386588345424525625187029557462586471906604023909170687032350658424438887711935117312843620877489036899801632509791921098542210251814031278023140830380978403571575037673358440019348486846210006764428921641460785639563521530697754685497698920860147918995952079159273318700635320953953035654027768349038006818496546502741664666481990999352741923518493428242209504260937818387897033350718054326819592906576354646706867139109029051309507446384464513162884338650337903490886458161923362891766462726775461943515466725859690418848325477758265402701719332210380036899731634015626174433076506158631100914865090608023442523768765666066183414036863710228578912640993304443871792778346657082053654404185944494668203121846013841777413591126048418720338294092977251966330922570310854463766082011825515041137972489098044805186432878536,
  97094571049700569233547854437656822776337266413083272338339842546661561934400915572442498302587298411323540110115125994575791635718461629680283264340268753112467792649499033747283567656044604477181499965997342146856934054385013265196673454273193857117059333602544642375255083038272976027766151241025923142662940612697504707155533512208931201686071904476176561353283627340525219482236265357093799108048533686225997565720111274354577689765236141684267311397465638336105782571540512969677333843513824169985707890248546782454581356256624947714623272379451769184646392056258144809287135327348292512169452197576343932297515464068350698091695743505739460553632574031523013190615655821038462933995942456644856324640386662167392385334616407704887939389896386352612271049096440618538026834234088541528822713745437145853319927718096306001045575946631703688068659015931095363651366334248958515430254872898756420334602736220930384878049957927155490797350617072238855078470052304455883130108610429272808631523903801343117115825606194492937224577578417567712152361800571624223926,
  13126074230530616130726019328208972678240838391850586536707565741728629808153982360106879851189943327057145643771681015739420932943610138467964531171941321797675572313955465096755101286818761912667485451873868393270589065612386429203092036452747154688634192347971571738157489685243760792131779100709604497563176566517531436424162073716621861221543693080274684782112688005112694184574507048097546093131952260774909629626451000628125016406417920997684944610956115286849780680896743161377736209743351453691838224667107326685803659592147894055429555579892406797682778129842780706421817236316543701676107125876162829776196096036087864096670075755699116445142804935298406489202618137719303502267118504776858407673038947170110671269646552984874616491502659669139812158230031475958118409200414058188556537124846785693553228122558935043873360104438552286092570900274967181847244072563822160767509251687698556165682392553278234156700310055261394935748659661579748467690735348681140152604561489780650395224621691467058859390888738867750822124325924659353859825122765407873314,
  98512905189885988630213235487044218386746340412124528285964781647750041438962614682616994135754980246992903607395080491178292252541976615454112214955409431184017864737746302222399485910314648843386999470861649919878104604090490642947211729599296927759310438597274412186940487288621255126276294397102939389770618396918162885160402027025983430419912793881450712826289470054498813371997559749617046148962363168762664154407667409134731503854071967117493367945387220998022549451701814221075419797168220132751362724972828608630791418126011767767567896960883552307305722489743949195127127639201849238891435679000957161388959310343326919543348580985265970561684172841247152430509273527232823787069913761274830413928916383191547062385080116016237396162228222558629418438050458300064827906127746769792346248094317338682370334896655636627141028775274415264385162559734034472071813992813548737578633997247924182056613417933194373641246509643489180051690285945593263773993076404209101569769719477758552520355095103607665393992738209744241225423726830832959807237183389104767133,
  96638171110850780974159645123305964343773729182000952636101700927807758559337158031498939863894597404960973377440204723859466422376398175404995193818425958964010634010101243366388836387897266120448791467757545945457675447412546214625611269235349415319175521287362592844142641678679925817059017857427722967900168634487263748766423101270499365962359382803702011419354543364284793627286210798159692427384560196722634140934383769317864998786871167720525457951354200299853716389042639110375467420930950212995779592590583318060719598951985990301529788050116174242478550853472849548360913631834384356612670520056379037292476516374087048928702973537431492450002942484777114276069577602264803794267389210522519867939851419285697574200036832639381991228570067731731287740212198063174154466185789129434862905512256260019304743546714719233596112397980794606847540947453117748736839045108566849259566300507293059599994442999362312075046114930456236474508163331509758056342097631177482377141898451764096019359631956359266741628650585805839000791123114165869600073351630693654037,
  59419520327695213398355134668458896196130971039056725746836090102280954359258873291212243987454697568053477341706274321869496658689553608203376707660052207342256961599753502669535098700480229829294322324559263807979999377889075692568482400908288298791605675871492728881416151635312191903623852249092970542577271282216667396573554637005163752001646297826609282695065740422609760346721825355538205588811280946558101461850421695170734322717316050267206215152203837615510610973546555706571829293206870421166434717649063807027207271620369490030603592787722439033491263030208596410726020320600762510792670330768914591282723374294277271462128570574195654266360117467611438061000663671525445237630132709105014713620702427882926333051434613362482340468098741083291819320308702300361185210549443349745784482091227449766321775546055667435306076312395467309893664221118096049385921295379897851738276857601615817375213871060738199593048083173917947612810381330418411590092040499331510839572482211908181874540462965385003089445835181795157563229246142650488895712267004820279022,
  7678212953340547987219445122429186061115135727987182241198810453679610238070036858921672124265867759451485769985608103165118569478847998200532321187174301674110258903151964420874876595296923586138882255099383271315947669341229488486389402734995136159020870542315260210742635903729452443389644778824646243049811386866786252192733152787349322560419195552330143581730884311424325624096725869621559718470447416098070958302276073268755494359336717828187716294504494898232005749236771414491873639292245739417768282478844799366063668799545928870771936523911637805459452673221623620873541605652779999523075901484927963630488976390391739516710739980376922417568769889315154183722852489395868960509235409176095585875601003018862809013512027861159997634412147540331954332175312121998375251031998276034424943768351427648825541167896137884596796227874350136719546214803774366120712286228069017375590469041629281424245814305880409269912277003573538012185972650950194933842338376297387708112437900266428277133475320484810921289241663638721406452619762292721731659036033498561062,
  36325884249131078983466680986595848868357870201968278150508801942387455261167060041107555451290268444145174788403150339987733184872363607081189162533402558452721711375762975827023811303971878273511614225647213484722019417753666313466924107850765084002727401503017309823179179814305379077345255324369153143070205453700493447119982654132016927502432254109877401297392390599575099443923268405624513996155984517159636351532736331083535501007199131429532180153738502621074066156421099635549172086224299495160159684436856493519193543191459487846458079072139962007670213139330520965974870881430425464670973036534339454606509750075484449215275529302115974426676506037474019275768499314386062829063315663326345928023234847162646326396908694796305397729501663006557314963440264721712315660489684302759779063699095034895598437183108620115590725965413152704834038599009414818154962764078038363149389307958519752628004115327533451681157655112362944132448576436303905896319006734221900473793399385659027396152598829437958349328974935625377525066728840566408944016977198165782293,
  51477426708117411337815676915021692285859869101435413745787431128013058358364828415571012069192684565691858173931935031357221474917045451482759269932079417052920840013842650067335753720976744251048420278727451436457498735570075018709155854895159997819691543630690205511392081928649731397834815099762277255396141972718216036502594947431528320519599743409503625763480911087913621619682672444018837404672684965488382378623448960721470606504257884532897224731855212598397611572157581412979592957540877637892714523898472293054292787689566506674154549540012829434248450276254363426257111910699175532556907225832413297140263307996054503085774304115680124125966127149568721255205918804902102611186953204122972604006612429948465016680584806643414153128309155654860245498767085711703803579546683118791435482403521803642586934201537239558742158505879605972235120975407621134919641092128575900786007177786791194389345626582632891168709007116953140687390106131634232531250521530253180923717600746076806169821769302640656355325348311043233088026880502768444430235826607876486723,
  30755844879096259890839748282791141060392540535999583304223597464214908843021168865833158595044601081154568128157667000569293569671858960386729556436597151499881466821623410215467801753304215414870104712833649477618977008561107872999003454404614063423324588907689945484817282966644901075245349248904734621228341436964119331566967257779669250765961091643837476961615104849910496499462890181142392908837650267635087106452541306004019396801704186401245866566115309060474061876229441312194296383591744405290062389613764513002596514730570384793817098826799806723500508753470480911304951593257493300195947152297600102453228942091952705948732424547013840540422657368405271380781504392974797144901583794310678407294894925176876255487922809768291875748310799308084454190556635089847106253820307249009268484059018151845353061450037505903385757218294411429842052074263519853454777975586230536069508656525294975808078784288397414035548412766737635812346018484967994211658319976853571633063510327143301699168858129181218436862964477707665474640274638293982321203477533733013054,
  35396739991176974499782793536056943655143937020643051177919529763950218847042249939080527417107767877306777657336979868571864037795339504931914515912067298409131745269504904412733468478619807969191497910030368391911417757883767971066275993236502862440928818130780899268648990521495225977635170941121476224423235532050217429608931264508597247465756876302913310615633370514261816717893072298402850730660884996995512936102456128206210747615472898920141906187399013128436190377717276463229136114760974081299640518038174983473504621692987615138913740644650997851975112415713184568509366165742324215939240714939484531899051464691571328926054495854212625247847937076719708431609457958194882560491902722306803857023338815077660815441442225926641076358815281139945359287777715327513912646929159376432363606999668574820600588192015731325049897172716870154932769421604240379251938370084391736478186042972222767100081050000219774354607041244025648927619632432469901269308522385281197137891682841626952788308306309309237398408377314851801036983990024465167836394368075117666152,
  96374657957717994311687496507731263839536756005903261560701185507398499638181267415266673036819595928254054053101334113757275454375299007032390290632395573050644749485763516327667382624873538506098059051720107218231936609200895991290542828662590132722221066006710424936819347261728489930348146424497658695500852093905024803180337954371811440501521080080670689609250646733204646836427630643937177195179594727944193003128770117170782370907664636562634449782604806815703903235847047171929740451938688311765648839638470103368207156105629035693845091574630512465703413674817307810069436335257895253027455162321394785639580841678446136318705938747999863271207702013476046841776514308496441954091623059756649880222732808241789689832104445619236915046510566887424742926018573815060476999338077293852484202773561597020073454291737353566359849233273609078905977420598416107139314785142051997492232481572678381959275363568201409084007835665073589731469768298320019999795451813843415839121150972581222792129518953529341682632323678327434047010532040515964619011108200050903240,
  54008990473644308588698721874451403685648773260525180707598313498841365112399071762600632811787936487968529681590491445450519046639950640584675448352182128085714665453518369024210369789223219131134506399699308305003344393602979652816554377808786710183531557369037390556990086124347820881658038478692407199359563964640999775954663474310697203478909927691285974253329677044568054306745648700054365232625776269833764469799068852977873536086089507872629483192280284489265493083095969322242673999743575110505839885113395580729756064424321438127712942851188028506351577994175467578407647329350128253540024854448165186489529450920500208900621317630296030251515361385485349955674780452752460885907366593709543563982308428353169367209787803519417213427542442173815375959691623290731818640149125409650252136912518728024845426950073644822965857816854569956491411714521519766094719965329127556836415096975865871787953136845343332611134596102573967280983333230411523939991028893079114907780219537168751698869689124719411289960218672081207711538448226670200466135986304225060939,
  1662578939892193179014070336817069794853837318631463056823955281598588018996343900172188885084976312781472922301667037929280226577952921913173149742421686027377817812538869721956380773837242959682442982574593292615523378690996592777027496335435636606225327893227255683898102871081266004181825194049647086573091705119243185614404527796518096373748782666479347431400076677368615616552621976844304914130749634482099604313676407985105006715976559335150136654148308014555776465381949153849872521553955506979970262276693096667399641685465938264478393954582872937684885878321847355617949295025867601547080983183442068376353613209589492548531369422064351623091008404404552294730679488489555915970706106935691560785495854344976506430397654506413540163092178834107615789884202913487743476680393768342795959146989186627471193349099905718673486786408682489956982496196641342123186931116888441123493441981001878830444053880056081893329904550568850405155513544107331454479923094104859494541780817078587404633167797413155314549908275819852837301176744383789347549123852390451752,
  5436638879374773538969164632504409704240008257923586651653996174946289338916835476971684333208546126454788507609266239189096730625009492664043409005824285653919360139306751065892944215755560376268435467353547671740532772886101884289874792788026343142798834748072455819388963355037991088423220042803374564933177325465740685876969336301902985734827894005625814012370924933375008351923002536801964535359719011569576541610535011892396611387633030732394695895903537760285243790875726869400910759207220044711386280598958378060641034626929247727663374931181965228207531127293685881406105154414312560072860300165268283138684256527766538120029803211753054192567534615687191682593004142860526789123081780488119237588513825736074926291093707200530379835403585674673861769022448970052460065570005565578513013504910232213400429130690441213383528929137156515094308657802782415746323781917246936668310024430524050314838397338916011674094912554408015301043988680862027752696430664608354785067437143684084946130000689341864059701035256664614764519065251639493271026145924620101930,
  16791092554018943645133640774912361591483606883925421933622119050851765785744896142143853296994699481661332190142117414268443992022397370156326767855645341051101093151410058267060749660369101038078015545483945191362360490410900402298484517769873577844949583140979639913285885278600447113915939278151617491061837574690499060524513835425176578397999135140169504365836194013746858274984873726905607458185225249485785427820669170250208283080626123045907014681023219495698745697368937599398473971376375512158043063074671193084135429992152263731085125144195799715026852681264911768354596565808942828225096447439690770868364813632750941981474217138564101454854256742639885123542998287701758676628872230981828154393533815415165232856293487924921419275836589395196460151096829826838678534814595833948458465236727263571023907090939655443607431076191158878811482700905778163885257198293969090169471156497411211651250492653327192803772124115191648778344329492803274379788201047052675015591242855507177406441963455613244426806774845389693361139431235490744348955393644313832508,
  44544971950256722749030952012625803139403368116505287910512424406137347578810086441926743789398287497459437688854803860577546102266024478744898313726367525844866155786060079036036397805021301556525122894128606350758151250931042455858754478396576120615425920259992280161467594963433058976298965244760708782859242089708340023022280190507271310576591566680507962867138456741122046444462948854551711766870397977617926005361937327008525204676927370778128116837304807263115653827678075374886055320804457595559506226249492571686185526786925511652217462955898955964097685893799356268814551155294690424609273232950690041458594354286723432481684947764599388362684588462269673485473348315775269799607255130044485154538575810737540419654384717084814970871291483381883892326962760449158536815106027496871448649546822084592898286146466318071641401688290500932692201071770587762546631828382770249131781998706304702539473161877311951600681921292481952751426805184542865776468414903089523452415759499365961581433356913873532330022357830442932184153578410255561602127264635842977821,
  92461397805259023327354992666923154391164803982085489900375018622364890994988537978119458543496072476853583568870793602637107095120179016669637815043205768625289949473570268996923989879552064419198547784141647063068053747428432579908105974472099013100305331580590775653943998874269402015515503296254556520699055493483548117744755446538400761549329672337685264913164823298359887367173881773329417969538707393717373069300905750363185449556732648458893206097979823729455561583812352372142490079051976028954421292115733424834391052952132938929369627080270156064864586741935311350447716477878547639986537972598856694056554339721716936424842438413407832042702354818517363883282324496669306912048606953084075799354506487352624921201876894146959397128730004665364516588111105033271157503500526455380591620839466064880625521421453053757576495430472131592527157589699081277503097125258022176808283920000518999613373755436832755568375916714003277925130874738263972724719921575736344003079519103892764374346404296312108095311313352666845387843311546808453900748868390992927626,
  4686170725995214245065655389020731188664835864376419276837278038340673415328525670993452855327784925620117759556026278343044675599304247743773556090116464242598263199178678340224740329949850107591605201453255416435464962622146160537098284796292082132745694538459367151397372206886798964285105476011538464572875383684638165448140746461841027331726733968070174814541059415841080478783640813174188152157245550405377211834777742753961856689081465109047211220910718701452179993470625636367262916987458912328482890245196669636086113612808347120604706082824150697223641306584718307595260678375509163791368786563092052849277519994387995966808827622582840125113699579317264608655614175993335332864178264240411585747785641717971492747866020442799484170508957811141030283923071905554967906252239695751232082159786742036842058654738933319194051204417799825453703393836374317621521390080154742304873811178293287663032697107710116513627091110241499872384336742844600940034635521328198463316257672682799558316995139254114453459071328768525818241423575851932773114091089395562671,
  43679796014028052502303103512415542797740862794367529982398000309519099796904841462379518378110566305383714488635938521494622766039495580446637110128142804166499743516380849438207977348460111867014210585764150172346310759837779965511390031935723006492630486196549127269861704291102246869361794143936942080999280175205313538413093433090423392605302812103209736067153499703936625644013276716364458038434091788839212477504761602402446991778431211697735530355326023292507796953065604509585248914901701164485312018307033680889415647654744598368700602177301592777182715165802517624869501160237741358481549155442092222276197269412385149130190662761666828744549301761108308775652966265177285687005779402079337485358255529354768323354726559538627443292231777967314386246583117648563930969807318999411180874764728445769432908475286496346331922893910098450590632018505442186725590215821331023159028270040771636240318064737808785296368335480725614264022434545294629313088121243361430173328981046177400002977609415153563261405917586425989070711038402080095527366055406606395624,
  76015200437387943862431138958544220403210346758428724075627698416455923092069236713898018451854714929100395339653371730125186962305366804840445955231960142102034693329247805743496625700089478772888330649126598587104471820518647230861505295110839713537452528165975608832402573221199588041315316343540340895427546014162490392884806990046765571943774555117707087681781252161922300139996256808891126928140786101968706830902491825056689268701930527976525715458774546362299111907551492789994733169833043975408312912806012367562471621291623002569550584202054315573230607203604576079436199319730531579305862891699701824631399391340088904037548997855437307694873487338096455107985969975040011270500916211594768462495358398188867646575089081081538794099636565021158846769481483793820952086075127657611081955911419689110989208651855217420275847500783292231453394071449343729331606192583912983830189991521608343077631154895015533838458415957696221863667639258213940443350473046043866987166315612898119359127149867088838990746608891213316821702881818145253845205128219552813596,
  3946186450031642793395559804393681497949395934181103165846879754198106772759613487466191352117959788672883688023533042072064887135733332242951338781535407810832881578887819169592263441957515469323420078135376184670667740804348023223855945745711226730870254199926206363090818973711266317414192517305522311129831035323871775751506489436741591551552151765562490277584798878845964305837403719258896849872495231269001958974781305670660529407020616722052848389836703621193663704990489338029061549767453517414937034524815095477014473919266619022806233567898940292154118381592553286753394693555554045304591545740975082986135162096087140228259210242042336701851484103808784466582280295501881660664156416262427391898055262442515993258980836872532983984166416007024902755759844598665381154345808659115352145298045152721712430683925770382669956288490385922511609339816485264080589581162873451781761184154532533945546737951564434632430508404942278788531601096187704971790366548425050853156055796317670967622013488127846289540777491411695507855008953736355495863185206541099630,
  44096553609417353785472054138480289669685637950975737574688182636728644709023810165978518933394904199913120133000011067415407928004817664511642754918515469776865593714899092935785146867271449353141510752671435708533895303489480003199361020364935019103603623638655939932278773490462364015165943289775370442995076099986711849064237004197365115470563759714073584139168037246651123816886139255400035657140527516283128654689219539480899197814673897453077257107149781490556140592666797361419599522041335841163306625172393771290261873008615254208805879817971097758428206851229819459293878955293959045834624206045372315524038867219078000644545594047443546327004257491369760372492366719463300752224743061744871456727783407910939668241709702599862487240292193156413973360730891454130993073965475158598888146060174181818476284732582266341945314271604534866983394105274944783506710247031355788824412721789614338673790641687727941328366136389139882574859130537875764131110800374247147237858160600110749098120499001357154784160350876993396060596179958997683736202436659384943768,
  77555820818535396564266652783006658047728984180156076396609192567366497608204269976062257179969479193582057372860379279646649461235861766607444079055236491792353437598586476384482024608202466033339754386001732907677030575763062834538071224906406644391538166092003585858391149240110517062954023344696548347137074507546623664328548125346324104825736996117225193868514866260664919940656054728227980847434383934827676372270882504907998619483033860600829207504185548662964677810152912935594092332469597008127941153421079768831545724594846881511435113493776007668558984095564223088740218418651052653422494851750699854097066964238525759321815708689118293365207486343493223384249293859435465331422655798494787812320625694529782385527310243061940851078762518493942821893212583157292700154411698990545727961813351198540860983985378676007225525810002301376289873317538034864445919189557926620833926776758711386080283385972418952000591963915250127871645480568687383322059649012391716025572482328277816584148883365679152838333030148406557116414293320010083281942149961411977983,
  85920170639177956314113531978201260028653862768733693135541795924284431204067144143180962126279270481370361125472343027907898047233631766504599630479154334367966588095446090897044487890855480076916300139588381758545370278263980290875059413532684809262436928125567281479453619161654037420360449833751171684736604892343452639867896663987306340673348584212192343318667199012369814362097047247444633865928182653077214123947858855209969462055940745820685247105775594927527785582584502988395406011647717931115666174604010786150262976914040496782957549217284558234213631307558897826011958733416200097962442470969805763731707217309893042361007787060674208390132068555340873904862379529082493740525701784806221131518149713330452324859705343207548452152845517447452202734929851689901436731617745509802366130055920459170010144469251136676060644639469392464118101843965896892882337114239527069959284582728035662773657589677178571223858015009825860223191599442435432333915804928832805641339309116132292945636011783113603994070688604431788331176780587212877696504563132666409213,
  45597360412917780894520446228812351284412586931211596823484941543094729639670286031896259922018325272931919348931001459619916434085420877185560548375676240389758796111242191858915781021926964920342879370241633256052747119098652035649176310610464449948678134796709758430198411856454720994113544343139732183354273344292848191953410898587494634835532870730923368984535787105455511623823040188226901993852589725596675683435036682426927734296761127584925722789045144825307743403803442865736191999683924477396007943537787133855456255881836883347685179841711382213017928791328571542355753804466367535626489394063728379689880128046420536245838616487482850302514906808797028626545603268155941283755910935731914675867378515778354260231638334332468942912059695829893630125024152162786607226486796429505705044255314992064517023717287498041614384017375980336998487756031550377976178788941085829704134204987273747130355461424280558752437847158430178028717194939600437472130627282628116455669534565552160927452697359276309057648202658584984404350245441643449462121610345149433020,
  38257208738649645557780212075596737453100371258509551700857655834600976236539041651061905912312041563605412059716683095804674163716210397175440725508861856046666903347441292468362072619276559011714823354257149550511203705546220746278680106280674654313668074183192085287348907655344456744239480566767474130881724307314497352130955532082970965231051461704476836922547986240769245722880791126040039552127109849530766968144312974846069538977458765982136509215719355342528489611412961754371928453360719252941636879062263086469920702176825754801170699974552089493877723181760609383137701671060915796777235506361786049587295496840734088801101736240630776884918782903572378211914453690664946645371845059939750512374207177146555430201335721099178900495750659388797123864691241392707253419223781526436851010151439134055485896651384909434854903726297097919957398814867538012241304036514514060523241587829521212122145299565542087572987878502026548167684082506585984691786418845449955892416138463139503377849121896717082555248927026329055935070812299783229907946932459929618894,
  54215658506746031277655589055381598570173271688596055933880729554678400627987103059871873680331920075969705266424457951182040374536662281963682989389977406843883903536721838378580606072514980322397233911056074709716900853947560461335565941284077014167069854715217637678314578871772759986295104202579039664143814189538259790149292604729562407656491573814457376358749337505129897938313809097628090331455225988072838985867389868415224494447499416262098152857728301901096458850650728256315417400894646345316039609103766810957201846534664496672204851456769081590742426213518025960667910065872296312094397366013885789109339243759278144871665867726189253842678597152496100587821805903039215088061000120355348815560944990359482346579018618774836635867118703779841861757280119568273902633162246752110327855985723246704755591819096641084253830321400447559510169526197425522620946579950717880749183718437311507900972516587280413163029942626726224027159015336162614551990217822716578511789810042081596197465038045999400930262462014903065241332865769023932373325468639843829565,
  37496587022239144454555375789281755301800888542762435712874583908655343819872740909895233292538795777773618310537689275332033852572925934280582967053892358883603893513566767696851698456659887099989789351618252279470763514401973830105520597041349539917860978840532855633703301857255009394045018414232487675450223023273687508033262173920228364319366074955497530105772491792686809884470785258209482953068053339819791319713576682846328609029340543903851993735873381459291781493089107932379435446059046371370804985341933730811908746391311217449669826442653688190968833221891618668524963060130881431358579264508783563439449779978847378832134454106348069278279538210008111697047561533156002180028114103145766194932882293292555600837735394325447904067071553102702353312683464910086820844285924274989282394170949870663316878064264179277199608732033384377154400903323163177547577227643782390634242981073842849892854234317658076797539863725117903968600759237382153330579019552533756948023113375350426307477296220221915939777216368810707250345849774364655136604061686632468968,
  6869544953018370081201270079490770499251384918137246983198193023192490256900656958428117005401319188377232760310560669405523518321187167991002376915298894716454182574509845593453975993524942656486729940488606129698668213783132725170184255537271997304405522642076633797004870900416935795940075286961011120780422060934718002726031596737935936311933627053031463381854856182999433208476493341662813090653073631006714622882468634907402385397523654193203787497066368530492134234325178038039273934296550779088410252917537286005938449842811109973996866662111020058092688866891943112992665608927109722588522420372591159495850646471670966480104583814392783142984405025484442752767817302157431872761548030748181256749488348721115451551843132902459767852712291099148835693074405917062846942845334842900235469906541750866082834805341185379214733486452937887016404135658682137377682254493916586717759573800116873338942535918320698173712379711014458693502023871565617774677325149302152302641978941986413730941830594665780752175407905697771698279950590375333918390479428689498396,
  97833388698967042964263801026373156197816870214404905832123336216958228700462043727930746455442404957538443608870075477341148659711035300752652129556748237420213810312901304676980887188121892286427402677066420025719873138344901262488709876832695428030285560538728697695160794431590878379022474356687869661760593015745354389223481219767014296075856158629299327008547678784241121258567579968408262535653209343388335473100156440762991521962645719106290325082227735368001302224149311112601053364982617398575367229059437820267496572646803470531988567768058284963708296540638767012372918643862549949437995800259856909451912860148301602951496645249846823004315771651820581680704646569735280469140757917615574942973222229804469868281108486902886508762344856320802787971882104099861256325755204930277873820529580375126788357539919135525785183036679586432792674576927139642033592058152421376215071698931340065944687000497349270311303328921917717336626816193964914882073257210864915918873306983960953488506566197360608264245099701679866272727415978302640195992867475345335698,
  3950056765514738445077787297912178470769094476245464513737395453057909439034348626756388983465013192183047749959347970424017568439493522358775362271823299705998620645642562894290295364429634500720272758840270296562030989787214000384286070713337433406247601698770497886831320196623822431648732566125423100310438525287514313529270145419711659428340647206008242760398927462423738037589822550042352078838458058453987489999957168331533227670230856593289463976516434472631414653751676335397262971942682721077831681225100624665077058635108096511468897598986485551451286509810013256040946209038922676193748630183732027682359769210154993302324708242980837785847932512232913464585920222585743782865206953184219191674611972684753889771398390516858690059593274718580858295319188900758139107218761585387673827611636619810081961183438002722556583265747707199680562168493357365526817713384278564580665125442329267312519589883635745416134360208483163017782037322684923673148169781737386439420085053843535847066501984286336894852624984311274553582023107963860294318298906197229401,
  52330861982538157545063664716387039338515776199100722708811673420563981876617865796049614317098909503078780074940097587079060458522193447919316689112985912377343300722415197054723144363651719315600705531125748420973906791752096254101783737244707499315781543431354603736479084976914973916577053828652972961042651394292435946454204376105153518400379449987226543773387048847679332327564404534607392082475780233808510685631239767792076908359813817340609951713474898369535761610832506199992514536922088124252846187559863729024734651278542212771358186869141076872744931467893700761622249237735864699286374541624343141679019377186376778904133270676290022704030299191940214611591686397892330790760662992579646511152903379550801095424207853068772297595676840053125159902747094042622477399672349056580229469193320569007842504625732986804921599519005478578189901851039576293898052793512189140508108060988786277389085849235362632912988468600979669216119673702154568863177954980392497537377951315150972597012839272766583039549728294716372462620051115838297380463581682661924151,
  20019777145737075094004160096170422109871327975993685858643476010270734233221512629338539943526750240931648525891208854237662617952657779085964008646001185720367276418115080947090196135877506513966873254503560694218756221606323328985885104913492241566654019449247865924029010948126476097825148812830905498194732699941110835167571101941330161641826554697154403640929299397693826508241355329830567695554843791362278738720177892637526068453923025274385615714408142920880490533497300377186165198492988425211274334089795775601186927722713652654425921200904540224463048401352172803617935255566191201927344847552170787094442022759106331572878693216105588506139235463827579526156513691986751961840788933506600915043548686146130197119666997265388173313873189688064650821945371056931327297491836131426424900957734477682095925819320689554913764276778440288841031847623984994689254359245026641275676514868726394338719794188530158061532783792667981702985124623275389030708049786907670413256564011620013006280754029994873262208965542412845458340174565981615125218377959721304571,
  5364533121705900427003649301775098353999123536743274624912291180644519723707548835335734994187398410280097230089456539873169368131133228087205485873903209383533077950052848603416917459023877010230932038703726474684440518278218911247104883800477702149236165335771432186713878748174521695660559043735786452256705465388191053638012687770079705883807307455868992764759243077460071412149512945788955452455641049727950151064494504259305105160074149563867689916194527755711780261017706526533910345036931284775179995015302574023167669870467748380498897623486883273774760267798022176369846086699232069973380005238581222278790889863173280915510470495744919755183165101103765510643190918108398670076623456204411015128222871383613702997293521166338418479726030200656004696826141922642638046194019136349582078054681560688640715871175306609983443525045602413099324728287081949355732561892665537392295754858040793159132253007406136467211318686384311836496952632223615180874000673446550598362956665005570340094877109988761058515978618924278462834248493978871187322041228995944900,
  53789095539317416017860673016437163908167212709729801328502407065749948270551429224405239546947645410294129970820313106041516404514807606234093184210841771421992806588995816029765844092784746917724375817514197064903620075110125884154921785680764061198166704707708194974632345338343661161202728335681552594436908612558926706475365161811133949617910400654491009704560747792611793185782893086451265773923590022084695461177900521166656578221600176834697673525600335872640908185272088528414617254755479035495718948428734117810398514761477571168244370479804098635823940966804036336313648223869961826854481805413185667601351023636405023844166236475146665351326275085863308333806398651819052195043103358733654436258277826645032474124771649906004260231686605585228545500336303451516384841141690525026413028848153631459212856197503880135517146572336351945687883696830020592588097999771102359402973456460828581796959666426681752907909771108583867047445796747416049841736475841037684115602155228391150316489646649495197808769399292115016083229542898621076069925050062580316809,
  86166925322318171468904509827343027770719688150663856494694858084941963970134783677079129129380838072048349194523528206594116419791473975422165998236642391710710620868670839032258433454985693042870658137149286514177060288580177560790263449902138129288388682446620353629097055248411554796997145456842628691496108384200792244149329253663382687602474724042092406408823024807199884681377774496059719283653975428202355393442268954810498077035808627829705249790089588755378498356960321763618849046618674266807973798791627472913960401383852253470439647384966764516602185787780123410996541171803782123398523339902942834990251337056609974411495478685481348359413055671316691307947557906187498720783156532379928631541521219662117696147373043132974319313365813848530634005325761760881339488614471724739802767152860012553408072150012603066316658816872770802710268108012323946612596332978724925130477783957332634703275107627493395430385285249247669990437532556682986542704221592931785287003744327308406952434297349292085675929355552402317594594145691929630876388806448826621506,
  46162489020566651211894236147483575393226981066623511493256237968808609403220342665088165711020765168232888861730257789979474089611125709050068852796972360296511777211528431184014123566423155671538346815965467787371920853152823579697842631700702041178767112768924724566318145654374780676267677174546845875998730690561023891919115670682505109064458156977272254112005948038840324662207843058627278907857057608858239772388034580578245566661129138240401676699548487692648672415950064948328670588146893153434726703943059737578001650509122613812562687923600687835470364489403773177785196858460433663956787509600229071150758421182973976670922632068432817060011192527915975281512486595714802942771155140958129750865419027006287682492931491748918582171718444364269175389197054389010919707403652419488143360129006627612973013854909256385593929839196377663759645526351408553053890511349413836327554454781574649400530051102631164781953207429030343840063084325798585987814923050493895258669617408485513516009187251492571076667718861235084158972239519970742083537683150076497114,
  1205030885330084702087743562341305080398114802354527194567135370896740802675163542935808761019679756019180813320257224464456630279003964083335525322826620922311022709487646761063184435455076490838778364170033374611849935904258948831519166363452983021946040654961065884617889812453712728362980273615919878856601612280373823762201401636957349509219401184191389250577692155267668110870705903043444459540635107900937715365333416934407936103649658549891918759539319553485101727880993436678970837592908019697008513860530395154330751443727513010898193537900175666828574137278093878571884024861292101475966403198966027883731014267776055617268061311840577526432360597167778607214977978235811411073271012623672471822946520226831970104089587800481420107857711945801319384700014933692963553504120033105249625193117414266954068959014833009304397060493233233197700422283960217167301800823972791880241388471238529472792581708413212249920364349998923701906610856883748190531113119542638675384123458506259056644956790122227174908201904452033282128213221040399550385848824849198299,
  49224662523884974600996378035412687061673457217924344047668668701257499494584816251226579790990771211123586364440700015471352959954511187332782408936827795587992655897788434170825838301886589367167452035787371376268422081151919467782441405846270720248219850331889162379577057669621129843412561022993271412320240911169493637123102062442015437471495368819439711762735919130996024440682931651768011196713488822680464330967926715361936355096475999615197102510423953404652517868882234336371966571762464514030827124567838265338240646171804191506283604878396549887584834644851783644367555329950834319796725760375487433175803935864611798906339662667285433394240729937137638548480353463044584394085066791466667792965312806902360700814150964138785790383929725963149201940332402762055851451667697576759830849938996017213378260799967716308152894794796115764575478127577926868924597776649031130837389931318317592512335586948372968649833381659365603196570023177458220902491884869047044083226891351507301362317314669877501637144517549297873224094850569770981618735164786718783831,
  85615549037561005088258818995159916337697179494358961543285586239555075850073720132579044738388311752722792809800855480564530811262649122857539346406336985960992878781181023908433301485174803626701343066583914468080144284930383588174068633372250765500427844346364900422231684721079927302301566747010442956281163958578272760748475466783157827551032369460308488321383370487798254489594338787467101670787876441635640584312882773289328078677831009431570273297722314668141509305888209633215013313861851932675712345447480549341618523052932187285720207205312868023145443881041696633772262762936496279778220632427659854050609104410898057275252201004557991063084683095655229880005342519263895674452740072958101259778021289516714770966550278053476907123389241109074163394065827471585947837010098661575678230561860902906832183799824441034226402449885000914687759782135188753930180060296699676445996204596723932714724039764390573385830712399720370683992205810203872755883405468321178022027794530099777284997457180381112594640639330976113111142784766717776809711070805899693067,
  62337685623530793436489445562420076507490328781477639021599208985632212276275427325176249345384916795932438078625530348834257002890161051484665198794406294426544083828401834867306820514983755672971715122844711847267753371270766913814024890194367894889551910588306895119485012468474923509645869224955073972993984652621367770896711281309787877186960460686555149653289997417531755067596801876877108372205178837880667831656726738655514963710777198091174446853896768360922254087495161547147214264288414465494338139987817933563677131484040844707209987682718304688896985688733198538117744254432869469728333263611748698616634164158639331282337747330035730671797798475260066157921964614400571163039724436533618031745593874613551355174309657607536402880299664041873815791391348227845364047738770528875545890605321439178783812770712832466031020536781066424917156899330450006643267232541187976180209554942550221651152179538894646378034651771044737346067001991481409982849623542276271943325140343908086495944318958856597815900125348326772547800729161547433685844420999476744483,
  77035730501367292277526228841796238005842536985965644315562458704191938204686659900768416300443572297769862047403001978973674299863263478146138516604920458241238287916953808158595813635672920802105898937163257743172871157341033179454909577947052474964242930092791413049730428595270254032185341960399521434517905121128670512154412044021993158857798592701963946033170009373438327821311798058309526313496415638754690994673637262692155099514199740596512839500913857638568933387258155813732417001604413313410395516622003978636671873894864247061051661703915237091398900106487119203201443843437307178451805625128042636578179652159303620963061934952958098212969440668065700462320674338179892708496223245799638105998863186101352287834052251007837268006144498407191476303536598364534865952183630162913300518308341991707924503713787439751214772030244593810073542376169679860794202018628929863217286487566846638668171294652657393094771254248048113284145626812582313944577599949272607894806078948524564990412494192704066716553396084860029439277631053220186585308608779144867359,
  46408046760954496269120916904634949759952741479644987706191486043678375339855723147015517203836028346678972645674270545763362091512672964053147825157989351888830860600053285167174029909496690350877141545480927193660002249285629753332118759232562216542186347981526453640124400786571752789915309022812393784523330548826200527414893742375621129536637995897668174037229550353429814255617246768130073900852010344996085508548570405421345962666567434589124704761561445148802725512748511656106683424410576766020868238377572993854002371684660324341541642531424845329415644227976594220821620531914573826781542506925725775898386627738129128766637717808126505223102856490281012845141836774628069163610797593228804238449051005368099436362376287976543271318447242551523087501851263130196713685143194580031723858562526407809329010907442552102354250484005963854566799218998489835163485625866746877842650704995329010304645192929568154960753512971830997050073705213282480724035120320210341587628411906380143615454363823338538816218091577094575068228400223247598846529712308848157579,
  45135085341976654686658259678208301397341490602785437654727004458647290433661123418787093922633493091479836965669458600927438389016534002860850595553233021845895575132299717145403652549379086794715310460296745401246495556308189065904953939902981546826550505068062240895828368686444483044550305040331408545464600965124140149923888099551064126115385551654275842683309276286562458871713854447146140060532448117213571176241476186620852727591915612456698602009719229907555861830741186055190089594806804679728044163419439618170199589083921362095568129667922505046713292641109959971434725321368527531887763917645001813425624253859625258996635850320182320533912409036974837595008135260192771673367799302861159100563959859596414993991355867650538733556364939530561836354279234760296062088719177205291738505883775506320262740242240817655997169126652502364710380486851710905260206426903379499459121646816578915515182434618985214072263404096052440466155834065279008545750778749226530428434720006285214941100163780231869003249688167346279857551909332047311498547026597405582805,
  30160625240584944235891707570538140734027578565289480465633955356974364546273719774477419573588035812766436879064858703125390624810529279179426875421333033766238280476627441388609218058987777998809973107490588460733002413591002453037596056696933188750482375345575501345869980968911692206433851165885260513462612098634744949127827261545147744762507299449664122986398742394599579210658357617024652807186593448760952628407920374610848479909378633261079633536664913658452523089001422231530544981227158460676889271127711509887112499956373644266241687633439363392262028439277547857157997628287547930142642719818723251105712624799859512064468984608155409385338869619656149084414737219609012966575284645493340313928237125158217836617657193058560483820595276213692566539936195206120569620633654272457737814290015097166151568330919491692755879438676474616105955989725418079555124084246825885287842129286346558745531042252797042387772183174430961061662534403369666157475337783340756539353704185812348742016063569494367888801210987340535399795501058970585195323108377192492114,
  35588288856296786682309851105895556925849481866062514469198048307405917355493392555313417998232306591571418430466647095895238997143210405028248819241467595374759526375005843981607073531860080073745392602287926776590023976814721896390583209494503460698914437305103874231346741770792718311222362852443845791381408889277509386916192520842321167785074170005000142414276330508644058952129246223163687906304151698761150856393227536103409464891112424074458535758458923923713822181018679020632367976699973136858406942374755043166091704237183394814351620084134453186452802647046749996110169887395874854168353902088717917248617754767066775419186261659100047003379916705768667438669607052856296372631068102882482977340522485596252014506327880090880212520428186050836111781094559367791322688268238320254570041507432572607533891059079029062295312512264475056676312689118774383520639251044351868372564953142014110868999000442881517928669270779219908706893329331552216843336119968522467121925763428860818082150029393453388689560512513690499836837005456530614115157652316498380084,
  97417234018402953891173255852365194009332084012001736194269941519182085113748179618379912337431903417057556587524196506083836237361161795211630825073254616196364466394219445196400414872562516132055414020232085061869864948328558931677392299629503680033774068766656268190159129520787915696233411147775256332033712348613596228665246399141898662144549940784067693837052792962052789995843635561403476805831420541883690217138483289093784844607773058222358705900682141257940917473449062423190243980436925751042681409323182342818489265772290227011475262157510442391632209194682769949116263962124991134774399236594579481102854929065146194032095628907384190849564703774360727104014523635784709195963047244245034174497943256849270596305699981522134051503818665573843030101985789178286261836295437750682288596215222586902242766536251225321539197933456900850283862657713125261007267426341579330909349617363410399781500305637053023704801025254409197739009313799566539420901347551355285497849648285504962625325463298794084125164132578994780635430086768530422717385018354092681044,
  79215980206182385053050309053710232921890256861486681756392896314368540771546281932414987080953152743898968252048927101970475843135733810057447678538901193272777078248695709850517175481806501949026878078524479201429570893873003842001825817935065020536738800093034489193955840679706198623039302019416289372694415872101581712903757610281499068150631907091728225564831858192329148040142693056234209149698364488996049681241335762708251261564392496181459742562551980565886017413195498929992131394907673305765097331137427006237880417665599077422311796651762091704173716814909197140775239558424317414364068331295786289443732637055435386221631772052621026640654286324447848089396656273040657143397425587683291777727978063437900801895566357927526969309776963460900196963145415575286142458219055080598423572525027198685954869483533261986573591326416433360893955758259210311275276001686229936344117525718152893855888404807520328235535287924597138650972317378013416291962987691302901442371008297552715355229004043569663745380899989009363518938348585910856371841353090097945069,
  72936911152806060709799518356533094031747517493416570807360525655454754635370384870338270272852763416636508330331860656059512263671887505049014746554166827294202831215701988066472213472665263914818572461167531168077923674742969454117532210681220907465768386177544263619627060726093608062212567420273102753738724836704590074736570898169792816207345167798079835995754995229388468612829344613345398220340805844949332125135548556196840502365632182350920687697826760078128077566399052343800523507635653383855633641969547270103510759927246606864274309650945611974442729960641737647051683430274012627275540329977862500089187233839135361103117093127659951965967005999552499468030340394821725385775446958702982780435028715456102536819319958541359775818188372631073023526877586915363213214294417678503896921721576645468888951439902798043543664815038089162591255177699790948849684582285429047938380632090139380366739852509846608718828461952342455543573487530243742940261976151857084716664711532476459738946377946079210945188289740437018450614593409600339529637347080474050202,
  26733595989624343203535434101676704647695871945241909959595989230949669755690576900460132981399969011010178897906659282443389348589461001033342930469714901314308955187646314925326330037834702457139320040574152550752964270214208597214082394321022876842434225403459846836250236378866262114214026021634228944592770403165306714990106727355025154339034656873102743181801449503985365590170794468743331808250203862429125233978716969596205016102103928458828258039114477348461691373853010024703610361152082814662058296749732310601288142261201993821013741982781293119529108515060691868578790786611192281560642124343317756947949075962287921919978872703190173726476302458195702499236804725242235412403768592701308124808736954129002722161874877947912927066392899188687227013740274983387812357672661497089870698856159346289142158093333930146342194301689922743220317681096338329764604294474240136441856587625054694705809497466893335480251539568046262951056987305361656881258277681035896051071057306384684862147849304025821847691212138164129963520457470297509535940509668046787827,
  55099548352221010349266052868875517608878108599137823790420623038906864789799356912974910552594729364081021826135082240847363783635428025469707429912394984902424175017206230496405736647937249176693339799110698643659795859007344031643484156819925961972863913529788980570676687770447509143877129362705948585406150905862564572949785272593613370273224505661072429852780110275946644040479367468092203010223691341353891422028825688156566330006679469548377992950767262449367122046333725055725101837990712007946801518922187248892528284176603213113015797717473366711835410739095502687077007071226080484538485381931143431359974069933226798639950496493005931886294319308383723711820980952366492680797619405052282395266166129472234878176200739704824007855106641247238936966231148448457776739912024790338499065375528517879624884424569377082538599193745044510378900609469679214313674732937598036569191442563779446938494332734689766742365967553288970182967687416227316517970621648901369736800488374565963582872958943314965156655748617167829908813013408700920228060722241512269425,
  41749626646051138333319807026908230945420544787231571564363377036644292365992523904671518154698710466137534871048441678301886480294482309040367678502545313416254512871281272750463056582094411204556503342818379854467253787668705711700320869361525663391167913026633472370371791136279128660082865144123639983007138575840132435731777617279179016659852851693663692930336885639456461927321607840659161302869596486992438333868120246248725943235172474851594399725544002177854261694456193073671355336149142065187919664162266840088011609643229472034191320365531793633560551757534525610543670724995754816191768673339942811434425564406530110673903249545599973111947134627801118535545284352416406499780638052779476826408595989927614069944873202567452442591106385425992052231712981715775129537300460846358273254039074078846721696062027915588144558117864666495784664710185373748184100109966217411781586698630338108456714665220059435841625062183125433782483570657649103121141744414809354163682191492983449060165691968855672727046535178620203069101847434731191368911262287659299045,
  18487115977805178338556565853569849296598330259917085030561297742801950214118281631730484950913121488921368653442475292849193697722700025691212392199031078799340829555784096747259960829818108189161646743145411605334882249171786714543139780104862324921013617638299877853108049007838169034401146497215503366559443928883061734677046639618615833285659539720815816742053051116655665113048341833034553052696215528384211323506700461415305243634084306514514392194027949866603811478131545305062098343024879960316159032788517871611748638742067076969161669878100738252201060587977010257702181255921418428599622001707041102352624725153966458960920744960692214898371798117355634312743008704604591886541842835528575802726728882038203074256455121557408725841445979619648763984000863371956778058100237916988419017421793190962093001905437139952239101414382305813907989284370666911928150508055384433702030799495910583754184763414245457227952985966567348746327395925975349069265735735374700983931199796902542913817346271235247266976658794439819638450359948842092349024746778592163251,
  72710690136795798819722224766108200382799983338718484691648461571093847237335147851832968305335902887848964730000878709667397898041061109907081270637533497952257059625205007679081355848072161756877266207555778850148390346942662063311026243737111709147838471982374341587955933349495727373839971475052196958092952539590908062681936321780960983857643610644074617580197822923581768438857054553338115693780959458314977589861846272860796470721433552053775123798454966942408002662173137300031497426519939188411561200965303118394789638656356542819839161140224219584072329074112929656641790634561324622475896410515348782844298486924406611967477410092012480106477491511954001997337917182359012239971209283100801218559519263821068487497935900062557471708321852980492971619973918211461616747162333207897273010040899221935736910463740415875760741173155409914221982038178061847796911612912729972416155084621090757222548522467694959677561712015061262731297909053755044424918119431878848736930635769734626803390216545766566217209209815082346720392556513103955805942545004639853610,
  632784397242987357111062820697511679692601790290667052865604050713687461727615412884775761173448732473823681682371347265402909915122199788917177418205079973314785944779369638996812977536374707245693605731325681341763753725151556683911856043558924378037906094806765465372917669022974539163572746491604117865923342598703527662632746972396477328176105014209895840620229618405375455631381330210913036047804824265848498556392715080747124034171737936425985624114213664849638879945097207553321539696836434406590504563664287797844123277865419047146925700675316592804920923987399120918855453924646282574821800151106405554798730848322471178714088871322234221946909845863478448923958531607813678612311186131223907186380035360359097620605417311686494253881867845244371101288509806405400948801545324315982876458106063798962335546221698382047374881401746529599052899312571707220767644351805746847633483480892712374853593635165939858438328183844974682609108407895697557433048599553108806193681457920684041141859230022949593503125119131871798648044478090196958480530391446391956,
  67389094076472757934670329829567522137470268142505476206556272473397139850919713393293324943646573798574957830365207409879261038712961920951051533890557243985770589454941681830226543853140349026903939502734128693457773864231534587029426080023210202033104815010242312427896671949607164579535496962575979211249611076995214298104793381793597487512553860583699148701882797462313635244675610093159559985083124025894705962794994014947750380677307430694769776942697391655687060845260630229742276158684495959015691495516561485964475302237871716460166596309607468802198744536489152097089068890018438107576329436926470116625412896341237243675817418255609510653239597218977644294451089134480911260008577321655228358011806103528400993392425409440974006676465313979388055413108596964038108020968529521793254408028695032296439231915780393970997907295656778832789368341908895358161269080652601707290523606576966812621635716067832053867545161260902978411148983927937367961729014269770914372771360529197857025853319739858858464230458550758399605142507647757526817270746938749551042,
  47621812104394300354189023469459818095488209583059848917049997346518092955608312170961968280456467146610033509967206709759151660289656426661480409206512009358456018114512493073482040014158338982349582333075615371719506414615295200255739188920500953855557637135624613243209286637276991306194453492361343527362373287890186489417136871372812760624012021169728137116450152976821838201904065555203350442816943747155836426381805724874857858139633947169767201999735788882226702917632822016560780658924835460787071304426690592255547261569195411492575353275343956468873105233627886451353355845085554878483763117545793245651234338151226390492504469993509493785403948499283001833165024762519767294198472861595475709428579515521656096882021547152369299384429292813950955204906752688988515657102864567901537430920706584024376915280452727169725049523291948157469032429198279355201672226863089595240873851495092492831563921198624907345329168799707126063929315491844670231016282205219185002178127797148264015366828047384607263424730749089959044099804460639131295197515839846112253,
  47149613076600915467522793603766123338057239997313197506549365456366755012035053611010497680263930967943207619017867309377221850847730626239813111177978772266120054658272445079485378107701489153925473545597941920264680464606938185002307418669942786303036852561741662991223683831843966575331643355055259791666908799138007869618550195562260651781271307513238314502497634590118911919928865569015153297276739983933674358327107075427755949959620255442885774282345860769299904866782285664123720918766933715595305125370587846403295871025794317562711519547613110181150176142735031585419793524489609550468343690915339769624657458981321217413399764562156238184427283676477971352387910713152125850793116345179598145756897699187957865267413394827933716847187438310917460841261146664654551607225610540354184585983740257529475914058869112693518769557466894185327058900489543589626049203378668460413403226608563344899530386217443011051686667615290776257435833691796713519195884306867369314726965662901751641842197026834839279822898782743865250058892197036680513723031816978131135,
  38716039773369682340639978307112476608939099447098394938059166944040686781543489747968218354249391047910917977429010138764204543586634694458688205198491379458915039675873197897042915866363175790332086648639960724578087016103944281251601970769235570969806698837511137638942866569272602118923767176888062412223077515474141277324470410836070895417629176006736587453702684548058720455885844011047000139677743034905569422756677738961478933778166999991851845560940601499639143883132167581636890474403896995557003315608229676070455426906964478013755656733046576229212337996528769396688951790604030876803875763428067626025076509745211109394988170105389648346702963534265380655753397059969428302526868883361038807768433518584140014298228614540456722593127200768551257108478574639048572577543263209889263596878444143081413569665042402412820827951086691429224597871631684105583178932855560501336248592697962810047424705744312093128951858026857556478521982247725050397334988580515969148117361373394747201743659580564542854823348011361343133780327831947769646034049267434719203,
  82345041753732912538728889127062000627484116315919546463038157131897424481353604102023745172388338829829173288917624043713868486957590674025611680091824665646381255189763216656100647952266881765621684505490994114036591804009130688858238108055236235583879633861820880443949737320684990861470024760989524727333082370294168668924487505676926858560705687606220170301691948249233246719829085608947585809763279601056707655012600289152061135676072682801421930646125970086812294771275415962684883047949126993897160586520754558909591564544913846595978696909930223062845701148995888809674631045569787047730478768731150657865875027394716432681898401989927968181760575646309452529547910187228986237012907068698268780874749343699571517202939321559112657050580844898466160628311257835041964175352500724695480087908929181678628071216712158862499013832369605881619132308256267414583594112235490493815037160622808462949701468125146379952862299262808901881826247017621867844395619410360678600408044390047518419852094783996941779191641137814871462240213399108291633105989627567278036,
  31821015619721837261861841933662955429408299784778897891806414982746265352753923254784731139731599889401757194870384306926930138804428252129070129192311893080266680648669869918493192642613948737496642215347454122243825778258934371528642287496643666991131273075718863931705190136387480627803153830436234988809114642457663425976281370098872823847339727430202510311429664387661843733633035192437505509877883322100489527993726224588917237657623966992116837400775613115488705894019532161506846924197766790369426380864318611446298281428168065715487792297224010346481531221042717088489282197213723995412088531810030342335171845213457627017568821249719896320112184845590012826686473111798804992789475784238370571738512305467769776544039065991911439146843267502667879064570628278117300931764474137394550281110393952137461561452524496875549142800910225967328047261316429340311361457151869408312575154023852867430843810371542973807256602449710593409869874681209907430188050475165306315280356645123652573895519945219318423941196486902317538183761131500774225272328629518027253,
  88708291692220638866450045610112381564176052725427144500931846050679150856680265252412166471671072480679867959557858423048195469777270032460003619822956422596427319587784694184506925306086759802552883562497505653025036157669978980817557344405434489220774102318568830598366978089786853925031816966897204388958922116150242158431078811267016451652456099508029616813781237139963590003611954733278590073661441799732976976901427918520916561181397249030780960178384582704154979209785813724203467798179443140273640730404688388846178612627198161173673169772120622100977155013299329187129775158652884034418820791581452986680294520758166452925104065937390874764901782972125413607553990465153292788744725179580000829419874124750156866902001769638747524861757444001623120528401418554075043256316781993083640912999557119431116835004346268227689756096678740406868075951788870243013121976912977744165923091089647340305353655789992226545844964842366687332227943007085528718665842548010795696993492794175012332537817519645779294793237362504977670182611681337477670340232083411940487,
  45560665849181993167055907222908405651722369085496955771869849429254887774566385044313765173936311121470197541440932279131541544044254794996029349571079561664440286195454421388657781902704140339471037183448764583270367269987926324261615908696513236122783747601025354842943556602474803851571399110787647114373122865235024626150082784839176285769662380410731834088518222294298076936602015498053910891787874107954281195040737652614696600476695366359291864564611498754520903976894880683981538322206672404127804372879157787780492572247703124653689477505383387222137615803415546384285347552629614555399886913814109999620419260237236739975135910602664687332049526498020634839712185031634357288771245311140044698971924844365752726853386536173704519326961578365844131906325633532386080565950122524111246329518185841742240637369277859878726737126900140698919740010691467431409447308641873312576112307656617440582089611336772309107368395700281827294715033163453611497841208943504895821928170054440150147186843691069448953420553915940880683997106388288678377693653406605841072,
  84697707668668072098419107318333321547684827691962855522176118923540813326731591741186203292838462806417210806200573639953035561995253133174823874050107556789896220823918532462860095436858559692094991762295559682259072851930427509981775591681802642299250641551306491587869806254841040607579623899928753431593367714374784234425113029689251180669737189357933039921594141662857924806002008921888878905265804268871323498622153205312435844578949642317414088016112067779878086215831520890157276465632622644937626760997638267845154542238075131244163550707190798616275369499882430573263877337011279385064430424061172722413975418221136384511601458866169599560609820517474790631226801619031462943850681412374626045508517686663748922306587512769709857710188431335672668020393893709718225475166133070105590695853769745339242717907581389298619464003310470890905763511823750973158362032608660112583258777413095235922831002678515738241034298060373002931947658893348031366833678834079415227358396403833308438495803200797222160894318173582072822286598298710487666637759682630777808,
  85756379022039392045684795713570580499655159266179995499916123836782524355611966353084006845718636160518565939392844908352346022146820543933172022811311309613141081387487959918933321124317331582764962942351572305943962104885833479233863904587968750725969338162467596428943609617548528929295897698809686069012494711526743123076160728772071366394265953648467183070832635741162219155721522966735207121322540637300156784669046195383383171731537867691780163651506004564377854075236675933667573087375634243891108687831852954009110817030807018908047221003693203958340443421621318860553701278207749999594241394922245343743965875899702160084024974072354903408696395845519384679208043285438123848053573050889514269763724709810009743013070473811394214812589769720736926150507455373693511683541945501118421129326735303950395365700296967895257640502034880745583894642497740995841243839646047162756906523130645451674330927101387658011108665873631842672161831574212693041442969004613524475020762115246625970486642059818521174005512695958092671895283020558843463574349356259210523,
  30459874942337757972311379613064457584792077802295408826859472982287377927136725752267361529134831120986828362678946917797727154725482803375635116237595156816078820295985301433706600553701241103940330269713452773822786597510911032180097485482328213886541455675641026281378340602408270155267683817792002292443686526982657083974766633163076613781151264688291181513117891425892102955361452502234299005463687707333623656893419046956635335151806646402010498737670086037191231001372592091013999837847217162193323076771509126791263073680388306065654469927146910415139165833955286979406682121223987038198227272904531569087118494808701533285436603422340993541719599165740943899971359387122423940551633546615004528254023234735514293153320049461313937601361659234664020303094390340233502593232913188635534668127824782041314756246677984317129337260206150873953138708412127939569722235781994153691825642062607435553950083924230739522614584893009495069799719311055706452152522644658885748080799889045455236188340219175451801569162718915807701684984535717028704867994985789324304,
  1140687615984823759720788232383880307440838194816760166431467698156897130562941861060849339295319410284255373215599940584111595416319578905340537751761890997035682783443086395166459216068731414387752086402561756189787735074098860950603948352568581026826902056728396977126130872731212136658077521193305388785964278378203349371573550924295877518826969782462797071121724879165333392601840235678038956363807740424225408565037064677853573124572090006041479276214475779402352924264595436340149649145600246697100596292596178188943854508624062345639069141352912793580165591971974876637649244029273582013406015569373223140662386165830893141174298723242157073342866179545618963524242004979166691798930645734833864821527275449867405164366326488259254904461493122659701772974391050348926790065943646309083466378781152326720854651865800912705652439217464965366351676744193856009449441380887915422661606210447214922108046517589134260257768382118113438460578490300203049083112051401105586199442735997642401839720233323998891732873667693863076058388022098862878862870615970308541,
  32898161116915473051273925187335957416430890305439590140795610179217910085329833527519979077864158227676602281226732230955695986579982243520844037123976424630203320395978773068728576421445173531166383619093387241167496243368419186544874395868977067014198826936646165613159854855294510267478556416711586032617831051751698410283839334872656617868531272738951878372386516436639860899380049558212834894907934174435789662847546668258978395710861459470534191787198221585296726710382563051854997716411809515002364224826091145584633098266064806682698464481862518441602320905837346177847119106009975483816399729710371137338568232094581645219961784404972033692669559543915925148248811655201479798369337729967013180284021643130979372133155622411972326545783321270214187059836763204000037177015583669491647819307840563960999858209968537038322484398846879267459886331527718884265460764732900555351568220409255187867504792219931006439293131422272095915102569045039483814692807370058598187872434506723301673266997811098064922203756310948236360489429753370177476676853222847725130,
  16515049771921475188933189255859391662059905426900972479364300328276981493336146941155106989646224248136704347004278344367461193275248604087283494227930083884676625795547778484876206073716724559484046898498382023042679430962804012787659037479404855993576838241819093159455115700508141030037946042302627408727294419982002571283571888927097107419444271834911142918722297435219207131340680451522046170656076597516103790714278823432182651109057129969649904707440865332137912884159484987048925437310260972262234057103987070639288504363171764644462456409246816166687600485507082728447957622073151987288212334779016739220242126812968853866613096749378122029275946311370941602027190998991187378979057837680347195685819038201377930245219209060307469178640056540740467166066427106297827788403480640267579435854432090264294085583742313933557012836109005965672506518912172503121757538762683039107699914888699621392750232565892640492755321118156322962394116117337088916561205205421254007664081279937535240693504743320974898048033441939425413821740009947948981087067505135016624]

def rows12 : List Nat := [
  83007521508648244492603623232913951047549530323464755430722039912906657448009606610011826661081205893378882134925893887862371977525798974976352593454562200062398889474431339218896603336243655987725528254178680932894908674311639317155241080432268801060648298927954493423000268181212700615225258475402167465364364258764655958421349537777645033589614170270296162967115817580463336538178313606977644972386605778122286339422169684511319632561026166806575048381122906319459381274650313298477130151441438254530509315423068377327584334019884173506821448274019681120453876473567003803642190410259856470552133967602733747354287087752763725293811582043582740196873972512347203347925036509540284255215448433437443411526619284026644136005814361188965829502723969606934443620406290504359383166089359668147204096987625730293844325684276657603791731005728759356750602774878708285336600490064328514234121553213360566626209403795045149554303122948407965412168861949759061448012317194372107021908951279077311329546948523661271248631896955421352807050948604715378302056574967244327812,
  22636368251861992025879461000107184534642033392166040742619751874446751852154430097374437547209505054807306485878726173561860810336952737855739519423092020366553038884188128604872388364861218602391892861205996760451904931594710840930517111073750876385346843839424615400719134370112247535208944892081556490641752787207669360810408101615589895437913732900325187632304577857414770169804155283878777793750027296084037426254467358118255508139492462900466242398568559253638184261461233032320736035289904858967993546429331073108843924391088936516727448595625542396753496614944750591147336045448879370153434719434796637560813975957979995268962891426003082727398389559677178045919331524500621261651780641840745055029734403848583437881352594591163130335664196392801779951074345515070644743048203404260390316122797195786841552559341480331751280569815111158668824200130281420685336897946196665466237756662245635906179005241785266077701651893236916276508803351348360409532445919976620432142399109106985089333410639915657070134305559854070356764674656474342482474174461182930127,
  43229586072634975510642883464232222746779437007305865222229237030147632768473640465637589574987682794891317116969722866053699035041939612245056249568335524123840194169929755780158575016131915264844866793484710394357721438918229412656482913964752929979937690463124550540998705402634734305959498788825599522495750102464936114432817862896472276327503247329506929285895674951770844264779280946678763426574210825103850870314167351039530868516984945047379178144010378433331696721416291568723593681993034985440184583107499347309449975922920305953556242520318678806370096156306777922198938199674732508777853024678527742971222608430316827105996973292065391222222806355826191111541411488254157541570928298132997209121003960444192212004233940925626113600137048939623068770189544560786548926999557214578511150330149781108248274201350737407823326433043551541894301650003174736293900355744461958731814522194089620895732166600385084611881494757310201664311808977049939302114984293199394900159899031837560124492507702901079694821792087147507035144408187464199946963495450414432238,
  95841331216652856138130543372125687168652213126890413389811898223684160247730457620586884635430762293470018348026717679450792467102581467277968692248538172340078379298436453729795343686824030144576348771501613463800563247928756589096366096589630048785530195395836624871155033236024758895494437249420365590463740705397766748090510460377292127489870470299143453560537010141196958406019085467714982388228854985438956893699731101520208183186904596105243459821774161142963879480726037449820753404358457842375729115846066266250395145811803151013138513595495205384769407782346081450560581608871041162553728279352967012631864770223670569081296678823539516254435650287709745249951076589719075844645259460015237132194501365059630253906127347056523492015546063028380388555430664643880672950016795861174886239155797201005719776736724426478981205772698596728304258088572405909474622228404808344822727527087691590170623866329573036331719749084363121832803571037942518086855523038989076220158468276024267829174011668050172951024059706543325042939334586160135432967482290662271249,
  12855482508882519124504152832019589439740350471416290040797957137840033156152050306206893495937040171037297219006656416695944716282196407156202105458072026952878204577866328511013963145135315132990619055711480374609994994425077224800936929529355113659082891982334691261203344758238187104774919523122305862805900315344811783954883598414664544703348192196034329330842622976799194470174816134265591560365099037093525446461384732411773249489146698401883832016749673626072108063017638016726815735293798847746998369541003174409489750828222391597581707242935594388244076587465167054262751041455323860616650397183561346292662540914510407577497883430036508952171669118430109232870190811886695270673271346667697573591923626033445365160573775993314302104172225990881329309354220286019531980792391581397964490712694392937086974394109898974281004020365137126204867560915744674066027672381114417580557234084320159729907445714743634001951814157096088515923626741634735618581435545046591062061336594660908669853253369774378945662724825426671701273882653753200011650838500299546297,
  18416916332513581852215768371672300656160133943884682376384867864020477066813202271654861474093056188037804165445519212065830997925283202951195493981430644676611700437920011647219966319617227828617951756137523545210820675246878030962902782969991857776763174860704078846047546893652893472252387371639594161219173685961497854921266580023661250391019166294481368726651710620911153445911603942555129895792248931138646248879540352599329638819963439638820549673961358015068851295537010930376049339112394167882592322505129449381766386828163491154301339851870887744390476281064325964233173578118944747481031554391033569755252058544434826211956663917944257465345035899723754340505228745715572370353858915526871065011003737586595558354184602430130530476513433445221187471790660088748796898985575674975255450417265652452340727399976766922369299798051850938538761268299951261153607475990684978207458020535100105078966832233846226942249892546573931101501466034269864080756330829153641550329115758445709090893290908257372151301907203668079935043404550118001580383796278681114124,
  15509362585484014965913355799311565413657245027440028826351988279063766916195221189910896887357610343633025409493185952535989777002965995571902127182617133851257136692550395843062878764549064250552200112850562881730817313339729766756874453455114396869166750603805057228162617916200590625114541140556285637267234301421560663998136759653703984724006040824714884944325125976170297138952333681607999040642389110022714182525494296377180890386377573292332171517432829270805876815540757262484310640653167289953692139135341397917087218368676961427699073723098044702448377692264873936843728635843930004506224395876836825111833277667766844539982517327332866780084641528506455957078592656616210706585762962260341875373079243798059877495055058001280937410916012536771865707909505437208619251564580695356973049144842707695335519957551706788180530131878195175041928609670626827005773569300383780457261604337147934668849290310095142969037244163158219298671040762187138885572376402291793865057264366774618129457587129884233222230685436241682266773697265119067740721500410776353142,
  84930832708565555690539729056818279759520046233495109249419797324988158606032296303680987668078775291018634916948902470144716149581987500436494553133170108720252416950446326223567167122224807832518926884755610971770841719342774742302275022645901997367213922802526575477987201427203267987105042513818442337725903526969919966224066952101494459166785933886651969026777904041412529744226449074531372451246031753440094975752556760392643185953393624246360775291407768788678346947704409415514106651723613509624191837643507152470939601078717115949461338636879970645846378986456920473332430075205158714304575093782627272888142699815325322240351049219220375229970899737612937533126879113402280352304414722463448094808346486761485904518182759779367558668890225712346842462773743178420477707693642784793118309030953678749554872358935375030273558172372177046562065047720101161832891537206063546874335259099558686126478944414984630048952888054964318267203301665662026405154905040577846046368579680114134783623785193589598675735028741602036548552893115634064281909617471765445050,
  49805493940263569365742426542300293112784240302992276273420507221856237366748720099557386820165967441076312168133583645603754807241252905685559370437144310975593394301980386466712568166524258496238073977918111360279653444730062852433338533396853607119458900066754048288705161784666619146174719286749386983992501008144249040374640382259443997543060653531206727771617142181860511767896459849480343329543126127573109287693740119476788513428163642082104898564509945376064064435026865873892988081391526619558684218110017135045381166642732794526208394964631934468872159982504530681506779834178958148182673080122546440216612537387543735604272805550375805793144355167533753584978614318889363539453579258025479500575010213194332352700154848361481190619114641133922542797278144366728364711054119635257074950417718151022475655294969763962143444215011303432192786120119921673790513102277952791278493770371889124902155169784643939432097080533204292509967540687111605376660346934787504730186660487136732894989474998435494736718271520925928880440649886960087938323954253588483531,
  48093255694909127532842075166928775982816862267408237564728322965811633421739364376995494308891050841744884197122866442691533988693135154076359255168723695450592906014230998532193401096087317818948960522356612430391044791732334431513675862589569219267245289462276095440092074831832744650815915520643552027414144598957051398857308775688580218680084003520281496874814980742740176173912663094949721688773324093254150064099701117310624165861750318691994358069172656796287149710200335800603159932274633459829403514593103201374178573291802533202209095740344732756614217026754007886968660374629056538547020534527224601152134803120354450832057748051229454726520932365979231336992077407566675165316792093900062679217582186783169385009582266191787216994528433034635631753264256706372015385680215164426323979128750005642015306960375763144852149493572651192669459909829706306422206612740694539720321482847432456281326303146272719135204354320669989482987387243500179500530400563684902704259418135709865592953355178308295442685459537304444094623382565847250583943282940357172583,
  35091236332426482533146664191768579554204355269699282293065505339756820500560423474415941986513150569657244761929120393104245506981995404918273794180352419639766819809450322870529398375971790858498015061834468722686029291365384391571443568193196081566177644443212656388374346079456312900257402990641688878815714427047468092222029602387821885651112274722036696849629780367877948112108525150258532630779299844107874871951177583165408354776288982797706375832270479857510243461338272565339868912170683251568463730454366413898296649947364294208678605094212782976447880170931228750752332224170720990155310213457915768988341081470895709252488323152700362431490004772563312236652343841186880970369374836396769361076823423449794342344820826235931801264534889647851656577534814486161028905899575289092253848648404948784428080380116395412147065938328902221805712594149094692115426830980648645885856717777472352513076206947386692664561031199399474883655794849636108807823789483704735872271835373810737523643893679832880912040462273675309343328510828037015525012984162243305311,
  27276109526263357042721066392604111254110648964452251457000850919950050662730684154485932890236867235413908943562595712543518820201907705838608514672590579039540626630066705948179692584371551900357406741861586997473561841479736020662091324905939150439273674912321470304433593577054920794408225960274630128822473857876996041996180399146659720067361718954179692956538022591808337043536734730462763267510368562442424474585295942151947278943498143668900688768440217629854457696764330640439240536825311734112705789184778282212753827921283050481050750925029303912585340492096661035904947375612042656397510664382145706531384948442243388620191176750194647364126180761165528504111861882469509050934307937437411151887851435552543678053723435352751917225856891312572638173522529582673191332439473045738021994244365931180445916983376234019463204526846539890376775925311094314543270011058678219946144433549366185990517912510679149475928010604688221552490476255362504665757418857600062366805763931246966325259017123078418630169603932200090281780181103805653149059521735062025720,
  82701682535141476992744824933470424389514935611374251670825842189988094624049692347854794873306171671395473052291890962194415023812964257061849258211498364631624412984983898712233181579326544908387823785746673097888408183358800688480040480831722038317669571817724299350121366985343412161132886024856028277776024650034003869838333323084215105049416458848707232317970109793450176771375543127235440950710549000889965565158048776163082201512131122123936334574169582395407549634684329338976529572006288785762976536464699103020854454450106395624559446013860518870250726470059179732669078889195135370899712732319417835480630706028582283500433884876338350870301852686630697092159584189044907988776136643182670052388474721269576382522218525047385752973507087325937833174274810810324575006484090767050226673881652948379734153473075677499317042591730892590292360754524568452883360061691143062221876348207375443835813475349852252343053866847719861650328082560852909426646562021630532421375521540884388303120064871605010211234610650115073703421447321429577495276510197494341506,
  64392077107243492371844753041600602753334024795695383579344810780683780468338804280878717796274259477353322790715056560763768679633453824197880294687921098567000995240127300801805173050253724846115389867422739752961553332079420161092421180853399731215793439562841858017470881549480047729433372699973610673959024671474132588187070545944694320639814990524138000148361438033493069352555227909161127922134641601292247037798463282136764206245240999112209770900812364711790734888979677430151558032506331129812641150488814661161828382504733273430782187668645697026310793623997761317907185710698628818263829831860196724929623565362075831055859355173841708205039179116056319925618080079294168583646161346092500941673127379818257899042503208519740977584533151301982186737206861309351976162376785408885231147309505922490458874470725064039107294203248132918920446159172988350253134418700321677234053940089153429501567221303765479800743566799222857680305160684384834121101546145676417289928980069557725841982374602376228833689225956334765998514997437525463577418905918544777809,
  83412295335320407208173025210666051327595185995330465351240759492861872504154152648319674334993787667526478751298892993672310829892480316613294925056542810115978166872493261944496664661788828913280375481023681263950957233102019419380055130089891311335526264238416609054775860592463985453137184369432538921110663076533837484517735421558726740236935778630007767098619169491695093864401071070620264717059012888658512386134288091633812713230271727918217354886988334104532821538150809977793768391786087009332240981678255403166242336280150002565506661287866418693257731833690284478977477593964777090557607042327414006369940272134578198298766910483309387765464867746356248628247977515993662256176316170014722863559910838346670987990633519593047154990369089193517355743620032611464696880970144941236703557729382248415682206337734562446590238548250997091591591316996770838355327985562356438782957904531893835320862429897311633172654844991071414287680238154636906882941289035624743275925574041495631418720185876387114968735045175009502536462237073494700069155317044389974071,
  53714049703501641966270779929356240368875453682846944075542748174618337870042089116265998923781560460752073135220448474578346119564140437278659353052693595404617377356026461014574993082572841878525727933073526889128267839231012672729797771485102242290869532935771133105312955310331663879110842301054192275697746419025896780524977681468756714498950833130220677563363196086659848754383296640840099272071982161559073592088138650155932603274333696663105346699244414394862704068775361021351157650818487311247179677336751269008977198448301922826408124283481875629730342621707260417122797195897226169789852335965490850945394862469439809615011510162004432759958235176308632818128246497646472095997889302423455602755227464884832469603561954353880925520065046628502663456315254185879910008362155880436221045728782120385688449943015263153040859560200787758415610837821599930607629509615915121703505806490071923228813755311693705236543832529785153896296613547308702067747540581272613673358567966458282416439849911130170769465975372177568386787051831593475352998647178586126032,
  30281345934826117294659392984380051416086793740414803816204320371035373025051416743787461787614280222667736930952644518802142457735163190723025417416314299835229349358809240828336493157364884634316038348226938820962944397471533493167650614982054838941419942949694249071423649228097943305266513307940075954367637392845171362448109896542379737028419299214755277283212225065560976327603519771518672707294956337300537071887921321243050442592524411477071658171582945274026686532126803241212145855876711814519985939980259714481088250872526615920025716834428822001764420516340733095633090537515854916380909419133138498482828906132554302312226719074772845807664832022312328693224900446861426167703956337510325556936508589516621495808934564870268185472504159660184650045752958809208622173986908891531481656099590070862490553888556873166329041742781169693724412955954641406046160562990919940166742205641962829295333218218406829876505344483392783022287805645557144394882768459962842773819106713019271097856766571402274673492506375461880598695968910473771510339254605215977752,
  37342187276009694703684527363641540222864689376588252328977434428181482281590454946574763664704841272567655234441379465074741142605112101945158633146620474170486867173237966263789072712094760057044075401790539725828401046975366093808036419777485170285317353754976503622052383970776572260069402036270360505962296245529510844440003893786503081380101445618124358513273056195601543311456717046173754928994491369617333736620825519445371179692409170371849837957579207729989517986085860058422712862349622013529171996705581851076523259845845143216124472614450157144469060971577198819870943652768574007677081410045384558893363437298249286237840657866838788729546124368958366360581932452680926341215632160624327025127970437491353453230848821749085313956471156019482505240773364043611337383707222472659143970087152830326240708958363631714436555233201491228896573708586957424661541309678100712010024661242794641985978938454907036232562377196959706560906795807380983373344740682417802947512836126806931438464139783796760399157871288230380459725473570248869217808514212825304298,
  2082090293247076745374303244139667630306526880610154125941116016779242429308228512428158726556728013017133383175053335524669754769485611802611296878166504684652564045457962202653526925132336964747606192353699529999067613627101196674586996747287159518755720898519469506329416883404665958274079022931493411406125926077666376591742829593433984245990168300555423673216076402022340414610364377412141234415652550733789186566531572154629811346492179890807493087276604873997292726157310915867854113821283538781745131035524951875043956341482410866719715997661893509377948529789963919149440927971152180760188334911200425072797125212850110713208218532252968944260334631293299234839358978379556672009322283441010301525414528889899950129930771925251832185988535912828694829757528100620424074771079149420472997754762394992995956010007905578426442403084643991893030281823258995089099373936726355034828976828982117836304657015996567515009548727562168392684215372584828581703104183973739776349706185107759145346598453559081031883519438575361323672412753812580998187358730744770361,
  43990078028482338374640777508281260513971110801616750587927992782418272555638789152649589278980641521227638221085485267263494590941781454110902488174250533615069494187127846647908361216063712778794792307406866232143104555361659762513420487525906548459813388781512405520012773295853017759893556115514421480187690948216142140217494242332696097908574185889299294295172534834060416294779757014039406185922678419213055928232491072486518223860109447706810017548924310778745020605571564080080172052125347383450771293893623258222073443559064626696320876170144381822269402446255222247368700551754201948671094052515313589667913500188188705240383536776471964749225636202914877616323993789468382377555397444786335090572486671015782253113619435437011938920465759292600504236366251764344963430655141492134375542035444528800837737017179678221468034124142312525909863576011286052794815048545185793677612744045868921201136659185230551098459926306538070014684559356656271104229982055784993699944521149879180301673699546436553355805160436335541515400983819369205656007610639949634605,
  80382961369643044069318698308129858214477671415738639252890445172638352304340311791900865891118150038088574646801096658919086624398620197856054335863039839498384223957903500296118228576386884206558828252840040315378060006525617044664300992225532283020450040929085079364019505365384461092417853184439506564066342898785081935314063356721613504829971824772738849231710140406951819592790782793794129424218087658100057418246347537490805498456624935353087216927748598094623072505374114414846137468568933318135872186263385433156344537781900404176881925295963507572158001113271649975311964211820527548989730027955513415575597319767345336451875011671003253739717286579519277155229918225888060488523471420694266639310759688705900982773152334560796205229644934627085906318240112352248895559598197951013157040874505848576292037018818879334217640686592439592711885786998646576869253991050091104932617298663665073783841961629648089206507809952849412930203900111134536266673507625584939032121331895686474026636839623366743136425244297147539835995198081197094763241358894164682690,
  41941658913987501531442180396107044542133084800084880402208001813263453489037706424657804931404036295542371178577127705228249698666548375345748422752030144729515639141662838950404976693667918348636645976490023704063109130600150816165126771912947340163154100062426586299001214934561181351851679203288172629776577451625692909725361176128100501659868470093142096118707704033797703110962381760592826448067603506846280657504000522790419517932336590355263875110272827003843610042007522192633388075062502815108467695120670226241231603531670575510648167363773982610342286626741047045524121678808414075505052441049813579812560059834614018586083984306731239584557553573468198001289308337306446773089980182488962215009553877269466471034259476969213923688627088525634780783477185231581737164606209212266430467087091162644982704061298565792076276577418202800668172051423482391705776502925721561034413469344596772418234797195889646362507668742240373937659056237035457883820138768236077718553967691716332061669197935175135674398185254369890577271018118673564953779985456700157640,
  95981783372751325184544301433462906760679577945464067535291011116431737198749868639883505408335413007416010314315793981101514059529430882349984945625164964703152542180476272177953172033645273832778670470220173045740557932976310733274711799707542680537024818285802332673412349166570764934074137207141833889111572130971665060705415290717673627810309421584459218583544940043112901356772158952458009986109916796129611046895019134996510778904258276221597380002343935698534892518227040025468325975967588442765433673562925100780923241052587380490047332894253548025688324937897747628458416294977408542571339652809934927584686473204179928508164046446119979151339842658585383898162919876529458599154031343163685463743395375282635924858338396219113254001686309610203919857755384930790571923425003868481035749666493243525247629587512300733039197426867920102798457400448043913777038741350717857041391139522093330097922954313809412457998263742747189334542039605734011494037514982794217429278750351465088557428565701668045401854330914323876672415504594079421425870725609273985671,
  57191350924569729613144231599909820395116265314683936396145730187121785899647130814833406059226011241085170934867168132204737270064062764725289965777595424169342023026561555194542009625314715056343910266326128797960758373369833130590253772435735367084745840905794266671436588094273555101287153502445099375229028027667632355178659985033417631477167198934630521970718790238335194561010438109516891805138695885320304265283658905577717373626458976970335958363894770546850370743754815585078113073002569362780137800351854063131983543205742829390559402045699516133307812849900293320547311004950341065358124041340525921088859720749281254255101759169588401068723208052232612656251909777063821982496396557112373810277998437999219418239543398722663830729461538937693623808955532814149885419628436275980031215397733160295861010614818605053174178272167953095047699581809806754265108834924874583802309937095265545324054855576258017573450317543781087697872682669618821756153535822465476003158650475189874142419551557047772455858990010673549365363298355858786391298473491020683842,
  15296201259110947864415198070691290564071497895357839668211463916330135419843812033781623300392920430141795035361231289537789931042231560828793229027863579608864836471564955929011659311378500980456615005620782803243419078108164309764747152820063101374854858186908280528861426390514061829799442221562115504132350563508000445684019924283312905521720967611808443732103165974685572474658928120990867672416778037570649006741494762451994627925886483154901645048561107830826261131677242905968406838850878235133523715321621013367647354982255770485182040995769481054747861698513859520527864908651187851829817012785527780342679824829981856513821021630921246781699894023523230873174533594278038663497675099681122669576049008848724751328182415412754940259242844444074573422256347484188508639336443598750696628634387446981853443108350674792183062041850700490900483997217643960338077786185857408555252399609056712226166159958790127030719345935287763292364013448865821601490296379290485042481081363176622819480771597577694470036809567778231665497157782195286009044074547725767351,
  4724273006257218554580229022195391579232078394688613930188872629164035485115634800975271642023437559043384109691054543888187447310586213292054527355985729365975888680220434381456639996838468238939111868035555600260198440302185757970417408711171374718804874846558022094101809937697572516174940230232809604302425947637532383554420048380374107985440456050518909198948762112592556594131621772619508025489984797898755334851348175296057290414733877587322259456559134419243014018169453530197113708881537772393569217686819595728344003090582383037242987808072233194921016152747566674020899004490662599415206708973298094458636800430697784136455297920116769655129579499278943447851773192260145333958490938490842696272058571049255187727724380333599513776283949228375013476430961862271671756915325334838001027106700189565251001545437950340033948628692482968854146310146653209716229459638385776777522608115410692846635814198468637688281994513165038001133123043049849605223160793250870597128245282493000916645972453311950765763572817986991746519072455105628604024295618781213608,
  1702548455733851616784674667096339195910113303738427419291231465188470192115581412292990372776781936220124923621618414467248670903021617280208319636677352734377692049748205267925984806017842070585203175612391339298831092976923529907687816043403059852835096643700126309751150691061408499885260628777836498163293534801080963363216732469220564643813451630311333384042092836596385624977973182100646682048563199347962642917032993123307021770691498441422509098864306356190561319874731997022599944954147833760201683898558317254437143529401866608830218802441281060798209581533833617427592669878769289169074292162435859189447051769846375635891830879569001477233456221651059615181799284362614888212747853576051044668246900979552897234910744990460992382404666849425258297938269796316490348004941858275993791994596400915417028663125002900023292492277078961658227562567147669289137053647161870559013653999529264978990414141066554850502291348350814949799190167199597267949135285968441839649771594471839272580514743744146174906248545536950925886646338120571786834356775842689831,
  50694058647411749428039132212624553367152775095026293234719115692895248824108851938288156141752640587491532023685922490123526763213006645612540378040960432753562412936660733360909554844912262590406647545072069659526736725097486770551542177094197312815796006803154937027558808563793428727899767610463218207871289301941638997190852282284377397676175204423171450932083233516234636181741845184036455702802948475682686997203935671113298023907330487849188908908332933199143214145938967683711423204679304292987577367746134979075883963935015884858191735419362521729805418894490618138896760729712545238098483798008797731310113057777132134623714256143861329447715246825684007563543026230711092266129476404084685067376944426105032981232356063869042918107972497676944409913130124602425381309120733929114170869682849042095147052814234202175908074621276961842128577827845064007788018839543751001280328869426633317760518530669564777868389796917718617724541547695348483205627456590373933080117273143889299391014195547237678955361179261224082793598250830116253041084140507347485809,
  13214937695650010566400022727034365648988968208178446868528306357901435195429523245595850681647339093254544191261483493421442644559391206907373410213293907868505957222378928663671867392986942561871355561425595661252602997646688330582922805016821801957687158708248044207712469430751085722989415185608773257271593309180281737990243402037447409645473772813385399156260012761545165627120075390293176719152773829692211393603191795836934949631154592483050629322004581739951636905627597816237638087456273710361508240342147380560234713657972482690251460018532975307826748770644255338353025875619881048319699178050522904730700098539149544642088191186552155343471685842209284012588979621459970160661766295734768007726528933653186127984740918681655795020384458385007853328817149995944625866262785868239284242483709553173021219407272741554931727093196622953304653873101126923193992396175822494212899929294676005664009775463068101536753333848103505815700397849030713929638671684250370186813229873881092736017339558605613813357839246603207859068635340265598463889842105460575725,
  72191045314053618370562953948337093426905480776886652272581121272360864668664309993094019157773823796660761271465379669514426027031859448990721986265598376118199920711007376515027217018545840921560783621483522183419717644236406320648856928092520996511882344144347470452287450742443782470764224692369784534551651423413812276844962973991586064137263022596611205729994228405171108563280038088397258581886103789315141998200301820286062866035643106389928837857357620258636183384437361365713841434321757469182560702532453390398025796931194395946404200452526646202157108615808759943168240667366933226583397860290698279800943695564381305849993853577353783956647080932092139835513677875767207257650855475495959517077837808699357587660347431435345131796026209950113338695419232260747276748378244627483577982449917610854962987785079604243163880678173583963995761964342899965193221356967447185396273888437564910453035148067063516342138560044196190949056804241776634901809778791289780867164310209949311759571890288011553774157467994020678067889664641048853464185210836125300819,
  89381960713829981609142676533084615051049915390155625650104738601493395392995258334280318005684080315316666551362336823593053106207269967358456506137945133551506755206288345948756513744351048417658084990295641881102662694235754003767036655165276200218953756887030772219469720625099083893611003328954861965114087509066846569917036978327053767752080504574129781439726141067170431855824608431322422615821163407437854637379441211647828098174389599839838355626355529314799371005199767083102026973687855407351034494406149294656658843167394115459720443943735788406086567615987369190422478261021301024964736036577696074168709220823347859283339857646314191473844362529370529809327245567161757543208356892380946043963938883111403754127427502285054989554887813988548120212748698085736871123769954438165776895675505871648799797011738459442608534614527861901024816933107126469533266226688876583828248107125608920795181694688383639159419654682266090281558178033896656997311888630089001538509885298441067140520766173963539131688672862254935342053238476780160525661622257219932656,
  41181282280891865530681265255469290850403054104175343167661153720674640152873890689762469528476338621990303797133309252084427808515919248728285755025065535318840477207880923416360665829997195736345344879249820649444299569482411361917122124189765955256574746842864346961268345923331367589496598810527300361800456044935745737541809300050560467277465553052275646321657224281947394646503773300217565320534761526141555775153196193792090578273959691750251957643221935069663262525385166948225537681156053017535610973446222333787191990575694211986370767588326618087442837619015190630337802188061492375922298781106804751020012604562127542015254981439069853566201751553787661878481679414974575216836910030852162601825339235431426675667343331380943495277545177243308279063664231537674135329075983108886684763380762833256142460985763632728394970102344583238366153747181872642600281357948059345638189297451910147399034498251053643544377760794962786899328828025514934748615421390211212531523864757026908618013439704795711563110617648739897776253920540313684528881714446002356840,
  60970802096562129084111348616656370068910039065004789873621139579332463708505707427517434786918222554382071263490959289074438752614028673482589622337759400392452368031250993076422861107272656724534116222723671954087201207393077792998408243239773996720561081225480728933080398137155235725003672805616822196053336058911746655819265145824371817287048920231272030475648932416457412129672955175567678258488370311183992746726965611260329309822330269267589405671052166540308738119801993173848142299599719391858397367699784337184499727828476392287161322325114032275635399294767536208010452773214003059342989540250551169934679254343837199688448982875226593064482709801219722536500073947940118220369422844776407943890908345746154321483232162622830229329312078866580238991247159868604982175227604224048042390907684589301998993124676519851422373684204464109842577721872028902389939003884344714545177334388435732088137549347764224709044578196299714492906932958634342693450110582612429442887099439413920463912937437361358016933133202954517116956113215803108546625949047266748244,
  84532979051720561482588358906549396555750015985992113619437221151909605027485551945742413561680802690454476042275730823745256553360464180507420114778635405649222525830758008344816094412703565910260540661901599853761804407662171948887014599820752102829122664649912018969330349560821670608620337185611303467927420467954316695645363386192307018695930567265203259807191770435726100193888780097530910041160406611670813219619119789791070806886717356979058701724911386863894802572897170063840952243542044214904248598644721706050712986022084237482906395294389532803351108016127672079687037833007691736355492215655359219416285511254595534636826649098267445247178052743283424725874502001213860143771912966811376571118176218679784598844002735061975238620934374519161959576351961034049660861679228757321470826912026622185862352725441375241289520155805965459413326434926759654818631285370427692848735151704235513142175323090835634646637658091052244616266662296468361379485936477569103007771343127349193431944725615920169913441097526705058856615990824688088397358804113435783597,
  60054400605710365058855538251909144358936177588405882923598478745667651424331586954253395902972553968796073227523546221234417598919686558425788750819091643038321753956693720659563323796906811398844991251538075581494194846686128453708027778374750849433330358314668989521212801689395264254404581604534366790536861690491538878559691159766779492756144005751400968283645591757534672823277650339673348079946712215640340387182648547227185914262958016026833043030451870708384893174202146413239851758432544027630570723245584594614399108254632263492540896244810779037526632580098836262048673728048810205963884310005063862972255293302355555898568008223036627745676153046465378656012927356169656529730245836322327480375937965123501569260919111122870869202519832456521127114939663745549987702063816232266604614243619460651935326417261466281462099569937425855388726792825700699636070054356479780164795089246916355939801355508400888350016319257680836154147714184612373919602488189664486269682938090954526154148274278776426770429194337302495258583902172125961863782467657605502111,
  91135896121811564438497390029262825425079944684033157107249040322349894517313877790973130920812036650210739747757461386817887895196796797304599841939922972266578421158072749369794981259441999627169566504511364036689049520665885386812002488643295301536278315618715971525396101683761522937261127070276970488960433200242323263838947982926083217675956929642884232473377113364608402049060498102814297556948672096749932182918284254170807999274138313686572257971302069084038444948663807128619669021704191931399486170596917979442302297862831893429365863329074235188300673869838690549101738411111648986846744023093833235780143647462433726471756519776607897517300290532272089445722209679985595917411387601182821179133409840887783919515695056191603797139305622324686569514190559555204159419511866732478458061603569029915601324876292041045979957329109054986123053334031674167262535452368322312969739821000116844755708384386834465910067717850663609754674229275796903713282196498778789189914275710546219553316167651369013240780833075048439661440988318680012051336612917219276233,
  31101087479055925452173256106948770950916849777423989864474457821889472372915957752950333573727469479317475394274407339299878958054123545511117656326049649500347506286419875051707658059449512554018209677046716057716671699985436504271250219526900714933106591663452458260587942828714702463049129801622157219136606143154491017019123025272399771305917334815170023414510897908454806985737688533590246721338452459938712228227596440220819988877344977875800968480722595999430710515699103678667636565069259794446432947791721077434973426377911034669226122117424694824971987674896575367741955959834882673667854969281823543375865710963746210162274951440251971521890816600831935848796392559857299204310228535663365843556700735592666195596545560303443113839805577534620760412537320172563075149158408061956796744526809302744785713612994004647035510899587260825537045914487485233858212267862332333623263073466051634765646629578925205768564477562993858230271822743865669188065112556215953081395759273922659499680678596312553564936102996739133195593857596477853353780555683457432380,
  84352361339019667954393507850923308329877757402901544565137259895384609545226585087977349564135308481592446747800346181729129811375802845199178586948111540586025265545798258144659643494462245566989625187726092160881932276437398188876554832290678927988778080786537841538109709399598914792945171671664843856382456192054755962244103255369312987976999473785941599604540678540430117441766193799574545258961286396992056107223948067444648732774227160885311317793878298128872145815510443825378237982744038500692601989439452037079227792821530563901972495455827250429943616991411732049725878062747011716186892526821396576195287322894072294565319804849309909821009848508061707082707237947443125268264982759971821641114471034202862000230467658609214506146333910104503856541444656761097060536922807395000626229523989855040715039999681637099851765611666698404882493791890900821855336448774710523720342783165517576506725475180624103487730446349434219291852929236067778383077476669125697272857348715361726552424504396698547250989771074167714037069701936327375721943003330364294272,
  31084714799310886605960630052955951884500481049346028003281907740524055453065466789508616399539880164312803499689138305905192728550477565240422503377434844967756426582694137508509366113316600891831256435237281625278480174528086136544492467835119815439066592372358013869824211063922146768426416679732519010468963586624218596065845063864576617877099819905241160866608318071875462867762568698952317503123508597732418984864667378313904218755107507919244220681811079459473633754184810265714952384396593559818353980264271964411023146906268967741155273723368591473447362714144688081335806437258182062471963537644818096578453390271254277856971927927999528299871600051985797723710488536711037580829505598045004768056464436332336824531039429454996759301831430902291682463448196827253517493385692901000055045985983062261907292961919848068039648017152892283789053755672447033641766101670012433251084346539240471284160211401940447279792908190843349841462168552635094673018494210383058639211517530877191748341676689863375196938144136653029103843247532431159365284742643937068087,
  50046563475757694198087596428676335252092910791626307323493338994593723247394454597538493371297555259459090582869530401763136407573895848393840420516925592193336202801020024713761692100037899931235254664109041989651593740716626280635215200249188511380493933202693595412044119457007892409556874980561023059603232870842387356800764205733553093687435268507101850657177697073798518484062477175147159625353021217342657182458972261262092515701323560217513207573986815072509185683864419493733739839983173968426108432503212993652071977555454077356016469635016720452334997937528651240295258990481869207986034180893895278837099212337134068737451085639270006014597807482744204530114523996315813821428163767323365688545325658277936520888525188246581996955196089273181458380365443351288182943915073427137745968059789354163462310104316274363304839292102098519319380869663897125288004565499260683848078343861333955609101469645351104930940295478062307137706463977690540319274169021140970481922697043960038019180665048588451069955575954278772442205082904609909851844374761337052109,
  66436087143623200359060040746800650131110510455093869566666882473438559890812979773450267417778238109479237194430721566849188796241960890823328215137337277649329960114297645346508751162251653639662074456140532459734665667489501679029097477806946768071065702153933466134682533842564071613920358531508442220035645008942112327917941837791970763963772253375868108109760187298731349696121256656350132542352970331930501535804845109868588986469945783168353608163278524321282650488515242892358291158061990444738009987946010858853254937484999478070528190378909855557625783342753072976685550249158663380811148201109300884083706050661633440284666041965705607016922267944560667584878481543734905824249965389504518372911892064675473716422705886475328780803598843818920349890585019383953752728774162691508329824251966460864979919273664642509477863725491598927592875409341052356536409621700041753216380413782011019671773647217564140121637760339454005387466367701159081612485078507656625323172301849765278636187716387662207927469261293434722205198506097856846093818377139133282999,
  40487413991753685334959866647988933544319789407716883665728111417276796584199515216407856649420487919004056117457252108231638924981935839470394617188358781332851858097321485683753597774783716950837603950534426870836367928306650891107403078904895335965215203474441089556402147333238367924837103764315624146511166070947862854868415093970675617208758379026755755285638639328248063793980159440827244689841280351002173682629503560463318444080108550407368630771849065457471048301939236993677021275919402775632116463580468421852131766203906689494208523114477717289368862231639983960630823710833526431685272186540196479380113943054775607259573068503904211923748186343037703873357766938412823448715255701307873365299593945750430173323233225511106086031077149339784610858851457682263596088827267871761357011859639607328577800826553539775079300580823912841045249232500457308960045883954853357304263458895856455126200541575062514989008007667021186148376357669958763896812963854170020900597186867468409696670373337924131504390019125197678985569600717552225157451535364298635519,
  80939505226912170301862503954722262384686124050849211858627090671382682740814049248093298434779543170601604404435990451695906618425909186837743729947276548091247358837767449253404601575927629761293005436773707424603833653778978139448758231507539111876325672069198880985138923290221697666528364257687815337597833721425773908511391881998457796958495134626466975403905292765564758305611385988903164409618753433752943045527709454154880150029006234467465528156849938507049060665593843134528934908763486338465589282079614864691608045351792245780293228244254258172536397042635743863295018881513643795309418723887038463685713858696788200485646097353556400329539641979313194278345506137045506447756994897614516741447747188298994607336977310705948649613743830765218864469431750855990723204507850301982020112162273108193467140679904656706597354021179190522829279863953675864316762000988040173341451699461847494316258661495347490193593625286370274048061374068355692365690004438239530610015275950370506523655097422235199615822531303984744702216530326928520399365460433996538590,
  83400214002038905263096251094569576929640460379493618799737303820869974198587240967868312542608751506159217390881906678265755574515830470581527875969176130929178711207680309998394380115829668042139150172132357935956199585560555590902905354136695746191034789235502784094423714918422893706961736743488254224179844046699979379283216459117781042377711731465250476282659891361731750532126320984463655314072016769492706157321869788650476874206246950043811236728600661586914553237037140856347212637279210662393038191905761580425511331963545903066089433093973322421656720868488378904328451688735352781452830147597833352364222246491424277643894122555846632354092853605074129153601646722711560853631258779706207667114428987204145229835832113258735631253361535856831160089084891411474428124509195451746721159970933081536576437791590410059217040148018036332903245396705292483930752192441844109555812209849319422801368589403329582137611616701446414153530898269222960115381508588412114179149747144074297844842886303323975431191938587393899953044549299184391096324027047208704914,
  49442085805361392151593522193564160797701806342239166559794307173862759967149451982129584572996194823884351303534382558794370493860226593613472802823901183545243128806630830968919977627943239857704197453721730636307081458373632427487910434237346373377731571254584849855682338469650064806636007995077012967370709425919666288910843770987113598398272323176646708324371011340935426966248995903929615008736421978455926644174816123012941443373336177449961876948808454450317598751720151386855119154721192885836896548734044633905646310679325214025635505496091871509877900640761552974165575465689997819253510071969943952859923341999993421298737639478583499025461104114333732630304601093172516138089685109000734937070293491877087069028082550111966830208514845341695198063258242734090977848976972480035682851448864338613072886692971854823463817554103828569307474677201643019018538902824823523482810341966930286961645626265807807879220911997584812580094971368568963994718233346816202185108610804195017033256269700226820930304277132679186800806515525811729780760513982745344708,
  42848802648154272323904145651629779264415714565341551206416495052723974705281145870440722739108239193886892954097512872556817726914785669807300890236981037516154655521084495023451156060539457501796381805235302288399378289406046816959755472702338740476422635198331792761755343621182769665302286481330657871637164796905208504751812763532072606302235195301244028355238082782711113092360557909736353098923282453576951132998419900418384314595079478741201291409522156916454794550484814844105876640765842334965805797902883867125696660018151825671789016851364349518951867324100025082788762187263372314381889250885230491100042328910137304490340842898318188668409058689918283731252782455231419525482199578975903334284372828063223713553605186886703696000325655308588404923036473425665765085795378830106581407361484775964075928559600712621132371110031594893163974952111231963875966122194081231725935349992362805104400398386999000795222000410058755749272956479256179421857585778553600309942189751409366071835426252329295953301592799142251001573145317948329379751880779843004564,
  10619098634587697701084658768086397671797834847743615232980921599885008809779261117161627042714666066332141303563888674641858379595395295945641895032045817915771768956840753397110516247011421336733738869439891586484096927596534623968472747912916198212352808950838272788805466853408472916173829013218444610754594332316745548980531220253756346198245735389588451078744508406888298519880622246125912099795343756547570482454572628091739853647054566453226047453219943771773022156072574544028182952895804714608728842678775957265595558697594078367755874015721012963392983395445310887060081156122226821285050317057064997149261700607503694970289536787471159670072448408690129328833686383682684180255212765426774921834158827763217552568340629031590270806520395275705946035852477959372044797523336188705099552765865090008582039511261277370759617887330201395937876046698603636547452745705905528589025216231321766115779532124152960177536392586518018068301944786840715624885391282752339628210209642069802362203075408642863556644670880810396149603964487278839538195520208481911719,
  8116653633608468803233224858673451936446137488591259802772020671298766747809619699508017876599485964270262157047687058074381182693838755146484142678609782872386816140488278077479273457028761302975997046135730283752965409087135916134422018245576369334382526487659336881423771509440490324222665961208094651542746044532889813745973446112096698182903091930059795996644250546761860129344016184843108500875556132861541320407303738899518574046095187494161280831707786214785776365446076292221006527635658856962025331988853472409613593282852455426154613994062659708851937922341517927625673339908394875798450236198539637165387417947228698374572355957900480235585766400207060966411231495356413054003182843371589007553145304009341042360302544665678602222951930662565457255642520173564596304367267765650708228444304623104695931011489213833845428649098068941606977167859832525547789147271915859258536998750989010960262828059437239841946932351244436276671674976082171928157857291277276017013107066269771425254365465095640649791123978863675115694414559452169731726334992304726702,
  75462686556395595644582597050259338729155244573790574518309797457496455511545548443786880822511655768016605108943226910586335625022863436421651671056900848342975295255614184289200392948889672971152122921997409104475345146813066972155980165526508240440269084426119696812050260061014586378408077642389726919188883889522824705575805430185258768497201676213539244389825198369184225131034044619934089755276066393179612535371799837582776895482943735078969086673237359408553684718746170797091584269244005638096886180624335440726361559602367719057562306941076635698197204437839897270420313914447149248652685359351645693372131378143324259777459463212182244716604484029039026549152540370304514593511764975466079402278902143108118503736412029888647860083347456287053901942297970080928577573609829101903938795382294690084792234394597098353819176530167931335435715114367744282836888574045618863541463258013676469795108335267450573265635862560540992843490549449000974463019319534278963334567756553387165509338017476983158129484863866970132067137101960922847151992779792708882783,
  99387546318742638008635194148647970134056989500408353466253080361899554618172337345474050252263007541015665696266062057338110970616062532192310138374804808631241068046194385924630132365060909525272778173725776602744594037087452300368576174602601420844328054861570895723509499817481998229069044978805477665742368958009587082372411354469648957759263816249132893427090221878290610068897435771376999655473722959570682872520146154990089219511821827508774157831939230322038883750396829242267477150678237312760424498619653256955678007696455556052897388802832166514810634565803549878607141901372597064401810721609624722606427903248867441158472452636149539321902558604369050300138960684226124682127333708878686477532636851498584874679150827814591005540651151322358072491968761013498784729062407866529812837858818619411778296486337936237728809412326091529382513071856310586805431709005134074725073957366989498330079933042414986929822004786084163389246456219504998062782464703388610335088988664449707657865808976865242573839421664407840777337538481613990695782553256527762754,
  73646018835090968456232982750915937561844747915924776674785476081376682389943114536680133801618022305898720293922979770217786271936913128522138010725937699263238542893714299950058667171572072574619887219083408255231614066478446042553905176980510735184740740928552335062858235995524097553671252819820968204757167621081087722045586160421535913093701678902403465257628172196191290488089662609559549934424624597341197135714127964523005936365222939783561216769242909904227343301821269640715232523975665119053632235143593969083213246895532644272764624054658468821047632668363540995028353767653097038545442657796825611094336478841962941768202308227709001245187716672416092458497964585144975098504783024938108140422181682087562877978374841772234193409585758721015259000809044849858871314676000563217827365590795320925310561908731171281698782115332000759328647274527881520996854472547375756520807700426163692201839265602721224198276894380604033880009753444364237460056712270760237302132233028271305009099127483909769556559762170793581027867055629797326498584270229846752110,
  47644386385920934333877654461623254448809663997492444464326271277636196927514834615691206869182827483835215764010942837916507176883058208568291546267423077156981170079917557872151378483589477073435004582357019305707029845444204616745132347149119256367930262987790631762450723637746180423897992889162369658980410016805185017910456613073528716069237977076555978177357331461724331408307569695544912299058361429928604844947818966921752879667417944745544533749766974862479221531721296624405254414962880484464396347366303275880264370602167005749218206809710664074665114832249206147708576344291537284686968079484449193685373383449684321854191033841611973626929894815069644968045557073946179898603855642330245315552859794914545761998871903773063359284592125460354602056217764202445273683105937437842573283451035475449382596332927842941421956717176158826741819767243070956360506402612736543923889984120017981789102714916500181267893053462791653846810001960698706827204877315939672945140226748442844254818621893474288348475874339934627144890836810715417535647318600148275398,
  20312267806990407606604115433603766605510717963935990338513141959644063883595078700900107848567256713960690669083942764645301602737611207888953250088718417395672737571618700130568026268249895040550261163475994215184374274540439742444992845571571875992672978786465400210096050580747448938787238484381314941745889040436842299050974871117975470475041910665060340305637686390577872082276817609060860958711307105312394203425564459644512018005160219252035140845359019143494687690950468167835109494750502388161449858472028953371369852985197271714012572217905902501738285144310476121984706376905872605317475331311652471987353248454829836220493874927941576369250331494915815419053383043854295613269994211012125620274299527134049075968466132501696558296363526126145636398378807306773542419581291205379109009097667327377346275023330735977188877959050830887117069323698349518758886348258392408858321346548154232497548146505349604433116002862274043571851532020321981324655950188193019080025133648336066184972375369676739136281888097199752542591152665323934095764055239000653841,
  69689076015836635862459721988894589654123069724352702372587500176706628859181002134117162541052277316650041929868241693387511914011457421264716929837159387363072023308872839804565277248666202898531530777592730380831267042880362411119808805298671708212010161903376121868582124547946897496955991067894623203411618359333760910672105313090152664306533662616603989960691536449880302178978432284638696675445495774046986755355881366116194535666167973065350851877496803240724444449555905821683225214706432651854493907676639531729360896217915875650110737736269121175642538338517451361492532135867612975344932032531978513343027179882909032641709839864122236685871317465044149331805821443966352230098912509390301209410054101540943442242423601940905641248177665586377886180470887519922804330793465320503791034524489170275662964060579041149421728384443548111017548698756307480084618288885704361052680621290917138339844019409863849096594517780814146012965008982510118314809459639111793632139583885036358499040500626523144420559914318515792938846992735574783983271277159462962241,
  74948454689447811338363899026956160328713320709525005036295627453637622075417566247665406264495034350956164442358127360610131643635948992959012042503155904894201908668578661222384543082715372890279204564501142205502720780800429500876241276268124446164792218913547405201124303266159595839548969618580417914648185569182949478096472616369184168557023625641605425464517358173064054404752686390589224064115045382629267479921886726311163363446155125400806717690758977483839952320591577658234820926799376172687317546419513351240264846374228904137690770673463248710020992653721807581062213386123398057832310635343597604808790095354511404501874291419003834630492626164128484209376171147114027634193551456893673527978107980666197552144053728187856604694976706760201051713492610684238245116224932020431015647871231854281286633068230205440315584454376879443839663997384415546318370352868421171007028441205077042802663818200853306449668355260920966718560386386499033673147811438740353788202450588831747550713924241620207909133640625330063357857880093444927932205699234263719759,
  43062590721710921896329224030291742122937610809343519076419886135380699897795196069422088936873405005561250077806592418528260434117108771231824227986184362824704252851244272295815541098343123810675269834930533396320225533051901371857907121083800312239907814698756025957312027162201312056828126849533383988550476161992125312940227168154254762826446773193505012132844308283111488740985777626284906824749915679471430778030357643423683475470918534700134235613848355906722881318520728083938647377115161504808033514406603079473311193844016337234017953283028138463354996772944568383591955674235297800310931320740840205610155714949618157607934763981797031874483223786448091199375848030749663023776594913492231233570028395560730645253602063714409339403388019420817223504500161739647316779352970650912315384868212663356917885137006937188048136158658302149597724558316722027179421966497204563012104646523360512343984460534521556408848377741835969337255760369883745207239730280366775886274403186731990811977330132473812730331408324913897841871326786273502429574449425083764992,
  70699625220519168440973358088527026046714435691524120229644942109069301724423040224584482654415936851183451008669990791595369183204310378816396306883515986009292923492687175562905921375552220638210592979651188274177313960479647649379277297058147890559288977424887610880447304222859237911760206402784750079830289337815674585676060381463620181797987808754386268360185393466456258145412759141257252878058650520999326189440860093108195581200025911166741242578609995601234104873583210951898009026956825021058254438074707848405931496491819764955286599046582019387472864119950874005613574734953474760143473587283442547650520899088423663662003010171240106847558067972349425369291653751452848995817728151465050023381264866709531630020733854560394979654012433017339458842421886295761136061179181259231529099109941536463982685001704917226332071801428571182425123886599007623338405445055439601894503097727341435088682230737449879471530321933370148671308114156809523057893331282461671612988961881492733675897419742157379670620726269235861100792678467078880122122487749313115915,
  62811406861879533445363407233063280995714463714309625189847620263259410100978301855806542899731390725139559678771628734159076915270379758726761696405261064205525971763235632402978311229597150938726465276244866554184215749189277260321893829445768030264973858041254113703513013173499536699173055039119263184247556670681185023579893860560239064040510793082853789882211776217006097147820837582458523952620733183360464180985431982848433831439117366672359086829994044809694122463310764669230431326967854017280873970663171336371513037301702652629859745556344570005904453338501573097245420785742975924738490835825585299229967078377090490746375295669644710297473032447504659041277008253153747073115160597598419430636652262378809592133092496284277655929226741368585519465204724180811298689179313400928022825801832861824148458751372963334873995094692633443053809463064199462278863084323328085399018638754618220442782131045092433085730164673599751741019723159634771150953745337936026585951890690519676041105524389884121255919849843630207301574049640072512020924185994549818044,
  47475336521818096135749348475542938881602776739398621313210799802552321087225878362125082596940522195446671143423284192758870384126141581080376811543538262521954115428318986101965133803428190226642629634411183226818579946281706173743067430981939679871067572258285214955546358743800279529964082940161804333174483726160301789423156163421249063469230499184427973118241939937766805055715271175520151347583970183692101799100672971781403204717817191776362007463749515821689089662050175071695005050945858447859846480317450383143963732379371355588634474245333891459454116550202969127925326099186317325619703345186904930500940417168835923741371844173567945873597304130736162329495193580892743944379158159699491746423481262968784089860632272906225742192673302855631589791862760091141456239664761605362239027467090543492016693554687533618324279986226414595668629890413730753937311175601425162517264199147101980238769249823929830846754226681681209953362472568925437766233953541716947451231972753168793695456340003384414315379888626507257745363822183932007595605460847489047209,
  75707842078189019421187963999406771730221253141954266558246210302275987046104957953485646335598759146288183995470440285248648492608272656690384191713262166643676582401711882006656916563063934129426817158558787128238837010327126656178555588783040544277971648991220231373154524634175083728851351468038187873568040980907380427083350659535081459631880072890060704291852781233820106061296576021348214012408494523678702322641312767499853899706767439659699678817255505179472691763670383684503354001212367323457060302186671382541117845412045953385510394796690074344153901743602955298273338811615988617374397799714461483479591777801571771811016955158270868345470197429376145803042035344281310307367682369288071596002574508786448713584376966367253887316322905471855998959904248590954578708861333902031085776627048434726796406512238082969193765806521116275924567493860888535289781928973504683892792463352007461355514096584399449291099568099743830364352380402430545210740943082330399761012723124764660202383752597477442016023381243771208073119744467245650620570849610880006875,
  46371902003580969616940775319356933856961150482075797930343812373086114630604922440419315960417082515953385078442168736126021683321523575149447396521718563816072545657383817829940925598303740774358811176316988294143946227608222367135252640130118068457018720703474863967996208151569850320318788865899294273940933563180348259939199124590397252439076908927735676313099058715500289484581507854738241801510269894307794939972620734967622476914837623465446770830549488615928722235522750267228939315304388588479948225274783865402574175409033371284891767484526924888187328346275849680114424586748834661043199377057463857437099611417534313940781029312866593198497865051716940040442658082975812392301661303871286751440670625167156067119943954672762041643239405391059467489486609099040802863317273289761273335203713540280180519319241762023522867732637978486491028441462294819542219423602131422111665137515914154884082547001489453214380569034673263765933663693315777876703769402694264391836599867712265325000618045501536742872136637493805561839620407536926989863179046096784179,
  99284899561750249995351921205407673841342508584015174517932186626023261729019891976009936799973672952561632330566529270338411969489978192490023440468744813884603728115334231635805937433311881272790543396573302525877528055747072104831922962017911389377364585682041895463617921565993267334025846115002307975997374623109537735984164847267793018118678602979010115023397378363407992836361525166106670031329001345608935348954375265349896353850333383453615114720863911724377110771495523530490993767016867827834445464088703540335650864929041508051470948813142980027049413269717553797000583004876263252309694833725817500496861586363051716076101684078455092668913764315928370209615320168270338073588522639901556113667486173510580000005927758777141612457540995256034940406791151510617060835575909151675320193945818643149900784051690084320875614316222445720893307047686488981166094776771206822092068897903109304822858478765802718371933997561982096552730257376968882116437863674121268638390840471399036598517515808192823102338979187968871101656932317707263931226248705939575042,
  60715780274387886640854193212092837124879380206529274916205444559806561034330705077779485655154144954734925057105149503537021939192772944481047118581457848803623844098221906145682628050969669984549773665649083014853107613458766837978423560150396244506055406657121612613793927660915292746681092274894436625186480891261959936214852267922525238909980399200996645521030944204458999918739645283650656712556378099130770904106210463124047340485428526156184810318633812830760817373201484094112444019862627203606485905036222573704137896396590195015313731389886275355388265989309979859616314743687936430413504291899586167766119557228337516323425131490222537494462590037473261591836188838694610773249459039987533246803835972549291280027138394097672950089866985209240464821628948804088121805616583438178396272610578902563584825928479281112656501817303423837646687615182635907961686323864335445820054860988012016931398171040392681412747357025915960010801415422601442014350128571876712967932524475049390049020621748086267809844061752356188018604359516349499326879476381000136040,
  77215966396419853080341539555082367528945578736918738673341736668285946188277628681325770751373767398089193859980115235330542236850195320327723096569508719568075059174912097944416911155477556753974785404121688879853538566379006041496082171782534867750357909630166182312910436369237202521213808901989103790499907260167039859566490346224580499543819350277933147735253146427359550780800271624713958898408692151025941798515418037943196064684624909967324060556586184982722820948616971188521740022808661169907762994902705650896791151343804749152800440492907399741756156220137461923119371254024490973200820752550083039074272438653183097801955313186977015352539009892835689073909912773784927059517436694521391948510540195560693535046243225398996383331648406243230326034763775001447496939164435434370777001402158558567923719935520482442248903757031194231517650248143849359598859404606939194397216608265026877278030236710382427483940292493765212618564096844836073521562837572068595701427079555420047603030076274904584960609562534853275175223956634710959077166623077083264788,
  25252724139721344993248502285821850056867843844365321727919522593758436375702343206310370452137179979932269626241078900871769735499022818112044119867922122262601719012223482042368886903250371043801382626925106120220887129790605261957019935529515196710089629398108478399184617562612823553732376430476695690697928628313330523696160908819115089438568966930968390347168033005806028842519528723902060925467113630846825088338756127210333124358654335242499187997451515638950678700044514389343085538026191735274457571290477096911369381257873021641654051421840921831514015336316837101865840248382891778857623338932987918080828190581287441142258478046865094142196049990368949308612352497911506702913515291294881992376390835269995946325126599620222010372167483712000025772511371105520120833658781746263083914262083270536110875229636474958380833939528543492484772858235095157282629841986484854673329955338432022346424060268002163413031874914559561301356051239939341710979825718743722583150852167225813044791800550269996983276564029740022199487712963109973174574569649533559177,
  38786203861003658934197538358591612954624657262727521288174847331157400457147216561261587906129207524746461492724286436825504810803680552024685056077151930891366212231714206970393881123588539912327274414827818509994438111759166934908042072129278000035351405026498276488076590774903995002042108829597984419559420151257883425228971856970488080384713488248270246824618489639096624255711926814066254427239594089264385636396539412166661636967453356438843622810837779624994332209436981670800125422493768342200507372475175409173740396880640255164736292823107408845490184141517806704526071212167526320476526808098344101304712042834153668708036150561680039795071429153246252321826342119508568479250037065119118412978144666230880084803724149432593436837669807465728228380274483357117714117623935939797692712837101899075147747432284661828052426984064794398735544213049389412653562962790937780318567535584092110434664870157575454797863232650612616244681133917306110222478498308605013498942032723269108712643778347449187746001792901782554983856861896221164956864261771294678520,
  37989348717997625278299425208414406757573008569724266884364032028285630078097768132763252549527746831772670966038693861177107127936330600841019466969611356892642182114511969472736292368854752852237145531560432808117411325441584924245360748828478918144807683368246495096353608052013062394987186525277266385225997212937780317377041190131327970279977776621181093011719219107013483392488075904969041880885839908659771416150848617491772277780564154249476188913708339659926416856466639033622301476617211324324408717068695771541814949039237594642554366146111366361752513860635037686490323085352836662558955116453565707057040604261192369204741705078018095580392182839189577329003808853644051905174751366474169003911759454176047474251210315137847533732254915766895481375272986134527494697324633310202868926656418458413287590861734207483182337130405251826655715525444043587393001434850392137577938344914573170616462758409783654810495201137889462250263978728965910219618492634397476027271939381272366591956308662675089375482100996480373563251269973525727353960999640960846619,
  65885150317673547449173530826383029438707167384353687672885688111540088742075592067461753599281007016202378736981012711261932372058230966229056419343375455932118001449505206698547986889717725093680446250451393029275252922201797760041443282763159280840593879045785785719261359020395513465100517272386426078139339381888620785637966526861292547601935985809221591168462522996499889192147434226251527631645010249390357134057043811760959302592219632490567504958947140504764263971070449928469778597807603256542283486761264495570746465540389634898904554480468063400070601162071442428264957615141111328918978337075280712625033957905493375104369791814958873231865853890031090105319364408755717351945731872731637367812504993289637483765757721621472653452317706182031744850337278303659098702535507684588803866810926242114512679397098866521973766551303444972000764384545950648519296688920144011387321891601387725322829201704911688968941505594903379972893185446958118912997188502528240736604423758537122454291277176020540510856057376305237291348844431011800777669104133742680257,
  30279711701303328958839236821289234850067397956166122614350312960366089242492881265759969389422426388548889431581167798882874557192092002576721976180339238843106555699885484791319350048382384417907417198873219826090704243729404415885178060862697297333397767778610957594596266552139999706487407541348668633662054916410364094852485883061150515130665958277387025117942716462833897625830061205267515150463975945598401575557297490081774685880708562856451344861904207964352002616299991753727699239565460450408600346701948391491555490344306665629420236145905159289080998415124669675655809264692609385388870530823431352685512738640133783933542354854202104666145692865742296959914045649572169739890916784544310056505807551465537637891389129918503290740463204420014324440714841600401180761832348450479112736186706647402725179681013735939706284983868842314735072109159135571325054819679921305253175427944916968162181404760787153476607990464617123917922255026755004391192068805570041324288614205486658301127740827406611484500897783398874715468734083600037131191562015781255313,
  62910933791467718773862121558236717798084739284078739890654451745742561256946732227367481939555799470136005712157125840237600997897910674999029969097056344781112054132358894129124065203787295495683682642271550453772498181063614134446091441649841546154933157538540729174588912507862898922161761160716266059972516752026840466695537311379257895854797891930723001917612159109151331508551884070267601999163052771404506124321647609483251725573624054169215409999108835000194050840906579522828293268411616926972301581519650854643670408112479141096818913351220028017371138393215023595295991787668783985734176946831655488624606112761816466901472783843559540011247692383478222415678057925470526904745425291049723162063806810364250362019399084262268083566278816743750761643573040072944594470085191869443489355721180071081056086724265038297589390870243285062027883876563580123341158730629672759150007462548725733972032722886648018867368266691351899971360800367104580764130289522797308624429132015800506829747234217789037661458087227755717777691984627631603861327866345551464846,
  7868612803648001693496872106542608139382050711047317751316652922528790882814894769523407293289128929735559611182820918817925593838572867598733911867386841154444290210242871396655293904700103374944741944608250727792996643883769614240695600934496407477333638064492469672867556406882590477837979938632122547588693073558625925384976675667642909670104509156744328859387033637972200694603624116519488194074830867506029560609449717863997640846043244305553372018219190467035778513789364403076300627877034543921989820491451829090016384392730359204675225955441670935091671038362618431052653907705366260766823480836302698597876139341340714907705713406246815136170836905829808944095261708764843154191318586659287462658443534311870350599003006442894628013304592660998393852971887549161721962059537377179698594884019318062096411265403110572540888624721096294039781412687221142888222524611912068697743613080465766022562122971653774820669723394194838638092999497985757371434246727319476064127092037723835427650860427133447915114757857737338639852443007572973206348636741402374928,
  87878724952239723257918565694923766960321362714355411000645731645779703271024035648105696410732368235115747973592290290666283233563526049523582803883247014076470033980679358006715736980734108795149904556595630523261900325170491572232656987104679867592040866510394118371972089470003668472513240396239063477322965782583694951571932194526049767845229792633490830714451317847428727363722430523288417591491346574224486459812477520050729509079349894705567599536973507464455266884379630207981062942505856035179566280753486358063341417809472614798099291315560314891762978022837889083904493834984357813903060219755080903083106800440233707366767322330621573042251611887124543936893974166531053520544531291073541595330893561076259184192574367795194743608857831807784963481716566758181908277895647294750723629754690842401820815618095843072216529073008614852329319745349333795604449424982918247114282392162261236701357550485080674167154242367503529651787371281045422705743486909930113174689842409765314715179993356397717875187840950099787549541813870527708200029606412099784652,
  12455494009793342272007890284275688124559799077259148348412784763673372747341436054087956599666636753835134166799029858784983608033778721084150006520008407202187509356712555328469428458201111063690931004717626415026457898959202651525168410315051822969714470079969735887782763358376563934266109988836017215616896202668987844922206740310661971437557543111911905559831619937330761948147653451258791676887166712691079565200985948884871154452339740922820810511342722301916438483038150308978130327803349819436368969349458090083422417040766327816365983830825775823049131625983119897890416865948788053792492741744988547681310172952290788713223578346793842040315015925815129575548948834555688372022431017884119659294117816888600993142922002740450329336898341478511277454255369640147761647270967876392404838331750036265096701817687888157146996992885101841987296804620127046065461499723424507550300246698069862156223354929314801378900279012282240469138351141244628853407277724953844966996770060552282317353488956904357972560704514929483607498576556278575013056404235477147114,
  78334305628072550318814969258195213374652767718520398851599159768409788840285797877661332902360151482085737989548946325610048907264623397282339444051896089548435388216905579712127370115684951309778287112832568428985747711828633951502813006751129739902023633012859515700882702405297786359120877521766078511039828433935212234761083691883277153865511924478018257234005423759162980272623214722409617513959589807406111863207909634625364113747051505328195880549176623988643396322343140619317436735211436349717319585309989494582044014239834632662105419680025829735304109798113305801284131008264733577237775160398549884307116297399560835817277090772307920619337175057002314666024258365936270944955092064862801206082379088779973248540768057377627424483960622321527840711778352477539530621445934847161589974822495345178495922702163357328988502116266997125375437176180662703479209503571732962834043314157462948366627794153963721686387876920506264844594439678271301372365049488153982606985231269980356547904830771311433138459992133382311130953118656716337311328978372929919639,
  37140216228431997044802307590380337934433497106036227095099726991579846124026790755792100139201963546650907743987965061097013867678503373081225721493406348553956083427087635446873248357462866190139611261352202579958506279016539837216414783401483332932601379992629596561510994370138751739287492017362925339268349056538320658091508833849740625307988928159785478476313869463148979789361260774730158939394144634301978591659291983043054971392690742407897379088971303018977287887537998062256926303756570352248984359031551544789839914813927031202677579500360924098424448987443483941170503824978336634917282609225549028085918085149326531267738008472159526889377561422639336557132745240620466204116235218004853352375615473614651079228210175212600790632097917006969820227472832957984935302989167021334565849203483522287196747015701814760782756544494793312831687644543129090476069613797845121679825978003960213411101432935156778891686120693424695033257401432419652489261270258175189724619267099989736123990800555994333496875411261783378970311392686212773353308102043637204693,
  6305114838314976132258656290061594131954721487579099430811252651513694549039133530044766504873744228313556284227256353912764044631276721379530999531608337304160840360669657346015540822885608589957620615183151831092337824077545043275828267167841840347423921344458955752088865277074742410632962442087850749820753496350448788805525806049419452831684185086132784103860592681135129462240712091691236226439008829898451975569523074436384582789794127992351587278872728580078076382494912016479395754764736036173208878947518056511722344269974141531907286376951872425676211969521656594188011211546222272301125659412088073291363776882148103011469972077743316745276943161392064037513684376420927182911112299819396973533953276401795935735387804247664035530280813742321709501111713661111328626389877118317869034598848640987189800437109165427478889974418920896991171630286919412706270469506743582193660706412886842654437249273370732759294708032178451572782545385215004392865932855371402758693758766080806458839029645158265275957155620764888773276879734683138932684912311139032956,
  9933056446859786970771545580458313905782049325571532402107488343099733159451129405095934843822908010504409189398903801439345910674743947959069946307699108937209742004277634675292395464391248845423063227385105697708386697806730480862014331796076256948574372084348726637955503160100073881810442809608914657331531326583837282615867083659620010352528004178741246509449308308972370046859763832220943463501636862765931976366382460524153304066391861168045310199037840980108947632855927671651411667487374508087752523906233236818239333259458075801772393593549689087784847360067136584270676208233273440529187418255056504293950848526011694695890805317720498822472669373490303854443408470256255550328737077869536169874090635661302769706161490649838127759849839487426835820433600504717242656511597485509416263924781940484513459232081724764406381292026564737018389044963134068820919982880531429984338321481396466664765337779841624912173330443640007510710200815828812407331318588360238530983731373357980167092094150827226543446630682768014892201511229927889340583766046401457350,
  64530124617804103893969195257167588236431081079819248523564865328801718731829649595731818617411983094827212442000169588632772605637921898854966077807454354374949950885801270128919715653147177284015053740433148175576777224465238980109655509092484405499450210412613354797114423562193154010413000902961057403569574028915614982277586728018192906268958654704185304401290661633331030417870772256158094065833415524323863976257501389818825156209280541423214464254383028711692986311963705119738029630132229168423563386444602126745177661803221881900404032214227016429614178974791147760041585164014211483667169107150330215262397661024487949708574352622122998689581098665836199943465596379827419961080768762371531806673424981038792107240527716809079820454124611881626429367236643284752183032086806710207165317242539619159784307889641422142988554362598045965041839717373856956698513299591130039165212006984999211737652703173139917358484146353164706998502168455692893742544638854665930429709911345259556567035900763229745964990842752163736406017602901988969947403853013975531943,
  27192863675246704947989793988849992274349978666667129134726320390471733524501640360590621890816978465718583783859912635112422275031119644559322175382845207755088629931714265835299173950576547048807124981425316249233956424683114650314871559759160996916440930372737809964117044245013035923510707418779051938726002712851066327852164108542592117580242475979163028948922342841965567329335476793645266094314689279331163563050535015344674295169953645460313488833683017241347151869105632768310561001320769039131191427976464573506498983536569439923182345823903551293662626406791781037101782693568347690372825457142269272780866168244944675069577453881369673699733999851590394889627447442884362306078962395152560606556469379615789152158541888981079092479596989795725435868488261505631231525331172901094928879348202056630669738949260238497229030963375327930810345203505595733502868907383799457602653037821413134630844869572761579270978946504996019142835791843297702624492536747195555583400846508138974648307995232405717114281843238501685366560434230409494904637389066603460707,
  32590883064375179110980944478171562614460086944655400588072085507570038125932614730470215138186944982316277289419083451691503194733756668136846512024023059048817612671545301802220804199444963229722944323896446380857791375892056849047611958930439550304704271979631470939318309111305753703782505800934308999074876619332953284812800235175054290257248820674527562209361180037801055831806177808497010791524827761929023544115839158050250312576920729102165441120346443008319676231328323798165394248530207350584220404198137363728250819253943883223848268969721994993162490537358008265477594949116905822518187113010339982378124313034601478380697250978744370933689204274681299463834900751647311491622313259924542479714617562812597539971810536052991858189350128791633619954200779326225312272539493439586058625702668595466745757319307375602364681879423228725219859635207202193760331773460327094882562067351340565930415040448203185860239831270405241686121951164755525095898115181630253719274311178797711537870423445142898542271656280617321422600011513268816069718861140046838048,
  62948425256058830514499297630195916507319798953610828275990096956161102040516997266531446961663326025291521005062898981496025044101392323533992428296294488688260787244934831946662746169519909887198805673765889222319711792654722310390001908309685412115323110680077942920856781667318265904020775760729666897863392751720013345446187130567884580369301950615495790186841210370289281400237798970524674378075524524738175682812061848462268829392040743461949043054810572153488623768803849134441934225757178330395950053270221949268491342729666211944250690998285366281752160977877137715343175447011025026246078772003440872079124287403569188568027367213489092912563673800641354266148048627145612595477237675942545193687503771883648419415417524583252490483939800527755715564172881974909653263605996430294293147364762591140495411937209075772620640142945487289139178434215149579877728607995807274657004338146962911139695475302595754152683703023550762042246434081462188718773661134123723491123281848173575428197874129279669398585627902539566718110935684189396507629456060127914168,
  15320929657023820925177497850716122229959349052818006412847493935104597840249334778394090318780297880792055177706107853669639906938788185525067787933154550788675959208062683292760528926663928182228161809956314955792400731285018176588798488081399040746909908459860901772089875238063498301725440812041567832929503967358337270705332424376815725225410414987597724150171990494560617793156548585011068994226915746148304935925604899546509995379255133014740066409113310294098759514247453644972719820493573511145023888777716917606487874436939506807441135882247198265048613918309711845000791815777376978551315563584185475831417636569334323046820265144738999916110487254608431158774995433307641215736366122464322878108181408738927730877763686187247726473365254651547745156950527854819700634849226269063881696277053432725012705588397919123686319939042789185365010317762845488344455192572370404919755425483876773033739043121207777676203880281981462895075275808730509028745897853896777236656079393766972866539779085193779983587797755122300199112315112533589947822508836905829573,
  82750721357704961480029428973583261338453009218603265948626680103284349279177034285201087818250871721075463839841254758781400095071185230660343477824060273786055279889858211351624033674582226481020904859821148005781400706213313098938359305537536832801270266040559819468282199406152791479959264362343312274105581019112835801761251335494139219954880139848616278916220633996379422904524705859163058656484996148996046425938688361276157010633435354651748015372761572694384299112884009261572061917811744246252213785807872404451534943708348509348813997078133090743008970179382948163379348463729527318457417463799336702303808526716174825815709893227863550338389351941429305931069246221980810804424748926096559586257894610357615037166855192932007769430600863273186589791052237001398824280793672128856291148209352553636639215574446716438555275993642298734148124651735837411474725894632398030196755449147071514814708589102786554894223339664211885654542743665186274287310512108418697285999401769839672713928825720038966484904157417546538875705608646076804902802084733089261647,
  55412939121490913531623385206218609215129897561782638874842483603013396420350552860989012190500161351407636297912445242629452079377292355424888131049728830971399999993176688420006457748673139206157949752787765430979279360723745435466389738142076371404884304630634150424721244582042431795870497901938583334306254196041525101728442234082286800114676155629573788281564952280840082989532667482732186681312331867460915196572095908213037185742060383245758766234854374638030068296196870368428944605755093058688430693501457600659666131091763909962488005593171492912972456629993606189642177849958414630783131819261013086122280561837411302275916906405509682538988508275767152519333419860352442809562459552258492373408426124415610341321472565128936905524451431199126517386138702698091580050658189316207623958332030476536231551283591947077445508811697966237618902121043727017723351125934591833530183304973601522528402946798399891057106405086137244609623542331424439647887642347204315223201185588691376323896007710797346398928751264979800635371860918069347575395878267555901349,
  18028408912422857984563039868503365503817310219870607536104144723317300276374382761650558545256095930812365221590015840034502688608166655679395076263382068306055904608390555465101983560056377804560121759068869726778553444504226738153699704967314075733780577099012989010962760129099390836795667232006794992716655130415948635909714507267246667782873578189299689640899278993263330242330582762216494472690248467054686544293472366278749460081893713430499397279739216286728093240446552922972120947692988912923531943860817742533022759436048105149994395589582705783365191377407095755894974095864449008440708107879404310676263493918978049169255383233628592163275807059560648263211601447390121759489690537465405693902265004368795191163486486805653899628100421692919334479896669877830133549694169007887522716529153403501807410175126219264719069775699460013634482993266999262534522042063736069850132158704515204287457658227049295559634893647991256617661687748298834094665159864249166334336959966132133116063389668773009749168821652942007442614776387508998294585774955149604743,
  76428891333377366953859629356368762989429751834277261879542137224677517801916112409770184732062686613642866623674407379082744049681212969158371827884205766342033153300797617842995677420233369182325215201819233842493790785600510163722924324500753078046261397641849118369399567255155490532819986141088266607090642841082843560806983317572314543299609586329679988885794948627330011557496910628627026164089290050615677932972259680934749495325305563000878347564304244373622869176133727243625126519230462860441777820367934639103259841472435006771423672491091001273422627406610329386421054363267259658974280154744375153171455612306880233635061284609595257910594970299064069665721658082818720070349056825399888774254021630491530367863932444678006462283117773580266135090257151249759572209515205591103281849496633077298729782119581162573914609322771818100938522065734020493817737987170713502088808297228178411193317889713616082509994531587904286982057777111450677686177508141444866848866826166263145714135121096675079135028526123829467027566732041886363162535134401739647232,
  67249778335965796205640479165475662133388437376737752282310823934002137250214320428776053285642609081221819731708985640302662380017542208015104311037084302568797069846499019284963623665805170082146641532389346475473159162182946176900337841207993802555347597160623083257672866270389423771457429286285568914809432522863920115739772889229542637375500406402584205609017883797247436301814911089664636406226764556727095957490998413124378232534815147393315682688619844017909056500355280956924114742983982749033689040443743776742447121147069614507156611117780719426347216989627034331927206955877649124408546257349482825208577745688984610025423049775546339169188090229211587794984927811028396455773529451723107831251601597641135898993016651398732430682293420270384869409002741597648124472969724879015743025148150463458760460316234267040535721267661476603680802591526229421076291719813535106759218991588265112431717869508236709043374591606188697224462082561110748301471863856850514043550811588032151693795670238760615572590473711319404684074485699887786541934342557687411622,
  65228762330007745833921184435458644451690867019113564218026526154147423826289816103551237829122904501087302758031709817534658605346978237880903538727852214916527305854719369751147402020420186406886764901195085813916489253848880060658329955633536973995801226815279825449275591639492315552014840749702529988773045303588686223810988699441131713277603950291616670085559433219175586501517313332875311946065567548324104420443672250905875115884732437383346239967383861931064195695319524669162327356757135778323883680841871010836358972201179758200773221391645671193455795548047330761567614315112057870829513302970402143640294416157815183285027625427010293407943596384698756835906263147583964106124416966344900417708932462523053001790255734164669957789124170451612948027942701164064756725786947735048713987092529163463529751987157593762040764572911822596490536902924149006319248376933080223908976498646313678745945311382582930737223427807335278312305320885493527499714414067283357443952607370511094427058185354925135153606320485224591647565133559571816650543686934876949735,
  85282024296210976901493453289396507796527174155744986547513121871238194428216878142299663157807397169990477326730852931167662553136887262667222197415982200386197468542992330343312050885864611682909277676153500531316288206065989060647326761040268846470839716869094932043425472462159040531103683521479232189672055833702964113742437859832440687833979777860301593311896399576471545275515977083419731694869062496160694189810044035351287133336429918692013299972917617930183240225284418759995217059362231298260100943474369918131237790992986990920839679799243148089900801841166635979222968103521591067304449427334491666476756128606121997262502557791212670443392650682868764606646886101478862138400899815302619742014495677604112802459007092843057786504908934509012203184962945436430697257034889426226342514472738475227653177558897598508732830449210963301688377130447256571908298337384789684607818756029919027983940535514164239425762007756963216432022798428312156709410360084706315528986673230321105336194103952659829949124678813836748157440416023998336661406305572639530447,
  28890809635925861772241551153395744898343122485020501889790977824384277822293985126746360396379671908002824277929920352607375101316650356254987976036443856734319849950917216394431798705462490997975852271994447870900539664789257759194412388380478543917324395502827974375157460482042860939001061497237652081471339089354943597754970012466397340733505106922090626931721491011152927162958962561394776324130932241504790003140036868744946766682320195944331123582363138747064765661041001759347292725947310840586201560976606442752678732799321101065324165229455562223183679941728449110540303303007472264177793065648027242502085780076664241593696016454650332050562791770800913795677559854069868920395093436340771932882871369265283114506722905410162241950449727258243783258643608134140162984100122351454133989841552980016995125502854680904842655277348822537742752470937988474506319983265906955774145538162882556866848440560473368107602567701034908204249495437364483293758323427860997571835550815620861416684221982647123916508614587179929132821339403791252131901575829699407648,
  81864050768035553434433205662022803987620519558689843370300919766045163625989576235315656439931843926606925469865367891463528922967610718614110187467483866288977952603624312044877837982107101522681898887620291393187811694371739229738130665893697459460289043552079116857987063834957570953518211978851078268194614229321818253725475301471357353935522583792603147745036041323876044741921192282415074391569182572690579545798478903353642983092234297601760450562683914147024561926999530846149030016061559705980765581985786449532673163288086632063871886946335652560396431729519412831595857845620636771881415149751725319007784961882942673631121627828713095970984527644091782247278139134941512899100094951299490845301316673945177492291713320401093965897279566052494354859678311670377072101237540057644262446392703744918387153491180588907521459635475670256223030014679994391312584431948627170293387752007827170977052093581187957583798465172632978644656081071865033201980166323510732193093668860630052818028055029594871186842451204916242536658648827944626667351366967910026331,
  24220275113975457649876053671285389575832687703252881582783511818959364777459961912374549774928640181330271487594956888942294895605276344744747287900301279709270005776941204818865640131165890403303183917951590464822381410156094060757044898272850756688358554797056265364550972002203781551869182936893018321874878835069591495219270372871775053743501391835976401758337169639824941399526854272918974252971772234119464977443161492141482094639843931474838866456671406905387920276277912155172208165654776343837894578843549649813023340122817793302461148762831961030686801626893904407268091437115101355218769983959522421325208542728820491364491628602466369501630381028274856854707648905491036496971148959261198227433915738385866911003070247401279508233223859334312933531450831343023221486976465946766401869265639033191556588787224898331306135742001941662512163632793595072814007333787892812746287158197896291575663686835863742271543879933416557487045762895864591352619963369663601588797689749525481307676906138885969938936032081007545923092627449093770979435222531963572062,
  44392487011721353311137734886276559045776484205331012914770629230800601510670312034786007310701979263750026271290945503614939206813528168565874012956711112923521357769709650859227065436132492441021615816405331014385079242925593212727806046967415375531536662221861287366128803821250100928421146275449532289742487680324415615279758306956594762689345024422506953550988231948253820260637860611814477638149538292667775167629639891588673014817073328720758971337020185666204247307212183361573539765123972478231866444244439920350855562531169398997313826028517491598474229896430927100282837316378806309609860927478810319254565883687741591057578330203889012289498579210930708652843966674782953630756280592761039597669306034986807013064708013130297868000274847369246799033789344233438938291375483942462688284578627681114255271019692110597512621780407615525154039994243501455162667318659112562473758429669320431373213560342276300970468680402894800904253576222701524549917385006528762820828449472328977462214065684862977291345480663160344698259473577756305161556149487821328470,
  32242948928794866944339632944617976682845829101181007034735179487801179223988149144397875134741624875739095613153720413700455216803986883714081602335799444156069410887872638213020338971003799951016335970766613394378645499920248975123249851105355532553697260376806840431030369847624103275144680598482749833518164409364407426106383430813286821838706901670245370646215821240801205054280908116821317559413995529540463378505961526811666007067075116809993103232721917052235278686527253123744565398423714807131269908021498142710907984564962394793103632503932715690214485363939535570996392613413706355283694079855691675861926761861022206910882095003175906255558799044148134393616778698527542429084263952399371565755451748962785200622560015667895265912090638318373362423859988343853824694259664295833241907529342274995126034324233674418833943067302876654357385269541451369333105026535768322846766096520368870279739778370350703717962545742445754051163217724554798081067098055175850952219887619202813077517115927515082176311728768285936435665761256811451194170400407490128413,
  89837314253439671826681218740233341031225327906427534586070399277082316698975465507864655535864159528741126794498047508010754957127072146993528337595406068957724979157753006891296230932009576148692231089102854861005447280910146530950297650010889738050562411130027716274978796066801098585362255037503645958560788191530568240823210573476197744737554357436311827704785567820754735791745128452812892923301960362002196844075107740991067252989020522086747614198650402310249152882887949099751684370283988453688478252055889608597894861991227227244210026542524227361917056011219848187726516685098529986520847453173537559182359127105777736620550740948206485940818159369479026415242918412242157889120819192996188277560998586035663635906925246991418467852638877744147916545702337147947317026749946013421642586066759577819971871771744199003808949346355133193376144715857260307689650599119113641741228482936083501069579905900105560783154374823286873097305011189964441265208490774602217678988210846759093973430785951968308606216133868857088077816795733760410557444832882223236647,
  78071123967732784712236445013837985497918474878178884631611702428454869727327382990395156330036892851021022584031510497637309377918591242367458023873834151501747850993165223310783761589787603541568465511243286662779528617187021986687227292836154676908686544165933530621703037910486983730769675638935152947050213275444699160318570518566410715048741039655311800328610587807806408242273214247480622931327200997910193924550821938190185273983662182931963025171334533608122144253415905128152062178405556212515988393457992369179425616070271275653058030120653918615115696718118602248279774570491534667497769198703178848682987753200799929361656227696389600568825302177499805100071096252396645456284883279675289376827252898476956376827667969895885428443925877318142324051542226246334483164878846892170739569974966504614876708037908112728395306257010464131810491183848284720003953442943691874184469272476571611895157372963212056186980344094804523229301513786612274046148381082759235117435509823076142384448924662560807448715479943329247330348274229419282399076979847113081473,
  39657422595031486183468415935397364916358381312970245114734742564328808543011628160712121701195343840167941267824151917706344830344838674833986989553883378623735886837535581021400732452526139976974030200201773593723453393392429604637674022999917173295641451358496115485872715110679979756957211917967312588801233594921452126730768507784660210257263118067807123994165850414444351916218206832707476474435475243635021771387291682498141537447992130352632056642740258454244647829725298376398037073313933734685471907621467615547586944589919407940477286113125924470358104584665737832856247919013146502521873208118597727213601249805643545627251744772072290422368850306213090841086629924481875548787372314464977497853754738686708209265146960181002095391899409058463592927109528879182720553135023121127238958910123529150023735624589869606396223581858235055578139363040675432898604647448081971321996688757725326007369075801025710932151886714288496966744989210878815825441962285031021370219619431877579712157402076818481104388944498331027593512663197408447378850319542251638656,
  22413169704936994751489742620505886234935996823566718796517105266963608113162296072929357236866977479704391417810485991258172277786314407945994537405736932425400489073878476150489865847500364717307814444042735669481325010191171732169878487632843885792718019452620059286013256525876669630108980700658784289368025539513604850231106731422388078829329556843248724677692708542294784690548906307464393731531409447134187140952046733908710662700702959029519933445918917191477301996296452606482670808924774939554724068558113089467254536563023874786848360053898639887443486879075094045217422117552513879048851392060146588445621662311787154723024829803647851362659628550262921209610888633697547687630625628057632499360353388488298653123683896885462351607769435480933714917455126503649190635428329420840555320838537820501002871822495025917634995722171985181633680512516271899188392334197682449569363457019720923091918112811615777722803771197097486913742259253894062367274922274970081019545965762860807977372625639268404347328338478561698525670958924472527821383773871263065270,
  77795013428447523942955383870620717760573019501040037180338731347962215258374823287391488340199511705928223539352260599769318038756314601236075503606883413663576974012305195315690250236225617932175789709107987116150563807638109663325801269362009415012637739935450624084013940768970550105056373068818579016040375040309093830918235449260133552510080994727946904973729379443993850702723063402602692830977505720150053421231816825093285516342734507629594628627553707806052881272833781335572463503248244587713285475820509374660248720062424752904089154136161242074059561401750627474427845125871860921667604915782720059496292554291425365060479536020572305552911941436117013403815523460060321861542737030807728486538776331026648050287864379708795998368832093637996884514205817541576752315668410900995685252566564161048426631079484400005849411493174853393480378708263377528062961472404350493616047874332799352269446584878302046868827541541222441115695692301955319190402761634194654865722368824529702872069965095339954869961176318195042866841131991738440235456298287391811340,
  69279017769371151881718989437629033265009589650774875086109512990166037906393608903662143740013836026341808131085251804702815174904132919991692765083129783452359216256611911397695037409555580314780347401466891324971925115736096669642834218373926826818706507935745128274121509300978919378050601304152644585928863516605835455733912680722309478995670604173928240490289515734489914893405957631517905651797527663119949053988902048286930294978715236655527170958042060630898922223596055743804886270707184051263476566267030790257842554653730502623313184499380787870320108670760844081102139939353566955908037204241793541187400568746439796159028189476541138884065087545998920032186479089693965668696520820057714657854838530529382261313145734709405515923484366187264401865418548826237849010636243128813270568434764679920975224531630338019640845645288068045245244514515023896393130245843928566957040244484458891593611311421736056950943895102663835392570746590961968862694114890856239526201598988208353208260526438117750030793808328282276473406876174383785320062525104634885082,
  72976659458642012797309930895976053689515730977711575894064413165458534191341412556842614577404165128812037657277152471980180529027567467887172999471036876695335726626812148691975295744225926704034995325197090148245939616912541899222508178312755677189097378935555937227850809528867510766477668128135435363228256967696634615108756154868697617087119139679550721656808291651030109777538331958059427447057480457504321956441674914789521033906262191772700085870084926460465938427017303573117291813641616263408274079033973732715370746305174774375743971141536220171936743499522622498391862672974424153285980628756873793556444515370127599147976536096075987739674283356619342699233376735542394728670297204322156332971680575991703759527886232609275735848195960668202095577738070857316717292205513410868329587444975212934130257432892210696738546573758184628056534113337880426129478848010029796139788169288916523533814618896495271938608681665099586047646936624900412759594027235316847128605890838976621220373975305071578008999514574352136623061241287221625022506679677167537833,
  4972015063271340658579754677862711445143023663742041595369126726499313581047437910491709371854863917464404060878887303627778217029359136100755363382574205300295804892892015108984582910122171306239159986752090173782619952995672916994470362958190897330679742876324315633139834418363321098780545227964170784759678388180239049487212868971191248953049654224855653848021463857314408192951566628609720035463051381392364344324128609539893370547009071958515626614247686814365227189647765628501145031337708233207449357034676881647033235882348938177239901810236198402232981414244653056736815667838873042378866280130598348755648236350016632900543906310144033957594450459688817053509864248692157072569123634758738744621758498767940783614364087499504406030945978189473964713920733569611686509704677482024338359509224340296548644669246614001437823385035374004333915511462364752072528663758886048573170976201424085920765011001338718942496944058473841535488494576841797686283370520881106280502867741691504019196435651165373651593921985721204844575756594063722523386639277985446488,
  69768387219902915723324872462223085820222756363041208385454541941766959462014061617295943411184209844352714984839587615602820690846771732946915552724233000828416382671100782272719647417141115027975237181686790444256149987434050387016103949736529287737992458097032221628634003849734782031045672934678417888623550140336529939660801987188104081213785543757058008175045963078197530157543791791939334932503101048119294725446400273395212364204045434503012152315565186073556081913116660043267679901293696009618078309045877975895025538026777911900748950174074078072414745448750086563652659154854174954872577920480624854838237508273717538016633100303057269577017355975837041990660726200637906973383852709302005873525598676810865829446475304057505837946935172307217527686493680881551323807531911288716974048627458527260806925338295592853154147825780250913401421627723674853857559817054371965016199922388685039041057242862430336233060833860270184726011299904248281437782680336636273005523936225256044071865590622665142779715705797669575775027549597687157812272853888478787810,
  14409499018180297580623291155484720550907425383260098373442597158326896205214679241231472968574410655083745568106520119294712664936160162468556825035977972297226376316390242552423837948144809402904658613574477253953716804216606782377814603287397908597526451022602003716510678773334597309993250723303186204865572919071948771096071849876238481536317787094671676011863709391370243119294627130854652486997234830209529671843969708746244917022503960954819159926060319373679205773139443467666713737683910565606888863452355577000091999519833531560876910252590926910893300619480661625741671388846649408239350333607053504887087578797312033402284827165950213828883773455443644519364802167232921758042354548556046407096996037811371805247499548127836216356510054661984760805387332187728339020017871812837134850991011939928907573281964416652835934630789840291360045353178422116041037404264000765826550784907481372129979739208875529216741819919767581479771301232351752458833480569371542221671248498064850722406859006675975112773800583232135370080221969937931882741849976052011384,
  53874897977558702004327674936604832805229293159775105838927083129112860129429538315880521677872165057403037781594625585396660805319035537756525200911537686701208162243724158308588849342887922559197011521077333490655250916884295435733364307502901490921573391197275920586847928399726526448580105920958041543627698694994700284143766779707614490509764407170685248296695132127163698576287301191535761916670238370042948073058291195989918110696546500878299379613622895692380898071267588169943915027534866079127242351234006053833387913123614592604690151933233052323514919185187177110469998102229664554708541634092935551146508035836503547762119632949199941458772662600835413643758919644507202711441728925262052090328259312606910090024486023231592478279051187435038355359745129098514572106052087694900483611269101232461998898599781057908670098317725297509549268966154958048539596221471404460221622174064699884478709716597850017489891693613971125105075641785038270652704979770830074592925228032486980885471917408475999475937829690880560086005297590548973652550284631209207302,
  89994530752493932538757938055599372046365449211837575925928577195060781868298604685567983319837863040265853950610595312223503222561286392986405510653294624814276651654050910762230442313233860846211900242131557137078363527517763772246910293954549934193427303473400265898748185500724326417007247289666318139249797436841329349207324864987534580879171583231009944650526922594339653775731428900981155242629770830396752787253476073445721179931956339432351373137377013847909367453367346051542684656352180662116957270721059368364856235151293038294441235313360094209834781414297237436578711911887429366516130992069089448529892325669466143020121619385257995191338038411861938923677998684932469788436546226997156110270199742636165929500567494065339873740338814735824253224758892674385378098986178158062499857699618895984215859448240312795119798335067557896607451376608933177502595063301665703509721343522252376948131668308292920639123113750792040188711389598424276281048747994457633681552773672373405399550885913224156945209363946119277460981662907195563333031896410272930448,
  27676377454753839400507756301051213757475894657486317052826929204479789300536994415494629116369799874224927030367800749952446001925279429045140543404962252207067724174144590127758493043844191694718244635894535939390830789523378803895433890359222988997444506298589154496813439028830830360916683840003695132934181603730804237573870717324562322930424109720189860453003173899620553578128544418282355061792320440899877412906189973128715421638216468277986354200269122814615974280512005192917792210336553990024891563748670369943612120199331705815084880458080283305646333288559525795885233404761374579453435676820909288793942228680477825485404346790464505771203498504277786266770688821042747548708525841831365559444120624195477806905673088187880949177038978139910662412910854607112964974961532934288180241119214826879892417871353581821762064061951771334053870494016817257120986041876367982915526221053282008477516736391622494206369201610161818787901716333934902222031570464958929156601118207803305972064699370958685626772920110438990005957454765744962855330847577662416750,
  81822590306828727506987848825721700842158530486925831755822546831090486918277974113104892913716636781297555208343192149972077464494451139109535345138892669390354333726791851497108660607134923291714295782078096333111287299809422043134285312220555323047463532150324722039448068214184338026557787770430331339161242766255908014112672276397388071350929480165724265737803671936579619809240561779486152286221760799742806107862460685336064007083970711459274233437403727374852715884964504424203882700398592687187852482128673983534052892896389464893913128980111952245710916440143930474257190335079824129951176476948514131815082633586738869611425332384486413591845479351274064862733801762071501040633426243838619595191775834034308744212950952117519032259537189931950085566945149777061647752985379631778891628098182218479349358008726791798662095282388987638060902226721285348319317045372543422203574608825006836342018290002438468262630397781184871919736891571620781247225680258617614464823051172199573937198922224913041130838543246836293647746548096269491164956078096858308067,
  22975916834289023515879905698174038247121748028815052815039776468100661086278281194465439762281332044477238322604164024823807964753964523462583072571175959884875079629897912552095336958419893687718694712660449718799732737349189324501593245418621972925956432945513135020095593376532864796186386628124300921955725776217963945276943281780657183420299465205701794068087388667443842550360803204860691244829170924814787198675757418381547444642829490023445580419645839294738764010631116558215768313731361622629983287154602551970950768287327723220294438892951032186313365263912459463041463489418973175901388472580712807809760515039604043883748261085754901816412360538748930760340322903695936964929469451425781429152059536271856067258650430510369758726414089279125125012463231937512894986416952019757974654634330572566712179517157363123082401069274011957902137714544711776529495602883154062972056898898587666861184383519260797893773097720970633720939693411944254702944148329059833289533187377675594576610899519450421876822960548508989908934536854603525690084796723189723896,
  97586731456445251986925407253276426411753801556416310012659234564190318616891998273787062974008151350146711460212315974828562243087108859899190551738579078266458150802308221206199723024910578099578962452976104226268480853716776371523551869588337334826022068565302047718605225232501653815061444164768150139575110128696246512141262808941451575690474791751825319155364251048173945849643589138009618348586088643988442129857772687105479123551237502833730201624730959476122713898820543661612956624583253426755206551183321564659632731259823316229658960955343549561417186241267818718946886665192683605154367228880703148896368356453902806201327899555959312327348099098495120327258061405605744356310102004734008233233453132062557396460875154724528853994171923169540066434789028397312296082144865239862676371784281403548594620543051228913987705151069648242905051670866881267231201496924470991934522305203274430076764973158947717143689663846226286689787169092611878125538612712521230886407586698430615333708175484601015414933566239774936205218111763417584216902632548116820231,
  9616919219202286968245072150597182115028834103131575642194014578878727971764110656283779608671347117780322440251253735987500965135217548470611148517998024718823732173032798625560841813447558810835371750906208384956755303849939389235710199636513419249256875462707073406590960574554641251446206542917207318641479494627005420571420246216311504229196471301880607050652699144511601429363159652782454334709454185941611144118579099688672078549979474686778714088366683040431470694803964226218711236110921749284785436034805594327579516473619058262806661886719108024163651804902451788960132554938649289030243202812567099164367382512988234865150269257448093686855504681983217536990204726999829785045007841001173738549486770025206884212953225981655245375140364250030177638168811985544862498383682810301740112048851299177471854619174979370637733425893120298959218457070497398730814851415100426903508492066736877991443254620974439962238587272173859021748093817449429311903298996733204995012076088462959915772853232042176846338563113164478755605505381440490233796049294967369807,
  71183831649730394472272563666575399422917030713326007292072013106707857021531488618182465857645393551408724645812688054246040334138338171452022768442274749478282098113983993397823205128099769949941414703922788734629590056542573904600057344555286882325162688448301708408414170380056919801265302196925156395683548118037024860016033241653135564470216696515376105303682353215991601198053615624374430804891549087614593063280705439773758017351785298405002639185165888345779609621557705351744288527975573926714267988659452878397442255967952331485016749399208245727890201848989733556863251749420704613725724635511686392410265447620707522051223530556923842542262469082820075202593830192617815994390239132156736988127372591213126053130776062022129449829361877569784632417086625983447647068042514601256868794424455157791088216702384678561612672642998407249438460102519867189173850889113785398684761957511987405603368019341587705276496809521586501438451429876660723476584865151291103242794880816687101728573600352970077009926686733830512017337498316246318933902027112780458975,
  42450181490490028450634424250378606953396939772069786067370372905674362106858434328146484000112041495566836354683128388376685931684116716839479099931721856827185738472865395754456744139529903832236139928985308861853883513264567192932866015278199081253677198501259329899446177941411025672947879656903632353963601763177170437735077668794119295858677710496811154221632022347705560174120468438799335926703389234517827691789627850765451584835667016785727080956239425179780181028800560734433642051114482495662861187950440272320478948695791670171129489458934046077467199091605533384561757765624481810398184432204896967830705000449470239500142714887802572743195349940700146557984866966940589994767653964503721013697720513724850009351801028657993939175993080772397835703312074350081900242934973406529055410097085403756951150846859180315703155681497270886262912282537390310792181234785472466259045271143034083134561136719708977129194809654240867974487048287377525644323321129125499267392447675666612540789154860777951014611851424589435895928847121260636774788292505467288119,
  59990331597058962217104303932335382127275525648133029274163512805432250868766744852351803831775650910663330618800284465427671284802543478046300617094578127247319971235166711955229491650333983086906532798472546444796043349133509129826470120065283143571696125905173620333386754874512516058214867513018196725553741763379266784031929722157990077960283055264034242078431815897194961972482396640874990674738616671975492710796600128245770023998114418830666508099393199907535195716458813853713939200483651929762430263315328198224182677334844135103647952522124560374147701001271830038251557348407138321287944435395010589780557081173146777336708543139508100471988599432245686887729981540008497194863452129812529330760628745251310555541972011015004595012762012754476893619843184442077123308122584356711675318081989944139703069067339844917874558092541926972821608812983234938472791270257854649116768746028280794588812649606973400832682439188937429126836807580850356581087986663300705021761582182525155795974766146578843688827148986802546533684287168758459842588442757468978609,
  90118501828263974528873527790861754342615967759505477104704323920668734339623576883221651301838539392339347880682024694548580093614403134394478999260612022858351970753666483115962022485747086496092697797503547621456997058053831598488244157758581164220497804973862336305071306013509847049450670796896595007694961646710924561416272824573341370014343637727857336225457824573724438057572301273621064712826141679918675764891126577637344395061769520885707689448614892208064202668064661014452660452475482364854453628844982477150937005524672316180429659628178381874346490369425565450722755096280167302568420314431589434024654910031307890729021758774338782299166290580783224076694448344714768922115999735595085870415749833019946285546636613785465869198549179168980167105507141808269542188127465621202021971376495523081925934779360781323019857862927933483475372210491174098676926391721051802408882103706270703540624987561676469583175118504171823982646364758285579131483728967873319054939019034259082582995746552034967163858538691006775558309960737265652629685271917179358900,
  76842007555194880210339924564268936052432240113379951679874293747598503382078777086453882724326931963924669901245483519932687713905293662429916136292370905000630046703710212993717529860859178516448116613518936895751396692324197150025860202404234669778773277727817474043598116101070634263475122298969987432718861953506778782637196413090335306981917974401215089856680227405871445959105657356029960368121282812985378317175947992968957549267345015330247935682377431385065870780732742857039308068346550145592961294134095639040819213383969915423314429211431355728900154732641095103166170828900523738305079905507491297133922531433761951230372655140322954763239003290434624734513694427424257902467317674801961043755305821848003088867097558030020394479859225951211014290045007482023930514187071582058170431564346161339520862184238565701502076088798296613777882961104553810990388929574871960521616486367195869619570068383533804341816425094721800859961768295319768631588232447298692460006298635064923867392578253802790034436579247627232488358472746689352716730447033139584084,
  61557156328534228619458535622344035359028086922201969969006843220032771519713916275284197508236651534896955979362751357418779258553235166156383822224812645003639651842582732452546432542981635927092759379391768727398417626061363403825947730802176367390332316925076208146502230478486331093682100744751802524451776219830289912743195549258674716898213132458546322202270379370131490407074603433326585528059478666762245654476022525669294729699336957147570426621182719124194522517564151947705286898179509259984240573774213864623344167265802555532369432283368963055713782563573971086472690760723867414248742251585580345328305550532513123284815611400340209908692984107496221811565189706847830847342794760083998624491374057644770509069509877482595285442455039728349455401332353929014849402500071893156266190083772197084881091590335906294829891722285221943444227272212366597485387667200714673106236869985960083283102939687841878369043614701257673836738196395164335731057355456852657166823492893402182113462217271097701495252447573398854626931644714363842966256002029838487422,
  17124742692760446267367705620751469225244915429734539318881140860889625068886967028758540502117338574970887989691609025677187015852875860344484245981390335331530686028616934863449350141931227649775481476910189735515908060026107080314020901546195867548590676224388779824556494070500093048067539383862693004053021952966500889885655102236099419658733088736476476327940536877448297094113581707175447023337160663458639722396590250587543662006081001366556634387485876501469551917578671233851002301197527400425908374799394783291425360036534072469522701134279244242652622844691733896843429731424191377080363790782326403102263732120839866316281442575578910686920004265174170509458628854525661988864600866924305044674816951440367061744497795108994936915845708574708576992999411498604419150054328911323011097953348299698206521621849060614558891507523369597936307691723984499931022536478154342586071809595283003348074817865333019188244545885674780839287563948846828807021423977358510599527663674090580843600362190947011181672818492879705551427514244803754775436839735775838993,
  98139507189540592017188347298048459437674973936066518425892066866212452801627083074994439162365276817431931202512105632124248797648082259909738759193190982030012610889849181161988800259163989623045440996153917036414263283192731650652467614880187621588241645468337034360556859006559804601300196232447787486029152576481960501285277359923561014211764282712703599767319472238116583542886787188172525039296167440101334102180835737585978068548930800735912046326771690852634141328665100062364810322035155050807113091412046235480194442789883702815221253532845403685364080364450651492683038622953072779690953689475921304404855681905924511558215534311257822305001172120402955285239519336554513119196908678668387401734313909927778414768372913823150350430438283428076265479679709922101137596818294630653769321873399973219308561500412642684065299709541084822265565483871189995831709346987519358552612232223540030664994390216168693695953834186910396738113039488958181696430477238713695583956303396035447354959410316943771031877296286227493104370783518832300699466806742672332912,
  11400954290336100091267465728953841956930220413625656313400510077076838889317092760892174527085599883003039246263574198833817324423141598664264226902449448069871620505992547127643243051361325707810913116271337857219773188114652432240494586252768928533757693724693116219382334579254075284969434912615853406002476136153441226958756531240859443452313333763717045786205232336688485350297682083768755459495474218853722547369956714624695178325315301978642548939448678203229125270979508831508424309211802393577220959879332999456520425795369210913569935802684906716009869203291296721224310128285617727859639757522742494986835432044138792555735848766465277667146892941114873085271275204538428658652624163489997911790262858706965535769176932934797679981744403577746736013280649121524331959570818946428059699402200974164615525977924282078324062475598029222476722680004947306321595148458490630605444935544115114472195082650723085059796647172215106266561511155169074114126868092935138769951760838898466255946739943608730235043980687467621257670753814070096909341199165590554415,
  70766217773262036684979668263813129252152418835029558399823231259026813585260339230384368842667496008734455317281501031533528936595093590203966932772054073795767690076891429519950165896437964570477380285338348339073117092564921720624320719773734429912287597284820642135518310274804728074284530817947159157553519826467271202960344133024285970804876597499776244968165983199638062355564379434229835192667019685183332652528270115156970992507634354195943316395589542823980376427278165739306019207637215790301261150424451806766262753828119888621626010581794310260403909092375743703074793668738434405744235013582124422250749064880959842198811647671462409445598254943462804554356345404185813236274047086193105741395335602894149799384688028867737762189710030667162938853943343127434369206975303177671726265630912190482316625286789518992982143301073535208181469894091604846987172785473678751859209405393497151084975614905133319348357436523141109873223309208721605013337256727384865751573347914315728837191030286077283981339066356086413749558383108980623811064709690269256862,
  19438322433064949945415090528139312027558065147828656444390591054861793644060806736744402734324255319069453803592317299471469908830423142423426528588237571065422028622764865788164493260778117246001503791285076279173336793437610636178342273993410752343084312238078740435359976962538628624347747840534689948059251151302660429975773474495579877557191323472672072461482063590948098865557720273646100561303650256020381446529469210031615598708648230424263272728397409044046137393840457307977081331633183103152431184218594396109471661266670495994820792102672427706591362003891852868683645953394472920057259061843435880778968014636171825887172197758828899657795881321600406853412963463327942090567269210788531394273909382176180758432157415277625449932760540813438601099965115027200841190910042407107161880700821016303059825141090286177106080554797199209051471986597611685271627086021952682441539448207238582129501762282987297516356670224636504638056283853262323925638279488300691395189947366850266959169767851382142851711475748229086492939636871468533492813103532110114976,
  55229170582333363544239548322361020657053113984954611399848275817782767122213350028511746514315986822220909394738974507204026950783201626373221697596038104724703650309340916550448256090918369408929897680976246817530226754267904915452672314345138171285119093842689789681416565399541636657557679393937540923027697084447340523562213534604831780451337452217562323389646722762350768826110050450967504421446732780430905615948110069201442710081307385130756046586475512559286247777729766806920609232935402538947000793744018846875911165290913568487504962236658470431536880554970398831781101794990374280977620302245652162983269852500668969877653315615842889325187726038120688386803773393883850302901465252987991931803284406733482118306259937910850577126506480306663281893045161684144418154958379729188152124401057917750226477618712888302078646583978768235407366170646073817260102453718054185896130773713157629142386479856404237028392114127361384878317991077829902920888144694421932620955782009923724965327670160177742990058094046757618187626311130817526420411429658743216875,
  53018338820333584897177687530533715136857788278089990918632401555052461201973537813557341038929796586388987138354897380713932190939527816273990466944640807444153667101675297945724067360346936193105489526486951328860064841832665644214966604884734505885662377470943300133609953305175795166542676833035691209347599047525829220266545447234334747146922008684186172264626133908204651016161889416363844388875268579799124034772986739085108028594883048477812106960583594083126587270350745235179361467036244759790710044009463844196625619798849478216480799542584561132827309527648782452888031364671296147996731316903770893728418676298707469913153771626902242393644599682198160580219294440762308384671691341286426648516213587132527124415772186527147676962217011325153969991794414974366018493536479219740833118501025815992299881860097375738723567022934130785389719611433237363903116273730349507042196445256896926452293847084281179925107621686527391024619138228693880411938254640455423213132958746376553667695995369728207561487870842642086014045537531409475530811177911820842866,
  86517975151487571114441798774068234113505565412594893436537316675255211581129271157567336603288498261983477525788639387644094723472984196773323261498166239821061721609993483153769427304606746885491461023985485351078515600377269822350546966734007938538407171283936262808683338316564332081362423619937262825016659635860140907456225790923905501196761984310526544965139119779128978784991826678871262078813632860604147383117984322801577760444165369852983099435653324543042175933081111539192170970055388006605817371968464782365679844706361493182699405480195816386268849534246167835093991843624202983177727512421342462806924007340215233998393277841154786537268425002697792403879444258318638558197986293177300932716234087670462004071145818580025514134460160320009298109600929417133960438221322063926225161966346487705593561520011735939899128364277953211945451801245207562563091686844629131875455069491687823916962396624008494830026575259228566468783628235183732389719145771674299557740328516952425268403136157490046852441635062504700511406035373236278698894832908342500426,
  40129007310714215255147972107605809824295942644626962607654871049166840877120035427404021585787616466728815180209003797788141902390593613712731436736831326269620063402971487097410994695168768600341164916867021671208238572557319835147689020303495864877210466037785608165082548390341869396553309316576542755480965929006321676931376056773022736320760492433354666303377214964428778964425341676234253969836437291561358887791802187025519199030870511466517098817444589555606786928243062210939165120577140314651920026645044168641621982402942716724437163393758238483229477891610310144393931162761190487658352866616643595656067549706838698831402573547344728583402672329665817583164821711091740632181102610029716796773403139323721411663943727353211827655671978135529470352369442672236067681595555321010844162953630446834897038079028153850229955183009290909619804551121562061021766046293384108150703674504009965665664378489010651532730058736579153033937999805010107035116995551831495247496026295542102865399588771069517096269552177903610658961626399275737760223573102368573309,
  51445040045749255905177471141954507430545870412876562628165832713460622669613290216352068377438704390102404803475597354433388875816768517431836048089082801581678846817966396560111527955742797948938323899488355544375744340525882577118818845531668215562888487828306994764821758006355139623499918675491428481186927512128264293000154137563823142147842804713190867319850263219116536633368639694460073228096557913589603097657409546743250757972866977313561268565575949971755978849719044092224826909235352771433329351875392326404892156965902735817655623909332298556682585279086641388889811556089657951602341639749340926310294176928258111013456628111281543850494157394978209214605449544417724896263606057630081793847869263936525512770818138330804771165796700172447686159964369556029800159321626021257729698438592826129253839500919972500185733944764334658453806934573476163472140463373118493560128478782399653258368219124178279032115060431362814998324409458955535435643619911331106119834935604387492091399778080068656180192778153800198531194452882409332603918403514593454874,
  15036944929569018015043304662017520589843939402722824975119686612642520882480558159615103878620421221732923670177908497629127805433410541369034389061094383891337843566388730855008615098647667739581641926358815675538785818688565138214579760603526647906696525437877041283507692905722160785609853909396922785011469505037475184811428814654115059260359439772840390795634485634104917688216553683310172991914940676078418389895896973792392121071697953304498262714085005610754095437928547635561838812993726366041068106941738756878402010500931470722886691109925212984296829923982961175532467056837911850653878175630461070467847707057795597040471852510615121333616251722352196599326897220248872757068147532849821273675921914376436789053356477016719947661082219252108967713823265039390586435855831421097856196373819880082132262548821345486570165656413883766364395315851551429328105401744519730446570076218432139398213584136581476539650042981903190041940374569542509812040106781709539611114020882991524253266518670522849996910922558055816557210854859778370864002624692253766711]

def rows13 : List Nat := [
  13301252958619587027950355964754588528486474109120040181945422820847436048733785157225588901617809637046269031791705393936880262154855686932291494530515590241416307102090547732731675031408886703396751372834405861824103983673278276955256968089293886239575746031417117642804203191282548865770754402870474034629277192117049468540347525309584768210610181293375348230302737552779751469174965942925472624737190534191078927132129859916890843229979776956159030425726032596176817630139993737353402304435004844419789073824428378707752970584553813281456699126544131928367590114215248114502819912409040237523648997302663956719874149600251827410831975700335095160001461810337414973007024853757048193160119206058896318904759717886390379073994934208023179598395165335209959727864298075205579398761209568305790924653616199561564579599239931158527916804979755940638340914707944754602993392250946348608177253478350787899404796508594695590395831644612353947280189485884466485059700983820061903621663187874021976696377929615857148867061846687228583471972308928828145575613189487868305,
  80111596934837135156994802367349520480195911228806683534562772381377993732189105626825060057031818218979676259849744995532734934347404786415693985517697363867471119143898705681249207891624966671639083633346697871282880941013396000489703348255354781669642566747368528761027659541875674045861692730901254024099403804127415950798339034113488755638689333228426201648817274245593004856809375517045981672753152668601512531086963479371099240396324680383672899568180793728368486951017757813789966363831421610727071290550680044909943882865634136122595032087410662399448809572936909423005000147956338870302468427173113211730495350287232914738953452557192120996619957107638676562547358738813264155748073377594494690376408008154318193618664459051900517524402266814057980387100405605576873822237531800144540399413524396458188052266063013787018259901973228679002567079563510071445703513771998858435447910556929722367420641623467722570869390404718411057624636835085939899003482272456412119857682647559244657270288583804770173830628620225862617945125801767295325322964457191759013,
  5052932339431481072655004852315715828782517339705637302992409005131812214706920063877361333056907963030156333711883069693908158275965708079255558131138890244751454046642280731333465571299601905858478474762468997412065837307306614852502101692663508381179781506148107961554335111364791250316183560733807599621619680295747955533847341239812874951598426073286773225888789205900783472071631926804352283364182470304621803166421959786313106846486904059984223833081347339726612069169012504440920375527780162724311416104521820724520674028083007243342911090918751517286388532177774164690011606911794564264738282981728452713793014736906927479866405893493001837673033454489087367748012786427374943990735960297910656507330921172538494447589539779525570566036786558563704131095693691596244121943794558786461595071582979919571785796281137298382965755156806069204560770308529511197714937438377342142913756983944617789075680489920426085886797196418917119699586906962316126473299185326180285219807641058789775143185278685448091257560114778558090447522130057638947372965789894999699,
  670074815373223146605232620113487063638744322182384800517198471696963933794336608903233457241557797084655339632452431282661420915033870780138733630462749886668120601217486604516596992380038231498362088766569834928136344025046179778055719982737811795869587026093600982216263152306622267760762692763074471792932302565215678005282014199613423938753103357199948509282205453073006431794383901076813304305241519206196819304697008895768432734069453235387528317027606304811997816925928124943946649730263821367310997214245157823617085837108322638465235701215316174466025570993778617639727335951997462038764846083099810865495081960397285297739046756585259566514612975148160421970106958913971946008511936548713688464846678059276845347609094146875309532070680268389951109579843486150005290519372410549219269589173164075795755844345703750518251405702811888970046259357102877487588622062400355853312118904208591461556210931459430804263009665622040749865560479289775091400693686009587411726129868719993410725624736804854276439238171886528547575500381944853872654720404096939406,
  47691615413856934257951351462854321275816757349421645742707590579370078582801393035660044996935239534475012795129543188719352658954358970858848363616531524425788466501369396558131648782754764586804911813175160415993208097083515136783325568710638732343599359285386575148901862708862499801280858426192901751514486185799350729636893990782229832065117337847865384901465518421116567394836715817905305830667143710436038258388722227001114161804632102252657592734850360043592140424018947564645445026681240761019081990343256719322921831775143283005349652935110868736595945936685603941295436232044418851734698470266026419641225787056604026547579342519471850824404951166756200657693315293659650138191646813466453873910037301736008788330609067201032278019175150403475678213079717463496915111021595716778235507505450190856237732255080121945666706655560649535461695744668578773728676562472731993113699659871437678520192481568841394000011923972198089057360993151316772864772386899904825649117780613646583632483609560238377273078449314936607989246632740954529632517052622735752322,
  82743848314336350635937180468253069030479663416943200584692468451381289440428995955581893041950844098697565084479795294211999551576853601229958888583402593982025680669415428588746084275026462273231035674377058933447821365402077497302773165544670101654885484328680114063546218018094126229807749366802304482913307876626562839318455546806831500840562054987027671977096246399859359425979125636765519245276163008842423388230457981837678362960438523901175863037197925973600829751223954221030299413024878530978435678207755852638780952284670968893274184533091893935490331076559757800129820005493626209088058215715617239200806895694495836746191662617532209758571181849997937295486306090184105869410644186117584538483743063613782870730173987470002422325654930511053346938459663263268794368843572424085701165994897949897974164665323083134331682445234170093742898690787559081492303437173163371068068279034086416689990197967290111984800084064515868352927958061040738632533112103239385861913225789672173561123653904220373429326858215370855585727546412633546910966615989678139016,
  40945974805246237872430580977112521806068141615817419444074908647603484428422139986099420856507236726788685361570732918880363883382205248091879138099477624625880127886825592701666095809336450815067265218944204908614901901488226835126494214905812001682427549180855677031477353120199687259291942467258352535571044985804983861941419097706891143900023116437003572197534128938011540986914717237160939432091577987395843663205298274383602024332033874433897350372652130469895770947517081289090656259446013047659218186823513816051014747394744068013186129173653955240971071390254938866548517274874484731321498846673279671968105611835244373972329712720016381738254101392160926877839873532755202624629922103435189961227230775835770387928042752469609552928827083525397447572125777889296009565379010694721798112789719655884689888608650549278912239338976499788468546254052075567992509247025310880898186799808018114598910281522293643929915248116215948359869945923191066561979595085693930504522606148066401131908091516745336092142914370998061368944873971742109608959159690692461000,
  56871224353721670392383891710951481817580928326524546598118125736433304679685646741731036959692184921815893380012463635460903150572950383326652400605683824622141672567367442779651205159310008972763291422983923703384214199895490578559166145320689020594813840804424925803221928041898853004127873253349608383945385904349039583336920034380109398445169300181836631099696977966767426546435130940780496308746123034562010134876476267365978735776763475251320166966573350341855164367428606337391728080433383738772914147578465327367934686484015759071274666964431341774422730282325593529190901029653173381316338608472841763760387635229989879939980366709560786472264752823031511788027907345612060604830919992408224118435872628958194754433066214483701101331842484492870732180712970277482623339299670646996123544924886848610775351770147038828642209186145575628618217143948757944316846308452412293591797597906088131864289366531886670664966827249866400183099860013643521154220220647254587274774551808605122709371412124707838628652849476259091717814121129819084709014434572600010169,
  66119924747212311751876126960430885825436696765611258425397434148461828181497551844706902320034510719451480629985147327727143315244260154663975383672753195752521730575178692170875622170157773455986863979000529320450592719753630704955204163350986662017748814519480630350458497529322549726745951616896550567876321377294735628650809040617254648312456276820125650722070080563756572705538778702421146106620259230316954329884055683122350520637555501577547638203334423227627954712597975065745523441828966238427813200662820776174904988432829178882342387096750950759362454956490680464598182525444603490978752568054461680304246139478490918846371850655099250914943905164152983432308001324552741688571396474461375357877006208428654498715884253202010905182316349416476780637965612923073499222891884741146003543204745944733777954764442018952692780191414721232667526531207201988165336643816116438278444599098343513207257618445126187836949290554899236450614002893215179331904443772017527103507880522976284346352998865787559634449103306966950533390241774062445849551434371101642916,
  9719786554281396539823105413374160822359066428070264950831655626480451416738023341208889804839677685377500914439375264149954720192872176656180858649613405754346969350738043167708127923566850445096758027593848328652882459926678381164302461184974682912387688738018405823543527869404335268136782638052735956730101857930890333197806873372960690690930008598083182925709406032384438554898301595607964684628770058905400853085276378261027065411397472638670628468126744444531820439179688714524251658858858498268224048422472551773872946779386241332221327687403537719466470612878909340150846208777802086443386259371692178391449173552359702324918877655234523005531690103878908388115135393481599407953365650847851223447959074884707538883911436068581603290977174070850449271506893093842002710353149895211189740117907861396897721132337400689719326076501170784292322815612738409975802908794031910608428766711211358770324635148551232202734222144197632742142912676882431710826652944900937737534870846209408635002614324798134188188133794096214140298926112699434945705836367448723605,
  49293082819280476332273952397176165083227376466176184522176632046274251831492323538526631699779818345731844732510008365227170370714390978140359460699511806470144960064546972617244792348163617738902103667613726343853672098707013730066813996095384621788003201627743851428856614287537884224746028214749763869327549679527198010211015874486904177427460205147259409165940668486440873731832509095170593544421014125208250006926065419696267590181878248304772029670344610817656840342653054691459990175642634762638709226388458830352977964753749185080483787332036306897850334737137713513270702380617442432841917358827128680471652568489477403209002196222709863603583392781832171243231085470021395268545350031234468911505734129121938448569387770480223928704791454061370325403324016057104575777039019854035354382604893665700033410262005854153146934345724906058797652064501279104287513210869557790049845758979437991051459267669033957458664667658832639303588343860270364744637309473602119064268011550084362189712025999471271985538203073194030739936437243479611418117588416646181579,
  44029040442894287259898728425912687386978691122526180663095671512380590120606771260985179894309805481392137130249808710667788688310216414063847970206882734175664602195608078257983769525702465786894088049936977695242545926358487826368292688283388533589585072137667341462266751659047786136976144665608990111675043457618440455511847412776506407283288043744691612809501245865563513878052427121167188907204557985050845207281809276889197531379995253490034386266354801228365232572468418109045128929990889707198765042936912956039001510693716703076527801976412802138135086588121830473314442475991886308362727857927665900085291341842563579201187668268575830465231869531288016466110508268482654457617224485508263522339767975692304556848284570330382844274727234620488915881922481887887101668175646346103601314864368511391618385433162543078352002402086293856722318393669810477175331974259609052279323653000006580420270122553945108224187951365262016161196151374755181433608663439466170538046200758323396429336688568541957092493499233528284361941052221667681679076652752340799216,
  96833932691100955448301187534372781090652607965669359990495386591936002585754813140663999718451106193896309018593992329243662021828872204366717173161474203996642339507147269179780762714493766113149868504713830274555800823081180118715977182670310392050833205347697527390895041848171171179735388248438455538592566328426917120744996369479291069808131001607854031299723790867370126564969810588550865481485597432397194274483951709474701583310960370206756925023309847902978980384297033885884500910299401858955615673253587468420854860950661042142744434129055648261594186214267965265285446383917036154883082461025047245909164166098512397813649933039920414173478422000378735454688474788310678471606457609507876824024175870867703849200848745939350056696642833197786895734804179824890755926410061935273212928541625391082665243081390777758737067810206111954847393550717110943257389135914466451601789893436402620326862542462786814147727190686252931918129058706534064763480033268672163014328843181488926153948967564435556664117816635804225584484362263955455388219595978600538013,
  68920406350904110593195162534622290746473345739187146910719672164315596191009149970340407047748081119223661414927554212246339123234527853151992410718733428347720596452540906510295997813711119171234211437567328760111553025005562508962672378946839092838757092787126651003691487413246468281115105992161773396172749913105240990173206027817031396913826102956062347061936499742156319508397263275307975926726411021463661483997226841904079318991314174102183945041844365712669129664654738204815378690694198584664462346912665973060979482516075355355103395291361452114695638892575422427368306729757906516499905789503318825000207873499818592394652175759918910276603418986047005242263825511043188923949326524574335592340802646793991684430418728941150206748730891555935954175613862232497763743022556827017125649482387889259000871457146054586958692768094039945350428070899393203766514296568497497249831004634317214090590228280028373531865014675755057247009766345435681742998446336698444694122348015739117781066943931397675511202109531888071360598244239802604526056287650666836700,
  25542998376334971469611993222235412624261468656675892754205707945452241177983701978683870312118506844998861933965495779126620657934804228083506543233607013931446323951565842497559075265748344031224828106611103237590909968472180176027438328186987374043664021496114197679473236435973931472576455432661660220168796098877566061669598336059708278478854538823283096656063369486877084381813124018713577310444571949414338651488183129681062057296081361392260567432278864088675184539838676356493841206996330771212611998138078374694749947358524011160755487956701170202095704202714090305047959998077156056846840400692787791995453596885091343502375369869184883152941837701418183397469665982078536840475289696874739114288630269738019725615519985935437561763338759682953423118294579631817403764430221433098340591802818643037291913893331728271609602500901888417807289998904142315623032905732990567482347367321301575660507331038161431533393047936449937099549985004592283789630217727687239774937618012433646670325730576772377417977098688972784549009712565515560446163523570101144968,
  67141260217087908335683746460970542833140971075187946172375837056795138316197358342561410328289930935264129908453012134022833673717775316094795012301629099663384461216146069783396378900387134152348224565707073096316046513925670377454304726094096722048115774146454315222305162106703859007112017362124998155692783457913072699968573990203175174914282627972770973354707173926673848452962605424597178252430122513359808856028243446715443439405407316665638546658412715632668702034547486950939890935129083621418924879127893085460547200280434569411899903523276435402795877180030558596055615849706026096993936732959029131156995142273828696804054728778046123786300815547451540684175372544895439915264965409714738237166429851498423164999874958608069050564633839122773287706970004800995166064262713384624369385399588052717476140351385702683519215616521195057726047147594468020650611175172867634903443559757302636058871258968131506379961620055919638673519477766334120124110313244408936595542946673701148809797054588742293096485021727042627610962941291155364390742654929548482325,
  97889095470101805837100352220517712121171967882011186685230391747854880428625868993974417517408202962497558078265131158189754942091848679100112334749237104041251867738301479659108811592249876955125371287456436094977110206686600144372131844034886481386182594455301119322608084473921173506154395619167083103733738022664708529527069108547938819314239989655579346610847914775953201339460183189400216581481937958409985160391935322846656428955674573336885453413559156972014559219540561504893018340393218914113724336819630739259176247137887988571608307618982636644881606926818226508197020543200446668987706970509143561782139375494385506088994855116363028977300860449271090452271829803832556043407220134052765754972896461189084010138622869602359789630770626922644092222040835107144581056985396529276765523953342208374379435435759401076173104116818848468370486363698850092919367165500248482234242871645792792014855261688467965023241657198728820588704076230856856981684991657589000569750227325832635613124806863751828316672095690349802314559217510360226175085928026341976162,
  7331224686172152056779048283830535792446751238402814758958323266239256410832129833496355559854679862314135798434059945908755745787228105040318686383386298501897040681346027770768595745747942824556524708438834202215394215771156525434685338621769411404904348333276245215562750085690462014210948427626556324094169781032432586704360815278996685077446044367822715556295549312021557229916845711362732078415161335686990924473746709408566766060998333957500460412901945937635387986776933729779185096788702769481821502386411149636688830257558819347738241158720033794617211983791608778706182048425183268943966357246913535995726965321311009244140435513760090767624723198636354537871955670697763027074167053277737004345605465794496974746470098747253242404645198491105815853687491214503948556317081232254424551721833262645982672420584397161299561822895254658636181404921145978724707480592964832727403525510051744658833490546426053724423486014119767706706437642721815329385608680523719578600288505960619310657389720564196000119509485435232711389217895056267869083999738352989932,
  88370508750101221649997308924434173739732454051384536944083250256293223327969334426743717195442747447935953127704453404955050608192269099768426767462378425315173670415993267932752692446319803483036728079757760529320879448485626728864125520245989368533473603886951753240515937331367950424842799825328940515194568690832385889507373595310842870093247495231586565719698124616083866109931826486927096528868086715818830069448183095743503183928324184208371865360097859716740456776459179297420979623129500017081828902368015193970109844056364843916818888250110239639929015087344199510971425489774581827988654904594261078686439004018007835758108655282901347934366184968362773870418904650530696594452867137273698985995217615046289324792828476401236640151869810075760176753242905735021200277193520643229467889718366128379297196824901741039225453047173035996176619734110621137089322231174592117901394448704713986926617105069882229784048889929207454253380133866378704437207987202602478421345130915227578376594006955448778516832206827654372506221655327663145206823256956137757987,
  77964910816315098616028752618348210493246520757342559826918093760867127101383760134193134868709024924016093044527070575338671814409993041418832420461096706597116468205050149109132476617674320056621127020617893560537157189374852949238949820502082368976418552608436175404994534596331741241251806439849480847586373521025745697850953978273251423018707907178523213593342399588198001942945241939279975618065908309192701175977275539140917206304099288690391418821704355249009622239346495487270919168862428197486512112772282467923996430400327699255113283088353868876586829480981933810151125378975682533170152062956055155733930448966831267695759703812689670244873203405536531645337087771099347880616002605927457585959460024488679504401503120781617482987648806190221699389250838602785877811731733541681088572166874643669634513356783147490838974901173780836214527315692165738938717595655412416417859876006370055204961755022246433263170823209676280765599601708606649829965243988357172164059498178509596354166140758576000291682735285862697288606399666070492125656951324347078584,
  36844344744289505944934143471390363728222747474525331918380697444791585317294068264200984175418469740385594077402345004177045739484768558315531941615388744056721362404132573809068139620406411444743898287466967669232551211265786917393649946332231218639868188855015009083905349342613883489453380918532001692045836410245191946768611411642968641864148074729409467057455847987320129884113336140914103106398192480051986528257975857009157634451235712911768677155901198088437335214200512089032395742005164786433658071466247661725682560585421939605014328631979590060589281795138324311948043301893055560331748643743910368560900740566410900637500357510665129153443223590120890415320260974403915330107762321157138362877230369280647011977088294246130763603526476291273659270381552138565770948984304966512917833245259238073827094318829547119812626007352792821713263790410329090353104653072723398392685325471062644651911680546268043001324042734907614852006875243993283849573452029090296868868347159300570982593966408715697061330924572755400012275145005482563589043882451908540941,
  51249033584247529541202847195475048472390501909512982845400058977080462832276894517839263536884482533944173086898946249184422800435107913945354088496594240423221196123546784382150420442396814582997001728596357502216841535184356787532882372968083894141076472751081724884897068550637251432947642543166702566524681301180747622764699459419370798603053287440598329098102609371917510038149676734358879906357222411402598512929147957175981777263342081330744223520618668667985320866415882791529547407792171070487751544367411936690699891265538840775439830539217022706456014012555198672114746304732743439328905070290193540167334110565197305643188417818291375739810242257546859123266984478632314383634038896104523368321978267556304076703715772963906116497987162391276623826730488128864495670736690123304208856516863444391610840255966066104133522137002235383171496322148998718369172189339028923232756838021168789226374508319394667993073975641983253306472644131006543874562393917970860874817797310192975373761336380529321722495414622383244165371994702574798350682501400144341472,
  99676292055681637217012087808944175364578511357265431350470290211176917559458850860842443219157399419298472622587962669774291674928501288397520110841672525212240161579473017002055218249404054636001207430016180532797767646473095494705701257205523292069260225806167179891609744467696483583224420706861243195269844655723913133164316201183666629624392979019682913677377412977887805028017124818582583458272617693945427797312801793546025440510445247021423910008303257932246447422913490073372705465327532393667894797134934016088868616135564786049188568205190721346341972362373167041268534863174428613870487101522323029844849097378464440551043520161113096402336470521129092931681293014622689987919077459343474875466061649071365929327207790504554386393846872565934004458481758293437165887573935629905341043948897366371835972455531173038769512408015958437712056600417220348104753727910985019517493102187051266703433100701786661763886337794357798793266313693399003278173369939462302555031091635266159331963337041958474573257073539658875566036796018822839303690373652538064636,
  89433028057822549402731675869594480192672429488140804563132685629827822063513827901772273719647424942493153479476797441967464977769480442372057583902157591239724612608208723647637655777899021384105600893604097403680524316867029051947126743494458082344417099267238402574397406210882755093903462020135381090999347157780137718767907101025345490701866546799966746084452268544193841206537310521166649782468695710256879455249172578548647912331790529816355660835018568153709557059863606723840653062019454548373135351380796102245580883229591532262405064790945703689049749377709723081905395092350484112273153346548558088260713452372582546570223101338007634180316765918483821138026250362335181234706638133422741291075624326229746409241839059999810324913713091038353445771117532161778835308631576871725799395168861522222275894353386474951195578524361194542444088632522468105540614554082459286096298832807799138069988049133789623769150336731848980761962452147981027862472334329322726354895983828285317110354087853934650777721260401514956566622894055624922729598871904327510821,
  36881976635518262335716222542147301922538231459953120989346787425140251278243631298544027808836290691309051214711391357371041576241296827491499770664503334241719914011620374429855344176204834304983176540390470447566551068590295892898140093007239424417807414149313956449941263737080181224584684513538338282434137435750891265054174885316676685358565223226181195441449717070768428039897291838968640773517269995606522166399920168563474508683008436040543776246064430641569295594021399190510449317735531552042504803027868548308819771462845181111941477383930442609070406147662240292438830195337500056561392004772873396715369762965253607892425720023842420057736397431360327395659886124942231087350485057706139401721886423419590906027083428099887878417370917039099605084847242498239096429965430995835798641768434442804554604799913080970187890435853280031909267362837727711000621629711378610009081362578475169455596492964873283499644644727125589405350495013787080036076600023252160868248697375739025516908263133296711529101577073789358858357655107825741908164396237693067216,
  24385095896469478339354600974420579916768883922708133681074692637794493462118336099669486744216780375939356127580376582178773609204312782961745821120851200984399566376125660496411868798104062753445414545500410552991997001060043305498899737209899180949159292679216181158488599484320658296763379149579145194766791351365696992299340009543379028501461416354629444715512937273200983425981128822839264441252061857845525230163785471432642568069566024887124533227765497140748733944531586470404449530062970531767329669452078281667651236782109469055995191382586034569152546532473135618138622208554686519736641612676812300880719024097539999297328174705616146309907661694286296971829707811019925953552937614783346160964164370189703927394301986663894670138168829902881518544041038397756706383532953037732489602310015025732799493627393613255197341743414414620143121218437653772193054971273392515502076855805057789882026777526989976347334233370792318398364941079657658446812409731936863499661701034653440510131190013506266979578784833507754372458812953373673761706336342784522069,
  35133666250273143119173946704910390721960574708892915440292491542484354855223405057064903496858232931442991353497887864986926817011609283290771220578298313943358749423809096107673415240491352428735298370201365968403654331787385357876105316762844239779441448081372809912354147541734673496886570250737584162940304883158489255854219168603838785649365562176699761064954711754409911698867798613421041475934419828564244160366848326041044088712060921728520113423068192143565940506659252625054609105464902456110523132434106304448930761970494473612924235890646972903444694283649964532860960404243385394074999561665379479863706001954721482334159364689724928815857285452473580599783104602325043463329739449622536129934583301369769861249641712677957119092768330892003875177752088628362401441730599440295711175019992667571593656637448182848028408221344527676397929596268828287084840321026384615794434230810383307326183728976993957005951190587079428488584337883749725400950941034712497312010502668727866437280843033115700603520359250927441330117535487926483699324485125498726255,
  64879391180910856856490673335138022630480201891758640980105431972583465514448782409864555398847768818816458057502756812821961643061476438317534366828379203618877742792048122528179855611102601842489009383155682956586546892616533159243093120905541519782338748399009697293859104773185002553858122133071486005796162201908277224732618418696174729343810297604956673236129917070974860562148082828223559487649297478680491420445467001219473198969851525044554119763148630927829796887563578343431129624469783285028228517244740010498407151149892886299082782614881286717183630801246854960786373351611898352489989682927041549510342538476588111014826498785429406997565258420685489689113802362773486606643147637177920903932821195552168252260515227379874607905631390876978942139980395688349499469753649133474873525563946290542439025386692565877479839477210646627523900633685904408463723144863173306908344347393110781417270076636066723626360524974832660064806359423232950135876579093400866625033335398108276321667656557646718316059738547427966103340793692270857624132523462997287238,
  62934393590268426104052748679382960682868563361047618891228184374057027724560566618338714557559562550572349593085155984951486126506846928649124145676456253499755930580416265861970040807664056448231645877840538314293733560224523753864618440293093255652742957946034249336484163317843948457677923881630331547775712093716983825059851447769602722701175509178408220305866126996351248612181515989872660476905119738498994139032710806932453099364965172228759111878447802443844316551040385409536563647430841639270418415011596201362217622216585449319863452966652904066182804999710859575227252941298720436157104268543515662917566132187840610042549127405302852307179802015169824746436126950206780315064074982468947341205726541075683514876201597734035921450379957622777965127653848872631637965682917946486753320230549700828895865821514265180746277518955958723039561574704543412684827748433961904401586886312757049054918071315846892633309651863014094959864805252169587178994941723409766820625266433229389454151983540523253675567327884236977391589004238768200977195145127418090345,
  46100746896769170896015633271659287094237308389095757338474958017467036304797616317584618707892495604843431892953396235887523353454883474404455033707069047040626436357105074747982619760722076734874370066547723174074252444315002712009542512342673548902318896848278485093136817884019162517943774022470528353986738311080898422541158167462734689327262128087039717920930610099033812421397621109677772219284985191213256323409411896857915829932165250007057045299110427168329636102680651536070181912978122211464173331357050558442868777369569112374325084193558700068931407674596359069518989339417157590685343828675632141711510034478376184367758717285087018692942090817758730685742802737566010212601457735784835208524950799804321564608053800313405249614518748390338012940213223970548098371872863185035520883034676435908356752672098331773258096090339185443724979735787647156772527157152054896985239382075915974040807016367859823506181234547980813433851487506639187096614923103674019853460628297186060839294577774250133889696391157427315467378570344682081128408648699757670705,
  24669457028539087326142070230414684768314181794083476235126274173417130769206233718546914261699864969656543989026328436748681539193929336564584669036161311529840820857092117128493566022706044297710127259779980180976974765597982956672474812454377317281156719876931863486419522188686133570508150486531927001624515390778270740873162458432298299049875459558025642558601058262207521782536886889561118800525307634795953529582546566018554036145935284462845530755663292929918106091771001014346087891439133507914275664635045195724451257980287436772712609870968399362991741379014055044807196809969992255619007395956672708577459873062929954739013554158426102143886062362929368894470127409005232370534748135196582076497084184162327509144269099262200684480336753804815368520282367229206940517791673411210232119531771448459523519422925104453067032958515635639073485444246485770082503177077075612178431407550629464202884937318260478333235855961927506763089819451284019016136026471979110017711662268844933884545789362123576701294869847283126487313162978430630208897702749294779380,
  75822906018143100288004850276670711834294208206677544651286267770143181089267131971264732525769275649749044256405811175944162430219412215812779852842989583431525399462725962858613209391451382758288410564724325003928217952316050667209013576809562622200738330882648137009168835982401827703487989624574173608262672960455837965969023315936103913692255430415267500398593598678189252374790454740826792633617050879302739769147465333480814045028188944631346718389785525584711429696833971460155742047029288719035735558668570000240607916957132978190812191909220502108320286129005598095827048994297298666019291602605633056707199851681930594601979335226928360733996777819010533693090902378075640746159556999591120195842063661507445203423311310123795044935371724598996091746295638643600012960192608771898305675165391740754069943350819614774924348187122356668184481851415566503086066891649621257534785656993849232372208030262461883445631945622998375539002562929901273168087268483982524153315898898706466794470756043588926116151363434566896430178338649831297874581028460148881680,
  39957539358815789344100770234407813523424685110661799800521849830291614408436903699273436539048867896058173279242905973371618023063654755850683225319284275625688768212436517017053215752341131499812233255731463412095475410479918468539272261445540691356841282823357805550678218105448497021848276414424484094639801467912504810021454544894857525429006122756608531114399679625485013709099891320949088186674370762477729133048466149186695271768143105663172000740906379787026149015749020155336969104999019948646067542595991408596162575825117397426688789041202304512021870423771746030761810760152834671146176014903464517710355998239932617553105266405342159609680311705278838415043878580230797218895926325837734778840025075932419854596474514645545967423734355745453913229930369608090404668755540416709829508225332540927481019830423822032227020759727241281861800888848252783562139279500942568132082848537315850938147162980633873675303097016074094720313578439235868850715221797088327113683647635364126502721054122580494512950659175989773498482804373153156307531353580331330074,
  44572318428080211512362797565782231825476414993158209542702525622978996894620328616598862492047692020684516183170764480180517082257117087131605359039344327178034743448539785776693511668585627011421784088518519830372617350744514704606095174669269212705470297363901472974247745468002029386373918694592644017360132217207231137279025262775956786225565056147387336501135356176000158713936967665910228047851729026911695207330179925622191276119564378750692643177114979999746070922415542939149130203106909071591662282397698069324715269133801616379678501622243398854383255160652642863495321607878906113334512289233555023564136302070001988869620552126560771069174820354025520943706119535820871565775098206643381427516068465977244512435181834969580858152491990217242084032234043041705164298620589812505032633800422941631196663701267080708728544879564045579993649718573797875217460499668728314673836597312695616367457975016574866756827313885960482964302627135038594056097830470936460889735267944770640761751909834641895793926515323058959974605499285751945540102519279059547083,
  181091910355301788033803123161034981005060772774061342799177672915241549394405927285199017327931852221275001062995863943043215439172697350886514415783533515012533608609284795982262603459329382205531801044573018204054720930459793872899730719682920004451557288421591001415047125675787350467267944255189098928924932603526091602299032158211631306430319537043342893578400816869911123954498606166452023999724466706849202045910451480149470836855332925733927136456995936123576066085110060320178041613134750211468101894006535812439807774317211871421396301202670391253627859065126771338078662810711940815686712022406848376856457179481432753898802947753522100273598384189139580228659721165709058744634234717760712187518136375213258542804068009572048674705310553878846549308501335746176848251241677650746319966757974022451397595742232258155844427906108694672684599039732119255672614253652107767282654854028996707295122279070882821326122187286137900563453256399051901816768073251480580161231622653753253430718426825370820742829115164074158528354805137269461546350378891292749,
  24359261991765289445405933850248824998525737284712485160209405005130901358909464258933521588504272547853779813660357411018109775060168019095099660845732941372486457166884229408403261899050727488431644145421254950866570744195786007845642170661526686928627357064189999360929099234919792457484990088369019420654618627011183757465548732730237173637529964135828234076147812227891276563121689818853872966223119402474460539472412527385412806215384358300922343104427706748799161849610548732176526229186213290087244319521073938910575410087626557185975228564351165824306694608695716948853657490332139152114385165285839201433421029086927610006559346318968374669343710932425179407563623173640908235024545534152938570032891840223435407123669341628163656682153905794793213544529847924712599126768152938844946676411701888964899052424556675768310983490486354100607142795489204858508313720244990189157913058330314833967340202946479760741082901162154659530254192711849310062472075716430073322017285326845264400957235394571459931979724564046320078765502340293316806058652355274398614,
  16876919407397203567832534179883352239031255300401980856607733195425617389653106338568434090371751439950465290378454914070898387850125724801473577703856095030764949168280588610929249750626453511446875503439772884329687921867890927195825149998454971623696150205491831421697996318761422474240193740318768741754626949711122300040871093010197152923981188179760100272402140681993615665140157960768657661677246031715388517464554430316629173510751257025051643626350584423238156216937123494329839442084622983338132504954240805455645788638991389152397137971175151122954876297055664535989648372035052538096692164817133237180208818502068503985712087149728292124691548324824869069164242461148897264061031688023936357026865617187418334453055289144280576977788862500373513197794417725680929142940853747689065323766749512367510706721543593102507957734539439579049584551626801070324123682774755214417267508054444957647468985492657107753248431565988397012382809810485891602464696644608235311947551377556784227071178012307132648466308526584161185890038782668364919341754544275363072,
  81669676232990124575734535388607084245798737650342106828238119704547445887248616291848556704279839922156631978540006976309299629495612805995704826055083451843642922087091126777314061466532574820139943162817894733244676578351489626235134993214781924717187931713918050262218200379123376864547950325603468715824159577006037990820001346540604597075280568734137019529189600629332777288508330548843946556345825971053048205480692755978960329167947518158439425496676712481028033400274205947468194747762704416438006851735814354783275409903924261086254515928668468014172443648980219647757714999235590025476730757440668627759483589216833203376169590226933793403293077214684878683856522310946532021479637195762627499420818180430499495393282202989800773151052440433358792381456082519606976390032437625387641842153851522394880229423309129073088959938482678272211636425967703708089009752958321950911035864199199239795706798416633551334701176041686076746886314611456357617757130514901968151581684806834758235700732931848144353446922151874687348120602465557131114950335543997264389,
  35056917401261860273072617548342893736275407127297718030077425238691235848506958715903782264237732684278319095504466658489669485859795061018123217663270508878501812962702494025805422302170685798860702511974255359068604127715996084480759855435855788644923667546255663937341141529759830577716777812144701399224854770942120805943677013386231313770911502438451247261278063067381984232861673675205627247579268776016165341388572796091435274907564456460647510094008734439805905875522438866574845992929224579716765237554061701180069242894934835488116911411169372313831026662949895205993033184106722257092527550851360773671136108126417820389113885586414910449040963468137964066833308204904994144803227909319143484920805906774127256185529043230958309771800059563052068896249166104047506903019356490667463206660098921819172277473745312932589795725786321892065988148905192967920400284170576908862302456803867135055935559023630938029932422626594266216100454490354236577160683871145624225538898424415070012734631764109386416885926956364768863268991035955917328384976535305633548,
  72472851622470307561272404060513273547754848095846374105044804651485338675304777291940280338371770575473801600446136236041565081441059349215496718692860900277999477047091496829705893262751687904949233757177821954990224243254621266622924560136413158783324830123626064059965213752316718790938876839053571221097389463872052613697376818010457479483540477763962857877810446962899033336881222253599596916367771895568908826657378576189100033353540017588964712823132823851393630872429450691827086034347962215665168837847172635173684449815600307091934552710785752627926941280459704339389333856575663913812644697994257513202050062968223982285160146678046023462795803371399627639743995520527565273714973076551802878861271368758668986732569718470065225136239831308888031705810998990747391493143617920514744675305505025360683390611663486350158101880988972049769527346863694883403428992044258373563338261841313172406031892841548848512369890848432790667400044543380810520926172845144163367701586082227308863498063831050100995080484851954224926058794995172580958761763442254117080,
  30382264034768519833876167812405122151475164611030295638062663714276428598571195241475452771504166956543589196552265171842653053943234592433190010944281480442002741767216829761697632336865811887205384132061114712052203649048390622218127471241636731521035695768031234899455574600550254512349685218402823531783679918456797111974280503818763653123483547144803282698672791789413634092741308855231327568152492382976036250658297990081360708822047086398086946265148390871633815658360667039326310989196067061518875967121516914828882824777960701577417977123976898925311906052838476615776879629293357325824214283739591716128056978743997829814056428239033913240825461943998139178403647535042292022820293756221319357866179654998308916139480024238318326900490603521569174652515277995902691196223003000108018414035619487685329748272901181961262913547882417986713018845787724833530371309721585317017397731708445998395040799591095272944676059192922237016013998148143616846798132363774971238473190222877593929695853681141272185294598892944594376716834128713283807049332789608320080,
  37344054976132883870928634986402640055637804913090970355941898146469980585555790386621236706152724530126514228661391508665576817936003889016294131964715112909184986179622641567477663053271471638101954246624490344785737410097859784075990565213121902639427760550399540990303148242014213411329632451131699599886240904305053976788928544782776181219720072813288763657195717348239918760051270051565303774272169198484875488864728908865049967431942485793119568174260338450021668915764404861461591947766901561343843859036229137219817617123158589714625179125444189038715358263324369396406993448528712155243080177467143675867969678266822481220051554435071014804099259543864230443626337580272147396774908534128382485427627313986604435477035829426277644940927455163536511277155819923209112358105810722820430904266491387818597911931546529998563686726148767991379970152258836409684701220159395380735214020607077557685098800965031469583982299588959461298444496912865732749234536688231591189185229400461245751153773696490370897270549417327100233506358103761938862983164778418035317,
  27069633830987544212232332708596391245065042554636260944459902691324220875031198387960914774266588579643775067409430396242470087912587853036022825707513411050150892911621085049017977295848244897162945319295581954770367484023311508102550009393012311909295411285306246998580560678080388549653244795076326326000781613904539539410416039931491176575975728323484006319453163837541296411464295585982909677594855399975400473328494610579588112963866479383230422577830574103147385188567484841057840580503622409816186705961581529259083685232314780617207569670500713805812378538454879052369774918322328884321021845217174634079854866134018829157907051102298952192408992323516704753848127965087528531895344694654510500649924883273631718221419390930733984787089613435141897440711154578548159842477575252703349044376594765093019770986680655311616508792836281004974094166267299363443995220398083275953576618525966700298609755450273163947874824406572011248914050718128138147441769108555360621136317204441758889700957010181011146883545028311528071442182628487579555616496708527428816,
  42487439677849244405290760346014109664478787389439380355717066765158857245540591080066420016322961034801532332813534124418455913058291581112149753771459759522421813813551138025970370530155503368672385963739738643371522700166269011237459207003617423406351708771558666217209407965941001137900007263226460414721952707809127736882871091560441445454775274115858660998418642275469896261350971873544460173948186829044231876019365090096187010073172549321403818216284513462186779868852372312566635888694457188620189104636172788621780816655680021018878382883212756919515922749666644100305830953109754000329624124572093940311433191489776204562222307132180529058794432965823853746561348923939221364188612439976091980273876892673789054251385142635794478006749186682084260010948712468626909365809541880027461299197058963243984419730067948818436876888211134960632362500549230642124180695644746725605249538985450539582645502444069414699599716996391881190787820351842187658554063327618543600289606208962823132911504837508561244829946052174122598683059970033661934847317573421180887,
  53241703721570636488908067978659446343172048169324975259366772068850436826559121117816591283043518923186541346353404452862313399407528012040532504065276792200335473144539006431142289674121463046233567456037772471122308625918840288036617247422371904875385299400861184867678697334723382352722487808147750817687351700171438105048203507277084039502556005942573362271417005479706597036564585218519471577592029390532301561813817719548388691859239762346332038324482288983760801260402471000111933496435238749632154846900574412918634221570743659416122863946825565956542525419389487737389914865673687061894230020955923292778584099234291104706870827694541742423182790267725529665241930491082264381611970526775742991450175798844870153083390707655104795575287640810814914758563097823758705238946594440642837506681920680531619457992467790219677142115630901699145209587203032601874313836666301588594824328888628756346929747687063897783077352445675645874562111221633926408057779625586540250455492339239029583321240637084721766232118741861765370585958170095381234431269592476499254,
  8913471551262292758957467486321958347457111877093472514167824545588149476856640246630570405485870332097774271693533552244627838993843945786572773284921079491974453307600132986090232766759790511965193420776598550258977539119196126480577217825048773793744917309903433434353657052303092421091355229459915455445563488417943123466599766557824986101848169758451766920029423825734619053340852512209706611916280197998815732018793248835797343849317757347126190115041007381026302925182738500229964872358174943826098910980605314318166081190872933984664430314773604306103384528471810766584288084404072290432551267661789471753722819480094692183194141535433427225203584195682895291150874837859917038878093861112818382226285849850911978621888736320558720516298130225688707767618221715322096271596645848125492305972622407123898547286396238937542149106137600562656733186594143237537921373744090481068000517180840621988067602846797453867351756327863338270451133401699301349215619593557518288125888966726221150542829495485580564088746426639994966257849053253134617253238977733411707,
  61995679388329594282248396423459476761019645872111738603374488268366772338344335868302540675162916695059425229133006881392771562909688513362027265350375955476236952961790881736701155226212236268384904280343900798266666129575654855596867087129294547243171520329367920584732171935061012192709397329556326990458422906684402885955159698049417538126947029898721853705393546515692866792891998730838291937662297288994503785539941409643177423467111436311627782191700364319205168726091749291877297791946609316904473820598043265660122294868019782502947359984794764618878258843195597120674967741878370485886314391635236874617356903370669305122840611348016438988000527011414795985555867085234712316028860904374392869504453390592906971211307535218266270404243472208667246426236019058157198798078154664533800590809992144204186756828755390004494865266278280866729408676198013613060577997648044667551169204672453905042083839912372199969328384021781554432941648449596455801449402204920045328424354812042181169321579114310189971912426219653884981266148336134279240086737233253267714,
  70510779748991701926116460417585892737257292191136707167995693046947890477873679183095114505347370297062123597003236292250465189011306324859432939913253346674989023469176704424844787932795244093818234298400446539935294514906004797801005240877324070939641732120075267603027623928010067428156953473677799889899377634842710428064607525786618269810068166726559272009172345597667720103034125491008966459652592071511511034217471184334865788021334263564047551520787633344218929072546609860789769199519581276263374755429235662971165124570213005018765195922884526302912709209774238449674920392944047893335253752149828034178314957769802356325316162934430993161900836403594385398475133924097789973884002182797864177886563512961841400206832469818028051341672654802493379633366368211067035096168747741079360129086046645554652491443610354137333258404313214090120110001302485963116720326124055588962564333012948695530758779657034273689413684280882418170680426899009321875326854541924177221023132713900143365833592021192376430385205321866934694457519888331607282428240320351680927,
  50234022620539493259073795858029552139309191195686403385157096001639973082961309866886471462775804108455160050008115581079773524769622525786960365016026327114132953039113612458717573634225221760730764126206656782935731187488833550607012053836831517455978045296779345846622862902473887860413111153927562049095206164787263231244235149627518130364377800589939047508979249337975822166820330690379488545535012141162423560145235620966287227610647013802585478657790948257518820898463988716832074525533159305479875100964337225145010088863130059962977505847758503554037112029147765657086697681710568935707127446197640825500322727174272127973912391485382771956461394010223688392022829543698920883335450321556765762610970772597552825321818017380563416117942544011279913545200528281040138769088168489651722071888209295423823948983477448777925801057570280988755535512227157935664193321233952278159261193973162224638790751747813647891795822420486458153802672781391204945750721129385984934110947256603270100510315892113752286542395623783321918680067613596774979282347880925543597,
  37380367133169958248174659266324439984770917371531510148965900957715298311058506224107722404271608632989638041599836852671056696441165102691041269968007991342134162584657969392754842176838815727561469282847810689130710718683137857449233297525669508272218239609900208808761887882370903508880489210513541206347503707330286578227117265006638655116423822342421420273767408696236481322988878484354416784966904818358597277318370440035755681020136466090876424345528671147231905771497061612911012250889773087173500706651880957018114191539948483537916833746563846172081244396848207279362813441684820837401464580554186634183695657909940164070274379377937925469370894628850646556687975345200215092935606729347476091336134910076997064148165302418718873375352676867135395661966860139084490582173745021751891800621680975730183965451591944365230581583413864123430109898569208388979194170550708072407802081637952118253758426277084834574153774742084818838687133368789630852350097584577722016486992684645945928484270277743944815866369116830673594492812388684090912390638531504790174,
  46286410047648562240246926555606515734759768940714133122059556107467020815728066261574938451753376101056535983696255101227897789069260460097332573188036830555782158650569892021850625162963091524706357496796694139447242539666165934960907056418201491860273563128268487091612321200352046790680547526004226732034500955647977096099430403919670134961643344228515310735810769526577955444313807436852252497694898920261147717231475445210854543547700397214539949828142028128279355331962531772657311587082799513176090418514076523834333802357063630546271572297489288878983523273928490891059983073025537826672822982500115808345389768389033429530173772008342478564421057376500137116928212202209913224304682247327475165356234736863286400368518960953978919430067010815337078620586653639598017276646091217012340459035016665090863298538926462120173808582760520719002228845817691374078849858899875543459953420033154765802638591996298208945055646511437503928792549187394303336789892887008040185612739121289995126588329187913407553205625173301551764819617135577256485877832737606469005,
  51648894867229421541817359015255478874808379259683970117736159107901618524369098734004488547480849551978984736584048675261068942174307419129199037034141624179630613881277252531344796180713865414422004915993376259852265866217574170970868775485831244926586908672003809534092476114270165386685443776228067106575032382048774263295630602888360792324532242314349773985635508624304904423141304323949914179051513355620001897276961010798815324839918311607440980015058725511306514131371449557639011319403617506910475982750636780301848191761370636072376679109982497862436560635003340041131942522960032349821222329207095212161487810695593176112049368374819007928808365483107665453399619835439953498167880879053238563438977315210953010157833860316767758634827955723577617233393336914481868421511333185805253587863726923500319642456138390093419024552459405353871964593401062991795562776219730087191836713639716089782167369035958708514364207049641031188257450953919869017790720623877480361403377257089078781655371470770038748852847200753145739581178705033458993888611360892126061,
  56166756807213499303895602468504592242377469852122582014906110062789129131220959971352834163116982815716021903141525868889110119977841225759651490536284245160647263680650606578636446764090161883819854574845161423756053088518352797512216727380736546704957477590138078850445445125859205970974870692741644360578963360298358830681490323997890359976776579292706717877209831349633928699474160954872310031335849910749137879681954939910036928984557552190943536322180801213685175306594374259249862728511927098313682659786073472832931415448630350665076660013798125110618975794584040796773244198530621041308846694770709196895152007134681572071434961662184881710604188127777698913783728291572629230241762048939259621131342063631391543691634129993163222473579921165995711502480570960093322579210936857164401829271288979653141140912117132429477394303766729389704090533950879833976479987251853742182501234557018266281999276544195104120819969440148684973290400380869678123156495605538835229564606888894763629117626045182235102111560407684555022607563631166204764942996113915964843,
  83152002483966821114901660653475622568220714652893460694483379175101620220987147384220239671499489989833866131369945717730283338539645184760742752179665074247834080157344301793213640114106571148005996743066470175995132384724445806864685115464362101984990237061988334970858846441584898772356958599521580536475822417268292158650496479878776318778937500538424540636675371487078301723019720960085119085053126714749447057421212960989759551671302105327835571387115291059253905207672153286708547700099670064939830200504130163195762479153425322548028366984631557274642823337660988259408327441957045018161944833499738500306582886055557863595766954303655017083363520457479445441586954756119248042313544082911501953829066743288808602805811280143371021401687578062363245901133474981563911876670915412455755629995677669530494708924661115758457027059644613029312191876968914285917436383925755329277609311244662624875440932907704700567431189630098425336420880133210468197978502671656529562647546349532391577029274569247920990154957863919476492924433584331834673807565429221926994,
  18184836937487543238512704496462114203674623360556711840119564244958116413013858411178371136064046310802187070819985402746925092328317735091940116701366210719189421748755952951185476438883551383547983161604425757510836874899492111482539054885857726914710760844069735237526779783507070210552312195663803734886638684396577379378931056746107089300966840953472122555547609981893792519490379096843473693456037072411227895744208521267337686428780783126659809690274913079794473653710303598000881230603751719607518214042432102088760930039737106205240406578561278067120410844330368213820981271570324935119324063907227100208094449615739155562876315344946137090146081009100316860459583219770130750090126561412628599116075135993634039199891184820548839892100188455903726250637536471352892435282483321132053301972370670421146471211319773348096819133264309669938827302570299887437704069351715775914753748554493675558019277521513412968726799050474332802948403291962476334204934987664447838158583631664719319824544554086356689553908513513288765417524939841472365551917882163456724,
  26951211351333710666068562186886636650880325531887365288972417565704187665227212560083156653552647848803536011763713516714085136268552866263001424304050381980029314056554807710395338476225999326022174322751947989290471595240487335118366356395486874411552084965830542930592162656611796034087603776172071550662558658143995376163167500724110767032884432189815872187480230031821247305093368009549686880504027853673703412206634110638443736530474729495750277796956547500103636942858429565152379484821810949728656000338876326193644007976829574027351172374772441889427128802508609574490546483607983221100846042296861126707908877093609801094774336829924118084574943781334796722275049594295924144151111300148897090971749104114095024247484876955287735435187555664382266139688287026007924520295588862450971612861449031647827408836420133088029479078943640095565678850952719385345220669694943003571496568942841285825266138392805393267253620432271804846109581716562636348230115298759739389187762137135618505131701917172760880139658389627229983942377950617576616848617846717736391,
  82271018348494758108370184099153159233389083523470552904059043709411994537044661148359738428115141374139509521713555872718426698674633940072763064762303715001613609764729630614712764414388129340391487761950577794958601160515034493936747901080784242768540468529842172615279375112002438507536919294419132385114157678443158768286703024307399183307150341175045978773540570070688743313118074168966134575498454400463483623786102490410101101272613518241178396684945013268944326162758080256908367265928692500626883090952862049560864035435750720885812738092877829728874663655700913060533881273770509142601373131577780634723939510187591713709603546374117506389229290986917654045595144113532417215875313892504616257270955992942595901191710317720856710217847395698513788761022493533018849209869359153172942965120546416499804327613061093350852605001445071215183162097666472541524536682835132729117880107836226001779362373341143936337280545749839824845205270016379956632898849286342182823052993762466785744501546462358135845477562667544034106804969123633937222758238273352835249,
  91040789964453886408545012767714106603782460188211686793237037557936339558424488887642786909426365091345704305916517734627415083678854513099761874164135106632607754829040881598838353398440444388838928970468734236524966482736216048132204963876872346620129822289905766783765931114754013105196095301192974508105552681377944004088956529559050054110833518320395691459080103948325930119669471083357080667263805336803154159101689451553739518640777789585390975287382602333849264918533672484632122240467164543628733769593132235980967534879516067234450977973446540976031704729298598571277075847028765760635572673573934040768684978518643530723632843018420134094685296802350823846936616827531275716913964179540085020682466688276567793908372380023352502551493087893353482983347981099813578533189939703710380091670438216101699089770920517312209778816843179710641472361071820054490594686821547951521278505198267396861327707455470216049343629131937823516823646222264103568194010310435492528802969604104073774894837451133313380486735311295822887760489086626881917267174046198886484,
  10541215209360733111861857817781270874820177812422381255310483208162771881466081342307034807987035215822124414113835318605798683423421405852916974938845619602733950912744366718200205117855379584705278232500757480266186505969595415728975148742569284479135030543201968153619901293276642945946323963012546168659155884441653478529874336223997899067981798635615207006215599287663608464813679756580646659295949147366100160720995784639903673863814609334342172427152066118744798518049151013797481130283300780680605064255312944098480647072127725729055547342450953878339633389343918000481452146956636552749498281014067512095909281779127164293952829682406799031218821076278280771230778414916325803153840233552709734108913426659945285577461240110194080195643214053016842252933769939951890875323806800845860402222502923952678985331596019545101717723391016219506302585105546777763946936412611890039917322830074028984970199617235019585130212594046257171155480560545583139047333191148953307835203359049925944468258035594960521695662529895336608765665354379620220652317524993446457,
  63134272032029745032736586274034000450392642515717707632176593905763038704988333604673701376468232255554122861066193790443230600234516237394508574337136165020022810019915534521267530501614092322361718293429296425448883070082574817632374241769768098438873486239989347381381690392197454262440554465415454928718429138812269356789182331335114864701270544281432502020607255973511070112477992474402070568573147596827800660730188114313304921350720972475426954490839210719713408245379100484281043850225596777237394396911480395502427043325097301340354695307136341676954662137818939435537641861844676780363924080856838029343285028843904399299563423317994876222638687178568967008934687257163074777910043478778891955168840651432711286211499439658231141875760325591259609845460321873021845543514141364499627303263372214629879005613311231218053757796347273220409799442768833284400343387744074042040315894049642717055488109972180842868697390766608030108694167474814522000917191294152461304753135126372516163316526025985682607996152246098454973572884345063073323014479400335117719,
  36218489614870951947842347307671563605896312221586848142952152582003567287964368570767927253478058894005283994565828767988447154815032357964032330489444660248266532500258670661427484935867368406027367611998099685435642430359055687088278797060306912357088257208825200000422019753902549082132531760928707692838417970442558752506494317042002504743706328652930122103761281292389952693741468755317722693340262051436245947128321140712096468993417710195868202755950847035869245454060918314043252448176213303344690545288964701666808887411327729672916692474897342645248559715042579111004603451985908156250091148693942736284495476981979222919353273739243896745087933454334528897252731868805246540617667433706369160408610030108024948342272870217626486730169672548967268270766922690266677861568167642966005489990615581258655710393502340501929192180096496000972515301070469001962361684026392103407548601860215921678173555397589995280601378013549942911771951285383042790634690936467587052009805211276406916204269346376296863974315894309038752737639538554006527570821745220331763,
  90653287913986720816561247101392289085901631323965387832681457575904466413980667596426149008333868152972726956509255509538480488083039812665118827229165559143814950696825645210239839736838967568153469023363658809650427046863489925270035634240594673751528622542862629995913438390153161129147017203678368382846519439849665528562790384891119784119080349075778367036464630422279712004456756028954736349158799565513072986834389844381105183593153999485674120348544552819174794594376892425316862925493802225662165346946638487481052157881319243562192292144832398748333310800470150541786021486542588821615560523054714299687828687975150397266614974265006619611870845490339563111252863533342386415160973055427281821591472192909125311353201223606638843732446030912397152400237838304729168740925835367658010941137899419521484780027109602655776128041918835720252563772940996953693750599039304697253700414134892831597479491626534176660442631420657513042188339261684307453528560663531324193385719597220442708218293654993934765799621307369032192309401241391270181301199476503797569,
  86360956674681388151340628293797091247016507338205000498682773919478024973691195342288643215641960795381660719887039123560373044708335450162164363755759259948107379743922233193369353711759664846342779426032465860782922333065571803146708613591390500409063884879297518447914733612505560725224078668160674000076305508483902213127054458682179877832635549715572107501839897197931677932568671291789490781536902784333248248993187339079380594256470331963177218132331574749656978170729787770148487151927215032335016375894985733479177450454761282372462667272526552254995680522150650154463315013733145155149816181844531280331154135473232788056641377312934010850283446204985694366259116208750115534477429745883835731924654186587388793930147113003675185563539214539624720818093996424429767181026179686838779190017949354138392189320604320874035901666299060857317649337094312724305040364374348793002232457628231588711434228768201298623943780676891872852919116084086105560877833278035149683056516001634981331595431018811632122785326520329945968815604375718596571035779328217157501,
  10405721237504504735756995813962844045941083604638678253618692334442560877834823453013745240429263793485698991544826318407805874151037859665217047870631282402675575033541443080742251492445567288130820685806445096187814676310697720435206860220030086333930678460952915737528002193349431680806664547260567969521974106051935728111077190207986286383417790414689521199581599718334770111569096346749476107444533476695274750093080990953259144674591277430317218272825058808135452843884536989816880304184973878549751859921083753586469754574457806838014055634005874635472855018219097732630164827560410987412976124272119992625959988656857411532828614672978011006818650259889073486731365748500934155878849561708551073374680599126956423054265529108623526558074001096072252381836486349080592799188406930113629570329395443624962285051890764054080327155470616385756835604474887590849545575037107895094410824757027340111999348019580926394638219570211309003202753382722427863641342223482817249099360868553181725612323072278301265638129206633246379466910093425995523055097304208480168,
  85878125888766160442841685853953111638039871065380353610035790605731195307833219409320569166939410094038947119049958239873281865679862953206329882412190899933143884730334351359033597480387946335413772999930199798769690346804406981528920773670031179834435474193427729651297122037673299941863017434700760609805804630431870687259357594458731022765775523904422508281809187011110518278416537127146012426163959345372031618803053727984302916727513975202031695287826865783599995558131272525292373969060948728917335718046328773348067822666174334002762268845740149299245644674466454695570842051763829882712095701952451330262753691155162711182572128062871273178594449534883478640308830406650545421049319329635117578215383047835378500750552850055670720250528960027412885890717336714293871869953227731626269051515982155553209751303080332039786044479205723314418407380358609168606882643256701850263053687044002427288793354727222639509894015097199731186437464413769744278722871076328408738395647965992187039848189582827308287988975107970337917225012070569397500131981782547750454,
  18129433899370834445127287725026821764774267551193193934471169962526446358632969121401532751000584499389481557750038678135191528588847398606519239758813728577877907635999473997230847037722446431081337204236363650769990841606993526163277990417174994514951905452243342934480979247327808056422236511531094004165934034807572750671204424584680013684143843801515647187583367634426157141862524179120203842347980162427115505579136464364453052026617749169214254161193995884638550155851146131388473125888360872179540539687938600430271295711390256379783149353204554634197932314134927130122086211637076135602609518217975623652907402567082391749589812882878710868545445325402096970847918688420522920017050729729679326584630685628331470423345386955726257660510427243731143252661989750302568055408369523930349849499861861018635481784969896474646540545334552247822325705194520840338130083232414950926284499913735981191851354559497781318536698372845709564913191127105117623351045249376466128287549297855035708982918355065590999406451291344242976251068757501412226667278209905329206,
  40329394677161574371892037516463974807411927032461468405352164597848596950169557363817251928304149447007216807199153178892731694153798382602763522845321274320961526897919637530818073455503823451324567226375799306360624684198339046351275512463995911227060869207723911630509999543713417027236841114621396567191184691387084972968691246674552241638084178017972198928100786754359856425423531798447159283299523221424673437210888007313212052824367911871699020275408746229526719625693091211379152065577003007139459731877788183004368294293826784038446732083740946165303211947753515977276501000496030095271339087420022270783413892730119908963302533138402252429502759955753930704498915485529663547271352016719608790229812002592642917721367296466842995340328864450160845220622752780710166295344609093440516096610964733422590564818090006423609764993540420647962466952017425811734555545428018573245004966342366895617972281895367986821197049490516267301320464817404274680522363999699975031263043580856913855945411810199905352153980503074181665827236126395726814009781823760129907,
  46902853296919212339720924394443230286604901220650238549423142379499120941259328416258484484585283790579623381372952465502359894800490615772170392871688616351985626140782638532305013629732448749899315402393742976902683339732215319297502599434591715677054141589453529288003183503650089282127553299771737708118757555929566933922459185130074669477016071000248178831010083731560289978381092295175432963611817642933715762487318147559343287521893654390602801475842722998130798953029519631534021164323847906599032765647807619971512758774825399852069490301397758127347892134788010181994262916571460001202573711031126700901325531744517853564961114868726954480699477150358151905302918764639175025663337004496474384876179512895034342643752104092673725270560348455134049011819296464923339308292935135198138393858695086895195224949249063607736805506242540465187834436024714937558072613056974379553045109093710996153518856404536850764770961400565222965538344512243776808729907812161017716159254806551643289311886176631594340849166895680284245990512906754655713556815330293948995,
  65882005337792173516184307486428808569042816796254233124777101066256627222767818193003520185051589307261731417194439756685271069876874197282331641560829050588520752044107882459043248785554492505622143652448581895175894507355586521333520184125187723226354316528466784668338674413704211840642702828602451649029743221307770775720788348693043463275759874004719955115531500563022852049405773707200239683312765095402473647128255018860638200054743178975533355925111377102699070563189888095968587429026197506021539000756892019988086621442972207031948241605603904890996656212608210667738066032307350346911607517488877859637358081106285764774286945245650662945763804508714340305270451545819145319651404651320914588345285534055239039990399281163460566439794165104899610742094166349282401662245544950329104183428487888864520839477636613063822721167156609941690928784299234361616124699624836479767640486270637532193222968926966601438832385355232582740631201145248972969239568873433502451911957302846708926115066486500607398179759036102177447832491730277746286089176352280746097,
  35212238170095685471312645355739997758791484040081448728084958416300660030583304512659654291868749588803185839149270705125979716939488141899343956724403607883931297567237576204454530936898982359521402676956829972481902658120334346350005435589196211707580014021808115138782466382933366272037518349937214079365300339365056101170016715169568865228197507551423361351377326593694435470645114447567178277785109708059416786452103805885857572926263677345066397774124755525993081128912124314122467603911203920332192225940754017866760068536697086046478639339839157716658318660682574440640805623849068098120834656263118480992369810729964463233826720364093242097705778971141013457796412039792017003365179043268935882406522479830742092600437689453583686409637807887487364275873223229424121140710595126575784176979693660463065802638125355467413642784161285086328573228120621673078952601517218329333428205637782480910734132459187275695105884120173568416073092356796115837204487479896650078354541527639675252957687531912589914664678263831523308617702281185662487751756374297129717,
  26871643075482674189873170277619339184258727000099197281259257357398798678453506353620909788150444246046748938038314675377710438695368377611217119523213633518460181891546128714179035335230246056313233038893495526017593725926428339880073329875016713846254693297816483719009286245262401992598890593115417540478957022647193308987686308715137905702946263922688547554114896094617394791300416765025285039940125862572914788384332326795238440529911226884428193423612489091374960974412470724144511343847463935698599823656055696481726116282411388648953926416904009247976255938056671700053836429755810897470438850597941097738503920952305440204831004686661347338108344303372668255356254479233125785250454354969407004196601415455357028439952071500535633515377916500063795060198975852132695629939036846697608530863955682430030217219449881858939920850874669616269717826727350689196565973849269662404054068124545721219350443959411488787277941020119657134643411947102584628639944896596220782889190845893137840257207805903676956659437880147094235601868898792687939609471471173526031,
  36800247731521147341696437514835280479958135107777725398365893490832466918852178051978492408919414104762940272523818302949095691447179937549505001349719782680029301675522953021494085004111276949657030995129087014534002162956157613637376761393658824458039988353301676232690760463839690552996466727886708505946760114950750289336358754061373925860588159270844358931424988782046400634286054661167412897241196663368451018902449710600742922130163763926124928904303027484310426385395847885658524732159985356722374509894912326230253624396137811513191379992858909918098448762873606024773701264157635009355830531770162717238835953161254671378300790705405971638787263039143870104387329320967973329182204952307629311087336092077252770772374638893872576681163562749776630999814545621831850872832343360653778462048838323013336415920116401413017068903662528922229757318633085836498009864292781417727907616085735566168972275451110820761387267112530249197803179136350395125971640805400808674907822333864829875190782121504797735789433075259731294897988395433358489870263384759725960,
  39557374930995042720074029654351137666025767133518721910807231805906117407804673242255985747464837941436347171623414398078081836071469681656865997808738213462511305732434262038497043800321547898630324853136836599931501961409344344640255984949662416500428435521506302714326967558409643466452977839293505943657684494836412718117742602646422636544048368890129432253308939758869189989739684328120401890055719029941449000982095699506835904133507490725984895081442619307470736395901161388543474397773732200919463502642895422375807421892163584749773169884877371723191532443596408773532940249350864199110364605698366798128792782259797621306668768255916296379874392307453119556460909806717435360801283532139791198042725712086962688878065038234384623486353079997101698301996480360074187021612619957892444299589217885429733331100886707221516688335762492009010311009976090980665252668644423844360766963859177478915545584020795317750908514445278513237216299637448382505029630324993722882359346853526869221215924140393019846369925873307535506494682874918013752324158150202284358,
  29226056211495635574088740929048274113679960617155958444370951770805462539281514382463620364152941036627107381598069667565831358303265265873952775474579068017107396422361952821997921238565709822653718664175929739062965443517651450456535311170551917772236905999512092895459369385043771890083405436321326502790870136700137979498250205731747110470809882353049933341189832923500980217128133576710403608443157409781630642796584166729369000992942296513870287218933808446775579689082317060020286413437769907522634067146042257895238967752243167851332688923857695967024166921242002257839357347073636648282522709983766617598497000262322746868821625811903903796371294540158053140694425595306597684989996491339634750875021799075292429554159989967980386846670537437791372320047340481723877009632430288636001475123687400449802812379561212954427779610501966039746177863488749999214496262911576362323842484377742333145953477189810641701054204022039126124978066279631349595857354798232841749895463986074052063457608076331040997974605551419591441656305749158131433462476078236134202,
  85121397415103971802296071997429244597450376783284477492511553047177286438157651641697833276535188900532449923388358779858578579951165421102772841290180505113807651502719143257500798583814364900397601753398660287968889941491586607126520437096941038271971850724650248739569497402895748030330736823644276149531395504064276396033330453793766617828784446270636106363454075889569529691465154997883680509183309890112214742933088426691644661794209424639092083235846137681170186687952130296376364295179280245425880659781142906821899721404579935406943935278656587564322186932676930129191680553672317952848206633947312090182368431672410909018320948691720571329334718488379819915215752222399985082893711406940116494666586657429271338057124886540111284321544401615763836747452619832621306048192341589088578060456354314919620589482003940657789766891348501644283491632819998157123719323733466726817344264229540076154651490093538097281448658602914494503440936431228524228271532071548933256142580336597622260306240068214653587281891255241242874983418084665812469020585694100282674,
  28452371066795051354444505084757042033251061890655301854506485423486347658416804050424971726725869385101619870575929868770174349552422754288996460514621749517543601041631064816207798309469140676925086699248196557000970169871329927404354006933071976536079512352712198551975975925868322195979998420433777943907967189820997163699713600595545700704825639253220242022537032779484258071109461603033026409986487380797075265813329926849131537317595713197726276367011263199574776555374419892799159812224037018671805632804514556443795734150647331224403544796440983894677195645151408348112080109619363531169317664769833513212583070189743658356284197558011272386623245369822698894508324317472722824686381117283860034087563573382658960539107960105174715953538172311819680357205265989863638087598575536686733813640607034129558670060139576130929133185196219248459503746591410954475826645784029908210648018810786299696292120306968136424915717348926279632422465994816747551895422149530768635249456012670707651966124339330725793985574628438296482012723831200904546233739549124106172,
  88863008875674571369442350473431981486341267148467441368333953004133010405298330356095626197046658729597456972353953004345020616216371114662775061554462852380245423522584657460138352340713941302161373462278452833251895410676638336062815622657812492325951730515377903413161150354248764649981401989459213702888302579451504593398381508677581835086885953680315978322130052248089528495040995854881228645819245214537307169632466632625256358192249780161995147341596653170252071669287901868944710127913188620863137053225300187674887214671375236510526714169739623848466498413964695601300104379127674249895596852390386297882338958812745644978020790330648989255566052139581550984399252044420055599537993947281024008824735280009750667240789309900475472545197096283213522235440963730117768320754744921675580572558803527378383640791500064203600907654373835155092217896679782972558423793996167163621030460946649329239207196550105029102338128244352244061176369194702694195205522106663836290681595556748631026451327181852602799355909752989677394347757627791597649496432925704953208,
  38356973322336287160756315106856593224142095430552399775727967896204225806432457176271385694434268134129976379509223078698965603687651921994980241649795643305801362866830302219225904303108853351866699886897465971314019186015983650347045201138413131408444156463934504361440060364810796310533358204800425236814160925822749482428013233801436615966405011672911464705032474667805889522530143037981648598509962030023956042024500767906616131255771368939946100324727716209110234598898825934579196399399278396306587580021987742458528726486159119125393688165605897150274491496329658267145063662105368845455563405176376290569821585113954567615597773435640823266833536237596871888514578607277102638352780033300856247835427533151179782088995342668622686888862637364953253073852288898447761204042484857951531537721653505465125873099446244437664742523346111236203927509597093922350437099163025573194355212808841236586655804983926667546803686490447258818201758704581168485926820877142788896290484189771992382317808143069026254441135162708486795407372311800415157805242869655168266,
  39696951011554111379710960195726319553339014756230277032819619616739598055696949719743247364517332169993780410004697259092055425006164279267481603886204094498736429710994573697202889986473498470729568552927423432459532920873597125689334069346944646528760937059546220465538196407547253990270399059331064177924530346894001269880658057337605368115157869662084470602207086629463239482803955931297890212128838917118049384796551483153448579906845993557600567600059387170108026463896487010901439736334455355502057091600581658358898721822401649351985318233973547161745635846411284499594944325312813964414542050838599157270865023502821312406843666468869330822931979297217098841001708256805267871718534881407790970016053823081185046133859275888373737768254717133397344967289571011592512418342144228555855240008561764447237148313336736124180405523982516815456463817376998549505603277877026926946570941728995398092935965786923393054528432430652832085060835874849434673914327272539672192724437023711345077507684562797400481534200658174148215219911630156027715529562401152646270,
  64398532088247542604581340879191849396896813392910165892692403445606084097770434511329458547736701164779796529814230304276504332466387448190269911437412335322975057890774606244308434520912813307814497008170040483894421092993510984676248104958736300215824304765284079067210606324866061687259614647030795091142729482406995978324026406647157253903521932330257567014407882113482050039402863361795792133149840434800472242025389539779277704375761041358012953937708930304868467972328351091302903705068513039346277436426740972871752658258375943942149412242061576864098247543128416296964017866173085268255540429779673431744685814653827646303516860957205267100762511309440942322374155268992585280412052113215055343905514449540764973854146678013639983005009826671574045318628843595308012597302498519277975256949543239359539325858723536760109681412351140365644050203774548332697842367563494832451610157697517593496531816491719587259418248501982697665799650887702886858412202219399473966268234899959124411945198342680865135486453917209684852922382657363327489909267341940819706,
  81963420403006931794967567140323472917190687212792530699399627812426827605020851463105732438632546627872713070252459765011399580312753238143329470489978026872595544064644877658410607295035129817449354902551874413586904447105288279897282406208951304463745910550087364224753098255566979322689301276158040999069402461609362663057232131548952924019444464670399269131336842208072149547272928955822035376224351188741812624062461557079730555627231150247882760571013547133256389641181918135562323975465872595113703315964508924053285509634963387306865712477064179835793132703530813892994888689200671333099274238637711004037551430538308368637930067576033297192030239902812615768154338003732034593145456968907857668935085575766475018566537243700809540206418475729049783640067887083113891488869326415921218517214638670415885656108203159164532968090783436043507701260137129355812005001615228316495578942737316230837775803952672789464554252987908633278354639081638548984365018274114191816693533246848580545860312194152250183889108858582733700315439783584882479702986357981329625,
  37728841757228069166778790028597498377490206051831823713016333454411959340377323750266199070578531414077788017259056455591375850340397816948761767993917160428408694006576639780804535250349589134413229776342541893783123423854767687643731459769587833348596936912023547757281273053256343086168616744611989150558285399312460928270397335281893733597067212456822383289559723910485536652897573993122180733017728153130157546842105629150197309179417745503327391776540853359751695939659852281874088719339000570731792622594419902051556019308192544228287759785102394078346390425096892042208425650955061211051822456355176775791262547126915640016913330215809979587281570101984530916775572416236060109821010300273941917378600914669585714659190513318666636214608939836775003157204264302891805860761018282017891365529110573900161099615740678214967506848605810950103932527047498474562589348951916720448262209787621496186565507347778348777245278873978491472126029161694317697150551050491919455981063931508035600753736584182420721114797128218001900346348344023939268955874689236880089,
  12377052071840959258366083592055953895647672231371353400922641035331702686046771221284192001449854140957066310240718935608030311591161160508453572243172454517847867934618122932120192312475118560837578894685450195523472996787902874892240731318594583710187801543908118577187525996752536358878854488943008259659990759351857223852503616974684029549118649865026157334108008562154842084078031299693202021225061909608183136034616517307394047739090645284122927462684591369942072787549025664373711931266707684936237846381015784417275877841224360718276672510592452859955806588982688212539029964991676696495697799450656259474689527322892202143790135895709799037681059663186424609721634911615879405124517383904972944247765122633709460485360486653520790288953113112245542674466515843475931376889713338676264236657366979765733635968857000729619435843493683788918459929075141531797694958049469756473632799866026257091438351742320162342294470672864765571122154860814720195263737289171088442049694229047755555901896949685094998091693599776478960450699653733759740731193855279532996,
  96189300107588353347602003141105622626281579209655563219896352565149234683237507447655505448095890754585309565534462054416837175422202879860037615809582378453959404282475065572450066943621234614162357314693036708875879588758374060751205825534259447855807978180691046128419051122362766021402289903439197841530441329716905347354187736678840139323987217799619168696459101459859554655391501127265567533025394047950848071929995608275120418021369250224374169118782467764064922135624510115790035620174952047938347983727930818995518232281361333159668608238257364669016687942767086980161876479156214415117941777525036767025595540516207094980213234646482134137065002611204499932107141061670912768409812686767100754416373673438531272775658596182912779668095542850206636148117533593238685749087398689157790547662579871903840761437998581254303155628773786410920082996914516124785886296767039784565271629430279408540462000373487687539739790521421641097109283240690645182103032496432380010815726207552463748857790977425473359133793353281209910782580240765025124942670125615467127,
  26755215043682674162356361828598796281150782216200721683910021961766381377432479337621046305280762808772973883110231408239019284931213034843947514971584267752800873213355449945154823377373608465292149530744368027901303024841087187322658932387881664336874044405270458761321449829549959726942500358494917016297805570225616749090934923319790038121194241402331582468111991505833708495771204132014706829087083801101590876366050021953681685309692339412353670666906220759826609590021700853079804265833278014142755278599156992517012049128553861666199248072048190985765805617004654917248569523707983816284801985460788105661967436921977464961979380539696345965887301987727349889569937267379477435081242392569239408213412701092023546929064312500648221994550006756631887050708072501933826760744941822225176833170748179897171069954456450723294741900471969959117757653110292478258540048283945450630052395171766098804442295770853868322357959642406075477748269244357821540690035329045823686402544703988394295413001855732215977638440904030308570900456372121063067007081615817989138,
  85215879980258078140827964500062003935348566266046786519096745959249854835880884456856360907317519765876050138520372156445668438146051218414231978552939549481189443466744123730539648166596229980781496858091762955120435680772869462361829731080298636540324081245756474510142979630202302031182533836119342958436377208783820395324785645180366633324333382695937405007220315418309258414185936213847308369828981087927382482445967053109348017704885913109787475345538170908214337417049864260113502384348684387210535984187350780706768041581564294417198121400922347874395058103184898870616817276711694686332879508737407678763381919167387569429393463838312143053426838213440914006205345554342196101142285942967868841705927058360554053294111165547955852097986554872069901214630496173190308808472027295645225725568976247338732629272723230115586738744577694029718247030641603837283949974258590035667958929338617871613372948114367391393443401423849834829477370914403083342060974789624207341546024589139853349041604967072805373265470953405513482470105457233442360249065885010368900,
  74351902206310739517482368281494346169343940645274267796012034178369901098285596305726903834015807549976163975180388740429874852046293516824056154863263134968535740605900036540215422131951072692964189479854176045888400402324405734053866692780200952196910090989414587252131503840727649882242171622719919666690527941587937675571472062325319041646642551054031291208984078165959453303438370985285399357546410468733441072434154301685297307828408144048687061894731586096102239855251291294384282175104677661781672096926523512408065955741301640634346687463375115160605851050894942015315481926109492236598019416254990351730639551756550557070269620686419969464288004380942508357639887408997929511629782218276480907519305456485030623273286809210689904868343356511722783577753431078843214833650383192023719934732203999888115168891502080301247636284398342071679586340762557652651517553564012335101273261672845986057362325949812733033808615093112039861290653748446075011904913811584744185291943816251280698506139535527728703641714902573699990325450585271678469647192006737597555,
  28646752202939525138355782832563192924116987682988542004854186257340670458001865670967023143659871428085118011768211031915210590213259826497720854330439919739220156212929814420692029524135398676419473314101682901592594345417205865095566664858557631189985415523519370569595484696709750686415880248795091764785699679232958533617500971543698305927579522631737061480824862757467749803618739261607375372154529719060613609210143771464599902312022011838915115548500964684563408817159359054044411857182842894475934098689786800078096643336554954335143315174921085234360326134559340205311476628092289416330973757682439036047139523970756148902515334035693355624004224803128554315932704871284315497927777921164615403381220700091070935024038499140954271923501722558115922896303483276405752278548659840982906182361583522118289737543668275679100962584180567286109412183302385811928785590250173843283176940731070644858744760947498521396957763193215543042848370299067158854546357414405381241751769191244983441374806733556658134793650912298873604108393188635776808653553615447842447,
  86629116984679059205631086949328775185239118877087335770778875834614052116881779668911060572245500573064885284579111844067989246911664668535739348547579852084271125391488936479746313795413644766266522016034013495204021449262250441077572716441540082197555207358418570950258436514064884965863294423378673124118248822683947576655856996828785418266242880846867361681358234373620195297850501620217087298670002540769328549799334958518775512396048284119500490246706405099021472738824034191090520251140026777993345392353074290176085274236822190644618742837592382862967959690480049561338761016831245644567809086477924599292172510636710312178186231554085663266281628060816982846611659690797888012036398320498995393823782593208299879084277372170589619942375170104806533632470470018155478896194900568232349234368049812459568697489183272012957886371639286367421296922892262109725785717003879570481840797799748128568540555522461353290338287484797943388973008480184853675192909498586293187007834992055433231287330281192381754563624194642615953642055318872206726974405446177119793,
  4400301602346171938998661936584809579553772941921590832444357100284874555945484652626646403412962539986473437324502038187918207202204349746607655994897467807461252981091684013979035639274428338280566200173803630376090720032901342928674350576137324522339871668650197085726143712416762332561009474959741224862396782534275851861175483034840965200599567419264860005978975193496066120164854966973188879807910363420760456374632662761181821167318715855868428024286663702081196294641107489876755110266856197292978383275896226992836339618235039530492770545845093547914941956543688128000210390672211006760695170462658022402527514963698986200686349489095297025558574500753474145026625199337501496653171813240686013306952999902560487623637618622768855765490505657825653628020421485945517677117983705239990295704998372275123887498490034366559809585113040830312737871128769222652210167157101273955535823135224359163093600723356957204104498395883701961737570839920058528550919995128769939843237163785209019648108532888676050598694182635759348944442715684340784775941475966095958,
  7080896591670094586888298261060217051582250967438030372414902215211336708852327860627473590532359011464636821576966611925113044918741552422520546850343533499725343463713765619756115654517827039178608674974339236575855448257491650422185608198970345940307566099236281287529080609130759711909091977161327995958459430401520537469926968295362429511638432854980590629704397524145239750717241085032588784087605331645731223622289779185940301210556585842632092374271207443657665395234186322135034063133884069328314600058949422212512020121849941664096889723269582605111774430009404199777928152637136737107263306049469738579962437098834994099333435651870730080118425822352711006061299565818796254919816244788738964841749010677835481492536127698288405486755634604292013919351773781730452110771884612901445224520683844511684830340426687930099935745921176446958789609323866218741109398939092007497892770620609355119460492944144309736836704788992989864825196185875238070221169660889570419841464668647150839340402564735616001063144618262100584227489339484378215064080471414149877,
  47859024457352535854394693107254379100452673297489743058985213820404640079426854086393324904256956161832597352133741127724653833977524273098718968562181502100398670364180442493458584624325216497093243626015484250478696660512422724141322783958920464082513430717710932643793755259103517942939432091202866407169595605669221395940931796913193111979188071759597178374617083784582266718641757472739505877607651170564192035855730789951299772691786153179510367691586010216687306564569418009571102698957143322995575330216003663628325081910841424031051492765968428784062922689702344556566445387034390352696869471482928591897230016753296685327646887648945006403374203544896667029111803924411530335206266626206152571178255466373104427527176061684186355930875811335343758048928683457914090199436683745238682873631370982535661482587834874440941524458826306205964723680308150940756039772283869583344037670805113404206290277271029420583683872592451357411244118087911969923402319551714020566483785453129104187689817452273665436784965265430670625682944303687601751410402738405849242,
  13084643121868167017807683311504668911499422397789182940893361845754111017290030057542449840885462652110285915524511442776108834136914746502162519648436282932153900878935643095646249639464437110878872869089206838592183259422785009911467175980883894853741344563840464730817493787634386997352357320575597407733170315665821628560100183826589508413668297912433198211162084900986853283866959590920631320584935937895686026958583713239649646346168202276451811340743669830785478464572827993285300276620335946117316443400110658636040979017502486057817311004638514569125877034757027306191431943399292731833365035651549539585123206603711405790542224293867407119455298623609724867034387174771046225901590153008745283926202420775773350746109995639424600426794665171099237394709789579795998145940526078326412841742148698869785300183515570555994160481595226490731740743358946937989474563732307424505532320347726631954734597819901790194023188318137158050749593269689187048053987467712148373859903003665392784131815433942966527062767181616649178728305490880347083697344250930113356,
  31569955848675745471324084369507035633150667240675773555281091874273216407111949037305304237481202370500097687975526883668414580721077178983117139072444611164369966557089760036125912649457817284222558582443759776480164435506228483879607469195157520572472574421233146258282375307067351841201107763838428771955429426752372801118374715790641714798134935845561968053237282362785843734338708780389953039749028519211526749587177053698089115441262182065378024239704489361438992534658266900678669225105357118469937279154703136260287962520129938800873248792087492866650642651272734863798861617392438249148603456694163489733018787702588663703322849354011575880941014695907279185151529472275209698063401439124383969771616957622632777031006427004932443455406469152829020705103759407153832434650514223583554991541719858158970450118225274063078321988231267134005760893634229664927217962703403145383351915274237861446767768555208548061913955081459835450768482911124156085034580631857359240748222326206938134783987840919751829423050439333253958433403052472643939178093907043843513,
  89345213500176967812453766852980525276178733494814245111189583124523068546193215476398839498142929243528809828188366614268731891802050866328480014848810169248411304936947524914433191799560957461988532197925874704824891556015833811089240846382065403636629346141461341730708445166150389166680221839012879137871656606809543342457762879991640779442215059737836090389375081579016186113609748770811049444230479014038544272965937140727188613483228719341898783436249523616053168672401250516002088545107535618824172013791850109484059802128659634387753932220028861543179779772305151254531408849669098778107392006670138937349004681281395465809828380759688414054404707163564309998615957637196792733538466398239773819756142401951120654053354528476529594782453526611304502198268397550360014222124523129146132003176108588145343642365335756462369497435619460041519225015719840478810152462270814824795873797077191961132013089124647143686327710389291366811108756944532843472534843022633755345746946811208640735581212857126394760377908881599077479634605052698357090651427311629868630,
  88301881684901810657238301797780193893945131718626536563871883938201105601619839172303901964754558701697001729421778435692435962063763554737175978077626710682869559722710331359532134786066565772825915719040017815190423698546697036844439003368865575997813045640723293628879239735968717246858132104920690105524996390260194456021284153095488085200799925913511571706001164123949170085328103339232483084291526266890090213826292138664406521369051650383226563055943660826257710028258041145551437222347526956283557227403433835987980011320388871336966813911472990706317805727632184638627602262462482361884016809663023148769354466816419022666554412484573957126775550372727143135865451936391627056600416303524161411490623766773695969884921633693052696536378355518874766405414894819215533912954787878192352084747213414197444808093046367764782521558115032024097137601263464507288245151016556440685313752526119673467515677977968194111013539254010543485868584012637036697172074658295179742221223539855131601484713940937355954184062487816205970327854605594283159027928578793437277,
  73957902740944561308326037259728612421626043004832536873496550937344260305571945607059124751497522192757415883584153474646806508652269130493311185423458367919776831399707704431461676468024741216372551529667827526638694811603246991023558458091937892622263054606803821093615757251752970485698713199075411666019294096949005466764313223298895476220140334668199520813544229502853059037819679179517075614281961568899878670621551919980109974195097275334693138552304220026283000688558199088198332996234081550236874709691567604860589343147614628884045387750331801256187105998426321230498061230753477610211700500343072997619554654387189536481637277381712004449055243886941030975157255358700388811383124134205577834844176748684664059805394681291933250758742586157437826086232213898874046958636939355918235055825715616283616722094460560252881925247595184407491948879943533040189693547416756735633529919836265173407356587160325780542080186756362484013354119183641523239688597357440997192709979350634778645112333463182290375216822048741142707915440017567992657182847118037788105,
  11210025120785427029031976214059955544874107308975456238175173281896318105186996425959991458969981143417710430064796372451776436792681647082582257824955425808804641578631534307079171010044260011177302294109950414326445621115567536603778149970481018841066696902349062340132154858104595820172205510528095549765182819394313318080495635096549542624367479457127198541521804467657814338763617872452528815288263386421826949947962565052446766344120278453394482844725436698922381984680503326008775954382564976465006245674175141759203529230890980453325362180614516405224502827833134740396934846548290363186533521647268045983689253542320036607578811275627712406119152385791788110663990113418128450783839841812823367118376470800015724269167905520883205103394037913478191136247129385537688924156809270247686197706364490766564017474227271696923367335870264708414848490393539765720229774668426407028219190847982241247945316614310054980059052392887667058336885124822061495347109840810441862825548055322346934748149596133427068041169121053360630277921842498216420331065436101517853,
  28447153845902724716628951186199304042323459726439909021353115415232546083299122420424777521947816226903742404774893443981063035771283800954915308084087080366383735099720670545444121302959191774262993951499530723727017041536419652892720372833686032906148152774289623619104832835041406242040700024993922574502461717932940820792835319366526940725594459909980696882882705084439924663257499460079204298644946532397386120417950521242732173806306001178537678716909956899667473413075264316776017223379772449881543410241141375651098179956054667732466147492173103703039398387722702611655487834625787413335456908273853048053273814558563139990129479908060512400968502864706773045920938522393921259355580280504203178221618087406580697305895835889989344635076124741661749755624155799010410308563556343945404626518089815199872499696078070182999180856277154827593218266654059711522252743069775892015653524806416134948450711302737540641958302317732064582232236208532400667186425986562597903923879980189433336548728331745774480693683857312677684405957447096963865965167574948192567,
  37925970097104393452223961584944125667615750177592337084182732297736148715913662958905855903764111538825344391673731985982194663706780179518514116029041960764455470034525143230264792914949486714927007714171177974324896072504843263512081573503575823559391894560611472942827396896938048783016110990218940902027408851588085536576456795140751876863213115009985389056127901440785141837883969799525899524657046806407839328150557151722333976935965845275062384841492677767870398260459268691266896358224532947039146622568228028515614781934535819489451037674620279837317420710085587725985978634035344660416210235720186014310372753074468413012629933508685097091927266734836791840414625178258520417704476129024053361235846599390815227700436562256900427095161805552571921484337895074558983692855087588330341713376251146142907521790170964780818001936818079111426299247288212427320298839301844769076139335259040773283998124400806893900303051795208450494217073756743383108221111105798772971078172509390762116919928587844757451314437465702932713500775691594495595619249896155774434,
  35298064210273855545422897355016004223019907905983477026031232674305443512897580784793569477171171209993367829562602667090146130146815389978683455495222407787756743799423313661005284750281162456329350994608421240169587189986179336345741733865461659567652825027255606872910682899887486653335871434790721555426002400963418350270728191815890940684208093412803510965379014215145591296030602362442606798129017675882699896708947240690210978044738198392575106860569495426646856739079906296452779052989899406897278553046150739489568537958243119207358836625191603251710915923788036920088030871145290434879999481603875705686146050889359363195770046918743555816505525656757696075815257145561742704293386439241284552762528352293741022408308692527726158216355284331881245717053556334819538703934481339886537843911482532945624620840491955970373258430202376327505604210553295939711329635273406281585147632861181054105080664171772089470261840116024160464416895575502629517098958409346043801074164849779454757683025500856624974091222090409127274436598266305647991658265608665782693,
  58475658803652050271139510239450090441690449214529817213127599501468951688324858788266264666257273838099959090133821676908790455022151404298509017703940738966288728032349614452740475093853752849005176255290487707486134390870704269237734441363364080143070498991479098224126800987993475637999528144935980243392952859205025952161372123349811133216850495238408486549045402276290440023311953653209704903111088382526148266612292594608126127863112120667401384680737473859426448395789195266467906220308642773304232043550352471783362463508840787533169156560384323733843391243484918827116559588980621136094780383501051731325038351523817574428493599408049181544987089779666520449567690202634697471677844459524710852049611416669902809363811600936907028842751756725501791626666306130151532145067176003258821518245902534171142297557541829490109380307662079710733464394564042481652659015785290810340586869400502476113122293048471500887439384024466809401383229177787513856130705123257348571898516745838228355938065577179295652234443304398968833332641534115744479900802139275990051,
  88660717665167330588760386702357537008109611396841111867676552704300353827753029948522102931363848369908894274631642533087752872614110911908338302678696061835834304738196623213267356175998351813753026203786794179701281387673024921475248757626418700145341476634226101897310657776173089499699088320514839714492551256083472041322731937943764837165615394155959092012941491686144806310708740402385988034973067873134040563961752863935218724297427246023641126996521768978574040847458816526711953473379492717079903080539035238782526108167857841167296506619886237810999388630959492105611275536481936688457969615646771298602214771720791797341781092165286527497275916937072234235160282265783892383337550225425409707981844708857895521315009096802056465389513969139508657595621907109459064207461541338450484837633831729032552788806468316582564823905206771819026022300832112046908234303167348657043031074814546936712614022978913084700345349618129327221473659630733815288335598959818632269483194201444985968686842250037916208152966777616340177891067586099813622257999843933732890,
  36383069473965399688225009691703840391422711581991816080889956805606267492915588256674665990109327202281346333569994413348309465146086065771958148660537743159556747259495789704846565523739241908696415619071592075476580828568881090209315847184709503977617089154545383513689604163811712377983089888454918187995805328312689960907515161957161138271141331033901748110541676636234174629620572398076556429961981941734457872895339324062020940859369398459915971922421770967514140729676943042214507686568678027754573428919799188494608116436058446192315679488862714941415426283749278494777996102650407391949655741298753437421947541486302447455145966527499205729588352156159643118954168149259569903294484141072796361398642131063763981259049032409498038422380805105130565559654868548781085189294099281441946997069587233922698499619298638099897896465973050138094891822881644664009048528315868437197528977503266153253853492210378164318224791565844870044750552405805403935508387191133532612769582363443121704953545983000916383163557177923138637157409138604351645146468094965923975,
  733516177135855003445384807786934161719106261136784679319555653118956573689543712858660347468181906943155146526081726231303142429900206509767634750865150453521046720943370481163164366936224124545279029384797993356467690162267780294923427410187941629489019372599694117450018461090785294242539798506383574546070160526860432977804358167936617826211022527361404428995551025373344779010698755494712450043961735351400380963700233212681999729400293160753751381806520576956044983541584848580606231033190272054067980676344931695748175050983325178337152284871464194521122562242820459154424135318824903312808580175854397696863182776494242350622233779163849885056263606811052370932208802878618339123124361850822219632452209534711613382750565827925487170480034538340741037400006484031396622667810480263187004866109516379520396055769617722285223871632708889912596994827642494308448102810129854072860107698892331943151936354279086584248592557898601953096292338408210102504006650548541945930197695036991025541232526725079799027538164576509627473925432917009776341953425724046654,
  17094153193610311066691360074753291201235886897175974505658077457385911477112446378099811248634933261056646411158782190940696875451098440801371441905507663060267691194317546832689977117015666147285464153345621555343225014884651423977159161753063706426493592325850186431363810520212064656767676222556142507404495323218500966064080406573588030783039614442244782665001410643934488582775365713536838158567552951657896730870596754071439874248981463765967726925425278613311895263001407323521619391128601672078136651285930209512437250688985402083991602670070529631904389664399868561990967245608199043175785266946738413781911925274110609796604169388491558905717133574916918530794179817659547167104235506749346035575679261546980194211627129322512131860668139640419054814735856351708273531991197979046460452706631989074522137420364828053744958686283371483541771332674101946959601335948560994379510253138773920502993139220082739025758139144454648179722269089089903461086197883088451891718920350009262013278202583266794186019096732053551727113956436606071711386227354156983555,
  86268716787507796844470746966244034022482994628321034923299752797380685304979835766130242700330487246915747705803175508878352782965877940134706978291065362217479374125484935293566576276720953015698256284121394434704415277640165984832450671707092692857579451146199542495404720414281547460006624914351724954433435287080454375638181609726954376691776738559820345052321271612629789482607934658300547909889363178405571888630188161859975848762804658033439959458201723915159283883879426924467205569685140926700398306421386635583787552331591791661307531918863245057373140655989454161718124670308451898511014225876314995230854982878692560893300769571670202653431977640819436033293722516078974199850954262200543831262210055494963517197093444936198630569836253258450090734294585811400394515557607108609170485774085618353462108770339252123343437013342411955206640240792535482371567921835353711522010758841167262010669197230348840025448216529117750811626504629681998832666134685015304438513205578784447837017854614704054690430188905891276025691950556125827887518684725009762354,
  87084810743960393219838345241964284084093173930802767978417730301759627982917616019544656696508503866123597721898072288824059161848484183007103804674868095982963556483577994271795126919835978421764805438117721867838011762336541331886560647131097939380751488387218099100984262307265820149311766525125710042183464004495990508512042409900118744172136552297928884343388420843077237070107162806177495461576247287171740381625000535040600906810530879866346182781794573629344512239391928170042882857584857322398329773522968416516624038839310236709787453765401043550758165134212079522825365603812341888610217022110747134426399672363486714636495896534211370778436694919996247648636082144445490779497203182649020622789809417131504587948170758041416839590315829072993142162704175041450060735173078811900541217948379410527008394657920824806297892263547828316808949555910958954528415375187935367792172126442054844396323500853360969606169842796456190960278949577622324382028854593738552041791614512448770792217050534477426854748964761045167450107840630809156812128320327030015781,
  48986910682910185045747350271343877548578304782891626052503554376781358066306614074952192943429702520915240503117955763244944115411163891626885071185213408018133521057911914527804166878949324517483935719738518100188096238475924888832326892627849767166375539836561387163864762964461200153308154260864927001108405070476942415424163738849073811804357534975064622601237770440238022441318985855325323523163605956260141181746688874144666351225163365868939007846719185982013720688940050560910259614001752418207786856857919623460744379616199718119747235688441584126476907407003101125837270777811924744524155986651343801015606584942821629974269384543004322136336545965641225894899228909234649794470382417756079662127129255424687364167371924226330700144509734915906721721849831738879260727592752357328604716093572902230017379032138145558223229394055775449753064550562008300264895543239861882517255547936306603108772707676456721816425712207659386426228914042973574911732873025849326050598093142262097125968943380457914871038062407672328312729159423949614366927674782845922407,
  11486690384176423827396870291723521491442340337756185321481690051203595091955487585258090821101210972077398974721219904787967948780008243186909535032336490827896911622393219063331854607034726707911601677107150352004026238013630569165191696211040574331688778931077689539128978316143161396445945906937939804447129473502957195842954929935527096049877398024178048120855708925839009978073692033403114597223832048055556454390919949848062705449355333662121930080445155807227287157369713891229257441478738495382217261726587088221472018200636408730774450049261949240937489912110946824275985267780402305624311361337400242320010678394123208979824199757317055652246648118076881319962673698616664017943235999041993108778742237172681520672690394085017475237560397255305804244990373907459834469223104986177231394183807134541383495456514159960638421755708878521028647816164243384616041020096059686823989417367894683466359860548159346960513741812774898134229284886168461776206398080124503486775320517662703897798592536115146153106578340087672191169694471736864230447776278699355587,
  10184599912468070849750364191155788030538883054576700436676638961051173680259161756945369256080568729798511828743224488945484883574649498795212410266087351396019109445266086577929440432338439316901648129503405348365180381488932176790407747805019280990760454621348355674358867496541827223853671609429917288849549280232841225196383246259463819666787545086611279984738563348267632927827118485209402158061286201815916887882292819031180741930130144115502854957966732180318474185655867218302356194311117758130316528912452051432596692389989890245154993628736999169806516366775887647845179114083635406384745747005973610517468349907779528231941505976644560177560987869180997840735122583195757358267610132793736577884109311762435510668423163485917974473180639007495286744903610225302508311399547308789383950967434165371232703936315166762991225031414012003441332258087674077072446927680659269968136791197342328164301808197350149866054083232787151764115181691577879860710763808292498274618901739434770872833310580658087725564930988153212749743516138854673616578683085978009175,
  59678536042850719825074349779503964215759714551968349792966070595508255405461573343440602999370075167127816769091891978509381366879470505071202361085075922450452397584111259368218121433681961318429149298550483027376760725609469889857627668430692589088196351042620911343465267785373887585660665082929096018728836579090378161810104558099245480321535156648408584254675071298969027208538069945831144203284481581587650466323456769499897271244782750130404746706898105937445878592578390145510043364815875678095947622932830344892339723780858797690957344258583709558459572962838812826056253381164226339029876492853528481496855161323867166524769017729460805266616282729206838136989463911372428942540622059867003385998666738626863633909202440429188701178154331636163842572341784608658033729390914286340560725756197166598833395223545372595563633317341148603866976403037342664954703021200350551703927809096395664698297330786346982950668027952196287325450817644426913146329721287497723915063538721122825973964145076190104354467239619889713830705200847920590569024911534951448255,
  26441778359540914454855989907047458613696579285016037456291046236116573066764570440250770410751855216155677070975753490865286496984655751461263451632323697334650433395017569584940223115545606643420585359479849141696387549905549615494061878025958141277670520873050209472820618271344371769241420798003584495413558554644205336977166457513596078993767717747323781189113109706568508040143895995249541057661876354865383405790055159728007918919332545246737737505308728350215357540339331259192958998096456452118208526344399307955873111696147212597175736940263688220233048982638597227391294683235496609622030277788006564558523990144116391157988363121485765469605253692369802293744683661083469289759487414869585493544441724611792455832644627398971315532320657304311381630113341663583807805759343465467445625701602773135061497538975524713113828391038387470221899298143814834151502276738355572749747034475765258950012526107681972947337518102321507205622192789876581330190341848578427718690455814666813745402369485554213809784350576376916588580362618188401725574228735883503217,
  89837044938882250070596355528316036812106326257274016983123604517398647211683970682476335449236027940955467917915889335491574278985994451151317904471170737269400972435558126160682178424446063640800251908935037567772798810781944809794371658644945029719214658778739984002884120328094982708308777215196585964392579373163015914185308343763689647074941129189955465662254758820622695311488160390431656583309875698791525552063203850109876803404633463030439716176510186894094522558286365118942233879008761970694492969567524713186971088506143236223952232671862171604692303207599016553871968826469094666718857424080087452916305795298432814195074435284260140417496198525493954591786306408494434385828257336232732309003339655929380733932665381686335111425446289009550527858031475068586525790613866722318728979002833638170475669711078832966700048970969926787607262865509065172926379995929155795394746332705676508368315700941669735834492821437909647637756411684269411300003745036543770722771233983780867124714215973102345837065218908718480072445310720401656938834649638413559140,
  15715059382958877910486871847630091206383525918733925904922997033280603131695965955673626111361817197870724349476551520932277350825152327176145087204021366172432781917530513621732149777782953911261537426292208533203004178834426226094554058522246603587753273566536939941749349846421906279883076262193342346392673373147172714045364012969102188511316027366671718993602851935797591421817086905618918303603583124624999768650023678426762744811243060052932442858531680477103389951109524829811925617676497405156058672288182942649346969274593299044858253518196833025294480999913900597101231347365126812176994553361055637433946336317143240369966584146477366219502904285806585217418628259993015214608438911077300176784248202636512711294541121304430630407069971898721822256980641787837311408184831643478658347008951061583259845539820600181117113764965075796186092346705398057616688982933138225220352736067966394851087688547952163070948803425987137934215837914740125023389891079526234062363320654712778194427940283668286931268460933385994238612556852295287868017376818583093826,
  44967946301673709967989593187593106860568605400014243257435792505415100286633469066914729927720124522696413335386165270177216124792446103033803752427298901531233930397458230043469868753890524002887487412245964811428540290437323170365175161604591284435178321910772301470743623310715919594595805854040884257931188785740641032099380757862566745164377827178590770043335145439919761542679634921532303305062532440681740132264523868437463280419079823569354698739092825047002969734553717760858725815620118989566381420513760314111152717472639204793890508814242033653603643254359515958572498877773830254802993756508844860125719146654556258101287675840666018571909647269339631082341449210969575231790190710293864212706173065012705765672424207844501396119812620199718291713551750256256259490846542282844835327768990079039676424017305442958357961105364237526815209122981844566774081942596640596217314295724961222464471794208106146544048457641085494581563075669750412959940346500062985067413497920872329584259068487719978191682427966850533943139093561590996382209000862243457617,
  96590999856209681775323905286043200640102876134734382848947182661652886707340836371777249787432701857915643168178830410240469174911233831126569127653069454882569589524818813188602722422789934442271309432681905863002784004874135692603372274088936025652294101138253746959572782849714324655683684576289213467495299012331911251267710758274608659453318546888474676696468762938752324250095192738949579475067716389604213011123773996041912578589160790997616586914943951783742547127741333924120947683017086402104058359640889718364385200027523757891432618988494100308415569951980812560934986202272285340643537567569072313631212120884094510441233781446843285251736642915669746652274095921663275019051164333068446373247831517583586599075188724199178413076253694113750913661382015812102911502143652161162608959890489641303891443054664783875913640358214721864346491785589416420699415660595056067391209170268900556169389254559123412910043719817862870991582994719308566164777316321418498990139716488786690927009160978128254067789529929466411789023825617205025278937802973502390158,
  67242607071938480065123832641044919931320766731592228378110536495679367839786483508916191694540519050350271674220149666122226539520150559331409981198288445203899249184521735611999352810644158655860733475375567468343160010432046022452065712898943153178345606878888191093282890396167436811815317809103102255422303175535141326782640824400942630480980232734635437901246388076538108043305143016581298047644828069894447121690270671980971836656219679429777860339943720159200836515447415950096278910846167763203691173610901599705692068267468915339092653974859254580447089516741914090761019847012565139697482914755238336025477113514827086517452193103400681624463974688410932435768030404625136436288299599402305957422200448956847075148897368275534229962597473449590717962628174624206058868443854768466457151989967303974168036453934957670897169531092348681621708078804747475868799276593521745893171581834878999066792475706665317308122340426863912238699807336870838906264005341566904106183020374941550168990446377356371293992335370576860290831232461173470045209128875527359040,
  96486084134910018619859972445437643580397674005213958520704047617510732313103120129506784886153332503862562030386208561256910471959863314761248342861106406598435590969827949361712655225062630454651673693394675724530004430808431474539551750816997296332265780142861056421039291598973628486203578699310197014181566764239610565816051846641420190932568343321335981686437898017236369721493899082395646069798285007400648578004489663030692689855932081878425784716619609676460466435860498719723235092535326387047208922992007800048755252780225496894425609220625963524524829927857849662863334514956130057879516214928479447942287892682667550795116957723523146681358319734801417948209025112957430515612652070292724397215105083634100646850827350717001183861099311897621457311117098329705470614574696539492765028063772024498080034084767003413700144267114774074683211993431888218798859416473493823247407313122948778855225691509295728054187799271500322188958609075858607425279202256976032571032945319309406091486815393704983829195921734942254275290183109235498483392848316983571696,
  75785381562656591003392467685374480145759280087008556035588127792718539469526436716319859873227633976066958176203749971821194379155643257141259182779523696356661365717483280308986948255030252740338900310180800725930365702903462383781237927040491903737606346764815417725693160242891101740450318083539134534132098809210373427043009236904649883049606669327848358891615005133709915564957541974217238003453075283198253150520296229733461526016645163203557422361730832780315332515579667880892450784638830469767514366397073839189425642098461678364869020333054659887380021379121644530190970604447759644068553198111077601353149928020468960949615121338178569056866229801276715259923932974334015868003843110972494791044982785298569378080953367535358221804570645147974105884201190032317269044569422162326088604865182901797509661727392446725856244094284089631880708588077204021419009301065756617887817582630814520863974757778123471343618442393106276414229466021485624345013193584973507246244266752039879599177854752885569220806158475211185966233121186790931963481595776386682450,
  60772268559865932947224947090319547759391161283860597883730100092832523990829240705229525133313197582597889610585627574505288625927126574008035182093977332194013383043878101054100130063857059073842061422507762531729725673737178307086384805375089618315911474383017441106447744282158176525278776059391631106615448395555592919264955422589032882447360123627721872587400242070600882973683294846055328837062379894462600321074390036528675954061905906070365444646416019384050832316140842032847844379263697787413859179467517115160214491841953126024526792592450093236688559544298432042036210194955658859072844272550719142964748417059143920521564739761034749130427551510068962678521324825216760744986033554290164583918151556854810432488826540955520353693262312004990982101753973445017910958130146878155982163346503101660240258638841327173807784591801488960607032610317418932140858334487979725677503706542499175915743726395448843731425548084559012214332195460981988339794134668726597779440857471202980732982546709403075548279765578249930451460918350901419372463733213665629021,
  97221264226479702078310611743829541625714081608201391917048427880052677453077933368887644271344116685227144734073561031079572795493543232510551226153179035930104534547123724316429376700402253440392998665405303728643855318074093146951151400999947798024002621584379203216297811382481748330478659151779353217850577277767457086310441278577321512555548986712349497286334371662663679725239680942606168718201376841976774798938220129920100823873437029931112688039278478101949501715506129760746377258745054031450330004968290338558370845858429128019108181714599460903558952111872238596309654902951684076395836668421507607451683077407415209163762877820593893460969216742872471033870365132892566796634521732540755744071707655615828692104340996880912277443773771950464102037508386620454489154129159057101081694259600112941355399355307176088374242059484384225915642915762131181762218842361349624053171289810248770261478384255687429951999373273929727379956247650561860786050868582858667948196616755220197779518723377843407300863688143098430370656893046263904408147977618772830458,
  93591373172671821871962055002824164871057190107713643466497814075064357969137643644222010157557845872868058841827754250871460536220291734102916618622266701720364030156403766138175757134708400301496787612608716690338250298443398420524035723699122562841457200112582166703574736744076292318459992553156022810728928059295783943100004690304023778427716736625752471314019784313838153489198982144438996119618017860863397708981657894100807828714135859231225354706833770986967043651837084288052043910836938217463131982428779842014371967213315880952955152588905474826812579412598728960296316962175693741523197170413869171111931162773395362256138048915710207487282961498457579231523710714576732647612888088626206709427725200150787896624076743337827250152093538874432944015565525996270707748449836750603614353598598010400781593999974574265907216643913586488312405964324475433491396171333850213817558184409223566605207590974054308399995375980397801416381310606580122159093211937361264450301787482464461239832165796966444007379386620503716481754452933564691304225397510298374204,
  19453378130004885984551635738091690011159691048635574069818583732729877925987650273021138574483186854747596891235744236575820389078216570541717184035300204621749100899005805995029244834075446426306030792093271632774951732902767784464607234675238436955618849437869680285803394997194123279371131807725414792324494288461997350388113199254254841616342159533056714071725696377620278654174208447508690784161076304493710126823085569176191330695401942545556892485068851630616615352594729831676735958833567833941666669635041906544266303975762945115968225328490732726355958897903699281333072589116424163172476980308904637262708235722627282918410523108888166618787374877295432236615174859163236459594595584916392378269507812531260013191584237817030877874323187908592164817964313639922482314117037023599102997715762116867446580752887252469358684254572426687947372091682785577202040274826777334242216194090529903056147254990678340354907380390911634019837334561054188974466294705583894731052784286980806490269641423706461119618624849934608521067302831252702680532944886061640230,
  17539408619065559125123660809939312324663519510970888437309945346789904591796532370471982485822899659906697119842075317482037066461803120897216030791751295414585675780388588567265500801293982214602684680921147571939048422353382648574293229105515218132314008673403961563702651904344614990150814913330130360936755860991687590567388105551548882207068189041510734023198083532473064102301497517273648100565586273563782525008717555221544066810944479776681522710262754703942993586551062942662700089516033843840938683096913686251362195774900592880942973715266013935524959469133083271370310180778738596274263441380875183753740970788669801384430686145050065550016828712411851058642463925709603201271363307621929765879682373839296334254267590207768142567145336155707207793866807582169568286130238157989405716684809086464934398080143577587833964312685723686899052550463502070961340443375846207520714644724528565045934385239946927653550318715273266407730494408559172282587271321395292016959694840892747909602644788121421052891044937594828628755809009890910420835989607270090923,
  73120469248731175246695971108483741354116769373199285460482020453335870031807448846840959232648120872380168812394511198844828295572464309003969445841927113813493535023168719205536866684338630775597316971043779130898869909503264889426823119557510883653887099150068292922995863584558127295925149805600209209162910080186470407916173939061032530498295141671365846510381105817518417887018638597685475233291208676530562369132228346460566634404221590227233454573776568870299212293053253970890127411597864752743608494701926992527899586784646228077287199601804412270955676735099765465453343286398810261364393407626441013830443856145689885164702186228881178922569560359575800029992866242986746210889284018791481613415854866910233174065026051597247623272053545696638773066032916043390873417291463667791078339463291602506729167758328405219821089127076820865858764346815007492251914500894888400469007914267025945990941598562503961677282797134829917399609908845650787132444926107546160134185205343587487266162775569041055955268794070139222475759406358079818683033676988791502731,
  56911036892998406487350102559238160913381577482259355969264629066452455878136930122341102556455411717980426181995365847463466476970411587791868622097141078263698862702925686668348110364807908902088283312318751985365507377698722457915639830441958324832398192823110200887796642255363869797187866744841753456639104373741630427787162858621528421572064652606478955583687256400535516953508574023118502566927869178966906738021390834815582474914979410606210580764193749237004271310782301191695883349905173015751975353732945434641319714604888108020193369821360086825889695700387505431646652356169363156398284604434710047587069280695430657970564769952170353353821651582087684869551954991250996762060079543935873474641739219377713029770449577958277960287400782922920305528694533465940100917490929777376715927515669118368254655135858084345129378992129519445397208176656707297570191516390075381521804338049901054846257344310968479864812729387828799664722091982419124805149481698614245886667745547312652139502973221067565519885079809186839925999533605784896842558429167708480993,
  92970352400200699327261542701646041711977527630643251167491025973838810977682191330039317231343457211790484348444798988313080289660166971032939893183134378914636057701065668392936983579647278503860243588424151401435895295435029158457214368203212817857375003807038514628499172928374384232438198990664838560707892450378184081277730786517974144069815532147376360186784602052587230873859896352031476275345191169307871364070803494939091760969869352217679445531463237120364627410123893618002988340782353610448792853581524363808447790859914347294301225054198490790328997488141521223286952023780401363523455438464744900067511659763503628500695648050174884402560701855447390305663195020272019069101851612513980796213514916732876821984779504247201937948492681447379659843230853131760614158038204856676823845644687901936758821477572965058389418059701128688324161105951119516100969418890711815469216713825969175278513856164183584809784426286791670849115992205659081194135180413841033100174153685236040621368626792749631089414778365012534636821494387812200363809146944697621585]

def rows14 : List Nat := [
  12858926954939274292835145221492944701183769049941873348670602112251612935135907402942104330288742407231454837352425008578510657803542167828416547741393327694812865896415611333850936461129778309371427376139106471522333708120195160069455545147800565200353515762728237671713484790553295425617674267112580032713518838978701627334241821433161137475804565594108334094702875741029835720891964409340072448812807539812113477600957388908137662150144685444242376846635594691912435832930709697304344587037766467514181619447266426562156718611615386089809424126665001719618129646587469505137879306498577854961523870189854719347332818480245209189539098859913880997271548614811477326691864217897615094413721701991023689354235550344195968932106332831234286116506737337887484080205744858976698622683124061675791786813662232908514278141269300867092885499990773661604675588809254113968876382992634798634270657339653215674832763977605160275013580036684269915859096313939936986227635457279138304211473305129943328555719415921776684919084448095675778082127387241042094632084272932254762,
  89557579303186480636282798001916624301505164836492435944157020482370253453894165155812608196207500957596062427483486705402583710122424311475772064099508490430235056123641716176023450594128960326987429429881826961361219718141339111892077276330943347645418256504788481193272600810060303864775738621784307461520653400690334251507660489080805529375599338974948564694766747783365448724498117127969183691367062647275013647027107347694462437693758245995486313430949524247708598610178968717976586602883626647183737285203596362198141449597422839595773152927056367153586789631817045225695510749082357568626376132980643220099293233929159644044189610772188164502096447146491719433800858274145999767496719086238348573501749755801758117382129537131163469487279626734681881909574821480765723798179886830513689277971586161972984431381016494297026387083409094246187885354637430802966032574618405872560710826972504206478367118803737936617823389016847738719249119534244510056760360655857575230315967490345572678690222427589618061537015202983068795547231779245187463092772096726313537,
  17011633692120495504272158433460702326007874605722905577804715252871606915853636132337114130499618095987300753406937051796885200674400972102094509348205648122696645848506855670619945839990000029590222143303235218171405775551796465982308338235952682980344692033791262733399593565419365890486794922683903833707073209551473127763236557156757103623885500359405803933943309816809890190206183904786312591974206055303942501714729487113280963123030221874371119557118961567452873424449149687278526248998454294875565888467064106401434089346564336746203327338379767710037865590288577890640133864810965713658318592304043146876034234483648768890880906974786136608599729592643823377679264594228980108542712223837384102778550266986017508976340398483802402496250498566701909259859020789011784532711377495288174951364836115319445463355315679521506133900947525889182449382218596002537989364951990363535566061543564102347671651438429216578343559253357849876675660396342207905878094571193111230648715977187152331926695076277399378084726974462631001481170424712756187537258763938994758,
  30620189318562666933295460155232903183205213881690022239651457747692165386505025900343192147664730213803007246104698621775920412276943214616383063265573768458524467784277858110260897628711432079844633772815252704143635435488537874433595169469841958360006659502119091951332258966388259370967852890743960080774639501315197094068452652371261618323573104285789066709805722337830016082270749319459283786271506902140384706182014547055984283120240028059604825140097523811729376940472654902431643412347595991414137362689705917189272727903074202141183659338218618396607334261131608332798761656168225857569310084338966153298079403961140202871690770586021055561523680017814408895566508464271517258603801442241098062635218137349096186263236799347220871997580464096731713564859977056788400605987451199436957760151354395576565012015965779478189420504414033090714549370266672491650067001537373911427805503133339071378350881966236398277245880880604075113010604334904356118140960088901665777892413785229424124611569527577547213204746651060118092129013162329760305104017985277411642,
  72431669861252316624834454291989833086429080970498968502855294811910360692895901086296221516251600033863600794255082009998902262082165974088680849726201263637558624281742957879185070131360610331700123538061925042127930079906840157300823734646398977354138357117859636644703711572998422965213137683169196065607273217825306926433596069380929606041965730438200410734033370399851932294994221860158660603439537843831521288740472880295517489198276299571987220613915298972504544375656441703853933047591164873656986741807735653482115906205620591731600375675769791779139161464026587974368815217899047827025727072892976868566262537891820106569026932403117312521818656520450458540943802467213152099041859181292133606634263684721584961679338411929846138718317210992737068037978207540211933160990463910894770760466331077445456840965733785186430790922373136296265024776575325623368759276045772539787301088470254556912631651400745733336495560866950360302961572781015371753127413778505483551036936800521398820807350546986609833643159395538882357581167721343089635244999290367323427,
  84938797049559316505605339403724677036334840123752913331387735009456685062037797300611313926931822261434091740488160222696604621721015930258249834597639026015965868136284138728120924825689191108344395213497858389142327599716784421653017777810544228093021451678361482170831631118601307814655851810527158259832537663224652486341478173089324747474474944776572660166398765142133116772265845267950271703629228696139920586824860576069986492982783875405704813965583840656817065162393033466856901897700578055359595892382234388743252905091855843970875862432985120047806158897222491576696458558984038770951055591604762163867855390560645873435677431261679247873793365142857318796701730435527893781676184632984872142679904335551520013152123281030584892332738968328807555949342621575998892356702353446284936713633103076206587923953632342654197103798381201091053774364538561850564777643180776962415401491543404518098923328918721471554740653978060659041908468129464796389246032644426003913149807690544133158077168975636680975609802096010198623010734021713366954838828044594078121,
  85929824317136893136244091078018052257088266962154212506642129204061605273028282661789056887533256478526307200172341501614674477927283364170973998198760182139715536863282691525832959983703435398009135241887135466158149912329404609655405540799310768244758229953480294347610461994883055885235341739060707865607316698285355635601353003303201341453136661778416196869942157947392506895746556863418908887393230319191923561687198191020916611508438128445305962092664228076176240077503630502669582270664861260594399914563661702728787131682759217860370003953881590700407368186819628579372506561905244580973873577835394174779628640007147220087405809721520121780572579713198342069802700379374393725271849748527427068621515307863534728235191198180799010993673684053339619028046991512317475643957926159440445610830791448631389130904008741842431133212527449291772300799037394773871154358541086225042497724584671841116798390872190737511916500216126295146149874855897139455127884979347894624494034413169491194995930390729750231036413148951764359720403763974148420933210210988634263,
  59819154868442484340622615972338171425717260148386925021328959983092837136874907946331560931586093133408219390906082077177398771307367880021636823848061394868745465758561738341809044199591584679611352763370128523804246943076576905537683676837907305051135874834537081552854050151821438122185838651616121676930587962686423312012562241383556777415986492252310743490612412703058090060049541228755629157765672211081611838859648845624406388809232794763060119962972805117027460365842844701826501731514167211901685269879860120293243335313701948630456005265574892777833870018811600168135521651015160675009381566338525066231355955667955760033779366400483365157302200645436822593989004450338766890986145825631813405415911343214559330024287956896991598789704428820482722336554765222105992788506699120967635321323143390163322682414852939650523039015700045337118829387093884746096553277106205033858707342686358905089084102472286409264315204824936183234239576205569400202573156917434215352096786478746872339933175270430594172917219325960537897442475770196554729687972443916867200,
  21050333604144760708500507747661951000511511269934335053159452026705263109053905530884254501520656106265594065486508674438667245175487412750272077120446111714244357235047725317164018266315690235621857457744734878869072355986312033657738002649229314559645435317130063792190837144178774434490640723009088761776820465913917201035078613483671320225928811927917992265630843941186165869867993280832277978132798640565000709418440843264110550513099586130753144258749956676854097861776843479376571003520052155230186651514530494650611437659273598576331201859580443731045506546540228425363133885457891419471182218899379870897184174256049189268815937535210272139199895666965330070360609181848321947315192879785480024435881503483211601618533936564793950953838433251960467071847435180386365994777548059152134028560349761742100805012662091707619019192760815858179860821294023614494222364589005987113743433748579005765561711831541338096121237993938840249765178077929212287938379358815155742076258929376113532243283508498957611913959351563281293739744617993594683597385545999494652,
  49416161901764352566481906718278975442916266155612713722485927535210981868390456167920522126787523859277948738444685825507411469717918704848855781695037674391136634464803426953397404091668713609639328779741052451125017797781895630253573633623714450018267609015880836356365288077762325228528195652097147493297612348014934679467778605621733474142385207699303059017685333103022614273617884104779498171903287517530207338996752912792622223939958508166758925938289923281343126111346240867048084169541371244031552010339272903595409044484308071851602131704607189327356172739669065152733939172333526113654074697261265256276574557824665787191160608055703710308578980829628797842077017705917059487936688772678268611377042088973818370813466033973924265258171600234245795138850881946632514566360341644737911101232674750405751720028052115765625802459286849422870988995788564710239994704894249861822930922599809202995365858271638458641500058966627638936134634971577251699882985570137905623359284734645214452635355134252150774064982450913853887796469762012706406597031175759696268,
  67485634264225242735066534611967778077861266712269765584033665232781730604309829306218419162855397452335790278169141420111626482241336458048062141605681892443816526979401446698300156501369211604995654991104987936530853531333941051596738019112885075386748117531170631763597278273966759782289745290929836667344283565299487240515384489239125875911717067547345985960595170469838549897754466421627636826037175526826217987441415874174726634310513958760222901836073040878763311886731991666292119676487093402142840333804181366316828260072378739097930301245285381662356415886995855371185021219211186053190141758122541491680916689126806831123666118383823938478838952988462978226401763317509267097172348654431762050930814279943452268453000081791145813329126628697794209839930222498931025871411672270177897645860379032312756624092224675753428856533510026118874998975935840629019541162729672526434947661276506381802396375380029320646745395130442240955738207533242731077671189645850977567240702631400484705120798580213079700220167305530965813744674063311147078824040935713640192,
  48439614499233615625731679180186251951678340706519819238161157953390938395103945782282815012714644848424919479796470878141677808029388306127761834041832161146099608267733980303754461131307181662574299180010311993438996613833356455450811831309946291276695020373763914370580873448628794507416584395610987419241692085805720616370706235787073554662417428924224014158431765461890162997241284568530197294675443343161367902189409020979485241763199361439377455551855474110640078715280545723125711980953852629235786496798059983745964675884550338396255920114236374068406349374608486439524433434215715510225500698571704013184357521653644599827029987922335159929261206319542731177310153115402376933860003511148829118943062336451535236414785653028365734180663643587467206745875739197775343284544129052950466176232086257751115506914003407644379216513191313716246401008795021921440785473017131529563007767118979289304183071992487657133763228949788654525558633070733037307058435210129860890244278480562391594968731146872370758653177514548554186140429024134614945376780365082316952,
  16503605352397494892001332106560516665972685874656621964051241015269400305321975005162112016703386719502716259002925419008767898179264597769424983218228759289229314963244464642766585634707655443471140173846897326850277754724995534791830560729722366433583312722041363228878214617556389168620705791364179895232494720622562024032985037868792520357578451852913083223464323837236764539138251885220208425265411390280748431059195652553994983348852652959685808610100213182835824956926277194285486385577269770630503226066675653783091693678621039689327307788990260624107599060259610304673046401698154055353629068946806807286520014867612102951783695302827004208023472914857134811113371035026170974378785671442801502933637163071676973492024771898997560535445975845307997116285284477559866082912328529100595607496779125655639367224983187532363591654085542243144812792080230563335749218996944363469131938236139445325012130429777003187666458434031642959647661068508049304589592303219840808278157202729565251230003006676878116649650586329569408425944585162857373923356519258503572,
  35238448826435553596074300045646515842353836068106514467414410018896689589625223573001183170066194168556046760505006068577713665034540769695767462530997128498403018746857930227053366059934469527075560280304319429805231064942356752705980818695692085008073959469024649272077186412319040857902755610448135404817372025332931025309075445911816626015521365761928038934315405658647190726138468676529602195783053484673511934770660240062076006544192848056139507901633352596522929210239665447776601990325534997530657535878595369048515438239295907267922835215460559669340630334227066091317618548630029147548617498066801552105210731203826655306078844198933288877997222031341489865172143802455359161464112014952168697910023507004131262638340927714090972304785839625081760765694040139558355153881365152148433878193466231511946329939204838110065954794115032943309269456260256623449122134247394951812737018470123089237714644409232043790250664727021389722820277612389208781236052428750168400456718639493441009788002412486802235233713696220484390437831000616930782548879023218151594,
  25920487315698619883646192767152468086976087981622872728931480713067781311752442118192254099073623612372102943876047923876226394070130700617995349614594312053022356723068597329589814289504321237181598352366906445889427342915546939350122222439908239316424865570678421315022865773920233605283692880582902145369764410966520506693468591977349166472842271671950028682502933571503118361649579861035780655664843028162277768288228468050184354837078620340823090069744211330262500931579977826825987060606021841652739475630949694423339735879380019841522527530354970429072641827506792502131229546878936403958297944246955911898891812526920509226569838334121092503161644615446866921064848240346667022646136657722882799492980061394789859805567012105239737602179149900713479580859654660564253522402060678540748436757192495123095459964072587724030747608912889944548337726645352141328809315655291343666424405231723903859101881285848089664226571057459518216401201926802010902709247729892128977304939694969736738390532536811425061719119769579312029449746261422766741179968146986940698,
  7914829570921015461221774436244424561529048281988245493973383565867940585891006285216524199466651635466621745010924997645149633294763139205795918548277280433467281506786723850169907396791136791543452183087981858615127066042680627243053715893533999791313392326606570308871039872599365005677636466491138359073578251363251761544263613397404017085683976147293196377082067953276435035261835680510922319501044244904235944919340283761263711393400272254329108061245273149945908837051380341070288360920055687662244740124539918269779862300645737665263620383671984880694279470420599604875517312327344154007734014513212275293703228547510090956092551163112576042847849053580874711847771051763929544271198802449451968679912245724864695128191396153367471046936305673626141446287667827966911145245665812989693100358125370243876849543385298936431630610768320518217556568297994309567709440264118225035413028875678116542869284120547860043373555373293867754803366556578956970871070024821296342072700677682544507954022001365247401471245838108295727561683310037270187325938667278818501,
  50827691497021954024079714575359772111618215447827810191466173887023749338233496429364873382365990772070645271533937906777008547511243911651178165949561881281021278533973410829630507277597256650736179848752944047552202379980245057958516459549183477097850455323366141197758369648555006778226234164678941140645897666668234245882782935547359757905979669684607985938285790383540885468916385163472552018217944331436277831768260945725674065268062621365863039849419383024265077803591610621584279559171284608127742464782763121347060592207421014549235180440742466178039806135778901343964853588085265032979461067396601084782105003950341039506119015555223184169703609118664470850004137175580225968102920050154745690781837241807947614168280842623773653337652472595103860776788826534253587135608058267188662306219871560311359956928122212278630113588498188952854706116224086351437234719198450649163672586083436119107741454684952082727025773141612214381927518172953340707714804369556196436176680997680899978580890647775349871656750249962590106524506519035723505783095455393314378,
  28953931330700832195812884065312962728417737899485016834495765609894934313703407205236645771059984253362654084785865368566543896126249146638769659745758854345700703193203404762328685897638561368409641510005230763333529911133437512428938598465177637002541457522670191035034190701618027208375766974970589717728962453167393014683792433668009439053002646964451504964624836722449932486004568754615711786203031370671521901374798616900298085961380159478959767590860939901387812807607711162778415508352821668414143906033431900433198046669247977158249123915939079709473977312659160956625471495068482493181819436983040092166580651670234873335344431251548633407081455279391313946902999093784225824172439794274748951007943163271673922205281804182842905283466364526803532021064351095983986720937857241740934644161271642013906157709049497451514987118907771463332121575795786906251980236866372735458752771331189316589316444682750758448009182687367775819177135676561543906797427503207060743121359532109627323931928244932944136251002230904999122762304426983663839882798992280570698,
  92266053568157377363376699073613077761970644411343583127320958140420391958095995370891519579704645188950562329197559620685701755087371930870139918645917048418741497920925770994467740977906333660009497066148207022097000748092853863268620926174612174483159181307190070784375240191558726052131804658040674710261019190477114676952598392025278893985259632983779900471997512855431683574786377208236181148307707492604373144998609379710158328100891122968553102469448335010289042838543790920730721617695844711662916440251816878663635078049711883815691013171349365217428873254714047032804528642169480084017881915673833857244172511866161955338041489342061605323749436066922886297241532689762100425459902269896989570365555883933172905449785736944511146171213977816712867594873560247052099648851298358966998128794268529385797133222614942517181122666537320854204706719493034341301549236471841821001048914045251409646659454078905883537281606600626924656184985390680848548304465208284325963699067800973792114255910153813053579803379122160062247892835143029456697422633865929257857,
  47971544628864352865738006362505194105272017531823348096242455242941161443745746251611459387640358749326715205067984539199128382613536634304402441674085091576939151256833032167187671081593843443998603489319748669874437002897432085615684168167506072663050969557615802806105822442733303669981797029468054422193975415678161780567593106259365763784129157895097664919593241491619537107943001142387109000522018116235711275251098203091396397140209082376655793875863268570578208335620462025429981177990746548109633945695011820247493463921107937402938717274353407209239776125667880936476762508939498371704840769266225571414136495196274954223250557807682759890294518893154375079236156125048089605508051655194801944689652439531347296060183418739765353329390998567182393775192982976419165333302725780765649445178818611294122777225936950070626106556846094050386591190281092498019508347184263396144296192147452694588103029749590855143984829465214691691289409435781236171003032428124972864597613635785310264037589497097626621228241484529506663891012779086677429445350968926597697,
  41286762657097265975959957892262847299918734677906115671802879023081030202231777733475880879693863135113417598071120572891686475360303888304421977567517277229679837256776915788670804920758056467613704486661325817708701083484319002288344751594854024931782056414003100828091160521729263874208371081940735618017929891538611748742390851598229807986415727434981419426641810460660798260632776758831903935947442866178046272784135525602633439916389872416115152115408626327856678721328640219153754724406676950321965922168467352526889072757931542123068545623645769959957935242086408196573653893682063855295378838829972338630639195451419874649630359689997656339393529821781330967764550364013274639214987178935008139018299541318709036594417514012426971880756666091708257584137499800026356955684172550508091314624784276912959337504221430454181269678632991906354771341600339139880340161053706096783262961821087365734424215488641540813869845002504548048553506686360659814071313897277926471051795647996957496189904973820368769369260196388465699506781147753371150872588287643166790,
  2743521475843911702859331333704804365241206140380569014184871270958234290321376376127939807647554472675426576535030933520927352493417050535561908584169588086753330837436155249866832969984629917312217336443394653393025190445609095333620427486344827339794542740272985790613539330063348946367222483506494141436831442615741231323944706680852159680029991734149241669716743123900859367202610391906725607304548959240526299074226766812976328399072511247614241532624374559054163754760396700076601385537991138036643585897430948007724658665957317136535554098719386136343903733698347006240255506700583970823048411357138988434050166030301546639610727093970760297694545241185250892345923253111929006301246272778560133787153124839867529449434850083967050361253962886374417606535669798275059599156520361834684154394259925559924751065357357396464531494012282404713397624725065083080358300418067371820967005402005786217832644573190470033008184940875917382339511765769553423324430668676925511868622384410911017036062504065483473459278782968274128225146736923117799465424821638818128,
  50204534048879290411124487692534510453402459955827392357040249419067034178130784701220141385621779156102588388659410449262014329959009659422519695360438228054148476254243010615661459214456417942766374114686662375593811308812987658618155226807134848192432846175250197078705933990481451355847257370606528499547956240015651948839166383112085459392519859324336561479215085515617612083802948427404179116043179236494965684832940771065830722120983674396607152950745639625597754279092277006091742467351575028531616276235239256054843594869861959424851686125036936764519317166856498545217518391248155364035223954233292649467335315794562416779608438773922194930167598662761944040465083777473076512395679222293072577538529242207710425437163069122590319814395704094275063529617620583457733210344580832481957376415732041564145484793156491636598157662399666915280923960307630786605112309074398150497900124717874652511492718292098256447216377811304945825123044221465655775344925067274743829459688560993982463053741261658117630667354154079997183685764895836574137122351948693149631,
  70900766197722487407921834509170089850103692503524188575713848990057549855889971894580625632388541433894597799942625625868764968883798515210143415978305660255553598222508863170007318497750056631656457556441010379947942937395915459476444709751480676223384980746997497785405227568515757189506082102976954711740352819222474517419361694031549462120974594958561321467017607192179701692726330981314488760699450346526205273418171069645414188859683376448043713810669824202073413229807507384439152684623407613936356862207355157086088509645649022184584797007478693606536966423119990398458038645297846514226556115589123519492521242858538357920989699311115243850240769683255439981996591944501704924279711863518103450799676163297947706047156533012241835424881092229135272021011935313503189907275226786143548076734838519992881373451028025563640499759710802251930221369432611174756670319431432091062781606406917825223440466435939934872341166446831678555472628927407859721398856084821181524840077111829776420274820716860433860067375747294681695101726106380847579148903168496633385,
  80203943215156369654701505328718368788544961622194496027306796995583757378426697567594922041689329350125484131464273465473941239860311247544201846777732771151416348255240370486193610991226623286539080436737458749774914121615922189161979805115744221517308065784231352121383456063188281250845796669947357053979596229379815174640907158631366906275430490342876038132828584143422069471624905740061320603817147830572617511290516563027110832699247731878870754547663394662991399645740775387618399562766913986174857529481639418203370922186072821783230936421305112484343641718734150671069845835371387550004935394354831099208093561669494397353884684529816554811726300598321839009837773726877372037987999888611165949957846886347840251289642049829934337173252528282412403920288696815458547262598536698027683442450687369688009096011414316204566918171162385758097437072349020731555097570705360566853079164724126507254817653898465913141540098370432326504921428957299996400257949083284805937743683293480500643650758433485055438897751088664023520386911435915956485549792371397123687,
  38075917310983365983398187780053011000942841687001289568298298451035995731622108010097782732461627803187396054540906913979469990797319486155117768237939508920914677045468447855572086897662268657201945783496199190230935187744840921693617922960598022075820618779652401411968866589334256919765285906979728908441154131939457443195376731093604329976418435657520666959296510257736793261286016077229746671058317564573601315333979571308929509565541945548230369192999235168201619474588629005464138847270278244519790348229304124693054285597026552302641193268185662166922073160955636854032654830072062308278374627858738156117473578849190587191612412726617998539786349549167918386695601723370717568271519538797229694640330108073759481039845441014273432804353884052574417485756674671809650655171693113758641899938516054718558617030160311496771127941886204336095759411832528795861943440296074737642049078787663209859416511074702575122315556577060959975218017489656692851131488787823855284315204102171717838719069821380394263659518374951627833770395541955723273746182926876878348,
  82358251379263764120065169182989973776022380747756740578175889757206840275823807997595974630562097496825587542925863754524382470157092078954413796328068825556554503397928705084091829358505870556539433105953211497460065435900578034325865577389012136437343880361895681977337524746997956955514536449783860204029865368936378353780612613072272434832493236534723484176738685244540740271342006805387752999523884310485976147047352751826568950502333395161506541098717150750314336975519500998211102164942966343383200183458453607416307818942903482146780222026064145467917589437823017897964432389978071051842719507141951557316295795571978568641581464437694733187754260321064994469982112795872975549840608804226989871494994287151045053724215656924018965460963311742998699254147759412523872286197473836481677592826566719726793791055827929429106160772109790218589415147407739041603372458679360537187010404720518028407466203091932104008644120930263586213993649691542234665422835627879133266864575028305747504213932436547167131047815941965349816714103166660399849857676642226840685,
  88314138687654257777273426295398700925211316202886665435323178321391002786334025886758215953387676758178696626515977627775817401856560597308950411105276489825372030029448569078490579563125658147819259560718152909909963776687316289850655768747756603559560311216609227767860077254317917330343436504977316516836945326153519647778636351101953093908540320206402450598301473654273187363501088940776941237645596150979836511558768076217612534009401466756484409848893710587170850846196679926251138586706598027105798418910589814350554415924797946796440380911980180021277132244398467335819733884374489167772772532214220637132060411030112897532481168763206279176185645240974942841593388414499085556318527336206287224922422512712265899632018342274900092919942267749827590161456238338434570258123984747748629071623227805630213694127993957446394943179586391359166181917122468865889350635961930091359360213246267965413498396021247690395080131640557670537849426147078336740696153784993266960493220258716768928881071110876963425215988323355670659922077214530417088077233273933633056,
  39287576710162394711555472186701400394874665286821866944078819523281508728512608894061495867142163050984113624846555859983097493774670522420081833233804941108600348541513474511331806960793774213471658424970819254507549917183735435240930171668201286686066619982997410111795945916808675360236859597226729163116342955886057740404899434761540419629828401696380294841376377953844750838193029276556945440462260510785886195502988952450654035627284968134368975607246549534579828451649819108246640152164714405933866469660803281056919420802794299400215695386841483175378922957509124246668565938591927751087409511201506518009587320765830406384422539454365446189616171458741031458902887799673354246520173325973774474023098604270338270261588392949554189355706642109531441765841299854430877999015174258305108596444013786504340166079492079634239626949809409064060915422690625751338513351679061183831768219840879001953556948407768712834839651968427433369175345616157016940305891005795199513338136022406961478372244150747443730992020925446774937524159519335203365629714474144719696,
  36068165980415538597594839054246724742101406180480979911910805130154494285842602155121108693510021113351787808520638593660018256305214727897909602426692659812986575490029154909872297490273033173948321345623673562909192379555420359206515497029539673132418654766870214429278120499650919763052744839309507757364538088473895168146934741730138707399917684652737793180358090866774087811806712134261935373270362963119974326017514658809444300631523012418876336092374310688548743959245261916895413673072277788841927527217420520052094026430556972994652407245415009046659154084292861281893397365320648557847873290000072531030496755998515707359444942287550225000332935003897719025858107608979570984081884796283341493113650288746019910977351048385942158665911082124537568517707195600777318618421404743857397731321810442301585444507532746704624773055658220705805703390125748494395698370831864045483479903565927168606261560890596996522837281362309165901194663895705179510916108077119183216948024506098890670388503514364398315412935780611647972906788996927085896793577314417525702,
  77478810054436722724250195933881087435533255172676625668138784919128057031536014936269585364034382834432874872030223296651339709375148705997383516423374697009901226754344159945078860866779537157399637793032964961120537373234840513238302479561804105925686404772764028174496889723088325644305436978650787071618631042934920514833799061821056409474520798679839336738264060083924966180708169349674625761382165744805620012734468405328824099589181540205229990676835241581359239304389451127079279287315415105405190913261519757810695247272150642633028218374513445574396344815625710919472392749468965169841191168458395100088742079968661560883880788854360923308736892914403849499677698045218812875060623981370172612521694191158108944298405304774972383915454881704296464434332357571516874543615432688865893606317979294382820226172649846596087742143392166424725575973553193494464352240947068655490597663130649013338287594172558525922196089218117615222648492928815806183842988356560939694800745017611229903423376113765138762423590770328756916032561648511313858023030903757195366,
  63558287393162216613808644739051237222980297963738437800623014155533147283270378443773617386008998462040262390260051509232816945244723136701968109913266900673573077864054754714628416410814887549579304065002574897958631312752941332224740533527252416322717101959749375195646147640503454587687156616399598842157824945178962851814081919251319309531190716259450593755138749533554043252450849093059821521548685302726783823504023230074103504977155220047622344004976796126622611370628252982514239291287054954507016171846895005147462293692987153475011527728713176767399037079736823980761343813419137156680276796837396983034024576668100194655257710678492197634229030841933903374529096090098283134302273003959720509861684971413359579489133557352667901724881311611036139784229579591634031071133034720757449411076603290357073382823262667284350704783703183120991425958221920197519117481985345997012635925227305720004400805544344910981950603825719431612982265235033650128340674967637769123418468760988248203642880110959114217553836901155078553353423012179097553438440615345077012,
  21658064284152463398711807164139777308090464999348309166773756062665265759513347382448021670492115192951071296508178713707704246960266060988459379445212117616529948018012182301071957631351310156544161074361426661240140429575607051288726364651008156856488489678939006625890610748801394748715704273800442445504962493512939427338616680486893228559732605138167838527441171740889661499267027724335840199948997164711058203437863451103113713432226891560306856516930673331437787752567434967110369063867526268285115494815412903936446223388902300919545925325713245402502957490282748427319718725111851547005885184192733094385772387422851432894998514859148509414234705795836311051973657176751555298126918626403449292021724520450314186511283717201391537230879225080300308031896872019859247823407612922274685888251364359522030977410400275773334839557370782894079083929277979646674236305289809244335992551412404025287783871628026638253894994990235051363248291952086239096517253143597456055225515385255704546406454419992365974677325351262918642693785758435312110421037299348568738,
  53999445324280238065015744195171053256558549504838835410587729551787918069765336405479895065770460271018375873995217071099897350825584173623437209535288347346914666403528023714746284280427927229248456349768398682170803000566719162229500286470990636041043991940523258542306397374663333746767251954052460946549790491145734535576986268695937243614889526557845110174273889536505588607785479145464446838992638035977757923578687677159036776595738372872292411882810681042115111798915950527761351263848950728079513733837039919798046758180149403565306043653749710571073539734302207683073640481820227681616568622817792902986597599103038972409605621208341758253353316133512735597265042921986481479554142533070137996753595764803021254408126764067804138276121969425045101642772449244340852976741719016068170882933896362891006628934400897666393795494502336122343325345969171054498442011406281999268037030858603645880789364179924599450056867844143809719949101203902536626744708402205327333730805985226311385410369572068553446186230132225198685433830222578030368936149483761830845,
  19583300581919657613884706355204953212089769506852278220189630312748304751482073787006319576543785969555888937330582397422051623241616091798349680912026495431909673786608100673829100194510728125603327434898929091731615206874633767681514384728528247297769837052913716620793004841791576603519366048571492413589964207351992852670099155432490017304927507445261790422491923573083423146742116896512068090253921867257008659512224998678701908012248236630076981480932853686974152252034319298562477921046406655170584626453697450450326492569677606853314689757027492947030214301514506367823512150435131561443218191407790592892039018945674361203349556651881290090823351357554954402149955893987036087872382267160941324615055361428143336997319437146949717225320276146608375460475196826958966816021060640737941547548424973787520914835390257609799652198323892051940372088561957012528027375944515631888104489782150705039503700766421848347584251504960595156106416943943080350821515555527964689596568716990734413394323324712381111719426171085185063537940565388478135343184614328913754,
  72692139525729718630595508868643136991321536128429441063405578969196519257850659907283360960643643889183757606066919929411160262672550636459050048353319266081223159623660090935542311840357814009653845643064303373551576147312676227935197877525448970918422206984235072199391658601194215295530427493926548268626250586547710850075254985610592366565067732181315637280295590177376338849361059350965455570234037593178617692956819671919892818526732100453311403241908957653799688601631038974795665779519534675256232215116401888756861066025163881688667613747772927490635200767518997897204147345069572806429260101795178776532669764932557812020579800004392997150908238997256638619352008109519888289597185814757672046494995734412298134775600745051099982648452211324166992141507065605269805128236226237694229655355798778766775963946872268393055002049975577061180467818855539137844728113106667107555267746101573390198404400717565836749768851027664127247447701627499167683090083836270933492875484090800416647411448670058232819627872414187492976495942867156331469064824007867331831,
  48628490054820983344138676179833866731857734184817854077972343240079151856702304131536979418627995015927389529974278225588372500649186339571418825353114869424898427917680611862800906978016533589251607824028143942747278862704291441052030209752653320543055683955178130129904606594065770891545617284302516345901955273025780150542124741334513099957994592544117287296265565593286465405894675546547952888198469785868699992861046615504997810420575324434729367732813743464326404655077414007359782427951471199770447928979259420628555663649730033376758409203134655907155500627616570141978087731800073746646701341104951346827889259281977006417499311120289280894508367606462608447777520069467490245749287413961105384442278205668461775466460651261384823782906705047709948097981608079171822753433688694159714467585823075277452274249933603486629259018980687011773960461473022975069765356430833027232377849921299427480381946292205534905518440912560698517994592181293007396194464384271452600664139034702128499006521345079488380288154656322388166274540869037041440891514345370287874,
  74645949264397067874577114186507302441834665952567262138946699339686608012888391011926492552785014493176054225954470096227652135762921208073786224855597659312104309995437695852583470532407998353033589639351938703746390593125562242657432534304179299785203208818790540374500299929608445071003243795735264159797428054958470365316342204853874628339026737451490038901355577210904546381269439361260999911151717590717825369001722964830735990014782905458119519436589597347963629279196648979047560232717100088457869237708197968626174850594504159224639423648631662906700026712199161254212464006523152778807371486173430861483739309080970117883781059829818890632889920061343103291389669189676504187912648939542782129850532660322411943113948384003441677863368893779740325518108194118031780638331676754080114286228511322511301925518454640648197263576558802216006210930475283482365710600567780230850460645076902590492536583626489982652476590292223468620269162852765362504277535551497359554914212445008366765914420657903157315358138365108059991782124067366362302679080728080297374,
  87072037418543367048121093617138325562376985832569843021106756490279863832346215602239889271782731986744798890851015911070427705609347270417029604438447381634390889484509909238280992451610014591291813150871891883382458945356598659654520848832346508834369982143855975847277692451401373066644901832118286455298464167145277897199743677423474154557942741588395838041795863670429592007205848999515287503806025003311112776009813731502990980826152595955601908653760472014722557268044997821295580862617196294462615210202099825605737057377254909210458033607690014382441725380626480322311792778865327247988782543019372909170701254898054989491164837596426071328530456736257494077247627894413107442408163068116774161173027336194377434820388936757794477565017742907678043173340406856739375947025656238304620129034729444331091521430001788308147672441429976705079659822519910477006587767676478443729326736190299767958263176507622488189845040458983757762437885382449062449083683183568649495176513060376509634571665203941085077720234608198536240881232631630512510879897445903559061,
  50633777950819035548195393328999106557870946675412967881340089327411225915651483738167603556526858249859014460488994481645395879402488905295725714974815564595004116364322488769350235372007929307138799395460518136958150210742003663760423599484289602590679283016071478559074540654287023722512485890025950721025803663668084125585433780599936892584534886542698598659352549122067637137240873955387489044057612281492900488285549364912494924397571454043216775659796665178853611032779979781506048473875375887879096139741615695625464201564740636065975829061395226325813936079124265279373125329334142138429298047734605191106986916959637432543369568818403361478327539004960184298448061474887601395180823917245571365080784794708022893844631922189257081023680511117840119319272219410305624985825266365800624842985200926291018705209276289716212057790000132290269017506286434016894386309161898513790675888680953474084597000237434700769536628761502601652468171534790873046485082552733097810017165364275803853801542357194549623299539438582158325024694129896135471876231632174326341,
  84578597698395080971507901443217056228826930219811895097321437671726757533916182581305507540512122236938000379423210633054371335181715699654810548082963723603180455090011398582867299481575125971416195826285447724824367557881149470075372143949059331230639998981954403022608078790206234076002243184488999054186867484853082402536232479562407933979762660362971180342680896418449325463304917969110613763594422303665739075670709306588491446501101414886205958134879066644711977950729210993494804149262651364002820810839982262027638056744107302780146385991434449949862745995311456033373630280991171732762706722641591914913635265438405719467667366749583602104244951464866826052185751895076722909243710214818883994697680252870132538798159720597874056172703310330663188216385289542431398849884219224268823941537136569251815519535011165666118807926284046466487787689266766710229206031242470449444819826818546530688105331324068012372323110847246798117748571925592106622215837292449172367902042223431790041810128981016020270580221589647928000739239700640067958480559057419673302,
  25998605264943885110380410085967797617771626989789477430416823248214934348119923756515775818552104665418884181264671131231826784288692288397345058645760590081543721866999987060978555058403880865707965667627192337287215576798697915485471784216490443178330267362781013605273921458522632156252372146057278330000970530931412387411269947691173090410633457672801751618455606204497571553726916122982611893507594045522637720933395607360624688188220066429833101088028749470427795204347325912791430470772367221592880327782407229532244149758552244293060893068239848664926443891111466313262038077932943188575347153640594275485620581874476642673537656264143151323128880384029961102621558589140924191892311936021776594982239703696500374119662248109320395091182837296829519037266562149103843223637304750894200535481174439877880001711755724986638253976882909197438687982757726931176960252734333744307799073948810649416120204782339557852578694825948398420545422747899438115532415980089381558100495145837863391865232267170796701009349125854839723597936279768126407019586052141327746,
  23623583146541069865667984333152338304472188205227633513049958216487072345998352541156645429219649161915429006699658866720478959556975543007695893603884006753870101528486140149396725124108468362663431220432626552069933981595900638260646166934454063513884677340582555199521218029785571577529913732672152012158513143452393629701363174156127337613922672818227980744641652836862654649233341491418405450546345550812671991044282772275751920287093564188970334524212610282412732022767868603223054231395539621797163434676161317455038260398312811194924343062162845724754965768911152018421336353557155472437951163520217251732495849962087087316517691214216196530276494249756814407094380338416657211535804865824263199365017573337606761424011595077159129267663871968271581225180921284900817334999227952540104201513495773580210530027759869204311855017903145443348864627363369904244744500480194012384384575023552332850833307763329623156332477987330882636573251947042745044713665559853745024886694190942495716799068076605382893862369720012597031863111813234121567284674431473190624,
  28433759574290321304538046296018975646768910955453397242053408962985039391173688310996821036496599183296239027517311186110326638057140876648625475532725295828048602921973275364490557567983372878179761584131647257950935598837219061082339524442719542423494085131224880529134929600752647680581191263577225681517584633809329134045114407063233088925488811184983890281313874572487668679515723526894126295814493773572183154622329989037401961273877161474622857590694650654409456453029665409184466277567013898563051794368979776220881938298616095554900122267811327853578004152262352455496707813893552763432841029187253320593030326599762914753673591034441509507162269745450679231295686921965703301151094523727004765844406146353444062032949412580749291503038114369350081744708277227525374897437940222471051471523047504066866444131316034181572889905954712610450723322763227461901480909608522566571461440511776821263022068772085338277206869346161336431612825656944556110395781807329846468119791024492179150668449782783121550935522946930736130562487686064533435847764240887391975,
  95886130781088454523116766123197177244745875746638256278467293613217553133266912303705725512690506236409590794581046703195436275436481048852782406020567124761727045318304713965857230189150849138116700616866723502962690098312254883547333217155244418488931671507226378683884229966214620153991515698520516662050701802409954329124056313049935649976967215464118549009806898707963851874461203952018908945662413052672593806151455447071439027474245148529895183446877798071857674705604394548527479607431958025362120506453423432954552161114782229449107940147450450368821658092093102291506086474584274672690564773717262114566438593445763148346139426818437868398926260886435995795686230498296051756721940974369943235856871260886535725300594806965501400334142826776657834577361686192092951999899630174007388797496917286881228381492254185966108809880807112771601936107793334816118802660993559813013964768769898130073307518125774519967083041224326176791167524081311201242384484636778916925949556718935645256701425528706606801537573335675226833851762966693124299076633987043522753,
  95403607041729946045351874883593459644085688642629535526640426486939807716225215662344560131875712678018149225269154343513885504944013382523134195108294942743968139763898680460593471722071047567407391725324654054075378582509383023178144751611920196489344018166595363728621775887663344699563935244970764134301101650843072551492781161294181853857846094247190009976837928864292940225598175398606218067728852671607291236020338825054827037332817734758960959626930706296370658356959672534690815188382344562796203375123331815988807325700973473459156722265444168003470066152724197397417530538726503865733812356481096195251434225901061778829931428133210228725731489380912171272684944988321370313506391047570663611895043864549658205808397146305233377562642025473639969806949459727642180522695114288140288401506989533765807331436866049103654545363198202833783670364768751483267412171174659173959406065380187981735617451452619272170659478149106160788544884270884576731222911816757690615468459284893898722115071081773131679705236057128526489017027798826560360364259461006543125,
  15284318121069148124514848319984745688200124725257712909389527432874308306226549228088186224009796397389890817162174687081964220899919329516341692665094836861893743911571380315558426515795243388380664875445509788424351665771616343682605144443309398192494166703495522879935934587134996964886146836811790956119481408503459292925286547810684815783328358183615613081083914297207408323243453943183602941742830762500421539366458222635109368920549264409242536259304391529761921742593696600279911879143155023175407878364963349828732337301345092071396635851347236636050080690548703517397770662565002788040473081342587384336644094690700805580771337938573095428710602428662306875592703292094844585787908833103013981331304435265055423268087818943843457575740910258466063589841060047604402396670777900307600260753579355757057246273620805486391761245322609932532808830285051570747459045338311612312440829280071049227775204595879379716801168819506978225860464265452862565106896527952168512486083347947285256902221637767180365258967057383781326645311614634579633785474257288680072,
  5049701742178498254765309230968956966255051628508537708409844208308773351748060222108554787261393726279910764265777478586227855497392113981093555634757384416149190932292832250124324022418609288523266434093504036582491183056073481902309477738495825293221323463318701445918057276923280084378916669445748422911182985269593225654182290003608434416281046215341517326282799178398016947321357530278963212873846626508455486717725545165123964038890197672388341075043856887630284935893411945176156418745803313648119160487404555199522686227282577947877509709050765843794918815242655489381200376226412574390346371049195038600312460272777782293479595135713319648660561227368519428936989474926997490054859307405980738536841495384604752448388952420178806959350071591988450267642112885165555880247939630267424743052201708700243039836108086130684547250521397827440584441878192566950171379888353523588529746071710777963267447750729277287149150106563947091780460954024543187514358450782820225147285820820251686062923700486952405732781654793396770674964520066050594883375333418336384,
  28396767149630981906108077879273318327046410929508915573619559192968158769416234706107697812084173190415270708855284803337519474133024279005973283904830120008716178326332734615209822426815282302459749656982526128420001366754367150402161271844621202447318272483026798529897510534838880778876338657051484198664208324311157408343282937267613644933962397227723563232788890097382101204435550150283132610484053841555003297158112982560286811091827469425219961659888617954393071023058863656832320179740655608858388766642068406282691809464338859277221268958632160956780237634599840260040017984168617307680963348211995316884026268700318179698525313465650758401974347405154003701987851060608745994466950145403525700315463343181652311981102700832009938194609615740811912167380768981505991052410671914746837566627126007296927282268656536524699761728602528772627164034412557739350627352237477225001428776589721798809331924590744022798056902142643942548108616870683478162521738505764910726839378701487699821555093141656185952450071025756726282595177928405628829700011546419865595,
  35254499683454399197727536757760021108301508818198541473769434593865610693207367970764712984935516945466522670904729429550836157240280482005825739183752952526736506496453282054508276576046788697632970374445563775637856108467271770758082551496450136921661778576543284150281183503159112404446180336619908005213608803573851284065478827690583266818358816070013629466953507103165585697041927786005935078551589529123382046304921814494052053499713106494761578604400320885602889206961534486023315509426904702898097779353788579649550020317650462765174057154061706055681051340563916042876559449260638733228999714108391371215034361336451422599864248292083056485897581603256383128161380960007908935734957310889631462409528014068190931239998988177176389855562184467803016934635309030592796234240210644929483102085064586855943331253951395248386888980623466794868906509031378554522507286622626838707500113526602918189552099262967569204845943262476938529731267105064168639505273790101943292694527648904787890761012637013679436971621346688814189199336395860180035075231188037272525,
  72896666071662171424408019834788470121453447285991555577512065832791400531757815388568471286802773263857857441328392042729527926504880137401784521928995686186829357221339510448464882821735899576651296472563633597571214587783334957251546139860164745399964853976931167328737305519025888352383113578799168019033265227148164217325067043421386099355530931940995602627591368697415261669351800733010073347712770141982593018746435630965905683456340475293323748100923739616575013827683176358962432815247288297789361046954391550350282655915773984763264309029168743432801592361729415367361713300290173713184431270496886756112989693265296594465499667471535768696660558296310995106175792717578161573125856285897128276426779171689316580005721828235775000405956704409109666735779659605250605066683363919020497571063448723449863486714146678229714570703309269151236797430673875819681212986427235416426980698879790931784518059159901930243208904155530493648654898714577652218689894805439176308464525900727523862923607472070158547075540521099650969856640964372287015288533923562639273,
  12046559262864788402838720589249891362014140116438701954364134908633792812816479946379462758888908864647096699384993749171988260393172692920394277768198368331338379958374276818362166798712142119050119892087819383937764886284494855618050060890776507515862927701959259932442619273269727282349591170153098043676413856262557332174809638028686850431393791616885763495173173485922347056044303017288402580075390891136414772602774874599419250977050869807093641055120432193490349557899407418527130876271188824307832023819030076907422083327977796181370663373043271297538919350051789161968135373404265563118960258640067014831760354115429722378199219955602385802450366146783860579905698686355540647954895472040563943333905064967912674813111405107325015408056164659008063151592211744023788651578392189829429175508276709326894290315493806998437933333869110527761985924525647789587848205218852141409032305181690121457400000996644265987681359523843772789586952810008571125618625736520159818256202021635730837920924307867000796137369102191510547573570515011464338961283872425467300,
  50517703234423841235718696974108059335058377127071986943599507963047145774505823365079640447859176071659888868082652969638378097061133137177503642780131010795150616285422063203446284663263327454831544403946672431331160325082494490505332384103249346392202187072759334929126725862933480993253182374723925416821134058199995413275170163206362782222713866913833489953367121360911500151731329617074020848244162645495904984441129545512925447785182211991094032878118886905714686177128860539799698185577922155392567178734816316092248277631266068474583536603515977990989676959585573203612922844329258536479796094120541589326429490701411589291115174751467582819878926070506220940777452074663217064155852661707885427500925795160755955935869473424959095581322204412566794346775350447653265019712373731757138332992708974075559788512835130459845528488372550534896382399352221692988302198016585965493124806837226355932679288517854502844022774385421022824903257802006948502771621276658064074604429517541349195216416007268506509260553378969477239657905046156503155459208379994119840,
  47653281131765680767229529044545927040546403015287772775804810676349293171340851049207675359972862966146157420220566537646982643170513804734069779872530883891149438572337401186075160232602027764896907698543365147308227433882738695101099833670024128727413565503727405947236565447771399796685135931621234337544851903148567345541814753513518242417209118014685847208000730862144747606523813023525783587455301825281717171171015718862566712633423725220570050406098467854483788176358108948533115971540207042303614525820590385294533054215525297530558453819167532187528598516214901327719024316381694861068173772189029429012572557985990684019686316410212246831985853112323567481945936102796550518939314502487518074948177301109341947016827082389900261470702361643877766080942041049054468635485493122305933781024330895127082273531440571655947110323005705951169588095477233931840339027767987911592480395689850226115275444158320618765140222224029502054559218094927045766933472596857623787924529781560787343211974293958396751953897593814876988250625385358777662724507546902465810,
  15542998904807008925831171317063795044526884061273887590158414265417047560752303037514320873356208259285017826430877516092678982000139061350587137659246233219040444005541094239826790589788513968954725492262213733499117856428049837560966814184004884873012300129671074778436066123728541820386647634982744771519881430549191166958561741023343543306154249620117095447561973619240310366758344349464437894136810644450168776450494563465042127284873104769530870988368864624980955449426024187122657984578573930897539223073922614394396361212714694141022943976331155986107650382337084985608674101304473401827014699632053248032162261219872276106308296735952354410527837889212997617751911776446588160800065337119136129672434428226912526639092541244745021092606551372417341989176755715058859635759879349019753878356365836769726786356852258283316309747412348125307407373307360999819426228740443454965074729490463341796564687061738398409129385935281822597588214371805291329544765784586057353907770525579393797189044625332048963896018773846907201185313250307704106924418655809313046,
  45448265760356208974908724847423742284482135479488346527934005403544959325684721777409799057363958669752860814798102541407774982438217671567747866141164839811237947910156643580485727836710916008624198857550801322817538435956841117037265611471412396518788996972551637227932924602844057676992513618158795799644275532373023942043837804372339589586546249995751967425755211975818729509354106755159398293735216111543330131012183976061973936394762521920334177903990060331973682839582532446271685916873550226125859685599729332863486247873641500241311183832452022318901297556449547327952276210212396122134639031589156594645651700289311511158389958408912067964728530331889813763885875551077868861333633107547070227414185003621313103618404069531688051788954727849200942304204927128671316446697008507271020184636168748565889704106595554146269828792641780835933427257026520321809507075467449845944701356078654784516045953910697487692989741555231339644226455013663821665177872426309741786419945152246172097570808250051080585444704689829955293249443550705417285826429140409671456,
  56221243709004095792166706511165008760646071273762433734212149082582468986038099644176184618689572564502735402238330955425104263133356752324019357512695127790299018595816255206052521411701352429193354046859210129414428254516897691209514436280639457148833982708816842955582352399731139179320095324951789456655108842397799318241086990011684178564668651721746650762843567633742156096164220261201612394682596404506621745643494583273780666610519752481871694062466609695309599806955267300116765997688403728673087740144661789276382246666333464390095509747252303942650540425308932280146775346431203610557794395524480251412231848215988262028259644259967619867396570658675918183077336559266491516066778791051898706158876319019072007999420011210607273526635817597141241824062366925376555868441202675680559817657256665332070202064686575511021574253755022247021517925993343302541345605489426826333314549024487971506727720282217255867715657878582050820252516940114359515637451652608574994595025434389527768003520264717409086892423514519089400530971851647234523173506926172668878,
  26717106368817388157889779606063145218385877869370873454009496669300336013586902654042709727062360049229229608131086382062363237157746777941579740248453279808245063905313474244500679845083559448074476994541590643949947577587265167179354274249700631963696430029229210520067156761396661186662829729370707987560680336544905545617406880432897594744334215527869856297326757665505371502918513710284635770698082732923253150200691185242739287444349464793821349639800612978088775624504998845537240387770234830999860836699985975673710695888627191469194191273207257072377354090933966646988296703786246237372742097322673874205957598080387628843160269756877141258140418355049749059491579954586523893919474263932515109185855690289439346950557306625969226568916071581853723665047167294096157302535212660053912170145130062201470252349347526047674163959065925714397619654475299321372969486721952021496420975690368516373934530518178346657386709534879518172951449125348408107402656984993943680082212599559765421325735232103845486957843631211259461932672205309004614945705082527638896,
  98135101866611653971424046471743586551962913593583097910766792045933654106085382238026484135718729933802334298566515085026493403528071971559107947453900655170462817624670445583225627175218522559573545994977831407876771537925365661054789768534627439961306114151121325484661226606187887357160281232267471819215288885232636692103465648731619654229853621820457262354214774989786121339790253374734461400680639725892397879440850999372207440009087448070638659710241462276305122906200854961907135837995614829456903510351983422873157559342624846616151894549455820226796244350437122986679009431815690041692088397260312689396895661931218331978278421422590552214017516803769564907433894187159321756849292623543937385981853380713205168163095141994590096949793635458948083285476601328829414442251144496819927301537505466458433635982893646600365783191724328503900181821484876169414576289615383821887018908634120938564274859368741494468758271034517414920043195672986784139788847866490459915696128819136181074809499104157089774012628151012428614528658029810660904552504993859879190,
  41976120841978698760392527759782707450113483061035018278792965991362851752723479032019734473147292709622215939424347814352262747627307677104696840017100224038852950672410051667635212376481720052110679446599562233491873987483954834823498968805230934707587477385232877924798127896917631344517933729971274456248609576673293825568186446636406996989126898126005869070083209760165167026819637887897604890997230557171338375464999624068723855694875068938295763258938024541153299157039796422302399545609544464111391361006881586731846878265101696570049228345825139404655153170197076456238618238807937131665209078625310811533626689427061220107218041376448324303287477314120240683129201452326119540372701519078486970152181438104354441617173413916318485654737668111070220451081820922128072304433292912463824433630174338482858423379621232347711779389561668723780924251908129602793642419362818497894099020898379893583003242139045626712673457281618636658930624801460950559773473545547501396021732165400967206662905839818061316886700381870593781063857743678633372059557518427694758,
  32777375919463139842724393633418837631083464499575635293271675041716896988216506480762451820625002826244956810426430320038791711819529198531272936704170479631583803279365473939857208557192035086657551402004214770234830389426903212432500258859910883941811649772138461641294185517617144914269129300359707983172761485863250161828546086204179144853928206400054543455973041582116902859856829841050460286129650832850803299678651040095648664867159033719334677194350891065731490678039563888856636120160050805921745137924632783866573447286286303007729759504751660454550240702883062804035138216852573063414943870685159563959365268144969689561456438648804945043499022556711662996392402214409976894870875671432390355141359521037244441846307985416821904504338965724640214257044953562645495366225650066696760846093706482512743481101346727342545647975580573975059312483548763715800560284713466010810625466272233346373343005009621051946367269490478773749124054206998875797422158887968385177321406209871182774315762418171847869267900415587507121433601085400136043614323289530209572,
  35932067141561107143192719926785585741575942577061464945560999552401001930588972927266859001528748754661687092245613133185130601755513126079433440230922953790737663312258599042090094672267025987079927761599000093177665316152880441622694279216897629844246270863622109109337598489471706839509563496973385583582608131695676215749333254707734883220480079033943623108085790529491724423069011301113657174136729203130587855510503963109453503095221831273860990957941887643454221717416334189863639996611498715778121954640797755758884640393707719346908708896553691240003065009689491981091005297743884906312509027378560467762377215785558704459976121164161457160770936075465174259953259347107577544350275053673134131142151523230609938392536913858845846558330032898178374008181875071523080620031300454021126086877452821080171408020902501930290419083589932918659384528904001849643714227675921289134926886256681137754936731032226742009339229503286051501899317271026717013773777478068198009204028077860055452148757552940990287324819401361081942819047068911402214252697418104653514,
  55050838822651391945307554897808075542445696932196711005718521638648159809872679331664390265225713819130934736312569789201105396092428236455917047728534181140263932194570340601795388561843629589460649945644568845342602786051263125217008258819382970304457385544133883603080652857032846512716852124442381834142017783679437013947909311434814254859085530727882948450869499354859854127044459615954660370438862007144661875090130426556590695585728080074367020681697218351782742872128902008090696340037770891451901283937746713397396192638653047706793395605192705106723310309545779961252059096069452429750630455911318666948313642589452443235754979677412397647946688159576417355686983614327317002903251618252270030159492806177051119258911537129124482375524571696472676539447486109952415195614705969887214101515802339012397610830882199117404322356008911792084863059073388029852774767535322551612428367376979180054434711723233452009124690800216455917952417426782938515318930690929326615242566058188944196743434560227097273603426626632933324601470604809846778708159393542821003,
  42807812540810675593106964739294826284705751812430288413265395972587411964550163332530502538350291468614616174785621355745438559985536809346334218135992491857513025854760370301288176093643368407829046643979074260657889875070232936409310221412174671651380240699705434985820234902593988864248185552655392523719568127175070184212479142492901703214700724335701597012119744870055234050207732570028038799329704754311993123657068280793523817745392053432889889525729924276130454542719431733329906499702589876418489167682854083061104620934122171986713157686416154994276538409915956069095313831550309092016945613345417578475852063331204358017587209394855416550869151806877979623822521553425032213884054418730469599768770305078952437731941691159988820522504997829406594753457651159100787163985415613456743080916113137963336981788558671741341413562433600544793874511649628431398619498090600939832309009058168294722625721501353723887939378122086307990235097302051239224456328902282492563041374965855818486513730849341492435708684855135159799902503246106020272290938885380261363,
  11393995424616487801827937536625047070069147397331706904684960315105523973517573203926741539102731896767712009063887288853686993320520755687583756360334750874156441760108166730291986084000880336302870869009968174858489321846010870585866824863718443892276655245767941640438831832423498299037654083476895377032201866803971010714390473868140216052675692484727846834316099842965527207485798372176959787756696581676226551426313885150002946377810099539994842875854419469434726493416512779383086266490588500813227680500758654917845129274926312820890220215326064985899909536153454281456664988465333547576205127922400784030658817931734969138541903079287141161890473576602465080183933538917106311012728666716349829624232894114833103132790658173291967664948500767681292699353879927682147460592952748874993037262597929616656587786392486389524151174329486217752054176175690931085588896847349420932366556977131768140125012422684648222875042923183691357959693299791724995186218684412960786469602898212005892930988387738155201175651141999527970941143788174944968213742860156220391,
  79923668600485443458907853361191030273780898933525247553523084382458677566219560449284796299467927721354358929881880217667833747715123657426509442778788043350574747406237802259008494111884213829244582144873346591901591205179054776770371230424917211626591339903762208328444273876704783741454723218794233124360758848888277150458615435109390026436016829928031975068093664706662032055524163102898450382546211595787647567302752686929159669618549619044404044662199537289824109617707988366088887654648126634538353278450525419861833767864615055039379026068192114197238414612864245843323529032223609052777550047122985122950344628839055699759817206038916112380601313181051224943283595773306386309259851103472239464574086266531490001290366504156968191023297969769847290863229867362598578480167622526510811201633549021547144293743114197563458656015718299144811861268771834006238785484379786517856829124329539881416237544856686307737661037463235868213275665314854464506820125484535927360936186264766196231991833539147317185822298570171116719811432109085443425099503176679419544,
  85972997789585684124007877266186291441663986900801121968313365096903886076601284615967978329258803490420633988272079069928067903364737768174060005844154385815557727722956497525686438689492615492892422811034501612028147862135061650746318246473699751882020964358780275946491836629782131947714114521638211274778585210736765923913060868998506259211141528897193278701378254271342756342948078013316597626428724600273070945901109643398487458555697409245980898854354543130536647749198815068928976877790523905426819343577386344415133418627576363103309221959562032152909616111536857398502460586470105166770932321030649010912185551400802166014736254699907577893416679244807989673241799925035797280656378624214298434197250178843571769495769923984745251371246018470693148155082996989611720582171911054167665324330956734999515320318784523257613286231581752198829630209822874943114765360399372610663549507781581885803055505426624517938425108472627748409416255434123543832609419515909471680930526185806538104945097785880822141076356394755809057724715307228194873558353465435751887,
  35512400918724641670434708737158493158821548434544930428082014655351469522808478305357196952737532379168519497296531354042949046604782885591851482763239489953795565249201148969394451505727001755906804999040650039473642420505467130050192262591364234739587949647039384936419098098530512191621558370045577310419662662507783512441077625625285738988589660214128348956074093254651181353243587604095375521215643364986047106280265202770977319515535396436757051151166928929792201097165623859632518175615932409773122534533106080717911505072302717148271801468963237829891120610276527178988163345417514441473064365430351731621308486764036914376844320016555987766873301871634534011417135689071831702710641445210584948829911531164976126784909397348106854900394978740356320605030736273570324159687089620643717065436397290469122216716427888535343372115831471982402305671616657769170178204752905773443970412847349545208960185542153136280719740786321231653978301297526012731126414407421906106695505259866813551495083840347231036870312555137259384585149927005013275934627774401011186,
  28425525681632980861498878066552975426086042416068298307338181231161496917931406077720247420542528252231077270598641261194141731441168408727921530395179437932503895035037951699792518396227901253204631610971698139706145232722627936600708627139445775879642622991449792254520996097666447707699215361368602523811891922786914548471455312896040030053736331819603329414068654374220773403004603385896262262491435240745645704922504499349336029393087529334927312960091709522486099553748271054785916100513839204764478879768363884657133050932916582064016946942575202960055661957801927674293456677729155953699020610698986542955378559879910619070455826202385215432730319403772987184519126951494320762869532595171151007777683282027496901717925689854567595650741751212876239672473695167419919503611004946799135528840226940093183819564608813169211264965623741383168240623908705567153973971432318196729323968926351431492531224543628906244160658539676882357676474436398014057261425982234256107424316162548863671812353286877819050593006940751292134844398779257762726963544537130722468,
  61451315631496210201388385937144018894779215292776584543773455163438933719887384688111054867233569327940054409212196093434906759838975545248050545208004981527492007478773962841999650653312826961886770433480636917807996462568572455196288231979487489655770214796428945215128833601587519159538103708506397972997356896905840077884297089926084845703551831579008903486371848754166853832346086391982780878612397019471026529318857372148090467077624740143216825026101126676137421708981367512310831917641669348699848920291802778513558150100667443105973438339447355677251178364580464646154511791103512409349849185515938668926659381369611303540240672989612197624271093253858694463594230025417533215656572502436033038846139329939378659592796789640445880460781530594775101511536624544188983298923577756609314771616128218046692061344597992936793665024201796669228979753730736448188983146682455523073212575815350394881272641150423172154824435612441825288350035803327867068138795046279068704901167123760716433398555913024034299986141774716926728688032662557521088478421677452959102,
  45506769303041791375245768802523589809748645024641887666375395553662635915381640596219825235870966413773128739336765790120030073059184096338208230332082989535349363242614029014846162918618765224111053776952694561212046187074312341950219314483236383088200275662986843078418065621236090959500784650336417548080985021354733949247758495304548113702074026329982580740968256127916348588516591447588799029213724484727064461190992366647575211498364865867032110956454715787915092174702627243733696974862807417258185141822083551705270634850960040443068436635163061826437466064575132657060745205037211201515169934911278392933911922239625437654470861056645742725569231465185535254260011608321678794429779424962733813576864466943336000352414466490076798700131560263492047563503495247919804282222185278059569305249902499544309392692436127643824686114268197818083502056125433725145086928036505350298432622855506042603199315127938741173186218796986997634477503886909806836040445743722862880570942919176933948988765809838737972692322359662338596934965123374347476991436318677827011,
  48221401664754736561039237275041748176903753936733403246753415362773011550102093427218368909415591086440001909653015395410120690125060393226990181154782950228203223329400518386836450805131954814372720806437531932229698912349248103851284361756020740222655828508511946994884251258886969145458159206565487791233754270709845174793703995690267626201407506480275032723806567059132170827698609186429447506893768382664544559548308948604322257457938002850318627657940696147316281356917444159802799815435592406811490668094670992984574598701548490875924605374229064037360446774285406015761705325875571335683816574071264259324805169137044773568371830712081393035282142944475284234028975225917921516074010804236542628571097486446676357144082072400814533816092326203527981469996749572323657826733215109111802263693991601814712297202380475748395356455319694540800226480342555268090575820611244470175771605826925701851441394468849053607204361009675721280272405209240702361060688187138247651636174261913397763456138318136501256091104766318337722872063736159545647237414747974898359,
  35181626514376697120034135534989468370848937970738502476000991158661742991617072337848935311771707715239577674030833931423050272926306310810427056513028648466253920298853287963167762303822993724727238804118754476976525235078295056152553947594058247824218067185824570469940773949847206638562055732334456743456604584678377421369225890731018559958410688346225035235372853496331952837062509425074357699749702709405574704664521976253614179666244427266769418930390667634285923004815244522426168113317375863278378688162104759153725897596686964497614224837119437490408656025500721989350265015816346736884651287706455425166107828856031896999887126645146841021440231977105824149797043924612660441924114060146833811612274226831569054124715289799146450952296627085687501270192672559650019450069161290669680281044751819429202551154749424870440263118875457447610018479127818658173997692718081000728960308489860461868281985630942412167631613623776771405623194611338328074241849505346168611019460438253193097710915259173600553439973133313584950101728954718495231790656625098504617,
  46655778631488754586238720261021948232428776529863852290042526197180670425411725622360716426397078220485985941679523608528176873427739588308286910563310694866236095435055657512165149437263006997225056783022119128655012714654870841402252231531492234972279913537730659669599987503999378094473319066011037812350903890182325624306344965758147445278618545597362470063194037452134728981215269724781091285565225379634737388716712603299306854888601973640271698272591095319240765555888445081578552458411120444902903906954239128488425190422455883711708881627507461479762461892356065008179349477174290701238979878078260513526899268946984190538146261633059002447047158765503659501789390765814137676873725130567749814493853929421667828202557790417326560583229354948341906586009289610296466835781552964213921040593275954060609438266703172696383204133354946796977004183978543420467663215551948448288322549765308078591060301208650554060421133904013268842948309089884588743023082279930235928547835225057184910638128647645484551718099077317901470588004829206201504420678453977177419,
  8020153668160752550314373827952670837612432049105623462576896289194352666108980139562450209518150431998234087432113171069061682401787111226713659666397920101981704274586664036897732827327834824354272650977160431804192252309441298884469731083473896367381090190899526718997193921451058110812718546816370155095825516707124064299341476670161150355441441194041958291773485107112125662979098619999996540849517043900368922001042267078694579723196923585063115708693845969618420301450551502590120510826393703997436549880619703741739219144469416514106636079456974844934847539039281386745821183010667515431840484689692468261959399861571628430139644231095482686990322371644747157274936323184407429819539857799561475922984017440485153041766797849006369942693660002844979797785554026051121305234955737062675825799714395991788544988331066551623665856123359253271839646618237644829731889332984235825957793217130141217875919415974402076397295715318923688230819364762067147790956749070154985003751346191143098492770770798138818879959480224164865802702510746794094352044953103856776,
  64958793170239825103906602147110861583116212607186599008191139938159810192069800024112735047462889667190379074856332142834274009216820549380562707121808287309226498306657521911853464750185013532060641764122712846055854476173945305656074635668644245446274164837556905141206735140609630512645166748940663829929438365436074650614395070496807182684916370954557642484838692681841191211092490661020688468971507666032745057777334304162763710609751979033063295681784259746426287894087838516845596441008511953097858964472669069999844063218676205530341805186293917440636533292618922085631431978099968065706762305340759161580820082436207393230114223825630071673658277109399152262479932528001145456331269569132469003287389939113399249732448004587658771368214897661609726993825707651158666310721082849704964936552412922404458319170284889820717888485438981451291667587907838496209604860369296329147559498037031813978679755289373613735469627615776629622077190512282917429709472338701765344309957843106347954235348805888123165767870705850824650004832451106725338991623143190130522,
  15436791261286621262025252852179121713496924066920955811300699979492303746012845277113877006297076997114380374551150579841110044342089224440516377145076186250542235670399962251975592367737898746431995701613605322911640936095313734900499690129956689795553327110013858417530334611340210845826547510128600048876096829552192847488707229262829045733119856043999005104847076631027859118911246462559319098421987892697851843786795044064658475722817231567695629917575761160720338046529948758793306544871291643075241965092757934624424196266506897994861032792737656200523057566207929201678804962838715115100336495927191879559258750407447539071968649793881976218451758262547895343851334819898095132507765160321893676439357898742571823839567418184453569954531500825421333065170103087325356116106932679093092028699223727854685217016280674759949139149937049278885671675062376624149147062796470717735208527810171673359988482813717960977779529417224263323185183553171673320299763032418776446235417596885902514478222072582219340072183477776081196406213804149820080825012550009417665,
  39288008617917781449591615434577247406519542133708763636682423973656328189532210831624585975166149030189591823199426329955963185619311559853962760549639977759717446047517551697607483562759819357200082297757428277619802497403878260857717125856049294600640610936731278999492691310345764588448614990440208426302703669579307438588443140609014361706015410377588673856929793776645755861239978935400010928574449580222935467498754378309709514101261834854838480430241381337637000454392225853714037714479457358529388458142893720019798801308454781892628122220191204628353506938014819743955584677564588334496279172636082592761124865920059989832184060109355402376630907822491629213847591024241141382835251602625353264435600570070840451193106652690687989966771893249269469688345264273090749863838772405283366781231370455336979991957829232134682137696312863543658225069243913089568686769743433408444751908668832572786176711612207847218246948932532339566698857067024691758606989056945060356554952953970519099492885848945584654061082743735606094125813712294849204474005805187302300,
  88374086692946149844274867630316777246275240201540280092341527689170623571402537850879037293556007286459542849732776975398208796107673113480069814479425486208817046674396548721438545190427957906813604316634863174569432773485288101598510904505278953146912347550871562710391723957879287597667221516762426290107454033121290910112240832651769320497960323447741625216822209749915948920337137660945083003433482094425025108000420880575469221204932491412740342914912453802148341168367538419416019538892770332574663274933970568737254487550622141273750464064921367216536943111474833222498062154831615946544390898983096415330695848627858151477035152255146101564855680155145157917181820693576991718756087926468655559880166335826186906983549080835298392861193126653914027123823553159603815778609868241678428828889069354260951079324003869806311227988171991128600523770452959456466794331129299116310269044999208067247169181219944146723277613629229628949633548285822484860356279952084224105914448383351986521723314780164244324668059773685953774134300665516514617490353242511900702,
  49576024735054695376433532523849388045847442279832393927585805953902396893823771283293385537873048442390783705836674196657066165500536645168202374503910749117674459632075945204954674341646346117978453363714430103902256508271911023615932369578312408093209988951551222044702519521768909200457761299388993167263916545073537102374111797467742589229534419022297588846887428396795284431983203184707111946846841412444186749705085618158902163171987758989525771349462047318983190684935059056748665606636149416187281484976653042222244137565176277436844536195895000602498130043450987713762463275355622902259700447693569386717575223737336763902387807508478999304666167525689085346755244694032897011670909700195343921033297006319642674010577008035148829771798020899951155435069771918312921014295000412547369839690092625757617418217285451418090261417937586289984055781829869216488669866311027767601314870574595534063602210493845371086798753552300415084475554328382345340505167636737734435740356769360532775639779430015655396644317292414282220372659382814494564574118958257396763,
  60740387567846891913411645736552684482319507168620999899185474081674769652645935244720501915777011345431896086662983278007695170464937418397624783370979143852241854749035997779273001856350306941751766989882833792138425106714026450584079509343179634434521381204570086347894649963250269580681034369398794000636435849990816048453638334593846684604306821525728858261698496419482538499252062893500406988079407983196383923644388329960581825513076830665590931037684876724332038945128234634070124721463796767443527079673639051749836955205547292305437999399246680298206056265586771836565645826240134161312299311007531794300554307567347901103081337301818746142828270948828372872149159666533830549815667552318186115998049376470467035224389150678909051603293915232273611709544075337160374771423268811053826383887246167361662181517805276381066758661986267577132166337505869199618180888580903045341694252260720517428443859272062756313751472968595074280309519797141726331739368010406106613683386129715851165236456497809739048236702156654248307903445966644497733272065401992289497,
  65885056515003145211190490143177057786152826163455581709920603556205621703366716802743273988632189005037104146615929392034169169397320699281766417260735148195481512029080541467249755453718154240148038248804086427977435898916121703545051817043367907449319012163881476688295494282887660844051963806154471006018167604166059678488314532871814201878909597515762966045379017566531502437392378733758771808710972753689391873828700957339254931734970223666754781297833868661723105895230410940674846939354916402197224751473583937989450054307830493282976193624328031920646639193485959311874921202328497675017041446562729376953346149285647905661598385442545209062165220642426431699298507880496035622058922644411838145408879404561526046426460815181007907862538088884591644607492907920147760617916547750364565430637191268970511071299551757988645032253960394775735961606513337098287609896749614810925504163489071720834849130393958561561537885112530584564138508939125168423329771699984265597345688616716526815817442024006476350878361281821614624576413259480356742313613996434363939,
  13410657749005471861745992859391203002466203085594304274032156961815081290853233267827251854624651877808066156335394236175098685775305577260345500424287628816005466348435835950600399040483742325491792279165005443845073652265177248905509237211882508520359061511601291080058326348787823915519188553688458109520277816821133577153943866050679060657587334366500667763995212155672480632609841461142493709846584692378680473652301703196317530467860944697406701975450030747586671247149330060722978454298265922326509871354876302974332536514304271108149700160998187087193133814629764484545952202409628845071163482774899350680761521647309162659576733434014974508877788663280912709006884916752205621356451448350554199154306444803541042761871423250277765444311899113675814256648224546762357352610651197919381145853116206701867530637021097360878225320120185544646738782583791212967315057226991898272029246060901000445464923922695823807702261434629979440345501362860138448170567978194078867018752402454298938292784803208503008468921776878082862044177766867301770171858710422446710,
  12124158668524373176833637574357492220971735383985049626591413917747685326343454200227137975153451529123580489295621563226822224004555019828399336003175719854469512017819498312957614400863041232815655054180160807963162948140494288979251684215129764824181604173266777149152918832182159586211377257177752603853583025943134110403128184030970873530774403319317023408316239028481666861443828205988469311366608221758277833047761857555874338707276792649296677645275634370972715245140039695146472948089442719049442216587879628992319808057898295084904484970274447281509450745271463604549181270406897113094725982638469916690985828446348515964571957474578944407803056980341974226514758188059978209972770999706598862946670885107180638851536280870464602330440712025159884078147131924974605367193709794708474680924942967599923974777720127424825622483420742420537952278307759171185302047090615910966807670967756076836866648631330240556440078602058305139592001336342230556040625955097786582611787507002403461414936720303652804845946737160334615807766873947884090531931159130724330,
  35192388268292117333604765637645547357086373009047048409199904531050781030809791226107354968441180657282676305029453196175427804734122207218135533887581856953272435894162777266445191505611988239197730175843646388646583788719291593510968294097739970291274747726831720387589848459691646207404985491511086009188490915906397660553533373042494514639749139394069678159623311323139001190957897847056204825501342811755570403194559836796514760639714804142605897301919436389788627575518975154253662798363986459041752373036389156743623838244005760236693218783852568973512158019818344441248186845272738921149746650058304246842026250648640254187821913996477878447691641520613769283968151955660744095317017039947486727366018946959882938286323004743700138457968364227628872025101155862908906566913606630698994851018163805208969005713363399701354271878497239670995487091412643369847186511369877373488115125124125837179995848348524941216723401048733049182151092226099389761223205249361616085053898194263431035145369044449963588692945528880751620520554789494440347206225729903043072,
  97951148304344028898949576356355002448587462283582061144774727653380499362329080612415452406386788488066034190642382510392065802435391681445326133690309558269124625547377092193942419997367237427964870665573467507064006070702431362344374577410535083062205937499206939694968229570830059215398620203416599376959055913328879786256920925673660924927775094370519399625770714869098747312889527659466767235124208758141018939572185813380477329991292659403760495554824830207878012863593305259979657034333232007305519107967323645177791154535038150642449857830819137960436085325658310504907898016519681113598867584484209456644032472334822748354941456194544641598625123501474492022668858016247484276017798094418670448700246812333177774369756596789072654792944394046910761910347011886314350557388989453763899855589010759476583690185474808022375062452550576359470476174391616344837883575336852910325698715642394667429201428282747163676676396083403322727388870888451103923746783680369230512303497807584975251183105572774486705376659473404247917253573675581937572559628844908011066,
  44416754385472289230333036724508557602986985760110791485441673496638583331044843510180256502102335294547631517322922513799804068035012401717977804579593528935574629889180111792315633508051355889695885159466925688150486363732804783668087688357133590908248742358956922512185343213574996949967448983642145812731699905026215893973699290402318538076230520541097717720472966451265405759023672989611023696146597498967090954892106250649552826596127438525911024101230780314979175710726952672813198717985455317823994088577216145394152373052657767392086681091246262941063625834831858605946124673799118769251573372394985549273473570187359572551268222454201697695860720728774609341821909009392646538563864775287414617729961149392590063745356253030831749884329358128178051043222997112244415112082697681674262591267864527727377752739985455610304725145354676022407718081609453226231697729996273144050639354936143003290003702221625088522187079435030074807966724511170619423160130426721963374143478499977155099077423342236550871474125564762886384383165915149903623745866896721484473,
  13566870799390164238111839962174796832160824435956495169014580249255207757673136011738513258632324198863422473426491980000481197234750325615828308091343316650552244435238716008228035409403869214266481102169279541113881812732201999137646439520080203561067474758968846255476247363474205071126985703084178246811530516801551654912918639614129241826992247069915716580013407175136503331887714292140557486950412115927923392616837975876868389473027478961474861676297685829956228010174654510170112156125494130190158603517234647336671683013499248017422513929051229420944559920334927603408946084640338760953675963801909194175865593128739602791251059654044962121517702095789710665525923697193382282267491322907174473589256504616637356323687106519145729790961217312511797846672668827330391053486530738901742827343761899789189623531076701585142453285425101227669694946580772782287268833258449796975221360677681558124970289268946395008696088683831954944446782987391897744371611946661836796092472681901219652200966510256967557421655559709463617385951901907803667998588726281821700,
  16246946517485876367768426787503524781571937121998966093053080712624219283222354740773267012393086411795817216863095007225001190893693402228719767289947999397353924531647369453567492861982424989270153304903134271021709276342769738739232113925619339669052452659504415113860465325500782351435702991116985334758033629877175140771177174788851944534664411224006192657502353519223458839466468109256684514287178930788911276453961615331952857295348172253891310882109529678527558323239774908784784302992996076399516563753250241527677440255373701616484645640922822964031088593240803001299779172288856378191832402936448555886388807617894527205183221848743249559404116098796597795500780653436781789307254435833363761375133944439475567360500726539673839557057289869108471464854866449308394515826876336561904874406604031669596375504753011271929014395905653703653877605734078657708886157043182746844626716483139892178503651685339066600986357363076888441688382954775443114599898586212919408556210033922156850150541167542827227565260203421241131680461090777717851488281624568661561,
  39282256761166760665792757384987779717008263791456884402973473197898949954644350201484962987135533056876001552391155488878537266373305089520143504966549595574895190544642756163904753529444067733192846944718869901929057454210685648037805644610083520321118507863142756998179352348177260613999902195618776884451173197984713127693923964832696592419620688119736912774664791196493476010118020623304951903703535339273794849036547808564416864423001924240632103658245444093631544725517295886838893122751495346146533461804207212085395368207026953193651359605709529733818828009268012522725762428953185346608318893633399376764901192290506793195084930417921175847668145151486514136359591881068543284410395822978592236128572174358292094973466832987141599150813431730796568212131686298233293824506503280365536041246605202897229939870982598285803672807131225814723468024730609728121584614666095682048881335197331525632788863504122455134435483757112470501749844442765758975658970210696197906543356708883312633496908818104413801703874161762433500668677771920881178305875483472808748,
  83976197588895499583938032523164803742947345272519553309067355726410643535731419041017323941226020662171180861610657789481105443380330810740459072196384868212196534285778379917391160039491266198900431707289200370834933838355781093734265295247960973338475089091430092544042162810701131808824017253975744020617894384529266971870777043890651943693312937577838542524659426518808926748968910253582752358005538391269077290554131161212295012529994512596464192410146890232277729859862630141939346316212571475337521906915118309237346107481148056557789441231630373873908754235639111117764311268958757709545109381426739001842009045215919097649043801731561319431915958867940402870823097877369534880492988792391338132222909236275222344410597843245907669817445941648060519139764396886658086585395980085592742592991738562967734825877636931054513428021587288632705802794211027620779398890793758029305634687796710166265041183583593761583291907967473625118162498699613491153974675404046449593040898511443612792380382688774708995504115129818240816066411134101596555661441166737161698,
  22124615742410432289792308738159931620145561589067216333971958324683991840699337545287390463048673590901007698707928675506966167208015449592027740821959003184330805012589188260078556504532840850250284143494705947141727129693150317463049520307842524225708254050014470973783926734250909368426165720447203191683342456249720060107222794653505861580725983486880193227569188717646138338416055950729399015889337928300705349806799896860593837736839565628782189039244625160836465318654764207776588475033933473396925669868605266010189593365354387070647939074942249753814593388806830974847564438983739648363220714744962910175865307085561754219820938525728822923380199817050121614427400818455586035476323076760085677793568464582566383813203277408572938779281784535134816354565286074903343950223458450932327521449282462324179241509770536313482147715980518291753301933763538710641626205873693513163979710398168299861029562912060052307017427027795814764884882377774440320808981607659878991720118656161019890384421001503680059860508106021547213020394236570117491222393680726717757,
  57800469971038519708546934706318941530146442668447134886250640535251021908003359187494716816235774841933099643520004784823078347388268523674869625297582511032070668057723691011708085778514077845669311927563984837564527813275558666635870861134565515783334563931279758756298298142696672277336939133957467919605263193535502771313061602633233641558516451441958489727643000524417837453993690126774998421691235636821719968752455184832478819208439957650005738359023182757596626215987192858853385976376006491240565637793697296915222978309131462352256955660525670378041157309491091965295550202798320015134267615785680381474478923818256306103276630598939935134747425479797143768740794308421547191966231164848823310084491947716162065160878985223783587105394026350407355242553929109592870817743182129241118170018293155798597922116310254505379577419577384837246629975520244411478745631182324044979468716976764622211650666638367940618036178299185802757881728742539724584547594874542325506687063463344836878773030203939733759279647374487471779379525215085864771706082634963731134,
  86946696382692743140097013708138094453396589630930499652693447117036428665691442219480736578985736927104039420218361530220156163348358274517152333994599139440667915593293269882250497644157028192049685445281432767855325260942128318525083239856872145553939322744891835029626981644683344069868775289900832473350985497998925705497545802027532200772586720113548668192005966559911769928571240206987157151840975465352831883317536346853438074646583412161137051262611346832621883628217612254985970622130784670479508483078349322771565986289003579545054723530946316701766637177396697581739214819447141384933240711732631750253261747185814153880168170702530841817079329444447527345072878338669332547074051982959553659414841605371266467695583071507267329974523539160231917084403452033470674294002263040830661071005998355348749350147535908411998447423727142446933891837328448915427352920065726281234374863045253763564345023339658838041374249236619121701585260575900008941109756485088565910002690308639943301343920910247521203660090783581613426757565710519748062587871675917855574,
  35588655108560098627838114078153333934173232324909025524723995874202502670647590082075316807695633208003021464871944044939691382489320949875208671681540892555523095551660779084444181731584730111625052052683739358837920608385559715768206225160949681073153271520489049310566103556620448141024544171426186396879770598996577663676416173635221152610323411355405905960755082975330403209902591422143927030098523019273600073126754528186227700461991899353127877471309201300276684809811109491340166767683434619325386385132685934119214365488824757439657894443449541137940447894534588870725550449062818238221210442935546087570173022026349153138014763727854061612645202589794394898687787638722529007287753466534645726639212548122886802537202331348883819589673030333427940559097901602157903526567572575783202198746874854187300705349842711857023919150851323222801059337848693537179223273968851228300146458756001297610426247124109839932591023788636600713479921016682649482990816705314951607338183411970709772022840270190202751066639907545975273521764606309829519136844078362682560,
  49250541845402513874462361930094764015308068764142577529186568888039644722873454535274471227240905854343447532635978660185798342635762435921376289106979353110602237292696774930611947578296832022784557478341020689699213494454941108121543192279659219363763837818463732192011645131800979214357958366462331351074591149950691828912661571347789468745831296252031276946933600970993590738865405119917288037296504156226694767377154293262882739541300010636599489072051473446281764909425648088831224107471297669170548244499323332925941589908645542843112903676499834548948861486967895782812822194377777890626151531187838339955313924884723224924168389152270591693320763777066307953241611203039227245097821204843910296972509969502847420669314251825082760514801591235779312318217651252532583780907733220787726691144371493765646070579976492256767679757250865408551399372033424404774405063323115766911953458232467022447566679367568602391421792284913442887458675403953236317898510533890177481396922669475211268898553906617660819273886615902814404036778622952997490065052546531671765,
  26564194832366026655922040906676990270614653160542472627865509602273927196187198741751272851991490979085061580460763644327231377897662446434197828900185548772981297159897426254544627077740602779731085057497009725088954780724931022759340594594152511052648074871548590503904355798880160976735837729500766253677898842167747686096694802837407920852774608174127025880367928530855208193553312611117458651683455094354509878496905526612213653879850252064516322657653706881426952896639692727624824982199704948531961165425772503375396971244225829050776412593081758267850132083020912627820382015046742021143085077532875304935027147581045453506703810681284757244162774574793602267456409296078391541364660055906559192699555121098476618023494339146641241854191243026697360327086886073284061379132778703394943506757351778422853953372572293780267295305030181359413585942524331383834043813037217773775498638223949588837818636563422598740401672858208210444317618838819477593260821881644793163307114709552129833074187093481218160023105616856507485699771806211553620013462982110415213,
  28077811107727809615479504898006049371353235561434941582996900836612060955368979684258741431273265544773615027146728063229871320990283670023729254124475226118795609212792207328127394438401024065210615432484663153803847758723954375758361871897198118336281953477356829586797141600558052647757175004586744293306254197238851969945238688215382030796354303958838088038890622126812364371454904955794919013792500448813162169860959558985200489659006873126173227096438333813595302691468914378766420985179473822860122567684529986687945336805524485117486017885988427824317898311404524294186773592470640895053223231842391812406643217850421684350072902989218246622493020760653791666680746764743734114703123846741295932675567176903253774459673490426317021889291302628733939299855410711437197454593149142949392860061983473209483449093795935532002591567750706147194738389982298713203141129618800773927261779281355637834015021882224319257448786371297071330401555962534474764063198355950672598189426645351278982199353247496838057424447891145426792139102803371557360412891140151702118,
  50543433122982945337020251158277239835607390123000195575121134544964719773003510335102396832185581964960915347361927774174106787365838495956235885922083278792196003044097845737747037709822530136542207729422502199110393578140858091280923116222794958015268852217152193495349079203595873403760190480973443382011201210759790365668040957706388369144938063884013387365862618625074860146266148631831483134426498685349483738817920896817908418641031041896232852254179717175978643160902385221776622500798288396258694023410537745267256272854934213919978603489591875389777502724912188502374200591052366272569692146257938510505263312306093589457801247018766118831954779767680627813177945772704554858147842678264778267758416512146937687150709919771624510173324714841621199591188787141052168288138332544993305144863538814557514564754204023070269205380447419853942723287524579452723674606807249879546536471894303915361665859621710691886660040938240192032187241562410116925649541970510175728992622041941721022676436126251440317115262636969485362700909063416003322655009982973896602,
  88574819029502367237723479706367980340396318481466796285682483571886688934907313605659689247303897548249724183546335767412685337127942201925082460668024817114173322237177319860996143728517966749887580417142294522839111095562176964006810305168473483779714717131696568551279156917270677509635544675304379122727706364846232518563514569761533488038465468638229289300497521974741912305507549645874127472720319978395252046036962158881107698015011791538645826249359213512528898848292229006118665133665844202353249984857334668009925873800568607936162032407345658767459452210198862685583902658721696907922470589462816943501268246524231939697907627530235008185013487784801599394564206351552495651102858006302024699629743243762512078143696723926507032843288550637178706447094431321960263511947637492675144627877076135034051146240635512364536774811463638401780097482069436684589542647367764459908923224960691401382929688321868264183872705733973772949952007554890362257747685474581885168560943442208017178396118633987662224124479565349186717611402379484428305596327066838006919,
  77680493407200640741963040806609545331350171607886719472939558177879083265603286093883338305732256791338625738009635763149429456227043049186755288168631591897726549309759759561652458250471099192155971570062393989321999813884084703547499359380650665374090446108893257840669402315652564273100452521238929267743818933338579221859464739442747305080601172672898093094350858737048573964357123200891685023032750214117920747124617795322374666950432273379965865048525126754135534568005917015975062332642515981106433067420215710977121977646598651662879459456321858520624465077752290335668725662954752471822901093834356617556397359712107992697144222792275665580673547309784203726309770933313605043440229097571791308706647863025906126976459311823278414236831393445169056076676621356633904165915345361618447293613180634470573413982208508278395425804934102076170106190633734149627791966657827111339979641255141537286112671291319464695330790109442587367418213464342823932348968999831092266736378062682343098544383766301941153157086487111880544379329738505793235573920533900458268,
  89582141434374657057008449442954758835580817622075774254849454780693746753343423575201691862148451109535809334051389032816025014893674226486363804274828732152927408612143862560752028995948266911559013221345281861457938089935273908156820586578734649345404867565652969593336421863809083442435618264086010643082524960740315249019404225748736463860828485025877616627284497616665214744286350405720434077992588270610174292319263511556611384239506176342202646665434904779991009005718719454402463813944970829904761155468080634887215363531454620785021732841673539084352790297444561303095839368378949062293235476606436788451804360767098934457120903165408591597353104131340609888552770850340701837639678916829829802020083169756405782415636012117535438511137612421554420668756527716052208232312995906352283680768368872229212191669880149349929242133740702654095235809411105246990666372020512663454249492689304168757293259423530718999033855895596638216853097356084961485913210341549600069948555197179677146694653585169272113866096789436184582240136848003734276740217222366080333,
  96373682296227732712037892559032272492656156223837241419231212365751405198154667119399830747634858791484443217016962533878254859957672722955227680994341400787091807733454213675576599512192998582889097249109548923071574736985723482229989343356253171079114796931959238455929885170939387263142271948543282696864955013742570991747246501026950894999718749107254066507848758095254867366529330868986235089318757829583869257536803789474796507924560985074365996462776990487417971573886874320716356405683525512844210836723137580075661048587351135865104080715500066835690724062947718904223518329233150758629648286465726854440884505655217396364692277421724204187834357148156291639384997606828792856921020226124408661630105149652820308706966099873155820447137331296417752875161187136640761043531717192328872447495500581612051307508279678392731960803208076684050116823246637393483813363836717531744565920962853339675230637545510997989115856747421414887051083673688978027991506931973653899450269309107988751717414466411146811545838368894989420932287826583879643982908731892736287,
  93160327324286674943897070677665508140837133351478131032477229082274871624538119140917104266815494295878554231447822350326054164706087713807830558540803090135966810802311212186829044835395532688479086562627427658769497514400060378208357566289822532887767999779368672813482976619906804477627965036017924601130762693970540803217389982482484176649145109178250204763076879824604504421672048195498432778365912939746461017711669542490659334280385262953393309849474107193921623584177490299166214079786834907662551455249741540679564999769875852618300875551225930804233052784613706684540748902875744037745158278850256921294424347683560247305692194875585691161697135361222278006057183281979147778579261257293101180660087432023414095079475308387070527963152503019369568187814245886045881259255979300156658915332151644320828650521662614608669286012157396160200373922142958789795576114502909942981187790272087922175126866783567630473359553386188059572081127768696059345055114429979013856667652476684443121603853771957691874617684405775679909476497968274364758731933057872306617,
  12825308774983702439188344762966140975853975441978265980352662636626701481257577353589691090935052048918421571735661104792442835925952769061461205531517656194917789435982647361094367319455196795011913811453923767857433707292522634232487521669832650641353101164967490028896772611743314970873835865876059155399402710741608744174147542152025068977150055779122539054606211827064888648931829288779834496674426188420912479734695450245746781345535801056795410453300564029132775015208065614897738949189368928506974857884057421317142577471031624251359191854645478316837030488971013661082195344644790978814476621956850494784441044950175421311296878557864592785347082840747988031176116521997457185741723407348675064628588099481261439213235779372650767970509362999162382024030905222231723603798129804639630621272865704990264980601209789483972154242579252487252685129815469533378017684759053418481503068206063757025196797151645262027415516131391355488705215552807373776925800718845543424270947158547876022774427654749029303894224531074188660750178567553571391923170842051054989,
  60125832890202268441003098652308624053021555381261658386117767773371747848260022428664887349503420727333663898324248850740657978564949190309260887192480144762549721893181342887206882514570907749060323205819985346594532798777742468641169172846170688666124571220128108596295810354559256731389688922231289820101957629795624365005818057779709299734091146073547872769848663578494616335144122339842344168107695986226301265956366281652189695443675132647427695394753379708749632815324808444467808217398029483585671197446000907640753216676448553009177310527618369142166148897814602342887007077184848346665722716952815964734885585981313186738848929959347217789847466717672038970190450269515624915514101306213085630019583851073646688114526314494655077068899066118684678329311332191873836259133652164942222410624461392110204632902786780327538998454215782634013913742419000077435058416545739922950906305651618747384021732259347433493639309289353757324838896480965327848708773160213066703802537416340607618850457444373793416092700115362669616763280403426020676224607512387332206,
  72158677979153463855366096905948380234025086289554977469866372710187658525700549816339401092581540486916390998709794031022136616940150473883379324687334196337334798706661649796149729922276712749158246351016428383816318903144632080705718341916909629217897098463407487435642439422854522461528152867243902753911536623188823245065263921034820348087079141972690001608512417599905577456088654626615363379133865446762111074154703720001598851914665300229347633095820323313872188077525536193907933937157970848604717233705679732421975014978433962232627920932450535988313384957848812896890284774305685267358456259100865485434949833896438679448011179505379653021064867087971069407205412275890185670912014960062159512187395801106832123391007462271940521346945822682832940117102272241860689855801104502185284869690683065053758427612058174873803187418387012463426160691395978339467563973505159563571633409795141484871576825774801114465789904620698351593008382247485321660020816640577310041809281948924654286960805775753840209675477874077117199018416356700399923788900254236622995,
  92243112212382585848131410131705828392574770441601370450942284497556471586983941786445146041902175869720744125960898412452032290541137026871445714899062425182649628219653697675774438900999791991114597760005213888068803813171357143519181980693065323716459095848459449933238364000368217176080842599299718096301073043355927663968433449728916123423212817506394496378289939441784664038221133820364311267114671026585472796480412935175017484777480462574740690939816298667296643431318919393634981204612230809145125188884001674353580664695486534523611357411864887233525083484697814654134854000719829302739337825240924355320167113904901839710500676653364121357049612622510411084371397526565787259697710800830120114079797631565598764638501681064411821109462775469384077464937624645078415645165776735881676559519210196672741197440314234152541766480722191072781122990196781744106344110442261636064279837890361882711764987051746226056703973245548978204703096910062684517261439767712194267438713379736932115161340067772875789996019863421589904468184140875235430878643583942902846,
  9130638627584987044110479481080904575338255355049937468050856849769173412594142416289522811769422570352156276593832228042374578738864886592208144698759365856824816804498087225365723105411220342014138661718191440229263128449613446405236135168096610631424161774714386499290406977304222919971131199568838173739536428092904619323160389857096520740555203292581632311778622399664015638003600153064976378737513178058172271323014041277054016582228182927744667857007160404647269581763723793921192968897010228351514696485125155040494321546259191315808131030368597116807249391163705559528974374266947592515245454103480482314231098334436400639249646938902596055140149082860970648932453079633975410177256201199259347765016687480529869088597226253005336109982467783626930619717331397166999662772855604168140658069047332394270799289683481597120393495649940482234905019995604777609232004654529216902351797099514831461330678419745115161366791718349999684627103588922300236674311399008455050271151446803641433430075273101518358930274207162297447489242428264587260600861702083907402,
  6391390132706649891104177321464468614176693729552726713493412722117094373889720215606546140662995689584021771560980336716974276150498208450542158286683905148282795013270469174488676306375815790503799259996535885427702233875254570168151889723396630192396383893583247448547018809145181159437269540794421577184990527316271192287023621181938996136330681101907429683662158469751017261712526124807073397851269362174148791471913498235266644084082014457478616307104756508570561299647665765625179352422148535086398162939229941645372582776024940289748623942184254813776930175991952063019068752934624110630648051523031982036375314746328187882878654427828160485959287795256203460314326464045031591098659695874571798097547455366822773631539116077490839183239324793631111048224982585265473415021232322086058571374482477364067411129650313602696920253688276637485117339372460215031383381347170758528684677764096821355653985646339229324391642925892065668999588057140778794426924866792846931761072723247911152550614481096027024869580358680766102088307366464882627155035980926490356,
  47974408970890463160722541299128573459655765340025367247897817751261288855441341666116044736228769438875008667676877724218156947754683785510051845724416905472062635071349529701069390582530472818304664501851865403098428379658314800371601900733810691202012326262147314227545608845684733488044767619187575657166108885755908097614124093127579246788775162797787594542930515853251551043056216468414723780532949146855846967095772267331834029684719816057003322927256163655471897540016188305328210822855930135062996534068101266771827329367428195164956047477587889720281639662721575648144088693484350433982838827863956819211905508454994759290234386577643977889350959678407942478124275904547718186476041077938866190864952847365940760990875983957650362432001982080818874179376247979795296158675168277753936043063516875594428186489216335543236172855043295388975135195159352629527684648392636560245059613608186657778298191816696472218203909328644205974414507181853354567348332010242549688026454886490007773586583020603579859755850225494300472657974223439545407239768988444714927,
  61984210090230652531427057025186337470550558129041882948827249640869080557650245552132220522204037823354120576832290438159562731194978705341240853548419685122395210722091981385917616486535967623282954254112787273089091382624621758553150493727946390190058911940477228764340009796462769108370675075194601596220027335925917033265511084125454862999640849114691974331415479000222740708989734349213036170317907699692916425884428995666778675135950906564258805473193089118767407028901555996688993110417038368179846558974740656006030316511744414695081750584183728605819037518233663101568405554263649710710096848241054319792768675890699549633818560346782092700171555636654107061533496909846239649947995555995108762181112269098590048225165875019370891342344843192856957585064293814477091421184081721116334537123860939712141933832608909602419749128622416615273002282029424087675036067353206149050174174470519051924204897535716810859835911809262124085268915211455810147770530438495733884710586539922595063682840517572366656671512906260696187249516353897176231518177765580351273,
  65653722680752851273610540081044071050219258652419175759279643228721905003976553381689759463651732400579427615641755208595750817896170779776316069188643358025327752522827291891955283608485969211848085108086255604341152432703550263542557415252536074480179011851769418544366932431541059672895086959209619712391334735161320662578693087035073917606569925654831717541879625624456381382324646451414243093819907762470112957315065755505096750144667918867386890183410847698266445915644034372330568489082264455267633299351573984019209730207751516512674450720917878451544667915514430034029294073112037706175343521989336006344620356130044956571406050846328067331106048747523417065877791699563328997955134306534775126286890338153275352143795930169639049788254292526936498610639292704992539847467055409037409913372123508580505556912179864780912658119271591167315532581488331712953466903082038498885926196674038985531482781688848173843949417413444074418541057465309410898939705619542116094197767644511422445041206455757538709916463618018881096904724581086036177406837139247821586,
  64557244242031602891504129166130357399152732992766563222092653969939258559776818719194534183011841597396157827005875738035245515115911605923770110944156083559543105568531973257336709162550146444474372986515881003799873480437243782417360717565219645135692693762400912149424282501620958390832259590947451186969256278583197036352511054313069760005057496179812534956198719079731155356978418059060058679566423481997120225266310418777178749679489955784267059968108089359202478703311197415033154092549395603619597232155762561876800950326514745334301532764866370351539486142940410462495082341780230365219104089181581229918570820364664748424759326719528632954212298902366338068591416093975680535348902445820311329775234907236474384512334977504570216588913022002898551593034773217709737047583988379765749989363091616211011018010099903203796003663232242024622800412967486473464501924377480750708162063276094312692459051659834080480025900397764911271280838844529562084668783171498275424766614941546955587348617777876229533102885949692899325139530672538314227804532435801668134,
  59221378876153559793117724140476070043423954115497332284455485170131881951415504873045357646267670402954841859976720346011328551240725672699921076463314290539977296433529501822664078961304247017047013560683073700924113017978451540801016519512043720902136317271906695338706588301056912678075859021494837566196622951252454529503656647162393059861004293500575419085076824570847429576395199691264490940184832146318623880950559680729259909066610790210030763146930610835769093541416724670225886520236134869052784321542919760984616932320149127301172662239854862424059097573387158820408376098258640574943621649818126310069248277799896742964531484720214980270318848124149385489383710354868919353880078546193401003896276683349468906823054569866447261994163123765518810646390765166798931381027952144931738526902858376744930215345697926707142334171061494289084225310628467143487303000845703379717403156788042755378445340743830486239801748710892413748524578244700873854622557720243085216987206856385303020152882649922120830736827682694401193744820631153830108031059210734601875,
  20724930439433544879272898409242818803051349338053536988196438970108593292422792604046505028023881012591088869777715955186336222252489378613481225571243603338745533545868651123592526070457784041976315127462826276701561286855972688030922098494595598091244937064415391970912650884770610677819592817982969716605056268798189963492446853729535110629906149035131917229517412454812411094395625211076937513487268007201551043762366514271871825683652106048390665692378441217538014472067344769835057955073794557332736381830984554604891132665753008029761892221907123905534699447891188718369269440328816907526566318933864416215343193372768630548525527551222117777943200989756478951377400549843888737824237573685454806124157780669433490981587780862043676973120216193466472706161016101864687274609828138822303802088164754040214865362590668232821433036145623427588915628149052583115301318386260162733441010803553866764755856471785080115397638165022566461977916623626596083913229758360621110586474909983942862465616300756798498210555342574192795446729173124145991488102246336806991,
  36702810761541908295379852736645756109539665765610111677855558893292344369572122775609821207076660648463737925394206054249838224626616279185310192324958710076448422328583655455705200971878896578597629854588438388354545237989907053965299676844490768613573972691213555317726388663360687605364921398600396536513963578561235064331892115993256717809112383023461662929597583335328980930799849031496422883748834869234855746085789737790715180080407322763550450292992198909926788905933073116292343816512354294278089630079127470223760315092106842962621788929935447141418331955952063604747065268689605389218230790227527582696611111942370833317928103051990889515696108438945889154965114310154895301981923363449377011232732725757127230267453084123153197439401425986063973899132584328448612488115890695883708327522889633496021235401108325591428677390900765034824392517074887819762330092544656575751648000011957548693749772114603767538041582128627365525247999744813079396821062713397258945658033956912229220909361300686225715009970122866592970341969602310575795138947503461753665,
  60294669848654772580952000904499504552054567926213238892312229328162355886733206547590324414039903455264966499640845074109498215410022101256239585104410306194726626100340447271251848064704124485892116200488524730685536463222122296414491595547841988222046476557130957707062119195090970092590781383308705716285221487945598906388365527232255174013650681446113489395723352095964538991275504898526538835493374622637089396089888285731413142041209889372050233384022696321172885575285462204063296970414871936238531742893273731262246619970638431157900741560183324920908832728762532977155768734655697105274511484993328029669248936217070004631805432664186333973479027745929050590120247159336468917312011342764610623811056280237896068729265512650871341665291131951711531542992401163016552637267873892619489090611834303692672343616617611930812924168305575032402136726297731093241905370461207762292220962437459001874777096164913377636329529494833336383709780938432823537130289744112005659356734232621130877163369734004192127548788445662469961500646530165818404844921686648609693,
  13178497751234111548490563448343546017741077738606448541488163625467990388433815620436147024679452729183136460597801576003892435536645649325297366671251233578590899348817217580436637245120275989542738955499433603744917622290656166206187656630879616464285016020707537876111600480096750033543150585739667624333632027108539336965772711403778248423820367949411283697163166851078227846272900717457043555244839792554600677858425608589185570952261084927280428679063987864975806186149025270756680565364314749997938763783125866377584843858908926144557710657103555597109779380207981624466915936435707255315635567513494937732098463232590035630854441970487037245390320347861840413087921123631879504254573469661379099643766488614820943589148585896744491562609654151174033649304512342920253498418776497072686620225335908002255543716267963673844739047489413943260107697807081322196625205119409540313395412103176956950545312480678054015692311684195038561274100472846727363420707225251716038533998484441512509602232798871260059918249709606102177776284154334134440781229720071003484,
  58797834495877649454034637953072622588902784995787818975334816579238471764245984969295421496407513980183121829885975443116380370935996172249261912483435145206888405383527490138300514753212823189686363182901646501843237666197992489560452958486650255232018875170671179284548236502734424177156394438463073193467953146553024471968643731968417062004432761816692139943600976063362752521992010682271773514175481635569711761956164093259665743696294727071711052225993997492058623310810332905641436640817349247313395249150339014241228326023544847815162154535947405659686400316591852881910728875354769095220072889609579521774891773735608938891857567108561361645389601211492192581307950490843993230553503966987441853211651995738675437116540554921446219015637543770958028462418278409411067218513708013367388991158484697848393266170749996393049965765710276498296515317236494831060722890218863810068813451827568259667621729198343889764061010718028496225897374673934147365236104027067686719298891889946632568824958217776313266380160850371925388450567278349956455323973118038177882,
  92888164218326347691720284960485891126373903391569528652498186995752276119478407321159152553748018739053546134970969042467418114503382244039964981555695731813643570421190411238630067667891257441485884321299605669408253440614723679447869518993720565545505678295432766944786078584950308118203643667050101100558990942786900192067330827015930708542132573228648504714459348536160216260794889487263582455861645826469854784575969723913335217942973050965215504889020458537300498492436265287491884505663901390056712753898243508753290467335458951807525704428086690997596345753671560181901220936918241562979391759400948505186828644824613518677176463283514368873715430999330620995968672520459067332780140636651136287137448172317919741142950392327797688484625154928442013799836728659757537056885930387645728247562470333862104302865035208103744415743417929403004854680426975939703757710635292218929762081141418268482641302941979746437277448200041781481033550883091676883042185920834253830685597501882921019503280031548585505556098581082260653052024034215753062179270117060624639,
  30173815309370856128747454029099435336331275037749438022528166040977839270527967653734305050287719261376012113105007312210371487803250681889059355169891779884924067328349236134160266969516454496789026547569065462285816206434305937809630251564553997128704853067283731397825555011838525773089882161213991438564608889931917456392152429494827071248418932747528302504683823630085642672038704587354988503125275952796799804494683273318107740081554849502397362658536993595441543633277126694719690721380491760333917390100107170449212242789095000319939137562736567542862404288040941266202024452091416916143349377145174204704705911755215539526438328581614708886077753840895677596620658076293524861426460411504802759104411742808862292531180321862030888564111468272280927558298697528127774957670769640866505032002730257156895011557311159308542702704454281458233113821832233384380986193228228055788331186290842257026504057731456443365965300275922481644656525173259057724331786387976579152922834866577797476912299642772035373576909602385361176686202509304959978083820141950366779,
  51464176464464411063060306460851242340546050889890519465108912999567498106866857638719642687748179649073984239345848373597232798254527952391218575902308598936782542311681176174213244614081819216936582313270198251204689982905669913164467832652509074177821768903860257340916730264502001076926878785719217654824011318804366044701559519003286655791221716275446109889857574501951678137493057081005665680836945353138281258528962570045974276954513086233905995215024904796711648029048242161374965675712116075590832007611046922752586665274789719045846764601335427148733012482152468366758951303055546679256346698136672176717514769496787761062641522414669258165963706755243742188535348920071912310777821696005251009163558820617308332067473891784197678617064475043918592944663866293197485426352386842272994724224791422947483097426766912453654754846735398187620893449761309965331034430606491809726381143156294242560474930469259886695197108527022528389751152767245446719528281750778526551376990752005547020544675106736235251363864092403460335037596602118520294554031217568458772,
  49294964873708256551881660886253022722323571950811469815920000139826965042979497184177031292439014873198036988263061799518659640801317714741707471979497797333378540923160891880369582611858247823263291570765481351502877960239103257857290007253310488534792870488667804048077495516346309448705777392026359105773943359119774713660536748748256598002952385006533843059330341273671044593531627194905181899635555642818290844567924892434120802061962871578792196857115387889298611024766336621090780623696660356452381916021440906125218164608973474170218631600644178068213840207297681406712193639925242275911087314600167242423910477602562966012792135356678929999702667168996345165275534064671477853534332790471935285425909552374274889771663886681078634863245788488015712497900552484611693916441309338658714646811705868618746242928287416341980058969150470210019809237017851361105408191656644811256888312453645639161626966925182678473406618932265228630217198647756451833252925921321848948707173424816529184444460603011658926442191525077918100561935017771427680766665542494636463,
  40599127974633106972003546075011142625556837734723453658285267223997891040900479122137346198818966141645845733459386755682138166299344870195481906770997796684085966810359655518970560266035391201416980153018676748351585069676856461030266365200398128082698755347122828640044492904508090610878343353061037449849238222522057607965967307961687471377300980428471506398832770137881500774537801057306431082425789258943608246815857350557501561466360282132967080880543567236813938210780794206152685554071357277409236803915083703840721065357697588368878725204350503246849022557628919607475744069430283991886182764891148289543611311106813742686864322797769690805661710581341035135158400997416859207757049703911859005714563708391583304269534791531066008311528799676517725716859912744776569650231383659612149215699584255602007714263244207347477849113129673500337919193992822966780030211421917012923233993413635838100793477404071954062613369124568060291070275900527135181145899255183356666228785234925154431686820284653641175502148024617416156470379431712988857663245877172897811,
  63243669173818682232558730522745402907516779043139107890246120023796638572905180109776516736121980636668798708359481410430954239661869167768733389699780659165145387121854997176290197989810165429190739931957826985042660185772506073309789347005283672691807268765205614356833741818312841201125092851496585746792187963436152059065498127910705906688742224145962298553622721815265099461642580101383058841509195271369440991617922977918156513460148970628405704884691543479917985827977444808495647808163924282452183830577732414203748315309212401413966294580180165894805976422364810634680394550201967818146204316853738691218696345417097239222610188230237754599933084870679828008442711794267104137544915794563720595334161240434155700768374875892210387974403530585161124477373631441541872258850832914427246267036746606321048679698004252164090474489850481010286102904018756012507863759993413801108767320364901306331437235085395846125972405098919611850548267681118789995824208001602485305323260400040344797286977191259609098672843970153060089508013728585764897693266807131182226,
  35540314012741895435548492798965999773857361772249099896841387287333411397813205579712713369197710021295920747893274007321309037656325967939670532835440954142508577224006862752937709281066315879106071672589264649179197198072539115670459677294107999661241511504954692462591034788252896277505444608385365285220304030354866357404985755436479545403131449142447188394640615542066439766585448950298577788400074161511783656971195629451439606056758227753091544257740930763468850650913122840832876018419878612871615211509517966187894632578346988725694109607713084660588923051293351546450885934222612049427057460471814282893345285650787137915381591539983033223646241541965858201449599843916515941838625648233117162300876442771234739295291005316273823915710957458372109453455940473082681958257066883465542900682684292074616362757389137709169547466978168126285829136523453370667307571298492581576519464338230126103672242668182176727575595319691711609035097668582820277462541996401524768489224408221968299961712499823859353127880952430106949955142128462359839781738577270598137,
  38103791787842429506966487763252120064741414574283119467731429036037799619116003196557960033703038481352616118808866436428251308166873049682861848166983866760950243459641250326378202873545514817400047520785763777536949470619383627442063169019629157025349634343652395542399855106702829866239895975293886497412540775807609705619839727224937100119341752691009613500360459658998448606536772497822390021722979856737011593635779401761093142625130783637433557823924307339753217146814712234766668587723555484671290414062937699310579378548094757585530909742413787088006127616284031812678768148603229243460004256692679840913943974136903241786267935681802440120920396553394426962635990507881807228298604052573587828156455874370902416392852823590460502012081589074751109852000462963504111086986146271048966621857493281723980711516597298070182203122338627834111009608826395896171402880650996430484326928379204652599632370916835068055986255491393630349075975801075502517924562332985479099877233747329305497324178450063271248109501968013789634654252635718517968097343384811547463]

def rows15 : List Nat := [
  56073514689075928013200151067843539586256422321495546414050425870729276631432951262551082791397691920829125740275243209120126571799958447902768369249984017031852742980648211674962236516180497259259797910458712136362931287404835441707149022867117893726131286821077699744890788191012847835594739717984896033995474872578838888774892636282459955617433258816008285867636839504955163586036046490331526988337001018876458678521482614555357390934974943040986851586441014804879342955140141701951635703569864594675133562266478211464919533235093489913520203238807623011946526510154322543553006003328588066339382423720728453719696956282859346607735664134529154613674814428607438287735229587019133033887819395217433688741553124654479441754919230095607963362251917126697551415171699439483272181566492745796024775380808944755787576093814383237854631849060538291456406806305313664630187074216472491288240219981233829695973018004621383272336913634526825057339071512435401810203028198972608887609549680622316219075157165203164843535887879490633105347229318111549055225216303850808891,
  9799067279108566112431111334000768708254743480707388850382062000100564735692080709011357643060217044187705390557218833230269527783466929919215564979474302414106505208383021550180091616605861024650492394310763901336271217460922041611078347482766274218874839818032463024656218322979205636660998851179991660063460080567390745947262364601368044242551556408662517856148212688956884215521700819982596894596852252481972520962789640695876664677044316595887264350724279379396035732115864427252393836262890793947697241688358513875894190802301903923066275404443730199469592767596787761568246824806736951097573759767429781685966593538146619182611048381936854011692093172535401555386918691171935929882993931154495514498277536158942803118085942527063902808409280049827369998176646779782658244204133504023798514706759382001935124044880108428174345149604266956421259369746408770818626551114975802793511595396164263465873206910753321809940586582134316565088914743381523074390946561218083253658064193956524673404314346291955235451953331343843593424630965349898067142714373448927585,
  86247308588817443755525769253913684720950720226663796528478625220972700906679103347971355460151745456507181501641143350786501824685142902317662367383765458377750726350498783702461583229770244446961135482414830509517310039290159927829354235647589999610398166920640814525661940123154940620197228075434844956775342027689159425105126692303485581409919399096111670373981139009746002892452923684300912915129176388433854203128298170537526050986095189777197126697081775415113947318485991453889410291644655121741944085836778979044938265512852785521788000349369724132559480562565989378988161952617825750748072974370203293728993393882169580918777517329803506617849544599187947399401223697704091403243271744269145320675636386350353801577395842590001234120290618676313480742277956075324361667612285995470183218516193936996839663743164672353093338286886801699877672513383839041060124984243766216489680986987976780157917718716511216965308396494232088193610922680982870465879283353582285499121898815025691411907246441764849900079830563096452794840838934058103135672474397963637736,
  55655750444016151778648729152127801586877786973965653920737039325661235654720662542221033635875762761324703455370787391033890415405590060652579516933193963910237647910405627884600475098779824775238394038036711539874656553738269048818418690683013128066279480757658140554597926295049904988109766565590810557918444606089893480534210414293986087339042980724137776289521684780933494058736348507095458528468950339072431147474192822868396574550477437811451352206084970047631431559446086390260869001255325958278040876318691590135906250562611041066464476527609740857709534621782744435625032264663064102364087328825749173753778266923390135792724216022733050628275508105975167542586052804179347749092481338994415323047762875778208271176730540227920782448818614946354207152657304690803374393431814591187798797642718925172161747575097383381707648116287723286214640990892029048008333959288111293039545579322748812771403496805665570323619470694280151218982980825593705531455086545192867142629749294417173512219115912304775778942741118515180232974812314810588781365695343117642658,
  16919501162725894903160386629047628776023852628361542747136699280883008812879900587133763962164962650720222561585097656642465993970486710477847685274838921329936407881069926800999715668983681362026888845825972551766781322896050919487329064353352973940438104949656794769052377673799037831765894343883477378109156675882037814394729288216071165341411187408530088641442453882518471678724224208405020073109247559822698845159449226933214482139600120645027391091958365632163610744446631510460577448284621634451177038485190441865470527671980501166669889725698437965877238885744057956837030857428800523607776833477266296182442378736597320138756022465498645621521180573158397670698437192792172530713128664387288569089937230558670501251533789699702126885334897968558965357324669501243578001612677808426905052254567518041025691747493000570166537058386274105626279601310596201880110523755676659005119224436599931163958809275233062494670718065350685454686404624011946365284808450876327061356012887693077637006630533039663496645065916027295458590105727622916309738161064226563632,
  85582715726613445775723277926784722005139540474788155645908190764845098568760906350855893982214729455156331733148266326865464511496785499398145781414512971701476354983354932343004907227925426923688348133283633927953050117907310475439647219115851818152372945561764845006465144250797760042600819237643942609600174500273320621150119417208944743981836597552833270823329825498695354849446563536822138325393089224254924331407801888958791857969122972730227507225894699058966695337656064645323043383192845159385573456622201401448560448494845483104606704195364715392483633854189892111747731335372050996340699172122921131160151441267793766775327232673126366873269853044712830606546745021459085855299737417087869569157868244611020506302120542395649281104239063551758923535130256646032821958076756663125043908678734521705921893445823110788408308006206698497972559806953334846478004554562484423569117006534500617316185971615534709677575541062120779935664666394577362002009466910532932731730903549522917613440479516500800549948173778914162264128266561609558297423759981629059945,
  69353468476269117701798113778249030612909379692156841149432679599903487253930318790787077869411146789116283398099162371226693651754408975080924044005973809258079767032446079296049951165160115097515705577383777797244656996199919004939721962617730665026429923804371350703785629566867286823080402064201899250231036565058514714431730571527607928879011564631094424439511014979344792042593086288694851894565862515487120564387307992465393128881773484703492578474776026401304133266310583669291013501484099550445224303870110750916153078564586208166084243780961205522343942363561419604501779336334950308822588729219273775819618352358041471930128896874942013905208892177437961601733450677260930775436296065663172884876118954114953748622951688044810969967234718564261679881178491316427629057121842718693255896110460212708640861881563895252063082573170465649332702795791258916181631081982083125169944296667919051742534944304730702000458160541098729405502885996710731690098104443879065843351244895307808101245131224255473300632089942309244317880402130531952800258554384015160981,
  47307637452308836975241190545799522719736020897471687923838407327403115633887980833559763815235979937724755978707876316544491845959320259926746534912251387343599419764816893321262341469200731740140702629629554485052116656918771541133976207105791805954548628180964611417792141902684320874664038349263141623663853008748251065400943079362675268137973395807173101288027002487250209670077725597952457596165092304736097016613075804264035547783275083436301496887032877350458934871291591218219155375639050459268232517179991564568374991544776340677157253066691385179958661240820937017557709468637102136053930532728644736888029517993001121653077249145449010399419301406629176003286328082567151968754088879929289079847654910042401561934519750080723773370939563157023397349470258510001728857117709626278381250640995214234862610541659978821754880038974971312803581949464369820276091599751770656264371327300335492683530600232208486939033160754731876361720593507522708723455017061579197493934772452058128180611698936698170187099330016691534036080341663142845949260681020670560272,
  55988260504012883080899319482835084440128234586732781640927165587298234087140066772661684317429377842225380505012880016272326236845438139698211226708669373440961523591442243428136590245800993898812629821586129040475754079199245875164954417225321113014593023906673635718472484771106087258129117204862152797607286363526670641499869040936585796763570836620403510233726753436927364527501421342945994792209262695753395011628969082500699267170517345697847228915819355798817679199756381484137058242853825476630009831001140367506952566469292540252473429977007207982402412945999007411278563469204635445608687909334307101734441926107958947501029536361508067764091355971672456157341766504623671628272813569478354071815007011844085257289607574759299734312567269741015368309429364443937935603052016318373432672150476774176785825373262465515830029048090699566572905015214110195303926431262673024072735552498588271298712594536904887932076919156210714192299119484078476566768554542336024325651430675324222928161803414098291191323588889776696362089516069877557016761627891910135460,
  15513607223429780866428145595536242195658530031125936429247990577433860688945533123288212685953628541051074825119437740282668566556403837163156115212354872610934802916094700302285817903168327453595072430122981885105650916718975370348366861446797388222805726124898686575081716853050890613252808230798716453212836518297382043295479137261658032193462257686129801068789377972427263238828373604879953217266260344077504263815941283177169523810341863453081646009170482268166111300947872107089434066069116397798068773683832492707911819184777359336277102685858644429296293929863967735413932227068832661892652995182253837943645505381066597135688857983390435102412131717601850075822937149616492614576095433143511691002623128480863231527772613374857201272764181476304962585698869409474434077589629319009259529282168974961075856239631677333245642601012544423466568686823656920158291340381734589148615798093219799515753886987860347913049101660239148587553598175307048575703290163473366068598884081373413165130617017262838744117674867464861092322613434263402694552743315066964796,
  29475773401488599503145340117284869900552633266265014260407950369428056148533436494721179666384236700767102773771617380207056223141246479306838393858549080210310478110641980703862525947891874392659851005574233204823298896303294352511272762283260000944323327658855732862520472217618447030143931297680155933848521896928370535954211166856554329069888777032735207688310317095369547672561836602276116587707033243690087610652144183555296404373326380058695989892083126094305007654667027597152831850110220447463213310381164490205666546526227075902733024630682516706978172020535789304518257035763967951948487541925350230228112374773459934069298766930385977485112971365503580470745367340098441747232352527760222675286523124105002542591462152939805521469672856598883034657427875253753423580793529643666885180453262575912227254140585767935176139822892047181729945702118830115133809567129567255690670916911972030299883841373210971863363593499461734405831468515538396216940150752000142491762116070381608900945735983772429236082916343429438845247939269604765685040248075262268808,
  1785386772183476192510695693141525778592346364193558166575324495225913182011141504599684814872093848162050544728049011998952239775490934417252266639230217294787626346882022913289704311902178342358745788499143993490713306596798916608926756336667413884787566999661270989216075381614192136567901942332448500385243495947036827567926138786007525267328548025872215059541179203551885442196338061616846037958836283875032006277119996682354141660649602289986931828242202310213329932722954567917521240687274285675934943265583401776152155426573351610305024226266924546429684478158255020275761945387582983170756079789902042012889186763315655871915820065505803565835548275922896995291244050655672303888254520036215735723404856688679834066959278139044474066925212637140812292399810587270402757077718615476380412889621249680657282726243902476515563308414129674487664509396911175739760497045036098194258848083134036355494056894417994573692752888945326495044727498351817508450020647555544734355425309914886091364197922786876853102119938579532869934661811311045606699423257398048857,
  18937946669678035632354150502576714830401510957163894668889412325350077366397210467216349122168448212721686309101274139910723954264764552785055710390150162146681862965912487517670927962680036443421033738278026453999818228878027742323378130894709153278275204404412142448235904783659076460885234277617902132186486520551431837897657416971926311085545063235848974719679328050275997042177698151524347944781629926238258523052984091468716784497657838852011980845576619299600649001747142967074508839184989334504684607655978499244080777248329482450997358260886525360705978166334477109379328176114917177696837543137175282506531497962700880420507164196226139050592102184434112455792251931979681281832337371933847241136350392530113483866209289076284114572941127266422022263165727383922804310618749833723390792257569577086287711748831180752598667730448343223556233048967139112827117617031648347630570794033931349563318952573885969854775633342459459717221686703622263783457201072185633564474392401435031329367956153807506006942965208712615303689924851074928096542744985324893531,
  87961231960587942842325980461071326612663058604668548076362593928992047699398648794678436903089587544547752035607420006617730027784071783827795954500833458217087697667510604819663439996178714030892748962783516228354249709865367886714052822069969572111051078609610651406377014237476293563856578956388001886895269816446361197270731397180595497366074971959552979165308965828331915674805627899741674774299157991299133468734585602528770053935339268872331925740012801979925191430219722589645506129794887527680362446976045156241564030420121182021197727541556409453923690837518025816594779806592691078253089395146262381492971973094563815615522852725658416326230161346213206742065997508108164180428147525044056117431641531850407433236411752013599950627624975115364493703535796251760348439041714348993731754563126179491169042994572605385617301691523178039877389420236771925930236203057640677765510971400121393907656133213294173056532148639342367792899845685637165185653684838205305692199083682063920606106352166356247901238787446762256651654989865030121496726374182124954776,
  45600307585125415448775967241586088452617643407375109561347434557159923168620604039358509877319617933227903815593203879184093753251665848511593909721906432084056445218211577579913945448724103066106890066037429529766083219329034303927725315780306949851216623329824830877267256405149137385219885361955431435306799538006205498149304449834546698663965840805091688944649646733771972035347587393535379179514554816117871210671209833458665443319286548543721024090402120768426361507027686962054405469714156585758444989867346676442174382528830484196902294241098176598646587548831057104022600280598793818372384793456585126894702919372625926176716123225532339515319874134145197927086285022980713320238379300025901566990161072917501874793956521842558501872679142827631519797950045464967166452631699846015181247255399305201099203917395921587034475110563455427015450317879868260785883970632246203285181277173898182529533893766305810023936717016998347320310085095108699157446922037569168361172594242289844634792299240123662884497224285948353930634532482553081185016057914100724334,
  43041505195681351367856969685334209535064978409920584710375369781464853987692161159374859881014257094433207202100635910670178971291600653051637787325473994778380789335010615045438379537136861050462631822017513177451372808792875521128067282033770785263537667054801924136613754564586530031252775164434092153577733205872609726853615265031633566310711689301245673403149048760468773151545347935889680119845818613717401827511352241531947584541497871725264582356455022974500611545638753238422994346982117993629192502396132304709796466603317960549767420181186124040323461795589162403244593766262842070861445553141888698476958111270804874704728666365850179637542672849255595297128917213502921864615644736553976714528022391997446890637544290049755497412634024807136602895679701917228485127221591799706254818906210672461370462471302170620906969541273572576843147094119980291229334771841129365155060749321403054837630725544880904225677146468752761447459325778169017337249334178475606848339145095711706995027639803072630467042456476362298026061661632380352653839970750462380948,
  19057929457904471632970112418088783452031049186619389410611616458659939751435690781106783129538296591744812378786532962527467414610777191340173098008155198649427416993524629700244979610305271063329943501156219886227800546022524593880251972973859189179852679633618403039071726492738934183587836592692762225124810895563883750502843283870606496126285437938595749280174282198605783402267433159636380337552329143663792253793814716611530181357354611730601890792146321021888643493247228409246675415897545307532098385943910931220711932834101598177011965229634380607453200986376101266743449569076014900966143482444379541925500847480711946555892184388194515861909013859483704302954538308260427311801229783252291223044504803267026711503775680190792928038250519169512050562746675655738858262177416011179949979094124983506871095553826664699054347359916834913548269179245781019687819246995985339962048619338802346108569940727861144850331995447498262331019647900509756304129906954298722807899747509060494676804750226201838494575663168504598730525367758920318766973688952844199767,
  13611515534583006278918144012363218394434464696431663859967807056640486573390702567606198683251804560973935921675954228236535165972451805075889249563820437683276370488477130409052787190320158589615345770511611315589559324909625626448377263401543849726313710332980321963172102012588197216106285682915308869100178005184211162947953612436115432621963587271217211926508134390641055788025174422223703808755012484409925515507669267195831588506609967665776690049254232666752278345984647800694170461095331354283891712094919857453674016178546484925505985465113488205904576921605247199731922206282713056073774364614070874619142733967961110062295922324785519430468945506836169193552652680785599841984230446075507314233879555100502553256331909721071639268938464448473753382041769209235823872107553198541333308160163859257740207229180982882117455807614361749716408114788411332751843133087470596586730692917307458064494243048015771169994394424943163787477234950996825214744796363066851914254444916971899680707765901337601173501329231440608307676634840059433370864875836716402171,
  76912972678825727071235263096898423361215293149361854492041972570755126737980845142343454936019975825767873874458280572826954045046061873234029528369263326788297450231179375880418341106081740810312783928663601908604522944571655930975262228069273613088508883004945209930940776795913984869507701003700298419240333708094997965728955662599419544403374993285373879986667431163941590627375661133892633062237298174582388603008574198126902883342105681735783809156525516139397394785246449471079953870135481437829187600290218653766826962059584944666986350223962227149132327953035329608962939863855774012786655849940356136155076526198523172270993944989717147889514398207235202344841878226653175454879629432415155026639023072703434715716966560828850721091394474252069431236682551003056810305937901402704042005300914684895750585173290497649180959691930017579138450170751944268179551271755628297071730121986331314042219787040558158928721332759662379107938091263646115365628592780139409032260825442112038977070077434004898535389593335787713635932602157001782555300780614576446013,
  49441108160415238819448159519875689893838277001572772681923970974611659587084866776425796386317568418670132817485660376242954421929993788203575068481124007250466639743285572290072696282854183970972233485730673820725569082992561683855593310654236855814360984758420362915541796992085939573602764222757942739421477916073310469008215082030155392049293365771357136684764261572897845236244765963608390181351949185888865687112272417537604587175608105974359884879340875669774499039488524184701896278511936999556870380850374100806841526185277563100732226564850727218744367481300094781978953440883472059380821077889708594945754461521687659124921367480755727064078711197830244412844418952609191892485725675576373294159100697745749855962231257648535122948565667531672432493525908945803219938128598803318238975709485075998895716899914013707273266514496115667439713434068976378542570160987382174293027670116527003771660824319888751390846465052465136848299597024941703359862281205009807028777907235720200979313539808633093586297738572868033454019801146256243898502295640674133086,
  99669707149359813733761191044266397507620447180300483254097983184436400717492765180273579387645068746679307257529412162952854669599104337920056401934954569636577603493106791565239644830484718859204944818792643923917505508292563352514365962220042822338488079475744756096555738068277417084623923037972970192509211341771019838301452109141157854211693929903329292188342155638913309620658156657576104273148926958252939183957412719394559704719293471958430539395545031527641839711156181628200402025327682752872434434110098022454134545632924212632383760284834915744397374352774257595268797889268789380256025602309306519544864404969077758730886564614156026624618139872750706364168344360268469725555568964141143079145131261441651325491405818385028860004834627537178064132692605003586340591506930843838358341632305128200426234496111256586086420310968040747685042253495894277863711369079015078906854730999765554605559138436044731963414087102888845796960066906065467537583387596956504361208683999908981849153730839478441313069827949432194315768179675904465701249300659265742474,
  25930944964396846565431767624478054371678566190944349499572447470165091767734905477207638107015627821724708385509033404910072007727025425944684714518396361145717873797833161452304506348449693914881135684813406866712402749996335996810020424616518359602556483068797966880276538364224188190907589686036796812553292221390884588237582535908365540367850015267794996777860808633702278642489130010192400290965283883596815045584497647534881306736988761759290040570419012987670303239623151492991341307770540480282986761309611329217627078474360389005558994448175215133187363184834815879954660423602033044869058850439763746045920955394206572395841173869524623615100133475961363143232980844983478111122960674322396839558940280885613108033192055951755682793723140546238670846913458320262546263219535239313860020471622945645276483842856007834333607332211823027058600117962600166763838385292293605774274489666811429349157369642431057438791318815263493718538579444987618318803741534326621585678190247803054003543331843550877808837784635476145658679951987163808607858154533153243517,
  9817965949125808099162151265714273234085699763673526499430158925802494115791486459473166140623715146376686368904256283887731122901639947495817309813818914758072221171340489420322601195652501158424706467511662690576404177015614389194383263766927183299318901978883876120216247300553623541064750421666401291494329714252965275903793432693833633999887444239229832407201692717007258700969795557977512298852384441398713195171426542534325602342859146060098236829462862563875613813747235003210826765321610916280748473037198075246813347496951710431404478452646878400872177902651804273052575058181858091781088761080206202349397814675759764866870569078333586841093645510281893971716171942478753879583095302659005134011023353283545538004300255003783369123282242492878776347988116089912735654725133748409591675029604446559331841410737197743620926329195165369669021794123429123807557536361959153418287505427636081352276819500418209630592293571576253767532299480784881188942211243805558900635279061629230552025650144832472472266399660133929779164430084835195623548855571793913288,
  77617121110253272918671344806493489990111830715299176465743016960039077501421797669740176923433893614069268836282484601474332395271252597948787901912565141355136633132291814280614814772575874933511622588548934186304600856664647281038412567144090215910712414691936653768025332106068081017541001276704127643565034467187632025931985914176288654444943375627470179377718879075450693462226284381489058949033985026059026390264313696935259966084163042385633115692069176911360053010132181201403132894538736944448127821580918237398685356741306313367497156430511433906070294481933561532746796733593355719284624287784818976894401561660931902683917507264165680737250158588669120226273799389736917372978173318941883587856095436420351044158185642865168757954976385865838573939100879895518006178504929126722736451351276258541255220342386469498647541955330489075774587324444883528078081041774825151813790639537122627440385944371493717613469402241698435877148943666794056570985577226984660038203606660735119967472400158139767577501681886432746655373077078914090040810692786353981130,
  47929489274084777378489048536677068491599635556387223384199828759146329462204452701021065400658523450397808445938369785200240898403761911197634298161562147635115639913254099590788011560217071511521468975880837609303890357093482189254366097974115267876687964518535676140616769353136314122897947937212108239445989894869380703524197258696496174803961686219573384541017726755807377114530939412028431278881698682436448780063021790944268118853232778003670717922006488996447999009179454281563471764063942539711294682474508051621854225546343156590283146742604265697062281791196453703763380222863024721723526924948107383423218847988441284101759774696365557583421404643478654864167214994064311923410562504647495862037182487795329958018042092902588060943155836540632175219485036440196738740070141082909897798964455593903390826932125499091886657478980861383029977490485299435004010787843652172122194426850299286932848024939067390078027593080561123326514634333967034977556458904930161320161575127534387259850142978345786860178153500918972497379539307189861591705612051087974349,
  8980248232502756816023789436370683379829920054556387914390402864386906194011180689708754329017837852940979289894645867950786983873478270509722342579114547690182180793720439796386714139376031983271760521476055473409229279649789873546431323646196536371771498166366834743169797096402285686993460795353963813502785459879343562823460371598253344669120070093313524805919960418073031876253344540049292734604864920474182498189381861826240323175455618538115889108320877332655964592000342215507789017223504671348326358294945348149661022503769209863415534918752646936286454003702128944395339255315027071110438291813877329786694212859707863006286697782803894729169927220289588574195732808569200928975152311017181429055812002532802048622064842151953837308584531170850671809886578221815931157775357123854244537622637160759878151944135169725161359001881106770198794241272796602598879141947439825727543810653306975983845539009809083967885259300278071614436962498107705331468361756948741998862419410285549367987885452477479844820423481586260629265164274471651337195260870256959477,
  49428190956797188920376330490239798090422247499445464933268844503182089526835510589405402582816922248440283924909218849446605015467320104901142231158484730338071750090429731710093913404615115543834927078668918679274162810700411300193429173478244691661474137364115002021711850255191767814797355889111670788304209804224051061939484971352562511064445645212381828887028884605304567899773542736189487442056823038120900891874897676056850421651806142940499056812848440950022065571629116739073585731286274543486497594404549266255344733823704193890757020819073905421099873842135066603693383096907790105411518759701164524106720258019549901189156765659841595887797363825348382698603100606894932606501598046896290504436378526413350672574132700362288685097360534137796084331933155473630082099597622538237255612937913546209399138431120909507753528442374229330288765180146627622453086974279174371345913995891340539487699483130529821983650989667295166882747994742565309930009645569855589385470457004038525251153162468424258272297685019042124334233728571340387469068444201099423100,
  21058544136460462082074243516301595576571325771062474632461958080219783386928631913287550207912082229615070501209611670880314301954300401575264039802269590534014151547857436789765664886529712675710992756149515025971346597652132138173348999589095271224314030315763536909416782279553842985805446769931087992777181459975169357977832334905594346580107443340164229098013884575613477071818373492687912770288553535219516083092079548970684595622837077002189962063882353539749618239268754205801520442059642249175427369004578754245440257445531912891349407012183175301778057200404764516659875420201723112082995709672519314242242152292936815323313619037607007711069539350581900985811472564912276464351683622914538501371718759383279513163011464367386976691421616421606560380557505130789189354887396688968634384276949937603034539802018204675471889842506487658188512660919066464844874567693703436823291395489055717237183018646087153739195935393955859928187026327442637007208589036214846714385694853888478416867917030088164172623612724155478717494843811674947083017692749870808352,
  88431316771877403423714852145710148119798332831010980921426073435488958204712832049001602844600453187496901496071288614182441485714637406458616118774939385261471741716065971092638620942164635171466628693903325630129859161744131916083560219621410563167367393184660534841436919212193365513882370387855852122560792593072335359304123069744522803672096483808301281180501345811367384299965574201863700681440846369392594375961978590816850721516115994405089679474545325290837998838690194184402320213801954738474548328128549809594853477882012751457979318200674802990728724110803787218730320106082282850038348597115779850872383803946123061760108309456160408618294461440360518556552986424306493841570045555694144368572575949733847305859673044099693458994510793212458591033861367584513377543774223999771598635326480983535470130197689451090816478326723510124526392006257046159410470913737124370414992778008502972654889235730087309879658603488167935958924551160257950544790568488525168984010160455728594357024155722778498722906139804144451442042794484911245452652152569783742207,
  92023617265864627237391018271465408898084664983462459312763318376309113837050850081463489008952721611626895452814859467954975576441454773894250246948264734393755771389178485209047535870973540014550816986607025410224876421339964795944126352914930831713541128228514634907348184809840190342504961796258582086334466130023435108140347802615851435992612370667439809730091059173803865648553609355097709295249628552242577655518963400926010685928935386406778697361517387863022999973525040687195629087203967076344990083431871834753434227194262848749612179112997003202697366947475238619840474428829537559198246477897448695344739248765443436050453635850322161849204307332003215685573916694266705461270125651708986191927571999868839739398937221772277363121205150504413452460363079258112258763571283680236620088147958151669024367632941396117382978415474506494522473352561670235520810571814249886497413232686497161549023306601418387207069360133869764754942697548219239218772679546280806166226662393986276014075632669485524257220891753307353032077451499811491418742055722726202273,
  28158592103350148769073293381408850481129266094351096435748434286478142102489128516026814056908802523148408661553397165112691374079585673088748424851642349549455350027523320471604186320085758565413864438931546082234115545016058857715431347714681144432747696121008687229914349518020376974734167393188552924336127498549977524289466343793404254541206860416582580528262486739229939870139193287970224538910548015001212329067404691157601716842383661835541857632828630120086332984805870291847563107310856744090385217688896655385578750080605030551785628985211923748719271140065963885981600292409861980232688794865984251515311232670537978062525849531961665322692353942903843874836098544214215001782556223225032871624746545582146310019328023925641406112974634688397170170110020544286976232495321486921329443889677099585852004171488926249901847728347462166669842192652233848779988527381988106362051704384392538405457048098669444410555300076603839301234862511060605546076442919680324745722566223157799958777566354134241298063754740471862782661582441396061274278043917082771386,
  35517938210811813018368565070815091337795672496142121576288573108229336477725557826882185190210289341296277074673008686181114926327308849382884670615137192076283368707953742743446195222727571702165042748158830059523869224096293213845882940139491863538430147752319760992034244046081476868792580674486598721460750689119345967602886622167660211706731601801269012465097035528851047542862715670444136782433605035181556800334710435636420132375257100256674033482436273187304173294393904882439751208880222094508892534834401563681531883109614167003939852405620658964221160407775619648182348071758760716948546584512352748340409640865704046561502291041725424289608197082392421057802856938663834690492462879206141751500144376617473218951687861559685744442365785042675129590499108687912393651954194809178366760450348479953362284213857326697775913946936917540761891636209626567007798385925377962949519621697004769898669703996346217558473419672648330477305931779964317933040516964056697834668455471007176627375531572430670302209658250478415848855651641485526874331634606218032439,
  13250971223304179592882108496138246340056763910932770284565622132048711335748327847756941045084667057667059479664589794574507417829066161447934340421628233134226532894410733747825253989119845506477790017328674292902798216554240314933096374112462536136752054097778268248191198218541688375984374469699565334554943784112776574572278042883472308121750769926116236663487925630291361135563777964705298654592778964844904920672872279461310530572087888242163398918155645440999488254459270637531231713608481850441431915853921535116949083501834163227712102167192731895355266596414548712181555719749134439120576156966168121862330752285941684288401627942694674717899461451845714913667499542749794769693950700815814607670570271883413527650690580115711529926614993194782533799164325120920817062389607900926162093891774715110957207308387648065948090921286664292193093696747609633744561563336751560697907065157542927556487779406061485599592719086626458423121805866068122431229662004268358637237238883082818512534652802217206449765244543458244314616530266331053351752440668603781177,
  27111197514978918975410325275335114784319813410397646103793509635401066327533714244375146196124856183012638643728045124228002197143594509056489974680005132814545926278503290917536558733607811612407724781390458051740123825428482440215771442932989830443501827615263306959077108063715510255357360683483159369479536123299616818349154433587471993384053901708724818694828553083421579697494640130757889446090610892755645155712360022636858666991377336712394643528399176115165635876109782376744882783961939670305425770439510963017478859025039004562537206335773372707679107917150509500585547508885056556693678183445372091666818829558515118416411114064355672616944467334775648414754884510108578117403772841234881832052118036895318676173287274989327025424214218552263021973219501685252351548997481412920305168102252947955837334952202202572532429843908052535488893960946331094832770396401005291397847819323195037188431458001745713544935201701561737141844866344450272901853285525779885820053217060565133050923703454419333032786522302587695455449579546230189506540773711013618370,
  13211236707650282233555423916017448613245258555692991642255597299355385684815077188539126746364191765996019833999636389508824835747805148883986918280162934020351096214322672360659345848161444391524432154075677301880908212482147278656276757389469804426175117426730373545473448175958319795474414116821543718159582094560695253728010074838276973908330073703279545154915288145529598363164176928265797235565821315553063334074183799852324611895505346117496815762531053839242429009380551784513561439224871082384291868681948770186608690511253489113817560850271286470466534419032295915724101320573557708485783164478545784053472427255503983887556047487406562549830075546009730033540556361863102578469439061905142305947598890403988662165191867210853796312132603029742786864616969743042993404869835260380747356415767240932725718456976996784690662872835545737677115122153777169097423344729578562223358151893422932098756438663884311587735821447875209262432364844325907571377005202640218626541067103346849410991266648198024815638147640420636416466381916508205138992753780411930587,
  47531557669881471612099101268334393375455310168472146625038455096451321707700333577020877870826828087739892280677710755192234220504722567680547844879504271168842947767757732791560182377294572107954194431122608050622964491236402681000907448344158534243875640187624470466096680820079600222340767694517144726960878723514885921994867215630716657070956896208359681949147494770593502774900571815386879003468366539524428710841491918789432602274533763827972819405229678221002883173927727270199499796011809489278824681494141136514433063781489200971603590798399615056388969236235961362169501326842052722502170618352255127770168201301172283136237260710053780466072739816786029348117472729899054855583057545429906628308321658400069769530906924184240848796978400871977867095756459366391638677338629472361302509638667956311611204084529536691422894592874982969870547287208949182305995725802320645208176709135184959582822382958073138366094433429208410735744428545977005476638090135976077488809075675934667443716254749934486190559626436179053204045871914444630935377448387674961892,
  47664006279451036967173515828046105260036562568757902468131259687235222082041692420029310695124712504352699213903913107131685477955568241308614340233733003563231117461066532286721145559357695428078130878274326882802176039227943632958692196665993312384092509958270468211919264809224933284165400542680439263556863089035821823754619282673325606210686710391066334620366634597471682348364909734592139674305012001760932727004106124522433916762528718966740591347917184732342379394379864225438461487326132155276598901133048777625750368078047080746254488746320597687866927672034873154994207272987835749181165346495352203995108927384050036873500947561555439122306971751228815056502600739558952599843782566343464907192084777950320330341878557449461035010394422340286442882846032967187284500482531069217732716036057564969975718965557368172795483127785176150020832690312055128757623690000438170813713610179288422362115928115418665535995416348116887171261076750945329737225664303254859643435916294017077682380215419543033316979415658974039711762262674648359968187120755134231740,
  42837781205191110539444286927862554442154673119643772248424253286715631796419667793033037999437928360841867030666867915988651175207491276666864139209178983681628593592892517995481143666308284175580747814293117331516811154760168386183807128626634496087751343459134767595164097998849749375778628690007299601305038283413614124568932896665425973179525366913125214385916926994140509442802815052867916073805473236530424568012514380573890664382675157498652502310699532833576919775527223403597117117544835375311261019459295994641365457745103413512968339917743135238914897400806021376901715523499843514061856483968203172603585158027715848261944965674976023331782562662781242518617688636014128821061699931859406075456281219427826135985262618511814678447106405375929877127849668350559938497051208264847307300013910049971822776974537920038380165780508592611140307528766102559292906359880583525306694687653879301987670693639205703114532887722811237004305894367891524032841248647129999385827072951415846665992490026730447579675155647741784178673388474259926392985099907565726755,
  29852956073708542382484743221130839292250694468143990145799462783383597213317687448551724662010012535763665654818790562076716058588826954325406940188877647996563854246125844675257672221830735874785950703464301995701721724486738387087115349066316779732142098720587860436282155222641405458833531443634229458652076689325677929701636424095204037467502002865025745802117043975353897702870519718901759811846304640611772306501446364633395067353182188472626919803551093059703036869628281413168818484050253453907157584898956522628189008423170678629856250038123286023269676783005536791578109443976868921845121835738738538054462199572326793809449665187098486127172979546992132686843552325308802135246069284295008464197341601829955281163112320667339952632152933096113085244366319249521435310714895364997442990918761020696465311546552078885789465336928425698628789720485963292130134959376601372268625847632749664695851412039468344059030996486201613411164822771831541886363393276064992071764781325913114914508094734066210192946078226153487587040140814189333272267521680298428395,
  44570827658778093827772576112788310737176665669478175185548546474804264649622297905493382138721611252848740075326144906227242529020208831636609097093637026910564651197126395937564691509688958288826188643415494486074101080769577565919595865287201518117098109255720990211130685708818516877169130372364561680973799360617092718939596261570786493685269848077455048108735411637789278145668913882189549444287768986168483368893978068864289653310726021607126345943019042686285550394315530245675610732889447818009300341979494381824305594984749468634164399850910194540963819682889621330741332094181523715108837047682875701676118004737828174095244495483559300628708655809987432957350688802240854859918965413812437980609971572561295796102722123828740567167021903146715859317324302805017682055993332727843082734186827289936542125225810276331035991484558836722458631375839175239360893337356621585029774376162583294966022176121643955934604407064870248380741147366218471863297235814543295901690232721500341414214679137594886058554918327205018992279270112628426185984551113301738642,
  87106485141981960581019186544515088968826704928167363613791108394874564794115722053789750969995516448705024309112711539861812796558492582315945067011712883623800667207938940282155726962199446591630654288161478255176027552395338951078246080363319539782123637338533871837688538989348318254845827412120472982368814060474599046612810330201720181827601225564000650855204624866230641458243535815964569361145833615724080994605205200041593913369882279954674277375517417518146801575723666745459424367216133211545105379989596950987437102249152558989631803898898242379382386618996433097653533185269312732219821631013108645129889121457997605183312318366351810691060090543965430480369292228694635099962600122115200824133075759605110600541182426235588970070508974012787652828218894020200119722325967873576396955193881699953491390569410705986763514660746314507699701606536672572888680602855338576213331404181115640128504910869906602929537227933284955211019709791144890142450065175174429238717114864644392507720131834627930667979733231229633428614003258801508227519513234397332615,
  9891581007130636443396465026241359217836563471684237980863964862374792259138477076244726953551506660588147580785278560571788510385671321902860723599540310926308872463027398777530084900361566470196166388155372789606363553596504687538332638841004401592328852536944893990736395055035258646917840859304325158733210958215214250252520128962347768072044852325169216235723455358062478037762486483212182291048393369357565399819839884783975786432581234653197231732683279054372684749929534042185486988480057438128317199802523519090901407917656086436451020938712727592664136049988607647896130051757014808831180440961322078181611504850244465124357446873123081568489426420869026723429592581634215419586401774928659470157080705642701471759052338050765617431180438292100027971078045686022473958850298463156208167065800470448441312746140014295765029555580973859936168084659763015831411787584123135835786969309831874896734764303319854984675980881963663900315583230322405360460020391890191534912440365722319859038088444614031322991137958461837492371610786084230596856691936305899735,
  13785702490233527726740628635502508506929224874139982185670516756897820137801518944367537447448497985971675002018702898142175312230092442239357569583477879918776410737221104666606934859361807208703137266522749799973910986229107113744109175964741710069545641536424490343150632592133130725656336077421782981802348641340176496064535963104985885110000847440620742359310074935594442422553803013567932461739309329516023804378876589306766388373417471506293273685390125412175220377951200910818179844059191107348765072735903796059480301079985472656557103336467556759231014180956872737451797932062036060983611619799741641341407771814955783131197197532629226572950273891058372350023029818446962906847256572944430305418247888554645302382358298245036121309634537833641101674960586338270821502929909530043687795913518386595223695903885174029457748257544026273796642615232157643569725154992833582778477351904900585336319669459614058957100740342693364969724426921267939590502201079773192274312742094877922304262416258713758983723196928105294571258410216493569289052622166666861040,
  22975038803102215720392986294914018439311640249458107897559082699330397529826588071483168813401730384326760244844956451312566772146857749564007188192063967014277840744840017350732953119938906573545674856213785981736863895345204908814203328866193760410492099630483254103671041167347959421431943343585709851847324962969285773860649776162965661875043929387513241311973489939840708135681396785358902526171576281033643867009709791708595833153890105645992811088055973612476380021812526997562475593949986004006879694431597997126229518080720265887340914567371112384076878936950081087267684206474150662936358473499325466686669262587574263444137904175013143149637809940644647542065921596280062714168648985123769563914016142491673227028296361824755459379826241141568542842275888897168657104758828962027464706715063980512646833134397137481485000791841152275809933527636639332675677096878421443118278713071327359974596562768450817464848386186435747376774263100752892981162097497635254935997789249519274436287981591632425597650907360144482339477504566096855160417738119143857541,
  62501268984332387903327345907557497428162446186288166654510613608125624090659906717159010722770612804550214526659354874970551478400444133359903968579565419899886057248451869866847845276241857440244340928028906188106704810274700144968157688702962305275643329103681523760840533658666831699204278378349098854543117562494704364680878662800311880300358524382829675185761143482345394703896880026074579745203149064458463185642533187325144844601651129673240080083174893723097909680987473449051830277152340608177990264334672979985725200880715990522312375690767501317364133608224445343153540188841954360460031079534550556747644580423983579412571822965549795250430222372408180825152937898657972491717528725018640061895053821783041196182667978245608047853845257995937379853648557028447527439978782428405785957911961466315603267863250574997108999039456622683683333576376100780086999090541342534124226853286895718847265087829997064304124143593967533309579345435010531785718368558632765042755286811639369724095171240734149421336395009518404670879655370743784871029537857108979616,
  8298428430134587475979330343145640418276893862099765413660432172651475238370669815639323523547928153663223376239216789295741311711881103670779233648136030412483431144291415185859162876392653575369677823439829705946769758400353098793430672618114158455443410309699204946282430678139649229627097248077570930826423676299647966694831485390365464756643095206773003930000538259060499088640095591880042094465246235750384899163411015741186678026531254200592502276107157058313687207028118772843295279982623719029994812401723256401325742956688343123404238163735844302540897091359762403028778267579951694193177956825840917889921081928052766584473011527501203836048844062384922490736605286088132229949061570452657207721274390463645623934217541948153917100600485382474391587253685284938842336381031342718399794439934272672435143673759172369894138669170181134346466697302792453626810012990617299091423059661654904202470230915104707569150203223503609785565290502410151654641294462867146439281069537457611651525174237943992892830988753956448477232262159065641978258691517313148081,
  52129175843442168142451537203408282401193811505698899195644296373883112345081392041362662849370284402376596873285815283234121084316032389884914914306163889646143838404502902485184683267813913108778290849526139465609960751969061833146822196375361719574131182782791714016412761254350052014910412794747525986874927471710303307627101339700570950367393239335924273626474221945819841344855108082597494725329165134886680637230280664759876548748949585912394254975875919351450817774147429596352487693596735750522944049805392826415682913592309915430569871902737212523988014545457040702454043784919014852150606343427492140202562715655769333611124267516568348313168361443578960169746256747398279582869891684999020126043324326352289512572776528041000429687520186972277364891860212862560111095596497932478334738246630039240779361928700150028393193802926512361371098850091053791903323451636049041778054705449110385942556486533298114018430592857544151292022572586898333406925135681068927539963327883993103417450717536267804964584242427521566811309759300568157373892796443523787878,
  16203682129029452664887928343960090626610978982753702233199184190979190999674499155784921031925289207753671588546083805602457444628915479730921454992356276373984095149102047553249394520283368624217348103635904207570180224455513955985764044567890813362563940944338750907080998935450495134124910879208192304355545593946245420529529669424801787556862798280360080989859981257615415530663703849815515356889331259804105328728209152680419188426516713753306966914364481095768720493796452294717574838003060745583411507741102438952370510674483036642835859144891455422981191362400527677132134313218266689506834068328318901302279067989323183593147889521964397858409527362365224114937167385150417942718089496181517919604029827901503112101185785066070567906192443472711305252151483297259383915066344870033019402338580510726988149887308622764471289088445597893943294198380873308910564408630282831300195251487737749117240290057724861054521740676353236182605401951636785664917505259713277112978671013664904067994479170659944888842733441507503984216236024033076825826560098429973389,
  73439649257993628252659433379082300163045367490481376585326913930356176198788212290254115606434444267187417318634560628776958469209447154905033492223563618012125417789041370439883872233695617041927679857913017361164838905167641356013190486308971288132365406750628536786944045362466766800152763910361889272215540051064177709998983462507633332140684311309712069363068726662754992695658383605840265586071204441536818778725309746902474775951672824353920142818977867321391007487649091520639869983896782659253694204250500944890016203664910002309648165718629399903192542869063461223651280123626555051895663765571621003218659274259655696132342179503642015847895617477947797336330494757736811033281986067473692243949378102805359461019899455513626648789281648543237187123156237213685534336831674119049879609832972010450134741217385763826859183252782144149991697893029198042375427095091431218369516237447659346918020080030854080420776054665406026359386050940002710575800515657464841529998956964809964065701343809738866059911254622846786088736721299765177137998535024589499725,
  40396079184221521964826055174261817511820690961251579434161853029189121133126079455274322802062537548816593078884854431513224586931959201023758903069935597262976398776116006264489745076281833340653202731974163614104088140889011036539114213895124854583681750269634861180832854921781535435231875660125451673722427096440970796668747139681862836147754271314963920326266011600185558920713120199400031785786986016088892187286538761830888831160311877925648003398888216680617707093187004163893496749027491954837615908159700263950893491610275218836490151031592603838779314020833657398658145638182627581887149338407269040381910541455304928962351254709628163001216309066951605634594856969497700040649004423339160837106249920325450668562288924447474363696038252265802795483726086113340837001052562090867289795054078168714837139492024141737235041888744798637345874718051833585823771238890757469925736080831906294930755201649414333458496189697219469197426001495410675524377207338628656557047296746074046522541500253831484326818696707209068344717875295205622257091537926466535805,
  41595335126579918132856227929640149664895834613537245985764496285686403171800754521429863265045425629830352249400805628018093039365309508880002323790924599698477705746638646954434156647985816735543263146213411386033973501040616961249673098729517719861674486468522821361936908591172423269126615313394759597146980873693900811225483045275202418278261177412026490136366764048602658784505314227443752637675754801680511181268395317576771131834411309521499072655600885062670810612041551623180266157951984800716589785971359492002358576850435930760126661735340557147652652487384533510716396055997739517549448379107257438749402252261915827983741276632773862441891683768449276012554777873239416978747193975672460407456305270796258260091618047101997308537567932446665329827434619824196782281718216601386044614755003541270432166944881405512134888125210374580381822457988976981278586355852249418375270389550004518928587083849056298146161662679647217867903799732800367527782904593196838462806886405965404875279030154601611521334673696191364096758062436684146138885658632077503236,
  64312379157119201120781919265813642650990315817452091715980203777064219027096149426038145189254902389145329029925738489293164881452455880979020714729565733845437750605584557462125445103766638263105461865207581465830832329589485664818131229896472518874167492989656498272852156389750105411422098274198460361895162153685041049090823930059570287328806377582743826417814995730264253791858597506506094983345383946736505790693529947457831480435244836918971774704940055324386051112549070984957102221226226063120334645712152362137976588641117899966498231299655556933789989426393209108388792583293031646436551379202931730682024972958024793134010598450246515050086842333650387539234972855796380549301949295469712807483803946779570941157589453749059668250475658412722835632225160971086100066670546199826690333556181036979916714871063352788966730330999134094659252797002193789489706345280622605691167928848149514737121269169643704997190385666356991814095252950306696497325657262121953862605931736900589613360610037904399566850533964368338536637025081058882223179843835130356742,
  57809315949907804707560014760870807896893672246714559849784112909421223638705164551102304088878071902949712051977510575003229321230217047352561786184541896637978750439616307073228151899026156431025438909980220961510290838059755555100441561341758134094675152680564460363439088555348296143913371236924796715928870999071232605142863187943026935353873874729127862027128596685904696632578085023860358285183519690871385539394707371206509698576229382750439581670800682389125426278066701306542518838785064659168221404075712893387409090551418851197621412670254273176345347420475643583268741335127088624856043989259544099370856323546567239738821545154554554012221421747374398769732477905914997243897394953121203024779624280688292774103573223142269530351376671399069427547983850358803704479082323090455796345654984815829901683356747177282608328308536764133092584484055261806343002917107291148070751794436658852836534329842471246136503310523678023362341435663594148487683306064404155076591906561668808180062219567251396278527253900137999866869876648606859116147583624221857193,
  14795699002497835131849206470006672984745430379639998399298370435357287568095567989406606139796007937410669996092317506671465062199332602840477387853714210716620062273259650441769010481118571936278546492446453100489532328694382420381316963194443095239630096368635938291327224636709418573050807085680806098572275757590779872411799430731982639705158144933839264130435901950223435579953123739692201291550608623100026161642442543495564452859998894544963333841575074705165705912976892294990133384191736878976249463618851128607296822938605370230274452354769232330416606479027294764769926965989216676210815869534663662663507198474270773052207568382257663672105571852146547654116825718652747526932586131234656984273859378893015539359074231262753214654767012054107023220769045821676402803281401817022523301476493669952036281037573077375318348330570610332630000804537933446882618991350002772469030853277451327939854832251907549287267901436900079560841038295385901778497109964498677426632325711224772731757139703287150975067269049361407716078046582158786143353305708888504937,
  98064124678994458976617217703906271309159900762056366326166688423129939092277438777092854312497080996808909799148145007913821304195755122671486501483950457842143412492486791620914457402663735455427553065922664817127550655329797148116523207928339334797027697795725817512555596681802406894057404788173997089898913565810940376011441325638416498673548186060839655178969125322965049408841637425718338747872429849436546904382401092466592778810030653815754063572519190769427598145452701825184087976988908812297481661700254891425167199428399486394535062703745913233274152715394951426810485272028424765700638913481516242442754750387060667366304869337076517050529251042005305407053304222700085747410361720809102101458048472936067488516016459925057793283155927416551914782037480869908769422359874444593331445833740270353659356284673185757922013030465405137410307147995204453558502835251366537905019675407421819390584191503358844461720731427224021299062554433926575435418156348398175722911267272156713686679364496348764736786512828023885406099993716893991693258807450935363827,
  97140084555376094805137427605927087357949020836166017224751431952664967896847021601041113510906911749282611207347972260456346114830744342977788367591238993235540510653265753001190576602447515781996984693938773756754919324640502792956144791113129008795805396014228329305370097737582557799176428856624493307494571210548834977061833469352445171538613872094204017393332175463632840275624975882681345055154416206048317796028808050786525563548697572812807009365139201179354239375825060472238847321340316055695089821131187615888973920919936712645896314266923662951217509481240730607929627146667710406661386017534505546933785418570576376613810892578798200723642438854407814370022029281308624403222946606767720467353643306404512016250920834775742865743469606250265123548410407208345845046078406924007262772952504863423014149081669260205706391259399263925034975046438493465927018340785863044122369600464150886035940782133894188994730628784527126873455970501512646299217255405819572735629873678933714019908509837836882784922124880898657173216217299173799180177274750976717055,
  22973188691401189685779298141557801618853111174212880772161668659713704514588422398590686113920200944547919448409572161639724422525688575562189214558745926822520639475803753523171340075281504000494464695564247520719065248896235175972100403533269469981443801002092929884563589352064769437500565599388854433650831920616855455615601565307173312760866859240561382448327440039232323821060000918926774850773099394834348007143196631046783194683900983351356163236925647536692951514597485409890584908243567135239442219366732357088193438741580320355924039602423672947951334117113997174066685238505111195182816277940594184249595196666217038045751497784567013392161433493096498526684126189231835301116712219725322532280611451312942319840094575089773601090281535811120129579741844657650203923787050638527695031861354430227840645276026982017321923095918108063578619854726650815052558840659237956968209506692632032458773020101996604215034592603656399692553506466929558223395143864074248646815912241862338764032250142114364123713121197307549404892929424676134692148568773074709216,
  75306004314427806625719009033376351093718622801935485104311659430107573719019954580904195399537932951334008504361803713067478341086367045422720490927777143140626202924163792989080012448291122333241947004633636479016373363702245167247507906469928960331791638876553752229622758996657404516608843276182968048947012703690882193128015612801502516774930752249629788794901651056653933499949181885928560380457044056780467049741729456279404929013456359233578339120624772614814561095611620391467586480293166400978472366194539238759075602044577293592138046857353827063118191781401836104268459627716321030559217547749256800345595303380066893448146462774153676625304881263658022842540497966353836380050403957784425758293302478688023186805618460251141664769095576728359811040860796190750438417516359688369528806960569491363376570416739310020299933862290369916040940378746012373825443099541075668451815692253538600864685805045220738000470537407264225509455041901806000989050911385201885546414187409533378403140467820212223794695175258635583843722590996040745866501402374298201733,
  61531950960789264271721678018285580262520696412670675095497324972953756184295916311715103033922231502489390376390911647892264553281125386253788917688150478641486853041877636173724875201263905819855348529156894789504351837911503660104086682157573144527890415272363374558012747105904589143821294169512970119435233337645807992755032673042415068795323191235972960981250681466619208608570788808594197015079956150893890372628460798576551054239850967593060890690578186484719755553411482776890213493860835709080797175461378201587088508669371085129595748618825819321308498728980529373338182336253252565077383346329447790981330855222992250650588082584297800747382250019618533514417895580004067950878900695083195875608458663339883931541989935028941138441527788163434865635278309378962788142799100325133433151323411992446752366776238949087894197920970869057267593632241913759100317824388703811282183004121878971308592205883231804473097762397792582947586680006797272605162978767439923127527510908486921201759088202453080130187994675004514293315174396975424406768035483041132293,
  42896657387736621750391248216902245218940524094811758650983786413270770279439798333838799677564630915636038231625915164298220489850096053547342221041047333162246271216012156763611938529683874206778261049381578676082939847556958636308802111533488512467999377090252182397452395934733512644406271452965725062389667232751064794170458128262273517360388736088536468578101299043567542071774684347507583703594799937343323937675147137996634047730800594028276958235121733517711754143843034600440203270082331414369131864833783502599748745635292528080623534123443854167187662027038407211284709817577781265125830002418310418150324119320133425377591213524073738535861728153570963528001569626731163054232961555927358743036229333425390188279212942068083150717776297632146500215048832953858938871291593925030775794005818700344587456397712427535486949091291416963076481156748764091206575384510750126792424517843479640670127330962339137310451089456869653996461092713334272777940123393739631706688720670999233674723984836240060843497392223694878305546673035446974215483948313624169423,
  91706275326047202175079419328840198813014212046147447259920839341854418621030209708919371857933477959458356037578102337393944406976131555670219822747153002340062979557260578952835589342057017479422904437950955455418394583844192240531769943848942905814837677010531615941581544218032666371671937313455427509271593119844051752951732234656957434013882862529414837943220141791570230144999797848927730359283459692856680611202353560074002109102508916510275609969008010530219441046062814397986039847064957128280353603597227220181002639353043915460113145495919406033658344784703934912790394386723820415367526874075321471070720247150779597120344833454740768863022000674086780283709258356081975371384846044221675580691619718123856562169647293174273475589247214109828398546263820512502452481660623044508555868974685770153404129790128699200941161799324688759403784883080150089973968299170982732795861657004332747666540644000139552657599855134675069139501469713443075362770855081332443812523228554184973939117071698989873965055719567081741594984262833612589729128364702387731040,
  84619549789891688973072609257091345440905196034254394059714728876096988278163627916744553864001235537502294270659777164984102354101698250335935286046159567595901455542945621342435291148195205540357378510111404994783859023591758011623909892580297033134747580056308026760374520601023335736402021969753403583770785989515236811814715701320297095952874168713683086626300121016283819659290450944826009404472033408114393781283939084133997646864631668668982934071676978849606583628951487555444364090790272085184679282416565820588460547107803439425391847021208654020153267555093224176730005598575345959272249420100656680715099169675196594688348936598370998618673114805467868920253919487108416330135707717799763985126729433502762618983066248426949923142835362721925614337572478449299746440911870147442814167638119059647970942109752427457062848916698567698534384662531218888076702123938772796589889250730287521962406768840868618424638674674338506913448951388018166855250166696049081754793320933838292272414948801010118360087124419078612955204219839339753097837427053944598178,
  26345644476073087634541510420756876649341415565105430076208618565883210508256280916043360410073995722283819662395188840564275771145458116431993238778652622210308969212367510590167480419926897307157066483509262166086186311667850987438972695680107300343373679488878996274434443819238545734377587319246273967651561222212775140614626901555054504463504133807493546634035916076587830507617747263835298183851732477313522365454097914127805622213598416114733430319322796886336266775565556061567363165441807130385517404846195984274259167602153739625056023105313450491521463601837643720101871275384608609201884042012747461644357732957254422688242600400079321689830454268733726010877729070055001103783713673771930876629749968941830717915787398699879659619255395940956799881936591868795022458815182515171265879234069454237014307384649090335620941188114584671948413140241258134835947436614411579487660165883946742219472280951054722612377033393363437146805444863018699344886737148792692374219466388121475639279406870959264684608151264256726500474898879269518062033627898271666588,
  56027330461206388120191106927791723485744229437941492029717284789362403370901388791701052788317706541467011072979725464246440706816414325322929989767559904390777594181108318582085373628190520565280749666483484220609147048638911675568460446439288323610742169776734395827019926555114912001155241168218731515563401899115629446591699508203337965328064362815115444817260070892909664087993378537962986144057884640621057920695877713791659851523846134611699780091992519171805272257244656561640994719761687878907634745344256877663202887224927047354802566765404148025009814168142748637468772141990212214812866864074957395567408727459256793652639444393759142890879280520709260298801426996442517118196803670337342580955164753850010281289477864898278022974962659047218632768338070897338968395074954931161761818919472574618959319070665132626898655418018664833639881568982498493488323199290579748303857584190192869191518344709237339458816053276649604630071651032910705792372402426270054166552926571406517828347119984680295012106121457753646660446863126992031653544638361575900382,
  2441617056953214311498489180442151443928807806331596498083364192026094292047910083262696496181719428130522066771582897304123009830023963546007853972293569571564070693485601331715262518913128186060648320444567076376821541574773248104683346466932536260052867591046429216203527139818164206732863522516926353383908649603741800561091413061371409496874309390362362589127706677247059801507592042123431721623131678099263533593815617697630150875684882568612428248081032245602695789319200216326843283053509704937162998597928864836688188533633435489745155812360617305751170208071587955539779524176316042818676849428885782196693072462249478635244940122396510468623268029747221616334761259571939945646879210501399673487865973797255195344470247121846362163315853169753983543835681978972532363158243819260961277692934558502507700968377161041109636012373379882896340096660113260337079594099858087085360043027973404475970894759930227380767667556704710944982224915590886221253420423498533755334122623598298201750261935396803382270678218700659690297052105104148974352762613409488281,
  49385473913936604106472991721232964976787740011246870762109801169372190343646982526502483958854121561939276922787249330439852137116434462409574845711369225654918844039271560355159902864552120842035344934249333062782384743537241170021993994821870883872219483629371951109542429851448411197819693126254628248255750599745111609734892340007207154330935652962271272368527701682103495604271766875642562724591149712474662514485534304101887097903749021460603235773096884961028752211271574729805732487910736619829283479128166374674155646798823954197845153544376454648019438039499998921738397282367031577411678623910921684192601204557432897857387407420034425737553391568443665210830161979803014553321665237212432722895938222368019108097547286052791725122267735393443075926694324101125319818004279537000117908690923599796843628090027372725425258718621396501763877912419382603672786171410052842964518259391370945026667100052962977198114122007914339482185821422213000285101598021035407615840443305392864112724571231620122307905982511592647104692117319473925425204492598576243434,
  2816410423751119033532720313018305612920712411686779995149547887710558427488678157916090864463009919625754110201658556527667055389582335115312157312197797354690392474245577052320631490000171264033146091368559251963770462182872034303908368347659926828244189215332025633445929198267282152926381062214516693205479775754659624048434933155693279146812113258342806683749560982866341335653073651887776016945611518422341850492878362092192650919328941017441975021326555071359576349165431480528756704084551541702774527360209238123146090089521039117332744842734991221988829390902422367261325710521762263704004772768392296608757048096553700717760803140964206746226136230966273909662812858952151218913362052385166884820760387478357941438476505198558983132220124958613348591610368799283151568570334139408329115660686414604405149272172090284190993041049982970218019614969018795432628023265316729092839342560389499553987858220059347474652386148241358077885084095174997407289744711041175692651598920359063372268682058511978292481643412816989272914584529622509554166015851133796925,
  61537227995414003089977175450331037272075177955832468633524564808492149395938578822323463999410594593520344596079808025381577370572565149967419538220570294187394967850391927835183650806011991720035416179006726913334751785514009559053678564404352796446028457459204699104623135167803878461326425006445906052523170966109414217494976728836129278650576125805612826218691129805294279425671508289415546999020233458564731766109743711697989045166170327396520826279241903300322757521104998378339752866293905644628066591081958096203513739755076344066647364012322398158290630631029395219377311671813662656042546713913444567104707694144494150510160389287004945519866563029010703787493269132535351331082582224528530230975813820236703835828576787576954329174552553296756289619283210075646672411351074974013669598056868421092714728563331765938475174382528666065186735597579312881727531877793782871560634156073233188452965905091524395434354464102982694487727438003009638604090711016721758572429754049474273310615573435307229265849681922474626208750801403703013098632133445024172988,
  38024690619169354019468605285393839700651548363421429084663067144013231283539732614015307687504491336627074340494337306118868920901903249866440372185516036237773605519913529677787811789690535611232366240629853425060373347869173833941889342056591459557980321747389940688851110615777218806415220736298603138039493528259118800968594497341390035909317865239521247589036341073744848484268927957725319270448454065731121117439940312766995983283518066647708605651557989103489345565118911254853082857830057070475909388257812045655863269826750963456346340485454245934841003494585231772919988938921435843968755580029126537627902427409885765283795699749711233542412933079255031145326346552169848146492266014137591331324123017494234943692058074727425185955228234104884590468561555437357904850622530120541805132702755903916353291258324250170664159258412177878213403735270738734876464006045482011785285076573193480088074265709769547794324045031016747731531631901672507761689526222195399906308608625694202318642833767411609001593457185534216377637031907104637356555228873019095962,
  96227341596382021993572120759029660673925023607432893323992258582826648727860157275317609421312178159213206745117864467457386128939539565324128837384459785570976348472578744290094157437478769151486025512366988265886494188131696322186874860378487691318500216320321863427035280588562254813780294404374146783375993938589255757008623152113055382214676132033692334777040469396345293739875561469400261874907877922384623302177683521088154047944335038269877394606208081234882674578729572346168013520291306962119538395428356720372750705549198157062864064592848838705007571451350409934157273695858349765937476920292673932414227107470793632330732871828190152252479112938871194588888402447253526735191811610014170392902191994145895014343550492352740526277809344518820461104056498113960928346413572659249390920738542635061135638931590836109740463736360946675372658443121613672618876650579678783336282834823407740353370772549099382104772295792944722250836401522882095890507678589225734274175291352738809908913373901246291794665215754297104107832410163936749974236733295241642112,
  71184322861731916598498843958970838347924436767871633993970374741344865994743580758794932482844639549799962668739502127373679363668546641136872677219715037803144881184449559429031869769493951805970703442963593749997939254747135478106817464640217046913802116410811827190282031630800008677878507598417156765878021098698297238018572597495265925267497580701503023786767182561522901428879745987710966775809963069848472414617143857971996250116996498590953878533425358450035612777151170788704398275039915412674087133874420644370125933675039743107788889336451254478971983027096988156212851238190527014653346612819550619489981054595563486615416572570129789060696590691600318228190600298950391505572572630097188393574472554537739947765521475679961918520591826183565390018578013674869638440380115388213026170728881056970142962643054875069933926188968379590721954731795140068793399004483591466743675791793606980117153133328819256093610888667450463698314354333560080821141892251156571667415236079371720461185224418362638204056982464837144940047888639647707601008380227163583375,
  2792276340124667526362741048648762292888360776638733007097295159740980921399768378026050391180319804217693955324782403584881586938645190643136653605914823670456394997183457172889906084427322747894268717548549275493589789710543647277262011099673350227054214703963834609354210336557318215879489971545158978595890083440302925994432338543839065656325256962696532233093154495609505985538277495807194171319141481535727559862012488500952707700556172897074106633581938952498509683379626942126893080230267397654197069422704010795733152646190496490239201447435073699235251141127933234651475161894587010824312283989856254433393236009396844713479151105194506784699805142104445666233048033864615040216451059648492214686916894622350882876781241772554106001754879653748518358484944025880094811425080829897775050607227843722846678081896172353560324172063424981306004878945447508425279602157740949092852890454677209281196283953549126377950188400192718575307048961448009377081049969237606079733259398833087722676748911191458320693147517211134961474409247240299412428186419840014478,
  23433776462253858199083865282747227663371430847204783531969446353509733203621894522913878108498422813140237654013739994063748934803507355539368142379830015880840826429730080518621598311878813805466885108478185051492613410103889168935641516359233197246945179054659977117633631928563549446308390275937177996560473927536365677789067584708276627813974318183062394345303444996741701431990964046698077944594777740472471390122652888781989636896110194100492915455354480740579049713868193456992623909580231876335546425643206488017285869660548401241734489010380992825034509215127805726436728265751735078797883979163399549610731835752452080793633076552022881865982494276092115193884354949841440793833222104982690835567378044713083962128478279678069955458930005581538962620745210729395527923914113646192981637885251684161772511264843259455139721949633311403829385368261018751329195658692792432871416472714999752338142207324898754213043483449843720302810718629766385898551283315320581530327008233183912432115571772853497448456044800684301045335176672943698785461962963409525804,
  55377479806700682351397227766124364335021596425753647853918367039712129385666012389555624183776659917553315586286527730027380704287133241988212338720826380255009170061483797102396147480396843951924759053883834438374505793219425231204383602179837068711893205250748949441234088194175720611920082016972236921277205055737276330665584819072253945306886320738521310288228579668384266408380960962907932113806241467712636976087499316445269454127010545516692582442364963164299622158401836206005068885913716684877761748709484272550197498134374944586016010926195282825605406792373529612481324096555256784649685863532945355784780867212697321314053409780009968283726939339707863231104442405076280094082221248488456987502769511545398943406937962068950568773400984502404174363619195512849634577204296875356340334411856156298729106392918778069070569264520391133777476639214378879440121922474239591677199345049852740195816084879576116993800465640569198554412773932684635920682227862120188017743874900468206639199280243420740413911952423202188497627856518356093766183102064894931933,
  49951260983846954078577116856402573692089938957517562800151870991212175798775015326087183021276543898241327636762562675504869692793485470518868940118145347942631447180163524823112974829488406165868200005491305144206577389148792547881621819696025162077407563250084282752633838480509488509675844884691737312565666643838904985139640342377468604138072192979105105801968602216374414745527124601811577449677546661169486201743784784008783861819708716663433715049950787441367674089374857284145960737158989372640540235929737261977933814441288878451447493705930713975254520156923411081755398805224929380793509808272417274327439487039591155434224922907623312154473842237379752838055070023866417368313952075541058057503995448679201873310786468038551872364670921416001620194875759921028821660476679770808879858538446146739442089967132573343919247329584942527390697728004619978222911807947207252324363482309977647444860518206511490243570747769642776687491263816451846963536862863331360881476923490613572637775986678261322950906109026872450684651464919985142302179453044043733407,
  86656951886859223607192835805767557511461266816056046303087648620417014403034794970156976429826837838025882879281970364841516055445822719385305074295942131961926476607792160346209583944109722468185836197971733712656815425562660624837984924172521504922422600545957583970902908472304907286844576040411367102040964501280046476116708141587947640723368124943914557882678812463513786796993328191782333435281210810901635850567598684841115430334832946584014057789242971119803252413994960248647973042067218180994153773784878723314316584825784342707860618345601328050194346082900656585829750599150672633180176864653040148787230350895177720721416595984981904852244328594302607721101179290513148963182136749177638776849541927279234161139838942231818448528278729072924347630454767781355667368549875884399431786558335715609558984956996657103063618823820029015184050450939612060159478690589140217092005365799010686571685638431990761172038458298859815921310627383247997474358643303479151707043265347183240473302726281742239796568708192329871949753454647666778194966119873644686858,
  79057350790991096551124661036118656488336130627164398075691215938702561484648526047360029378356551020158744562440526039409527187388938112027897217886008869398170192354177921032101895217880706282091918619593726103203653993867424786745089935874161973650623390809892754412173851645812845860124038160554086787206798847431420202627140842586821077316739227374819209065734413204685519554594176841017526495827451240796416573181555570643279914076103655971519550298633581547801530023292192884972452875450310111644729055889963484977618677647663294605635460951280446564303185059235594035483979410079753099905279058008102867033895636231606287660418963481805873562170599758239177919822829262788202375766485107747270799614443301798986095645132179909011636538846446848882947228121112659945700937526021582964823910585773521810833203498506434042613599100581847600042201416462929052363734013948452656907754072408105071347944932620130874241813636217899796986971823721459738066468649061218235882720714117618811763496941238583884030254035626719320697139542707999414310264749991292771429,
  96055983287105942334198318616348639054822388630440199862089612779095065381000218599225992808530427574825325486939578397838127229525475613108094094509921452745269493656584342245085325416064532665596711480007990736863868284684634179077176972156473753967393087841536428920713228796350118378222029146672672242243420502422002791509661636095727016537033137347780668776095204513263123705592138203670364852645674283416756585751173692156521545234034668044769248082146068164116245741938703964027186588643280697421589993257278545853505254426450733270795811787646853415451234757113720741479718221036044455108320386574177287385705121112369547965961185741239685600808958395347875948711391415660300101656932441718477824000843913867946271453161603468529530886863408731715201731067510294833111484385248677579825938071419391168690486780587035927890511789599027479072753474038712315643625119409058518060100913411370322161553704582715828625606431642826077476281947205820745759629656357597154180104489224491564345029590945539926562656619394559963712855647954560913353216596735490770421,
  26527592280999163296464119916846206327786836378840565163435843502347801380031959402888169112762254325711130073820698877135964237445450890087518948962763679195418939752801948904673947724291264481581605775076724315310652575868186224640312583795504186480133630844975630791337242923624533780770679519514002630027238010741839176299066680264678156612808679157224313502754961761619187358037568782801668735828546257995590878650991536755153667388620638312070779926376221801840619984276003665976198901658335656383158801906852708923380616473890930198659141224773136733517934396219214215590397627639968931695252114242826049689271265216681197601480753762576735192413267156501641315117324636077940224767594694620273435298894646100867284590022236704154173950327551365217057143860882199181109269144189578130777247361370521102155133063257594404416615228342308867978066520793826220001812490808884398232896810567293709988500994910551638102465923517002556708857726822770180579915562223238520627304993710568429147224198002125220243178162804777906844048705932027440535465154327309158902,
  19095862427994090596989746621034638513662278055849456984258610891322736119596584745986561053130052858713644725778913675586478788146958956445908831108122294652291029061117465355429869994163894230039815149828209670327725587156231096271966269953451891150353977369273481887314781874740507472670657085894158392587937669394160266523046149494581802907845322979927902524931430087784746123657634927144554818211967485026614955444468857961732757185682713113717975409906691717018819022753078206232666628729239321000621941338608585160708829342260063654423643715913017275436592754870994497664592974964389282550538528613749321778195163913630953412829476423963705303284227416064382524690258534274556246119514428461338616669014962320365370293627068145831771832175389328613649262357180854615181124543973381943724198527997336079046272652797684522727350293978302403464971806245340496989825955130768150393290110568075796210292074844851173196625891926296773701446901254040841915323880085039280870810139140660373453414993342092110961283386072255780043279026956170653686290436300401430318,
  22152891372278516881589161210477590957345969425940726634349923378120563307700079304292703484081142631614626009498412624048542361664940117285507077339301858238308118169758507123845369734800847024764022978378169650890366397103602663278524459048832439416409386328792111573638596601382294463415955370579058940732499722408470202209611757389672741579371945469509159167528900266619901535815058715640819236203748347983127685478918407041052270369390463529598876069988365991933721147857203574569343826522661540714526903436929721335190474937456869184047577677219333687309710712020223045925328505239343956674389379930386098626079341266395859677592850566088225485031870312399287163319592312137647125617755596301172826714015007409231920688960557968562494309028623476724379161498020839480992349388378955950014719110667323190725328234260997076665103159793932885620812257372092263887519858704186634817916651227105269990276901210712726618605950095553603540789839784241511631189555534344073614756683939094093485201204904203751242662758972220228112805833331872059416916449670737859004,
  26764253925557100749619414853608150359180656041377761835758454426562250844718941796443579814783311054487616540230753356881375956524340215225488322716016463718486603007930542384183352200848913940747505941261060115852585170965524660567132589188574261917744164927674259378566478319648454512417425834049428549672445955435594891377704941031418319764857647417821452293819857944269851975520236648071890740806037137521789328858086092785563418973052582480357238926710875691720528008432707030656629296276338799027831290090660715960015845331947268486717296204823523261147073712942739049092824875496005319875661842429230666289363258175038839147617698571910060092724057184130509083345418453265496577908831915476957608261147731140941441223232961757659133823966278754489781488574370811800910750540761399363545604775574943198695448504428979723817555855343037970724786925829648344287432579242245209311809549948070366016577144120947008799942152470815049680973598348289876446564457618229598275012192108830043432323701196347099270429221879572547788774794864239935034705396905837391318,
  31054121328465029019648499126920478262441124996346107762955527206260548088307155879136514120965148946244265749398413126600367222365195833934491531260265557954137434486868923407852364467458403290444512576004974292174215260829795127449773889391606449335910628739942558159934431819766140342312598566084195626474639218497905621783606446047947682105488763211194206151058772561471798327547291377388774400780527245975863219303511430802094021744517763148966207262463205057437184456413939892550304349560692596270417469336484708212347872418217992786376815493320626196485731450096979686614919407878453847485070267329614246262402096479772219100154226730621855029827797931591292262698170222066336438219753376180568466404726262314922023074444170948797096380621524703575179656971991655136815805140066214556510303899027376655734080620180460626762003577764302783817037817386650577112125630713281624753937085240570359987113927555340102151955045259181650345334140851190993133956104201969108822901923214605189788789923172055380225694037302085159697380535366718771974105742740015185904,
  33583872397917015691434506071033209715589860516412964742148313584258346677446653237844468657037520005835480382080119336240401523574016178658075359196071834581362251391547590260473665274404248182781181159449648468258886178933027423919615009936747728317208593874066798251351234703407514982534145706344591662483753900346592331339178469583476427412647576421985799838757744862663513889576502900169511442718419570761949236269461678868150866404455288771764009638803425598464963766953308294068954146385111257468917411951404374929465601355134424089067801798870668344626081890632166213451569535894557959524979540428803308490168020531621337915550813538301131014801762189009604350272302165520195696685073095100725046849877744232758644688103837033791283102471444748937402769947301060176975011656775075825219358020808237578146338525693639705264913027831639391121170958487439911332557334340103455507655785286641770306437546870137893099005210688670138285614966420572770209052047657646385165540821204443730448175925590167832813208006871068947959655629805219264954093174159919417772,
  63575999080474913906417773846046027089538929158864402454703491219752357973783820721253720549342941786334141466085160730271500320176625936410191733815837012286433466527715433032522571032372605187327991884745008677422925560043336740440570613746572940587296337303599505139282816508311202651805719433072921577213572974643402020813419567799520630694130719409414855001190495479794569106292389533586110059176023772313051096974834261575325478082788726608827819212483289121092425245995457956330021767814701601479632308900978494174874130493464070800653894540938760827045113099418707254976941089396984512492098682923309593222854494088587171995613476574190799978438719357405465643527900790297643400700502339156732405096308223395361501400513390247466526718376413629262284973329717349727842025699779018141229297139510391153880514841542752854423805214981825591224517078912361444850978298068139914810532548220761926271939261849740859953411247061567043472328249512111190322283613626228552305754772766333132366235355267308160868825486233307811702709564101589485577238725114996026831,
  58778700120074924436050048077938936273458402577848088081879597074008708232457545174932835306749124857428800899410297484508720911241471265746390099981450619684659123051998476956011540417741548888791668906515033917620356456808204871523685090108186289085171097700281527869104420498828634355525318973491714824374454114130440787614943184768635421607159260835866796682933212166895404420870592622298481258470873110125300368186063642570650473612101101830455267427765614765413765469951097968572254308577286724986337851192907916290416172412308203934020721324107295542763781531927804739132254227021056547353739601773690732379763565765097070085699059311963813571206246184045604541578857267522667363656307081081891004962868204882200270972687130340313549457827661394746362163191394613962877240534413548132802550511056891254278938903999611133828791951180662655116242614369844400982978176744167428609805517119405449775359718943607190248261431710064114701441148502294793697513157838004614797750701067822238198741397242775416358702305026710591175781970197778319843595523398575298188,
  58755619306422215804665657172278739646975732076964496361155577394177554249892321205355960710793715357864994340749052866738091190726609817478445520645622485428424137279861235354654832262582200781718087938831430102083429545846432694444722545887119686251644817120991006915139041353395221242610074230734635844364881664023104343157212302623074572813639617141305434318483044533187984964049688255778608494580332565877058694315126289957773361789184760432478098416517024869585042881981596638864036379664414941349026860707326037318085215156995751864875633283153436588649070608281203758861377899775058330410063796566399002381787094886192561335903596701287101504819264959080354550599581995945373130646366337913543235460059698159630299117493297518392809486948429191278611431236564126399547162494192055897354156304491262509851420938109258256935867652912673103583032724825045424827683304931985466934207748773313835827851502303126173674804602241490784150731216986137952191178201609560352417592976138346536906339154478961191635598919431109486800904233101336861620252298721202665453,
  8401044635484779846941897956949799022643438696937368260033617035167345343246660341202872380408916785759626256162460430012902322887753146597530943783081987733949919527231733891108184018095372762809629580475426636222627682431871272804941275472078211670277769555495323214938697474271143823290791480821791811454167999490404169195672786747237743605385021728117655623495586852794096795303415119868096513145982502559118890178095998125296749519185914748483918248274899150301370861664267584365662937008218669786410270971839762206147591150037899775314256047590374571814700250214665471127405033519549295503927998172762317220191989255217565419725404300930502069070737447002383680328835838143305484693144733696465536087931894184792331952988322871037628367092783127319210183280501119295075635950184111113812507767071979328143768506523435669120910097494858386776193259160010554322632835124777573315170014570679569325481693364040840158617424615125635087096211772687408428079875638987510979300694445756577708573029090814034905153568326281715097483219454931627786006927282061077461,
  56431477222427207012450031189026683312222717171740777334938854586914747606672464751054048145713336832132092563694656524195550038116400489609247230353593157815721138601413534546761790954705524876752208089900813868186869217824600242548233528172792337526394478174502105392966981570860392360704659639150544275103273291524298612887376233538436050118154794170622915654615690792760610861836496254733267009496003332170619593419659532696684320091563609174878842224701320504750962310439976571805984783623180523138484880572440228841563538898347896269024568740282686371923249255127524446022447923596680019679697298252799496440695650579122639892579273870907188061398331172484335290227105041767224753874271332343235932067959497676921999175768680495273073510070765639916375716799904324035687741806483679171631500954554762457907421191738170659398838202728088240031678589095158531019655557547188159467001468195903073941005231957645352945075680353409776316100188655290859262784132447263949618945651612543190787623791673464589405457483891758925754592262566711250857751648064972623682,
  8157077879128103290405464945623046690662358846495417464803356774782532144458949229510602509328742611854193321835178792239968220235679385092651903453288952876875816769492250555963428953795345293556732240853305688945723286158144638497293012889427854930897619592906949329066873688108062318278513012297942804761879256708364730109773927711380516300826605579378870350819227207237949052083641781039817195942430897983483362512067892662572764121944514249019224013188590872764333246801530481511041971222873390068359655668050427695669222036416290079552707879204591548595285256615788687501938368812020749362602120758838086325640295556028320096234869012400801943323798561346459806457627991491436123691690906613004778569234422431658676462568907613644424427143321473242068823143033506287316928572640257379702765792664152995165280693819593995704781649822618380228509025239761063477444405456219947236639284223151279522266447427288043679328062778615734937858324675952674758422087455083521300980066686899487238028712128960364932403013918043804183353884831435316597860177651099805857,
  93253261465486064538331244689699602977361870121648367073328508687349529790279782998058718303422521951687783574973919466560665965417060580068186897512435434257116421477681660507070341152889503915629667785839238378737787653339854448418372575604645772778929518660411851339131272651867676326874876927081134863462706676406732198755638495424314549178406765054784538106756049423649458477945560034435912619978159084701038768934864097681721636230214166383091464780744653886707772404290843598760852646023035143799567783328851386511563742617723007616163170540018069545427613682282183670244341435397731092108665052384787184879612587027307245566513350803548660148887347457915032641400617093995217783973206481029347786752901888319872733542446413992162282794228850207340887364422973762576224925762917893942198569250775349604712228890497931677077014846934306958884667092409095390327560864899102274024031575356059599707029381683742326819103858617663820614685793654251134333907060525125501521530029428253418998571496104427932815636422533380640924595376902362783479098455972949529787,
  23027645031069506220522116227590807436763165156620268109409620833936338014463919151341435290416867449638321457024434013709231467294825632897464857224342122432220923273577282385588171676822275776485224492417083578439706360208518933738591262340246584772301354501335386723233072301648381084302829077593901536616703799843680862572887341757090095755394867791056433845273310864579180000050110831822989565634448078387527029168789799386311814336132288459796810145288259170977652323229804647740872372756102805068147909373037681861708286983495849009556757457516695125572806765464518759303608845548308192495557295324658706750987343423926291297039397241468498237743695605735448935209693800178044480348275843385828305967104029407505542376058098261353801098519717591487783296110049522182109299613970360867440857293344394630902298349334977609399316845189555859541013913163229991091401985561128498982295034215347570957998998929503403769629043385660327137008928022573340937164232839113243416221480922997085257483923004816338087828187764081772401256940689786694742205703080718663062,
  64426076490690359317470005184261598557875307633115041919254085283537665908179965309040402774924231655431615326912913489686639812822417449578029181643462423333826391545222943077618192048756001377640574777414194098969876536107534587836011322622554157752245595685716628249901405591914854041158256720190330316572222950405078247725276295657131181100271984044745035875783566620281980512676089505953537161262236090401339967036919111326308583059680797348885317772018112924454884167858653595418233516521569528007459170584360358682166086227130094688626330806083117492727406334957880409957597591368135916183006039823431232906757760871299212678040056069057201868135279270438938116727618899431965528678483706515639567470861594907371557058528434168620089788382224920953272756260768868548106928345028653967480215662370014226637605103563489282226457783604681892739648985665108565532480707453256193239657517216714966548402947849624119467494024572147247153696074717981472562733431267484984948362578735392384786141328164002476297610955519256688745635057605255478048675763720849331245,
  15094159155822095676894507481508424905452717706233841341006100399628891418643374727175237444722810634535938050657357688664850147347477155122070001690655855354340641228484104805711085829475667201496628843339963250982147274585675762611077212186411713787546517863683033716371973130283042329488706600416190299274405117202629832807672207889728246150375764870868793431562579398620319720534878354472977281564111600421451716269382122016721437233636780338585404133891550590139133932127203988733737495871502060699204713914862960285410984545944241054612491431404738868399606189352257720707154162360341376514869591631181475668840266164606625510327780491897535785248856716765723682550056931890446254960282686621533191003941997260599068095740770084384920211942261535202724685970634961150283555159695262361881274000102374807451982890650765344859701293168887591661850131680244222555824929409746134375331344868941934037516842478199788224491139677337830833436580456492048926837185619028921097101478696428341548687210116813188350884199940504765736111845908652154019507216502582175440,
  62652687594104740998311285371841282118455660562422731876009141929314880035523651251291580971007776960458391709729697202229129284581377641479446615373868839783965907933021142860130890879678159594614346516592077311333218686203523153347778964656873552096368516885424571330398557967018334578461048309017524602856001085240370441614714226377623470463286050605864141115899758179486050935732953290303885152955333235955551665222739076638883063520900923831235644685338360124635779724403562145111401080312448613885220982487504561248411028222738605518885275979323907754263528387738244994447200980345941633903225011471357465665686267757932660566396930214617104508288857741343172503832273015918850022938909102705780967463329628411411664814291893135734331090420462410905470081390237084418796165454571214147714103394457041072458544043777840031592254566119197767966001845256824467214323651706675763230242380655075235535652392606512957167907000762711733299940493897360184275998141550717170912171194536547091814906309810878338312695465582919571418360461612560310022238061937806917959,
  54822602636764246045848044814054623984580216904162537298208254689471523043732205045352517442115768499039876204165465791966043016137487993008038463470647623932093941198631069240483551673422359137183013312792877984584725958922419281125881153452232517923349923529285038888494895464280732993270046655100229601061319005442863902815468226368913924052177258580051295739856371376820268181672347576377548151966980710327594406170682110681668352486748804672093404507208556147458625588606552412637866462837486105330045965087034482203829938382622363654535243607003338938029122578793150922051719042796597410729443980724258877064651410007993475611190256614926118384433458368750366794920917014768595408570570543843999802227989893473294256316669533807475805755730372730575994947665031620522630971887903053973634593976125689931452006015056159139990666846188032059062741968945802548287042854210344321633923188610063656030347126679147836223203161497610061409017474409175420409184735944853635892831708998019549471834592752666336476715653015471265614266624252855002286147976022239318830,
  25845678344501066136386468551131382115750316658805816326447864664933540591536847344818882745776690988136842622484286060194024519515634978907976614954647417348181762583597218716587274697044336956799017502306709139707642475346143029924420063455540670607963346145921278148913267366751821877932187230996338182145320721438506127380708165929982531592104474533905208966694559653585153222421499331243332871743051300519043494858825214398343116139115403096571021415461887861908793370532690124798762176259268170614772867843400142811547614215336503704250726460540750230804582981911626366888073309826546670253328368740156922522270067606867490645920531888198931857297227164200929228768741926013684272439490887584712858045864423954444331902943031231139055403505761456738358089012728775453222643193632589842605611229427144652833922744689468546139849976386736359064660400906314361943944831877459965165164445691722262914142867632396990853081203493785905809768612137663019487472958174987780938006118259183428424181020283036573440234927477530290805799818458540836032042964188284175514,
  68402911320117936183309109020893145724861299651470703700250683443597473310839101173912470198183070865375992346304054564381068559256282061402440123332827181207316427298432059104336095768872854159940992363933307151084296611964304032836598435761366552419919786565711985799284048813284756578022745784297247420879824654471609021330345480230179549644054867006580273706565893477398928178564980756203616853602587477241786047752007283350070420316546657932327022619892694505012756475926683264124055012438621457133557821740828140462012981874120216224918461194011603048274448921506429582099428127022470704382345979681422832660673895599600292508210200177368378322445758230816090179809676986887108215337895587479511626287062677716487123894027305009410382712402276582475301301274616021108589529150271590440442226522598020971882127511750871752776240822134365863191982546402136253284947489317714909198055533342987916282790787551393638017522140486082190480809361595361222640957889484536132963906697056221619847172415993636592565744861679183293253835298429084456422898174542787813951,
  21598697772658014120576129578328099994232861054263284971018725382575166832186718244751481653858656740930870411610733287142663904128606320881102079281502469256135948400417735226427654763182856167185643335505036135879479784768907877321527402192089910382849408994428723549390726553592165871395179094869691794251450268042439749032338678554561975975733779505594929316789187980754571167602487341992026319657731448305683892604449110245445217434837339097317888773082524900172648357237523797412993676636199576755024780288879033679279133616657906877366113377825843320801368624682225016059215672938793014958093135244096007033549781877409574143624668878200410512842286114020854180333067385979349623992048220291886913069043736311524961199408632586797427568790103798806767251696370345267173061171265412140616177879518664420201336833961936891370005377330025576243970574300014185613482255586980299930508447383675314101116361578430789962206991027157159769893004735527049781955565761781712425169888050192122847429688583242269992678958426070007230898743731665449681096739462616290645,
  38850659049170164500020617075035046501638637924773626509752864006659444768858118349161759013397319546871182877479732718852416601674088824071892610862874535188972675825500090672784497245557567719555324216848486250287859027760675177097874034393461002638833674370142829271549220653573562477472358416662966527831826008488846692892943048433225576277411809312627595387814917096897861920688935460675820047591994077097625706279772001357668801319192895566247368629789441227040161716878963889035761522175041917862076876050967170985877408920797586623972768140321759934144714942854597806088555722366671851670168354434447703961987469477699473102972910369337287735028686777080132213904755476876098387313274568590996369861381615469010889042057266267331137771327832425057590778431861732301746867037571743604085198363071833160521210165253162131345313885232666092285607247845196134078797215850357025692053127198350697273309161350704173081986395522150080603785255985116632205665910118135666558556424604932342264382188041668780315333372930308657584862124400148398705611140722710215301,
  14572488369746233543752065103866756412811176346776106169663777576519917442281275814365068212194497226930562119494126943707040934270047262831634745337645920840378817593353853964122240926088980888256309914880315092642337107489587471923369382268611062280003033354707620928943622471437266261365645601736863047152417296931751550957479877130782968293945751138425639472283410897195837485141966525495430905358191327473831830196258420269565952805384633168379359462843075869865242090707308405268195645509978064698370899183545829835426899034489044213070483397147830475773987785018359019955092843246465674253910625519439156781535443207642459766647420558134460749737458444095082138930022355539415284696031309185373186908146878198368896891025314164905271143524679349000899762483287195408796952420865078184926915122178804474118227264768455832060272735090697357519477791088443885346395975730410845452620299772472822837334793139264197007280858960515165745095756445578532892875333264644615936224066039910546982199837944926886065776948746667324872273452563423481422810942665092650784,
  85247450658060946074332147234161273096132750163279984156222050782118463480814932645021515709101471981991222296146796043291365178037519315276544290138298731001543787960204409657154483139862554035213194418983465957291531649309590582043313234225909663207040410778449593974024116766356860965163257250062816490697867706280461380879470076804943420111639956350865860662134034112043466124097040121130372103317504747435363712582550371261654351458415498508834818724533611888480396657537785584371133098897151202625179441347159678445177048817537655861924126058908938425281251026934130419553101574105189609604598691321961113896673494469237717071812722994122279200410468012767189223998834312671621094311661940702125163387959707318132561496664203165758719623062960506712681822107544541737750635508042941839351997854767519828757782661023416299096253480286294847048528006982636351185629618284505257638194051602335384751396734795165968276094144984757621946602005296987312670982588847265863878056336326031268680918834002107647907235183246834053480017330658447084626172731730711995893,
  80690790066708964663383783701258903949405283873586415775740296217848799243244976941984730515389182640055891614275320325945570581212116659840285592809730735478941428148246371835444022782308335387973137284189137338592008057689386944419034586036625956352923810145199915308901868341993827060987499024674444536528743133576717790621197462251417705884415926820652135848263805205298413196037566238639779748826716941659699937569816104972797782523374554898505811542440203256528209189855376441235547899682702779546078379917374098983730186532649909118802958393002413422990476802419936358006278372313090664890546323242393405571650151504436485256732659474012341171902011471053676642996042037442219278867925552789348197052042465480916602795154612236657368268575173879982630818363709810217520915328364012198089064063972945884413791379008484979566263592843137567066564159522959545878542067155690490810892017268431699543645241376176487655666157399143607919417546895057438607899660613703962759865501006790024305496906641085298553994301782885096448730325764537594346944544501788506566,
  55327531658284537169523595495240657723146607316156110235102687992012382453047341846434955586682075035502983764916934826994620699911703436438898876566203560102327700921754923649460219638962528248238362463223410723542242218778687543779032266943785600504015137428243439534275723922087560703443167946660706489299444801517777630641277771739958943874617984772646270202597590274873152853691736665799566953812958170848404177005072670869704811667261749153737646384328223806668278803474629942049013929471378164515778120856999989915213500998223324077833240105196567612169303560775980178124272769740409115439440297907808233561227301220703371552435995604288462957852261172578401127893527655657881825044377331193516824145385899161910745201279943228675186340486827037177636945374836096966726194637513089572211933762057008145520884212812294277625670014969690864942591213095291688892185557411422949622719371180093090267888409728220910388740521668527886856426584751258944628177747935843578727508589499733563294933889645562330419883622399969791554298099642357864450200347589378187219,
  63532166439015242651055254976536038313421152479323132238527867567799892080544071305823305085623156439588641935759042691589545924487749944391322270193456284523489820699540826985553064435290756196151245129516901917000331773819809202461910793880089498993238320225204799256883825549863076408774570308520728679745323667414455703496034627047502986460097308620931240519393501947869344310271712460670333530609026297788438307288101393358134429155492520455732310832497223061343990794682058226895969424659078737621696622932492114651371955918051984799378143318617069446104386636007529185222672095401436769113645659750296303290195716055746019490868373234277563778621440777834896876248642683666011340533836125879314311463020332150101755020784903392838984494070149971921962042075754611935951957347856761570353729671258292819293212538024168383636269583584197040633782662160611567321976106348922534697170010467583835844995271838374311393858912319953110568627781465400631798646704333990123879117687367446307410756317812056435150204729233779452870400868612742006776060722614923126635,
  37424210542807002882107002569109550667910086749349542316501221086950638250828755335780300287438369655048815688742421798446109312690556118149153595977188079040462508036840500832629375284802375187683900753739988299910031122006439119974889139401638540846589541978795934344225426139313337512110136617397525149172237703261894545236148712025041869136966222567556079088909956972020181769580034088994893976677527393926746166751642113993312046386801550976622487025369435820631160540876754097782357359465389090291980047290251676705662244959586948114351809806401376335476706031635948397124416005759289580731128251810297574623296876372440912795205142801678086499162155088236742336981660982295494813231196440927365594631431995229482343749941059956883856456283183643193812823199224476691527551420415013038280397374728185143081302008314528720686795855942597802447660942026270099548540512777429530372260159384100373567659458208465743853798416342229339599813743428276425624771726901810677219707004045062326138280819889544712698177019952753449110329341225803542294111874695200502977,
  67500988793849821507098551064656684295252208216977668192615009936096288643554655626614344945720891890880435865450612169312426308810002111254711469408095566770446027997550836877435692912788943578630441266013519089664449561353627373737154967320893723589217795863474115542258211720732464239677973102171735957967209004288925695602825400224583885104141733368687927873590142337840868568100043537553402514495556493579855987175170085238802292977498529417324307407690596179520235494823708934926700513012536163391084368418210169869965722139617441042319207856637214474593728050150305745081439370197813628624736890793272524438173361453529633258828459594976622793228340988964293329721296303554941488357080849591874014488102531128566837151996785164183921952215405904197629569180935312843303432316571465534548146832961878536643974454560613223323833651663250939494964144658762823756581446779202493496652589087626377584023372171639133347094135633431926760518056395980598609663926674406941928733042625439756849082566670059226464321987572714730191853264229560210280417379694950867036,
  27766582318946087730294935885475064789392705450568728705864536765795791176756481259193422075932820850906521756953839722951164813108648924254220207121369622181166952259134200099275167792309966636895320226152812062599423583475308860721122683093961710268131038321074277297345635275522834695053507799611434005147339547493906641228715310249339810074145909623462375644806772994841483204626237655746735077692769380570113873200266217536431304319316752523369442607013933917831417233016393580038947545890571476957210905437196579485251278884643418497219662812579295543681678347639646595348611746981894633922787954440850230859725244987993661076511297769904344663570645289284434972333685804603179962221599241048748400065506984244530792968602100234272396051217646673613611622386440996703036350816789019415235401713479421558484308566142500928989676602260038751944569873714618951336076684781070211445800183310774469252984240376766146428301488217233581008295178620092507963709344357232401534091621290224823497797832168279655870902605685507767034932452181376059781769388198702003673,
  38722863953206289322427164609303033553253097495155959836768136782418211634915184863507848387730337105705361634137233894649296344902583008336035176168229711725392216897309744975039479281854989366278001733690821605685416603452131535384547289005898834564042635859546909665280323885934141969726280708281763145612151092394400184232882727846767721096861489357799818708131176246758682372925680023743085432585195858040177732145481597976420471627544229569733639773340937947546841022156841679744189485278015444248376199555052554732370504977007169247534039145522960844245078940874615622184907037511620860445962345069357866843293954487462429198467155792840392969666148851317000600280929625324788329659587821376914890076030336291492259477239727744633690790948493438962186088528997546919581413210953904578865039514267027502674834308488341477935622610409286508924356696295970074127866234208952742720518736226569735062673039427870159833181731322462161772564880342416512371314034756862973801887957159283010277045877029658583059606831368653061022146301466654995551906310411832692058,
  19142735689139723381867152486229305616676605977265017953494985433267364519026571573290406645577989945415936302989308233319675012274263575909234175686323820080049531424408945684577247505095212201581839103123777757789109591626611507309171497952017043585477168147668997576851062342547240150200622188307799628443846239780250762127248616076113171913838292930499148231499240483316421151409147817736297586882716092427324276056365282049259942402540955409421416576157229630418644724235607648660142185011239025475041745548291533834401653959413620558712444900708089751341595645078356302652737070168715118688818202819594482025926893849386098658424532286312772338995749003771962720020183891709034381606184198763083959982098936801433981236504717748020404390132358971389683924782355246787602117064177916710762399822650221482730277818847304095167934052458280388388634050849576065333976688217488274077281500970913070928461566641494481123922674319905915297374183689320029998417664497709799782556433903377014448864603770880125414416016357353362940657905699792515239180851256928758686,
  42789193005212530844011222865083831134749336811728726041020864612616235798890710209828388520709534394381172802380788821201784554066427457785873113485611314375254206570316927358784975650777412477586692517567172460256997590039438302296364276134447782756756803264271797098829047595093056347608037345077335307876584252364041639106185420547355975490876098278158048526485508589220035472085178903208243790742374714021758611650892008503259691231923889097335462875659597307843807421736613752167860461706404385654522828623004747962377888146592393771029627495983328289830461740425581268817083932801953678639385969193619233349386452939576939626203882470073328525071270719491564700722777472476748163684484454543331468908659554598282147124203896242708974301072329488714980414296540408021767981312957351190282422938543404461215123746531870573860119365642196258389584699837380926885660715695601367204210649358256040577360401730923844080541350005462655477494575339781770193962894076900706886196842238978924627628058463770568361991453694291593190221224928534156256016805467652294166,
  94755526096208457067784152410186784864534063539743295831682640290757940828952376324050777967781833327317140396565807374284040298990185285093976044626898242375088208569830212573068353505508702896675592053357159666388443192303529001772692264199867352687415856856300257570032764140254443751318759202935327702679530540399879980405544939145756274525348437851009542833261344845783511543050787425699249585706551004313748771405784948886933194846142160085589453994335090947756442110610061399080628838363354586719800674181588948487725868480753209177192213279633891569568809413554143674614170305609098156188299252924760266429064974896657178267107075805995797754505819674862688444998618448840918308199216379429203956946189078350847912482281627816669136136898726880363020370336630119761088933264440419424731663004190936620155529607083913577129325174530940562120513155395957715664631541500948700691055341611602198461811683275718187146895045986306856572588756188603538315164285538688741897614558513082448486510114707182486316934042747019233414460276212781042931143106113152538789,
  21687926210603004099641994448784611044375714415960208251149127740034557306127677822244225695449669290962508275659687683569714187346849551638944096518866984612181471930125344045028771657544276275872944600284276124522222698590933806205392039894010547052302111224454842335579979608833958773186071346876944781957834179020866212658852548705195058489058374956842367959734358662027938706397266666937332277264490010312407691285828906274765422440103698024229500479425884622460347394913467935649434388825741200854162575442921132753794058643896190920010383281689056750439855275089603086447328554537651493266378565954010070353785161583081180329346264604543996625412265899677640505518227906757621079550835618393787839330213713681443298137015874409649654863105497228316213741307274689170428160981639018553287873834081424851304541672796451370078160858759935623029205014198149291140866438054154166564124831325540635927549254046093162855065375866523635949319159915417835461675760469374637840124556221153817669875059242188516427524767612807265855253232895532608842519352145188384899,
  73787144538779186935541190792802943444225747302884802630452872051909102483232406612085896929595828612867770403457248124936460550955745798812284856010220111069147729729757751383918786817943714609062352995203543392368317604354706342821839375262075313685678249043861361356656707302880136993653604462738564122999557600930617271343463839863902308917805444394728185173944151592152172378212961804638796437769437990002255746438431990491287436540010197825877061797999009621256453861827547548194470606723635580433541804039668728987523260760281624855622941272054191241467435963547788309258014087974346592934854513423521020234428205095064061841820438721994223891963296753153764873763740469162779013760263967250744071634718979071832798348516683499674973682002517348641052216456819870273377511281884476377478262058855626291471689500570182921295199652348187637223055197757762667519195648765746393250984203485480309745656621446069288777445545647574744880229887017683984033471218285416551045121841114164979127057793563778974784123876981736947665439707432788749508097050839125629953,
  11441787374461378530352039689190505744407733746061152751775504316496799135329021508978340887111223639304636280053520342744233036889752272670039064062344929122435082658262189667097864955133608116172802503777019591525991596640101309217781965435615408859198133565172099508356862225757332595058591475827607406848644034676205772846557519463864555428266169835167442512567236651178850585039034017686989115483939606333401724397725376788628823261397083058790023963788641704109588684251794847874250454859347542313901383703172994949771398846561272912895177882789986506633475568981003271177277522687534173202415786981889798834701801483746810863586707033651908056918277481930074434120859510381216887613678685202065318667805748789039063619124870417340665584911831382448270579426572914766073875972620975582128577842650338617124211189276243507847302223705273855076372180422507295056210558308933179478513344265415829244625344445864829213986552273784897805124970792638943051477752543648354235634174964486744329608741710276907996804835868102499767204602729287039619130444933647667286,
  51458708563503756765987384766644729375480629329634079192595602229729642177192433721015261101124264036182200523926556511890039318395151244087059188166631137192643234928202728271031668886095407594796599620582301959957344393801721728963916444161481944600185221886268814609776364496471018434817441171187158052281139551585829769208540213759337834360327947827716812364067399593585958045247102457721630341870136265116432976793055746837670960625359966418234683228206143550747494107469625568386351037545038502340500153253304703794872408816810093685020015236774096784985426253093534535482507479960307285095309009558032350206751000766897806546543106238930954106322827315424519302289542264196850141040020620752236958974204587304147254234719637848420010134641863015901605232382994231452192625748797490107673466454967446582381955967949783196972105908792279658200193549532447726162524142996956754626184956746587134766979950303043801267206970544653429710847801700178827875671143276509011878764974876726482413960093826412153375246937571108877743822872318216212816571155790550830425,
  47902798394448535640538037940669456311769736454309640534350580051439752654021529824326372028264878556988698809239485068735295423688129914510513903656280246189782623128107129625259458860113969177603315055651153069971556081767903383321936918324591720391789633618520600603226351798465289125810845389036726393250235375197026156890451867407815408030478357542131171591410476031059255296266562546765058264059532642039732810337699779660446934851612446084190315476876721963164835458985411897501004979270272366671140768987324765049797622419287147084728852846509388289269814688540765259673484710291716424349382512120581622387553165304678926938164890825719314158798368956632955448882440569163589519351693950490775277987818639177067763848676628093171084974437530728267325595392684504917163375512860285819089353891572794262687261761409444509262744586621510033799087469407334178604835243801577992777984292054856618714105883534566394515066674129655690321208343654768653313528073730390414484086826974677270672628419545816961574963682926742249952332849181587115814981884747999457040,
  29930081121746799129207229392413387146438243338811876508286044829155757252874621642397711587164916803158613473012090425284626589720741279002510456239001916760629393485900201003934497987702320023518868460339292291916479894726340003186785568466527288838901358856931984590330822100690129140084927372408127323334326326091271475384646361064581072255676308748621531527525106667930863899418268173507212043141364151619369847458375250173732588379658797553233806043863486869001939247051397984295392759805588735175370729620969722457567838773010946718133987414719565075471613537444360682821160369745432526413826874362166117667899421036614121187472572891325371998805769252715613686481253295366038198621102816890203175987140643414230575137459350274818926539581426952928662295616691055996213939757521695218940000930704764309797290876348086785579496760163971069036832452689357995354832162549270564530801829666547128992738573143327469839290240190672357690652072592023132083772911661790178379858928072661813557105784674502214798525095136898817561946476561047745405133713933794719517,
  9154445479140665591323007794043379213921058465169125475710700627768666665377704756486127467690790595927418152606274579161895691213275993589795795850059139360832293089904552779075832209017423711836713161100796980890563445922307677652822793075217392593140125400675483474977642511847404708196486536234814029304051824027456999189471245567087983255141148889858443599048784552506871762475289704482543114518505150812531307655190594414606000432850748150256763158504729824654700134548582004816507445350267466485876831120758450563714422668425631732473078174449459083742991049825864105609973060013521101942761913023262604765503191190758882188148457123447695743470772337199699053425737983665053059063091377408593891489714238635499300956520142308392102400966188917083819804433287908520571491726075915399638123813585550140393308208849249798312290174851038132322305908740362251453306377342650485783274261463583338517896178351065407681868828047472620826326251806006355595892552161291113619679216808482332070464197832438286303427882821779605615185060664616781854128905265480752865,
  12827389167011037400165406902152363566962610525381048106173348473388536547876694683398167521227743828692927303430531689171689723296018411334583352061423456407385423719627189924281954396616080653490843368148856264092451777934974791850328376834618864384815431408942233522425596688338201626423461312532305202536422162161446884801059467260516451535548302301021132591710697849543997845738315627041068572001752389793159088979039114581745350349948126994507400592123950438358527691700159630642345974096071711572499150500361157801918966205923960865452569249260314939074992682049929336462237001636042120495124838855391545024985114813634649172592549415390882124667298312735064951510201846092380924400609927862981690326981453322159088550236213614879304854677592371440067359570949943210821202069964919290811711690649746950103673449023449476531300795786857954069194843527058600049648163706094280319110590563194535700350958302024512209208894989021862479284679891585628461411688579411111806659549899425063992853305469490147344141329808868436027775144587164346781006308616566707653,
  26296286342128629776768357785319637772786949944920464149056979527641004465545523805967290991564304214610035909585279242669942664899678524280021704849251894701174927428711911546403999115814034853912233670010859956109743487077811125010745457165868817446125401698072353284343249964191376015969863670820010751156214359708441565139168276751790881224058542158084737583704540502182309817772217874553052710362290958456019578337402484805692083527868194833279741265905424571271582476105388905415157780276354362513336924006281561128800515293059252383159693294398308821719408292018450660753817027894161733031500737320584838364335082743096219359024009333969387857269643972547787478468100891873422834546028923847840780553865410637493562245647952524619356846886779489077101574411837247799943769906782480810746823431574930356004662874191035516518691178543782126860588796074268006155493544465692080478334817702885890135233851029250944431820549657461659564000703520548841661410481940749683525459884822874641441760639412274235069794822096670237617431042519422655026197479185711237115,
  72063222610736708378682475581571420908785740303630498751013553014958969156475576768143050855725783221155179552097698399628227227992626126279481660820105206769355613324088679697875817614135873761204813015656693043107426524790481392822727290421252613209792679363205342314767462541377391116560235498656457348365165456933264332895055206729152379024601735349215539387952132922680665917200073627972109769558643567075426690735571522252770417912486640432584677197243618124214553582156316983442558209821714613009077550851878020396268994292380591790164236922904019670737598430443365812248593797845042211759643242759202436467429575840238869535306454079936817400194211051902713184242265976950923266425167408792619908308461438124982196220937683475372495716841813071528417726204292565058625924491218866584962204069708332563956958201098133061826121115752965097697728061077653965741777102654438560630968149051742672671657056760980758845080211750919330646869263853635873462943561903965716115297883060128990923028022137723435395085999166919249575907234087960420364401177098903620650,
  2207921590133326237904804591620740113508655921705774477620692981343576981113207138682027814137114480096318893511214594435758920767470719486625081201432042855125035983514879024783167324404118925326785352862422705245298604246119230877382213653025556434999134917058363638441067304313207514089868942787598527666111763829418806460463727012472309004999857713253711550564894248605130219684031216472031568387137651731381915630766746382940263550545265078534858139077284891932098285506635245301852410194175583341889258468257188245001992154673296581985793874351224375270327600606005202417805309247518676824051739112645963958668529605736096300087444283034082327514860836777792134058705353286427990355377688624606670007846097994948159655196994334246175546977800128568781916590941629851216190971113834538025176180650195003496695983817744068074632476104712696710042733927961335521847055234466255734656318562785884067445258877831397968247825449677362177429094000127124649880442749667448631685985715243575006364504246765603168297761639420498867080263544857181184645542155954349916,
  65816012991579616801267462604960772620026238052075819774860823226739058869745500393401035705569142565062969029047824115257076967769508154696600323348775016646381722085954539218309828864581882984471487543194228874936299969087738025281497098748204736292579414571216595953501259430066612644021239094022129744107377832976783910416931172214942657408330361542620368541692107493393859882839471853944044857602551393230342127713473898850760246270019211254326133376211685202206315369043648019590785903714663461935153195438535015097876814238699316755169690786745068774916716672008951394346111548947456984794480883310295714808932047004493005078470310844133028754846498397976295700663592610617270715331969546821837092723021304680970182663306218439143452833923499880905412078177555298485451234128575582101627652621794758281559725747276219927149100259203012029454359570837363752868018080956592158676510994219518846987808252919864619637261166026531618240718148929025167083650483267615689872480270486002938352842122132786174247238582870574730950246884833004794643602174078290825824,
  37928077995291844002796585215808061452086880123760382459167475736688028357727331769019233438229555749461657985140228708113240479181532275821519534386568749640835027834880551311757149231438653608427147654336731102865916129906694959000069553487069956676066569438124166412123706332442796256574716848079067277601476653027038858953411985967955091282210133893935124630561979523213989652679194395197916552331803439891128844988947628864976205183810705864952105014956531796658332403014528309374554796631253656660266309426659429274522269703175661928277023613520833229100793218373811603892010733937555050049733792361771572674702316123792339140537839520915311038041817095604772114036102500076388222738290724648891924304465612230882111188395722179932551001189444490935728347692047118047709921771063955491212611103073870528152639505871338715767282832740831694602869516003062661032212022649119303982647757820503047391535354132405606204681397503410661260632177883779555522296936674300819114901177206164666115421190704883359185552549262118562455138835852481440786762827297495717424,
  79132244883453774638279862910362591931605397209263777843201277711239710851705783062466817894658119403745068885739883704266312387576758643800313803232497618956892057763881098130030702807506578411708159073907190053273201840165927764424713646280250626530735606791779135681702692442093623583915833489488026464330264381046396204951355035099234224925132191823961718139257584302944639034230694747030302979706048306015844711345179140249082554884158793636464516358115316984228043510928954151106356011719658489333053871309164255153843641972786034157287955559346553802439256068597210360230554139730824444354988029971380510405636738661289409068962866774308594471512100677285388245115310064795352852369427756338248440543326033760482155338826864000913823345541989550813039247313053917095716460019020223776649578587312498411994321059213420098984382918159361664873342514350710167506255126277609994000585437667155298276193719942811757586731234069974994624489848385852757400610252883734588974958848583632956377926108225539490303494662023182254196101977885270790048825183024362706728,
  90329675652268436845819258054087570465957015943404730415965811569706734623187960734276392872055904308011370476250203950350031473955212610389242744187083035892924027463252547727842508049339770520130806608080085360438775597854550404868013814119610621883337793323808242217529771283703306517782597338325941568620867305320755852528322318465505859305822386340062767879298393592436290201970190344714516949281796998750122423945644201929284994190203312287910039514289341868876238782945935010145720290669920423496532826667067417305059335313615545363803644173239437581601655588216055282878022134185823775252012081000696433978876420203667211318452506874334454317513210795935912827869151009027783298264404688775156576476591310483149696017210436904525439093192722029964876028566255241159167857275350141803018025353392127527857665068586118887538638972748182920944939549585972738968858543831224773074055647843858581391832212192353350596699801864658722970285427901639774511473986544518135785593966196804135689868314324101272274767726561867390991450683425002379298666334251833808864,
  91428808705841109072031223340545474585744175963731523231255772493053639520183483690508749280605290640591654018510201832487277351113802544637048282791952727146495626951621351083857408115333977803122043939921808031477264419277636564900773665228484506331616301332107099144432998206346932012331100328878630725395989141565676513780103202841372730096398092621036133546994810916517975764972774692158357623996935469551098651653626243269110641815044399390589039173734540834738647103338016717519623588168162885609019558292091671544638516739744191874186710451582243622165534040470131725663014222281188379132663776898728250049813794176143804589825768984354796833548879799711019410606212934688669091434255608828664068288632074789609505744243043168272196051880725527235976325573392028684880384882800723947841624975365445208851658087686131289431331025418111974172753526376079266992684934394792462847561782481117708026300538908670196447730679904443487174297653668036801230430062340332192364406099292942796185345258102657713336408858170324120927298298529736999495822000166977652699]

end Hashes.Pi
