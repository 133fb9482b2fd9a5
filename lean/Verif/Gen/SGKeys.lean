import Verif.SG.Resolve

/-! Generated by tools/gen_sg.py: the tables of names with every name as a number (`key`); do not edit. -/

namespace Cryspy.SG

/-- Keys of `hmShort`. -/
def kShort : List Nat := [
  219902394761297,
  461168804152947507281,
  224300441272401,
  461168826143180062801,
  224300441272388,
  483785185427537,
  439804720316497,
  483785185427524,
  439804720316484,
  2127709885243829416953380945,
  4462131041258858126129744637329489,
  2127709885243829416953380932,
  1934281754105488749000392785,
  4056482849185824717650799611609169,
  1934281754105488749000392772,
  4338601516881985733941451264196838686801,
  8920302418013766138600021250510608799230853201,
  19081371264393254443807136690052471574981157018665041,
  39231904927538019167228127702184605153111296509057234370641,
  8920302418013766138600021250510608799230853188,
  4338601516881985733941451264196838686788,
  4338601516881985733941451264196838686791,
  4338601516881985733941451264196838686794,
  39231904927538019167228127702184605153111296509057234370634,
  4338601516883126959915167733622505472081,
  8920302418013766139547819093088737556944650321,
  4338601516882933531784029348974087372881,
  4338601516882894846157801724820961886289,
  8920302418013766139509133466861025442888941649,
  4338601516882933531784029397352598995025,
  8920302418013766139760590037340912291692937297,
  4338601516882894846157801676442450264145,
  8920302418013766139509133466861073821400563793,
  4338601516883146302728281572087347282001,
  4338601516883126959915167733622505472068,
  8920302418013766139547819093088737556944650308,
  4338601516882933531784029348974087372868,
  4338601516883126959915167733622505472066,
  4338601516883126959915167698438133383234,
  4338601516882894846157801724820961886274,
  4338601516882894846157801689636589797442,
  4338601516883126959915167733622505472071,
  4338601516882952874597143187438929182791,
  4338601516883126959915167733622505472074,
  4338601516882894846157801676442450264138,
  4338601516882894846157801724820961886282,
  9357766428966969295999943193241086591057,
  9442837020697223254678900683563870453841,
  9357766428966775867868804808592668491857,
  9442837020696971798108420787918973435985,
  8336919328204153905609819370945781956689,
  8336919328204173248422933209410623766609,
  8336919328204173248422933205012577255505,
  8336919328203960477478680986297363857489,
  9357766428966737182242577136061031383121,
  9442837020697010483734648460450610544721,
  9357766428966775867868804804194621980753,
  9357766428966988638813057031705928400977,
  9442837020697203911865786845099028643921,
  9442837020697010483734648456052564033617,
  8336919328203960477478680981899317346385,
  8336919328204153905609819375343828467793,
  9357766428966775867868804852573133602884,
  8677201695124898940942055637709597179972,
  9357766428966969295999943193241086591044,
  9357766428966775867868804808592668491844,
  8677201695125092369073193978377550168132,
  8677201695124898940942055593729132068932,
  9357766428966969295999943193241086591047,
  8592131103394683667889325780336031825991,
  9357766428966969295999943193241086591050,
  9357766428966737182242577136061031383114,
  8336919328203960477478680981899317346378,
  8336919328204153905609819370945781956682,
  233096534294609,
  461168834939273085009,
  470392206976127860817,
  479615579012982636625,
  233096534294602,
  461168834939273085002,
  488838920263511834705,
  488838920263511834698,
  2127709885243838213046403153,
  4462131041258867349510577585127505,
  2147052698357672279841701969,
  4502695860466170690358472087699537,
  2127709885243838213046403146,
  3975353210771218035963806699487306,
  4338601516881985733941451272992931709009,
  9098706848332049581435745568300485250958491729,
  9098706848332090145906782392389644569676873809,
  19081371264393254443807136690052471574989953111687249,
  9098706848332090145906782401613016606531649617,
  19081371264393254443807136690052480798361989966463057,
  9098706848332090145906782410836388643386425425,
  19081371264393254443807136690052490021734026821238865,
  4338601516881985733941451272992931709002,
  9098706848332090145906782392389644569676873802,
  9357766428966969295999942942552435458129,
  9357766428966756525055690767817687171153,
  19624658582040531944852799290004590067980435537,
  19624658582040978157864079626753916907508727889,
  8507060511664429709210368083305061941329,
  8507060511664642480154620258039810228305,
  17840598966158487741722014861601200092527722577,
  17840598966158041528710734524851873252999430225,
  9357766428966969295999942942552435458122,
  9357766428966775867868804601884482469962,
  18019004927746732726854300598559014947720790090,
  18019004927746327078662227565150536002695069770,
  19624658582038544268711641444749756524738379857,
  17840598966156094417388783982937887604259946577,
  41155891994639212120355592403399237973958482479546449,
  37414447803072100649754159231645553443639295169527889,
  9098706848334483470240013317169755669567373393,
  9098706848334077822047940283761276724541653073,
  9098706848334037257228732980420428830039081041,
  9098706848334524035059220620510603564069945425,
  9098706848334483470240013317169755669567373386,
  9098706848334077822047940283761276724541653066,
  19624658582038544268711641444749756524738379850,
  18019004927744339402521069729119074496307789898,
  41155891994644316355129241224016292106201603246129233,
  37414447803076354178610505706103949139363836515582033,
  41155891994643380578620208662584580939865232678846545,
  37414447803077289955119538306221286533368340673462353,
  41155891994643380578620208643241767826031165883547729,
  37414447803077289955119538286878473419534273878163537,
  41155891994644316355129241243359105220035670041428049,
  37414447803076354178610505725446762253197903310880849,
  78463784039118966377997261712418632002958513689133490110545,
  86310161208350533273176116041576892165624646125793054818385,
  78463784039117003912419791058146996067053861481215466405969,
  86310161208352495738753586776978166516135980029500083667025,
  78463784039117003912419791017582176859750520633320963833937,
  86310161208352495738753586736413347308832639181605581094993,
  78463784039118966377997261752983451210261854537027992682577,
  86310161208350533273176116082141711372927986973687557390417,
  41155891994644316355129241224016292106201603246129226,
  41155891994643465649211938877857633669683023825600586,
  79248421756042301473476734903541759817321994572920608784458,
  79248421756040517413860852453690436959860182704000130351178,
  228698487783505,
  461168830541226573905,
  470392202578081349713,
  228698487783507,
  479615548226657058897,
  479615548226657058899,
  4338601516881966391128337434528089899089,
  4253530925151751118075607616736943145041,
  9098706848332049581087575089048792277127790673,
  8920300886743845160774496646208453279582519377,
  9098706848332049581087575098272164313982566481,
  8920300886743845160774496655431825316437295185,
  986483773177043321255624787,
  4253530925152892344049323826677865775185,
  9357766428965808727213112894146671018065,
  4253530925152698915918185486009912787025,
  8507060511663462568554676375567250489425,
  2127709746893253262178254931,
  1934281615754912594225266771,
  19624658582038503703892434132185536593381032017,
  17840598966156053852569576670373667672902598737,
  8920300886746238485107727561765196740664754257,
  8920300886745832836915654528356717795639033937,
  4462130751116679865340826184843347,
  4056482559043646456861881159123027,
  241892627316817,
  461168843735366107217,
  498062331882785210449,
  470392215772220883025,
  488838959845930434641,
  479615587809075658833,
  507285664337221386321,
  1338641161550895491827527724302417,
  4462131041258876572891410532925521,
  4338601516881985733941451281789024731217,
  9098706848332090145906782392389653365769896017,
  9098706848332090145906782429283141513188999249,
  9098706848332090145906782401613025402624671825,
  9098706848332090145906782420059769476334223441,
  9098706848332090145906782410836397439479447633,
  9357766428966969295999942951348528480337,
  8507060511664429709210368092101154963537,
  19624658582040531944852799299227970900928233553,
  17840598966158487741722014870824580925475520593,
  9098706848334483470240013335616499743276925009,
  9098706848334077822047940302208020798251204689,
  19624658582038544268711641463196500598447931473,
  17840598966156094417388784001384631677969498193,
  41155891994644316355129241224016292106210399339151441,
  37414447803076354178610505706103949139372632608604241,
  86310161208350533273176116041576892165633869506626002616401,
  78463784039118966377997261712418632002967737069966437908561,
  1005826586290872990004412497,
  1005826586290872990004412487,
  1005826586290872990004412490,
  2109371237093067649440861558669393,
  2109371237093067649440861558669386,
  2109371488549481332218588110520401,
  2109371488549481332222986157031505,
  2109371488549481332218588110520391,
  2109371488549481332179005691920455,
  2109371488549481332218588110520394,
  2109371488549481332165811552387153,
  2109371488549481332165811552387146,
  4338601516882005076754565107059727007825,
  9098706848332130710725989704953864501034221649,
  4338601516882005076754565107059727007815,
  9098706848332130710725989695730492464179445831,
  4338601516882005076754565107059727007818,
  9098706848332130710725989714177236537888997457,
  9098706848332130710725989695730492464179445841,
  9098706848332130710725989695730492464179445834,
  19624658582038584833530848748090604419240951889,
  19624658582038584833530848748090604419240951879,
  19624658582038584833530848748090604419240951882,
  19803064543626829818663134494271791311288795217,
  17840598966156134982207991286278735498762518599,
  18019004927744379967340277032459922390810361930,
  19624658582038584833782305134103288025461030993,
  19803064543626829818914590880284479315555385425,
  19803064543626829818914590880284474917508874321,
  19624658582038584833782305134103292423507542097,
  19624658582038584833782305134103288025461030983,
  17840598966156134982459447672291419104982597703,
  19624658582038584833782305134103248443042431047,
  17840598966156134982459447672291379522563997767,
  19624658582038584833782305134103288025461030986,
  18019004927744379967591733418472553220472307786]

/-- Keys of `hallShort`. -/
def kHall : List Nat := [
  219902394761297,
  461168746978443526190,
  1125251612796723920977,
  1914939623521185409458503761,
  1125251612796723920964,
  2359823670279932338828738641,
  4056484280554004364721789085941841,
  2359823670279932338828738628,
  4056484280554004364721789085941828,
  2359823670279875164324757550,
  4015919461346701023816720079388718,
  2359823670279875164297494574,
  4056484280554004364664614581960750,
  8507063188942922933285389002514284675118,
  4056484280554004364664614554697774,
  986483773177038923209113681,
  2068806417886225477194809794887761,
  8421992556646495770219101666520724406353,
  37040314980302977808479614297896986154791240426586193,
  2068806417886225477194809794887748,
  986483773177038923209113668,
  986483773177038923209113671,
  986483773177038923209113674,
  8507061241829879472800619008567145398346,
  2068806669342177991111208863793233,
  4338602044224287258866799200092326723665,
  8507061241830130928762356297003069079633,
  8336920058369661697030668993287184973905,
  37414459399459688956067098968798837858707386115555409,
  17840604580815148613124887514631334349911359569,
  9098707954249052473507026109570588070098501713,
  17662198534156311897757985902606495599921463377,
  19803066074897237573970976692910945109637333073,
  9442837750862711703286636467440431661137,
  2068806669342177991111208863793220,
  4338602044224287258866799200092326723652,
  8507061241830130928762356297003069079620,
  2068806669342177991111208863793218,
  8421990650099896312896512645145127026754,
  8336920058369661697030668993287184973890,
  17662198534156311897757985902606495599921463362,
  2068806669342177991111208863793223,
  8592131833560365544628199948861011132487,
  2068806669342177991111208863793226,
  8507061241830130928762356297003069079626,
  8336920058369661697030668993287184973898,
  2068806417885773531885839174336558,
  78463808732640104769199260781542716578570666057678320566318,
  8507061241829879472357897071633379622958,
  37040306595221251892991446886377291223001877889155118,
  17483788574249525425858849449578398255555805230,
  37414459577865650543784742708672041062777020703834158,
  9098706848334077823305223117713689818022543406,
  37414459399459688955539757576386294881590128655990830,
  17662198534156311897506529498147270230232006702,
  78463808358495685612488113721399399403202213025759589564462,
  17662194535837770411029820821987253281194246190,
  9442837750862460246882177242070742204462,
  36666162176064540745931303569201922769969959158153262,
  37040314980302977808479614510667496908401078263873582,
  77679170641572350517008640084063260308492759443096087822382,
  41530039625101785657753731511689016000232797163749422,
  4338601516882933531950049750968430493742,
  9098706848334077823305223117713689817995280430,
  2068806417885773531885839147073582,
  8507061241829879472357897071633352359982,
  4338601516882894846323822082834839896110,
  37414459399459688955539757576386294881590128628727854,
  2068806417885773531885839153365038,
  94156570553995189813011676353724997128524708946438963331118,
  2068806417885773531885839159656494,
  8507061241829879472357897071633364942894,
  17840600497426015396142763755054606106432110638,
  4338601516882914189136935916901647777838,
  233096534294609,
  1106804877519107391569,
  922337436782011875409,
  2321138495997524797447733329,
  233096534294602,
  2321138486774152760592957514,
  488838920263511834705,
  488838920263511834698,
  488838863089007853614,
  1934281800222269768537735214,
  1895596173994601634947137582,
  4056483835669321193225151999639598,
  488838863088993173550,
  4097048635533811420238979692232750,
  986483773177047719302135889,
  37040314980302977808479614278554173040965969724309585,
  8507061241829879472994309830137188712529,
  94156567560839836559322499913142911419864761265407532204113,
  2068806417886225477203605887909969,
  9442837750862460247435579652242858311761,
  17840600497426015396548963282390439275861639249,
  94156563071115191760514649827729680994903666984812055363665,
  986483773177047719302135882,
  44897347960999873484987609477721741349710594679242826,
  2068806669342177991120004956815441,
  17662198534156311897757985902606504396014485585,
  17840600497426542737515833484917898093204078673,
  19803066074897237573970976794368046311132889169,
  8507061241830130928762356305799162101841,
  9442837750862711703286636476236524683345,
  4338602044224287258866799208888419745873,
  37040314980302977809006955651623469405684263477575761,
  2068806669342177991120004956815434,
  8507061241830130928762356305799162101834,
  9098707954249052473893882381070650238952276042,
  37414451014379068955066805611419226373842112052461642,
  2068806417885791978687087387869265,
  8507061241829879472376343872881593155665,
  17662198534156311897506529516594071478445539409,
  9442837750862460246900624043318955737169,
  4338602044224287258433300692369919705169,
  17840600497426542737515833051419381574704037969,
  37040314980302977809006955651623035907167744977535057,
  19803066074897237573970976259412437387230314577,
  4338602044224287258433300692369919705162,
  17840600497426542737515833051419381574704037962,
  2068806417885791978687087387869258,
  21408723812580048315519146052242648069392302154,
  2068806417885791978629912883888174,
  8507061241829879472376343815707089174574,
  17662194535837770410991135214206329221313200174,
  37414459577865650543784742708672059509521094413385774,
  17662198534156311897506529516594014303941558318,
  9442837750862460246900623986144451756078,
  17483788574249525425858849468025142329265356846,
  37414459399459688955539757576386313328334202365542446,
  4338601516882933531968496495042167308334,
  17840600497426015396162106586615184246951641134,
  37040306595221251893032011705584613010593846101278766,
  78463808732640104769199260822107535785892453649646532689966,
  37040314980302977808479614297896571102970417225138222,
  19803066074896710232830020738860414794226204718,
  36666162176064540745971868388409244557561927370276910,
  78463808358495685612488113761964218610524000617727801688110,
  2068806417885791978629912869208110,
  8507061241829879472376343815707074494510,
  9098706848334118388143773252615115853015285806,
  37414451014377963040132719861310097918307726115471406,
  228698487783505,
  461168830541226573905,
  470392202578081349713,
  228698487783507,
  479615491052153077806,
  479615491052157272110,
  986483773177043321255624785,
  1419769658739390106719628845645905,
  637438613822976828900697572259649743611967045787370061436063680850023133432088887377,
  2977472779364629441068836412393074458705,
  637438599348965674236173144313276617525978564128621978230993175927048504479802458193,
  2977472779364629441078059784429929234513,
  1419769658739390106719628845645907,
  2977472779364880897482518930634882154577,
  2068806669342177991115606910304337,
  17840599136297277878109472100637619839666487377,
  8507061241830130928762356301401115590737,
  2977472779364880897482518930634882154579,
  17840599136297277878109472100637619839666487379,
  2068806417885782755257876029112366,
  8507061241829879472367120443670234398766,
  2977472779364629441087283072904000962606,
  17840599136297277877858015705401762108785295406,
  2977472779364629441087283072904005156910,
  17840599136297277877858015705401762108789489710,
  241892627316817,
  461168843735366107217,
  498062331882785210449,
  470392215772220883025,
  488838959845930434641,
  922337445578104897617,
  507285664337221386321,
  507285607162717405230,
  1934281818669013842247286830,
  986483773177056515395158097,
  637438621059982406232959786232836306654961286616744103038598933316122147120799023185,
  637438592111960096903910930340090054482984323299247936628457923488619633289935716433,
  637438613822976828900697572259649743611967045787370061436063680859246518663083196497,
  637438599348965674236173144313276617525978564128621978230993175945495261747651543121,
  8507061241829879472809842398196186218577,
  2068806669342177991128801049837649,
  8507061241830130928762356314595255124049,
  4338602044224287258866799217684512768081,
  17840600497426542737515833484917906889297100881,
  2068806417885810425431161097420881,
  4338601516882933531986943296290380841041,
  4338602044224287258451747436443629256785,
  37414451014379068955066805224562558268760368210772049,
  2068806417885810425373986593439790,
  8507061241829879472394790559780798726190,
  4338601516882933531986943239115876859950,
  17840600497426015396162106605061928320661192750,
  4423672108612220349807294916054780739665,
  4423672108612220349807294916054780739655,
  4423672108612220349807294916054780739658,
  85566262873784412977096851293422076605024128421317152548696621137,
  19455515683554219120453791738021584155835778736324682,
  9277112809920335131039068147794115537749934126,
  179445459318283513881835683637954885417077040423292187008418798643445806,
  9277112809920335131039068147794115537728962606,
  179445459318299206643657038722998697832649222703842141051307559286210606,
  9277112809920335131039068147794115537735254062,
  179445459318282729243744615883702694796379560967022109101804216410701870,
  40801173626797097736897910250975441255579315048440779505710,
  4423672108612220349807294924850873761873,
  9277112809920335131039068701196525709866041425,
  4423672108612220349807294924850873761863,
  9277112809920335131039068608962805341318283335,
  4423672108612220349807294924850873761866,
  179445459318282729243744615883702694796420125824915472168893937507893329,
  85566262873784412977096851293422076605043471243654367448439717969,
  40801173626797097736897910250975479941648264662304243581002,
  9277112809920335131039068166240916785963466833,
  9277112809920335131039068166240916785963466823,
  9277112809920335131039068166240916785963466826,
  19455515683550050660728845004851696285554163010502737,
  19455515683550050660728844753395125805711294671618119,
  85566262873784787113130926278653729710587541533080726208904167498,
  9277112809920335131039068166240859611459485742,
  85566262873784787121694413966157381733434903494671882402683420718,
  19455515683550050660728845004851696285496988506521646,
  179445459318283513881835683637954885417117605261842321909844833650868270,
  9277112809920335131039068166240859611438514222,
  19455515683550050660728844753395125805654120146665518,
  179445459318299206643657038722998697832689787542392275952733594293633070,
  179445459318299206643657038722998697831919055958110699362789531949465646,
  9277112809920335131039068166240859611444805678,
  85566262873784787113130926278653729710587541533080669034385506350]

/-- Keys of `schoenflies`. -/
def kSchoenflies : List Nat := [
  461168808551029669956,
  461168808551147110468,
  461168808551031767108,
  470392180587886542916,
  479615552624741318724,
  461168808551168081988,
  470392180588022857796,
  479615552624877633604,
  488838924661732409412,
  967141089190650866930024516,
  986483902304484933725323332,
  1005826715418319000520622148,
  1025169528532153067315920964,
  1044512341645987134111219780,
  1063855154759821200906518596,
  461168808551031767109,
  470392180587886542917,
  479615552624741318725,
  488838924661596094533,
  498062296698450870341,
  507285668735305646149,
  516509040772160421957,
  525732412809015197765,
  534955784845869973573,
  967141089190712439581179972,
  986483902304546506376478788,
  1005826715418380573171777604,
  1025169528532214639967076420,
  1044512341646048706762375236,
  1063855154759882773557674052,
  1083197967873716840352972868,
  1102540780987550907148271684,
  1121883594101384973943570500,
  1987677108298952892259270207209540,
  2028241927506256233107164709781572,
  2068806746713559573955059212353604,
  2109371565920862914802953714925636,
  2149936385128166255650848217497668,
  2190501204335469596498742720069700,
  2231066023542772937346637222641732,
  2271630842750076278194531725213764,
  2312195661957379619042426227785796,
  2352760481164682959890320730357828,
  1987677127641766006093337002508356,
  2028241946849069346941231505080388,
  2068806766056372687789126007652420,
  967141089190650866930024517,
  986483902304484933725323333,
  1005826715418319000520622149,
  1025169528532153067315920965,
  1044512341645987134111219781,
  1063855154759821200906518597,
  1083197967873655267701817413,
  1102540780987489334497116229,
  1121883594101323401292415045,
  1987677108298952892197697556054085,
  2028241927506256233045592058626117,
  2068806746713559573893486561198149,
  2109371565920862914741381063770181,
  2149936385128166255589275566342213,
  2190501204335469596437170068914245,
  2231066023542772937285064571486277,
  2271630842750076278132959074058309,
  2312195661957379618980853576630341,
  2352760481164682959828748079202373,
  1987677127641766006031764351352901,
  2028241946849069346879658853924933,
  2068806766056372687727553356496965,
  2109371585263676028575447859068997,
  2149936404470979369423342361641029,
  2190501223678282710271236864213061,
  2231066042885586051119131366785093,
  2271630862092889391967025869357125,
  2312195681300192732814920371929157,
  461168808551035961412,
  470392180587890737220,
  479615552624745513028,
  488838924661600288836,
  498062296698455064644,
  507285668735309840452,
  461168808551035961428,
  470392180587890737236,
  967141089190650866934218820,
  986483902304484933729517636,
  1005826715418319000524816452,
  1025169528532153067320115268,
  1044512341645987134115414084,
  1063855154759821200910712900,
  461168808551035961413,
  470392180587890737221,
  479615552624745513029,
  488838924661600288837,
  498062296698455064645,
  507285668735309840453,
  516509040772164616261,
  525732412809019392069,
  534955784845874167877,
  947798303746677824005603397,
  967141089190712439585374276,
  986483902304546506380673092,
  1005826715418380573175971908,
  1025169528532214639971270724,
  1044512341646048706766569540,
  1063855154759882773561868356,
  1083197967873716840357167172,
  1102540780987550907152465988,
  1121883594101384973947764804,
  1987677108298952892259270211403844,
  2028241927506256233107164713975876,
  2068806746713559573955059216547908,
  967141089190633274743980101,
  986483902304467341539278917,
  1005826715418301408334577733,
  1025169528532135475129876549,
  1044512341645969541925175365,
  1063855154759803608720474181,
  1083197967873637675515772997,
  1102540780987471742311071813,
  1121883594101305809106370629,
  1987677108298952892180105370009669,
  2028241927506256233027999872581701,
  2068806746713559573875894375153733,
  967141089190650866934218821,
  986483902304484933729517637,
  1005826715418319000524816453,
  1025169528532153067320115269,
  1044512341645987134115414085,
  1063855154759821200910712901,
  1083197967873655267706011717,
  1102540780987489334501310533,
  1121883594101323401296609349,
  1987677108298952892197697560248389,
  2028241927506256233045592062820421,
  2068806746713559573893486565392453,
  2109371565920862914741381067964485,
  2149936385128166255589275570536517,
  2190501204335469596437170073108549,
  2231066023542772937285064575680581,
  2271630842750076278132959078252613,
  2312195661957379618980853580824645,
  2352760481164682959828748083396677,
  1987677127641766006031764355547205,
  461168808551033864260,
  470392180587888640068,
  479615552624743415876,
  488838924661598191684,
  967141089190655264978632772,
  986483902304489331773931588,
  461168808551033864261,
  470392180587888640069,
  479615552624743415877,
  488838924661598191685,
  498062296698452967493,
  507285668735307743301,
  516509040772162519109,
  967141089190712439583277124,
  986483902304546506378575940,
  1005826715418380573173874756,
  1025169528532214639969173572,
  1044512341646048706764472388,
  1063855154759882773559771204,
  967141089190633274746077253,
  986483902304467341541376069,
  1005826715418301408336674885,
  1025169528532135475131973701,
  1044512341645969541927272517,
  1063855154759803608722571333,
  461168808551040155716,
  470392180587894931524,
  479615552624749707332,
  488838924661604483140,
  498062296698459258948,
  507285668735314034756,
  967141089190650866932121668,
  967141089190650866938413124,
  986483902304484933733711940,
  461168808551040155717,
  470392180587894931525,
  479615552624749707333,
  488838924661604483141,
  498062296698459258949,
  507285668735314034757,
  967141089190712439589568580,
  986483902304546506384867396,
  1005826715418380573180166212,
  1025169528532214639975465028,
  967141089190650866932121669,
  986483902304484933727420485,
  1005826715418319000522719301,
  1025169528532153067318018117,
  967141089190650866938413125,
  986483902304484933733711941,
  1005826715418319000529010757,
  1025169528532153067324309573,
  219902424121429,
  224300470632533,
  228698517143637,
  233096563654741,
  237494610165845,
  461168808551145013333,
  470392180587999789141,
  479615552624854564949,
  488838924661709340757,
  498062296698564116565,
  507285668735418892373,
  516509040772273668181,
  219902424121424,
  224300470632528,
  228698517143632,
  233096563654736,
  237494610165840,
  241892656676944,
  246290703188048,
  250688749699152,
  461168808551136624725,
  470392180587991400533,
  479615552624846176341,
  488838924661700952149,
  498062296698555727957,
  507285668735410503765,
  461168808551145013328,
  470392180587999789136,
  479615552624854564944,
  488838924661709340752,
  498062296698564116560,
  507285668735418892368,
  516509040772273668176,
  525732412809128443984,
  534955784845983219792,
  947798303746677824114655312]

/-- Keys of `fullTable`. -/
def kFull : List (Nat × Nat) := [
  (1, 219902394761297),
  (2, 461168804152947507281),
  (16, 4338601516881985733941451264196838686801),
  (17, 8920302418013766138600021250510608799230853201),
  (18, 19081371264393254443807136690052471574981157018665041),
  (19, 39231904927538019167228127702184605153111296509057234370641),
  (20, 8920302418013766138600021250510608799230853188),
  (21, 4338601516881985733941451264196838686788),
  (22, 4338601516881985733941451264196838686791),
  (23, 4338601516881985733941451264196838686794),
  (24, 39231904927538019167228127702184605153111296509057234370634),
  (25, 4338601516883126959915167733622505472081),
  (26, 8920302418013766139547819093088737556944650321),
  (27, 4338601516882933531784029348974087372881),
  (28, 4338601516882894846157801724820961886289),
  (29, 8920302418013766139509133466861025442888941649),
  (30, 4338601516882933531784029397352598995025),
  (31, 8920302418013766139760590037340912291692937297),
  (32, 4338601516882894846157801676442450264145),
  (33, 8920302418013766139509133466861073821400563793),
  (34, 4338601516883146302728281572087347282001),
  (35, 4338601516883126959915167733622505472068),
  (36, 8920302418013766139547819093088737556944650308),
  (37, 4338601516882933531784029348974087372868),
  (38, 4338601516883126959915167733622505472066),
  (39, 4338601516883126959915167698438133383234),
  (40, 4338601516882894846157801724820961886274),
  (41, 4338601516882894846157801689636589797442),
  (42, 4338601516883126959915167733622505472071),
  (43, 4338601516882952874597143187438929182791),
  (44, 4338601516883126959915167733622505472074),
  (45, 4338601516882894846157801676442450264138),
  (46, 4338601516882894846157801724820961886282),
  (47, 796070779148545087268897887691384693447696073541314319322517791272998348521553),
  (48, 803307784725877349482871074628572106845236594643060191093165457139478445424721),
  (49, 796070779148545087268897883949940501880584602939880954140702122613143085514833),
  (50, 803307784725877349482871069764694657807991682861196835699618201715733398814801),
  (51, 1487356217986767526457444189203057895135497074858176327278499417581505462988565381201),
  (52, 1487356217986767526457444189987695612058653765907329287848688154283783954355175030865),
  (53, 1487356217986764075613889815535865254517424686160776794167841891581010030138163724369),
  (54, 1487356217986767526457444181356680725902146120063439142620724324420152678463496519761),
  (55, 3501156312826101632820615543106274988241501638277851104418685051780438678599483829056962641),
  (56, 3532984999956327977918560010278680636650342916238819723449616321086279921016293586290868305),
  (57, 3501156312826094395877153821007420664423990382379353717905780051323843622585958960193339473),
  (58, 3501156312826101632820615564497834233417180186292450477664728394386492571926196786619744337),
  (59, 3532984999956327977918560026733726209862403337788511549023527019105711610760571164802678865),
  (60, 3532984999956320740975098284888817198190419576208788402142240863835404561527382249637412945),
  (61, 6541461825285528233604431750219772218262086082503881619483401843260568903625639575735899361640529),
  (62, 6541461825285528233604431750219788673307659294564303169175227417252396561471936001709266878595153),
  (63, 1669481426632926176012589369300566036426539603499297212708710375941048955770111000644),
  (64, 1548064620868818109080123000124096104761389176058538492630472100332367437944785469508),
  (65, 796070779148545087268897887691384693447696073541314319322517791272998348521540),
  (66, 796070779148545087268897883949940501880584602939880954140702122613143085514820),
  (67, 738174734529886989557112395187040739521061081208494037302788999269041783701572),
  (68, 738174734529886989557112391445596547953949610607060672120973330609186520694852),
  (69, 796070779148545087268897887691384693447696073541314319322517791272998348521543),
  (70, 730937728952554727343139205256697972869831383625601473386688798474677476393031),
  (71, 796070779148545087268897887691384693447696073541314319322517791272998348521546),
  (72, 796070779148545087268897883201651663567162308819594300447152102715238828212298),
  (73, 6541461825285528233604431750219772218262086082503881619483401843260568903625639575735899361640522),
  (74, 6541461825285528233604431750219788673307659294564303169175227417211831742264632660861372376023114),
  (75, 233096534294609),
  (76, 461168834939273085009),
  (77, 470392206976127860817),
  (78, 479615579012982636625),
  (79, 233096534294602),
  (80, 461168834939273085002),
  (81, 488838920263511834705),
  (82, 488838920263511834698),
  (83, 2127709885243838213046403153),
  (84, 4462131041258867349510577585127505),
  (85, 2147052698357672279841701969),
  (86, 4502695860466170690358472087699537),
  (87, 2127709885243838213046403146),
  (88, 3975353210771218035963806699487306),
  (89, 4338601516881985733941451272992931709009),
  (90, 9098706848332049581435745568300485250958491729),
  (91, 9098706848332090145906782392389644569676873809),
  (92, 19081371264393254443807136690052471574989953111687249),
  (93, 9098706848332090145906782401613016606531649617),
  (94, 19081371264393254443807136690052480798361989966463057),
  (95, 9098706848332090145906782410836388643386425425),
  (96, 19081371264393254443807136690052490021734026821238865),
  (97, 4338601516881985733941451272992931709002),
  (98, 9098706848332090145906782392389644569676873802),
  (99, 9357766428966969295999942942552435458129),
  (100, 9357766428966756525055690767817687171153),
  (101, 19624658582040531944852799290004590067980435537),
  (102, 19624658582040978157864079626753916907508727889),
  (103, 8507060511664429709210368083305061941329),
  (104, 8507060511664642480154620258039810228305),
  (105, 17840598966158487741722014861601200092527722577),
  (106, 17840598966158041528710734524851873252999430225),
  (107, 9357766428966969295999942942552435458122),
  (108, 9357766428966775867868804601884482469962),
  (109, 18019004927746732726854300598559014947720790090),
  (110, 18019004927746327078662227565150536002695069770),
  (111, 19624658582038544268711641444749756524738379857),
  (112, 17840598966156094417388783982937887604259946577),
  (113, 41155891994639212120355592403399237973958482479546449),
  (114, 37414447803072100649754159231645553443639295169527889),
  (115, 9098706848334483470240013317169755669567373393),
  (116, 9098706848334077822047940283761276724541653073),
  (117, 9098706848334037257228732980420428830039081041),
  (118, 9098706848334524035059220620510603564069945425),
  (119, 9098706848334483470240013317169755669567373386),
  (120, 9098706848334077822047940283761276724541653066),
  (121, 19624658582038544268711641444749756524738379850),
  (122, 18019004927744339402521069729119074496307789898),
  (123, 796070779148545087268897887691384693447696073541314319322517791281794441543761),
  (124, 723700723375222465129166018319510559472290862523855795044172270957661425500241),
  (125, 796070779148545087268897883575796082723873455879737849736277921764755195822161),
  (126, 723700723375222465129166022435099170196113480185432303316038368142834261819473),
  (127, 1669481426632929626856143734336747906476358261314783233154526600730159239126409281617),
  (128, 1517710419427794543190560782281813094974941372767518967868228380372840508540804137041),
  (129, 1669481426632929626856143742967762792633044311588993690065087265684011809331252035665),
  (130, 1517710419427794543190560773650798208818255322493308510957706401045215606469551980625),
  (131, 1517710419427794543190560781497175378051784681718366007298058986492899223277844562001),
  (132, 1669481426632929626856143735121385623399871761224577628386273810875806814979458334801),
  (133, 1517710419427794543190560772866160491895098631444155590952336871655501335034299678801),
  (134, 1669481426632929626856143743752400509556557811498788125861634340319886399012008362065),
  (135, 3182869441523838181841170905937814207898415743922517747814584824562832812117750004540506193),
  (136, 3501156312826101632820615564497834233417180186292450477664687829567285277808729725064970321),
  (137, 3182869441523838181841170924038364338431682207627178755945480944192134637427976395877777489),
  (138, 3501156312826101632820615546397284102883913722587789469533872839576398059180199122732843089),
  (139, 1669481426632929626856143742967762792633044311588993690065067922870897975264456736842),
  (140, 796070779148545087268897883949940501880584602939881147568833260962607131525194),
  (141, 1532887520148308051557119077644234119509928485148460360530008283294670866235124613194),
  (142, 1532887520148308051557119069797856950276577530353723581520425263166726560655081472074),
  (143, 228698487783505),
  (144, 461168830541226573905),
  (145, 470392202578081349713),
  (146, 228698487783507),
  (147, 479615548226657058897),
  (148, 479615548226657058899),
  (149, 4338601516881966391128337434528089899089),
  (150, 4253530925151751118075607616736943145041),
  (151, 9098706848332049581087575089048792277127790673),
  (152, 8920300886743845160774496646208453279582519377),
  (153, 9098706848332049581087575098272164313982566481),
  (154, 8920300886743845160774496655431825316437295185),
  (155, 986483773177043321255624787),
  (156, 4253530925152892344049323826677865775185),
  (157, 9357766428965808727213112894146671018065),
  (158, 4253530925152698915918185486009912787025),
  (159, 8507060511663462568554676375567250489425),
  (160, 2127709746893253262178254931),
  (161, 1934281615754912594225266771),
  (162, 86310166820508078731725495505565725214200628403442120917073),
  (163, 78463789651274727776930758726556142194072684097862077775953),
  (164, 39231898192952211605299634299999612767221852743575353163857),
  (165, 39231898192950427545683751850148289909760040874654874730577),
  (166, 19624659858097420222230879423181162357014397011),
  (167, 17840600242214970370908021961369293436535963731),
  (168, 241892627316817),
  (169, 461168843735366107217),
  (170, 498062331882785210449),
  (171, 470392215772220883025),
  (172, 488838959845930434641),
  (173, 479615587809075658833),
  (174, 507285664337221386321),
  (175, 1338641161550895491827527724302417),
  (176, 4462131041258876572891410532925521),
  (177, 4338601516881985733941451281789024731217),
  (178, 9098706848332090145906782392389653365769896017),
  (179, 9098706848332090145906782429283141513188999249),
  (180, 9098706848332090145906782401613025402624671825),
  (181, 9098706848332090145906782420059769476334223441),
  (182, 9098706848332090145906782410836397439479447633),
  (183, 9357766428966969295999942951348528480337),
  (184, 8507060511664429709210368092101154963537),
  (185, 19624658582040531944852799299227970900928233553),
  (186, 17840598966158487741722014870824580925475520593),
  (187, 9098706848334483470240013335616499743276925009),
  (188, 9098706848334077822047940302208020798251204689),
  (189, 19624658582038544268711641463196500598447931473),
  (190, 17840598966156094417388784001384631677969498193),
  (191, 796070779148545087268897887691384693447696073541314319322517791290590534565969),
  (192, 723700723375222465129166018319510559472290862523855795044172270966457518522449),
  (193, 1669481426632929626856143735121385623399871761224577628386273810885030195812406132817),
  (194, 1517710419427794543190560781497175378051784681718366007298058986502122604110792360017),
  (195, 479615570216889614417),
  (196, 479615570216889614407),
  (197, 479615570216889614410),
  (198, 2109371237093067649440861558669393),
  (199, 2109371237093067649440861558669386),
  (200, 9277113915837297458832739525721513787360542801),
  (201, 9277113915837297458852082338835347854155841617),
  (202, 9277113915837297458832739525721513787360542791),
  (203, 9277113915837297458658654207697007186202853447),
  (204, 9277113915837297458832739525721513787360542794),
  (205, 19455518002826020039899219531358274768723130907099217),
  (206, 19455518002826020039899219531358274768723130907099210),
  (207, 4338601516882005076754565107059727007825),
  (208, 9098706848332130710725989704953864501034221649),
  (209, 4338601516882005076754565107059727007815),
  (210, 9098706848332130710725989695730492464179445831),
  (211, 4338601516882005076754565107059727007818),
  (212, 9098706848332130710725989714177236537888997457),
  (213, 9098706848332130710725989695730492464179445841),
  (214, 9098706848332130710725989695730492464179445834),
  (215, 19624658582038584833530848748090604419240951889),
  (216, 19624658582038584833530848748090604419240951879),
  (217, 19624658582038584833530848748090604419240951882),
  (218, 19803064543626829818663134494271791311288795217),
  (219, 17840598966156134982207991286278735498762518599),
  (220, 18019004927744379967340277032459922390810361930),
  (221, 379596128057739776262711461062911999485490369813622148133306632838840401),
  (222, 383047001231135058156428838994050512211715924319050154524721961746038865),
  (223, 803307784725877349482871052554051019785824474076979850454507924015621515247697),
  (224, 796070779148545087268897865991008025544995100075942134409345165863021447217233),
  (225, 379596128057739776262711461062911999485490369813622148133306632838840391),
  (226, 345087396323786957325537681751526872223234824952770215357494011719843911),
  (227, 796070779148545087268897865991008025544995099670293942336302534012039566721095),
  (228, 723700723375222465129166000360578083136701359254268589811641544007093860696135),
  (229, 379596128057739776262711461062911999485490369813622148133306632838840394),
  (230, 730937728952554727343139186923621077377530733174176667442197620463904923582538)]

/-- Keys of `extTable`. -/
def kExt : List (Nat × Option String × Nat) := [
  (1, none, 4253530925151731775262493773874054824017),
  (2, none, 4253530925151731775262493773874054824017),
  (3, some "b1", 4253530925151751118075607607940850122833),
  (3, some "-b1", 4253530925151751118075607607940850122833),
  (3, some "c1", 4338601516881966391128337425731996876881),
  (3, some "-c1", 4338601516881966391128337425731996876881),
  (3, some "a1", 4253530925151731775262493778272101335121),
  (3, some "-a1", 4253530925151731775262493778272101335121),
  (4, some "b1", 8920300886743804596303459822119285164771115089),
  (4, some "-b1", 8920300886743804596303459822119285164771115089),
  (4, some "c1", 8920302418013766138580678437396770334389043281),
  (4, some "-c1", 8920302418013766138580678437396770334389043281),
  (4, some "a1", 8920300886743804595955289342867600987033436241),
  (4, some "-a1", 8920300886743804595955289342867600987033436241),
  (5, some "b1", 4253530925151751118075607607940850122820),
  (5, some "-b1", 4253530925151751118075607607940850122818),
  (5, some "c1", 4338601516881966391128337425731996876866),
  (5, some "-c1", 4338601516881966391128337425731996876867),
  (5, some "a1", 4253530925151731775262493778272101335107),
  (5, some "-a1", 4253530925151731775262493778272101335108),
  (5, some "b2", 4253530925151751118075607607940850122818),
  (5, some "-b2", 4253530925151751118075607607940850122820),
  (5, some "c2", 4338601516881966391128337425731996876867),
  (5, some "-c2", 4338601516881966391128337425731996876866),
  (5, some "a2", 4253530925151731775262493778272101335108),
  (5, some "-a2", 4253530925151731775262493778272101335107),
  (5, some "b3", 4253530925151751118075607607940850122826),
  (5, some "-b3", 4253530925151751118075607607940850122826),
  (5, some "c3", 4338601516881966391128337425731996876874),
  (5, some "-c3", 4338601516881966391128337425731996876874),
  (5, some "a3", 4253530925151731775262493778272101335114),
  (5, some "-a3", 4253530925151731775262493778272101335114),
  (6, some "b1", 4253530925152892344049323817881772752977),
  (6, some "-b1", 4253530925152892344049323817881772752977),
  (6, some "c1", 9357766428965808727213112885350577995857),
  (6, some "-c1", 9357766428965808727213112885350577995857),
  (6, some "a1", 4253530925151731775262494037756845490257),
  (6, some "-a1", 4253530925151731775262494037756845490257),
  (7, some "b1", 4253530925152698915918185477213819764817),
  (7, some "-b1", 4253530925152660230291957809080229167185),
  (7, some "c1", 8336919328202993336822989063055273361489),
  (7, some "-c1", 8421989919933227952688832714913215414353),
  (7, some "a1", 4253530925151731775262493989378333868113),
  (7, some "-a1", 4253530925151731775262493993776380379217),
  (7, some "b2", 4253530925152911686862437651948568051793),
  (7, some "-b2", 4253530925152911686862437651948568051793),
  (7, some "c2", 9442837020696043343078956537208520048721),
  (7, some "-c2", 9442837020696043343078956537208520048721),
  (7, some "a2", 4253530925151731775262494042154892001361),
  (7, some "-a2", 4253530925151731775262494042154892001361),
  (7, some "b3", 4253530925152660230291957809080229167185),
  (7, some "-b3", 4253530925152698915918185477213819764817),
  (7, some "c3", 8421989919933227952688832714913215414353),
  (7, some "-c3", 8336919328202993336822989063055273361489),
  (7, some "a3", 4253530925151731775262493993776380379217),
  (7, some "-a3", 4253530925151731775262493989378333868113),
  (8, some "b1", 4253530925152892344049323817881772752964),
  (8, some "-b1", 4253530925152892344049323817881772752962),
  (8, some "c1", 9357766428965808727213112885350577995842),
  (8, some "-c1", 9357766428965808727213112885350577995843),
  (8, some "a1", 4253530925151731775262494037756845490243),
  (8, some "-a1", 4253530925151731775262494037756845490244),
  (8, some "b2", 4253530925152892344049323817881772752962),
  (8, some "-b2", 4253530925152892344049323817881772752964),
  (8, some "c2", 9357766428965808727213112885350577995843),
  (8, some "-c2", 9357766428965808727213112885350577995842),
  (8, some "a2", 4253530925151731775262494037756845490244),
  (8, some "-a2", 4253530925151731775262494037756845490243),
  (8, some "b3", 4253530925152892344049323817881772752970),
  (8, some "-b3", 4253530925152892344049323817881772752970),
  (8, some "c3", 9357766428965808727213112885350577995850),
  (8, some "-c3", 9357766428965808727213112885350577995850),
  (8, some "a3", 4253530925151731775262494037756845490250),
  (8, some "-a3", 4253530925151731775262494037756845490250),
  (9, some "b1", 4253530925152698915918185477213819764804),
  (9, some "-b1", 4253530925152660230291957809080229167170),
  (9, some "c1", 8336919328202993336822989063055273361474),
  (9, some "-c1", 8421989919933227952688832714913215414339),
  (9, some "a1", 4253530925151731775262493989378333868099),
  (9, some "-a1", 4253530925151731775262493993776380379204),
  (9, some "b2", 4253530925152911686862437651948568051778),
  (9, some "-b2", 4253530925152911686862437651948568051780),
  (9, some "c2", 9442837020696043343078956537208520048707),
  (9, some "-c2", 9442837020696043343078956537208520048706),
  (9, some "a2", 4253530925151731775262494042154892001348),
  (9, some "-a2", 4253530925151731775262494042154892001347),
  (9, some "b3", 4253530925152660230291957809080229167178),
  (9, some "-b3", 4253530925152698915918185477213819764810),
  (9, some "c3", 8421989919933227952688832714913215414346),
  (9, some "-c3", 8336919328202993336822989063055273361482),
  (9, some "a3", 4253530925151731775262493993776380379210),
  (9, some "-a3", 4253530925151731775262493989378333868106),
  (10, some "b1", 18707226845241647532129113340377622970201209040797777),
  (10, some "-b1", 18707226845241647532129113340377622970201209040797777),
  (10, some "c1", 41155894670728721013891933205397474867907610703560785),
  (10, some "-c1", 41155894670728721013891933205397474867907610703560785),
  (10, some "a1", 18707226845236543296016828116542234305166206769823825),
  (10, some "-a1", 18707226845236543296016828116542234305166206769823825),
  (11, some "b1", 39231898192952211605299634259435141730379316857775111274577),
  (11, some "-b1", 39231898192952211605299634259435141730379316857775111274577),
  (11, some "c1", 86310166820507900327295177222123218317530529663813951684689),
  (11, some "-c1", 86310166820507900327295177222123218317530529663813951684689),
  (11, some "a1", 39231898192941507246328283118262779757538697566877456007249),
  (11, some "-a1", 39231898192941507246328283118262779757538697566877456007249),
  (12, some "b1", 18707226845241647532129113340377622970201209040797764),
  (12, some "-b1", 18707226845241647532129113340377622970201209040797762),
  (12, some "c1", 41155894670728721013891933205397474867907610703560770),
  (12, some "-c1", 41155894670728721013891933205397474867907610703560771),
  (12, some "a1", 18707226845236543296016828116542234305166206769823811),
  (12, some "-a1", 18707226845236543296016828116542234305166206769823812),
  (12, some "b2", 18707226845241647532129113340377622970201209040797762),
  (12, some "-b2", 18707226845241647532129113340377622970201209040797764),
  (12, some "c2", 41155894670728721013891933205397474867907610703560771),
  (12, some "-c2", 41155894670728721013891933205397474867907610703560770),
  (12, some "a2", 18707226845236543296016828116542234305166206769823812),
  (12, some "-a2", 18707226845236543296016828116542234305166206769823811),
  (12, some "b3", 18707226845241647532129113340377622970201209040797770),
  (12, some "-b3", 18707226845241647532129113340377622970201209040797770),
  (12, some "c3", 41155894670728721013891933205397474867907610703560778),
  (12, some "-c3", 41155894670728721013891933205397474867907610703560778),
  (12, some "a3", 18707226845236543296016828116542234305166206769823818),
  (12, some "-a3", 18707226845236543296016828116542234305166206769823818),
  (13, some "b1", 18707226845240796826211810994218964533682629620269137),
  (13, some "-b1", 18707226845240626685028350524987232846378913736163409),
  (13, some "c1", 36666161640848187249170213399293053431524585931538513),
  (13, some "-c1", 37040306060004898396230356716468421884556504662540369),
  (13, some "a1", 18707226845236543296016827903771290052991472021536849),
  (13, some "-a1", 18707226845236543296016827923114103166825538816835665),
  (13, some "b2", 18707226845241732602720843574993488813853066982850641),
  (13, some "-b2", 18707226845241732602720843574993488813853066982850641),
  (13, some "c2", 41530039089885432160952076522572843320939529434562641),
  (13, some "-c2", 41530039089885432160952076522572843320939529434562641),
  (13, some "a2", 18707226845236543296016828135885047419000273565122641),
  (13, some "-a2", 18707226845236543296016828135885047419000273565122641),
  (13, some "b3", 18707226845240626685028350524987232846378913736163409),
  (13, some "-b3", 18707226845240796826211810994218964533682629620269137),
  (13, some "c3", 37040306060004898396230356716468421884556504662540369),
  (13, some "-c3", 36666161640848187249170213399293053431524585931538513),
  (13, some "a3", 18707226845236543296016827923114103166825538816835665),
  (13, some "-a3", 18707226845236543296016827903771290052991472021536849),
  (14, some "b1", 39231898192950427545683751809583818872917504988854632841297),
  (14, some "-b1", 39231898192950070733760575319613554301425142615070537154641),
  (14, some "c1", 76894514217427879181541493087311718693376996497117899915345),
  (14, some "-c1", 77679151934351214277020966765212676995389790927675904229457),
  (14, some "a1", 39231898192941507246328282672049768477201948240037927714897),
  (14, some "-a1", 39231898192941507246328282712614587684505289087932430286929),
  (14, some "b2", 39231898192952390011261222504420274016125498044667159117905),
  (14, some "-b2", 39231898192952390011261222504420274016125498044667159117905),
  (14, some "c2", 87094804537431235422774650900024176619543324094371955998801),
  (14, some "-c2", 87094804537431235422774650900024176619543324094371955998801),
  (14, some "a2", 39231898192941507246328283158827598964842038414771958579281),
  (14, some "-a2", 39231898192941507246328283158827598964842038414771958579281),
  (14, some "b3", 39231898192950070733760575319613554301425142615070537154641),
  (14, some "-b3", 39231898192950427545683751809583818872917504988854632841297),
  (14, some "c3", 77679151934351214277020966765212676995389790927675904229457),
  (14, some "-c3", 76894514217427879181541493087311718693376996497117899915345),
  (14, some "a3", 39231898192941507246328282712614587684505289087932430286929),
  (14, some "-a3", 39231898192941507246328282672049768477201948240037927714897),
  (15, some "b1", 18707226845240796826211810994218964533682629620269124),
  (15, some "-b1", 18707226845240626685028350524987232846378913736163394),
  (15, some "c1", 36666161640848187249170213399293053431524585931538498),
  (15, some "-c1", 37040306060004898396230356716468421884556504662540355),
  (15, some "a1", 18707226845236543296016827903771290052991472021536835),
  (15, some "-a1", 18707226845236543296016827923114103166825538816835652),
  (15, some "b2", 18707226845241732602720843574993488813853066982850626),
  (15, some "-b2", 18707226845241732602720843574993488813853066982850628),
  (15, some "c2", 41530039089885432160952076522572843320939529434562627),
  (15, some "-c2", 41530039089885432160952076522572843320939529434562626),
  (15, some "a2", 18707226845236543296016828135885047419000273565122628),
  (15, some "-a2", 18707226845236543296016828135885047419000273565122627),
  (15, some "b3", 18707226845240626685028350524987232846378913736163402),
  (15, some "-b3", 18707226845240796826211810994218964533682629620269130),
  (15, some "c3", 37040306060004898396230356716468421884556504662540362),
  (15, some "-c3", 36666161640848187249170213399293053431524585931538506),
  (15, some "a3", 18707226845236543296016827923114103166825538816835658),
  (15, some "-a3", 18707226845236543296016827903771290052991472021536842),
  (16, some "abc", 4338601516881985733941451264196838686801),
  (16, some "ba-c", 4338601516881985733941451264196838686801),
  (16, some "cab", 4338601516881985733941451264196838686801),
  (16, some "-cba", 4338601516881985733941451264196838686801),
  (16, some "bca", 4338601516881985733941451264196838686801),
  (16, some "a-cb", 4338601516881985733941451264196838686801),
  (17, some "abc", 8920302418013766138600021250510608799230853201),
  (17, some "ba-c", 8920302418013766138600021250510608799230853201),
  (17, some "cab", 9098706848332090145906782392389635773583851601),
  (17, some "-cba", 9098706848332090145906782392389635773583851601),
  (17, some "bca", 9098706848332049581435745568300476454865469521),
  (17, some "a-cb", 9098706848332049581435745568300476454865469521),
  (18, some "abc", 19081371264393254443807136690052471574981157018665041),
  (18, some "ba-c", 19081371264393254443807136690052471574981157018665041),
  (18, some "cab", 18707230056542405685056747294513990952072391415562321),
  (18, some "-cba", 18707230056542405685056747294513990952072391415562321),
  (18, some "bca", 18707230056542405685097311765550815041231710133944401),
  (18, some "a-cb", 18707230056542405685097311765550815041231710133944401),
  (19, some "abc", 39231904927538019167228127702184605153111296509057234370641),
  (19, some "ba-c", 39231904927538019167228127702184605153111296509057234370641),
  (19, some "cab", 39231904927538019167228127702184605153111296509057234370641),
  (19, some "-cba", 39231904927538019167228127702184605153111296509057234370641),
  (19, some "bca", 39231904927538019167228127702184605153111296509057234370641),
  (19, some "a-cb", 39231904927538019167228127702184605153111296509057234370641),
  (20, some "abc", 8920302418013766138600021250510608799230853188),
  (20, some "ba-c", 8920302418013766138600021250510608799230853188),
  (20, some "cab", 9098706848332090145906782392389635773583851586),
  (20, some "-cba", 9098706848332090145906782392389635773583851586),
  (20, some "bca", 9098706848332049581435745568300476454865469507),
  (20, some "a-cb", 9098706848332049581435745568300476454865469507),
  (21, some "abc", 4338601516881985733941451264196838686788),
  (21, some "ba-c", 4338601516881985733941451264196838686788),
  (21, some "cab", 4338601516881985733941451264196838686786),
  (21, some "-cba", 4338601516881985733941451264196838686786),
  (21, some "bca", 4338601516881985733941451264196838686787),
  (21, some "a-cb", 4338601516881985733941451264196838686787),
  (22, some "abc", 4338601516881985733941451264196838686791),
  (22, some "ba-c", 4338601516881985733941451264196838686791),
  (22, some "cab", 4338601516881985733941451264196838686791),
  (22, some "-cba", 4338601516881985733941451264196838686791),
  (22, some "bca", 4338601516881985733941451264196838686791),
  (22, some "a-cb", 4338601516881985733941451264196838686791),
  (23, some "abc", 4338601516881985733941451264196838686794),
  (23, some "ba-c", 4338601516881985733941451264196838686794),
  (23, some "cab", 4338601516881985733941451264196838686794),
  (23, some "-cba", 4338601516881985733941451264196838686794),
  (23, some "bca", 4338601516881985733941451264196838686794),
  (23, some "a-cb", 4338601516881985733941451264196838686794),
  (24, some "abc", 39231904927538019167228127702184605153111296509057234370634),
  (24, some "ba-c", 39231904927538019167228127702184605153111296509057234370634),
  (24, some "cab", 39231904927538019167228127702184605153111296509057234370634),
  (24, some "-cba", 39231904927538019167228127702184605153111296509057234370634),
  (24, some "bca", 39231904927538019167228127702184605153111296509057234370634),
  (24, some "a-cb", 39231904927538019167228127702184605153111296509057234370634),
  (25, some "abc", 4338601516883126959915167733622505472081),
  (25, some "ba-c", 4338601516883126959915167733622505472081),
  (25, some "cab", 9357766428966969295999942933756342435921),
  (25, some "-cba", 9357766428966969295999942933756342435921),
  (25, some "bca", 9357766428965828070026226983300163960913),
  (25, some "a-cb", 9357766428965828070026226983300163960913),
  (26, some "abc", 8920302418013766139547819093088737556944650321),
  (26, some "ba-c", 8920302418013766139741247224227034244432527441),
  (26, some "cab", 17483787042981997771457443360015445475484237905),
  (26, some "-cba", 19624658582040450815214384674099513446027493457),
  (26, some "bca", 19624658582038503704240604592990714191920758865),
  (26, some "a-cb", 17662193004567808867785461384997706757906104401),
  (27, some "abc", 4338601516882933531784029348974087372881),
  (27, some "ba-c", 4338601516882933531784029348974087372881),
  (27, some "cab", 8336919328203921791852453102659494215761),
  (27, some "-cba", 8336919328203921791852453102659494215761),
  (27, some "bca", 8421989919933247295501946764484289757265),
  (27, some "a-cb", 8421989919933247295501946764484289757265),
  (28, some "abc", 4338601516882894846157801724820961886289),
  (28, some "ba-c", 4338601516883126959915167685243993849937),
  (28, some "cab", 8421989919934388521475662763318979854417),
  (28, some "-cba", 9357766428966775867868804593088389447761),
  (28, some "bca", 9357766428965828070026226939319698849873),
  (28, some "a-cb", 8336919328203012679636103161004859326545),
  (29, some "abc", 8920302418013766139509133466861025442888941649),
  (29, some "ba-c", 8920302418013766139547819093088689178433028177),
  (29, some "cab", 17662193004569755978759241466106457633501216849),
  (29, some "-cba", 17483787042981592123265370326606966530458517585),
  (29, some "bca", 17662193004567808867785461384997662777440993361),
  (29, some "a-cb", 17483787042979563882653175638816471487346638929),
  (30, some "abc", 4338601516882933531784029397352598995025),
  (30, some "ba-c", 4338601516883146302728281523708835659857),
  (30, some "cab", 8336919328204173248422932945527833100369),
  (30, some "-cba", 9442837020696971798108420576812740902993),
  (30, some "bca", 9442837020696062685892070586779594391633),
  (30, some "a-cb", 8421989919933247295501946817260847890513),
  (31, some "abc", 8920302418013766139760590037340912291692937297),
  (31, some "ba-c", 8920302418013766139741247224227082622944149585),
  (31, some "cab", 19803064543629182578177158060370875072106201169),
  (31, some "-cba", 19624658582040978157864079617530536074560929873),
  (31, some "bca", 19624658582038503704240604592990766968478892113),
  (31, some "a-cb", 19803064543626748689372890339171949462480224337),
  (32, some "abc", 4338601516882894846157801676442450264145),
  (32, some "ba-c", 4338601516882894846157801676442450264145),
  (32, some "cab", 8421989919934195093344524422651026866257),
  (32, some "-cba", 8421989919934195093344524422651026866257),
  (32, some "bca", 8336919328203012679636103117024394215505),
  (32, some "a-cb", 8336919328203012679636103117024394215505),
  (33, some "abc", 8920302418013766139509133466861073821400563793),
  (33, some "ba-c", 8920302418013766139760590037340863913181315153),
  (33, some "cab", 17662193004570283321408936409537480262034653265),
  (33, some "-cba", 19803064543628776929985085026962396127080480849),
  (33, some "bca", 19803064543626748689372890339171905482015113297),
  (33, some "a-cb", 17483787042979563882653175638816524263904772177),
  (34, some "abc", 4338601516883146302728281572087347282001),
  (34, some "ba-c", 4338601516883146302728281572087347282001),
  (34, some "cab", 9442837020697223254678900419681079787601),
  (34, some "-cba", 9442837020697223254678900419681079787601),
  (34, some "bca", 9442837020696062685892070639556152524881),
  (34, some "a-cb", 9442837020696062685892070639556152524881),
  (35, some "abc", 4338601516883126959915167733622505472068),
  (35, some "ba-c", 4338601516883126959915167733622505472068),
  (35, some "cab", 9357766428966969295999942933756342435906),
  (35, some "-cba", 9357766428966969295999942933756342435906),
  (35, some "bca", 9357766428965828070026226983300163960899),
  (35, some "a-cb", 9357766428965828070026226983300163960899),
  (36, some "abc", 8920302418013766139547819093088737556944650308),
  (36, some "ba-c", 8920302418013766139741247224227034244432527428),
  (36, some "cab", 17483787042981997771457443360015445475484237890),
  (36, some "-cba", 19624658582040450815214384674099513446027493442),
  (36, some "bca", 19624658582038503704240604592990714191920758851),
  (36, some "a-cb", 17662193004567808867785461384997706757906104387),
  (37, some "abc", 4338601516882933531784029348974087372868),
  (37, some "ba-c", 4338601516882933531784029348974087372868),
  (37, some "cab", 8336919328203921791852453102659494215746),
  (37, some "-cba", 8336919328203921791852453102659494215746),
  (37, some "bca", 8421989919933247295501946764484289757251),
  (37, some "a-cb", 8421989919933247295501946764484289757251),
  (38, some "abc", 4338601516883126959915167733622505472066),
  (38, some "ba-c", 4338601516883126959915167733622505472067),
  (38, some "cab", 9357766428966969295999942933756342435907),
  (38, some "-cba", 9357766428966969295999942933756342435908),
  (38, some "bca", 9357766428965828070026226983300163960900),
  (38, some "a-cb", 9357766428965828070026226983300163960898),
  (39, some "abc", 4338601516883126959915167698438133383234),
  (39, some "ba-c", 4338601516882972217410257061088143081539),
  (39, some "cab", 9357766428966814553495032261221980045379),
  (39, some "-cba", 8677201695125092369073193718892806012996),
  (39, some "bca", 8677201695123951143099477768436627537988),
  (39, some "a-cb", 9357766428965828070026226948115791872066),
  (40, some "abc", 4338601516882894846157801724820961886274),
  (40, some "ba-c", 4338601516883126959915167685243993849923),
  (40, some "cab", 8421989919934388521475662763318979854403),
  (40, some "-cba", 9357766428966775867868804593088389447748),
  (40, some "bca", 9357766428965828070026226939319698849860),
  (40, some "a-cb", 8336919328203012679636103161004859326530),
  (41, some "abc", 4338601516882894846157801689636589797442),
  (41, some "ba-c", 4338601516882972217410257012709631459395),
  (41, some "cab", 8421989919934233778970752090784617463875),
  (41, some "-cba", 8677201695124898940942055378224853024836),
  (41, some "bca", 8677201695123951143099477724456162426948),
  (41, some "a-cb", 8336919328203012679636103125820487237698),
  (42, some "abc", 4338601516883126959915167733622505472071),
  (42, some "ba-c", 4338601516883126959915167733622505472071),
  (42, some "cab", 9357766428966969295999942933756342435911),
  (42, some "-cba", 9357766428966969295999942933756342435911),
  (42, some "bca", 9357766428965828070026226983300163960903),
  (42, some "a-cb", 9357766428965828070026226983300163960903),
  (43, some "abc", 4338601516882952874597143187438929182791),
  (43, some "ba-c", 4338601516882952874597143187438929182791),
  (43, some "cab", 8592131103394683667889325560433706270791),
  (43, some "-cba", 8592131103394683667889325560433706270791),
  (43, some "bca", 8592131103393716527233634076996266885191),
  (43, some "a-cb", 8592131103393716527233634076996266885191),
  (44, some "abc", 4338601516883126959915167733622505472074),
  (44, some "ba-c", 4338601516883126959915167733622505472074),
  (44, some "cab", 9357766428966969295999942933756342435914),
  (44, some "-cba", 9357766428966969295999942933756342435914),
  (44, some "bca", 9357766428965828070026226983300163960906),
  (44, some "a-cb", 9357766428965828070026226983300163960906),
  (45, some "abc", 4338601516882894846157801676442450264138),
  (45, some "ba-c", 4338601516882894846157801676442450264138),
  (45, some "cab", 8421989919934195093344524422651026866250),
  (45, some "-cba", 8421989919934195093344524422651026866250),
  (45, some "bca", 8336919328203012679636103117024394215498),
  (45, some "a-cb", 8336919328203012679636103117024394215498),
  (46, some "abc", 4338601516882894846157801724820961886282),
  (46, some "ba-c", 4338601516883126959915167685243993849930),
  (46, some "cab", 8421989919934388521475662763318979854410),
  (46, some "-cba", 9357766428966775867868804593088389447754),
  (46, some "bca", 9357766428965828070026226939319698849866),
  (46, some "a-cb", 8336919328203012679636103161004859326538),
  (47, some "abc", 9357766428966969295999943193241086591057),
  (47, some "ba-c", 9357766428966969295999943193241086591057),
  (47, some "cab", 9357766428966969295999943193241086591057),
  (47, some "-cba", 9357766428966969295999943193241086591057),
  (47, some "bca", 9357766428966969295999943193241086591057),
  (47, some "a-cb", 9357766428966969295999943193241086591057),
  (48, some "1abc", 9442837020697223254678900683563870453841),
  (48, some "2abc", 9442837020697223254678900683563870453841),
  (48, some "1ba-c", 9442837020697223254678900683563870453841),
  (48, some "2ba-c", 9442837020697223254678900683563870453841),
  (48, some "1cab", 9442837020697223254678900683563870453841),
  (48, some "2cab", 9442837020697223254678900683563870453841),
  (48, some "1-cba", 9442837020697223254678900683563870453841),
  (48, some "2-cba", 9442837020697223254678900683563870453841),
  (48, some "1bca", 9442837020697223254678900683563870453841),
  (48, some "2bca", 9442837020697223254678900683563870453841),
  (48, some "1a-cb", 9442837020697223254678900683563870453841),
  (48, some "2a-cb", 9442837020697223254678900683563870453841),
  (49, some "abc", 9357766428966775867868804808592668491857),
  (49, some "ba-c", 9357766428966775867868804808592668491857),
  (49, some "cab", 8336919328203921791852453362144238370897),
  (49, some "-cba", 8336919328203921791852453362144238370897),
  (49, some "bca", 8421989919934388521475662974425212387409),
  (49, some "a-cb", 8421989919934388521475662974425212387409),
  (50, some "1abc", 9442837020696971798108420787918973435985),
  (50, some "2abc", 9442837020696971798108420787918973435985),
  (50, some "1ba-c", 9442837020696971798108420787918973435985),
  (50, some "2ba-c", 9442837020696971798108420787918973435985),
  (50, some "1cab", 8421989919934195093344524686533817532497),
  (50, some "2cab", 8421989919934195093344524686533817532497),
  (50, some "1-cba", 8421989919934195093344524686533817532497),
  (50, some "2-cba", 8421989919934195093344524686533817532497),
  (50, some "1bca", 8336919328204173248422933161032112144465),
  (50, some "2bca", 8336919328204173248422933161032112144465),
  (50, some "1a-cb", 8336919328204173248422933161032112144465),
  (50, some "2a-cb", 8336919328204173248422933161032112144465),
  (51, some "abc", 8336919328204153905609819370945781956689),
  (51, some "ba-c", 8421989919934388521475663022803724009553),
  (51, some "cab", 9357766428966969295999943144862574968913),
  (51, some "-cba", 9357766428966969295999943149260621480017),
  (51, some "bca", 9357766428966775867868804852573133602897),
  (51, some "a-cb", 9357766428966737182242577184439543005265),
  (52, some "abc", 8336919328204173248422933209410623766609),
  (52, some "ba-c", 8421989919934407864288776861268565819473),
  (52, some "cab", 9442837020697223254678900630787312320593),
  (52, some "-cba", 9442837020697223254678900635185358831697),
  (52, some "bca", 9442837020697010483734648508829122166865),
  (52, some "a-cb", 9442837020696971798108420840695531569233),
  (53, some "abc", 8336919328204173248422933205012577255505),
  (53, some "ba-c", 8421989919934388521475663027201770520657),
  (53, some "cab", 9442837020697203911865786796720517021777),
  (53, some "-cba", 9357766428966988638813056983327416778833),
  (53, some "bca", 9357766428966775867868804856971180114001),
  (53, some "a-cb", 9442837020696971798108420836297485058129),
  (54, some "abc", 8336919328203960477478680986297363857489),
  (54, some "ba-c", 8421989919934195093344524638155305910353),
  (54, some "cab", 8336919328203921791852453313765726748753),
  (54, some "-cba", 8336919328203921791852453318163773259857),
  (54, some "bca", 8421989919934195093344524633757259399249),
  (54, some "a-cb", 8421989919934156407718296965623668801617),
  (55, some "abc", 9357766428966737182242577136061031383121),
  (55, some "ba-c", 9357766428966737182242577136061031383121),
  (55, some "cab", 8421989919934195093344524682135771021393),
  (55, some "-cba", 8421989919934195093344524682135771021393),
  (55, some "bca", 8336919328204153905609819326965316845649),
  (55, some "a-cb", 8336919328204153905609819326965316845649),
  (56, some "abc", 9442837020697010483734648460450610544721),
  (56, some "ba-c", 9442837020697010483734648460450610544721),
  (56, some "cab", 8336919328203921791852453366542284882001),
  (56, some "-cba", 8336919328203921791852453366542284882001),
  (56, some "bca", 8421989919934407864288776808492007686225),
  (56, some "a-cb", 8421989919934407864288776808492007686225),
  (57, some "abc", 9357766428966775867868804804194621980753),
  (57, some "ba-c", 9357766428966737182242577140459077894225),
  (57, some "cab", 8336919328203960477478681030277828968529),
  (57, some "-cba", 8421989919934156407718297014002180423761),
  (57, some "bca", 8336919328204153905609819322567270334545),
  (57, some "a-cb", 8421989919934388521475662978823258898513),
  (58, some "abc", 9357766428966988638813057031705928400977),
  (58, some "ba-c", 9357766428966988638813057031705928400977),
  (58, some "cab", 9442837020697223254678900679165823942737),
  (58, some "-cba", 9442837020697223254678900679165823942737),
  (58, some "bca", 9442837020697203911865786849497075155025),
  (58, some "a-cb", 9442837020697203911865786849497075155025),
  (59, some "1abc", 9442837020697203911865786845099028643921),
  (59, some "2abc", 9442837020697203911865786845099028643921),
  (59, some "1ba-c", 9442837020697203911865786845099028643921),
  (59, some "2ba-c", 9442837020697203911865786845099028643921),
  (59, some "1cab", 9357766428966969295999943197639133102161),
  (59, some "2cab", 9357766428966969295999943197639133102161),
  (59, some "1-cba", 9357766428966969295999943197639133102161),
  (59, some "2-cba", 9357766428966969295999943197639133102161),
  (59, some "1bca", 9357766428966988638813057027307881889873),
  (59, some "2bca", 9357766428966988638813057027307881889873),
  (59, some "1a-cb", 9357766428966988638813057027307881889873),
  (59, some "2a-cb", 9357766428966988638813057027307881889873),
  (60, some "abc", 9442837020697010483734648456052564033617),
  (60, some "ba-c", 9442837020696971798108420792317019947089),
  (60, some "cab", 8336919328203960477478681034675875479633),
  (60, some "-cba", 8421989919934156407718297018400226934865),
  (60, some "bca", 8336919328204173248422933156634065633361),
  (60, some "a-cb", 8421989919934407864288776812890054197329),
  (61, some "abc", 8336919328203960477478680981899317346385),
  (61, some "ba-c", 8421989919934156407718296970021715312721),
  (61, some "cab", 8336919328203960477478680981899317346385),
  (61, some "-cba", 8421989919934156407718296970021715312721),
  (61, some "bca", 8336919328203960477478680981899317346385),
  (61, some "a-cb", 8421989919934156407718296970021715312721),
  (62, some "abc", 8336919328204153905609819375343828467793),
  (62, some "ba-c", 8421989919934407864288776856870519308369),
  (62, some "cab", 9357766428966988638813056978929370267729),
  (62, some "-cba", 9442837020697203911865786801118563532881),
  (62, some "bca", 9442837020697010483734648504431075655761),
  (62, some "a-cb", 9357766428966737182242577188837589516369),
  (63, some "abc", 9357766428966775867868804852573133602884),
  (63, some "ba-c", 9357766428966969295999943149260621480004),
  (63, some "cab", 8336919328204153905609819370945781956674),
  (63, some "-cba", 9357766428966737182242577184439543005250),
  (63, some "bca", 9357766428966969295999943144862574968899),
  (63, some "a-cb", 8421989919934388521475663022803724009539),
  (64, some "abc", 8677201695124898940942055637709597179972),
  (64, some "ba-c", 8677201695125092369073193934397085057092),
  (64, some "cab", 8336919328204153905609819335761409867842),
  (64, some "-cba", 9357766428966737182242577149255170916418),
  (64, some "bca", 9357766428966814553495032472328212578371),
  (64, some "a-cb", 8421989919934233778970752350269361619011),
  (65, some "abc", 9357766428966969295999943193241086591044),
  (65, some "ba-c", 9357766428966969295999943193241086591044),
  (65, some "cab", 9357766428966969295999943193241086591042),
  (65, some "-cba", 9357766428966969295999943193241086591042),
  (65, some "bca", 9357766428966969295999943193241086591043),
  (65, some "a-cb", 9357766428966969295999943193241086591043),
  (66, some "abc", 9357766428966775867868804808592668491844),
  (66, some "ba-c", 9357766428966775867868804808592668491844),
  (66, some "cab", 8336919328203921791852453362144238370882),
  (66, some "-cba", 8336919328203921791852453362144238370882),
  (66, some "bca", 8421989919934388521475662974425212387395),
  (66, some "a-cb", 8421989919934388521475662974425212387395),
  (67, some "abc", 8677201695125092369073193978377550168132),
  (67, some "ba-c", 8677201695125092369073193978377550168132),
  (67, some "cab", 9357766428966969295999943158056714502210),
  (67, some "-cba", 9357766428966969295999943158056714502210),
  (67, some "bca", 9357766428966814553495032520706724200515),
  (67, some "a-cb", 9357766428966814553495032520706724200515),
  (68, some "1abc", 8677201695124898940942055593729132068932),
  (68, some "2abc", 8677201695124898940942055593729132068932),
  (68, some "1ba-c", 8677201695124898940942055593729132068932),
  (68, some "2ba-c", 8677201695124898940942055593729132068932),
  (68, some "1cab", 8336919328203921791852453326959866282050),
  (68, some "2cab", 8336919328203921791852453326959866282050),
  (68, some "1-cba", 8336919328203921791852453326959866282050),
  (68, some "2-cba", 8336919328203921791852453326959866282050),
  (68, some "1bca", 8421989919934233778970752301890849996867),
  (68, some "2bca", 8421989919934233778970752301890849996867),
  (68, some "1a-cb", 8421989919934233778970752301890849996867),
  (68, some "2a-cb", 8421989919934233778970752301890849996867),
  (69, some "abc", 9357766428966969295999943193241086591047),
  (69, some "ba-c", 9357766428966969295999943193241086591047),
  (69, some "cab", 9357766428966969295999943193241086591047),
  (69, some "-cba", 9357766428966969295999943193241086591047),
  (69, some "bca", 9357766428966969295999943193241086591047),
  (69, some "a-cb", 9357766428966969295999943193241086591047),
  (70, some "1abc", 8592131103394683667889325780336031825991),
  (70, some "2abc", 8592131103394683667889325780336031825991),
  (70, some "1ba-c", 8592131103394683667889325780336031825991),
  (70, some "2ba-c", 8592131103394683667889325780336031825991),
  (70, some "1cab", 8592131103394683667889325780336031825991),
  (70, some "2cab", 8592131103394683667889325780336031825991),
  (70, some "1-cba", 8592131103394683667889325780336031825991),
  (70, some "2-cba", 8592131103394683667889325780336031825991),
  (70, some "1bca", 8592131103394683667889325780336031825991),
  (70, some "2bca", 8592131103394683667889325780336031825991),
  (70, some "1a-cb", 8592131103394683667889325780336031825991),
  (70, some "2a-cb", 8592131103394683667889325780336031825991),
  (71, some "abc", 9357766428966969295999943193241086591050),
  (71, some "ba-c", 9357766428966969295999943193241086591050),
  (71, some "cab", 9357766428966969295999943193241086591050),
  (71, some "-cba", 9357766428966969295999943193241086591050),
  (71, some "bca", 9357766428966969295999943193241086591050),
  (71, some "a-cb", 9357766428966969295999943193241086591050),
  (72, some "abc", 9357766428966737182242577136061031383114),
  (72, some "ba-c", 9357766428966737182242577136061031383114),
  (72, some "cab", 8421989919934195093344524682135771021386),
  (72, some "-cba", 8421989919934195093344524682135771021386),
  (72, some "bca", 8336919328204153905609819326965316845642),
  (72, some "a-cb", 8336919328204153905609819326965316845642),
  (73, some "abc", 8336919328203960477478680981899317346378),
  (73, some "ba-c", 8421989919934156407718296970021715312714),
  (73, some "cab", 8336919328203960477478680981899317346378),
  (73, some "-cba", 8421989919934156407718296970021715312714),
  (73, some "bca", 8336919328203960477478680981899317346378),
  (73, some "a-cb", 8421989919934156407718296970021715312714),
  (74, some "abc", 8336919328204153905609819370945781956682),
  (74, some "ba-c", 8421989919934388521475663022803724009546),
  (74, some "cab", 9357766428966969295999943144862574968906),
  (74, some "-cba", 9357766428966969295999943149260621480010),
  (74, some "bca", 9357766428966775867868804852573133602890),
  (74, some "a-cb", 9357766428966737182242577184439543005258),
  (79, some "1", 233096534294602),
  (80, some "1", 461168834939273085002),
  (87, some "1", 2127709885243838213046403146),
  (88, some "1", 3975353210771218035963806699487306),
  (88, some "2", 3975353210771218035963806699487306),
  (89, some "1", 4338601516881985733941451272992931709009),
  (90, some "1", 9098706848332049581435745568300485250958491729),
  (91, some "1", 9098706848332090145906782392389644569676873809),
  (92, some "1", 19081371264393254443807136690052471574989953111687249),
  (93, some "1", 9098706848332090145906782401613016606531649617),
  (94, some "1", 19081371264393254443807136690052480798361989966463057),
  (95, some "1", 9098706848332090145906782410836388643386425425),
  (96, some "1", 19081371264393254443807136690052490021734026821238865),
  (97, some "1", 4338601516881985733941451272992931709002),
  (98, some "1", 9098706848332090145906782392389644569676873802),
  (99, some "1", 9357766428966969295999942942552435458129),
  (100, some "1", 9357766428966756525055690767817687171153),
  (101, some "1", 19624658582040531944852799290004590067980435537),
  (102, some "1", 19624658582040978157864079626753916907508727889),
  (103, some "1", 8507060511664429709210368083305061941329),
  (104, some "1", 8507060511664642480154620258039810228305),
  (105, some "1", 17840598966158487741722014861601200092527722577),
  (106, some "1", 17840598966158041528710734524851873252999430225),
  (107, some "1", 9357766428966969295999942942552435458122),
  (108, some "1", 8677201695124898940942055387020946047050),
  (109, some "1", 18019004927746732726854300598559014947720790090),
  (110, some "1", 18019004927746327078662227565150536002695069770),
  (111, some "1", 19624658582038544268711641444749756524738379857),
  (112, some "1", 17840598966156094417388783982937887604259946577),
  (113, some "1", 41155891994639212120355592403399237973958482479546449),
  (114, some "1", 37414447803072100649754159231645553443639295169527889),
  (115, some "1", 9098706848334483470240013317169755669567373393),
  (116, some "1", 9098706848334077822047940283761276724541653073),
  (117, some "1", 9098706848334037257228732980420428830039081041),
  (118, some "1", 9098706848334524035059220620510603564069945425),
  (119, some "1", 9098706848334483470240013317169755669567373386),
  (120, some "1", 9098706848334077822047940283761276724541653066),
  (121, some "1", 19624658582038544268711641444749756524738379850),
  (122, some "1", 18019004927744339402521069729119074496307789898),
  (123, some "1", 796070779148545087268897887691384693447696073541314319322517791281794441543761),
  (124, some "1", 723700723375222465129166018319510559472290862523855795044172270957661425500241),
  (125, some "1", 796070779148545087268897883575796082723873455879737849736277921764755195822161),
  (125, some "2", 796070779148545087268897883575796082723873455879737849736277921764755195822161),
  (126, some "1", 723700723375222465129166022435099170196113480185432303316038368142834261819473),
  (126, some "2", 723700723375222465129166022435099170196113480185432303316038368142834261819473),
  (127, some "1", 1669481426632929626856143734336747906476358261314783233154526600730159239126409281617),
  (128, some "1", 1517710419427794543190560782281813094974941372767518967868228380372840508540804137041),
  (129, some "1", 1669481426632929626856143742967762792633044311588993690065087265684011809331252035665),
  (129, some "2", 1669481426632929626856143742967762792633044311588993690065087265684011809331252035665),
  (130, some "1", 1517710419427794543190560773650798208818255322493308510957706401045215606469551980625),
  (130, some "2", 1517710419427794543190560773650798208818255322493308510957706401045215606469551980625),
  (131, some "1", 1517710419427794543190560781497175378051784681718366007298058986492899223277844562001),
  (132, some "1", 1669481426632929626856143735121385623399871761224577628386273810875806814979458334801),
  (133, some "1", 1517710419427794543190560772866160491895098631444155590952336871655501335034299678801),
  (133, some "2", 1517710419427794543190560772866160491895098631444155590952336871655501335034299678801),
  (134, some "1", 1669481426632929626856143743752400509556557811498788125861634340319886399012008362065),
  (134, some "2", 1669481426632929626856143743752400509556557811498788125861634340319886399012008362065),
  (135, some "1", 3182869441523838181841170905937814207898415743922517747814584824562832812117750004540506193),
  (136, some "1", 3501156312826101632820615564497834233417180186292450477664687829567285277808729725064970321),
  (137, some "1", 3182869441523838181841170924038364338431682207627178755945480944192134637427976395877777489),
  (137, some "2", 3182869441523838181841170924038364338431682207627178755945480944192134637427976395877777489),
  (138, some "1", 3501156312826101632820615546397284102883913722587789469533872839576398059180199122732843089),
  (138, some "2", 3501156312826101632820615546397284102883913722587789469533872839576398059180199122732843089),
  (139, some "1", 1669481426632929626856143742967762792633044311588993690065067922870897975264456736842),
  (140, some "1", 796070779148545087268897883949940501880584602939881147568833260962607131525194),
  (141, some "1", 1532887520148308051557119077644234119509928485148460360530008283294670866235124613194),
  (141, some "2", 1532887520148308051557119077644234119509928485148460360530008283294670866235124613194),
  (142, some "1", 1532887520148308051557119069797856950276577530353723581520425263166726560655081472074),
  (142, some "2", 1532887520148308051557119069797856950276577530353723581520425263166726560655081472074),
  (146, some "r", 228698487783507),
  (146, some "h", 228698487783507),
  (148, some "r", 479615548226657058899),
  (148, some "h", 479615548226657058899),
  (149, some "r", 4338601516881966391128337434528089899089),
  (150, some "r", 4253530925151751118075607616736943145041),
  (151, some "r", 9098706848332049581087575089048792277127790673),
  (152, some "r", 8920300886743845160774496646208453279582519377),
  (153, some "r", 9098706848332049581087575098272164313982566481),
  (154, some "r", 8920300886743845160774496655431825316437295185),
  (155, some "r", 986483773177043321255624787),
  (155, some "h", 986483773177043321255624787),
  (156, some "r", 4253530925152892344049323826677865775185),
  (157, some "r", 9357766428965808727213112894146671018065),
  (158, some "r", 4253530925152698915918185486009912787025),
  (159, some "r", 8507060511663462568554676375567250489425),
  (160, some "r", 2127709746893253262178254931),
  (160, some "h", 2127709746893253262178254931),
  (161, some "r", 1934281615754912594225266771),
  (161, some "h", 1934281615754912594225266771),
  (162, some "r", 86310166820508078731725495505565725214200628403442120917073),
  (163, some "r", 78463789651274727776930758726556142194072684097862077775953),
  (164, some "r", 39231898192952211605299634299999612767221852743575353163857),
  (165, some "r", 39231898192950427545683751850148289909760040874654874730577),
  (166, some "r", 19624659858097420222230879423181162357014397011),
  (166, some "h", 19624659858097420222230879423181162357014397011),
  (167, some "r", 17840600242214970370908021961369293436535963731),
  (167, some "h", 17840600242214970370908021961369293436535963731),
  (177, some "h", 4338601516881985733941451281789024731217),
  (178, some "h", 9098706848332090145906782392389653365769896017),
  (179, some "h", 9098706848332090145906782429283141513188999249),
  (180, some "h", 9098706848332090145906782401613025402624671825),
  (181, some "h", 9098706848332090145906782420059769476334223441),
  (182, some "h", 9098706848332090145906782410836397439479447633),
  (183, some "h", 9357766428966969295999942951348528480337),
  (184, some "h", 8507060511664429709210368092101154963537),
  (185, some "h", 19624658582040531944852799299227970900928233553),
  (186, some "h", 17840598966158487741722014870824580925475520593),
  (187, some "h", 9098706848334483470240013335616499743276925009),
  (188, some "h", 9098706848334077822047940302208020798251204689),
  (189, some "h", 19624658582038544268711641463196500598447931473),
  (190, some "h", 17840598966156094417388784001384631677969498193),
  (191, some "h", 796070779148545087268897887691384693447696073541314319322517791290590534565969),
  (192, some "h", 723700723375222465129166018319510559472290862523855795044172270966457518522449),
  (193, some "h", 1669481426632929626856143735121385623399871761224577628386273810885030195812406132817),
  (194, some "h", 1517710419427794543190560781497175378051784681718366007298058986502122604110792360017),
  (196, some "1", 1005826586290872990004412487),
  (197, some "1", 1005826586290872990004412490),
  (199, some "1", 2109371237093067649440861558669386),
  (202, some "1", 9277113915837297458832739525721513787360542791),
  (203, some "1", 9277113915837297458658654207697007186202853447),
  (203, some "2", 9277113915837297458658654207697007186202853447),
  (204, some "1", 9277113915837297458832739525721513787360542794),
  (206, some "1", 19455518002826020039899219531358274768723130907099210),
  (207, some "1", 4338601516882005076754565107059727007825),
  (208, some "1", 9098706848332130710725989704953864501034221649),
  (209, some "1", 4338601516882005076754565107059727007815),
  (210, some "1", 9098706848332130710725989695730492464179445831),
  (211, some "1", 4338601516882005076754565107059727007818),
  (212, some "1", 9098706848332130710725989714177236537888997457),
  (213, some "1", 9098706848332130710725989695730492464179445841),
  (214, some "1", 9098706848332130710725989695730492464179445834),
  (215, some "1", 19624658582038584833530848748090604419240951889),
  (216, some "1", 19624658582038584833530848748090604419240951879),
  (217, some "1", 19624658582038584833530848748090604419240951882),
  (218, some "1", 19803064543626829818663134494271791311288795217),
  (219, some "1", 17840598966156134982207991286278735498762518599),
  (220, some "1", 18019004927744379967340277032459922390810361930),
  (221, some "1", 379596128057739776262711461062911999485490369813622148133306632838840401),
  (222, some "1", 383047001231135058156428838994050512211715924319050154524721961746038865),
  (222, some "2", 383047001231135058156428838994050512211715924319050154524721961746038865),
  (223, some "1", 803307784725877349482871052554051019785824474076979850454507924015621515247697),
  (224, some "1", 796070779148545087268897865991008025544995100075942134409345165863021447217233),
  (224, some "2", 796070779148545087268897865991008025544995100075942134409345165863021447217233),
  (225, some "1", 379596128057739776262711461062911999485490369813622148133306632838840391),
  (226, some "1", 345087396323786957325537681751526872223234824952770215357494011719843911),
  (227, some "1", 796070779148545087268897865991008025544995099670293942336302534012039566721095),
  (227, some "2", 796070779148545087268897865991008025544995099670293942336302534012039566721095),
  (228, some "1", 803307784725877349482871052554051019785824473711896477588768633012534137323591),
  (228, some "2", 803307784725877349482871052554051019785824473711896477588768633012534137323591),
  (229, some "1", 379596128057739776262711461062911999485490369813622148133306632838840394),
  (230, some "1", 730937728952554727343139186923621077377530733174176667442197620463904923582538)]

end Cryspy.SG
