import Verif.Ntt.Check
/-
Generated by tools/gen_ntt_params.py from
/repo/concrete-core/src/backends/ntt/private/math/params/params_64_512.rs.
-/
namespace Verif.Ntt.P64_512

/-- Entries 0 to 255. -/
def roots0 : List Nat := [
  1, 17726159337136475521, 10336469007148322353, 4107289497610371514, 7360900962710441247, 2246618276830467408, 3294257325990827601, 3094477653450497403,
  16766384729569763187, 18066223986296516871, 2411857022065187517, 15060069152514721711, 17042641852703813704, 6883220462445137757, 16880018833952873619, 13399785099192714371,
  10135772086632317746, 184508088348891437, 4026124603406278782, 12421950487379281251, 10831882040721351345, 14636442955877232346, 6785607074325973479, 10719103984580341595,
  4184073996077722594, 15192661596659874776, 5219297436934038081, 947279474168942025, 17982747622807119623, 40890508918942902, 15496822938906020500, 16031120579301653138,
  1723819471793822105, 16494936744328936854, 1526308010139450656, 3107738895382912704, 2812678407398705248, 3073132156720726316, 17336741919700190691, 6916601581356611730,
  2160389145965194955, 6103675515379554802, 11794325332073126075, 12685562913989246830, 10361415093261964378, 9553256573001961350, 12170096020853621857, 9552622248001834094,
  2659540569332192082, 9871006944658101888, 17866954468909039058, 3654530265115245664, 1474007893399669207, 16359529466271620901, 1468388155940156780, 2743507541324512469,
  3907641688470521259, 10742022365901905901, 9312483958896959040, 121120009692013329, 6136752418366672908, 16327837551124316751, 4148663309033642634, 6265157533189854817,
  7809332467830295714, 9992281836003923215, 13992534139469632719, 4914115026334547324, 5734656673228178477, 438334390107482332, 14308554049149677409, 18051559901102654922,
  3197343448233750368, 766297299764979788, 1223800744557452364, 12771444029442691003, 12862560128280454177, 16276639205657848780, 2266955517408217235, 7230828384268226410,
  7130311829637889553, 16155632611476231857, 4496515566159260653, 2414781145353630831, 8153778615063972725, 10720122743025933367, 7978289844598029767, 5575256286289545810,
  17604642181593191748, 10512282082654601769, 9325267155216751905, 2384418027833518626, 628909458309059692, 14556777688709993158, 15054333265783521487, 3131191180568506273,
  16948733755963327900, 14774864522345355146, 13718271459513359141, 7017858027649214074, 2329073470944952233, 9888987391574560138, 1477093161317362390, 6965610225304113285,
  4415463217525974126, 12292915674445058784, 1774479983140665466, 13778838438511328618, 7757846640011511944, 14487058411565116150, 7518038948062138300, 7520350224243710521,
  12911726513263574311, 866436695189140562, 16359347423673957481, 11369796209105670698, 827678682574934671, 16054720596890166569, 4513197467214997021, 16289678937049414628,
  16528655249071241347, 14561867259447678788, 343566353378867193, 2639810859049153377, 11313271413787477728, 12787136763182429935, 9145413470140382906, 2847227376918593412,
  16582528156526269418, 672216689722244726, 16610704985789837864, 14281779419639040800, 666754433679440763, 7287208536382147921, 12355351739799875413, 17066682727390846048,
  10874909511472951851, 4389170874903106644, 9602443758440416470, 3550054700438763288, 8016659753580883464, 6698060158575353206, 11746569696374944735, 7799831439419526867,
  7700442941102372464, 4638534132588643273, 6980331646208508287, 4563804621543399840, 14398839939699696322, 4308549336849652467, 10301642878550741835, 16672783855429512975,
  15379164317447905398, 2107026045720721876, 11618291441121085778, 16931437035728382290, 16734140839240062483, 11649453120220969707, 8219107979524799817, 12750786611591450642,
  8291372273410524886, 3556010777116589141, 9486142710356386762, 12419867294142749724, 18208610253456852843, 1136784548903243507, 13703091703609426340, 2877668068253418291,
  16880295847140003608, 17113103866298204841, 11083398640274897233, 8611741135984834252, 14756362962352599980, 8759839595153052578, 12994960899108806247, 5645890437211973358,
  8315570383587344197, 10974290965416281958, 7433307340845467902, 7391664881303713820, 13147678953245917903, 2729088951597973889, 6404355354875633527, 7168411386214841568,
  7287437283013317393, 11670756924186932461, 15003217807919753001, 17177914375149076963, 2831281374957655958, 4924494931160940442, 17811137426618598325, 6128703678595368759,
  6343549632142671317, 8504072982099537383, 10211370106197085778, 9695976580452507784, 10071423360502205214, 3510389547884920118, 11425876958316592846, 1656868302853146820,
  7600395712624309886, 7044581329974546000, 12842636498084296939, 9960173841363985604, 14190124668807328871, 16319817313326781098, 419282493252955969, 16386508724541722803,
  3197219125762630920, 13634041675019642777, 4679680391116545955, 15160204459723345947, 16545418360531446161, 4045763124731515458, 18020592860549714946, 2519378147937700019,
  10962425847460253032, 11048660263233447716, 18329131452725449748, 17455748639825017660, 16854117897505200868, 1752307060522459569, 5512403567672781012, 15212490889996613420,
  9511846951438159006, 9931364922408773144, 2950706731063258862, 667639652309231357, 11819098605253298889, 3285024055384857877, 11338603909668685653, 16682247638493996294,
  6206132173571976622, 12202346895462343907, 16740463144359038997, 6614007968361625578, 16346969457060814485, 16589524622764334765, 13666017538230424069, 793799556330021822,
  11489057168103961727, 10808023035387708399, 10867510309275084081, 11567378161235443460, 10783628745590008348, 6571924408323664752, 11546819657467771268, 2558186312101903371,
  6486125637702767142, 7808167115056157970, 319235251744749470, 4809307273541950279, 5738890321492885213, 12089938008706898766, 12967641220198548255, 15564258363797734555]

/-- Entries 256 to 511. -/
def roots1 : List Nat := [
  1254737655278815118, 12914553162553833363, 8816131441518109356, 2727167581675667568, 14091828185589812771, 10759336997011554606, 5790496668423994865, 17336577427970401566,
  12607325417796027689, 11641599080212343418, 6584500521164481888, 11754910614286475217, 6568228662130941541, 11029437505996579299, 13387813999788790201, 16294293639302962184,
  4226599841171769922, 12843722583814217629, 1929806267909222176, 13907470240898859119, 18132314242226058408, 6415213092352112801, 4786970863716941527, 1725170604908378426,
  2322661904680867575, 10248377026555271674, 17427014708482297839, 4157773341264430309, 14836544385846026855, 17581805976545647789, 17614014676769202214, 14976961433383966221,
  7770049772356755415, 4319789618234584388, 13446011681648825174, 8694981100629035386, 9047455697873212132, 3456976696763660632, 16108945162493531648, 13066241425787047506,
  14032560951121785997, 8103519151752620165, 1429019586000707534, 18237151825875322230, 4029195695749636123, 17172450110170524952, 17721443197054860079, 9164176720560183118,
  16668181018089514585, 4049816136678804636, 13963197081904661131, 4874944726453346033, 5043337477278094616, 3755713129406869404, 17005183891945177917, 283157081854904633,
  3250401816641719464, 16666726409432449025, 141660070683467639, 7872408568808206445, 9161680987923403088, 7201228378629578777, 15821093610526656109, 8158613062663362241,
  4046605632108425699, 15868218122418465002, 9937481736936858523, 17291355563172845079, 6019472473962931608, 10250472771283196059, 3672901010934599985, 12890135811010153264,
  6310418340442498405, 18262446802702844143, 6385949307414749307, 8667394339567864715, 7910905069114853303, 14740163402412105630, 13554903355025423077, 10344488247984992747,
  14997731076320456456, 1413534785735985980, 13315985470153851000, 8225662039452013164, 16647609777934922276, 1202571848341096544, 15065198933740207531, 17031162539088372567,
  14593453972987216790, 5280873895863666892, 4518211745826463745, 7544282217924559941, 11499364107962225178, 9795928155549098708, 14172937339555838735, 6782003996914974359,
  14307554322500843394, 7959743567242031821, 6845748708023508539, 17563316713347523055, 2410611311036034254, 2042335904958003770, 2551888058969627613, 2323880805948290132,
  6008855189716561106, 17269371507098092689, 16103412567587588794, 7069216298112216545, 10930135923185434376, 559833486201948275, 10875530070152544677, 14638411462193090887,
  7337932088431060705, 13653495542215079666, 7642101670681392076, 15766870893858145716, 17813817552826550682, 4591564140608149544, 11844637553961863968, 8174650773805072109,
  3114308088233902721, 7057821389332158721, 14697327223518498619, 7212608587044180788, 10719835234968246564, 7864525696037981263, 8776287285181420984, 14258345576366534802,
  15088484393489175471, 5711916555710889654, 16579694275965401205, 9069856435160283802, 12214732878604425559, 9342398254313317073, 9342906178048183005, 14754241162722335421,
  18048938413762352578, 12371761593649845041, 11622874024673735317, 10325065837465066020, 1993723552574426091, 16039789293057769673, 9810173804293090357, 16593225128982463992,
  6654901806483103614, 14799874879964532581, 15781175106856829379, 17443186119438280813, 11926493126266718524, 11293686480623215211, 18289791394846161087, 11107690429797891864,
  15788452068120402616, 10119081004654322718, 10011165009285819255, 18319685680523537379, 18168454783949177165, 17257047273423336127, 9259525982683194636, 17163312393655405427,
  15282327923294330746, 5281816484940797629, 17766761877653770976, 3096372409670311770, 2767970671193630494, 11890514042277760483, 6586096503602525225, 3190684253128181724,
  8737594385591544919, 13066421315270089837, 4376333659228763385, 6457790598197045238, 14136639521888711098, 1999290648287520122, 15347380490820885010, 14122633782122100754,
  1206396126776640167, 14090270711317029335, 14634762628569447959, 16804711363783759125, 15034299560841815113, 9046389501364712867, 6355134185547454793, 2909456692194195359,
  15551187699890295181, 4029802278643367947, 11485234116892532430, 5609297021995817420, 911678053167995723, 9632643047267170495, 1453379634826239809, 8779584298881441277,
  14755042710681177375, 13677450266956466973, 8280227094826490503, 8484009617793659571, 10385045447777422007, 18385995007927221908, 18343266310297482208, 8680298331195022252,
  3112752128541311886, 16184590855741108379, 16924863045664198128, 16218080631650572615, 1433450986958702819, 4410538914006926598, 12268306861543057525, 13997294621798387421,
  17970545107774647794, 4635993653952204015, 11029055696739846292, 4210636327340881362, 17267169515115019365, 5723020000071301693, 17265140314689302028, 11165732671691011480,
  3314396270699887725, 1787235927140055407, 6813740268872352098, 10985555478535702676, 1954104788171923234, 8612399942814934187, 17222930442905103554, 8541695217915440985,
  8395688805716958297, 12542614103202513081, 12071586548179697368, 5925976340122826856, 14306878580473721358, 7273765448251719059, 13011502216323271275, 5671190490235388934,
  13335857098462172199, 4689860359146477404, 5087860142741169844, 15255615138635100857, 142133025901353800, 5177651810433533206, 11110834982983994508, 9152491203972686990,
  224010346672560443, 8832754254154095158, 1118276697465693763, 11051457746997568966, 7448634660577055265, 14855770589514096369, 6282993326763698984, 11134587742504790619,
  16000437000950499014, 11268811758009410934, 8611308334191606796, 15801798777803842050, 12942654256383169221, 12235994549838268963, 11517570121508149586, 4603014118185064580]

/-- Entries 0 to 255. -/
def rootsInv0 : List Nat := [
  1, 720584736572961408, 14339454576099065415, 8110275066561114576, 15352266420258939526, 15152486747718609328, 16200125796878969521, 11085843110998995682,
  5046958974516722558, 1566725239756563310, 11563523611264299172, 1404102221005623225, 3386674921194715218, 16034887051644249412, 380520087412920058, 1680359344139673742,
  2415623494407783791, 2949921134803416429, 18405853564790494027, 463996450902317306, 17499464599540494904, 13227446636775398848, 3254082477049562153, 14262670077631714335,
  7727640089129095334, 11661136999383463450, 3810301117832204583, 7614862032988085584, 6024793586330155678, 14420619470303158147, 18262235985360545492, 8310971987077119183,
  12181586540519582112, 14298080764675794295, 2118906522585120178, 12309991655342764021, 18325624064017423600, 9134260114812477889, 7704721707807531028, 14539102385238915670,
  15703236532384924460, 16978355917769280149, 2087214607437816028, 16972736180309767722, 14792213808594191265, 579789604800397871, 8575737129051335041, 15787203504377244847,
  8894121825707602835, 6276648052855815072, 8893487500707475579, 8085328980447472551, 5761181159720190099, 6652418741636310854, 12343068558329882127, 16286354927744241974,
  11530142492352825199, 1110002154009246238, 15373611916988710613, 15634065666310731681, 15339005178326524225, 16920436063569986273, 1951807329380500075, 16722924601915614824,
  15599516696790843517, 9301330603569054023, 5659607310527006994, 7133472659921959201, 15806933214660283552, 18103177720330569736, 3884876814261758141, 1918088824638195582,
  2157065136660022301, 13933546606494439908, 2392023476819270360, 17619065391134502258, 7076947864603766231, 2087396650035479448, 17580307378520296367, 5535017560445862618,
  10926393849465726408, 10928705125647298629, 3959685662144320779, 10688897433697924985, 4667905635198108311, 16672264090568771463, 6153828399264378145, 14031280856183462803,
  11481133848405323644, 16969650912392074539, 8557756682134876791, 16117670602764484696, 11428886046060222855, 4728472614196077788, 3671879551364081783, 1498010317746109029,
  15315552893140930656, 3392410807925915442, 3889966384999443771, 17817834615400377237, 16062326045875918303, 9121476918492685024, 7934461991054835160, 842101892116245181,
  12871487787419891119, 10468454229111407162, 7726621330683503562, 10292965458645464204, 16031962928355806098, 13950228507550176276, 2291111462233205072, 11316432244071547376,
  11215915689441210519, 16179788556301219694, 2170104868051588149, 5584183945428982752, 5675300044266745926, 17222943329151984565, 17680446773944457141, 15249400625475686561,
  395184172606782007, 4138190024559759520, 18008409683601954597, 12712087400481258452, 13532629047374889605, 4454209934239804210, 8454462237705513714, 10637411605879141215,
  2882485709911702374, 5479102853510888674, 6356806065002538163, 12707853752216551716, 13637436800167486650, 18127508821964687459, 10638576958653278959, 11960618436006669787,
  15888557761607533558, 6899924416241665661, 11874819665385772177, 7663115328119428581, 6879365912473993469, 7579233764434352848, 7638721038321728530, 6957686905605475202,
  17652944517379415107, 4780726535479012860, 1857219450945102164, 2099774616648622444, 11832736105347811351, 1706280929350397932, 6244397178247093022, 12240611900137460307,
  1764496435215440635, 7108140164040751276, 15161720018324579052, 6627645468456138040, 17779104421400205572, 15496037342646178067, 8515379151300663785, 8934897122271277923,
  3234253183712823509, 12934340506036655917, 16694437013186977360, 1592626176204236061, 990995433884419269, 117612620983987181, 7398083810475989213, 7484318226249183897,
  15927365925771736910, 426151213159721983, 14400980948977921471, 1901325713177990768, 3286539613986090982, 13767063682592890974, 4812702398689794152, 15249524947946806009,
  2060235349167714126, 18027461580456480960, 2126926760382655831, 4256619404902108058, 8486570232345451325, 5604107575625139990, 11402162743734890929, 10846348361085127043,
  16789875770856290109, 7020867115392844083, 14936354525824516811, 8375320713207231715, 8750767493256929145, 8235373967512351151, 9942671091609899546, 12103194441566765612,
  12318040395114068170, 635606647090838604, 13522249142548496487, 15615462698751780971, 1268829698560359966, 3443526265789683928, 6775987149522504468, 11159306790696119536,
  11278332687494595361, 12042388718833803402, 15717655122111463040, 5299065120463519026, 11055079192405723109, 11013436732863969027, 7472453108293154971, 10131173690122092732,
  12800853636497463571, 5451783174600630682, 9686904478556384351, 3690381111356836949, 9835002937724602677, 7363345433434539696, 1333640207411232088, 1566448226569433321,
  15569076005456018638, 4743652370100010589, 17309959524806193422, 238133820252584086, 6026876779566687205, 8960601363353050167, 14890733296592847788, 10155371800298912043,
  5695957462117986287, 10227636094184637112, 6797290953488467222, 1712603234469374446, 1515307037981054639, 6828452632588351151, 16339718027988715053, 3067579756261531531,
  1773960218279923954, 8145101195158695094, 14138194736859784462, 4047904134009740607, 13882939452166037089, 11466412427500928642, 13808209941120793656, 10746301132607064465,
  10646912634289910062, 6700174377334492194, 11748683915134083723, 10430084320128553465, 14896689373270673641, 8844300315269020459, 14057573198806330285, 7571834562236485078,
  1380061346318590881, 6091392333909561516, 11159535537327289008, 17779989640029996166, 4164964654070396129, 1836039087919599065, 17774527383987192203, 1864215917183167511]

/-- Entries 256 to 511. -/
def rootsInv1 : List Nat := [
  13843729955524372349, 6929173952201287343, 6210749523871167966, 5504089817326267708, 2644945295905594879, 9835435739517830133, 7177932315700025995, 2446307072758937915,
  7312156331204646310, 12163750746945737945, 3590973484195340560, 10998109413132381664, 7395286326711867963, 17328467376243743166, 9613989819555341771, 18222733727036876486,
  9294252869736749939, 7335909090725442421, 13269092263275903723, 18304611047808083129, 3191128935074336072, 13358883930968267085, 13756883714562959525, 5110886975247264730,
  12775553583474047995, 5435241857386165654, 11172978625457717870, 4139865493235715571, 12520767733586610073, 6375157525529739561, 5904129970506923848, 10051055267992478632,
  9905048855793995944, 1223813630804333375, 9834344130894502742, 16492639285537513695, 7461188595173734253, 11633003804837084831, 16659508146569381522, 15132347803009549204,
  7281011402018425449, 1181603759020134901, 12723724073638135236, 1179574558594417564, 14236107746368555567, 7417688376969590637, 13810750419757232914, 476198965934789135,
  4449449451911049508, 6178437212166379404, 14036205159702510331, 17013293086750734110, 2228663442058864314, 1521881028045238801, 2262153217968328550, 15333991945168125043,
  9766445742514414677, 103477763411954721, 60749065782215021, 8061698625932014922, 9962734455915777358, 10166516978882946426, 4769293806752969956, 3691701363028259554,
  9667159774827995652, 16993364438883197120, 8814101026442266434, 17535066020541441206, 12837447051713619509, 6961509956816904499, 14416941795066068982, 2895556373819141748,
  15537287381515241570, 12091609888161982136, 9400354572344724062, 3412444512867621816, 1642032709925677804, 3811981445139988970, 4356473362392407594, 17240347946932796762,
  4324110291587336175, 3099363582888551919, 16447453425421916807, 4310104551820725831, 11988953475512391691, 14070410414480673544, 5380322758439347092, 9709149688117892010,
  15256059820581255205, 11860647570106911704, 6556230031431676446, 15678773402515806435, 15350371664039125159, 679982196055665953, 13164927588768639300, 3164416150415106183,
  1283431680054031502, 9187218091026242293, 1189696800286100802, 278289289760259764, 127058393185899550, 8435579064423617674, 8327663069055114211, 2658292005589034313,
  7339053643911545065, 156952678863275842, 7153057593086221718, 6520250947442718405, 1003557954271156116, 2665568966852607550, 3646869193744904348, 11791842267226333315,
  1853518944726972937, 8636570269416346572, 2406954780651667256, 16453020521135010838, 8121678236244370909, 6823870049035701612, 6074982480059591888, 397805659947084351,
  3692502910987101508, 9103837895661253924, 9104345819396119856, 6232011195105011370, 9376887638549153127, 1867049797744035724, 12734827517998547275, 3358259680220261458,
  4188398497342902127, 9670456788528015945, 10582218377671455666, 7726908838741190365, 11234135486665256141, 3749416850190938310, 11388922684377278208, 15332435985475534208,
  10272093299904364820, 6602106519747572961, 13855179933101287385, 632926520882886247, 2679873179851291213, 10804642403028044853, 4793248531494357263, 11108811985278376224,
  3808332611516346042, 7571214003556892252, 17886910587507488654, 7516608150524002553, 11377527775597220384, 2343331506121848135, 1177372566611344240, 12437888883992875823,
  16122863267761146797, 15894856014739809316, 16404408168751433159, 16036132762673402675, 883427360361913874, 11600995365685928390, 10487000506467405108, 4139189751208593535,
  11664740076794462570, 4273806734153598194, 8650815918160338221, 6947379965747211751, 10902461855784876988, 13928532327882973184, 13165870177845770037, 3853290100722220139,
  1415581534621064362, 3381545139969229398, 17244172225368340385, 1799134295774514653, 10221082034257423765, 5130758603555585929, 17033209287973450949, 3449012997388980473,
  8102255825724444182, 4891840718684013852, 3706580671297331299, 10535839004594583626, 9779349734141572214, 12060794766294687622, 184297271006592786, 12136325733266938524,
  5556608262699283665, 14773843062774836944, 8196271302426240870, 12427271599746505321, 1155388510536591850, 8509262336772578406, 2578525951290971927, 14400138441601011230,
  10288131011046074688, 2625650463182780820, 11245515695079858152, 9285063085786033841, 10574335504901230484, 18305084003025969290, 1780017664276987904, 15196342257067717465,
  18163586991854532296, 1441560181764259012, 14691030944302567525, 13403406596431342313, 13571799347256090896, 4483546991804775798, 14396927937030632293, 1778563055619922344,
  9282567353149253811, 725300876654576850, 1274293963538911977, 14417548377959800806, 209592247834114699, 17017724487708729395, 10343224921956816764, 4414183122587650932,
  5380502647922389423, 2337798911215905281, 14989767376945776297, 9399288375836224797, 9751762973080401543, 5000732392060611755, 14126954455474852541, 10676694301352681514,
  3469782640325470708, 832729396940234715, 864938097163789140, 3610199687863410074, 14288970732445006620, 1019729365227139090, 8198367047154165255, 16124082169028569354,
  16721573468801058503, 13659773209992495402, 12031530981357324128, 314429831483378521, 4539273832810577810, 16516937805800214753, 5603021489895219300, 14220144232537667007,
  2152450434406474745, 5058930073920646728, 7417306567712857630, 11878515411578495388, 6691833459422961712, 11862243552544955041, 6805144993497093511, 5839418655913409240,
  1110166645739035363, 12656247405285442064, 7687407076697882323, 4354915888119624158, 15719576492033769361, 9630612632191327573, 5532190911155603566, 17192006418430621811]

/-- params_64_512.rs:1 (`MOD`), 3 (`NINV`), 5-518 (`ROOTS`), 520-1033 (`INVROOTS`). -/
def params : Params := ⟨9, 18446744073709436929, 18410715276690473185, roots0 ++ roots1, rootsInv0 ++ rootsInv1⟩

/-- C36 for polynomials of size 512 over 64-bit tori. -/
theorem C36_table : TableCorrect 64 params := check_sound (by decide +kernel)

end Verif.Ntt.P64_512
