import Verif.Ntt.Check
/-
Generated by tools/gen_ntt_params.py from
/repo/concrete-core/src/backends/ntt/private/math/params/params_64_4096.rs.
-/
namespace Verif.Ntt.P64_4096

/-- Entries 0 to 255. -/
def roots0 : List Nat := [
  1, 17726159337136475521, 10336469007148322353, 4107289497610371514, 7360900962710441247, 2246618276830467408, 3294257325990827601, 3094477653450497403,
  16766384729569763187, 18066223986296516871, 2411857022065187517, 15060069152514721711, 17042641852703813704, 6883220462445137757, 16880018833952873619, 13399785099192714371,
  10135772086632317746, 184508088348891437, 4026124603406278782, 12421950487379281251, 10831882040721351345, 14636442955877232346, 6785607074325973479, 10719103984580341595,
  4184073996077722594, 15192661596659874776, 5219297436934038081, 947279474168942025, 17982747622807119623, 40890508918942902, 15496822938906020500, 16031120579301653138,
  1723819471793822105, 16494936744328936854, 1526308010139450656, 3107738895382912704, 2812678407398705248, 3073132156720726316, 17336741919700190691, 6916601581356611730,
  2160389145965194955, 6103675515379554802, 11794325332073126075, 12685562913989246830, 10361415093261964378, 9553256573001961350, 12170096020853621857, 9552622248001834094,
  2659540569332192082, 9871006944658101888, 17866954468909039058, 3654530265115245664, 1474007893399669207, 16359529466271620901, 1468388155940156780, 2743507541324512469,
  3907641688470521259, 10742022365901905901, 9312483958896959040, 121120009692013329, 6136752418366672908, 16327837551124316751, 4148663309033642634, 6265157533189854817,
  7809332467830295714, 9992281836003923215, 13992534139469632719, 4914115026334547324, 5734656673228178477, 438334390107482332, 14308554049149677409, 18051559901102654922,
  3197343448233750368, 766297299764979788, 1223800744557452364, 12771444029442691003, 12862560128280454177, 16276639205657848780, 2266955517408217235, 7230828384268226410,
  7130311829637889553, 16155632611476231857, 4496515566159260653, 2414781145353630831, 8153778615063972725, 10720122743025933367, 7978289844598029767, 5575256286289545810,
  17604642181593191748, 10512282082654601769, 9325267155216751905, 2384418027833518626, 628909458309059692, 14556777688709993158, 15054333265783521487, 3131191180568506273,
  16948733755963327900, 14774864522345355146, 13718271459513359141, 7017858027649214074, 2329073470944952233, 9888987391574560138, 1477093161317362390, 6965610225304113285,
  4415463217525974126, 12292915674445058784, 1774479983140665466, 13778838438511328618, 7757846640011511944, 14487058411565116150, 7518038948062138300, 7520350224243710521,
  12911726513263574311, 866436695189140562, 16359347423673957481, 11369796209105670698, 827678682574934671, 16054720596890166569, 4513197467214997021, 16289678937049414628,
  16528655249071241347, 14561867259447678788, 343566353378867193, 2639810859049153377, 11313271413787477728, 12787136763182429935, 9145413470140382906, 2847227376918593412,
  16582528156526269418, 672216689722244726, 16610704985789837864, 14281779419639040800, 666754433679440763, 7287208536382147921, 12355351739799875413, 17066682727390846048,
  10874909511472951851, 4389170874903106644, 9602443758440416470, 3550054700438763288, 8016659753580883464, 6698060158575353206, 11746569696374944735, 7799831439419526867,
  7700442941102372464, 4638534132588643273, 6980331646208508287, 4563804621543399840, 14398839939699696322, 4308549336849652467, 10301642878550741835, 16672783855429512975,
  15379164317447905398, 2107026045720721876, 11618291441121085778, 16931437035728382290, 16734140839240062483, 11649453120220969707, 8219107979524799817, 12750786611591450642,
  8291372273410524886, 3556010777116589141, 9486142710356386762, 12419867294142749724, 18208610253456852843, 1136784548903243507, 13703091703609426340, 2877668068253418291,
  16880295847140003608, 17113103866298204841, 11083398640274897233, 8611741135984834252, 14756362962352599980, 8759839595153052578, 12994960899108806247, 5645890437211973358,
  8315570383587344197, 10974290965416281958, 7433307340845467902, 7391664881303713820, 13147678953245917903, 2729088951597973889, 6404355354875633527, 7168411386214841568,
  7287437283013317393, 11670756924186932461, 15003217807919753001, 17177914375149076963, 2831281374957655958, 4924494931160940442, 17811137426618598325, 6128703678595368759,
  6343549632142671317, 8504072982099537383, 10211370106197085778, 9695976580452507784, 10071423360502205214, 3510389547884920118, 11425876958316592846, 1656868302853146820,
  7600395712624309886, 7044581329974546000, 12842636498084296939, 9960173841363985604, 14190124668807328871, 16319817313326781098, 419282493252955969, 16386508724541722803,
  3197219125762630920, 13634041675019642777, 4679680391116545955, 15160204459723345947, 16545418360531446161, 4045763124731515458, 18020592860549714946, 2519378147937700019,
  10962425847460253032, 11048660263233447716, 18329131452725449748, 17455748639825017660, 16854117897505200868, 1752307060522459569, 5512403567672781012, 15212490889996613420,
  9511846951438159006, 9931364922408773144, 2950706731063258862, 667639652309231357, 11819098605253298889, 3285024055384857877, 11338603909668685653, 16682247638493996294,
  6206132173571976622, 12202346895462343907, 16740463144359038997, 6614007968361625578, 16346969457060814485, 16589524622764334765, 13666017538230424069, 793799556330021822,
  11489057168103961727, 10808023035387708399, 10867510309275084081, 11567378161235443460, 10783628745590008348, 6571924408323664752, 11546819657467771268, 2558186312101903371,
  6486125637702767142, 7808167115056157970, 319235251744749470, 4809307273541950279, 5738890321492885213, 12089938008706898766, 12967641220198548255, 15564258363797734555]

/-- Entries 256 to 511. -/
def roots1 : List Nat := [
  1254737655278815118, 12914553162553833363, 8816131441518109356, 2727167581675667568, 14091828185589812771, 10759336997011554606, 5790496668423994865, 17336577427970401566,
  12607325417796027689, 11641599080212343418, 6584500521164481888, 11754910614286475217, 6568228662130941541, 11029437505996579299, 13387813999788790201, 16294293639302962184,
  4226599841171769922, 12843722583814217629, 1929806267909222176, 13907470240898859119, 18132314242226058408, 6415213092352112801, 4786970863716941527, 1725170604908378426,
  2322661904680867575, 10248377026555271674, 17427014708482297839, 4157773341264430309, 14836544385846026855, 17581805976545647789, 17614014676769202214, 14976961433383966221,
  7770049772356755415, 4319789618234584388, 13446011681648825174, 8694981100629035386, 9047455697873212132, 3456976696763660632, 16108945162493531648, 13066241425787047506,
  14032560951121785997, 8103519151752620165, 1429019586000707534, 18237151825875322230, 4029195695749636123, 17172450110170524952, 17721443197054860079, 9164176720560183118,
  16668181018089514585, 4049816136678804636, 13963197081904661131, 4874944726453346033, 5043337477278094616, 3755713129406869404, 17005183891945177917, 283157081854904633,
  3250401816641719464, 16666726409432449025, 141660070683467639, 7872408568808206445, 9161680987923403088, 7201228378629578777, 15821093610526656109, 8158613062663362241,
  4046605632108425699, 15868218122418465002, 9937481736936858523, 17291355563172845079, 6019472473962931608, 10250472771283196059, 3672901010934599985, 12890135811010153264,
  6310418340442498405, 18262446802702844143, 6385949307414749307, 8667394339567864715, 7910905069114853303, 14740163402412105630, 13554903355025423077, 10344488247984992747,
  14997731076320456456, 1413534785735985980, 13315985470153851000, 8225662039452013164, 16647609777934922276, 1202571848341096544, 15065198933740207531, 17031162539088372567,
  14593453972987216790, 5280873895863666892, 4518211745826463745, 7544282217924559941, 11499364107962225178, 9795928155549098708, 14172937339555838735, 6782003996914974359,
  14307554322500843394, 7959743567242031821, 6845748708023508539, 17563316713347523055, 2410611311036034254, 2042335904958003770, 2551888058969627613, 2323880805948290132,
  6008855189716561106, 17269371507098092689, 16103412567587588794, 7069216298112216545, 10930135923185434376, 559833486201948275, 10875530070152544677, 14638411462193090887,
  7337932088431060705, 13653495542215079666, 7642101670681392076, 15766870893858145716, 17813817552826550682, 4591564140608149544, 11844637553961863968, 8174650773805072109,
  3114308088233902721, 7057821389332158721, 14697327223518498619, 7212608587044180788, 10719835234968246564, 7864525696037981263, 8776287285181420984, 14258345576366534802,
  15088484393489175471, 5711916555710889654, 16579694275965401205, 9069856435160283802, 12214732878604425559, 9342398254313317073, 9342906178048183005, 14754241162722335421,
  18048938413762352578, 12371761593649845041, 11622874024673735317, 10325065837465066020, 1993723552574426091, 16039789293057769673, 9810173804293090357, 16593225128982463992,
  6654901806483103614, 14799874879964532581, 15781175106856829379, 17443186119438280813, 11926493126266718524, 11293686480623215211, 18289791394846161087, 11107690429797891864,
  15788452068120402616, 10119081004654322718, 10011165009285819255, 18319685680523537379, 18168454783949177165, 17257047273423336127, 9259525982683194636, 17163312393655405427,
  15282327923294330746, 5281816484940797629, 17766761877653770976, 3096372409670311770, 2767970671193630494, 11890514042277760483, 6586096503602525225, 3190684253128181724,
  8737594385591544919, 13066421315270089837, 4376333659228763385, 6457790598197045238, 14136639521888711098, 1999290648287520122, 15347380490820885010, 14122633782122100754,
  1206396126776640167, 14090270711317029335, 14634762628569447959, 16804711363783759125, 15034299560841815113, 9046389501364712867, 6355134185547454793, 2909456692194195359,
  15551187699890295181, 4029802278643367947, 11485234116892532430, 5609297021995817420, 911678053167995723, 9632643047267170495, 1453379634826239809, 8779584298881441277,
  14755042710681177375, 13677450266956466973, 8280227094826490503, 8484009617793659571, 10385045447777422007, 18385995007927221908, 18343266310297482208, 8680298331195022252,
  3112752128541311886, 16184590855741108379, 16924863045664198128, 16218080631650572615, 1433450986958702819, 4410538914006926598, 12268306861543057525, 13997294621798387421,
  17970545107774647794, 4635993653952204015, 11029055696739846292, 4210636327340881362, 17267169515115019365, 5723020000071301693, 17265140314689302028, 11165732671691011480,
  3314396270699887725, 1787235927140055407, 6813740268872352098, 10985555478535702676, 1954104788171923234, 8612399942814934187, 17222930442905103554, 8541695217915440985,
  8395688805716958297, 12542614103202513081, 12071586548179697368, 5925976340122826856, 14306878580473721358, 7273765448251719059, 13011502216323271275, 5671190490235388934,
  13335857098462172199, 4689860359146477404, 5087860142741169844, 15255615138635100857, 142133025901353800, 5177651810433533206, 11110834982983994508, 9152491203972686990,
  224010346672560443, 8832754254154095158, 1118276697465693763, 11051457746997568966, 7448634660577055265, 14855770589514096369, 6282993326763698984, 11134587742504790619,
  16000437000950499014, 11268811758009410934, 8611308334191606796, 15801798777803842050, 12942654256383169221, 12235994549838268963, 11517570121508149586, 4603014118185064580]

/-- Entries 512 to 767. -/
def roots2 : List Nat := [
  3995848107716859512, 6545537375936172486, 8766948399264835529, 16208570864982518055, 18155191135307886936, 1266848862509451285, 5614883924204534116, 4035475005925433555,
  2220034813382685190, 13270115015980376601, 5760405286198526300, 17399693921206086188, 16450203299218488661, 338875869397973066, 1577466943525247661, 14040325103389935500,
  18022376134636495609, 5190516735869487136, 14944709969850894621, 7808715808763953090, 8744431926652400683, 4568621183537411756, 10446262284104339018, 3938790832004962145,
  15467009693304113247, 2824732903260783146, 10489981640042253325, 2358719642246108160, 13971981520968634456, 12738158686263113228, 2978450048080595489, 7926600761903264207,
  3380890081011061872, 14784901395994290565, 966608088793085666, 12026398653363745573, 1968744155946529915, 1461541104209454191, 16685238649106136944, 14394106381083252319,
  8138383412723043531, 7690958016733545122, 4605684750668807067, 11430610185593401248, 9292342896063039463, 12130628939108112863, 4850368574175342485, 5409773690537298280,
  8898264543982425938, 16308799339432013359, 9087171215679165442, 6203969369598802835, 8202702367845168477, 11464580474879285129, 3812648276576419939, 5519885854507475051,
  3884212487375922640, 14040562838449953404, 18166360258152549488, 1703682519739474231, 17094257494987064427, 871069064143857059, 11722944826705761004, 6678057945069077132,
  8939182732083907425, 11873291368353778568, 11920905305654534138, 5955427075634437436, 5506514782528481131, 11864906529582582401, 9188891138794785745, 2289677150373221744,
  3838122105662774877, 2847831475088214856, 1821713255766066982, 11235391357464244729, 1629553056282543004, 4353557525433048373, 13028030485171900437, 13171775235634189918,
  8874155464390782743, 7012534226701513865, 16081195334173862321, 15521471173119396083, 16584427714180660419, 15972982703633655399, 11998247821219625208, 2209440522699848916,
  3150151477639781310, 1962030114272730484, 11791487148831446748, 15753624218447575324, 8419863812148539778, 2161938702319352022, 4236467467897394961, 12561184867100515715,
  815836614939464400, 5942092363347412326, 6867304520274385466, 17415512884750705382, 6191658090479075069, 11168194765160039773, 4037787158767169706, 8107809686844058059,
  8586466647548958689, 15909882897792199663, 4615674822120186529, 3807915479844704955, 5926561411056585264, 7130127289636719965, 8432836366351309040, 11064274942190073489,
  752058452094819761, 13598438691721759654, 12844528733274963834, 223753852835471502, 12943069536670883599, 6028541020637026888, 687999639452388393, 14633737814602005202,
  12012620009587446090, 1329287746600011799, 6676087955081554610, 9243058784425051997, 10201296637690687939, 1984680364721590639, 13955288127775179473, 6292299228390481105,
  4533391949743178267, 1297970272606644449, 7866593291295031604, 16068095131372863048, 13474573923724455549, 15901563641934787466, 10496112166114748219, 3802819771676579301,
  14410462506547304576, 10133050767976133136, 10971229708383363595, 10372082911520275829, 17734586490007888256, 16937348325661716694, 15966928299053313767, 15356271274790275634,
  9086035039158966278, 7953802426332868820, 7419973465534054484, 11887075098969785695, 15993035800702687465, 4201206125862370217, 8992674229700055813, 10192178082969807012,
  7345659655576387914, 13276182003169171753, 17961485860747847078, 8591847595039813880, 5780050275737097394, 16741546202335400745, 15105899292030027474, 14985657410225577914,
  5796734497220841249, 4413337962436750926, 3247548532802483819, 3171784926419770626, 16370924224661595318, 12960065985507062200, 13375367789866353584, 5753444407057120290,
  10780308300492376814, 4149149321319605500, 5572773091688684487, 10866697965709798809, 17693484296943644457, 11610831369688450862, 10005783325409953644, 2116122906138744932,
  4838753085657934688, 2614456513428881100, 7508775638184412365, 9133749399617287968, 9749016046535286507, 7957238961916011636, 17500434799256051015, 717237462658708713,
  1237518411038363777, 1006507841153520668, 8869893935778935486, 18335997962605714622, 1910089385823951598, 6767261034016903443, 12944286928674882932, 8083371731204389643,
  7056315571094155277, 521469966197276867, 8414386663184405192, 7891137586641735663, 11543556597604601714, 11756742558683537592, 6590685128029465010, 14492550004621100876,
  12102189363438611057, 18081563242285676506, 15354534375732729869, 10420807235474834052, 9037380938228153274, 14015857675143035904, 10214817544623878732, 9122162829623240547,
  6398062411494702929, 2036560615640950403, 10920827633720033261, 1022305525245991128, 17932932334113518284, 4504342645756941425, 2898943471707249407, 6590427919018140890,
  8344331554061404163, 6218307498957246207, 11273122874020414777, 5202338331255313330, 12605078126266923951, 5749576291720600457, 5779805271648523836, 15746540168770454354,
  17198293043355482762, 5173994103439789937, 6680674077296666306, 1333009703426602948, 730221434486119733, 16014850017670759608, 15003968923701533481, 3852682295240965400,
  4846204379700072884, 18134513785187030230, 4537242416414432524, 5379183289721724436, 15005324659963220652, 9424189349627685052, 9680733069499516067, 8401013355833467244,
  16775333091804111841, 15837030655491531765, 17215435963793878627, 6151226148989683454, 8755046282580265002, 12826264010449020364, 14234260758300661837, 244233771393233252,
  1365555484127397267, 10803766857274886169, 16018932307361207523, 3208719667497894153, 3564119669809046250, 12268736547748316587, 14227766183755979750, 13071308050395984082]

/-- Entries 768 to 1023. -/
def roots3 : List Nat := [
  2487545075867320997, 5796533965656706666, 3098044977006053193, 3375447131804027847, 10965949049008145907, 1858424175449983161, 3852727292627418201, 3929967428712993776,
  7802551448030917983, 3674243082704093431, 15285261464172357543, 6924070446051358407, 7714000135540922531, 778077678108132114, 11031698068839410129, 8983016391715800581,
  9462491004061854624, 6934239879833464894, 7128057428920597819, 698121275244303882, 2036048502064729406, 6029624942993326186, 17997117966474820826, 10050118480475923793,
  12795163597384834723, 5320955344553056147, 12680239387605270294, 17757264585057312688, 6876295399934811399, 8649874654191090700, 2156746241523731690, 162061691079260462,
  17840535556350596796, 16131749203646251486, 8325320264881009468, 13351969663026017116, 16152394204248920466, 4890059346005941937, 16860721192940478890, 16364854412633167470,
  17465243646884447220, 57260363547581186, 9141421521938303320, 9448712736080120034, 6649453883257481021, 14800303825430908236, 8058774373121200848, 12211032074165722735,
  4453292643790612877, 16489965546111190092, 8220435207403779538, 9684297641197985956, 15795334750217347937, 1191354204641927703, 2104212136134112617, 11743900352237942233,
  18229539898802626319, 3806138005267399270, 2690816887452012135, 14627523418626300606, 8952358323496547130, 14823382343197339873, 11357844496415448812, 3326682462460707624,
  2165073514877057125, 12830747897518392373, 12481159786908683973, 11131971481745003154, 11149811931015652619, 10301309257899082764, 10679942363357258838, 6741646754972833427,
  3947724146478903196, 13486748543447962614, 15083142610254832454, 15684511056600050771, 15690745070526961033, 14840159844346300552, 13484345358143028860, 4260441734989457376,
  1933919070150905028, 9459174163509381480, 15089523651232850320, 2433369923295983053, 8364555427722655796, 14285930507694161064, 15934546575296300149, 2459058167234348055,
  14673304636744899396, 12476773904611604063, 10323319499675311786, 16075036659761121347, 9318923343634597890, 12560084872727179062, 10407231571815105293, 14041760501692892039,
  7621528286055825445, 5555663654179853710, 4773254918209142235, 3416683618507416818, 7197437434918352265, 10466050535070453966, 4474190640214125022, 2601369716508401522,
  16649982526222284056, 16847901766200980905, 1835042986935556179, 13303872474940691300, 5651173537576297809, 3651929728131903596, 100204385645453555, 2400815851773025062,
  15769413567685417881, 3229864706292761557, 9127898805656955649, 8838732080118096142, 16595255090226392187, 18209456731080414858, 7600393146141273615, 3703660226912480891,
  15787291115320158244, 13895284129256806859, 12070512318933623077, 6726883599613145844, 8065515105977441173, 4638875069766816594, 16852500647058857113, 6198530644151702294,
  1593550166912294622, 12728139702660584979, 1441197229165602149, 784106589311235771, 3268445745010214475, 6221171774803658249, 6071242217495473516, 10956707543235280801,
  1937251714233587228, 1269578081192803877, 9473764765820634887, 15703019185643609545, 4696366127086502965, 4053293621045143905, 13838334009466255025, 10492196034736144676,
  16207923462074124038, 13980337432375837363, 12688550030674139751, 11473395936713652584, 5213953226788178394, 6426396132091474127, 3916652255378106660, 17824202433424590369,
  17522348946915516542, 8920846092430725634, 14382102234749245849, 5594661327805133534, 13604053941692823450, 1354725796005006040, 11256644739301936549, 5215674664137941393,
  1335821511481935448, 4352028326325150051, 14789311390266052007, 14876434817271730028, 9319183803886091323, 17885041195382767188, 15939622490670112470, 15226205299434298361,
  7150884533778416694, 14265372793450710923, 13593879336885742734, 11994331475821363773, 9172280039382098141, 7276937032438855021, 18033539475895611998, 12345241509549480099,
  9947229228117630180, 10072176678632121414, 14389041981263207313, 16362328498966977935, 111817826788926935, 10827872024889427126, 12047567885186114989, 2085626840200531536,
  13393454256005543690, 14259953619619072154, 2500802313455226801, 13739352256956543311, 2544974719542685128, 4434985352236093315, 10607974397916847852, 12304982876540735112,
  12149460492233362130, 18020573989209288069, 2520311540657984447, 14392584706955591232, 225320994243251193, 14906033190703576825, 6207072537281078800, 9604563059006822409,
  10952576980294062270, 14532508166970711725, 11056795996790976418, 2269679669472762880, 1276348651609437741, 9910739678368162445, 6331304109763078665, 13532666778354335933,
  11159199262104706668, 4880051611094958492, 15115586762689268183, 9802013298822871828, 11123276569081916203, 14429938635701918581, 15726524602200806350, 2968891701725675589,
  16947557981865813923, 1882690872425499618, 6165649384544630387, 8166156697436073771, 7272394919057441607, 8064494315978783335, 3965788990025686272, 5773540460433354372,
  17879896262664594881, 13585109245046189100, 8367756040868509984, 13967005856161542648, 10366121538548271219, 14696462624960716382, 10143173056576441200, 4002998445609156999,
  3903064398896165981, 16885341896684803189, 11667202948323213059, 1007681650544934187, 10151081687054037449, 17352705805103103183, 12536249814210762203, 1893923589715400652,
  17316134336692879035, 11958754411843580284, 2802857592684990986, 5013520349811190097, 12799089534606162161, 7514754964708596918, 15154355400393974716, 12758153632176973303,
  1909593466033337192, 9233573114413898206, 11408296906417972045, 5366754863037222286, 14261888321380991346, 18426488390453431496, 6769751994943443342, 8348800993809447162]

/-- Entries 1024 to 1279. -/
def roots4 : List Nat := [
  927627490709132581, 9105312600214899574, 2070965155841799046, 8966816335897432831, 827990927563954432, 5545174057770273710, 17803496335601596261, 3521018267666548028,
  14455645965506601864, 1670455358413880397, 4456722677988127111, 1256017306531012424, 1882343369957505031, 5022703920642095206, 6655082909282690683, 6262460810500258887,
  10022854361103389097, 798355196983225091, 10690071657459984007, 1956245308473017243, 314409535575883765, 3074744436141261804, 4578490086361300716, 1164542315436875392,
  18072924498498544660, 14922408785298123247, 17520835733403088147, 6018200734909723327, 1396209141082503370, 12872036700250616694, 8286771411672031570, 540771839674720638,
  6231074770978711864, 5402034725598532088, 8116190339815921925, 1904949486645548143, 7255020498451803626, 13164232148730383986, 567795350991766936, 9269078509109888745,
  1497216480701221941, 11473219361665511301, 15951055149533114592, 3771602915410054644, 5953106804246425277, 192760298465682305, 15227582842365869669, 15484942415095832586,
  13805919912430816970, 3455290694863267716, 2486699453452296039, 11271872720381551366, 13656256275782303491, 14731468695766983879, 1658724639295303112, 7482809572656967113,
  15769825376474092821, 10444227215926593792, 8474300638661974641, 8573739129141574319, 3173505507855855826, 98101250155516851, 15197622249913082075, 3007840112317203463,
  9552482339984126607, 1956046291796690852, 10015787922400893847, 18159913261426958592, 1940949148837543675, 3266007724496989616, 2130763604946553237, 5158086187525302325,
  12367677967354371848, 17813809930524180468, 18428682737462636066, 2341220634427580403, 16804588612840883590, 7653866204238536126, 7396054313479703530, 7200848148418702311,
  6349525943429561997, 15178489476894997902, 9669264156829691369, 158294412638804097, 9346954418100240242, 9047644851916721736, 10069126407646231748, 11088113214114254616,
  12251507265970212015, 3729827982832266487, 5099222747190749189, 2533025317630715403, 3698223753526094397, 3422778543139768476, 168810834716531435, 17752049745121171055,
  17376211250340973099, 10304651962140337369, 12899286810295246584, 17441024930232847765, 14531476971363844649, 10172316361813641772, 14608992869555232740, 132610650592079092,
  7894168603846737675, 11425463464449184939, 6642795662903151376, 1389309486269424235, 12819427228434170876, 6402763709279602285, 1562181264598483935, 14092044604170298141,
  727482113621331533, 770002703384995973, 13021074648224165225, 12587787926811669962, 3611090426681073081, 9914247734549837865, 10432564063115843742, 768374190212003560,
  11388758329503033390, 7971403686501342781, 5578975264228189802, 7305722096691908689, 11845474696500647564, 13155960815857813429, 12524477627915402584, 4368060287794962739,
  2080659241573071070, 13199981985902403613, 16782628674413152372, 4020367191171302261, 12602703646088072091, 7027637463293697806, 2643828206692688125, 4964061916065511180,
  13441968710927451063, 13796305179832220642, 1825960121084283838, 15068180038003234500, 9642371045291644216, 5762003948879926405, 11293742359729541730, 9366327019694056904,
  7145796682877959822, 10956515514466473745, 6458043650587464087, 15439311214026844252, 4225092149163276995, 17406033814406606250, 15507121096336304836, 16961285873473982037,
  7292051878065065175, 3874099106819968035, 590582915845429650, 4887034432301396884, 6126871822443880609, 16396003487484528197, 9188080480674364128, 13556711037637376277,
  8166080102579845396, 2233157513432730565, 1085525189717084168, 6883443536741160296, 6275013730910057168, 6363766628075525516, 753409911776534690, 5912559190547356004,
  15487154218257126204, 7805337099490032560, 5930941376886645238, 11845050463152592964, 2026721104476131824, 14410686826394690534, 1303549753788736508, 4091416452050851891,
  17158367535459120028, 2566309699024960508, 16821725985315091719, 12135332654592686750, 13156834157804082867, 14564749707032217293, 13202806096779910972, 2860594033445461050,
  13713015309632833219, 4848306864744734479, 5893844225672101970, 12119703911102600937, 6188125106479337478, 4488975056119830581, 9186808199211077099, 10397520651684537679,
  14800632700630039018, 7948425420030036176, 10435626427628249226, 17516706603034879335, 2625949855867383404, 7646872459067430407, 10993625810398884362, 11679340624556951237,
  8479814024026102607, 160549246626328767, 2066785608880762143, 16118578154141777352, 15510416628570200456, 5313776027627211401, 2677149880866996312, 12919917331715190743,
  13513251696536945310, 9508916091586210358, 5048268400829800472, 5986359165628345724, 2838711333841473046, 1469603665433581308, 6306162220331683478, 8052318888638619222,
  982351894017823529, 16461959276395305289, 4124540726411098659, 2262496854369939685, 6218871092543725622, 12862778415582792714, 2850275721575435967, 16933138810239286462,
  260833792948457228, 8316085657927390296, 17152666781029873047, 2630468686572075637, 7548403769432660570, 366959592201630372, 7398978873525829899, 5874334540887875047,
  2471172665329279030, 3277975050052043135, 4802317451708365567, 16444307103497792101, 13299812161786575322, 6267844347881117703, 11521509078497330309, 4986831028712492492,
  8642957390661818555, 5584222826478814665, 7558822167117643996, 6658093092182272420, 13328017815701270671, 7429702314644754267, 3000840913376143950, 17533603108987615102,
  16028231397390257767, 6188405563392503537, 15441063014409520813, 12081924332913960045, 10346566869300299415, 9026652074795200547, 13149835355494963316, 14513178218654711810]

/-- Entries 1280 to 1535. -/
def roots5 : List Nat := [
  12389781013860788031, 4005161619068420682, 15562634299414948109, 7905588729010828555, 10611467679324849496, 2462197249745371434, 10932547131832136481, 1895703245694242937,
  10010358672817629480, 5966448097511424613, 3863247931794742861, 5104184757882737802, 13756259315786761155, 17301886704319297933, 5405439865891030309, 11349094585530276203,
  6614124018747301441, 5355041171468619285, 13067781429288944650, 11733873800964838524, 14399772646273998305, 16476590722854981509, 10856040349509683476, 15499426485287142912,
  4459810364557345805, 3074313749928783548, 11449834017892256908, 8538997806139116875, 11037764597055755717, 17082179109972049897, 6147609206036693405, 12652692565895090704,
  16697118680974875459, 4990788440931311726, 16432173342546128308, 7055787189761183618, 7890684061146123029, 8475555698258554701, 8536250457179904079, 16137965384919446941,
  7480558006340433672, 3350465420011343234, 1016883960873095188, 4734079441270745110, 10789235303861435360, 2417336297103203510, 13062358813190698492, 15529799350823699910,
  9678767996091763486, 9522331047054271830, 1676115923550281994, 9774751481712798148, 6478786335795759461, 4413878020078464431, 13471280539827062501, 6980516071848477247,
  3547626928409019553, 17810012336723532327, 9356509862488286199, 11891185641802732553, 8637102289360712155, 16425264689703157100, 14658897564121776358, 13306587232075006668,
  1839950352305680072, 3455953736677597485, 12392797083243418823, 14486774156552072158, 688683100823750949, 4104356359884488007, 740560961475457693, 21758684331607615,
  12360090213344785186, 10687427523633395659, 6731690299445792785, 7434508338764992534, 10227692316305256077, 17688941283053717045, 10288755565924681026, 2069828688225713394,
  2437909024796059400, 14772066628071753860, 13528610715725144968, 6537436074221025148, 2820064926989630812, 2980147388054427925, 323027694310022169, 9846446981693204171,
  15555597064491422989, 6050276900659925570, 2027416589775482599, 2555184863625818156, 9539353588076481072, 2271471490338074790, 17772704740552286212, 5515494102769774284,
  5742524654246433595, 3263617474657817432, 11511184373083611853, 7049185255697329008, 4049383947465996676, 9999912388566984719, 9225884672249175321, 8091099686509294164,
  12287074574989804730, 5321340752195812977, 15475596313780349412, 2010026343977218557, 14965783566282103230, 11834925133268881227, 7341915283201500792, 10093428839222325953,
  5949639422762305173, 8299710622286404153, 10358783356320881127, 10797104713036871448, 7955662785075936261, 5330608818468496323, 2214305185057770628, 9732159283201867927,
  4425671828287276935, 8066140029640044588, 13902703989668983358, 1689432443450187645, 17424205474045554628, 9353123699056588764, 8621046198097871620, 7059057322623932627,
  7392581056332876481, 4432207142382907966, 6291221465633954570, 7989820077977147795, 16754644054314345035, 15949071671197743502, 11506709292721282356, 12584476534866516633,
  10257235481667936169, 4530035801616800905, 12098863609440345362, 15224096186030431714, 9590241733414730331, 5695571883920102619, 15515563613669214124, 13549458265579619810,
  11293657978501707058, 13641128750809254927, 11530553409127313481, 675676345790947168, 16812081498804560325, 8076475603624824515, 54802121981837962, 14924280793602680952,
  6724845220836176974, 12225955338586347935, 12098232895606694141, 10027863499743170567, 16105752466817077700, 660805253331156859, 17679547351266461616, 6241674323263156170,
  4950380252027809690, 12958708733266967149, 4752621863723948586, 17285692919382320737, 3553432310072534866, 4257345359373813312, 13989861163387167136, 12987149028563464595,
  12380743733024532151, 541350453645469776, 18221756466362858109, 17155705389092515425, 10644062986979233099, 11092516636681941884, 6913659045455717079, 13767808092114287827,
  14044044415772001807, 12676670624327276344, 10515163054442427592, 2454905470206645569, 6761800170521188447, 11460368254012073357, 5531848345409082830, 14316602935624989658,
  17597124183997452126, 6933783339997541739, 4108062056987735359, 5979428486680260677, 17533855517280873810, 16484871400673239236, 9229157625925488860, 5381996087888547304,
  13551265589019647055, 3647158980796333945, 2352805464525373030, 13256905760308048921, 18241775706931703107, 9079190113809398256, 1508461100978957933, 17819411573586188152,
  16702298787109052925, 15331229048129969454, 8750610381758737955, 10932087745057798419, 8868236649833683679, 322888547559279322, 6991480878007436416, 8063472863485289199,
  17013875423047294269, 17648062255245127235, 11778499446417221375, 8745376840083654652, 10410297516519477235, 14816596364402696683, 3538240334667134910, 14478941634818230338,
  825864925684251807, 7088357233250696490, 7314187019662868369, 577982804343993238, 17825818958316846651, 10501164101937879235, 7311812702811560576, 8304306530421923139,
  15759577638456241539, 15884580307658691200, 10108337883331795960, 14046285526258461605, 12311290955396527300, 7896367833185716102, 10756330719482952468, 1624294695905534922,
  17689542408446710679, 2639354596965642902, 15843604608793979912, 4240422949519480526, 9171561747651169358, 8343851432006937908, 3341357158644898925, 10325671081384700300,
  5310016114530152201, 7130842833812324572, 8981667485328264020, 15590566983866935604, 15559520286494062613, 2975410400888778928, 1192612832281978076, 17893441176461621564,
  7893183711492136895, 12412617332934497148, 18373218489774085336, 7668531768359140415, 13432336658801535369, 4938769885813808862, 5154929323254473145, 10083408674353383412]

/-- Entries 1536 to 1791. -/
def roots6 : List Nat := [
  7387159938855489947, 1726824659112946375, 13196697914766149514, 15344082541754256896, 2255203673685928551, 7085059051768388998, 5508763106881529836, 4024721563273692902,
  15647194705266829651, 11794156645998887645, 13479559778320359589, 11950639066586349480, 7464368864016129082, 7923826753681505906, 3815006273174754808, 15364506724046200308,
  3064821272494933299, 11967952617493907056, 4692992022825509264, 9690599389532928299, 2031020070357171580, 15245652563758031407, 2206873253625116625, 979820354767594579,
  8752203287551880261, 969034964506307636, 935928741868345539, 16744433345559935811, 13348803409777101967, 4421658920431517441, 15985129117352771001, 8254677999787482667,
  10805033303078333605, 9191670479903800700, 17782363743075465153, 5180155790334917585, 17093861951784896140, 13194696527536869418, 690557717027330225, 12772175524709446560,
  12919131649636966308, 14101856606100643166, 4782299459354266391, 12426445628629098484, 3850001796155692924, 3963901641940779806, 8639300130008702483, 4857727396477172792,
  15409735946820372939, 1486374272706061383, 10088170247683661339, 14627828669600190237, 13118385033719006520, 9290238545835031436, 7507980970447582104, 7968919853055915010,
  5249620479436628470, 7581312152926277167, 12936964525928753006, 16259333862341621076, 2291437910909754694, 2100990746182664217, 15023763391475855428, 11491058859816031552,
  5113478082411117118, 9133341932268597921, 13528004165771019315, 1212107106796169472, 10216533343164381080, 4984597306406535807, 10930130954556929583, 5851810629647798581,
  14581447531477956311, 10904989056252319700, 489616223369648242, 8696033366819165390, 1682165215157026335, 12539859418318260869, 9028792163846533110, 2603965798104327812,
  8348584307553915725, 2991082506271788481, 13112186432775313305, 8353436659091868327, 13413628343560417127, 12155876297158373035, 17606213911796396621, 12748049548075132784,
  2060673768667333555, 5763544867740375002, 8069780191651833554, 13370851780351234386, 514762538047149855, 10633949713144541655, 10749594351113724008, 2234211155774962889,
  7005496228756494870, 1386375449011982367, 10806140648130588362, 6959963436609182992, 9413649234830704371, 11466207903494921427, 15083351220382835953, 3146565202793926394,
  13504645311849435668, 17459804946781732011, 17363755086443877375, 12225276580565631731, 240600573165887447, 1868512618302768772, 1269705670802929282, 16495020897069714684,
  17271565218839627070, 541414460719033345, 16735530246579886554, 5921279284634500742, 10150965093631729574, 13270863629960321777, 3776883372556395718, 12499365099761536121,
  16267700886260303518, 6602793538228211487, 17404394336638203726, 1033808446541364187, 14358729066058732915, 5720766949583901872, 16988643292554318575, 354114395504096263,
  14288675884576412747, 15922255064040473390, 16984850985413383860, 2778873495277221590, 8611948312534929753, 17158064652943843594, 11321613203017003082, 12443193981263129757,
  5779079282403638211, 13613879707912407159, 6012813709255095033, 4273099528900033383, 6157924281676144281, 12242189824186383022, 3391162481933764941, 9744759231503588174,
  12140051782810955064, 16280924914875759190, 16629005297530753664, 6121400633532905057, 10821462047723872732, 12486539616823370570, 4371882005619605901, 11870797907185347983,
  14260401695710077060, 1437223335537391157, 3917566882029690770, 3169799064795636261, 17006117346123903917, 15905057487348853226, 2591263598177103738, 6142292740136716044,
  12351618836281475148, 7014052386622844245, 17461313784096655002, 13507452751403037052, 2323713493109905565, 7866119579984028171, 9613971487157492587, 5458899973152245807,
  11308391777681669076, 3893928677844104054, 8758008114153819669, 2220414611745699296, 8451988776233245615, 2577037022760423116, 808223315106370825, 258658091975386417,
  10249863708333372492, 10906991804381277020, 16792260244001496156, 16790637265379008108, 16092940534094492027, 8034725610271725511, 5575049715391854171, 5551958346835750851,
  11719154451092151221, 14687519154810374488, 16165968623165081468, 17662072238332152245, 15464432172715849214, 941813930341308872, 10418047983360078507, 2110962493788869363,
  10287925907911330711, 11469599090662974217, 14190151282960325129, 4423362500967161196, 11702137776763088822, 5364805475462211070, 7280113782408877159, 2028746913688273021,
  8111741850492669919, 5457259857709150385, 1996487134748370802, 6972653038458792499, 6415165297860476341, 11458426744752071130, 15793076335115170496, 17409026691147324830,
  16904845624388095109, 8363323846988648673, 8344005778296047074, 10266716463687434578, 6739107619015631468, 3563613335938239035, 11503531205162192491, 11623076429827841254,
  1413828034557269679, 15526151869830942251, 12315144834050729528, 12176669164721228157, 3078343174955621837, 8044445154883363114, 11203153585698559551, 44633384710742367,
  14778743975543027894, 17229765240138125074, 18379043452481538746, 10452735115506214285, 17188716546436370192, 12314950905421010067, 11946564082592065096, 15889708164954479830,
  15192035258172439331, 3863468310537764325, 11457932141706452776, 6957704879523920687, 5930907399671052441, 11369276608779882478, 3893273337328741194, 5819157058191206670,
  9072816214807210213, 15420369820950029735, 3747101719840197264, 13960276661377970852, 13500633439841434086, 18340341188877536709, 8531701386353601815, 13437884250403352255,
  2367937435469094128, 18214227773121713953, 12921285931123458472, 12073557388343030676, 532642512770011256, 1120535272884145767, 6828227252853969713, 17812122995583057799]

/-- Entries 1792 to 2047. -/
def roots7 : List Nat := [
  13314689166035410521, 11498644833904982113, 11228545117995069229, 15143029580210118418, 15652455781076086558, 16913960996842143123, 13694814643207378219, 7116203338355731102,
  11245214055888051772, 5373032435283409546, 3764010206446971259, 8759656161632570070, 16500624906328389881, 7124280005708902741, 13411697982497728217, 12368597126984516228,
  2532772095025576947, 17152655657635042838, 2194968859197408562, 15943126463958997390, 7940149154484355095, 9936126304908535413, 13475054940950919437, 15132135617205915,
  429746151802690380, 14065764417259879247, 1548205607838074802, 12322571024473046676, 554429201451334571, 2456863433667176447, 15275580010461719188, 12838998702144240954,
  5317197839237347904, 362675130632512915, 12532653210002002406, 9479615273434220184, 10580907031788962949, 7631815337958721612, 8285885524303518216, 9560544191339748612,
  5069691661116424194, 7835717799820013377, 498703864601298500, 2303042691884632747, 6368735442172280706, 10656394046812994873, 12368683954095965151, 15169965698090549417,
  9434178628364517893, 4310713271705461719, 18185229403670360123, 6528228851745983797, 14288239353000119018, 2235922047656626965, 1345262901505259055, 13635642652304517976,
  566165781674040491, 16941454495345361969, 11007166816727703630, 6261072785400108410, 13340287965013088882, 8564398423701003173, 9583162138948646428, 13330750889818409725,
  8534476712475723010, 6809164084789356820, 14077366088856680467, 1821104281077268277, 15775957920456961781, 577004911561042953, 237514699227269181, 4944168762847519025,
  16024847593164179425, 2743121616203125255, 12543041857216807233, 7057041607609804348, 9158802330404874222, 12843295451778073128, 8662743552629053583, 4853932170891993385,
  5993737819191134814, 3042999549876911127, 4307117609682550467, 13773831422067895415, 15735548492761377215, 5965788497380586615, 8851432096171763572, 1237303106015690948,
  17375092649652061391, 877669718385801765, 4085777712777798613, 2698172333976416491, 6584201724530755864, 12850569508509246270, 6172941415242096217, 6719283106121601094,
  7794841677336464094, 18095246885087636218, 14316565400152580673, 9296347178847665698, 15267664911811853747, 8584998754381245221, 9239313996327475027, 17481747151222172729,
  10740056216413318061, 6517621428343465107, 3871830809971863703, 4322668274070869277, 5673097284876992513, 16365347972911764958, 1663827126393817571, 2473192603184449918,
  1082741025698110819, 15609765803423692746, 5380977898627664845, 9397816373693270162, 4964370657725609915, 7190190618534415047, 11010783207656124244, 2108560684429507500,
  4560835233253082408, 5313356476394001511, 13700862099435267855, 5584549705882636092, 12294543901888568590, 11370979650092510241, 17293924142607597223, 13856781707144488643,
  17614698441967523794, 13362569965394940219, 16027470465955826955, 2426283007581555052, 6180654989627391595, 554441997921952477, 101384577440233678, 12603554680542345667,
  13672966327962665951, 17408591054368319438, 11926920961534578181, 13801701821739749379, 3473780674713038115, 18159153014749473883, 16853764878607771892, 13734042780760201160,
  3045353402908522834, 16916057156022916131, 12587396948866202659, 15314712183698633430, 10740561118705422810, 3583283859013722274, 4579666106399508996, 10094361809674103430,
  8692154510008011490, 2090093435515902633, 13318593666081374689, 4426150796908107921, 16824810914059990728, 11301859781439697410, 17661765867034613735, 16956650417962391689,
  11074645215865899326, 10811932929249232336, 10817947061187069229, 3862317782650900254, 7765696173991372983, 12552347306399229295, 794015910475861407, 13886389743390708924,
  12657126679990567809, 13856165128284343028, 15523597382631253323, 9897254190972196500, 11719111402341694309, 12383924253469248926, 14783780062034244371, 5920504776497407942,
  10023807312121253568, 11128195175242656846, 921999906900807149, 4634962736590285833, 10888507319649098865, 8054014710345849927, 15580655176791451753, 17348835059797204862,
  14858459814477982458, 9811429145939623937, 17810009322765957048, 10256372470514236936, 5927781093590271038, 13473830466482001763, 14596238817489383842, 7453980885781880720,
  2304694247054486254, 17919367871352819054, 16708688227593830581, 847313246087855079, 14875420101162912926, 5281344292762096659, 11633217349017387955, 4076854235131093685,
  15700611871537096845, 962442186326312739, 15907315814209567012, 9457146504567683875, 1889661581134674337, 13888502888592310915, 11800568138333390284, 9679032291537846544,
  3416719476190501245, 17221883316488789531, 4417426076695497156, 10877406796722381641, 9746998133911819679, 1352222446678007786, 14926392207560602415, 6029355652033133403,
  9878917292582981971, 14011269697479077963, 12646103833757601293, 4677236925534401236, 17055778089504501187, 5339874475799936778, 7202191399290623437, 17378142858604152853,
  476674742604257378, 3197527557198404496, 5383084162330145464, 1503923463211390299, 4942235951209886474, 9964074866256553994, 17691771494140750358, 5008455773059284003,
  8197008947751348087, 13434213053864405455, 9253047167622243660, 12274033540473524200, 6406053950068044263, 4661760589646236902, 5179664297762123433, 6903718954798428417,
  6144948571250368761, 14143525125928542232, 2549520522180732096, 5930660359579758283, 5925857443660833334, 3263847118170272599, 691890469306801025, 3227852426435706550,
  947809226010161474, 11108242198747112608, 4426166215256823154, 14113306540905973311, 9803796909530880203, 8832707820589935534, 294714000141205502, 14391227249762337932]

/-- Entries 2048 to 2303. -/
def roots8 : List Nat := [
  5975861664659593359, 4987807985085868432, 6746859997089332246, 12208212372316887399, 10746813579610149627, 9068981161792701167, 9373148032678241021, 8168473553887182761,
  3126075378912941215, 12608479231795242356, 10370350914147199077, 17970762266346074807, 2548695549979211614, 3912616192434734455, 10245907516758763412, 10215497443455950844,
  11277308530366542171, 7851974699545428258, 15292567229925351859, 259272683690055531, 5275676003427671639, 11566587291652093140, 8736087897619442660, 11539380727487999048,
  6816911467293330850, 11672552299694022659, 3798713722640471370, 2085863300825177575, 9194540339019611852, 3196076412409186879, 2677873385101972238, 1058748678304528677,
  7945491038740325737, 8842435286380024725, 14991662161461166915, 15949813729683694038, 8613738676606971207, 5770701918084515007, 9085790996750952087, 15326629136988505802,
  16089577099444636347, 9543282307655495253, 909320153201344411, 17312178300228336504, 12803561304023210458, 14555723275289534959, 3359941343776060817, 6463235901120884343,
  5546771544625360489, 16239317307526935438, 10496900769776846897, 18154794667469861704, 18051257631138150947, 2331134869023265547, 11252122863846743870, 1666643586986727547,
  17001677080787831412, 4477176084357887094, 17350241491494515041, 11157763372791874036, 11875654184489519270, 16173005319375430501, 11438481628782530218, 8225115859749703776,
  12880449683638213368, 8200765037505054922, 9808638257419126539, 13363985493503903065, 15639707154107619305, 3369547081760317114, 16607249424143756948, 17529595766482569776,
  13273025458571633509, 4212397074971392216, 1868964246346328281, 4905793216529300970, 11581709589144418357, 8230682482647507256, 4450617194001428003, 7703015731895353823,
  7110149255341546005, 16484439890390494408, 11522329980031571286, 12452936984502857143, 9979024600429758809, 10126978110269040072, 3237092906085380892, 16176677459260562462,
  9476624108327159076, 1441907175350354844, 6030963872275626282, 15012728742887632807, 16254120369704976322, 6002728246296516884, 4263251043604720596, 12107233027594406432,
  12584852962862026160, 12071911364912680986, 16104139619758680532, 12873174065842865611, 14052455557349902467, 1965116616436012203, 2617721283550207842, 2036508764179850297,
  5189200838203932969, 16328969732864599759, 16691964768904552267, 4061580506057501672, 8636013681339658793, 10321852211095283399, 6963364172596703728, 12520799515538104938,
  12326473107553814780, 14530027408790654340, 11703096528881865001, 2345037581151342136, 5272875572497516861, 2579016887232393144, 18312895169202016898, 9734338231815834963,
  15886734568766611700, 592585289659209595, 10558669832428419097, 645375039677347781, 5139333601452672133, 16584205309026635470, 4436722887285900379, 4173119889913847694,
  16079962001564358000, 6291741763132836061, 387750219957888942, 12874929423656686297, 3813833922013666649, 12199904549494215180, 6226817891395506839, 13708968304617882557,
  2596059718152109598, 1903832310926429046, 17928473295774737214, 12030958012016719783, 13329107689059187965, 15689718611776262118, 11351101605604072186, 5891442698973314280,
  7866686994031312113, 12291640250843584911, 13011424973862912469, 17909206197505112384, 5486768730426483086, 18416308993921711794, 5741391086302599036, 9467791522484643844,
  14391270447403556708, 6200528145871883355, 1730410442614438990, 15441443095962768964, 8216679977990511322, 7601599882473099568, 15634593783521723902, 3039158730532773020,
  3775427008907263898, 10508632679221540554, 174110746365119893, 6226915133785504284, 5973204183594369012, 7055576984859878845, 18379530006157785164, 8004780332950447628,
  13867006218611219458, 7171050271048683026, 15671822769177614886, 3770491957842756744, 8572011602999258943, 9039246038905137434, 11106833782507811422, 7435575543752604949,
  17211276915975622847, 4617398545218428399, 3148462213289289346, 2733478014451211729, 16009382231703651529, 6508505951826652348, 3621314866781170591, 18305238338382559849,
  5833381734025895328, 5879692225190957550, 7262370316115486641, 13818618135807210392, 7211747103381800212, 18410086923403742591, 6755284469289195259, 515451030601263311,
  4007065050523906782, 7527409369728134809, 3957860532619887553, 16042227687118745420, 5270372296641351169, 6859116342548727018, 3490811003236833994, 32571888986966394,
  3780802097025352699, 8787898199044593497, 26386934236277065, 1904447618440096038, 9939467824637437637, 1525918907857486763, 15421557279277630509, 16006881465975139484,
  10452134737238945329, 12678674759628846887, 9284669834255334294, 92991479263490168, 8116890139618167718, 18005687606887865354, 16725681775613281189, 1717169927098277516,
  8662356870637771446, 13351642599881726891, 13083265794184281842, 13912812267293738757, 10808116816847853589, 3272031464913393504, 10986283208111438929, 3243209426048695966,
  6528498199843140607, 1271412581567120757, 5403993839221546662, 6281555699920116103, 15359802638598271759, 18065023689437613349, 10815934753557213232, 17591960283273545052,
  12285857611034793405, 2134120865149569832, 9094639678771057653, 7029315674870349395, 13957459106932156520, 11561619500372123484, 11341405744669885261, 14954915520703784311,
  14368815956709621732, 7729149391134835534, 3293612607274198847, 14643559071846404534, 8185241454227308176, 7745645063363297059, 11454540396461304692, 5313875431057749129,
  12256450098019670141, 1192166592497038830, 4814880863531916720, 15926079898712456870, 8792521898591279643, 6491511687468759481, 13297947949752762667, 13213494014081624851]

/-- Entries 2304 to 2559. -/
def roots9 : List Nat := [
  14633392849620271953, 980078113116583288, 2591944516304486039, 10769535249149442944, 12426954027255319121, 11126216155475767588, 15179688219142832045, 86908691107468549,
  11874969261434082971, 5346527417870342715, 12252183341461134181, 16799797667645109296, 6454338072583816329, 10520543596599773303, 12023929288412691992, 12272964539729616323,
  10542316479678828344, 12286686331695214056, 4592279152867194165, 81261515130877413, 705719262961818936, 2497080965793664763, 18396046940790967038, 8549639199676354953,
  11896360951426005509, 5144513458459567157, 17946220842512619213, 13169150085407823955, 9972133787498086174, 4269172469572543414, 3018013430221995992, 13958449632602121368,
  25470683223850960, 14744733242942710911, 3146474081985875785, 9386226897945989479, 2364329617893479012, 8740847651075112295, 15407955105197242558, 8609170810122453028,
  1090311345473611558, 6930905443791569267, 13817915990226039621, 810529396088449605, 9792174935364415216, 12350770693675915904, 13299116020715977145, 5528402756139298789,
  2365607616048835091, 18129920764145694883, 6713017149130138249, 13950717116782052328, 6824019873747729921, 2043463164106147514, 3530019875178266982, 4806169608103968617,
  1691148092685728929, 10194318818752267699, 9571345811809905408, 547003406849470782, 2596682720999996593, 1490696384323368683, 9442827808071239840, 4772624284689647256,
  16139405198843745009, 2834854421535423476, 1004060856644285168, 8395189121667486007, 2810732226419215873, 15532044543596985817, 16466863950319623182, 6359777394864875288,
  7553903726307979644, 11616643378869124168, 1088676120728712229, 4726765229416842153, 7864188759734995281, 4085081953947856459, 9419108304006740464, 2461699899894499511,
  12250299485883234435, 3952088207447719094, 4310658034717098109, 18313113927103079429, 8374349537933626075, 7968330693515103369, 13244171414945143405, 11823450706766809480,
  1171122598518004311, 274293987856709900, 18371140602887745221, 3429090783664046473, 1292479889747776143, 18018570702345213054, 8830161349755176237, 17581860550337528289,
  6854288075935668645, 3557152818053897856, 6493010704845615608, 14976068632242748031, 14835607963172971877, 7535266760840261550, 8018876622848789678, 10225055288227277748,
  4971484449223394307, 10980572792748614816, 14799705441610439865, 4487915562244416868, 9531236040121384199, 15909233539707375431, 12307925426286372593, 3292860408107598149,
  11382940807354051472, 4882007788554412147, 10961227317654222513, 16275666995777489402, 16325068142392685965, 8639385363370312239, 3122680451887676762, 11256637347342423634,
  6685028524120458785, 698748456937282961, 13909286026349741382, 7514991579342488508, 10599708633064932952, 5267695530371056017, 9466758365126331924, 13688882148469067889,
  3273599723521005850, 6319487113725241269, 770750178500077720, 9699417470041766921, 14939115943863800058, 2280351000174398067, 2374856251141410566, 12325189923971021829,
  3393206467967398878, 1827040891858320437, 18444786854411249994, 16018247092455580125, 5755646823690100436, 4287646659793391303, 13345535025941805583, 15266171274002984273,
  9414931159396491127, 18299844450591466111, 16368419412409760673, 6271164187496134996, 13812963297305231489, 8740678720452137413, 15391638229814931694, 4120741092779029948,
  7859803421443980200, 3045208593224814383, 11158760542875554170, 5479733125462082050, 12578448706708601050, 14677256205129753757, 11000398828294952430, 3459676955502417018,
  4227283525347697986, 4750209404197475777, 5052192974450292435, 3212467455858710284, 1243760232569723364, 7279508956537869345, 6669322944713882034, 4773951561236700671,
  2819901488256643548, 526904151017992265, 14035549982407754090, 7573997000064653917, 174463774642863584, 3680913107853638766, 10527834871525194605, 4886589184591902401,
  4043046959583619213, 12622118782689292947, 2463491128542642475, 16756972215236610255, 696264197735884974, 14157525998019584, 14581824947110639672, 8962700562371886291,
  17689944326909887060, 12383045173421264245, 11664528006674062678, 6871844285117658303, 17589746472887384720, 9877625929479822215, 5591311887030442537, 15527560164295669871,
  17947543104205156517, 14621536709821196121, 18197597927388380856, 5068873498480827682, 17456351048808074969, 17641918549697678517, 12607312489866119873, 11073667377683753798,
  7780160202373407754, 617352446631949664, 16482143066988229388, 14915780020187376189, 15176732780286996955, 6775174973586541090, 18094539458802307265, 14397229038281442661,
  11713808485684727785, 10201294026672908260, 7102467533662861475, 1022866873451179418, 8410830305219837543, 13357442627367044331, 1835162347781239996, 14906488944227739762,
  18000900981538289269, 3380903775417373277, 1125474101885685865, 11813651868167084102, 14425425629697583440, 8927360499183353071, 9914700727733518898, 1222656862489843810,
  18177115503431111272, 6811466308820193833, 4333458587269580548, 18011696033504018154, 3427174471417138479, 17092160890092722466, 2241131305709586322, 18040257860403919166,
  756291481120866031, 3767539283316324521, 12119651883878106075, 341142414233607314, 6440490201183969520, 3226376169639343205, 3582822573308410738, 7014684388644832201,
  15767755426847759798, 8957645195987807893, 6193870581815365199, 8097671184377279585, 9596957103099413465, 13419743830766547109, 8781656908659921444, 5212209551077859076,
  3875961960581205184, 3290767057349787627, 2272526706162334369, 7553790464210511702, 16464044309052523746, 16025640384737726453, 10946500737644910108, 12738575970124291703]

/-- Entries 2560 to 2815. -/
def roots10 : List Nat := [
  8519125361709329762, 6101327890080883297, 16346362043656002205, 1131733684999567472, 4178328790741449237, 7290826381726680468, 17865246975562157309, 9739163302384270687,
  11347829750934322806, 15515445744143001682, 15128519230880041944, 1212445502021779577, 1557784375674845829, 9022485237822969906, 5390882041692612493, 6252964720239395920,
  2910485148103254897, 2414815366585357379, 7918213425881995037, 17708816913275117770, 5125306446820012484, 12302361834745501319, 9141240675678465314, 2153464559762199428,
  14672877431850082138, 1832941188094164556, 2224145157037893715, 12559441804810089730, 7722635255970566683, 16313969554409330834, 1974368264972009467, 897309789593603754,
  16656075377163919079, 11635901980159863276, 6685679688091115933, 8937014036599237231, 15951026423428436078, 9920046581470437641, 6547108704256554176, 6399999492901536632,
  579662415096358806, 16276789332643314072, 9823472086986502098, 3953620500131563861, 12761432664885052547, 14293489045109659323, 11834331274692196800, 7369222677545928567,
  13774251070503550842, 2131223941785856909, 7523934066304954398, 11134957059873856653, 13757462117549802945, 13424653480717170595, 15299728925588514883, 16742743338934806023,
  10362804458925455953, 7078727874284914134, 15765982192637102932, 13522473526085048183, 11706757598846036091, 12547398082024315106, 7653347940165708659, 16304629083230421353,
  9351889807094114603, 4852613488120937596, 17541534857043085555, 3246948481721641855, 2312265446305469245, 11864834724992195572, 2746552886821784787, 14939771022562005924,
  12631997371296687948, 4683414325906841405, 12889276711911262994, 491258591799793977, 4947077340196444444, 2882648183587725808, 13054150153661765595, 7638434838139056835,
  4921129898798010234, 6624871624631229209, 15991475384534849366, 5240905986690545851, 6069724565566975218, 17502021736183244994, 3145581823964218633, 9462404865690504296,
  16003062410102361113, 6535178635365546433, 11193375010088515248, 12458000273058320453, 10044164768528937487, 13111508167718199568, 6679962109131365909, 13469387545261306292,
  13621663879235982335, 1232178857091957524, 6285863973855957954, 13316136254024717316, 16715370684583004972, 9936386251537744219, 1399764832467774555, 17366640789839377429,
  13240604400833688851, 11319572380805059713, 17105630460065126501, 10604424603141812886, 14846091611864178282, 3298177196304075971, 2438280368968009460, 8856844994411838105,
  1705139065808363436, 13971092599241596039, 5806508480397701043, 5517160953571623239, 14140652226833679857, 15999552855820647477, 12950252663304328348, 7776769099825177721,
  3412984173012794036, 13064401127408087407, 11829428328518542254, 15947411897817003311, 12587465584214848689, 2544872042961884366, 3510432977315868694, 5030321437155725035,
  11217950763218122458, 10024645330913934848, 8592478337331714041, 18140434274856845158, 15360584736158366191, 5743233505354608079, 1961992654778032080, 12037296369124618191,
  9938281134813128443, 4796700338184034262, 12827594057493859630, 8510720969179728104, 15079641212548938188, 11875839563950630813, 4691689362180746949, 1043528090952408546,
  14011022643011529392, 17127567184098059620, 14721735434114599559, 14200679764237389411, 16777438397791389459, 1461025814220830897, 4966169889852170673, 2785673427878774211,
  16735201293547731333, 14406954684744187387, 13843464433430395799, 5553035125268781825, 7308380174717304049, 6290792738813867554, 7990446869879886799, 3876096454047398655,
  12712983974894671831, 15154698294508684757, 9507470035304623575, 1022596393918563836, 15601346500471187843, 17972657372630043465, 502397622599205351, 381350795379299879,
  8570242607985754033, 11064863385110577038, 14956666270621705359, 18041280782465024853, 2555701012006921927, 17428119227572507652, 18104427798043795504, 5220854585959393511,
  5521777197813120592, 12768700328525373705, 900534090004246906, 12541755444237409698, 6436524109266903860, 8896924040124642834, 6349465010644619264, 15786501303706677320,
  14265221476899234381, 3088113588334672914, 11925373859182264453, 8284020034254512080, 18177952812312256180, 14069270160783009489, 9274635681513083014, 15325301292082180983,
  12056657032093531960, 3129521911644072821, 13025452310592597102, 2653763618489299364, 2840959531752979175, 4528405468110182296, 15107042622600360770, 3889348283751448953,
  2008740419594632122, 6543775446967913285, 3422553075446871437, 13201305482966112489, 5749656069343107253, 8212610745220779728, 13634320892013178847, 12521391132193655405,
  10628968492641409943, 3818734298802330015, 1519303982063125424, 10711310227472843209, 17911093926061752363, 6057021228204905887, 2846879983157907622, 9869061439009594941,
  1965551190141648196, 17660233932926552819, 11003120815017713306, 17980909906249883445, 8567375382637051930, 4022974567879670672, 10321175739511249120, 14994105498650766046,
  9714141991679863058, 13513836380560215257, 12651434678632924591, 3830071204680394364, 9337866284183263779, 1462504242806297738, 13937697230741303028, 14642282961328522889,
  12230608583177963121, 1408418309464878619, 16040034657773070744, 5117660214357925070, 4585203907573003172, 2249539397929169712, 4098524474748438371, 15594969119273769697,
  2303214284865671954, 2143905754774535054, 4599203434416021636, 11226122881427744929, 1611992929233224736, 18306309250229093617, 11585051734119006323, 16132032798547195625,
  4980848480920125037, 2185133925178379579, 11394541357747018801, 9633175153898203661, 5105895935098393774, 13915002098198462112, 15449043503218271893, 4408910923486021902]

/-- Entries 2816 to 3071. -/
def roots11 : List Nat := [
  6401408063613576743, 13798046063311481226, 5611734233061689267, 15565406262070692945, 2694286372111720161, 7429056990962834205, 320214508177962967, 8170280625041337832,
  15409507716555427772, 1418255241557265446, 10429383098161582441, 15622080669432081377, 14037406473005695924, 12051699786476755260, 10281080416358354059, 13377570707340682628,
  7980978658206965590, 10584770009623742227, 14373916607058171031, 15990207097242581753, 17483157344474343349, 5812456760104316079, 1968090196444971932, 14121391307919836312,
  6001154537252237013, 15870776626358626953, 5010334727479969593, 6083532339471829310, 17877140706028431422, 11944573247055718100, 10872755383820322918, 6369674223901085659,
  8395136799669107910, 16604632024867102550, 5343683163284967452, 7904203311131426398, 4100692729882143145, 12473823867577622744, 2375129675593326194, 13484281765123812270,
  9037593423229024541, 7022301226652481941, 18392034443310809520, 9957532748702494892, 9383833546454081340, 1248314533405151793, 10890993565880057038, 17262615543527653254,
  11473929761753430684, 4418680550052705318, 13550542729574654252, 13958580762231353118, 10400151805729586080, 7975287847949067613, 3243150432411668672, 4393012011559356141,
  3156348546381370842, 9823071571858727131, 7903667010347363822, 9332687141655059908, 5327263576159588797, 17525522092964641437, 7671295646836321109, 16907761308272231618,
  15298742445111583682, 8057358121634275007, 8066045450513693331, 12762383522934846084, 10650158211643702477, 2258590452885597676, 4452746542798383590, 13465199640310348110,
  12703877377913180171, 4827284029860714806, 11346367819317609275, 10003209213982128258, 4602867392769811838, 6260252488069526190, 9425210177924113101, 17638383584782795709,
  17245207496922943339, 8208929459635231661, 2024597108677669098, 5264379222604305244, 18409682203977858657, 4658334627099034120, 9850053742547905946, 8167047360008328874,
  940225070049885372, 4111677157739748632, 6713468916686330499, 392741428151507806, 12500492500731264549, 4831516792191853734, 14484911499533199855, 15012611103712579683,
  17529615218320536709, 9081064372575551838, 12573246771082328721, 16982534026783461410, 12658358496396541992, 13348820937453758831, 1361336128115287044, 10318596083915371734,
  5427274703496686176, 6937533600466666538, 17032531681388361876, 15788534308264708638, 334047042361004533, 3961071899059639548, 16280649707529173841, 7611094284941463508,
  12808970548909927482, 15762160566070662965, 5839353700126034409, 4257114054579865766, 5685977962465872110, 4688453593487241066, 4495001203192191391, 14716369428602381467,
  15992469007862768047, 10558918605919310333, 10639861820573834882, 3802789082744152544, 4051549449242236764, 15567003463600302276, 13493015987611551104, 11835250190442707302,
  7462193590540300677, 10099142018169317586, 484486889786741178, 12972005179842179939, 16217778464276429562, 238268603915260249, 17429067889646674652, 214668359477242710,
  13171968091611691679, 1487116506221603123, 5508897121922282807, 14316773328854323518, 370182134871637536, 5547413254960331588, 2888333277735224298, 15904184198226236274,
  14087678661270478562, 9242858947786559369, 17435440544575833325, 18249209090827816142, 7846229303224268132, 1978132313309291041, 9696471985588034302, 7669967818724867072,
  11244169764208443700, 3093943222978573008, 14621491321984756518, 11927626833176277532, 4865566035522125891, 1609664482343710892, 333874063667141276, 8330039865762121270,
  3399104858782216893, 11441916786894639216, 17614538083132235534, 14281867143284297853, 6529000730302111237, 10105959277755611708, 2402385673666119910, 10161569029474488816,
  13575140829459307546, 15689422445184926258, 3065548146320727008, 15855995757478657491, 6946902743669687755, 982166424502780044, 1034556233453153984, 8502815790571240651,
  18168426089963213465, 5072293344522929560, 283633258681515609, 9528631767194246259, 15130128812890208535, 8390789137559846061, 441230287857285608, 14289516049513045407,
  7548160905076992356, 2425421452637644528, 1670058555251152330, 3303465498503049734, 11342165734662908552, 12664802612295722335, 18257042214112241349, 1231419743212511656,
  4146164237053514037, 5618955180207968625, 17095735719985296470, 15068474539399616421, 891657701184029950, 6018174807402278810, 17020593258884470301, 17396107551843833221,
  10086977709859948219, 2938081507826657276, 10676995854142041902, 16639251050588392856, 592002680744004340, 3563291224103326713, 7847527890248996807, 4958020292137573754,
  15532096969817648023, 4772703880068875225, 11199676427977249824, 11048004735212944565, 12557977793352938545, 18327400890774281114, 16454557804166237410, 3833178242345143101,
  8312840523708182628, 6755729583162982493, 16566635950788202675, 880620194717129508, 4556355735122146095, 12433983236509025728, 17673868770680277549, 17486873346065187778,
  8993298429661583093, 1814296427171530401, 12829753261979196790, 943664302422605908, 13105697906109675157, 15147041756352501205, 15719122705799436659, 7064128608860931528,
  17246674486834647950, 1276338479669860416, 15300996164387234954, 4345702432411750040, 12568733840550978171, 12659693868295681748, 12409758305023933505, 13955229885541137776,
  16756660745409303744, 8660426919773784550, 2592361276756655501, 716339999397668525, 13573165891139357672, 3694236665120440366, 8682465905722660602, 9233790673126995541,
  2742565094495329508, 1370856695171649978, 11116195760220531912, 615358134167606349, 5648433735251037063, 1301027957514181248, 11942440212989138055, 13183468514687543942]

/-- Entries 3072 to 3327. -/
def roots12 : List Nat := [
  2634749845301076359, 15293747604264292670, 18372619049152610094, 12429382602209011061, 7086029201447925960, 17482478406325137649, 2330858383350059444, 16680109960092424250,
  3081851691838711988, 5762709387078564181, 17425828107194964635, 10886390524728008035, 6935429572808703404, 10337960080172577181, 3641452864990559639, 13026730467308357904,
  14503757368385521264, 214766145745613037, 14571121797651093017, 2782770788379273322, 9797534022133824622, 7284292623111555901, 2502474307986983043, 6900037709706712492,
  302125870609264151, 1694555488012475242, 5989605205053124389, 12614981869844136642, 1250549682046023641, 10970929852170902825, 4739587324324389989, 3602233643280184407,
  13440610269377345949, 2738595160266530167, 4259438642272969646, 8617381243871175985, 10047607299822962786, 4156074411951281928, 3102701603485148289, 10499706641780060008,
  3472803006719104931, 647387087815295264, 7737193804930611662, 16163845950922618895, 11738977360420913955, 14156771060515991896, 17961629787251110455, 10793897980443905928,
  15046970977893584016, 2239677754725231315, 18013068041694578921, 1927573562334558982, 14905408990149244571, 7627734589838897427, 5350957374455181298, 17561202178348364883,
  13106796889603832094, 454295566352360481, 1346332184276938072, 16107558457115897385, 6064666443278934292, 10833827455231590791, 7541739349662290376, 18370164510066454551,
  11792152996134097441, 387278544920221149, 3482633370728166677, 16031851851673870378, 17064316274659623278, 17530347493554957434, 13240744033598399194, 2663022004195307919,
  2642727693187756413, 981443689198388119, 5169691339897192796, 4477901175919295886, 13146617626936175277, 11488675218430648611, 14038641143559631007, 10914031633235383021,
  9847315630910204790, 17588463037035978587, 12911469231155633163, 6317138120652110150, 12645915322607010027, 11603738162498805355, 1516870249305717534, 1649354792483014798,
  299134044719071946, 16275876848844947576, 1435443469026282237, 6019256483989495203, 5297763329475527024, 11492853418870080703, 12023331633696876447, 1549971725855921276,
  5948987693898659959, 7032058263314821292, 6439112048534310998, 15412372004800482310, 9145871304375471448, 18123368365402048785, 2703435121513614780, 18327840702653888553,
  1834455685144615328, 11677500968379656087, 11376991594982048187, 10900746322374044271, 6702461843191593639, 15485713566921974385, 4905486304661638878, 18217660644751481952,
  17810900688453811629, 4900012741703101373, 5272083620371705938, 2317617048052130580, 2019716874675794117, 1913765917917483298, 13156392101923572749, 7614505977967579576,
  2097129070062590712, 7743198219611533227, 613409060550905126, 10667547549222999393, 11012531080565261825, 5149785802399928656, 9159088511112227254, 17746644343717845487,
  1274700946449245369, 14340773002062057913, 14347403329649781450, 9703511361966728477, 1036533728184256798, 11302060019964359666, 8350024167719253015, 8690764959940001736,
  13964045254532232458, 7533561036348516128, 16708975725938760003, 15301980892242152804, 12460166195412579598, 13990415978370701233, 18144750145232616909, 10102985376131414909,
  4938802686661904720, 11640247408269131819, 3463743890235812851, 8259221919186538736, 5847209947534883299, 2960769138185146526, 16232581286568793414, 7657383788259433615,
  11772021101729953563, 7343200271059542710, 3644502624858626108, 17675063013812766474, 17356356232039194601, 9845458977896144878, 7173862432297477519, 935098956045679838,
  6358620563765277727, 13682740548756949751, 17304284514496793055, 3630706505416756989, 15728596706736347269, 4828659778031003414, 7555473696964190320, 10359334212927536207,
  1043926140710473873, 5228563512660220070, 6615691247266583162, 5005321382220891169, 16825577099495175477, 12777072175637722077, 13341018499037066095, 1401539439882718425,
  12522448523593440745, 463258248291513317, 18160964956138459114, 12253509951376970040, 5031565655704595633, 5868181633259914687, 10287212755870672651, 3915703613487106487,
  18129297113588359456, 13585173876340531592, 3189447294248131755, 15645223019376677845, 610508410363586809, 9504005388456616482, 5725416924302422960, 12973437044952232254,
  865780781780660735, 11144004429768803802, 16523237810871234202, 224976387076391657, 12078658763253009940, 17937595614162882396, 1228211504371991008, 14923395819481847320,
  5582459080411709212, 9664399668998465372, 6417991706773758935, 7063129578040502129, 17605584902630795795, 8918139460646855510, 5739310126501553757, 8053090112860195471,
  10583695335829116900, 2733602003263946620, 14628963457997515323, 3166699365776976064, 16405202976136356422, 2606921940141005563, 2064314426381606474, 14652410748915447278,
  7452749310227031044, 1871638878683779599, 283463646129768402, 9969042454520327093, 6877340938894463593, 14732970404113968382, 4601641510489039713, 3612135700946175944,
  11021335131972584733, 9702186794730380313, 16610717051755404625, 11004643243537967534, 4695613091177115154, 18061728235659435976, 16534616536500348617, 4437986011012399938,
  994595570898276142, 545591596270396792, 12141629355954818653, 14862993424813335353, 5345847505241469908, 8433196367587209074, 1556785870228320157, 18283722925269301929,
  9660687514649427853, 12987956227335211755, 904113776047168791, 2751520495621032828, 1655133697913478787, 13583768875564251545, 17105131629523262916, 21894134628151263,
  2523666586150237966, 17765537163037479260, 14555698501818253512, 12238445183449221285, 12874050798577613900, 18365026846453118329, 6310817154262128286, 415530704298052859]

/-- Entries 3328 to 3583. -/
def roots13 : List Nat := [
  17303445411021855243, 16848386642174869048, 14599356301694513201, 9516116939290656971, 3391422033101891438, 8201051770610753469, 11255777757494137559, 16871167992053531733,
  5973486475195796020, 7405522626619719613, 10498095469736463235, 11551065600918717814, 8629724859337515832, 3165475303785482327, 13425178289338961109, 10936986222365419904,
  13426354927706207171, 1515584986621727193, 15723883622484559157, 14644426348834871513, 3224538880032139609, 6413576604396661989, 13532748325510040376, 15895084729104295176,
  1424671378599432068, 12030802186926621110, 13509038704508503496, 11933394623561564765, 9371101247247583196, 5441110991447458180, 9964534673865921590, 1130446179922651623,
  17468600570882453822, 14485230759781434378, 6740318279660973657, 12141257506255630895, 4562043255214346785, 5547009190581380584, 4762323819661005727, 9680454769371427353,
  5674576194804069752, 17086713944537861474, 5778436886214757541, 11575397581035432649, 2464635255075256865, 6211966352599172008, 17576595164269742430, 7019357654300681872,
  15083818776660457113, 7774780427452909329, 1233302677855421198, 11062369836787796930, 3641549586072676355, 13711924787631072598, 8192717915037779691, 6621102861227060940,
  12156656835881636321, 1416354967926995656, 12487885165163903654, 3794064310212125652, 1143136732034861811, 2438111203814378607, 7711924544876322259, 15045240852258887078,
  10761457156311011380, 17546840786166447510, 9703391539162321171, 557931829244840707, 5215293219190723796, 17872946623831688359, 15034060317091304298, 16078177469481914411,
  13594754339209154375, 3661248665858881172, 9543585868624673596, 12553880250607482782, 11821924696639645443, 6952545663096981975, 16513202743001101433, 8748919628074434237,
  9432681858601658543, 13048862397865445890, 14949282323221040656, 3124841897131038782, 1083298682809412482, 5208168197597455626, 5037599316650634705, 3075958751328269875,
  12000998117465644004, 5549514533429324104, 6277996624590966825, 2210273712664541113, 17031940205000802747, 15146330460547432766, 1029040227369960539, 13344630547645238421,
  5268024473618008069, 13951482659159431928, 9917181469740677385, 5004430875161121529, 14352848627720975321, 18120168292981617045, 237935773831962817, 7453397406104893106,
  6710429009112230101, 9225243582709835144, 16640508232940728154, 2554324256243229965, 12236502479230747854, 13991329800380826003, 3034906147503985711, 6023020238455467106,
  1707839926459065931, 9263471407353597017, 15236622108910395564, 4459038436063173515, 8055016978085899766, 4628801074446307395, 5509343804001187500, 9701556244553037959,
  3503912995622591904, 13564705650688654321, 2907005845906301544, 4468230460573656882, 16686916718178892830, 14743064567377583419, 14424605304735634990, 63481773285959523,
  12118040219862087381, 9559591156209093260, 6497268814352623096, 10479610619027731664, 11047361764476476521, 15741873652669851287, 1435520209988875618, 1529946467022288540,
  4471856193541908936, 5303909991995915497, 18315130939556583979, 142292958870411926, 8734419772514752519, 12993322389773917392, 6008193668011523790, 17556533242466051577,
  763392520392987646, 5004228088747424053, 13925745204669920540, 6802252571277731101, 16411527426975339349, 11457908228898090468, 4685557361808668364, 14334734520368047549,
  5493982485681877407, 13754693043881568724, 7209671641473336494, 4020124076260756014, 17482519653573843675, 9801621059376598586, 17194944847809643900, 3616361522922027854,
  13058260812200469746, 11351824455982638998, 12782348627106904517, 6325139413547313085, 5102809667825007481, 13930954728463631766, 15385862462600803362, 9565996999037596405,
  7559576954105954571, 1471824956020224527, 9593979221243102752, 2837632556622951823, 9949010749789155976, 3801840894233354187, 3665510048193847928, 4975797322393910250,
  5567813315772745531, 13895937426997471621, 15761803993902656435, 9095904496174034447, 16321398295950364646, 539012580655202383, 13398032569035880234, 14945592199683696322,
  6407066986606056828, 6016197257205758714, 15770546383751255765, 7862295582515976357, 13641648420654475957, 15747385900600487706, 5442566520616074981, 7392245119099183466,
  4317168607476088143, 14169871724657786738, 14820809682130531002, 4197796726110621530, 14346144121063642359, 1824038070365157159, 994507692655632627, 6971711849815376975,
  6718407548830728071, 8985919959657885772, 16118283596269569345, 5178341706200406554, 4980557784687903482, 4053877618278319945, 15825561107571280124, 10691984723101048521,
  16633108072026150009, 9859341752410437357, 5321721202470175026, 79001970507295066, 3857143767479750324, 18238318045540607939, 1308122964965706255, 16024770532094743626,
  9973135953876888892, 1823453445138721592, 601796705843584340, 6678687289003945807, 14338344795546120049, 2104431827844274071, 9306899824061263826, 2503036883136272654,
  6317379597078026429, 3727713333327841979, 14802669817287034467, 8493608946086354735, 10568300932970194015, 8263215724634854274, 3769857178443010067, 14537423179843827842,
  3524647154022149553, 5506402179152850973, 554868233865247937, 15753640109576601343, 8945207616489652591, 11470197494046638793, 13841290090912634276, 6669441915493467681,
  12731836782790731253, 2274943950041647599, 12285917222364110309, 7094056394419353856, 13827764937004430194, 4580875781842501930, 15291009832420119926, 13640089910601315286,
  5865903996053983735, 6526892581906234072, 9824345402792886747, 15262178341441418395, 595048934275520334, 1207053460986652737, 16827515621070827327, 9122356752990522819]

/-- Entries 3584 to 3839. -/
def roots14 : List Nat := [
  5082640252753382093, 15192646345649880857, 9049775462136013935, 17958340224495991074, 7521223719637310870, 1598202755043388026, 10603854459704626213, 2384822780111871244,
  13087401668874883369, 16395763326463862995, 16320712570012184403, 8525313149938699092, 12928946461496387904, 12260445600150159017, 12233665619605179212, 13359197006041100937,
  13788139072451700544, 2765169883208491036, 17796067448513286707, 10302302074154286829, 5758440022599133871, 838689601281254062, 9104249605611321117, 3111104617296306985,
  186756289383882698, 4367962233054036798, 14811363133000126588, 15871249011244735036, 16364513200778540162, 7592992944798080675, 6931853212122926660, 427721344215306660,
  17721611072413125997, 3823118752183110097, 5811203994777414556, 9955017291623805899, 9233301711713820772, 17462741668031649317, 2528255553593058686, 17756470286882202609,
  12577513807202879249, 17153423425205733558, 12264039539042991602, 15196183867219188271, 12720472156257532081, 17463368664362913134, 10697475850680900652, 10218506444998262047,
  1503521894189148087, 16131621238297138650, 6220194556770238820, 17906018683860090565, 13178922584237106471, 12719060657174696080, 4286873322819318699, 17526862426468762181,
  14973926765785204721, 5100597466907209020, 1064911766911342137, 17079158350190880271, 17933584387539786828, 3590878484722379677, 884849575036480441, 246253788780493912,
  5808775956966534906, 8804814715660007505, 3251954329672432407, 15285868355532442823, 10890993432354069209, 7145491904950332027, 6873858324804766623, 853557248137908671,
  3770102880256367441, 2193156766116563193, 9297860534298429391, 10258616432859256724, 15127236904808560147, 4795949556946277978, 1817023884745845015, 4549753660881324967,
  1110000637448145040, 2463965533490816550, 16155106334995834916, 6754011203812142993, 12767772976291973803, 10761943579823017961, 18082703973558897189, 15138308602873531051,
  15483545648721030909, 12980577145115564367, 12288919895009251660, 10732574353077657767, 3990649383950221319, 9124141411200632441, 7096289604245863844, 16683451569416266585,
  16366665274054088697, 16432502560723839551, 5393148003904743736, 7773671762578984372, 13690951105891818532, 4375628562030302846, 11462455522637720015, 16989758585777390355,
  12937661941423877427, 10906675038497701762, 7916227382922609700, 7244616109348253805, 5221247387489077998, 1203880600250792290, 8042742893388986354, 14742614091647817137,
  11619318781917048863, 623016926063706901, 13122715454933929535, 1336909876516936519, 15613333958578431328, 10352808031320480473, 9238829361507229484, 10828291186659415040,
  16333264753619330106, 7374967171153904991, 759360656898484744, 15441315024962209061, 11994729833085454134, 17211773026977816157, 4086118942856353151, 8368082451575989807,
  623190687846477476, 15889611935433230037, 13244010123513375552, 9899052744582554764, 5096555612769842457, 14439658826014458550, 12777023124433976410, 8839309618349734937,
  16455622318394278665, 4408377273641484751, 9709906848373407123, 14839496409918979132, 7697965970332913914, 7561366851982814447, 14331234630958030806, 858981690047898838,
  6916245906946504206, 1869788021309696441, 17669280878224686562, 14410282361935087834, 7158785106425438170, 10545239982612941786, 8071802628090449619, 3062463648844775146,
  7697400170440409209, 16343406070487025102, 3450185413312573042, 1057534289413008958, 7845746631893374717, 15659651572428459454, 4610265994744961966, 11275785332379460759,
  16058456026019447680, 10251642297684065972, 6970259859295134679, 10893081013208025532, 12586925393044265218, 8805917924985835711, 8296549445396864962, 9748115237570747764,
  12998830703794863493, 4012942841532217232, 14635475312961074967, 14318507736672033312, 9702927003244014034, 13312803063078808577, 8098060013963514967, 5106095139687544518,
  7380618211483122730, 15648589482085555133, 17468201274556373337, 2015288866741739962, 16015251270903598803, 18270728030507232674, 3279813850832323934, 3778552143528741246,
  6958727360104696705, 365924356946649542, 2008598751588845076, 3921426891409958382, 15476328114138049770, 8943119328466848536, 1836216648382245337, 15802326842751740517,
  6661337579661848236, 8227984302370270430, 7480826751868965874, 7105455107120262508, 17273101878616587809, 7421115219036874717, 2946633822930748122, 5581250135767239263,
  9449345609038967158, 16974266272019534844, 16623999189290357995, 11272760164490310280, 18177513215335035264, 1065949105948044032, 3854595103159356908, 12413810068067187755,
  8365304836276602210, 4434388167567631066, 4856450999488794605, 8619739945574233813, 11266277741179002759, 16772397376718418516, 16702453740123437800, 642923552440303215,
  18375643662135470511, 15467557168008752075, 1791465147808683250, 12971766851726964011, 5813812883556228190, 15422722884940366551, 16578842564129565582, 13551594325334192774,
  12412069205781777903, 1095969930278417145, 17105569602850768990, 1807059927612266308, 16512172012769358134, 7181627438338398841, 15370129536692872185, 4210745375816199508,
  6404743384093136075, 4593388541702927224, 16828842539408303633, 1046602018279299633, 8931196941873153832, 11417002601835788733, 11184842787070531097, 3100090809766132685,
  12161125181783946412, 6481839424215807414, 11982148091856929549, 954223158269697851, 15955572263730027844, 6710414805151970387, 7336466884080612431, 13886561655553068918,
  9802520582272878136, 14979248257037173113, 13275191637953128555, 12385263640951654716, 4606666794295621077, 1423695684975636385, 13110195925411632775, 1506869292661586635]

/-- Entries 3840 to 4095. -/
def roots15 : List Nat := [
  5039054553412772822, 9947329957108534535, 12905260601909522252, 9090712116091345032, 11449906314017811729, 12677674688258288418, 6836079961962189334, 4448507122347304935,
  15197827330636982440, 8079262833077238866, 7168808932779991460, 3616379653722292385, 13557625594190846503, 1276390665334655294, 2423034050625357989, 12120484213131854787,
  14531020998304867312, 12797315921195698116, 17915496183111017380, 6076968830870046742, 10592525034922321023, 15198683010474977762, 17878635128020853235, 8453599059872543568,
  9340075326886616726, 14249932407526408187, 3920012975571660172, 14093639254725689883, 7814958916975237033, 10211488918941616418, 17876457709245017524, 7982820537421400022,
  10734257990507325626, 9868992954404432001, 17892396243295108809, 5252691417373640292, 17731252564780895747, 200287835685597786, 15283261071425049661, 11493956667644185096,
  16225256982618875564, 11545637653670932451, 7972528404776578548, 8805075777183820532, 5237726040339079672, 4879036021247827417, 11830044991488688345, 14514007624542103618,
  15157093265932641738, 10095924887315019103, 944023233711389380, 9209426491952483994, 12560088751661244893, 16733766323123822243, 7351311166440644015, 5157149959074357641,
  7257555568883632726, 18395876134476675517, 12827167841718147893, 6073660704926066335, 15684874502477547973, 185092891849821652, 2062721388553068752, 16143845683930852963,
  13323913582023077136, 17996862699887601352, 14917204821940447345, 17727395148718055766, 5866261335415996482, 9564351312381497907, 11753952161783555533, 15905584240289051271,
  6359041937350827484, 15455981006244088075, 10084141599822086392, 5563697948111124147, 7990533848675074590, 17663855017864751307, 8833555980058602746, 6107683749086385398,
  3819873105684297539, 3354103689779755126, 205098186833461798, 10387231362857248226, 16750663277610706556, 17480513446976717426, 18125839976921758959, 17504552286966415509,
  1997775871150920675, 8005976638836726404, 10050794684656398861, 15413464650935189121, 9266377309516567038, 8819891867135903217, 11475433028978604240, 3167716667506237063,
  3532368152646334949, 2726353189975771727, 1046319455846530100, 6958177273402081459, 5898527399322270464, 17567364267182907447, 11126118512266187130, 7054906527328784952,
  17653613930072583530, 17356922417114342724, 4300555157937593806, 12582844260056445665, 11984477438814883399, 10785586343856028323, 6829150810776071806, 1275580696837253878,
  12935635498385805667, 11042745756562432238, 2733367021074256291, 14139187697951278561, 6417256623335716944, 12215727781608848761, 15915522074109560576, 17981567749631059662,
  15908484063282750463, 12264276281126644655, 10813480039522234002, 3672389934485490119, 703460859040485044, 6992016429337539626, 7829595879906980808, 18289943162500132543,
  14209471860455365225, 1141756194467690044, 13699080799324862573, 14395675704042898287, 10477780328598670219, 2977735004122716241, 357311997039496192, 14001000129854845353,
  15998676946597547137, 16771155773325171063, 8067921858502592491, 10978119585556216518, 9096783631470354695, 11482622187063459746, 2328594155497419167, 8245734209506010798,
  10785262195132076118, 11251547554901371038, 16349060756395760311, 8733796716067427242, 13557191737902272099, 34605638081777081, 774338550226544418, 12557120148120333993,
  17220565227505945824, 14763953405168731570, 1223444565856464744, 15968045255305460315, 14940362750164613107, 4354346605018636098, 16351363577969693335, 155532613096948830,
  20251793999489963, 10480301569340551235, 6192548073458731880, 16580034231450111309, 10827531506683495281, 9927042920073251909, 4367117353307375951, 5087025334573931975,
  7722174398105464397, 10597523083652241710, 3742661080591672168, 15956033313882077644, 15382172050151255740, 3891409236082585019, 12598585450022866785, 7305014997138281598,
  14535691558617517351, 8975053858802794098, 12562999248672715413, 2953548254132001400, 15414796291415629701, 1174565333008884559, 10953613580921967746, 14302116626922458765,
  15534397522614945551, 4435254865190745464, 17145765480166506648, 4767942495811413171, 3836632256032371818, 12962818105650291251, 10607439680972192, 7640302168484443559,
  17862604764812886809, 1786473541827760160, 14239201679917395791, 10714462334278266444, 12288974323849223712, 16685581124774858222, 6244367245242808190, 11643784568153821846,
  5585440777759725324, 16711814021957112565, 14401209507690498554, 6532061734492488401, 15452168495299764925, 17970448979533112797, 2433108990896089239, 4688316964159449061,
  11530234791203143924, 10627205678544091291, 15237286645877838959, 2839147266308992842, 4806634420643180222, 12920677798278158127, 2458370309383602820, 6125250273934285372,
  2186493902141777348, 9289155869923035653, 6470613291666447724, 17548053134380943423, 1176295767560589440, 2516994906431523241, 6970566670203966486, 18116415102791504387,
  5481500931477859403, 14139300228431113898, 3498522640179795246, 9848714250069997386, 15290043594727918318, 2436803044910941664, 10629668791231264559, 4492987831491042790,
  37165500656882079, 6387890614945291762, 14661015954573931999, 13232014289777596857, 13359992183306957847, 14200181744130561484, 17139763480209388637, 13037013353793380397,
  18038167842299820132, 445936863158090307, 453616463225371969, 2239641201029204031, 596175209523691751, 5267406367404845700, 16018360293964130022, 4869688877613270545,
  16523500967464230495, 5503475487303211197, 5295393508843751616, 3179382733457994012, 1983064889872516177, 8941598781775625319, 17132436445542296195, 13585988124942954374]

/-- Entries 0 to 255. -/
def rootsInv0 : List Nat := [
  1, 720584736572961408, 14339454576099065415, 8110275066561114576, 15352266420258939526, 15152486747718609328, 16200125796878969521, 11085843110998995682,
  5046958974516722558, 1566725239756563310, 11563523611264299172, 1404102221005623225, 3386674921194715218, 16034887051644249412, 380520087412920058, 1680359344139673742,
  2415623494407783791, 2949921134803416429, 18405853564790494027, 463996450902317306, 17499464599540494904, 13227446636775398848, 3254082477049562153, 14262670077631714335,
  7727640089129095334, 11661136999383463450, 3810301117832204583, 7614862032988085584, 6024793586330155678, 14420619470303158147, 18262235985360545492, 8310971987077119183,
  12181586540519582112, 14298080764675794295, 2118906522585120178, 12309991655342764021, 18325624064017423600, 9134260114812477889, 7704721707807531028, 14539102385238915670,
  15703236532384924460, 16978355917769280149, 2087214607437816028, 16972736180309767722, 14792213808594191265, 579789604800397871, 8575737129051335041, 15787203504377244847,
  8894121825707602835, 6276648052855815072, 8893487500707475579, 8085328980447472551, 5761181159720190099, 6652418741636310854, 12343068558329882127, 16286354927744241974,
  11530142492352825199, 1110002154009246238, 15373611916988710613, 15634065666310731681, 15339005178326524225, 16920436063569986273, 1951807329380500075, 16722924601915614824,
  15599516696790843517, 9301330603569054023, 5659607310527006994, 7133472659921959201, 15806933214660283552, 18103177720330569736, 3884876814261758141, 1918088824638195582,
  2157065136660022301, 13933546606494439908, 2392023476819270360, 17619065391134502258, 7076947864603766231, 2087396650035479448, 17580307378520296367, 5535017560445862618,
  10926393849465726408, 10928705125647298629, 3959685662144320779, 10688897433697924985, 4667905635198108311, 16672264090568771463, 6153828399264378145, 14031280856183462803,
  11481133848405323644, 16969650912392074539, 8557756682134876791, 16117670602764484696, 11428886046060222855, 4728472614196077788, 3671879551364081783, 1498010317746109029,
  15315552893140930656, 3392410807925915442, 3889966384999443771, 17817834615400377237, 16062326045875918303, 9121476918492685024, 7934461991054835160, 842101892116245181,
  12871487787419891119, 10468454229111407162, 7726621330683503562, 10292965458645464204, 16031962928355806098, 13950228507550176276, 2291111462233205072, 11316432244071547376,
  11215915689441210519, 16179788556301219694, 2170104868051588149, 5584183945428982752, 5675300044266745926, 17222943329151984565, 17680446773944457141, 15249400625475686561,
  395184172606782007, 4138190024559759520, 18008409683601954597, 12712087400481258452, 13532629047374889605, 4454209934239804210, 8454462237705513714, 10637411605879141215,
  2882485709911702374, 5479102853510888674, 6356806065002538163, 12707853752216551716, 13637436800167486650, 18127508821964687459, 10638576958653278959, 11960618436006669787,
  15888557761607533558, 6899924416241665661, 11874819665385772177, 7663115328119428581, 6879365912473993469, 7579233764434352848, 7638721038321728530, 6957686905605475202,
  17652944517379415107, 4780726535479012860, 1857219450945102164, 2099774616648622444, 11832736105347811351, 1706280929350397932, 6244397178247093022, 12240611900137460307,
  1764496435215440635, 7108140164040751276, 15161720018324579052, 6627645468456138040, 17779104421400205572, 15496037342646178067, 8515379151300663785, 8934897122271277923,
  3234253183712823509, 12934340506036655917, 16694437013186977360, 1592626176204236061, 990995433884419269, 117612620983987181, 7398083810475989213, 7484318226249183897,
  15927365925771736910, 426151213159721983, 14400980948977921471, 1901325713177990768, 3286539613986090982, 13767063682592890974, 4812702398689794152, 15249524947946806009,
  2060235349167714126, 18027461580456480960, 2126926760382655831, 4256619404902108058, 8486570232345451325, 5604107575625139990, 11402162743734890929, 10846348361085127043,
  16789875770856290109, 7020867115392844083, 14936354525824516811, 8375320713207231715, 8750767493256929145, 8235373967512351151, 9942671091609899546, 12103194441566765612,
  12318040395114068170, 635606647090838604, 13522249142548496487, 15615462698751780971, 1268829698560359966, 3443526265789683928, 6775987149522504468, 11159306790696119536,
  11278332687494595361, 12042388718833803402, 15717655122111463040, 5299065120463519026, 11055079192405723109, 11013436732863969027, 7472453108293154971, 10131173690122092732,
  12800853636497463571, 5451783174600630682, 9686904478556384351, 3690381111356836949, 9835002937724602677, 7363345433434539696, 1333640207411232088, 1566448226569433321,
  15569076005456018638, 4743652370100010589, 17309959524806193422, 238133820252584086, 6026876779566687205, 8960601363353050167, 14890733296592847788, 10155371800298912043,
  5695957462117986287, 10227636094184637112, 6797290953488467222, 1712603234469374446, 1515307037981054639, 6828452632588351151, 16339718027988715053, 3067579756261531531,
  1773960218279923954, 8145101195158695094, 14138194736859784462, 4047904134009740607, 13882939452166037089, 11466412427500928642, 13808209941120793656, 10746301132607064465,
  10646912634289910062, 6700174377334492194, 11748683915134083723, 10430084320128553465, 14896689373270673641, 8844300315269020459, 14057573198806330285, 7571834562236485078,
  1380061346318590881, 6091392333909561516, 11159535537327289008, 17779989640029996166, 4164964654070396129, 1836039087919599065, 17774527383987192203, 1864215917183167511]

/-- Entries 256 to 511. -/
def rootsInv1 : List Nat := [
  13843729955524372349, 6929173952201287343, 6210749523871167966, 5504089817326267708, 2644945295905594879, 9835435739517830133, 7177932315700025995, 2446307072758937915,
  7312156331204646310, 12163750746945737945, 3590973484195340560, 10998109413132381664, 7395286326711867963, 17328467376243743166, 9613989819555341771, 18222733727036876486,
  9294252869736749939, 7335909090725442421, 13269092263275903723, 18304611047808083129, 3191128935074336072, 13358883930968267085, 13756883714562959525, 5110886975247264730,
  12775553583474047995, 5435241857386165654, 11172978625457717870, 4139865493235715571, 12520767733586610073, 6375157525529739561, 5904129970506923848, 10051055267992478632,
  9905048855793995944, 1223813630804333375, 9834344130894502742, 16492639285537513695, 7461188595173734253, 11633003804837084831, 16659508146569381522, 15132347803009549204,
  7281011402018425449, 1181603759020134901, 12723724073638135236, 1179574558594417564, 14236107746368555567, 7417688376969590637, 13810750419757232914, 476198965934789135,
  4449449451911049508, 6178437212166379404, 14036205159702510331, 17013293086750734110, 2228663442058864314, 1521881028045238801, 2262153217968328550, 15333991945168125043,
  9766445742514414677, 103477763411954721, 60749065782215021, 8061698625932014922, 9962734455915777358, 10166516978882946426, 4769293806752969956, 3691701363028259554,
  9667159774827995652, 16993364438883197120, 8814101026442266434, 17535066020541441206, 12837447051713619509, 6961509956816904499, 14416941795066068982, 2895556373819141748,
  15537287381515241570, 12091609888161982136, 9400354572344724062, 3412444512867621816, 1642032709925677804, 3811981445139988970, 4356473362392407594, 17240347946932796762,
  4324110291587336175, 3099363582888551919, 16447453425421916807, 4310104551820725831, 11988953475512391691, 14070410414480673544, 5380322758439347092, 9709149688117892010,
  15256059820581255205, 11860647570106911704, 6556230031431676446, 15678773402515806435, 15350371664039125159, 679982196055665953, 13164927588768639300, 3164416150415106183,
  1283431680054031502, 9187218091026242293, 1189696800286100802, 278289289760259764, 127058393185899550, 8435579064423617674, 8327663069055114211, 2658292005589034313,
  7339053643911545065, 156952678863275842, 7153057593086221718, 6520250947442718405, 1003557954271156116, 2665568966852607550, 3646869193744904348, 11791842267226333315,
  1853518944726972937, 8636570269416346572, 2406954780651667256, 16453020521135010838, 8121678236244370909, 6823870049035701612, 6074982480059591888, 397805659947084351,
  3692502910987101508, 9103837895661253924, 9104345819396119856, 6232011195105011370, 9376887638549153127, 1867049797744035724, 12734827517998547275, 3358259680220261458,
  4188398497342902127, 9670456788528015945, 10582218377671455666, 7726908838741190365, 11234135486665256141, 3749416850190938310, 11388922684377278208, 15332435985475534208,
  10272093299904364820, 6602106519747572961, 13855179933101287385, 632926520882886247, 2679873179851291213, 10804642403028044853, 4793248531494357263, 11108811985278376224,
  3808332611516346042, 7571214003556892252, 17886910587507488654, 7516608150524002553, 11377527775597220384, 2343331506121848135, 1177372566611344240, 12437888883992875823,
  16122863267761146797, 15894856014739809316, 16404408168751433159, 16036132762673402675, 883427360361913874, 11600995365685928390, 10487000506467405108, 4139189751208593535,
  11664740076794462570, 4273806734153598194, 8650815918160338221, 6947379965747211751, 10902461855784876988, 13928532327882973184, 13165870177845770037, 3853290100722220139,
  1415581534621064362, 3381545139969229398, 17244172225368340385, 1799134295774514653, 10221082034257423765, 5130758603555585929, 17033209287973450949, 3449012997388980473,
  8102255825724444182, 4891840718684013852, 3706580671297331299, 10535839004594583626, 9779349734141572214, 12060794766294687622, 184297271006592786, 12136325733266938524,
  5556608262699283665, 14773843062774836944, 8196271302426240870, 12427271599746505321, 1155388510536591850, 8509262336772578406, 2578525951290971927, 14400138441601011230,
  10288131011046074688, 2625650463182780820, 11245515695079858152, 9285063085786033841, 10574335504901230484, 18305084003025969290, 1780017664276987904, 15196342257067717465,
  18163586991854532296, 1441560181764259012, 14691030944302567525, 13403406596431342313, 13571799347256090896, 4483546991804775798, 14396927937030632293, 1778563055619922344,
  9282567353149253811, 725300876654576850, 1274293963538911977, 14417548377959800806, 209592247834114699, 17017724487708729395, 10343224921956816764, 4414183122587650932,
  5380502647922389423, 2337798911215905281, 14989767376945776297, 9399288375836224797, 9751762973080401543, 5000732392060611755, 14126954455474852541, 10676694301352681514,
  3469782640325470708, 832729396940234715, 864938097163789140, 3610199687863410074, 14288970732445006620, 1019729365227139090, 8198367047154165255, 16124082169028569354,
  16721573468801058503, 13659773209992495402, 12031530981357324128, 314429831483378521, 4539273832810577810, 16516937805800214753, 5603021489895219300, 14220144232537667007,
  2152450434406474745, 5058930073920646728, 7417306567712857630, 11878515411578495388, 6691833459422961712, 11862243552544955041, 6805144993497093511, 5839418655913409240,
  1110166645739035363, 12656247405285442064, 7687407076697882323, 4354915888119624158, 15719576492033769361, 9630612632191327573, 5532190911155603566, 17192006418430621811]

/-- Entries 512 to 767. -/
def rootsInv2 : List Nat := [
  10097943079899989767, 11676992078765993587, 20255683256005433, 4184855752328445583, 13079989210672214643, 7038447167291464884, 9213170959295538723, 16537150607676099737,
  5688590441532463626, 3292388673315462213, 10931989109000840011, 5647654539103274768, 13433223723898246832, 15643886481024445943, 6487989661865856645, 1130609737016557894,
  16552820483994036277, 5910494259498674726, 1094038268606333746, 8295662386655399480, 17439062423164502742, 6779541125386223870, 1561402177024633740, 14543679674813270948,
  14443745628100279930, 8303571017132995729, 3750281448748720547, 8080622535161165710, 4479738217547894281, 10078988032840926945, 4861634828663247829, 566847811044842048,
  12673203613276082557, 14480955083683750657, 10382249757730653594, 11174349154651995322, 10280587376273363158, 12281094689164806542, 16564053201283937311, 1499186091843623006,
  15477852371983761340, 2720219471508630579, 4016805438007518348, 7323467504627520726, 8644730774886565101, 3331157311020168746, 13566692462614478437, 7287544811604730261,
  4914077295355100996, 12115439963946358264, 8536004395341274484, 17170395422099999188, 16177064404236674049, 7389948076918460511, 3914235906738725204, 7494167093415374659,
  8842181014702614520, 12239671536428358129, 3540710883005860104, 18221423079466185736, 4054159366753845697, 15926432533051452482, 426170084500148860, 6297283581476074799,
  6141761197168701817, 7838769675792589077, 14011758721473343614, 15901769354166751801, 4707391816752893618, 15945941760254210128, 4186790454090364775, 5053289817703893239,
  16361117233508905393, 6399176188523321940, 7618872048820009803, 18334926246920509994, 2084415574742458994, 4057702092446229616, 8374567395077315515, 8499514845591806749,
  6101502564159956830, 413204597813824931, 11169807041270581908, 9274464034327338788, 6452412597888073156, 4852864736823694195, 4181371280258726006, 11295859539931020235,
  3220538774275138568, 2507121583039324459, 561702878326669741, 9127560269823345606, 3570309256437706901, 3657432683443384922, 14094715747384286878, 17110922562227501481,
  13231069409571495536, 7190099334407500380, 17092018277704430889, 4842690132016613479, 12852082745904303395, 4064641838960191080, 9525897981278711295, 924395126793920387,
  622541640284846560, 14530091818331330269, 12020347941617962802, 13232790846921258535, 6973348136995784345, 5758194043035297178, 4466406641333599566, 2238820611635312891,
  7954548038973292253, 4608410064243181904, 14393450452664293024, 13750377946622933964, 2743724888065827384, 8972979307888802042, 17177165992516633052, 16509492359475849701,
  7490036530474156128, 12375501856213963413, 12225572298905778680, 15178298328699222454, 17662637484398201158, 17005546844543834780, 5718604371048851950, 16853193906797142307,
  12248213429557734635, 1594243426650579816, 13807869003942620335, 10381228967731995756, 11719860474096291085, 6376231754775813852, 4551459944452630070, 2659452958389278685,
  14743083846796956038, 10846350927568163314, 237287342629022071, 1851488983483044742, 9608011993591340787, 9318845268052481280, 15216879367416675372, 2677330506024019048,
  16045928221936411867, 18346539688063983374, 14794814345577533333, 12795570536133139120, 5142871598768745629, 16611701086773880750, 1598842307508456024, 1796761547487152873,
  15845374357201035407, 13972553433495311907, 7980693538638982963, 11249306638791084664, 15030060455202020111, 13673489155500294694, 12891080419529583219, 10825215787653611484,
  4404983572016544890, 8039512501894331636, 5886659200982257867, 9127820730074839039, 2371707413948315582, 8123424574034125143, 5969970169097832866, 3773439436964537533,
  15987685906475088874, 2512197498413136780, 4160813566015275865, 10082188645986781133, 16013374150413453876, 3357220422476586609, 8987569910200055449, 16512825003558531901,
  14186302338719979553, 4962398715566408069, 3606584229363136377, 2755999003182475896, 2762233017109386158, 3363601463454604475, 4959995530261474315, 14499019927230533733,
  11705097318736603502, 7766801710352178091, 8145434815810354165, 7296932142693784310, 7314772591964433775, 5965584286800752956, 5615996176191044556, 16281670558832379804,
  15120061611248729305, 7088899577293988117, 3623361730512097056, 9494385750212889799, 3819220655083136323, 15755927186257424794, 14640606068442037659, 217204174906810610,
  6702843721471494696, 16342531937575324312, 17255389869067509226, 2651409323492088992, 8762446432511450973, 10226308866305657391, 1956778527598246837, 13993451429918824052,
  6235711999543714194, 10387969700588236081, 3646440248278528693, 11797290190451955908, 8998031337629316895, 9305322551771133609, 18389483710161855743, 981500426824989709,
  2081889661076269459, 1586022880768958039, 13556684727703494992, 2294349869460516463, 5094774410683419813, 10121423808828427461, 2314994870063185443, 606208517358840133,
  18284682382630176467, 16289997832185705239, 9796869419518346229, 11570448673774625530, 689479488652124241, 5766504686104166635, 13125788729156380782, 5651580476324602206,
  8396625593233513136, 449626107234616103, 12417119130716110743, 16410695571644707523, 17748622798465133047, 11318686644788839110, 11512504193875972035, 8984253069647582305,
  9463727681993636348, 7415046004870026800, 17668666395601304815, 10732743938168514398, 11522673627658078522, 3161482609537079386, 14772500991005343498, 10644192625678518946,
  14516776644996443153, 14594016781082018728, 16588319898259453768, 7480795024701291022, 15071296941905409082, 15348699096703383736, 12650210108052730263, 15959198997842115932]

/-- Entries 768 to 1023. -/
def rootsInv3 : List Nat := [
  5375436023313452847, 4218977889953457179, 6178007525961120342, 14882624403900390679, 15238024406211542776, 2427811766348229406, 7642977216434550760, 17081188589582039662,
  18202510302316203677, 4212483315408775092, 5620480063260416565, 9691697791129171927, 12295517924719753475, 1231308109915558302, 2609713418217905164, 1671410981905325088,
  10045730717875969685, 8766011004209920862, 9022554724081751877, 3441419413746216277, 13067560783987712493, 13909501657295004405, 312230288522406699, 13600539694009364045,
  14594061778468471529, 3442775150007903448, 2431894056038677321, 17716522639223317196, 17113734370282833981, 11766069996412770623, 13272749970269646992, 1248451030353954167,
  2700203904938982575, 12666938802060913093, 12697167781988836472, 5841665947442512978, 13244405742454123599, 7173621199689022152, 12228436574752190722, 10102412519648032766,
  11856316154691296039, 15547800602002187522, 13942401427952495504, 513811739595918645, 17424438548463445801, 7525916439989403668, 16410183458068486526, 12048681662214734000,
  9324581244086196382, 8231926529085558197, 4430886398566401025, 9409363135481283655, 8025936838234602877, 3092209697976707060, 365180831423760423, 6344554710270825872,
  3954194069088336053, 11856058945679971919, 6690001515025899337, 6903187476104835215, 10555606487067701266, 10032357410525031737, 17925274107512160062, 11390428502615281652,
  10363372342505047286, 5502457145034553997, 11679483039692533486, 16536654687885485331, 110746111103722307, 9576850137930501443, 17440236232555916261, 17209225662671073152,
  17729506611050728216, 946309274453385914, 10489505111793425293, 8697728027174150422, 9312994674092148961, 10937968435525024564, 15832287560280555829, 13607990988051502241,
  16330621167570691997, 8440960748299483285, 6835912704020986067, 753259776765792472, 7580046107999638120, 12873970982020752442, 14297594752389831429, 7666435773217060115,
  12693299666652316639, 5071376283843083345, 5486678088202374729, 2075819849047841611, 15274959147289666303, 15199195540906953110, 14033406111272686003, 12650009576488595680,
  3461086663483859015, 3340844781679409455, 1705197871374036184, 12666693797972339535, 9854896478669623049, 485258212961589851, 5170562070540265176, 11101084418133049015,
  8254565990739629917, 9454069844009381116, 14245537947847066712, 2453708273006749464, 6559668974739651234, 11026770608175382445, 10492941647376568109, 9360709034550470651,
  3090472798919161295, 2479815774656123162, 1509395748047720235, 712157583701548673, 8074661162189161100, 7475514365326073334, 8313693305733303793, 4036281567162132353,
  14643924302032857628, 7950631907594688710, 2545180431774649463, 4972170149984981380, 2378648942336573881, 10580150782414405325, 17148773801102792480, 13913352123966258662,
  12154444845318955824, 4491455945934257456, 16462063708987846290, 8245447436018748990, 9203685289284384932, 11770656118627882319, 17117456327109425130, 6434124064121990839,
  3813006259107431727, 17758744434257048536, 12418203053072410041, 5503674537038553330, 18222990220873965427, 5602215340434473095, 4848305381987677275, 17694685621614617168,
  7382469131519363440, 10013907707358127889, 11316616784072716964, 12520182662652851665, 14638828593864731974, 13831069251589250400, 2536861175917237266, 9860277426160478240,
  10338934386865378870, 14408956914942267223, 7278549308549397156, 12255085983230361860, 1031231188958731547, 11579439553435051463, 12504651710362024603, 17630907458769972529,
  5885559206608921214, 14210276605812041968, 16284805371390084907, 10026880261560897151, 2693119855261861605, 6655256924877990181, 16484713959436706445, 15296592596069655619,
  16237303551009588013, 6448496252489811721, 2473761370075781530, 1862316359528776510, 2925272900590040846, 2365548739535574608, 11434209847007923064, 9572588609318654186,
  5274968838075247011, 5418713588537536492, 14093186548276388556, 16817191017426893925, 7211352716245192200, 16625030817943369947, 15598912598621222073, 14608621968046662052,
  16157066923336215185, 9257852934914651184, 6581837544126854528, 12940229291180955798, 12491316998074999493, 6525838768054902791, 6573452705355658361, 9507561341625529504,
  11768686128640359797, 6723799247003675925, 17575675009565579870, 1352486578722372502, 16743061553969962698, 280383815556887441, 4406181235259483525, 14562531586333514289,
  12926858219201961878, 14634095797133016990, 6982163598830151800, 10244041705864268452, 12242774704110634094, 9359572858030271487, 2137944734277423570, 9548479529727010991,
  13036970383172138649, 13596375499534094444, 6316115134601324066, 9154401177646397466, 7016133888116035681, 13841059323040629862, 10755786056975891807, 10308360660986393398,
  4052637692626184610, 1761505424603299985, 16985202969499982738, 16477999917762907014, 6420345420345691356, 17480135984916351263, 3661842677715146364, 15065853992698375057,
  10520143311806172722, 15468294025628841440, 5708585387446323701, 4474762552740802473, 16088024431463328769, 7956762433667183604, 15622011170448653783, 2979734380405323682,
  14507953241704474784, 8000481789605097911, 13878122890172025173, 9702312147057036246, 10638028264945483839, 3502034103858542308, 13256227337839949793, 424367939072941320,
  4406418970319501429, 16869277130184189268, 18107868204311463863, 1996540774490948268, 1047050152503350741, 12686338787510910629, 5176629057729060328, 16226709260326751739,
  14411269067784003374, 12831860149504902813, 17179895211199985644, 291552938401549993, 2238173208726918874, 9679795674444601400, 11901206697773264443, 14450895965992577417]

/-- Entries 1024 to 1279. -/
def rootsInv4 : List Nat := [
  4055516823947098997, 18152030073568231427, 9614036253119501395, 8642947164178556726, 4333437532803463618, 14020577858452613775, 7338501874962324321, 17498934847699275455,
  15218891647273730379, 17754853604402635904, 15182896955539164330, 12520886630048603595, 12516083714129678646, 15897223551528704833, 4303218947780894697, 12301795502459068168,
  11543025118911008512, 13267079775947313496, 13784983484063200027, 12040690123641392666, 6172710533235912729, 9193696906087193269, 5012531019845031474, 10249735125958088842,
  13438288300650152926, 754972579568686571, 8482669207452882935, 13504508122499550455, 16942820610498046630, 13063659911379291465, 15249216516511032433, 17970069331105179551,
  1068601215105284076, 11244552674418813492, 13106869597909500151, 1390965984204935742, 13769507148175035693, 5800640239951835636, 4435474376230358966, 8567826781126454958,
  12417388421676303526, 3520351866148834514, 17094521627031429143, 8699745939797617250, 7569337276987055288, 14029317997013939773, 1224860757220647398, 15030024597518935684,
  8767711782171590385, 6646175935376046645, 4558241185117126014, 16557082492574762592, 8989597569141753054, 2539428259499869917, 17484301887383124190, 2746132202172340084,
  14369889838578343244, 6813526724692048974, 13165399780947340270, 3571323972546524003, 17599430827621581850, 1738055846115606348, 527376202356617875, 16142049826654950675,
  10992763187927556209, 3850505256220053087, 4972913607227435166, 12518962980119165891, 8190371603195199993, 636734750943479881, 8635314927769812992, 3588284259231454471,
  1097909013912232067, 2866088896917985176, 10392729363363587002, 7558236754060338064, 13811781337119151096, 17524744166808629780, 7318548898466780083, 8422936761588183361,
  12526239297212028987, 3662964011675192558, 6062819820240188003, 6727632671367742620, 8549489882737240429, 2923146691078183606, 4590578945425093901, 5789617393718869120,
  4560354330318728005, 17652728163233575522, 5894396767310207634, 10681047899718063946, 14584426291058536675, 7628797012522367700, 7634811144460204593, 7372098857843537603,
  1490093655747045240, 784978206674823194, 7144884292269739519, 1621933159649446201, 14020593276801329008, 5128150407628062240, 16356650638193534296, 9754589563701425439,
  8352382264035333499, 13867077967309927933, 14863460214695714655, 7706182955004014119, 3132031890010803499, 5859347124843234270, 1530686917686520798, 15401390670800914095,
  4712701292949235769, 1592979195101665037, 287591058959963046, 14972963398996398814, 4645042251969687550, 6519823112174858748, 1038153019341117491, 4773777745746770978,
  5843189393167091262, 18345359496269203251, 17892302075787484452, 12266089084082045334, 16020461066127881877, 2419273607753609974, 5084174108314496710, 832045631741913135,
  4589962366564948286, 1152819931101839706, 7075764423616926688, 6152200171820868339, 12862194367826800837, 4745881974274169074, 13133387597315435418, 13885908840456354521,
  16338183389279929429, 7435960866053312685, 11256553455175021882, 13482373415983827014, 9048927700016166767, 13065766175081772084, 2836978270285744183, 17364003048011326110,
  15973551470524987011, 16782916947315619358, 2081396100797671971, 12773646788832444416, 14124075799638567652, 14574913263737573226, 11929122645365971822, 7706687857296118868,
  964996922487264200, 9207430077381961902, 9861745319328191708, 3179079161897583182, 9150396894861771231, 4130178673556856256, 351497188621800711, 10651902396372972835,
  11727460967587835835, 12273802658467340712, 5596174565200190659, 11862542349178681065, 15748571739733020438, 14360966360931638316, 17569074355323635164, 1071651424057375538,
  17209440967693745981, 9595311977537673357, 12480955576328850314, 2711195580948059714, 4672912651641541514, 14139626464026886462, 15403744523832525802, 12453006254518302115,
  13592811902817443544, 9784000521080383346, 5603448621931363801, 9287941743304562707, 11389702466099632581, 5903702216492629696, 15703622457506311674, 2421896480545257504,
  13502575310861917904, 18209229374482167748, 17869739162148393976, 2670786153252475148, 16625639792632168652, 4369377984852756462, 11637579988920080109, 9912267361233713919,
  5115993183891027204, 8863581934760790501, 9882345650008433756, 5106456108696348047, 12185671288309328519, 7439577256981733299, 1505289578364074960, 17880578292035396438,
  4811101421404918953, 17101481172204177874, 16210822026052809964, 4158504720709317911, 11918515221963453132, 261514670039076806, 14136030802003975210, 9012565445344919036,
  3276778375618887512, 6078060119613471778, 7790350026896442056, 12078008631537156223, 16143701381824804182, 17948040209108138429, 10611026273889423552, 13377052412593012735,
  8886199882369688317, 10160858549405918713, 10814928735750715317, 7865837041920473980, 8967128800275216745, 5914090863707434523, 18084068943076924014, 13129546234472089025,
  5607745371565195975, 3171164063247717741, 15989880640042260482, 17892314872258102358, 6124173049236390253, 16898538465871362127, 4380979656449557682, 18016997921906746549,
  18431611938092231014, 4971689132758517492, 8510617768800901516, 10506594919225081834, 2503617609750439539, 16251775214512028367, 1294088416074394091, 15913971978683859982,
  6078146946724920701, 5035046091211708712, 11322464068000534188, 1946119167381047048, 9687087912076866859, 14682733867262465670, 13073711638426027383, 7201530017821385157,
  11330540735353705827, 4751929430502058710, 1532783076867293806, 2794288292633350371, 3303714493499318511, 7218198955714367700, 6948099239804454816, 5132054907674026408]

/-- Entries 1280 to 1535. -/
def rootsInv5 : List Nat := [
  634621078126379130, 11618516820855467216, 17326208800825291162, 17914101560939425673, 6373186685366406253, 5525458142585978457, 232516300587722976, 16078806638240342801,
  5008859823306084674, 9915042687355835114, 106402884831900220, 4946110633868002843, 4486467412331466077, 14699642353869239665, 3026374252759407194, 9373927858902226716,
  12627587015518230259, 14553470736380695735, 7077467464929554451, 12515836674038384488, 11489039194185516242, 6988811932002984153, 14583275763171672604, 3254708815536997598,
  2557035908754957099, 6500179991117371833, 6131793168288426862, 1258027527273066737, 7994008958203222644, 67700621227898183, 1216978833571311855, 3668000098166409035,
  18402110688998694562, 7243590488010877378, 10402298918826073815, 15368400898753815092, 6270074908988208772, 6131599239658707401, 2920592203878494678, 17032916039152167250,
  6823667643881595675, 6943212868547244438, 14883130737771197894, 11707636454693805461, 8180027610022002351, 10102738295413389855, 10083420226720788256, 1541898449321341820,
  1037717382562112099, 2653667738594266433, 6988317328957365799, 12031578775848960588, 11474091035250644430, 16450256938961066127, 12989484216000286544, 10335002223216767010,
  16417997160021163908, 11166630291300559770, 13081938598247225859, 6744606296946348107, 14023381572742275733, 4256592790749111800, 6977144983046462712, 8158818165798106218,
  16335781579920567566, 8028696090349358422, 17504930143368128057, 2982311900993587715, 784671835377284684, 2280775450544355461, 3759224918899062441, 6727589622617285708,
  12894785726873686078, 12871694358317582758, 10412018463437711418, 2353803539614944902, 1656106808330428821, 1654483829707940773, 7539752269328159909, 8196880365376064437,
  18188085981734050512, 17638520758603066104, 15869707050949013813, 9994755297476191314, 16226329461963737633, 9688735959555617260, 14552815395865332875, 7138352296027767853,
  12987844100557191122, 8832772586551944342, 10580624493725408758, 16123030580599531364, 4939291322306399877, 985430289612781927, 11432691687086592684, 6095125237427961781,
  12304451333572720885, 15855480475532333191, 2541686586360583703, 1440626727585533012, 15276945008913800668, 14529177191679746159, 17009520738172045772, 4186342377999359869,
  6575946166524088946, 14074862068089831028, 5960204456886066359, 7625282025985564197, 12325343440176531872, 1817738776178683265, 2165819158833677739, 6306692290898481865,
  8701984842205848755, 15055581591775671988, 6204554249523053907, 12288819792033292648, 14173644544809403546, 12433930364454341896, 4832864365797029770, 12667664791305798718,
  6003550092446307172, 7125130870692433847, 1288679420765593335, 9834795761174507176, 15667870578432215339, 1461893088296053069, 2524489009668963539, 4158068189133024182,
  18092629678205340666, 1458100781155118354, 12725977124125535057, 4088015007650704014, 17412935627168072742, 1042349737071233203, 11843950535481225442, 2179043187449133411,
  5947378973947900808, 14669860701153041211, 5175880443749115152, 8295778980077707355, 12525464789074936187, 1711213827129550375, 17905329612990403584, 1175178854869809859,
  1951723176639722245, 17177038402906507647, 16578231455406668157, 18206143500543549482, 6221467493143805198, 1082988987265559554, 986939126927704918, 4942098761860001261,
  15300178870915510535, 3363392853326600976, 6980536170214515502, 9033094838878732558, 11486780637100253937, 7640603425578848567, 17060368624697454562, 11441247844952942059,
  16212532917934474040, 7697149722595712921, 7812794360564895274, 17931981535662287074, 5075892293358202543, 10376963882057603375, 12683199205969061927, 16386070305042103374,
  5698694525634304145, 840530161913040308, 6290867776551063894, 5033115730149019802, 10093307414617568602, 5334557640934123624, 15455661567437648448, 10098159766155521204,
  15842778275605109117, 9417951909862903819, 5906884655391176060, 16764578858552410594, 9750710706890271539, 17957127850339788687, 7541755017457117229, 3865296542231480618,
  12594933444061638348, 7516613119152507346, 13462146767302901122, 8230210730545055849, 17234636966913267457, 4918739907938417614, 9313402141440839008, 13333265991298319811,
  6955685213893405377, 3422980682233581501, 16345753327526772712, 16155306162799682235, 2187410211367815853, 5509779547780683923, 10865431920783159762, 13197123594272808459,
  10477824220653521919, 10938763103261854825, 9156505527874405493, 5328359039990430409, 3818915404109246692, 8358573826025775590, 16960369801003375546, 3037008126889063990,
  13589016677232264137, 9807443943700734446, 14482842431768657123, 14596742277553744005, 6020298445080338445, 13664444614355170538, 4344887467608793763, 5527612424072470621,
  5674568548999990369, 17756186356682106704, 5252047546172567511, 1352882121924540789, 13266588283374519344, 664380330633971776, 9255073593805636229, 7641710770631103324,
  10192066073921954262, 2461614956356665928, 14025085153277919488, 5097940663932334962, 1702310728149501118, 17510815331841091390, 17477709109203129293, 9694540786157556668,
  17466923718941842350, 16239870820084320304, 3201091509951405522, 16415724003352265349, 8756144684176508630, 13753752050883927665, 6478791456215529873, 15381922801214503630,
  3082237349663236621, 14631737800534682121, 10522917320027931023, 10982375209693307847, 6496105007123087449, 4967184295389077340, 6652587427710549284, 2799549368442607278,
  14422022510435744027, 12937980966827907093, 11361685021941047931, 16191540400023508378, 3102661531955180033, 5250046158943287415, 16719919414596490554, 11059584134853946982]

/-- Entries 1536 to 1791. -/
def rootsInv6 : List Nat := [
  8363335399356053517, 13291814750454963784, 13507974187895628067, 5014407414907901560, 10778212305350296514, 73525583935351593, 6034126740774939781, 10553560362217300034,
  553302897247815365, 17254131241427458853, 15471333672820658001, 2887223787215374316, 2856177089842501325, 9465076588381172909, 11315901239897112357, 13136727959179284728,
  8121072992324736629, 15105386915064538004, 10102892641702499021, 9275182326058267571, 14206321124189956403, 2603139464915457017, 15807389476743794027, 757201665262726250,
  16822449377803902007, 7690413354226484461, 10550376240523720827, 6135453118312909629, 4400458547450975324, 8338406190377640969, 2562163766050745729, 2687166435253195390,
  10142437543287513790, 11134931370897876353, 7945579971771557694, 620925115392590278, 17868761269365443691, 11132557054046568560, 11358386840458740439, 17620879148025185122,
  3967802438891206591, 14908503739042302019, 3630147709306740246, 8036446557189959694, 9701367233625782277, 6668244627292215554, 798681818464309694, 1432868650662142660,
  10383271210224147730, 11455263195702000513, 18123855526150157607, 9578507423875753250, 7514656328651638510, 9696133691950698974, 3115515025579467475, 1744445286600384004,
  627332500123248777, 16938282972730478996, 9367553959900038673, 204968366777733822, 5189838313401388008, 16093938609184063899, 14799585092913102984, 4895478484689789874,
  13064747985820889625, 9217586447783948069, 1961872673036197693, 912888556428563119, 12467315587029176252, 14338682016721701570, 11512960733711895190, 849619889711984803,
  4130141138084447271, 12914895728300354099, 6986375819697363572, 11684943903188248482, 15991838603502791360, 7931581019267009337, 5770073449382160585, 4402699657937435122,
  4678935981595149102, 11533085028253719850, 7354227437027495045, 7802681086730203830, 1291038684616921504, 224987607346578820, 17905393620063967153, 6066000340684904778,
  5459595045145972334, 4456882910322269793, 14189398714335623617, 14893311763636902063, 1161051154327116192, 13694122209985488343, 5488035340442469780, 13496363821681627239,
  12205069750446280759, 767196722442975313, 17785938820378280070, 2340991606892359229, 8418880573966266362, 6348511178102742788, 6220788735123088994, 11721898852873259955,
  3522463280106755977, 18391941951727598967, 10370268470084612414, 1634662574904876604, 17771067727918489761, 6916190664582123448, 4805615322900182002, 7153086095207729871,
  4897285808129817119, 2931180460040222805, 12751172189789334310, 8856502340294706598, 3222647887679005215, 6347880464269091567, 13916708272092636024, 8189508592041500760,
  5862267538842920296, 6940034780988154573, 2497672402511693427, 1692100019395091894, 10456923995732289134, 12155522608075482359, 14014536931326528963, 11054163017376560448,
  11387686751085504302, 9825697875611565309, 9093620374652848165, 1022538599663882301, 16757311630259249284, 4544040084040453571, 10380604044069392341, 14021072245422159994,
  8714584790507569002, 16232438888651666301, 13116135255240940606, 10491081288633500668, 7649639360672565481, 8087960717388555802, 10147033451423032776, 12497104650947131756,
  8353315234487110976, 11104828790507936137, 6611818940440555702, 3480960507427333699, 16436717729732218372, 2971147759929087517, 13125403321513623952, 6159669498719632199,
  10355644387200142765, 9220859401460261608, 8446831685142452210, 14397360126243440253, 11397558818012107921, 6935559700625825076, 15183126599051619497, 12704219419463003334,
  12931249970939662645, 674039333157150717, 16175272583371362139, 8907390485632955857, 15891559210083618773, 16419327483933954330, 12396467173049511359, 2891147009218013940,
  8600297092016232758, 18123716379399414760, 15466596685655009004, 15626679146719806117, 11909307999488411781, 4918133357984291961, 3674677445637683069, 16008835048913377529,
  16376915385483723535, 8157988507784755903, 757802790655719884, 8219051757404180852, 11012235734944444395, 11715053774263644144, 7759316550076041270, 6086653860364651743,
  18424985389377829314, 17706183112233979236, 14342387713824948922, 17758060972885685980, 3959969917157364771, 6053946990466018106, 14990790337031839444, 16606793721403756857,
  5140156841634430261, 3787846509587660571, 2021479384006279829, 9809641784348724774, 6555558431906704376, 9090234211221150730, 636731736985904602, 14899117145300417376,
  11466228001860959682, 4975463533882374428, 14032866053630972498, 11967957737913677468, 8671992591996638781, 16770628150159154935, 8924413026655165099, 8767976077617673443,
  2916944722885737019, 5384385260518738437, 16029407776606233419, 7657508769848001569, 13712664632438691819, 17429860112836341741, 15096278653698093695, 10966186067369003257,
  2308778688789989988, 9910493616529532850, 9971188375450882228, 10556060012563313900, 11390956883948253311, 2014570731163308621, 13455955632778125203, 1749625392734561470,
  5794051507814346225, 12299134867672743524, 1364564963737387032, 7408979476653681212, 9907746267570320054, 6996910055817180021, 15372430323780653381, 13986933709152091124,
  2947317588422294017, 7590703724199753453, 1970153350854455420, 4046971427435438624, 6712870272744598405, 5378962644420492279, 13091702902240817644, 11832620054962135488,
  7097649488179160726, 13041304207818406620, 1144857369390138996, 4690484757922675774, 13342559315826699127, 14583496141914694068, 12480295976198012316, 8436385400891807449,
  16551040828015193992, 7514196941877300448, 15984546823964065495, 7835276394384587433, 10541155344698608374, 2884109774294488820, 14441582454641016247, 6056963059848648898]

/-- Entries 1792 to 2047. -/
def rootsInv7 : List Nat := [
  3933565855054725119, 5296908718214473613, 9420091998914236382, 8100177204409137514, 6364819740795476884, 3005681059299916116, 12258338510316933392, 2418512676319179162,
  913140964721821827, 15445903160333292979, 11017041759064682662, 5118726258008166258, 11788650981527164509, 10887921906591792933, 12862521247230622264, 9803786683047618374,
  13459913044996944437, 6925234995212106620, 12178899725828319226, 5146931911922861607, 2002436970211644828, 13644426622001071362, 15168769023657393794, 15975571408380157899,
  12572409532821561882, 11047765200183607030, 18079784481507806557, 10898340304276776359, 15816275387137361292, 1294077292679563882, 10130658415782046633, 18185910280760979701,
  1513605263470150467, 15596468352134000962, 5583965658126644215, 12227872981165711307, 16184247219339497244, 14322203347298338270, 1984784797314131640, 17464392179691613400,
  10394425185070817707, 12140581853377753451, 16977140408275855621, 15608032739867963883, 12460384908081091205, 13398475672879636457, 8937827982123226571, 4933492377172491619,
  5526826741994246186, 15769594192842440617, 13132968046082225528, 2936327445139236473, 2328165919567659577, 16379958464828674786, 18286194827083108162, 9966930049683334322,
  6767403449152485692, 7453118263310552567, 10799871614642006522, 15820794217842053525, 930037470674557594, 8011117646081187703, 10498318653679400753, 3646111373079397911,
  8049223422024899250, 9259935874498359830, 13957769017589606348, 12258618967230099451, 6327040162606835992, 12552899848037334959, 13598437208964702450, 4733728764076603710,
  15586150040263975879, 5243937976929525957, 3881994366677219636, 5289909915905354062, 6311411419116750179, 1625018088394345210, 15880434374684476421, 1288376538250316901,
  14355327621658585038, 17143194319920700421, 4036057247314746395, 16420022969233305105, 6601693610556843965, 12515802696822791691, 10641406974219404369, 2959589855452310725,
  12534184883162080925, 17693334161932902239, 12082977445633911413, 12171730342799379761, 11563300536968276633, 17361218883992352761, 16213586560276706364, 10280663971129591533,
  4890033036072060652, 9258663593035072801, 2050740586224908732, 12319872251265556320, 13559709641408040045, 17856161157864007279, 14572644966889468894, 11154692195644371754,
  1485458200235454892, 2939622977373132093, 1040710259302830679, 14221651924546159934, 3007432859682592677, 11988700423121972842, 7490228559242963184, 11300947390831477107,
  9080417054015380025, 7153001713979895199, 12684740124829510524, 8804373028417792713, 3378564035706202429, 16620783952625153091, 4650438893877216287, 5004775362781985866,
  13482682157643925749, 15802915867016748804, 11419106610415739123, 5844040427621364838, 14426376882538134668, 1664115399296284557, 5246762087807033316, 16366084832136365859,
  14078683785914474190, 5922266445794034345, 5290783257851623500, 6601269377208789365, 11141021977017528240, 12867768809481247127, 10475340387208094148, 7057985744206403539,
  17678369883497433369, 8014180010593593187, 8532496339159599064, 14835653647028363848, 5858956146897766967, 5425669425485271704, 17676741370324440956, 17719261960088105396,
  4354699469539138788, 16884562809110952994, 12043980364429834644, 5627316845275266053, 17057434587440012694, 11803948410806285553, 7021280609260251990, 10552575469862699254,
  18314133423117357837, 3837751204154204189, 8274427711895795157, 3915267102345592280, 1005719143476589164, 5547457263414190345, 8142092111569099560, 1070532823368463830,
  694694328588265874, 18277933238992905494, 15023965530569668453, 14748520320183342532, 15913718756078721526, 13347521326518687740, 14716916090877170442, 6195236807739224914,
  7358630859595182313, 8377617666063205181, 9399099221792715193, 9099789655609196687, 18288449661070632832, 8777479916879745560, 3268254596814439027, 12097218130279874932,
  11245895925290734618, 11050689760229733399, 10792877869470900803, 1642155460868553339, 16105523439281856526, 18061336246800863, 632934143185256461, 6079066106355065081,
  13288657886184134604, 16315980468762883692, 15180736349212447313, 16505794924871893254, 286830812282478337, 8430956151308543082, 16490697781912746077, 8894261733725310322,
  15438903961392233466, 3249121823796354854, 18348642823553920078, 15273238565853581103, 9873004944567862610, 9972443435047462288, 8002516857782843137, 2676918697235344108,
  10963934501052469816, 16788019434414133817, 3715275377942453050, 4790487797927133438, 7174871353327885563, 15960044620257140890, 14991453378846169213, 4640824161278619959,
  2961801658613604343, 3219161231343567260, 18253983775243754624, 12493637269463011652, 14675141158299382285, 2495688924176322337, 6973524712043925628, 16949527593008214988,
  9177665564599548184, 17878948722717669993, 5282511924979052943, 11191723575257633303, 16541794587063888786, 10330553733893515004, 13044709348110904841, 12215669302730725065,
  17905972234034716291, 10159972662037405359, 5574707373458820235, 17050534932626933559, 12428543338799713602, 925908340306348782, 3524335288411313682, 373819575210892269,
  17282201758272561537, 13868253987348136213, 15371999637568175125, 18132334538133553164, 16490498765236419686, 7756672416249452922, 17648388876726211838, 8423889712606047832,
  12184283263209178042, 11791661164426746246, 13424040153067341723, 16564400703751931898, 17190726767178424505, 13990021395721309818, 16776288715295556532, 3991098108202835065,
  14925725806042888901, 643247738107840668, 12901570015939163219, 17618753146145482497, 9479927737812004098, 16375778917867637883, 9341431473494537355, 17519116583000304348]

/-- Entries 2048 to 2303. -/
def rootsInv8 : List Nat := [
  4860755948766482555, 1314307628167140734, 9505145291933811610, 16463679183836920752, 15267361340251442917, 13151350564865685313, 12943268586406225732, 1923243106245206434,
  13577055196096166384, 2428383779745306907, 13179337706304591229, 17850568864185745178, 16207102872680232898, 17993127610484064960, 18000807210551346622, 408576231409616797,
  5409730719916056532, 1306980593500048292, 4246562329578875445, 5086751890402479082, 5214729783931840072, 3785728119135504930, 12058853458764145167, 18409578573052554850,
  13953756242218394139, 7817075282478172370, 16009941028798495265, 3156700478981518611, 8598029823639439543, 14948221433529641683, 4307443845278323031, 12965243142231577526,
  330328970917932542, 11476177403505470443, 15929749167277913688, 17270448306148847489, 898690939328493506, 11976130782042989205, 9157588203786401276, 16260250171567659581,
  12321493799775151557, 15988373764325834109, 5526066275431278802, 13640109653066256707, 15607596807400444087, 3209457427831597970, 7819538395165345638, 6916509282506293005,
  13758427109549987868, 16013635082813347690, 476295094176324132, 2994575578409672004, 11914682339216948528, 4045534566018938375, 1734930051752324364, 12861303295949711605,
  6802959505555615083, 12202376828466628739, 1761162948934578707, 6157769749860213217, 7732281739431170485, 4207542393792041138, 16660270531881676769, 584139308896550120,
  10806441905224993370, 18436136634028464737, 5483925968059145678, 14610111817677065111, 13678801577898023758, 1300978593542930281, 14011489208518691465, 2912346551094491378,
  4144627446786978164, 7493130492787469183, 17272178740700552370, 3031947782293807228, 15493195819577435529, 5883744825036721516, 9471690214906642831, 3911052515091919578,
  11141729076571155331, 5848158623686570144, 14555334837626851910, 3064572023558181189, 2490710759827359285, 14704082993117764761, 7849220990057195219, 10724569675603972532,
  13359718739135504954, 14079626720402060978, 8519701153636185020, 7619212567025941648, 1866709842259325620, 12254196000250705049, 7966442504368885694, 18426492279709946966,
  18291211460612488099, 2095380495739743594, 14092397468690800831, 3506381323544823822, 2478698818403976614, 17223299507852972185, 3682790668540705359, 1226178846203491105,
  5889623925589102936, 17672405523482892511, 18412138435627659848, 4889552335807164830, 9712947357642009687, 2097683317313676618, 7195196518808065891, 7661481878577360811,
  10201009864203426131, 16118149918212017762, 6964121886645977183, 9349960442239082234, 7468624488153220411, 10378822215206844438, 1675588300384265866, 2448067127111889792,
  4445743943854591576, 18089432076669940737, 15469009069586720688, 7968963745110766710, 4051068369666538642, 4747663274384574356, 17304987879241746885, 4237272213254071704,
  156800911209304386, 10617148193802456121, 11454727644371897303, 17743283214668951885, 14774354139223946810, 7633264034187202927, 6182467792582792274, 2538260010426686466,
  465176324078377267, 2531221999599876353, 6231016292100588168, 12029487450373719985, 4307556375758158368, 15713377052635180638, 7403998317147004691, 5511108575323631262,
  17171163376872183051, 11617593262933365123, 7661157729853408606, 6462266634894553530, 5863899813652991264, 14146188915771843123, 1089821656595094205, 793130143636853399,
  11391837546380651977, 7320625561443249799, 879379806526529482, 12548216674387166465, 11488566800307355470, 17400424617862906829, 15720390883733665202, 14914375921063101980,
  15279027406203199866, 6971311044730832689, 9626852206573533712, 9180366764192869891, 3033279422774247808, 8395949389053038068, 10440767434872710525, 16448968202558516254,
  942191786743021420, 320904096787677970, 966230626732719503, 1696080796098730373, 8059512710852188703, 18241645886875975131, 15092640383929681803, 14626870968025139390,
  12339060324623051531, 9613188093650834183, 782889055844685622, 10456210225034362339, 12883046125598312782, 8362602473887350537, 2990763067465348854, 12087702136358609445,
  2541159833420385658, 6692791911925881396, 8882392761327939022, 12580482738293440447, 719348924991381163, 3529539251768989584, 449881373821835577, 5122830491686359793,
  2302898389778583966, 16384022685156368177, 18261651181859615277, 2761869571231888956, 12373083368783370594, 5619576231991289036, 50867939232761412, 11189188504825804203,
  13289594114635079288, 11095432907268792914, 1712977750585614686, 5886655322048192036, 9237317581756952935, 17502720839998047549, 8350819186394417826, 3289650807776795191,
  3932736449167333311, 6616699082220748584, 13567708052461609512, 13209018033370357257, 9641668296525616397, 10474215668932858381, 6901106420038504478, 2221487091090561365,
  6952787406065251833, 3163483002284387268, 18246456238023839143, 715491508928541182, 13194052656335796637, 554347830414328120, 8577751119305004928, 7712486083202111303,
  10463923536288036907, 570286364464419405, 8235255154767820511, 10631785156734199896, 4353104818983747046, 14526731098137776757, 4196811666183028742, 9106668746822820203,
  9993145013836893361, 568108945688583694, 3248061063234459167, 7854219038787115906, 12369775242839390187, 531247890598419549, 5649428152513738813, 3915723075404569617,
  6326259860577582142, 16023710023084078940, 17170353408374781635, 4889118479518590426, 14830364419987144544, 11277935140929445469, 10367481240632198063, 3248916743072454489,
  13998236951362131994, 11610664111747247595, 5769069385451148511, 6996837759691625200, 9356031957618091897, 5541483471799914677, 8499414116600902394, 13407689520296664107]

/-- Entries 2304 to 2559. -/
def rootsInv9 : List Nat := [
  16939874781047850294, 5336548148297804154, 17023048388733800544, 13840077279413815852, 6061480432757782213, 5171552435756308374, 3467495816672263816, 8644223491436558793,
  4560182418156368011, 11110277189628824498, 11736329268557466542, 2491171809979409085, 17492520915439739078, 6464595981852507380, 11964904649493629515, 6285618891925490517,
  15346653263943304244, 7261901286638905832, 7029741471873648196, 9515547131836283097, 17400142055430137296, 1617901534301133296, 13853355532006509705, 12042000689616300854,
  14235998697893237421, 3076614537016564744, 11265116635371038088, 1934572060940078795, 16639684146097170621, 1341174470858667939, 17350774143431019784, 6034674867927659026,
  4895149748375244155, 1867901509579871347, 3024021188769070378, 12632931190153208739, 5474977221982472918, 16655278925900753679, 2979186905700684854, 71100411573966418,
  17803820521269133714, 1744290333585999129, 1674346696991018413, 7180466332530434170, 9827004128135203116, 13590293074220642324, 14012355906141805863, 10081439237432834719,
  6032934005642249174, 14592148970550080021, 17380794967761392897, 269230858374401665, 7173983909219126649, 1822744884419078934, 1472477801689902085, 8997398464670469771,
  12865493937942197666, 15500110250778688807, 11025628854672562212, 1173642195092849120, 11341288966589174421, 10965917321840471055, 10218759771339166499, 11785406494047588693,
  2644417230957696412, 16610527425327191592, 9503624745242588393, 2970415959571387159, 14525317182299478547, 16438145322120591853, 18080819716762787387, 11488016713604740224,
  14668191930180695683, 15166930222877112995, 176016043202204255, 2431492802805838126, 16431455206967696967, 978542799153063592, 2798154591623881796, 11066125862226314199,
  13340648934021892411, 10348684059745921962, 5133941010630628352, 8743817070465422895, 4128236337037403617, 3811268760748361962, 14433801232177219697, 5447913369914573436,
  8698628836138689165, 10150194628312571967, 9640826148723601218, 5859818680665171711, 7553663060501411397, 11476484214414302250, 8195101776025370957, 2388288047689989249,
  7170958741329976170, 13836478078964474963, 2787092501280977475, 10600997441816062212, 17389209784296427971, 14996558660396863887, 2103338003222411827, 10749343903269027720,
  15384280424864661783, 10374941445618987310, 7901504091096495143, 11287958967283998759, 4036461711774349095, 777463195484750367, 16576956052399740488, 11530498166762932723,
  17587762383661538091, 4115509442751406123, 10885377221726622482, 10748778103376523015, 3607247663790457797, 8736837225336029806, 14038366800067952178, 1991121755315158264,
  9607434455359701992, 5669720949275460519, 4007085247694978379, 13350188460939594472, 8547691329126882165, 5202733950196061377, 2557132138276206892, 17823553385862959453,
  10078661622133447122, 14360625130853083778, 1234971046731620772, 6452014240623982795, 3005429048747227868, 17687383416810952185, 11071776902555531938, 2113479320090106823,
  7618452887050021889, 9207914712202207445, 8093936042388956456, 2833410115131005601, 17109834197192500410, 5324028618775507394, 17823727147645730028, 6827425291792388066,
  3704129982061619792, 10404001180320450575, 17242863473458644639, 13225496686220358931, 11202127964361183124, 10530516690786827229, 7540069035211735167, 5509082132285559502,
  1456985487932046574, 6984288551071716914, 14071115511679134083, 4755792967817618397, 10673072311130452557, 13053596069804693193, 2014241512985597378, 2080078799655348232,
  1763292504293170344, 11350454469463573085, 9322602662508804488, 14456094689759215610, 7714169720631779162, 6157824178700185269, 5466166928593872562, 2963198424988406020,
  3308435470835905878, 364040100150539740, 7684800493886418968, 5678971097417463126, 11692732869897293936, 2291637738713602013, 15982778540218620379, 17336743436261291889,
  13896990412828111962, 16629720188963591914, 13650794516763158951, 3319507168900876782, 8188127640850180205, 9148883539411007538, 16253587307592873736, 14676641193453069488,
  17593186825571528258, 11572885748904670306, 11301252168759104902, 7555750641355367720, 3160875718176994106, 15194789744037004522, 9641929358049429424, 12637968116742902023,
  18200490284928943017, 17561894498672956488, 14855865588987057252, 513159686169650101, 1367585723518556658, 17381832306798094792, 13346146606802227909, 3472817307924232208,
  919881647240674748, 14159870750890118230, 5727683416534740849, 5267821489472330458, 540725389849346364, 12226549516939198109, 2315122835412298279, 16943222179520288842,
  8228237628711174882, 7749268223028536277, 983375409346523795, 5726271917451904848, 3250560206490248658, 6182704534666445327, 1293320648503703371, 5869230266506557680,
  690273786827234320, 15918488520116378243, 984002405677787612, 9213442361995616157, 8491726782085631030, 12635540078932022373, 14623625321526326832, 725133001296310932,
  18019022729494130269, 11514890861586510269, 10853751128911356254, 2082230872930896767, 2575495062464701893, 3635380940709310341, 14078781840655400131, 18259987784325554231,
  15335639456413129944, 9342494468098115812, 17608054472428182867, 12688304051110303058, 8144441999555150100, 650676625196150222, 15681574190500945893, 4658605001257736385,
  5087547067668335992, 6213078454104257717, 6186298473559277912, 5517797612213049025, 9921430923770737837, 2126031503697252526, 2050980747245573934, 5359342404834553560,
  16061921293597565685, 7842889614004810716, 16848541318666048903, 10925520354072126059, 488403849213445855, 9396968611573422994, 3254097728059556072, 13364103820956054836]

/-- Entries 2560 to 2815. -/
def rootsInv10 : List Nat := [
  9324387320718914110, 1619228452638609602, 17239690612722784192, 17851695139433916595, 3184565732268018534, 8622398670916550182, 11919851491803202857, 12580840077655453194,
  4806654163108121643, 3155734241289317003, 13865868291866934999, 4618979136705006735, 11352687679290083073, 6160826851345326620, 16171800123667789330, 5714907290918705676,
  11777302158215969248, 4605453982796802653, 6976546579662798136, 9501536457219784338, 2693103964132835586, 17891875839844188992, 12940341894556585956, 14922096919687287376,
  3909320893865609087, 14676886895266426862, 10183528349074582655, 7878443140739242914, 9953135127623082194, 3644074256422402462, 14719030740381594950, 12129364476631410500,
  15943707190573164275, 9139844249648173103, 16342312245865162858, 4108399278163316880, 11768056784705491122, 17844947367865852589, 16623290628570715337, 8473608119832548037,
  2421973541614693303, 17138621108743730674, 208426028168828990, 14589600306229686605, 18367742103202141863, 13125022871239261903, 8587402321298999572, 1813636001683286920,
  7754759350608388408, 2621182966138156805, 14392866455431116984, 13466186289021533447, 13268402367509030375, 2328460477439867584, 9460824114051551157, 11728336524878708858,
  11475032223894059954, 17452236381053804302, 16622706003344279770, 4100599952645794570, 14248947347598815399, 3625934391578905927, 4276872349051650191, 14129575466233348786,
  11054498954610253463, 13004177553093361948, 2699358173108949223, 4805095653054960972, 10584448491193460572, 2676197689958181164, 12430546816503678215, 12039677087103380101,
  3501151874025740607, 5048711504673556695, 17907731493054234546, 2125345777759072283, 9350839577535402482, 2684940079806780494, 4550806646711965308, 12878930757936691398,
  13470946751315526679, 14781234025515589001, 14644903179476082742, 8497733323920280953, 15609111517086485106, 8852764852466334177, 16974919117689212402, 10887167119603482358,
  8880747074671840524, 3060881611108633567, 4515789345245805163, 13343934405884429448, 12121604660162123844, 5664395446602532412, 7094919617726797931, 5388483261508967183,
  14830382550787409075, 1251799225899793029, 8645123014332838343, 964224420135593254, 14426619997448680915, 11237072432236100435, 4692051029827868205, 12952761588027559522,
  4112009553341389380, 13761186711900768565, 6988835844811346461, 2035216646734097580, 11644491502431705828, 4520998869039516389, 13442515984962012876, 17683351553316449283,
  890210831243385352, 12438550405697913139, 5453421683935519537, 9712324301194684410, 18304451114839025003, 131613134152852950, 13142834081713521432, 13974887880167527993,
  16916797606687148389, 17011223863720561311, 2704870421039585642, 7399382309232960408, 7967133454681705265, 11949475259356813833, 8887152917500343669, 6328703853847349548,
  18383262300423477406, 4022138768973801939, 3703679506331853510, 1759827355530544099, 13978513613135780047, 15539738227803135385, 4882038423020782608, 14942831078086845025,
  8745187829156398970, 12937400269708249429, 13817942999263129534, 10391727095623537163, 13987705637646263414, 3210121964799041365, 9183272666355839912, 16738904147250370998,
  12423723835253969823, 15411837926205451218, 4455414273328610926, 6210241594478689075, 15892419817466206964, 1806235840768708775, 9221500490999601785, 11736315064597206828,
  10993346667604543823, 18208808299877474112, 326575780727819884, 4093895445988461608, 13442313198548315400, 8529562603968759544, 4495261414550005001, 13178719600091428860,
  5102113526064198508, 17417703846339476390, 3300413613162004163, 1414803868708634182, 16236470361044895816, 12168747449118470104, 12897229540280112825, 6445745956243792925,
  15370785322381167054, 13409144757058802224, 13238575876111981303, 17363445390900024447, 15321902176578398147, 3497461750488396273, 5397881675843991039, 9014062215107778386,
  9697824445635002692, 1933541330708335496, 11494198410612454954, 6624819377069791486, 5892863823101954147, 8903158205084763333, 14785495407850555757, 4851989734500282554,
  2368566604227522518, 3412683756618132631, 573797449877748570, 13231450854518713133, 17888812244464596222, 8743352534547115758, 899903287542989419, 7685286917398425549,
  3401503221450549851, 10734819528833114670, 16008632869895058322, 17303607341674575118, 14652679763497311277, 5958858908545533275, 17030389105782441273, 6290087237827800608,
  11825641212482375989, 10254026158671657238, 4734819286078364331, 14805194487636760574, 7384374236921639999, 17213441395854015731, 10671963646256527600, 3362925297048979816,
  11427386419408755057, 870148909439694499, 12234777721110264921, 15982108818634180064, 6871346492674004280, 12668307187494679388, 1360030129171575455, 12772167878905367177,
  8766289304338009576, 13684420254048431202, 12899734883128056345, 13884700818495090144, 6305486567453806034, 11706425794048463272, 3961513313928002551, 978143502826983107,
  17316297893786785306, 8482209399843515339, 13005633082261978749, 9075642826461853733, 6513349450147872164, 4937705369200933433, 6415941886782815819, 17022072695110004861,
  2551659344605141753, 4913995748199396553, 12033167469312774940, 15222205193677297320, 3802317724874565416, 2722860451224877772, 16931159087087709736, 5020389146003229758,
  7509757851344017025, 5021565784370475820, 15281268769923954602, 9817019214371921097, 6895678472790719115, 7948648603972973694, 11041221447089717316, 12473257598513640909,
  1575576081655905196, 7190966316215299370, 10245692303098683460, 15055322040607545491, 8930627134418779958, 3847387772014923728, 1598357431534567881, 1143298662687581686]

/-- Entries 2816 to 3071. -/
def rootsInv11 : List Nat := [
  18031213369411384070, 12135926919447308643, 81717227256318600, 5572693275131823029, 6208298890260215644, 3891045571891183417, 681206910671957669, 15923077487559198963,
  18424849939081285666, 1341612444186174013, 4862975198145185384, 16791610375795958142, 15695223578088404101, 17542630297662268138, 5458787846374225174, 8786056559060009076,
  163021148440135000, 16889958203481116772, 10013547706122227855, 13100896568467967021, 3583750648896101576, 6305114717754618276, 17901152477439040137, 17452148502811160787,
  14008758062697036991, 1912127537209088312, 385015838050000953, 13751130982532321775, 7442100830171469395, 1836027021954032304, 8744557278979056616, 7425408941736852196,
  14834608372763260985, 13845102563220397216, 3713773669595468547, 11569403134814973336, 8477701619189109836, 18163280427579668527, 16575105195025657330, 10993994763482405885,
  3794333324793989651, 16382429647327830455, 15839822133568431366, 2041541097573080507, 15280044707932460865, 3817780615711921606, 15713142070445490309, 7863048737880320029,
  10393653960849241458, 12707433947207883172, 9528604613062581419, 841159171078641134, 11383614495668934800, 12028752366935677994, 8782344404710971557, 12864284993297727717,
  3523348254227589609, 17218532569337445921, 509148459546554533, 6368085310456426989, 18221767686633045272, 1923506262838202727, 7302739643940633127, 17580963291928776194,
  5473307028757204675, 12721327149407013969, 8942738685252820447, 17836235663345850120, 2801521054332759084, 15257296779461305174, 4861570197368905337, 317446960121077473,
  14531040460222330442, 8159531317838764278, 12578562440449522242, 13415178418004841296, 6193234122332466889, 285779117570977815, 17983485825417923612, 5924295550115996184,
  17045204633826718504, 5105725574672370834, 5669671898071714852, 1621166974214261452, 13441422691488545760, 11831052826442853767, 13218180561049216859, 17402817932998963056,
  8087409860781900722, 10891270376745246609, 13618084295678433515, 2718147366973089660, 14816037568292679940, 1142459559212643874, 4764003524952487178, 12088123509944159202,
  17511645117663757091, 11272881641411959410, 8601285095813292051, 1090387841670242328, 771681059896670455, 14802241448850810821, 11103543802649894219, 6674722971979483366,
  10789360285450003314, 2214162787140643515, 15485974935524290403, 12599534126174553630, 10187522154522898193, 14983000183473624078, 6806496665440305110, 13507941387047532209,
  8343758697578022020, 301993928476820020, 4456328095338735696, 5986577878296857331, 3144763181467284125, 1737768347770676926, 10913183037360920801, 4482698819177204471,
  9755979113769435193, 10096719905990183914, 7144684053745077263, 17410210345525180131, 8743232711742708452, 4099340744059655479, 4105971071647379016, 17172043127260191560,
  700099729991591442, 9287655562597209675, 13296958271309508273, 7434212993144175104, 7779196524486437536, 17833335013158531803, 10703545854097903702, 16349615003646846217,
  10832238095741857353, 5290351971785864180, 16532978155791953631, 16427027199033642812, 16129127025657306349, 13174660453337730991, 13546731332006335556, 635843385255625300,
  229083428957954977, 13541257769047798051, 2961030506787462544, 11744282230517843290, 7545997751335392658, 7069752478727388742, 6769243105329780842, 16612288388564821601,
  118903371055548376, 15743308952195822149, 323375708307388144, 9300872769333965481, 3034372068908954619, 12007632025175125931, 11414685810394615637, 12497756379810776970,
  16896772347853515653, 6423412440012560482, 6953890654839356226, 13148980744233909905, 12427487589719941726, 17011300604683154692, 2170867224864489353, 18147610028990364983,
  16797389281226422131, 16929873824403719395, 6843005911210631574, 5800828751102426902, 12129605953057326779, 5535274842553803766, 858281036673458342, 8599428442799232139,
  7532712440474053908, 4408102930149805922, 6958068855278788318, 5300126446773261652, 13968842897790141043, 13277052733812244133, 17465300384511048810, 15804016380521680516,
  15783722069514129010, 5206000040111037735, 916396580154479495, 1382427799049813651, 2414892222035566551, 14964110702981270252, 18059465528789215780, 6654591077575339488,
  76579563642982378, 10905004724047146553, 7612916618477846138, 12382077630430502637, 2339185616593539544, 17100411889432498857, 17992448507357076448, 5339947184105604835,
  885541895361072046, 13095786699254255631, 10819009483870539502, 3541335083560192358, 16519170511374877947, 433676032014858008, 16207066318984205614, 3399773095815852913,
  7652846093265531001, 485114286458326474, 4289973013193445033, 6707766713288522974, 2282898122786818034, 10709550268778825267, 17799356985894141665, 14973941066990331998,
  7947037431929376921, 15344042470224288640, 14290669661758155001, 8399136773886474143, 9829362829838260944, 14187305431436467283, 15708148913442906762, 5006133804332090980,
  14844510430429252522, 13707156749385046940, 7475814221538534104, 17196194391663413288, 5831762203865300287, 12457138868656312540, 16752188585696961687, 18144618203100172778,
  11546706364002724437, 15944269765722453886, 11162451450597881028, 8649210051575612307, 15663973285330163607, 3875622276058343912, 18231977927963823892, 3942986705323915665,
  5420013606401079025, 14805291208718877290, 8108783993536859748, 11511314500900733525, 7560353548981428894, 1020915966514472294, 12684034686630872748, 15364892381870724941,
  1766634113617012679, 16115885690359377485, 964265667384299280, 11360714872261510969, 6017361471500425868, 74125024556826835, 3152996469445144259, 15811994228408360570]

/-- Entries 3072 to 3327. -/
def rootsInv12 : List Nat := [
  5263275559021892987, 6504303860720298874, 17145716116195255681, 12798310338458399866, 17831385939541830580, 7330548313488905017, 17075887378537786951, 15704178979214107421,
  9212953400582441388, 9764278167986776327, 14752507408588996563, 4873578182570079257, 17730404074311768404, 15854382796952781428, 9786317153935652379, 1690083328300133185,
  4491514188168299153, 6036985768685503424, 5787050205413755181, 5878010233158458758, 14101041641297686889, 3145747909322201975, 17170405594039576513, 1200069586874788979,
  11382615464848505401, 2727621367910000270, 3299702317356935724, 5341046167599761772, 17503079771286831021, 5616990811730240139, 16632447646537906528, 9453445644047853836,
  959870727644249151, 772875303029159380, 6012760837200411201, 13890388338587290834, 17566123878992307421, 1880108122921234254, 11691014490546454436, 10133903550001254301,
  14613565831364293828, 1992186269543199519, 119343182935155815, 5888766280356498384, 7398739338496492364, 7247067645732187105, 13674040193640561704, 2914647103891788906,
  13488723781571863175, 10599216183460440122, 14883452849606110216, 17854741392965432589, 1807493023121044073, 7769748219567395027, 15508662565882779653, 8359766363849488710,
  1050636521865603708, 1426150814824966628, 12428569266307158119, 17555086372525406979, 3378269534309820508, 1351008353724140459, 12827788893501468304, 14300579836655922892,
  17215324330496925273, 189701859597195580, 5781941461413714594, 7104578339046528377, 15143278575206387195, 16776685518458284599, 16021322621071792401, 10898583168632444573,
  4157228024196391522, 18005513785852151321, 10055954936149590868, 3316615260819228394, 8918112306515190670, 18163110815027921320, 13374450729186507369, 278317983746223464,
  9943928283138196278, 17412187840256282945, 17464577649206656885, 11499841330039749174, 2590748316230779438, 15381195927388709921, 2757321628524510671, 4871603244250129383,
  8285175044234948113, 16044358400043317019, 8340784795953825221, 11917743343407325692, 4164876930425139076, 832205990577201395, 7004827286814797713, 15047639214927220036,
  10116704207947315659, 18112870010042295653, 16837079591365726037, 13581178038187311038, 6519117240533159397, 3825252751724680411, 15352800850730863921, 7202574309500993229,
  10776776254984569857, 8750272088121402627, 16468611760400145888, 10600514770485168797, 197534982881620787, 1011303529133603604, 9203885125922877560, 4359065412438958367,
  2542559875483200655, 15558410795974212631, 12899330818749105341, 18076561938837799393, 4129970744855113411, 12937846951787154122, 16959627567487833806, 5274775982097745250,
  18232075714232194219, 1017676184062762277, 18208475469794176680, 2228965609433007367, 5474738893867256990, 17962257183922695751, 8347602055540119343, 10984550483169136252,
  6611493883266729627, 4953728086097885825, 2879740610109134653, 14395194624467200165, 14643954990965284385, 7806882253135602047, 7887825467790126596, 2454275065846668882,
  3730374645107055462, 13951742870517245538, 13758290480222195863, 12760766111243564819, 14189630019129571163, 12607390373583402520, 2684583507638773964, 5637773524799509447,
  10835649788767973421, 2166094366180263088, 14485672174649797381, 18112697031348432396, 2658209765444728291, 1414212392321075053, 11509210473242770391, 13019469370212750753,
  8128147989794065195, 17085407945594149885, 5097923136255678098, 5788385577312894937, 1464210046925975519, 5873497302627108208, 9365679701133885091, 917128855388900220,
  3434132969996857246, 3961832574176237074, 13615227281517583195, 5946251572978172380, 18054002645557929123, 11733275157023106430, 14335066915969688297, 17506519003659551557,
  10279696713701108055, 8596690331161530983, 13788409446610402809, 37061869731578272, 13182364851105131685, 16422146965031767831, 10237814614074205268, 1201536576786493590,
  808360488926641220, 9021533895785323828, 12186491585639910739, 13843876680939625091, 8443534859727308671, 7100376254391827654, 13619460043848722123, 5742866695796256758,
  4981544433399088819, 13993997530911053339, 16188153620823839253, 7796585862065734452, 5684360550774590845, 10380698623195743598, 10389385952075161922, 3148001628597853247,
  1538982765437205311, 10775448426873115820, 921221980744795492, 13119480497549848132, 9114056932054377021, 10543077063362073107, 8623672501850709798, 15290395527328066087,
  14053732062150080788, 15203593641297768257, 10471456225760369316, 8046592267979850849, 4488163311478083811, 4896201344134782677, 14028063523656731611, 6972814311956006245,
  1184128530181783675, 7555750507829379891, 17198429540304285136, 9062910527255355589, 8489211325006942037, 54709630398627409, 11424442847056954988, 9409150650480412388,
  4962462308585624659, 16071614398116110735, 5972920206131814185, 14346051343827293784, 10542540762578010531, 13103060910424469477, 1842112048842334379, 10051607274040329019,
  12077069849808351270, 7573988689889114011, 6502170826653718829, 569603367681005507, 12363211734237607619, 13436409346229467336, 2575967447350809976, 12445589536457199916,
  4325352765789600617, 16478653877264464997, 12634287313605120850, 963586729235093580, 2456536976466855176, 4072827466651265898, 7861974064085694702, 10465765415502471339,
  5069173366368754301, 8165663657351082870, 6395044287232681669, 4409337600703741005, 2824663404277355552, 8017360975547854488, 17028488832152171483, 3037236357154009157,
  10276463448668099097, 18126529565531473962, 11017687082746602724, 15752457701597716768, 2881337811638743984, 12835009840647747662, 4648698010397955703, 12045336010095860186]

/-- Entries 3328 to 3583. -/
def rootsInv13 : List Nat := [
  14037833150223415027, 2997700570491165036, 4531741975510974817, 13340848138611043155, 8813568919811233268, 7052202715962418128, 16261610148531057350, 13465895592789311892,
  2314711275162241304, 6861692339590430606, 140434823480343312, 16834751144476212193, 7220621192281692000, 13847540639293415293, 16302838318934901875, 16143529788843764975,
  2851774954435667232, 14348219598960998558, 16197204675780267217, 13861540166136433757, 13329083859351511859, 2406709415936366185, 17038325764244558310, 6216135490531473808,
  3804461112380914040, 4509046842968133901, 16984239830903139191, 9108877789526173150, 14616672869029042565, 5795309395076512338, 4932907693149221672, 8732602082029573871,
  3452638575058670883, 8125568334198187809, 14423769505829766257, 9879368691072384999, 465834167459553484, 7443623258691723623, 786510140782884110, 16481192883567788733,
  8577682634699841988, 15599864090551529307, 12389722845504531042, 535650147647684566, 7735433846236593720, 16927440091646311505, 14628009774907106914, 7817775581068026986,
  5925352941515781524, 4812423181696258082, 10234133328488657201, 12697088004366329676, 5245438590743324440, 15024190998262565492, 11902968626741523644, 16438003654114804807,
  14557395789957987976, 3339701451109076159, 13918338605599254633, 15605784541956457754, 15792980455220137565, 5421291763116839827, 15317222162065364108, 6390087041615904969,
  3121442781627255946, 9172108392196353915, 4377473912926427440, 268791261397180749, 10162724039454924849, 6521370214527172476, 15358630485374764015, 4181522596810202548,
  2660242770002759609, 12097279063064817665, 9549820033584794095, 12010219964442533069, 5904988629472027231, 17546209983705190023, 5678043745184063224, 12924966875896316337,
  13225889487750043418, 342316275665641425, 1018624846136929277, 15891043061702515002, 405463291244412076, 3490077803087731570, 7381880688598859891, 9876501465723682896,
  18065393278330137050, 17944346451110231578, 474086701079393464, 2845397573238249086, 17424147679790873093, 8939274038404813354, 3292045779200752172, 5733760098814765098,
  14570647619662038274, 10456297203829550130, 12155951334895569375, 11138363898992132880, 12893708948440655104, 4603279640279041130, 4039789388965249542, 1711542780161705596,
  15661070645830662718, 13480574183857266256, 16985718259488606032, 1669305675918047470, 4246064309472047518, 3725008639594837370, 1319176889611377309, 4435721430697907537,
  17403215982757028383, 13755054711528689980, 6570904509758806116, 3367102861160498741, 9936023104529708825, 5619150016215577299, 13650043735525402667, 8508462938896308486,
  6409447704584818738, 16484751418931404849, 12703510568354828850, 3086159337551070738, 306309798852591771, 9854265736377722888, 8422098742795502081, 7228793310491314471,
  13416422636553711894, 14936311096393568235, 15901872030747552563, 5859278489494588240, 2499332175892433618, 6617315745190894675, 5382342946301349522, 15033759900696642893,
  10669974973884259208, 5496491410405108581, 2447191217888789452, 4306091846875757072, 12929583120137813690, 12640235593311735886, 4475651474467840890, 16741605007901073493,
  9589899079297598824, 16008463704741427469, 15148566877405360958, 3600652461845258647, 7842319470567624043, 1341113613644310428, 7127171692904377216, 5206139672875748078,
  1080103283870059500, 17046979241241662374, 8510357822171692710, 1731373389126431957, 5130607819684719613, 12160880099853478975, 17214565216617479405, 4825080194473454594,
  4977356528448130637, 11766781964578071020, 5335235905991237361, 8402579305180499442, 5988743800651116476, 7253369063620921681, 11911565438343890496, 2443681663607075816,
  8984339208018932633, 15301162249745218296, 944722337526191935, 12377019508142461711, 13205838087018891078, 2455268689174587563, 11821872449078207720, 13525614174911426695,
  10808309235570380094, 5392593920047671334, 15564095890121711121, 13499666733512992485, 17955485481909642952, 5557467361798173935, 13763329747802595524, 5814746702412748981,
  3506973051147431005, 15700191186887652142, 6581909348717241357, 16134478627403967684, 15199795591987795074, 905209216666351374, 13594130585588499333, 9094854266615322326,
  2142114990479015576, 10793396133543728270, 5899345991685121823, 6739986474863400838, 4924270547624388746, 2680761881072333997, 11368016199424522795, 8083939614783980976,
  1704000734774630906, 3147015148120922046, 5022090592992266334, 4689281956159633984, 7311787013835580276, 10922810007404482531, 16315520131923580020, 4672493003205886087,
  11077521396163508362, 6612412799017240129, 4153255028599777606, 5685311408824384382, 14493123573577873068, 8623271986722934831, 2169954741066122857, 17867081658613078123,
  12046744580807900297, 11899635369452882753, 8526697492238999288, 2495717650281000851, 9509730037110199698, 11761064385618320996, 6810842093549573653, 1790668696545517850,
  17549434284115833175, 16472375808737427462, 2132774519300106095, 10724108817738870246, 5887302268899347199, 16222598916671543214, 16613802885615272373, 3773866641859354791,
  16293279513947237501, 9305503398030971615, 6144382238963935610, 13321437626889424445, 737927160434319159, 10528530647827441892, 16031928707124079550, 15536258925606182032,
  12193779353470041009, 13055862032016824436, 9424258835886467023, 16888959698034591100, 17234298571687657352, 3318224842829394985, 2931298329566435247, 7098914322775114123,
  8707580771325166242, 581497098147279620, 11155917691982756461, 14268415282967987692, 17315010388709869457, 2100382030053434724, 12345416183628553632, 9927618712000107167]

/-- Entries 3584 to 3839. -/
def rootsInv14 : List Nat := [
  5708168103585145226, 7500243336064526821, 2421103688971710476, 1982699764656913183, 10892953609498925227, 16174217367547102560, 15155977016359649302, 14570782113128231745,
  13234534522631577853, 9665087165049515485, 5027000242942889820, 8849786970610023464, 10349072889332157344, 12252873491894071730, 9489098877721629036, 2678988646861677131,
  11432059685064604728, 14863921500401026191, 15220367904070093724, 12006253872525467409, 18105601659475829615, 6327092189831330854, 14679204790393112408, 17690452592588570898,
  406486213305517763, 16205612767999850607, 1354583183616714463, 15019569602292298450, 435048040205418775, 14113285486439856381, 11635277764889243096, 269628570278325657,
  17224087211219593119, 8532043345975918031, 9519383574526083858, 4021318444011853489, 6633092205542352827, 17321269971823751064, 15065840298292063652, 445843092171147660,
  3540255129481697167, 16611581725928196933, 5089301446342392598, 10035913768489599386, 17423877200258257511, 11344276540046575454, 8245450047036528669, 6732935588024709144,
  4049515035427994268, 352204614907129664, 11671569100122895839, 3270011293422439974, 3530964053522060740, 1964601006721207541, 17829391627077487265, 10666583871336029175,
  7373076696025683131, 5839431583843317056, 804825524011758412, 990393024901361960, 13377870575228609247, 249146146321056073, 3825207363888240808, 499200969504280412,
  2919183909413767058, 12855432186678994392, 8569118144229614714, 856997600822052209, 11574899788591778626, 6782216067035374251, 6063698900288172684, 756799746799549869,
  9484043511337550638, 3864919126598797257, 18432586547711417345, 17750479875973551955, 1689771858472826674, 15983252945166794454, 5824625291020143982, 14403697114125817716,
  13560154889117534528, 7918909202184242324, 14765830965855798163, 18272280299066573345, 10872747073644783012, 4411194091301682839, 17919839922691444664, 15626842585452793381,
  13672792512472736258, 11777421128995554895, 11167235117171567584, 17202983841139713565, 15234276617850726645, 13394551099259144494, 13696534669511961152, 14219460548361738943,
  14987067118207019911, 7446345245414484499, 3769487868579683172, 5868295367000835879, 12967010948247354879, 7287983530833882759, 15401535480484622546, 10586940652265456729,
  14326002980930406981, 3055105843894505235, 9706065353257299516, 4633780776404205440, 12175579886213301933, 2078324661299676256, 146899623117970818, 9031812914312945802,
  3180572799706452656, 5101209047767631346, 14159097413916045626, 12691097250019336493, 2428496981253856804, 1957219298186935, 16619703181851116492, 15053537605742038051,
  6121554149738415100, 16071887822568026363, 16166393073535038862, 3507628129845636871, 8747326603667670008, 17675993895209359209, 12127256959984195660, 15173144350188431079,
  4757861925240369040, 8979985708583105005, 13179048543338380912, 7847035440644503977, 10931752494366948421, 4537458047359695547, 17747995616772153968, 11761715549588978144,
  7190106726367013295, 15324063621821760167, 9807358710339124690, 2121675931316750964, 2171077077931947527, 7485516756055214416, 13564736285155024782, 7063803266355385457,
  15153883665601838780, 6138818647423064336, 2537510534002061498, 8915508033588052730, 13958828511465020061, 3647038632098997064, 7466171280960822113, 13475259624486042622,
  8221688785482159181, 10427867450860647251, 10911477312869175379, 3611136110536465052, 3470675441466688898, 11953733368863821321, 14889591255655539073, 11592455997773768284,
  864883523371908640, 9616582723954260692, 428173371364223875, 17154264183961660786, 15017653290045390456, 75603470821691708, 18172450085852727029, 17275621475191432618,
  6623293366942627449, 5202572658764293524, 10478413380194333560, 10072394535775810854, 133630146606357500, 14136086038992338820, 14494655866261717835, 6196444587826202494,
  15985044173814937418, 9027635769702696465, 14361662119761580470, 10582555313974441648, 13719978844292594776, 17358067952980724700, 6830100694840312761, 10892840347401457285,
  12086966678844561641, 1979880123389813747, 2914699530112451112, 15636011847290221056, 10051554952041950922, 17442683217065151761, 15611889652174013453, 2307338874865691920,
  13674119789019789673, 9003916265638197089, 16956047689386068246, 15850061352709440336, 17899740666859966147, 8875398261899531521, 8252425254957169230, 16755595981023708000,
  13640574465605468312, 14916724198531169947, 16403280909603289415, 11622724199961707008, 4496026956927384601, 11733726924579298680, 316823309563742046, 16081136457660601838,
  12918341317570138140, 5147628052993459784, 6095973380033521025, 8654569138345021713, 17636214677620987324, 4628828083483397308, 11515838629917867662, 17356432728235825371,
  9837573263586983901, 3038788968512194371, 9705896422634324634, 16082414455815957917, 9060517175763447450, 15300269991723561144, 3702010830766726018, 18421273390485585969,
  4488294441107315561, 15428730643487440937, 14177571604136893515, 8474610286211350755, 5277593988301612974, 500523231196817716, 13302230615249869772, 6550383122283431420,
  9897104874033081976, 50697132918469891, 15949663107915772166, 17741024810747617993, 18365482558578559516, 13854464920842242764, 6160057742014222873, 7904427594030608585,
  6173779533979820606, 6422814785296744937, 7926200477109663626, 11992406001125620600, 1646946406064327633, 6194560732248302748, 13100216655839094214, 6571774812275353958,
  18359835382601968380, 3267055854566604884, 7320527918233669341, 6019790046454117808, 7677208824559993985, 15854799557404950890, 17466665960592853641, 3813351224089164976]

/-- Entries 3840 to 4095. -/
def rootsInv15 : List Nat := [
  5233250059627812078, 5148796123956674262, 11955232386240677448, 9654222175118157286, 2520664174996980059, 13631863210177520209, 17254577481212398099, 6190293975689766788,
  13132868642651687800, 6992203677248132237, 10701099010346139870, 10261502619482128753, 3803185001863032395, 15153131466435238082, 10717594682574601395, 4077928116999815197,
  3491828553005652618, 7105338329039551668, 6885124573337313445, 4489284966777280409, 11417428398839087534, 9352104394938379276, 16312623208559867097, 6160886462674643524,
  854783790435891877, 7630809320152223697, 381720384271823580, 3086941435111165170, 12165188373789320826, 13042750234487890267, 17175331492142316172, 11918245873866296322,
  15203534647660740963, 7460460865597998000, 15174712608796043425, 7638627256861583340, 4533931806415698172, 5363478279525155087, 5095101473827710038, 9784387203071665483,
  16729574146611159413, 1721062298096155740, 441056466821571575, 10329853934091269211, 18353752594445946761, 9162074239454102635, 5768069314080590042, 7994609336470491600,
  2439862607734297445, 3025186794431806420, 16920825165851950166, 8507276249071999292, 16542296455269340891, 18420357139473159864, 9658845874664843432, 14665941976684084230,
  18414172184722470535, 14955933070472602935, 11587627731160709911, 13176371777068085760, 2404516386590691509, 14488883541089549376, 10919334703981302120, 14439679023185530147,
  17931293043108173618, 11691459604420241670, 36657150305694338, 11234996970327636717, 4628125937902226537, 11184373757593950288, 12567051848518479379, 12613362339683541601,
  141505735326877080, 14825429206928266338, 11938238121882784581, 2437361842005785400, 15713266059258225200, 15298281860420147583, 13829345528491008530, 1235467157733814082,
  11011168529956831980, 7339910291201625507, 9407498034804299495, 9874732470710177986, 14676252115866680185, 2774921304531822043, 11275693802660753903, 4579737855098217471,
  10441963740758989301, 67214067551651765, 11391167088849558084, 12473539890115067917, 12219828939923932645, 18272633327344317036, 7938111394487896375, 14671317064802173031,
  15407585343176663909, 2812150290187713027, 10845144191236337361, 10230064095718925607, 3005300977746667965, 16716333631094997939, 12246215927837553574, 4055473626305880221,
  8978952551224793085, 12705352987406837893, 30435079787725135, 12959975343282953843, 537537876204324545, 5435319099846524460, 6155103822865852018, 10580057079678124816,
  12555301374736122649, 7095642468105364743, 2757025461933174811, 5117636384650248964, 6415786061692717146, 518270777934699715, 16542911762783007883, 15850684355557327331,
  4737775769091554372, 12219926182313930090, 6246839524215221749, 14632910151695770280, 5571814650052750632, 18058993853751547987, 12155002310576600868, 2366782072145078929,
  14273624183795589235, 14010021186423536550, 1862538764682801459, 13307410472256764796, 17801369034032089148, 7888074241281017832, 17854158784050227334, 2560009504942825229,
  8712405841893601966, 133848904507420031, 15867727186477043785, 13173868501211920068, 16101706492558094793, 6743647544827571928, 3916716664918782589, 6120270966155622149,
  5925944558171331991, 11483379901112733201, 8124891862614153530, 9810730392369778136, 14385163567651935257, 1754779304804884662, 2117774340844837170, 13257543235505503960,
  16410235309529586632, 15829022790159229087, 16481627457273424726, 4394288516359534462, 5573570007866571318, 2342604453950756397, 6374832708796755943, 5861891110847410769,
  6339511046115030497, 14183493030104716333, 12444015827412920045, 2192623704004460607, 3434015330821804122, 12415780201433810647, 17004836898359082085, 8970119965382277853,
  2270066614448874467, 15209651167624056037, 8319765963440396857, 8467719473279678120, 5993807089206579786, 6924414093677865643, 1962304183318942521, 11336594818367890924,
  10743728341814083106, 13996126879708008926, 10216061591061929673, 6865034484565018572, 13540950857180135959, 16577779827363108648, 14234346998738044713, 5173718615137803420,
  917148307226867153, 1839494649565679981, 15077196991949119815, 2807036919601817624, 5082758580205533864, 8638105816290310390, 10245979036204382007, 5566294390071223561,
  10221628213959733153, 7008262444926906711, 2273738754334006428, 6571089889219917659, 7288980700917562893, 1096502582214921888, 13969567989351549835, 1445066992921605517,
  16780100486722709382, 7194621209862693059, 16115609204686171382, 395486442571285982, 291949406239575225, 7949843303932590032, 2207426766182501491, 12899972529084076440,
  11983508172588552586, 15086802729933376112, 3891020798419901970, 5643182769686226471, 1134565773481100425, 17537423920508092518, 8903461766053941676, 2357166974264800582,
  3120114936720931127, 9360953076958484842, 12676042155624921922, 9833005397102465722, 2496930344025742891, 3455081912248270014, 9604308787329412204, 10501253034969111192,
  17387995395404908252, 15768870688607464691, 15250667661300250050, 9252203734689825077, 16360880772884259354, 14648030351068965559, 6774191774015414270, 11629832606416106079,
  6907363346221437881, 9710656176089994269, 6880156782057343789, 13171068070281765290, 18187471390019381398, 3154176843784085070, 10594769374164008671, 7169435543342894758,
  8231246630253486085, 8200836556950673517, 14534127881274702474, 15898048523730225315, 475981807363362122, 8076393159562237852, 5838264841914194573, 15320668694796495714,
  10278270519822254168, 9073596041031195908, 9377762911916735762, 7699930494099287302, 6238531701392549530, 11699884076620104683, 13458936088623568497, 12470882409049843570]

/-- params_64_4096.rs:1 (`MOD`), 3 (`NINV`), 5-4102 (`ROOTS`), 4104-8201 (`INVROOTS`). -/
def params : Params := ⟨12, 18446744073709436929, 18442240474082066461, roots0 ++ roots1 ++ roots2 ++ roots3 ++ roots4 ++ roots5 ++ roots6 ++ roots7 ++ roots8 ++ roots9 ++ roots10 ++ roots11 ++ roots12 ++ roots13 ++ roots14 ++ roots15, rootsInv0 ++ rootsInv1 ++ rootsInv2 ++ rootsInv3 ++ rootsInv4 ++ rootsInv5 ++ rootsInv6 ++ rootsInv7 ++ rootsInv8 ++ rootsInv9 ++ rootsInv10 ++ rootsInv11 ++ rootsInv12 ++ rootsInv13 ++ rootsInv14 ++ rootsInv15⟩

/-- C36 for polynomials of size 4096 over 64-bit tori. -/
theorem C36_table : TableCorrect 64 params := check_sound (by decide +kernel)

end Verif.Ntt.P64_4096
