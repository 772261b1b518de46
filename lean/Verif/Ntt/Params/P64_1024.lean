import Verif.Ntt.Check
/-
Generated by tools/gen_ntt_params.py from
/repo/concrete-core/src/backends/ntt/private/math/params/params_64_1024.rs.
-/
namespace Verif.Ntt.P64_1024

/-- Entries 0 to 255. -/
def roots0 : List Nat := [
  1, 17726159337136475521, 10336469007148322353, 4107289497610371514, 7360900962710441247, 2246618276830467408, 3294257325990827601, 3094477653450497403,
  16766384729569763187, 18066223986296516871, 2411857022065187517, 15060069152514721711, 17042641852703813704, 6883220462445137757, 16880018833952873619, 13399785099192714371,
  10135772086632317746, 184508088348891437, 4026124603406278782, 12421950487379281251, 10831882040721351345, 14636442955877232346, 6785607074325973479, 10719103984580341595,
  4184073996077722594, 15192661596659874776, 5219297436934038081, 947279474168942025, 17982747622807119623, 40890508918942902, 15496822938906020500, 16031120579301653138,
  1723819471793822105, 16494936744328936854, 1526308010139450656, 3107738895382912704, 2812678407398705248, 3073132156720726316, 17336741919700190691, 6916601581356611730,
  2160389145965194955, 6103675515379554802, 11794325332073126075, 12685562913989246830, 10361415093261964378, 9553256573001961350, 12170096020853621857, 9552622248001834094,
  2659540569332192082, 9871006944658101888, 17866954468909039058, 3654530265115245664, 1474007893399669207, 16359529466271620901, 1468388155940156780, 2743507541324512469,
  3907641688470521259, 10742022365901905901, 9312483958896959040, 121120009692013329, 6136752418366672908, 16327837551124316751, 4148663309033642634, 6265157533189854817,
  7809332467830295714, 9992281836003923215, 13992534139469632719, 4914115026334547324, 5734656673228178477, 438334390107482332, 14308554049149677409, 18051559901102654922,
  3197343448233750368, 766297299764979788, 1223800744557452364, 12771444029442691003, 12862560128280454177, 16276639205657848780, 2266955517408217235, 7230828384268226410,
  7130311829637889553, 16155632611476231857, 4496515566159260653, 2414781145353630831, 8153778615063972725, 10720122743025933367, 7978289844598029767, 5575256286289545810,
  17604642181593191748, 10512282082654601769, 9325267155216751905, 2384418027833518626, 628909458309059692, 14556777688709993158, 15054333265783521487, 3131191180568506273,
  16948733755963327900, 14774864522345355146, 13718271459513359141, 7017858027649214074, 2329073470944952233, 9888987391574560138, 1477093161317362390, 6965610225304113285,
  4415463217525974126, 12292915674445058784, 1774479983140665466, 13778838438511328618, 7757846640011511944, 14487058411565116150, 7518038948062138300, 7520350224243710521,
  12911726513263574311, 866436695189140562, 16359347423673957481, 11369796209105670698, 827678682574934671, 16054720596890166569, 4513197467214997021, 16289678937049414628,
  16528655249071241347, 14561867259447678788, 343566353378867193, 2639810859049153377, 11313271413787477728, 12787136763182429935, 9145413470140382906, 2847227376918593412,
  16582528156526269418, 672216689722244726, 16610704985789837864, 14281779419639040800, 666754433679440763, 7287208536382147921, 12355351739799875413, 17066682727390846048,
  10874909511472951851, 4389170874903106644, 9602443758440416470, 3550054700438763288, 8016659753580883464, 6698060158575353206, 11746569696374944735, 7799831439419526867,
  7700442941102372464, 4638534132588643273, 6980331646208508287, 4563804621543399840, 14398839939699696322, 4308549336849652467, 10301642878550741835, 16672783855429512975,
  15379164317447905398, 2107026045720721876, 11618291441121085778, 16931437035728382290, 16734140839240062483, 11649453120220969707, 8219107979524799817, 12750786611591450642,
  8291372273410524886, 3556010777116589141, 9486142710356386762, 12419867294142749724, 18208610253456852843, 1136784548903243507, 13703091703609426340, 2877668068253418291,
  16880295847140003608, 17113103866298204841, 11083398640274897233, 8611741135984834252, 14756362962352599980, 8759839595153052578, 12994960899108806247, 5645890437211973358,
  8315570383587344197, 10974290965416281958, 7433307340845467902, 7391664881303713820, 13147678953245917903, 2729088951597973889, 6404355354875633527, 7168411386214841568,
  7287437283013317393, 11670756924186932461, 15003217807919753001, 17177914375149076963, 2831281374957655958, 4924494931160940442, 17811137426618598325, 6128703678595368759,
  6343549632142671317, 8504072982099537383, 10211370106197085778, 9695976580452507784, 10071423360502205214, 3510389547884920118, 11425876958316592846, 1656868302853146820,
  7600395712624309886, 7044581329974546000, 12842636498084296939, 9960173841363985604, 14190124668807328871, 16319817313326781098, 419282493252955969, 16386508724541722803,
  3197219125762630920, 13634041675019642777, 4679680391116545955, 15160204459723345947, 16545418360531446161, 4045763124731515458, 18020592860549714946, 2519378147937700019,
  10962425847460253032, 11048660263233447716, 18329131452725449748, 17455748639825017660, 16854117897505200868, 1752307060522459569, 5512403567672781012, 15212490889996613420,
  9511846951438159006, 9931364922408773144, 2950706731063258862, 667639652309231357, 11819098605253298889, 3285024055384857877, 11338603909668685653, 16682247638493996294,
  6206132173571976622, 12202346895462343907, 16740463144359038997, 6614007968361625578, 16346969457060814485, 16589524622764334765, 13666017538230424069, 793799556330021822,
  11489057168103961727, 10808023035387708399, 10867510309275084081, 11567378161235443460, 10783628745590008348, 6571924408323664752, 11546819657467771268, 2558186312101903371,
  6486125637702767142, 7808167115056157970, 319235251744749470, 4809307273541950279, 5738890321492885213, 12089938008706898766, 12967641220198548255, 15564258363797734555]

/-- Entries 256 to 511. -/
def roots1 : List Nat := [
  1254737655278815118, 12914553162553833363, 8816131441518109356, 2727167581675667568, 14091828185589812771, 10759336997011554606, 5790496668423994865, 17336577427970401566,
  12607325417796027689, 11641599080212343418, 6584500521164481888, 11754910614286475217, 6568228662130941541, 11029437505996579299, 13387813999788790201, 16294293639302962184,
  4226599841171769922, 12843722583814217629, 1929806267909222176, 13907470240898859119, 18132314242226058408, 6415213092352112801, 4786970863716941527, 1725170604908378426,
  2322661904680867575, 10248377026555271674, 17427014708482297839, 4157773341264430309, 14836544385846026855, 17581805976545647789, 17614014676769202214, 14976961433383966221,
  7770049772356755415, 4319789618234584388, 13446011681648825174, 8694981100629035386, 9047455697873212132, 3456976696763660632, 16108945162493531648, 13066241425787047506,
  14032560951121785997, 8103519151752620165, 1429019586000707534, 18237151825875322230, 4029195695749636123, 17172450110170524952, 17721443197054860079, 9164176720560183118,
  16668181018089514585, 4049816136678804636, 13963197081904661131, 4874944726453346033, 5043337477278094616, 3755713129406869404, 17005183891945177917, 283157081854904633,
  3250401816641719464, 16666726409432449025, 141660070683467639, 7872408568808206445, 9161680987923403088, 7201228378629578777, 15821093610526656109, 8158613062663362241,
  4046605632108425699, 15868218122418465002, 9937481736936858523, 17291355563172845079, 6019472473962931608, 10250472771283196059, 3672901010934599985, 12890135811010153264,
  6310418340442498405, 18262446802702844143, 6385949307414749307, 8667394339567864715, 7910905069114853303, 14740163402412105630, 13554903355025423077, 10344488247984992747,
  14997731076320456456, 1413534785735985980, 13315985470153851000, 8225662039452013164, 16647609777934922276, 1202571848341096544, 15065198933740207531, 17031162539088372567,
  14593453972987216790, 5280873895863666892, 4518211745826463745, 7544282217924559941, 11499364107962225178, 9795928155549098708, 14172937339555838735, 6782003996914974359,
  14307554322500843394, 7959743567242031821, 6845748708023508539, 17563316713347523055, 2410611311036034254, 2042335904958003770, 2551888058969627613, 2323880805948290132,
  6008855189716561106, 17269371507098092689, 16103412567587588794, 7069216298112216545, 10930135923185434376, 559833486201948275, 10875530070152544677, 14638411462193090887,
  7337932088431060705, 13653495542215079666, 7642101670681392076, 15766870893858145716, 17813817552826550682, 4591564140608149544, 11844637553961863968, 8174650773805072109,
  3114308088233902721, 7057821389332158721, 14697327223518498619, 7212608587044180788, 10719835234968246564, 7864525696037981263, 8776287285181420984, 14258345576366534802,
  15088484393489175471, 5711916555710889654, 16579694275965401205, 9069856435160283802, 12214732878604425559, 9342398254313317073, 9342906178048183005, 14754241162722335421,
  18048938413762352578, 12371761593649845041, 11622874024673735317, 10325065837465066020, 1993723552574426091, 16039789293057769673, 9810173804293090357, 16593225128982463992,
  6654901806483103614, 14799874879964532581, 15781175106856829379, 17443186119438280813, 11926493126266718524, 11293686480623215211, 18289791394846161087, 11107690429797891864,
  15788452068120402616, 10119081004654322718, 10011165009285819255, 18319685680523537379, 18168454783949177165, 17257047273423336127, 9259525982683194636, 17163312393655405427,
  15282327923294330746, 5281816484940797629, 17766761877653770976, 3096372409670311770, 2767970671193630494, 11890514042277760483, 6586096503602525225, 3190684253128181724,
  8737594385591544919, 13066421315270089837, 4376333659228763385, 6457790598197045238, 14136639521888711098, 1999290648287520122, 15347380490820885010, 14122633782122100754,
  1206396126776640167, 14090270711317029335, 14634762628569447959, 16804711363783759125, 15034299560841815113, 9046389501364712867, 6355134185547454793, 2909456692194195359,
  15551187699890295181, 4029802278643367947, 11485234116892532430, 5609297021995817420, 911678053167995723, 9632643047267170495, 1453379634826239809, 8779584298881441277,
  14755042710681177375, 13677450266956466973, 8280227094826490503, 8484009617793659571, 10385045447777422007, 18385995007927221908, 18343266310297482208, 8680298331195022252,
  3112752128541311886, 16184590855741108379, 16924863045664198128, 16218080631650572615, 1433450986958702819, 4410538914006926598, 12268306861543057525, 13997294621798387421,
  17970545107774647794, 4635993653952204015, 11029055696739846292, 4210636327340881362, 17267169515115019365, 5723020000071301693, 17265140314689302028, 11165732671691011480,
  3314396270699887725, 1787235927140055407, 6813740268872352098, 10985555478535702676, 1954104788171923234, 8612399942814934187, 17222930442905103554, 8541695217915440985,
  8395688805716958297, 12542614103202513081, 12071586548179697368, 5925976340122826856, 14306878580473721358, 7273765448251719059, 13011502216323271275, 5671190490235388934,
  13335857098462172199, 4689860359146477404, 5087860142741169844, 15255615138635100857, 142133025901353800, 5177651810433533206, 11110834982983994508, 9152491203972686990,
  224010346672560443, 8832754254154095158, 1118276697465693763, 11051457746997568966, 7448634660577055265, 14855770589514096369, 6282993326763698984, 11134587742504790619,
  16000437000950499014, 11268811758009410934, 8611308334191606796, 15801798777803842050, 12942654256383169221, 12235994549838268963, 11517570121508149586, 4603014118185064580]

/-- Entries 512 to 767. -/
def roots2 : List Nat := [
  3995848107716859512, 6545537375936172486, 8766948399264835529, 16208570864982518055, 18155191135307886936, 1266848862509451285, 5614883924204534116, 4035475005925433555,
  2220034813382685190, 13270115015980376601, 5760405286198526300, 17399693921206086188, 16450203299218488661, 338875869397973066, 1577466943525247661, 14040325103389935500,
  18022376134636495609, 5190516735869487136, 14944709969850894621, 7808715808763953090, 8744431926652400683, 4568621183537411756, 10446262284104339018, 3938790832004962145,
  15467009693304113247, 2824732903260783146, 10489981640042253325, 2358719642246108160, 13971981520968634456, 12738158686263113228, 2978450048080595489, 7926600761903264207,
  3380890081011061872, 14784901395994290565, 966608088793085666, 12026398653363745573, 1968744155946529915, 1461541104209454191, 16685238649106136944, 14394106381083252319,
  8138383412723043531, 7690958016733545122, 4605684750668807067, 11430610185593401248, 9292342896063039463, 12130628939108112863, 4850368574175342485, 5409773690537298280,
  8898264543982425938, 16308799339432013359, 9087171215679165442, 6203969369598802835, 8202702367845168477, 11464580474879285129, 3812648276576419939, 5519885854507475051,
  3884212487375922640, 14040562838449953404, 18166360258152549488, 1703682519739474231, 17094257494987064427, 871069064143857059, 11722944826705761004, 6678057945069077132,
  8939182732083907425, 11873291368353778568, 11920905305654534138, 5955427075634437436, 5506514782528481131, 11864906529582582401, 9188891138794785745, 2289677150373221744,
  3838122105662774877, 2847831475088214856, 1821713255766066982, 11235391357464244729, 1629553056282543004, 4353557525433048373, 13028030485171900437, 13171775235634189918,
  8874155464390782743, 7012534226701513865, 16081195334173862321, 15521471173119396083, 16584427714180660419, 15972982703633655399, 11998247821219625208, 2209440522699848916,
  3150151477639781310, 1962030114272730484, 11791487148831446748, 15753624218447575324, 8419863812148539778, 2161938702319352022, 4236467467897394961, 12561184867100515715,
  815836614939464400, 5942092363347412326, 6867304520274385466, 17415512884750705382, 6191658090479075069, 11168194765160039773, 4037787158767169706, 8107809686844058059,
  8586466647548958689, 15909882897792199663, 4615674822120186529, 3807915479844704955, 5926561411056585264, 7130127289636719965, 8432836366351309040, 11064274942190073489,
  752058452094819761, 13598438691721759654, 12844528733274963834, 223753852835471502, 12943069536670883599, 6028541020637026888, 687999639452388393, 14633737814602005202,
  12012620009587446090, 1329287746600011799, 6676087955081554610, 9243058784425051997, 10201296637690687939, 1984680364721590639, 13955288127775179473, 6292299228390481105,
  4533391949743178267, 1297970272606644449, 7866593291295031604, 16068095131372863048, 13474573923724455549, 15901563641934787466, 10496112166114748219, 3802819771676579301,
  14410462506547304576, 10133050767976133136, 10971229708383363595, 10372082911520275829, 17734586490007888256, 16937348325661716694, 15966928299053313767, 15356271274790275634,
  9086035039158966278, 7953802426332868820, 7419973465534054484, 11887075098969785695, 15993035800702687465, 4201206125862370217, 8992674229700055813, 10192178082969807012,
  7345659655576387914, 13276182003169171753, 17961485860747847078, 8591847595039813880, 5780050275737097394, 16741546202335400745, 15105899292030027474, 14985657410225577914,
  5796734497220841249, 4413337962436750926, 3247548532802483819, 3171784926419770626, 16370924224661595318, 12960065985507062200, 13375367789866353584, 5753444407057120290,
  10780308300492376814, 4149149321319605500, 5572773091688684487, 10866697965709798809, 17693484296943644457, 11610831369688450862, 10005783325409953644, 2116122906138744932,
  4838753085657934688, 2614456513428881100, 7508775638184412365, 9133749399617287968, 9749016046535286507, 7957238961916011636, 17500434799256051015, 717237462658708713,
  1237518411038363777, 1006507841153520668, 8869893935778935486, 18335997962605714622, 1910089385823951598, 6767261034016903443, 12944286928674882932, 8083371731204389643,
  7056315571094155277, 521469966197276867, 8414386663184405192, 7891137586641735663, 11543556597604601714, 11756742558683537592, 6590685128029465010, 14492550004621100876,
  12102189363438611057, 18081563242285676506, 15354534375732729869, 10420807235474834052, 9037380938228153274, 14015857675143035904, 10214817544623878732, 9122162829623240547,
  6398062411494702929, 2036560615640950403, 10920827633720033261, 1022305525245991128, 17932932334113518284, 4504342645756941425, 2898943471707249407, 6590427919018140890,
  8344331554061404163, 6218307498957246207, 11273122874020414777, 5202338331255313330, 12605078126266923951, 5749576291720600457, 5779805271648523836, 15746540168770454354,
  17198293043355482762, 5173994103439789937, 6680674077296666306, 1333009703426602948, 730221434486119733, 16014850017670759608, 15003968923701533481, 3852682295240965400,
  4846204379700072884, 18134513785187030230, 4537242416414432524, 5379183289721724436, 15005324659963220652, 9424189349627685052, 9680733069499516067, 8401013355833467244,
  16775333091804111841, 15837030655491531765, 17215435963793878627, 6151226148989683454, 8755046282580265002, 12826264010449020364, 14234260758300661837, 244233771393233252,
  1365555484127397267, 10803766857274886169, 16018932307361207523, 3208719667497894153, 3564119669809046250, 12268736547748316587, 14227766183755979750, 13071308050395984082]

/-- Entries 768 to 1023. -/
def roots3 : List Nat := [
  2487545075867320997, 5796533965656706666, 3098044977006053193, 3375447131804027847, 10965949049008145907, 1858424175449983161, 3852727292627418201, 3929967428712993776,
  7802551448030917983, 3674243082704093431, 15285261464172357543, 6924070446051358407, 7714000135540922531, 778077678108132114, 11031698068839410129, 8983016391715800581,
  9462491004061854624, 6934239879833464894, 7128057428920597819, 698121275244303882, 2036048502064729406, 6029624942993326186, 17997117966474820826, 10050118480475923793,
  12795163597384834723, 5320955344553056147, 12680239387605270294, 17757264585057312688, 6876295399934811399, 8649874654191090700, 2156746241523731690, 162061691079260462,
  17840535556350596796, 16131749203646251486, 8325320264881009468, 13351969663026017116, 16152394204248920466, 4890059346005941937, 16860721192940478890, 16364854412633167470,
  17465243646884447220, 57260363547581186, 9141421521938303320, 9448712736080120034, 6649453883257481021, 14800303825430908236, 8058774373121200848, 12211032074165722735,
  4453292643790612877, 16489965546111190092, 8220435207403779538, 9684297641197985956, 15795334750217347937, 1191354204641927703, 2104212136134112617, 11743900352237942233,
  18229539898802626319, 3806138005267399270, 2690816887452012135, 14627523418626300606, 8952358323496547130, 14823382343197339873, 11357844496415448812, 3326682462460707624,
  2165073514877057125, 12830747897518392373, 12481159786908683973, 11131971481745003154, 11149811931015652619, 10301309257899082764, 10679942363357258838, 6741646754972833427,
  3947724146478903196, 13486748543447962614, 15083142610254832454, 15684511056600050771, 15690745070526961033, 14840159844346300552, 13484345358143028860, 4260441734989457376,
  1933919070150905028, 9459174163509381480, 15089523651232850320, 2433369923295983053, 8364555427722655796, 14285930507694161064, 15934546575296300149, 2459058167234348055,
  14673304636744899396, 12476773904611604063, 10323319499675311786, 16075036659761121347, 9318923343634597890, 12560084872727179062, 10407231571815105293, 14041760501692892039,
  7621528286055825445, 5555663654179853710, 4773254918209142235, 3416683618507416818, 7197437434918352265, 10466050535070453966, 4474190640214125022, 2601369716508401522,
  16649982526222284056, 16847901766200980905, 1835042986935556179, 13303872474940691300, 5651173537576297809, 3651929728131903596, 100204385645453555, 2400815851773025062,
  15769413567685417881, 3229864706292761557, 9127898805656955649, 8838732080118096142, 16595255090226392187, 18209456731080414858, 7600393146141273615, 3703660226912480891,
  15787291115320158244, 13895284129256806859, 12070512318933623077, 6726883599613145844, 8065515105977441173, 4638875069766816594, 16852500647058857113, 6198530644151702294,
  1593550166912294622, 12728139702660584979, 1441197229165602149, 784106589311235771, 3268445745010214475, 6221171774803658249, 6071242217495473516, 10956707543235280801,
  1937251714233587228, 1269578081192803877, 9473764765820634887, 15703019185643609545, 4696366127086502965, 4053293621045143905, 13838334009466255025, 10492196034736144676,
  16207923462074124038, 13980337432375837363, 12688550030674139751, 11473395936713652584, 5213953226788178394, 6426396132091474127, 3916652255378106660, 17824202433424590369,
  17522348946915516542, 8920846092430725634, 14382102234749245849, 5594661327805133534, 13604053941692823450, 1354725796005006040, 11256644739301936549, 5215674664137941393,
  1335821511481935448, 4352028326325150051, 14789311390266052007, 14876434817271730028, 9319183803886091323, 17885041195382767188, 15939622490670112470, 15226205299434298361,
  7150884533778416694, 14265372793450710923, 13593879336885742734, 11994331475821363773, 9172280039382098141, 7276937032438855021, 18033539475895611998, 12345241509549480099,
  9947229228117630180, 10072176678632121414, 14389041981263207313, 16362328498966977935, 111817826788926935, 10827872024889427126, 12047567885186114989, 2085626840200531536,
  13393454256005543690, 14259953619619072154, 2500802313455226801, 13739352256956543311, 2544974719542685128, 4434985352236093315, 10607974397916847852, 12304982876540735112,
  12149460492233362130, 18020573989209288069, 2520311540657984447, 14392584706955591232, 225320994243251193, 14906033190703576825, 6207072537281078800, 9604563059006822409,
  10952576980294062270, 14532508166970711725, 11056795996790976418, 2269679669472762880, 1276348651609437741, 9910739678368162445, 6331304109763078665, 13532666778354335933,
  11159199262104706668, 4880051611094958492, 15115586762689268183, 9802013298822871828, 11123276569081916203, 14429938635701918581, 15726524602200806350, 2968891701725675589,
  16947557981865813923, 1882690872425499618, 6165649384544630387, 8166156697436073771, 7272394919057441607, 8064494315978783335, 3965788990025686272, 5773540460433354372,
  17879896262664594881, 13585109245046189100, 8367756040868509984, 13967005856161542648, 10366121538548271219, 14696462624960716382, 10143173056576441200, 4002998445609156999,
  3903064398896165981, 16885341896684803189, 11667202948323213059, 1007681650544934187, 10151081687054037449, 17352705805103103183, 12536249814210762203, 1893923589715400652,
  17316134336692879035, 11958754411843580284, 2802857592684990986, 5013520349811190097, 12799089534606162161, 7514754964708596918, 15154355400393974716, 12758153632176973303,
  1909593466033337192, 9233573114413898206, 11408296906417972045, 5366754863037222286, 14261888321380991346, 18426488390453431496, 6769751994943443342, 8348800993809447162]

/-- Entries 0 to 255. -/
def rootsInv0 : List Nat := [
  1, 720584736572961408, 14339454576099065415, 8110275066561114576, 15352266420258939526, 15152486747718609328, 16200125796878969521, 11085843110998995682,
  5046958974516722558, 1566725239756563310, 11563523611264299172, 1404102221005623225, 3386674921194715218, 16034887051644249412, 380520087412920058, 1680359344139673742,
  2415623494407783791, 2949921134803416429, 18405853564790494027, 463996450902317306, 17499464599540494904, 13227446636775398848, 3254082477049562153, 14262670077631714335,
  7727640089129095334, 11661136999383463450, 3810301117832204583, 7614862032988085584, 6024793586330155678, 14420619470303158147, 18262235985360545492, 8310971987077119183,
  12181586540519582112, 14298080764675794295, 2118906522585120178, 12309991655342764021, 18325624064017423600, 9134260114812477889, 7704721707807531028, 14539102385238915670,
  15703236532384924460, 16978355917769280149, 2087214607437816028, 16972736180309767722, 14792213808594191265, 579789604800397871, 8575737129051335041, 15787203504377244847,
  8894121825707602835, 6276648052855815072, 8893487500707475579, 8085328980447472551, 5761181159720190099, 6652418741636310854, 12343068558329882127, 16286354927744241974,
  11530142492352825199, 1110002154009246238, 15373611916988710613, 15634065666310731681, 15339005178326524225, 16920436063569986273, 1951807329380500075, 16722924601915614824,
  15599516696790843517, 9301330603569054023, 5659607310527006994, 7133472659921959201, 15806933214660283552, 18103177720330569736, 3884876814261758141, 1918088824638195582,
  2157065136660022301, 13933546606494439908, 2392023476819270360, 17619065391134502258, 7076947864603766231, 2087396650035479448, 17580307378520296367, 5535017560445862618,
  10926393849465726408, 10928705125647298629, 3959685662144320779, 10688897433697924985, 4667905635198108311, 16672264090568771463, 6153828399264378145, 14031280856183462803,
  11481133848405323644, 16969650912392074539, 8557756682134876791, 16117670602764484696, 11428886046060222855, 4728472614196077788, 3671879551364081783, 1498010317746109029,
  15315552893140930656, 3392410807925915442, 3889966384999443771, 17817834615400377237, 16062326045875918303, 9121476918492685024, 7934461991054835160, 842101892116245181,
  12871487787419891119, 10468454229111407162, 7726621330683503562, 10292965458645464204, 16031962928355806098, 13950228507550176276, 2291111462233205072, 11316432244071547376,
  11215915689441210519, 16179788556301219694, 2170104868051588149, 5584183945428982752, 5675300044266745926, 17222943329151984565, 17680446773944457141, 15249400625475686561,
  395184172606782007, 4138190024559759520, 18008409683601954597, 12712087400481258452, 13532629047374889605, 4454209934239804210, 8454462237705513714, 10637411605879141215,
  2882485709911702374, 5479102853510888674, 6356806065002538163, 12707853752216551716, 13637436800167486650, 18127508821964687459, 10638576958653278959, 11960618436006669787,
  15888557761607533558, 6899924416241665661, 11874819665385772177, 7663115328119428581, 6879365912473993469, 7579233764434352848, 7638721038321728530, 6957686905605475202,
  17652944517379415107, 4780726535479012860, 1857219450945102164, 2099774616648622444, 11832736105347811351, 1706280929350397932, 6244397178247093022, 12240611900137460307,
  1764496435215440635, 7108140164040751276, 15161720018324579052, 6627645468456138040, 17779104421400205572, 15496037342646178067, 8515379151300663785, 8934897122271277923,
  3234253183712823509, 12934340506036655917, 16694437013186977360, 1592626176204236061, 990995433884419269, 117612620983987181, 7398083810475989213, 7484318226249183897,
  15927365925771736910, 426151213159721983, 14400980948977921471, 1901325713177990768, 3286539613986090982, 13767063682592890974, 4812702398689794152, 15249524947946806009,
  2060235349167714126, 18027461580456480960, 2126926760382655831, 4256619404902108058, 8486570232345451325, 5604107575625139990, 11402162743734890929, 10846348361085127043,
  16789875770856290109, 7020867115392844083, 14936354525824516811, 8375320713207231715, 8750767493256929145, 8235373967512351151, 9942671091609899546, 12103194441566765612,
  12318040395114068170, 635606647090838604, 13522249142548496487, 15615462698751780971, 1268829698560359966, 3443526265789683928, 6775987149522504468, 11159306790696119536,
  11278332687494595361, 12042388718833803402, 15717655122111463040, 5299065120463519026, 11055079192405723109, 11013436732863969027, 7472453108293154971, 10131173690122092732,
  12800853636497463571, 5451783174600630682, 9686904478556384351, 3690381111356836949, 9835002937724602677, 7363345433434539696, 1333640207411232088, 1566448226569433321,
  15569076005456018638, 4743652370100010589, 17309959524806193422, 238133820252584086, 6026876779566687205, 8960601363353050167, 14890733296592847788, 10155371800298912043,
  5695957462117986287, 10227636094184637112, 6797290953488467222, 1712603234469374446, 1515307037981054639, 6828452632588351151, 16339718027988715053, 3067579756261531531,
  1773960218279923954, 8145101195158695094, 14138194736859784462, 4047904134009740607, 13882939452166037089, 11466412427500928642, 13808209941120793656, 10746301132607064465,
  10646912634289910062, 6700174377334492194, 11748683915134083723, 10430084320128553465, 14896689373270673641, 8844300315269020459, 14057573198806330285, 7571834562236485078,
  1380061346318590881, 6091392333909561516, 11159535537327289008, 17779989640029996166, 4164964654070396129, 1836039087919599065, 17774527383987192203, 1864215917183167511]

/-- Entries 256 to 511. -/
def rootsInv1 : List Nat := [
  13843729955524372349, 6929173952201287343, 6210749523871167966, 5504089817326267708, 2644945295905594879, 9835435739517830133, 7177932315700025995, 2446307072758937915,
  7312156331204646310, 12163750746945737945, 3590973484195340560, 10998109413132381664, 7395286326711867963, 17328467376243743166, 9613989819555341771, 18222733727036876486,
  9294252869736749939, 7335909090725442421, 13269092263275903723, 18304611047808083129, 3191128935074336072, 13358883930968267085, 13756883714562959525, 5110886975247264730,
  12775553583474047995, 5435241857386165654, 11172978625457717870, 4139865493235715571, 12520767733586610073, 6375157525529739561, 5904129970506923848, 10051055267992478632,
  9905048855793995944, 1223813630804333375, 9834344130894502742, 16492639285537513695, 7461188595173734253, 11633003804837084831, 16659508146569381522, 15132347803009549204,
  7281011402018425449, 1181603759020134901, 12723724073638135236, 1179574558594417564, 14236107746368555567, 7417688376969590637, 13810750419757232914, 476198965934789135,
  4449449451911049508, 6178437212166379404, 14036205159702510331, 17013293086750734110, 2228663442058864314, 1521881028045238801, 2262153217968328550, 15333991945168125043,
  9766445742514414677, 103477763411954721, 60749065782215021, 8061698625932014922, 9962734455915777358, 10166516978882946426, 4769293806752969956, 3691701363028259554,
  9667159774827995652, 16993364438883197120, 8814101026442266434, 17535066020541441206, 12837447051713619509, 6961509956816904499, 14416941795066068982, 2895556373819141748,
  15537287381515241570, 12091609888161982136, 9400354572344724062, 3412444512867621816, 1642032709925677804, 3811981445139988970, 4356473362392407594, 17240347946932796762,
  4324110291587336175, 3099363582888551919, 16447453425421916807, 4310104551820725831, 11988953475512391691, 14070410414480673544, 5380322758439347092, 9709149688117892010,
  15256059820581255205, 11860647570106911704, 6556230031431676446, 15678773402515806435, 15350371664039125159, 679982196055665953, 13164927588768639300, 3164416150415106183,
  1283431680054031502, 9187218091026242293, 1189696800286100802, 278289289760259764, 127058393185899550, 8435579064423617674, 8327663069055114211, 2658292005589034313,
  7339053643911545065, 156952678863275842, 7153057593086221718, 6520250947442718405, 1003557954271156116, 2665568966852607550, 3646869193744904348, 11791842267226333315,
  1853518944726972937, 8636570269416346572, 2406954780651667256, 16453020521135010838, 8121678236244370909, 6823870049035701612, 6074982480059591888, 397805659947084351,
  3692502910987101508, 9103837895661253924, 9104345819396119856, 6232011195105011370, 9376887638549153127, 1867049797744035724, 12734827517998547275, 3358259680220261458,
  4188398497342902127, 9670456788528015945, 10582218377671455666, 7726908838741190365, 11234135486665256141, 3749416850190938310, 11388922684377278208, 15332435985475534208,
  10272093299904364820, 6602106519747572961, 13855179933101287385, 632926520882886247, 2679873179851291213, 10804642403028044853, 4793248531494357263, 11108811985278376224,
  3808332611516346042, 7571214003556892252, 17886910587507488654, 7516608150524002553, 11377527775597220384, 2343331506121848135, 1177372566611344240, 12437888883992875823,
  16122863267761146797, 15894856014739809316, 16404408168751433159, 16036132762673402675, 883427360361913874, 11600995365685928390, 10487000506467405108, 4139189751208593535,
  11664740076794462570, 4273806734153598194, 8650815918160338221, 6947379965747211751, 10902461855784876988, 13928532327882973184, 13165870177845770037, 3853290100722220139,
  1415581534621064362, 3381545139969229398, 17244172225368340385, 1799134295774514653, 10221082034257423765, 5130758603555585929, 17033209287973450949, 3449012997388980473,
  8102255825724444182, 4891840718684013852, 3706580671297331299, 10535839004594583626, 9779349734141572214, 12060794766294687622, 184297271006592786, 12136325733266938524,
  5556608262699283665, 14773843062774836944, 8196271302426240870, 12427271599746505321, 1155388510536591850, 8509262336772578406, 2578525951290971927, 14400138441601011230,
  10288131011046074688, 2625650463182780820, 11245515695079858152, 9285063085786033841, 10574335504901230484, 18305084003025969290, 1780017664276987904, 15196342257067717465,
  18163586991854532296, 1441560181764259012, 14691030944302567525, 13403406596431342313, 13571799347256090896, 4483546991804775798, 14396927937030632293, 1778563055619922344,
  9282567353149253811, 725300876654576850, 1274293963538911977, 14417548377959800806, 209592247834114699, 17017724487708729395, 10343224921956816764, 4414183122587650932,
  5380502647922389423, 2337798911215905281, 14989767376945776297, 9399288375836224797, 9751762973080401543, 5000732392060611755, 14126954455474852541, 10676694301352681514,
  3469782640325470708, 832729396940234715, 864938097163789140, 3610199687863410074, 14288970732445006620, 1019729365227139090, 8198367047154165255, 16124082169028569354,
  16721573468801058503, 13659773209992495402, 12031530981357324128, 314429831483378521, 4539273832810577810, 16516937805800214753, 5603021489895219300, 14220144232537667007,
  2152450434406474745, 5058930073920646728, 7417306567712857630, 11878515411578495388, 6691833459422961712, 11862243552544955041, 6805144993497093511, 5839418655913409240,
  1110166645739035363, 12656247405285442064, 7687407076697882323, 4354915888119624158, 15719576492033769361, 9630612632191327573, 5532190911155603566, 17192006418430621811]

/-- Entries 512 to 767. -/
def rootsInv2 : List Nat := [
  10097943079899989767, 11676992078765993587, 20255683256005433, 4184855752328445583, 13079989210672214643, 7038447167291464884, 9213170959295538723, 16537150607676099737,
  5688590441532463626, 3292388673315462213, 10931989109000840011, 5647654539103274768, 13433223723898246832, 15643886481024445943, 6487989661865856645, 1130609737016557894,
  16552820483994036277, 5910494259498674726, 1094038268606333746, 8295662386655399480, 17439062423164502742, 6779541125386223870, 1561402177024633740, 14543679674813270948,
  14443745628100279930, 8303571017132995729, 3750281448748720547, 8080622535161165710, 4479738217547894281, 10078988032840926945, 4861634828663247829, 566847811044842048,
  12673203613276082557, 14480955083683750657, 10382249757730653594, 11174349154651995322, 10280587376273363158, 12281094689164806542, 16564053201283937311, 1499186091843623006,
  15477852371983761340, 2720219471508630579, 4016805438007518348, 7323467504627520726, 8644730774886565101, 3331157311020168746, 13566692462614478437, 7287544811604730261,
  4914077295355100996, 12115439963946358264, 8536004395341274484, 17170395422099999188, 16177064404236674049, 7389948076918460511, 3914235906738725204, 7494167093415374659,
  8842181014702614520, 12239671536428358129, 3540710883005860104, 18221423079466185736, 4054159366753845697, 15926432533051452482, 426170084500148860, 6297283581476074799,
  6141761197168701817, 7838769675792589077, 14011758721473343614, 15901769354166751801, 4707391816752893618, 15945941760254210128, 4186790454090364775, 5053289817703893239,
  16361117233508905393, 6399176188523321940, 7618872048820009803, 18334926246920509994, 2084415574742458994, 4057702092446229616, 8374567395077315515, 8499514845591806749,
  6101502564159956830, 413204597813824931, 11169807041270581908, 9274464034327338788, 6452412597888073156, 4852864736823694195, 4181371280258726006, 11295859539931020235,
  3220538774275138568, 2507121583039324459, 561702878326669741, 9127560269823345606, 3570309256437706901, 3657432683443384922, 14094715747384286878, 17110922562227501481,
  13231069409571495536, 7190099334407500380, 17092018277704430889, 4842690132016613479, 12852082745904303395, 4064641838960191080, 9525897981278711295, 924395126793920387,
  622541640284846560, 14530091818331330269, 12020347941617962802, 13232790846921258535, 6973348136995784345, 5758194043035297178, 4466406641333599566, 2238820611635312891,
  7954548038973292253, 4608410064243181904, 14393450452664293024, 13750377946622933964, 2743724888065827384, 8972979307888802042, 17177165992516633052, 16509492359475849701,
  7490036530474156128, 12375501856213963413, 12225572298905778680, 15178298328699222454, 17662637484398201158, 17005546844543834780, 5718604371048851950, 16853193906797142307,
  12248213429557734635, 1594243426650579816, 13807869003942620335, 10381228967731995756, 11719860474096291085, 6376231754775813852, 4551459944452630070, 2659452958389278685,
  14743083846796956038, 10846350927568163314, 237287342629022071, 1851488983483044742, 9608011993591340787, 9318845268052481280, 15216879367416675372, 2677330506024019048,
  16045928221936411867, 18346539688063983374, 14794814345577533333, 12795570536133139120, 5142871598768745629, 16611701086773880750, 1598842307508456024, 1796761547487152873,
  15845374357201035407, 13972553433495311907, 7980693538638982963, 11249306638791084664, 15030060455202020111, 13673489155500294694, 12891080419529583219, 10825215787653611484,
  4404983572016544890, 8039512501894331636, 5886659200982257867, 9127820730074839039, 2371707413948315582, 8123424574034125143, 5969970169097832866, 3773439436964537533,
  15987685906475088874, 2512197498413136780, 4160813566015275865, 10082188645986781133, 16013374150413453876, 3357220422476586609, 8987569910200055449, 16512825003558531901,
  14186302338719979553, 4962398715566408069, 3606584229363136377, 2755999003182475896, 2762233017109386158, 3363601463454604475, 4959995530261474315, 14499019927230533733,
  11705097318736603502, 7766801710352178091, 8145434815810354165, 7296932142693784310, 7314772591964433775, 5965584286800752956, 5615996176191044556, 16281670558832379804,
  15120061611248729305, 7088899577293988117, 3623361730512097056, 9494385750212889799, 3819220655083136323, 15755927186257424794, 14640606068442037659, 217204174906810610,
  6702843721471494696, 16342531937575324312, 17255389869067509226, 2651409323492088992, 8762446432511450973, 10226308866305657391, 1956778527598246837, 13993451429918824052,
  6235711999543714194, 10387969700588236081, 3646440248278528693, 11797290190451955908, 8998031337629316895, 9305322551771133609, 18389483710161855743, 981500426824989709,
  2081889661076269459, 1586022880768958039, 13556684727703494992, 2294349869460516463, 5094774410683419813, 10121423808828427461, 2314994870063185443, 606208517358840133,
  18284682382630176467, 16289997832185705239, 9796869419518346229, 11570448673774625530, 689479488652124241, 5766504686104166635, 13125788729156380782, 5651580476324602206,
  8396625593233513136, 449626107234616103, 12417119130716110743, 16410695571644707523, 17748622798465133047, 11318686644788839110, 11512504193875972035, 8984253069647582305,
  9463727681993636348, 7415046004870026800, 17668666395601304815, 10732743938168514398, 11522673627658078522, 3161482609537079386, 14772500991005343498, 10644192625678518946,
  14516776644996443153, 14594016781082018728, 16588319898259453768, 7480795024701291022, 15071296941905409082, 15348699096703383736, 12650210108052730263, 15959198997842115932]

/-- Entries 768 to 1023. -/
def rootsInv3 : List Nat := [
  5375436023313452847, 4218977889953457179, 6178007525961120342, 14882624403900390679, 15238024406211542776, 2427811766348229406, 7642977216434550760, 17081188589582039662,
  18202510302316203677, 4212483315408775092, 5620480063260416565, 9691697791129171927, 12295517924719753475, 1231308109915558302, 2609713418217905164, 1671410981905325088,
  10045730717875969685, 8766011004209920862, 9022554724081751877, 3441419413746216277, 13067560783987712493, 13909501657295004405, 312230288522406699, 13600539694009364045,
  14594061778468471529, 3442775150007903448, 2431894056038677321, 17716522639223317196, 17113734370282833981, 11766069996412770623, 13272749970269646992, 1248451030353954167,
  2700203904938982575, 12666938802060913093, 12697167781988836472, 5841665947442512978, 13244405742454123599, 7173621199689022152, 12228436574752190722, 10102412519648032766,
  11856316154691296039, 15547800602002187522, 13942401427952495504, 513811739595918645, 17424438548463445801, 7525916439989403668, 16410183458068486526, 12048681662214734000,
  9324581244086196382, 8231926529085558197, 4430886398566401025, 9409363135481283655, 8025936838234602877, 3092209697976707060, 365180831423760423, 6344554710270825872,
  3954194069088336053, 11856058945679971919, 6690001515025899337, 6903187476104835215, 10555606487067701266, 10032357410525031737, 17925274107512160062, 11390428502615281652,
  10363372342505047286, 5502457145034553997, 11679483039692533486, 16536654687885485331, 110746111103722307, 9576850137930501443, 17440236232555916261, 17209225662671073152,
  17729506611050728216, 946309274453385914, 10489505111793425293, 8697728027174150422, 9312994674092148961, 10937968435525024564, 15832287560280555829, 13607990988051502241,
  16330621167570691997, 8440960748299483285, 6835912704020986067, 753259776765792472, 7580046107999638120, 12873970982020752442, 14297594752389831429, 7666435773217060115,
  12693299666652316639, 5071376283843083345, 5486678088202374729, 2075819849047841611, 15274959147289666303, 15199195540906953110, 14033406111272686003, 12650009576488595680,
  3461086663483859015, 3340844781679409455, 1705197871374036184, 12666693797972339535, 9854896478669623049, 485258212961589851, 5170562070540265176, 11101084418133049015,
  8254565990739629917, 9454069844009381116, 14245537947847066712, 2453708273006749464, 6559668974739651234, 11026770608175382445, 10492941647376568109, 9360709034550470651,
  3090472798919161295, 2479815774656123162, 1509395748047720235, 712157583701548673, 8074661162189161100, 7475514365326073334, 8313693305733303793, 4036281567162132353,
  14643924302032857628, 7950631907594688710, 2545180431774649463, 4972170149984981380, 2378648942336573881, 10580150782414405325, 17148773801102792480, 13913352123966258662,
  12154444845318955824, 4491455945934257456, 16462063708987846290, 8245447436018748990, 9203685289284384932, 11770656118627882319, 17117456327109425130, 6434124064121990839,
  3813006259107431727, 17758744434257048536, 12418203053072410041, 5503674537038553330, 18222990220873965427, 5602215340434473095, 4848305381987677275, 17694685621614617168,
  7382469131519363440, 10013907707358127889, 11316616784072716964, 12520182662652851665, 14638828593864731974, 13831069251589250400, 2536861175917237266, 9860277426160478240,
  10338934386865378870, 14408956914942267223, 7278549308549397156, 12255085983230361860, 1031231188958731547, 11579439553435051463, 12504651710362024603, 17630907458769972529,
  5885559206608921214, 14210276605812041968, 16284805371390084907, 10026880261560897151, 2693119855261861605, 6655256924877990181, 16484713959436706445, 15296592596069655619,
  16237303551009588013, 6448496252489811721, 2473761370075781530, 1862316359528776510, 2925272900590040846, 2365548739535574608, 11434209847007923064, 9572588609318654186,
  5274968838075247011, 5418713588537536492, 14093186548276388556, 16817191017426893925, 7211352716245192200, 16625030817943369947, 15598912598621222073, 14608621968046662052,
  16157066923336215185, 9257852934914651184, 6581837544126854528, 12940229291180955798, 12491316998074999493, 6525838768054902791, 6573452705355658361, 9507561341625529504,
  11768686128640359797, 6723799247003675925, 17575675009565579870, 1352486578722372502, 16743061553969962698, 280383815556887441, 4406181235259483525, 14562531586333514289,
  12926858219201961878, 14634095797133016990, 6982163598830151800, 10244041705864268452, 12242774704110634094, 9359572858030271487, 2137944734277423570, 9548479529727010991,
  13036970383172138649, 13596375499534094444, 6316115134601324066, 9154401177646397466, 7016133888116035681, 13841059323040629862, 10755786056975891807, 10308360660986393398,
  4052637692626184610, 1761505424603299985, 16985202969499982738, 16477999917762907014, 6420345420345691356, 17480135984916351263, 3661842677715146364, 15065853992698375057,
  10520143311806172722, 15468294025628841440, 5708585387446323701, 4474762552740802473, 16088024431463328769, 7956762433667183604, 15622011170448653783, 2979734380405323682,
  14507953241704474784, 8000481789605097911, 13878122890172025173, 9702312147057036246, 10638028264945483839, 3502034103858542308, 13256227337839949793, 424367939072941320,
  4406418970319501429, 16869277130184189268, 18107868204311463863, 1996540774490948268, 1047050152503350741, 12686338787510910629, 5176629057729060328, 16226709260326751739,
  14411269067784003374, 12831860149504902813, 17179895211199985644, 291552938401549993, 2238173208726918874, 9679795674444601400, 11901206697773264443, 14450895965992577417]

/-- params_64_1024.rs:1 (`MOD`), 3 (`NINV`), 5-1030 (`ROOTS`), 1032-2057 (`INVROOTS`). -/
def params : Params := ⟨10, 18446744073709436929, 18428729675199955057, roots0 ++ roots1 ++ roots2 ++ roots3, rootsInv0 ++ rootsInv1 ++ rootsInv2 ++ rootsInv3⟩

/-- C36 for polynomials of size 1024 over 64-bit tori. -/
theorem C36_table : TableCorrect 64 params := check_sound (by decide +kernel)

end Verif.Ntt.P64_1024
