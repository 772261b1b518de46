import Verif.Ntt.Check
/-
Generated by tools/gen_ntt_params.py from
/repo/concrete-core/src/backends/ntt/private/math/params/params_64_2048.rs.
-/
namespace Verif.Ntt.P64_2048

/-- Entries 0 to 255. -/
def roots0 : List Nat := [
  1, 17726159337136475521, 10336469007148322353, 4107289497610371514, 7360900962710441247, 2246618276830467408, 3294257325990827601, 3094477653450497403,
  16766384729569763187, 18066223986296516871, 2411857022065187517, 15060069152514721711, 17042641852703813704, 6883220462445137757, 16880018833952873619, 13399785099192714371,
  10135772086632317746, 184508088348891437, 4026124603406278782, 12421950487379281251, 10831882040721351345, 14636442955877232346, 6785607074325973479, 10719103984580341595,
  4184073996077722594, 15192661596659874776, 5219297436934038081, 947279474168942025, 17982747622807119623, 40890508918942902, 15496822938906020500, 16031120579301653138,
  1723819471793822105, 16494936744328936854, 1526308010139450656, 3107738895382912704, 2812678407398705248, 3073132156720726316, 17336741919700190691, 6916601581356611730,
  2160389145965194955, 6103675515379554802, 11794325332073126075, 12685562913989246830, 10361415093261964378, 9553256573001961350, 12170096020853621857, 9552622248001834094,
  2659540569332192082, 9871006944658101888, 17866954468909039058, 3654530265115245664, 1474007893399669207, 16359529466271620901, 1468388155940156780, 2743507541324512469,
  3907641688470521259, 10742022365901905901, 9312483958896959040, 121120009692013329, 6136752418366672908, 16327837551124316751, 4148663309033642634, 6265157533189854817,
  7809332467830295714, 9992281836003923215, 13992534139469632719, 4914115026334547324, 5734656673228178477, 438334390107482332, 14308554049149677409, 18051559901102654922,
  3197343448233750368, 766297299764979788, 1223800744557452364, 12771444029442691003, 12862560128280454177, 16276639205657848780, 2266955517408217235, 7230828384268226410,
  7130311829637889553, 16155632611476231857, 4496515566159260653, 2414781145353630831, 8153778615063972725, 10720122743025933367, 7978289844598029767, 5575256286289545810,
  17604642181593191748, 10512282082654601769, 9325267155216751905, 2384418027833518626, 628909458309059692, 14556777688709993158, 15054333265783521487, 3131191180568506273,
  16948733755963327900, 14774864522345355146, 13718271459513359141, 7017858027649214074, 2329073470944952233, 9888987391574560138, 1477093161317362390, 6965610225304113285,
  4415463217525974126, 12292915674445058784, 1774479983140665466, 13778838438511328618, 7757846640011511944, 14487058411565116150, 7518038948062138300, 7520350224243710521,
  12911726513263574311, 866436695189140562, 16359347423673957481, 11369796209105670698, 827678682574934671, 16054720596890166569, 4513197467214997021, 16289678937049414628,
  16528655249071241347, 14561867259447678788, 343566353378867193, 2639810859049153377, 11313271413787477728, 12787136763182429935, 9145413470140382906, 2847227376918593412,
  16582528156526269418, 672216689722244726, 16610704985789837864, 14281779419639040800, 666754433679440763, 7287208536382147921, 12355351739799875413, 17066682727390846048,
  10874909511472951851, 4389170874903106644, 9602443758440416470, 3550054700438763288, 8016659753580883464, 6698060158575353206, 11746569696374944735, 7799831439419526867,
  7700442941102372464, 4638534132588643273, 6980331646208508287, 4563804621543399840, 14398839939699696322, 4308549336849652467, 10301642878550741835, 16672783855429512975,
  15379164317447905398, 2107026045720721876, 11618291441121085778, 16931437035728382290, 16734140839240062483, 11649453120220969707, 8219107979524799817, 12750786611591450642,
  8291372273410524886, 3556010777116589141, 9486142710356386762, 12419867294142749724, 18208610253456852843, 1136784548903243507, 13703091703609426340, 2877668068253418291,
  16880295847140003608, 17113103866298204841, 11083398640274897233, 8611741135984834252, 14756362962352599980, 8759839595153052578, 12994960899108806247, 5645890437211973358,
  8315570383587344197, 10974290965416281958, 7433307340845467902, 7391664881303713820, 13147678953245917903, 2729088951597973889, 6404355354875633527, 7168411386214841568,
  7287437283013317393, 11670756924186932461, 15003217807919753001, 17177914375149076963, 2831281374957655958, 4924494931160940442, 17811137426618598325, 6128703678595368759,
  6343549632142671317, 8504072982099537383, 10211370106197085778, 9695976580452507784, 10071423360502205214, 3510389547884920118, 11425876958316592846, 1656868302853146820,
  7600395712624309886, 7044581329974546000, 12842636498084296939, 9960173841363985604, 14190124668807328871, 16319817313326781098, 419282493252955969, 16386508724541722803,
  3197219125762630920, 13634041675019642777, 4679680391116545955, 15160204459723345947, 16545418360531446161, 4045763124731515458, 18020592860549714946, 2519378147937700019,
  10962425847460253032, 11048660263233447716, 18329131452725449748, 17455748639825017660, 16854117897505200868, 1752307060522459569, 5512403567672781012, 15212490889996613420,
  9511846951438159006, 9931364922408773144, 2950706731063258862, 667639652309231357, 11819098605253298889, 3285024055384857877, 11338603909668685653, 16682247638493996294,
  6206132173571976622, 12202346895462343907, 16740463144359038997, 6614007968361625578, 16346969457060814485, 16589524622764334765, 13666017538230424069, 793799556330021822,
  11489057168103961727, 10808023035387708399, 10867510309275084081, 11567378161235443460, 10783628745590008348, 6571924408323664752, 11546819657467771268, 2558186312101903371,
  6486125637702767142, 7808167115056157970, 319235251744749470, 4809307273541950279, 5738890321492885213, 12089938008706898766, 12967641220198548255, 15564258363797734555]

/-- Entries 256 to 511. -/
def roots1 : List Nat := [
  1254737655278815118, 12914553162553833363, 8816131441518109356, 2727167581675667568, 14091828185589812771, 10759336997011554606, 5790496668423994865, 17336577427970401566,
  12607325417796027689, 11641599080212343418, 6584500521164481888, 11754910614286475217, 6568228662130941541, 11029437505996579299, 13387813999788790201, 16294293639302962184,
  4226599841171769922, 12843722583814217629, 1929806267909222176, 13907470240898859119, 18132314242226058408, 6415213092352112801, 4786970863716941527, 1725170604908378426,
  2322661904680867575, 10248377026555271674, 17427014708482297839, 4157773341264430309, 14836544385846026855, 17581805976545647789, 17614014676769202214, 14976961433383966221,
  7770049772356755415, 4319789618234584388, 13446011681648825174, 8694981100629035386, 9047455697873212132, 3456976696763660632, 16108945162493531648, 13066241425787047506,
  14032560951121785997, 8103519151752620165, 1429019586000707534, 18237151825875322230, 4029195695749636123, 17172450110170524952, 17721443197054860079, 9164176720560183118,
  16668181018089514585, 4049816136678804636, 13963197081904661131, 4874944726453346033, 5043337477278094616, 3755713129406869404, 17005183891945177917, 283157081854904633,
  3250401816641719464, 16666726409432449025, 141660070683467639, 7872408568808206445, 9161680987923403088, 7201228378629578777, 15821093610526656109, 8158613062663362241,
  4046605632108425699, 15868218122418465002, 9937481736936858523, 17291355563172845079, 6019472473962931608, 10250472771283196059, 3672901010934599985, 12890135811010153264,
  6310418340442498405, 18262446802702844143, 6385949307414749307, 8667394339567864715, 7910905069114853303, 14740163402412105630, 13554903355025423077, 10344488247984992747,
  14997731076320456456, 1413534785735985980, 13315985470153851000, 8225662039452013164, 16647609777934922276, 1202571848341096544, 15065198933740207531, 17031162539088372567,
  14593453972987216790, 5280873895863666892, 4518211745826463745, 7544282217924559941, 11499364107962225178, 9795928155549098708, 14172937339555838735, 6782003996914974359,
  14307554322500843394, 7959743567242031821, 6845748708023508539, 17563316713347523055, 2410611311036034254, 2042335904958003770, 2551888058969627613, 2323880805948290132,
  6008855189716561106, 17269371507098092689, 16103412567587588794, 7069216298112216545, 10930135923185434376, 559833486201948275, 10875530070152544677, 14638411462193090887,
  7337932088431060705, 13653495542215079666, 7642101670681392076, 15766870893858145716, 17813817552826550682, 4591564140608149544, 11844637553961863968, 8174650773805072109,
  3114308088233902721, 7057821389332158721, 14697327223518498619, 7212608587044180788, 10719835234968246564, 7864525696037981263, 8776287285181420984, 14258345576366534802,
  15088484393489175471, 5711916555710889654, 16579694275965401205, 9069856435160283802, 12214732878604425559, 9342398254313317073, 9342906178048183005, 14754241162722335421,
  18048938413762352578, 12371761593649845041, 11622874024673735317, 10325065837465066020, 1993723552574426091, 16039789293057769673, 9810173804293090357, 16593225128982463992,
  6654901806483103614, 14799874879964532581, 15781175106856829379, 17443186119438280813, 11926493126266718524, 11293686480623215211, 18289791394846161087, 11107690429797891864,
  15788452068120402616, 10119081004654322718, 10011165009285819255, 18319685680523537379, 18168454783949177165, 17257047273423336127, 9259525982683194636, 17163312393655405427,
  15282327923294330746, 5281816484940797629, 17766761877653770976, 3096372409670311770, 2767970671193630494, 11890514042277760483, 6586096503602525225, 3190684253128181724,
  8737594385591544919, 13066421315270089837, 4376333659228763385, 6457790598197045238, 14136639521888711098, 1999290648287520122, 15347380490820885010, 14122633782122100754,
  1206396126776640167, 14090270711317029335, 14634762628569447959, 16804711363783759125, 15034299560841815113, 9046389501364712867, 6355134185547454793, 2909456692194195359,
  15551187699890295181, 4029802278643367947, 11485234116892532430, 5609297021995817420, 911678053167995723, 9632643047267170495, 1453379634826239809, 8779584298881441277,
  14755042710681177375, 13677450266956466973, 8280227094826490503, 8484009617793659571, 10385045447777422007, 18385995007927221908, 18343266310297482208, 8680298331195022252,
  3112752128541311886, 16184590855741108379, 16924863045664198128, 16218080631650572615, 1433450986958702819, 4410538914006926598, 12268306861543057525, 13997294621798387421,
  17970545107774647794, 4635993653952204015, 11029055696739846292, 4210636327340881362, 17267169515115019365, 5723020000071301693, 17265140314689302028, 11165732671691011480,
  3314396270699887725, 1787235927140055407, 6813740268872352098, 10985555478535702676, 1954104788171923234, 8612399942814934187, 17222930442905103554, 8541695217915440985,
  8395688805716958297, 12542614103202513081, 12071586548179697368, 5925976340122826856, 14306878580473721358, 7273765448251719059, 13011502216323271275, 5671190490235388934,
  13335857098462172199, 4689860359146477404, 5087860142741169844, 15255615138635100857, 142133025901353800, 5177651810433533206, 11110834982983994508, 9152491203972686990,
  224010346672560443, 8832754254154095158, 1118276697465693763, 11051457746997568966, 7448634660577055265, 14855770589514096369, 6282993326763698984, 11134587742504790619,
  16000437000950499014, 11268811758009410934, 8611308334191606796, 15801798777803842050, 12942654256383169221, 12235994549838268963, 11517570121508149586, 4603014118185064580]

/-- Entries 512 to 767. -/
def roots2 : List Nat := [
  3995848107716859512, 6545537375936172486, 8766948399264835529, 16208570864982518055, 18155191135307886936, 1266848862509451285, 5614883924204534116, 4035475005925433555,
  2220034813382685190, 13270115015980376601, 5760405286198526300, 17399693921206086188, 16450203299218488661, 338875869397973066, 1577466943525247661, 14040325103389935500,
  18022376134636495609, 5190516735869487136, 14944709969850894621, 7808715808763953090, 8744431926652400683, 4568621183537411756, 10446262284104339018, 3938790832004962145,
  15467009693304113247, 2824732903260783146, 10489981640042253325, 2358719642246108160, 13971981520968634456, 12738158686263113228, 2978450048080595489, 7926600761903264207,
  3380890081011061872, 14784901395994290565, 966608088793085666, 12026398653363745573, 1968744155946529915, 1461541104209454191, 16685238649106136944, 14394106381083252319,
  8138383412723043531, 7690958016733545122, 4605684750668807067, 11430610185593401248, 9292342896063039463, 12130628939108112863, 4850368574175342485, 5409773690537298280,
  8898264543982425938, 16308799339432013359, 9087171215679165442, 6203969369598802835, 8202702367845168477, 11464580474879285129, 3812648276576419939, 5519885854507475051,
  3884212487375922640, 14040562838449953404, 18166360258152549488, 1703682519739474231, 17094257494987064427, 871069064143857059, 11722944826705761004, 6678057945069077132,
  8939182732083907425, 11873291368353778568, 11920905305654534138, 5955427075634437436, 5506514782528481131, 11864906529582582401, 9188891138794785745, 2289677150373221744,
  3838122105662774877, 2847831475088214856, 1821713255766066982, 11235391357464244729, 1629553056282543004, 4353557525433048373, 13028030485171900437, 13171775235634189918,
  8874155464390782743, 7012534226701513865, 16081195334173862321, 15521471173119396083, 16584427714180660419, 15972982703633655399, 11998247821219625208, 2209440522699848916,
  3150151477639781310, 1962030114272730484, 11791487148831446748, 15753624218447575324, 8419863812148539778, 2161938702319352022, 4236467467897394961, 12561184867100515715,
  815836614939464400, 5942092363347412326, 6867304520274385466, 17415512884750705382, 6191658090479075069, 11168194765160039773, 4037787158767169706, 8107809686844058059,
  8586466647548958689, 15909882897792199663, 4615674822120186529, 3807915479844704955, 5926561411056585264, 7130127289636719965, 8432836366351309040, 11064274942190073489,
  752058452094819761, 13598438691721759654, 12844528733274963834, 223753852835471502, 12943069536670883599, 6028541020637026888, 687999639452388393, 14633737814602005202,
  12012620009587446090, 1329287746600011799, 6676087955081554610, 9243058784425051997, 10201296637690687939, 1984680364721590639, 13955288127775179473, 6292299228390481105,
  4533391949743178267, 1297970272606644449, 7866593291295031604, 16068095131372863048, 13474573923724455549, 15901563641934787466, 10496112166114748219, 3802819771676579301,
  14410462506547304576, 10133050767976133136, 10971229708383363595, 10372082911520275829, 17734586490007888256, 16937348325661716694, 15966928299053313767, 15356271274790275634,
  9086035039158966278, 7953802426332868820, 7419973465534054484, 11887075098969785695, 15993035800702687465, 4201206125862370217, 8992674229700055813, 10192178082969807012,
  7345659655576387914, 13276182003169171753, 17961485860747847078, 8591847595039813880, 5780050275737097394, 16741546202335400745, 15105899292030027474, 14985657410225577914,
  5796734497220841249, 4413337962436750926, 3247548532802483819, 3171784926419770626, 16370924224661595318, 12960065985507062200, 13375367789866353584, 5753444407057120290,
  10780308300492376814, 4149149321319605500, 5572773091688684487, 10866697965709798809, 17693484296943644457, 11610831369688450862, 10005783325409953644, 2116122906138744932,
  4838753085657934688, 2614456513428881100, 7508775638184412365, 9133749399617287968, 9749016046535286507, 7957238961916011636, 17500434799256051015, 717237462658708713,
  1237518411038363777, 1006507841153520668, 8869893935778935486, 18335997962605714622, 1910089385823951598, 6767261034016903443, 12944286928674882932, 8083371731204389643,
  7056315571094155277, 521469966197276867, 8414386663184405192, 7891137586641735663, 11543556597604601714, 11756742558683537592, 6590685128029465010, 14492550004621100876,
  12102189363438611057, 18081563242285676506, 15354534375732729869, 10420807235474834052, 9037380938228153274, 14015857675143035904, 10214817544623878732, 9122162829623240547,
  6398062411494702929, 2036560615640950403, 10920827633720033261, 1022305525245991128, 17932932334113518284, 4504342645756941425, 2898943471707249407, 6590427919018140890,
  8344331554061404163, 6218307498957246207, 11273122874020414777, 5202338331255313330, 12605078126266923951, 5749576291720600457, 5779805271648523836, 15746540168770454354,
  17198293043355482762, 5173994103439789937, 6680674077296666306, 1333009703426602948, 730221434486119733, 16014850017670759608, 15003968923701533481, 3852682295240965400,
  4846204379700072884, 18134513785187030230, 4537242416414432524, 5379183289721724436, 15005324659963220652, 9424189349627685052, 9680733069499516067, 8401013355833467244,
  16775333091804111841, 15837030655491531765, 17215435963793878627, 6151226148989683454, 8755046282580265002, 12826264010449020364, 14234260758300661837, 244233771393233252,
  1365555484127397267, 10803766857274886169, 16018932307361207523, 3208719667497894153, 3564119669809046250, 12268736547748316587, 14227766183755979750, 13071308050395984082]

/-- Entries 768 to 1023. -/
def roots3 : List Nat := [
  2487545075867320997, 5796533965656706666, 3098044977006053193, 3375447131804027847, 10965949049008145907, 1858424175449983161, 3852727292627418201, 3929967428712993776,
  7802551448030917983, 3674243082704093431, 15285261464172357543, 6924070446051358407, 7714000135540922531, 778077678108132114, 11031698068839410129, 8983016391715800581,
  9462491004061854624, 6934239879833464894, 7128057428920597819, 698121275244303882, 2036048502064729406, 6029624942993326186, 17997117966474820826, 10050118480475923793,
  12795163597384834723, 5320955344553056147, 12680239387605270294, 17757264585057312688, 6876295399934811399, 8649874654191090700, 2156746241523731690, 162061691079260462,
  17840535556350596796, 16131749203646251486, 8325320264881009468, 13351969663026017116, 16152394204248920466, 4890059346005941937, 16860721192940478890, 16364854412633167470,
  17465243646884447220, 57260363547581186, 9141421521938303320, 9448712736080120034, 6649453883257481021, 14800303825430908236, 8058774373121200848, 12211032074165722735,
  4453292643790612877, 16489965546111190092, 8220435207403779538, 9684297641197985956, 15795334750217347937, 1191354204641927703, 2104212136134112617, 11743900352237942233,
  18229539898802626319, 3806138005267399270, 2690816887452012135, 14627523418626300606, 8952358323496547130, 14823382343197339873, 11357844496415448812, 3326682462460707624,
  2165073514877057125, 12830747897518392373, 12481159786908683973, 11131971481745003154, 11149811931015652619, 10301309257899082764, 10679942363357258838, 6741646754972833427,
  3947724146478903196, 13486748543447962614, 15083142610254832454, 15684511056600050771, 15690745070526961033, 14840159844346300552, 13484345358143028860, 4260441734989457376,
  1933919070150905028, 9459174163509381480, 15089523651232850320, 2433369923295983053, 8364555427722655796, 14285930507694161064, 15934546575296300149, 2459058167234348055,
  14673304636744899396, 12476773904611604063, 10323319499675311786, 16075036659761121347, 9318923343634597890, 12560084872727179062, 10407231571815105293, 14041760501692892039,
  7621528286055825445, 5555663654179853710, 4773254918209142235, 3416683618507416818, 7197437434918352265, 10466050535070453966, 4474190640214125022, 2601369716508401522,
  16649982526222284056, 16847901766200980905, 1835042986935556179, 13303872474940691300, 5651173537576297809, 3651929728131903596, 100204385645453555, 2400815851773025062,
  15769413567685417881, 3229864706292761557, 9127898805656955649, 8838732080118096142, 16595255090226392187, 18209456731080414858, 7600393146141273615, 3703660226912480891,
  15787291115320158244, 13895284129256806859, 12070512318933623077, 6726883599613145844, 8065515105977441173, 4638875069766816594, 16852500647058857113, 6198530644151702294,
  1593550166912294622, 12728139702660584979, 1441197229165602149, 784106589311235771, 3268445745010214475, 6221171774803658249, 6071242217495473516, 10956707543235280801,
  1937251714233587228, 1269578081192803877, 9473764765820634887, 15703019185643609545, 4696366127086502965, 4053293621045143905, 13838334009466255025, 10492196034736144676,
  16207923462074124038, 13980337432375837363, 12688550030674139751, 11473395936713652584, 5213953226788178394, 6426396132091474127, 3916652255378106660, 17824202433424590369,
  17522348946915516542, 8920846092430725634, 14382102234749245849, 5594661327805133534, 13604053941692823450, 1354725796005006040, 11256644739301936549, 5215674664137941393,
  1335821511481935448, 4352028326325150051, 14789311390266052007, 14876434817271730028, 9319183803886091323, 17885041195382767188, 15939622490670112470, 15226205299434298361,
  7150884533778416694, 14265372793450710923, 13593879336885742734, 11994331475821363773, 9172280039382098141, 7276937032438855021, 18033539475895611998, 12345241509549480099,
  9947229228117630180, 10072176678632121414, 14389041981263207313, 16362328498966977935, 111817826788926935, 10827872024889427126, 12047567885186114989, 2085626840200531536,
  13393454256005543690, 14259953619619072154, 2500802313455226801, 13739352256956543311, 2544974719542685128, 4434985352236093315, 10607974397916847852, 12304982876540735112,
  12149460492233362130, 18020573989209288069, 2520311540657984447, 14392584706955591232, 225320994243251193, 14906033190703576825, 6207072537281078800, 9604563059006822409,
  10952576980294062270, 14532508166970711725, 11056795996790976418, 2269679669472762880, 1276348651609437741, 9910739678368162445, 6331304109763078665, 13532666778354335933,
  11159199262104706668, 4880051611094958492, 15115586762689268183, 9802013298822871828, 11123276569081916203, 14429938635701918581, 15726524602200806350, 2968891701725675589,
  16947557981865813923, 1882690872425499618, 6165649384544630387, 8166156697436073771, 7272394919057441607, 8064494315978783335, 3965788990025686272, 5773540460433354372,
  17879896262664594881, 13585109245046189100, 8367756040868509984, 13967005856161542648, 10366121538548271219, 14696462624960716382, 10143173056576441200, 4002998445609156999,
  3903064398896165981, 16885341896684803189, 11667202948323213059, 1007681650544934187, 10151081687054037449, 17352705805103103183, 12536249814210762203, 1893923589715400652,
  17316134336692879035, 11958754411843580284, 2802857592684990986, 5013520349811190097, 12799089534606162161, 7514754964708596918, 15154355400393974716, 12758153632176973303,
  1909593466033337192, 9233573114413898206, 11408296906417972045, 5366754863037222286, 14261888321380991346, 18426488390453431496, 6769751994943443342, 8348800993809447162]

/-- Entries 1024 to 1279. -/
def roots4 : List Nat := [
  927627490709132581, 9105312600214899574, 2070965155841799046, 8966816335897432831, 827990927563954432, 5545174057770273710, 17803496335601596261, 3521018267666548028,
  14455645965506601864, 1670455358413880397, 4456722677988127111, 1256017306531012424, 1882343369957505031, 5022703920642095206, 6655082909282690683, 6262460810500258887,
  10022854361103389097, 798355196983225091, 10690071657459984007, 1956245308473017243, 314409535575883765, 3074744436141261804, 4578490086361300716, 1164542315436875392,
  18072924498498544660, 14922408785298123247, 17520835733403088147, 6018200734909723327, 1396209141082503370, 12872036700250616694, 8286771411672031570, 540771839674720638,
  6231074770978711864, 5402034725598532088, 8116190339815921925, 1904949486645548143, 7255020498451803626, 13164232148730383986, 567795350991766936, 9269078509109888745,
  1497216480701221941, 11473219361665511301, 15951055149533114592, 3771602915410054644, 5953106804246425277, 192760298465682305, 15227582842365869669, 15484942415095832586,
  13805919912430816970, 3455290694863267716, 2486699453452296039, 11271872720381551366, 13656256275782303491, 14731468695766983879, 1658724639295303112, 7482809572656967113,
  15769825376474092821, 10444227215926593792, 8474300638661974641, 8573739129141574319, 3173505507855855826, 98101250155516851, 15197622249913082075, 3007840112317203463,
  9552482339984126607, 1956046291796690852, 10015787922400893847, 18159913261426958592, 1940949148837543675, 3266007724496989616, 2130763604946553237, 5158086187525302325,
  12367677967354371848, 17813809930524180468, 18428682737462636066, 2341220634427580403, 16804588612840883590, 7653866204238536126, 7396054313479703530, 7200848148418702311,
  6349525943429561997, 15178489476894997902, 9669264156829691369, 158294412638804097, 9346954418100240242, 9047644851916721736, 10069126407646231748, 11088113214114254616,
  12251507265970212015, 3729827982832266487, 5099222747190749189, 2533025317630715403, 3698223753526094397, 3422778543139768476, 168810834716531435, 17752049745121171055,
  17376211250340973099, 10304651962140337369, 12899286810295246584, 17441024930232847765, 14531476971363844649, 10172316361813641772, 14608992869555232740, 132610650592079092,
  7894168603846737675, 11425463464449184939, 6642795662903151376, 1389309486269424235, 12819427228434170876, 6402763709279602285, 1562181264598483935, 14092044604170298141,
  727482113621331533, 770002703384995973, 13021074648224165225, 12587787926811669962, 3611090426681073081, 9914247734549837865, 10432564063115843742, 768374190212003560,
  11388758329503033390, 7971403686501342781, 5578975264228189802, 7305722096691908689, 11845474696500647564, 13155960815857813429, 12524477627915402584, 4368060287794962739,
  2080659241573071070, 13199981985902403613, 16782628674413152372, 4020367191171302261, 12602703646088072091, 7027637463293697806, 2643828206692688125, 4964061916065511180,
  13441968710927451063, 13796305179832220642, 1825960121084283838, 15068180038003234500, 9642371045291644216, 5762003948879926405, 11293742359729541730, 9366327019694056904,
  7145796682877959822, 10956515514466473745, 6458043650587464087, 15439311214026844252, 4225092149163276995, 17406033814406606250, 15507121096336304836, 16961285873473982037,
  7292051878065065175, 3874099106819968035, 590582915845429650, 4887034432301396884, 6126871822443880609, 16396003487484528197, 9188080480674364128, 13556711037637376277,
  8166080102579845396, 2233157513432730565, 1085525189717084168, 6883443536741160296, 6275013730910057168, 6363766628075525516, 753409911776534690, 5912559190547356004,
  15487154218257126204, 7805337099490032560, 5930941376886645238, 11845050463152592964, 2026721104476131824, 14410686826394690534, 1303549753788736508, 4091416452050851891,
  17158367535459120028, 2566309699024960508, 16821725985315091719, 12135332654592686750, 13156834157804082867, 14564749707032217293, 13202806096779910972, 2860594033445461050,
  13713015309632833219, 4848306864744734479, 5893844225672101970, 12119703911102600937, 6188125106479337478, 4488975056119830581, 9186808199211077099, 10397520651684537679,
  14800632700630039018, 7948425420030036176, 10435626427628249226, 17516706603034879335, 2625949855867383404, 7646872459067430407, 10993625810398884362, 11679340624556951237,
  8479814024026102607, 160549246626328767, 2066785608880762143, 16118578154141777352, 15510416628570200456, 5313776027627211401, 2677149880866996312, 12919917331715190743,
  13513251696536945310, 9508916091586210358, 5048268400829800472, 5986359165628345724, 2838711333841473046, 1469603665433581308, 6306162220331683478, 8052318888638619222,
  982351894017823529, 16461959276395305289, 4124540726411098659, 2262496854369939685, 6218871092543725622, 12862778415582792714, 2850275721575435967, 16933138810239286462,
  260833792948457228, 8316085657927390296, 17152666781029873047, 2630468686572075637, 7548403769432660570, 366959592201630372, 7398978873525829899, 5874334540887875047,
  2471172665329279030, 3277975050052043135, 4802317451708365567, 16444307103497792101, 13299812161786575322, 6267844347881117703, 11521509078497330309, 4986831028712492492,
  8642957390661818555, 5584222826478814665, 7558822167117643996, 6658093092182272420, 13328017815701270671, 7429702314644754267, 3000840913376143950, 17533603108987615102,
  16028231397390257767, 6188405563392503537, 15441063014409520813, 12081924332913960045, 10346566869300299415, 9026652074795200547, 13149835355494963316, 14513178218654711810]

/-- Entries 1280 to 1535. -/
def roots5 : List Nat := [
  12389781013860788031, 4005161619068420682, 15562634299414948109, 7905588729010828555, 10611467679324849496, 2462197249745371434, 10932547131832136481, 1895703245694242937,
  10010358672817629480, 5966448097511424613, 3863247931794742861, 5104184757882737802, 13756259315786761155, 17301886704319297933, 5405439865891030309, 11349094585530276203,
  6614124018747301441, 5355041171468619285, 13067781429288944650, 11733873800964838524, 14399772646273998305, 16476590722854981509, 10856040349509683476, 15499426485287142912,
  4459810364557345805, 3074313749928783548, 11449834017892256908, 8538997806139116875, 11037764597055755717, 17082179109972049897, 6147609206036693405, 12652692565895090704,
  16697118680974875459, 4990788440931311726, 16432173342546128308, 7055787189761183618, 7890684061146123029, 8475555698258554701, 8536250457179904079, 16137965384919446941,
  7480558006340433672, 3350465420011343234, 1016883960873095188, 4734079441270745110, 10789235303861435360, 2417336297103203510, 13062358813190698492, 15529799350823699910,
  9678767996091763486, 9522331047054271830, 1676115923550281994, 9774751481712798148, 6478786335795759461, 4413878020078464431, 13471280539827062501, 6980516071848477247,
  3547626928409019553, 17810012336723532327, 9356509862488286199, 11891185641802732553, 8637102289360712155, 16425264689703157100, 14658897564121776358, 13306587232075006668,
  1839950352305680072, 3455953736677597485, 12392797083243418823, 14486774156552072158, 688683100823750949, 4104356359884488007, 740560961475457693, 21758684331607615,
  12360090213344785186, 10687427523633395659, 6731690299445792785, 7434508338764992534, 10227692316305256077, 17688941283053717045, 10288755565924681026, 2069828688225713394,
  2437909024796059400, 14772066628071753860, 13528610715725144968, 6537436074221025148, 2820064926989630812, 2980147388054427925, 323027694310022169, 9846446981693204171,
  15555597064491422989, 6050276900659925570, 2027416589775482599, 2555184863625818156, 9539353588076481072, 2271471490338074790, 17772704740552286212, 5515494102769774284,
  5742524654246433595, 3263617474657817432, 11511184373083611853, 7049185255697329008, 4049383947465996676, 9999912388566984719, 9225884672249175321, 8091099686509294164,
  12287074574989804730, 5321340752195812977, 15475596313780349412, 2010026343977218557, 14965783566282103230, 11834925133268881227, 7341915283201500792, 10093428839222325953,
  5949639422762305173, 8299710622286404153, 10358783356320881127, 10797104713036871448, 7955662785075936261, 5330608818468496323, 2214305185057770628, 9732159283201867927,
  4425671828287276935, 8066140029640044588, 13902703989668983358, 1689432443450187645, 17424205474045554628, 9353123699056588764, 8621046198097871620, 7059057322623932627,
  7392581056332876481, 4432207142382907966, 6291221465633954570, 7989820077977147795, 16754644054314345035, 15949071671197743502, 11506709292721282356, 12584476534866516633,
  10257235481667936169, 4530035801616800905, 12098863609440345362, 15224096186030431714, 9590241733414730331, 5695571883920102619, 15515563613669214124, 13549458265579619810,
  11293657978501707058, 13641128750809254927, 11530553409127313481, 675676345790947168, 16812081498804560325, 8076475603624824515, 54802121981837962, 14924280793602680952,
  6724845220836176974, 12225955338586347935, 12098232895606694141, 10027863499743170567, 16105752466817077700, 660805253331156859, 17679547351266461616, 6241674323263156170,
  4950380252027809690, 12958708733266967149, 4752621863723948586, 17285692919382320737, 3553432310072534866, 4257345359373813312, 13989861163387167136, 12987149028563464595,
  12380743733024532151, 541350453645469776, 18221756466362858109, 17155705389092515425, 10644062986979233099, 11092516636681941884, 6913659045455717079, 13767808092114287827,
  14044044415772001807, 12676670624327276344, 10515163054442427592, 2454905470206645569, 6761800170521188447, 11460368254012073357, 5531848345409082830, 14316602935624989658,
  17597124183997452126, 6933783339997541739, 4108062056987735359, 5979428486680260677, 17533855517280873810, 16484871400673239236, 9229157625925488860, 5381996087888547304,
  13551265589019647055, 3647158980796333945, 2352805464525373030, 13256905760308048921, 18241775706931703107, 9079190113809398256, 1508461100978957933, 17819411573586188152,
  16702298787109052925, 15331229048129969454, 8750610381758737955, 10932087745057798419, 8868236649833683679, 322888547559279322, 6991480878007436416, 8063472863485289199,
  17013875423047294269, 17648062255245127235, 11778499446417221375, 8745376840083654652, 10410297516519477235, 14816596364402696683, 3538240334667134910, 14478941634818230338,
  825864925684251807, 7088357233250696490, 7314187019662868369, 577982804343993238, 17825818958316846651, 10501164101937879235, 7311812702811560576, 8304306530421923139,
  15759577638456241539, 15884580307658691200, 10108337883331795960, 14046285526258461605, 12311290955396527300, 7896367833185716102, 10756330719482952468, 1624294695905534922,
  17689542408446710679, 2639354596965642902, 15843604608793979912, 4240422949519480526, 9171561747651169358, 8343851432006937908, 3341357158644898925, 10325671081384700300,
  5310016114530152201, 7130842833812324572, 8981667485328264020, 15590566983866935604, 15559520286494062613, 2975410400888778928, 1192612832281978076, 17893441176461621564,
  7893183711492136895, 12412617332934497148, 18373218489774085336, 7668531768359140415, 13432336658801535369, 4938769885813808862, 5154929323254473145, 10083408674353383412]

/-- Entries 1536 to 1791. -/
def roots6 : List Nat := [
  7387159938855489947, 1726824659112946375, 13196697914766149514, 15344082541754256896, 2255203673685928551, 7085059051768388998, 5508763106881529836, 4024721563273692902,
  15647194705266829651, 11794156645998887645, 13479559778320359589, 11950639066586349480, 7464368864016129082, 7923826753681505906, 3815006273174754808, 15364506724046200308,
  3064821272494933299, 11967952617493907056, 4692992022825509264, 9690599389532928299, 2031020070357171580, 15245652563758031407, 2206873253625116625, 979820354767594579,
  8752203287551880261, 969034964506307636, 935928741868345539, 16744433345559935811, 13348803409777101967, 4421658920431517441, 15985129117352771001, 8254677999787482667,
  10805033303078333605, 9191670479903800700, 17782363743075465153, 5180155790334917585, 17093861951784896140, 13194696527536869418, 690557717027330225, 12772175524709446560,
  12919131649636966308, 14101856606100643166, 4782299459354266391, 12426445628629098484, 3850001796155692924, 3963901641940779806, 8639300130008702483, 4857727396477172792,
  15409735946820372939, 1486374272706061383, 10088170247683661339, 14627828669600190237, 13118385033719006520, 9290238545835031436, 7507980970447582104, 7968919853055915010,
  5249620479436628470, 7581312152926277167, 12936964525928753006, 16259333862341621076, 2291437910909754694, 2100990746182664217, 15023763391475855428, 11491058859816031552,
  5113478082411117118, 9133341932268597921, 13528004165771019315, 1212107106796169472, 10216533343164381080, 4984597306406535807, 10930130954556929583, 5851810629647798581,
  14581447531477956311, 10904989056252319700, 489616223369648242, 8696033366819165390, 1682165215157026335, 12539859418318260869, 9028792163846533110, 2603965798104327812,
  8348584307553915725, 2991082506271788481, 13112186432775313305, 8353436659091868327, 13413628343560417127, 12155876297158373035, 17606213911796396621, 12748049548075132784,
  2060673768667333555, 5763544867740375002, 8069780191651833554, 13370851780351234386, 514762538047149855, 10633949713144541655, 10749594351113724008, 2234211155774962889,
  7005496228756494870, 1386375449011982367, 10806140648130588362, 6959963436609182992, 9413649234830704371, 11466207903494921427, 15083351220382835953, 3146565202793926394,
  13504645311849435668, 17459804946781732011, 17363755086443877375, 12225276580565631731, 240600573165887447, 1868512618302768772, 1269705670802929282, 16495020897069714684,
  17271565218839627070, 541414460719033345, 16735530246579886554, 5921279284634500742, 10150965093631729574, 13270863629960321777, 3776883372556395718, 12499365099761536121,
  16267700886260303518, 6602793538228211487, 17404394336638203726, 1033808446541364187, 14358729066058732915, 5720766949583901872, 16988643292554318575, 354114395504096263,
  14288675884576412747, 15922255064040473390, 16984850985413383860, 2778873495277221590, 8611948312534929753, 17158064652943843594, 11321613203017003082, 12443193981263129757,
  5779079282403638211, 13613879707912407159, 6012813709255095033, 4273099528900033383, 6157924281676144281, 12242189824186383022, 3391162481933764941, 9744759231503588174,
  12140051782810955064, 16280924914875759190, 16629005297530753664, 6121400633532905057, 10821462047723872732, 12486539616823370570, 4371882005619605901, 11870797907185347983,
  14260401695710077060, 1437223335537391157, 3917566882029690770, 3169799064795636261, 17006117346123903917, 15905057487348853226, 2591263598177103738, 6142292740136716044,
  12351618836281475148, 7014052386622844245, 17461313784096655002, 13507452751403037052, 2323713493109905565, 7866119579984028171, 9613971487157492587, 5458899973152245807,
  11308391777681669076, 3893928677844104054, 8758008114153819669, 2220414611745699296, 8451988776233245615, 2577037022760423116, 808223315106370825, 258658091975386417,
  10249863708333372492, 10906991804381277020, 16792260244001496156, 16790637265379008108, 16092940534094492027, 8034725610271725511, 5575049715391854171, 5551958346835750851,
  11719154451092151221, 14687519154810374488, 16165968623165081468, 17662072238332152245, 15464432172715849214, 941813930341308872, 10418047983360078507, 2110962493788869363,
  10287925907911330711, 11469599090662974217, 14190151282960325129, 4423362500967161196, 11702137776763088822, 5364805475462211070, 7280113782408877159, 2028746913688273021,
  8111741850492669919, 5457259857709150385, 1996487134748370802, 6972653038458792499, 6415165297860476341, 11458426744752071130, 15793076335115170496, 17409026691147324830,
  16904845624388095109, 8363323846988648673, 8344005778296047074, 10266716463687434578, 6739107619015631468, 3563613335938239035, 11503531205162192491, 11623076429827841254,
  1413828034557269679, 15526151869830942251, 12315144834050729528, 12176669164721228157, 3078343174955621837, 8044445154883363114, 11203153585698559551, 44633384710742367,
  14778743975543027894, 17229765240138125074, 18379043452481538746, 10452735115506214285, 17188716546436370192, 12314950905421010067, 11946564082592065096, 15889708164954479830,
  15192035258172439331, 3863468310537764325, 11457932141706452776, 6957704879523920687, 5930907399671052441, 11369276608779882478, 3893273337328741194, 5819157058191206670,
  9072816214807210213, 15420369820950029735, 3747101719840197264, 13960276661377970852, 13500633439841434086, 18340341188877536709, 8531701386353601815, 13437884250403352255,
  2367937435469094128, 18214227773121713953, 12921285931123458472, 12073557388343030676, 532642512770011256, 1120535272884145767, 6828227252853969713, 17812122995583057799]

/-- Entries 1792 to 2047. -/
def roots7 : List Nat := [
  13314689166035410521, 11498644833904982113, 11228545117995069229, 15143029580210118418, 15652455781076086558, 16913960996842143123, 13694814643207378219, 7116203338355731102,
  11245214055888051772, 5373032435283409546, 3764010206446971259, 8759656161632570070, 16500624906328389881, 7124280005708902741, 13411697982497728217, 12368597126984516228,
  2532772095025576947, 17152655657635042838, 2194968859197408562, 15943126463958997390, 7940149154484355095, 9936126304908535413, 13475054940950919437, 15132135617205915,
  429746151802690380, 14065764417259879247, 1548205607838074802, 12322571024473046676, 554429201451334571, 2456863433667176447, 15275580010461719188, 12838998702144240954,
  5317197839237347904, 362675130632512915, 12532653210002002406, 9479615273434220184, 10580907031788962949, 7631815337958721612, 8285885524303518216, 9560544191339748612,
  5069691661116424194, 7835717799820013377, 498703864601298500, 2303042691884632747, 6368735442172280706, 10656394046812994873, 12368683954095965151, 15169965698090549417,
  9434178628364517893, 4310713271705461719, 18185229403670360123, 6528228851745983797, 14288239353000119018, 2235922047656626965, 1345262901505259055, 13635642652304517976,
  566165781674040491, 16941454495345361969, 11007166816727703630, 6261072785400108410, 13340287965013088882, 8564398423701003173, 9583162138948646428, 13330750889818409725,
  8534476712475723010, 6809164084789356820, 14077366088856680467, 1821104281077268277, 15775957920456961781, 577004911561042953, 237514699227269181, 4944168762847519025,
  16024847593164179425, 2743121616203125255, 12543041857216807233, 7057041607609804348, 9158802330404874222, 12843295451778073128, 8662743552629053583, 4853932170891993385,
  5993737819191134814, 3042999549876911127, 4307117609682550467, 13773831422067895415, 15735548492761377215, 5965788497380586615, 8851432096171763572, 1237303106015690948,
  17375092649652061391, 877669718385801765, 4085777712777798613, 2698172333976416491, 6584201724530755864, 12850569508509246270, 6172941415242096217, 6719283106121601094,
  7794841677336464094, 18095246885087636218, 14316565400152580673, 9296347178847665698, 15267664911811853747, 8584998754381245221, 9239313996327475027, 17481747151222172729,
  10740056216413318061, 6517621428343465107, 3871830809971863703, 4322668274070869277, 5673097284876992513, 16365347972911764958, 1663827126393817571, 2473192603184449918,
  1082741025698110819, 15609765803423692746, 5380977898627664845, 9397816373693270162, 4964370657725609915, 7190190618534415047, 11010783207656124244, 2108560684429507500,
  4560835233253082408, 5313356476394001511, 13700862099435267855, 5584549705882636092, 12294543901888568590, 11370979650092510241, 17293924142607597223, 13856781707144488643,
  17614698441967523794, 13362569965394940219, 16027470465955826955, 2426283007581555052, 6180654989627391595, 554441997921952477, 101384577440233678, 12603554680542345667,
  13672966327962665951, 17408591054368319438, 11926920961534578181, 13801701821739749379, 3473780674713038115, 18159153014749473883, 16853764878607771892, 13734042780760201160,
  3045353402908522834, 16916057156022916131, 12587396948866202659, 15314712183698633430, 10740561118705422810, 3583283859013722274, 4579666106399508996, 10094361809674103430,
  8692154510008011490, 2090093435515902633, 13318593666081374689, 4426150796908107921, 16824810914059990728, 11301859781439697410, 17661765867034613735, 16956650417962391689,
  11074645215865899326, 10811932929249232336, 10817947061187069229, 3862317782650900254, 7765696173991372983, 12552347306399229295, 794015910475861407, 13886389743390708924,
  12657126679990567809, 13856165128284343028, 15523597382631253323, 9897254190972196500, 11719111402341694309, 12383924253469248926, 14783780062034244371, 5920504776497407942,
  10023807312121253568, 11128195175242656846, 921999906900807149, 4634962736590285833, 10888507319649098865, 8054014710345849927, 15580655176791451753, 17348835059797204862,
  14858459814477982458, 9811429145939623937, 17810009322765957048, 10256372470514236936, 5927781093590271038, 13473830466482001763, 14596238817489383842, 7453980885781880720,
  2304694247054486254, 17919367871352819054, 16708688227593830581, 847313246087855079, 14875420101162912926, 5281344292762096659, 11633217349017387955, 4076854235131093685,
  15700611871537096845, 962442186326312739, 15907315814209567012, 9457146504567683875, 1889661581134674337, 13888502888592310915, 11800568138333390284, 9679032291537846544,
  3416719476190501245, 17221883316488789531, 4417426076695497156, 10877406796722381641, 9746998133911819679, 1352222446678007786, 14926392207560602415, 6029355652033133403,
  9878917292582981971, 14011269697479077963, 12646103833757601293, 4677236925534401236, 17055778089504501187, 5339874475799936778, 7202191399290623437, 17378142858604152853,
  476674742604257378, 3197527557198404496, 5383084162330145464, 1503923463211390299, 4942235951209886474, 9964074866256553994, 17691771494140750358, 5008455773059284003,
  8197008947751348087, 13434213053864405455, 9253047167622243660, 12274033540473524200, 6406053950068044263, 4661760589646236902, 5179664297762123433, 6903718954798428417,
  6144948571250368761, 14143525125928542232, 2549520522180732096, 5930660359579758283, 5925857443660833334, 3263847118170272599, 691890469306801025, 3227852426435706550,
  947809226010161474, 11108242198747112608, 4426166215256823154, 14113306540905973311, 9803796909530880203, 8832707820589935534, 294714000141205502, 14391227249762337932]

/-- Entries 0 to 255. -/
def rootsInv0 : List Nat := [
  1, 720584736572961408, 14339454576099065415, 8110275066561114576, 15352266420258939526, 15152486747718609328, 16200125796878969521, 11085843110998995682,
  5046958974516722558, 1566725239756563310, 11563523611264299172, 1404102221005623225, 3386674921194715218, 16034887051644249412, 380520087412920058, 1680359344139673742,
  2415623494407783791, 2949921134803416429, 18405853564790494027, 463996450902317306, 17499464599540494904, 13227446636775398848, 3254082477049562153, 14262670077631714335,
  7727640089129095334, 11661136999383463450, 3810301117832204583, 7614862032988085584, 6024793586330155678, 14420619470303158147, 18262235985360545492, 8310971987077119183,
  12181586540519582112, 14298080764675794295, 2118906522585120178, 12309991655342764021, 18325624064017423600, 9134260114812477889, 7704721707807531028, 14539102385238915670,
  15703236532384924460, 16978355917769280149, 2087214607437816028, 16972736180309767722, 14792213808594191265, 579789604800397871, 8575737129051335041, 15787203504377244847,
  8894121825707602835, 6276648052855815072, 8893487500707475579, 8085328980447472551, 5761181159720190099, 6652418741636310854, 12343068558329882127, 16286354927744241974,
  11530142492352825199, 1110002154009246238, 15373611916988710613, 15634065666310731681, 15339005178326524225, 16920436063569986273, 1951807329380500075, 16722924601915614824,
  15599516696790843517, 9301330603569054023, 5659607310527006994, 7133472659921959201, 15806933214660283552, 18103177720330569736, 3884876814261758141, 1918088824638195582,
  2157065136660022301, 13933546606494439908, 2392023476819270360, 17619065391134502258, 7076947864603766231, 2087396650035479448, 17580307378520296367, 5535017560445862618,
  10926393849465726408, 10928705125647298629, 3959685662144320779, 10688897433697924985, 4667905635198108311, 16672264090568771463, 6153828399264378145, 14031280856183462803,
  11481133848405323644, 16969650912392074539, 8557756682134876791, 16117670602764484696, 11428886046060222855, 4728472614196077788, 3671879551364081783, 1498010317746109029,
  15315552893140930656, 3392410807925915442, 3889966384999443771, 17817834615400377237, 16062326045875918303, 9121476918492685024, 7934461991054835160, 842101892116245181,
  12871487787419891119, 10468454229111407162, 7726621330683503562, 10292965458645464204, 16031962928355806098, 13950228507550176276, 2291111462233205072, 11316432244071547376,
  11215915689441210519, 16179788556301219694, 2170104868051588149, 5584183945428982752, 5675300044266745926, 17222943329151984565, 17680446773944457141, 15249400625475686561,
  395184172606782007, 4138190024559759520, 18008409683601954597, 12712087400481258452, 13532629047374889605, 4454209934239804210, 8454462237705513714, 10637411605879141215,
  2882485709911702374, 5479102853510888674, 6356806065002538163, 12707853752216551716, 13637436800167486650, 18127508821964687459, 10638576958653278959, 11960618436006669787,
  15888557761607533558, 6899924416241665661, 11874819665385772177, 7663115328119428581, 6879365912473993469, 7579233764434352848, 7638721038321728530, 6957686905605475202,
  17652944517379415107, 4780726535479012860, 1857219450945102164, 2099774616648622444, 11832736105347811351, 1706280929350397932, 6244397178247093022, 12240611900137460307,
  1764496435215440635, 7108140164040751276, 15161720018324579052, 6627645468456138040, 17779104421400205572, 15496037342646178067, 8515379151300663785, 8934897122271277923,
  3234253183712823509, 12934340506036655917, 16694437013186977360, 1592626176204236061, 990995433884419269, 117612620983987181, 7398083810475989213, 7484318226249183897,
  15927365925771736910, 426151213159721983, 14400980948977921471, 1901325713177990768, 3286539613986090982, 13767063682592890974, 4812702398689794152, 15249524947946806009,
  2060235349167714126, 18027461580456480960, 2126926760382655831, 4256619404902108058, 8486570232345451325, 5604107575625139990, 11402162743734890929, 10846348361085127043,
  16789875770856290109, 7020867115392844083, 14936354525824516811, 8375320713207231715, 8750767493256929145, 8235373967512351151, 9942671091609899546, 12103194441566765612,
  12318040395114068170, 635606647090838604, 13522249142548496487, 15615462698751780971, 1268829698560359966, 3443526265789683928, 6775987149522504468, 11159306790696119536,
  11278332687494595361, 12042388718833803402, 15717655122111463040, 5299065120463519026, 11055079192405723109, 11013436732863969027, 7472453108293154971, 10131173690122092732,
  12800853636497463571, 5451783174600630682, 9686904478556384351, 3690381111356836949, 9835002937724602677, 7363345433434539696, 1333640207411232088, 1566448226569433321,
  15569076005456018638, 4743652370100010589, 17309959524806193422, 238133820252584086, 6026876779566687205, 8960601363353050167, 14890733296592847788, 10155371800298912043,
  5695957462117986287, 10227636094184637112, 6797290953488467222, 1712603234469374446, 1515307037981054639, 6828452632588351151, 16339718027988715053, 3067579756261531531,
  1773960218279923954, 8145101195158695094, 14138194736859784462, 4047904134009740607, 13882939452166037089, 11466412427500928642, 13808209941120793656, 10746301132607064465,
  10646912634289910062, 6700174377334492194, 11748683915134083723, 10430084320128553465, 14896689373270673641, 8844300315269020459, 14057573198806330285, 7571834562236485078,
  1380061346318590881, 6091392333909561516, 11159535537327289008, 17779989640029996166, 4164964654070396129, 1836039087919599065, 17774527383987192203, 1864215917183167511]

/-- Entries 256 to 511. -/
def rootsInv1 : List Nat := [
  13843729955524372349, 6929173952201287343, 6210749523871167966, 5504089817326267708, 2644945295905594879, 9835435739517830133, 7177932315700025995, 2446307072758937915,
  7312156331204646310, 12163750746945737945, 3590973484195340560, 10998109413132381664, 7395286326711867963, 17328467376243743166, 9613989819555341771, 18222733727036876486,
  9294252869736749939, 7335909090725442421, 13269092263275903723, 18304611047808083129, 3191128935074336072, 13358883930968267085, 13756883714562959525, 5110886975247264730,
  12775553583474047995, 5435241857386165654, 11172978625457717870, 4139865493235715571, 12520767733586610073, 6375157525529739561, 5904129970506923848, 10051055267992478632,
  9905048855793995944, 1223813630804333375, 9834344130894502742, 16492639285537513695, 7461188595173734253, 11633003804837084831, 16659508146569381522, 15132347803009549204,
  7281011402018425449, 1181603759020134901, 12723724073638135236, 1179574558594417564, 14236107746368555567, 7417688376969590637, 13810750419757232914, 476198965934789135,
  4449449451911049508, 6178437212166379404, 14036205159702510331, 17013293086750734110, 2228663442058864314, 1521881028045238801, 2262153217968328550, 15333991945168125043,
  9766445742514414677, 103477763411954721, 60749065782215021, 8061698625932014922, 9962734455915777358, 10166516978882946426, 4769293806752969956, 3691701363028259554,
  9667159774827995652, 16993364438883197120, 8814101026442266434, 17535066020541441206, 12837447051713619509, 6961509956816904499, 14416941795066068982, 2895556373819141748,
  15537287381515241570, 12091609888161982136, 9400354572344724062, 3412444512867621816, 1642032709925677804, 3811981445139988970, 4356473362392407594, 17240347946932796762,
  4324110291587336175, 3099363582888551919, 16447453425421916807, 4310104551820725831, 11988953475512391691, 14070410414480673544, 5380322758439347092, 9709149688117892010,
  15256059820581255205, 11860647570106911704, 6556230031431676446, 15678773402515806435, 15350371664039125159, 679982196055665953, 13164927588768639300, 3164416150415106183,
  1283431680054031502, 9187218091026242293, 1189696800286100802, 278289289760259764, 127058393185899550, 8435579064423617674, 8327663069055114211, 2658292005589034313,
  7339053643911545065, 156952678863275842, 7153057593086221718, 6520250947442718405, 1003557954271156116, 2665568966852607550, 3646869193744904348, 11791842267226333315,
  1853518944726972937, 8636570269416346572, 2406954780651667256, 16453020521135010838, 8121678236244370909, 6823870049035701612, 6074982480059591888, 397805659947084351,
  3692502910987101508, 9103837895661253924, 9104345819396119856, 6232011195105011370, 9376887638549153127, 1867049797744035724, 12734827517998547275, 3358259680220261458,
  4188398497342902127, 9670456788528015945, 10582218377671455666, 7726908838741190365, 11234135486665256141, 3749416850190938310, 11388922684377278208, 15332435985475534208,
  10272093299904364820, 6602106519747572961, 13855179933101287385, 632926520882886247, 2679873179851291213, 10804642403028044853, 4793248531494357263, 11108811985278376224,
  3808332611516346042, 7571214003556892252, 17886910587507488654, 7516608150524002553, 11377527775597220384, 2343331506121848135, 1177372566611344240, 12437888883992875823,
  16122863267761146797, 15894856014739809316, 16404408168751433159, 16036132762673402675, 883427360361913874, 11600995365685928390, 10487000506467405108, 4139189751208593535,
  11664740076794462570, 4273806734153598194, 8650815918160338221, 6947379965747211751, 10902461855784876988, 13928532327882973184, 13165870177845770037, 3853290100722220139,
  1415581534621064362, 3381545139969229398, 17244172225368340385, 1799134295774514653, 10221082034257423765, 5130758603555585929, 17033209287973450949, 3449012997388980473,
  8102255825724444182, 4891840718684013852, 3706580671297331299, 10535839004594583626, 9779349734141572214, 12060794766294687622, 184297271006592786, 12136325733266938524,
  5556608262699283665, 14773843062774836944, 8196271302426240870, 12427271599746505321, 1155388510536591850, 8509262336772578406, 2578525951290971927, 14400138441601011230,
  10288131011046074688, 2625650463182780820, 11245515695079858152, 9285063085786033841, 10574335504901230484, 18305084003025969290, 1780017664276987904, 15196342257067717465,
  18163586991854532296, 1441560181764259012, 14691030944302567525, 13403406596431342313, 13571799347256090896, 4483546991804775798, 14396927937030632293, 1778563055619922344,
  9282567353149253811, 725300876654576850, 1274293963538911977, 14417548377959800806, 209592247834114699, 17017724487708729395, 10343224921956816764, 4414183122587650932,
  5380502647922389423, 2337798911215905281, 14989767376945776297, 9399288375836224797, 9751762973080401543, 5000732392060611755, 14126954455474852541, 10676694301352681514,
  3469782640325470708, 832729396940234715, 864938097163789140, 3610199687863410074, 14288970732445006620, 1019729365227139090, 8198367047154165255, 16124082169028569354,
  16721573468801058503, 13659773209992495402, 12031530981357324128, 314429831483378521, 4539273832810577810, 16516937805800214753, 5603021489895219300, 14220144232537667007,
  2152450434406474745, 5058930073920646728, 7417306567712857630, 11878515411578495388, 6691833459422961712, 11862243552544955041, 6805144993497093511, 5839418655913409240,
  1110166645739035363, 12656247405285442064, 7687407076697882323, 4354915888119624158, 15719576492033769361, 9630612632191327573, 5532190911155603566, 17192006418430621811]

/-- Entries 512 to 767. -/
def rootsInv2 : List Nat := [
  10097943079899989767, 11676992078765993587, 20255683256005433, 4184855752328445583, 13079989210672214643, 7038447167291464884, 9213170959295538723, 16537150607676099737,
  5688590441532463626, 3292388673315462213, 10931989109000840011, 5647654539103274768, 13433223723898246832, 15643886481024445943, 6487989661865856645, 1130609737016557894,
  16552820483994036277, 5910494259498674726, 1094038268606333746, 8295662386655399480, 17439062423164502742, 6779541125386223870, 1561402177024633740, 14543679674813270948,
  14443745628100279930, 8303571017132995729, 3750281448748720547, 8080622535161165710, 4479738217547894281, 10078988032840926945, 4861634828663247829, 566847811044842048,
  12673203613276082557, 14480955083683750657, 10382249757730653594, 11174349154651995322, 10280587376273363158, 12281094689164806542, 16564053201283937311, 1499186091843623006,
  15477852371983761340, 2720219471508630579, 4016805438007518348, 7323467504627520726, 8644730774886565101, 3331157311020168746, 13566692462614478437, 7287544811604730261,
  4914077295355100996, 12115439963946358264, 8536004395341274484, 17170395422099999188, 16177064404236674049, 7389948076918460511, 3914235906738725204, 7494167093415374659,
  8842181014702614520, 12239671536428358129, 3540710883005860104, 18221423079466185736, 4054159366753845697, 15926432533051452482, 426170084500148860, 6297283581476074799,
  6141761197168701817, 7838769675792589077, 14011758721473343614, 15901769354166751801, 4707391816752893618, 15945941760254210128, 4186790454090364775, 5053289817703893239,
  16361117233508905393, 6399176188523321940, 7618872048820009803, 18334926246920509994, 2084415574742458994, 4057702092446229616, 8374567395077315515, 8499514845591806749,
  6101502564159956830, 413204597813824931, 11169807041270581908, 9274464034327338788, 6452412597888073156, 4852864736823694195, 4181371280258726006, 11295859539931020235,
  3220538774275138568, 2507121583039324459, 561702878326669741, 9127560269823345606, 3570309256437706901, 3657432683443384922, 14094715747384286878, 17110922562227501481,
  13231069409571495536, 7190099334407500380, 17092018277704430889, 4842690132016613479, 12852082745904303395, 4064641838960191080, 9525897981278711295, 924395126793920387,
  622541640284846560, 14530091818331330269, 12020347941617962802, 13232790846921258535, 6973348136995784345, 5758194043035297178, 4466406641333599566, 2238820611635312891,
  7954548038973292253, 4608410064243181904, 14393450452664293024, 13750377946622933964, 2743724888065827384, 8972979307888802042, 17177165992516633052, 16509492359475849701,
  7490036530474156128, 12375501856213963413, 12225572298905778680, 15178298328699222454, 17662637484398201158, 17005546844543834780, 5718604371048851950, 16853193906797142307,
  12248213429557734635, 1594243426650579816, 13807869003942620335, 10381228967731995756, 11719860474096291085, 6376231754775813852, 4551459944452630070, 2659452958389278685,
  14743083846796956038, 10846350927568163314, 237287342629022071, 1851488983483044742, 9608011993591340787, 9318845268052481280, 15216879367416675372, 2677330506024019048,
  16045928221936411867, 18346539688063983374, 14794814345577533333, 12795570536133139120, 5142871598768745629, 16611701086773880750, 1598842307508456024, 1796761547487152873,
  15845374357201035407, 13972553433495311907, 7980693538638982963, 11249306638791084664, 15030060455202020111, 13673489155500294694, 12891080419529583219, 10825215787653611484,
  4404983572016544890, 8039512501894331636, 5886659200982257867, 9127820730074839039, 2371707413948315582, 8123424574034125143, 5969970169097832866, 3773439436964537533,
  15987685906475088874, 2512197498413136780, 4160813566015275865, 10082188645986781133, 16013374150413453876, 3357220422476586609, 8987569910200055449, 16512825003558531901,
  14186302338719979553, 4962398715566408069, 3606584229363136377, 2755999003182475896, 2762233017109386158, 3363601463454604475, 4959995530261474315, 14499019927230533733,
  11705097318736603502, 7766801710352178091, 8145434815810354165, 7296932142693784310, 7314772591964433775, 5965584286800752956, 5615996176191044556, 16281670558832379804,
  15120061611248729305, 7088899577293988117, 3623361730512097056, 9494385750212889799, 3819220655083136323, 15755927186257424794, 14640606068442037659, 217204174906810610,
  6702843721471494696, 16342531937575324312, 17255389869067509226, 2651409323492088992, 8762446432511450973, 10226308866305657391, 1956778527598246837, 13993451429918824052,
  6235711999543714194, 10387969700588236081, 3646440248278528693, 11797290190451955908, 8998031337629316895, 9305322551771133609, 18389483710161855743, 981500426824989709,
  2081889661076269459, 1586022880768958039, 13556684727703494992, 2294349869460516463, 5094774410683419813, 10121423808828427461, 2314994870063185443, 606208517358840133,
  18284682382630176467, 16289997832185705239, 9796869419518346229, 11570448673774625530, 689479488652124241, 5766504686104166635, 13125788729156380782, 5651580476324602206,
  8396625593233513136, 449626107234616103, 12417119130716110743, 16410695571644707523, 17748622798465133047, 11318686644788839110, 11512504193875972035, 8984253069647582305,
  9463727681993636348, 7415046004870026800, 17668666395601304815, 10732743938168514398, 11522673627658078522, 3161482609537079386, 14772500991005343498, 10644192625678518946,
  14516776644996443153, 14594016781082018728, 16588319898259453768, 7480795024701291022, 15071296941905409082, 15348699096703383736, 12650210108052730263, 15959198997842115932]

/-- Entries 768 to 1023. -/
def rootsInv3 : List Nat := [
  5375436023313452847, 4218977889953457179, 6178007525961120342, 14882624403900390679, 15238024406211542776, 2427811766348229406, 7642977216434550760, 17081188589582039662,
  18202510302316203677, 4212483315408775092, 5620480063260416565, 9691697791129171927, 12295517924719753475, 1231308109915558302, 2609713418217905164, 1671410981905325088,
  10045730717875969685, 8766011004209920862, 9022554724081751877, 3441419413746216277, 13067560783987712493, 13909501657295004405, 312230288522406699, 13600539694009364045,
  14594061778468471529, 3442775150007903448, 2431894056038677321, 17716522639223317196, 17113734370282833981, 11766069996412770623, 13272749970269646992, 1248451030353954167,
  2700203904938982575, 12666938802060913093, 12697167781988836472, 5841665947442512978, 13244405742454123599, 7173621199689022152, 12228436574752190722, 10102412519648032766,
  11856316154691296039, 15547800602002187522, 13942401427952495504, 513811739595918645, 17424438548463445801, 7525916439989403668, 16410183458068486526, 12048681662214734000,
  9324581244086196382, 8231926529085558197, 4430886398566401025, 9409363135481283655, 8025936838234602877, 3092209697976707060, 365180831423760423, 6344554710270825872,
  3954194069088336053, 11856058945679971919, 6690001515025899337, 6903187476104835215, 10555606487067701266, 10032357410525031737, 17925274107512160062, 11390428502615281652,
  10363372342505047286, 5502457145034553997, 11679483039692533486, 16536654687885485331, 110746111103722307, 9576850137930501443, 17440236232555916261, 17209225662671073152,
  17729506611050728216, 946309274453385914, 10489505111793425293, 8697728027174150422, 9312994674092148961, 10937968435525024564, 15832287560280555829, 13607990988051502241,
  16330621167570691997, 8440960748299483285, 6835912704020986067, 753259776765792472, 7580046107999638120, 12873970982020752442, 14297594752389831429, 7666435773217060115,
  12693299666652316639, 5071376283843083345, 5486678088202374729, 2075819849047841611, 15274959147289666303, 15199195540906953110, 14033406111272686003, 12650009576488595680,
  3461086663483859015, 3340844781679409455, 1705197871374036184, 12666693797972339535, 9854896478669623049, 485258212961589851, 5170562070540265176, 11101084418133049015,
  8254565990739629917, 9454069844009381116, 14245537947847066712, 2453708273006749464, 6559668974739651234, 11026770608175382445, 10492941647376568109, 9360709034550470651,
  3090472798919161295, 2479815774656123162, 1509395748047720235, 712157583701548673, 8074661162189161100, 7475514365326073334, 8313693305733303793, 4036281567162132353,
  14643924302032857628, 7950631907594688710, 2545180431774649463, 4972170149984981380, 2378648942336573881, 10580150782414405325, 17148773801102792480, 13913352123966258662,
  12154444845318955824, 4491455945934257456, 16462063708987846290, 8245447436018748990, 9203685289284384932, 11770656118627882319, 17117456327109425130, 6434124064121990839,
  3813006259107431727, 17758744434257048536, 12418203053072410041, 5503674537038553330, 18222990220873965427, 5602215340434473095, 4848305381987677275, 17694685621614617168,
  7382469131519363440, 10013907707358127889, 11316616784072716964, 12520182662652851665, 14638828593864731974, 13831069251589250400, 2536861175917237266, 9860277426160478240,
  10338934386865378870, 14408956914942267223, 7278549308549397156, 12255085983230361860, 1031231188958731547, 11579439553435051463, 12504651710362024603, 17630907458769972529,
  5885559206608921214, 14210276605812041968, 16284805371390084907, 10026880261560897151, 2693119855261861605, 6655256924877990181, 16484713959436706445, 15296592596069655619,
  16237303551009588013, 6448496252489811721, 2473761370075781530, 1862316359528776510, 2925272900590040846, 2365548739535574608, 11434209847007923064, 9572588609318654186,
  5274968838075247011, 5418713588537536492, 14093186548276388556, 16817191017426893925, 7211352716245192200, 16625030817943369947, 15598912598621222073, 14608621968046662052,
  16157066923336215185, 9257852934914651184, 6581837544126854528, 12940229291180955798, 12491316998074999493, 6525838768054902791, 6573452705355658361, 9507561341625529504,
  11768686128640359797, 6723799247003675925, 17575675009565579870, 1352486578722372502, 16743061553969962698, 280383815556887441, 4406181235259483525, 14562531586333514289,
  12926858219201961878, 14634095797133016990, 6982163598830151800, 10244041705864268452, 12242774704110634094, 9359572858030271487, 2137944734277423570, 9548479529727010991,
  13036970383172138649, 13596375499534094444, 6316115134601324066, 9154401177646397466, 7016133888116035681, 13841059323040629862, 10755786056975891807, 10308360660986393398,
  4052637692626184610, 1761505424603299985, 16985202969499982738, 16477999917762907014, 6420345420345691356, 17480135984916351263, 3661842677715146364, 15065853992698375057,
  10520143311806172722, 15468294025628841440, 5708585387446323701, 4474762552740802473, 16088024431463328769, 7956762433667183604, 15622011170448653783, 2979734380405323682,
  14507953241704474784, 8000481789605097911, 13878122890172025173, 9702312147057036246, 10638028264945483839, 3502034103858542308, 13256227337839949793, 424367939072941320,
  4406418970319501429, 16869277130184189268, 18107868204311463863, 1996540774490948268, 1047050152503350741, 12686338787510910629, 5176629057729060328, 16226709260326751739,
  14411269067784003374, 12831860149504902813, 17179895211199985644, 291552938401549993, 2238173208726918874, 9679795674444601400, 11901206697773264443, 14450895965992577417]

/-- Entries 1024 to 1279. -/
def rootsInv4 : List Nat := [
  4055516823947098997, 18152030073568231427, 9614036253119501395, 8642947164178556726, 4333437532803463618, 14020577858452613775, 7338501874962324321, 17498934847699275455,
  15218891647273730379, 17754853604402635904, 15182896955539164330, 12520886630048603595, 12516083714129678646, 15897223551528704833, 4303218947780894697, 12301795502459068168,
  11543025118911008512, 13267079775947313496, 13784983484063200027, 12040690123641392666, 6172710533235912729, 9193696906087193269, 5012531019845031474, 10249735125958088842,
  13438288300650152926, 754972579568686571, 8482669207452882935, 13504508122499550455, 16942820610498046630, 13063659911379291465, 15249216516511032433, 17970069331105179551,
  1068601215105284076, 11244552674418813492, 13106869597909500151, 1390965984204935742, 13769507148175035693, 5800640239951835636, 4435474376230358966, 8567826781126454958,
  12417388421676303526, 3520351866148834514, 17094521627031429143, 8699745939797617250, 7569337276987055288, 14029317997013939773, 1224860757220647398, 15030024597518935684,
  8767711782171590385, 6646175935376046645, 4558241185117126014, 16557082492574762592, 8989597569141753054, 2539428259499869917, 17484301887383124190, 2746132202172340084,
  14369889838578343244, 6813526724692048974, 13165399780947340270, 3571323972546524003, 17599430827621581850, 1738055846115606348, 527376202356617875, 16142049826654950675,
  10992763187927556209, 3850505256220053087, 4972913607227435166, 12518962980119165891, 8190371603195199993, 636734750943479881, 8635314927769812992, 3588284259231454471,
  1097909013912232067, 2866088896917985176, 10392729363363587002, 7558236754060338064, 13811781337119151096, 17524744166808629780, 7318548898466780083, 8422936761588183361,
  12526239297212028987, 3662964011675192558, 6062819820240188003, 6727632671367742620, 8549489882737240429, 2923146691078183606, 4590578945425093901, 5789617393718869120,
  4560354330318728005, 17652728163233575522, 5894396767310207634, 10681047899718063946, 14584426291058536675, 7628797012522367700, 7634811144460204593, 7372098857843537603,
  1490093655747045240, 784978206674823194, 7144884292269739519, 1621933159649446201, 14020593276801329008, 5128150407628062240, 16356650638193534296, 9754589563701425439,
  8352382264035333499, 13867077967309927933, 14863460214695714655, 7706182955004014119, 3132031890010803499, 5859347124843234270, 1530686917686520798, 15401390670800914095,
  4712701292949235769, 1592979195101665037, 287591058959963046, 14972963398996398814, 4645042251969687550, 6519823112174858748, 1038153019341117491, 4773777745746770978,
  5843189393167091262, 18345359496269203251, 17892302075787484452, 12266089084082045334, 16020461066127881877, 2419273607753609974, 5084174108314496710, 832045631741913135,
  4589962366564948286, 1152819931101839706, 7075764423616926688, 6152200171820868339, 12862194367826800837, 4745881974274169074, 13133387597315435418, 13885908840456354521,
  16338183389279929429, 7435960866053312685, 11256553455175021882, 13482373415983827014, 9048927700016166767, 13065766175081772084, 2836978270285744183, 17364003048011326110,
  15973551470524987011, 16782916947315619358, 2081396100797671971, 12773646788832444416, 14124075799638567652, 14574913263737573226, 11929122645365971822, 7706687857296118868,
  964996922487264200, 9207430077381961902, 9861745319328191708, 3179079161897583182, 9150396894861771231, 4130178673556856256, 351497188621800711, 10651902396372972835,
  11727460967587835835, 12273802658467340712, 5596174565200190659, 11862542349178681065, 15748571739733020438, 14360966360931638316, 17569074355323635164, 1071651424057375538,
  17209440967693745981, 9595311977537673357, 12480955576328850314, 2711195580948059714, 4672912651641541514, 14139626464026886462, 15403744523832525802, 12453006254518302115,
  13592811902817443544, 9784000521080383346, 5603448621931363801, 9287941743304562707, 11389702466099632581, 5903702216492629696, 15703622457506311674, 2421896480545257504,
  13502575310861917904, 18209229374482167748, 17869739162148393976, 2670786153252475148, 16625639792632168652, 4369377984852756462, 11637579988920080109, 9912267361233713919,
  5115993183891027204, 8863581934760790501, 9882345650008433756, 5106456108696348047, 12185671288309328519, 7439577256981733299, 1505289578364074960, 17880578292035396438,
  4811101421404918953, 17101481172204177874, 16210822026052809964, 4158504720709317911, 11918515221963453132, 261514670039076806, 14136030802003975210, 9012565445344919036,
  3276778375618887512, 6078060119613471778, 7790350026896442056, 12078008631537156223, 16143701381824804182, 17948040209108138429, 10611026273889423552, 13377052412593012735,
  8886199882369688317, 10160858549405918713, 10814928735750715317, 7865837041920473980, 8967128800275216745, 5914090863707434523, 18084068943076924014, 13129546234472089025,
  5607745371565195975, 3171164063247717741, 15989880640042260482, 17892314872258102358, 6124173049236390253, 16898538465871362127, 4380979656449557682, 18016997921906746549,
  18431611938092231014, 4971689132758517492, 8510617768800901516, 10506594919225081834, 2503617609750439539, 16251775214512028367, 1294088416074394091, 15913971978683859982,
  6078146946724920701, 5035046091211708712, 11322464068000534188, 1946119167381047048, 9687087912076866859, 14682733867262465670, 13073711638426027383, 7201530017821385157,
  11330540735353705827, 4751929430502058710, 1532783076867293806, 2794288292633350371, 3303714493499318511, 7218198955714367700, 6948099239804454816, 5132054907674026408]

/-- Entries 1280 to 1535. -/
def rootsInv5 : List Nat := [
  634621078126379130, 11618516820855467216, 17326208800825291162, 17914101560939425673, 6373186685366406253, 5525458142585978457, 232516300587722976, 16078806638240342801,
  5008859823306084674, 9915042687355835114, 106402884831900220, 4946110633868002843, 4486467412331466077, 14699642353869239665, 3026374252759407194, 9373927858902226716,
  12627587015518230259, 14553470736380695735, 7077467464929554451, 12515836674038384488, 11489039194185516242, 6988811932002984153, 14583275763171672604, 3254708815536997598,
  2557035908754957099, 6500179991117371833, 6131793168288426862, 1258027527273066737, 7994008958203222644, 67700621227898183, 1216978833571311855, 3668000098166409035,
  18402110688998694562, 7243590488010877378, 10402298918826073815, 15368400898753815092, 6270074908988208772, 6131599239658707401, 2920592203878494678, 17032916039152167250,
  6823667643881595675, 6943212868547244438, 14883130737771197894, 11707636454693805461, 8180027610022002351, 10102738295413389855, 10083420226720788256, 1541898449321341820,
  1037717382562112099, 2653667738594266433, 6988317328957365799, 12031578775848960588, 11474091035250644430, 16450256938961066127, 12989484216000286544, 10335002223216767010,
  16417997160021163908, 11166630291300559770, 13081938598247225859, 6744606296946348107, 14023381572742275733, 4256592790749111800, 6977144983046462712, 8158818165798106218,
  16335781579920567566, 8028696090349358422, 17504930143368128057, 2982311900993587715, 784671835377284684, 2280775450544355461, 3759224918899062441, 6727589622617285708,
  12894785726873686078, 12871694358317582758, 10412018463437711418, 2353803539614944902, 1656106808330428821, 1654483829707940773, 7539752269328159909, 8196880365376064437,
  18188085981734050512, 17638520758603066104, 15869707050949013813, 9994755297476191314, 16226329461963737633, 9688735959555617260, 14552815395865332875, 7138352296027767853,
  12987844100557191122, 8832772586551944342, 10580624493725408758, 16123030580599531364, 4939291322306399877, 985430289612781927, 11432691687086592684, 6095125237427961781,
  12304451333572720885, 15855480475532333191, 2541686586360583703, 1440626727585533012, 15276945008913800668, 14529177191679746159, 17009520738172045772, 4186342377999359869,
  6575946166524088946, 14074862068089831028, 5960204456886066359, 7625282025985564197, 12325343440176531872, 1817738776178683265, 2165819158833677739, 6306692290898481865,
  8701984842205848755, 15055581591775671988, 6204554249523053907, 12288819792033292648, 14173644544809403546, 12433930364454341896, 4832864365797029770, 12667664791305798718,
  6003550092446307172, 7125130870692433847, 1288679420765593335, 9834795761174507176, 15667870578432215339, 1461893088296053069, 2524489009668963539, 4158068189133024182,
  18092629678205340666, 1458100781155118354, 12725977124125535057, 4088015007650704014, 17412935627168072742, 1042349737071233203, 11843950535481225442, 2179043187449133411,
  5947378973947900808, 14669860701153041211, 5175880443749115152, 8295778980077707355, 12525464789074936187, 1711213827129550375, 17905329612990403584, 1175178854869809859,
  1951723176639722245, 17177038402906507647, 16578231455406668157, 18206143500543549482, 6221467493143805198, 1082988987265559554, 986939126927704918, 4942098761860001261,
  15300178870915510535, 3363392853326600976, 6980536170214515502, 9033094838878732558, 11486780637100253937, 7640603425578848567, 17060368624697454562, 11441247844952942059,
  16212532917934474040, 7697149722595712921, 7812794360564895274, 17931981535662287074, 5075892293358202543, 10376963882057603375, 12683199205969061927, 16386070305042103374,
  5698694525634304145, 840530161913040308, 6290867776551063894, 5033115730149019802, 10093307414617568602, 5334557640934123624, 15455661567437648448, 10098159766155521204,
  15842778275605109117, 9417951909862903819, 5906884655391176060, 16764578858552410594, 9750710706890271539, 17957127850339788687, 7541755017457117229, 3865296542231480618,
  12594933444061638348, 7516613119152507346, 13462146767302901122, 8230210730545055849, 17234636966913267457, 4918739907938417614, 9313402141440839008, 13333265991298319811,
  6955685213893405377, 3422980682233581501, 16345753327526772712, 16155306162799682235, 2187410211367815853, 5509779547780683923, 10865431920783159762, 13197123594272808459,
  10477824220653521919, 10938763103261854825, 9156505527874405493, 5328359039990430409, 3818915404109246692, 8358573826025775590, 16960369801003375546, 3037008126889063990,
  13589016677232264137, 9807443943700734446, 14482842431768657123, 14596742277553744005, 6020298445080338445, 13664444614355170538, 4344887467608793763, 5527612424072470621,
  5674568548999990369, 17756186356682106704, 5252047546172567511, 1352882121924540789, 13266588283374519344, 664380330633971776, 9255073593805636229, 7641710770631103324,
  10192066073921954262, 2461614956356665928, 14025085153277919488, 5097940663932334962, 1702310728149501118, 17510815331841091390, 17477709109203129293, 9694540786157556668,
  17466923718941842350, 16239870820084320304, 3201091509951405522, 16415724003352265349, 8756144684176508630, 13753752050883927665, 6478791456215529873, 15381922801214503630,
  3082237349663236621, 14631737800534682121, 10522917320027931023, 10982375209693307847, 6496105007123087449, 4967184295389077340, 6652587427710549284, 2799549368442607278,
  14422022510435744027, 12937980966827907093, 11361685021941047931, 16191540400023508378, 3102661531955180033, 5250046158943287415, 16719919414596490554, 11059584134853946982]

/-- Entries 1536 to 1791. -/
def rootsInv6 : List Nat := [
  8363335399356053517, 13291814750454963784, 13507974187895628067, 5014407414907901560, 10778212305350296514, 73525583935351593, 6034126740774939781, 10553560362217300034,
  553302897247815365, 17254131241427458853, 15471333672820658001, 2887223787215374316, 2856177089842501325, 9465076588381172909, 11315901239897112357, 13136727959179284728,
  8121072992324736629, 15105386915064538004, 10102892641702499021, 9275182326058267571, 14206321124189956403, 2603139464915457017, 15807389476743794027, 757201665262726250,
  16822449377803902007, 7690413354226484461, 10550376240523720827, 6135453118312909629, 4400458547450975324, 8338406190377640969, 2562163766050745729, 2687166435253195390,
  10142437543287513790, 11134931370897876353, 7945579971771557694, 620925115392590278, 17868761269365443691, 11132557054046568560, 11358386840458740439, 17620879148025185122,
  3967802438891206591, 14908503739042302019, 3630147709306740246, 8036446557189959694, 9701367233625782277, 6668244627292215554, 798681818464309694, 1432868650662142660,
  10383271210224147730, 11455263195702000513, 18123855526150157607, 9578507423875753250, 7514656328651638510, 9696133691950698974, 3115515025579467475, 1744445286600384004,
  627332500123248777, 16938282972730478996, 9367553959900038673, 204968366777733822, 5189838313401388008, 16093938609184063899, 14799585092913102984, 4895478484689789874,
  13064747985820889625, 9217586447783948069, 1961872673036197693, 912888556428563119, 12467315587029176252, 14338682016721701570, 11512960733711895190, 849619889711984803,
  4130141138084447271, 12914895728300354099, 6986375819697363572, 11684943903188248482, 15991838603502791360, 7931581019267009337, 5770073449382160585, 4402699657937435122,
  4678935981595149102, 11533085028253719850, 7354227437027495045, 7802681086730203830, 1291038684616921504, 224987607346578820, 17905393620063967153, 6066000340684904778,
  5459595045145972334, 4456882910322269793, 14189398714335623617, 14893311763636902063, 1161051154327116192, 13694122209985488343, 5488035340442469780, 13496363821681627239,
  12205069750446280759, 767196722442975313, 17785938820378280070, 2340991606892359229, 8418880573966266362, 6348511178102742788, 6220788735123088994, 11721898852873259955,
  3522463280106755977, 18391941951727598967, 10370268470084612414, 1634662574904876604, 17771067727918489761, 6916190664582123448, 4805615322900182002, 7153086095207729871,
  4897285808129817119, 2931180460040222805, 12751172189789334310, 8856502340294706598, 3222647887679005215, 6347880464269091567, 13916708272092636024, 8189508592041500760,
  5862267538842920296, 6940034780988154573, 2497672402511693427, 1692100019395091894, 10456923995732289134, 12155522608075482359, 14014536931326528963, 11054163017376560448,
  11387686751085504302, 9825697875611565309, 9093620374652848165, 1022538599663882301, 16757311630259249284, 4544040084040453571, 10380604044069392341, 14021072245422159994,
  8714584790507569002, 16232438888651666301, 13116135255240940606, 10491081288633500668, 7649639360672565481, 8087960717388555802, 10147033451423032776, 12497104650947131756,
  8353315234487110976, 11104828790507936137, 6611818940440555702, 3480960507427333699, 16436717729732218372, 2971147759929087517, 13125403321513623952, 6159669498719632199,
  10355644387200142765, 9220859401460261608, 8446831685142452210, 14397360126243440253, 11397558818012107921, 6935559700625825076, 15183126599051619497, 12704219419463003334,
  12931249970939662645, 674039333157150717, 16175272583371362139, 8907390485632955857, 15891559210083618773, 16419327483933954330, 12396467173049511359, 2891147009218013940,
  8600297092016232758, 18123716379399414760, 15466596685655009004, 15626679146719806117, 11909307999488411781, 4918133357984291961, 3674677445637683069, 16008835048913377529,
  16376915385483723535, 8157988507784755903, 757802790655719884, 8219051757404180852, 11012235734944444395, 11715053774263644144, 7759316550076041270, 6086653860364651743,
  18424985389377829314, 17706183112233979236, 14342387713824948922, 17758060972885685980, 3959969917157364771, 6053946990466018106, 14990790337031839444, 16606793721403756857,
  5140156841634430261, 3787846509587660571, 2021479384006279829, 9809641784348724774, 6555558431906704376, 9090234211221150730, 636731736985904602, 14899117145300417376,
  11466228001860959682, 4975463533882374428, 14032866053630972498, 11967957737913677468, 8671992591996638781, 16770628150159154935, 8924413026655165099, 8767976077617673443,
  2916944722885737019, 5384385260518738437, 16029407776606233419, 7657508769848001569, 13712664632438691819, 17429860112836341741, 15096278653698093695, 10966186067369003257,
  2308778688789989988, 9910493616529532850, 9971188375450882228, 10556060012563313900, 11390956883948253311, 2014570731163308621, 13455955632778125203, 1749625392734561470,
  5794051507814346225, 12299134867672743524, 1364564963737387032, 7408979476653681212, 9907746267570320054, 6996910055817180021, 15372430323780653381, 13986933709152091124,
  2947317588422294017, 7590703724199753453, 1970153350854455420, 4046971427435438624, 6712870272744598405, 5378962644420492279, 13091702902240817644, 11832620054962135488,
  7097649488179160726, 13041304207818406620, 1144857369390138996, 4690484757922675774, 13342559315826699127, 14583496141914694068, 12480295976198012316, 8436385400891807449,
  16551040828015193992, 7514196941877300448, 15984546823964065495, 7835276394384587433, 10541155344698608374, 2884109774294488820, 14441582454641016247, 6056963059848648898]

/-- Entries 1792 to 2047. -/
def rootsInv7 : List Nat := [
  3933565855054725119, 5296908718214473613, 9420091998914236382, 8100177204409137514, 6364819740795476884, 3005681059299916116, 12258338510316933392, 2418512676319179162,
  913140964721821827, 15445903160333292979, 11017041759064682662, 5118726258008166258, 11788650981527164509, 10887921906591792933, 12862521247230622264, 9803786683047618374,
  13459913044996944437, 6925234995212106620, 12178899725828319226, 5146931911922861607, 2002436970211644828, 13644426622001071362, 15168769023657393794, 15975571408380157899,
  12572409532821561882, 11047765200183607030, 18079784481507806557, 10898340304276776359, 15816275387137361292, 1294077292679563882, 10130658415782046633, 18185910280760979701,
  1513605263470150467, 15596468352134000962, 5583965658126644215, 12227872981165711307, 16184247219339497244, 14322203347298338270, 1984784797314131640, 17464392179691613400,
  10394425185070817707, 12140581853377753451, 16977140408275855621, 15608032739867963883, 12460384908081091205, 13398475672879636457, 8937827982123226571, 4933492377172491619,
  5526826741994246186, 15769594192842440617, 13132968046082225528, 2936327445139236473, 2328165919567659577, 16379958464828674786, 18286194827083108162, 9966930049683334322,
  6767403449152485692, 7453118263310552567, 10799871614642006522, 15820794217842053525, 930037470674557594, 8011117646081187703, 10498318653679400753, 3646111373079397911,
  8049223422024899250, 9259935874498359830, 13957769017589606348, 12258618967230099451, 6327040162606835992, 12552899848037334959, 13598437208964702450, 4733728764076603710,
  15586150040263975879, 5243937976929525957, 3881994366677219636, 5289909915905354062, 6311411419116750179, 1625018088394345210, 15880434374684476421, 1288376538250316901,
  14355327621658585038, 17143194319920700421, 4036057247314746395, 16420022969233305105, 6601693610556843965, 12515802696822791691, 10641406974219404369, 2959589855452310725,
  12534184883162080925, 17693334161932902239, 12082977445633911413, 12171730342799379761, 11563300536968276633, 17361218883992352761, 16213586560276706364, 10280663971129591533,
  4890033036072060652, 9258663593035072801, 2050740586224908732, 12319872251265556320, 13559709641408040045, 17856161157864007279, 14572644966889468894, 11154692195644371754,
  1485458200235454892, 2939622977373132093, 1040710259302830679, 14221651924546159934, 3007432859682592677, 11988700423121972842, 7490228559242963184, 11300947390831477107,
  9080417054015380025, 7153001713979895199, 12684740124829510524, 8804373028417792713, 3378564035706202429, 16620783952625153091, 4650438893877216287, 5004775362781985866,
  13482682157643925749, 15802915867016748804, 11419106610415739123, 5844040427621364838, 14426376882538134668, 1664115399296284557, 5246762087807033316, 16366084832136365859,
  14078683785914474190, 5922266445794034345, 5290783257851623500, 6601269377208789365, 11141021977017528240, 12867768809481247127, 10475340387208094148, 7057985744206403539,
  17678369883497433369, 8014180010593593187, 8532496339159599064, 14835653647028363848, 5858956146897766967, 5425669425485271704, 17676741370324440956, 17719261960088105396,
  4354699469539138788, 16884562809110952994, 12043980364429834644, 5627316845275266053, 17057434587440012694, 11803948410806285553, 7021280609260251990, 10552575469862699254,
  18314133423117357837, 3837751204154204189, 8274427711895795157, 3915267102345592280, 1005719143476589164, 5547457263414190345, 8142092111569099560, 1070532823368463830,
  694694328588265874, 18277933238992905494, 15023965530569668453, 14748520320183342532, 15913718756078721526, 13347521326518687740, 14716916090877170442, 6195236807739224914,
  7358630859595182313, 8377617666063205181, 9399099221792715193, 9099789655609196687, 18288449661070632832, 8777479916879745560, 3268254596814439027, 12097218130279874932,
  11245895925290734618, 11050689760229733399, 10792877869470900803, 1642155460868553339, 16105523439281856526, 18061336246800863, 632934143185256461, 6079066106355065081,
  13288657886184134604, 16315980468762883692, 15180736349212447313, 16505794924871893254, 286830812282478337, 8430956151308543082, 16490697781912746077, 8894261733725310322,
  15438903961392233466, 3249121823796354854, 18348642823553920078, 15273238565853581103, 9873004944567862610, 9972443435047462288, 8002516857782843137, 2676918697235344108,
  10963934501052469816, 16788019434414133817, 3715275377942453050, 4790487797927133438, 7174871353327885563, 15960044620257140890, 14991453378846169213, 4640824161278619959,
  2961801658613604343, 3219161231343567260, 18253983775243754624, 12493637269463011652, 14675141158299382285, 2495688924176322337, 6973524712043925628, 16949527593008214988,
  9177665564599548184, 17878948722717669993, 5282511924979052943, 11191723575257633303, 16541794587063888786, 10330553733893515004, 13044709348110904841, 12215669302730725065,
  17905972234034716291, 10159972662037405359, 5574707373458820235, 17050534932626933559, 12428543338799713602, 925908340306348782, 3524335288411313682, 373819575210892269,
  17282201758272561537, 13868253987348136213, 15371999637568175125, 18132334538133553164, 16490498765236419686, 7756672416249452922, 17648388876726211838, 8423889712606047832,
  12184283263209178042, 11791661164426746246, 13424040153067341723, 16564400703751931898, 17190726767178424505, 13990021395721309818, 16776288715295556532, 3991098108202835065,
  14925725806042888901, 643247738107840668, 12901570015939163219, 17618753146145482497, 9479927737812004098, 16375778917867637883, 9341431473494537355, 17519116583000304348]

/-- params_64_2048.rs:1 (`MOD`), 3 (`NINV`), 5-2054 (`ROOTS`), 2056-4105 (`INVROOTS`). -/
def params : Params := ⟨11, 18446744073709436929, 18437736874454695993, roots0 ++ roots1 ++ roots2 ++ roots3 ++ roots4 ++ roots5 ++ roots6 ++ roots7, rootsInv0 ++ rootsInv1 ++ rootsInv2 ++ rootsInv3 ++ rootsInv4 ++ rootsInv5 ++ rootsInv6 ++ rootsInv7⟩

/-- C36 for polynomials of size 2048 over 64-bit tori. -/
theorem C36_table : TableCorrect 64 params := check_sound (by decide +kernel)

end Verif.Ntt.P64_2048
