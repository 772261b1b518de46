/-
The twiddle factors of the Fourier transform of the GPU.

Source: /repo/concrete-cuda/cuda/src/fft/twiddles.cu.

The literals of the source times `10^33`, in the order of the source. Written by tools/twiddles.py.
-/
namespace Verif.Cuda.Nsm

/-- twiddles.cu:4-259, entries 0 to 255 of `negtwiddles`. -/
def tw0 : List (Int × Int) := [
  (0, 0),
  (707106781186547461715008466854000, 707106781186547572737310929369000),
  (923879532511286738483136105060000, 382683432365089781779232680492000),
  (-382683432365089781779232680492000, 923879532511286738483136105060000),
  (980785280403230430579242238309000, 195090322016128248083788321310000),
  (-195090322016128248083788321310000, 980785280403230430579242238309000),
  (555570233019602177648721408332000, 831469612302545235671402679145000),
  (-831469612302545235671402679145000, 555570233019602177648721408332000),
  (995184726672196928731750631414000, 98017140329560603628777926132900),
  (-98017140329560603628777926132900, 995184726672196928731750631414000),
  (634393284163645487794269683945000, 773010453362736993376813643408000),
  (-773010453362736993376813643408000, 634393284163645487794269683945000),
  (881921264348355049556005269551000, 471396736825997642039709489836000),
  (-471396736825997642039709489836000, 881921264348355049556005269551000),
  (290284677254462331053019852334000, 956940335732208824381928025105000),
  (-956940335732208824381928025105000, 290284677254462331053019852334000),
  (998795456205172405006464941835000, 49067674327418014934565348994500),
  (-49067674327418014934565348994500, 998795456205172405006464941835000),
  (671558954847018441114414599724000, 740951125354959105884233849793000),
  (-740951125354959105884233849793000, 671558954847018441114414599724000),
  (903989293123443338195954765979000, 427555093430282084909777040593000),
  (-427555093430282084909777040593000, 903989293123443338195954765979000),
  (336889853392220051109262612954000, 941544065183020806308888950298000),
  (-941544065183020806308888950298000, 336889853392220051109262612954000),
  (970031253194543974238683858857000, 242980179903263870944130076168000),
  (-242980179903263870944130076168000, 970031253194543974238683858857000),
  (514102744193221772306401362584000, 857728610000272118085717920621000),
  (-857728610000272118085717920621000, 514102744193221772306401362584000),
  (803207531480644942867286317778000, 595699304492433356905678465409000),
  (-595699304492433356905678465409000, 803207531480644942867286317778000),
  (146730474455361747931902982600000, 989176509964781014438983675063000),
  (-989176509964781014438983675063000, 146730474455361747931902982600000),
  (999698818696204249967252053466000, 24541228522912288123603019585100),
  (-24541228522912288123603019585100, 999698818696204249967252053466000),
  (689540544737066940506053924764000, 724247082951467002764900371403000),
  (-724247082951467002764900371403000, 689540544737066940506053924764000),
  (914209755703530690951197357208000, 405241314004989860997341111215000),
  (-405241314004989860997341111215000, 914209755703530690951197357208000),
  (359895036534988110865640464908000, 932992798834738845670244700159000),
  (-932992798834738845670244700159000, 359895036534988110865640464908000),
  (975702130038528570032951847679000, 219101240156869797592875670489000),
  (-219101240156869797592875670489000, 975702130038528570032951847679000),
  (534997619887097153323907150479000, 844853565249707116890931501985000),
  (-844853565249707116890931501985000, 534997619887097153323907150479000),
  (817584813151583711388070696557000, 575808191417845338655467912758000),
  (-575808191417845338655467912758000, 817584813151583711388070696557000),
  (170961888760301217171644339032000, 985277642388941221618381405278000),
  (-985277642388941221618381405278000, 170961888760301217171644339032000),
  (992479534598709967063712156232000, 122410675199216195663254325154000),
  (-122410675199216195663254325154000, 992479534598709967063712156232000),
  (615231590580626819253495796147000, 788346427626606338634474013816000),
  (-788346427626606338634474013816000, 615231590580626819253495796147000),
  (870086991108711460540803273034000, 492898192229784037898809856415000),
  (-492898192229784037898809856415000, 870086991108711460540803273034000),
  (266712757474898365384063936290000, 963776065795439840222513794288000),
  (-963776065795439840222513794288000, 266712757474898365384063936290000),
  (949528180593036674750351266994000, 313681740398891462096031546025000),
  (-313681740398891462096031546025000, 949528180593036674750351266994000),
  (449611329654606595163102156221000, 893224301195515324458540362684000),
  (-893224301195515324458540362684000, 449611329654606595163102156221000),
  (757208846506484567484562830941000, 653172842953776755514638807654000),
  (-653172842953776755514638807654000, 757208846506484567484562830941000),
  (73564563599667426307959772202600, 997290456678690206970827603072000),
  (-997290456678690206970827603072000, 73564563599667426307959772202600),
  (999924701839144502990563978528000, 12271538285719925387429185548200),
  (-12271538285719925387429185548200, 999924701839144502990563978528000),
  (698376249408972915588833529910000, 715730825283818705706551099865000),
  (-715730825283818705706551099865000, 698376249408972915588833529910000),
  (919113851690057770404962411703000, 393992040061048098831264496766000),
  (-393992040061048098831264496766000, 919113851690057770404962411703000),
  (371317193951837543064442570540000, 928506080473215589243807244202000),
  (-928506080473215589243807244202000, 371317193951837543064442570540000),
  (978317370719627654729322330240000, 207111376192218532565902933129000),
  (-207111376192218532565902933129000, 978317370719627654729322330240000),
  (545324988422046463831804885558000, 838224705554838078747081908659000),
  (-838224705554838078747081908659000, 545324988422046463831804885558000),
  (824589302785025290987164225953000, 565731810783613231485844607960000),
  (-565731810783613231485844607960000, 824589302785025290987164225953000),
  (183039887955140950781540709613000, 983105487431216285010293631785000),
  (-983105487431216285010293631785000, 183039887955140950781540709613000),
  (993906970002356060511772284372000, 110222207293883059375794175594000),
  (-110222207293883059375794175594000, 993906970002356060511772284372000),
  (624859488142386343412226779037000, 780737228572094488221466690447000),
  (-780737228572094488221466690447000, 624859488142386343412226779037000),
  (876070094195406601222941844753000, 482183772079122718867694175060000),
  (-482183772079122718867694175060000, 876070094195406601222941844753000),
  (278519689385053115238122245501000, 960430519415565786545130322338000),
  (-960430519415565786545130322338000, 278519689385053115238122245501000),
  (953306040354193862107479162660000, 302005949319228084171129466995000),
  (-302005949319228084171129466995000, 953306040354193862107479162660000),
  (460538710958240005144403994564000, 887639620402853934955089698633000),
  (-887639620402853934955089698633000, 460538710958240005144403994564000),
  (765167265622458958596041611600000, 643831542889791497152884858224000),
  (-643831542889791497152884858224000, 765167265622458958596041611600000),
  (85797312344439893849745715215200, 996312612182778001290728298045000),
  (-996312612182778001290728298045000, 85797312344439893849745715215200),
  (998118112900149179189668302570000, 61320736302208578294425933563600),
  (-61320736302208578294425933563600, 998118112900149179189668302570000),
  (662415777590171783728578702721000, 749136394523459370198281703779000),
  (-749136394523459370198281703779000, 662415777590171783728578702721000),
  (898674465693953816725070282700000, 438616238538527603019190337363000),
  (-438616238538527603019190337363000, 898674465693953816725070282700000),
  (325310292162262926218829761638000, 945607325380521279711842908000000),
  (-945607325380521279711842908000000, 325310292162262926218829761638000),
  (966976471044852070590991388599000, 254865659604514571690003776894000),
  (-254865659604514571690003776894000, 966976471044852070590991388599000),
  (503538383725717575423175276228000, 863972856121586696431791096984000),
  (-863972856121586696431791096984000, 503538383725717575423175276228000),
  (795836904608883566325516767392000, 605511041404325545123299434636000),
  (-605511041404325545123299434636000, 795836904608883566325516767392000),
  (134580708507126195483394326402000, 990902635427780009713671915961000),
  (-990902635427780009713671915961000, 134580708507126195483394326402000),
  (987301418157858434732077057561000, 158858143333861445700705417039000),
  (-158858143333861445700705417039000, 987301418157858434732077057561000),
  (585797857456438864076631034550000, 810457198252594768206336084404000),
  (-810457198252594768206336084404000, 585797857456438864076631034550000),
  (851355193105265195541164757742000, 524589682678468949283967504016000),
  (-524589682678468949283967504016000, 851355193105265195541164757742000),
  (231058108280671109513448868711000, 972939952205560176778931236186000),
  (-972939952205560176778931236186000, 231058108280671109513448868711000),
  (937339011912574959772825877735000, 348418680249434564721866536274000),
  (-348418680249434564721866536274000, 937339011912574959772825877735000),
  (416429560097637152527028092663000, 909167983090522380251741196844000),
  (-909167983090522380251741196844000, 416429560097637152527028092663000),
  (732654271672412815696873167326000, 680600997795453022121137109934000),
  (-680600997795453022121137109934000, 732654271672412815696873167326000),
  (36807222941358831713731802892700, 999322384588349543754759451986000),
  (-999322384588349543754759451986000, 36807222941358831713731802892700),
  (999981175282601109088886914833000, 6135884649154475269094977107900),
  (-6135884649154475269094977107900, 999981175282601109088886914833000),
  (702754744457225299925084982533000, 711432195745216433557800428389000),
  (-711432195745216433557800428389000, 702754744457225299925084982533000),
  (921514039342041901825552940863000, 388345046698826301678764139069000),
  (-388345046698826301678764139069000, 921514039342041901825552940863000),
  (377007410216418259452098027396000, 926210242138311379278547974536000),
  (-926210242138311379278547974536000, 377007410216418259452098027396000),
  (979569765685440518865334524889000, 201104634842091900548410876581000),
  (-201104634842091900548410876581000, 979569765685440518865334524889000),
  (550457972936604811309280194109000, 834862874986380010255970773869000),
  (-834862874986380010255970773869000, 550457972936604811309280194109000),
  (828045045257755796264120817796000, 560661576197336031235352038493000),
  (-560661576197336031235352038493000, 828045045257755796264120817796000),
  (189068664149806220375893417440000, 981963869109555242964404442318000),
  (-981963869109555242964404442318000, 189068664149806220375893417440000),
  (994564570734255415374036601861000, 104121633872054572544918471522000),
  (-104121633872054572544918471522000, 994564570734255415374036601861000),
  (629638238914926984257647291088000, 776888465673232442298967725947000),
  (-776888465673232442298967725947000, 629638238914926984257647291088000),
  (879012226428633525188161002006000, 476799230063322143635673455719000),
  (-476799230063322143635673455719000, 879012226428633525188161002006000),
  (284407537211271821409042104278000, 958703474895871599059660184139000),
  (-958703474895871599059660184139000, 284407537211271821409042104278000),
  (955141168305770671409504757321000, 296150888243623788831371257402000),
  (-296150888243623788831371257402000, 955141168305770671409504757321000),
  (465976495767966181205110842711000, 884797098430937789537154003483000),
  (-884797098430937789537154003483000, 465976495767966181205110842711000),
  (769103337645579698822473346809000, 639124444863775731384691880521000),
  (-639124444863775731384691880521000, 769103337645579698822473346809000),
  (91908956497132723861831493650200, 995767414467659817134403965611000),
  (-995767414467659817134403965611000, 91908956497132723861831493650200),
  (998475580573294774211490221205000, 55195244349689941143477511786800),
  (-55195244349689941143477511786800, 998475580573294774211490221205000),
  (666999922303637471365789224365000, 745057785441465947329220398387000),
  (-745057785441465947329220398387000, 666999922303637471365789224365000),
  (901348847046022028095535461034000, 433093818853151957259939308642000),
  (-433093818853151957259939308642000, 901348847046022028095535461034000),
  (331106305759876373695504980788000, 943593458161960385588429289783000),
  (-943593458161960385588429289783000, 331106305759876373695504980788000),
  (968522094274417266746013410739000, 248927605745720148533450810646000),
  (-248927605745720148533450810646000, 968522094274417266746013410739000),
  (508830142543106989094781056338000, 860866938637767309394632775366000),
  (-860866938637767309394632775366000, 508830142543106989094781056338000),
  (799537269107905013143522410246000, 600616479383868862029771662492000),
  (-600616479383868862029771662492000, 799537269107905013143522410246000),
  (140658239332849238634182142960000, 990058210262297122561392370699000),
  (-990058210262297122561392370699000, 140658239332849238634182142960000),
  (988257567730749464374184753979000, 152797185258443435351694006386000),
  (-152797185258443435351694006386000, 988257567730749464374184753979000),
  (590759701858874164415169616404000, 806847553543799334008213008929000),
  (-806847553543799334008213008929000, 590759701858874164415169616404000),
  (854557988365400533758986512112000, 519355990165589531670775613748000),
  (-519355990165589531670775613748000, 854557988365400533758986512112000),
  (237023605994367198013250686017000, 971503890986251783523641734064000),
  (-971503890986251783523641734064000, 237023605994367198013250686017000),
  (939459223602189918977956040180000, 342660717311994378331263533255000),
  (-342660717311994378331263533255000, 939459223602189918977956040180000),
  (422000270799799681586961241919000, 906595704514915334826241632982000),
  (-906595704514915334826241632982000, 422000270799799681586961241919000),
  (736816568877369904022600621829000, 676092703575315923103516979609000),
  (-676092703575315923103516979609000, 736816568877369904022600621829000),
  (42938256934940820241930481415700, 999077727752645361469774343277000),
  (-999077727752645361469774343277000, 42938256934940820241930481415700),
  (999529417501093142561785498401000, 30674803176636625950957082409300),
  (-30674803176636625950957082409300, 999529417501093142561785498401000),
  (685083667772700355413917350234000, 728464390448225196372789014276000),
  (-728464390448225196372789014276000, 685083667772700355413917350234000),
  (911706032005429878317670500110000, 410843171057903910892150634027000),
  (-410843171057903910892150634027000, 911706032005429878317670500110000),
  (354163525420490343798007870646000, 935183509938947610251602782228000),
  (-935183509938947610251602782228000, 354163525420490343798007870646000),
  (974339382785575858214599520579000, 225083911359792832040938037608000),
  (-225083911359792832040938037608000, 974339382785575858214599520579000),
  (529803624686294716283896377718000, 848120344803297232516570147709000),
  (-848120344803297232516570147709000, 529803624686294716283896377718000),
  (814036329705948413781868566730000, 580813958095764526490256685065000),
  (-580813958095764526490256685065000, 814036329705948413781868566730000),
  (164913120489969922122241996476000, 986308097244598669384174627339000),
  (-986308097244598669384174627339000, 164913120489969922122241996476000),
  (991709753669099525197339062288000, 128498110793793168804555193674000),
  (-128498110793793168804555193674000, 991709753669099525197339062288000),
  (610382806276309475279617799970000, 792106577300212388870193080948000),
  (-792106577300212388870193080948000, 610382806276309475279617799970000),
  (867046245515692648453409674403000, 498227666972781868537367699901000),
  (-498227666972781868537367699901000, 867046245515692648453409674403000),
  (260794117915275514008044410730000, 965394441697689398296233775909000),
  (-965394441697689398296233775909000, 260794117915275514008044410730000),
  (947585591017741091235393469105000, 319502030816015691883080762636000),
  (-319502030816015691883080762636000, 947585591017741091235393469105000),
  (444122144570429200349792608904000, 895966249756185106889461167157000),
  (-895966249756185106889461167157000, 444122144570429200349792608904000),
  (753186799043612520421220324351000, 657806693297078637350239205261000),
  (-657806693297078637350239205261000, 753186799043612520421220324351000),
  (67443919563664050942364269758400, 997723066644191636243022003327000),
  (-997723066644191636243022003327000, 67443919563664050942364269758400),
  (996820299291165667909808689728000, 79682437971430111756099279318700),
  (-79682437971430111756099279318700, 996820299291165667909808689728000),
  (648514401022112441097533519496000, 761202385484261889736501416337000),
  (-761202385484261889736501416337000, 648514401022112441097533519496000),
  (890448723244757878170219100866000, 455083587126343835915776026013000),
  (-455083587126343835915776026013000, 890448723244757878170219100866000),
  (307849640041534866607975118313000, 951435020969008338198591445689000),
  (-951435020969008338198591445689000, 307849640041534866607975118313000),
  (962121404269041580192833862384000, 272621355449948976623630869653000),
  (-272621355449948976623630869653000, 962121404269041580192833862384000),
  (487550160148435940410394096034000, 873094978418290090793618674070000),
  (-873094978418290090793618674070000, 487550160148435940410394096034000),
  (784556597155575241586689116957000, 620057211763289206629679028993000),
  (-620057211763289206629679028993000, 784556597155575241586689116957000),
  (116318630911904766223052831720000, 993211949234794500007694750821000),
  (-993211949234794500007694750821000, 116318630911904766223052831720000),
  (984210092386929025209951760189000, 177004220412148749463909780388000),
  (-177004220412148749463909780388000, 984210092386929025209951760189000),
  (570780745886967255664501408319000, 821102514991104648345299210632000),
  (-821102514991104648345299210632000, 570780745886967255664501408319000),
  (841554977436898443698964911164000, 540171472729892854225397513801000),
  (-540171472729892854225397513801000, 841554977436898443698964911164000),
  (213110319916091361935883696788000, 977028142657754394839741962642000),
  (-977028142657754394839741962642000, 213110319916091361935883696788000),
  (930766961078983712241097236983000, 365612997804773853793847138149000),
  (-365612997804773853793847138149000, 930766961078983712241097236983000),
  (399624199845646843609614506931000, 916679059921042704850435711705000),
  (-916679059921042704850435711705000, 399624199845646843609614506931000),
  (720002507961381654766341853247000, 693971460889654001569226693391000),
  (-693971460889654001569226693391000, 720002507961381654766341853247000),
  (18406729905804820185410974886500, 999830581795823403190581757372000),
  (-999830581795823403190581757372000, 18406729905804820185410974886500)]

/-- twiddles.cu:260-515, entries 256 to 511 of `negtwiddles`. -/
def tw1 : List (Int × Int) := [
  (999995293809576191179644411022000, 3067956762965976143242574636360),
  (-3067956762965976143242574636360, 999995293809576191179644411022000),
  (704934080375904881243798172363000, 709272826438865688913892881828000),
  (-709272826438865688913892881828000, 704934080375904881243798172363000),
  (922701128333878628495767770801000, 385516053843918848897942552867000),
  (-385516053843918848897942552867000, 922701128333878628495767770801000),
  (379847208924051160661150561282000, 925049240782677584249427127361000),
  (-925049240782677584249427127361000, 379847208924051160661150561282000),
  (980182135968117429491996972502000, 198098410717953588022766098220000),
  (-198098410717953588022766098220000, 980182135968117429491996972502000),
  (553016705580027578825763612258000, 833170164701913185112402970844000),
  (-833170164701913185112402970844000, 553016705580027578825763612258000),
  (829761233794523045403934702335000, 558118531220556102212526639050000),
  (-558118531220556102212526639050000, 829761233794523045403934702335000),
  (192080397049892437344453810510000, 981379193313754560890060929523000),
  (-981379193313754560890060929523000, 192080397049892437344453810510000),
  (994879330794805616378084778262000, 101069862754827821671455012620000),
  (-101069862754827821671455012620000, 994879330794805616378084778262000),
  (632018735939809062074346002191000, 774953106594873930568212472281000),
  (-774953106594873930568212472281000, 632018735939809062074346002191000),
  (880470889052160754495446326473000, 474100214650550022543740169567000),
  (-474100214650550022543740169567000, 880470889052160754495446326473000),
  (287347459544729511016214473784000, 957826413027532908017747104168000),
  (-957826413027532908017747104168000, 287347459544729511016214473784000),
  (956045251349996405565434542950000, 293219162694258628221177787054000),
  (-293219162694258628221177787054000, 956045251349996405565434542950000),
  (468688822035827901135718320802000, 883363338665731578913664634456000),
  (-883363338665731578913664634456000, 468688822035827901135718320802000),
  (771060524261813817759048106382000, 636761861236284198994894723000000),
  (-636761861236284198994894723000000, 771060524261813817759048106382000),
  (94963495329638991648835144587800, 995480755491926938560709459125000),
  (-995480755491926938560709459125000, 94963495329638991648835144587800),
  (998640218180265271108453362103000, 52131704680283316721833841711500),
  (-52131704680283316721833841711500, 998640218180265271108453362103000),
  (669282588346636120313348783384000, 743007952135121718661991963017000),
  (-743007952135121718661991963017000, 669282588346636120313348783384000),
  (902673318237258826002289424650000, 430326481340082611648512056490000),
  (-430326481340082611648512056490000, 902673318237258826002289424650000),
  (333999651442009382051878674247000, 942573197601446866045193928585000),
  (-942573197601446866045193928585000, 333999651442009382051878674247000),
  (969281235356548531711951000034000, 245955050335794594973393145665000),
  (-245955050335794594973393145665000, 969281235356548531711951000034000),
  (511468850437970412592392221995000, 859301818357008362347926322400000),
  (-859301818357008362347926322400000, 511468850437970412592392221995000),
  (801376171723140240388261190674000, 598160706996342272923072869162000),
  (-598160706996342272923072869162000, 801376171723140240388261190674000),
  (143695033150294443347050332704000, 989622017463200887021912421915000),
  (-989622017463200887021912421915000, 143695033150294443347050332704000),
  (988721691960323778580743692146000, 149764534677321509148484324214000),
  (-149764534677321509148484324214000, 988721691960323778580743692146000),
  (593232295039799795155488482123000, 805031331142963546554369713704000),
  (-805031331142963546554369713704000, 593232295039799795155488482123000),
  (856147328375194471838938170549000, 516731799017649873206892152666000),
  (-516731799017649873206892152666000, 856147328375194471838938170549000),
  (240003022448741470951105725362000, 970772140728950350130332935805000),
  (-970772140728950350130332935805000, 240003022448741470951105725362000),
  (940506070593268295176869742136000, 339776884406826851225957852876000),
  (-339776884406826851225957852876000, 940506070593268295176869742136000),
  (424779681209108805894913984957000, 905296759318118815507148156030000),
  (-905296759318118815507148156030000, 424779681209108805894913984957000),
  (738887324460615113608241699694000, 673829000378756037825667135621000),
  (-673829000378756037825667135621000, 738887324460615113608241699694000),
  (46003182130914629932583181926000, 998941293186856871244572175783000),
  (-998941293186856871244572175783000, 46003182130914629932583181926000),
  (999618822495178638298796158779000, 27608145778965739736143802929300),
  (-27608145778965739736143802929300, 999618822495178638298796158779000),
  (687315340891759163355345663149000, 726359155084346008734996757994000),
  (-726359155084346008734996757994000, 687315340891759163355345663149000),
  (912962190428398212560523461434000, 408044162864978687821349012665000),
  (-408044162864978687821349012665000, 912962190428398212560523461434000),
  (357030961233430033097135947173000, 934092550404258870067053521780000),
  (-934092550404258870067053521780000, 357030961233430033097135947173000),
  (975025345066994120202252815943000, 222093620973203537127815820895000),
  (-222093620973203537127815820895000, 975025345066994120202252815943000),
  (532403127877198012463111354009000, 846490938774052126269964446692000),
  (-846490938774052126269964446692000, 532403127877198012463111354009000),
  (815814410806733780745503281651000, 578313796411655589579936531663000),
  (-578313796411655589579936531663000, 815814410806733780745503281651000),
  (167938294974731172626292163841000, 985797509167567476140447979560000),
  (-985797509167567476140447979560000, 167938294974731172626292163841000),
  (992099313142191796544011594960000, 125454983411546233673661276953000),
  (-125454983411546233673661276953000, 992099313142191796544011594960000),
  (612810082429409708204559592559000, 790230221437310031973311197362000),
  (-790230221437310031973311197362000, 612810082429409708204559592559000),
  (868570705971340895068522058864000, 495565261825772540582590863778000),
  (-495565261825772540582590863778000, 868570705971340895068522058864000),
  (263754678974831402449297002022000, 964589793289812758025902894587000),
  (-964589793289812758025902894587000, 263754678974831402449297002022000),
  (948561349915730267490232563432000, 316593375556165845807754521957000),
  (-316593375556165845807754521957000, 948561349915730267490232563432000),
  (446868840162374159064029299770000, 894599485631382695949298522464000),
  (-894599485631382695949298522464000, 446868840162374159064029299770000),
  (755201376896536547000948758068000, 655492852999615349673945274844000),
  (-655492852999615349673945274844000, 755201376896536547000948758068000),
  (70504573389613856004842773472800, 997511456140303454098727797827000),
  (-997511456140303454098727797827000, 70504573389613856004842773472800),
  (997060070339482962253896403126000, 76623861392031492045795459944200),
  (-76623861392031492045795459944200, 997060070339482962253896403126000),
  (650846684996380875354304862412000, 759209188978388072044367618219000),
  (-759209188978388072044367618219000, 650846684996380875354304862412000),
  (891840709392342723127455883514000, 452349587233770888961004175144000),
  (-452349587233770888961004175144000, 891840709392342723127455883514000),
  (310767152749611474948920886163000, 950486073949481702349828537990000),
  (-950486073949481702349828537990000, 310767152749611474948920886163000),
  (962953266873683877413725440420000, 269668325572915090759806844289000),
  (-269668325572915090759806844289000, 962953266873683877413725440420000),
  (490226483288291159379213013381000, 871595086655950979093177011237000),
  (-871595086655950979093177011237000, 490226483288291159379213013381000),
  (786455213599085767306462457782000, 617647307937803979882573912619000),
  (-617647307937803979882573912619000, 786455213599085767306462457782000),
  (119365214810991354665858921180000, 992850414459865104888081077661000),
  (-992850414459865104888081077661000, 119365214810991354665858921180000),
  (984748501801904208008409113972000, 173983873387463822135501345656000),
  (-173983873387463822135501345656000, 984748501801904208008409113972000),
  (573297166698042204302510072012000, 819347520076797009025426632434000),
  (-819347520076797009025426632434000, 573297166698042204302510072012000),
  (843208239641845436196376795124000, 537587076295645505119580320752000),
  (-537587076295645505119580320752000, 843208239641845436196376795124000),
  (216106797076219492304005598271000, 976369731330021140003339041868000),
  (-976369731330021140003339041868000, 216106797076219492304005598271000),
  (931884265581668147504501575895000, 362755724367397225371689728490000),
  (-362755724367397225371689728490000, 931884265581668147504501575895000),
  (402434650859418430179914594191000, 915448716088267833157487984863000),
  (-915448716088267833157487984863000, 402434650859418430179914594191000),
  (722128193929215345114869251120000, 691759258364157747500655659678000),
  (-691759258364157747500655659678000, 722128193929215345114869251120000),
  (21474080275469507872454499874900, 999769405351215278976440004044000),
  (-999769405351215278976440004044000, 21474080275469507872454499874900),
  (999882347454212561110864498914000, 15339206284988100154054180279700),
  (-15339206284988100154054180279700, 999882347454212561110864498914000),
  (696177131491462986012663805013000, 717870045055731709204849266825000),
  (-717870045055731709204849266825000, 696177131491462986012663805013000),
  (917900775621390496716855977866000, 396809987416710308050227240528000),
  (-396809987416710308050227240528000, 917900775621390496716855977866000),
  (368466829953372321249105425522000, 929640895843181214175388049625000),
  (-929640895843181214175388049625000, 368466829953372321249105425522000),
  (977677357824509929429268595413000, 210111836880469610155941495577000),
  (-210111836880469610155941495577000, 977677357824509929429268595413000),
  (542750784864515889438507656450000, 839893794195999521257078868075000),
  (-839893794195999521257078868075000, 542750784864515889438507656450000),
  (822849781375826316853760999948000, 568258952670131600726222131925000),
  (-568258952670131600726222131925000, 822849781375826316853760999948000),
  (180022901405699514709723985106000, 983662419211730254531289574516000),
  (-983662419211730254531289574516000, 180022901405699514709723985106000),
  (993564135520595304029711769545000, 113270952177564346308180631695000),
  (-113270952177564346308180631695000, 993564135520595304029711769545000),
  (622461279374149967225093860179000, 782650596166575729384362603014000),
  (-782650596166575729384362603014000, 622461279374149967225093860179000),
  (874586652278176113206598074612000, 484869248000791119856955901923000),
  (-484869248000791119856955901923000, 874586652278176113206598074612000),
  (275571819310958143756096205834000, 961280485811320639655264130852000),
  (-961280485811320639655264130852000, 275571819310958143756096205834000),
  (952375012719765878799194069870000, 304929229735402373968611300370000),
  (-304929229735402373968611300370000, 952375012719765878799194069870000),
  (457813303598877230360386647590000, 889048355854664573705292696104000),
  (-889048355854664573705292696104000, 457813303598877230360386647590000),
  (763188417263381269073363455391000, 646176012983316394588939601817000),
  (-646176012983316394588939601817000, 763188417263381269073363455391000),
  (82740264549375691638388730098100, 996571145790554835386387821927000),
  (-996571145790554835386387821927000, 82740264549375691638388730098100),
  (997925286198595995479365683423000, 64382630929857465051924236831800),
  (-64382630929857465051924236831800, 997925286198595995479365683423000),
  (660114342067420478699091290764000, 751165131909686478728360725654000),
  (-751165131909686478728360725654000, 660114342067420478699091290764000),
  (897324580705418317627675151016000, 441371268731716670519205081291000),
  (-441371268731716670519205081291000, 897324580705418317627675151016000),
  (322407678801069852436711471455000, 946600913083283534987799612281000),
  (-946600913083283534987799612281000, 322407678801069852436711471455000),
  (966190003445412504134992559557000, 257831102162158987134432663879000),
  (-257831102162158987134432663879000, 966190003445412504134992559557000),
  (500885382611240825845300150831000, 865513624090569089197799712565000),
  (-865513624090569089197799712565000, 500885382611240825845300150831000),
  (793975477554337172314546933194000, 607949784967773632082810308930000),
  (-607949784967773632082810308930000, 793975477554337172314546933194000),
  (131540028702883116107358318914000, 991310859846115444149461382040000),
  (-991310859846115444149461382040000, 131540028702883116107358318914000),
  (986809401814185527257450303296000, 161886393780111825790868351760000),
  (-161886393780111825790868351760000, 986809401814185527257450303296000),
  (583308652937698290941170853330000, 812250586585203881995198571531000),
  (-812250586585203881995198571531000, 583308652937698290941170853330000),
  (849741768000852548681223197491000, 527199134781901390667258056055000),
  (-527199134781901390667258056055000, 849741768000852548681223197491000),
  (228072083170885731018273645532000, 973644249650811977048192602524000),
  (-973644249650811977048192602524000, 228072083170885731018273645532000),
  (936265667170278259590077141183000, 351292756085567092760868490586000),
  (-351292756085567092760868490586000, 936265667170278259590077141183000),
  (413638312238434557865929264153000, 910441292258067247367137042602000),
  (-910441292258067247367137042602000, 413638312238434557865929264153000),
  (730562769227827590867718754453000, 682845546385248081122654184583000),
  (-682845546385248081122654184583000, 730562769227827590867718754453000),
  (33741171851377586843323541643300, 999430604555461732374510575028000),
  (-999430604555461732374510575028000, 33741171851377586843323541643300),
  (999204758618363886313318289467000, 39872927587739810662004202868000),
  (-39872927587739810662004202868000, 999204758618363886313318289467000),
  (678350043129861468571561999852000, 734738878095963499070819580083000),
  (-734738878095963499070819580083000, 678350043129861468571561999852000),
  (907886116487666261498645781103000, 419216888363223960656256394941000),
  (-419216888363223960656256394941000, 907886116487666261498645781103000),
  (345541324963989038288048050163000, 938403534063108057949875728809000),
  (-938403534063108057949875728809000, 345541324963989038288048050163000),
  (972226497078936269247151358286000, 234041958583543402427906698904000),
  (-234041958583543402427906698904000, 972226497078936269247151358286000),
  (521975292937154389250054009608000, 852960604930363630593603829766000),
  (-852960604930363630593603829766000, 521975292937154389250054009608000),
  (808656181588174982621808339900000, 588281548222645334078606538242000),
  (-588281548222645334078606538242000, 808656181588174982621808339900000),
  (155828397654265232707970767478000, 987784141644572177831662429526000),
  (-987784141644572177831662429526000, 155828397654265232707970767478000),
  (990485084256457093410119796317000, 137620121586486038323116076754000),
  (-137620121586486038323116076754000, 990485084256457093410119796317000),
  (603066598540348164370072936435000, 797690840943391155093422639766000),
  (-797690840943391155093422639766000, 603066598540348164370072936435000),
  (862423956111040501681941350398000, 506186645345155339370535330090000),
  (-506186645345155339370535330090000, 862423956111040501681941350398000),
  (251897818154216968089542660891000, 967753837093475510755524737760000),
  (-967753837093475510755524737760000, 251897818154216968089542660891000),
  (944604837261480256849210945802000, 328209843579092497289906305014000),
  (-328209843579092497289906305014000, 944604837261480256849210945802000),
  (435857079922255474802028629711000, 900015892016160279354153317399000),
  (-900015892016160279354153317399000, 435857079922255474802028629711000),
  (747100605980180132448253971233000, 664710978203344904358118583332000),
  (-664710978203344904358118583332000, 747100605980180132448253971233000),
  (58258264500435759380980726973600, 998301544933892892608184865821000),
  (-998301544933892892608184865821000, 58258264500435759380980726973600),
  (996044700901251967017913102609000, 88853552582524600311764118032400),
  (-88853552582524600311764118032400, 996044700901251967017913102609000),
  (641481012808583161977082909289000, 767138911935820400067598257010000),
  (-767138911935820400067598257010000, 641481012808583161977082909289000),
  (886222530148880638378727780946000, 463259783551860204742212090423000),
  (-463259783551860204742212090423000, 886222530148880638378727780946000),
  (299079826308040475080218811854000, 954228095109105667326332422817000),
  (-954228095109105667326332422817000, 299079826308040475080218811854000),
  (959571513081984517334888096229000, 281464937925757996417530648614000),
  (-281464937925757996417530648614000, 959571513081984517334888096229000),
  (479493757660153008259840134997000, 877545290207261352577461366309000),
  (-877545290207261352577461366309000, 479493757660153008259840134997000),
  (778816512381475978266109905235000, 627251815495144082746037383913000),
  (-627251815495144082746037383913000, 778816512381475978266109905235000),
  (107172424956808842733124720326000, 994240449453187902228989969444000),
  (-994240449453187902228989969444000, 107172424956808842733124720326000),
  (982539302287441240757459581801000, 186055151663446632914755696220000),
  (-186055151663446632914755696220000, 982539302287441240757459581801000),
  (563199344013834091171588625002000, 826321062845663423246378442855000),
  (-826321062845663423246378442855000, 563199344013834091171588625002000),
  (836547727223512005423344817245000, 547894059173100189674698867748000),
  (-547894059173100189674698867748000, 836547727223512005423344817245000),
  (204108966092816868087567172552000, 978948175319062197097252919775000),
  (-978948175319062197097252919775000, 204108966092816868087567172552000),
  (927362525650401114951648651186000, 374164062971457989092982643342000),
  (-374164062971457989092982643342000, 927362525650401114951648651186000),
  (391170384302253870689725090415000, 920318276709110594246965320053000),
  (-920318276709110594246965320053000, 391170384302253870689725090415000),
  (713584868780793635245629502606000, 700568793943248335764906187251000),
  (-700568793943248335764906187251000, 713584868780793635245629502606000),
  (9203754782059819436468295350550, 999957644551963897860957786179000),
  (-999957644551963897860957786179000, 9203754782059819436468295350550)]

/-- twiddles.cu:516-771, entries 512 to 767 of `negtwiddles`. -/
def tw2 : List (Int × Int) := [
  (999998823451701879250208548910000, 1533980186284765500140392369130),
  (-1533980186284765500140392369130, 999998823451701879250208548910000),
  (706021261449339854188167464599000, 708190637033195291571985308110000),
  (-708190637033195291571985308110000, 706021261449339854188167464599000),
  (923291416719527635592612568871000, 384100195016935042069405881193000),
  (-384100195016935042069405881193000, 923291416719527635592612568871000),
  (381265769222162376195228716824000, 924465474325262603905173364183000),
  (-924465474325262603905173364183000, 381265769222162376195228716824000),
  (980484861773469384971235740522000, 196594597670080223350552728334000),
  (-196594597670080223350552728334000, 980484861773469384971235740522000),
  (554294121453620114436944277259000, 832320867767929684077898855321000),
  (-832320867767929684077898855321000, 554294121453620114436944277259000),
  (830616400308846314359811913164000, 556845037275160104073279399017000),
  (-556845037275160104073279399017000, 830616400308846314359811913164000),
  (193585587295803607243982469299000, 981083391150486705534206066659000),
  (-981083391150486705534206066659000, 193585587295803607243982469299000),
  (995033199438118631796612589824000, 99543618660069332904072325618500),
  (-99543618660069332904072325618500, 995033199438118631796612589824000),
  (633206755050057301659194308741000, 773982690606822787415808306832000),
  (-773982690606822787415808306832000, 633206755050057301659194308741000),
  (881197113471222093217249948793000, 472749031950342790686647731491000),
  (-472749031950342790686647731491000, 881197113471222093217249948793000),
  (288816408206049479723276363075000, 957384500788975856266915798187000),
  (-957384500788975856266915798187000, 288816408206049479723276363075000),
  (956493918902395101611091376981000, 291752263234989261952989636484000),
  (-291752263234989261952989636484000, 956493918902395101611091376981000),
  (470043332459595619710057690099000, 882643339979562790986733489262000),
  (-882643339979562790986733489262000, 470043332459595619710057690099000),
  (772036397150384523513366730185000, 635578320488556114398193130910000),
  (-635578320488556114398193130910000, 772036397150384523513366730185000),
  (96490431355252592737770100939100, 995333912140482279795605791151000),
  (-995333912140482279795605791151000, 96490431355252592737770100939100),
  (998719012233872938111289840890000, 50599749036899281662282845673000),
  (-50599749036899281662282845673000, 998719012233872938111289840890000),
  (670421560380173087168031997862000, 741980411720831067867720776121000),
  (-741980411720831067867720776121000, 670421560380173087168031997862000),
  (903332368494511817047509794065000, 428941292055329492782789202465000),
  (-428941292055329492782789202465000, 903332368494511817047509794065000),
  (335445147084531603010049138902000, 942059739771017312648382358020000),
  (-942059739771017312648382358020000, 335445147084531603010049138902000),
  (969657385124292447997618182853000, 244467902747824150644362362073000),
  (-244467902747824150644362362073000, 969657385124292447997618182853000),
  (512786400633562955420075013535000, 858516224264442739944058757828000),
  (-858516224264442739944058757828000, 512786400633562955420075013535000),
  (802292795538115721676319935796000, 596930708062196502261542718770000),
  (-596930708062196502261542718770000, 802292795538115721676319935796000),
  (145212924652847463757865398293000, 989400427791380376874030844192000),
  (-989400427791380376874030844192000, 145212924652847463757865398293000),
  (988950264510302989862111644470000, 148247678986896030961517567448000),
  (-148247678986896030961517567448000, 988950264510302989862111644470000),
  (594466499184664431965074982145000, 804120377398265695489953941433000),
  (-804120377398265695489953941433000, 594466499184664431965074982145000),
  (856938977417828762206397641421000, 515417878019463038263836551778000),
  (-515417878019463038263836551778000, 856938977417828762206397641421000),
  (241491885302869330187647278763000, 970402838687555502339421309443000),
  (-970402838687555502339421309443000, 241491885302869330187647278763000),
  (941026175050889257533981435699000, 338333766965541127280658884047000),
  (-338333766965541127280658884047000, 941026175050889257533981435699000),
  (426167888726799615195517390021000, 904644090578246240497151120508000),
  (-904644090578246240497151120508000, 426167888726799615195517390021000),
  (739920095459516202751615310262000, 672694769070772968788674006646000),
  (-672694769070772968788674006646000, 739920095459516202751615310262000),
  (47535484156959302570744085869600, 998869549914283560987371402007000),
  (-998869549914283560987371402007000, 47535484156959302570744085869600),
  (999659996743959222698094890802000, 26074717829103897376308296429700),
  (-26074717829103897376308296429700, 999659996743959222698094890802000),
  (688428752784090436378505728499000, 725303972373060767964147999010000),
  (-725303972373060767964147999010000, 688428752784090436378505728499000),
  (913587047945250807501338385919000, 406643216870369028637099972912000),
  (-406643216870369028637099972912000, 913587047945250807501338385919000),
  (358463420633736540299452144609000, 933543772978836172704575346870000),
  (-933543772978836172704575346870000, 358463420633736540299452144609000),
  (975364885116656976649096577603000, 220597690108873506487086046945000),
  (-220597690108873506487086046945000, 975364885116656976649096577603000),
  (533701001807152963785085830750000, 845673246987299065402510223066000),
  (-845673246987299065402510223066000, 533701001807152963785085830750000),
  (816700572866827845253112627688000, 577061672855679552718299873959000),
  (-577061672855679552718299873959000, 816700572866827845253112627688000),
  (169450291233967959003692271835000, 985538735312176061853506325861000),
  (-985538735312176061853506325861000, 169450291233967959003692271835000),
  (992290591348257366988150351972000, 123932975118512173073881399432000),
  (-123932975118512173073881399432000, 992290591348257366988150351972000),
  (614021558931038380357847472624000, 789289253168885651668063019315000),
  (-789289253168885651668063019315000, 614021558931038380357847472624000),
  (869329871348606730840913314751000, 494232308515959728456579114209000),
  (-494232308515959728456579114209000, 869329871348606730840913314751000),
  (265234030285511790392405373495000, 964184063951745828902062385168000),
  (-964184063951745828902062385168000, 265234030285511790392405373495000),
  (949045881852700556891022642958000, 315137928752522389341805819640000),
  (-315137928752522389341805819640000, 949045881852700556891022642958000),
  (448240612285219885979614673488000, 893912945145203252650389913470000),
  (-893912945145203252650389913470000, 448240612285219885979614673488000),
  (756206001414394535231622285210000, 654333617831800551378762520471000),
  (-654333617831800551378762520471000, 756206001414394535231622285210000),
  (72034653246889318589651907132100, 997402129901275302792384991335000),
  (-997402129901275302792384991335000, 72034653246889318589651907132100),
  (997176436735326188198769159499000, 75094300847921319208566615088800),
  (-75094300847921319208566615088800, 997176436735326188198769159499000),
  (652010531096959500274579113466000, 758209909813015281443426829355000),
  (-758209909813015281443426829355000, 652010531096959500274579113466000),
  (892533555402764577912932963955000, 450980989045103863865904259001000),
  (-450980989045103863865904259001000, 892533555402764577912932963955000),
  (312224813921824939644267260519000, 950008245001842999144514578802000),
  (-950008245001842999144514578802000, 312224813921824939644267260519000),
  (963365799780954046305225801916000, 268190857063403176319127396710000),
  (-268190857063403176319127396710000, 963365799780954046305225801916000),
  (491562916106549951944515441937000, 870842063470078864284573683108000),
  (-870842063470078864284573683108000, 491562916106549951944515441937000),
  (787401747029031429114809270686000, 616440174530853646217565255938000),
  (-616440174530853646217565255938000, 787401747029031429114809270686000),
  (120888087235777069716746723316000, 992666142448948018994769881829000),
  (-992666142448948018994769881829000, 120888087235777069716746723316000),
  (985014231012239838136679281888000, 172473083996795978345417665878000),
  (-172473083996795978345417665878000, 985014231012239838136679281888000),
  (574553355047715763603832783701000, 818467129580298657920423011092000),
  (-818467129580298657920423011092000, 574553355047715763603832783701000),
  (844031895490066408349605353578000, 536292979065963182350174065505000),
  (-536292979065963182350174065505000, 844031895490066408349605353578000),
  (217604274638483641268749124720000, 976037079039039023875545808551000),
  (-976037079039039023875545808551000, 217604274638483641268749124720000),
  (932439629268462355504709648812000, 361325805568454283545065663930000),
  (-361325805568454283545065663930000, 932439629268462355504709648812000),
  (403838457567654074420460119654000, 914830312237946197129190295527000),
  (-914830312237946197129190295527000, 403838457567654074420460119654000),
  (723188489306527459987705697131000, 690650714134534604582427164132000),
  (-690650714134534604582427164132000, 723188489306527459987705697131000),
  (23007681468839372151968802882000, 999735288260561683060245741217000),
  (-999735288260561683060245741217000, 23007681468839372151968802882000),
  (999904701082852898075259417965000, 13805388528060390587737238377000),
  (-13805388528060390587737238377000, 999904701082852898075259417965000),
  (697277510830886515513782342168000, 716801278521099538565408693103000),
  (-716801278521099538565408693103000, 697277510830886515513782342168000),
  (918508394325212251807499796996000, 395401478947816298337158968934000),
  (-395401478947816298337158968934000, 918508394325212251807499796996000),
  (369892447148934100376038713875000, 929074581259315857018066253659000),
  (-929074581259315857018066253659000, 369892447148934100376038713875000),
  (977998514934557139355320032337000, 208611851978263485030140600429000),
  (-208611851978263485030140600429000, 977998514934557139355320032337000),
  (544038526730883931215032589535000, 839060237070312742169164721417000),
  (-839060237070312742169164721417000, 544038526730883931215032589535000),
  (823720511227391427588884198485000, 566996048825108678315132237913000),
  (-566996048825108678315132237913000, 823720511227391427588884198485000),
  (181531608261124993708435226836000, 983385110321551181300492316950000),
  (-983385110321551181300492316950000, 181531608261124993708435226836000),
  (993736721940724598844951742649000, 111746711211126587004471844011000),
  (-111746711211126587004471844011000, 993736721940724598844951742649000),
  (623661117525694530527857750712000, 781694832071059386713329786289000),
  (-781694832071059386713329786289000, 623661117525694530527857750712000),
  (875329403104110892464007065428000, 483527078932918741305257981367000),
  (-483527078932918741305257981367000, 875329403104110892464007065428000),
  (277046080306099895551597001031000, 960856633107679658500899222418000),
  (-960856633107679658500899222418000, 277046080306099895551597001031000),
  (952841647601198715733517019544000, 303467946572011315620187588138000),
  (-303467946572011315620187588138000, 952841647601198715733517019544000),
  (459176547521944145024974659464000, 888345033309596354698101094982000),
  (-888345033309596354698101094982000, 459176547521944145024974659464000),
  (764178740536116674064714970882000, 645004536815543927374960730958000),
  (-645004536815543927374960730958000, 764178740536116674064714970882000),
  (84268887593324071083600301790300, 996443051350042630076586647192000),
  (-996443051350042630076586647192000, 84268887593324071083600301790300),
  (998022873771486240812578216719000, 62851757564161406244274132859600),
  (-62851757564161406244274132859600, 998022873771486240812578216719000),
  (661265837839992265401178883621000, 750151645806215072731504278636000),
  (-750151645806215072731504278636000, 661265837839992265401178883621000),
  (898000579740739879319733063312000, 439994271309633255828686060340000),
  (-439994271309633255828686060340000, 898000579740739879319733063312000),
  (323859366517852853561976189667000, 946105232370403448349804875761000),
  (-946105232370403448349804875761000, 323859366517852853561976189667000),
  (966584374478333119284911845170000, 256348682489942858442333317726000),
  (-256348682489942858442333317726000, 966584374478333119284911845170000),
  (502212474045710788317364858813000, 864744257519462378169805560901000),
  (-864744257519462378169805560901000, 502212474045710788317364858813000),
  (794907126328237012558020069264000, 606731127034524475583054936578000),
  (-606731127034524475583054936578000, 794907126328237012558020069264000),
  (133060525157139064589273402817000, 991107913723276889861324434605000),
  (-991107913723276889861324434605000, 133060525157139064589273402817000),
  (987056571305750973799320036051000, 160372457242928256881953075208000),
  (-160372457242928256881953075208000, 987056571305750973799320036051000),
  (584553942953015326366994486307000, 811354847017063729452956977184000),
  (-811354847017063729452956977184000, 584553942953015326366994486307000),
  (850549481265603479762660299457000, 525895027471084630654729608068000),
  (-525895027471084630654729608068000, 850549481265603479762660299457000),
  (229565365820518868522626121376000, 973293246054698246716441190074000),
  (-973293246054698246716441190074000, 229565365820518868522626121376000),
  (936803441735921560429289911553000, 349856129790134917634247813112000),
  (-349856129790134917634247813112000, 936803441735921560429289911553000),
  (415034424476081631460999687988000, 909805708104652222090180657688000),
  (-909805708104652222090180657688000, 415034424476081631460999687988000),
  (731609381223892518697482501011000, 681724074171649818687512834003000),
  (-681724074171649818687512834003000, 731609381223892518697482501011000),
  (35274238898213947090987119281600, 999377670388002847801089956192000),
  (-999377670388002847801089956192000, 35274238898213947090987119281600),
  (999264747286594423592021030345000, 38340120373552694088559178453600),
  (-38340120373552694088559178453600, 999264747286594423592021030345000),
  (679476319899365077681352431682000, 733697438114660260843891137483000),
  (-733697438114660260843891137483000, 679476319899365077681352431682000),
  (908528118716306121172010534792000, 417823715820212326921279100134000),
  (-417823715820212326921279100134000, 908528118716306121172010534792000),
  (346980410845923681328883958486000, 937872376439989885454906470841000),
  (-937872376439989885454906470841000, 346980410845923681328883958486000),
  (972584368934732212963467645750000, 232550307038775244672379471922000),
  (-232550307038775244672379471922000, 972584368934732212963467645750000),
  (523283103475656430347839886963000, 852158901623919828871578374674000),
  (-852158901623919828871578374674000, 523283103475656430347839886963000),
  (809557642404051258644415156596000, 587040393520917969105710199074000),
  (-587040393520917969105710199074000, 809557642404051258644415156596000),
  (157343455616238248051530490557000, 987543941794359225738730856392000),
  (-987543941794359225738730856392000, 157343455616238248051530490557000),
  (990695025442664634063305584277000, 136100575175706201003222872714000),
  (-136100575175706201003222872714000, 990695025442664634063305584277000),
  (604289530948156072831523033528000, 796764810208418827741638779116000),
  (-796764810208418827741638779116000, 604289530948156072831523033528000),
  (863199421712124159711265747319000, 504863108531267479328619174339000),
  (-504863108531267479328619174339000, 863199421712124159711265747319000),
  (253382036995570159021440304059000, 967366292222328505445716473332000),
  (-967366292222328505445716473332000, 253382036995570159021440304059000),
  (945107193285260605009057144343000, 326760452320131788983559317785000),
  (-326760452320131788983559317785000, 945107193285260605009057144343000),
  (437237173661044087324967222230000, 899346236979341573380963836826000),
  (-899346236979341573380963836826000, 437237173661044087324967222230000),
  (748119380450403603788345208159000, 663564158612039767248802490940000),
  (-663564158612039767248802490940000, 748119380450403603788345208159000),
  (59789570746639875142847131428400, 998211003360478188461968329648000),
  (-998211003360478188461968329648000, 59789570746639875142847131428400),
  (996179828595696981174967277184000, 87325535206192073101050254990700),
  (-87325535206192073101050254990700, 996179828595696981174967277184000),
  (642657033966226864940551877226000, 766153990196312917326793012762000),
  (-766153990196312917326793012762000, 642657033966226864940551877226000),
  (886932118794342194689761527115000, 461899790702462731406541251999000),
  (-461899790702462731406541251999000, 886932118794342194689761527115000),
  (300543241417273454541003729901000, 953768189885990325116438270925000),
  (-953768189885990325116438270925000, 300543241417273454541003729901000),
  (960002145737665957270223771047000, 279992643080273218014752956151000),
  (-279992643080273218014752956151000, 960002145737665957270223771047000),
  (480839330600333958454228877599000, 876808723809145651451046887814000),
  (-876808723809145651451046887814000, 480839330600333958454228877599000),
  (779777787923014553683742633439000, 626056388404343522324779769406000),
  (-626056388404343522324779769406000, 779777787923014553683742633439000),
  (108697444013138716512045789386000, 994074879304879366337388546526000),
  (-994074879304879366337388546526000, 108697444013138716512045789386000),
  (982823551198705236409125518549000, 184547736938619616475776297193000),
  (-184547736938619616475776297193000, 982823551198705236409125518549000),
  (564466241520519496077668009093000, 825456154004377551380855493335000),
  (-825456154004377551380855493335000, 564466241520519496077668009093000),
  (837387201615661935782952696172000, 546610166910834860409806879034000),
  (-546610166910834860409806879034000, 837387201615661935782952696172000),
  (205610413053099239100163231342000, 978633924429423207591582922760000),
  (-978633924429423207591582922760000, 205610413053099239100163231342000),
  (927935394822617887200522091007000, 372741067009515758545745711672000),
  (-372741067009515758545745711672000, 927935394822617887200522091007000),
  (392581674072951469778303135172000, 919717146291227360954678715643000),
  (-919717146291227360954678715643000, 392581674072951469778303135172000),
  (714658687862769093079862159357000, 699473344640283767326138786302000),
  (-699473344640283767326138786302000, 714658687862769093079862159357000),
  (10737659167264490545079524963500, 999942349676023911619893169700000),
  (-999942349676023911619893169700000, 10737659167264490545079524963500)]

/-- twiddles.cu:772-1027, entries 768 to 1023 of `negtwiddles`. -/
def tw3 : List (Int × Int) := [
  (999970586430974139879879203363000, 7669828739531097012982474581120),
  (-7669828739531097012982474581120, 999970586430974139879879203363000),
  (701662594740168565898841279704000, 712509370564692323668509743584000),
  (-712509370564692323668509743584000, 701662594740168565898841279704000),
  (920917241529189412041489504190000, 389758174069856466736894162750000),
  (-389758174069856466736894162750000, 920917241529189412041489504190000),
  (375586178489217215048512343856000, 926787474304581859740892468835000),
  (-926787474304581859740892468835000, 375586178489217215048512343856000),
  (979260122649082020984678820241000, 202607038844421133427786685388000),
  (-202607038844421133427786685388000, 979260122649082020984678820241000),
  (549176662187719766272664401185000, 835706284353752604232568046427000),
  (-835706284353752604232568046427000, 549176662187719766272664401185000),
  (827184027273669131297140211245000, 561931121244689357752122305101000),
  (-561931121244689357752122305101000, 827184027273669131297140211245000),
  (187562128582529602516260069933000, 982252741366289372493270093400000),
  (-982252741366289372493270093400000, 187562128582529602516260069933000),
  (994403680057679095760647669522000, 105647153713410615893941724153000),
  (-105647153713410615893941724153000, 994403680057679095760647669522000),
  (628445766601832711550912335952000, 777853404209453036521892954624000),
  (-777853404209453036521892954624000, 628445766601832711550912335952000),
  (878279791656541464206497948908000, 478147056424843064359464506197000),
  (-478147056424843064359464506197000, 878279791656541464206497948908000),
  (282936570457055336369478482084000, 959138622461841894306644462631000),
  (-959138622461841894306644462631000, 282936570457055336369478482084000),
  (954685754941338338142031716416000, 297615707435086196408491332477000),
  (-297615707435086196408491332477000, 954685754941338338142031716416000),
  (464618686306237815841768679093000, 885510856136199953070331503113000),
  (-885510856136199953070331503113000, 464618686306237815841768679093000),
  (768122028523365418806179150124000, 640303482184151673273220239935000),
  (-640303482184151673273220239935000, 768122028523365418806179150124000),
  (90381360877864982961149564744100, 995907229417411721250630307622000),
  (-995907229417411721250630307622000, 90381360877864982961149564744100),
  (998389737407340160935120820795000, 56726821166907748228425134584500),
  (-56726821166907748228425134584500, 998389737407340160935120820795000),
  (665856233665509722463582420460000, 746080073510063779274048556545000),
  (-746080073510063779274048556545000, 665856233665509722463582420460000),
  (900683429228646859066031993279000, 434475960569655705878489015959000),
  (-434475960569655705878489015959000, 900683429228646859066031993279000),
  (329658462528587492545995019100000, 944100258491272659178150661319000),
  (-944100258491272659178150661319000, 329658462528587492545995019100000),
  (968139104746362444409157888003000, 250413006572965279872278188122000),
  (-250413006572965279872278188122000, 968139104746362444409157888003000),
  (507508991052970870327953889500000, 861646461143081299205448431167000),
  (-861646461143081299205448431167000, 507508991052970870327953889500000),
  (798614994634760821945462794247000, 601842247058580026575214105833000),
  (-601842247058580026575214105833000, 798614994634760821945462794247000),
  (139139344163826200739819682894000, 990272812363169108174076882278000),
  (-990272812363169108174076882278000, 139139344163826200739819682894000),
  (988022017143283526330321819842000, 154312973013020104939840848601000),
  (-154312973013020104939840848601000, 988022017143283526330321819842000),
  (589521318641063940546587218705000, 807752817926190358477356312505000),
  (-807752817926190358477356312505000, 589521318641063940546587218705000),
  (853760301138111410423903180344000, 520666254140367157354774008127000),
  (-520666254140367157354774008127000, 853760301138111410423903180344000),
  (235533059404975486650357652252000, 971866337480279396388027635112000),
  (-971866337480279396388027635112000, 235533059404975486650357652252000),
  (938932483532064487974366784329000, 344101425989938813909674308888000),
  (-344101425989938813909674308888000, 938932483532064487974366784329000),
  (420609074448402509016631256600000, 907241977915295816359275704599000),
  (-907241977915295816359275704599000, 420609074448402509016631256600000),
  (735778589165713481357045111508000, 677222170137180445870228595595000),
  (-677222170137180445870228595595000, 735778589165713481357045111508000),
  (41405640977076739461804066877400, 999142418724816905317709370138000),
  (-999142418724816905317709370138000, 41405640977076739461804066877400),
  (999481186966166945673251120752000, 32208025408304585823771049035700),
  (-32208025408304585823771049035700, 999481186966166945673251120752000),
  (683965411797315403497066199634000, 729514438146997012957228889718000),
  (-729514438146997012957228889718000, 683965411797315403497066199634000),
  (911074734055176360669747737120000, 412241226669882887545526273243000),
  (-412241226669882887545526273243000, 911074734055176360669747737120000),
  (352728555755210726463388937191000, 935725689481080369347409941838000),
  (-935725689481080369347409941838000, 352728555755210726463388937191000),
  (973992962167955833585608615977000, 226578263845610000659647198518000),
  (-226578263845610000659647198518000, 973992962167955833585608615977000),
  (528502001542228483366159252910000, 848932055211639613467866638530000),
  (-848932055211639613467866638530000, 528502001542228483366159252910000),
  (813144414849253482913127299980000, 582061990340775547991825078498000),
  (-582061990340775547991825078498000, 813144414849253482913127299980000),
  (163399949382973225242565717963000, 986559910264775408172965853737000),
  (-986559910264775408172965853737000, 163399949382973225242565717963000),
  (991511473318743896676608073903000, 130019222722233346312137314271000),
  (-130019222722233346312137314271000, 991511473318743896676608073903000),
  (609167012336453206344799582439000, 793041960479443641673924503266000),
  (-793041960479443641673924503266000, 609167012336453206344799582439000),
  (866280954024512994671169963112000, 499557112545081893895115854320000),
  (-499557112545081893895115854320000, 866280954024512994671169963112000),
  (259312915132886234736986352800000, 965793358874083684995071052981000),
  (-965793358874083684995071052981000, 259312915132886234736986352800000),
  (947094366352777217166192258446000, 320955232427875214451518104397000),
  (-320955232427875214451518104397000, 947094366352777217166192258446000),
  (442747227564570022817491690148000, 896646470178680154994310669281000),
  (-896646470178680154994310669281000, 442747227564570022817491690148000),
  (752176850449042699864321548375000, 658961292982037316612320410059000),
  (-658961292982037316612320410059000, 752176850449042699864321548375000),
  (65913352797003818550614084870200, 997825350411111644532979880751000),
  (-997825350411111644532979880751000, 65913352797003818550614084870200),
  (996696895202896060439456960012000, 81211446809592427453772245371500),
  (-81211446809592427453772245371500, 996696895202896060439456960012000),
  (647345968636512059113385930686000, 762196298134578897887081438967000),
  (-762196298134578897887081438967000, 647345968636512059113385930686000),
  (889749586383072776918368163024000, 456448982396883917722618662083000),
  (-456448982396883917722618662083000, 889749586383072776918368163024000),
  (306389795370860917866906447671000, 951906136807932345966776210844000),
  (-951906136807932345966776210844000, 306389795370860917866906447671000),
  (961702076529122540371474769927000, 274096909868706384294512190536000),
  (-274096909868706384294512190536000, 961702076529122540371474769927000),
  (486210276124486417970160800905000, 873841843465366863163978905504000),
  (-873841843465366863163978905504000, 486210276124486417970160800905000),
  (783604518609638200921096995444000, 621259976511087663730847907573000),
  (-621259976511087663730847907573000, 783604518609638200921096995444000),
  (114794926606510083733070359813000, 993389211148080653046577026544000),
  (-993389211148080653046577026544000, 114794926606510083733070359813000),
  (983937413449218922778527485207000, 178513770938997506920742353032000),
  (-178513770938997506920742353032000, 983937413449218922778527485207000),
  (569520519346947140526538078120000, 821977115279241554723910212488000),
  (-821977115279241554723910212488000, 569520519346947140526538078120000),
  (840725374970458072532153437351000, 541461765853123444536265651550000),
  (-541461765853123444536265651550000, 840725374970458072532153437351000),
  (211611327369227553152342125031000, 977353900145199960824982099439000),
  (-977353900145199960824982099439000, 211611327369227553152342125031000),
  (930205022892219068886277000274000, 367040345719767180376891246851000),
  (-367040345719767180376891246851000, 930205022892219068886277000274000),
  (398217562153373616506968346584000, 917290997008377906318798977736000),
  (-917290997008377906318798977736000, 398217562153373616506968346584000),
  (718937122372804382486322083423000, 695075113980000880431475707155000),
  (-695075113980000880431475707155000, 718937122372804382486322083423000),
  (16872987947281713888569854020700, 999857641005823860602674812981000),
  (-999857641005823860602674812981000, 16872987947281713888569854020700),
  (999801169887884255693677459931000, 19940428551514437910396893016700),
  (-19940428551514437910396893016700, 999801169887884255693677459931000),
  (692866174817424740339788513666000, 721066199314508105011611860391000),
  (-721066199314508105011611860391000, 692866174817424740339788513666000),
  (916064965799331720752718410949000, 401029897183575623209605964803000),
  (-401029897183575623209605964803000, 916064965799331720752718410949000),
  (364184789567079891803302871267000, 931326709081180426075263767416000),
  (-931326709081180426075263767416000, 364184789567079891803302871267000),
  (976700086128711841837457541260000, 214608810993786758292145577798000),
  (-214608810993786758292145577798000, 976700086128711841837457541260000),
  (538879908531008422478691954893000, 842382599643185847604343052808000),
  (-842382599643185847604343052808000, 538879908531008422478691954893000),
  (820225982569434686197951123177000, 572039629324757048500771361432000),
  (-572039629324757048500771361432000, 820225982569434686197951123177000),
  (175494253377271425264893878193000, 984480455383220931508958528866000),
  (-984480455383220931508958528866000, 175494253377271425264893878193000),
  (993032350197851410023019980144000, 117842061508324977281425560705000),
  (-117842061508324977281425560705000, 993032350197851410023019980144000),
  (618852987960976319570249870594000, 785506829564053932202227770176000),
  (-785506829564053932202227770176000, 618852987960976319570249870594000),
  (872346058894391540583512778539000, 488888896919763171755590747125000),
  (-488888896919763171755590747125000, 872346058894391540583512778539000),
  (271145159526808010586051977953000, 962538468044359163400258694310000),
  (-962538468044359163400258694310000, 271145159526808010586051977953000),
  (950961666311575082310980633338000, 309308760312268726799800333538000),
  (-309308760312268726799800333538000, 950961666311575082310980633338000),
  (453717121000163869926069537541000, 891145764794583183920906321873000),
  (-891145764794583183920906321873000, 453717121000163869926069537541000),
  (760206681651202420546553639724000, 649681307390683193681013563037000),
  (-649681307390683193681013563037000, 760206681651202420546553639724000),
  (78153241632794231974479259861300, 996941357764982161171474217554000),
  (-996941357764982161171474217554000, 78153241632794231974479259861300),
  (997618435138519554783442799817000, 68974327628266746126328712307400),
  (-68974327628266746126328712307400, 997618435138519554783442799817000),
  (656650545729429047092651217099000, 754194975316889171246259593318000),
  (-754194975316889171246259593318000, 656650545729429047092651217099000),
  (895283921038557473082164506195000, 445496016513981740736483061482000),
  (-445496016513981740736483061482000, 895283921038557473082164506195000),
  (318048077385014893447845452101000, 948074585922276225069538213575000),
  (-948074585922276225069538213575000, 318048077385014893447845452101000),
  (964993252854920324779186557862000, 262274707023913644654555810121000),
  (-262274707023913644654555810121000, 964993252854920324779186557862000),
  (496897049022654524463860070682000, 867809496763303211963602734613000),
  (-867809496763303211963602734613000, 496897049022654524463860070682000),
  (791169330217690203177482999308000, 611597163926461906413578617503000),
  (-611597163926461906413578617503000, 791169330217690203177482999308000),
  (126976696496885865794723713407000, 991905700430609327256092910829000),
  (-991905700430609327256092910829000, 126976696496885865794723713407000),
  (986053963346195438965935409215000, 166425903540464104057861050023000),
  (-166425903540464104057861050023000, 986053963346195438965935409215000),
  (579564559139405743870554488240000, 814926329056526621563705248263000),
  (-814926329056526621563705248263000, 579564559139405743870554488240000),
  (847306638685858315440668775409000, 531104001151255000756634672143000),
  (-531104001151255000756634672143000, 847306638685858315440668775409000),
  (223589029229789987285315078225000, 974683510688510668096284916828000),
  (-974683510688510668096284916828000, 223589029229789987285315078225000),
  (934639129819680780641988349089000, 355597661704783907232751971605000),
  (-355597661704783907232751971605000, 934639129819680780641988349089000),
  (409444148692257592347942818378000, 912335184623322748009854876727000),
  (-912335184623322748009854876727000, 409444148692257592347942818378000),
  (727412628602375765929366480123000, 686200311680038588235674978932000),
  (-686200311680038588235674978932000, 727412628602375765929366480123000),
  (29141508764193722186286450437400, 999575296046749217637739093334000),
  (-999575296046749217637739093334000, 29141508764193722186286450437400),
  (999010685854073376965800434846000, 44470771854938667688728060056700),
  (-44470771854938667688728060056700, 999010685854073376965800434846000),
  (674961646102012036152473228867000, 737852814788465982687171162979000),
  (-737852814788465982687171162979000, 674961646102012036152473228867000),
  (905947297807268459024498952203000, 423390474143796047279408867325000),
  (-423390474143796047279408867325000, 905947297807268459024498952203000),
  (341219202320282355422875752993000, 939983753034013935767632119678000),
  (-939983753034013935767632119678000, 341219202320282355422875752993000),
  (971139158449725092836501971760000, 238513594844318416177131325639000),
  (-238513594844318416177131325639000, 971139158449725092836501971760000),
  (518044504095999336357181164203000, 855353664735196028701125214866000),
  (-855353664735196028701125214866000, 518044504095999336357181164203000),
  (805940390571176390466234806809000, 591996694962040992393781380088000),
  (-591996694962040992393781380088000, 805940390571176390466234806809000),
  (151281037957330222187835033765000, 988490792852696587011962492397000),
  (-988490792852696587011962492397000, 151281037957330222187835033765000),
  (989841278458820528207695588208000, 142176803519448058388263689267000),
  (-142176803519448058388263689267000, 989841278458820528207695588208000),
  (599389298400564540791890522087000, 800457662192622820818144191435000),
  (-800457662192622820818144191435000, 599389298400564540791890522087000),
  (860085390429390139743759391422000, 510150096706766809084854230605000),
  (-510150096706766809084854230605000, 860085390429390139743759391422000),
  (247441619167773296794621273875000, 968902804776428872024496286031000),
  (-968902804776428872024496286031000, 247441619167773296794621273875000),
  (943084437466093494784047379653000, 332553369866044223890355624462000),
  (-332553369866044223890355624462000, 943084437466093494784047379653000),
  (431710658025057258946333149652000, 902012143902493179759005670348000),
  (-902012143902493179759005670348000, 431710658025057258946333149652000),
  (744033744179929290574193601060000, 668142041426518451530114361958000),
  (-668142041426518451530114361958000, 744033744179929290574193601060000),
  (53663537652730526616995376798500, 998559074229759313645615748101000),
  (-998559074229759313645615748101000, 53663537652730526616995376798500),
  (995625256380994305693832302495000, 93436335845747772732572400400400),
  (-93436335845747772732572400400400, 995625256380994305693832302495000),
  (637943903621844055074063817301000, 770082836993348007759152551444000),
  (-770082836993348007759152551444000, 637943903621844055074063817301000),
  (884081258712634987517731133266000, 467333208741988415102497356202000),
  (-467333208741988415102497356202000, 884081258712634987517731133266000),
  (294685372180514326689859672115000, 955594334130771105861867908970000),
  (-955594334130771105861867908970000, 294685372180514326689859672115000),
  (958266071408017672261792085919000, 285877834727080559762413258795000),
  (-285877834727080559762413258795000, 958266071408017672261792085919000),
  (475450281747155867329013290146000, 879742592800047407131103227584000),
  (-879742592800047407131103227584000, 475450281747155867329013290146000),
  (775921699043407575580033608276000, 630829229628424581477474930580000),
  (-630829229628424581477474930580000, 775921699043407575580033608276000),
  (102595869022436281259302859326000, 994723121104325702646065110457000),
  (-994723121104325702646065110457000, 102595869022436281259302859326000),
  (981672686196983113049441271869000, 190574754820252767473220956163000),
  (-190574754820252767473220956163000, 981672686196983113049441271869000),
  (559390711859136025019267890457000, 828904114771864874988693827618000),
  (-828904114771864874988693827618000, 559390711859136025019267890457000),
  (834017501106018133150143967214000, 551737988404707446754571265046000),
  (-551737988404707446754571265046000, 834017501106018133150143967214000),
  (199601757621130970754563804803000, 979877103699517637558358273964000),
  (-979877103699517637558358273964000, 199601757621130970754563804803000),
  (925630830509872715161634459946000, 378427754808765559602079520118000),
  (-378427754808765559602079520118000, 925630830509872715161634459946000),
  (386931005514388581811857648063000, 922108668743345072371653259324000),
  (-922108668743345072371653259324000, 386931005514388581811857648063000),
  (710353346857062306618502134370000, 703845240524484938582361337467000),
  (-703845240524484938582361337467000, 710353346857062306618502134370000),
  (4601926120448570495247153644410, 999989411081928403213225919899000),
  (-999989411081928403213225919899000, 4601926120448570495247153644410)]

/-- twiddles.cu:1028-1283, entries 1024 to 1279 of `negtwiddles`. -/
def tw4 : List (Int × Int) := [
  (999999705862882226625742987380000, 766990318742704485499572797380),
  (-766990318742704485499572797380, 999999705862882226625742987380000),
  (706564229144709510244126704492000, 707648917255684350990918574098000),
  (-707648917255684350990918574098000, 706564229144709510244126704492000),
  (923585746276256669418103228963000, 383391926460808663001955665095000),
  (-383391926460808663001955665095000, 923585746276256669418103228963000),
  (381974713146567224075766944225000, 924172775251791089878850016248000),
  (-924172775251791089878850016248000, 381974713146567224075766944225000),
  (980635359529608119366628216085000, 195842517447657876727973302877000),
  (-195842517447657876727973302877000, 980635359529608119366628216085000),
  (554932340462810369530188836507000, 831895484726577594258856152010000),
  (-831895484726577594258856152010000, 554932340462810369530188836507000),
  (831043250746362316405679848685000, 556207798748739934424634157040000),
  (-556207798748739934424634157040000, 831043250746362316405679848685000),
  (194338011817988598473050387838000, 980934624306141644822787384328000),
  (-980934624306141644822787384328000, 194338011817988598473050387838000),
  (995109255753726107407430845342000, 98780408549799622597298309756300),
  (-98780408549799622597298309756300, 995109255753726107407430845342000),
  (633800206031017276941952331981000, 773496799498899045843813837564000),
  (-773496799498899045843813837564000, 633800206031017276941952331981000),
  (881559448209143781127750116866000, 472073023242368661200885071594000),
  (-472073023242368661200885071594000, 881559448209143781127750116866000),
  (289550627897843082525497493407000, 957162699797670102341839992732000),
  (-957162699797670102341839992732000, 289550627897843082525497493407000),
  (956717408723403051062916802039000, 291018555844085036188317872075000),
  (-291018555844085036188317872075000, 956717408723403051062916802039000),
  (470720173099071603761700544055000, 882282561676008714179886283091000),
  (-882282561676008714179886283091000, 470720173099071603761700544055000),
  (772523652484441325505315489863000, 634985989099049463746382571117000),
  (-634985989099049463746382571117000, 772523652484441325505315489863000),
  (97253814448363271050190803634900, 995259612149133388037114400504000),
  (-995259612149133388037114400504000, 97253814448363271050190803634900),
  (998757527991183335913660812366000, 49833726340107277474889002633100),
  (-49833726340107277474889002633100, 998757527991183335913660812366000),
  (670990454976794215014024302945000, 741465986630563289594419984496000),
  (-741465986630563289594419984496000, 670990454976794215014024302945000),
  (903661096609247982414103717019000, 428248318706531960753380872120000),
  (-428248318706531960753380872120000, 903661096609247982414103717019000),
  (336167599117744519965356175817000, 941802179495997648928096168675000),
  (-941802179495997648928096168675000, 336167599117744519965356175817000),
  (969844604426714829159550390614000, 243724113013852161646610738899000),
  (-243724113013852161646610738899000, 969844604426714829159550390614000),
  (513444723436543459804681788228000, 858122669538086135787580133183000),
  (-858122669538086135787580133183000, 513444723436543459804681788228000),
  (802750399628069155610887719376000, 596315181675743710698611721455000),
  (-596315181675743710698611721455000, 802750399628069155610887719376000),
  (145971742489812206233779079412000, 989288759864625166784435350564000),
  (-989288759864625166784435350564000, 145971742489812206233779079412000),
  (989063678157881542851725953369000, 147489120103153570351395273974000),
  (-147489120103153570351395273974000, 989063678157881542851725953369000),
  (595083076874569960601490947738000, 803664190826924085264693076169000),
  (-803664190826924085264693076169000, 595083076874569960601490947738000),
  (857334045882815587447112193331000, 514760462516501093865883831313000),
  (-514760462516501093865883831313000, 857334045882815587447112193331000),
  (242236103853696010945739658382000, 970217331317979159166497993283000),
  (-970217331317979159166497993283000, 242236103853696010945739658382000),
  (941285396983928657199669487454000, 337611909483074568161242723363000),
  (-337611909483074568161242723363000, 941285396983928657199669487454000),
  (426861616634386487056929126993000, 904316957844028324053908818314000),
  (-904316957844028324053908818314000, 426861616634386487056929126993000),
  (740435828196898015995941477740000, 672127059656411729449132508307000),
  (-672127059656411729449132508307000, 740435828196898015995941477740000),
  (48301593449480137443252658613300, 998832796853527993263810458302000),
  (-998832796853527993263810458302000, 48301593449480137443252658613300),
  (999679701762987926727532794757000, 25307980620024570633797011964800),
  (-25307980620024570633797011964800, 999679701762987926727532794757000),
  (688984851416597043893830232264000, 724775740845711280435637036135000),
  (-724775740845711280435637036135000, 688984851416597043893830232264000),
  (913898670635911680726337635861000, 405942384840402514800672406636000),
  (-405942384840402514800672406636000, 913898670635911680726337635861000),
  (359179334232336500143389912409000, 933268560415712045141845010221000),
  (-933268560415712045141845010221000, 359179334232336500143389912409000),
  (975533794518291363928597093036000, 219849529798778697831096451409000),
  (-219849529798778697831096451409000, 975533794518291363928597093036000),
  (534349468019137519014805093320000, 845263654741918224466701303754000),
  (-845263654741918224466701303754000, 534349468019137519014805093320000),
  (817142933361272971737321313412000, 576435101687721829222255109926000),
  (-576435101687721829222255109926000, 817142933361272971737321313412000),
  (170206140061078065039978923778000, 985408478695768419441947116866000),
  (-985408478695768419441947116866000, 170206140061078065039978923778000),
  (992385354870851665864961432817000, 123171861388280484694845995364000),
  (-123171861388280484694845995364000, 992385354870851665864961432817000),
  (614626755540375047104362238315000, 788818072418420279667827799130000),
  (-788818072418420279667827799130000, 614626755540375047104362238315000),
  (869708687042265560229736820474000, 493565395548774765721589119494000),
  (-493565395548774765721589119494000, 869708687042265560229736820474000),
  (265973472112875586326197208109000, 963980348415994114930072100833000),
  (-963980348415994114930072100833000, 265973472112875586326197208109000),
  (949287310443502119206016232056000, 314409927055336657630846275424000),
  (-314409927055336657630846275424000, 949287310443502119206016232056000),
  (448926103015743316326791045867000, 893568886002136020252351045201000),
  (-893568886002136020252351045201000, 448926103015743316326791045867000),
  (756707646536245670532139229181000, 653753422685936169678200258204000),
  (-653753422685936169678200258204000, 756707646536245670532139229181000),
  (72799629836351673062289080462500, 997346586646633226358460433403000),
  (-997346586646633226358460433403000, 72799629836351673062289080462500),
  (997233740030466275783282981138000, 74329454086845755944601421560900),
  (-74329454086845755944601421560900, 997233740030466275783282981138000),
  (652591878976862549421866788180000, 757709601030268076193863180379000),
  (-757709601030268076193863180379000, 652591878976862549421866788180000),
  (892879190928051680309351922915000, 450296291798708669951167848922000),
  (-450296291798708669951167848922000, 892879190928051680309351922915000),
  (312953369211560195051191612947000, 949768492159606680935723943549000),
  (-949768492159606680935723943549000, 312953369211560195051191612947000),
  (963571216210257319723098135000000, 267451885936677680177808724693000),
  (-267451885936677680177808724693000, 963571216210257319723098135000000),
  (492230698951486078662753698154000, 870464783325397672975043406041000),
  (-870464783325397672975043406041000, 492230698951486078662753698154000),
  (787874319070900219763586846966000, 615836063695984980981279477419000),
  (-615836063695984980981279477419000, 787874319070900219763586846966000),
  (121649416999105530745595160624000, 992573130476428810986533335381000),
  (-992573130476428810986533335381000, 121649416999105530745595160624000),
  (985146226468662233877182643482000, 171717536887049965210749746802000),
  (-171717536887049965210749746802000, 985146226468662233877182643482000),
  (575180942414845186583249869727000, 818026211977813444420348787389000),
  (-818026211977813444420348787389000, 575180942414845186583249869727000),
  (844442978751910655610402045568000, 535645457029741089982621815579000),
  (-535645457029741089982621815579000, 844442978751910655610402045568000),
  (218352821623346321500136468785000, 975869891578341031035392916237000),
  (-975869891578341031035392916237000, 218352821623346321500136468785000),
  (932716488398140253224255502573000, 360610527120662271993722924890000),
  (-360610527120662271993722924890000, 932716488398140253224255502573000),
  (404540004776552997167726744010000, 914520302965104447956434796652000),
  (-914520302965104447956434796652000, 404540004776552997167726744010000),
  (723717999001323497587634392403000, 690095832418599952617910275876000),
  (-690095832418599952617910275876000, 723717999001323497587634392403000),
  (23774461988827554764780458640400, 999717347532362188289312143752000),
  (-999717347532362188289312143752000, 23774461988827554764780458640400),
  (999914995573113474236492947966000, 13038467241987332714825420509900),
  (-13038467241987332714825420509900, 999914995573113474236492947966000),
  (697827085376777289660310543695000, 716266262582953117110662333289000),
  (-716266262582953117110662333289000, 697827085376777289660310543695000),
  (918811393264169939953944776789000, 394696875599433616432776261718000),
  (-394696875599433616432776261718000, 918811393264169939953944776789000),
  (370604929559051610166164891780000, 928790604058057023273420327314000),
  (-928790604058057023273420327314000, 370604929559051610166164891780000),
  (978158230539735051856098380085000, 207861675225075065442936761428000),
  (-207861675225075065442936761428000, 978158230539735051856098380085000),
  (544681917787634528593798677321000, 838642717988527297556800021994000),
  (-838642717988527297556800021994000, 544681917787634528593798677321000),
  (824155149420828569972741206584000, 566364096393063842782567007816000),
  (-566364096393063842782567007816000, 824155149420828569972741206584000),
  (182285801725153295826942212443000, 983245588085407073997146198963000),
  (-983245588085407073997146198963000, 182285801725153295826942212443000),
  (993822138291519663333417611284000, 110984491897163389806379996116000),
  (-110984491897163389806379996116000, 993822138291519663333417611284000),
  (624260486452220764164167121635000, 781216260106276094710153756751000),
  (-781216260106276094710153756751000, 624260486452220764164167121635000),
  (875700006225634597356588528783000, 482855567531765672573129677403000),
  (-482855567531765672573129677403000, 875700006225634597356588528783000),
  (277782966551857635195688089880000, 960643858822638585515107934043000),
  (-960643858822638585515107934043000, 277782966551857635195688089880000),
  (953074124312172199502413150185000, 302737036991819197240261019033000),
  (-302737036991819197240261019033000, 953074124312172199502413150185000),
  (459857764501329535633544765005000, 887992588047805564421821600263000),
  (-887992588047805564421821600263000, 459857764501329535633544765005000),
  (764673227998067139843385575659000, 644418229399988384820119335927000),
  (-644418229399988384820119335927000, 764673227998067139843385575659000),
  (85033124980280275218014196525500, 996378124838200207591398793738000),
  (-996378124838200207591398793738000, 85033124980280275218014196525500),
  (998070786905482343343010143144000, 62086265195060094668200179057700),
  (-62086265195060094668200179057700, 998070786905482343343010143144000),
  (661841002387086874136912229005000, 749644240663033478710985946236000),
  (-749644240663033478710985946236000, 661841002387086874136912229005000),
  (898337786951834305071429298550000, 439305384140099952627878110434000),
  (-439305384140099952627878110434000, 898337786951834305071429298550000),
  (324584924812532149562827044065000, 945856557086983906756927353854000),
  (-945856557086983906756927353854000, 324584924812532149562827044065000),
  (966780707127683269774820473685000, 255607246230807438891474703269000),
  (-255607246230807438891474703269000, 966780707127683269774820473685000),
  (502875576800086876438911076548000, 864358811060533915870962573536000),
  (-864358811060533915870962573536000, 502875576800086876438911076548000),
  (795372249417061305543086291436000, 606121262502186231024836615688000),
  (-606121262502186231024836615688000, 795372249417061305543086291436000),
  (133820656193754744522905753001000, 991005566067049370460040336184000),
  (-991005566067049370460040336184000, 133820656193754744522905753001000),
  (987179285097874337218115670112000, 159615347237193033747004733414000),
  (-159615347237193033747004733414000, 987179285097874337218115670112000),
  (585176072326730412065387554321000, 810906261152459784113943896955000),
  (-810906261152459784113943896955000, 585176072326730412065387554321000),
  (850952587482175726307787044789000, 525242509568094706473573296535000),
  (-525242509568094706473573296535000, 850952587482175726307787044789000),
  (230311804793845442684840918446000, 973116885359925132270575431903000),
  (-973116885359925132270575431903000, 230311804793845442684840918446000),
  (937071502451759186236301957251000, 349137507714084971421897307664000),
  (-349137507714084971421897307664000, 937071502451759186236301957251000),
  (415732114569105359880296646224000, 909487113111505429685621493263000),
  (-909487113111505429685621493263000, 415732114569105359880296646224000),
  (732132041795361288016863454686000, 681162736338795427037950958038000),
  (-681162736338795427037950958038000, 732132041795361288016863454686000),
  (36040741520706222333902957188900, 999350321434199440062684516306000),
  (-999350321434199440062684516306000, 36040741520706222333902957188900),
  (999293859866887790310840955499000, 37573682709270500579279428166000),
  (-37573682709270500579279428166000, 999293859866887790310840955499000),
  (680038858872078932904514658730000, 733176070547832736679083609488000),
  (-733176070547832736679083609488000, 680038858872078932904514658730000),
  (908848318229439122717394639039000, 417126760651387873402029526915000),
  (-417126760651387873402029526915000, 908848318229439122717394639039000),
  (347699647819051382846566866647000, 937605969960999985346461471636000),
  (-937605969960999985346461471636000, 347699647819051382846566866647000),
  (972762446695688565156956428837000, 231804275841964751991852722313000),
  (-231804275841964751991852722313000, 972762446695688565156956428837000),
  (523936547186248602336888779973000, 851757297898029119842533418705000),
  (-851757297898029119842533418705000, 523936547186248602336888779973000),
  (810007658581641143413776262605000, 586419297976360498481085414824000),
  (-586419297976360498481085414824000, 810007658581641143413776262605000),
  (158100845978377008149706739459000, 987422970413855405347192117915000),
  (-987422970413855405347192117915000, 158100845978377008149706739459000),
  (990799121866020371385275211651000, 135340681650134214697445145248000),
  (-135340681650134214697445145248000, 990799121866020371385275211651000),
  (604900464099919821236994721403000, 796301091630359114681425580784000),
  (-796301091630359114681425580784000, 604900464099919821236994721403000),
  (863586392929667989726283394702000, 504200894432690449598055693059000),
  (-504200894432690449598055693059000, 863586392929667989726283394702000),
  (254123923047320621204647750346000, 967171666114676642500569414551000),
  (-967171666114676642500569414551000, 254123923047320621204647750346000),
  (945357537397632285980364486022000, 326035468140330242370339419722000),
  (-326035468140330242370339419722000, 945357537397632285980364486022000),
  (437926834910322859695241959344000, 899010615769039067579626589577000),
  (-899010615769039067579626589577000, 437926834910322859695241959344000),
  (748628107686245325425034025102000, 662990163111121466599229279382000),
  (-662990163111121466599229279382000, 748628107686245325425034025102000),
  (60555171335947788335829500283600, 998164851727646240675539957010000),
  (-998164851727646240675539957010000, 60555171335947788335829500283600),
  (996246513422315516095295606647000, 86561449236251170047395930851100),
  (-86561449236251170047395930851100, 996246513422315516095295606647000),
  (643244477630085853547825536225000, 765660853118662498850710562692000),
  (-765660853118662498850710562692000, 643244477630085853547825536225000),
  (887286130582383147924474542378000, 461219386492092375817719585029000),
  (-461219386492092375817719585029000, 887286130582383147924474542378000),
  (301274683984317948048925472904000, 953537395590833281033837920404000),
  (-953537395590833281033837920404000, 301274683984317948048925472904000),
  (960216615011963425807550720492000, 279256248372291182580084978326000),
  (-279256248372291182580084978326000, 960216615011963425807550720492000),
  (481511692970189919549284240929000, 876439666795713612224005828466000),
  (-876439666795713612224005828466000, 481511692970189919549284240929000),
  (780257737750316593405841558706000, 625458122243814362839486875600000),
  (-625458122243814362839486875600000, 780257737750316593405841558706000),
  (109459857849717984157322803185000, 993991217023329376445417437935000),
  (-993991217023329376445417437935000, 109459857849717984157322803185000),
  (982964808441396442617588036228000, 183793866507478448335533016689000),
  (-183793866507478448335533016689000, 982964808441396442617588036228000),
  (565099192368713976186711533956000, 825022971064580223909956657735000),
  (-825022971064580223909956657735000, 565099192368713976186711533956000),
  (837806200015150936977192941413000, 545967738255817569559269486490000),
  (-545967738255817569559269486490000, 837806200015150936977192941413000),
  (206360955321075512092221515559000, 978475935380616834713407570234000),
  (-978475935380616834713407570234000, 206360955321075512092221515559000),
  (928221010672169444255530379451000, 372029239908285014326594364320000),
  (-372029239908285014326594364320000, 928221010672169444255530379451000),
  (393286972747296403873917824967000, 919415769424946960342026613944000),
  (-919415769424946960342026613944000, 393286972747296403873917824967000),
  (715194966938680010137829867745000, 698925002604414147278077962255000),
  (-698925002604414147278077962255000, 715194966938680010137829867745000),
  (11504602110422713565074381847400, 999933819875235996299522867048000),
  (-999933819875235996299522867048000, 11504602110422713565074381847400)]

/-- twiddles.cu:1284-1539, entries 1280 to 1535 of `negtwiddles`. -/
def tw5 : List (Int × Int) := [
  (999976174986897614616054852377000, 6902858724729755805771258536650),
  (-6902858724729755805771258536650, 999976174986897614616054852377000),
  (702208876144391869189576027566000, 711970992572050098701197384798000),
  (-711970992572050098701197384798000, 702208876144391869189576027566000),
  (921215911399408726722981555213000, 389051724818894384405609798705000),
  (-389051724818894384405609798705000, 921215911399408726722981555213000),
  (376296905035704787323425080103000, 926499130739230514208770728146000),
  (-926499130739230514208770728146000, 376296905035704787323425080103000),
  (979415232249634781780400771822000, 201855896216568020395953908519000),
  (-201855896216568020395953908519000, 979415232249634781780400771822000),
  (549817479283890908625664906140000, 835284825358337368328420780017000),
  (-835284825358337368328420780017000, 549817479283890908625664906140000),
  (827614779697938396374468084105000, 561296513819151465796153388510000),
  (-561296513819151465796153388510000, 827614779697938396374468084105000),
  (188315451756732116228576501271000, 982108594112513610951964437845000),
  (-982108594112513610951964437845000, 188315451756732116228576501271000),
  (994484417910747597879606018978000, 104884424643134951948830746460000),
  (-104884424643134951948830746460000, 994484417910747597879606018978000),
  (629042187783035999792957682075000, 777371163595056313688758109492000),
  (-777371163595056313688758109492000, 629042187783035999792957682075000),
  (878646267485068133140657664626000, 477473283686698057870501088473000),
  (-477473283686698057870501088473000, 878646267485068133140657664626000),
  (283672137272668434260225467369000, 958921330733213173047602140286000),
  (-958921330733213173047602140286000, 283672137272668434260225467369000),
  (954913742499130524521433471818000, 296883385163778212856300342537000),
  (-296883385163778212856300342537000, 954913742499130524521433471818000),
  (465297727898434598792221095209000, 885154237640285113108973291673000),
  (-885154237640285113108973291673000, 465297727898434598792221095209000),
  (768612909162058266510086923518000, 639714151687640453225469627796000),
  (-639714151687640453225469627796000, 768612909162058266510086923518000),
  (91145185496681019321485450746000, 995837614855341612951633578632000),
  (-995837614855341612951633578632000, 91145185496681019321485450746000),
  (998432952666508444217186024616000, 55961049218520568515611302018400),
  (-55961049218520568515611302018400, 998432952666508444217186024616000),
  (666428274005865350915200906456000, 745569148775325429845395319717000),
  (-745569148775325429845395319717000, 666428274005865350915200906456000),
  (901016403159702328196090093115000, 433785017303678577249570480490000),
  (-433785017303678577249570480490000, 901016403159702328196090093115000),
  (330382481321982779398638285784000, 943847135947092685803738731920000),
  (-943847135947092685803738731920000, 330382481321982779398638285784000),
  (968330884332445185336268878018000, 249670379596668545740811850919000),
  (-249670379596668545740811850919000, 968330884332445185336268878018000),
  (508169716269614601955595389882000, 861256953218062171195867904316000),
  (-861256953218062171195867904316000, 508169716269614601955595389882000),
  (799076366909352353573581240198000, 601229540065148504446312927030000),
  (-601229540065148504446312927030000, 799076366909352353573581240198000),
  (139898832897777214423484792860000, 990165802557248397874900547322000),
  (-990165802557248397874900547322000, 139898832897777214423484792860000),
  (988140083085692566555735538714000, 153555124301993445312675135028000),
  (-153555124301993445312675135028000, 988140083085692566555735538714000),
  (590140683832248935658526534098000, 807300423192014449114140006714000),
  (-807300423192014449114140006714000, 590140683832248935658526534098000),
  (854159395991738845665963708598000, 520011275107596038225210577366000),
  (-520011275107596038225210577366000, 854159395991738845665963708598000),
  (236278402197919568106243559669000, 971685400042008540211213585280000),
  (-971685400042008540211213585280000, 236278402197919568106243559669000),
  (939196129819569902608122902166000, 343381172652115040921927402451000),
  (-343381172652115040921927402451000, 939196129819569902608122902166000),
  (421304796545479642855269730717000, 906919107973678140233175781759000),
  (-906919107973678140233175781759000, 421304796545479642855269730717000),
  (736297795594053172685278241261000, 676657635886374952960409245861000),
  (-676657635886374952960409245861000, 736297795594053172685278241261000),
  (42171961360347946790039230791100, 999110367114174890978972598532000),
  (-999110367114174890978972598532000, 42171961360347946790039230791100),
  (999505596225325310122400424007000, 31441423540560300975421625935300),
  (-31441423540560300975421625935300, 999505596225325310122400424007000),
  (684524741129142300088972206140000, 728989628720519422522272634524000),
  (-728989628720519422522272634524000, 684524741129142300088972206140000),
  (911390651104122428982634573913000, 411542319913765219929757677164000),
  (-411542319913765219929757677164000, 911390651104122428982634573913000),
  (353446144549480811836161819883000, 935454874862014729153258940642000),
  (-935454874862014729153258940642000, 353446144549480811836161819883000),
  (974166459015280317146334709832000, 225831154028026170887955004218000),
  (-225831154028026170887955004218000, 974166459015280317146334709832000),
  (529152968757790609366509215761000, 848526449590592646288200739946000),
  (-848526449590592646288200739946000, 529152968757790609366509215761000),
  (813590611584798506505933346489000, 581438145240810277947218764893000),
  (-581438145240810277947218764893000, 813590611584798506505933346489000),
  (164156583221015839324508078789000, 986434293901627179401714329288000),
  (-986434293901627179401714329288000, 164156583221015839324508078789000),
  (991610905163495370828741215519000, 129258704777796135099166008331000),
  (-129258704777796135099166008331000, 991610905163495370828741215519000),
  (609775088663868425342684531643000, 792574502015407689192727502814000),
  (-792574502015407689192727502814000, 609775088663868425342684531643000),
  (866663854688111134905170729326000, 498892536501744643384625987892000),
  (-498892536501744643384625987892000, 866663854688111134905170729326000),
  (260053593015495188023322725712000, 965594184302976832334763912513000),
  (-965594184302976832334763912513000, 260053593015495188023322725712000),
  (947340257333192048427861209348000, 320228725813099912578252315143000),
  (-320228725813099912578252315143000, 947340257333192048427861209348000),
  (443434816498138484330837627567000, 896306623604479546507661780197000),
  (-896306623604479546507661780197000, 443434816498138484330837627567000),
  (752682046138055227402219315991000, 658384186794785053464806878765000),
  (-658384186794785053464806878765000, 752682046138055227402219315991000),
  (66678655793001570528666377413200, 997774502010167818610852918937000),
  (-997774502010167818610852918937000, 66678655793001570528666377413200),
  (996758890430818000893964381248000, 80446966052950000247712125656100),
  (-80446966052950000247712125656100, 996758890430818000893964381248000),
  (647930375409685455068142800883000, 761699565853535265347318272688000),
  (-761699565853535265347318272688000, 647930375409685455068142800883000),
  (890099416625192318974768568296000, 455766418819434693254777357652000),
  (-455766418819434693254777357652000, 890099416625192318974768568296000),
  (307119808041533048914573100774000, 951670858810193864840698552143000),
  (-951670858810193864840698552143000, 307119808041533048914573100774000),
  (961912023333112209400042047491000, 273359213064418737904048839482000),
  (-273359213064418737904048839482000, 961912023333112209400042047491000),
  (486880361346047396686742558813000, 873468667861384884254505323042000),
  (-873468667861384884254505323042000, 486880361346047396686742558813000),
  (784080788509869952562780781591000, 620658776695972136394630069844000),
  (-620658776695972136394630069844000, 784080788509869952562780781591000),
  (115556812748755260988886561790000, 993300872358093278613466736715000),
  (-993300872358093278613466736715000, 115556812748755260988886561790000),
  (984074042370776447263835962076000, 177759047961107169433248031964000),
  (-177759047961107169433248031964000, 984074042370776447263835962076000),
  (570150800319470296706469980563000, 821540056780597605090576962539000),
  (-821540056780597605090576962539000, 570150800319470296706469980563000),
  (841140423614298082810591949965000, 540816778365796668737175423303000),
  (-540816778365796668737175423303000, 841140423614298082810591949965000),
  (212360886105878443608219185990000, 977191308829712279582224709884000),
  (-977191308829712279582224709884000, 212360886105878443608219185990000),
  (930486265676149670866834640037000, 366326779512573585950718779713000),
  (-366326779512573585950718779713000, 930486265676149670866834640037000),
  (398920998336982857157551052296000, 916985298184122998854661545920000),
  (-916985298184122998854661545920000, 398920998336982857157551052296000),
  (719470026789933103650298562570000, 694523491719965524460178585286000),
  (-694523491719965524460178585286000, 719470026789933103650298562570000),
  (17639864115082056622574313564700, 999844405492175236638274782308000),
  (-999844405492175236638274782308000, 17639864115082056622574313564700),
  (999816169924900410848067622283000, 19173584868322619129132888815500),
  (-19173584868322619129132888815500, 999816169924900410848067622283000),
  (693419021813811875531996520294000, 720534565573905272373167463229000),
  (-720534565573905272373167463229000, 693419021813811875531996520294000),
  (916372282399289139753761901375000, 400327166265690093105433788878000),
  (-400327166265690093105433788878000, 916372282399289139753761901375000),
  (364899001016267321428898640079000, 931047108935595280065911083511000),
  (-931047108935595280065911083511000, 364899001016267321428898640079000),
  (976864401725312636592946091696000, 213859628358993775210095122929000),
  (-213859628358993775210095122929000, 976864401725312636592946091696000),
  (539525849325028894476474761177000, 841969036194387676630412897794000),
  (-841969036194387676630412897794000, 539525849325028894476474761177000),
  (820664490168157456650988024194000, 571410355678857229122513672337000),
  (-571410355678857229122513672337000, 820664490168157456650988024194000),
  (176249288736167880609073677078000, 984345563417641900016974432219000),
  (-984345563417641900016974432219000, 176249288736167880609073677078000),
  (993122441830495583658944269700000, 117080380647800574855921240669000),
  (-117080380647800574855921240669000, 993122441830495583658944269700000),
  (619455282066924017847497907496000, 785031944266848080715703872556000),
  (-785031944266848080715703872556000, 619455282066924017847497907496000),
  (872720775355914302195969867171000, 488219672137626792274289755369000),
  (-488219672137626792274289755369000, 872720775355914302195969867171000),
  (271883337459359775145628645987000, 962330219213737403372022072290000),
  (-962330219213737403372022072290000, 271883337459359775145628645987000),
  (951198623423113232000503103336000, 308579290941525030689263076056000),
  (-308579290941525030689263076056000, 951198623423113232000503103336000),
  (454400487719303636247047961660000, 890797506036281494523620949622000),
  (-890797506036281494523620949622000, 454400487719303636247047961660000),
  (760704757319236923862604271562000, 649098045130225953514013781387000),
  (-649098045130225953514013781387000, 760704757319236923862604271562000),
  (78917863014784941921853089752400, 996881121747813847555619304330000),
  (-996881121747813847555619304330000, 78917863014784941921853089752400),
  (997671044343441004720318687760000, 68209143658806314913789492493400),
  (-68209143658806314913789492493400, 997671044343441004720318687760000),
  (657228812828642539045631565386000, 753691108868781323160135343642000),
  (-753691108868781323160135343642000, 657228812828642539045631565386000),
  (895625348834030110545256775367000, 444809211377104884999056366723000),
  (-444809211377104884999056366723000, 895625348834030110545256775367000),
  (318775147864118479912320935910000, 947830367262101014524944275763000),
  (-947830367262101014524944275763000, 318775147864118479912320935910000),
  (965194131175724723270548111032000, 261534489396595459798078309177000),
  (-261534489396595459798078309177000, 965194131175724723270548111032000),
  (497562504349319145724450663693000, 867428126282306921623899143015000),
  (-867428126282306921623899143015000, 497562504349319145724450663693000),
  (791638186609125771298067775206000, 610990164816271774661515792104000),
  (-610990164816271774661515792104000, 791638186609125771298067775206000),
  (127737441217662311965241883627000, 991808018777406430466214715125000),
  (-991808018777406430466214715125000, 127737441217662311965241883627000),
  (986181320367928271330981715437000, 165669560744784116756989078567000),
  (-165669560744784116756989078567000, 986181320367928271330981715437000),
  (580189429272831680428623712942000, 814481568950498613368438327598000),
  (-814481568950498613368438327598000, 580189429272831680428623712942000),
  (847713741088654271216284996626000, 530453968944976317345663119340000),
  (-530453968944976317345663119340000, 847713741088654271216284996626000),
  (224336536280493603623398257696000, 974511733377115718646166442340000),
  (-974511733377115718646166442340000, 224336536280493603623398257696000),
  (934911594871516093974150862778000, 354880697946222789518344598036000),
  (-354880697946222789518344598036000, 934911594871516093974150862778000),
  (410143780513590239245047541772000, 912020876573568339829023443599000),
  (-912020876573568339829023443599000, 410143780513590239245047541772000),
  (727938723639098617113063482975000, 685642191399187472811149746121000),
  (-685642191399187472811149746121000, 727938723639098617113063482975000),
  (29908164767516558224524914066900, 999552650779456985929982693051000),
  (-999552650779456985929982693051000, 29908164767516558224524914066900),
  (999044500659429290934099299193000, 43704527250063421317527456722000),
  (-43704527250063421317527456722000, 999044500659429290934099299193000),
  (675527373536338626713870780804000, 737334908710482905824790123006000),
  (-737334908710482905824790123006000, 675527373536338626713870780804000),
  (906271767729257660128894258378000, 422695496802233006139459803308000),
  (-422695496802233006139459803308000, 906271767729257660128894258378000),
  (341940060393402189831135729037000, 939721764725153341224483938277000),
  (-939721764725153341224483938277000, 341940060393402189831135729037000),
  (971321810419786157986266061926000, 237768670355934214066806475785000),
  (-237768670355934214066806475785000, 971321810419786157986266061926000),
  (518700399699835057454322395643000, 854956078024614929411484354205000),
  (-854956078024614929411484354205000, 518700399699835057454322395643000),
  (806394209247956350594677132904000, 591378372356787584962489745521000),
  (-591378372356787584962489745521000, 806394209247956350594677132904000),
  (152039156328246050087216190150000, 988374471009341282190518995776000),
  (-988374471009341282190518995776000, 152039156328246050087216190150000),
  (989950035541608985845130064263000, 141417563022303016673220099619000),
  (-141417563022303016673220099619000, 989950035541608985845130064263000),
  (600003065375389055269295113249000, 799997700959281909938169974339000),
  (-799997700959281909938169974339000, 600003065375389055269295113249000),
  (860476417631632073401704019489000, 509490269484936253441276221565000),
  (-509490269484936253441276221565000, 860476417631632073401704019489000),
  (248184685457074782899411502513000, 968712734459794777563956813538000),
  (-968712734459794777563956813538000, 248184685457074782899411502513000),
  (943339225285107718654842301476000, 331829935416461108133034940693000),
  (-331829935416461108133034940693000, 943339225285107718654842301476000),
  (432402365624690143697250732657000, 901680760692037730485992597096000),
  (-901680760692037730485992597096000, 432402365624690143697250732657000),
  (744545983809307365675067558186000, 667571178222540306812504695699000),
  (-667571178222540306812504695699000, 744545983809307365675067558186000),
  (54429407010919132747783777404000, 998517621102622210393917612237000),
  (-998517621102622210393917612237000, 54429407010919132747783777404000),
  (995696628295663521690528341423000, 92672673429913310361172307239000),
  (-92672673429913310361172307239000, 995696628295663521690528341423000),
  (638534362059466786831762874499000, 769593313685422941716751665808000),
  (-769593313685422941716751665808000, 638534362059466786831762874499000),
  (884439438718253811977376699360000, 466654989515530915777929976684000),
  (-466654989515530915777929976684000, 884439438718253811977376699360000),
  (295418217105532010524626684855000, 955368032227470354023068921379000),
  (-955368032227470354023068921379000, 295418217105532010524626684855000),
  (958485055077976100257330926979000, 285142769840248666568527369236000),
  (-285142769840248666568527369236000, 958485055077976100257330926979000),
  (476124895951243631841975911811000, 879377668271953294443221693655000),
  (-879377668271953294443221693655000, 476124895951243631841975911811000),
  (776405310727940389803336529440000, 630233919646864482189130285406000),
  (-630233919646864482189130285406000, 776405310727940389803336529440000),
  (103358781848899627942017787063000, 994644138481050710254294244805000),
  (-994644138481050710254294244805000, 103358781848899627942017787063000),
  (981818566442552498330087473732000, 189821765318656437981914564261000),
  (-189821765318656437981914564261000, 981818566442552498330087473732000),
  (560026308752760382247970483149000, 828474823700007134696932098450000),
  (-828474823700007134696932098450000, 560026308752760382247970483149000),
  (834440433486103194660188364651000, 551098142769075427516156651109000),
  (-551098142769075427516156651109000, 834440433486103194660188364651000),
  (200353255162940446787445125665000, 979723722865591173381005773990000),
  (-979723722865591173381005773990000, 200353255162940446787445125665000),
  (925920808671769957065578182664000, 377717693613385641082658139567000),
  (-377717693613385641082658139567000, 925920808671769957065578182664000),
  (387638140125372732125441643802000, 921811625181708116372192307608000),
  (-921811625181708116372192307608000, 387638140125372732125441643802000),
  (710892980401151675096116377972000, 703300199357548727618905104464000),
  (-703300199357548727618905104464000, 710892980401151675096116377972000),
  (5368906963996342499023661787310, 999985587315143198416933500994000),
  (-999985587315143198416933500994000, 5368906963996342499023661787310)]

/-- twiddles.cu:1540-1795, entries 1536 to 1791 of `negtwiddles`. -/
def tw6 : List (Int × Int) := [
  (999992646580707189585268679366000, 3834942569706227544212850943950),
  (-3834942569706227544212850943950, 999992646580707189585268679366000),
  (704389867637400413080683847511000, 709813295430400947871873995609000),
  (-709813295430400947871873995609000, 704389867637400413080683847511000),
  (922405169852209882996874057426000, 386223643281862982767904668435000),
  (-386223643281862982767904668435000, 922405169852209882996874057426000),
  (379137593384847315647334653477000, 925340307823206309478791808942000),
  (-925340307823206309478791808942000, 379137593384847315647334653477000),
  (980029908096990087784661227488000, 198850142658750117519161904056000),
  (-198850142658750117519161904056000, 980029908096990087784661227488000),
  (552377509467096072803826700692000, 833594078094925250432822849689000),
  (-833594078094925250432822849689000, 552377509467096072803826700692000),
  (829332918220788251062458584784000, 558754785890368310674602980725000),
  (-558754785890368310674602980725000, 829332918220788251062458584784000),
  (191327632211630876968300185581000, 981526228458664773413033799443000),
  (-981526228458664773413033799443000, 191327632211630876968300185581000),
  (994801518557617114879576547537000, 101832895841466528064067631476000),
  (-101832895841466528064067631476000, 994801518557617114879576547537000),
  (631424168509401750881693260453000, 775437630904130537068397188705000),
  (-775437630904130537068397188705000, 631424168509401750881693260453000),
  (880106999798240363652723772248000, 474775387847917118566698491122000),
  (-474775387847917118566698491122000, 880106999798240363652723772248000),
  (286612731439347789841320945925000, 958046524014818601244769524783000),
  (-958046524014818601244769524783000, 286612731439347789841320945925000),
  (955820073882545417909284424240000, 293952353899684604154884937088000),
  (-293952353899684604154884937088000, 955820073882545417909284424240000),
  (468011153048359829220714800613000, 883722558624789655823406064883000),
  (-883722558624789655823406064883000, 468011153048359829220714800613000),
  (770571907281380696908001937118000, 637353069898259128045481247682000),
  (-637353069898259128045481247682000, 770571907281380696908001937118000),
  (94199943295393204212295756860800, 995553298765638472467287556356000),
  (-995553298765638472467287556356000, 94199943295393204212295756860800),
  (998599939930320368297600452934000, 52897636725665324319844984302100),
  (-52897636725665324319844984302100, 998599939930320368297600452934000),
  (668712511579748092316322072293000, 743521066854669121504173290305000),
  (-743521066854669121504173290305000, 668712511579748092316322072293000),
  (902342996482444203998340981343000, 431018696461167027944583196586000),
  (-431018696461167027944583196586000, 902342996482444203998340981343000),
  (333276608683047925740794426019000, 942829094854802707281749007961000),
  (-942829094854802707281749007961000, 333276608683047925740794426019000),
  (969092305112506213760070750141000, 246698407314942441681537843579000),
  (-246698407314942441681537843579000, 969092305112506213760070750141000),
  (510809623820439040464691515808000, 859693857261072613695773725340000),
  (-859693857261072613695773725340000, 510809623820439040464691515808000),
  (800917152537344301244104372017000, 598775178820458719997077423614000),
  (-598775178820458719997077423614000, 800917152537344301244104372017000),
  (142935960377642667928910213959000, 989731939077910571889162838488000),
  (-989731939077910571889162838488000, 142935960377642667928910213959000),
  (988606533192386449648836332926000, 150522830591677397871208654578000),
  (-150522830591677397871208654578000, 988606533192386449648836332926000),
  (592614669310891128972684782639000, 805486097780429233239374298137000),
  (-805486097780429233239374298137000, 592614669310891128972684782639000),
  (855750748263253924186244603334000, 517388303739929056312973898457000),
  (-517388303739929056312973898457000, 855750748263253924186244603334000),
  (239258379021299955047297203237000, 970955935183517970799016438832000),
  (-970955935183517970799016438832000, 239258379021299955047297203237000),
  (940245188374650875395843740989000, 340498143516697160393391641264000),
  (-340498143516697160393391641264000, 940245188374650875395843740989000),
  (424085202415651563168097482048000, 905622294939825267512389928015000),
  (-905622294939825267512389928015000, 424085202415651563168097482048000),
  (738370286806648623567639333487000, 674395521605139047771615423699000),
  (-674395521605139047771615423699000, 738370286806648623567639333487000),
  (45236990298804589938352904710000, 998976283356469818563994067517000),
  (-998976283356469818563994067517000, 45236990298804589938352904710000),
  (999597353289648382634879908437000, 28374835617672098525554602588300),
  (-28374835617672098525554602588300, 999597353289648382634879908437000),
  (686758028286925892302861029748000, 726886105647544966679163280787000),
  (-726886105647544966679163280787000, 686758028286925892302861029748000),
  (912648955969793895803832128877000, 408744276005481410596331670604000),
  (-408744276005481410596331670604000, 912648955969793895803832128877000),
  (356314416274402356865635965733000, 934366114943725789565576178575000),
  (-934366114943725789565576178575000, 356314416274402356865635965733000),
  (974854714618708428908178120764000, 222841390647421117021664827007000),
  (-222841390647421117021664827007000, 974854714618708428908178120764000),
  (531753720922733319476094493439000, 846899037834397239166150939127000),
  (-846899037834397239166150939127000, 531753720922733319476094493439000),
  (815370609762391285180171962566000, 578939348063081893336345729040000),
  (-578939348063081893336345729040000, 815370609762391285180171962566000),
  (167182148432072935628767140770000, 985926026254321130615210222459000),
  (-985926026254321130615210222459000, 167182148432072935628767140770000),
  (992002798571244515102307559573000, 126215877078990346138454015090000),
  (-126215877078990346138454015090000, 992002798571244515102307559573000),
  (612203803249797950947197477944000, 790700008401721610162837805547000),
  (-790700008401721610162837805547000, 612203803249797950947197477944000),
  (868190356734331314392250078527000, 496231301384258249864700474063000),
  (-496231301384258249864700474063000, 868190356734331314392250078527000),
  (263014770361779004481661559112000, 964791806853447897474040928500000),
  (-964791806853447897474040928500000, 263014770361779004481661559112000),
  (948318246854599089523674138036000, 317320819806421738906720975137000),
  (-317320819806421738906720975137000, 948318246854599089523674138036000),
  (446182559577030068975744825366000, 894941966570620750509590379806000),
  (-894941966570620750509590379806000, 446182559577030068975744825366000),
  (754698398091524502717675204622000, 656071892339617712686106187903000),
  (-656071892339617712686106187903000, 754698398091524502717675204622000),
  (69739471021907306624854072651900, 997565239060375752444542740704000),
  (-997565239060375752444542740704000, 69739471021907306624854072651900),
  (997001007307235287413504920551000, 77388574275265048507677079214800),
  (-77388574275265048507677079214800, 997001007307235287413504920551000),
  (650264187460365961079844510095000, 759708158773163444443810021767000),
  (-759708158773163444443810021767000, 650264187460365961079844510095000),
  (891493499314791382204248293419000, 453033487370931575721755280028000),
  (-453033487370931575721755280028000, 891493499314791382204248293419000),
  (310038047724637833013616727840000, 950724149773789606321372502862000),
  (-950724149773789606321372502862000, 310038047724637833013616727840000),
  (962746150638399411647583292506000, 270406822086544817995701350810000),
  (-270406822086544817995701350810000, 962746150638399411647583292506000),
  (489557834101157496320411155466000, 871970829254157808740899326949000),
  (-871970829254157808740899326949000, 489557834101157496320411155466000),
  (785981252767830151917394232441000, 618250329799760134363850738737000),
  (-618250329799760134363850738737000, 785981252767830151917394232441000),
  (118603673045400717644959343033000, 992941674389860473581848054891000),
  (-992941674389860473581848054891000, 118603673045400717644959343033000),
  (984614768204312595933913598856000, 174739114779627197071576460985000),
  (-174739114779627197071576460985000, 984614768204312595933913598856000),
  (572668566454481275940224804799000, 819786992452898988226195342577000),
  (-819786992452898988226195342577000, 572668566454481275940224804799000),
  (842795667540004234119521697721000, 538233650727821699710773373226000),
  (-538233650727821699710773373226000, 842795667540004234119521697721000),
  (215357867379745548941372135232000, 976535195964614466390685265651000),
  (-976535195964614466390685265651000, 215357867379745548941372135232000),
  (931605761351257832814098946983000, 363470363877363755733540529036000),
  (-363470363877363755733540529036000, 931605761351257832814098946983000),
  (401732392185905007320201320908000, 915757110301956722686611556128000),
  (-915757110301956722686611556128000, 401732392185905007320201320908000),
  (721597408870443768336144785280000, 692312920225718220201827080018000),
  (-692312920225718220201827080018000, 721597408870443768336144785280000),
  (20707260504265894568431960465200, 999785581693599212371736939531000),
  (-999785581693599212371736939531000, 20707260504265894568431960465200),
  (999870288328982947945178239024000, 16106101853537283657979983786400),
  (-16106101853537283657979983786400, 999870288328982947945178239024000),
  (695626327345254868994572916563000, 718403795023489721849330180703000),
  (-718403795023489721849330180703000, 695626327345254868994572916563000),
  (917596156213972835580250375642000, 397513891708632327581796062077000),
  (-397513891708632327581796062077000, 917596156213972835580250375642000),
  (367753696006581920485700720747000, 929923232892639672897416858177000),
  (-929923232892639672897416858177000, 367753696006581920485700720747000),
  (977515916508569282505902720004000, 210861644147084859035601311916000),
  (-210861644147084859035601311916000, 977515916508569282505902720004000),
  (542106434812443915838287011866000, 840309831749540769862960587488000),
  (-840309831749540769862960587488000, 542106434812443915838287011866000),
  (822413690229926386265901783190000, 568889903340175862034300280357000),
  (-568889903340175862034300280357000, 822413690229926386265901783190000),
  (179268388901835745707913361002000, 983800205702631602733276849904000),
  (-983800205702631602733276849904000, 179268388901835745707913361002000),
  (993476965552789192948068830447000, 114032972933367199308563044724000),
  (-114032972933367199308563044724000, 993476965552789192948068830447000),
  (621860810854965362359791924973000, 783127787735057312445974275761000),
  (-783127787735057312445974275761000, 621860810854965362359791924973000),
  (874214505010706299792389017966000, 485539904877946959516066272045000),
  (-485539904877946959516066272045000, 874214505010706299792389017966000),
  (274834445428843887615499852473000, 961491563980579000414650181483000),
  (-961491563980579000414650181483000, 274834445428843887615499852473000),
  (952140854823815829810484956397000, 305659602458966173088583673234000),
  (-305659602458966173088583673234000, 952140854823815829810484956397000),
  (457131277457156981469665879558000, 889399232724195520916055102134000),
  (-889399232724195520916055102134000, 457131277457156981469665879558000),
  (762692582035177868426956138137000, 646761181046383915038688883214000),
  (-646761181046383915038688883214000, 762692582035177868426956138137000),
  (81975879791633066151490538686600, 996634313643869895749105580762000),
  (-996634313643869895749105580762000, 81975879791633066151490538686600),
  (997875611817110153012322371069000, 65148011025878832525037864797900),
  (-65148011025878832525037864797900, 997875611817110153012322371069000),
  (659538011519338662758116242912000, 751671212273768429845688388014000),
  (-751671212273768429845688388014000, 659538011519338662758116242912000),
  (896985789278863965279242620454000, 442059378174214756551663185746000),
  (-442059378174214756551663185746000, 896985789278863965279242620454000),
  (321681550232956581236720694505000, 946847918221147999418008112116000),
  (-946847918221147999418008112116000, 321681550232956581236720694505000),
  (965991965293840570971894976537000, 258572084703170335107103028349000),
  (-258572084703170335107103028349000, 965991965293840570971894976537000),
  (500221394711840572355754375167000, 865897543750148823704648748389000),
  (-865897543750148823704648748389000, 500221394711840572355754375167000),
  (793508952417326662853724883462000, 608558577651779453177027789934000),
  (-608558577651779453177027789934000, 793508952417326662853724883462000),
  (130779664179711707650000107606000, 991411458193338535060945559962000),
  (-991411458193338535060945559962000, 130779664179711707650000107606000),
  (986684946260146689134273856325000, 162643219420950307929629730097000),
  (-162643219420950307929629730097000, 986684946260146689134273856325000),
  (582685493028668455295360217860000, 812697739761799486934990000009000),
  (-812697739761799486934990000009000, 582685493028668455295360217860000),
  (849337161427830777959968600044000, 527850723422555345720752484340000),
  (-527850723422555345720752484340000, 849337161427830777959968600044000),
  (227325240373038861552146272516000, 973818892345666098364631579898000),
  (-973818892345666098364631579898000, 227325240373038861552146272516000),
  (935995953636831412580932010314000, 352010759459819133621039100035000),
  (-352010759459819133621039100035000, 935995953636831412580932010314000),
  (412939890915108021030022200648000, 910758281044437567608440531330000),
  (-910758281044437567608440531330000, 412939890915108021030022200648000),
  (730038818418926149789172086457000, 683405680106258794914708687429000),
  (-683405680106258794914708687429000, 730038818418926149789172086457000),
  (32974608328897335451923567006800, 999456189737977340747931975784000),
  (-999456189737977340747931975784000, 32974608328897335451923567006800),
  (999173882565716375836473162053000, 40639296235933736189949172512600),
  (-40639296235933736189949172512600, 999173882565716375836473162053000),
  (677786305995631499499154415389000, 735258949897786839855484686268000),
  (-735258949897786839855484686268000, 677786305995631499499154415389000),
  (907564314149832629396996708238000, 419913104917843615915273858263000),
  (-419913104917843615915273858263000, 907564314149832629396996708238000),
  (344821476901759293998139810355000, 938668284894770166282285117632000),
  (-938668284894770166282285117632000, 344821476901759293998139810355000),
  (972046703194623495924986400496000, 234787578054000967142656008946000),
  (-234787578054000967142656008946000, 972046703194623495924986400496000),
  (521320926878595658493509290565000, 853360704039295425715749843221000),
  (-853360704039295425715749843221000, 521320926878595658493509290565000),
  (808204737480194723708848414390000, 588901606649675835036816806678000),
  (-588901606649675835036816806678000, 808204737480194723708848414390000),
  (155070730945700507863449502111000, 987903369972977785096190928016000),
  (-987903369972977785096190928016000, 155070730945700507863449502111000),
  (990379239617108164672742987023000, 138379773577783887761327719090000),
  (-138379773577783887761327719090000, 990379239617108164672742987023000),
  (602454600003723750312190077238000, 798153152555543865531717528938000),
  (-798153152555543865531717528938000, 602454600003723750312190077238000),
  (862035462183687206660920310242000, 506847967281863320820889384777000),
  (-506847967281863320820889384777000, 862035462183687206660920310242000),
  (251155486237741920607646761709000, 967946755628987798303342060535000),
  (-967946755628987798303342060535000, 251155486237741920607646761709000),
  (944352825645594751158284907433000, 328934249805612199946125429051000),
  (-328934249805612199946125429051000, 944352825645594751158284907433000),
  (435166648244619258534271466488000, 900349925448735599609051405423000),
  (-900349925448735599609051405423000, 435166648244619258534271466488000),
  (746590559345117310563466617168000, 665283801619087178380596014904000),
  (-665283801619087178380596014904000, 746590559345117310563466617168000),
  (57492559744367566221256993230800, 998345934821212366294673756784000),
  (-998345934821212366294673756784000, 57492559744367566221256993230800),
  (995976258112917789411255853338000, 89617483090022959091314191937300),
  (-89617483090022959091314191937300, 995976258112917789411255853338000),
  (640892436006621379895875634247000, 767630696018273384062524655747000),
  (-767630696018273384062524655747000, 640892436006621379895875634247000),
  (885866953708892790331219657674000, 463939371390838517505983418232000),
  (-463939371390838517505983418232000, 885866953708892790331219657674000),
  (298347854626741404437950677675000, 954457205766513605560419364338000),
  (-954457205766513605560419364338000, 298347854626741404437950677675000),
  (959355349953930791606637740188000, 282200837197147558210730267092000),
  (-282200837197147558210730267092000, 959355349953930791606637740188000),
  (478820547881393943079331165791000, 877912799158641843355610490107000),
  (-877912799158641843355610490107000, 478820547881393943079331165791000),
  (778335187232733205497936523898000, 627848975722176572134003436076000),
  (-627848975722176572134003436076000, 778335187232733205497936523898000),
  (106409820634187676779980336050000, 994322357222545805122138062870000),
  (-994322357222545805122138062870000, 106409820634187676779980336050000),
  (982396310786084692168174115068000, 186808695070359270795634643036000),
  (-186808695070359270795634643036000, 982396310786084692168174115068000),
  (562565398100626556932013500045000, 826752788238348523819354340958000),
  (-826752788238348523819354340958000, 562565398100626556932013500045000),
  (836127251724692155399054627196000, 548535522025067390217145657516000),
  (-548535522025067390217145657516000, 836127251724692155399054627196000),
  (203358062283773316503143746559000, 979104436975029246426061035891000),
  (-979104436975029246426061035891000, 203358062283773316503143746559000),
  (927075272664740102079861117090000, 374875230995057595606567701907000),
  (-374875230995057595606567701907000, 927075272664740102079861117090000),
  (390464394036126594134117340218000, 920618029907083967877667873836000),
  (-920618029907083967877667873836000, 390464394036126594134117340218000),
  (713047329406429231113406785880000, 701115900565918659381736688374000),
  (-701115900565918659381736688374000, 713047329406429231113406785880000),
  (8436794242369800508885013812230, 999964409618118277300879981340000),
  (-999964409618118277300879981340000, 8436794242369800508885013812230)]

/-- twiddles.cu:1796-2051, entries 1792 to 2047 of `negtwiddles`. -/
def tw7 : List (Int × Int) := [
  (999950291236490484969579028984000, 9970709907418029080417021248190),
  (-9970709907418029080417021248190, 999950291236490484969579028984000),
  (700021275194006364905874306714000, 714121988371564708764083206916000),
  (-714121988371564708764083206916000, 700021275194006364905874306714000),
  (920017982111606569262107768736000, 391876144452922348104806360425000),
  (-391876144452922348104806360425000, 920017982111606569262107768736000),
  (373452674836780296185878569304000, 927649233092581182447133869573000),
  (-927649233092581182447133869573000, 373452674836780296185878569304000),
  (978791337773105674102680495707000, 204859749829814419275209047555000),
  (-204859749829814419275209047555000, 978791337773105674102680495707000),
  (547252274009174088931217738718000, 836967710602857017931910377229000),
  (-836967710602857017931910377229000, 547252274009174088931217738718000),
  (825888851349586783356926389388000, 563832958611378165514338434150000),
  (-563832958611378165514338434150000, 825888851349586783356926389388000),
  (185301498805081898968438736119000, 982681715786240861376654720516000),
  (-982681715786240861376654720516000, 185301498805081898968438736119000),
  (994157956797789732483749958192000, 107934966232653653528394954719000),
  (-107934966232653653528394954719000, 994157956797789732483749958192000),
  (626654286272029459325949574122000, 779297379372530296670618099597000),
  (-779297379372530296670618099597000, 626654286272029459325949574122000),
  (877177265018596052925659023458000, 480166685365088385939458248686000),
  (-480166685365088385939458248686000, 877177265018596052925659023458000),
  (280728873075797191738445235387000, 959787111718839902607669500867000),
  (-959787111718839902607669500867000, 280728873075797191738445235387000),
  (953998423103894488406240270706000, 299811622048383352723277539553000),
  (-299811622048383352723277539553000, 953998423103894488406240270706000),
  (462579923189086805734859808581000, 886577585246987043277044904244000),
  (-886577585246987043277044904244000, 462579923189086805734859808581000),
  (766646676565310492001970033016000, 642069212243792541983111732407000),
  (-642069212243792541983111732407000, 766646676565310492001970033016000),
  (88089569804770492811307747160800, 996112557742151127904151053372000),
  (-996112557742151127904151053372000, 88089569804770492811307747160800),
  (998256567771495184615559992380000, 59023934984667930647717071224200),
  (-59023934984667930647717071224200, 998256567771495184615559992380000),
  (664137763755260013276426889206000, 747610213115205146650055212376000),
  (-747610213115205146650055212376000, 664137763755260013276426889206000),
  (899681329127423934366447610955000, 436547255196401196020161705746000),
  (-436547255196401196020161705746000, 899681329127423934366447610955000),
  (327485244275178000172843439941000, 944856293190677209992145435535000),
  (-944856293190677209992145435535000, 327485244275178000172843439941000),
  (967560349253314355699728821492000, 252640001885695519856511737089000),
  (-252640001885695519856511737089000, 967560349253314355699728821492000),
  (505525025631885394084008567006000, 862811942696600331359491065086000),
  (-862811942696600331359491065086000, 505525025631885394084008567006000),
  (797228060070268695902484523685000, 603678242308430368368021845527000),
  (-603678242308430368368021845527000, 797228060070268695902484523685000),
  (136860388636816376894955737953000, 990590346218950146273130030750000),
  (-990590346218950146273130030750000, 136860388636816376894955737953000),
  (987664332228205710251245363906000, 156585972692998426358812480430000),
  (-156585972692998426358812480430000, 987664332228205710251245363906000),
  (587661143724736656501761444815000, 809107149984558238209331193502000),
  (-809107149984558238209331193502000, 587661143724736656501761444815000),
  (852560004046684083434115564160000, 522629351931096608474547338119000),
  (-522629351931096608474547338119000, 852560004046684083434115564160000),
  (233296201432231592454158430883000, 972405719027449766400650332798000),
  (-972405719027449766400650332798000, 233296201432231592454158430883000),
  (938138231192824356696746690432000, 346260969753160008366421607207000),
  (-346260969753160008366421607207000, 938138231192824356696746690432000),
  (418520425194109702005107465084000, 908207384739488698954801293439000),
  (-908207384739488698954801293439000, 418520425194109702005107465084000),
  (734218374066188284032818955893000, 678913381208238408959232401685000),
  (-678913381208238408959232401685000, 734218374066188284032818955893000),
  (39106535483329887825654225252900, 999235046864595854998469803832000),
  (-999235046864595854998469803832000, 39106535483329887825654225252900),
  (999404431433671303075527703186000, 34507715524795749828523838687000),
  (-34507715524795749828523838687000, 999404431433671303075527703186000),
  (682285010963795568450507289526000, 731086290265474336713680258981000),
  (-731086290265474336713680258981000, 682285010963795568450507289526000),
  (910123767882541678808649976418000, 414336490228999099194595601148000),
  (-414336490228999099194595601148000, 910123767882541678808649976418000),
  (350574546054837565822737133203000, 936534829922755496234287875268000),
  (-936534829922755496234287875268000, 350574546054837565822737133203000),
  (973469034186131065844449494762000, 228818791799802218056569813598000),
  (-228818791799802218056569813598000, 973469034186131065844449494762000),
  (526547236003579333107893489796000, 850145874692685210582965282811000),
  (-850145874692685210582965282811000, 526547236003579333107893489796000),
  (811802955582515362031870154169000, 583931469701276295580782971228000),
  (-583931469701276295580782971228000, 811802955582515362031870154169000),
  (161129472905678805538798314956000, 986933276853677710072076934011000),
  (-986933276853677710072076934011000, 161129472905678805538798314956000),
  (991209678336254063069077346881000, 132300315844444654755918122646000),
  (-132300315844444654755918122646000, 991209678336254063069077346881000),
  (607340634642572818613359686424000, 794441535616030591882008593529000),
  (-794441535616030591882008593529000, 607340634642572818613359686424000),
  (865129195271623685492556887766000, 501549075852675385611689762300000),
  (-501549075852675385611689762300000, 865129195271623685492556887766000),
  (257089967945753117284368727269000, 966387473212298897529137775564000),
  (-966387473212298897529137775564000, 257089967945753117284368727269000),
  (946353351084490590494624484563000, 323133617705052333946014186949000),
  (-323133617705052333946014186949000, 946353351084490590494624484563000),
  (440682899641872904972217384056000, 897662844259040859640208509518000),
  (-897662844259040859640208509518000, 440682899641872904972217384056000),
  (750658609654510589059839276160000, 660690284287242302063702936721000),
  (-660690284287242302063702936721000, 750658609654510589059839276160000),
  (63617212959193092380871803470700, 997974373526346991702951072511000),
  (-997974373526346991702951072511000, 63617212959193092380871803470700),
  (996507391680110821141624910524000, 83504600633152431532479909037600),
  (-83504600633152431532479909037600, 996507391680110821141624910524000),
  (645590464791548801493092923920000, 763683803527501869901072950597000),
  (-763683803527501869901072950597000, 645590464791548801493092923920000),
  (888696955980891600823667886289000, 458495060420826272551408919753000),
  (-458495060420826272551408919753000, 888696955980891600823667886289000),
  (304198677629829106194847554434000, 952608610358033347509376653761000),
  (-952608610358033347509376653761000, 304198677629829106194847554434000),
  (961068842145519353081795088656000, 276309031081271028185142313305000),
  (-276309031081271028185142313305000, 961068842145519353081795088656000),
  (484198305887549029780103637677000, 874958285048851647225376382266000),
  (-874958285048851647225376382266000, 484198305887549029780103637677000),
  (782172944184913010445825420902000, 623061381715401263470255344146000),
  (-623061381715401263470255344146000, 782172944184913010445825420902000),
  (112508864787378676242113328954000, 993650721000219117051699413423000),
  (-993650721000219117051699413423000, 112508864787378676242113328954000),
  (983524054057571261999726175418000, 180777308006728587574940547711000),
  (-180777308006728587574940547711000, 983524054057571261999726175418000),
  (567627667707986227618732755218000, 823285388460400113785908615682000),
  (-823285388460400113785908615682000, 567627667707986227618732755218000),
  (839477262554578551601025537821000, 543394815630284799823357388959000),
  (-543394815630284799823357388959000, 839477262554578551601025537821000),
  (209361906010474163597478991505000, 977838223998050426466477347276000),
  (-977838223998050426466477347276000, 209361906010474163597478991505000),
  (929358011909935499694768168411000, 369179747140619962664231934468000),
  (-369179747140619962664231934468000, 929358011909935499694768168411000),
  (396105849691696265679752286815000, 918204855051430901546893892373000),
  (-918204855051430901546893892373000, 396105849691696265679752286815000),
  (717335872783521732998224251787000, 696727526094601201656075772917000),
  (-696727526094601201656075772917000, 717335872783521732998224251787000),
  (14572301692779064327676330492500, 999893818374418485994681304874000),
  (-999893818374418485994681304874000, 14572301692779064327676330492500),
  (999752640870248843185663645272000, 22240887414024960999636704173100),
  (-22240887414024960999636704173100, 999752640870248843185663645272000),
  (691205189558448451769834264269000, 722658554178575607274126468837000),
  (-722658554178575607274126468837000, 691205189558448451769834264269000),
  (915139783339685264351714977238000, 403136672790995298498728516279000),
  (-403136672790995298498728516279000, 915139783339685264351714977238000),
  (362040871457584179093913689940000, 932162221608574426134907753294000),
  (-932162221608574426134907753294000, 362040871457584179093913689940000),
  (976203692322270555337127007078000, 216855599642632623780258427360000),
  (-216855599642632623780258427360000, 976203692322270555337127007078000),
  (536940185614842913075506203313000, 843620315706004153533115186292000),
  (-843620315706004153533115186292000, 536940185614842913075506203313000),
  (818907565699658945845840207767000, 573925429685650745348368673149000),
  (-573925429685650745348368673149000, 818907565699658945845840207767000),
  (173228529645070322695588060924000, 984881656097323698872969544027000),
  (-984881656097323698872969544027000, 173228529645070322695588060924000),
  (992758570461551137498190655606000, 120126686357101511437583951647000),
  (-120126686357101511437583951647000, 992758570461551137498190655606000),
  (617043922729849758646025748021000, 786928711779001810455724807980000),
  (-786928711779001810455724807980000, 617043922729849758646025748021000),
  (871218831320811015750393835333000, 490894844087815140909469846520000),
  (-490894844087815140909469846520000, 871218831320811015750393835333000),
  (268929670420357258553423207559000, 963159816628371356905802258552000),
  (-963159816628371356905802258552000, 268929670420357258553423207559000),
  (950247438978705227796694998688000, 311496074958275914745797763317000),
  (-311496074958275914745797763317000, 950247438978705227796694998688000),
  (451665420991002486417187355983000, 892187394822982482445183904929000),
  (-892187394822982482445183904929000, 451665420991002486417187355983000),
  (758709772560407391672754329193000, 651428799656059820399889304099000),
  (-651428799656059820399889304099000, 758709772560407391672754329193000),
  (75859103432954447243652396082300, 997118546826979978980887153739000),
  (-997118546826979978980887153739000, 75859103432954447243652396082300),
  (997457086409941906524068144790000, 71269634281296401212557611870600),
  (-71269634281296401212557611870600, 997457086409941906524068144790000),
  (654913428050056034557258044515000, 755703911436035880022643596021000),
  (-755703911436035880022643596021000, 654913428050056034557258044515000),
  (894256478422316036791528404137000, 447554857866293009927005641657000),
  (-447554857866293009927005641657000, 894256478422316036791528404137000),
  (315865745062184011260342231253000, 948803894962658489475870737806000),
  (-948803894962658489475870737806000, 315865745062184011260342231253000),
  (964387212282854289213673837367000, 264494432427801628993080385044000),
  (-264494432427801628993080385044000, 964387212282854289213673837367000),
  (494898930739011200241606047712000, 868950544250582379568470514641000),
  (-868950544250582379568470514641000, 494898930739011200241606047712000),
  (789759969600819067281349816767000, 613416001108638586636345735315000),
  (-613416001108638586636345735315000, 789759969600819067281349816767000),
  (124694015942167654720229563736000, 992195244086673922012664661452000),
  (-992195244086673922012664661452000, 124694015942167654720229563736000),
  (985668412161537554894152890483000, 168694342723617329848906365442000),
  (-168694342723617329848906365442000, 985668412161537554894152890483000),
  (577687904553122799633513295703000, 816257731928477392457921268942000),
  (-816257731928477392457921268942000, 577687904553122799633513295703000),
  (846082341744896937463238373311000, 533052221632619560587329488044000),
  (-533052221632619560587329488044000, 846082341744896937463238373311000),
  (221345720647030841377045362606000, 975195401932990368898401811748000),
  (-975195401932990368898401811748000, 221345720647030841377045362606000),
  (933818436362210957391027932317000, 357747296160341898829670981286000),
  (-357747296160341898829670981286000, 933818436362210957391027932317000),
  (407343809682607971289769466239000, 913274887814867764035398067790000),
  (-913274887814867764035398067790000, 407343809682607971289769466239000),
  (725831777222770258006789845240000, 687872249166685545418431502185000),
  (-687872249166685545418431502185000, 725831777222770258006789845240000),
  (26841439699098530724530320412700, 999639703650710198523654526070000),
  (-999639703650710198523654526070000, 26841439699098530724530320412700),
  (998905715365818291928690086934000, 46769346900537862865565585934700),
  (-46769346900537862865565585934700, 998905715365818291928690086934000),
  (673262082756132973493379267893000, 739403927446205755380503887864000),
  (-739403927446205755380503887864000, 673262082756132973493379267893000),
  (904970691133653248883206288156000, 425473910115623854544253390486000),
  (-425473910115623854544253390486000, 904970691133653248883206288156000),
  (339055425414969580089064038475000, 940766399536396069613886083971000),
  (-940766399536396069613886083971000, 339055425414969580089064038475000),
  (970587775194143631551924045198000, 240747524688588426799995545480000),
  (-240747524688588426799995545480000, 970587775194143631551924045198000),
  (516074990315366632920301981358000, 856543404837719957178876484249000),
  (-856543404837719957178876484249000, 516074990315366632920301981358000),
  (804576090926307108119885924680000, 593849571785433516524221886357000),
  (-593849571785433516524221886357000, 804576090926307108119885924680000),
  (149006150660348474223937387251000, 988836269088763542001174755569000),
  (-988836269088763542001174755569000, 149006150660348474223937387251000),
  (989511513679355192429909493512000, 144454021390860470885897370863000),
  (-144454021390860470885897370863000, 989511513679355192429909493512000),
  (597545883289693269269093889307000, 801834719479981306022864373517000),
  (-801834719479981306022864373517000, 597545883289693269269093889307000),
  (858909273947823903583298488229000, 512127776171554693895870968845000),
  (-512127776171554693895870968845000, 858909273947823903583298488229000),
  (245211548667627565745164019972000, 969469595397413064219449552184000),
  (-969469595397413064219449552184000, 245211548667627565745164019972000),
  (942316745856563775518566217215000, 334722497717581224385696714307000),
  (-334722497717581224385696714307000, 942316745856563775518566217215000),
  (429634013069016384989140533435000, 903003108972617152261364026344000),
  (-903003108972617152261364026344000, 429634013069016384989140533435000),
  (742494400323139291941743067582000, 669852271391821019186352259567000),
  (-669852271391821019186352259567000, 742494400323139291941743067582000),
  (51365741967162592551687794184500, 998679908955899087175112072146000),
  (-998679908955899087175112072146000, 51365741967162592551687794184500),
  (995407626602534900683849627967000, 95726991499307162447607311150900),
  (-95726991499307162447607311150900, 995407626602534900683849627967000),
  (636170277983712173508479281736000, 771548687647206299367041992809000),
  (-771548687647206299367041992809000, 636170277983712173508479281736000),
  (883003599046780829340264062921000, 469366215305737521923390431766000),
  (-469366215305737521923390431766000, 883003599046780829340264062921000),
  (292485798995553880619269193630000, 956269866400658030691772637510000),
  (-956269866400658030691772637510000, 292485798995553880619269193630000),
  (957605738575646348031966681447000, 288082018611004131436459374527000),
  (-288082018611004131436459374527000, 957605738575646348031966681447000),
  (473424762552241529256491503475000, 880834260347742037389195957076000),
  (-880834260347742037389195957076000, 473424762552241529256491503475000),
  (774468126400670864306619023409000, 632612931569877523507727801189000),
  (-632612931569877523507727801189000, 774468126400670864306619023409000),
  (100306770211392864977639760582000, 994956557770116378769387210923000),
  (-994956557770116378769387210923000, 100306770211392864977639760582000),
  (981231580848749729284463683143000, 192833048892205233260099817016000),
  (-192833048892205233260099817016000, 981231580848749729284463683143000),
  (557481948223991552460176990280000, 830189061241102366217603503173000),
  (-830189061241102366217603503173000, 557481948223991552460176990280000),
  (832745761176359455824069755181000, 553655576367479307364760643395000),
  (-553655576367479307364760643395000, 832745761176359455824069755181000),
  (197346562240965917034429821797000, 980333787223347963291075757297000),
  (-980333787223347963291075757297000, 197346562240965917034429821797000),
  (924757629559513905093126595602000, 380556601008928518936613727419000),
  (-380556601008928518936613727419000, 924757629559513905093126595602000),
  (384808237616812875980798480668000, 922996544014246245168919813295000),
  (-922996544014246245168919813295000, 384808237616812875980798480668000),
  (708731940200400645224476647854000, 705477878419852211244744921714000),
  (-705477878419852211244744921714000, 708731940200400645224476647854000),
  (2300969151425804985755529941120, 999997352766978209182013870304000),
  (-999997352766978209182013870304000, 2300969151425804985755529941120)]

/-- twiddles.cu:2052-2307, entries 2048 to 2303 of `negtwiddles`. -/
def tw8 : List (Int × Int) := [
  (999999926465717892121176646469000, 383495187571395563207177215048),
  (-383495187571395563207177215048, 999999926465717892121176646469000),
  (706835557142273862574199938535000, 707377901237642103815517202747000),
  (-707377901237642103815517202747000, 706835557142273862574199938535000),
  (923732707319793178157851798460000, 383037707579352071363132381521000),
  (-383037707579352071363132381521000, 923732707319793178157851798460000),
  (382329100870124505284763927193000, 924026221829143845631904241600000),
  (-924026221829143845631904241600000, 382329100870124505284763927193000),
  (980710392082253967771521274699000, 195466434105376979379897761646000),
  (-195466434105376979379897761646000, 980710392082253967771521274699000),
  (555251327571214092770901515905000, 831682609671745121104891040886000),
  (-831682609671745121104891040886000, 555251327571214092770901515905000),
  (831256492650303213665097246121000, 555889056761073807599871088314000),
  (-555889056761073807599871088314000, 831256492650303213665097246121000),
  (194714181235225991528636768635000, 980860024481523873340904629003000),
  (-980860024481523873340904629003000, 194714181235225991528636768635000),
  (995147064390386471011140656628000, 98398781675363894416719290347800),
  (-98398781675363894416719290347800, 995147064390386471011140656628000),
  (634096791725183739352189604688000, 773253683291472593275273084146000),
  (-773253683291472593275273084146000, 634096791725183739352189604688000),
  (881740421116898320796906318719000, 471734914722871490067035438187000),
  (-471734914722871490067035438187000, 881740421116898320796906318719000),
  (289917673895040750586815647694000, 957051588141041076340798099409000),
  (-957051588141041076340798099409000, 289917673895040750586815647694000),
  (956828942587535369312945476850000, 290651637922133276870084728216000),
  (-290651637922133276870084728216000, 956828942587535369312945476850000),
  (471058489601482499598006370434000, 882101977876917575649429181794000),
  (-882101977876917575649429181794000, 471058489601482499598006370434000),
  (772767109748463854046462984115000, 634689683302797735819922309020000),
  (-634689683302797735819922309020000, 772767109748463854046462984115000),
  (97635484568517200143489276342700, 995222242593618355854800938687000),
  (-995222242593618355854800938687000, 97635484568517200143489276342700),
  (998776565542495609051343308238000, 49450703970084664007345054415100),
  (-49450703970084664007345054415100, 998776565542495609051343308238000),
  (671274754273613494248706956569000, 741208610497004261041809058952000),
  (-741208610497004261041809058952000, 671274754273613494248706956569000),
  (903825261328487394862918336003000, 427901737533854131800836739785000),
  (-427901737533854131800836739785000, 903825261328487394862918336003000),
  (336528751001382409047124610879000, 941673191584771362983019571402000),
  (-941673191584771362983019571402000, 336528751001382409047124610879000),
  (969938000134323963230542631209000, 243352164353284744491290325641000),
  (-243352164353284744491290325641000, 969938000134323963230542631209000),
  (513773771594868033929515149794000, 857925702856129790419004166324000),
  (-857925702856129790419004166324000, 513773771594868033929515149794000),
  (802979024600843249714898774982000, 596007286911056533007524649292000),
  (-596007286911056533007524649292000, 802979024600843249714898774982000),
  (146351119234411464198331032094000, 989232707657220045049939471937000),
  (-989232707657220045049939471937000, 146351119234411464198331032094000),
  (989120166795572686169180087745000, 147109808096871796934124176914000),
  (-147109808096871796934124176914000, 989120166795572686169180087745000),
  (595391234465168728284822918795000, 803435920233868117179554246832000),
  (-803435920233868117179554246832000, 595391234465168728284822918795000),
  (857531390999499154581542370579000, 514431641183222931879015504819000),
  (-514431641183222931879015504819000, 857531390999499154581542370579000),
  (242608159718496807499832357280000, 970124363593660277160779514816000),
  (-970124363593660277160779514816000, 242608159718496807499832357280000),
  (941414800309736232719615145470000, 337250906237150593902640594024000),
  (-337250906237150593902640594024000, 941414800309736232719615145470000),
  (427208386446796317681418031498000, 904153191969991776311132980481000),
  (-904153191969991776311132980481000, 427208386446796317681418031498000),
  (740693531242295755134819046361000, 671843056655211934291571651556000),
  (-671843056655211934291571651556000, 740693531242295755134819046361000),
  (48684637468438943241899607983200, 998814199976435390659901258914000),
  (-998814199976435390659901258914000, 48684637468438943241899607983200),
  (999689333741033636648865012830000, 24924606404281467869621380373200),
  (-24924606404281467869621380373200, 999689333741033636648865012830000),
  (689262748761273469355614906817000, 724511465175019631068664693885000),
  (-724511465175019631068664693885000, 689262748761273469355614906817000),
  (914054280384046569096767598239000, 405591879247603870339844434056000),
  (-405591879247603870339844434056000, 914054280384046569096767598239000),
  (359537211821973068381907978619000, 933130748242325225305648928043000),
  (-933130748242325225305648928043000, 359537211821973068381907978619000),
  (975618034019781754651035043935000, 219475401116790314048898835608000),
  (-219475401116790314048898835608000, 975618034019781754651035043935000),
  (534673583269955510210991178610000, 845058672136595467883068977244000),
  (-845058672136595467883068977244000, 534673583269955510210991178610000),
  (817363933360698458052695514198000, 576121688917478391722681863030000),
  (-576121688917478391722681863030000, 817363933360698458052695514198000),
  (170584026954463618963586668542000, 985343132998854787096831842064000),
  (-985343132998854787096831842064000, 170584026954463618963586668542000),
  (992432517712593664782616542652000, 122791277323116773678712831952000),
  (-122791277323116773678712831952000, 992432517712593664782616542652000),
  (614929218278879585746210523212000, 788582308010347232674064343882000),
  (-788582308010347232674064343882000, 614929218278879585746210523212000),
  (869897903042806341922243973386000, 493231830158727957424957821786000),
  (-493231830158727957424957821786000, 869897903042806341922243973386000),
  (266343134379238177800175435550000, 963878277983814202301005025220000),
  (-963878277983814202301005025220000, 266343134379238177800175435550000),
  (949407815332291571408518393582000, 314045856820250712804210024842000),
  (-314045856820250712804210024842000, 949407815332291571408518393582000),
  (449268749371829922978349713958000, 893396659294107720050703846937000),
  (-893396659294107720050703846937000, 449268749371829922978349713958000),
  (756958302183750486591407025116000, 653463180871802329363617900526000),
  (-653463180871802329363617900526000, 756958302183750486591407025116000),
  (73182102099402887573909026741600, 997318594999768603948098188994000),
  (-997318594999768603948098188994000, 73182102099402887573909026741600),
  (997262171687536169706334021612000, 73947014280897199745012926541700),
  (-73947014280897199745012926541700, 997262171687536169706334021612000),
  (652882408974558958725253887678000, 757459279467600721247322326235000),
  (-757459279467600721247322326235000, 652882408974558958725253887678000),
  (893051811731707445574102166574000, 449953843813690523845139068726000),
  (-449953843813690523845139068726000, 893051811731707445574102166574000),
  (313317577844809014298022020739000, 949648406208035478215379043831000),
  (-949648406208035478215379043831000, 313317577844809014298022020739000),
  (963673711865903226403418102564000, 267082341345496243611989939382000),
  (-267082341345496243611989939382000, 963673711865903226403418102564000),
  (492564481811010645984083566873000, 870275951212171938742301335878000),
  (-870275951212171938742301335878000, 492564481811010645984083566873000),
  (788110431301888070265704300255000, 615533872401147430508672186988000),
  (-615533872401147430508672186988000, 788110431301888070265704300255000),
  (122030055072553364481358073590000, 992526405522286103710882798623000),
  (-992526405522286103710882798623000, 122030055072553364481358073590000),
  (985212006875659351834428889561000, 171339725423019312300354499712000),
  (-171339725423019312300354499712000, 985212006875659351834428889561000),
  (575494609234928233831851684954000, 817805572701444272176729555213000),
  (-817805572701444272176729555213000, 575494609234928233831851684954000),
  (844648334111417820047051918664000, 535321577822907124222240327072000),
  (-535321577822907124222240327072000, 844648334111417820047051918664000),
  (218727046974044436744577524223000, 975786082562163925580023260409000),
  (-975786082562163925580023260409000, 218727046974044436744577524223000),
  (932854712213241121787632437190000, 360252808318756889693901257488000),
  (-360252808318756889693901257488000, 932854712213241121787632437190000),
  (404890689164117634213369001372000, 914365096571498559008261963754000),
  (-914365096571498559008261963754000, 404890689164117634213369001372000),
  (723982594213935515270463838533000, 689818239303122471284268613090000),
  (-689818239303122471284268613090000, 723982594213935515270463838533000),
  (24157847032299860356996390464700, 999708156627104882474554869987000),
  (-999708156627104882474554869987000, 24157847032299860356996390464700),
  (999919922234522751125496142777000, 12655003694430242214274962009300),
  (-12655003694430242214274962009300, 999919922234522751125496142777000),
  (698101718727283881982259572396000, 715998596583828694761564293003000),
  (-715998596583828694761564293003000, 698101718727283881982259572396000),
  (918962690052375630322956112650000, 394344486828079598961238616539000),
  (-394344486828079598961238616539000, 918962690052375630322956112650000),
  (370961089033801982850491185673000, 928648410553130521094544747029000),
  (-928648410553130521094544747029000, 370961089033801982850491185673000),
  (978237872563701094108523648174000, 207486540966020649445766821373000),
  (-207486540966020649445766821373000, 978237872563701094108523648174000),
  (545003493181281162272000528901000, 838433773425308337401418157242000),
  (-838433773425308337401418157242000, 545003493181281162272000528901000),
  (824372286722551250726098714949000, 566047995212271559672956300346000),
  (-566047995212271559672956300346000, 824372286722551250726098714949000),
  (182662858272129274839201684699000, 983175610055424420430369991664000),
  (-983175610055424420430369991664000, 182662858272129274839201684699000),
  (993864627230059749507518063183000, 110603357728661741421483100112000),
  (-110603357728661741421483100112000, 993864627230059749507518063183000),
  (624560033223877208996555054910000, 780976801767753747718359136343000),
  (-780976801767753747718359136343000, 624560033223877208996555054910000),
  (875885114618103810535387765412000, 482519705287184352826557187655000),
  (-482519705287184352826557187655000, 875885114618103810535387765412000),
  (278151348422115085590178296115000, 960537259751520045014672177786000),
  (-960537259751520045014672177786000, 278151348422115085590178296115000),
  (953190152425336667540989310510000, 302371515390195966244135661327000),
  (-302371515390195966244135661327000, 953190152425336667540989310510000),
  (460198271570134320729295041019000, 887816169510254438179686076182000),
  (-887816169510254438179686076182000, 460198271570134320729295041019000),
  (764920303058128414619432078325000, 644124933510154540350356455747000),
  (-644124933510154540350356455747000, 764920303058128414619432078325000),
  (85415224943307332949871124583300, 996345441776035900538488476741000),
  (-996345441776035900538488476741000, 85415224943307332949871124583300),
  (998094523296980007387446676148000, 61703505285957298276411364668100),
  (-61703505285957298276411364668100, 998094523296980007387446676148000),
  (662128438677768715869831339660000, 749390372699129558853314847511000),
  (-749390372699129558853314847511000, 662128438677768715869831339660000),
  (898506192393901947923495754367000, 438960843617984319831037964832000),
  (-438960843617984319831037964832000, 898506192393901947923495754367000),
  (324947632382188433819436568228000, 945732010777477150043068832019000),
  (-945732010777477150043068832019000, 324947632382188433819436568228000),
  (966878660184995908366545336321000, 255236471686291710447846980969000),
  (-255236471686291710447846980969000, 966878660184995908366545336321000),
  (503207017265869027689006998116000, 864165897136879301854150980944000),
  (-864165897136879301854150980944000, 503207017265869027689006998116000),
  (795604635517188185644954501186000, 605816196501514969696700063650000),
  (-605816196501514969696700063650000, 795604635517188185644954501186000),
  (134200692218792022591955515054000, 990954173616518496636729196325000),
  (-990954173616518496636729196325000, 134200692218792022591955515054000),
  (987240424223882251375528085191000, 159236756994887845850783492097000),
  (-159236756994887845850783492097000, 987240424223882251375528085191000),
  (585487007944951454163629023242000, 810681789315430667564044142637000),
  (-810681789315430667564044142637000, 585487007944951454163629023242000),
  (851153952882715336691887841880000, 524916134722612892637982895394000),
  (-524916134722612892637982895394000, 851153952882715336691887841880000),
  (230684973500512202626566704566000, 973028490333694207059522796044000),
  (-973028490333694207059522796044000, 230684973500512202626566704566000),
  (937205326098887958607974724146000, 348778119628908422900082086926000),
  (-348778119628908422900082086926000, 937205326098887958607974724146000),
  (416080867929579212294299850328000, 909327614967767261511255583173000),
  (-909327614967767261511255583173000, 416080867929579212294299850328000),
  (732393210589896037632229308656000, 680881917135287229037032830092000),
  (-680881917135287229037032830092000, 732393210589896037632229308656000),
  (36423984909444109825393809387600, 999336426496761243143396313826000),
  (-999336426496761243143396313826000, 36423984909444109825393809387600),
  (999308195711029467744879184465000, 37190455560088118980299753957300),
  (-37190455560088118980299753957300, 999308195711029467744879184465000),
  (680319978360607202638732360356000, 732915225004517778550905404700000),
  (-732915225004517778550905404700000, 680319978360607202638732360356000),
  (909008217503247450963499431964000, 416778191021997590492986773825000),
  (-416778191021997590492986773825000, 909008217503247450963499431964000),
  (348059189628525611492904090483000, 937472559873159139165466058330000),
  (-937472559873159139165466058330000, 348059189628525611492904090483000),
  (972851270988544181150814438297000, 231431209079445754372983401481000),
  (-231431209079445754372983401481000, 972851270988544181150814438297000),
  (524263153483673360888417391834000, 851556308120228977465160369320000),
  (-851556308120228977465160369320000, 524263153483673360888417391834000),
  (810232487996982331246442754491000, 586108620815476433207891204802000),
  (-586108620815476433207891204802000, 810232487996982331246442754491000),
  (158479506309795958873820609369000, 987362266890832396271093784890000),
  (-987362266890832396271093784890000, 158479506309795958873820609369000),
  (990850951508413624324589363823000, 134960705002868747159894269316000),
  (-134960705002868747159894269316000, 990850951508413624324589363823000),
  (605205797255496502629057431477000, 796069056657987994540803811105000),
  (-796069056657987994540803811105000, 605205797255496502629057431477000),
  (863779688043046722789597424708000, 503869676130898946908587276994000),
  (-503869676130898946908587276994000, 863779688043046722789597424708000),
  (254494810040010788210196324144000, 967074139692867040807300327288000),
  (-967074139692867040807300327288000, 254494810040010788210196324144000),
  (945482500914453738438680829859000, 325672904099419791013048097739000),
  (-325672904099419791013048097739000, 945482500914453738438680829859000),
  (438271568952410484065751461458000, 898842606827242263101140906656000),
  (-898842606827242263101140906656000, 438271568952410484065751461458000),
  (748882306173375145164072819171000, 662703019082037436682242059760000),
  (-662703019082037436682242059760000, 748882306173375145164072819171000),
  (60937958300107203379880616012100, 998141555711520522820023870736000),
  (-998141555711520522820023870736000, 60937958300107203379880616012100),
  (996279636063254647737608138414000, 86179387127484893826867562438600),
  (-86179387127484893826867562438600, 996279636063254647737608138414000),
  (643538057582047740012853864755000, 765414115654738269611812029325000),
  (-765414115654738269611812029325000, 643538057582047740012853864755000),
  (887462940751568840624941003625000, 460879082615578694603897247362000),
  (-460879082615578694603897247362000, 887462940751568840624941003625000),
  (301640338832678767122530416600000, 953421788081700305461652078520000),
  (-953421788081700305461652078520000, 301640338832678767122530416600000),
  (960323637830473919585472231120000, 278887989386500223520926056153000),
  (-278887989386500223520926056153000, 960323637830473919585472231120000),
  (481847767956986028359267493215000, 876254944930338508513045781001000),
  (-876254944930338508513045781001000, 481847767956986028359267493215000),
  (780497540554531910039770536969000, 625158851163707729448049121856000),
  (-625158851163707729448049121856000, 780497540554531910039770536969000),
  (109841040648882587449364223176000, 993949166602181133356452846783000),
  (-993949166602181133356452846783000, 109841040648882587449364223176000),
  (983035220223095640434962660947000, 183416890718739095111899928270000),
  (-183416890718739095111899928270000, 983035220223095640434962660947000),
  (565415543153589661429236912227000, 824806197576334443333223589434000),
  (-824806197576334443333223589434000, 565415543153589661429236912227000),
  (838015514407863815193877599086000, 545646403462648588167382968095000),
  (-545646403462648588167382968095000, 838015514407863815193877599086000),
  (206736180958843690502746426318000, 978396724995823086068469365273000),
  (-978396724995823086068469365273000, 206736180958843690502746426318000),
  (928363613839244483649792982760000, 371673244260786461712342543251000),
  (-371673244260786461712342543251000, 928363613839244483649792982760000),
  (393639535350172931060797054670000, 919264878154985254354869539384000),
  (-919264878154985254354869539384000, 393639535350172931060797054670000),
  (715462948722303648807496756490000, 698650677381469575877304123424000),
  (-698650677381469575877304123424000, 715462948722303648807496756490000),
  (11888071072252091517351679783600, 999929334386276069679411193647000),
  (-999929334386276069679411193647000, 11888071072252091517351679783600)]

/-- twiddles.cu:2308-2563, entries 2304 to 2559 of `negtwiddles`. -/
def tw9 : List (Int × Int) := [
  (999978748667468830824134329305000, 6519372166339468081808217192470),
  (-6519372166339468081808217192470, 999978748667468830824134329305000),
  (702481861957307995858457161376000, 711701646493102968449306899856000),
  (-711701646493102968449306899856000, 702481861957307995858457161376000),
  (921365043122642446427050799684000, 388698414341519193904161966202000),
  (-388698414341519193904161966202000, 921365043122642446427050799684000),
  (376652185322909616171926927564000, 926354754557602855236098093883000),
  (-926354754557602855236098093883000, 376652185322909616171926927564000),
  (979492570993820810265617637924000, 201480280345037759959225809325000),
  (-201480280345037759959225809325000, 979492570993820810265617637924000),
  (550137766564233632315961131098000, 835073911578919303444479282916000),
  (-835073911578919303444479282916000, 550137766564233632315961131098000),
  (827829973351729919706087912346000, 560979086259438153305723062658000),
  (-560979086259438153305723062658000, 827829973351729919706087912346000),
  (188692071828605201222472942391000, 982036303824369016801654197479000),
  (-982036303824369016801654197479000, 188692071828605201222472942391000),
  (994524567454151742218471099477000, 104503036942150573374021860218000),
  (-104503036942150573374021860218000, 994524567454151742218471099477000),
  (629340259627065745640095428826000, 777129871779831615796751975722000),
  (-777129871779831615796751975722000, 629340259627065745640095428826000),
  (878829311580933358882816719415000, 477136291960884806329090679355000),
  (-477136291960884806329090679355000, 878829311580933358882816719415000),
  (284039858128637190404219836637000, 958812473320129310394577260013000),
  (-958812473320129310394577260013000, 284039858128637190404219836637000),
  (955027525629714157950900244032000, 296517158507877409689967862505000),
  (-296517158507877409689967862505000, 955027525629714157950900244032000),
  (465637146073493657372210918766000, 884975733111666662544791961409000),
  (-884975733111666662544791961409000, 465637146073493657372210918766000),
  (768858179941253272460244261310000, 639419345294950702829339661548000),
  (-639419345294950702829339661548000, 768858179941253272460244261310000),
  (91527077727284827934894906320600, 995802587887129164734290043270000),
  (-995802587887129164734290043270000, 91527077727284827934894906320600),
  (998454340040524801480614769389000, 55578150871004677879838595799800),
  (-55578150871004677879838595799800, 998454340040524801480614769389000),
  (666714147181097671612803878816000, 745313521914490517694673599181000),
  (-745313521914490517694673599181000, 666714147181097671612803878816000),
  (901182691370684518794575978973000, 433439449951074085021218706970000),
  (-433439449951074085021218706970000, 901182691370684518794575978973000),
  (330744417861982942241638738778000, 943720366450326197949038942170000),
  (-943720366450326197949038942170000, 330744417861982942241638738778000),
  (968426560515983192445332861098000, 249299011003218162763062082377000),
  (-249299011003218162763062082377000, 968426560515983192445332861098000),
  (508499966798540814494344886043000, 861062009245491477571476934827000),
  (-861062009245491477571476934827000, 508499966798540814494344886043000),
  (799306876785086162229276851576000, 600923053912954086008824106102000),
  (-600923053912954086008824106102000, 799306876785086162229276851576000),
  (140278546430595424387988146009000, 990112079216953766547248960705000),
  (-990112079216953766547248960705000, 140278546430595424387988146009000),
  (988198898074717613226880530419000, 153176166043917844072907996633000),
  (-153176166043917844072907996633000, 988198898074717613226880530419000),
  (590450236263895811283930470381000, 807074047715517606249591153755000),
  (-807074047715517606249591153755000, 590450236263895811283930470381000),
  (854358755003227443580726685468000, 519683670851158518999568514118000),
  (-519683670851158518999568514118000, 854358755003227443580726685468000),
  (236651021498106378659898041406000, 971594716959650162024786368420000),
  (-971594716959650162024786368420000, 236651021498106378659898041406000),
  (939327745783671397283853821136000, 343020970205855535439809500531000),
  (-343020970205855535439809500531000, 939327745783671397283853821136000),
  (421652564678558328115087761034000, 906757472922056551034586391324000),
  (-906757472922056551034586391324000, 421652564678558328115087761034000),
  (736557236397919146142498902918000, 676375219467611699108999800956000),
  (-676375219467611699108999800956000, 736557236397919146142498902918000),
  (42555112276904019652512545235400, 999094120901079074670292357041000),
  (-999094120901079074670292357041000, 42555112276904019652512545235400),
  (999517580362016988537732231634000, 31058115642434703379537452860900),
  (-31058115642434703379537452860900, 999517580362016988537732231634000),
  (684804254807510615066235004633000, 728727063170793831758942360466000),
  (-728727063170793831758942360466000, 684804254807510615066235004633000),
  (911548408584833991241680450912000, 411192775722600156740327292937000),
  (-411192775722600156740327292937000, 911548408584833991241680450912000),
  (353804861001772052997438322564000, 935319261178511607290886331612000),
  (-935319261178511607290886331612000, 353804861001772052997438322564000),
  (974252992541422502270620498166000, 225457549272768537074185246638000),
  (-225457549272768537074185246638000, 974252992541422502270620498166000),
  (529478335656851983870296862733000, 848323459577801641806615862151000),
  (-848323459577801641806615862151000, 529478335656851983870296862733000),
  (813813530488567193899029916793000, 581126094400977621923232163681000),
  (-581126094400977621923232163681000, 813813530488567193899029916793000),
  (164534863954445970124496056997000, 986371268105216025823267500527000),
  (-986371268105216025823267500527000, 164534863954445970124496056997000),
  (991660402337333213296233225265000, 128878417262776545637592562343000),
  (-128878417262776545637592562343000, 991660402337333213296233225265000),
  (610078992331809621951776989590000, 792340597922007061626459289982000),
  (-792340597922007061626459289982000, 610078992331809621951776989590000),
  (866855113845470426348072123801000, 498560138398525143355044519922000),
  (-498560138398525143355044519922000, 866855113845470426348072123801000),
  (260423874615468009530161452858000, 965494383997269500774507378082000),
  (-965494383997269500774507378082000, 260423874615468009530161452858000),
  (947462993846477696813224156358000, 319865401835630502880292169721000),
  (-319865401835630502880292169721000, 947462993846477696813224156358000),
  (443778513167218224833021622544000, 896136502577086768717151699093000),
  (-896136502577086768717151699093000, 443778513167218224833021622544000),
  (752934477957330150488246545137000, 658095488438511178053147432365000),
  (-658095488438511178053147432365000, 752934477957330150488246545137000),
  (67061292609636821704377496189400, 997748857695925694955008111720000),
  (-997748857695925694955008111720000, 67061292609636821704377496189400),
  (996789668159204556019403753453000, 80064707899690876202747347179000),
  (-80064707899690876202747347179000, 996789668159204556019403753453000),
  (648222435882470415791090090352000, 761451031661653510163034752622000),
  (-761451031661653510163034752622000, 648222435882470415791090090352000),
  (890274135400644595073060827417000, 455425036462242360801866425390000),
  (-455425036462242360801866425390000, 890274135400644595073060827417000),
  (307484746652204099515159896328000, 951553009861368592758879003668000),
  (-951553009861368592758879003668000, 307484746652204099515159896328000),
  (962016784542290559478772138391000, 272990304331329924902860284419000),
  (-272990304331329924902860284419000, 962016784542290559478772138391000),
  (487215296574268763585280339612000, 873281887355994212995824454993000),
  (-873281887355994212995824454993000, 487215296574268763585280339612000),
  (784318750507038919828062262241000, 620358039847213826867289299116000),
  (-620358039847213826867289299116000, 784318750507038919828062262241000),
  (115937730355727783293495747330000, 993256483834846437552812403737000),
  (-993256483834846437552812403737000, 115937730355727783293495747330000),
  (984142139747038569019821352413000, 177381647230260064418416732224000),
  (-177381647230260064418416732224000, 984142139747038569019821352413000),
  (570465815052012992225627385778000, 821321346281126740684896958555000),
  (-821321346281126740684896958555000, 570465815052012992225627385778000),
  (841347762393501952260521647986000, 540494165292695227797992174601000),
  (-540494165292695227797992174601000, 841347762393501952260521647986000),
  (212735618654345898237423284627000, 977109797594800877362786195590000),
  (-977109797594800877362786195590000, 212735618654345898237423284627000),
  (930626681810531763971994223539000, 365969915570008741401153429251000),
  (-365969915570008741401153429251000, 930626681810531763971994223539000),
  (399272628451540989580337281950000, 916832246471183887059908101946000),
  (-916832246471183887059908101946000, 399272628451540989580337281950000),
  (719736320300951026851521419303000, 694247527355803306647885619896000),
  (-694247527355803306647885619896000, 719736320300951026851521419303000),
  (18023298335773742240295547389900, 999837567166337093382821876730000),
  (-999837567166337093382821876730000, 18023298335773742240295547389900),
  (999823449381661566448542544094000, 18790158768784558096509584856900),
  (-18790158768784558096509584856900, 999823449381661566448542544094000),
  (693695292362118243190138855425000, 720268589732077080256544832082000),
  (-720268589732077080256544832082000, 693695292362118243190138855425000),
  (916525738556228208864240514231000, 399975712467595334587144861871000),
  (-399975712467595334587144861871000, 916525738556228208864240514231000),
  (365256026269360267733077307639000, 930907103460875129385954096506000),
  (-930907103460875129385954096506000, 365256026269360267733077307639000),
  (976946344030581670381252479274000, 213484989836008054453486693092000),
  (-213484989836008054453486693092000, 976946344030581670381252479274000),
  (539848700724847585519228232442000, 841762068714012490211473505042000),
  (-841762068714012490211473505042000, 539848700724847585519228232442000),
  (820883562942714584131920219079000, 571095592778016691859477305115000),
  (-571095592778016691859477305115000, 820883562942714584131920219079000),
  (176626767562280878598457434236000, 984277900280454365322668763838000),
  (-984277900280454365322668763838000, 176626767562280878598457434236000),
  (993167268564487226711889888975000, 116699514361267686624046291399000),
  (-116699514361267686624046291399000, 993167268564487226711889888975000),
  (619756292488440663213111747609000, 784794328420499232024099001137000),
  (-784794328420499232024099001137000, 619756292488440663213111747609000),
  (872907941075761084626094543637000, 487884952019301099124248821681000),
  (-487884952019301099124248821681000, 872907941075761084626094543637000),
  (272252366474536711127285570910000, 962225882497979023710854562523000),
  (-962225882497979023710854562523000, 272252366474536711127285570910000),
  (951316892150465553967819687387000, 308214488155861110474376118873000),
  (-308214488155861110474376118873000, 951316892150465553967819687387000),
  (454742070861955449689872921226000, 890623180131855929353434930817000),
  (-890623180131855929353434930817000, 454742070861955449689872921226000),
  (760953627357928152896704432351000, 648806270785672545287070533959000),
  (-648806270785672545287070533959000, 760953627357928152896704432351000),
  (79300156324387596762370833403100, 996850783822196606642762617412000),
  (-996850783822196606642762617412000, 79300156324387596762370833403100),
  (997697128858758497393921516050000, 67826536598810868716746824702600),
  (-67826536598810868716746824702600, 997697128858758497393921516050000),
  (657517801412960123386142186064000, 753439009359793576692254646332000),
  (-753439009359793576692254646332000, 657517801412960123386142186064000),
  (895795865166813531921263802360000, 444465710657234003289062229669000),
  (-444465710657234003289062229669000, 895795865166813531921263802360000),
  (319138612807695898343496310190000, 947708048828952209774456605373000),
  (-947708048828952209774456605373000, 319138612807695898343496310190000),
  (965294357418934656500653090916000, 261164322860466480147323409255000),
  (-261164322860466480147323409255000, 965294357418934656500653090916000),
  (497895122273410872804078053377000, 867237249670668397527606430231000),
  (-867237249670668397527606430231000, 497895122273410872804078053377000),
  (791872440184440473665006265946000, 610686530452686282544050300203000),
  (-610686530452686282544050300203000, 791872440184440473665006265946000),
  (128117785426777125445951810434000, 991758959151536112486269303190000),
  (-991758959151536112486269303190000, 128117785426777125445951810434000),
  (986244781329065456354499019653000, 165291352771958000023033719117000),
  (-165291352771958000023033719117000, 986244781329065456354499019653000),
  (580501736371076604292795764195000, 814259009204175265850267351198000),
  (-814259009204175265850267351198000, 580501736371076604292795764195000),
  (847917105296951412185535446042000, 530128835798278852386999915325000),
  (-530128835798278852386999915325000, 847917105296951412185535446042000),
  (224710240344049433369733037580000, 974425629735034992684461485624000),
  (-974425629735034992684461485624000, 224710240344049433369733037580000),
  (935047621163287434598032632493000, 354522137752887489536846032934000),
  (-354522137752887489536846032934000, 935047621163287434598032632493000),
  (410493505971092353945550712524000, 911863521342728522434128990426000),
  (-911863521342728522434128990426000, 410493505971092353945550712524000),
  (728201610591444614684064617904000, 685362979983618725299265861395000),
  (-685362979983618725299265861395000, 728201610591444614684064617904000),
  (30291486199539283813431111980200, 999541107640812942491947978851000),
  (-999541107640812942491947978851000, 30291486199539283813431111980200),
  (999061187671284600675392084668000, 43321395278109825488499495804700),
  (-43321395278109825488499495804700, 999061187671284600675392084668000),
  (675810088251037055506742490252000, 737075792994265621693728007813000),
  (-737075792994265621693728007813000, 675810088251037055506742490252000),
  (906433802776045460802833986236000, 422347914858067052801260388151000),
  (-422347914858067052801260388151000, 906433802776045460802833986236000),
  (342300414023513521755148758530000, 939590563255789157359743057896000),
  (-939590563255789157359743057896000, 342300414023513521755148758530000),
  (971412922135170942006254790613000, 237396155631906580207868273646000),
  (-237396155631906580207868273646000, 971412922135170942006254790613000),
  (519028233099080860135643433750000, 854757096048957221157138519629000),
  (-854757096048957221157138519629000, 519028233099080860135643433750000),
  (806620940710169653797834143916000, 591069080571671401358457842434000),
  (-591069080571671401358457842434000, 806620940710169653797834143916000),
  (152418182001306329320655663651000, 988316092045159688694866417791000),
  (-988316092045159688694866417791000, 152418182001306329320655663651000),
  (990004195701200906398753431858000, 141037911548697714181344053941000),
  (-141037911548697714181344053941000, 990004195701200906398753431858000),
  (600309816522980432829115216009000, 799767543843925676760875376203000),
  (-799767543843925676760875376203000, 600309816522980432829115216009000),
  (860671741423578384733161783515000, 509160243454754635195058654062000),
  (-509160243454754635195058654062000, 860671741423578384733161783515000),
  (248556163878796559929540421763000, 968617485593697535861679170921000),
  (-968617485593697535861679170921000, 248556163878796559929540421763000),
  (943466411100659319011185743875000, 331468144962440869338848870029000),
  (-331468144962440869338848870029000, 943466411100659319011185743875000),
  (432748124060743699637043846451000, 901514870161278736304666381329000),
  (-901514870161278736304666381329000, 432748124060743699637043846451000),
  (744801939393862633131959682942000, 667285599331456480420854404656000),
  (-667285599331456480420854404656000, 744801939393862633131959682942000),
  (54812329710889853839894669818000, 998496674261694638907727039623000),
  (-998496674261694638907727039623000, 54812329710889853839894669818000),
  (995732094602106432290611337521000, 92290821750062340678155692330600),
  (-92290821750062340678155692330600, 995732094602106432290611337521000),
  (638829450437486290326205562451000, 769348382238982275715954983752000),
  (-769348382238982275715954983752000, 638829450437486290326205562451000),
  (884618333624369923562369422143000, 466315776931944481198399898858000),
  (-466315776931944481198399898858000, 884618333624369923562369422143000),
  (295784574424884261212298497412000, 955254670510586989529144830158000),
  (-955254670510586989529144830158000, 295784574424884261212298497412000),
  (958594335476470216228506160405000, 284775174466498304237660477156000),
  (-284775174466498304237660477156000, 958594335476470216228506160405000),
  (476462098043581194772855269548000, 879195012001267484080813119363000),
  (-879195012001267484080813119363000, 476462098043581194772855269548000),
  (776646945310762060188380928594000, 629936125602796548328399239836000),
  (-629936125602796548328399239836000, 776646945310762060188380928594000),
  (103740215488939371835108715914000, 994604427745175656561116284138000),
  (-994604427745175656561116284138000, 103740215488939371835108715914000),
  (981891289978725101406098474399000, 189445228664950227059904364069000),
  (-189445228664950227059904364069000, 981891289978725101406098474399000),
  (560343983679540746933867012558000, 828259995384385661054693628103000),
  (-828259995384385661054693628103000, 560343983679540746933867012558000),
  (834651715611756328527803816542000, 550778098353912226592399292713000),
  (-550778098353912226592399292713000, 834651715611756328527803816542000),
  (200728959762976139069579062379000, 979646816313141211018944431999000),
  (-979646816313141211018944431999000, 200728959762976139069579062379000),
  (926065593502609307741124666791000, 377362579663988340072933169722000),
  (-377362579663988340072933169722000, 926065593502609307741124666791000),
  (387991621942784914445212507417000, 921662900035694732103763726627000),
  (-921662900035694732103763726627000, 387991621942784914445212507417000),
  (711162640368018350578438457887000, 703027523604011328473006869899000),
  (-703027523604011328473006869899000, 711162640368018350578438457887000),
  (5752396229573736655127369488130, 999983454831937734752500546165000),
  (-999983454831937734752500546165000, 5752396229573736655127369488130)]

/-- twiddles.cu:2564-2819, entries 2560 to 2815 of `negtwiddles`. -/
def tw10 : List (Int × Int) := [
  (999994043728985815278065274470000, 3451449920135993970626842042290),
  (-3451449920135993970626842042290, 999994043728985815278065274470000),
  (704662025823468929353055045794000, 709543113110376766350384514226000),
  (-709543113110376766350384514226000, 704662025823468929353055045794000),
  (922553216932332831312635335053000, 385869876937555311702254812189000),
  (-385869876937555311702254812189000, 922553216932332831312635335053000),
  (379492429060152569597619276465000, 925194842336480527400510709413000),
  (-925194842336480527400510709413000, 379492429060152569597619276465000),
  (980106094103951774876293256966000, 198474291283016385234461154141000),
  (-198474291283016385234461154141000, 980106094103951774876293256966000),
  (552697148165749774229027480033000, 833382182680579730593706244690000),
  (-833382182680579730593706244690000, 552697148165749774229027480033000),
  (829547137007808910169615046470000, 558436699619704102204309492663000),
  (-558436699619704102204309492663000, 829547137007808910169615046470000),
  (191704028727579800506219953604000, 981452783056635524872035603039000),
  (-981452783056635524872035603039000, 191704028727579800506219953604000),
  (994840497831093184544215546339000, 101451386758302078416882352485000),
  (-101451386758302078416882352485000, 994840497831093184544215546339000),
  (631721498677792370202155325387000, 775195425752941313923827237886000),
  (-775195425752941313923827237886000, 631721498677792370202155325387000),
  (880289009156620894103184582491000, 474437836136679280674144365548000),
  (-474437836136679280674144365548000, 880289009156620894103184582491000),
  (286980116594915513061891942925000, 957936538962351424864039017848000),
  (-957936538962351424864039017848000, 286980116594915513061891942925000),
  (955932732910098170719948029728000, 293585779885591202642558528169000),
  (-293585779885591202642558528169000, 955932732910098170719948029728000),
  (468350021981876529775234985209000, 883543013615961880802274208691000),
  (-883543013615961880802274208691000, 468350021981876529775234985209000),
  (770816272453018536126023718680000, 637057512412838589099806085869000),
  (-637057512412838589099806085869000, 770816272453018536126023718680000),
  (94581726267515445205624757818400, 995517100333418114566086387640000),
  (-995517100333418114566086387640000, 94581726267515445205624757818400),
  (998620152488108869803795641928000, 52514674564603215645153255763900),
  (-52514674564603215645153255763900, 998620152488108869803795641928000),
  (668997599157450273388292316668000, 743264564150321604962812216399000),
  (-743264564150321604962812216399000, 668997599157450273388292316668000),
  (902508223725145941607195254619000, 430672620569826802849888736091000),
  (-430672620569826802849888736091000, 902508223725145941607195254619000),
  (333638154596370861693088727407000, 942701215548982007774725389027000),
  (-942701215548982007774725389027000, 333638154596370861693088727407000),
  (969186841502985951812831899588000, 246326746938829027611106425866000),
  (-246326746938829027611106425866000, 969186841502985951812831899588000),
  (511139274715464386744656621886000, 859497901011601728171740433027000),
  (-859497901011601728171740433027000, 511139274715464386744656621886000),
  (801146721041991360934275689942000, 598467986916314309553399652941000),
  (-598467986916314309553399652941000, 801146721041991360934275689942000),
  (143315507302571504277821645701000, 989677051045747213642300721403000),
  (-989677051045747213642300721403000, 143315507302571504277821645701000),
  (988664185277066231982701083325000, 150143693675208189652892087906000),
  (-150143693675208189652892087906000, 988664185277066231982701083325000),
  (592923525775551296668197664985000, 805258773675822214777042518108000),
  (-805258773675822214777042518108000, 592923525775551296668197664985000),
  (855949101260826905601675207436000, 517060089400432021378151148383000),
  (-517060089400432021378151148383000, 855949101260826905601675207436000),
  (239630718356093563858877359962000, 970864109348029469259699908434000),
  (-970864109348029469259699908434000, 239630718356093563858877359962000),
  (940375698633811540894100744481000, 340137538973531772246161608564000),
  (-340137538973531772246161608564000, 940375698633811540894100744481000),
  (424432473022717415833682252924000, 905459593711293253548433312972000),
  (-905459593711293253548433312972000, 424432473022717415833682252924000),
  (738628859948174842919854654610000, 674112310562312355699532417930000),
  (-674112310562312355699532417930000, 738628859948174842919854654610000),
  (45620089569500144044411626964600, 998958861729386082828341386630000),
  (-998958861729386082828341386630000, 45620089569500144044411626964600),
  (999608161397882111209867161961000, 27991492756653246765097264869800),
  (-27991492756653246765097264869800, 999608161397882111209867161961000),
  (687036735110095664325058351096000, 726622683797622959112061380438000),
  (-726622683797622959112061380438000, 687036735110095664325058351096000),
  (912805640321603495301872044365000, 408394249466208003607192722484000),
  (-408394249466208003607192722484000, 912805640321603495301872044365000),
  (356672714981588256932809599675000, 934229401371880818771842314163000),
  (-934229401371880818771842314163000, 356672714981588256932809599675000),
  (974940101534371827973757262953000, 222467522169301878953717732657000),
  (-222467522169301878953717732657000, 974940101534371827973757262953000),
  (532078463525973544001601567288000, 846695050565337448134073383699000),
  (-846695050565337448134073383699000, 532078463525973544001601567288000),
  (815592570258576676778261571599000, 578626614786261428413638441270000),
  (-578626614786261428413638441270000, 815592570258576676778261571599000),
  (167560234024823562215544825449000, 985861840205586981156216097588000),
  (-985861840205586981156216097588000, 167560234024823562215544825449000),
  (992051128806485715827534477285000, 125835439498486995058001980397000),
  (-125835439498486995058001980397000, 992051128806485715827534477285000),
  (612506987879865461010808758147000, 790465173045804880835873973410000),
  (-790465173045804880835873973410000, 612506987879865461010808758147000),
  (868380595208579797450454407226000, 495898318070542243329867915236000),
  (-495898318070542243329867915236000, 868380595208579797450454407226000),
  (263384744036113283005562379913000, 964690871009481032416488233139000),
  (-964690871009481032416488233139000, 263384744036113283005562379913000),
  (948439868128009622161300740117000, 316957120988508145309481278673000),
  (-316957120988508145309481278673000, 948439868128009622161300740117000),
  (446525732704651345805757500784000, 894770791897329553776785360242000),
  (-894770791897329553776785360242000, 446525732704651345805757500784000),
  (754949943008732637927948871948000, 655782420892106143739397339232000),
  (-655782420892106143739397339232000, 754949943008732637927948871948000),
  (70122027362133521055653773146300, 997538420953611337793631719251000),
  (-997538420953611337793631719251000, 70122027362133521055653773146300),
  (997030612139289451612000902969000, 77006223496245640447455116373000),
  (-77006223496245640447455116373000, 997030612139289451612000902969000),
  (650555484066503986184670793591000, 759458729722028214048634708888000),
  (-759458729722028214048634708888000, 650555484066503986184670793591000),
  (891667169921672275734181312146000, 452691570590700920195814660474000),
  (-452691570590700920195814660474000, 891667169921672275734181312146000),
  (310402623062358717920261597101000, 950605181763705342490311522852000),
  (-950605181763705342490311522852000, 310402623062358717920261597101000),
  (962849779558509033527968767885000, 270037593686750565513676747287000),
  (-270037593686750565513676747287000, 962849779558509033527968767885000),
  (489892194718595186397891438901000, 871783022060993117996474666143000),
  (-871783022060993117996474666143000, 489892194718595186397891438901000),
  (786218290997455659940840178024000, 617948864309208256706540396408000),
  (-617948864309208256706540396408000, 786218290997455659940840178024000),
  (118984452677632357442405464099000, 992896117436765979213930677361000),
  (-992896117436765979213930677361000, 118984452677632357442405464099000),
  (984681707410970941118932842073000, 174361506905093749386637114185000),
  (-174361506905093749386637114185000, 984681707410970941118932842073000),
  (572982908710148564068731502630000, 819567316531142231461615210719000),
  (-819567316531142231461615210719000, 572982908710148564068731502630000),
  (843002015580472829903158071829000, 537910403066588882481369182642000),
  (-537910403066588882481369182642000, 843002015580472829903158071829000),
  (215732348091705883330604365256000, 976452535450054059928959304671000),
  (-976452535450054059928959304671000, 215732348091705883330604365256000),
  (931745081981668721304856717325000, 363113070823639472184396481680000),
  (-363113070823639472184396481680000, 931745081981668721304856717325000),
  (402083551089586987981050469898000, 915602980523320231220907317038000),
  (-915602980523320231220907317038000, 402083551089586987981050469898000),
  (721862854481496341030322128063000, 692036140183318826402114609664000),
  (-692036140183318826402114609664000, 721862854481496341030322128063000),
  (21090671940755121444022179844100, 999777567040332937331470475328000),
  (-999777567040332937331470475328000, 21090671940755121444022179844100),
  (999876391416790410993087334646000, 15722655225416857366349532299000),
  (-15722655225416857366349532299000, 999876391416790410993087334646000),
  (695901780590996832387418180588000, 718136972847297494482177171449000),
  (-718136972847297494482177171449000, 695901780590996832387418180588000),
  (917748533403661248541993700201000, 397161968767691608839243144757000),
  (-397161968767691608839243144757000, 917748533403661248541993700201000),
  (368110290048703048260136938552000, 929782132738772193469856119918000),
  (-929782132738772193469856119918000, 368110290048703048260136938552000),
  (977596709053411894174701046722000, 210486755991769747264896750494000),
  (-210486755991769747264896750494000, 977596709053411894174701046722000),
  (542428649725581357721182484966000, 840101874749058397107148721261000),
  (-840101874749058397107148721261000, 542428649725581357721182484966000),
  (822631796294514994194457813137000, 568574469814869143391433681245000),
  (-568574469814869143391433681245000, 822631796294514994194457813137000),
  (179645658363882160246660646408000, 983731384795162089318409925909000),
  (-983731384795162089318409925909000, 179645658363882160246660646408000),
  (993520623594518093035787842382000, 113651970912781868916496819111000),
  (-113651970912781868916496819111000, 993520623594518093035787842382000),
  (622161090864726817883934018028000, 782889249520015484407053918403000),
  (-782889249520015484407053918403000, 622161090864726817883934018028000),
  (874400642942864791962165327277000, 485204612118541878107436104983000),
  (-485204612118541878107436104983000, 874400642942864791962165327277000),
  (275203152606767309507063146157000, 961386095590786249331927137973000),
  (-961386095590786249331927137973000, 275203152606767309507063146157000),
  (952258003795399599056281658704000, 305294438546791668809277098262000),
  (-305294438546791668809277098262000, 952258003795399599056281658704000),
  (457472324167916055692728605209000, 889223859677868211370821427408000),
  (-889223859677868211370821427408000, 457472324167916055692728605209000),
  (762940555751565718800577542424000, 646468644552457893937003063911000),
  (-646468644552457893937003063911000, 762940555751565718800577542424000),
  (82358078226646536101895890169500, 996602803001684134365234513098000),
  (-996602803001684134365234513098000, 82358078226646536101895890169500),
  (997900522387751620634332994086000, 64765325740339885207674797129600),
  (-64765325740339885207674797129600, 997900522387751620634332994086000),
  (659826225313227432422991114436000, 751418227346727363169520685915000),
  (-751418227346727363169520685915000, 659826225313227432422991114436000),
  (897155250963808548192446323810000, 441715355934187314801420143340000),
  (-441715355934187314801420143340000, 897155250963808548192446323810000),
  (322044638198334509660014646215000, 946724485268921167602229616023000),
  (-946724485268921167602229616023000, 322044638198334509660014646215000),
  (966091055410438825923336025880000, 258201612419334869397147258496000),
  (-258201612419334869397147258496000, 966091055410438825923336025880000),
  (500553425469377533119086365332000, 865705647579402381985858028202000),
  (-865705647579402381985858028202000, 500553425469377533119086365332000),
  (793742273353100213917343808134000, 608254226037314382757870134810000),
  (-608254226037314382757870134810000, 793742273353100213917343808134000),
  (131159856086043274947527947916000, 991361231918763463610844155482000),
  (-991361231918763463610844155482000, 131159856086043274947527947916000),
  (986747246596916482985761831515000, 162264818532558030561574469175000),
  (-162264818532558030561574469175000, 986747246596916482985761831515000),
  (582997115853457703593676342280000, 812474222918210475796740865917000),
  (-812474222918210475796740865917000, 582997115853457703593676342280000),
  (849539527184620890665200931835000, 527524967893398200047272439406000),
  (-527524967893398200047272439406000, 849539527184620890665200931835000),
  (227698678515621172335769983874000, 973731642600896396544385424932000),
  (-973731642600896396544385424932000, 227698678515621172335769983874000),
  (936130879241267033208373504749000, 351651783631154624121251117685000),
  (-351651783631154624121251117685000, 936130879241267033208373504749000),
  (413289131967690903657342005317000, 910599853611558929245006765996000),
  (-910599853611558929245006765996000, 413289131967690903657342005317000),
  (730300847525525487213826636435000, 683125663478908684567159070866000),
  (-683125663478908684567159070866000, 730300847525525487213826636435000),
  (33357892543086145598074665485900, 999443470640077769040487964958000),
  (-999443470640077769040487964958000, 33357892543086145598074665485900),
  (999189394066714919873106737214000, 40256114872041282026771114033200),
  (-40256114872041282026771114033200, 999189394066714919873106737214000),
  (678068224424006604778014661861000, 734998968044496714391300429270000),
  (-734998968044496714391300429270000, 678068224424006604778014661861000),
  (907725282067676442210313325631000, 419565027492946884812852204050000),
  (-419565027492946884812852204050000, 907725282067676442210313325631000),
  (345181426315542605465225278749000, 938535978493508560305258470180000),
  (-938535978493508560305258470180000, 345181426315542605465225278749000),
  (972136671622152226390767282282000, 234414785556295163226891986596000),
  (-234414785556295163226891986596000, 972136671622152226390767282282000),
  (521648148266897093705551924359000, 853160717221390418885107465030000),
  (-853160717221390418885107465030000, 521648148266897093705551924359000),
  (808430518981542722833921743586000, 588591620717822894270909728220000),
  (-588591620717822894270909728220000, 808430518981542722833921743586000),
  (155449575730855826805054675788000, 987843828449161742710771250131000),
  (-987843828449161742710771250131000, 155449575730855826805054675788000),
  (990432234767505970118861569063000, 137999957729862787747521224446000),
  (-137999957729862787747521224446000, 990432234767505970118861569063000),
  (602760643595607215061704664549000, 797922055424093001896324039990000),
  (-797922055424093001896324039990000, 602760643595607215061704664549000),
  (862229772550811235376500007987000, 506517343559898525207074726495000),
  (-506517343559898525207074726495000, 862229772550811235376500007987000),
  (251526670691812614943927428612000, 967850367531413624533342954237000),
  (-967850367531413624533342954237000, 251526670691812614943927428612000),
  (944478900905115548169987960136000, 328572070853663689149470883422000),
  (-328572070853663689149470883422000, 944478900905115548169987960136000),
  (435511896108492002621659366923000, 900182974926756807043659591727000),
  (-900182974926756807043659591727000, 435511896108492002621659366923000),
  (746845637581406540661532744707000, 664997438811325336516233619477000),
  (-664997438811325336516233619477000, 746845637581406540661532744707000),
  (57875416378228863867327902426000, 998323813288577555091762860684000),
  (-998323813288577555091762860684000, 57875416378228863867327902426000),
  (996010552748005872913950042857000, 89235524398144014379674615611300),
  (-89235524398144014379674615611300, 996010552748005872913950042857000),
  (641186771556811252459340266796000, 767384860406141733335516619263000),
  (-767384860406141733335516619263000, 641186771556811252459340266796000),
  (886044807083555596705082280096000, 463599611561814006766013562810000),
  (-463599611561814006766013562810000, 886044807083555596705082280096000),
  (298713862433100385551654198935000, 954342720614716477633976410289000),
  (-954342720614716477633976410289000, 298713862433100385551654198935000),
  (959463502071417506655848228547000, 281832908285833350081617254546000),
  (-281832908285833350081617254546000, 959463502071417506655848228547000),
  (479157188005253309448505660839000, 877729109226131565257844613370000),
  (-877729109226131565257844613370000, 479157188005253309448505660839000),
  (778575907059125049691772346705000, 627550441755131527266087232420000),
  (-627550441755131527266087232420000, 778575907059125049691772346705000),
  (106791130648307391881601802197000, 994281476451641554881177853531000),
  (-994281476451641554881177853531000, 106791130648307391881601802197000),
  (982467878781833170442894243024000, 186431937076041609469001514299000),
  (-186431937076041609469001514299000, 982467878781833170442894243024000),
  (562882412448384439329629458371000, 826536986320809963224576222274000),
  (-826536986320809963224576222274000, 562882412448384439329629458371000),
  (836337550973583532254451711196000, 548214830911667783119867181085000),
  (-548214830911667783119867181085000, 836337550973583532254451711196000),
  (203733529169693894367298980796000, 979026378139047581683485077519000),
  (-979026378139047581683485077519000, 203733529169693894367298980796000),
  (927218967339951793960040049569000, 374519674523293211176877548496000),
  (-374519674523293211176877548496000, 927218967339951793960040049569000),
  (390817417907668551713129545533000, 920468220994067110041214618832000),
  (-920468220994067110041214618832000, 390817417907668551713129545533000),
  (713316151546802612593012327125000, 700842398790526233121056520758000),
  (-700842398790526233121056520758000, 713316151546802612593012327125000),
  (8820275160807411474195305345350, 999961100616462816859097983979000),
  (-999961100616462816859097983979000, 8820275160807411474195305345350)]

/-- twiddles.cu:2820-3075, entries 2816 to 3071 of `negtwiddles`. -/
def tw11 : List (Int × Int) := [
  (999954041425129780407132784603000, 9587233049729224770851843118180),
  (-9587233049729224770851843118180, 999954041425129780407132784603000),
  (700295086064323779595497398986000, 713853481068882467219793852564000),
  (-713853481068882467219793852564000, 700295086064323779595497398986000),
  (920168197074266336343839611800000, 391523293167972408213017843082000),
  (-391523293167972408213017843082000, 920168197074266336343839611800000),
  (373808396391851205375900235595000, 927505947574975175839995245042000),
  (-927505947574975175839995245042000, 373808396391851205375900235595000),
  (978869828526574115024061484291000, 204484372997927238424509255310000),
  (-204484372997927238424509255310000, 978869828526574115024061484291000),
  (547573206856539762554803019157000, 836757780443567189543330187007000),
  (-836757780443567189543330187007000, 547573206856539762554803019157000),
  (826105017844664613058114355226000, 563516192750364797170448127872000),
  (-563516192750364797170448127872000, 826105017844664613058114355226000),
  (185678338887987626204534308272000, 982610581292404750008984137821000),
  (-982610581292404750008984137821000, 185678338887987626204534308272000),
  (994199276233218909304412136407000, 107553703503615635805878980591000),
  (-107553703503615635805878980591000, 994199276233218909304412136407000),
  (626953096986132663026580758014000, 779057003164400629913188822684000),
  (-779057003164400629913188822684000, 626953096986132663026580758014000),
  (877361342129065135964083310682000, 479830256796594190049631833972000),
  (-479830256796594190049631833972000, 877361342129065135964083310682000),
  (281096926171038263841950310962000, 959679382969746752607420603454000),
  (-959679382969746752607420603454000, 281096926171038263841950310962000),
  (954113329266538801043395778834000, 299445746197739892657807558862000),
  (-299445746197739892657807558862000, 954113329266538801043395778834000),
  (462919887410955133155709972925000, 886400122878730600817220874887000),
  (-886400122878730600817220874887000, 462919887410955133155709972925000),
  (766892850643480672445662094106000, 641775159718663501529078985186000),
  (-641775159718663501529078985186000, 766892850643480672445662094106000),
  (88471567699340766810500724659500, 996078702567633977871253136982000),
  (-996078702567633977871253136982000, 88471567699340766810500724659500),
  (998279129760433203699676596443000, 58641104054683333701714076369200),
  (-58641104054683333701714076369200, 998279129760433203699676596443000),
  (664424419837275181954794334160000, 747355464503940303266915634595000),
  (-747355464503940303266915634595000, 664424419837275181954794334160000),
  (899848676741518582744561172149000, 436202199635143950118276734429000),
  (-436202199635143950118276734429000, 899848676741518582744561172149000),
  (327847568035170844336079198911000, 944730634696167803632249615475000),
  (-944730634696167803632249615475000, 327847568035170844336079198911000),
  (967657164329369878785769287788000, 252268928570370809527645405979000),
  (-252268928570370809527645405979000, 967657164329369878785769287788000),
  (505855872686268859261815578066000, 862618012835816738714811435784000),
  (-862618012835816738714811435784000, 505855872686268859261815578066000),
  (797459509147442457965837547818000, 603372464792950369272261923470000),
  (-603372464792950369272261923470000, 797459509147442457965837547818000),
  (137240265203515593439576036872000, 990537788076188752128814485332000),
  (-990537788076188752128814485332000, 137240265203515593439576036872000),
  (987724309567986957780760803871000, 156207196660215902328516790476000),
  (-156207196660215902328516790476000, 987724309567986957780760803871000),
  (587971389209745010084873229061000, 808881725266903606197388398868000),
  (-808881725266903606197388398868000, 587971389209745010084873229061000),
  (852760367195645296867212437064000, 522302360841254698087254837446000),
  (-522302360841254698087254837446000, 852760367195645296867212437064000),
  (233669097190576824374375064508000, 972316179551765302768728815863000),
  (-972316179551765302768728815863000, 233669097190576824374375064508000),
  (938270951623047189116277877474000, 345901172794168987323359942820000),
  (-345901172794168987323359942820000, 938270951623047189116277877474000),
  (418868687579875109694427237628000, 908046817386148341633145264495000),
  (-908046817386148341633145264495000, 418868687579875109694427237628000),
  (734478680090438373895267432090000, 678631762071749466969095010427000),
  (-678631762071749466969095010427000, 734478680090438373895267432090000),
  (39489734439384124864425018586200, 999219976218403527212785775191000),
  (-999219976218403527212785775191000, 39489734439384124864425018586200),
  (999417591486021716917775847833000, 34124446197403325575780996814500),
  (-34124446197403325575780996814500, 999417591486021716917775847833000),
  (682565328866473253199842474714000, 730824583487312051666151546669000),
  (-730824583487312051666151546669000, 682565328866473253199842474714000),
  (910282597007281757406360611640000, 413987431675985451118293667605000),
  (-413987431675985451118293667605000, 910282597007281757406360611640000),
  (350933676875858358013005044995000, 936400317404042059621360749588000),
  (-936400317404042059621360749588000, 350933676875858358013005044995000),
  (973556713508265558765231162397000, 228445454283916465909598514372000),
  (-228445454283916465909598514372000, 973556713508265558765231162397000),
  (526873224135984696836487728433000, 849943883846782211044512678200000),
  (-849943883846782211044512678200000, 526873224135984696836487728433000),
  (812026830795669729567975991813000, 583620104235572645379193090776000),
  (-583620104235572645379193090776000, 812026830795669729567975991813000),
  (161507945219266119130097081324000, 986871411902812467609180657746000),
  (-986871411902812467609180657746000, 161507945219266119130097081324000),
  (991260341982802439808608596650000, 131920181974319761231129177759000),
  (-131920181974319761231129177759000, 991260341982802439808608596650000),
  (607645254487930830400443937833000, 794208564986740639390916385310000),
  (-794208564986740639390916385310000, 607645254487930830400443937833000),
  (865321473311889799440166370914000, 501217266088609947338738948019000),
  (-501217266088609947338738948019000, 865321473311889799440166370914000),
  (257460553986133100501376702596000, 966288809384209690378497725760000),
  (-966288809384209690378497725760000, 257460553986133100501376702596000),
  (946477201682408675331714675849000, 322770671987770763067260304524000),
  (-322770671987770763067260304524000, 946477201682408675331714675849000),
  (441027116617407233256642484776000, 897493778478790305008772065776000),
  (-897493778478790305008772065776000, 441027116617407233256642484776000),
  (750911925999868001824211205530000, 660402361739545029628573047376000),
  (-660402361739545029628573047376000, 750911925999868001824211205530000),
  (63999926650713939713099875916700, 997949903246001190915137613047000),
  (-997949903246001190915137613047000, 63999926650713939713099875916700),
  (996539342015137941110936026234000, 83122438703612924748576062938800),
  (-83122438703612924748576062938800, 996539342015137941110936026234000),
  (645883286381996324365672990098000, 763436166534172011566283799766000),
  (-763436166534172011566283799766000, 645883286381996324365672990098000),
  (888872721280395627907466860051000, 458154215699893119229102467216000),
  (-458154215699893119229102467216000, 888872721280395627907466860051000),
  (304563976078509102141111952733000, 952491881579706323179834726034000),
  (-952491881579706323179834726034000, 304563976078509102141111952733000),
  (961174734657714080476864637603000, 275940445487197150153946267892000),
  (-275940445487197150153946267892000, 961174734657714080476864637603000),
  (484533812574016176100144548400000, 874772532989284146154318477784000),
  (-874772532989284146154318477784000, 484533812574016176100144548400000),
  (782411827709836416033795103431000, 622761376339086347719842251536000),
  (-622761376339086347719842251536000, 782411827709836416033795103431000),
  (112889916783750501871885774108000, 993607501324621611438203672151000),
  (-993607501324621611438203672151000, 112889916783750501871885774108000),
  (983593308962478651835681375815000, 180400117971807216754598357511000),
  (-180400117971807216754598357511000, 983593308962478651835681375815000),
  (567943351952365560464386362582000, 823067645441801665207037785876000),
  (-823067645441801665207037785876000, 567943351952365560464386362582000),
  (839685590120966107718913917779000, 543072840181871741016550458880000),
  (-543072840181871741016550458880000, 839685590120966107718913917779000),
  (209736886868323313404260943571000, 977757862810002764675232356240000),
  (-977757862810002764675232356240000, 209736886868323313404260943571000),
  (929499522226638563715539476107000, 368823315668153905999560038254000),
  (-368823315668153905999560038254000, 929499522226638563715539476107000),
  (396457947707453906005525823275000, 918052882844770379300314289139000),
  (-918052882844770379300314289139000, 396457947707453906005525823275000),
  (717603011688049075011974764493000, 696452380006157834024804742512000),
  (-696452380006157834024804742512000, 717603011688049075011974764493000),
  (14955755088644296160738100809300, 999888156440373321309778020805000),
  (-999888156440373321309778020805000, 14955755088644296160738100809300),
  (999761096627446610440870244929000, 21857485452021735428118631716600),
  (-21857485452021735428118631716600, 999761096627446610440870244929000),
  (691482274808955854616954184166000, 722393427174577551497236527211000),
  (-722393427174577551497236527211000, 691482274808955854616954184166000),
  (915294317019487047026871096023000, 402785691443763527175292438187000),
  (-402785691443763527175292438187000, 915294317019487047026871096023000),
  (362398324561191365056345148332000, 932023312130786485418809661496000),
  (-932023312130786485418809661496000, 362398324561191365056345148332000),
  (976286783616693631948635356821000, 216481214278216760327211432013000),
  (-216481214278216760327211432013000, 976286783616693631948635356821000),
  (537263670462542530792404704698000, 843414339693792758367862916202000),
  (-843414339693792758367862916202000, 537263670462542530792404704698000),
  (819127603122188241435708278004000, 573611340371944611327137408807000),
  (-573611340371944611327137408807000, 819127603122188241435708278004000),
  (173606214282275406191047295579000, 984815151367289143280459029484000),
  (-984815151367289143280459029484000, 173606214282275406191047295579000),
  (992804565465879140795379953488000, 119745959389479600387673485784000),
  (-119745959389479600387673485784000, 992804565465879140795379953488000),
  (617345660729896827945140103111000, 786692020537876790520215308788000),
  (-786692020537876790520215308788000, 617345660729896827945140103111000),
  (871407023066670949340561946883000, 490560699761082019687563615662000),
  (-490560699761082019687563615662000, 871407023066670949340561946883000),
  (269299017799346174228958261665000, 963056612568704339949476889160000),
  (-963056612568704339949476889160000, 269299017799346174228958261665000),
  (950366826348635895804761730687000, 311131636732785266108436417198000),
  (-311131636732785266108436417198000, 950366826348635895804761730687000),
  (452007537350436472411985278086000, 892014117701280473404779058910000),
  (-892014117701280473404779058910000, 452007537350436472411985278086000),
  (758959536578942439710715461842000, 651137790207170330525343615591000),
  (-651137790207170330525343615591000, 758959536578942439710715461842000),
  (76241488018856051755989255980200, 997089381903483396030196672655000),
  (-997089381903483396030196672655000, 76241488018856051755989255980200),
  (997484344624417929026094498113000, 70887109048087815210692497203100),
  (-70887109048087815210692497203100, 997484344624417929026094498113000),
  (655203188704731931402136524412000, 755452699717958253700089699123000),
  (-755452699717958253700089699123000, 655203188704731931402136524412000),
  (894428047797973801991133768752000, 447211881899738317169834544984000),
  (-447211881899738317169834544984000, 894428047797973801991133768752000),
  (316229583562890326220440329053000, 948682692199895094553596663900000),
  (-948682692199895094553596663900000, 316229583562890326220440329053000),
  (964488573709308405490503446345000, 264124575123527549624924404270000),
  (-264124575123527549624924404270000, 964488573709308405490503446345000),
  (495232132698931237779760294870000, 868760688994655305705805403704000),
  (-868760688994655305705805403704000, 495232132698931237779760294870000),
  (789995153610791089882070536987000, 613113086853854905022842558537000),
  (-613113086853854905022842558537000, 789995153610791089882070536987000),
  (125074508874121165247217390970000, 992147351571276092663254075887000),
  (-992147351571276092663254075887000, 125074508874121165247217390970000),
  (985733033149723492094551602349000, 168316331226194826342634769389000),
  (-168316331226194826342634769389000, 985733033149723492094551602349000),
  (578000892985269909551959699456000, 816036131374236695101842542499000),
  (-816036131374236695101842542499000, 578000892985269909551959699456000),
  (846286702490559705758244035678000, 532727713928658808129057433689000),
  (-532727713928658808129057433689000, 846286702490559705758244035678000),
  (221719687114115215909038170139000, 975110445204038889244202437112000),
  (-975110445204038889244202437112000, 221719687114115215909038170139000),
  (933955562060986732575429414283000, 357389154977240885990852348186000),
  (-357389154977240885990852348186000, 933955562060986732575429414283000),
  (407694016253280167028094638226000, 913118606267154242495109883748000),
  (-913118606267154242495109883748000, 407694016253280167028094638226000),
  (726095519546470891114609003125000, 687593845590942165379999551078000),
  (-687593845590942165379999551078000, 726095519546470891114609003125000),
  (27224794740987871832782474257300, 999629336579970106946291252825000),
  (-999629336579970106946291252825000, 27224794740987871832782474257300),
  (998923577731465783813291636761000, 46386267926707157316368324018200),
  (-46386267926707157316368324018200, 998923577731465783813291636761000),
  (673545591096136098130386926641000, 739145680305957508693381896592000),
  (-739145680305957508693381896592000, 673545591096136098130386926641000),
  (905133791784249686074304008798000, 425126826923762357601788153261000),
  (-425126826923762357601788153261000, 905133791784249686074304008798000),
  (339416179869623357845398459176000, 940636304233847586608874280500000),
  (-940636304233847586608874280500000, 339416179869623357845398459176000),
  (970680029339806127453016415529000, 240375291244489447395338288516000),
  (-240375291244489447395338288516000, 970680029339806127453016415529000),
  (516403432639863990694095718936000, 856345429577203609561308894627000),
  (-856345429577203609561308894627000, 516403432639863990694095718936000),
  (804803770215302805013379838783000, 593540977058226393303641543753000),
  (-593540977058226393303641543753000, 804803770215302805013379838783000),
  (149385353653779723304140247819000, 988779053233701521463672179380000),
  (-988779053233701521463672179380000, 149385353653779723304140247819000),
  (989566838338365117877515331202000, 144074537864995161351444608044000),
  (-144074537864995161351444608044000, 989566838338365117877515331202000),
  (597853339105733905256556681707000, 801605504547046154861789091228000),
  (-801605504547046154861789091228000, 597853339105733905256556681707000),
  (859105609326130448266667372081000, 511798350939486890176510769379000),
  (-511798350939486890176510769379000, 859105609326130448266667372081000),
  (245583317560504055254710920053000, 969375486659311280668305244035000),
  (-969375486659311280668305244035000, 245583317560504055254710920053000),
  (942445041031024888233957881312000, 334361099166798736437300476609000),
  (-334361099166798736437300476609000, 942445041031024888233957881312000),
  (429980278822840622510170760506000, 902838279994502834746583630476000),
  (-902838279994502834746583630476000, 429980278822840622510170760506000),
  (742751230846809051833190551406000, 669567479105392493465842562728000),
  (-669567479105392493465842562728000, 742751230846809051833190551406000),
  (51748727129028455895554117205400, 998660137003838488389817484858000),
  (-998660137003838488389817484858000, 51748727129028455895554117205400),
  (995444264246510335247819512006000, 95345250425617630862795692792100),
  (-95345250425617630862795692792100, 995444264246510335247819512006000),
  (636466116412077176356376639887000, 771304662671844720733815847780000),
  (-771304662671844720733815847780000, 636466116412077176356376639887000),
  (883183533800523390411285618029000, 469027553160387133956987781858000),
  (-469027553160387133956987781858000, 883183533800523390411285618029000),
  (292852502379604806570512209873000, 956157629185692137241403543158000),
  (-956157629185692137241403543158000, 292852502379604806570512209873000),
  (957716146226558873166823104839000, 287714760234765165591852564830000),
  (-287714760234765165591852564830000, 957716146226558873166823104839000),
  (473762523439182847706518941777000, 880652639458111008430307720118000),
  (-880652639458111008430307720118000, 473762523439182847706518941777000),
  (774710673465565657913600716711000, 632315880251737572059766989696000),
  (-632315880251737572059766989696000, 774710673465565657913600716711000),
  (100688323887153957647555557742000, 994918017443043201097907513031000),
  (-994918017443043201097907513031000, 100688323887153957647555557742000),
  (981305459240844668578063192399000, 192456737123216842233475176727000),
  (-192456737123216842233475176727000, 981305459240844668578063192399000),
  (557800280739717102562735817628000, 829975208549443843608628412767000),
  (-829975208549443843608628412767000, 557800280739717102562735817628000),
  (832958024190106671724720399652000, 553336181662932302671720208309000),
  (-553336181662932302671720208309000, 832958024190106671724720399652000),
  (197722501018841922970636915124000, 980258033678303553060118247231000),
  (-980258033678303553060118247231000, 197722501018841922970636915124000),
  (924903503183210906612998769560000, 380201932924366048371922488514000),
  (-380201932924366048371922488514000, 924903503183210906612998769560000),
  (385162174052989858541451440033000, 922848904035094119713278359995000),
  (-922848904035094119713278359995000, 385162174052989858541451440033000),
  (709002435455618362780683128221000, 705206031254697829346866910782000),
  (-705206031254697829346866910782000, 709002435455618362780683128221000),
  (2684463154595961680015658856750, 999996396822294353334825700585000),
  (-999996396822294353334825700585000, 2684463154595961680015658856750)]

/-- twiddles.cu:3076-3331, entries 3072 to 3327 of `negtwiddles`. -/
def tw12 : List (Int × Int) := [
  (999998161643486982441686450329000, 1917474809855419012188937344380),
  (-1917474809855419012188937344380, 999998161643486982441686450329000),
  (705749621831387785597655692982000, 708461340712994047663642049883000),
  (-708461340712994047663642049883000, 705749621831387785597655692982000),
  (923144048249621818058585631661000, 384454244587440874258987832945000),
  (-384454244587440874258987832945000, 923144048249621818058585631661000),
  (380911213125578074212285173417000, 924611619933039974306154817896000),
  (-924611619933039974306154817896000, 380911213125578074212285173417000),
  (980409396592109905199663444364000, 196970594439614343773570226404000),
  (-196970594439614343773570226404000, 980409396592109905199663444364000),
  (553974889646695500822204394353000, 832533375691888677394558726519000),
  (-832533375691888677394558726519000, 553974889646695500822204394353000),
  (830402791838047549255463763984000, 557163533720196335607965920644000),
  (-557163533720196335607965920644000, 830402791838047549255463763984000),
  (193209332301513991847485840481000, 981157558148334829617454033723000),
  (-981157558148334829617454033723000, 193209332301513991847485840481000),
  (994994951770357016762602597737000, 99925201783659073351273605112500),
  (-99925201783659073351273605112500, 994994951770357016762602597737000),
  (632909889850541751421530989319000, 774225465435860682461566284474000),
  (-774225465435860682461566284474000, 632909889850541751421530989319000),
  (881015751694342874600351933623000, 473086932039400109850646458654000),
  (-473086932039400109850646458654000, 881015751694342874600351933623000),
  (288449234619434224935474730955000, 957495190091032566392925673426000),
  (-957495190091032566392925673426000, 288449234619434224935474730955000),
  (956381962978387734075624848629000, 292119052596036377078547729980000),
  (-292119052596036377078547729980000, 956381962978387734075624848629000),
  (469704808422072461748797422842000, 882823534430966616604052887851000),
  (-882823534430966616604052887851000, 469704808422072461748797422842000),
  (771792599152010150298508506239000, 635874345994697720563237908209000),
  (-635874345994697720563237908209000, 771792599152010150298508506239000),
  (96108718494565495427117696181100, 995370842565388991296515541762000),
  (-995370842565388991296515541762000, 96108718494565495427117696181100),
  (998699534033539282340541376470000, 50982749251010803237527113651600),
  (-50982749251010803237527113651600, 998699534033539282340541376470000),
  (670136965164037756714776605804000, 742237460601884002642236737302000),
  (-742237460601884002642236737302000, 670136965164037756714776605804000),
  (903167805147360724937755094288000, 429287684129534607979650218113000),
  (-429287684129534607979650218113000, 903167805147360724937755094288000),
  (335083847041206583927674955703000, 942188312096931768202523471700000),
  (-942188312096931768202523471700000, 335083847041206583927674955703000),
  (969563561557013287028894410469000, 244839743711840640560950532745000),
  (-244839743711840640560950532745000, 969563561557013287028894410469000),
  (512457126085725800379577776766000, 858712812250963519744573204662000),
  (-858712812250963519744573204662000, 512457126085725800379577776766000),
  (802063816488235548085583559441000, 597238339593437417285315405024000),
  (-597238339593437417285315405024000, 802063816488235548085583559441000),
  (144833483672080209903043623854000, 989456043494307713181967756100000),
  (-989456043494307713181967756100000, 144833483672080209903043623854000),
  (988893339517095126822709971748000, 148626925752796540391997837105000),
  (-148626925752796540391997837105000, 988893339517095126822709971748000),
  (594158079176036801882787585782000, 804348293309460782296582692652000),
  (-804348293309460782296582692652000, 594158079176036801882787585782000),
  (856741254127627471781636359083000, 515746472092461383240902250691000),
  (-515746472092461383240902250691000, 856741254127627471781636359083000),
  (241119722726294616332864961805000, 970495378305530564944092475343000),
  (-970495378305530564944092475343000, 241119722726294616332864961805000),
  (940896356481780826719329979824000, 338694621095921188924648959073000),
  (-338694621095921188924648959073000, 940896356481780826719329979824000),
  (425820930733648184141060255570000, 904807457390316538514696276252000),
  (-904807457390316538514696276252000, 425820930733648184141060255570000),
  (739662065843380012175600768387000, 672978475400442088805164075893000),
  (-672978475400442088805164075893000, 739662065843380012175600768387000),
  (47152418996067868572907855195800, 998887706092541294289333109191000),
  (-998887706092541294289333109191000, 47152418996067868572907855195800),
  (999649923705874243751168251038000, 26458080709677186947992311161200),
  (-26458080709677186947992311161200, 999649923705874243751168251038000),
  (688150551578044833433978055837000, 725567928152032304289775765938000),
  (-725567928152032304289775765938000, 688150551578044833433978055837000),
  (913431035048554718080993097828000, 406993543204466512452910365027000),
  (-406993543204466512452910365027000, 913431035048554718080993097828000),
  (358105384730061593323569013592000, 933681173328098412689257656893000),
  (-933681173328098412689257656893000, 358105384730061593323569013592000),
  (975280215241354220268021890661000, 220971721626949085814928253058000),
  (-220971721626949085814928253058000, 975280215241354220268021890661000),
  (533376650941355445745273300417000, 845877856567119001951482459845000),
  (-845877856567119001951482459845000, 533376650941355445745273300417000),
  (816479212436865386948170453252000, 577374831161244883581673548179000),
  (-577374831161244883581673548179000, 816479212436865386948170453252000),
  (169072329411405014587543860216000, 985603646212513395674648108979000),
  (-985603646212513395674648108979000, 169072329411405014587543860216000),
  (992242990681341696657113971014000, 124313504671644231569516136915000),
  (-124313504671644231569516136915000, 992242990681341696657113971014000),
  (613718825149211721914355166518000, 789524669441982185347228551109000),
  (-789524669441982185347228551109000, 613718825149211721914355166518000),
  (869140271711200562698707017262000, 494565655995015951429394363004000),
  (-494565655995015951429394363004000, 869140271711200562698707017262000),
  (264864250833259262662977562286000, 964285709025357484769358507037000),
  (-964285709025357484769358507037000, 264864250833259262662977562286000),
  (948924958186195155462883121800000, 315501860107555986978411510790000),
  (-315501860107555986978411510790000, 948924958186195155462883121800000),
  (447897768011597308124294158915000, 894084777529641994142650673894000),
  (-894084777529641994142650673894000, 447897768011597308124294158915000),
  (755955012013824312333554189536000, 654623571078202681761126768833000),
  (-654623571078202681761126768833000, 755955012013824312333554189536000),
  (71652149032982212495390683670800, 997429681500884179889965253096000),
  (-997429681500884179889965253096000, 71652149032982212495390683670800),
  (997147565105683475472631016601000, 75476707690563402119998670514200),
  (-75476707690563402119998670514200, 997147565105683475472631016601000),
  (651719713300250913512456918397000, 758459896959515433856324762019000),
  (-758459896959515433856324762019000, 651719713300250913512456918397000),
  (892360540731965357075239353435000, 451323238205783516807656496894000),
  (-451323238205783516807656496894000, 892360540731965357075239353435000),
  (311860467372486016568444711083000, 950127911857248097504680117709000),
  (-950127911857248097504680117709000, 311860467372486016568444711083000),
  (963262879037507069313051033532000, 268560283490267892592129328477000),
  (-268560283490267892592129328477000, 963262879037507069313051033532000),
  (491228916219348277216738551942000, 871030511446048372192763054045000),
  (-871030511446048372192763054045000, 491228916219348277216738551942000),
  (787165287287650894398893797188000, 616742093982038830368708204333000),
  (-616742093982038830368708204333000, 787165287287650894398893797188000),
  (120507395657864127547220789438000, 992712429453645461840949337784000),
  (-992712429453645461840949337784000, 120507395657864127547220789438000),
  (984948015982227031983597953513000, 172850819531394084282993617308000),
  (-172850819531394084282993617308000, 984948015982227031983597953513000),
  (574239434592967890047532364406000, 818687407841569680932991559530000),
  (-818687407841569680932991559530000, 574239434592967890047532364406000),
  (843826167648186742376026359125000, 536616621800121151864004787058000),
  (-536616621800121151864004787058000, 843826167648186742376026359125000),
  (217229953114406793002189033359000, 976120457458971912956258165650000),
  (-976120457458971912956258165650000, 217229953114406793002189033359000),
  (932300993994602755776668345788000, 361683365109145837923421140658000),
  (-361683365109145837923421140658000, 932300993994602755776668345788000),
  (403487594849495312399056956565000, 914985115071589305557608895469000),
  (-914985115071589305557608895469000, 403487594849495312399056956565000),
  (722923574902217702664586340688000, 690928002653386275078162270802000),
  (-690928002653386275078162270802000, 722923574902217702664586340688000),
  (22624286105092802912075455878900, 999744038080865426998400380398000),
  (-999744038080865426998400380398000, 22624286105092802912075455878900),
  (999899333255515387897105483717000, 14188846153786344519986961643100),
  (-14188846153786344519986961643100, 999899333255515387897105483717000),
  (697002569716327458060334265610000, 717068628381437478402915530751000),
  (-717068628381437478402915530751000, 697002569716327458060334265610000),
  (918356692219021719658655911189000, 395753693421220076320565794958000),
  (-395753693421220076320565794958000, 918356692219021719658655911189000),
  (369536124318350645001629573017000, 929216364913884040888092386012000),
  (-929216364913884040888092386012000, 369536124318350645001629573017000),
  (977918441376834368661263852118000, 208986894362070074748771730810000),
  (-208986894362070074748771730810000, 977918441376834368661263852118000),
  (543716711162402388524128582503000, 839268811527475233624784323183000),
  (-839268811527475233624784323183000, 543716711162402388524128582503000),
  (823503010399598500690387936629000, 567311899983420797610733643523000),
  (-567311899983420797610733643523000, 823503010399598500690387936629000),
  (181154471454990806389417912214000, 983454654507193271051335159427000),
  (-983454654507193271051335159427000, 181154471454990806389417912214000),
  (993693794541031794054219972168000, 112127796244489638666230746367000),
  (-112127796244489638666230746367000, 993693794541031794054219972168000),
  (623361295458973341254704791936000, 781933945626937521033994471509000),
  (-781933945626937521033994471509000, 623361295458973341254704791936000),
  (875143908429560357653542723710000, 483862727990732210958668702006000),
  (-483862727990732210958668702006000, 875143908429560357653542723710000),
  (276677576038972417027395067635000, 960962808290309777881077479833000),
  (-960962808290309777881077479833000, 276677576038972417027395067635000),
  (952725199037579573158041057468000, 303833334443086355847185586754000),
  (-303833334443086355847185586754000, 952725199037579573158041057468000),
  (458835837711549121564758024761000, 888521059982002259225453144609000),
  (-888521059982002259225453144609000, 458835837711549121564758024761000),
  (763931328206951087977927272732000, 645297548255038377895687062846000),
  (-645297548255038377895687062846000, 763931328206951087977927272732000),
  (83886750281790212202537304619900, 996475294790172161363273062307000),
  (-996475294790172161363273062307000, 83886750281790212202537304619900),
  (997998697036034387863878691860000, 63234489911580080145903082211600),
  (-63234489911580080145903082211600, 997998697036034387863878691860000),
  (660978109668168056778370100801000, 750405182910869328338776540477000),
  (-750405182910869328338776540477000, 660978109668168056778370100801000),
  (897831778021305648707084401394000, 440338617855737246564729048259000),
  (-440338617855737246564729048259000, 897831778021305648707084401394000),
  (323496515899536651872381298745000, 946229361307743821463134281657000),
  (-946229361307743821463134281657000, 323496515899536651872381298745000),
  (966485994915169843721969300532000, 256719344095520662918374910078000),
  (-256719344095520662918374910078000, 966485994915169843721969300532000),
  (501880811854638286817476000579000, 864936789998049015970593700331000),
  (-864936789998049015970593700331000, 501880811854638286817476000579000),
  (794674389407944548047169064375000, 607035925476499649278139258968000),
  (-607035925476499649278139258968000, 794674389407944548047169064375000),
  (132680430257352072187515545920000, 991158868913921353716034445824000),
  (-991158868913921353716034445824000, 132680430257352072187515545920000),
  (986994996657682976959335974243000, 160750976895011221667886047726000),
  (-160750976895011221667886047726000, 986994996657682976959335974243000),
  (584242749289016982672251288022000, 811578960978665886472072088509000),
  (-811578960978665886472072088509000, 584242749289016982672251288022000),
  (850347740508855087782080772740000, 526221170432628060353863475029000),
  (-526221170432628060353863475029000, 850347740508855087782080772740000),
  (229192095663636768998472348358000, 973381211697303294627658942773000),
  (-973381211697303294627658942773000, 229192095663636768998472348358000),
  (936669204706636171486877628922000, 350215363675321578185162252339000),
  (-350215363675321578185162252339000, 936669204706636171486877628922000),
  (414685487846140010681494914024000, 909964804907205659922908580484000),
  (-909964804907205659922908580484000, 414685487846140010681494914024000),
  (731347889523825456237204889476000, 682004592718440827425752104318000),
  (-682004592718440827425752104318000, 731347889523825456237204889476000),
  (34890979777188003974064400836100, 999391124400346053668897639000000),
  (-999391124400346053668897639000000, 34890979777188003974064400836100),
  (999249970554724420424008712871000, 38723330775933623160156571430000),
  (-38723330775933623160156571430000, 999249970554724420424008712871000),
  (679194900497911202563727783854000, 733957960061496050840901261836000),
  (-733957960061496050840901261836000, 679194900497911202563727783854000),
  (908367818524072889729836788320000, 418172101257146322517144199082000),
  (-418172101257146322517144199082000, 908367818524072889729836788320000),
  (346620715788047317751363607385000, 938005372791958835776426894881000),
  (-938005372791958835776426894881000, 346620715788047317751363607385000),
  (972495115492821193825534464850000, 232923271363348977081031421221000),
  (-232923271363348977081031421221000, 972495115492821193825534464850000),
  (522956266158590143966478080984000, 852359515512947085724704265886000),
  (-852359515512947085724704265886000, 522956266158590143966478080984000),
  (809332455707985842785490149254000, 587350811813247664083803556423000),
  (-587350811813247664083803556423000, 809332455707985842785490149254000),
  (156964725696906781671202679718000, 987604209634049157173762978346000),
  (-987604209634049157173762978346000, 156964725696906781671202679718000),
  (990642758677011570078718705190000, 136480491942256282333900685444000),
  (-136480491942256282333900685444000, 990642758677011570078718705190000),
  (603983931041818022933398424357000, 796996493745908751726858554321000),
  (-796996493745908751726858554321000, 603983931041818022933398424357000),
  (863005745664870316247174741875000, 505194104230662244248151182546000),
  (-505194104230662244248151182546000, 863005745664870316247174741875000),
  (253011038045617919767238390705000, 967463391879547440765918508987000),
  (-967463391879547440765918508987000, 253011038045617919767238390705000),
  (944981812726528147550197900273000, 327122872352400506645864197708000),
  (-327122872352400506645864197708000, 944981812726528147550197900273000),
  (436892246555280361341999650904000, 899513849198487980274308029038000),
  (-899513849198487980274308029038000, 436892246555280361341999650904000),
  (747864851776509409475579559512000, 663851009999457342125595005200000),
  (-663851009999457342125595005200000, 747864851776509409475579559512000),
  (59406757234087149976975439358300, 998233858970396847887229796470000),
  (-998233858970396847887229796470000, 59406757234087149976975439358300),
  (996146266419824621962675337272000, 87707558954993672384325975599500),
  (-87707558954993672384325975599500, 996146266419824621962675337272000),
  (642363170340724320972469740809000, 766400389737514120547245966009000),
  (-766400389737514120547245966009000, 642363170340724320972469740809000),
  (886754917227550842895311689063000, 462239890936253339237538284578000),
  (-462239890936253339237538284578000, 886754917227550842895311689063000),
  (300177453806162009009028679429000, 953883376638071767139592793683000),
  (-953883376638071767139592793683000, 300177453806162009009028679429000),
  (959894699313420529662721492059000, 280360778694163814694917391535000),
  (-280360778694163814694917391535000, 959894699313420529662721492059000),
  (480503043316157507636177115273000, 876993058902925892716950784234000),
  (-876993058902925892716950784234000, 480503043316157507636177115273000),
  (779537640970513256988283501414000, 626355383396779985538671553513000),
  (-626355383396779985538671553513000, 779537640970513256988283501414000),
  (108316213087851151430918150709000, 994116491152977066469986766606000),
  (-994116491152977066469986766606000, 108316213087851151430918150709000),
  (982752705758487832277126017289000, 184924631470150785395034631620000),
  (-184924631470150785395034631620000, 982752705758487832277126017289000),
  (564149641550287683777753500181000, 825672563392221392497560827906000),
  (-825672563392221392497560827906000, 564149641550287683777753500181000),
  (837177517670507298497284409677000, 546931260678202080249832306436000),
  (-546931260678202080249832306436000, 837177517670507298497284409677000),
  (205235096533272320940000099654000, 978712703070200418231650019152000),
  (-978712703070200418231650019152000, 205235096533272320940000099654000),
  (927792382182146324609561816033000, 373096898358560635777791958390000),
  (-373096898358560635777791958390000, 927792382182146324609561816033000),
  (392228938105210311881876350526000, 919867631843222954834971005766000),
  (-919867631843222954834971005766000, 392228938105210311881876350526000),
  (714390390649351503249420147768000, 699747361372564991022215963312000),
  (-699747361372564991022215963312000, 714390390649351503249420147768000),
  (10354185298728843869775495534200, 999946393986597459324627834576000),
  (-999946393986597459324627834576000, 10354185298728843869775495534200)]

/-- twiddles.cu:3332-3587, entries 3328 to 3583 of `negtwiddles`. -/
def tw13 : List (Int × Int) := [
  (999967571556443779456913034664000, 8053312083144971780801490979230),
  (-8053312083144971780801490979230, 999967571556443779456913034664000),
  (701389299229202234364777268638000, 712778402399208976802924553340000),
  (-712778402399208976802924553340000, 701389299229202234364777268638000),
  (920767703426128791832638853521000, 390111312739546856054317913731000),
  (-390111312739546856054317913731000, 920767703426128791832638853521000),
  (375230732334459915477964386810000, 926931441645899134584851708496000),
  (-926931441645899134584851708496000, 375230732334459915477964386810000),
  (979182351815526930138844363682000, 202982565490274463604336574463000),
  (-202982565490274463604336574463000, 979182351815526930138844363682000),
  (548856132466135293590525634499000, 835916829507766356854858713632000),
  (-835916829507766356854858713632000, 548856132466135293590525634499000),
  (826968468566541492492660836433000, 562248301017183149674849573785000),
  (-562248301017183149674849573785000, 826968468566541492492660836433000),
  (187185425590990328625906613524000, 982324598310721275318257994513000),
  (-982324598310721275318257994513000, 187185425590990328625906613524000),
  (994363091759888573228920449765000, 106028494970528408547494336744000),
  (-106028494970528408547494336744000, 994363091759888573228920449765000),
  (628147417352374004551052166789000, 778094352937702793404639578512000),
  (-778094352937702793404639578512000, 628147417352374004551052166789000),
  (878096359977777130012555062422000, 478483837338083972667845955584000),
  (-478483837338083972667845955584000, 878096359977777130012555062422000),
  (282568724605589793874571569177000, 959247056745430093371851398842000),
  (-959247056745430093371851398842000, 282568724605589793874571569177000),
  (954571550547659741781103548419000, 297981802942791751398488031555000),
  (-297981802942791751398488031555000, 954571550547659741781103548419000),
  (464279062988965762759363542500000, 885688970051048962695006139256000),
  (-885688970051048962695006139256000, 464279062988965762759363542500000),
  (767876418736060606384796756174000, 640598006201301028994521402637000),
  (-640598006201301028994521402637000, 767876418736060606384796756174000),
  (89999428601987355169633531204500, 995941817001031348688400157698000),
  (-995941817001031348688400157698000, 89999428601987355169633531204500),
  (998367909528543817643253532879000, 57109694655158055320853804914800),
  (-57109694655158055320853804914800, 998367909528543817643253532879000),
  (665570066584515562801982468955000, 746335371308826323044627315539000),
  (-746335371308826323044627315539000, 665570066584515562801982468955000),
  (900516743557543630771533571533000, 434821336381412293370374300139000),
  (-434821336381412293370374300139000, 900516743557543630771533571533000),
  (329296380381672804116277575304000, 944226611501459811570668989589000),
  (-944226611501459811570668989589000, 329296380381672804116277575304000),
  (968043001372022260397898207884000, 250784264846594495690368376017000),
  (-250784264846594495690368376017000, 968043001372022260397898207884000),
  (507178516462425177380168861418000, 861841025038245334144448861480000),
  (-861841025038245334144448861480000, 507178516462425177380168861418000),
  (798384132303756377524450726924000, 602148467809707210740555183293000),
  (-602148467809707210740555183293000, 798384132303756377524450726924000),
  (138759569074390354259662672121000, 990326098813057331682330186595000),
  (-990326098813057331682330186595000, 138759569074390354259662672121000),
  (987962766207263420881190540968000, 154691863354515429795910108624000),
  (-154691863354515429795910108624000, 987962766207263420881190540968000),
  (589211505972614957293842508079000, 807978837117336312623194771732000),
  (-807978837117336312623194771732000, 589211505972614957293842508079000),
  (853560565354666844761766242300000, 520993628820373921861630606145000),
  (-520993628820373921861630606145000, 853560565354666844761766242300000),
  (235160336021834726061285891774000, 971956591809581715857291328575000),
  (-971956591809581715857291328575000, 235160336021834726061285891774000),
  (938800453247434774084467790090000, 344461476775576480591212202853000),
  (-344461476775576480591212202853000, 938800453247434774084467790090000),
  (420261120586722880521080014660000, 907403212757808108612778141833000),
  (-907403212757808108612778141833000, 420261120586722880521080014660000),
  (735518823617598904718306584982000, 677504287886197431589607731439000),
  (-677504287886197431589607731439000, 735518823617598904718306584982000),
  (41022471623063237744499787140700, 999158224117649429452114873129000),
  (-999158224117649429452114873129000, 41022471623063237744499787140700),
  (999468761847290054767256606283000, 32591319265180225539513259036500),
  (-32591319265180225539513259036500, 999468761847290054767256606283000),
  (683685596226116687468277177686000, 729776681946566085912309063133000),
  (-729776681946566085912309063133000, 683685596226116687468277177686000),
  (910916574533403355928840028355000, 412590589132048268794505929691000),
  (-412590589132048268794505929691000, 910916574533403355928840028355000),
  (352369683518766629859442218731000, 935860890376814635871483005758000),
  (-935860890376814635871483005758000, 352369683518766629859442218731000),
  (973905998872289568879523358191000, 226951768798059838605496452146000),
  (-226951768798059838605496452146000, 973905998872289568879523358191000),
  (528176401321464372706770973309000, 849134670760243626119745385949000),
  (-849134670760243626119745385949000, 528176401321464372706770973309000),
  (812921137083098765963029563864000, 582373784509160108413539091998000),
  (-582373784509160108413539091998000, 812921137083098765963029563864000),
  (163021596389637840607278462812000, 986622500813038483258310407109000),
  (-986622500813038483258310407109000, 163021596389637840607278462812000),
  (991461538662453789605422116438000, 130399453039802715181849634973000),
  (-130399453039802715181849634973000, 991461538662453789605422116438000),
  (608862839766408203701075763092000, 793275514781330626234989722434000),
  (-793275514781330626234989722434000, 608862839766408203701075763092000),
  (866089312574586767112805318902000, 499889290387461382447753521774000),
  (-499889290387461382447753521774000, 866089312574586767112805318902000),
  (258942518959180523197005641123000, 965892733110190859768806603824000),
  (-965892733110190859768806603824000, 258942518959180523197005641123000),
  (946971211921810884781791628484000, 321318414958334908071435620514000),
  (-321318414958334908071435620514000, 946971211921810884781791628484000),
  (442403335401204078625170268424000, 896816195675507299434059405030000),
  (-896816195675507299434059405030000, 442403335401204078625170268424000),
  (751924086653603551688718198420000, 659249700728141485583932990266000),
  (-659249700728141485583932990266000, 751924086653603551688718198420000),
  (65530686730193327127480529270500, 997850554490335106549991905922000),
  (-997850554490335106549991905922000, 65530686730193327127480529270500),
  (996665677712478159655518084037000, 81593669300544652278617263618800),
  (-81593669300544652278617263618800, 996665677712478159655518084037000),
  (647053622422071650355235306051000, 762444496150687101021503622178000),
  (-762444496150687101021503622178000, 647053622422071650355235306051000),
  (889574474967854578189019321144000, 456790163516757219408503942759000),
  (-456790163516757219408503942759000, 889574474967854578189019321144000),
  (306024721418221734570153103050000, 952023565822243567069449454721000),
  (-952023565822243567069449454721000, 306024721418221734570153103050000),
  (961596890965187856004092736839000, 274465697831413224516694526756000),
  (-274465697831413224516694526756000, 961596890965187856004092736839000),
  (485875126229695308843758994044000, 874028238509075627860056556528000),
  (-874028238509075627860056556528000, 485875126229695308843758994044000),
  (783366210776619720235203203629000, 621560439389027163947787357756000),
  (-621560439389027163947787357756000, 783366210776619720235203203629000),
  (114413958183286923464550000062000, 993433161401829356584869401559000),
  (-993433161401829356584869401559000, 114413958183286923464550000062000),
  (983868881924017224527290181868000, 178891093075044749216573336525000),
  (-178891093075044749216573336525000, 983868881924017224527290181868000),
  (569205253199661198593162225734000, 822195463214137167717865395389000),
  (-822195463214137167717865395389000, 569205253199661198593162225734000),
  (840517665166862548709048041928000, 541784140172491546216804181313000),
  (-541784140172491546216804181313000, 840517665166862548709048041928000),
  (211236501291280687198081977840000, 977434980201864256343924353132000),
  (-977434980201864256343924353132000, 211236501291280687198081977840000),
  (930064196284032362882499000989000, 367397047879452764984620216637000),
  (-367397047879452764984620216637000, 930064196284032362882499000989000),
  (397865756187775754249003057339000, 917443644074735220605987251474000),
  (-917443644074735220605987251474000, 397865756187775754249003057339000),
  (718670511545067225434024749120000, 695350771794747690712767962395000),
  (-695350771794747690712767962395000, 718670511545067225434024749120000),
  (16489546112956436629826129092200, 999864038191687676260244188597000),
  (-999864038191687676260244188597000, 16489546112956436629826129092200),
  (999793449309835269289692405437000, 20323846022389593229950932595800),
  (-20323846022389593229950932595800, 999793449309835269289692405437000),
  (692589598450650378858028943796000, 721331857135096177202626677172000),
  (-721331857135096177202626677172000, 692589598450650378858028943796000),
  (915911105401509884060828881047000, 401381174200016843656158016529000),
  (-401381174200016843656158016529000, 915911105401509884060828881047000),
  (363827603476023497819369367789000, 931466303710925092040895378886000),
  (-931466303710925092040895378886000, 363827603476023497819369367789000),
  (976617712861545639313476385723000, 214983354995412823118527967381000),
  (-214983354995412823118527967381000, 976617712861545639313476385723000),
  (538556819231804095871041226928000, 842589195550786707045176626707000),
  (-842589195550786707045176626707000, 538556819231804095871041226928000),
  (820006547809759678280272510165000, 572354139977269915640079034347000),
  (-572354139977269915640079034347000, 820006547809759678280272510165000),
  (175116696955529921320149355779000, 984547684191773964101912497426000),
  (-984547684191773964101912497426000, 175116696955529921320149355779000),
  (992987085312448392038220390532000, 118222875970297167103062463411000),
  (-118222875970297167103062463411000, 992987085312448392038220390532000),
  (618551704365123855566821475804000, 785744098945070357231656998920000),
  (-785744098945070357231656998920000, 618551704365123855566821475804000),
  (872158508207824478830616499181000, 489223401485151976331167134049000),
  (-489223401485151976331167134049000, 872158508207824478830616499181000),
  (270776010717996007404195779600000, 962642380128595709365413313208000),
  (-962642380128595709365413313208000, 270776010717996007404195779600000),
  (950842977962238156131036248553000, 309673426790066430580594669664000),
  (-309673426790066430580594669664000, 950842977962238156131036248553000),
  (453375337524177746129083743654000, 891319697597241389352973328641000),
  (-891319697597241389352973328641000, 453375337524177746129083743654000),
  (759957476095110440184043909539000, 649972795220807531002549239929000),
  (-649972795220807531002549239929000, 759957476095110440184043909539000),
  (77770913672857946985494947966800, 996971255847674320271778469760000),
  (-996971255847674320271778469760000, 77770913672857946985494947966800),
  (997591910456652630756479993579000, 69356904425197193897467684564600),
  (-69356904425197193897467684564600, 997591910456652630756479993579000),
  (656361267299577999523307880736000, 754446742181906437885174909752000),
  (-754446742181906437885174909752000, 656361267299577999523307880736000),
  (895113009626081757019733231573000, 445839320829980290117333652233000),
  (-445839320829980290117333652233000, 895113009626081757019733231573000),
  (317684471956417913141024200741000, 948196486113385583749391116726000),
  (-948196486113385583749391116726000, 317684471956417913141024200741000),
  (964892600806868894203205400117000, 262644758006240042202961149087000),
  (-262644758006240042202961149087000, 964892600806868894203205400117000),
  (496564211717949233193536429098000, 867999990576573510203672867647000),
  (-867999990576573510203672867647000, 496564211717949233193536429098000),
  (790934727470523291081860861595000, 611900528583796066151023751445000),
  (-611900528583796066151023751445000, 790934727470523291081860861595000),
  (126596296097105875944066610828000, 991954322443575953194283556513000),
  (-991954322443575953194283556513000, 126596296097105875944066610828000),
  (985990067304330142228252498171000, 166804038252083730586861065603000),
  (-166804038252083730586861065603000, 985990067304330142228252498171000),
  (579251996196123553062307109940000, 815148529350820938432775619731000),
  (-815148529350820938432775619731000, 579251996196123553062307109940000),
  (847102900551231496883985983004000, 531428900115236801937612654001000),
  (-531428900115236801937612654001000, 847102900551231496883985983004000),
  (223215226352576984192310760591000, 974769184332561766659352997522000),
  (-974769184332561766659352997522000, 223215226352576984192310760591000),
  (934502691099687865516898455098000, 355956065164566848313398850223000),
  (-355956065164566848313398850223000, 934502691099687865516898455098000),
  (409094242431320975761366298684000, 912492137396012648054011151544000),
  (-912492137396012648054011151544000, 409094242431320975761366298684000),
  (727149420595371021036612546595000, 686479220463238948291007091029000),
  (-686479220463238948291007091029000, 727149420595371021036612546595000),
  (28758174305644614715538054383600, 999586398172067069900492697343000),
  (-999586398172067069900492697343000, 28758174305644614715538054383600),
  (998993558065545683710695357149000, 44853884375169815468264999935900),
  (-44853884375169815468264999935900, 998993558065545683710695357149000),
  (674678633465584542960868930095000, 738111605074064258680266448209000),
  (-738111605074064258680266448209000, 674678633465584542960868930095000),
  (905784862979786553616179389792000, 423737869438983838499268586020000),
  (-423737869438983838499268586020000, 905784862979786553616179389792000),
  (340858697983289438138143623291000, 940114539834980278421028287994000),
  (-940114539834980278421028287994000, 340858697983289438138143623291000),
  (971047618221911101876742122840000, 238886004499120063737649388713000),
  (-238886004499120063737649388713000, 971047618221911101876742122840000),
  (517716441987871145435917696886000, 855552269411646970631579733890000),
  (-855552269411646970631579733890000, 517716441987871145435917696886000),
  (805713303423352122933920327341000, 592305725691242401786951177201000),
  (-592305725691242401786951177201000, 805713303423352122933920327341000),
  (150901945370970042015201784125000, 988548735714763204818211761449000),
  (-988548735714763204818211761449000, 150901945370970042015201784125000),
  (989786681551618641172751722479000, 142556392431327338954361039214000),
  (-142556392431327338954361039214000, 989786681551618641172751722479000),
  (599082282663597198713034686079000, 800687466242961609630413022387000),
  (-800687466242961609630413022387000, 599082282663597198713034686079000),
  (859889687076602293736016235925000, 510479897801375703814130702085000),
  (-510479897801375703814130702085000, 859889687076602293736016235925000),
  (247070031409475254768892682478000, 968997626199012418446443462017000),
  (-968997626199012418446443462017000, 247070031409475254768892682478000),
  (942956835500102119596022021142000, 332915013755212652046822086049000),
  (-332915013755212652046822086049000, 942956835500102119596022021142000),
  (431364708963206389125133455309000, 902177636533453619627209718601000),
  (-902177636533453619627209718601000, 431364708963206389125133455309000),
  (743777460210440777288454228255000, 668427325655456816555499699462000),
  (-668427325655456816555499699462000, 743777460210440777288454228255000),
  (53280591107147945439947989143500, 998579580509872499760604114272000),
  (-998579580509872499760604114272000, 53280591107147945439947989143500),
  (995589350783264603883537802176000, 93818146469420549138362730445800),
  (-93818146469420549138362730445800, 995589350783264603883537802176000),
  (637648533649078808061005929630000, 770327428782838774523611391487000),
  (-770327428782838774523611391487000, 637648533649078808061005929630000),
  (883901973665809470581677942391000, 467672215285114767358010112730000),
  (-467672215285114767358010112730000, 883901973665809470581677942391000),
  (294318884682627401883081574852000, 955707274283906560441437250120000),
  (-955707274283906560441437250120000, 294318884682627401883081574852000),
  (958156368168758820758057481726000, 286245304132057176715875357331000),
  (-286245304132057176715875357331000, 958156368168758820758057481726000),
  (475112869734620302253347290389000, 879924861003786862312381344964000),
  (-879924861003786862312381344964000, 475112869734620302253347290389000),
  (775679722012820649368336489715000, 631126745478365336339265923016000),
  (-631126745478365336339265923016000, 775679722012820649368336489715000),
  (102214389948213205117077961859000, 994762392980109932949517315137000),
  (-994762392980109932949517315137000, 102214389948213205117077961859000),
  (981599529509040724661872445722000, 190951207557401803072139045980000),
  (-190951207557401803072139045980000, 981599529509040724661872445722000),
  (559072789985768481280103969766000, 829118577464965977874555846938000),
  (-829118577464965977874555846938000, 559072789985768481280103969766000),
  (833805850913786339440036954329000, 552057789531074982747327339894000),
  (-552057789531074982747327339894000, 833805850913786339440036954329000),
  (199225964789878834393377360357000, 979953577958436738981617963873000),
  (-979953577958436738981617963873000, 199225964789878834393377360357000),
  (925485637221461487911255971994000, 378782701950320543904382475375000),
  (-378782701950320543904382475375000, 925485637221461487911255971994000),
  (386577352824813924581093260713000, 922256987115283033418222657929000),
  (-922256987115283033418222657929000, 386577352824813924581093260713000),
  (710083373359202796315514660819000, 704117605857725425977378108655000),
  (-704117605857725425977378108655000, 710083373359202796315514660819000),
  (4218434655276962971792720225040, 999991102364945594338507817156000),
  (-999991102364945594338507817156000, 4218434655276962971792720225040)]

/-- twiddles.cu:3588-3843, entries 3584 to 3839 of `negtwiddles`. -/
def tw14 : List (Int × Int) := [
  (999987572731904084122334097628000, 4985416908821510562077605754890),
  (-4985416908821510562077605754890, 999987572731904084122334097628000),
  (703572771677735575579504256893000, 710623215884275016840376792970000),
  (-710623215884275016840376792970000, 703572771677735575579504256893000),
  (921960214758209217755791087257000, 387284601298575781314070809458000),
  (-387284601298575781314070809458000, 921960214758209217755791087257000),
  (378072752012384050157578485596000, 925775887667086738730404249509000),
  (-925775887667086738730404249509000, 378072752012384050157578485596000),
  (979800485331479786843544843578000, 199977521097239180347671094751000),
  (-199977521097239180347671094751000, 979800485331479786843544843578000),
  (551418106135026064862358907703000, 834229028640493419644030836935000),
  (-834229028640493419644030836935000, 551418106135026064862358907703000),
  (828689530173025712400658449042000, 559708551463714787388425975223000),
  (-559708551463714787388425975223000, 828689530173025712400658449042000),
  (190198274055548149918948297454000, 981745698511732989288702810882000),
  (-981745698511732989288702810882000, 190198274055548149918948297454000),
  (994683702936040248232529847883000, 102977333008032218009120128954000),
  (-102977333008032218009120128954000, 994683702936040248232529847883000),
  (630531621003334596942124790075000, 776163561960304337894456239155000),
  (-776163561960304337894456239155000, 630531621003334596942124790075000),
  (879560195213827888949253974715000, 475787623835901118951596799889000),
  (-475787623835901118951596799889000, 879560195213827888949253974715000),
  (285510323278461319862486789134000, 958375633716461172717515637487000),
  (-958375633716461172717515637487000, 285510323278461319862486789134000),
  (955481253439748767775085980247000, 295051816339446659753775747959000),
  (-295051816339446659753775747959000, 955481253439748767775085980247000),
  (466994133468838057421379517109000, 884260413738899075930532944767000),
  (-884260413738899075930532944767000, 466994133468838057421379517109000),
  (769838131948879844657085413928000, 638239179773115394844751335768000),
  (-638239179773115394844751335768000, 769838131948879844657085413928000),
  (93054511480527249411842660720100, 995661015553546913103843962745000),
  (-995661015553546913103843962745000, 93054511480527249411842660720100),
  (998538421092996730799029592163000, 54046476306093667318908302377200),
  (-54046476306093667318908302377200, 998538421092996730799029592163000),
  (667856658934889435563775350602000, 744289918725443144786879656749000),
  (-744289918725443144786879656749000, 667856658934889435563775350602000),
  (901846518613901748651073830843000, 432056543595841502369836462094000),
  (-432056543595841502369836462094000, 901846518613901748651073830843000),
  (332191677068729207533692715515000, 943211900734010622038283599977000),
  (-943211900734010622038283599977000, 332191677068729207533692715515000),
  (968807840858700974884243350971000, 247813170535187643483965302948000),
  (-247813170535187643483965302948000, 968807840858700974884243350971000),
  (509820220585115446709778552759000, 860280967290654507984015708644000),
  (-860280967290654507984015708644000, 509820220585115446709778552759000),
  (800227740420124789011424581986000, 599696225986208308889047202683000),
  (-599696225986208308889047202683000, 800227740420124789011424581986000),
  (141797193697830392622449835471000, 989895729791486655990695453511000),
  (-989895729791486655990695453511000, 141797193697830392622449835471000),
  (988432704614708335100203839829000, 151660108295005313649994604930000),
  (-151660108295005313649994604930000, 988432704614708335100203839829000),
  (591687577168735434618440649501000, 806167359190504417831846240006000),
  (-806167359190504417831846240006000, 591687577168735434618440649501000),
  (855154934263109622882836902136000, 518372490016066111984116560052000),
  (-518372490016066111984116560052000, 855154934263109622882836902136000),
  (238141150111664839927883008386000, 971230555853497379281691337383000),
  (-971230555853497379281691337383000, 238141150111664839927883008386000),
  (939852827990986683381890998135000, 341579656474657156195462448522000),
  (-341579656474657156195462448522000, 939852827990986683381890998135000),
  (423043016581179043278382323479000, 906109599398381981849581734423000),
  (-906109599398381981849581734423000, 423043016581179043278382323479000),
  (737593915987913573140133394190000, 675244559472799266153231201315000),
  (-675244559472799266153231201315000, 737593915987913573140133394190000),
  (44087652794454944282787067777500, 999027666719533691264132357901000),
  (-999027666719533691264132357901000, 44087652794454944282787067777500),
  (999564046915327741871237776650000, 29524838936942975758936924535200),
  (-29524838936942975758936924535200, 999564046915327741871237776650000),
  (685921301978343556093875577062000, 727675729629849610269332060852000),
  (-727675729629849610269332060852000, 685921301978343556093875577062000),
  (912178097674807175643252321606000, 409793994736831146408206905107000),
  (-409793994736831146408206905107000, 912178097674807175643252321606000),
  (355239205947763314608067730660000, 934775431083638697060678168782000),
  (-934775431083638697060678168782000, 355239205947763314608067730660000),
  (974597693699155054325444780261000, 223962799224085462590494444157000),
  (-223962799224085462590494444157000, 974597693699155054325444780261000),
  (530779024078570138556187885115000, 847510252208314329713800816535000),
  (-847510252208314329713800816535000, 530779024078570138556187885115000),
  (814704008912187083168987555837000, 579877036846960347560298032477000),
  (-579877036846960347560298032477000, 814704008912187083168987555837000),
  (166047744352825793479055960233000, 986117714370520093147831630631000),
  (-986117714370520093147831630631000, 166047744352825793479055960233000),
  (991856932539495472767043793283000, 127357078222385400323446447146000),
  (-127357078222385400323446447146000, 991856932539495472767043793283000),
  (611293709322410894202448616852000, 791403816608719501424218378816000),
  (-791403816608719501424218378816000, 611293709322410894202448616852000),
  (867618875322536231564640729630000, 497229813249424223986494553174000),
  (-497229813249424223986494553174000, 867618875322536231564640729630000),
  (261904617469222611436663328277000, 965093762982799585614657189581000),
  (-965093762982799585614657189581000, 261904617469222611436663328277000),
  (947952546299198672841157531366000, 318411636038737788645391901809000),
  (-318411636038737788645391901809000, 947952546299198672841157531366000),
  (445152646679523644746012678297000, 895454700782912449419370659598000),
  (-895454700782912449419370659598000, 445152646679523644746012678297000),
  (753943097533499750895202851098000, 656939727586627109090500198363000),
  (-656939727586627109090500198363000, 753943097533499750895202851098000),
  (68591740687380942098627656378100, 997644813102075422861503284366000),
  (-997644813102075422861503284366000, 68591740687380942098627656378100),
  (996911313063555737379317633895000, 78535558098845478780525297679600),
  (-78535558098845478780525297679600, 996911313063555737379317633895000),
  (649389724012861768720483723882000, 760455775404789258153925857187000),
  (-760455775404789258153925857187000, 649389724012861768720483723882000),
  (890971700932396859506923192384000, 454058837748624433139355005551000),
  (-454058837748624433139355005551000, 890971700932396859506923192384000),
  (308944048344875710210288843882000, 951080214804345014378839096025000),
  (-951080214804345014378839096025000, 308944048344875710210288843882000),
  (962434414400972104708387178107000, 271514268458690699592494866010000),
  (-271514268458690699592494866010000, 962434414400972104708387178107000),
  (488554320454186230548998537415000, 872533481286276058064288463356000),
  (-872533481286276058064288463356000, 488554320454186230548998537415000),
  (785269444659675852626889991370000, 619154180543008414439043463062000),
  (-619154180543008414439043463062000, 785269444659675852626889991370000),
  (117461229715489987035503816060000, 993077469039412297213686997566000),
  (-993077469039412297213686997566000, 117461229715489987035503816060000),
  (984413081788540700323153487261000, 175871783989325042307783064643000),
  (-175871783989325042307783064643000, 984413081788540700323153487261000),
  (571725034543197119241142445389000, 820445296699652049099427131296000),
  (-820445296699652049099427131296000, 571725034543197119241142445389000),
  (842175879847585573401147485129000, 539202918577918244302793482348000),
  (-539202918577918244302793482348000, 842175879847585573401147485129000),
  (214234235429950986562275261349000, 976782315753998653384826411639000),
  (-976782315753998653384826411639000, 214234235429950986562275261349000),
  (931186977482553746021665119770000, 364541922098002180163689445180000),
  (-364541922098002180163689445180000, 931186977482553746021665119770000),
  (400678561188243242963125112510000, 916218691472794222185882517806000),
  (-916218691472794222185882517806000, 400678561188243242963125112510000),
  (720800435447749299200381756236000, 693142649285365397560099154362000),
  (-693142649285365397560099154362000, 720800435447749299200381756236000),
  (19557008148029086241903584664200, 999808743426610524451803030388000),
  (-999808743426610524451803030388000, 19557008148029086241903584664200),
  (999851096772332192941235007311000, 17256427300120877332822999505900),
  (-17256427300120877332822999505900, 999851096772332192941235007311000),
  (694799353941554898028698517010000, 719203627467491224400930605043000),
  (-719203627467491224400930605043000, 694799353941554898028698517010000),
  (917138215037350712499630844832000, 398569309553686301761388222076000),
  (-398569309553686301761388222076000, 917138215037350712499630844832000),
  (366683589579984925421740626916000, 930345712696488469362066098256000),
  (-930345712696488469362066098256000, 366683589579984925421740626916000),
  (977272676350500857367364915262000, 211986122325800330212786093398000),
  (-211986122325800330212786093398000, 977272676350500857367364915262000),
  (541139311901750907907171495026000, 840932961129779665832018054061000),
  (-840932961129779665832018054061000, 541139311901750907907171495026000),
  (821758646457351749070596724778000, 569835701735667998768519737496000),
  (-569835701735667998768519737496000, 821758646457351749070596724778000),
  (178136422549186296260259609880000, 984005800268157870824836663814000),
  (-984005800268157870824836663814000, 178136422549186296260259609880000),
  (993345114798006911804861829296000, 115175878147008192708966589635000),
  (-115175878147008192708966589635000, 993345114798006911804861829296000),
  (620959422265335181378986817435000, 783842711199065234062288709538000),
  (-783842711199065234062288709538000, 620959422265335181378986817435000),
  (873655319906992633427478267549000, 486545354513030270382500930282000),
  (-486545354513030270382500930282000, 873655319906992633427478267549000),
  (273728081594960537259453303705000, 961807120656913538958576737059000),
  (-961807120656913538958576737059000, 273728081594960537259453303705000),
  (951788567798152129739719384816000, 306754824263192782396458824223000),
  (-306754824263192782396458824223000, 951788567798152129739719384816000),
  (456107734147714105610305068694000, 889924566944096717691081721568000),
  (-889924566944096717691081721568000, 456107734147714105610305068694000),
  (761947988023355504694222872786000, 647638219646710311394599557389000),
  (-647638219646710311394599557389000, 761947988023355504694222872786000),
  (80829212374989328759866680229600, 996727966110532492827189798845000),
  (-996727966110532492827189798845000, 80829212374989328759866680229600),
  (997799999583146468573602305696000, 66296009170032130231042799550800),
  (-66296009170032130231042799550800, 997799999583146468573602305696000),
  (658672788323441893432175220369000, 752429503622912387861276783951000),
  (-752429503622912387861276783951000, 658672788323441893432175220369000),
  (896476612813344120311853657768000, 443091054613736878842189526040000),
  (-443091054613736878842189526040000, 896476612813344120311853657768000),
  (320592002694990330091684427316000, 947217381495934818147475198202000),
  (-947217381495934818147475198202000, 320592002694990330091684427316000),
  (965693842600133689479946497158000, 259683273169813766401148313889000),
  (-259683273169813766401148313889000, 965693842600133689479946497158000),
  (499224861233555083916968442281000, 866472468071743051609701069538000),
  (-866472468071743051609701069538000, 499224861233555083916968442281000),
  (792808289546014122173289706552000, 609471095317180244776977815491000),
  (-609471095317180244776977815491000, 792808289546014122173289706552000),
  (129638973282923591900939186417000, 991561262154865286078120334423000),
  (-991561262154865286078120334423000, 129638973282923591900939186417000),
  (986497174624562878086919681664000, 163778278345312666708366577950000),
  (-163778278345312666708366577950000, 986497174624562878086919681664000),
  (581750110569369649482496242854000, 813367573027426682408247415879000),
  (-813367573027426682408247415879000, 581750110569369649482496242854000),
  (848729314811817014962969096814000, 528827524036961871267692458787000),
  (-528827524036961871267692458787000, 848729314811817014962969096814000),
  (226204725570620185370884769327000, 974079782219875678350717862486000),
  (-974079782219875678350717862486000, 226204725570620185370884769327000),
  (935590350969512374312841984647000, 353087376116372475554072707382000),
  (-353087376116372475554072707382000, 935590350969512374312841984647000),
  (411891803579992166195467007128000, 911232759586496188219939540431000),
  (-911232759586496188219939540431000, 411891803579992166195467007128000),
  (729252087058786968576384879270000, 684245126778703083303412313398000),
  (-684245126778703083303412313398000, 729252087058786968576384879270000),
  (31824726814640887095908539095000, 999493465092780586367382511526000),
  (-999493465092780586367382511526000, 31824726814640887095908539095000),
  (999126466389543388402216805844000, 41788804241622061474981109086000),
  (-41788804241622061474981109086000, 999126466389543388402216805844000),
  (676939952790071131083493582992000, 736038246503927462427441241744000),
  (-736038246503927462427441241744000, 676939952790071131083493582992000),
  (907080609646008451107945802505000, 420956966451709435617090093729000),
  (-420956966451709435617090093729000, 907080609646008451107945802505000),
  (343741324597798492135325432173000, 939064375729241951340497962519000),
  (-939064375729241951340497962519000, 343741324597798492135325432173000),
  (971775940219990141955008766672000, 235905748148607374847784967642000),
  (-235905748148607374847784967642000, 971775940219990141955008766672000),
  (520338802886721962792648810137000, 853959911360254175782813490514000),
  (-853959911360254175782813490514000, 520338802886721962792648810137000),
  (807526679939997160673215148563000, 589831044609458898797527126590000),
  (-589831044609458898797527126590000, 807526679939997160673215148563000),
  (153934059976937376301719950789000, 988081122772324071945604373468000),
  (-988081122772324071945604373468000, 153934059976937376301719950789000),
  (990219380275280003367299741512000, 139519098790238493812410069950000),
  (-139519098790238493812410069950000, 990219380275280003367299741512000),
  (601535937795377617653969082312000, 798845739514604580300272118620000),
  (-798845739514604580300272118620000, 601535937795377617653969082312000),
  (861451770526809323946793028881000, 507839391004897833248321603605000),
  (-507839391004897833248321603605000, 861451770526809323946793028881000),
  (250041711471454652926382777878000, 968235065737874323055223158008000),
  (-968235065737874323055223158008000, 250041711471454652926382777878000),
  (943973766633615984922300867765000, 330020496193105417059854289619000),
  (-330020496193105417059854289619000, 943973766633615984922300867765000),
  (434130520860143309658241150828000, 900849982437531449086520751734000),
  (-900849982437531449086520751734000, 434130520860143309658241150828000),
  (745824665986375978654621121677000, 666142302819983544992510360316000),
  (-666142302819983544992510360316000, 745824665986375978654621121677000),
  (56343939335925290190498770925800, 998411418454391297316874442913000),
  (-998411418454391297316874442913000, 56343939335925290190498770925800),
  (995872495367145726952173845348000, 90763279861485621213823549169300),
  (-90763279861485621213823549169300, 995872495367145726952173845348000),
  (640008863998488441993117703532000, 768367525344066271131282519491000),
  (-768367525344066271131282519491000, 640008863998488441993117703532000),
  (885332611990540585544806617690000, 464958241292706686564883966639000),
  (-464958241292706686564883966639000, 885332611990540585544806617690000),
  (297249568157465837714426015737000, 954799818930753718682069575152000),
  (-954799818930753718682069575152000, 297249568157465837714426015737000),
  (959030047119113659981337605132000, 283304374697445737751877459232000),
  (-283304374697445737751877459232000, 959030047119113659981337605132000),
  (477810205191200987329125382530000, 878463094167957869728979858337000),
  (-878463094167957869728979858337000, 477810205191200987329125382530000),
  (777612341083420033349682398693000, 628744023426674791821255894320000),
  (-628744023426674791821255894320000, 777612341083420033349682398693000),
  (105265796918917589608533091905000, 994444122109948036580817642971000),
  (-994444122109948036580817642971000, 105265796918917589608533091905000),
  (982180739963357085642314814322000, 187938803989575881070450691368000),
  (-187938803989575881070450691368000, 982180739963357085642314814322000),
  (561613858829792422788784733712000, 827399464328029354831528507930000),
  (-827399464328029354831528507930000, 561613858829792422788784733712000),
  (835495616293615350755885629042000, 549497111142680960682582735899000),
  (-549497111142680960682582735899000, 835495616293615350755885629042000),
  (202231482401441453600199338325000, 979337749464256779319271117856000),
  (-979337749464256779319271117856000, 202231482401441453600199338325000),
  (926643370661961229828307295975000, 375941569407054421159131152308000),
  (-375941569407054421159131152308000, 926643370661961229828307295975000),
  (389404978078990937628844903884000, 921066644194273642654025024967000),
  (-921066644194273642654025024967000, 389404978078990937628844903884000),
  (712240233942445510884056147916000, 701935787058624360845726641855000),
  (-701935787058624360845726641855000, 712240233942445510884056147916000),
  (7286344267926521400813300033410, 999973454241265935493743199913000),
  (-999973454241265935493743199913000, 7286344267926521400813300033410)]

/-- twiddles.cu:3844-4099, entries 3840 to 4095 of `negtwiddles`. -/
def tw15 : List (Int × Int) := [
  (999938158305364588329666730715000, 11121131456628021230703673438700),
  (-11121131456628021230703673438700, 999938158305364588329666730715000),
  (699199225037462124276999020367000, 714926879972359485826416403143000),
  (-714926879972359485826416403143000, 699199225037462124276999020367000),
  (919566525477751528505621081422000, 392934352304269485234300418597000),
  (-392934352304269485234300418597000, 919566525477751528505621081422000),
  (372385180841977359023076132871000, 928078270992963139107700953900000),
  (-928078270992963139107700953900000, 372385180841977359023076132871000),
  (978555001862359552511350102577000, 205985699334097910329077762981000),
  (-205985699334097910329077762981000, 978555001862359552511350102577000),
  (546288992754295210652060177381000, 837596762407483041990019501100000),
  (-837596762407483041990019501100000, 546288992754295210652060177381000),
  (825239623217882134476042210736000, 564782758475511403872815208160000),
  (-564782758475511403872815208160000, 825239623217882134476042210736000),
  (184170815265917720005006685824000, 982894252096474074775755980227000),
  (-982894252096474074775755980227000, 184170815265917720005006685824000),
  (994033121259616403442294085835000, 109078658952449225605363380964000),
  (-109078658952449225605363380964000, 994033121259616403442294085835000),
  (625757301338692895065207721927000, 780017820194715993942224940838000),
  (-780017820194715993942224940838000, 625757301338692895065207721927000),
  (876624259764365310054756719182000, 481175547168160355759880530968000),
  (-481175547168160355759880530968000, 876624259764365310054756719182000),
  (279624466288266593227973544344000, 960109450975773937031476634729000),
  (-960109450975773937031476634729000, 279624466288266593227973544344000),
  (953652862864590500358019653504000, 300908984827921888172141962059000),
  (-300908984827921888172141962059000, 953652862864590500358019653504000),
  (461559622537733083014188650850000, 887109189921300167469553343835000),
  (-887109189921300167469553343835000, 461559622537733083014188650850000),
  (765907477977944228797468895209000, 642950803077082078118564822944000),
  (-642950803077082078118564822944000, 765907477977944228797468895209000),
  (86943498614549377667692908744400, 996213244264832042951240964612000),
  (-996213244264832042951240964612000, 86943498614549377667692908744400),
  (998188000945100295524525790825000, 60172375466026266355168417021600),
  (-60172375466026266355168417021600, 998188000945100295524525790825000),
  (663277209635194098247268357227000, 748373799099454561911670680274000),
  (-748373799099454561911670680274000, 663277209635194098247268357227000),
  (899178492494635328569074772531000, 437582036462964396594799154627000),
  (-437582036462964396594799154627000, 899178492494635328569074772531000),
  (326397984231672488864006709264000, 945232434848434999175026405283000),
  (-945232434848434999175026405283000, 326397984231672488864006709264000),
  (967269050295937793393363790528000, 253752998680989994007006771426000),
  (-253752998680989994007006771426000, 967269050295937793393363790528000),
  (504532038582380271130034543603000, 863392970809878423921190915280000),
  (-863392970809878423921190915280000, 504532038582380271130034543603000),
  (796533009491872001639478639845000, 604595041982500358557217623456000),
  (-604595041982500358557217623456000, 796533009491872001639478639845000),
  (135720638393039910729598318540000, 990747146508222709115898396703000),
  (-990747146508222709115898396703000, 135720638393039910729598318540000),
  (987483528717999714530151322833000, 157722162395293630243742200037000),
  (-157722162395293630243742200037000, 987483528717999714530151322833000),
  (586729888893400497451580122288000, 809782710039636421939235333411000),
  (-809782710039636421939235333411000, 586729888893400497451580122288000),
  (851958162409106378731848963071000, 523609863834227917678276753577000),
  (-523609863834227917678276753577000, 851958162409106378731848963071000),
  (232177308513361713160350063845000, 972673479340056434949701724690000),
  (-972673479340056434949701724690000, 232177308513361713160350063845000),
  (937739242156476970890821576177000, 347340054873889136910491970411000),
  (-347340054873889136910491970411000, 937739242156476970890821576177000),
  (417475268934544285759358217547000, 908688285292613362464919646300000),
  (-908688285292613362464919646300000, 417475268934544285759358217547000),
  (733436808263995709822324897686000, 679757639371212030177105134499000),
  (-679757639371212030177105134499000, 733436808263995709822324897686000),
  (37956904332545310376545444341900, 999279377058032713954105474841000),
  (-999279377058032713954105474841000, 37956904332545310376545444341900),
  (999364069398620546991196533781000, 35657492831508222352887571560100),
  (-35657492831508222352887571560100, 999364069398620546991196533781000),
  (681443455364677985741650445561000, 731870765327218286699917371152000),
  (-731870765327218286699917371152000, 681443455364677985741650445561000),
  (909646477498279537599046307150000, 415383300067506289199315006044000),
  (-415383300067506289199315006044000, 909646477498279537599046307150000),
  (349496844452109489687074983522000, 936937540990869899282245114591000),
  (-936937540990869899282245114591000, 349496844452109489687074983522000),
  (973205137271252795905240873253000, 229938602215552206908810717323000),
  (-229938602215552206908810717323000, 973205137271252795905240873253000),
  (525568807166914675477187302022000, 850751096933260786414621179574000),
  (-850751096933260786414621179574000, 525568807166914675477187302022000),
  (811130613730669192129596467566000, 584865050647504491898587275500000),
  (-584865050647504491898587275500000, 811130613730669192129596467566000),
  (159993914005098269992544146589000, 987118000788826277513976492628000),
  (-987118000788826277513976492628000, 159993914005098269992544146589000),
  (991056812771814343854259732325000, 133440600487905652871134520865000),
  (-133440600487905652871134520865000, 991056812771814343854259732325000),
  (606426239361473551348069577216000, 795139746342679587520763107023000),
  (-795139746342679587520763107023000, 606426239361473551348069577216000),
  (864551597864179344199442311947000, 502544062377115685613659934461000),
  (-502544062377115685613659934461000, 864551597864179344199442311947000),
  (255977983183532376010305142700000, 966682611887320186738747906929000),
  (-966682611887320186738747906929000, 255977983183532376010305142700000),
  (945980964290724757326245253353000, 324222169506637014624317316702000),
  (-324222169506637014624317316702000, 945980964290724757326245253353000),
  (439649860054203422965457548344000, 898169249392518076469116294902000),
  (-898169249392518076469116294902000, 439649860054203422965457548344000),
  (749897998377835328653873148141000, 661553468760398999393146368675000),
  (-661553468760398999393146368675000, 749897998377835328653873148141000),
  (62469015973224996385315677116500, 998046903729146839268082658236000),
  (-998046903729146839268082658236000, 62469015973224996385315677116500),
  (996410661364464100842042171280000, 84651012511553616612935968532800),
  (-84651012511553616612935968532800, 996410661364464100842042171280000),
  (644711430516158423564831991825000, 764426040478612067730068702076000),
  (-764426040478612067730068702076000, 644711430516158423564831991825000),
  (888168875989561734662913750071000, 459517189801903480628197939950000),
  (-459517189801903480628197939950000, 888168875989561734662913750071000),
  (303102514070341000351760385456000, 952957956031764696902541800227000),
  (-952957956031764696902541800227000, 303102514070341000351760385456000),
  (960750316613243948715705755603000, 277414543828458093344124790747000),
  (-277414543828458093344124790747000, 960750316613243948715705755603000),
  (483191358763471912052267498439000, 875514769045222740473377598391000),
  (-875514769045222740473377598391000, 483191358763471912052267498439000),
  (781455603552444588721925811114000, 623960847871470658532189190737000),
  (-623960847871470658532189190737000, 781455603552444588721925811114000),
  (111365609743335161607724614896000, 993779503192984581261271159747000),
  (-993779503192984581261271159747000, 111365609743335161607724614896000),
  (983315421510872811339254440099000, 181908718369666155822983455437000),
  (-181908718369666155822983455437000, 983315421510872811339254440099000),
  (566680114279501601082245088037000, 823937890911791370740502316039000),
  (-823937890911791370740502316039000, 566680114279501601082245088037000),
  (838851539213765762248442570126000, 544360262288400287289391599188000),
  (-544360262288400287289391599188000, 838851539213765762248442570126000),
  (208236778914211329016836771189000, 978078444659442380881841927476000),
  (-978078444659442380881841927476000, 208236778914211329016836771189000),
  (928932660967082823866292073944000, 370248715579966358735219955634000),
  (-370248715579966358735219955634000, 928932660967082823866292073944000),
  (395049206323284773922921431222000, 918659961347691900179768254020000),
  (-918659961347691900179768254020000, 395049206323284773922921431222000),
  (716533823241826683947408582753000, 697552349397843163281152101263000),
  (-697552349397843163281152101263000, 716533823241826683947408582753000),
  (13421928871995766896496604658800, 999909921855641536936332158803000),
  (-999909921855641536936332158803000, 13421928871995766896496604658800),
  (999726391410624470879042746674000, 23391073448879258489530030829000),
  (-23391073448879258489530030829000, 999726391410624470879042746674000),
  (690373324042674041400857731787000, 723453297352544377751826232270000),
  (-723453297352544377751826232270000, 690373324042674041400857731787000),
  (914675374861522394454027562460000, 404189260893870694335561211119000),
  (-404189260893870694335561211119000, 914675374861522394454027562460000),
  (360968192888095229520217799291000, 932578127409764423561000512564000),
  (-932578127409764423561000512564000, 360968192888095229520217799291000),
  (975953557074734301401974789769000, 217978564159812204792388001806000),
  (-217978564159812204792388001806000, 975953557074734301401974789769000),
  (535969257459966708090348674887000, 844237499201387020519860016066000),
  (-844237499201387020519860016066000, 535969257459966708090348674887000),
  (818246730948242073644394167786000, 574867191003726740738954958942000),
  (-574867191003726740738954958942000, 818246730948242073644394167786000),
  (172095323096829011522146402058000, 985080301177623796071713968558000),
  (-985080301177623796071713968558000, 172095323096829011522146402058000),
  (992619709454266141435141435068000, 121268761034852595726007962185000),
  (-121268761034852595726007962185000, 992619709454266141435141435068000),
  (616138164420696909928665263578000, 787638090968367454713927600096000),
  (-787638090968367454713927600096000, 616138164420696909928665263578000),
  (870653487420617544501055817818000, 491896843700299291057831396756000),
  (-491896843700299291057831396756000, 870653487420617544501055817818000),
  (267821391194094149401649929132000, 963468578843575951253797029494000),
  (-963468578843575951253797029494000, 267821391194094149401649929132000),
  (949888438430089299124858825962000, 312589114552708713379303162583000),
  (-312589114552708713379303162583000, 949888438430089299124858825962000),
  (450638673559297597837058901860000, 892706438809935276523788161285000),
  (-892706438809935276523788161285000, 450638673559297597837058901860000),
  (757959811157672302961429977586000, 652301253003415459907898821257000),
  (-652301253003415459907898821257000, 757959811157672302961429977586000),
  (74711882961268211156280472096100, 997205161711661847157017746213000),
  (-997205161711661847157017746213000, 74711882961268211156280472096100),
  (997374431615167145181999330816000, 72417146866763398849187183259300),
  (-72417146866763398849187183259300, 997374431615167145181999330816000),
  (654043568353492643652202787052000, 756456879600833742571808215871000),
  (-756456879600833742571808215871000, 654043568353492643652202787052000),
  (893740981294271041868171323586000, 448583390636739187673498463482000),
  (-448583390636739187673498463482000, 893740981294271041868171323586000),
  (314773951050606071166981791976000, 949166665944390697262633693754000),
  (-949166665944390697262633693754000, 314773951050606071166981791976000),
  (964082277076968141571455817029000, 265603770730176325098881306985000),
  (-265603770730176325098881306985000, 964082277076968141571455817029000),
  (493898888350867426577650576291000, 869519343134916966597813825501000),
  (-869519343134916966597813825501000, 493898888350867426577650576291000),
  (789053720816151882289091190614000, 614324202409595954144094775984000),
  (-614324202409595954144094775984000, 789053720816151882289091190614000),
  (123552427338735379414025317146000, 992338046080420421723999879760000),
  (-992338046080420421723999879760000, 123552427338735379414025317146000),
  (985473679470071806107966949639000, 169828228135719849767326650181000),
  (-169828228135719849767326650181000, 985473679470071806107966949639000),
  (576748429682482410818522566842000, 816921813185809475577059401985000),
  (-816921813185809475577059401985000, 576748429682482410818522566842000),
  (845468513035528834720366830879000, 534025274182310383253025065642000),
  (-534025274182310383253025065642000, 845468513035528834720366830879000),
  (220223626147812379105772606636000, 975449411546446376597430116817000),
  (-975449411546446376597430116817000, 220223626147812379105772606636000),
  (933406235334631517730485938955000, 358821403818710860100793524907000),
  (-358821403818710860100793524907000, 933406235334631517730485938955000),
  (406292830731837417701513004431000, 913742926482011386113413209387000),
  (-913742926482011386113413209387000, 406292830731837417701513004431000),
  (725039909924675374242042380502000, 688706852743907749214713476249000),
  (-688706852743907749214713476249000, 725039909924675374242042380502000),
  (25691351113759294810812150444700, 999669922763483764782677098992000),
  (-999669922763483764782677098992000, 25691351113759294810812150444700),
  (998851246833715178397028466861000, 47918542326875333825508818108600),
  (-47918542326875333825508818108600, 998851246833715178397028466861000),
  (672410963808849904133069230738000, 740178016256666237993044887844000),
  (-740178016256666237993044887844000, 672410963808849904133069230738000),
  (904480590721468247217273983551000, 426514784044051520339735361631000),
  (-426514784044051520339735361631000, 904480590721468247217273983551000),
  (337972863076899721068713233763000, 941155855224629189770269022119000),
  (-941155855224629189770269022119000, 337972863076899721068713233763000),
  (970310156353828112685278028948000, 241864012363579211628561438374000),
  (-241864012363579211628561438374000, 970310156353828112685278028948000),
  (515089208144697274782686235994000, 857136574679244866992178231158000),
  (-857136574679244866992178231158000, 515089208144697274782686235994000),
  (803892343226241257170272547228000, 594774831765957467943906067376000),
  (-594774831765957467943906067376000, 803892343226241257170272547228000),
  (147868410418422219221312730042000, 989007044060015272357588855812000),
  (-989007044060015272357588855812000, 147868410418422219221312730042000),
  (989344666578752640617722136085000, 145592344277358370918662444637000),
  (-145592344277358370918662444637000, 989344666578752640617722136085000),
  (596622988741213333696578047238000, 802521656595946319967538329365000),
  (-802521656595946319967538329365000, 596622988741213333696578047238000),
  (858319510017173437077531161776000, 513115599766640562151565063687000),
  (-513115599766640562151565063687000, 858319510017173437077531161776000),
  (244096025830264184985907149894000, 969751066085452140264067111275000),
  (-969751066085452140264067111275000, 244096025830264184985907149894000),
  (941931028897729505366953617340000, 335806397794420452562746959302000),
  (-335806397794420452562746959302000, 941931028897729505366953617340000),
  (428594836897344400039600031960000, 903496798989868454832219413220000),
  (-903496798989868454832219413220000, 428594836897344400039600031960000),
  (741723253717784136718194076821000, 670706056998372046606959884230000),
  (-670706056998372046606959884230000, 741723253717784136718194076821000),
  (50216741381155310941508673749900, 998738343554035234994614711468000),
  (-998738343554035234994614711468000, 50216741381155310941508673749900),
  (995296835333246088239889104443000, 96872130025230471228603335021000),
  (-96872130025230471228603335021000, 995296835333246088239889104443000),
  (635282201508823418656390913384000, 772280081606474322342137384112000),
  (-772280081606474322342137384112000, 635282201508823418656390913384000),
  (882463015719070154041503428743000, 470381787368520709602393026216000),
  (-470381787368520709602393026216000, 882463015719070154041503428743000),
  (291385430966355662985023400324000, 956605734156215081753771301010000),
  (-956605734156215081753771301010000, 291385430966355662985023400324000),
  (957273670685755195819410801050000, 289183539316850257705482363235000),
  (-289183539316850257705482363235000, 957273670685755195819410801050000),
  (472411062334764098036288260118000, 881378345651706918140178004251000),
  (-881378345651706918140178004251000, 472411062334764098036288260118000),
  (773739801949261840618987662310000, 633503527124764320710426090955000),
  (-633503527124764320710426090955000, 773739801949261840618987662310000),
  (99162020896742503195397944182300, 995071300767776167894851369056000),
  (-995071300767776167894851369056000, 99162020896742503195397944182300),
  (981009079866112632117847169866000, 193961813819738870812159348134000),
  (-193961813819738870812159348134000, 981009079866112632117847169866000),
  (556526458935723722376565092418000, 830829886622083568781249596213000),
  (-830829886622083568781249596213000, 556526458935723722376565092418000),
  (832108237435735587084195685748000, 554613271741304036943631672330000),
  (-554613271741304036943631672330000, 832108237435735587084195685748000),
  (196218571987660878042092349460000, 980560182756327836095522343385000),
  (-980560182756327836095522343385000, 196218571987660878042092349460000),
  (924319192757675156535412952508000, 381620269246537358043269705377000),
  (-381620269246537358043269705377000, 924319192757675156535412952508000),
  (383746088957365005800426160931000, 923438649402290367973478169006000),
  (-923438649402290367973478169006000, 383746088957365005800426160931000),
  (707919829200816308478749760980000, 706292797233758484765075991163000),
  (-706292797233758484765075991163000, 707919829200816308478749760980000),
  (1150485337113848474319133252660, 999999338191525533048320539820000),
  (-999999338191525533048320539820000, 1150485337113848474319133252660)]

/-- twiddles.cu:3-4099 `negtwiddles`. -/
def negtwiddles : List (Int × Int) :=
  tw0 ++ tw1 ++ tw2 ++ tw3 ++ tw4 ++ tw5 ++ tw6 ++ tw7 ++ tw8 ++ tw9 ++ tw10 ++ tw11 ++ tw12 ++ tw13 ++ tw14 ++ tw15

end Verif.Cuda.Nsm
