import Verif.Ntt.Check
/-
Generated by tools/gen_ntt_params.py from
/repo/concrete-core/src/backends/ntt/private/math/params/params_32_1024.rs.
-/
namespace Verif.Ntt.P32_1024

/-- Entries 0 to 255. -/
def roots0 : List Nat := [
  1, 120858170, 3730494182, 3663386470, 2441236027, 1303993941, 2572034793, 2709936104,
  2052039497, 285324626, 3655917433, 1966483567, 316419785, 2881671576, 28157506, 1822212041,
  1081732708, 3800227556, 2351440416, 323841243, 3051026822, 4057127176, 2069717388, 4098091850,
  3300555442, 2631852021, 2211435208, 3463389382, 2395443992, 925609989, 574838446, 2708693814,
  1702598176, 993488850, 1265948723, 3679615010, 1457018623, 3779940171, 3792243652, 2200373755,
  1558810798, 830588312, 1676421815, 67641709, 1922225646, 2744953418, 3513819348, 3423952118,
  925323965, 2633005578, 3212127999, 758333350, 216779841, 4271282060, 2703240162, 3988021191,
  3272569128, 2574843659, 2045745575, 2562518648, 1061818386, 4031725917, 323866942, 2716830588,
  1332190090, 1225167453, 2880527028, 3822937952, 439929579, 1827673261, 2196649779, 4081818696,
  260011005, 659542021, 2734816395, 2968268057, 3304819312, 2625974350, 2156908616, 3471767942,
  172927644, 3091009164, 1764175113, 3192759773, 2166013894, 4100605744, 4183050632, 1947292043,
  286858717, 1947477396, 1035077167, 1693273451, 3939276132, 51312106, 1429018510, 2394320783,
  4029609127, 1888777058, 2615706159, 1071501634, 2885339281, 2596694135, 2504001809, 1662534499,
  1606118524, 1844254218, 1590886368, 2138176785, 1067561490, 733560335, 4174364426, 686479312,
  3150925739, 963671598, 867374666, 1193744376, 1147080389, 2721467296, 4139356223, 1699480587,
  3047285081, 3710159908, 2321815232, 2611818908, 1599835591, 835188140, 776803607, 2724717644,
  4161337768, 3520408460, 676350754, 1611466473, 3679811678, 90294215, 3128450175, 3904601294,
  988003616, 4019657858, 1012030328, 743766872, 2760488827, 618873208, 3249897916, 2884850860,
  3877171007, 340827735, 22075758, 2642582600, 2954763672, 2556208815, 2255128615, 2866499422,
  3926615353, 2802194916, 1619253408, 1255271005, 186106317, 3532295425, 3800984104, 1331069915,
  3529255883, 151110165, 2110278254, 3714428903, 634325966, 502006115, 3635477279, 1675138789,
  902933202, 2713094673, 3628920616, 1219536810, 2545586873, 2736130119, 2751003733, 3540183423,
  3930638415, 936867493, 722098238, 3351872137, 3126617911, 1163985894, 3071549931, 1714507249,
  991235150, 2528353717, 2569717321, 200333926, 2290660327, 786634521, 3643860732, 402422637,
  2964349369, 3966041720, 2422252486, 3887982736, 2837624655, 174633079, 2757896778, 3666565964,
  2541801386, 2260966654, 3680213739, 762617223, 3759947227, 1117875027, 3655252713, 4176906465,
  2505657182, 1039720670, 506704641, 1046864260, 4079269274, 3173444000, 252379873, 267284100,
  3795803249, 4245321701, 1138657049, 2121409684, 1680932376, 4283202455, 1544714374, 911706639,
  2023908702, 1289838672, 1699147626, 1636999650, 3807415350, 565693461, 3908641927, 1254907203,
  3752025078, 3585148486, 614214865, 3141316800, 2093808432, 2231253574, 2225987090, 2391763954,
  1285074360, 3835674601, 3045622403, 1903788652, 1379108238, 2754406878, 2600987189, 2474629268,
  452177137, 2498120638, 326951151, 2152656015, 2945575951, 2018298263, 201648837, 2235406516]

/-- Entries 256 to 511. -/
def roots1 : List Nat := [
  1512772649, 1543509538, 3991699328, 2617689529, 3007294129, 2404926981, 2662724634, 3638825490,
  966503099, 3570274057, 1574121840, 36031105, 2457505577, 3930541018, 2366476945, 4231845784,
  2188449380, 1971960012, 1472961650, 19383509, 10776709, 3779074950, 3776085093, 995026089,
  3759706448, 2763312205, 3626254588, 837807809, 4065121152, 4103677682, 3023761342, 2091583189,
  3144562852, 223555590, 3633528094, 2355485422, 2865647124, 2018668230, 4161188289, 1808721828,
  3283893994, 3588574241, 1554972919, 3225530882, 633110135, 638637907, 794148413, 1622255694,
  1564532724, 2010434171, 187971905, 907044918, 2110647887, 2081181247, 3534326292, 1555769156,
  2132995244, 16393425, 893569949, 4149370701, 4155063153, 2819840720, 4275163477, 2441770657,
  1645694037, 491906285, 1468037151, 2761233753, 3303245586, 1440974335, 2996103537, 3640806305,
  1933902212, 3664030399, 3695539021, 3057187616, 591504401, 1016583593, 667601357, 3701103979,
  1298601796, 1397760677, 1104995339, 2485310366, 2628742400, 1112674719, 1123186053, 2189219244,
  2674379401, 2700238870, 4112778091, 791555474, 1168596454, 1138999803, 3648220782, 2730678268,
  290740777, 716098577, 2060613308, 2233188586, 1005041490, 2107082489, 2518464337, 2922489886,
  1093912588, 2384020505, 3857240330, 3852678959, 2883841916, 676970573, 255655608, 2356707110,
  2005349682, 394503786, 1324902955, 1745455582, 3905389014, 111042747, 4024290333, 1975513287,
  3825879447, 726633580, 3154969462, 853907372, 3895131589, 18699881, 4004726278, 715721757,
  92683634, 1480608698, 3856887603, 81176894, 704488945, 1149746883, 1942036314, 3094074138,
  947537067, 614913080, 151207508, 1928432073, 2957920500, 4257810053, 610688453, 405357482,
  1834805407, 1392752108, 3639354499, 3881657691, 1268039729, 2567116244, 1001251659, 593048570,
  1081743109, 2461440057, 3744977276, 3787034970, 3323612553, 3831179303, 1319781824, 3187128975,
  911611038, 1675612259, 1864634562, 2648486126, 1143748810, 2898066682, 1552470707, 2188546471,
  3916109528, 2388374720, 3236108666, 2959963515, 2936357426, 2181223642, 719065712, 1254058805,
  1766067763, 2867172693, 1706268817, 2275463151, 3487854551, 329874375, 1507229410, 1752136545,
  2072972482, 2554287030, 2402046744, 1221450297, 2514177240, 278358516, 2128809542, 2936859089,
  1447524476, 3458557758, 1347469688, 1089121971, 3642318455, 3458029780, 119981699, 3252315874,
  3709489474, 46867750, 2632141140, 666648333, 3446790194, 3131065429, 900385015, 2729219214,
  2956243972, 3548717167, 1561364112, 1999064609, 3214488965, 3003669116, 1214339003, 3425433104,
  1166819276, 3302913906, 1405435133, 4052469011, 3881709928, 526491314, 3052266451, 2568442934,
  528119129, 1967409024, 818411805, 3798168561, 552010040, 863915994, 4015918134, 1925588158,
  1516755617, 2851563392, 47060275, 3721063048, 1866583222, 2940020738, 1886200282, 2403687882,
  3797805156, 1924612836, 3176427776, 2981645867, 1405004835, 801457915, 1158517651, 3169004819,
  1888681619, 1590428914, 3386373403, 803493975, 3597475499, 763665894, 130151487, 2743143828]

/-- Entries 512 to 767. -/
def roots2 : List Nat := [
  1449967683, 2673756099, 2755115653, 3820043360, 1866480261, 1378790969, 1535374636, 1151692371,
  2058169869, 747863003, 1389065054, 1743455361, 550016590, 3113096695, 960714163, 3730126736,
  143547384, 2195784440, 3220571180, 2791299518, 796678867, 1547391010, 1519355987, 474943484,
  2275637201, 1885342082, 2939108430, 3672979660, 2955675139, 2745625788, 652331443, 1739614732,
  1670267081, 1510396430, 3654185120, 2064389041, 371905720, 4135096458, 3441771165, 1097845320,
  84249591, 78795509, 1205017903, 1435273971, 2566384444, 2411665873, 2326041189, 3091653238,
  2963242008, 1478388663, 472059999, 991403282, 1236965362, 2336904539, 2780333884, 4060894147,
  301515906, 2511698379, 4159952117, 210952526, 2080654114, 3333495058, 3582770627, 978545087,
  3114160783, 3142590251, 1412029875, 2610675044, 3622645984, 2759208213, 3021098764, 2072221487,
  3724757434, 2067034632, 4135467351, 4251987702, 2309398383, 2301663273, 3772234092, 2280606096,
  383463729, 4018430837, 225937738, 3695850219, 1115930504, 2033543656, 1408798774, 600802366,
  1490964763, 3301756457, 3770642055, 4192920239, 423229412, 344639188, 4192360488, 2173846124,
  3621440773, 2256023538, 2534206346, 336498845, 3201324092, 4011852051, 2188438074, 1304804486,
  4099358302, 4214783431, 1842506089, 2492272948, 2195501885, 3248746682, 4062187632, 2298943432,
  1480746431, 3607017101, 484618345, 364812001, 2119578137, 1174302814, 2566744435, 3657168053,
  127757717, 4287501874, 3881158443, 494852991, 1789178574, 370243079, 393417581, 1254590179,
  3740680984, 2212490997, 3380663191, 2357828639, 611762184, 1340072657, 1615505810, 1688627492,
  1128238922, 1091796704, 4215536220, 3554182822, 2929444312, 3130066016, 3435095450, 4204127084,
  71854911, 3395546045, 1384009397, 884886515, 2263658885, 3693123837, 565419557, 1485695367,
  2784490862, 4126232100, 4196655554, 1600426799, 2672820029, 1202885703, 254717963, 3630376198,
  98872226, 3377486421, 1507682454, 1058313308, 955481621, 233277681, 3266042853, 2679343425,
  880902680, 4189432217, 3539837197, 1812583399, 3424991134, 2171340551, 1869277096, 1593173687,
  4224699047, 1828432494, 3289667333, 3833350559, 2817230869, 3379159829, 34952135, 4244587272,
  2264203941, 4091461203, 2597652361, 812385327, 991241948, 3810039074, 1509631692, 2488621652,
  588498105, 3740309040, 3707275527, 2840082726, 747379990, 1472016490, 2479058013, 176668803,
  2785028843, 4123795283, 405985460, 1755020664, 38682248, 3661520571, 2703846989, 1210428240,
  1883430222, 4161298065, 1470214392, 305388846, 2524035526, 670052408, 3246309168, 3757204337,
  3057273232, 1751640235, 3169309855, 2425219230, 463737633, 2317761497, 2316425111, 1967725778,
  425034725, 1316363932, 2586658220, 2947252897, 992598094, 1611628515, 3591101914, 4120913192,
  1169272621, 3752250302, 2307439616, 227765843, 262759281, 3151968820, 1560574446, 4079942715,
  636046313, 1572285542, 3759598665, 2520599184, 286645979, 3957541507, 2961864756, 3972114804,
  2739847322, 4204603771, 91714992, 1603627072, 3182915393, 3514910145, 2028685048, 2480426028]

/-- Entries 768 to 1023. -/
def roots3 : List Nat := [
  1088372577, 1893469269, 3827658374, 3791913223, 2044175081, 1161773070, 494118140, 415481327,
  3526017363, 3408361187, 336740053, 425403043, 1391388887, 4257659002, 272112604, 4145913932,
  2494486374, 1114420893, 1056931958, 3909314855, 2651803314, 2389022980, 1483913816, 1349565195,
  545911728, 1179422051, 3555182449, 3951454146, 1960595261, 3756418680, 4066910380, 2334008892,
  3042362923, 1627507911, 2543250478, 2370718620, 3632109352, 2508052774, 2518079172, 4226491523,
  3423086405, 2892623421, 3950515301, 3007663794, 539509690, 1621584739, 3665706593, 1356842224,
  803942738, 2494997616, 3378792012, 3553051857, 1527186690, 898813147, 4008122876, 3376005244,
  2722273302, 268472158, 1876890445, 178610998, 2384571786, 51627253, 1781192249, 3103026216,
  164451516, 449502597, 2998230291, 2369167501, 1191090491, 1795295390, 3033707801, 3442350618,
  31083689, 1625127799, 2959927211, 2737965413, 2075791327, 63610988, 2692623585, 974307983,
  3477683157, 8086886, 18215006, 2223027979, 4127332428, 83603119, 4089490877, 3071078390,
  47618548, 3825805028, 1904752817, 1192492324, 266989763, 777034176, 2074084271, 3348412722,
  1286789481, 346050426, 1831590444, 4234927941, 1590084904, 4217272187, 2474828819, 3603117219,
  873624665, 3165426265, 3827904402, 896461491, 2398567023, 2365099120, 2685094011, 77560608,
  653239208, 1174201797, 3020320980, 1422484478, 3664784232, 3050727402, 883611449, 3492081489,
  1835993753, 3666215408, 4277722904, 3705818488, 2549502528, 3122481265, 2351753191, 2956444560,
  4024590196, 3110001543, 2083636600, 511524021, 494355369, 3501171982, 3186078867, 1012238999,
  1827643180, 1744802602, 2353176178, 467444898, 1971717999, 636987173, 616216172, 1317782496,
  688654254, 3270336048, 2967287773, 3355809696, 3877528198, 2474868522, 2803232072, 293406062,
  2116194404, 2921456464, 4085841857, 3608153595, 1435164368, 1921457392, 2780318329, 951910218,
  3476856403, 3501622484, 938327738, 4123937265, 1078409991, 1314921232, 2112625783, 1138702820,
  2565255404, 3979673549, 2899166547, 1599776890, 1214379936, 2871011698, 711307607, 557943383,
  2408437579, 3970867527, 2689031063, 979699378, 436593165, 1751633185, 948132893, 3968110222,
  2831758004, 630712379, 2718229102, 2856481756, 4083129382, 3067241735, 3250565994, 2802327720,
  2043601186, 2735033870, 182397288, 1161166804, 2235760106, 499753113, 548118205, 1784392138,
  915390771, 2495006890, 1222410262, 1021461877, 2523118784, 2883165602, 1099515463, 2951780244,
  1872203672, 1650241892, 3797450459, 572885719, 3344178137, 2619830691, 4063809311, 977924907,
  3471570859, 2163472325, 2731622786, 1129330204, 1730476579, 2517250563, 2895153710, 2329419059,
  3082853629, 4120002939, 2575411433, 2681389244, 4089660795, 1181954644, 229801692, 273914177,
  2316553248, 1221168070, 2290687531, 3068845956, 612648379, 824548853, 3028721550, 3066780343,
  1037261333, 2983617392, 1603632998, 3172346950, 2795573228, 645406841, 4264306886, 3338605984,
  2444376994, 1567463527, 1405184570, 4451951, 1289719180, 4193144670, 1922577209, 3272042659]

/-- Entries 0 to 255. -/
def rootsInv0 : List Nat := [
  1, 4173969863, 631441563, 564333851, 1584891929, 1722793240, 2990834092, 1853592006,
  2472615992, 4266670527, 1413156457, 3978408248, 2328344466, 638910600, 4009503407, 2242788536,
  1586134219, 3719989587, 3369218044, 1899384041, 831438651, 2083392825, 1662976012, 994272591,
  196736183, 2225110645, 237700857, 1243801211, 3970986790, 1943387617, 494600477, 3213095325,
  1577997445, 3970961091, 263102116, 3233009647, 1732309385, 2249082458, 1719984374, 1022258905,
  306806842, 1591587871, 23545973, 4078048192, 3536494683, 1082700034, 1661822455, 3369504068,
  870875915, 781008685, 1549874615, 2372602387, 4227186324, 2618406218, 3464239721, 2736017235,
  2094454278, 502584381, 514887862, 2837809410, 615213023, 3028879310, 3301339183, 2592229857,
  1570110389, 3518024426, 3459639893, 2694992442, 1683009125, 1973012801, 584668125, 1247542952,
  2595347446, 155471810, 1573360737, 3147747644, 3101083657, 3427453367, 3331156435, 1143902294,
  3608348721, 120463607, 3561267698, 3227266543, 2156651248, 2703941665, 2450573815, 2688709509,
  2632293534, 1790826224, 1698133898, 1409488752, 3223326399, 1679121874, 2406050975, 265218906,
  1900507250, 2865809523, 4243515927, 355551901, 2601554582, 3259750866, 2347350637, 4007969316,
  2347535990, 111777401, 194222289, 2128814139, 1102068260, 2530652920, 1203818869, 4121900389,
  823060091, 2137919417, 1668853683, 990008721, 1326559976, 1560011638, 3635286012, 4034817028,
  213009337, 2098178254, 2467154772, 3854898454, 471890081, 1414301005, 3069660580, 2962637943,
  2059421517, 4093179196, 2276529770, 1349252082, 2142172018, 3967876882, 1796707395, 3842650896,
  1820198765, 1693840844, 1540421155, 2915719795, 2391039381, 1249205630, 459153432, 3009753673,
  1903064079, 2068840943, 2063574459, 2201019601, 1153511233, 3680613168, 709679547, 542802955,
  3039920830, 386186106, 3729134572, 487412683, 2657828383, 2595680407, 3004989361, 2270919331,
  3383121394, 2750113659, 11625578, 2613895657, 2173418349, 3156170984, 49506332, 499024784,
  4027543933, 4042448160, 1121384033, 215558759, 3247963773, 3788123392, 3255107363, 1789170851,
  117921568, 639575320, 3176953006, 534880806, 3532210810, 614614294, 2033861379, 1753026647,
  628262069, 1536931255, 4120194954, 1457203378, 406845297, 1872575547, 328786313, 1330478664,
  3892405396, 650967301, 3508193512, 2004167706, 4094494107, 1725110712, 1766474316, 3303592883,
  2580320784, 1223278102, 3130842139, 1168210122, 942955896, 3572729795, 3357960540, 364189618,
  754644610, 1543824300, 1558697914, 1749241160, 3075291223, 665907417, 1581733360, 3391894831,
  2619689244, 659350754, 3792821918, 3660502067, 580399130, 2184549779, 4143717868, 765572150,
  2963758118, 493843929, 762532608, 4108721716, 3039557028, 2675574625, 1492633117, 368212680,
  1428328611, 2039699418, 1738619218, 1340064361, 1652245433, 4272752275, 3954000298, 417657026,
  1409977173, 1044930117, 3675954825, 1534339206, 3551061161, 3282797705, 275170175, 3306824417,
  390226739, 1166377858, 4204533818, 615016355, 2683361560, 3618477279, 774419573, 133490265]

/-- Entries 256 to 511. -/
def rootsInv1 : List Nat := [
  1551684205, 4164676546, 3531162139, 697352534, 3491334058, 908454630, 2704399119, 2406146414,
  1125823214, 3136310382, 3493370118, 2889823198, 1313182166, 1118400257, 2370215197, 497022877,
  1891140151, 2408627751, 1354807295, 2428244811, 573764985, 4247767758, 1443264641, 2778072416,
  2369239875, 278909899, 3430912039, 3742817993, 496659472, 3476416228, 2327419009, 3766708904,
  1726385099, 1242561582, 3768336719, 413118105, 242359022, 2889392900, 991914127, 3128008757,
  869394929, 3080489030, 1291158917, 1080339068, 2295763424, 2733463921, 746110866, 1338584061,
  1565608819, 3394443018, 1163762604, 848037839, 3628179700, 1662686893, 4247960283, 585338559,
  1042512159, 4174846334, 836798253, 652509578, 3205706062, 2947358345, 836270275, 2847303557,
  1357968944, 2166018491, 4016469517, 1780650793, 3073377736, 1892781289, 1740541003, 2221855551,
  2542691488, 2787598623, 3964953658, 806973482, 2019364882, 2588559216, 1427655340, 2528760270,
  3040769228, 3575762321, 2113604391, 1358470607, 1334864518, 1058719367, 1906453313, 378718505,
  2106281562, 2742357326, 1396761351, 3151079223, 1646341907, 2430193471, 2619215774, 3383216995,
  1107699058, 2975046209, 463648730, 971215480, 507793063, 549850757, 1833387976, 3213084924,
  3701779463, 3293576374, 1727711789, 3026788304, 413170342, 655473534, 2902075925, 2460022626,
  3889470551, 3684139580, 37017980, 1336907533, 2366395960, 4143620525, 3679914953, 3347290966,
  1200753895, 2352791719, 3145081150, 3590339088, 4213651139, 437940430, 2814219335, 4202144399,
  3579106276, 290101755, 4276128152, 399696444, 3440920661, 1139858571, 3568194453, 468948586,
  2319314746, 270537700, 4183785286, 389439019, 2549372451, 2969925078, 3900324247, 2289478351,
  1938120923, 4039172425, 3617857460, 1410986117, 442149074, 437587703, 1910807528, 3200915445,
  1372338147, 1776363696, 2187745544, 3289786543, 2061639447, 2234214725, 3578729456, 4004087256,
  1564149765, 646607251, 3155828230, 3126231579, 3503272559, 182049942, 1594589163, 1620448632,
  2105608789, 3171641980, 3182153314, 1666085633, 1809517667, 3189832694, 2897067356, 2996226237,
  593724054, 3627226676, 3278244440, 3703323632, 1237640417, 599289012, 630797634, 2360925821,
  654021728, 1298724496, 2853853698, 991582447, 1533594280, 2826790882, 3802921748, 2649133996,
  1853057376, 19664556, 1474987313, 139764880, 145457332, 3401258084, 4278434608, 2161832789,
  2739058877, 760501741, 2213646786, 2184180146, 3387783115, 4106856128, 2284393862, 2730295309,
  2672572339, 3500679620, 3656190126, 3661717898, 1069297151, 2739855114, 706253792, 1010934039,
  2486106205, 133639744, 2276159803, 1429180909, 1939342611, 661299939, 4071272443, 1150265181,
  2203244844, 1271066691, 191150351, 229706881, 3457020224, 668573445, 1531515828, 535121585,
  3299801944, 518742940, 515753083, 4284051324, 4275444524, 2821866383, 2322868021, 2106378653,
  62982249, 1928351088, 364287015, 1837322456, 4258796928, 2720706193, 724553976, 3328324934,
  656002543, 1632103399, 1889901052, 1287533904, 1677138504, 303128705, 2751318495, 2782055384]

/-- Entries 512 to 767. -/
def rootsInv2 : List Nat := [
  1022785374, 2372250824, 101683363, 3005108853, 4290376082, 2889643463, 2727364506, 1850451039,
  956222049, 30521147, 3649421192, 1499254805, 1122481083, 2691195035, 1311210641, 3257566700,
  1228047690, 1266106483, 3470279180, 3682179654, 1225982077, 2004140502, 3073659963, 1978274785,
  4020913856, 4065026341, 3112873389, 205167238, 1613438789, 1719416600, 174825094, 1211974404,
  1965408974, 1399674323, 1777577470, 2564351454, 3165497829, 1563205247, 2131355708, 823257174,
  3316903126, 231018722, 1674997342, 950649896, 3721942314, 497377574, 2644586141, 2422624361,
  1343047789, 3195312570, 1411662431, 1771709249, 3273366156, 3072417771, 1799821143, 3379437262,
  2510435895, 3746709828, 3795074920, 2059067927, 3133661229, 4112430745, 1559794163, 2251226847,
  1492500313, 1044262039, 1227586298, 211698651, 1438346277, 1576598931, 3664115654, 1463070029,
  326717811, 3346695140, 2543194848, 3858234868, 3315128655, 1605796970, 323960506, 1886390454,
  3736884650, 3583520426, 1423816335, 3080448097, 2695051143, 1395661486, 315154484, 1729572629,
  3156125213, 2182202250, 2979906801, 3216418042, 170890768, 3356500295, 793205549, 817971630,
  3342917815, 1514509704, 2373370641, 2859663665, 686674438, 208986176, 1373371569, 2178633629,
  4001421971, 1491595961, 1819959511, 417299835, 939018337, 1327540260, 1024491985, 3606173779,
  2977045537, 3678611861, 3657840860, 2323110034, 3827383135, 1941651855, 2550025431, 2467184853,
  3282589034, 1108749166, 793656051, 3800472664, 3783304012, 2211191433, 1184826490, 270237837,
  1338383473, 1943074842, 1172346768, 1745325505, 589009545, 17105129, 628612625, 2458834280,
  802746544, 3411216584, 1244100631, 630043801, 2872343555, 1274507053, 3120626236, 3641588825,
  4217267425, 1609734022, 1929728913, 1896261010, 3398366542, 466923631, 1129401768, 3421203368,
  691710814, 1819999214, 77555846, 2704743129, 59900092, 2463237589, 3948777607, 3008038552,
  946415311, 2220743762, 3517793857, 4027838270, 3102335709, 2390075216, 469023005, 4247209485,
  1223749643, 205337156, 4211224914, 167495605, 2071800054, 4276613027, 4286741147, 817144876,
  3320520050, 1602204448, 4231217045, 2219036706, 1556862620, 1334900822, 2669700234, 4263744344,
  852477415, 1261120232, 2499532643, 3103737542, 1925660532, 1296597742, 3845325436, 4130376517,
  1191801817, 2513635784, 4243200780, 1910256247, 4116217035, 2417937588, 4026355875, 1572554731,
  918822789, 286705157, 3396014886, 2767641343, 741776176, 916036021, 1799830417, 3490885295,
  2937985809, 629121440, 2673243294, 3755318343, 1287164239, 344312732, 1402204612, 871741628,
  68336510, 1776748861, 1786775259, 662718681, 1924109413, 1751577555, 2667320122, 1252465110,
  1960819141, 227917653, 538409353, 2334232772, 343373887, 739645584, 3115405982, 3748916305,
  2945262838, 2810914217, 1905805053, 1643024719, 385513178, 3237896075, 3180407140, 1800341659,
  148914101, 4022715429, 37169031, 2903439146, 3869424990, 3958087980, 886466846, 768810670,
  3879346706, 3800709893, 3133054963, 2250652952, 502914810, 467169659, 2401358764, 3206455456]

/-- Entries 768 to 1023. -/
def rootsInv3 : List Nat := [
  1814402005, 2266142985, 779917888, 1111912640, 2691200961, 4203113041, 90224262, 1554980711,
  322713229, 1332963277, 337286526, 4008182054, 1774228849, 535229368, 2722542491, 3658781720,
  214885318, 2734253587, 1142859213, 4032068752, 4067062190, 1987388417, 542577731, 3125555412,
  173914841, 703726119, 2683199518, 3302229939, 1347575136, 1708169813, 2978464101, 3869793308,
  2327102255, 1978402922, 1977066536, 3831090400, 1869608803, 1125518178, 2543187798, 1237554801,
  537623696, 1048518865, 3624775625, 1770792507, 3989439187, 2824613641, 133529968, 2411397811,
  3084399793, 1590981044, 633307462, 4256145785, 2539807369, 3888842573, 171032750, 1509799190,
  4118159230, 1815770020, 2822811543, 3547448043, 1454745307, 587552506, 554518993, 3706329928,
  1806206381, 2785196341, 484788959, 3303586085, 3482442706, 1697175672, 203366830, 2030624092,
  50240761, 4259875898, 915668204, 1477597164, 461477474, 1005160700, 2466395539, 70128986,
  2701654346, 2425550937, 2123487482, 869836899, 2482244634, 754990836, 105395816, 3413925353,
  1615484608, 1028785180, 4061550352, 3339346412, 3236514725, 2787145579, 917341612, 4195955807,
  664451835, 4040110070, 3091942330, 1622008004, 2694401234, 98172479, 168595933, 1510337171,
  2809132666, 3729408476, 601704196, 2031169148, 3409941518, 2910818636, 899281988, 4222973122,
  90700949, 859732583, 1164762017, 1365383721, 740645211, 79291813, 3203031329, 3166589111,
  2606200541, 2679322223, 2954755376, 3683065849, 1936999394, 914164842, 2082337036, 554147049,
  3040237854, 3901410452, 3924584954, 2505649459, 3799975042, 413669590, 7326159, 4167070316,
  637659980, 1728083598, 3120525219, 2175249896, 3930016032, 3810209688, 687810932, 2814081602,
  1995884601, 232640401, 1046081351, 2099326148, 1802555085, 2452321944, 80044602, 195469731,
  2990023547, 2106389959, 282975982, 1093503941, 3958329188, 1760621687, 2038804495, 673387260,
  2120981909, 102467545, 3950188845, 3871598621, 101907794, 524185978, 993071576, 2803863270,
  3694025667, 2886029259, 2261284377, 3178897529, 598977814, 4068890295, 276397196, 3911364304,
  2014221937, 522593941, 1993164760, 1985429650, 42840331, 159360682, 2227793401, 570070599,
  2222606546, 1273729269, 1535619820, 672182049, 1684152989, 2882798158, 1152237782, 1180667250,
  3316282946, 712057406, 961332975, 2214173919, 4083875507, 134875916, 1783129654, 3993312127,
  233933886, 1514494149, 1957923494, 3057862671, 3303424751, 3822768034, 2816439370, 1331586025,
  1203174795, 1968786844, 1883162160, 1728443589, 2859554062, 3089810130, 4216032524, 4210578442,
  3196982713, 853056868, 159731575, 3922922313, 2230438992, 640642913, 2784431603, 2624560952,
  2555213301, 3642496590, 1549202245, 1339152894, 621848373, 1355719603, 2409485951, 2019190832,
  3819884549, 2775472046, 2747437023, 3498149166, 1503528515, 1074256853, 2099043593, 4151280649,
  564701297, 3334113870, 1181731338, 3744811443, 2551372672, 2905762979, 3546965030, 2236658164,
  3143135662, 2759453397, 2916037064, 2428347772, 474784673, 1539712380, 1621071934, 2844860350]

/-- params_32_1024.rs:1 (`MOD`), 3 (`NINV`), 5-134 (`ROOTS`), 136-265 (`INVROOTS`). -/
def params : Params := ⟨10, 4294828033, 4290633865, roots0 ++ roots1 ++ roots2 ++ roots3, rootsInv0 ++ rootsInv1 ++ rootsInv2 ++ rootsInv3⟩

/-- C36 for polynomials of size 1024 over 32-bit tori. -/
theorem C36_table : TableCorrect 32 params := check_sound (by decide +kernel)

end Verif.Ntt.P32_1024
