import Verif.Ntt.Check
/-
Generated by tools/gen_ntt_params.py from
/repo/concrete-core/src/backends/ntt/private/math/params/params_32_4096.rs.
-/
namespace Verif.Ntt.P32_4096

/-- Entries 0 to 255. -/
def roots0 : List Nat := [
  1, 120858170, 3730494182, 3663386470, 2441236027, 1303993941, 2572034793, 2709936104,
  2052039497, 285324626, 3655917433, 1966483567, 316419785, 2881671576, 28157506, 1822212041,
  1081732708, 3800227556, 2351440416, 323841243, 3051026822, 4057127176, 2069717388, 4098091850,
  3300555442, 2631852021, 2211435208, 3463389382, 2395443992, 925609989, 574838446, 2708693814,
  1702598176, 993488850, 1265948723, 3679615010, 1457018623, 3779940171, 3792243652, 2200373755,
  1558810798, 830588312, 1676421815, 67641709, 1922225646, 2744953418, 3513819348, 3423952118,
  925323965, 2633005578, 3212127999, 758333350, 216779841, 4271282060, 2703240162, 3988021191,
  3272569128, 2574843659, 2045745575, 2562518648, 1061818386, 4031725917, 323866942, 2716830588,
  1332190090, 1225167453, 2880527028, 3822937952, 439929579, 1827673261, 2196649779, 4081818696,
  260011005, 659542021, 2734816395, 2968268057, 3304819312, 2625974350, 2156908616, 3471767942,
  172927644, 3091009164, 1764175113, 3192759773, 2166013894, 4100605744, 4183050632, 1947292043,
  286858717, 1947477396, 1035077167, 1693273451, 3939276132, 51312106, 1429018510, 2394320783,
  4029609127, 1888777058, 2615706159, 1071501634, 2885339281, 2596694135, 2504001809, 1662534499,
  1606118524, 1844254218, 1590886368, 2138176785, 1067561490, 733560335, 4174364426, 686479312,
  3150925739, 963671598, 867374666, 1193744376, 1147080389, 2721467296, 4139356223, 1699480587,
  3047285081, 3710159908, 2321815232, 2611818908, 1599835591, 835188140, 776803607, 2724717644,
  4161337768, 3520408460, 676350754, 1611466473, 3679811678, 90294215, 3128450175, 3904601294,
  988003616, 4019657858, 1012030328, 743766872, 2760488827, 618873208, 3249897916, 2884850860,
  3877171007, 340827735, 22075758, 2642582600, 2954763672, 2556208815, 2255128615, 2866499422,
  3926615353, 2802194916, 1619253408, 1255271005, 186106317, 3532295425, 3800984104, 1331069915,
  3529255883, 151110165, 2110278254, 3714428903, 634325966, 502006115, 3635477279, 1675138789,
  902933202, 2713094673, 3628920616, 1219536810, 2545586873, 2736130119, 2751003733, 3540183423,
  3930638415, 936867493, 722098238, 3351872137, 3126617911, 1163985894, 3071549931, 1714507249,
  991235150, 2528353717, 2569717321, 200333926, 2290660327, 786634521, 3643860732, 402422637,
  2964349369, 3966041720, 2422252486, 3887982736, 2837624655, 174633079, 2757896778, 3666565964,
  2541801386, 2260966654, 3680213739, 762617223, 3759947227, 1117875027, 3655252713, 4176906465,
  2505657182, 1039720670, 506704641, 1046864260, 4079269274, 3173444000, 252379873, 267284100,
  3795803249, 4245321701, 1138657049, 2121409684, 1680932376, 4283202455, 1544714374, 911706639,
  2023908702, 1289838672, 1699147626, 1636999650, 3807415350, 565693461, 3908641927, 1254907203,
  3752025078, 3585148486, 614214865, 3141316800, 2093808432, 2231253574, 2225987090, 2391763954,
  1285074360, 3835674601, 3045622403, 1903788652, 1379108238, 2754406878, 2600987189, 2474629268,
  452177137, 2498120638, 326951151, 2152656015, 2945575951, 2018298263, 201648837, 2235406516]

/-- Entries 256 to 511. -/
def roots1 : List Nat := [
  1512772649, 1543509538, 3991699328, 2617689529, 3007294129, 2404926981, 2662724634, 3638825490,
  966503099, 3570274057, 1574121840, 36031105, 2457505577, 3930541018, 2366476945, 4231845784,
  2188449380, 1971960012, 1472961650, 19383509, 10776709, 3779074950, 3776085093, 995026089,
  3759706448, 2763312205, 3626254588, 837807809, 4065121152, 4103677682, 3023761342, 2091583189,
  3144562852, 223555590, 3633528094, 2355485422, 2865647124, 2018668230, 4161188289, 1808721828,
  3283893994, 3588574241, 1554972919, 3225530882, 633110135, 638637907, 794148413, 1622255694,
  1564532724, 2010434171, 187971905, 907044918, 2110647887, 2081181247, 3534326292, 1555769156,
  2132995244, 16393425, 893569949, 4149370701, 4155063153, 2819840720, 4275163477, 2441770657,
  1645694037, 491906285, 1468037151, 2761233753, 3303245586, 1440974335, 2996103537, 3640806305,
  1933902212, 3664030399, 3695539021, 3057187616, 591504401, 1016583593, 667601357, 3701103979,
  1298601796, 1397760677, 1104995339, 2485310366, 2628742400, 1112674719, 1123186053, 2189219244,
  2674379401, 2700238870, 4112778091, 791555474, 1168596454, 1138999803, 3648220782, 2730678268,
  290740777, 716098577, 2060613308, 2233188586, 1005041490, 2107082489, 2518464337, 2922489886,
  1093912588, 2384020505, 3857240330, 3852678959, 2883841916, 676970573, 255655608, 2356707110,
  2005349682, 394503786, 1324902955, 1745455582, 3905389014, 111042747, 4024290333, 1975513287,
  3825879447, 726633580, 3154969462, 853907372, 3895131589, 18699881, 4004726278, 715721757,
  92683634, 1480608698, 3856887603, 81176894, 704488945, 1149746883, 1942036314, 3094074138,
  947537067, 614913080, 151207508, 1928432073, 2957920500, 4257810053, 610688453, 405357482,
  1834805407, 1392752108, 3639354499, 3881657691, 1268039729, 2567116244, 1001251659, 593048570,
  1081743109, 2461440057, 3744977276, 3787034970, 3323612553, 3831179303, 1319781824, 3187128975,
  911611038, 1675612259, 1864634562, 2648486126, 1143748810, 2898066682, 1552470707, 2188546471,
  3916109528, 2388374720, 3236108666, 2959963515, 2936357426, 2181223642, 719065712, 1254058805,
  1766067763, 2867172693, 1706268817, 2275463151, 3487854551, 329874375, 1507229410, 1752136545,
  2072972482, 2554287030, 2402046744, 1221450297, 2514177240, 278358516, 2128809542, 2936859089,
  1447524476, 3458557758, 1347469688, 1089121971, 3642318455, 3458029780, 119981699, 3252315874,
  3709489474, 46867750, 2632141140, 666648333, 3446790194, 3131065429, 900385015, 2729219214,
  2956243972, 3548717167, 1561364112, 1999064609, 3214488965, 3003669116, 1214339003, 3425433104,
  1166819276, 3302913906, 1405435133, 4052469011, 3881709928, 526491314, 3052266451, 2568442934,
  528119129, 1967409024, 818411805, 3798168561, 552010040, 863915994, 4015918134, 1925588158,
  1516755617, 2851563392, 47060275, 3721063048, 1866583222, 2940020738, 1886200282, 2403687882,
  3797805156, 1924612836, 3176427776, 2981645867, 1405004835, 801457915, 1158517651, 3169004819,
  1888681619, 1590428914, 3386373403, 803493975, 3597475499, 763665894, 130151487, 2743143828]

/-- Entries 512 to 767. -/
def roots2 : List Nat := [
  1449967683, 2673756099, 2755115653, 3820043360, 1866480261, 1378790969, 1535374636, 1151692371,
  2058169869, 747863003, 1389065054, 1743455361, 550016590, 3113096695, 960714163, 3730126736,
  143547384, 2195784440, 3220571180, 2791299518, 796678867, 1547391010, 1519355987, 474943484,
  2275637201, 1885342082, 2939108430, 3672979660, 2955675139, 2745625788, 652331443, 1739614732,
  1670267081, 1510396430, 3654185120, 2064389041, 371905720, 4135096458, 3441771165, 1097845320,
  84249591, 78795509, 1205017903, 1435273971, 2566384444, 2411665873, 2326041189, 3091653238,
  2963242008, 1478388663, 472059999, 991403282, 1236965362, 2336904539, 2780333884, 4060894147,
  301515906, 2511698379, 4159952117, 210952526, 2080654114, 3333495058, 3582770627, 978545087,
  3114160783, 3142590251, 1412029875, 2610675044, 3622645984, 2759208213, 3021098764, 2072221487,
  3724757434, 2067034632, 4135467351, 4251987702, 2309398383, 2301663273, 3772234092, 2280606096,
  383463729, 4018430837, 225937738, 3695850219, 1115930504, 2033543656, 1408798774, 600802366,
  1490964763, 3301756457, 3770642055, 4192920239, 423229412, 344639188, 4192360488, 2173846124,
  3621440773, 2256023538, 2534206346, 336498845, 3201324092, 4011852051, 2188438074, 1304804486,
  4099358302, 4214783431, 1842506089, 2492272948, 2195501885, 3248746682, 4062187632, 2298943432,
  1480746431, 3607017101, 484618345, 364812001, 2119578137, 1174302814, 2566744435, 3657168053,
  127757717, 4287501874, 3881158443, 494852991, 1789178574, 370243079, 393417581, 1254590179,
  3740680984, 2212490997, 3380663191, 2357828639, 611762184, 1340072657, 1615505810, 1688627492,
  1128238922, 1091796704, 4215536220, 3554182822, 2929444312, 3130066016, 3435095450, 4204127084,
  71854911, 3395546045, 1384009397, 884886515, 2263658885, 3693123837, 565419557, 1485695367,
  2784490862, 4126232100, 4196655554, 1600426799, 2672820029, 1202885703, 254717963, 3630376198,
  98872226, 3377486421, 1507682454, 1058313308, 955481621, 233277681, 3266042853, 2679343425,
  880902680, 4189432217, 3539837197, 1812583399, 3424991134, 2171340551, 1869277096, 1593173687,
  4224699047, 1828432494, 3289667333, 3833350559, 2817230869, 3379159829, 34952135, 4244587272,
  2264203941, 4091461203, 2597652361, 812385327, 991241948, 3810039074, 1509631692, 2488621652,
  588498105, 3740309040, 3707275527, 2840082726, 747379990, 1472016490, 2479058013, 176668803,
  2785028843, 4123795283, 405985460, 1755020664, 38682248, 3661520571, 2703846989, 1210428240,
  1883430222, 4161298065, 1470214392, 305388846, 2524035526, 670052408, 3246309168, 3757204337,
  3057273232, 1751640235, 3169309855, 2425219230, 463737633, 2317761497, 2316425111, 1967725778,
  425034725, 1316363932, 2586658220, 2947252897, 992598094, 1611628515, 3591101914, 4120913192,
  1169272621, 3752250302, 2307439616, 227765843, 262759281, 3151968820, 1560574446, 4079942715,
  636046313, 1572285542, 3759598665, 2520599184, 286645979, 3957541507, 2961864756, 3972114804,
  2739847322, 4204603771, 91714992, 1603627072, 3182915393, 3514910145, 2028685048, 2480426028]

/-- Entries 768 to 1023. -/
def roots3 : List Nat := [
  1088372577, 1893469269, 3827658374, 3791913223, 2044175081, 1161773070, 494118140, 415481327,
  3526017363, 3408361187, 336740053, 425403043, 1391388887, 4257659002, 272112604, 4145913932,
  2494486374, 1114420893, 1056931958, 3909314855, 2651803314, 2389022980, 1483913816, 1349565195,
  545911728, 1179422051, 3555182449, 3951454146, 1960595261, 3756418680, 4066910380, 2334008892,
  3042362923, 1627507911, 2543250478, 2370718620, 3632109352, 2508052774, 2518079172, 4226491523,
  3423086405, 2892623421, 3950515301, 3007663794, 539509690, 1621584739, 3665706593, 1356842224,
  803942738, 2494997616, 3378792012, 3553051857, 1527186690, 898813147, 4008122876, 3376005244,
  2722273302, 268472158, 1876890445, 178610998, 2384571786, 51627253, 1781192249, 3103026216,
  164451516, 449502597, 2998230291, 2369167501, 1191090491, 1795295390, 3033707801, 3442350618,
  31083689, 1625127799, 2959927211, 2737965413, 2075791327, 63610988, 2692623585, 974307983,
  3477683157, 8086886, 18215006, 2223027979, 4127332428, 83603119, 4089490877, 3071078390,
  47618548, 3825805028, 1904752817, 1192492324, 266989763, 777034176, 2074084271, 3348412722,
  1286789481, 346050426, 1831590444, 4234927941, 1590084904, 4217272187, 2474828819, 3603117219,
  873624665, 3165426265, 3827904402, 896461491, 2398567023, 2365099120, 2685094011, 77560608,
  653239208, 1174201797, 3020320980, 1422484478, 3664784232, 3050727402, 883611449, 3492081489,
  1835993753, 3666215408, 4277722904, 3705818488, 2549502528, 3122481265, 2351753191, 2956444560,
  4024590196, 3110001543, 2083636600, 511524021, 494355369, 3501171982, 3186078867, 1012238999,
  1827643180, 1744802602, 2353176178, 467444898, 1971717999, 636987173, 616216172, 1317782496,
  688654254, 3270336048, 2967287773, 3355809696, 3877528198, 2474868522, 2803232072, 293406062,
  2116194404, 2921456464, 4085841857, 3608153595, 1435164368, 1921457392, 2780318329, 951910218,
  3476856403, 3501622484, 938327738, 4123937265, 1078409991, 1314921232, 2112625783, 1138702820,
  2565255404, 3979673549, 2899166547, 1599776890, 1214379936, 2871011698, 711307607, 557943383,
  2408437579, 3970867527, 2689031063, 979699378, 436593165, 1751633185, 948132893, 3968110222,
  2831758004, 630712379, 2718229102, 2856481756, 4083129382, 3067241735, 3250565994, 2802327720,
  2043601186, 2735033870, 182397288, 1161166804, 2235760106, 499753113, 548118205, 1784392138,
  915390771, 2495006890, 1222410262, 1021461877, 2523118784, 2883165602, 1099515463, 2951780244,
  1872203672, 1650241892, 3797450459, 572885719, 3344178137, 2619830691, 4063809311, 977924907,
  3471570859, 2163472325, 2731622786, 1129330204, 1730476579, 2517250563, 2895153710, 2329419059,
  3082853629, 4120002939, 2575411433, 2681389244, 4089660795, 1181954644, 229801692, 273914177,
  2316553248, 1221168070, 2290687531, 3068845956, 612648379, 824548853, 3028721550, 3066780343,
  1037261333, 2983617392, 1603632998, 3172346950, 2795573228, 645406841, 4264306886, 3338605984,
  2444376994, 1567463527, 1405184570, 4451951, 1289719180, 4193144670, 1922577209, 3272042659]

/-- Entries 1024 to 1279. -/
def roots4 : List Nat := [
  3073114153, 982544395, 3808325693, 2345024410, 1357480395, 2286511896, 767171004, 1514566279,
  1868773691, 1520020315, 663704355, 2897480518, 155450935, 745104067, 1329205843, 1662474737,
  797363602, 325058083, 942504611, 3558868888, 68310996, 2629257486, 1487589117, 3208139373,
  1691721088, 2776188728, 270565922, 3085130284, 1155981621, 3626714764, 2832172855, 940937807,
  436553523, 3720142873, 511430338, 1021946311, 2570516318, 602095444, 2585106841, 1132945115,
  1176334328, 510628732, 48832560, 2884391689, 102968492, 1467887698, 1066148107, 46027734,
  3024278905, 3933150287, 4152792800, 84379014, 746126136, 1684445682, 342892852, 1337631187,
  2255521319, 2208698419, 3816916544, 2198649330, 569704549, 3118232834, 1926787998, 171896487,
  1675991635, 2488238607, 812046167, 1278985424, 3950353648, 3094630901, 2710390171, 116864956,
  3510842913, 3143116182, 2821876336, 330133261, 3810055452, 2802971132, 2298736990, 2981180991,
  2591965652, 4014959688, 3603989137, 2333251586, 462807716, 1310857151, 920793208, 1322994289,
  1257458105, 2093062607, 2072470186, 3373175165, 1510968807, 2266203511, 69289111, 676598711,
  1321519216, 2767460212, 1004776281, 1734285238, 3211904293, 3023065, 1031447349, 3741791176,
  1520738170, 1246585059, 2675083638, 593347166, 1192336898, 3465961138, 3127417052, 1790011760,
  4255353632, 2777879088, 283753343, 4265991587, 3664765352, 1802163325, 38368456, 2666171321,
  3626783503, 316350187, 83147974, 333157619, 3687484861, 1907895767, 811936494, 240216852,
  1679365787, 2402527097, 3281909662, 4051744521, 3150900656, 1626784786, 300162531, 316683401,
  2554807606, 3148706054, 1684573420, 1822842722, 959729302, 2096068928, 4113003909, 3404466852,
  3632080449, 1039556093, 1702505291, 1762846662, 3228116254, 149831472, 1284309029, 748089019,
  2017063629, 953742821, 2338236493, 1836493945, 2158351703, 3654146635, 778725740, 953289284,
  4257732706, 3160660384, 1598431400, 3010321665, 1759922549, 3865792970, 606645355, 3039401397,
  646989983, 2555354795, 1434146868, 2544551281, 903095777, 2391831448, 3169535237, 3881904884,
  2596324500, 2801020068, 3702814107, 2263512344, 3931362987, 4134055896, 2202377330, 2211213558,
  398166837, 1056313381, 402231708, 1432448680, 3362770999, 626239268, 1057303158, 2688386137,
  2325489073, 4105414239, 3270834538, 2347690155, 490108767, 3199505175, 3288473268, 1839326342,
  422092079, 330774743, 3423556219, 1831479508, 134151706, 1689064314, 2165742084, 486214428,
  433229479, 4059510213, 1843558240, 2268295554, 3532774320, 1084643125, 1020299828, 833506541,
  3249547258, 68876611, 301948658, 1710696345, 1610783586, 560822617, 1464597012, 3274538754,
  3738341935, 3201598793, 1104224406, 933085658, 1356006879, 883674521, 4006695759, 625986601,
  2697596775, 3318036032, 1873880808, 2829025577, 673030671, 3944133520, 2836729711, 4124551704,
  3481333641, 319423208, 4192242199, 3464296851, 2027721057, 2092320749, 3285813475, 3413381516,
  1419499288, 3702916918, 1114311265, 1905362704, 219596419, 2664128740, 2479903386, 746339176]

/-- Entries 1280 to 1535. -/
def roots5 : List Nat := [
  954107544, 4211998635, 1640009164, 2259023050, 602788794, 2346729352, 565300730, 2176871129,
  828609157, 1837040787, 4136739733, 1399499044, 1012016474, 1357612562, 1418981519, 2733534998,
  2932477224, 341196572, 3394102498, 4278600658, 2353650593, 1441924898, 4290801591, 1373375958,
  1818827990, 1939550381, 278064869, 305641482, 4244151946, 3199566728, 2217301957, 1966926643,
  1470051258, 1784183569, 2266031711, 548964748, 1167296541, 842107733, 1865643114, 2883151393,
  1834210409, 3623903000, 2906755791, 3087260758, 3029347548, 2348854675, 42344970, 1319469968,
  3211446525, 974979611, 1103566967, 2672097561, 4115011211, 299724121, 290960874, 3366732698,
  3668423929, 997877933, 2460738585, 201402071, 3193184716, 2810368616, 420305484, 2502730701,
  2244870358, 1001203875, 3926153195, 1470633221, 2516179387, 1194642253, 1866125052, 2570101307,
  3275451100, 1883278599, 3231844074, 1602803106, 2394764680, 453109777, 2981603378, 2589942595,
  44115149, 3645174569, 3122473113, 25143222, 2469933464, 2581658850, 688003273, 3852707805,
  3650020825, 2414395996, 1551693469, 3104949787, 1913119487, 3010768671, 934813969, 439041509,
  384823106, 1483416545, 4246649404, 888939348, 3434271012, 4146534224, 2680701864, 1089164319,
  1684016599, 1116214229, 700091247, 1270822072, 2878970374, 116332304, 1056136121, 3179675600,
  1592081645, 293321887, 3673039405, 2421162780, 4040280342, 2905667972, 1026047167, 2579983015,
  3302351343, 4215909470, 3708489764, 3322789439, 33890457, 4066691920, 2818334208, 795992842,
  1293723100, 3773036894, 2011494886, 2482129842, 1934666370, 2419479627, 2856592060, 1569968179,
  4292070753, 186930903, 1654673314, 2330670935, 1038065482, 3296605965, 1810964111, 3294415620,
  2931811547, 2850707671, 3145816148, 1289516066, 415203821, 3245495570, 1670913246, 2971690441,
  2147447369, 2373419971, 139089145, 3829357891, 2122154920, 4176669061, 1042716407, 2782782208,
  2494823199, 2787434369, 4101481430, 2783879573, 1380711541, 969749494, 161217479, 70769538,
  3484481997, 279680060, 3440586980, 3515175562, 3897038991, 239202946, 943743933, 3620178753,
  2114381875, 1687267699, 2132809624, 2504522417, 1343800830, 555863130, 639837177, 3382796114,
  3984240747, 738595030, 2247805451, 3943406083, 1381844229, 2219886612, 2415659513, 91649750,
  1479064885, 2002379808, 2970884575, 949193908, 3910026224, 4125866211, 2653818249, 2701492797,
  3595944611, 1633172574, 1622835027, 2045458231, 725915235, 2555507031, 2730897130, 61554544,
  718312158, 4219890423, 1519464568, 2676259439, 2906659652, 1413484393, 1553463400, 1226796426,
  1873975340, 3550984237, 1769431193, 3978228409, 3766136886, 3125579150, 437753167, 1399068306,
  3361515633, 2778720839, 1817970175, 842340418, 3250984537, 2658801356, 3446745510, 1303434630,
  2415956770, 4087021428, 1720480852, 3652645345, 3912505157, 523044774, 2593090290, 2987963764,
  4221818476, 49172404, 1720201655, 583183103, 2972844134, 4256545252, 1732069038, 69147764,
  1632185615, 3194066934, 1645247735, 4289013425, 1214048138, 3181266159, 3936647004, 1304557851]

/-- Entries 1536 to 1791. -/
def roots6 : List Nat := [
  2763558692, 1575633487, 770209176, 3099950184, 1577045300, 1443908494, 2781170151, 3572044948,
  2941125579, 991271778, 592277933, 3156745722, 3600677557, 1564210223, 2123458747, 786526848,
  3940979071, 1688304343, 3205106633, 614745402, 3792901444, 176015532, 63971435, 2743099977,
  139622247, 2551350165, 3277667786, 3713660745, 1470966435, 3695295810, 2860727433, 1749987346,
  3506584575, 1743217145, 3321519187, 3177047047, 1154220628, 3438527269, 1945234962, 4071749935,
  478031594, 1247935013, 3744972065, 1040003918, 3406077993, 821335940, 1319478873, 2492650630,
  1209308687, 3021362699, 2349755824, 4235257001, 3812595436, 3492553704, 2202552356, 3505213453,
  373789249, 938117256, 4142102255, 3560339985, 833709844, 3391886922, 2033217422, 1656008689,
  572033619, 2932123881, 876346616, 2239272234, 2242961592, 3428450217, 3669462364, 886861557,
  3021355728, 2369510744, 4144054094, 1525474057, 1744876233, 2491415747, 462881192, 4076211860,
  3983761471, 663991181, 2828371119, 3672609126, 2660313868, 4005525990, 2294725404, 290584642,
  2207253493, 2929811107, 2507465943, 2132096373, 101779194, 97803449, 820101729, 78310293,
  3586468684, 100866632, 3128434878, 1913228994, 888759126, 2114848265, 3462650376, 2414388073,
  3084070094, 3300546333, 4099805504, 1819328466, 1955687335, 3796028923, 4017399904, 196829024,
  522707761, 1756941638, 2962305488, 1283001945, 1223135540, 3647957640, 679766212, 3103150637,
  2949695716, 1273506557, 907915745, 1608686020, 7663782, 3759374127, 3168226848, 1360235748,
  1524051815, 2487721558, 3115579207, 3210577136, 545137186, 1522521179, 1996573149, 4125457384,
  2980458037, 1080160215, 710693600, 3129138400, 3180718283, 1153817736, 1607412657, 3637893067,
  1150330231, 2065102520, 2934318473, 2400977073, 2566217084, 4228370103, 1676070846, 2613056920,
  2924948249, 3121244499, 2656200455, 3667195629, 1657969979, 33052575, 1254874829, 312128589,
  831035901, 4164393730, 2164711299, 1774204209, 168198593, 1471460035, 2135154644, 1628438147,
  3637365689, 4290274869, 3968407660, 3448427390, 3445547167, 1952351146, 261906036, 343779500,
  1092412449, 200319937, 3753592791, 3875909868, 785617197, 2424159350, 3930574119, 3878708903,
  287672355, 2364556288, 1929053292, 1351456849, 1384626419, 1935519276, 176909798, 506729364,
  2087404352, 686231003, 3692322132, 752413778, 3895514084, 2430314852, 2890498580, 1424345860,
  3078102124, 3082421486, 461155935, 2278586287, 3464793121, 1113130889, 294462519, 2008706594,
  1929391882, 1597738725, 1465134368, 747822248, 4269716614, 2903764088, 621001703, 230200755,
  3883996741, 4082051941, 4172127560, 3695377343, 2290039902, 759140418, 3207633148, 1205460751,
  3024485673, 1930920820, 4153917809, 947483830, 3393066415, 894554663, 3456957618, 371829681,
  3707200879, 158277866, 2165442791, 3818462577, 2940382740, 1914328980, 211175858, 2932338984,
  2830599498, 1404322192, 2378464250, 2226661810, 411616517, 2549097174, 2841337872, 1910069766,
  3643704074, 2900024274, 3458833207, 3897288104, 631862469, 1421345317, 2550132126, 3716336264]

/-- Entries 1792 to 2047. -/
def roots7 : List Nat := [
  329475886, 2357230414, 1093451771, 4214627559, 890742646, 2295888704, 1307583679, 375641905,
  3189409551, 38278288, 82318216, 1534305309, 3273966279, 4228971901, 4151097346, 1156902297,
  2601333541, 254687457, 2220227156, 3100588045, 3726413362, 4098084658, 2362636961, 1320366418,
  2863300809, 997231538, 773739355, 1562036361, 3996576897, 1469752778, 1006711184, 1478423931,
  187283065, 4206641823, 4265434115, 1932682121, 951668597, 178412501, 1273856419, 2444219972,
  693161528, 1054443007, 3281071816, 2677976742, 4193138827, 1182618955, 2246804708, 2628023086,
  575635600, 3699905738, 1701266520, 3871967972, 1281202450, 3456661482, 3332094634, 115434303,
  2666350219, 1082210082, 955358214, 1426851100, 4104040976, 1250737502, 900501283, 1989604798,
  4218530903, 1713295956, 2048383872, 1392201119, 2174290730, 1776477702, 1509128775, 1266662778,
  1964590574, 2458425700, 3926778291, 3404167071, 2664917296, 981453831, 508769315, 4259433540,
  3691880307, 188387817, 1248493263, 1141800509, 2600248892, 2597506386, 3181289262, 3628859955,
  602988243, 518128453, 3596141495, 3325812034, 3365085110, 645367178, 2539854040, 1868430201,
  2819462399, 3990099661, 1592266365, 698368753, 1704272420, 531515568, 805378848, 1236218687,
  92917428, 1721976571, 3105700669, 3251203214, 3048051980, 3036094565, 781874560, 1158972587,
  1434442625, 1340617312, 2475603034, 2392848798, 3682888980, 2250205887, 4039727822, 2335836656,
  3502816354, 718792862, 1132436671, 2497829876, 2224173559, 312873773, 3118267720, 2462113698,
  3068063627, 1792009067, 1278285463, 2705016497, 3225696098, 3787744417, 451175620, 2124730787,
  2626376800, 1433051496, 2114646065, 3455602677, 2136161193, 294558752, 1458886383, 1674124891,
  3526497504, 654581261, 1217789032, 4237236229, 3021518400, 887005910, 482221564, 3065602982,
  2430909694, 788428702, 1636631, 1922565455, 397980684, 3549458258, 1347909731, 1025290642,
  2872224887, 1453805607, 4063979140, 1216908130, 3241204457, 1184649851, 1688961686, 4191764871,
  1620622616, 1504388875, 3479808004, 180631674, 2116829612, 2946815949, 2530790194, 865805361,
  161623902, 3957410060, 3709298853, 3694041225, 3264364262, 1739871743, 1506291010, 1969275976,
  1515817026, 1458932518, 1874122359, 4294706946, 522166996, 286819749, 1656528655, 2477053975,
  1406689963, 1542428815, 92400682, 4135317637, 1623553215, 2458307261, 2460036763, 2132468081,
  2084002396, 3281733672, 2954047292, 1618701462, 4030705900, 294051956, 1332091098, 2624102751,
  1784475623, 745154728, 2911039202, 2615464907, 2071462960, 192978064, 1919958449, 3493009328,
  1073778952, 110615129, 4084438109, 3490692001, 2197957004, 3359075008, 236044097, 3541852148,
  3860891567, 684000565, 2507805129, 1397771008, 2515202477, 2757242756, 3942877450, 2291859880,
  2937994438, 2907643504, 1237698833, 3049111489, 2717261523, 2606893850, 2367469554, 1707665525,
  54057369, 3762695295, 806070829, 3902094881, 2292164933, 1695448321, 3932251225, 1431747488,
  2802023440, 2932741018, 4196293558, 2839491650, 2736878050, 2075576879, 3573270283, 3293988959]

/-- Entries 2048 to 2303. -/
def roots8 : List Nat := [
  567303915, 3993922369, 402120012, 702800079, 1495733609, 4264783776, 3389846536, 2284235330,
  1889770900, 735009135, 3981185562, 215792722, 1303633740, 996842324, 2116598265, 2102255789,
  2489706751, 3290617516, 1787144976, 3561291910, 3588779893, 1565483908, 1683512756, 3939946826,
  3892919273, 2369500609, 3777582259, 338113986, 2537610727, 3068580215, 240024197, 1814917082,
  3565611648, 3136379070, 1879597275, 1352810455, 399831684, 3019545354, 3169066958, 1487906295,
  1665547719, 2692431455, 3510568321, 2592710533, 1888490997, 821916186, 981148141, 606663303,
  3431511028, 3939903955, 1335328534, 1496264472, 1038356566, 4239743942, 1838885811, 2218991596,
  721827459, 4087069167, 711293282, 80355432, 1783266060, 2531062272, 1763431460, 223483321,
  3609460921, 3103261592, 3716877976, 1707147895, 1275993687, 606282780, 1233172955, 3014671109,
  2151780261, 3684111954, 2723758141, 98225916, 2466364228, 3778035250, 1396158373, 968182494,
  3100719765, 585234946, 2522235936, 4197149294, 2860184115, 956575823, 71621492, 1232883559,
  1202324346, 2440708615, 1282601859, 3139543472, 3281271899, 166551029, 2768348977, 3835663537,
  3258652453, 3550970402, 1455626210, 3539693000, 1949743988, 3152797117, 2849851950, 4242788589,
  3425898035, 260341528, 118023790, 1798855512, 557088189, 1438299591, 3882923948, 551943335,
  2773483498, 1534718003, 3491776735, 3845687412, 4217801258, 3857847895, 3078260925, 1894196179,
  846561996, 1982613817, 1326632919, 1210358956, 259838436, 4265759572, 4037501339, 1830500128,
  1743088681, 667631873, 3063684871, 2065198807, 836524401, 2335569913, 4199164772, 3288627729,
  295829912, 1936475597, 3887611688, 4284633973, 2817408045, 2533715211, 1512003632, 3929652801,
  2766597935, 3755276472, 1228528999, 4002787128, 2389183876, 257811615, 3544548385, 546314384,
  986546060, 3135426866, 3737678324, 2009235165, 3798291117, 2508412931, 883081147, 3881550608,
  1823459270, 2206879223, 4031119541, 390044806, 2930964666, 409694324, 2593200672, 3818614206,
  2132862551, 4165944870, 3718505337, 4224594063, 2332493434, 1983621111, 1772018273, 1662213543,
  2423729392, 2696525243, 3128064793, 456520206, 823681971, 1945090716, 2947447994, 2168661133,
  1955115373, 2772590518, 3734665451, 97134594, 1401139160, 2378228971, 287587924, 2699811426,
  1940603856, 3359602508, 272427282, 556072944, 2643497856, 2847175847, 3673086882, 2514247782,
  2124412654, 2172007219, 1888716652, 914257986, 1533822238, 732922316, 213760228, 3792441959,
  3925497531, 2991495224, 2071758890, 2718195373, 2157680828, 692954859, 570250349, 3243659987,
  4174637042, 2931510889, 3626234245, 3156518408, 3882653236, 794981689, 2055809660, 4095601267,
  874745776, 1059640018, 2647073237, 1319004388, 2618691638, 3507306668, 232208900, 3671476150,
  2353277324, 1707325800, 4192495959, 3066532398, 3622129878, 920045452, 1049717042, 1300391125,
  797830032, 2583358058, 124869185, 2397829806, 3800963514, 3861608755, 1361630217, 751219962,
  1983356517, 2905235337, 2726961726, 771590416, 1365773159, 908356830, 2753571521, 1719974836]

/-- Entries 2304 to 2559. -/
def roots9 : List Nat := [
  1836213324, 2873044571, 3013305066, 3088950321, 2582872314, 3370452598, 2485915692, 3681731992,
  1620237989, 3407665477, 907128761, 1424245558, 2195843374, 1686964682, 3488412236, 2382088956,
  1847804173, 3317579258, 3551595227, 280941591, 2975680400, 2770312610, 1623995145, 2827956973,
  3670062018, 3043705895, 762566832, 516720618, 3450782456, 2450006617, 316791094, 1949799289,
  3363888535, 230126604, 3095641841, 1434971401, 294122854, 684732958, 3100689981, 11391320,
  3991085116, 1887099861, 3775568652, 1616656708, 2331958068, 212898036, 2955683321, 3796725138,
  3005894312, 655019994, 1881608079, 600231830, 3300421511, 3183142128, 3624708755, 3604565732,
  2454448687, 3496304444, 1001417192, 1299525466, 1689813818, 1329651971, 1851556496, 2726947632,
  206754907, 1555920745, 2843903383, 4059630234, 333130747, 3400928767, 409504079, 3210600399,
  1118725073, 3252307266, 966517221, 987793663, 1557923624, 3281148610, 3008057980, 2710370316,
  1972884285, 3867428766, 4047698003, 2615512054, 2816589144, 1674636493, 2980914517, 3351517930,
  4162841723, 3057458184, 3285695443, 1405757669, 1757883819, 973122080, 656246347, 1552868901,
  2824999473, 1696104313, 1266747970, 4232122797, 701715033, 1203113790, 1103239322, 2411452171,
  670497198, 4208565779, 633178699, 2434930130, 2075222984, 2648258480, 128998038, 536110612,
  3889616722, 1942555794, 181787777, 1667533950, 3071717879, 2245158451, 687410390, 4009206267,
  2263002934, 591487281, 396324555, 2994884260, 1097794803, 2706345904, 3307590226, 1005368555,
  4054725904, 2318882880, 1852866030, 1901896329, 3811477094, 963198074, 4060354114, 2615992040,
  3678767101, 895680160, 2373028754, 2138503071, 110396958, 1422536598, 641248478, 1543644689,
  1886965565, 3984909337, 2860040286, 3510720477, 1972143132, 2405615004, 1356718435, 2897982282,
  1924009324, 205614276, 1074885646, 3587601423, 552083543, 2597613260, 3234010795, 3282935600,
  67596043, 2363237403, 342630968, 3399242117, 2790795717, 384376524, 2788791733, 782692213,
  2617555780, 1376465587, 267612808, 3930487270, 767831059, 2418080687, 1341792181, 4068116125,
  3268710686, 2173839593, 3729530948, 278699155, 3042195689, 1493029429, 3799291470, 3932217991,
  3518196921, 1904872357, 969379593, 2221170819, 2294165906, 2453565567, 499162694, 3666962992,
  166426885, 3326046956, 967559752, 2006617812, 2874356229, 646634506, 3690102913, 2015905398,
  3530611121, 4173838137, 1227521224, 3188703225, 112284337, 3982912365, 1839237916, 3828788482,
  1764781787, 3398006977, 2927766218, 2129512362, 1519939044, 2433431743, 2405320732, 2618223934,
  4011922633, 1976385343, 4022939279, 1128488734, 3451900632, 2096218159, 1947019909, 287619335,
  2584614290, 2931818858, 2534443585, 335943167, 2067863072, 3281320103, 1021997477, 3060156395,
  3199491414, 2773890667, 2588366289, 1836592449, 2643596734, 554893268, 1876372440, 750497189,
  3886780691, 1766662155, 811075708, 838938591, 3718662263, 4053185755, 571255271, 2835627520,
  1234810715, 3951613438, 4191170620, 631853503, 3327048620, 793801824, 1485309109, 1780271293]

/-- Entries 2560 to 2815. -/
def roots10 : List Nat := [
  1275388431, 4279627349, 9029321, 2947153666, 2126453219, 3508362343, 1340055028, 3309091287,
  1682947167, 76579891, 3849008686, 683139632, 2722015717, 2225163925, 3062295362, 621178610,
  2707761552, 2759326769, 1059598569, 1739280405, 1736236547, 1622776219, 2863681025, 2842071191,
  1428626235, 3362340320, 1496580179, 3477530517, 1070816113, 2393149907, 2041189769, 1729970294,
  3816025018, 2643473814, 2879619260, 4025776377, 2116443711, 1195765126, 1683155614, 3433128336,
  201367275, 1089850435, 1233316624, 2597359420, 362771883, 664692125, 205537743, 3792077181,
  501200484, 323654907, 319108423, 61167256, 3188740589, 652879973, 2599850178, 2723643266,
  2784725037, 3171454380, 3175673039, 406759431, 3149626190, 1710873078, 4113848851, 3422202351,
  3959290130, 3780962133, 2278407909, 1136921465, 2610719985, 1412354383, 412604324, 3760597063,
  4051261936, 437637061, 2326546518, 3775211908, 2116669770, 2871699243, 2509024637, 3289342907,
  503423912, 962492923, 117428310, 1609132893, 392146887, 1963924213, 1456519762, 3148323055,
  1541711566, 753779, 1662815418, 2531483589, 3979263440, 3316660952, 298034345, 312544085,
  1135560388, 949462967, 2230549611, 3064425621, 144890533, 1110798469, 87994452, 3853214306,
  2515377968, 122699239, 2870644556, 838606880, 4068299603, 3571216733, 394902760, 3522669440,
  2982603206, 690800867, 995195557, 76207123, 2824107560, 2611925370, 1298639465, 1486451427,
  952937928, 2237686044, 600400742, 3490790145, 932872387, 910855590, 2635253960, 639009065,
  4122373900, 293214014, 4149917286, 3914131961, 1276112986, 1127398829, 2493327814, 3951345592,
  1093219330, 4290898442, 4044106819, 1125669655, 3528435831, 1913602866, 313590624, 4099595468,
  2295415137, 1841460755, 295276964, 1177283917, 1497780223, 2256615587, 3574006448, 3191175381,
  3895038913, 278447025, 1792915680, 3162064720, 2116053584, 4077451843, 2080817045, 3089460023,
  759431668, 1536242163, 2040179911, 2563172228, 612549910, 1009886566, 1638776682, 4260613649,
  1866735317, 2999405648, 1667371942, 4243637343, 3367477924, 3815783536, 2072018922, 158311319,
  3998430030, 1040634504, 1655613468, 3652188067, 181741561, 3657620163, 705169201, 4046830717,
  3461410595, 2711942607, 3540259031, 4289115469, 1731555909, 1554030354, 1541050006, 1883298940,
  2869035150, 3736274430, 2239879136, 1115595150, 3528845462, 2683901745, 792747868, 2078989640,
  3552853482, 3701470510, 4231069242, 1065480064, 3693322166, 2275914905, 935900368, 3446274496,
  686378141, 153956488, 2003435362, 1568647096, 3074315623, 312258565, 2412762466, 4148216085,
  1069555106, 1367523722, 3741537824, 1433342101, 2551578499, 1619654508, 538772577, 3111210048,
  3239902523, 1438594092, 2295668144, 628882985, 3236632110, 2626974905, 3492181616, 1751807180,
  1378410229, 1676247534, 3965287187, 1936518743, 1413541141, 1007230840, 2942061959, 1445826828,
  1502176218, 2465822472, 3418897394, 1017583591, 3064610409, 2098024782, 3755078330, 2409821966,
  3760027691, 2358999195, 18230725, 3678611623, 2746144946, 2682239657, 3590124435, 1337635460]

/-- Entries 2816 to 3071. -/
def roots11 : List Nat := [
  4293870906, 280563232, 118235832, 1568065741, 2507571023, 2102106392, 1419399658, 1006416317,
  1105298078, 3326824869, 3791195528, 3804634010, 174017333, 7786349, 4031489846, 2666582796,
  2907133427, 2345640187, 212744224, 541752749, 928869593, 4277593763, 2740968941, 3367175422,
  1441481950, 3087923625, 48004007, 3695481107, 2580577703, 2225049571, 4137518889, 368352006,
  1095472970, 1398112415, 360583271, 3187256522, 272879144, 3032045889, 3456653288, 512228193,
  407726524, 2759264742, 3465431328, 2826587432, 72069465, 1827688971, 1090848279, 2922079598,
  1117348507, 2758177367, 3853499913, 318463517, 1598225456, 1523810420, 1989869715, 2835162625,
  1055800007, 1540260334, 3839077906, 248457080, 2995595867, 3486921843, 1713514174, 3260315570,
  3505961841, 1818030657, 304431530, 1737122908, 757023820, 2391184017, 122937755, 1500968289,
  257189550, 1232840772, 2229575345, 2063925129, 463011810, 2540811612, 2465996208, 2793421598,
  365616966, 3962420222, 2071589830, 932928154, 1764658859, 2355051364, 1002184897, 3550928417,
  3838095598, 2232516939, 563237000, 1388885471, 3330325639, 3451305926, 210108575, 3927229996,
  2364952597, 970598159, 3937119365, 3136382585, 2717633808, 3672238592, 3737468313, 2897770325,
  1277815241, 1699135413, 3739247051, 300167970, 3495575899, 3789249262, 17403171, 676999914,
  734636813, 1162788134, 2546834318, 1012735337, 2457905519, 1899255743, 3360230519, 118596838,
  363628178, 2735089107, 821556726, 914102631, 2083382532, 2338424411, 3743803739, 358921439,
  297714938, 3576227532, 1566462299, 2046448054, 3923437138, 1793387754, 4204992177, 1122957041,
  3183818807, 1064619566, 1078331065, 1276057105, 1162929274, 2425357944, 2813705215, 2062304678,
  1107496761, 2530557203, 1249895094, 1494863995, 43047694, 1031772473, 2943827672, 872448334,
  1299038446, 3565649706, 487349564, 2896888950, 611797416, 3240537394, 4059060168, 1948690816,
  574846854, 1009943353, 1791567246, 1146171125, 3561197330, 279360270, 377954738, 3163440192,
  729281738, 1413680286, 1193385726, 1049291903, 1721298996, 3213478066, 336032450, 3732357662,
  3178521173, 3087553360, 1186140266, 500532073, 1329672208, 359821695, 2250544692, 1073759281,
  2471559749, 3900555088, 3403157574, 1882770716, 1031281542, 4278799964, 3382328884, 3491199640,
  3361141696, 3912596808, 749810107, 3445313708, 473170388, 82384261, 3967237456, 3421587400,
  78254993, 2770344652, 1339693328, 1668722161, 1064842729, 662753696, 83278051, 2130735929,
  4126819119, 1288155274, 4173044052, 1331517880, 2159276139, 3640938293, 3012011214, 897832978,
  2268885638, 3304168108, 3271831758, 3067715509, 2587886246, 3549988936, 2420888719, 4119478787,
  1571785166, 309814440, 987285443, 1124853345, 3028441215, 4190045730, 3364073383, 3220535131,
  3196070407, 633394321, 3019720251, 2482776413, 3484007530, 1610231286, 176152012, 3085321469,
  3548923051, 4163261172, 2671262074, 3463266139, 3601634093, 2868545082, 529942282, 3045214002,
  3169108044, 2245472767, 280665302, 1248258251, 2345901710, 2939392669, 1730563688, 3728072210]

/-- Entries 3072 to 3327. -/
def roots12 : List Nat := [
  3433454730, 1997728294, 3580100332, 274368656, 3004949295, 4286490706, 988308804, 204868381,
  3034742682, 3284201362, 2720822065, 2902455555, 3883056497, 472955575, 2570534153, 103884828,
  271373321, 1062992321, 2790074182, 3467895639, 3160983740, 1611241580, 927063813, 2697868058,
  315137010, 3744985060, 2939599749, 3295821632, 3792332326, 3581798000, 1081449080, 2061718169,
  4282282599, 2124706342, 3810687484, 1222477634, 1710235886, 1847602926, 3665497785, 1613602772,
  1418643361, 3160046166, 3270008731, 38727819, 125329550, 1772094341, 1472586646, 1042433078,
  4209302227, 3365755103, 1818126226, 2290734185, 959460545, 2401287817, 933811721, 1909718081,
  446628736, 1586938890, 2157886719, 68811127, 2170531963, 920935821, 2579063924, 749874875,
  1430904747, 74335433, 1494354436, 2215851096, 253820449, 1907588266, 1075244361, 937059838,
  3752703330, 498001455, 3715063439, 2594951651, 3144514845, 498060983, 3833480887, 3074343449,
  1401877477, 377687220, 1458512619, 2242324105, 3608630933, 2275998380, 95922784, 1351928215,
  2351966163, 3458224031, 2281241565, 2028139565, 3882994804, 191339053, 4142768398, 1537971677,
  3842551239, 131864237, 3013373854, 1893676393, 4214094694, 3058974047, 2453650668, 1038648262,
  1052358561, 3000574366, 2781915819, 970508036, 430110171, 1618044527, 3184111572, 3313423762,
  2729387860, 2387536220, 1590613373, 1331007141, 3061104621, 940704404, 295538270, 2271727288,
  2447071545, 439864939, 1876002649, 467466117, 345260663, 1955330234, 2745798712, 1984133396,
  574625991, 268167738, 2054554966, 1568212418, 1854656882, 3138634134, 1371737223, 1485553287,
  1447694218, 1772536257, 2035381278, 663726773, 1740077517, 3445226281, 295776556, 4259662643,
  1141253893, 3081685656, 2786603750, 2018140946, 911062522, 4001153927, 2575599236, 2042135349,
  1646670459, 78111284, 4212037962, 1955339548, 3065777617, 799342224, 2250113499, 1320214893,
  2424636254, 366885623, 1911691511, 3814282823, 1413772669, 2252979605, 1112627557, 989871884,
  3969369151, 2329069979, 2355576182, 758012857, 134835001, 2518915940, 2507137911, 2342447556,
  2748887317, 153798051, 2020719033, 3201006989, 1259818375, 1822844680, 2600812904, 545144650,
  3982277343, 867835633, 3493616651, 3710164524, 4257017146, 2545807672, 3712706201, 4246758213,
  150822260, 1790861666, 612484635, 1591936437, 756425097, 1087767091, 1363025885, 3555459480,
  2531102335, 4181233492, 3586004453, 1625172474, 1495337657, 3204599622, 1193916764, 3714875244,
  4136383748, 3291086188, 1346917414, 186604244, 3579903375, 2643566885, 1350525661, 2361945513,
  3995438089, 3572864969, 3728526771, 534679579, 3969656901, 4044904278, 2737878662, 443023705,
  4010512910, 1262467543, 1666851764, 4175230137, 4053193176, 4140414476, 2371451424, 3453117742,
  1434705061, 1570295727, 3806971970, 1039646602, 3813532076, 1011608690, 1914857125, 2258413497,
  2511573490, 2163026959, 1173248535, 2902723510, 1059725659, 3299059697, 903526246, 540621416,
  1859720849, 3338835958, 3356792440, 499706125, 353606050, 4151166238, 2232978218, 2924663525]

/-- Entries 3328 to 3583. -/
def roots13 : List Nat := [
  1228584021, 1172393751, 289977307, 3509337682, 191665871, 3798644821, 4172504711, 170308751,
  25894688, 3544346322, 2163843771, 3564470078, 3994473668, 2753682986, 1357788150, 3781854466,
  962961917, 2407605567, 1196550624, 3150361550, 3166477845, 2904459432, 863714719, 3920630155,
  557319091, 38910497, 3150581566, 254227793, 3104282993, 3393738796, 3712539607, 4154603937,
  401020836, 3923648915, 4206122955, 3454703241, 3766058722, 694423837, 3144983821, 1233643402,
  611745964, 3756966338, 2832030707, 505920647, 551941478, 3604168144, 3767661099, 2955457924,
  1707376352, 23469590, 1109491832, 2925208587, 2694982134, 3153753103, 1179375819, 3805271798,
  931649930, 3374095133, 2569633110, 1355418266, 3032380816, 3932041454, 955418613, 4226632863,
  2004851659, 2260988371, 3310728041, 2563581238, 724752099, 2083434034, 4001418344, 2523108848,
  3879573432, 1180719020, 109404358, 739612354, 1099905337, 3851600781, 3532643385, 2961455780,
  3669451725, 3525200827, 3206700872, 2847611586, 1447148179, 2825802705, 710507750, 3588856490,
  3720392381, 656107144, 1148512908, 1238631230, 3124596001, 3946902828, 2595730033, 490610702,
  1075879387, 440372548, 4280252726, 260666925, 181309554, 11742121, 965844913, 924793630,
  4198782246, 1425237521, 3764834860, 850227817, 1758866960, 882873072, 3974255428, 1381209503,
  810471073, 2258302136, 2267095756, 3339498312, 3208935665, 2694581092, 1847557368, 2497621593,
  2160355395, 2323869570, 470332154, 4230108191, 418163652, 2481968237, 478484326, 1499815033,
  1776811536, 3072319081, 71515589, 577644389, 3886636722, 285147108, 2129370066, 224347627,
  3579147730, 1994990947, 3927967986, 1217008414, 3791201126, 1785840456, 884531226, 3023131440,
  4023678152, 1902669008, 2900135291, 919807757, 1982557975, 1661176740, 3587988377, 3389805230,
  138925656, 1056954561, 3254581204, 1115644750, 4175004894, 791264113, 2803451248, 3299194471,
  3854287099, 3442114154, 2588937436, 3141667063, 894137986, 3235575486, 3473056058, 2553886953,
  4241415652, 1472685748, 1602665166, 2409438265, 91787316, 2574866997, 3073961646, 81853188,
  1344464172, 3596003292, 95459481, 3367086959, 3021933142, 908174907, 2775504523, 3457849477,
  2569084183, 1251360427, 4105558786, 294799706, 4240026178, 4258701501, 587824565, 804196689,
  1082100411, 831425582, 4012668591, 65093467, 3739169572, 3349954513, 77373069, 4091748566,
  3221915195, 3293615975, 4255316541, 3827962070, 4008233877, 1710958322, 3638707634, 3716205340,
  1505348992, 2994015713, 571598321, 961015438, 2822137589, 3608749688, 2088257703, 3420902244,
  2663016679, 471479913, 1256350028, 3262348523, 2275880687, 996040586, 4275151646, 2746496376,
  2889719349, 1980786214, 1419064563, 2266291357, 602192291, 3069111780, 3074025276, 2545031218,
  3519798008, 2872676332, 3593294129, 3272703972, 759482648, 4102349441, 3353448998, 1408397823,
  1090282867, 3271296621, 3005166881, 4100222267, 511808389, 3193357927, 2325977747, 1875671003,
  1435149601, 3857322730, 37083993, 1377811396, 845112117, 1243698787, 847964052, 3759797355]

/-- Entries 3584 to 3839. -/
def roots14 : List Nat := [
  777876053, 2970493557, 1830772888, 2726622619, 417251381, 3903627343, 553926204, 3516008481,
  2566165829, 2784890339, 940801596, 1326311797, 2901668010, 2305380664, 2168260240, 108074502,
  35578998, 698277829, 4058570593, 2655923707, 2127791334, 3888929278, 182754421, 580261764,
  905847740, 3826215605, 4287980656, 370502614, 3609269586, 2059434314, 4262681408, 771208177,
  3985224032, 872610370, 1608644582, 3035550306, 1223072828, 467050812, 1801238204, 3751985233,
  726908844, 634311848, 3990699318, 3994784482, 2733908730, 2735013893, 4079054191, 934921606,
  110672574, 1181695370, 2694614390, 1167370107, 1142884474, 3933088221, 3406544767, 1706566065,
  3751689511, 3632731715, 579134313, 161623900, 3637778576, 3450596232, 868116139, 2676720241,
  1739972662, 604508281, 3675912520, 700966247, 2277365026, 524301806, 495820444, 2614440208,
  2042722298, 1626631066, 2511472004, 2779648587, 721735973, 2143885489, 1230201175, 2706144200,
  96203774, 2083859584, 3747840316, 4151937059, 1945139256, 3191624784, 1816728067, 3361583540,
  288631980, 3349739406, 808452486, 2939082878, 2723672015, 1730628488, 2932513719, 271720831,
  1614766265, 1299489605, 1703803677, 2186918561, 2290651393, 3336408057, 3274374824, 2592139150,
  1075919102, 2999681237, 2174036455, 59877067, 2422104917, 1094687022, 1137712036, 1941485043,
  3872760574, 3176371821, 740546949, 3649546925, 1273339232, 3097044464, 2681171057, 2282001430,
  660155194, 3743781023, 2982467644, 1684505222, 461048333, 2437061871, 1959898201, 1412305775,
  2898562669, 22558399, 2467357210, 3385672071, 293778217, 4024690735, 2138622663, 3495734874,
  3042789874, 4080059119, 3788711510, 2709241683, 1453884424, 1172410842, 3649711644, 368424326,
  2888150712, 1682604610, 3603245822, 1560584297, 2142883014, 3377932240, 1355606533, 1331367479,
  3332827391, 431468533, 2804505614, 201897548, 1958145380, 1066635930, 2459201048, 617778592,
  2861475364, 2076323065, 3728382670, 279198224, 1233278880, 2033961986, 3254506932, 928231480,
  3074774302, 2071394064, 3611868547, 1186774196, 2433127968, 1274323323, 778046231, 2440697780,
  3296804095, 924872643, 3381528112, 3307588022, 891623985, 3284531901, 3025694821, 1526809122,
  3171926507, 830084148, 1405371575, 1701423155, 2217172528, 1178537899, 2225210576, 618093657,
  3421691873, 4243596000, 1275651113, 4176619353, 117223436, 596022558, 1525234337, 940172157,
  4217010782, 2529825027, 245332357, 675982940, 4249401344, 3838413628, 2697056438, 2037274507,
  2949003533, 4258076254, 6645062, 2959653738, 841058559, 2380726204, 2294311087, 96201499,
  4189885382, 164628554, 998219969, 751620599, 1616635701, 4189877727, 1539579794, 376848176,
  4161961651, 582307189, 3792876595, 3350972302, 239669927, 531692159, 1082209802, 2146814478,
  1141637596, 1170988832, 2834741291, 129918786, 4209505170, 2922452950, 97730711, 429634897,
  2131614650, 2315950528, 658446979, 93632750, 1758015766, 1149592541, 2226044604, 101967907,
  467358723, 1946832130, 3598977119, 1555538846, 1364696210, 1881401598, 415122290, 1893545002]

/-- Entries 3840 to 4095. -/
def roots15 : List Nat := [
  3986418015, 1545920713, 3564667353, 3836059829, 3123002094, 3185496787, 2372428469, 1027058057,
  389873654, 3332831613, 2951000978, 3816545007, 3735311507, 1269372174, 3748698265, 4264829670,
  4119516580, 4064559045, 1953722822, 3033228019, 2163305900, 3976821496, 1091057235, 3373016078,
  1186927154, 1967072314, 3591507740, 277646719, 3787242527, 3713328727, 322088893, 2689151413,
  2360694116, 3762120977, 3534770282, 1793223154, 3140945829, 2514266585, 643373691, 3001999367,
  706979393, 1999298337, 1651828019, 3474807029, 3789858800, 3556055578, 3411776145, 1959002296,
  612519339, 4101707909, 1564727042, 2808627787, 2240327935, 2758204223, 1572213524, 1016689518,
  726265135, 3952377113, 1330077438, 1791990496, 350855023, 4174500343, 1161896322, 3798203348,
  2898833020, 3392829038, 3717449801, 3352329142, 376254551, 3426373254, 184262141, 4191378073,
  2446164645, 2471722132, 3062922104, 3925170762, 1474417665, 3633607983, 1329513741, 3261223485,
  2682240151, 1125026605, 1720535211, 2295017885, 2802531688, 4225399212, 4145718349, 657917918,
  1145679321, 96970794, 693261824, 2640752201, 4107386568, 2497429324, 2255541489, 455664575,
  3786518365, 2824881661, 3680472706, 2628451142, 3227150925, 1256959987, 244171189, 1837246688,
  3426914308, 1663254204, 1313309188, 812679541, 3866756714, 3134839004, 929634175, 2738970675,
  412799626, 3228045035, 4054397260, 1576110584, 315079858, 2542330284, 1589324271, 2004068909,
  2343796369, 2365721784, 4287368825, 3944565538, 3868748327, 2200257729, 1317738447, 1289014418,
  3117532532, 388174442, 2810478895, 2368386348, 3268113189, 3018385965, 268803032, 1254880048,
  2180392720, 3610033506, 751900421, 300693929, 3581718752, 200753137, 2346434588, 358123061,
  390841167, 4195436365, 4101653705, 2298812339, 3535238107, 855548959, 1652293445, 351861215,
  3563220112, 4103722817, 2659880359, 3508282027, 4183091785, 2212699839, 2204809972, 123771650,
  3890524751, 3219903508, 1791327460, 2548586189, 818438174, 3944852805, 2627226350, 37590065,
  2493307297, 2420046743, 708642828, 809087557, 4032996934, 2907412226, 4028325451, 1229580197,
  989150498, 2799446756, 2966072813, 1389206733, 1138409842, 4254404075, 2624629919, 1748629940,
  1040482923, 2230520011, 1556895204, 2645232230, 1042734756, 4278078510, 4045224625, 3297466660,
  1953300946, 4070308875, 3475102199, 3507396816, 1963243983, 4147909732, 3939371212, 2581127431,
  1568455145, 4105837267, 3902834867, 1343583632, 2253793939, 1518859916, 4231666749, 1429515392,
  1425383251, 3962224587, 2140125504, 1536452241, 128974227, 317006852, 1484669384, 1281718109,
  3441358207, 1946249953, 59983037, 2283872072, 2842172687, 2023107080, 756698478, 1303081992,
  476179918, 1679457624, 1173803177, 2243909586, 466527769, 330933589, 3976189835, 1307288338,
  534273350, 2946833588, 4039430382, 1992388066, 1134799420, 1197053069, 2377457709, 232578532,
  3778001181, 3051553722, 3607876505, 2687662210, 3267709131, 1502667315, 2866042354, 1715814304,
  1984245776, 3343933575, 1542127268, 85409085, 2927378774, 2866738681, 1467413791, 190909406]

/-- Entries 0 to 255. -/
def rootsInv0 : List Nat := [
  1, 4173969863, 631441563, 564333851, 1584891929, 1722793240, 2990834092, 1853592006,
  2472615992, 4266670527, 1413156457, 3978408248, 2328344466, 638910600, 4009503407, 2242788536,
  1586134219, 3719989587, 3369218044, 1899384041, 831438651, 2083392825, 1662976012, 994272591,
  196736183, 2225110645, 237700857, 1243801211, 3970986790, 1943387617, 494600477, 3213095325,
  1577997445, 3970961091, 263102116, 3233009647, 1732309385, 2249082458, 1719984374, 1022258905,
  306806842, 1591587871, 23545973, 4078048192, 3536494683, 1082700034, 1661822455, 3369504068,
  870875915, 781008685, 1549874615, 2372602387, 4227186324, 2618406218, 3464239721, 2736017235,
  2094454278, 502584381, 514887862, 2837809410, 615213023, 3028879310, 3301339183, 2592229857,
  1570110389, 3518024426, 3459639893, 2694992442, 1683009125, 1973012801, 584668125, 1247542952,
  2595347446, 155471810, 1573360737, 3147747644, 3101083657, 3427453367, 3331156435, 1143902294,
  3608348721, 120463607, 3561267698, 3227266543, 2156651248, 2703941665, 2450573815, 2688709509,
  2632293534, 1790826224, 1698133898, 1409488752, 3223326399, 1679121874, 2406050975, 265218906,
  1900507250, 2865809523, 4243515927, 355551901, 2601554582, 3259750866, 2347350637, 4007969316,
  2347535990, 111777401, 194222289, 2128814139, 1102068260, 2530652920, 1203818869, 4121900389,
  823060091, 2137919417, 1668853683, 990008721, 1326559976, 1560011638, 3635286012, 4034817028,
  213009337, 2098178254, 2467154772, 3854898454, 471890081, 1414301005, 3069660580, 2962637943,
  2059421517, 4093179196, 2276529770, 1349252082, 2142172018, 3967876882, 1796707395, 3842650896,
  1820198765, 1693840844, 1540421155, 2915719795, 2391039381, 1249205630, 459153432, 3009753673,
  1903064079, 2068840943, 2063574459, 2201019601, 1153511233, 3680613168, 709679547, 542802955,
  3039920830, 386186106, 3729134572, 487412683, 2657828383, 2595680407, 3004989361, 2270919331,
  3383121394, 2750113659, 11625578, 2613895657, 2173418349, 3156170984, 49506332, 499024784,
  4027543933, 4042448160, 1121384033, 215558759, 3247963773, 3788123392, 3255107363, 1789170851,
  117921568, 639575320, 3176953006, 534880806, 3532210810, 614614294, 2033861379, 1753026647,
  628262069, 1536931255, 4120194954, 1457203378, 406845297, 1872575547, 328786313, 1330478664,
  3892405396, 650967301, 3508193512, 2004167706, 4094494107, 1725110712, 1766474316, 3303592883,
  2580320784, 1223278102, 3130842139, 1168210122, 942955896, 3572729795, 3357960540, 364189618,
  754644610, 1543824300, 1558697914, 1749241160, 3075291223, 665907417, 1581733360, 3391894831,
  2619689244, 659350754, 3792821918, 3660502067, 580399130, 2184549779, 4143717868, 765572150,
  2963758118, 493843929, 762532608, 4108721716, 3039557028, 2675574625, 1492633117, 368212680,
  1428328611, 2039699418, 1738619218, 1340064361, 1652245433, 4272752275, 3954000298, 417657026,
  1409977173, 1044930117, 3675954825, 1534339206, 3551061161, 3282797705, 275170175, 3306824417,
  390226739, 1166377858, 4204533818, 615016355, 2683361560, 3618477279, 774419573, 133490265]

/-- Entries 256 to 511. -/
def rootsInv1 : List Nat := [
  1551684205, 4164676546, 3531162139, 697352534, 3491334058, 908454630, 2704399119, 2406146414,
  1125823214, 3136310382, 3493370118, 2889823198, 1313182166, 1118400257, 2370215197, 497022877,
  1891140151, 2408627751, 1354807295, 2428244811, 573764985, 4247767758, 1443264641, 2778072416,
  2369239875, 278909899, 3430912039, 3742817993, 496659472, 3476416228, 2327419009, 3766708904,
  1726385099, 1242561582, 3768336719, 413118105, 242359022, 2889392900, 991914127, 3128008757,
  869394929, 3080489030, 1291158917, 1080339068, 2295763424, 2733463921, 746110866, 1338584061,
  1565608819, 3394443018, 1163762604, 848037839, 3628179700, 1662686893, 4247960283, 585338559,
  1042512159, 4174846334, 836798253, 652509578, 3205706062, 2947358345, 836270275, 2847303557,
  1357968944, 2166018491, 4016469517, 1780650793, 3073377736, 1892781289, 1740541003, 2221855551,
  2542691488, 2787598623, 3964953658, 806973482, 2019364882, 2588559216, 1427655340, 2528760270,
  3040769228, 3575762321, 2113604391, 1358470607, 1334864518, 1058719367, 1906453313, 378718505,
  2106281562, 2742357326, 1396761351, 3151079223, 1646341907, 2430193471, 2619215774, 3383216995,
  1107699058, 2975046209, 463648730, 971215480, 507793063, 549850757, 1833387976, 3213084924,
  3701779463, 3293576374, 1727711789, 3026788304, 413170342, 655473534, 2902075925, 2460022626,
  3889470551, 3684139580, 37017980, 1336907533, 2366395960, 4143620525, 3679914953, 3347290966,
  1200753895, 2352791719, 3145081150, 3590339088, 4213651139, 437940430, 2814219335, 4202144399,
  3579106276, 290101755, 4276128152, 399696444, 3440920661, 1139858571, 3568194453, 468948586,
  2319314746, 270537700, 4183785286, 389439019, 2549372451, 2969925078, 3900324247, 2289478351,
  1938120923, 4039172425, 3617857460, 1410986117, 442149074, 437587703, 1910807528, 3200915445,
  1372338147, 1776363696, 2187745544, 3289786543, 2061639447, 2234214725, 3578729456, 4004087256,
  1564149765, 646607251, 3155828230, 3126231579, 3503272559, 182049942, 1594589163, 1620448632,
  2105608789, 3171641980, 3182153314, 1666085633, 1809517667, 3189832694, 2897067356, 2996226237,
  593724054, 3627226676, 3278244440, 3703323632, 1237640417, 599289012, 630797634, 2360925821,
  654021728, 1298724496, 2853853698, 991582447, 1533594280, 2826790882, 3802921748, 2649133996,
  1853057376, 19664556, 1474987313, 139764880, 145457332, 3401258084, 4278434608, 2161832789,
  2739058877, 760501741, 2213646786, 2184180146, 3387783115, 4106856128, 2284393862, 2730295309,
  2672572339, 3500679620, 3656190126, 3661717898, 1069297151, 2739855114, 706253792, 1010934039,
  2486106205, 133639744, 2276159803, 1429180909, 1939342611, 661299939, 4071272443, 1150265181,
  2203244844, 1271066691, 191150351, 229706881, 3457020224, 668573445, 1531515828, 535121585,
  3299801944, 518742940, 515753083, 4284051324, 4275444524, 2821866383, 2322868021, 2106378653,
  62982249, 1928351088, 364287015, 1837322456, 4258796928, 2720706193, 724553976, 3328324934,
  656002543, 1632103399, 1889901052, 1287533904, 1677138504, 303128705, 2751318495, 2782055384]

/-- Entries 512 to 767. -/
def rootsInv2 : List Nat := [
  1022785374, 2372250824, 101683363, 3005108853, 4290376082, 2889643463, 2727364506, 1850451039,
  956222049, 30521147, 3649421192, 1499254805, 1122481083, 2691195035, 1311210641, 3257566700,
  1228047690, 1266106483, 3470279180, 3682179654, 1225982077, 2004140502, 3073659963, 1978274785,
  4020913856, 4065026341, 3112873389, 205167238, 1613438789, 1719416600, 174825094, 1211974404,
  1965408974, 1399674323, 1777577470, 2564351454, 3165497829, 1563205247, 2131355708, 823257174,
  3316903126, 231018722, 1674997342, 950649896, 3721942314, 497377574, 2644586141, 2422624361,
  1343047789, 3195312570, 1411662431, 1771709249, 3273366156, 3072417771, 1799821143, 3379437262,
  2510435895, 3746709828, 3795074920, 2059067927, 3133661229, 4112430745, 1559794163, 2251226847,
  1492500313, 1044262039, 1227586298, 211698651, 1438346277, 1576598931, 3664115654, 1463070029,
  326717811, 3346695140, 2543194848, 3858234868, 3315128655, 1605796970, 323960506, 1886390454,
  3736884650, 3583520426, 1423816335, 3080448097, 2695051143, 1395661486, 315154484, 1729572629,
  3156125213, 2182202250, 2979906801, 3216418042, 170890768, 3356500295, 793205549, 817971630,
  3342917815, 1514509704, 2373370641, 2859663665, 686674438, 208986176, 1373371569, 2178633629,
  4001421971, 1491595961, 1819959511, 417299835, 939018337, 1327540260, 1024491985, 3606173779,
  2977045537, 3678611861, 3657840860, 2323110034, 3827383135, 1941651855, 2550025431, 2467184853,
  3282589034, 1108749166, 793656051, 3800472664, 3783304012, 2211191433, 1184826490, 270237837,
  1338383473, 1943074842, 1172346768, 1745325505, 589009545, 17105129, 628612625, 2458834280,
  802746544, 3411216584, 1244100631, 630043801, 2872343555, 1274507053, 3120626236, 3641588825,
  4217267425, 1609734022, 1929728913, 1896261010, 3398366542, 466923631, 1129401768, 3421203368,
  691710814, 1819999214, 77555846, 2704743129, 59900092, 2463237589, 3948777607, 3008038552,
  946415311, 2220743762, 3517793857, 4027838270, 3102335709, 2390075216, 469023005, 4247209485,
  1223749643, 205337156, 4211224914, 167495605, 2071800054, 4276613027, 4286741147, 817144876,
  3320520050, 1602204448, 4231217045, 2219036706, 1556862620, 1334900822, 2669700234, 4263744344,
  852477415, 1261120232, 2499532643, 3103737542, 1925660532, 1296597742, 3845325436, 4130376517,
  1191801817, 2513635784, 4243200780, 1910256247, 4116217035, 2417937588, 4026355875, 1572554731,
  918822789, 286705157, 3396014886, 2767641343, 741776176, 916036021, 1799830417, 3490885295,
  2937985809, 629121440, 2673243294, 3755318343, 1287164239, 344312732, 1402204612, 871741628,
  68336510, 1776748861, 1786775259, 662718681, 1924109413, 1751577555, 2667320122, 1252465110,
  1960819141, 227917653, 538409353, 2334232772, 343373887, 739645584, 3115405982, 3748916305,
  2945262838, 2810914217, 1905805053, 1643024719, 385513178, 3237896075, 3180407140, 1800341659,
  148914101, 4022715429, 37169031, 2903439146, 3869424990, 3958087980, 886466846, 768810670,
  3879346706, 3800709893, 3133054963, 2250652952, 502914810, 467169659, 2401358764, 3206455456]

/-- Entries 768 to 1023. -/
def rootsInv3 : List Nat := [
  1814402005, 2266142985, 779917888, 1111912640, 2691200961, 4203113041, 90224262, 1554980711,
  322713229, 1332963277, 337286526, 4008182054, 1774228849, 535229368, 2722542491, 3658781720,
  214885318, 2734253587, 1142859213, 4032068752, 4067062190, 1987388417, 542577731, 3125555412,
  173914841, 703726119, 2683199518, 3302229939, 1347575136, 1708169813, 2978464101, 3869793308,
  2327102255, 1978402922, 1977066536, 3831090400, 1869608803, 1125518178, 2543187798, 1237554801,
  537623696, 1048518865, 3624775625, 1770792507, 3989439187, 2824613641, 133529968, 2411397811,
  3084399793, 1590981044, 633307462, 4256145785, 2539807369, 3888842573, 171032750, 1509799190,
  4118159230, 1815770020, 2822811543, 3547448043, 1454745307, 587552506, 554518993, 3706329928,
  1806206381, 2785196341, 484788959, 3303586085, 3482442706, 1697175672, 203366830, 2030624092,
  50240761, 4259875898, 915668204, 1477597164, 461477474, 1005160700, 2466395539, 70128986,
  2701654346, 2425550937, 2123487482, 869836899, 2482244634, 754990836, 105395816, 3413925353,
  1615484608, 1028785180, 4061550352, 3339346412, 3236514725, 2787145579, 917341612, 4195955807,
  664451835, 4040110070, 3091942330, 1622008004, 2694401234, 98172479, 168595933, 1510337171,
  2809132666, 3729408476, 601704196, 2031169148, 3409941518, 2910818636, 899281988, 4222973122,
  90700949, 859732583, 1164762017, 1365383721, 740645211, 79291813, 3203031329, 3166589111,
  2606200541, 2679322223, 2954755376, 3683065849, 1936999394, 914164842, 2082337036, 554147049,
  3040237854, 3901410452, 3924584954, 2505649459, 3799975042, 413669590, 7326159, 4167070316,
  637659980, 1728083598, 3120525219, 2175249896, 3930016032, 3810209688, 687810932, 2814081602,
  1995884601, 232640401, 1046081351, 2099326148, 1802555085, 2452321944, 80044602, 195469731,
  2990023547, 2106389959, 282975982, 1093503941, 3958329188, 1760621687, 2038804495, 673387260,
  2120981909, 102467545, 3950188845, 3871598621, 101907794, 524185978, 993071576, 2803863270,
  3694025667, 2886029259, 2261284377, 3178897529, 598977814, 4068890295, 276397196, 3911364304,
  2014221937, 522593941, 1993164760, 1985429650, 42840331, 159360682, 2227793401, 570070599,
  2222606546, 1273729269, 1535619820, 672182049, 1684152989, 2882798158, 1152237782, 1180667250,
  3316282946, 712057406, 961332975, 2214173919, 4083875507, 134875916, 1783129654, 3993312127,
  233933886, 1514494149, 1957923494, 3057862671, 3303424751, 3822768034, 2816439370, 1331586025,
  1203174795, 1968786844, 1883162160, 1728443589, 2859554062, 3089810130, 4216032524, 4210578442,
  3196982713, 853056868, 159731575, 3922922313, 2230438992, 640642913, 2784431603, 2624560952,
  2555213301, 3642496590, 1549202245, 1339152894, 621848373, 1355719603, 2409485951, 2019190832,
  3819884549, 2775472046, 2747437023, 3498149166, 1503528515, 1074256853, 2099043593, 4151280649,
  564701297, 3334113870, 1181731338, 3744811443, 2551372672, 2905762979, 3546965030, 2236658164,
  3143135662, 2759453397, 2916037064, 2428347772, 474784673, 1539712380, 1621071934, 2844860350]

/-- Entries 1024 to 1279. -/
def rootsInv4 : List Nat := [
  1000839074, 721557750, 2219251154, 1557949983, 1455336383, 98534475, 1362087015, 1492804593,
  2863080545, 362576808, 2599379712, 2002663100, 392733152, 3488757204, 532132738, 4240770664,
  2587162508, 1927358479, 1687934183, 1577566510, 1245716544, 3057129200, 1387184529, 1356833595,
  2002968153, 351950583, 1537585277, 1779625556, 2897057025, 1787022904, 3610827468, 433936466,
  752975885, 4058783936, 935753025, 2096871029, 804136032, 210389924, 4184212904, 3221049081,
  801818705, 2374869584, 4101849969, 2223365073, 1679363126, 1383788831, 3549673305, 2510352410,
  1670725282, 2962736935, 4000776077, 264122133, 2676126571, 1340780741, 1013094361, 2210825637,
  2162359952, 1834791270, 1836520772, 2671274818, 159510396, 4202427351, 2752399218, 2888138070,
  1817774058, 2638299378, 4008008284, 3772661037, 121087, 2420705674, 2835895515, 2779011007,
  2325552057, 2788537023, 2554956290, 1030463771, 600786808, 585529180, 337417973, 4133204131,
  3429022672, 1764037839, 1348012084, 2177998421, 4114196359, 815020029, 2790439158, 2674205417,
  103063162, 2605866347, 3110178182, 1053623576, 3077919903, 230848893, 2841022426, 1422603146,
  3269537391, 2946918302, 745369775, 3896847349, 2372262578, 4293191402, 3506399331, 1863918339,
  1229225051, 3812606469, 3407822123, 1273309633, 57591804, 3077039001, 3640246772, 768330529,
  2620703142, 2835941650, 4000269281, 2158666840, 839225356, 2180181968, 2861776537, 1668451233,
  2170097246, 3843652413, 507083616, 1069131935, 1589811536, 3016542570, 2502818966, 1226764406,
  1832714335, 1176560313, 3981954260, 2070654474, 1796998157, 3162391362, 3576035171, 792011679,
  1958991377, 255100211, 2044622146, 611939053, 1901979235, 1819224999, 2954210721, 2860385408,
  3135855446, 3512953473, 1258733468, 1246776053, 1043624819, 1189127364, 2572851462, 4201910605,
  3058609346, 3489449185, 3763312465, 2590555613, 3596459280, 2702561668, 304728372, 1475365634,
  2426397832, 1754973993, 3649460855, 929742923, 969015999, 698686538, 3776699580, 3691839790,
  665968078, 1113538771, 1697321647, 1694579141, 3153027524, 3046334770, 4106440216, 602947726,
  35394493, 3786058718, 3313374202, 1629910737, 890660962, 368049742, 1836402333, 2330237459,
  3028165255, 2785699258, 2518350331, 2120537303, 2902626914, 2246444161, 2581532077, 76297130,
  2305223235, 3394326750, 3044090531, 190787057, 2867976933, 3339469819, 3212617951, 1628477814,
  4179393730, 962733399, 838166551, 3013625583, 422860061, 2593561513, 594922295, 3719192433,
  1666804947, 2048023325, 3112209078, 101689206, 1616851291, 1013756217, 3240385026, 3601666505,
  1850608061, 3020971614, 4116415532, 3343159436, 2362145912, 29393918, 88186210, 4107544968,
  2816404102, 3288116849, 2825075255, 298251136, 2732791672, 3521088678, 3297596495, 1431527224,
  2974461615, 1932191072, 196743375, 568414671, 1194239988, 2074600877, 4040140576, 1693494492,
  3137925736, 143730687, 65856132, 1020861754, 2760522724, 4212509817, 4256549745, 1105418482,
  3919186128, 2987244354, 1998939329, 3404085387, 80200474, 3201376262, 1937597619, 3965352147]

/-- Entries 1280 to 1535. -/
def rootsInv5 : List Nat := [
  578491769, 1744695907, 2873482716, 3662965564, 397539929, 835994826, 1394803759, 651123959,
  2384758267, 1453490161, 1745730859, 3883211516, 2068166223, 1916363783, 2890505841, 1464228535,
  1362489049, 4083652175, 2380499053, 1354445293, 476365456, 2129385242, 4136550167, 587627154,
  3922998352, 837870415, 3400273370, 901761618, 3347344203, 140910224, 2363907213, 1270342360,
  3089367282, 1087194885, 3535687615, 2004788131, 599450690, 122700473, 212776092, 410831292,
  4064627278, 3673826330, 1391063945, 25111419, 3547005785, 2829693665, 2697089308, 2365436151,
  2286121439, 4000365514, 3181697144, 830034912, 2016241746, 3833672098, 1212406547, 1216725909,
  2870482173, 1404329453, 1864513181, 399313949, 3542414255, 602505901, 3608597030, 2207423681,
  3788098669, 4117918235, 2359308757, 2910201614, 2943371184, 2365774741, 1930271745, 4007155678,
  416119130, 364253914, 1870668683, 3509210836, 418918165, 541235242, 4094508096, 3202415584,
  3951048533, 4032921997, 2342476887, 849280866, 846400643, 326420373, 4553164, 657462344,
  2666389886, 2159673389, 2823367998, 4126629440, 2520623824, 2130116734, 130434303, 3463792132,
  3982699444, 3039953204, 4261775458, 2636858054, 627632404, 1638627578, 1173583534, 1369879784,
  1681771113, 2618757187, 66457930, 1728610949, 1893850960, 1360509560, 2229725513, 3144497802,
  656934966, 2687415376, 3141010297, 1114109750, 1165689633, 3584134433, 3214667818, 1314369996,
  169370649, 2298254884, 2772306854, 3749690847, 1084250897, 1179248826, 1807106475, 2770776218,
  2934592285, 1126601185, 535453906, 4287164251, 2686142013, 3386912288, 3021321476, 1345132317,
  1191677396, 3615061821, 646870393, 3071692493, 3011826088, 1332522545, 2537886395, 3772120272,
  4097999009, 277428129, 498799110, 2339140698, 2475499567, 195022529, 994281700, 1210757939,
  1880439960, 832177657, 2179979768, 3406068907, 2381599039, 1166393155, 4193961401, 708359349,
  4216517740, 3474726304, 4197024584, 4193048839, 2162731660, 1787362090, 1365016926, 2087574540,
  4004243391, 2000102629, 289302043, 1634514165, 622218907, 1466456914, 3630836852, 311066562,
  218616173, 3831946841, 1803412286, 2549951800, 2769353976, 150773939, 1925317289, 1273472305,
  3407966476, 625365669, 866377816, 2051866441, 2055555799, 3418481417, 1362704152, 3722794414,
  2638819344, 2261610611, 902941111, 3461118189, 734488048, 152725778, 3356710777, 3921038784,
  789614580, 2092275677, 802274329, 482232597, 59571032, 1945072209, 1273465334, 3085519346,
  1802177403, 2975349160, 3473492093, 888750040, 3254824115, 549855968, 3046893020, 3816796439,
  223078098, 2349593071, 856300764, 3140607405, 1117780986, 973308846, 2551610888, 788243458,
  2544840687, 1434100600, 599532223, 2823861598, 581167288, 1017160247, 1743477868, 4155205786,
  1551728056, 4230856598, 4118812501, 501926589, 3680082631, 1089721400, 2606523690, 353848962,
  3508301185, 2171369286, 2730617810, 694150476, 1138082311, 3702550100, 3303556255, 1353702454,
  722783085, 1513657882, 2850919539, 2717782733, 1194877849, 3524618857, 2719194546, 1531269341]

/-- Entries 1536 to 1791. -/
def rootsInv6 : List Nat := [
  2990270182, 358181029, 1113561874, 3080779895, 5814608, 2649580298, 1100761099, 2662642418,
  4225680269, 2562758995, 38282781, 1321983899, 3711644930, 2574626378, 4245655629, 73009557,
  1306864269, 1701737743, 3771783259, 382322876, 642182688, 2574347181, 207806605, 1878871263,
  2991393403, 848082523, 1636026677, 1043843496, 3452487615, 2476857858, 1516107194, 933312400,
  2895759727, 3857074866, 1169248883, 528691147, 316599624, 2525396840, 743843796, 2420852693,
  3068031607, 2741364633, 2881343640, 1388168381, 1618568594, 2775363465, 74937610, 3576515875,
  4233273489, 1563930903, 1739321002, 3568912798, 2249369802, 2671993006, 2661655459, 698883422,
  1593335236, 1641009784, 168961822, 384801809, 3345634125, 1323943458, 2292448225, 2815763148,
  4203178283, 1879168520, 2074941421, 2912983804, 351421950, 2047022582, 3556233003, 310587286,
  912031919, 3654990856, 3738964903, 2951027203, 1790305616, 2162018409, 2607560334, 2180446158,
  674649280, 3351084100, 4055625087, 397789042, 779652471, 854241053, 4015147973, 810346036,
  4224058495, 4133610554, 3325078539, 2914116492, 1510948460, 193346603, 1507393664, 1800004834,
  1512045825, 3252111626, 118158972, 2172673113, 465470142, 4155738888, 1921408062, 2147380664,
  1323137592, 2623914787, 1049332463, 3879624212, 3005311967, 1149011885, 1444120362, 1363016486,
  1000412413, 2483863922, 998222068, 3256762551, 1964157098, 2640154719, 4107897130, 2757280,
  2724859854, 1438235973, 1875348406, 2360161663, 1812698191, 2283333147, 521791139, 3001104933,
  3498835191, 1476493825, 228136113, 4260937576, 972038594, 586338269, 78918563, 992476690,
  1714845018, 3268780866, 1389160061, 254547691, 1873665253, 621788628, 4001506146, 2702746388,
  1115152433, 3238691912, 4178495729, 1415857659, 3024005961, 3594736786, 3178613804, 2610811434,
  3205663714, 1614126169, 148293809, 860557021, 3405888685, 48178629, 2811411488, 3910004927,
  3855786524, 3360014064, 1284059362, 2381708546, 1189878246, 2743134564, 1880432037, 644807208,
  442120228, 3606824760, 1713169183, 1824894569, 4269684811, 1172354920, 649653464, 4250712884,
  1704885438, 1313224655, 3841718256, 1900063353, 2692024927, 1062983959, 2411549434, 1019376933,
  1724726726, 2428702981, 3100185780, 1778648646, 2824194812, 368674838, 3293624158, 2049957675,
  1792097332, 3874522549, 1484459417, 1101643317, 4093425962, 1834089448, 3296950100, 626404104,
  928095335, 4003867159, 3995103912, 179816822, 1622730472, 3191261066, 3319848422, 1083381508,
  2975358065, 4252483063, 1945973358, 1265480485, 1207567275, 1388072242, 670925033, 2460617624,
  1411676640, 2429184919, 3452720300, 3127531492, 3745863285, 2028796322, 2510644464, 2824776775,
  2327901390, 2077526076, 1095261305, 50676087, 3989186551, 4016763164, 2355277652, 2476000043,
  2921452075, 4026442, 2852903135, 1941177440, 16227375, 900725535, 3953631461, 1362350809,
  1561293035, 2875846514, 2937215471, 3282811559, 2895328989, 158088300, 2457787246, 3466218876,
  2117956904, 3729527303, 1948098681, 3692039239, 2035804983, 2654818869, 82829398, 3340720489]

/-- Entries 1792 to 2047. -/
def rootsInv7 : List Nat := [
  3548488857, 1814924647, 1630699293, 4075231614, 2389465329, 3180516768, 591911115, 2875328745,
  881446517, 1009014558, 2202507284, 2267106976, 830531182, 102585834, 3975404825, 813494392,
  170276329, 1458098322, 350694513, 3621797362, 1465802456, 2420947225, 976792001, 1597231258,
  3668841432, 288132274, 3411153512, 2938821154, 3361742375, 3190603627, 1093229240, 556486098,
  1020289279, 2830231021, 3734005416, 2684044447, 2584131688, 3992879375, 4225951422, 1045280775,
  3461321492, 3274528205, 3210184908, 762053713, 2026532479, 2451269793, 235317820, 3861598554,
  3808613605, 2129085949, 2605763719, 4160676327, 2463348525, 871271814, 3964053290, 3872735954,
  2455501691, 1006354765, 1095322858, 3804719266, 1947137878, 1023993495, 189413794, 1969338960,
  1606441896, 3237524875, 3668588765, 932057034, 2862379353, 3892596325, 3238514652, 3896661196,
  2083614475, 2092450703, 160772137, 363465046, 2031315689, 592013926, 1493807965, 1698503533,
  412923149, 1125292796, 1902996585, 3391732256, 1750276752, 2860681165, 1739473238, 3647838050,
  1255426636, 3688182678, 429035063, 2534905484, 1284506368, 2696396633, 1134167649, 37095327,
  3341538749, 3516102293, 640681398, 2136476330, 2458334088, 1956591540, 3341085212, 2277764404,
  3546739014, 3010519004, 4144996561, 1066711779, 2531981371, 2592322742, 3255271940, 662747584,
  890361181, 181824124, 2198759105, 3335098731, 2471985311, 2610254613, 1146121979, 1740020427,
  3978144632, 3994665502, 2668043247, 1143927377, 243083512, 1012918371, 1892300936, 2615462246,
  4054611181, 3482891539, 2386932266, 607343172, 3961670414, 4211680059, 3978477846, 668044530,
  1628656712, 4256459577, 2492664708, 630062681, 28836446, 4011074690, 1516948945, 39474401,
  2504816273, 1167410981, 828866895, 3102491135, 3701480867, 1619744395, 3048242974, 2774089863,
  553036857, 3263380684, 4291804968, 1082923740, 2560542795, 3290051752, 1527367821, 2973308817,
  3618229322, 4225538922, 2028624522, 2783859226, 921652868, 2222357847, 2201765426, 3037369928,
  2971833744, 3374034825, 2983970882, 3832020317, 1961576447, 690838896, 279868345, 1702862381,
  1313647042, 1996091043, 1491856901, 484772581, 3964694772, 1472951697, 1151711851, 783985120,
  4177963077, 1584437862, 1200197132, 344474385, 3015842609, 3482781866, 1806589426, 2618836398,
  4122931546, 2368040035, 1176595199, 3725123484, 2096178703, 477911489, 2086129614, 2039306714,
  2957196846, 3951935181, 2610382351, 3548701897, 4210449019, 142035233, 361677746, 1270549128,
  4248800299, 3228679926, 2826940335, 4191859541, 1410436344, 4245995473, 3784199301, 3118493705,
  3161882918, 1709721192, 3692732589, 1724311715, 3272881722, 3783397695, 574685160, 3858274510,
  3353890226, 1462655178, 668113269, 3138846412, 1209697749, 4024262111, 1518639305, 2603106945,
  1086688660, 2807238916, 1665570547, 4226517037, 735959145, 3352323422, 3969769950, 3497464431,
  2632353296, 2965622190, 3549723966, 4139377098, 1397347515, 3631123678, 2774807718, 2426054342,
  2780261754, 3527657029, 2008316137, 2937347638, 1949803623, 486502340, 3312283638, 1221713880]

/-- Entries 2048 to 2303. -/
def rootsInv8 : List Nat := [
  4103918627, 2827414242, 1428089352, 1367449259, 4209418948, 2752700765, 950894458, 2310582257,
  2579013729, 1428785679, 2792160718, 1027118902, 1607165823, 686951528, 1243274311, 516826852,
  4062249501, 1917370324, 3097774964, 3160028613, 2302439967, 255397651, 1347994445, 3760554683,
  2987539695, 318638198, 3963894444, 3828300264, 2050918447, 3121024856, 2615370409, 3818648115,
  2991746041, 3538129555, 2271720953, 1452655346, 2010955961, 4234844996, 2348578080, 853469826,
  3013109924, 2810158649, 3977821181, 4165853806, 2758375792, 2154702529, 332603446, 2869444782,
  2865312641, 63161284, 2775968117, 2041034094, 2951244401, 391993166, 188990766, 2726372888,
  1713700602, 355456821, 146918301, 2331584050, 787431217, 819725834, 224519158, 2341527087,
  997361373, 249603408, 16749523, 3252093277, 1649595803, 2737932829, 2064308022, 3254345110,
  2546198093, 1670198114, 40423958, 3156418191, 2905621300, 1328755220, 1495381277, 3305677535,
  3065247836, 266502582, 1387415807, 261831099, 3485740476, 3586185205, 1874781290, 1801520736,
  4257237968, 1667601683, 349975228, 3476389859, 1746241844, 2503500573, 1074924525, 404303282,
  4171056383, 2090018061, 2082128194, 111736248, 786546006, 1634947674, 191105216, 731607921,
  3942966818, 2642534588, 3439279074, 759589926, 1996015694, 193174328, 99391668, 3903986866,
  3936704972, 1948393445, 4094074896, 713109281, 3994134104, 3542927612, 684794527, 2114435313,
  3039947985, 4026025001, 1276442068, 1026714844, 1926441685, 1484349138, 3906653591, 1177295501,
  3005813615, 2977089586, 2094570304, 426079706, 350262495, 7459208, 1929106249, 1951031664,
  2290759124, 2705503762, 1752497749, 3979748175, 2718717449, 240430773, 1066782998, 3882028407,
  1555857358, 3365193858, 1159989029, 428071319, 3482148492, 2981518845, 2631573829, 867913725,
  2457581345, 4050656844, 3037868046, 1067677108, 1666376891, 614355327, 1469946372, 508309668,
  3839163458, 2039286544, 1797398709, 187441465, 1654075832, 3601566209, 4197857239, 3149148712,
  3636910115, 149109684, 69428821, 1492296345, 1999810148, 2574292822, 3169801428, 1612587882,
  1033604548, 2965314292, 661220050, 2820410368, 369657271, 1231905929, 1823105901, 1848663388,
  103449960, 4110565892, 868454779, 3918573482, 942498891, 577378232, 901998995, 1395995013,
  496624685, 3132931711, 120327690, 3943973010, 2502837537, 2964750595, 342450920, 3568562898,
  3278138515, 2722614509, 1536623810, 2054500098, 1486200246, 2730100991, 193120124, 3682308694,
  2335825737, 883051888, 738772455, 504969233, 820021004, 2643000014, 2295529696, 3587848640,
  1292828666, 3651454342, 1780561448, 1153882204, 2501604879, 760057751, 532707056, 1934133917,
  1605676620, 3972739140, 581499306, 507585506, 4017181314, 703320293, 2327755719, 3107900879,
  921811955, 3203770798, 318006537, 2131522133, 1261600014, 2341105211, 230268988, 175311453,
  29998363, 546129768, 3025455859, 559516526, 478283026, 1343827055, 961996420, 3904954379,
  3267769976, 1922399564, 1109331246, 1171825939, 458768204, 730160680, 2748907320, 308410018]

/-- Entries 2304 to 2559. -/
def rootsInv9 : List Nat := [
  2401283031, 3879705743, 2413426435, 2930131823, 2739289187, 695850914, 2347995903, 3827469310,
  4192860126, 2068783429, 3145235492, 2536812267, 4201195283, 3636381054, 1978877505, 2163213383,
  3865193136, 4197097322, 1372375083, 85322863, 4164909247, 1460086742, 3123839201, 3153190437,
  2148013555, 3212618231, 3763135874, 4055158106, 943855731, 501951438, 3712520844, 132866382,
  3917979857, 2755248239, 104950306, 2678192332, 3543207434, 3296608064, 4130199479, 104942651,
  4198626534, 2000516946, 1914101829, 3453769474, 1335174295, 4288182971, 36751779, 1345824500,
  2257553526, 1597771595, 456414405, 45426689, 3618845093, 4049495676, 1765003006, 77817251,
  3354655876, 2769593696, 3698805475, 4177604597, 118208680, 3019176920, 51232033, 873136160,
  3676734376, 2069617457, 3116290134, 2077655505, 2593404878, 2889456458, 3464743885, 1122901526,
  2768018911, 1269133212, 1010296132, 3403204048, 987240011, 913299921, 3369955390, 998023938,
  1854130253, 3516781802, 3020504710, 1861700065, 3108053837, 682959486, 2223433969, 1220053731,
  3366596553, 1040321101, 2260866047, 3061549153, 4015629809, 566445363, 2218504968, 1433352669,
  3677049441, 1835626985, 3228192103, 2336682653, 4092930485, 1490322419, 3863359500, 962000642,
  2963460554, 2939221500, 916895793, 2151945019, 2734243736, 691582211, 2612223423, 1406677321,
  3926403707, 645116389, 3122417191, 2840943609, 1585586350, 506116523, 214768914, 1252038159,
  799093159, 2156205370, 270137298, 4001049816, 909155962, 1827470823, 4272269634, 1396265364,
  2882522258, 2334929832, 1857766162, 3833779700, 2610322811, 1312360389, 551047010, 3634672839,
  2012826603, 1613656976, 1197783569, 3021488801, 645281108, 3554281084, 1118456212, 422067459,
  2353342990, 3157115997, 3200141011, 1872723116, 4234950966, 2120791578, 1295146796, 3218908931,
  1702688883, 1020453209, 958419976, 2004176640, 2107909472, 2591024356, 2995338428, 2680061768,
  4023107202, 1362314314, 2564199545, 1571156018, 1355745155, 3486375547, 945088627, 4006196053,
  933244493, 2478099966, 1103203249, 2349688777, 142890974, 546987717, 2210968449, 4198624259,
  1588683833, 3064626858, 2150942544, 3573092060, 1515179446, 1783356029, 2668196967, 2252105735,
  1680387825, 3799007589, 3770526227, 2017463007, 3593861786, 618915513, 3690319752, 2554855371,
  1618107792, 3426711894, 844231801, 657049457, 4133204133, 3715693720, 662096318, 543138522,
  2588261968, 888283266, 361739812, 3151943559, 3127457926, 1600213643, 3113132663, 4184155459,
  3359906427, 215773842, 1559814140, 1560919303, 300043551, 304128715, 3660516185, 3567919189,
  542842800, 2493589829, 3827777221, 3071755205, 1259277727, 2686183451, 3422217663, 309604001,
  3523619856, 32146625, 2235393719, 685558447, 3924325419, 6847377, 468612428, 3388980293,
  3714566269, 4112073612, 405898755, 2167036699, 1638904326, 236257440, 3596550204, 4259249035,
  4186753531, 2126567793, 1989447369, 1393160023, 2968516236, 3354026437, 1509937694, 1728662204,
  778819552, 3740901829, 391200690, 3877576652, 1568205414, 2464055145, 1324334476, 3516951980]

/-- Entries 2560 to 2815. -/
def rootsInv10 : List Nat := [
  535030678, 3446863981, 3051129246, 3449715916, 2917016637, 4257744040, 437505303, 2859678432,
  2419157030, 1968850286, 1101470106, 3783019644, 194605766, 1289661152, 1023531412, 3204545166,
  2886430210, 941379035, 192478592, 3535345385, 1022124061, 701533904, 1422151701, 775030025,
  1749796815, 1220802757, 1225716253, 3692635742, 2028536676, 2875763470, 2314041819, 1405108684,
  1548331657, 19676387, 3298787447, 2018947346, 1032479510, 3038478005, 3823348120, 1631811354,
  873925789, 2206570330, 686078345, 1472690444, 3333812595, 3723229712, 1300812320, 2789479041,
  578622693, 656120399, 2583869711, 286594156, 466865963, 39511492, 1001212058, 1072912838,
  203079467, 4217454964, 944873520, 555658461, 4229734566, 282159442, 3463402451, 3212727622,
  3490631344, 3707003468, 36126532, 54801855, 4000028327, 189269247, 3043467606, 1725743850,
  836978556, 1519323510, 3386653126, 1272894891, 927741074, 4199368552, 698824741, 2950363861,
  4212974845, 1220866387, 1719961036, 4203040717, 1885389768, 2692162867, 2822142285, 53412381,
  1740941080, 821771975, 1059252547, 3400690047, 1153160970, 1705890597, 852713879, 440540934,
  995633562, 1491376785, 3503563920, 119823139, 3179183283, 1040246829, 3237873472, 4155902377,
  905022803, 706839656, 2633651293, 2312270058, 3375020276, 1394692742, 2392159025, 271149881,
  1271696593, 3410296807, 2508987577, 503626907, 3077819619, 366860047, 2299837086, 715680303,
  4070480406, 2165457967, 4009680925, 408191311, 3717183644, 4223312444, 1222508952, 2518016497,
  2795013000, 3816343707, 1812859796, 3876664381, 64719842, 3824495879, 1970958463, 2134472638,
  1797206440, 2447270665, 1600246941, 1085892368, 955329721, 2027732277, 2036525897, 3484356960,
  2913618530, 320572605, 3411954961, 2535961073, 3444600216, 529993173, 2869590512, 96045787,
  3370034403, 3328983120, 4283085912, 4113518479, 4034161108, 14575307, 3854455485, 3218948646,
  3804217331, 1699098000, 347925205, 1170232032, 3056196803, 3146315125, 3638720889, 574435652,
  705971543, 3584320283, 1469025328, 2847679854, 1447216447, 1088127161, 769627206, 625376308,
  1333372253, 762184648, 443227252, 3194922696, 3555215679, 4185423675, 3114109013, 415254601,
  1771719185, 293409689, 2211393999, 3570075934, 1731246795, 984099992, 2033839662, 2289976374,
  68195170, 3339409420, 362786579, 1262447217, 2939409767, 1725194923, 920732900, 3363178103,
  489556235, 3115452214, 1141074930, 1599845899, 1369619446, 3185336201, 4271358443, 2587451681,
  1339370109, 527166934, 690659889, 3742886555, 3788907386, 1462797326, 537861695, 3683082069,
  3061184631, 1149844212, 3600404196, 528769311, 840124792, 88705078, 371179118, 3893807197,
  140224096, 582288426, 901089237, 1190545040, 4040600240, 1144246467, 4255917536, 3737508942,
  374197878, 3431113314, 1390368601, 1128350188, 1144466483, 3098277409, 1887222466, 3331866116,
  512973567, 2937039883, 1541145047, 300354365, 730357955, 2130984262, 750481711, 4268933345,
  4124519282, 122323322, 496183212, 4103162162, 785490351, 4004850726, 3122434282, 3066244012]

/-- Entries 2816 to 3071. -/
def rootsInv11 : List Nat := [
  1370164508, 2061849815, 143661795, 3941221983, 3795121908, 938035593, 955992075, 2435107184,
  3754206617, 3391301787, 995768336, 3235102374, 1392104523, 3121579498, 2131801074, 1783254543,
  2036414536, 2379970908, 3283219343, 481295957, 3255181431, 487856063, 2724532306, 2860122972,
  841710291, 1923376609, 154413557, 241634857, 119597896, 2627976269, 3032360490, 284315123,
  3851804328, 1556949371, 249923755, 325171132, 3760148454, 566301262, 721963064, 299389944,
  1932882520, 2944302372, 1651261148, 714924658, 4108223789, 2947910619, 1003741845, 158444285,
  579952789, 3100911269, 1090228411, 2799490376, 2669655559, 708823580, 113594541, 1763725698,
  739368553, 2931802148, 3207060942, 3538402936, 2702891596, 3682343398, 2503966367, 4144005773,
  48069820, 582121832, 1749020361, 37810887, 584663509, 801211382, 3426992400, 312550690,
  3749683383, 1694015129, 2471983353, 3035009658, 1093821044, 2274109000, 4141029982, 1545940716,
  1952380477, 1787690122, 1775912093, 4159993032, 3536815176, 1939251851, 1965758054, 325458882,
  3304956149, 3182200476, 2041848428, 2881055364, 480545210, 2383136522, 3927942410, 1870191779,
  2974613140, 2044714534, 3495485809, 1229050416, 2339488485, 82790071, 4216716749, 2648157574,
  2252692684, 1719228797, 293674106, 3383765511, 2276687087, 1508224283, 1213142377, 3153574140,
  35165390, 3999051477, 849601752, 2554750516, 3631101260, 2259446755, 2522291776, 2847133815,
  2809274746, 2923090810, 1156193899, 2440171151, 2726615615, 2240273067, 4026660295, 3720202042,
  2310694637, 1549029321, 2339497799, 3949567370, 3827361916, 2418825384, 3854963094, 1847756488,
  2023100745, 3999289763, 3354123629, 1233723412, 2963820892, 2704214660, 1907291813, 1565440173,
  981404271, 1110716461, 2676783506, 3864717862, 3324319997, 1512912214, 1294253667, 3242469472,
  3256179771, 1841177365, 1235853986, 80733339, 2401151640, 1281454179, 4162963796, 452276794,
  2756856356, 152059635, 4103488980, 411833229, 2266688468, 2013586468, 836604002, 1942861870,
  2942899818, 4198905249, 2018829653, 686197100, 2052503928, 2836315414, 3917140813, 2892950556,
  1220484584, 461347146, 3796767050, 1150313188, 1699876382, 579764594, 3796826578, 542124703,
  3357768195, 3219583672, 2387239767, 4041007584, 2078976937, 2800473597, 4220492600, 2863923286,
  3544953158, 1715764109, 3373892212, 2124296070, 4226016906, 2136941314, 2707889143, 3848199297,
  2385109952, 3361016312, 1893540216, 3335367488, 2004093848, 2476701807, 929072930, 85525806,
  3252394955, 2822241387, 2522733692, 4169498483, 4256100214, 1024819302, 1134781867, 2876184672,
  2681225261, 629330248, 2447225107, 2584592147, 3072350399, 484140549, 2170121691, 12545434,
  2233109864, 3213378953, 713030033, 502495707, 999006401, 1355228284, 549842973, 3979691023,
  1596959975, 3367764220, 2683586453, 1133844293, 826932394, 1504753851, 3231835712, 4023454712,
  4190943205, 1724293880, 3821872458, 411771536, 1392372478, 1574005968, 1010626671, 1260085351,
  4089959652, 3306519229, 8337327, 1289878738, 4020459377, 714727701, 2297099739, 861373303]

/-- Entries 3072 to 3327. -/
def rootsInv12 : List Nat := [
  566755823, 2564264345, 1355435364, 1948926323, 3046569782, 4014162731, 2049355266, 1125719989,
  1249614031, 3764885751, 1426282951, 693193940, 831561894, 1623565959, 131566861, 745904982,
  1209506564, 4118676021, 2684596747, 810820503, 1812051620, 1275107782, 3661433712, 1098757626,
  1074292902, 930754650, 104782303, 1266386818, 3169974688, 3307542590, 3985013593, 2723042867,
  175349246, 1873939314, 744839097, 1706941787, 1227112524, 1022996275, 990659925, 2025942395,
  3396995055, 1282816819, 653889740, 2135551894, 2963310153, 121783981, 3006672759, 168008914,
  2164092104, 4211549982, 3632074337, 3229985304, 2626105872, 2955134705, 1524483381, 4216573040,
  873240633, 327590577, 4212443772, 3821657645, 849514325, 3545017926, 382231225, 933686337,
  803628393, 912499149, 16028069, 3263546491, 2412057317, 891670459, 394272945, 1823268284,
  3221068752, 2044283341, 3935006338, 2965155825, 3794295960, 3108687767, 1207274673, 1116306860,
  562470371, 3958795583, 1081349967, 2573529037, 3245536130, 3101442307, 2881147747, 3565546295,
  1131387841, 3916873295, 4015467763, 733630703, 3148656908, 2503260787, 3284884680, 3719981179,
  2346137217, 235767865, 1054290639, 3683030617, 1397939083, 3807478469, 729178327, 2995789587,
  3422379699, 1351000361, 3263055560, 4251780339, 2799964038, 3044932939, 1764270830, 3187331272,
  2232523355, 1481122818, 1869470089, 3131898759, 3018770928, 3216496968, 3230208467, 1111009226,
  3171870992, 89835856, 2501440279, 371390895, 2248379979, 2728365734, 718600501, 3997113095,
  3935906594, 551024294, 1956403622, 2211445501, 3380725402, 3473271307, 1559738926, 3931199855,
  4176231195, 934597514, 2395572290, 1836922514, 3282092696, 1747993715, 3132039899, 3560191220,
  3617828119, 4277424862, 505578771, 799252134, 3994660063, 555580982, 2595692620, 3017012792,
  1397057708, 557359720, 622589441, 1577194225, 1158445448, 357708668, 3324229874, 1929875436,
  367598037, 4084719458, 843522107, 964502394, 2905942562, 3731591033, 2062311094, 456732435,
  743899616, 3292643136, 1939776669, 2530169174, 3361899879, 2223238203, 332407811, 3929211067,
  1501406435, 1828831825, 1754016421, 3831816223, 2230902904, 2065252688, 3061987261, 4037638483,
  2793859744, 4171890278, 1903644016, 3537804213, 2557705125, 3990396503, 2476797376, 788866192,
  1034512463, 2581313859, 807906190, 1299232166, 4046370953, 455750127, 2754567699, 3239028026,
  1459665408, 2304958318, 2771017613, 2696602577, 3976364516, 441328120, 1536650666, 3177479526,
  1372748435, 3203979754, 2467139062, 4222758568, 1468240601, 829396705, 1535563291, 3887101509,
  3782599840, 838174745, 1262782144, 4021948889, 1107571511, 3934244762, 2896715618, 3199355063,
  3926476027, 157309144, 2069778462, 1714250330, 599346926, 4246824026, 1206904408, 2853346083,
  927652611, 1553859092, 17234270, 3365958440, 3753075284, 4082083809, 1949187846, 1387694606,
  1628245237, 263338187, 4287041684, 4120810700, 490194023, 503632505, 968003164, 3189529955,
  3288411716, 2875428375, 2192721641, 1787257010, 2726762292, 4176592201, 4014264801, 957127]

/-- Entries 3328 to 3583. -/
def rootsInv13 : List Nat := [
  2957192573, 704703598, 1612588376, 1548683087, 616216410, 4276597308, 1935828838, 534800342,
  1885006067, 539749703, 2196803251, 1230217624, 3277244442, 875930639, 1829005561, 2792651815,
  2849001205, 1352766074, 3287597193, 2881286892, 2358309290, 329540846, 2618580499, 2916417804,
  2543020853, 802646417, 1667853128, 1058195923, 3665945048, 1999159889, 2856233941, 1054925510,
  1183617985, 3756055456, 2675173525, 1743249534, 2861485932, 553290209, 2927304311, 3225272927,
  146611948, 1882065567, 3982569468, 1220512410, 2726180937, 2291392671, 4140871545, 3608449892,
  848553537, 3358927665, 2018913128, 601505867, 3229347969, 63758791, 593357523, 741974551,
  2215838393, 3502080165, 1610926288, 765982571, 3179232883, 2054948897, 558553603, 1425792883,
  2411529093, 2753778027, 2740797679, 2563272124, 5712564, 754569002, 1582885426, 833417438,
  247997316, 3589658832, 637207870, 4113086472, 642639966, 2639214565, 3254193529, 296398003,
  4136516714, 2222809111, 479044497, 927350109, 51190690, 2627456091, 1295422385, 2428092716,
  34214384, 2656051351, 3284941467, 3682278123, 1731655805, 2254648122, 2758585870, 3535396365,
  1205368010, 2214010988, 217376190, 2178774449, 1132763313, 2501912353, 4016381008, 399789120,
  1103652652, 720821585, 2038212446, 2797047810, 3117544116, 3999551069, 2453367278, 1999412896,
  195232565, 3981237409, 2381225167, 766392202, 3169158378, 250721214, 3929591, 3201608703,
  343482441, 1801500219, 3167429204, 3018715047, 380696072, 144910747, 4001614019, 172454133,
  3655818968, 1659574073, 3383972443, 3361955646, 804037888, 3694427291, 2057141989, 3341890105,
  2808376606, 2996188568, 1682902663, 1470720473, 4218620910, 3299632476, 3604027166, 1312224827,
  772158593, 3899925273, 723611300, 226528430, 3456221153, 1424183477, 4172128794, 1779450065,
  441613727, 4206833581, 3184029564, 4149937500, 1230402412, 2064278422, 3345365066, 3159267645,
  3982283948, 3996793688, 978167081, 315564593, 1763344444, 2632012615, 4294074254, 2753116467,
  1146504978, 2838308271, 2330903820, 3902681146, 2685695140, 4177399723, 3332335110, 3791404121,
  1005485126, 1785803396, 1423128790, 2178158263, 519616125, 1968281515, 3857190972, 243566097,
  534230970, 3882223709, 2882473650, 1684108048, 3157906568, 2016420124, 513865900, 335537903,
  872625682, 180979182, 2583954955, 1145201843, 3888068602, 1119154994, 1123373653, 1510102996,
  1571184767, 1694977855, 3641948060, 1106087444, 4233660777, 3975719610, 3971173126, 3793627549,
  502750852, 4089290290, 3630135908, 3932056150, 1697468613, 3061511409, 3204977598, 4093460758,
  861699697, 2611672419, 3099062907, 2178384322, 269051656, 1415208773, 1651354219, 478803015,
  2564857739, 2253638264, 1901678126, 3224011920, 817297516, 2798247854, 932487713, 2866201798,
  1452756842, 1431147008, 2672051814, 2558591486, 2555547628, 3235229464, 1535501264, 1587066481,
  3673649423, 1232532671, 2069664108, 1572812316, 3611688401, 445819347, 4218248142, 2611880866,
  985736746, 2954773005, 786465690, 2168374814, 1347674367, 4285798712, 15200684, 3019439602]

/-- Entries 3584 to 3839. -/
def rootsInv14 : List Nat := [
  2514556740, 2809518924, 3501026209, 967779413, 3662974530, 103657413, 343214595, 3060017318,
  1459200513, 3723572762, 241642278, 576165770, 3455889442, 3483752325, 2528165878, 408047342,
  3544330844, 2418455593, 3739934765, 1651231299, 2458235584, 1706461744, 1520937366, 1095336619,
  1234671638, 3272830556, 1013507930, 2226964961, 3958884866, 1760384448, 1363009175, 1710213743,
  4007208698, 2347808124, 2198609874, 842927401, 3166339299, 271888754, 2318442690, 282905400,
  1676604099, 1889507301, 1861396290, 2774888989, 2165315671, 1367061815, 896821056, 2530046246,
  466039551, 2455590117, 311915668, 4182543696, 1106124808, 3067306809, 120989896, 764216912,
  2278922635, 604725120, 3648193527, 1420471804, 2288210221, 3327268281, 968781077, 4128401148,
  627865041, 3795665339, 1841262466, 2000662127, 2073657214, 3325448440, 2389955676, 776631112,
  362610042, 495536563, 2801798604, 1252632344, 4016128878, 565297085, 2120988440, 1026117347,
  226711908, 2953035852, 1876747346, 3526996974, 364340763, 4027215225, 2918362446, 1677272253,
  3512135820, 1506036300, 3910451509, 1504032316, 895585916, 3952197065, 1931590630, 4227231990,
  1011892433, 1060817238, 1697214773, 3742744490, 707226610, 3219942387, 4089213757, 2370818709,
  1396845751, 2938109598, 1889213029, 2322684901, 784107556, 1434787747, 309918696, 2407862468,
  2751183344, 3653579555, 2872291435, 4184431075, 2156324962, 1921799279, 3399147873, 616060932,
  1678835993, 234473919, 3331629959, 483350939, 2392931704, 2441962003, 1975945153, 240102129,
  3289459478, 987237807, 1588482129, 3197033230, 1299943773, 3898503478, 3703340752, 2031825099,
  285621766, 3607417643, 2049669582, 1223110154, 2627294083, 4113040256, 2352272239, 405211311,
  3758717421, 4165829995, 1646569553, 2219605049, 1859897903, 3661649334, 86262254, 3624330835,
  1883375862, 3191588711, 3091714243, 3593113000, 62705236, 3028080063, 2598723720, 1469828560,
  2741959132, 3638581686, 3321705953, 2536944214, 2889070364, 1009132590, 1237369849, 131986310,
  943310103, 1313913516, 2620191540, 1478238889, 1679315979, 247130030, 427399267, 2321943748,
  1584457717, 1286770053, 1013679423, 2736904409, 3307034370, 3328310812, 1042520767, 3176102960,
  1084227634, 3885323954, 893899266, 3961697286, 235197799, 1450924650, 2738907288, 4088073126,
  1567880401, 2443271537, 2965176062, 2605014215, 2995302567, 3293410841, 798523589, 1840379346,
  690262301, 670119278, 1111685905, 994406522, 3694596203, 2413219954, 3639808039, 1288933721,
  498102895, 1339144712, 4081929997, 1962869965, 2678171325, 519259381, 2407728172, 303742917,
  4283436713, 1194138052, 3610095075, 4000705179, 2859856632, 1199186192, 4064701429, 930939498,
  2345028744, 3978036939, 1844821416, 844045577, 3778107415, 3532261201, 1251122138, 624766015,
  1466871060, 2670832888, 1524515423, 1319147633, 4013886442, 743232806, 977248775, 2447023860,
  1912739077, 806415797, 2607863351, 2098984659, 2870582475, 3387699272, 887162556, 2674590044,
  613096041, 1808912341, 924375435, 1711955719, 1205877712, 1281522967, 1421783462, 2458614709]

/-- Entries 3840 to 4095. -/
def rootsInv15 : List Nat := [
  2574853197, 1541256512, 3386471203, 2929054874, 3523237617, 1567866307, 1389592696, 2311471516,
  3543608071, 2933197816, 433219278, 493864519, 1896998227, 4169958848, 1711469975, 3496998001,
  2994436908, 3245110991, 3374782581, 672698155, 1228295635, 102332074, 2587502233, 1941550709,
  623351883, 4062619133, 787521365, 1676136395, 2975823645, 1647754796, 3235188015, 3420082257,
  199226766, 2239018373, 3499846344, 412174797, 1138309625, 668593788, 1363317144, 120190991,
  1051168046, 3724577684, 3601873174, 2137147205, 1576632660, 2223069143, 1303332809, 369330502,
  502386074, 4081067805, 3561905717, 2761005795, 3380570047, 2406111381, 2122820814, 2170415379,
  1780580251, 621741151, 1447652186, 1651330177, 3738755089, 4022400751, 935225525, 2354224177,
  1595016607, 4007240109, 1916599062, 2893688873, 4197693439, 560162582, 1522237515, 2339712660,
  2126166900, 1347380039, 2349737317, 3471146062, 3838307827, 1166763240, 1598302790, 1871098641,
  2632614490, 2522809760, 2311206922, 1962334599, 70233970, 576322696, 128883163, 2161965482,
  476213827, 1701627361, 3885133709, 1363863367, 3904783227, 263708492, 2087948810, 2471368763,
  413277425, 3411746886, 1786415102, 496536916, 2285592868, 557149709, 1159401167, 3308281973,
  3748513649, 750279648, 4037016418, 1905644157, 292040905, 3066299034, 539551561, 1528230098,
  365175232, 2782824401, 1761112822, 1477419988, 10194060, 407216345, 2358352436, 3998998121,
  1006200304, 95663261, 1959258120, 3458303632, 2229629226, 1231143162, 3627196160, 2551739352,
  2464327905, 257326694, 29068461, 4034989597, 3084469077, 2968195114, 2312214216, 3448266037,
  2400631854, 1216567108, 436980138, 77026775, 449140621, 803051298, 2760110030, 1521344535,
  3742884698, 411904085, 2856528442, 3737739844, 2495972521, 4176804243, 4034486505, 868929998,
  52039444, 1444976083, 1142030916, 2345084045, 755135033, 2839201823, 743857631, 1036175580,
  459164496, 1526479056, 4128277004, 1013556134, 1155284561, 3012226174, 1854119418, 3092503687,
  3061944474, 4223206541, 3338252210, 1434643918, 97678739, 1772592097, 3709593087, 1194108268,
  3326645539, 2898669660, 516792783, 1828463805, 4196602117, 1571069892, 610716079, 2143047772,
  1280156924, 3061655078, 3688545253, 3018834346, 2587680138, 577950057, 1191566441, 685367112,
  4071344712, 2531396573, 1763765761, 2511561973, 4214472601, 3583534751, 207758866, 3573000574,
  2075836437, 2455942222, 55084091, 3256471467, 2798563561, 2959499499, 354924078, 863317005,
  3688164730, 3313679892, 3472911847, 2406337036, 1702117500, 784259712, 1602396578, 2629280314,
  2806921738, 1125761075, 1275282679, 3894996349, 2942017578, 2415230758, 1158448963, 729216385,
  2479910951, 4054803836, 1226247818, 1757217306, 3956714047, 517245774, 1925327424, 401908760,
  354881207, 2611315277, 2729344125, 706048140, 733536123, 2507683057, 1004210517, 1805121282,
  2192572244, 2178229768, 3297985709, 2991194293, 4079035311, 313642471, 3559818898, 2405057133,
  2010592703, 904981497, 30044257, 2799094424, 3592027954, 3892708021, 300905664, 3727524118]

/-- params_32_4096.rs:1 (`MOD`), 3 (`NINV`), 5-518 (`ROOTS`), 520-1033 (`INVROOTS`). -/
def params : Params := ⟨12, 4294828033, 4293779491, roots0 ++ roots1 ++ roots2 ++ roots3 ++ roots4 ++ roots5 ++ roots6 ++ roots7 ++ roots8 ++ roots9 ++ roots10 ++ roots11 ++ roots12 ++ roots13 ++ roots14 ++ roots15, rootsInv0 ++ rootsInv1 ++ rootsInv2 ++ rootsInv3 ++ rootsInv4 ++ rootsInv5 ++ rootsInv6 ++ rootsInv7 ++ rootsInv8 ++ rootsInv9 ++ rootsInv10 ++ rootsInv11 ++ rootsInv12 ++ rootsInv13 ++ rootsInv14 ++ rootsInv15⟩

/-- C36 for polynomials of size 4096 over 32-bit tori. -/
theorem C36_table : TableCorrect 32 params := check_sound (by decide +kernel)

end Verif.Ntt.P32_4096
