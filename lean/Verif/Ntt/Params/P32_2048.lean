import Verif.Ntt.Check
/-
Generated by tools/gen_ntt_params.py from
/repo/concrete-core/src/backends/ntt/private/math/params/params_32_2048.rs.
-/
namespace Verif.Ntt.P32_2048

/-- Entries 0 to 255. -/
def roots0 : List Nat := [
  1, 120858170, 3730494182, 3663386470, 2441236027, 1303993941, 2572034793, 2709936104,
  2052039497, 285324626, 3655917433, 1966483567, 316419785, 2881671576, 28157506, 1822212041,
  1081732708, 3800227556, 2351440416, 323841243, 3051026822, 4057127176, 2069717388, 4098091850,
  3300555442, 2631852021, 2211435208, 3463389382, 2395443992, 925609989, 574838446, 2708693814,
  1702598176, 993488850, 1265948723, 3679615010, 1457018623, 3779940171, 3792243652, 2200373755,
  1558810798, 830588312, 1676421815, 67641709, 1922225646, 2744953418, 3513819348, 3423952118,
  925323965, 2633005578, 3212127999, 758333350, 216779841, 4271282060, 2703240162, 3988021191,
  3272569128, 2574843659, 2045745575, 2562518648, 1061818386, 4031725917, 323866942, 2716830588,
  1332190090, 1225167453, 2880527028, 3822937952, 439929579, 1827673261, 2196649779, 4081818696,
  260011005, 659542021, 2734816395, 2968268057, 3304819312, 2625974350, 2156908616, 3471767942,
  172927644, 3091009164, 1764175113, 3192759773, 2166013894, 4100605744, 4183050632, 1947292043,
  286858717, 1947477396, 1035077167, 1693273451, 3939276132, 51312106, 1429018510, 2394320783,
  4029609127, 1888777058, 2615706159, 1071501634, 2885339281, 2596694135, 2504001809, 1662534499,
  1606118524, 1844254218, 1590886368, 2138176785, 1067561490, 733560335, 4174364426, 686479312,
  3150925739, 963671598, 867374666, 1193744376, 1147080389, 2721467296, 4139356223, 1699480587,
  3047285081, 3710159908, 2321815232, 2611818908, 1599835591, 835188140, 776803607, 2724717644,
  4161337768, 3520408460, 676350754, 1611466473, 3679811678, 90294215, 3128450175, 3904601294,
  988003616, 4019657858, 1012030328, 743766872, 2760488827, 618873208, 3249897916, 2884850860,
  3877171007, 340827735, 22075758, 2642582600, 2954763672, 2556208815, 2255128615, 2866499422,
  3926615353, 2802194916, 1619253408, 1255271005, 186106317, 3532295425, 3800984104, 1331069915,
  3529255883, 151110165, 2110278254, 3714428903, 634325966, 502006115, 3635477279, 1675138789,
  902933202, 2713094673, 3628920616, 1219536810, 2545586873, 2736130119, 2751003733, 3540183423,
  3930638415, 936867493, 722098238, 3351872137, 3126617911, 1163985894, 3071549931, 1714507249,
  991235150, 2528353717, 2569717321, 200333926, 2290660327, 786634521, 3643860732, 402422637,
  2964349369, 3966041720, 2422252486, 3887982736, 2837624655, 174633079, 2757896778, 3666565964,
  2541801386, 2260966654, 3680213739, 762617223, 3759947227, 1117875027, 3655252713, 4176906465,
  2505657182, 1039720670, 506704641, 1046864260, 4079269274, 3173444000, 252379873, 267284100,
  3795803249, 4245321701, 1138657049, 2121409684, 1680932376, 4283202455, 1544714374, 911706639,
  2023908702, 1289838672, 1699147626, 1636999650, 3807415350, 565693461, 3908641927, 1254907203,
  3752025078, 3585148486, 614214865, 3141316800, 2093808432, 2231253574, 2225987090, 2391763954,
  1285074360, 3835674601, 3045622403, 1903788652, 1379108238, 2754406878, 2600987189, 2474629268,
  452177137, 2498120638, 326951151, 2152656015, 2945575951, 2018298263, 201648837, 2235406516]

/-- Entries 256 to 511. -/
def roots1 : List Nat := [
  1512772649, 1543509538, 3991699328, 2617689529, 3007294129, 2404926981, 2662724634, 3638825490,
  966503099, 3570274057, 1574121840, 36031105, 2457505577, 3930541018, 2366476945, 4231845784,
  2188449380, 1971960012, 1472961650, 19383509, 10776709, 3779074950, 3776085093, 995026089,
  3759706448, 2763312205, 3626254588, 837807809, 4065121152, 4103677682, 3023761342, 2091583189,
  3144562852, 223555590, 3633528094, 2355485422, 2865647124, 2018668230, 4161188289, 1808721828,
  3283893994, 3588574241, 1554972919, 3225530882, 633110135, 638637907, 794148413, 1622255694,
  1564532724, 2010434171, 187971905, 907044918, 2110647887, 2081181247, 3534326292, 1555769156,
  2132995244, 16393425, 893569949, 4149370701, 4155063153, 2819840720, 4275163477, 2441770657,
  1645694037, 491906285, 1468037151, 2761233753, 3303245586, 1440974335, 2996103537, 3640806305,
  1933902212, 3664030399, 3695539021, 3057187616, 591504401, 1016583593, 667601357, 3701103979,
  1298601796, 1397760677, 1104995339, 2485310366, 2628742400, 1112674719, 1123186053, 2189219244,
  2674379401, 2700238870, 4112778091, 791555474, 1168596454, 1138999803, 3648220782, 2730678268,
  290740777, 716098577, 2060613308, 2233188586, 1005041490, 2107082489, 2518464337, 2922489886,
  1093912588, 2384020505, 3857240330, 3852678959, 2883841916, 676970573, 255655608, 2356707110,
  2005349682, 394503786, 1324902955, 1745455582, 3905389014, 111042747, 4024290333, 1975513287,
  3825879447, 726633580, 3154969462, 853907372, 3895131589, 18699881, 4004726278, 715721757,
  92683634, 1480608698, 3856887603, 81176894, 704488945, 1149746883, 1942036314, 3094074138,
  947537067, 614913080, 151207508, 1928432073, 2957920500, 4257810053, 610688453, 405357482,
  1834805407, 1392752108, 3639354499, 3881657691, 1268039729, 2567116244, 1001251659, 593048570,
  1081743109, 2461440057, 3744977276, 3787034970, 3323612553, 3831179303, 1319781824, 3187128975,
  911611038, 1675612259, 1864634562, 2648486126, 1143748810, 2898066682, 1552470707, 2188546471,
  3916109528, 2388374720, 3236108666, 2959963515, 2936357426, 2181223642, 719065712, 1254058805,
  1766067763, 2867172693, 1706268817, 2275463151, 3487854551, 329874375, 1507229410, 1752136545,
  2072972482, 2554287030, 2402046744, 1221450297, 2514177240, 278358516, 2128809542, 2936859089,
  1447524476, 3458557758, 1347469688, 1089121971, 3642318455, 3458029780, 119981699, 3252315874,
  3709489474, 46867750, 2632141140, 666648333, 3446790194, 3131065429, 900385015, 2729219214,
  2956243972, 3548717167, 1561364112, 1999064609, 3214488965, 3003669116, 1214339003, 3425433104,
  1166819276, 3302913906, 1405435133, 4052469011, 3881709928, 526491314, 3052266451, 2568442934,
  528119129, 1967409024, 818411805, 3798168561, 552010040, 863915994, 4015918134, 1925588158,
  1516755617, 2851563392, 47060275, 3721063048, 1866583222, 2940020738, 1886200282, 2403687882,
  3797805156, 1924612836, 3176427776, 2981645867, 1405004835, 801457915, 1158517651, 3169004819,
  1888681619, 1590428914, 3386373403, 803493975, 3597475499, 763665894, 130151487, 2743143828]

/-- Entries 512 to 767. -/
def roots2 : List Nat := [
  1449967683, 2673756099, 2755115653, 3820043360, 1866480261, 1378790969, 1535374636, 1151692371,
  2058169869, 747863003, 1389065054, 1743455361, 550016590, 3113096695, 960714163, 3730126736,
  143547384, 2195784440, 3220571180, 2791299518, 796678867, 1547391010, 1519355987, 474943484,
  2275637201, 1885342082, 2939108430, 3672979660, 2955675139, 2745625788, 652331443, 1739614732,
  1670267081, 1510396430, 3654185120, 2064389041, 371905720, 4135096458, 3441771165, 1097845320,
  84249591, 78795509, 1205017903, 1435273971, 2566384444, 2411665873, 2326041189, 3091653238,
  2963242008, 1478388663, 472059999, 991403282, 1236965362, 2336904539, 2780333884, 4060894147,
  301515906, 2511698379, 4159952117, 210952526, 2080654114, 3333495058, 3582770627, 978545087,
  3114160783, 3142590251, 1412029875, 2610675044, 3622645984, 2759208213, 3021098764, 2072221487,
  3724757434, 2067034632, 4135467351, 4251987702, 2309398383, 2301663273, 3772234092, 2280606096,
  383463729, 4018430837, 225937738, 3695850219, 1115930504, 2033543656, 1408798774, 600802366,
  1490964763, 3301756457, 3770642055, 4192920239, 423229412, 344639188, 4192360488, 2173846124,
  3621440773, 2256023538, 2534206346, 336498845, 3201324092, 4011852051, 2188438074, 1304804486,
  4099358302, 4214783431, 1842506089, 2492272948, 2195501885, 3248746682, 4062187632, 2298943432,
  1480746431, 3607017101, 484618345, 364812001, 2119578137, 1174302814, 2566744435, 3657168053,
  127757717, 4287501874, 3881158443, 494852991, 1789178574, 370243079, 393417581, 1254590179,
  3740680984, 2212490997, 3380663191, 2357828639, 611762184, 1340072657, 1615505810, 1688627492,
  1128238922, 1091796704, 4215536220, 3554182822, 2929444312, 3130066016, 3435095450, 4204127084,
  71854911, 3395546045, 1384009397, 884886515, 2263658885, 3693123837, 565419557, 1485695367,
  2784490862, 4126232100, 4196655554, 1600426799, 2672820029, 1202885703, 254717963, 3630376198,
  98872226, 3377486421, 1507682454, 1058313308, 955481621, 233277681, 3266042853, 2679343425,
  880902680, 4189432217, 3539837197, 1812583399, 3424991134, 2171340551, 1869277096, 1593173687,
  4224699047, 1828432494, 3289667333, 3833350559, 2817230869, 3379159829, 34952135, 4244587272,
  2264203941, 4091461203, 2597652361, 812385327, 991241948, 3810039074, 1509631692, 2488621652,
  588498105, 3740309040, 3707275527, 2840082726, 747379990, 1472016490, 2479058013, 176668803,
  2785028843, 4123795283, 405985460, 1755020664, 38682248, 3661520571, 2703846989, 1210428240,
  1883430222, 4161298065, 1470214392, 305388846, 2524035526, 670052408, 3246309168, 3757204337,
  3057273232, 1751640235, 3169309855, 2425219230, 463737633, 2317761497, 2316425111, 1967725778,
  425034725, 1316363932, 2586658220, 2947252897, 992598094, 1611628515, 3591101914, 4120913192,
  1169272621, 3752250302, 2307439616, 227765843, 262759281, 3151968820, 1560574446, 4079942715,
  636046313, 1572285542, 3759598665, 2520599184, 286645979, 3957541507, 2961864756, 3972114804,
  2739847322, 4204603771, 91714992, 1603627072, 3182915393, 3514910145, 2028685048, 2480426028]

/-- Entries 768 to 1023. -/
def roots3 : List Nat := [
  1088372577, 1893469269, 3827658374, 3791913223, 2044175081, 1161773070, 494118140, 415481327,
  3526017363, 3408361187, 336740053, 425403043, 1391388887, 4257659002, 272112604, 4145913932,
  2494486374, 1114420893, 1056931958, 3909314855, 2651803314, 2389022980, 1483913816, 1349565195,
  545911728, 1179422051, 3555182449, 3951454146, 1960595261, 3756418680, 4066910380, 2334008892,
  3042362923, 1627507911, 2543250478, 2370718620, 3632109352, 2508052774, 2518079172, 4226491523,
  3423086405, 2892623421, 3950515301, 3007663794, 539509690, 1621584739, 3665706593, 1356842224,
  803942738, 2494997616, 3378792012, 3553051857, 1527186690, 898813147, 4008122876, 3376005244,
  2722273302, 268472158, 1876890445, 178610998, 2384571786, 51627253, 1781192249, 3103026216,
  164451516, 449502597, 2998230291, 2369167501, 1191090491, 1795295390, 3033707801, 3442350618,
  31083689, 1625127799, 2959927211, 2737965413, 2075791327, 63610988, 2692623585, 974307983,
  3477683157, 8086886, 18215006, 2223027979, 4127332428, 83603119, 4089490877, 3071078390,
  47618548, 3825805028, 1904752817, 1192492324, 266989763, 777034176, 2074084271, 3348412722,
  1286789481, 346050426, 1831590444, 4234927941, 1590084904, 4217272187, 2474828819, 3603117219,
  873624665, 3165426265, 3827904402, 896461491, 2398567023, 2365099120, 2685094011, 77560608,
  653239208, 1174201797, 3020320980, 1422484478, 3664784232, 3050727402, 883611449, 3492081489,
  1835993753, 3666215408, 4277722904, 3705818488, 2549502528, 3122481265, 2351753191, 2956444560,
  4024590196, 3110001543, 2083636600, 511524021, 494355369, 3501171982, 3186078867, 1012238999,
  1827643180, 1744802602, 2353176178, 467444898, 1971717999, 636987173, 616216172, 1317782496,
  688654254, 3270336048, 2967287773, 3355809696, 3877528198, 2474868522, 2803232072, 293406062,
  2116194404, 2921456464, 4085841857, 3608153595, 1435164368, 1921457392, 2780318329, 951910218,
  3476856403, 3501622484, 938327738, 4123937265, 1078409991, 1314921232, 2112625783, 1138702820,
  2565255404, 3979673549, 2899166547, 1599776890, 1214379936, 2871011698, 711307607, 557943383,
  2408437579, 3970867527, 2689031063, 979699378, 436593165, 1751633185, 948132893, 3968110222,
  2831758004, 630712379, 2718229102, 2856481756, 4083129382, 3067241735, 3250565994, 2802327720,
  2043601186, 2735033870, 182397288, 1161166804, 2235760106, 499753113, 548118205, 1784392138,
  915390771, 2495006890, 1222410262, 1021461877, 2523118784, 2883165602, 1099515463, 2951780244,
  1872203672, 1650241892, 3797450459, 572885719, 3344178137, 2619830691, 4063809311, 977924907,
  3471570859, 2163472325, 2731622786, 1129330204, 1730476579, 2517250563, 2895153710, 2329419059,
  3082853629, 4120002939, 2575411433, 2681389244, 4089660795, 1181954644, 229801692, 273914177,
  2316553248, 1221168070, 2290687531, 3068845956, 612648379, 824548853, 3028721550, 3066780343,
  1037261333, 2983617392, 1603632998, 3172346950, 2795573228, 645406841, 4264306886, 3338605984,
  2444376994, 1567463527, 1405184570, 4451951, 1289719180, 4193144670, 1922577209, 3272042659]

/-- Entries 1024 to 1279. -/
def roots4 : List Nat := [
  3073114153, 982544395, 3808325693, 2345024410, 1357480395, 2286511896, 767171004, 1514566279,
  1868773691, 1520020315, 663704355, 2897480518, 155450935, 745104067, 1329205843, 1662474737,
  797363602, 325058083, 942504611, 3558868888, 68310996, 2629257486, 1487589117, 3208139373,
  1691721088, 2776188728, 270565922, 3085130284, 1155981621, 3626714764, 2832172855, 940937807,
  436553523, 3720142873, 511430338, 1021946311, 2570516318, 602095444, 2585106841, 1132945115,
  1176334328, 510628732, 48832560, 2884391689, 102968492, 1467887698, 1066148107, 46027734,
  3024278905, 3933150287, 4152792800, 84379014, 746126136, 1684445682, 342892852, 1337631187,
  2255521319, 2208698419, 3816916544, 2198649330, 569704549, 3118232834, 1926787998, 171896487,
  1675991635, 2488238607, 812046167, 1278985424, 3950353648, 3094630901, 2710390171, 116864956,
  3510842913, 3143116182, 2821876336, 330133261, 3810055452, 2802971132, 2298736990, 2981180991,
  2591965652, 4014959688, 3603989137, 2333251586, 462807716, 1310857151, 920793208, 1322994289,
  1257458105, 2093062607, 2072470186, 3373175165, 1510968807, 2266203511, 69289111, 676598711,
  1321519216, 2767460212, 1004776281, 1734285238, 3211904293, 3023065, 1031447349, 3741791176,
  1520738170, 1246585059, 2675083638, 593347166, 1192336898, 3465961138, 3127417052, 1790011760,
  4255353632, 2777879088, 283753343, 4265991587, 3664765352, 1802163325, 38368456, 2666171321,
  3626783503, 316350187, 83147974, 333157619, 3687484861, 1907895767, 811936494, 240216852,
  1679365787, 2402527097, 3281909662, 4051744521, 3150900656, 1626784786, 300162531, 316683401,
  2554807606, 3148706054, 1684573420, 1822842722, 959729302, 2096068928, 4113003909, 3404466852,
  3632080449, 1039556093, 1702505291, 1762846662, 3228116254, 149831472, 1284309029, 748089019,
  2017063629, 953742821, 2338236493, 1836493945, 2158351703, 3654146635, 778725740, 953289284,
  4257732706, 3160660384, 1598431400, 3010321665, 1759922549, 3865792970, 606645355, 3039401397,
  646989983, 2555354795, 1434146868, 2544551281, 903095777, 2391831448, 3169535237, 3881904884,
  2596324500, 2801020068, 3702814107, 2263512344, 3931362987, 4134055896, 2202377330, 2211213558,
  398166837, 1056313381, 402231708, 1432448680, 3362770999, 626239268, 1057303158, 2688386137,
  2325489073, 4105414239, 3270834538, 2347690155, 490108767, 3199505175, 3288473268, 1839326342,
  422092079, 330774743, 3423556219, 1831479508, 134151706, 1689064314, 2165742084, 486214428,
  433229479, 4059510213, 1843558240, 2268295554, 3532774320, 1084643125, 1020299828, 833506541,
  3249547258, 68876611, 301948658, 1710696345, 1610783586, 560822617, 1464597012, 3274538754,
  3738341935, 3201598793, 1104224406, 933085658, 1356006879, 883674521, 4006695759, 625986601,
  2697596775, 3318036032, 1873880808, 2829025577, 673030671, 3944133520, 2836729711, 4124551704,
  3481333641, 319423208, 4192242199, 3464296851, 2027721057, 2092320749, 3285813475, 3413381516,
  1419499288, 3702916918, 1114311265, 1905362704, 219596419, 2664128740, 2479903386, 746339176]

/-- Entries 1280 to 1535. -/
def roots5 : List Nat := [
  954107544, 4211998635, 1640009164, 2259023050, 602788794, 2346729352, 565300730, 2176871129,
  828609157, 1837040787, 4136739733, 1399499044, 1012016474, 1357612562, 1418981519, 2733534998,
  2932477224, 341196572, 3394102498, 4278600658, 2353650593, 1441924898, 4290801591, 1373375958,
  1818827990, 1939550381, 278064869, 305641482, 4244151946, 3199566728, 2217301957, 1966926643,
  1470051258, 1784183569, 2266031711, 548964748, 1167296541, 842107733, 1865643114, 2883151393,
  1834210409, 3623903000, 2906755791, 3087260758, 3029347548, 2348854675, 42344970, 1319469968,
  3211446525, 974979611, 1103566967, 2672097561, 4115011211, 299724121, 290960874, 3366732698,
  3668423929, 997877933, 2460738585, 201402071, 3193184716, 2810368616, 420305484, 2502730701,
  2244870358, 1001203875, 3926153195, 1470633221, 2516179387, 1194642253, 1866125052, 2570101307,
  3275451100, 1883278599, 3231844074, 1602803106, 2394764680, 453109777, 2981603378, 2589942595,
  44115149, 3645174569, 3122473113, 25143222, 2469933464, 2581658850, 688003273, 3852707805,
  3650020825, 2414395996, 1551693469, 3104949787, 1913119487, 3010768671, 934813969, 439041509,
  384823106, 1483416545, 4246649404, 888939348, 3434271012, 4146534224, 2680701864, 1089164319,
  1684016599, 1116214229, 700091247, 1270822072, 2878970374, 116332304, 1056136121, 3179675600,
  1592081645, 293321887, 3673039405, 2421162780, 4040280342, 2905667972, 1026047167, 2579983015,
  3302351343, 4215909470, 3708489764, 3322789439, 33890457, 4066691920, 2818334208, 795992842,
  1293723100, 3773036894, 2011494886, 2482129842, 1934666370, 2419479627, 2856592060, 1569968179,
  4292070753, 186930903, 1654673314, 2330670935, 1038065482, 3296605965, 1810964111, 3294415620,
  2931811547, 2850707671, 3145816148, 1289516066, 415203821, 3245495570, 1670913246, 2971690441,
  2147447369, 2373419971, 139089145, 3829357891, 2122154920, 4176669061, 1042716407, 2782782208,
  2494823199, 2787434369, 4101481430, 2783879573, 1380711541, 969749494, 161217479, 70769538,
  3484481997, 279680060, 3440586980, 3515175562, 3897038991, 239202946, 943743933, 3620178753,
  2114381875, 1687267699, 2132809624, 2504522417, 1343800830, 555863130, 639837177, 3382796114,
  3984240747, 738595030, 2247805451, 3943406083, 1381844229, 2219886612, 2415659513, 91649750,
  1479064885, 2002379808, 2970884575, 949193908, 3910026224, 4125866211, 2653818249, 2701492797,
  3595944611, 1633172574, 1622835027, 2045458231, 725915235, 2555507031, 2730897130, 61554544,
  718312158, 4219890423, 1519464568, 2676259439, 2906659652, 1413484393, 1553463400, 1226796426,
  1873975340, 3550984237, 1769431193, 3978228409, 3766136886, 3125579150, 437753167, 1399068306,
  3361515633, 2778720839, 1817970175, 842340418, 3250984537, 2658801356, 3446745510, 1303434630,
  2415956770, 4087021428, 1720480852, 3652645345, 3912505157, 523044774, 2593090290, 2987963764,
  4221818476, 49172404, 1720201655, 583183103, 2972844134, 4256545252, 1732069038, 69147764,
  1632185615, 3194066934, 1645247735, 4289013425, 1214048138, 3181266159, 3936647004, 1304557851]

/-- Entries 1536 to 1791. -/
def roots6 : List Nat := [
  2763558692, 1575633487, 770209176, 3099950184, 1577045300, 1443908494, 2781170151, 3572044948,
  2941125579, 991271778, 592277933, 3156745722, 3600677557, 1564210223, 2123458747, 786526848,
  3940979071, 1688304343, 3205106633, 614745402, 3792901444, 176015532, 63971435, 2743099977,
  139622247, 2551350165, 3277667786, 3713660745, 1470966435, 3695295810, 2860727433, 1749987346,
  3506584575, 1743217145, 3321519187, 3177047047, 1154220628, 3438527269, 1945234962, 4071749935,
  478031594, 1247935013, 3744972065, 1040003918, 3406077993, 821335940, 1319478873, 2492650630,
  1209308687, 3021362699, 2349755824, 4235257001, 3812595436, 3492553704, 2202552356, 3505213453,
  373789249, 938117256, 4142102255, 3560339985, 833709844, 3391886922, 2033217422, 1656008689,
  572033619, 2932123881, 876346616, 2239272234, 2242961592, 3428450217, 3669462364, 886861557,
  3021355728, 2369510744, 4144054094, 1525474057, 1744876233, 2491415747, 462881192, 4076211860,
  3983761471, 663991181, 2828371119, 3672609126, 2660313868, 4005525990, 2294725404, 290584642,
  2207253493, 2929811107, 2507465943, 2132096373, 101779194, 97803449, 820101729, 78310293,
  3586468684, 100866632, 3128434878, 1913228994, 888759126, 2114848265, 3462650376, 2414388073,
  3084070094, 3300546333, 4099805504, 1819328466, 1955687335, 3796028923, 4017399904, 196829024,
  522707761, 1756941638, 2962305488, 1283001945, 1223135540, 3647957640, 679766212, 3103150637,
  2949695716, 1273506557, 907915745, 1608686020, 7663782, 3759374127, 3168226848, 1360235748,
  1524051815, 2487721558, 3115579207, 3210577136, 545137186, 1522521179, 1996573149, 4125457384,
  2980458037, 1080160215, 710693600, 3129138400, 3180718283, 1153817736, 1607412657, 3637893067,
  1150330231, 2065102520, 2934318473, 2400977073, 2566217084, 4228370103, 1676070846, 2613056920,
  2924948249, 3121244499, 2656200455, 3667195629, 1657969979, 33052575, 1254874829, 312128589,
  831035901, 4164393730, 2164711299, 1774204209, 168198593, 1471460035, 2135154644, 1628438147,
  3637365689, 4290274869, 3968407660, 3448427390, 3445547167, 1952351146, 261906036, 343779500,
  1092412449, 200319937, 3753592791, 3875909868, 785617197, 2424159350, 3930574119, 3878708903,
  287672355, 2364556288, 1929053292, 1351456849, 1384626419, 1935519276, 176909798, 506729364,
  2087404352, 686231003, 3692322132, 752413778, 3895514084, 2430314852, 2890498580, 1424345860,
  3078102124, 3082421486, 461155935, 2278586287, 3464793121, 1113130889, 294462519, 2008706594,
  1929391882, 1597738725, 1465134368, 747822248, 4269716614, 2903764088, 621001703, 230200755,
  3883996741, 4082051941, 4172127560, 3695377343, 2290039902, 759140418, 3207633148, 1205460751,
  3024485673, 1930920820, 4153917809, 947483830, 3393066415, 894554663, 3456957618, 371829681,
  3707200879, 158277866, 2165442791, 3818462577, 2940382740, 1914328980, 211175858, 2932338984,
  2830599498, 1404322192, 2378464250, 2226661810, 411616517, 2549097174, 2841337872, 1910069766,
  3643704074, 2900024274, 3458833207, 3897288104, 631862469, 1421345317, 2550132126, 3716336264]

/-- Entries 1792 to 2047. -/
def roots7 : List Nat := [
  329475886, 2357230414, 1093451771, 4214627559, 890742646, 2295888704, 1307583679, 375641905,
  3189409551, 38278288, 82318216, 1534305309, 3273966279, 4228971901, 4151097346, 1156902297,
  2601333541, 254687457, 2220227156, 3100588045, 3726413362, 4098084658, 2362636961, 1320366418,
  2863300809, 997231538, 773739355, 1562036361, 3996576897, 1469752778, 1006711184, 1478423931,
  187283065, 4206641823, 4265434115, 1932682121, 951668597, 178412501, 1273856419, 2444219972,
  693161528, 1054443007, 3281071816, 2677976742, 4193138827, 1182618955, 2246804708, 2628023086,
  575635600, 3699905738, 1701266520, 3871967972, 1281202450, 3456661482, 3332094634, 115434303,
  2666350219, 1082210082, 955358214, 1426851100, 4104040976, 1250737502, 900501283, 1989604798,
  4218530903, 1713295956, 2048383872, 1392201119, 2174290730, 1776477702, 1509128775, 1266662778,
  1964590574, 2458425700, 3926778291, 3404167071, 2664917296, 981453831, 508769315, 4259433540,
  3691880307, 188387817, 1248493263, 1141800509, 2600248892, 2597506386, 3181289262, 3628859955,
  602988243, 518128453, 3596141495, 3325812034, 3365085110, 645367178, 2539854040, 1868430201,
  2819462399, 3990099661, 1592266365, 698368753, 1704272420, 531515568, 805378848, 1236218687,
  92917428, 1721976571, 3105700669, 3251203214, 3048051980, 3036094565, 781874560, 1158972587,
  1434442625, 1340617312, 2475603034, 2392848798, 3682888980, 2250205887, 4039727822, 2335836656,
  3502816354, 718792862, 1132436671, 2497829876, 2224173559, 312873773, 3118267720, 2462113698,
  3068063627, 1792009067, 1278285463, 2705016497, 3225696098, 3787744417, 451175620, 2124730787,
  2626376800, 1433051496, 2114646065, 3455602677, 2136161193, 294558752, 1458886383, 1674124891,
  3526497504, 654581261, 1217789032, 4237236229, 3021518400, 887005910, 482221564, 3065602982,
  2430909694, 788428702, 1636631, 1922565455, 397980684, 3549458258, 1347909731, 1025290642,
  2872224887, 1453805607, 4063979140, 1216908130, 3241204457, 1184649851, 1688961686, 4191764871,
  1620622616, 1504388875, 3479808004, 180631674, 2116829612, 2946815949, 2530790194, 865805361,
  161623902, 3957410060, 3709298853, 3694041225, 3264364262, 1739871743, 1506291010, 1969275976,
  1515817026, 1458932518, 1874122359, 4294706946, 522166996, 286819749, 1656528655, 2477053975,
  1406689963, 1542428815, 92400682, 4135317637, 1623553215, 2458307261, 2460036763, 2132468081,
  2084002396, 3281733672, 2954047292, 1618701462, 4030705900, 294051956, 1332091098, 2624102751,
  1784475623, 745154728, 2911039202, 2615464907, 2071462960, 192978064, 1919958449, 3493009328,
  1073778952, 110615129, 4084438109, 3490692001, 2197957004, 3359075008, 236044097, 3541852148,
  3860891567, 684000565, 2507805129, 1397771008, 2515202477, 2757242756, 3942877450, 2291859880,
  2937994438, 2907643504, 1237698833, 3049111489, 2717261523, 2606893850, 2367469554, 1707665525,
  54057369, 3762695295, 806070829, 3902094881, 2292164933, 1695448321, 3932251225, 1431747488,
  2802023440, 2932741018, 4196293558, 2839491650, 2736878050, 2075576879, 3573270283, 3293988959]

/-- Entries 0 to 255. -/
def rootsInv0 : List Nat := [
  1, 4173969863, 631441563, 564333851, 1584891929, 1722793240, 2990834092, 1853592006,
  2472615992, 4266670527, 1413156457, 3978408248, 2328344466, 638910600, 4009503407, 2242788536,
  1586134219, 3719989587, 3369218044, 1899384041, 831438651, 2083392825, 1662976012, 994272591,
  196736183, 2225110645, 237700857, 1243801211, 3970986790, 1943387617, 494600477, 3213095325,
  1577997445, 3970961091, 263102116, 3233009647, 1732309385, 2249082458, 1719984374, 1022258905,
  306806842, 1591587871, 23545973, 4078048192, 3536494683, 1082700034, 1661822455, 3369504068,
  870875915, 781008685, 1549874615, 2372602387, 4227186324, 2618406218, 3464239721, 2736017235,
  2094454278, 502584381, 514887862, 2837809410, 615213023, 3028879310, 3301339183, 2592229857,
  1570110389, 3518024426, 3459639893, 2694992442, 1683009125, 1973012801, 584668125, 1247542952,
  2595347446, 155471810, 1573360737, 3147747644, 3101083657, 3427453367, 3331156435, 1143902294,
  3608348721, 120463607, 3561267698, 3227266543, 2156651248, 2703941665, 2450573815, 2688709509,
  2632293534, 1790826224, 1698133898, 1409488752, 3223326399, 1679121874, 2406050975, 265218906,
  1900507250, 2865809523, 4243515927, 355551901, 2601554582, 3259750866, 2347350637, 4007969316,
  2347535990, 111777401, 194222289, 2128814139, 1102068260, 2530652920, 1203818869, 4121900389,
  823060091, 2137919417, 1668853683, 990008721, 1326559976, 1560011638, 3635286012, 4034817028,
  213009337, 2098178254, 2467154772, 3854898454, 471890081, 1414301005, 3069660580, 2962637943,
  2059421517, 4093179196, 2276529770, 1349252082, 2142172018, 3967876882, 1796707395, 3842650896,
  1820198765, 1693840844, 1540421155, 2915719795, 2391039381, 1249205630, 459153432, 3009753673,
  1903064079, 2068840943, 2063574459, 2201019601, 1153511233, 3680613168, 709679547, 542802955,
  3039920830, 386186106, 3729134572, 487412683, 2657828383, 2595680407, 3004989361, 2270919331,
  3383121394, 2750113659, 11625578, 2613895657, 2173418349, 3156170984, 49506332, 499024784,
  4027543933, 4042448160, 1121384033, 215558759, 3247963773, 3788123392, 3255107363, 1789170851,
  117921568, 639575320, 3176953006, 534880806, 3532210810, 614614294, 2033861379, 1753026647,
  628262069, 1536931255, 4120194954, 1457203378, 406845297, 1872575547, 328786313, 1330478664,
  3892405396, 650967301, 3508193512, 2004167706, 4094494107, 1725110712, 1766474316, 3303592883,
  2580320784, 1223278102, 3130842139, 1168210122, 942955896, 3572729795, 3357960540, 364189618,
  754644610, 1543824300, 1558697914, 1749241160, 3075291223, 665907417, 1581733360, 3391894831,
  2619689244, 659350754, 3792821918, 3660502067, 580399130, 2184549779, 4143717868, 765572150,
  2963758118, 493843929, 762532608, 4108721716, 3039557028, 2675574625, 1492633117, 368212680,
  1428328611, 2039699418, 1738619218, 1340064361, 1652245433, 4272752275, 3954000298, 417657026,
  1409977173, 1044930117, 3675954825, 1534339206, 3551061161, 3282797705, 275170175, 3306824417,
  390226739, 1166377858, 4204533818, 615016355, 2683361560, 3618477279, 774419573, 133490265]

/-- Entries 256 to 511. -/
def rootsInv1 : List Nat := [
  1551684205, 4164676546, 3531162139, 697352534, 3491334058, 908454630, 2704399119, 2406146414,
  1125823214, 3136310382, 3493370118, 2889823198, 1313182166, 1118400257, 2370215197, 497022877,
  1891140151, 2408627751, 1354807295, 2428244811, 573764985, 4247767758, 1443264641, 2778072416,
  2369239875, 278909899, 3430912039, 3742817993, 496659472, 3476416228, 2327419009, 3766708904,
  1726385099, 1242561582, 3768336719, 413118105, 242359022, 2889392900, 991914127, 3128008757,
  869394929, 3080489030, 1291158917, 1080339068, 2295763424, 2733463921, 746110866, 1338584061,
  1565608819, 3394443018, 1163762604, 848037839, 3628179700, 1662686893, 4247960283, 585338559,
  1042512159, 4174846334, 836798253, 652509578, 3205706062, 2947358345, 836270275, 2847303557,
  1357968944, 2166018491, 4016469517, 1780650793, 3073377736, 1892781289, 1740541003, 2221855551,
  2542691488, 2787598623, 3964953658, 806973482, 2019364882, 2588559216, 1427655340, 2528760270,
  3040769228, 3575762321, 2113604391, 1358470607, 1334864518, 1058719367, 1906453313, 378718505,
  2106281562, 2742357326, 1396761351, 3151079223, 1646341907, 2430193471, 2619215774, 3383216995,
  1107699058, 2975046209, 463648730, 971215480, 507793063, 549850757, 1833387976, 3213084924,
  3701779463, 3293576374, 1727711789, 3026788304, 413170342, 655473534, 2902075925, 2460022626,
  3889470551, 3684139580, 37017980, 1336907533, 2366395960, 4143620525, 3679914953, 3347290966,
  1200753895, 2352791719, 3145081150, 3590339088, 4213651139, 437940430, 2814219335, 4202144399,
  3579106276, 290101755, 4276128152, 399696444, 3440920661, 1139858571, 3568194453, 468948586,
  2319314746, 270537700, 4183785286, 389439019, 2549372451, 2969925078, 3900324247, 2289478351,
  1938120923, 4039172425, 3617857460, 1410986117, 442149074, 437587703, 1910807528, 3200915445,
  1372338147, 1776363696, 2187745544, 3289786543, 2061639447, 2234214725, 3578729456, 4004087256,
  1564149765, 646607251, 3155828230, 3126231579, 3503272559, 182049942, 1594589163, 1620448632,
  2105608789, 3171641980, 3182153314, 1666085633, 1809517667, 3189832694, 2897067356, 2996226237,
  593724054, 3627226676, 3278244440, 3703323632, 1237640417, 599289012, 630797634, 2360925821,
  654021728, 1298724496, 2853853698, 991582447, 1533594280, 2826790882, 3802921748, 2649133996,
  1853057376, 19664556, 1474987313, 139764880, 145457332, 3401258084, 4278434608, 2161832789,
  2739058877, 760501741, 2213646786, 2184180146, 3387783115, 4106856128, 2284393862, 2730295309,
  2672572339, 3500679620, 3656190126, 3661717898, 1069297151, 2739855114, 706253792, 1010934039,
  2486106205, 133639744, 2276159803, 1429180909, 1939342611, 661299939, 4071272443, 1150265181,
  2203244844, 1271066691, 191150351, 229706881, 3457020224, 668573445, 1531515828, 535121585,
  3299801944, 518742940, 515753083, 4284051324, 4275444524, 2821866383, 2322868021, 2106378653,
  62982249, 1928351088, 364287015, 1837322456, 4258796928, 2720706193, 724553976, 3328324934,
  656002543, 1632103399, 1889901052, 1287533904, 1677138504, 303128705, 2751318495, 2782055384]

/-- Entries 512 to 767. -/
def rootsInv2 : List Nat := [
  1022785374, 2372250824, 101683363, 3005108853, 4290376082, 2889643463, 2727364506, 1850451039,
  956222049, 30521147, 3649421192, 1499254805, 1122481083, 2691195035, 1311210641, 3257566700,
  1228047690, 1266106483, 3470279180, 3682179654, 1225982077, 2004140502, 3073659963, 1978274785,
  4020913856, 4065026341, 3112873389, 205167238, 1613438789, 1719416600, 174825094, 1211974404,
  1965408974, 1399674323, 1777577470, 2564351454, 3165497829, 1563205247, 2131355708, 823257174,
  3316903126, 231018722, 1674997342, 950649896, 3721942314, 497377574, 2644586141, 2422624361,
  1343047789, 3195312570, 1411662431, 1771709249, 3273366156, 3072417771, 1799821143, 3379437262,
  2510435895, 3746709828, 3795074920, 2059067927, 3133661229, 4112430745, 1559794163, 2251226847,
  1492500313, 1044262039, 1227586298, 211698651, 1438346277, 1576598931, 3664115654, 1463070029,
  326717811, 3346695140, 2543194848, 3858234868, 3315128655, 1605796970, 323960506, 1886390454,
  3736884650, 3583520426, 1423816335, 3080448097, 2695051143, 1395661486, 315154484, 1729572629,
  3156125213, 2182202250, 2979906801, 3216418042, 170890768, 3356500295, 793205549, 817971630,
  3342917815, 1514509704, 2373370641, 2859663665, 686674438, 208986176, 1373371569, 2178633629,
  4001421971, 1491595961, 1819959511, 417299835, 939018337, 1327540260, 1024491985, 3606173779,
  2977045537, 3678611861, 3657840860, 2323110034, 3827383135, 1941651855, 2550025431, 2467184853,
  3282589034, 1108749166, 793656051, 3800472664, 3783304012, 2211191433, 1184826490, 270237837,
  1338383473, 1943074842, 1172346768, 1745325505, 589009545, 17105129, 628612625, 2458834280,
  802746544, 3411216584, 1244100631, 630043801, 2872343555, 1274507053, 3120626236, 3641588825,
  4217267425, 1609734022, 1929728913, 1896261010, 3398366542, 466923631, 1129401768, 3421203368,
  691710814, 1819999214, 77555846, 2704743129, 59900092, 2463237589, 3948777607, 3008038552,
  946415311, 2220743762, 3517793857, 4027838270, 3102335709, 2390075216, 469023005, 4247209485,
  1223749643, 205337156, 4211224914, 167495605, 2071800054, 4276613027, 4286741147, 817144876,
  3320520050, 1602204448, 4231217045, 2219036706, 1556862620, 1334900822, 2669700234, 4263744344,
  852477415, 1261120232, 2499532643, 3103737542, 1925660532, 1296597742, 3845325436, 4130376517,
  1191801817, 2513635784, 4243200780, 1910256247, 4116217035, 2417937588, 4026355875, 1572554731,
  918822789, 286705157, 3396014886, 2767641343, 741776176, 916036021, 1799830417, 3490885295,
  2937985809, 629121440, 2673243294, 3755318343, 1287164239, 344312732, 1402204612, 871741628,
  68336510, 1776748861, 1786775259, 662718681, 1924109413, 1751577555, 2667320122, 1252465110,
  1960819141, 227917653, 538409353, 2334232772, 343373887, 739645584, 3115405982, 3748916305,
  2945262838, 2810914217, 1905805053, 1643024719, 385513178, 3237896075, 3180407140, 1800341659,
  148914101, 4022715429, 37169031, 2903439146, 3869424990, 3958087980, 886466846, 768810670,
  3879346706, 3800709893, 3133054963, 2250652952, 502914810, 467169659, 2401358764, 3206455456]

/-- Entries 768 to 1023. -/
def rootsInv3 : List Nat := [
  1814402005, 2266142985, 779917888, 1111912640, 2691200961, 4203113041, 90224262, 1554980711,
  322713229, 1332963277, 337286526, 4008182054, 1774228849, 535229368, 2722542491, 3658781720,
  214885318, 2734253587, 1142859213, 4032068752, 4067062190, 1987388417, 542577731, 3125555412,
  173914841, 703726119, 2683199518, 3302229939, 1347575136, 1708169813, 2978464101, 3869793308,
  2327102255, 1978402922, 1977066536, 3831090400, 1869608803, 1125518178, 2543187798, 1237554801,
  537623696, 1048518865, 3624775625, 1770792507, 3989439187, 2824613641, 133529968, 2411397811,
  3084399793, 1590981044, 633307462, 4256145785, 2539807369, 3888842573, 171032750, 1509799190,
  4118159230, 1815770020, 2822811543, 3547448043, 1454745307, 587552506, 554518993, 3706329928,
  1806206381, 2785196341, 484788959, 3303586085, 3482442706, 1697175672, 203366830, 2030624092,
  50240761, 4259875898, 915668204, 1477597164, 461477474, 1005160700, 2466395539, 70128986,
  2701654346, 2425550937, 2123487482, 869836899, 2482244634, 754990836, 105395816, 3413925353,
  1615484608, 1028785180, 4061550352, 3339346412, 3236514725, 2787145579, 917341612, 4195955807,
  664451835, 4040110070, 3091942330, 1622008004, 2694401234, 98172479, 168595933, 1510337171,
  2809132666, 3729408476, 601704196, 2031169148, 3409941518, 2910818636, 899281988, 4222973122,
  90700949, 859732583, 1164762017, 1365383721, 740645211, 79291813, 3203031329, 3166589111,
  2606200541, 2679322223, 2954755376, 3683065849, 1936999394, 914164842, 2082337036, 554147049,
  3040237854, 3901410452, 3924584954, 2505649459, 3799975042, 413669590, 7326159, 4167070316,
  637659980, 1728083598, 3120525219, 2175249896, 3930016032, 3810209688, 687810932, 2814081602,
  1995884601, 232640401, 1046081351, 2099326148, 1802555085, 2452321944, 80044602, 195469731,
  2990023547, 2106389959, 282975982, 1093503941, 3958329188, 1760621687, 2038804495, 673387260,
  2120981909, 102467545, 3950188845, 3871598621, 101907794, 524185978, 993071576, 2803863270,
  3694025667, 2886029259, 2261284377, 3178897529, 598977814, 4068890295, 276397196, 3911364304,
  2014221937, 522593941, 1993164760, 1985429650, 42840331, 159360682, 2227793401, 570070599,
  2222606546, 1273729269, 1535619820, 672182049, 1684152989, 2882798158, 1152237782, 1180667250,
  3316282946, 712057406, 961332975, 2214173919, 4083875507, 134875916, 1783129654, 3993312127,
  233933886, 1514494149, 1957923494, 3057862671, 3303424751, 3822768034, 2816439370, 1331586025,
  1203174795, 1968786844, 1883162160, 1728443589, 2859554062, 3089810130, 4216032524, 4210578442,
  3196982713, 853056868, 159731575, 3922922313, 2230438992, 640642913, 2784431603, 2624560952,
  2555213301, 3642496590, 1549202245, 1339152894, 621848373, 1355719603, 2409485951, 2019190832,
  3819884549, 2775472046, 2747437023, 3498149166, 1503528515, 1074256853, 2099043593, 4151280649,
  564701297, 3334113870, 1181731338, 3744811443, 2551372672, 2905762979, 3546965030, 2236658164,
  3143135662, 2759453397, 2916037064, 2428347772, 474784673, 1539712380, 1621071934, 2844860350]

/-- Entries 1024 to 1279. -/
def rootsInv4 : List Nat := [
  1000839074, 721557750, 2219251154, 1557949983, 1455336383, 98534475, 1362087015, 1492804593,
  2863080545, 362576808, 2599379712, 2002663100, 392733152, 3488757204, 532132738, 4240770664,
  2587162508, 1927358479, 1687934183, 1577566510, 1245716544, 3057129200, 1387184529, 1356833595,
  2002968153, 351950583, 1537585277, 1779625556, 2897057025, 1787022904, 3610827468, 433936466,
  752975885, 4058783936, 935753025, 2096871029, 804136032, 210389924, 4184212904, 3221049081,
  801818705, 2374869584, 4101849969, 2223365073, 1679363126, 1383788831, 3549673305, 2510352410,
  1670725282, 2962736935, 4000776077, 264122133, 2676126571, 1340780741, 1013094361, 2210825637,
  2162359952, 1834791270, 1836520772, 2671274818, 159510396, 4202427351, 2752399218, 2888138070,
  1817774058, 2638299378, 4008008284, 3772661037, 121087, 2420705674, 2835895515, 2779011007,
  2325552057, 2788537023, 2554956290, 1030463771, 600786808, 585529180, 337417973, 4133204131,
  3429022672, 1764037839, 1348012084, 2177998421, 4114196359, 815020029, 2790439158, 2674205417,
  103063162, 2605866347, 3110178182, 1053623576, 3077919903, 230848893, 2841022426, 1422603146,
  3269537391, 2946918302, 745369775, 3896847349, 2372262578, 4293191402, 3506399331, 1863918339,
  1229225051, 3812606469, 3407822123, 1273309633, 57591804, 3077039001, 3640246772, 768330529,
  2620703142, 2835941650, 4000269281, 2158666840, 839225356, 2180181968, 2861776537, 1668451233,
  2170097246, 3843652413, 507083616, 1069131935, 1589811536, 3016542570, 2502818966, 1226764406,
  1832714335, 1176560313, 3981954260, 2070654474, 1796998157, 3162391362, 3576035171, 792011679,
  1958991377, 255100211, 2044622146, 611939053, 1901979235, 1819224999, 2954210721, 2860385408,
  3135855446, 3512953473, 1258733468, 1246776053, 1043624819, 1189127364, 2572851462, 4201910605,
  3058609346, 3489449185, 3763312465, 2590555613, 3596459280, 2702561668, 304728372, 1475365634,
  2426397832, 1754973993, 3649460855, 929742923, 969015999, 698686538, 3776699580, 3691839790,
  665968078, 1113538771, 1697321647, 1694579141, 3153027524, 3046334770, 4106440216, 602947726,
  35394493, 3786058718, 3313374202, 1629910737, 890660962, 368049742, 1836402333, 2330237459,
  3028165255, 2785699258, 2518350331, 2120537303, 2902626914, 2246444161, 2581532077, 76297130,
  2305223235, 3394326750, 3044090531, 190787057, 2867976933, 3339469819, 3212617951, 1628477814,
  4179393730, 962733399, 838166551, 3013625583, 422860061, 2593561513, 594922295, 3719192433,
  1666804947, 2048023325, 3112209078, 101689206, 1616851291, 1013756217, 3240385026, 3601666505,
  1850608061, 3020971614, 4116415532, 3343159436, 2362145912, 29393918, 88186210, 4107544968,
  2816404102, 3288116849, 2825075255, 298251136, 2732791672, 3521088678, 3297596495, 1431527224,
  2974461615, 1932191072, 196743375, 568414671, 1194239988, 2074600877, 4040140576, 1693494492,
  3137925736, 143730687, 65856132, 1020861754, 2760522724, 4212509817, 4256549745, 1105418482,
  3919186128, 2987244354, 1998939329, 3404085387, 80200474, 3201376262, 1937597619, 3965352147]

/-- Entries 1280 to 1535. -/
def rootsInv5 : List Nat := [
  578491769, 1744695907, 2873482716, 3662965564, 397539929, 835994826, 1394803759, 651123959,
  2384758267, 1453490161, 1745730859, 3883211516, 2068166223, 1916363783, 2890505841, 1464228535,
  1362489049, 4083652175, 2380499053, 1354445293, 476365456, 2129385242, 4136550167, 587627154,
  3922998352, 837870415, 3400273370, 901761618, 3347344203, 140910224, 2363907213, 1270342360,
  3089367282, 1087194885, 3535687615, 2004788131, 599450690, 122700473, 212776092, 410831292,
  4064627278, 3673826330, 1391063945, 25111419, 3547005785, 2829693665, 2697089308, 2365436151,
  2286121439, 4000365514, 3181697144, 830034912, 2016241746, 3833672098, 1212406547, 1216725909,
  2870482173, 1404329453, 1864513181, 399313949, 3542414255, 602505901, 3608597030, 2207423681,
  3788098669, 4117918235, 2359308757, 2910201614, 2943371184, 2365774741, 1930271745, 4007155678,
  416119130, 364253914, 1870668683, 3509210836, 418918165, 541235242, 4094508096, 3202415584,
  3951048533, 4032921997, 2342476887, 849280866, 846400643, 326420373, 4553164, 657462344,
  2666389886, 2159673389, 2823367998, 4126629440, 2520623824, 2130116734, 130434303, 3463792132,
  3982699444, 3039953204, 4261775458, 2636858054, 627632404, 1638627578, 1173583534, 1369879784,
  1681771113, 2618757187, 66457930, 1728610949, 1893850960, 1360509560, 2229725513, 3144497802,
  656934966, 2687415376, 3141010297, 1114109750, 1165689633, 3584134433, 3214667818, 1314369996,
  169370649, 2298254884, 2772306854, 3749690847, 1084250897, 1179248826, 1807106475, 2770776218,
  2934592285, 1126601185, 535453906, 4287164251, 2686142013, 3386912288, 3021321476, 1345132317,
  1191677396, 3615061821, 646870393, 3071692493, 3011826088, 1332522545, 2537886395, 3772120272,
  4097999009, 277428129, 498799110, 2339140698, 2475499567, 195022529, 994281700, 1210757939,
  1880439960, 832177657, 2179979768, 3406068907, 2381599039, 1166393155, 4193961401, 708359349,
  4216517740, 3474726304, 4197024584, 4193048839, 2162731660, 1787362090, 1365016926, 2087574540,
  4004243391, 2000102629, 289302043, 1634514165, 622218907, 1466456914, 3630836852, 311066562,
  218616173, 3831946841, 1803412286, 2549951800, 2769353976, 150773939, 1925317289, 1273472305,
  3407966476, 625365669, 866377816, 2051866441, 2055555799, 3418481417, 1362704152, 3722794414,
  2638819344, 2261610611, 902941111, 3461118189, 734488048, 152725778, 3356710777, 3921038784,
  789614580, 2092275677, 802274329, 482232597, 59571032, 1945072209, 1273465334, 3085519346,
  1802177403, 2975349160, 3473492093, 888750040, 3254824115, 549855968, 3046893020, 3816796439,
  223078098, 2349593071, 856300764, 3140607405, 1117780986, 973308846, 2551610888, 788243458,
  2544840687, 1434100600, 599532223, 2823861598, 581167288, 1017160247, 1743477868, 4155205786,
  1551728056, 4230856598, 4118812501, 501926589, 3680082631, 1089721400, 2606523690, 353848962,
  3508301185, 2171369286, 2730617810, 694150476, 1138082311, 3702550100, 3303556255, 1353702454,
  722783085, 1513657882, 2850919539, 2717782733, 1194877849, 3524618857, 2719194546, 1531269341]

/-- Entries 1536 to 1791. -/
def rootsInv6 : List Nat := [
  2990270182, 358181029, 1113561874, 3080779895, 5814608, 2649580298, 1100761099, 2662642418,
  4225680269, 2562758995, 38282781, 1321983899, 3711644930, 2574626378, 4245655629, 73009557,
  1306864269, 1701737743, 3771783259, 382322876, 642182688, 2574347181, 207806605, 1878871263,
  2991393403, 848082523, 1636026677, 1043843496, 3452487615, 2476857858, 1516107194, 933312400,
  2895759727, 3857074866, 1169248883, 528691147, 316599624, 2525396840, 743843796, 2420852693,
  3068031607, 2741364633, 2881343640, 1388168381, 1618568594, 2775363465, 74937610, 3576515875,
  4233273489, 1563930903, 1739321002, 3568912798, 2249369802, 2671993006, 2661655459, 698883422,
  1593335236, 1641009784, 168961822, 384801809, 3345634125, 1323943458, 2292448225, 2815763148,
  4203178283, 1879168520, 2074941421, 2912983804, 351421950, 2047022582, 3556233003, 310587286,
  912031919, 3654990856, 3738964903, 2951027203, 1790305616, 2162018409, 2607560334, 2180446158,
  674649280, 3351084100, 4055625087, 397789042, 779652471, 854241053, 4015147973, 810346036,
  4224058495, 4133610554, 3325078539, 2914116492, 1510948460, 193346603, 1507393664, 1800004834,
  1512045825, 3252111626, 118158972, 2172673113, 465470142, 4155738888, 1921408062, 2147380664,
  1323137592, 2623914787, 1049332463, 3879624212, 3005311967, 1149011885, 1444120362, 1363016486,
  1000412413, 2483863922, 998222068, 3256762551, 1964157098, 2640154719, 4107897130, 2757280,
  2724859854, 1438235973, 1875348406, 2360161663, 1812698191, 2283333147, 521791139, 3001104933,
  3498835191, 1476493825, 228136113, 4260937576, 972038594, 586338269, 78918563, 992476690,
  1714845018, 3268780866, 1389160061, 254547691, 1873665253, 621788628, 4001506146, 2702746388,
  1115152433, 3238691912, 4178495729, 1415857659, 3024005961, 3594736786, 3178613804, 2610811434,
  3205663714, 1614126169, 148293809, 860557021, 3405888685, 48178629, 2811411488, 3910004927,
  3855786524, 3360014064, 1284059362, 2381708546, 1189878246, 2743134564, 1880432037, 644807208,
  442120228, 3606824760, 1713169183, 1824894569, 4269684811, 1172354920, 649653464, 4250712884,
  1704885438, 1313224655, 3841718256, 1900063353, 2692024927, 1062983959, 2411549434, 1019376933,
  1724726726, 2428702981, 3100185780, 1778648646, 2824194812, 368674838, 3293624158, 2049957675,
  1792097332, 3874522549, 1484459417, 1101643317, 4093425962, 1834089448, 3296950100, 626404104,
  928095335, 4003867159, 3995103912, 179816822, 1622730472, 3191261066, 3319848422, 1083381508,
  2975358065, 4252483063, 1945973358, 1265480485, 1207567275, 1388072242, 670925033, 2460617624,
  1411676640, 2429184919, 3452720300, 3127531492, 3745863285, 2028796322, 2510644464, 2824776775,
  2327901390, 2077526076, 1095261305, 50676087, 3989186551, 4016763164, 2355277652, 2476000043,
  2921452075, 4026442, 2852903135, 1941177440, 16227375, 900725535, 3953631461, 1362350809,
  1561293035, 2875846514, 2937215471, 3282811559, 2895328989, 158088300, 2457787246, 3466218876,
  2117956904, 3729527303, 1948098681, 3692039239, 2035804983, 2654818869, 82829398, 3340720489]

/-- Entries 1792 to 2047. -/
def rootsInv7 : List Nat := [
  3548488857, 1814924647, 1630699293, 4075231614, 2389465329, 3180516768, 591911115, 2875328745,
  881446517, 1009014558, 2202507284, 2267106976, 830531182, 102585834, 3975404825, 813494392,
  170276329, 1458098322, 350694513, 3621797362, 1465802456, 2420947225, 976792001, 1597231258,
  3668841432, 288132274, 3411153512, 2938821154, 3361742375, 3190603627, 1093229240, 556486098,
  1020289279, 2830231021, 3734005416, 2684044447, 2584131688, 3992879375, 4225951422, 1045280775,
  3461321492, 3274528205, 3210184908, 762053713, 2026532479, 2451269793, 235317820, 3861598554,
  3808613605, 2129085949, 2605763719, 4160676327, 2463348525, 871271814, 3964053290, 3872735954,
  2455501691, 1006354765, 1095322858, 3804719266, 1947137878, 1023993495, 189413794, 1969338960,
  1606441896, 3237524875, 3668588765, 932057034, 2862379353, 3892596325, 3238514652, 3896661196,
  2083614475, 2092450703, 160772137, 363465046, 2031315689, 592013926, 1493807965, 1698503533,
  412923149, 1125292796, 1902996585, 3391732256, 1750276752, 2860681165, 1739473238, 3647838050,
  1255426636, 3688182678, 429035063, 2534905484, 1284506368, 2696396633, 1134167649, 37095327,
  3341538749, 3516102293, 640681398, 2136476330, 2458334088, 1956591540, 3341085212, 2277764404,
  3546739014, 3010519004, 4144996561, 1066711779, 2531981371, 2592322742, 3255271940, 662747584,
  890361181, 181824124, 2198759105, 3335098731, 2471985311, 2610254613, 1146121979, 1740020427,
  3978144632, 3994665502, 2668043247, 1143927377, 243083512, 1012918371, 1892300936, 2615462246,
  4054611181, 3482891539, 2386932266, 607343172, 3961670414, 4211680059, 3978477846, 668044530,
  1628656712, 4256459577, 2492664708, 630062681, 28836446, 4011074690, 1516948945, 39474401,
  2504816273, 1167410981, 828866895, 3102491135, 3701480867, 1619744395, 3048242974, 2774089863,
  553036857, 3263380684, 4291804968, 1082923740, 2560542795, 3290051752, 1527367821, 2973308817,
  3618229322, 4225538922, 2028624522, 2783859226, 921652868, 2222357847, 2201765426, 3037369928,
  2971833744, 3374034825, 2983970882, 3832020317, 1961576447, 690838896, 279868345, 1702862381,
  1313647042, 1996091043, 1491856901, 484772581, 3964694772, 1472951697, 1151711851, 783985120,
  4177963077, 1584437862, 1200197132, 344474385, 3015842609, 3482781866, 1806589426, 2618836398,
  4122931546, 2368040035, 1176595199, 3725123484, 2096178703, 477911489, 2086129614, 2039306714,
  2957196846, 3951935181, 2610382351, 3548701897, 4210449019, 142035233, 361677746, 1270549128,
  4248800299, 3228679926, 2826940335, 4191859541, 1410436344, 4245995473, 3784199301, 3118493705,
  3161882918, 1709721192, 3692732589, 1724311715, 3272881722, 3783397695, 574685160, 3858274510,
  3353890226, 1462655178, 668113269, 3138846412, 1209697749, 4024262111, 1518639305, 2603106945,
  1086688660, 2807238916, 1665570547, 4226517037, 735959145, 3352323422, 3969769950, 3497464431,
  2632353296, 2965622190, 3549723966, 4139377098, 1397347515, 3631123678, 2774807718, 2426054342,
  2780261754, 3527657029, 2008316137, 2937347638, 1949803623, 486502340, 3312283638, 1221713880]

/-- params_32_2048.rs:1 (`MOD`), 3 (`NINV`), 5-262 (`ROOTS`), 264-521 (`INVROOTS`). -/
def params : Params := ⟨11, 4294828033, 4292730949, roots0 ++ roots1 ++ roots2 ++ roots3 ++ roots4 ++ roots5 ++ roots6 ++ roots7, rootsInv0 ++ rootsInv1 ++ rootsInv2 ++ rootsInv3 ++ rootsInv4 ++ rootsInv5 ++ rootsInv6 ++ rootsInv7⟩

/-- C36 for polynomials of size 2048 over 32-bit tori. -/
theorem C36_table : TableCorrect 32 params := check_sound (by decide +kernel)

end Verif.Ntt.P32_2048
