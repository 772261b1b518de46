import Verif.Ntt.Check
/-
Generated by tools/gen_ntt_params.py from
/repo/concrete-core/src/backends/ntt/private/math/params/params_32_512.rs.
-/
namespace Verif.Ntt.P32_512

/-- Entries 0 to 255. -/
def roots0 : List Nat := [
  1, 120858170, 3730494182, 3663386470, 2441236027, 1303993941, 2572034793, 2709936104,
  2052039497, 285324626, 3655917433, 1966483567, 316419785, 2881671576, 28157506, 1822212041,
  1081732708, 3800227556, 2351440416, 323841243, 3051026822, 4057127176, 2069717388, 4098091850,
  3300555442, 2631852021, 2211435208, 3463389382, 2395443992, 925609989, 574838446, 2708693814,
  1702598176, 993488850, 1265948723, 3679615010, 1457018623, 3779940171, 3792243652, 2200373755,
  1558810798, 830588312, 1676421815, 67641709, 1922225646, 2744953418, 3513819348, 3423952118,
  925323965, 2633005578, 3212127999, 758333350, 216779841, 4271282060, 2703240162, 3988021191,
  3272569128, 2574843659, 2045745575, 2562518648, 1061818386, 4031725917, 323866942, 2716830588,
  1332190090, 1225167453, 2880527028, 3822937952, 439929579, 1827673261, 2196649779, 4081818696,
  260011005, 659542021, 2734816395, 2968268057, 3304819312, 2625974350, 2156908616, 3471767942,
  172927644, 3091009164, 1764175113, 3192759773, 2166013894, 4100605744, 4183050632, 1947292043,
  286858717, 1947477396, 1035077167, 1693273451, 3939276132, 51312106, 1429018510, 2394320783,
  4029609127, 1888777058, 2615706159, 1071501634, 2885339281, 2596694135, 2504001809, 1662534499,
  1606118524, 1844254218, 1590886368, 2138176785, 1067561490, 733560335, 4174364426, 686479312,
  3150925739, 963671598, 867374666, 1193744376, 1147080389, 2721467296, 4139356223, 1699480587,
  3047285081, 3710159908, 2321815232, 2611818908, 1599835591, 835188140, 776803607, 2724717644,
  4161337768, 3520408460, 676350754, 1611466473, 3679811678, 90294215, 3128450175, 3904601294,
  988003616, 4019657858, 1012030328, 743766872, 2760488827, 618873208, 3249897916, 2884850860,
  3877171007, 340827735, 22075758, 2642582600, 2954763672, 2556208815, 2255128615, 2866499422,
  3926615353, 2802194916, 1619253408, 1255271005, 186106317, 3532295425, 3800984104, 1331069915,
  3529255883, 151110165, 2110278254, 3714428903, 634325966, 502006115, 3635477279, 1675138789,
  902933202, 2713094673, 3628920616, 1219536810, 2545586873, 2736130119, 2751003733, 3540183423,
  3930638415, 936867493, 722098238, 3351872137, 3126617911, 1163985894, 3071549931, 1714507249,
  991235150, 2528353717, 2569717321, 200333926, 2290660327, 786634521, 3643860732, 402422637,
  2964349369, 3966041720, 2422252486, 3887982736, 2837624655, 174633079, 2757896778, 3666565964,
  2541801386, 2260966654, 3680213739, 762617223, 3759947227, 1117875027, 3655252713, 4176906465,
  2505657182, 1039720670, 506704641, 1046864260, 4079269274, 3173444000, 252379873, 267284100,
  3795803249, 4245321701, 1138657049, 2121409684, 1680932376, 4283202455, 1544714374, 911706639,
  2023908702, 1289838672, 1699147626, 1636999650, 3807415350, 565693461, 3908641927, 1254907203,
  3752025078, 3585148486, 614214865, 3141316800, 2093808432, 2231253574, 2225987090, 2391763954,
  1285074360, 3835674601, 3045622403, 1903788652, 1379108238, 2754406878, 2600987189, 2474629268,
  452177137, 2498120638, 326951151, 2152656015, 2945575951, 2018298263, 201648837, 2235406516]

/-- Entries 256 to 511. -/
def roots1 : List Nat := [
  1512772649, 1543509538, 3991699328, 2617689529, 3007294129, 2404926981, 2662724634, 3638825490,
  966503099, 3570274057, 1574121840, 36031105, 2457505577, 3930541018, 2366476945, 4231845784,
  2188449380, 1971960012, 1472961650, 19383509, 10776709, 3779074950, 3776085093, 995026089,
  3759706448, 2763312205, 3626254588, 837807809, 4065121152, 4103677682, 3023761342, 2091583189,
  3144562852, 223555590, 3633528094, 2355485422, 2865647124, 2018668230, 4161188289, 1808721828,
  3283893994, 3588574241, 1554972919, 3225530882, 633110135, 638637907, 794148413, 1622255694,
  1564532724, 2010434171, 187971905, 907044918, 2110647887, 2081181247, 3534326292, 1555769156,
  2132995244, 16393425, 893569949, 4149370701, 4155063153, 2819840720, 4275163477, 2441770657,
  1645694037, 491906285, 1468037151, 2761233753, 3303245586, 1440974335, 2996103537, 3640806305,
  1933902212, 3664030399, 3695539021, 3057187616, 591504401, 1016583593, 667601357, 3701103979,
  1298601796, 1397760677, 1104995339, 2485310366, 2628742400, 1112674719, 1123186053, 2189219244,
  2674379401, 2700238870, 4112778091, 791555474, 1168596454, 1138999803, 3648220782, 2730678268,
  290740777, 716098577, 2060613308, 2233188586, 1005041490, 2107082489, 2518464337, 2922489886,
  1093912588, 2384020505, 3857240330, 3852678959, 2883841916, 676970573, 255655608, 2356707110,
  2005349682, 394503786, 1324902955, 1745455582, 3905389014, 111042747, 4024290333, 1975513287,
  3825879447, 726633580, 3154969462, 853907372, 3895131589, 18699881, 4004726278, 715721757,
  92683634, 1480608698, 3856887603, 81176894, 704488945, 1149746883, 1942036314, 3094074138,
  947537067, 614913080, 151207508, 1928432073, 2957920500, 4257810053, 610688453, 405357482,
  1834805407, 1392752108, 3639354499, 3881657691, 1268039729, 2567116244, 1001251659, 593048570,
  1081743109, 2461440057, 3744977276, 3787034970, 3323612553, 3831179303, 1319781824, 3187128975,
  911611038, 1675612259, 1864634562, 2648486126, 1143748810, 2898066682, 1552470707, 2188546471,
  3916109528, 2388374720, 3236108666, 2959963515, 2936357426, 2181223642, 719065712, 1254058805,
  1766067763, 2867172693, 1706268817, 2275463151, 3487854551, 329874375, 1507229410, 1752136545,
  2072972482, 2554287030, 2402046744, 1221450297, 2514177240, 278358516, 2128809542, 2936859089,
  1447524476, 3458557758, 1347469688, 1089121971, 3642318455, 3458029780, 119981699, 3252315874,
  3709489474, 46867750, 2632141140, 666648333, 3446790194, 3131065429, 900385015, 2729219214,
  2956243972, 3548717167, 1561364112, 1999064609, 3214488965, 3003669116, 1214339003, 3425433104,
  1166819276, 3302913906, 1405435133, 4052469011, 3881709928, 526491314, 3052266451, 2568442934,
  528119129, 1967409024, 818411805, 3798168561, 552010040, 863915994, 4015918134, 1925588158,
  1516755617, 2851563392, 47060275, 3721063048, 1866583222, 2940020738, 1886200282, 2403687882,
  3797805156, 1924612836, 3176427776, 2981645867, 1405004835, 801457915, 1158517651, 3169004819,
  1888681619, 1590428914, 3386373403, 803493975, 3597475499, 763665894, 130151487, 2743143828]

/-- Entries 0 to 255. -/
def rootsInv0 : List Nat := [
  1, 4173969863, 631441563, 564333851, 1584891929, 1722793240, 2990834092, 1853592006,
  2472615992, 4266670527, 1413156457, 3978408248, 2328344466, 638910600, 4009503407, 2242788536,
  1586134219, 3719989587, 3369218044, 1899384041, 831438651, 2083392825, 1662976012, 994272591,
  196736183, 2225110645, 237700857, 1243801211, 3970986790, 1943387617, 494600477, 3213095325,
  1577997445, 3970961091, 263102116, 3233009647, 1732309385, 2249082458, 1719984374, 1022258905,
  306806842, 1591587871, 23545973, 4078048192, 3536494683, 1082700034, 1661822455, 3369504068,
  870875915, 781008685, 1549874615, 2372602387, 4227186324, 2618406218, 3464239721, 2736017235,
  2094454278, 502584381, 514887862, 2837809410, 615213023, 3028879310, 3301339183, 2592229857,
  1570110389, 3518024426, 3459639893, 2694992442, 1683009125, 1973012801, 584668125, 1247542952,
  2595347446, 155471810, 1573360737, 3147747644, 3101083657, 3427453367, 3331156435, 1143902294,
  3608348721, 120463607, 3561267698, 3227266543, 2156651248, 2703941665, 2450573815, 2688709509,
  2632293534, 1790826224, 1698133898, 1409488752, 3223326399, 1679121874, 2406050975, 265218906,
  1900507250, 2865809523, 4243515927, 355551901, 2601554582, 3259750866, 2347350637, 4007969316,
  2347535990, 111777401, 194222289, 2128814139, 1102068260, 2530652920, 1203818869, 4121900389,
  823060091, 2137919417, 1668853683, 990008721, 1326559976, 1560011638, 3635286012, 4034817028,
  213009337, 2098178254, 2467154772, 3854898454, 471890081, 1414301005, 3069660580, 2962637943,
  2059421517, 4093179196, 2276529770, 1349252082, 2142172018, 3967876882, 1796707395, 3842650896,
  1820198765, 1693840844, 1540421155, 2915719795, 2391039381, 1249205630, 459153432, 3009753673,
  1903064079, 2068840943, 2063574459, 2201019601, 1153511233, 3680613168, 709679547, 542802955,
  3039920830, 386186106, 3729134572, 487412683, 2657828383, 2595680407, 3004989361, 2270919331,
  3383121394, 2750113659, 11625578, 2613895657, 2173418349, 3156170984, 49506332, 499024784,
  4027543933, 4042448160, 1121384033, 215558759, 3247963773, 3788123392, 3255107363, 1789170851,
  117921568, 639575320, 3176953006, 534880806, 3532210810, 614614294, 2033861379, 1753026647,
  628262069, 1536931255, 4120194954, 1457203378, 406845297, 1872575547, 328786313, 1330478664,
  3892405396, 650967301, 3508193512, 2004167706, 4094494107, 1725110712, 1766474316, 3303592883,
  2580320784, 1223278102, 3130842139, 1168210122, 942955896, 3572729795, 3357960540, 364189618,
  754644610, 1543824300, 1558697914, 1749241160, 3075291223, 665907417, 1581733360, 3391894831,
  2619689244, 659350754, 3792821918, 3660502067, 580399130, 2184549779, 4143717868, 765572150,
  2963758118, 493843929, 762532608, 4108721716, 3039557028, 2675574625, 1492633117, 368212680,
  1428328611, 2039699418, 1738619218, 1340064361, 1652245433, 4272752275, 3954000298, 417657026,
  1409977173, 1044930117, 3675954825, 1534339206, 3551061161, 3282797705, 275170175, 3306824417,
  390226739, 1166377858, 4204533818, 615016355, 2683361560, 3618477279, 774419573, 133490265]

/-- Entries 256 to 511. -/
def rootsInv1 : List Nat := [
  1551684205, 4164676546, 3531162139, 697352534, 3491334058, 908454630, 2704399119, 2406146414,
  1125823214, 3136310382, 3493370118, 2889823198, 1313182166, 1118400257, 2370215197, 497022877,
  1891140151, 2408627751, 1354807295, 2428244811, 573764985, 4247767758, 1443264641, 2778072416,
  2369239875, 278909899, 3430912039, 3742817993, 496659472, 3476416228, 2327419009, 3766708904,
  1726385099, 1242561582, 3768336719, 413118105, 242359022, 2889392900, 991914127, 3128008757,
  869394929, 3080489030, 1291158917, 1080339068, 2295763424, 2733463921, 746110866, 1338584061,
  1565608819, 3394443018, 1163762604, 848037839, 3628179700, 1662686893, 4247960283, 585338559,
  1042512159, 4174846334, 836798253, 652509578, 3205706062, 2947358345, 836270275, 2847303557,
  1357968944, 2166018491, 4016469517, 1780650793, 3073377736, 1892781289, 1740541003, 2221855551,
  2542691488, 2787598623, 3964953658, 806973482, 2019364882, 2588559216, 1427655340, 2528760270,
  3040769228, 3575762321, 2113604391, 1358470607, 1334864518, 1058719367, 1906453313, 378718505,
  2106281562, 2742357326, 1396761351, 3151079223, 1646341907, 2430193471, 2619215774, 3383216995,
  1107699058, 2975046209, 463648730, 971215480, 507793063, 549850757, 1833387976, 3213084924,
  3701779463, 3293576374, 1727711789, 3026788304, 413170342, 655473534, 2902075925, 2460022626,
  3889470551, 3684139580, 37017980, 1336907533, 2366395960, 4143620525, 3679914953, 3347290966,
  1200753895, 2352791719, 3145081150, 3590339088, 4213651139, 437940430, 2814219335, 4202144399,
  3579106276, 290101755, 4276128152, 399696444, 3440920661, 1139858571, 3568194453, 468948586,
  2319314746, 270537700, 4183785286, 389439019, 2549372451, 2969925078, 3900324247, 2289478351,
  1938120923, 4039172425, 3617857460, 1410986117, 442149074, 437587703, 1910807528, 3200915445,
  1372338147, 1776363696, 2187745544, 3289786543, 2061639447, 2234214725, 3578729456, 4004087256,
  1564149765, 646607251, 3155828230, 3126231579, 3503272559, 182049942, 1594589163, 1620448632,
  2105608789, 3171641980, 3182153314, 1666085633, 1809517667, 3189832694, 2897067356, 2996226237,
  593724054, 3627226676, 3278244440, 3703323632, 1237640417, 599289012, 630797634, 2360925821,
  654021728, 1298724496, 2853853698, 991582447, 1533594280, 2826790882, 3802921748, 2649133996,
  1853057376, 19664556, 1474987313, 139764880, 145457332, 3401258084, 4278434608, 2161832789,
  2739058877, 760501741, 2213646786, 2184180146, 3387783115, 4106856128, 2284393862, 2730295309,
  2672572339, 3500679620, 3656190126, 3661717898, 1069297151, 2739855114, 706253792, 1010934039,
  2486106205, 133639744, 2276159803, 1429180909, 1939342611, 661299939, 4071272443, 1150265181,
  2203244844, 1271066691, 191150351, 229706881, 3457020224, 668573445, 1531515828, 535121585,
  3299801944, 518742940, 515753083, 4284051324, 4275444524, 2821866383, 2322868021, 2106378653,
  62982249, 1928351088, 364287015, 1837322456, 4258796928, 2720706193, 724553976, 3328324934,
  656002543, 1632103399, 1889901052, 1287533904, 1677138504, 303128705, 2751318495, 2782055384]

/-- params_32_512.rs:1 (`MOD`), 3 (`NINV`), 5-70 (`ROOTS`), 72-137 (`INVROOTS`). -/
def params : Params := ⟨9, 4294828033, 4286439697, roots0 ++ roots1, rootsInv0 ++ rootsInv1⟩

/-- C36 for polynomials of size 512 over 32-bit tori. -/
theorem C36_table : TableCorrect 32 params := check_sound (by decide +kernel)

end Verif.Ntt.P32_512
