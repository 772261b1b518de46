import Verif.Ntt.Check
/-
Generated by tools/gen_ntt_params.py from
/repo/concrete-core/src/backends/ntt/private/math/params/params_32_256.rs.
-/
namespace Verif.Ntt.P32_256

/-- Entries 0 to 255. -/
def roots0 : List Nat := [
  1, 120858170, 3730494182, 3663386470, 2441236027, 1303993941, 2572034793, 2709936104,
  2052039497, 285324626, 3655917433, 1966483567, 316419785, 2881671576, 28157506, 1822212041,
  1081732708, 3800227556, 2351440416, 323841243, 3051026822, 4057127176, 2069717388, 4098091850,
  3300555442, 2631852021, 2211435208, 3463389382, 2395443992, 925609989, 574838446, 2708693814,
  1702598176, 993488850, 1265948723, 3679615010, 1457018623, 3779940171, 3792243652, 2200373755,
  1558810798, 830588312, 1676421815, 67641709, 1922225646, 2744953418, 3513819348, 3423952118,
  925323965, 2633005578, 3212127999, 758333350, 216779841, 4271282060, 2703240162, 3988021191,
  3272569128, 2574843659, 2045745575, 2562518648, 1061818386, 4031725917, 323866942, 2716830588,
  1332190090, 1225167453, 2880527028, 3822937952, 439929579, 1827673261, 2196649779, 4081818696,
  260011005, 659542021, 2734816395, 2968268057, 3304819312, 2625974350, 2156908616, 3471767942,
  172927644, 3091009164, 1764175113, 3192759773, 2166013894, 4100605744, 4183050632, 1947292043,
  286858717, 1947477396, 1035077167, 1693273451, 3939276132, 51312106, 1429018510, 2394320783,
  4029609127, 1888777058, 2615706159, 1071501634, 2885339281, 2596694135, 2504001809, 1662534499,
  1606118524, 1844254218, 1590886368, 2138176785, 1067561490, 733560335, 4174364426, 686479312,
  3150925739, 963671598, 867374666, 1193744376, 1147080389, 2721467296, 4139356223, 1699480587,
  3047285081, 3710159908, 2321815232, 2611818908, 1599835591, 835188140, 776803607, 2724717644,
  4161337768, 3520408460, 676350754, 1611466473, 3679811678, 90294215, 3128450175, 3904601294,
  988003616, 4019657858, 1012030328, 743766872, 2760488827, 618873208, 3249897916, 2884850860,
  3877171007, 340827735, 22075758, 2642582600, 2954763672, 2556208815, 2255128615, 2866499422,
  3926615353, 2802194916, 1619253408, 1255271005, 186106317, 3532295425, 3800984104, 1331069915,
  3529255883, 151110165, 2110278254, 3714428903, 634325966, 502006115, 3635477279, 1675138789,
  902933202, 2713094673, 3628920616, 1219536810, 2545586873, 2736130119, 2751003733, 3540183423,
  3930638415, 936867493, 722098238, 3351872137, 3126617911, 1163985894, 3071549931, 1714507249,
  991235150, 2528353717, 2569717321, 200333926, 2290660327, 786634521, 3643860732, 402422637,
  2964349369, 3966041720, 2422252486, 3887982736, 2837624655, 174633079, 2757896778, 3666565964,
  2541801386, 2260966654, 3680213739, 762617223, 3759947227, 1117875027, 3655252713, 4176906465,
  2505657182, 1039720670, 506704641, 1046864260, 4079269274, 3173444000, 252379873, 267284100,
  3795803249, 4245321701, 1138657049, 2121409684, 1680932376, 4283202455, 1544714374, 911706639,
  2023908702, 1289838672, 1699147626, 1636999650, 3807415350, 565693461, 3908641927, 1254907203,
  3752025078, 3585148486, 614214865, 3141316800, 2093808432, 2231253574, 2225987090, 2391763954,
  1285074360, 3835674601, 3045622403, 1903788652, 1379108238, 2754406878, 2600987189, 2474629268,
  452177137, 2498120638, 326951151, 2152656015, 2945575951, 2018298263, 201648837, 2235406516]

/-- Entries 0 to 255. -/
def rootsInv0 : List Nat := [
  1, 4173969863, 631441563, 564333851, 1584891929, 1722793240, 2990834092, 1853592006,
  2472615992, 4266670527, 1413156457, 3978408248, 2328344466, 638910600, 4009503407, 2242788536,
  1586134219, 3719989587, 3369218044, 1899384041, 831438651, 2083392825, 1662976012, 994272591,
  196736183, 2225110645, 237700857, 1243801211, 3970986790, 1943387617, 494600477, 3213095325,
  1577997445, 3970961091, 263102116, 3233009647, 1732309385, 2249082458, 1719984374, 1022258905,
  306806842, 1591587871, 23545973, 4078048192, 3536494683, 1082700034, 1661822455, 3369504068,
  870875915, 781008685, 1549874615, 2372602387, 4227186324, 2618406218, 3464239721, 2736017235,
  2094454278, 502584381, 514887862, 2837809410, 615213023, 3028879310, 3301339183, 2592229857,
  1570110389, 3518024426, 3459639893, 2694992442, 1683009125, 1973012801, 584668125, 1247542952,
  2595347446, 155471810, 1573360737, 3147747644, 3101083657, 3427453367, 3331156435, 1143902294,
  3608348721, 120463607, 3561267698, 3227266543, 2156651248, 2703941665, 2450573815, 2688709509,
  2632293534, 1790826224, 1698133898, 1409488752, 3223326399, 1679121874, 2406050975, 265218906,
  1900507250, 2865809523, 4243515927, 355551901, 2601554582, 3259750866, 2347350637, 4007969316,
  2347535990, 111777401, 194222289, 2128814139, 1102068260, 2530652920, 1203818869, 4121900389,
  823060091, 2137919417, 1668853683, 990008721, 1326559976, 1560011638, 3635286012, 4034817028,
  213009337, 2098178254, 2467154772, 3854898454, 471890081, 1414301005, 3069660580, 2962637943,
  2059421517, 4093179196, 2276529770, 1349252082, 2142172018, 3967876882, 1796707395, 3842650896,
  1820198765, 1693840844, 1540421155, 2915719795, 2391039381, 1249205630, 459153432, 3009753673,
  1903064079, 2068840943, 2063574459, 2201019601, 1153511233, 3680613168, 709679547, 542802955,
  3039920830, 386186106, 3729134572, 487412683, 2657828383, 2595680407, 3004989361, 2270919331,
  3383121394, 2750113659, 11625578, 2613895657, 2173418349, 3156170984, 49506332, 499024784,
  4027543933, 4042448160, 1121384033, 215558759, 3247963773, 3788123392, 3255107363, 1789170851,
  117921568, 639575320, 3176953006, 534880806, 3532210810, 614614294, 2033861379, 1753026647,
  628262069, 1536931255, 4120194954, 1457203378, 406845297, 1872575547, 328786313, 1330478664,
  3892405396, 650967301, 3508193512, 2004167706, 4094494107, 1725110712, 1766474316, 3303592883,
  2580320784, 1223278102, 3130842139, 1168210122, 942955896, 3572729795, 3357960540, 364189618,
  754644610, 1543824300, 1558697914, 1749241160, 3075291223, 665907417, 1581733360, 3391894831,
  2619689244, 659350754, 3792821918, 3660502067, 580399130, 2184549779, 4143717868, 765572150,
  2963758118, 493843929, 762532608, 4108721716, 3039557028, 2675574625, 1492633117, 368212680,
  1428328611, 2039699418, 1738619218, 1340064361, 1652245433, 4272752275, 3954000298, 417657026,
  1409977173, 1044930117, 3675954825, 1534339206, 3551061161, 3282797705, 275170175, 3306824417,
  390226739, 1166377858, 4204533818, 615016355, 2683361560, 3618477279, 774419573, 133490265]

/-- params_32_256.rs:1 (`MOD`), 3 (`NINV`), 5-38 (`ROOTS`), 40-73 (`INVROOTS`). -/
def params : Params := ⟨8, 4294828033, 4278051361, roots0, rootsInv0⟩

/-- C36 for polynomials of size 256 over 32-bit tori. -/
theorem C36_table : TableCorrect 32 params := check_sound (by decide +kernel)

end Verif.Ntt.P32_256
