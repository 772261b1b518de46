import Verif.Ntt.Check
/-
Generated by tools/gen_ntt_params.py from
/repo/concrete-core/src/backends/ntt/private/math/params/params_32_128.rs.
-/
namespace Verif.Ntt.P32_128

/-- Entries 0 to 127. -/
def roots0 : List Nat := [
  1, 120858170, 3730494182, 3663386470, 2441236027, 1303993941, 2572034793, 2709936104,
  2052039497, 285324626, 3655917433, 1966483567, 316419785, 2881671576, 28157506, 1822212041,
  1081732708, 3800227556, 2351440416, 323841243, 3051026822, 4057127176, 2069717388, 4098091850,
  3300555442, 2631852021, 2211435208, 3463389382, 2395443992, 925609989, 574838446, 2708693814,
  1702598176, 993488850, 1265948723, 3679615010, 1457018623, 3779940171, 3792243652, 2200373755,
  1558810798, 830588312, 1676421815, 67641709, 1922225646, 2744953418, 3513819348, 3423952118,
  925323965, 2633005578, 3212127999, 758333350, 216779841, 4271282060, 2703240162, 3988021191,
  3272569128, 2574843659, 2045745575, 2562518648, 1061818386, 4031725917, 323866942, 2716830588,
  1332190090, 1225167453, 2880527028, 3822937952, 439929579, 1827673261, 2196649779, 4081818696,
  260011005, 659542021, 2734816395, 2968268057, 3304819312, 2625974350, 2156908616, 3471767942,
  172927644, 3091009164, 1764175113, 3192759773, 2166013894, 4100605744, 4183050632, 1947292043,
  286858717, 1947477396, 1035077167, 1693273451, 3939276132, 51312106, 1429018510, 2394320783,
  4029609127, 1888777058, 2615706159, 1071501634, 2885339281, 2596694135, 2504001809, 1662534499,
  1606118524, 1844254218, 1590886368, 2138176785, 1067561490, 733560335, 4174364426, 686479312,
  3150925739, 963671598, 867374666, 1193744376, 1147080389, 2721467296, 4139356223, 1699480587,
  3047285081, 3710159908, 2321815232, 2611818908, 1599835591, 835188140, 776803607, 2724717644]

/-- Entries 0 to 127. -/
def rootsInv0 : List Nat := [
  1, 4173969863, 631441563, 564333851, 1584891929, 1722793240, 2990834092, 1853592006,
  2472615992, 4266670527, 1413156457, 3978408248, 2328344466, 638910600, 4009503407, 2242788536,
  1586134219, 3719989587, 3369218044, 1899384041, 831438651, 2083392825, 1662976012, 994272591,
  196736183, 2225110645, 237700857, 1243801211, 3970986790, 1943387617, 494600477, 3213095325,
  1577997445, 3970961091, 263102116, 3233009647, 1732309385, 2249082458, 1719984374, 1022258905,
  306806842, 1591587871, 23545973, 4078048192, 3536494683, 1082700034, 1661822455, 3369504068,
  870875915, 781008685, 1549874615, 2372602387, 4227186324, 2618406218, 3464239721, 2736017235,
  2094454278, 502584381, 514887862, 2837809410, 615213023, 3028879310, 3301339183, 2592229857,
  1570110389, 3518024426, 3459639893, 2694992442, 1683009125, 1973012801, 584668125, 1247542952,
  2595347446, 155471810, 1573360737, 3147747644, 3101083657, 3427453367, 3331156435, 1143902294,
  3608348721, 120463607, 3561267698, 3227266543, 2156651248, 2703941665, 2450573815, 2688709509,
  2632293534, 1790826224, 1698133898, 1409488752, 3223326399, 1679121874, 2406050975, 265218906,
  1900507250, 2865809523, 4243515927, 355551901, 2601554582, 3259750866, 2347350637, 4007969316,
  2347535990, 111777401, 194222289, 2128814139, 1102068260, 2530652920, 1203818869, 4121900389,
  823060091, 2137919417, 1668853683, 990008721, 1326559976, 1560011638, 3635286012, 4034817028,
  213009337, 2098178254, 2467154772, 3854898454, 471890081, 1414301005, 3069660580, 2962637943]

/-- params_32_128.rs:1 (`MOD`), 3 (`NINV`), 5-22 (`ROOTS`), 24-41 (`INVROOTS`). -/
def params : Params := ⟨7, 4294828033, 4261274689, roots0, rootsInv0⟩

/-- C36 for polynomials of size 128 over 32-bit tori. -/
theorem C36_table : TableCorrect 32 params := check_sound (by decide +kernel)

end Verif.Ntt.P32_128
