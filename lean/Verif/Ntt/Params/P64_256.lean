import Verif.Ntt.Check
/-
Generated by tools/gen_ntt_params.py from
/repo/concrete-core/src/backends/ntt/private/math/params/params_64_256.rs.
-/
namespace Verif.Ntt.P64_256

/-- Entries 0 to 255. -/
def roots0 : List Nat := [
  1, 17726159337136475521, 10336469007148322353, 4107289497610371514, 7360900962710441247, 2246618276830467408, 3294257325990827601, 3094477653450497403,
  16766384729569763187, 18066223986296516871, 2411857022065187517, 15060069152514721711, 17042641852703813704, 6883220462445137757, 16880018833952873619, 13399785099192714371,
  10135772086632317746, 184508088348891437, 4026124603406278782, 12421950487379281251, 10831882040721351345, 14636442955877232346, 6785607074325973479, 10719103984580341595,
  4184073996077722594, 15192661596659874776, 5219297436934038081, 947279474168942025, 17982747622807119623, 40890508918942902, 15496822938906020500, 16031120579301653138,
  1723819471793822105, 16494936744328936854, 1526308010139450656, 3107738895382912704, 2812678407398705248, 3073132156720726316, 17336741919700190691, 6916601581356611730,
  2160389145965194955, 6103675515379554802, 11794325332073126075, 12685562913989246830, 10361415093261964378, 9553256573001961350, 12170096020853621857, 9552622248001834094,
  2659540569332192082, 9871006944658101888, 17866954468909039058, 3654530265115245664, 1474007893399669207, 16359529466271620901, 1468388155940156780, 2743507541324512469,
  3907641688470521259, 10742022365901905901, 9312483958896959040, 121120009692013329, 6136752418366672908, 16327837551124316751, 4148663309033642634, 6265157533189854817,
  7809332467830295714, 9992281836003923215, 13992534139469632719, 4914115026334547324, 5734656673228178477, 438334390107482332, 14308554049149677409, 18051559901102654922,
  3197343448233750368, 766297299764979788, 1223800744557452364, 12771444029442691003, 12862560128280454177, 16276639205657848780, 2266955517408217235, 7230828384268226410,
  7130311829637889553, 16155632611476231857, 4496515566159260653, 2414781145353630831, 8153778615063972725, 10720122743025933367, 7978289844598029767, 5575256286289545810,
  17604642181593191748, 10512282082654601769, 9325267155216751905, 2384418027833518626, 628909458309059692, 14556777688709993158, 15054333265783521487, 3131191180568506273,
  16948733755963327900, 14774864522345355146, 13718271459513359141, 7017858027649214074, 2329073470944952233, 9888987391574560138, 1477093161317362390, 6965610225304113285,
  4415463217525974126, 12292915674445058784, 1774479983140665466, 13778838438511328618, 7757846640011511944, 14487058411565116150, 7518038948062138300, 7520350224243710521,
  12911726513263574311, 866436695189140562, 16359347423673957481, 11369796209105670698, 827678682574934671, 16054720596890166569, 4513197467214997021, 16289678937049414628,
  16528655249071241347, 14561867259447678788, 343566353378867193, 2639810859049153377, 11313271413787477728, 12787136763182429935, 9145413470140382906, 2847227376918593412,
  16582528156526269418, 672216689722244726, 16610704985789837864, 14281779419639040800, 666754433679440763, 7287208536382147921, 12355351739799875413, 17066682727390846048,
  10874909511472951851, 4389170874903106644, 9602443758440416470, 3550054700438763288, 8016659753580883464, 6698060158575353206, 11746569696374944735, 7799831439419526867,
  7700442941102372464, 4638534132588643273, 6980331646208508287, 4563804621543399840, 14398839939699696322, 4308549336849652467, 10301642878550741835, 16672783855429512975,
  15379164317447905398, 2107026045720721876, 11618291441121085778, 16931437035728382290, 16734140839240062483, 11649453120220969707, 8219107979524799817, 12750786611591450642,
  8291372273410524886, 3556010777116589141, 9486142710356386762, 12419867294142749724, 18208610253456852843, 1136784548903243507, 13703091703609426340, 2877668068253418291,
  16880295847140003608, 17113103866298204841, 11083398640274897233, 8611741135984834252, 14756362962352599980, 8759839595153052578, 12994960899108806247, 5645890437211973358,
  8315570383587344197, 10974290965416281958, 7433307340845467902, 7391664881303713820, 13147678953245917903, 2729088951597973889, 6404355354875633527, 7168411386214841568,
  7287437283013317393, 11670756924186932461, 15003217807919753001, 17177914375149076963, 2831281374957655958, 4924494931160940442, 17811137426618598325, 6128703678595368759,
  6343549632142671317, 8504072982099537383, 10211370106197085778, 9695976580452507784, 10071423360502205214, 3510389547884920118, 11425876958316592846, 1656868302853146820,
  7600395712624309886, 7044581329974546000, 12842636498084296939, 9960173841363985604, 14190124668807328871, 16319817313326781098, 419282493252955969, 16386508724541722803,
  3197219125762630920, 13634041675019642777, 4679680391116545955, 15160204459723345947, 16545418360531446161, 4045763124731515458, 18020592860549714946, 2519378147937700019,
  10962425847460253032, 11048660263233447716, 18329131452725449748, 17455748639825017660, 16854117897505200868, 1752307060522459569, 5512403567672781012, 15212490889996613420,
  9511846951438159006, 9931364922408773144, 2950706731063258862, 667639652309231357, 11819098605253298889, 3285024055384857877, 11338603909668685653, 16682247638493996294,
  6206132173571976622, 12202346895462343907, 16740463144359038997, 6614007968361625578, 16346969457060814485, 16589524622764334765, 13666017538230424069, 793799556330021822,
  11489057168103961727, 10808023035387708399, 10867510309275084081, 11567378161235443460, 10783628745590008348, 6571924408323664752, 11546819657467771268, 2558186312101903371,
  6486125637702767142, 7808167115056157970, 319235251744749470, 4809307273541950279, 5738890321492885213, 12089938008706898766, 12967641220198548255, 15564258363797734555]

/-- Entries 0 to 255. -/
def rootsInv0 : List Nat := [
  1, 720584736572961408, 14339454576099065415, 8110275066561114576, 15352266420258939526, 15152486747718609328, 16200125796878969521, 11085843110998995682,
  5046958974516722558, 1566725239756563310, 11563523611264299172, 1404102221005623225, 3386674921194715218, 16034887051644249412, 380520087412920058, 1680359344139673742,
  2415623494407783791, 2949921134803416429, 18405853564790494027, 463996450902317306, 17499464599540494904, 13227446636775398848, 3254082477049562153, 14262670077631714335,
  7727640089129095334, 11661136999383463450, 3810301117832204583, 7614862032988085584, 6024793586330155678, 14420619470303158147, 18262235985360545492, 8310971987077119183,
  12181586540519582112, 14298080764675794295, 2118906522585120178, 12309991655342764021, 18325624064017423600, 9134260114812477889, 7704721707807531028, 14539102385238915670,
  15703236532384924460, 16978355917769280149, 2087214607437816028, 16972736180309767722, 14792213808594191265, 579789604800397871, 8575737129051335041, 15787203504377244847,
  8894121825707602835, 6276648052855815072, 8893487500707475579, 8085328980447472551, 5761181159720190099, 6652418741636310854, 12343068558329882127, 16286354927744241974,
  11530142492352825199, 1110002154009246238, 15373611916988710613, 15634065666310731681, 15339005178326524225, 16920436063569986273, 1951807329380500075, 16722924601915614824,
  15599516696790843517, 9301330603569054023, 5659607310527006994, 7133472659921959201, 15806933214660283552, 18103177720330569736, 3884876814261758141, 1918088824638195582,
  2157065136660022301, 13933546606494439908, 2392023476819270360, 17619065391134502258, 7076947864603766231, 2087396650035479448, 17580307378520296367, 5535017560445862618,
  10926393849465726408, 10928705125647298629, 3959685662144320779, 10688897433697924985, 4667905635198108311, 16672264090568771463, 6153828399264378145, 14031280856183462803,
  11481133848405323644, 16969650912392074539, 8557756682134876791, 16117670602764484696, 11428886046060222855, 4728472614196077788, 3671879551364081783, 1498010317746109029,
  15315552893140930656, 3392410807925915442, 3889966384999443771, 17817834615400377237, 16062326045875918303, 9121476918492685024, 7934461991054835160, 842101892116245181,
  12871487787419891119, 10468454229111407162, 7726621330683503562, 10292965458645464204, 16031962928355806098, 13950228507550176276, 2291111462233205072, 11316432244071547376,
  11215915689441210519, 16179788556301219694, 2170104868051588149, 5584183945428982752, 5675300044266745926, 17222943329151984565, 17680446773944457141, 15249400625475686561,
  395184172606782007, 4138190024559759520, 18008409683601954597, 12712087400481258452, 13532629047374889605, 4454209934239804210, 8454462237705513714, 10637411605879141215,
  2882485709911702374, 5479102853510888674, 6356806065002538163, 12707853752216551716, 13637436800167486650, 18127508821964687459, 10638576958653278959, 11960618436006669787,
  15888557761607533558, 6899924416241665661, 11874819665385772177, 7663115328119428581, 6879365912473993469, 7579233764434352848, 7638721038321728530, 6957686905605475202,
  17652944517379415107, 4780726535479012860, 1857219450945102164, 2099774616648622444, 11832736105347811351, 1706280929350397932, 6244397178247093022, 12240611900137460307,
  1764496435215440635, 7108140164040751276, 15161720018324579052, 6627645468456138040, 17779104421400205572, 15496037342646178067, 8515379151300663785, 8934897122271277923,
  3234253183712823509, 12934340506036655917, 16694437013186977360, 1592626176204236061, 990995433884419269, 117612620983987181, 7398083810475989213, 7484318226249183897,
  15927365925771736910, 426151213159721983, 14400980948977921471, 1901325713177990768, 3286539613986090982, 13767063682592890974, 4812702398689794152, 15249524947946806009,
  2060235349167714126, 18027461580456480960, 2126926760382655831, 4256619404902108058, 8486570232345451325, 5604107575625139990, 11402162743734890929, 10846348361085127043,
  16789875770856290109, 7020867115392844083, 14936354525824516811, 8375320713207231715, 8750767493256929145, 8235373967512351151, 9942671091609899546, 12103194441566765612,
  12318040395114068170, 635606647090838604, 13522249142548496487, 15615462698751780971, 1268829698560359966, 3443526265789683928, 6775987149522504468, 11159306790696119536,
  11278332687494595361, 12042388718833803402, 15717655122111463040, 5299065120463519026, 11055079192405723109, 11013436732863969027, 7472453108293154971, 10131173690122092732,
  12800853636497463571, 5451783174600630682, 9686904478556384351, 3690381111356836949, 9835002937724602677, 7363345433434539696, 1333640207411232088, 1566448226569433321,
  15569076005456018638, 4743652370100010589, 17309959524806193422, 238133820252584086, 6026876779566687205, 8960601363353050167, 14890733296592847788, 10155371800298912043,
  5695957462117986287, 10227636094184637112, 6797290953488467222, 1712603234469374446, 1515307037981054639, 6828452632588351151, 16339718027988715053, 3067579756261531531,
  1773960218279923954, 8145101195158695094, 14138194736859784462, 4047904134009740607, 13882939452166037089, 11466412427500928642, 13808209941120793656, 10746301132607064465,
  10646912634289910062, 6700174377334492194, 11748683915134083723, 10430084320128553465, 14896689373270673641, 8844300315269020459, 14057573198806330285, 7571834562236485078,
  1380061346318590881, 6091392333909561516, 11159535537327289008, 17779989640029996166, 4164964654070396129, 1836039087919599065, 17774527383987192203, 1864215917183167511]

/-- params_64_256.rs:1 (`MOD`), 3 (`NINV`), 5-262 (`ROOTS`), 264-521 (`INVROOTS`). -/
def params : Params := ⟨8, 18446744073709436929, 18374686479671509441, roots0, rootsInv0⟩

/-- C36 for polynomials of size 256 over 64-bit tori. -/
theorem C36_table : TableCorrect 64 params := check_sound (by decide +kernel)

end Verif.Ntt.P64_256
