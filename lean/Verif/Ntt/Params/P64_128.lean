import Verif.Ntt.Check
/-
Generated by tools/gen_ntt_params.py from
/repo/concrete-core/src/backends/ntt/private/math/params/params_64_128.rs.
-/
namespace Verif.Ntt.P64_128

/-- Entries 0 to 127. -/
def roots0 : List Nat := [
  1, 17726159337136475521, 10336469007148322353, 4107289497610371514, 7360900962710441247, 2246618276830467408, 3294257325990827601, 3094477653450497403,
  16766384729569763187, 18066223986296516871, 2411857022065187517, 15060069152514721711, 17042641852703813704, 6883220462445137757, 16880018833952873619, 13399785099192714371,
  10135772086632317746, 184508088348891437, 4026124603406278782, 12421950487379281251, 10831882040721351345, 14636442955877232346, 6785607074325973479, 10719103984580341595,
  4184073996077722594, 15192661596659874776, 5219297436934038081, 947279474168942025, 17982747622807119623, 40890508918942902, 15496822938906020500, 16031120579301653138,
  1723819471793822105, 16494936744328936854, 1526308010139450656, 3107738895382912704, 2812678407398705248, 3073132156720726316, 17336741919700190691, 6916601581356611730,
  2160389145965194955, 6103675515379554802, 11794325332073126075, 12685562913989246830, 10361415093261964378, 9553256573001961350, 12170096020853621857, 9552622248001834094,
  2659540569332192082, 9871006944658101888, 17866954468909039058, 3654530265115245664, 1474007893399669207, 16359529466271620901, 1468388155940156780, 2743507541324512469,
  3907641688470521259, 10742022365901905901, 9312483958896959040, 121120009692013329, 6136752418366672908, 16327837551124316751, 4148663309033642634, 6265157533189854817,
  7809332467830295714, 9992281836003923215, 13992534139469632719, 4914115026334547324, 5734656673228178477, 438334390107482332, 14308554049149677409, 18051559901102654922,
  3197343448233750368, 766297299764979788, 1223800744557452364, 12771444029442691003, 12862560128280454177, 16276639205657848780, 2266955517408217235, 7230828384268226410,
  7130311829637889553, 16155632611476231857, 4496515566159260653, 2414781145353630831, 8153778615063972725, 10720122743025933367, 7978289844598029767, 5575256286289545810,
  17604642181593191748, 10512282082654601769, 9325267155216751905, 2384418027833518626, 628909458309059692, 14556777688709993158, 15054333265783521487, 3131191180568506273,
  16948733755963327900, 14774864522345355146, 13718271459513359141, 7017858027649214074, 2329073470944952233, 9888987391574560138, 1477093161317362390, 6965610225304113285,
  4415463217525974126, 12292915674445058784, 1774479983140665466, 13778838438511328618, 7757846640011511944, 14487058411565116150, 7518038948062138300, 7520350224243710521,
  12911726513263574311, 866436695189140562, 16359347423673957481, 11369796209105670698, 827678682574934671, 16054720596890166569, 4513197467214997021, 16289678937049414628,
  16528655249071241347, 14561867259447678788, 343566353378867193, 2639810859049153377, 11313271413787477728, 12787136763182429935, 9145413470140382906, 2847227376918593412]

/-- Entries 0 to 127. -/
def rootsInv0 : List Nat := [
  1, 720584736572961408, 14339454576099065415, 8110275066561114576, 15352266420258939526, 15152486747718609328, 16200125796878969521, 11085843110998995682,
  5046958974516722558, 1566725239756563310, 11563523611264299172, 1404102221005623225, 3386674921194715218, 16034887051644249412, 380520087412920058, 1680359344139673742,
  2415623494407783791, 2949921134803416429, 18405853564790494027, 463996450902317306, 17499464599540494904, 13227446636775398848, 3254082477049562153, 14262670077631714335,
  7727640089129095334, 11661136999383463450, 3810301117832204583, 7614862032988085584, 6024793586330155678, 14420619470303158147, 18262235985360545492, 8310971987077119183,
  12181586540519582112, 14298080764675794295, 2118906522585120178, 12309991655342764021, 18325624064017423600, 9134260114812477889, 7704721707807531028, 14539102385238915670,
  15703236532384924460, 16978355917769280149, 2087214607437816028, 16972736180309767722, 14792213808594191265, 579789604800397871, 8575737129051335041, 15787203504377244847,
  8894121825707602835, 6276648052855815072, 8893487500707475579, 8085328980447472551, 5761181159720190099, 6652418741636310854, 12343068558329882127, 16286354927744241974,
  11530142492352825199, 1110002154009246238, 15373611916988710613, 15634065666310731681, 15339005178326524225, 16920436063569986273, 1951807329380500075, 16722924601915614824,
  15599516696790843517, 9301330603569054023, 5659607310527006994, 7133472659921959201, 15806933214660283552, 18103177720330569736, 3884876814261758141, 1918088824638195582,
  2157065136660022301, 13933546606494439908, 2392023476819270360, 17619065391134502258, 7076947864603766231, 2087396650035479448, 17580307378520296367, 5535017560445862618,
  10926393849465726408, 10928705125647298629, 3959685662144320779, 10688897433697924985, 4667905635198108311, 16672264090568771463, 6153828399264378145, 14031280856183462803,
  11481133848405323644, 16969650912392074539, 8557756682134876791, 16117670602764484696, 11428886046060222855, 4728472614196077788, 3671879551364081783, 1498010317746109029,
  15315552893140930656, 3392410807925915442, 3889966384999443771, 17817834615400377237, 16062326045875918303, 9121476918492685024, 7934461991054835160, 842101892116245181,
  12871487787419891119, 10468454229111407162, 7726621330683503562, 10292965458645464204, 16031962928355806098, 13950228507550176276, 2291111462233205072, 11316432244071547376,
  11215915689441210519, 16179788556301219694, 2170104868051588149, 5584183945428982752, 5675300044266745926, 17222943329151984565, 17680446773944457141, 15249400625475686561,
  395184172606782007, 4138190024559759520, 18008409683601954597, 12712087400481258452, 13532629047374889605, 4454209934239804210, 8454462237705513714, 10637411605879141215]

/-- params_64_128.rs:1 (`MOD`), 3 (`NINV`), 5-134 (`ROOTS`), 136-265 (`INVROOTS`). -/
def params : Params := ⟨7, 18446744073709436929, 18302628885633581953, roots0, rootsInv0⟩

/-- C36 for polynomials of size 128 over 64-bit tori. -/
theorem C36_table : TableCorrect 64 params := check_sound (by decide +kernel)

end Verif.Ntt.P64_128
