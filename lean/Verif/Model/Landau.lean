import Verif.Model.Faddeeva
/-!
# The Landau functions of the Python module

`include/goofit/cpp/landau.h` (exported by `python/extras/landau.cpp`) over the real numbers:
rounding is not modelled, decimal constants are the decimals written in the code.  A division by zero
is `none`, and so is undefined behaviour.
-/
set_option autoImplicit false
namespace GooFit.Landau

/-- `p1` (`include/goofit/cpp/landau.h:31`). -/
noncomputable def p1 : List ℝ :=
  [4259894875 / 10 ^ 10, -1249762550 / 10 ^ 10, 3984243700 / 10 ^ 11, -6298287635 / 10 ^ 12, 1511162253 / 10 ^ 12]

/-- `q1` (`include/goofit/cpp/landau.h:32`). -/
noncomputable def q1 : List ℝ :=
  [1, -3388260629 / 10 ^ 10, 9594393323 / 10 ^ 11, -1608042283 / 10 ^ 11, 3778942063 / 10 ^ 12]

/-- `p2` (`include/goofit/cpp/landau.h:34`). -/
noncomputable def p2 : List ℝ :=
  [1788541609 / 10 ^ 10, 1173957403 / 10 ^ 10, 1488850518 / 10 ^ 11, -1394989411 / 10 ^ 12, 1283617211 / 10 ^ 13]

/-- `q2` (`include/goofit/cpp/landau.h:35`). -/
noncomputable def q2 : List ℝ :=
  [1, 7428795082 / 10 ^ 10, 3153932961 / 10 ^ 10, 6694219548 / 10 ^ 11, 8790609714 / 10 ^ 12]

/-- `p3` (`include/goofit/cpp/landau.h:37`). -/
noncomputable def p3 : List ℝ :=
  [1788544503 / 10 ^ 10, 9359161662 / 10 ^ 11, 6325387654 / 10 ^ 12, 6611667319 / 10 ^ 14, -2031049101 / 10 ^ 15]

/-- `q3` (`include/goofit/cpp/landau.h:38`). -/
noncomputable def q3 : List ℝ :=
  [1, 6097809921 / 10 ^ 10, 2560616665 / 10 ^ 10, 4746722384 / 10 ^ 11, 6957301675 / 10 ^ 12]

/-- `p4` (`include/goofit/cpp/landau.h:40`). -/
noncomputable def p4 : List ℝ :=
  [9874054407 / 10 ^ 10, 1186723273 / 10 ^ 7, 8492794360 / 10 ^ 7, -7437792444 / 10 ^ 7, 4270262186 / 10 ^ 7]

/-- `q4` (`include/goofit/cpp/landau.h:41`). -/
noncomputable def q4 : List ℝ :=
  [1, 1068615961 / 10 ^ 7, 3376496214 / 10 ^ 7, 2016712389 / 10 ^ 6, 1597063511 / 10 ^ 6]

/-- `p5` (`include/goofit/cpp/landau.h:43`). -/
noncomputable def p5 : List ℝ :=
  [1003675074 / 10 ^ 9, 1675702434 / 10 ^ 7, 4789711289 / 10 ^ 6, 2121786767 / 10 ^ 5, -2232494910 / 10 ^ 5]

/-- `q5` (`include/goofit/cpp/landau.h:44`). -/
noncomputable def q5 : List ℝ :=
  [1, 1569424537 / 10 ^ 7, 3745310488 / 10 ^ 6, 9834698876 / 10 ^ 6, 6692428357 / 10 ^ 5]

/-- `p6` (`include/goofit/cpp/landau.h:46`). -/
noncomputable def p6 : List ℝ :=
  [1000827619 / 10 ^ 9, 6649143136 / 10 ^ 7, 6297292665 / 10 ^ 5, 4755546998 / 10 ^ 4, -5743609109 / 10 ^ 3]

/-- `q6` (`include/goofit/cpp/landau.h:47`). -/
noncomputable def q6 : List ℝ :=
  [1, 6514101098 / 10 ^ 7, 5697473333 / 10 ^ 5, 1659174725 / 10 ^ 4, -2815759939 / 10 ^ 3]

/-- `c[0] + (c[1] + (c[2] + (c[3] + c[4] * v) * v) * v) * v`
(`include/goofit/cpp/landau.h:66-85`). -/
def horner (c : List ℝ) (v : ℝ) : ℝ :=
  match c with
  | [a, b, c, d, e] => a + (b + (c + (d + e * v) * v) * v) * v
  | _ => 0

open scoped Classical in
/-- `landauPDF` (`include/goofit/cpp/landau.h:29-91`). -/
noncomputable def landauPDF (x x0 xi : ℝ) : Option ℝ :=
  if xi ≤ 0 then some 0
  else do
    let v ← fdiv (x - x0) xi
    if v < -(55 / 10) then
      let u := Real.exp (v + 1)
      if u < 1 / 10 ^ 10 then some 0
      else do
        let iu ← fdiv (-1) u
        let ue := Real.exp iu
        let us := Real.sqrt u
        let r ← fdiv ue us
        let denlan := 3989422803 / 10 ^ 10 * r * (1 + (4166666667 / 10 ^ 11 + (-1996527778 / 10 ^ 11 +
          2709538966 / 10 ^ 11 * u) * u) * u)
        fdiv denlan xi
    else if v < -1 then do
      let u := Real.exp (-v - 1)
      let denlan ← fdiv (Real.exp (-u) * Real.sqrt u * horner p1 v) (horner q1 v)
      fdiv denlan xi
    else if v < 1 then do
      let denlan ← fdiv (horner p2 v) (horner q2 v)
      fdiv denlan xi
    else if v < 5 then do
      let denlan ← fdiv (horner p3 v) (horner q3 v)
      fdiv denlan xi
    else if v < 12 then do
      let u ← fdiv 1 v
      let denlan ← fdiv (u * u * horner p4 u) (horner q4 u)
      fdiv denlan xi
    else if v < 50 then do
      let u ← fdiv 1 v
      let denlan ← fdiv (u * u * horner p5 u) (horner q5 u)
      fdiv denlan xi
    else if v < 300 then do
      let u ← fdiv 1 v
      let denlan ← fdiv (u * u * horner p6 u) (horner q6 u)
      fdiv denlan xi
    else do
      let w ← fdiv (v * Real.log v) (v + 1)
      let u ← fdiv 1 (v - w)
      let denlan := u * u * (1 + (-1845568670 / 10 ^ 9 + -4284640743 / 10 ^ 9 * u) * u)
      fdiv denlan xi

/-- `gaussPDF` with `invsq2pi` (`include/goofit/cpp/landau.h:27, 93-95`). -/
noncomputable def gaussPDF (x mu sigma : ℝ) : Option ℝ := do
  let a ← fdiv (3989422804014 / 10 ^ 13) sigma
  let b ← fdiv (-(x - mu) ^ 2) (2 * sigma ^ 2)
  some (a * Real.exp b)

open scoped Classical in
/-- `int(x)` for a double `x`: truncation toward zero, undefined outside `int`
(C++ conversion, `include/goofit/cpp/landau.h:109,261`). -/
noncomputable def intOf (x : ℝ) : Option Int :=
  let t := if 0 ≤ x then ⌊x⌋ else ⌈x⌉
  if -(2 ^ 31) ≤ t ∧ t < 2 ^ 31 then some t else none

open scoped Classical in
/-- The number of steps `np`, an `unsigned int` (`include/goofit/cpp/landau.h:103-111`). -/
noncomputable def langausSteps (eta sigma : ℝ) : Option (BitVec 32) := do
  let np ←
    if sigma > 3 * eta then do
      let r ← fdiv sigma eta
      let k ← intOf (r / 3)
      some (100#32 * BitVec.ofInt 32 k)
    else some 100#32
  some (if np.toNat > 100000 then 100000#32 else np)

/-- One term of the loop (`include/goofit/cpp/landau.h:132-138`). -/
noncomputable def langausTerm (x mpc eta sigma xx : ℝ) : Option ℝ := do
  let l ← landauPDF xx mpc eta
  let fland ← fdiv l eta
  let g ← gaussPDF x xx sigma
  some (fland * g)

/-- `landauGaussPDF` (`include/goofit/cpp/landau.h:97-142`). -/
noncomputable def landauGaussPDF (x mu eta sigma : ℝ) : Option ℝ := do
  let np ← langausSteps eta sigma
  let mpc := mu - 0
  let xlow := x - 8 * sigma
  let xupp := x + 8 * sigma
  let step ← fdiv (xupp - xlow) (np.toNat : ℝ)
  let sum ← (List.range' 1 (np.toNat / 2)).foldlM (fun (sum : ℝ) (i : Nat) => do
    let a ← langausTerm x mpc eta sigma (xlow + ((i : ℝ) - 1 / 2) * step)
    let b ← langausTerm x mpc eta sigma (xupp - ((i : ℝ) - 1 / 2) * step)
    some (sum + a + b)) 0
  some (step * sum)

/-- `f[0]` to `f[99]` of `landau_quantile` in millionths, as printed with six decimals
(`include/goofit/cpp/landau.h:152-161`). -/
def table0 : List Int := [
   0, 0, 0, 0, 0, -2244733, -2204365, -2168163, -2135219, -2104898,
   -2076740, -2050397, -2025605, -2002150, -1979866, -1958612, -1938275, -1918760, -1899984, -1881879,
   -1864385, -1847451, -1831030, -1815083, -1799574, -1784473, -1769751, -1755383, -1741346, -1727620,
   -1714187, -1701029, -1688130, -1675477, -1663057, -1650858, -1638868, -1627078, -1615477, -1604058,
   -1592811, -1581729, -1570806, -1560034, -1549407, -1538919, -1528565, -1518339, -1508237, -1498254,
   -1488386, -1478628, -1468976, -1459428, -1449979, -1440626, -1431365, -1422195, -1413111, -1404112,
   -1395194, -1386356, -1377594, -1368906, -1360291, -1351746, -1343269, -1334859, -1326512, -1318229,
   -1310006, -1301843, -1293737, -1285688, -1277693, -1269752, -1261863, -1254024, -1246235, -1238494,
   -1230800, -1223153, -1215550, -1207990, -1200474, -1192999, -1185566, -1178172, -1170817, -1163500,
   -1156220, -1148977, -1141770, -1134598, -1127459, -1120354, -1113282, -1106242, -1099233, -1092255]

/-- `f[100]` to `f[199]` of `landau_quantile` in millionths, as printed with six decimals
(`include/goofit/cpp/landau.h:162-171`). -/
def table1 : List Int := [
   -1085306, -1078388, -1071498, -1064636, -1057802, -1050996, -1044215, -1037461, -1030733, -1024029,
   -1017350, -1010695, -1004064, -997456, -990871, -984308, -977767, -971247, -964749, -958271,
   -951813, -945375, -938957, -932558, -926178, -919816, -913472, -907146, -900838, -894547,
   -888272, -882014, -875773, -869547, -863337, -857142, -850963, -844798, -838648, -832512,
   -826390, -820282, -814187, -808106, -802038, -795982, -789940, -783909, -777891, -771884,
   -765889, -759906, -753934, -747973, -742023, -736084, -730155, -724237, -718328, -712429,
   -706541, -700661, -694791, -688931, -683079, -677236, -671402, -665576, -659759, -653950,
   -648149, -642356, -636570, -630793, -625022, -619259, -613503, -607754, -602012, -596276,
   -590548, -584825, -579109, -573399, -567695, -561997, -556305, -550618, -544937, -539262,
   -533592, -527926, -522266, -516611, -510961, -505315, -499674, -494037, -488405, -482777]

/-- `f[200]` to `f[299]` of `landau_quantile` in millionths, as printed with six decimals
(`include/goofit/cpp/landau.h:172-181`). -/
def table2 : List Int := [
   -477153, -471533, -465917, -460305, -454697, -449092, -443491, -437893, -432299, -426707,
   -421119, -415534, -409951, -404372, -398795, -393221, -387649, -382080, -376513, -370949,
   -365387, -359826, -354268, -348712, -343157, -337604, -332053, -326503, -320955, -315408,
   -309863, -304318, -298775, -293233, -287692, -282152, -276613, -271074, -265536, -259999,
   -254462, -248926, -243389, -237854, -232318, -226783, -221247, -215712, -210176, -204641,
   -199105, -193568, -188032, -182495, -176957, -171419, -165880, -160341, -154800, -149259,
   -143717, -138173, -132629, -127083, -121537, -115989, -110439, -104889, -99336, -93782,
   -88227, -82670, -77111, -71550, -65987, -60423, -54856, -49288, -43717, -38144,
   -32569, -26991, -21411, -15828, -10243, -4656, 934, 6527, 12123, 17722,
   23323, 28928, 34535, 40146, 45759, 51376, 56997, 62620, 68247, 73877]

/-- `f[300]` to `f[399]` of `landau_quantile` in millionths, as printed with six decimals
(`include/goofit/cpp/landau.h:182-191`). -/
def table3 : List Int := [
   79511, 85149, 90790, 96435, 102083, 107736, 113392, 119052, 124716, 130385,
   136057, 141734, 147414, 153100, 158789, 164483, 170181, 175884, 181592, 187304,
   193021, 198743, 204469, 210201, 215937, 221678, 227425, 233177, 238933, 244696,
   250463, 256236, 262014, 267798, 273587, 279382, 285183, 290989, 296801, 302619,
   308443, 314273, 320109, 325951, 331799, 337654, 343515, 349382, 355255, 361135,
   367022, 372915, 378815, 384721, 390634, 396554, 402481, 408415, 414356, 420304,
   426260, 432222, 438192, 444169, 450153, 456145, 462144, 468151, 474166, 480188,
   486218, 492256, 498302, 504356, 510418, 516488, 522566, 528653, 534747, 540850,
   546962, 553082, 559210, 565347, 571493, 577648, 583811, 589983, 596164, 602355,
   608554, 614762, 620980, 627207, 633444, 639689, 645945, 652210, 658484, 664768]

/-- `f[400]` to `f[499]` of `landau_quantile` in millionths, as printed with six decimals
(`include/goofit/cpp/landau.h:192-201`). -/
def table4 : List Int := [
   671062, 677366, 683680, 690004, 696338, 702682, 709036, 715400, 721775, 728160,
   734556, 740963, 747379, 753807, 760246, 766695, 773155, 779627, 786109, 792603,
   799107, 805624, 812151, 818690, 825241, 831803, 838377, 844962, 851560, 858170,
   864791, 871425, 878071, 884729, 891399, 898082, 904778, 911486, 918206, 924940,
   931686, 938446, 945218, 952003, 958802, 965614, 972439, 979278, 986130, 992996,
   999875, 1006769, 1013676, 1020597, 1027533, 1034482, 1041446, 1048424, 1055417, 1062424,
   1069446, 1076482, 1083534, 1090600, 1097681, 1104778, 1111889, 1119016, 1126159, 1133316,
   1140490, 1147679, 1154884, 1162105, 1169342, 1176595, 1183864, 1191149, 1198451, 1205770,
   1213105, 1220457, 1227826, 1235211, 1242614, 1250034, 1257471, 1264926, 1272398, 1279888,
   1287395, 1294921, 1302464, 1310026, 1317605, 1325203, 1332819, 1340454, 1348108, 1355780]

/-- `f[500]` to `f[599]` of `landau_quantile` in millionths, as printed with six decimals
(`include/goofit/cpp/landau.h:202-211`). -/
def table5 : List Int := [
   1363472, 1371182, 1378912, 1386660, 1394429, 1402216, 1410024, 1417851, 1425698, 1433565,
   1441453, 1449360, 1457288, 1465237, 1473206, 1481196, 1489208, 1497240, 1505293, 1513368,
   1521465, 1529583, 1537723, 1545885, 1554068, 1562275, 1570503, 1578754, 1587028, 1595325,
   1603644, 1611987, 1620353, 1628743, 1637156, 1645593, 1654053, 1662538, 1671047, 1679581,
   1688139, 1696721, 1705329, 1713961, 1722619, 1731303, 1740011, 1748746, 1757506, 1766293,
   1775106, 1783945, 1792810, 1801703, 1810623, 1819569, 1828543, 1837545, 1846574, 1855631,
   1864717, 1873830, 1882972, 1892143, 1901343, 1910572, 1919830, 1929117, 1938434, 1947781,
   1957158, 1966566, 1976004, 1985473, 1994972, 2004503, 2014065, 2023659, 2033285, 2042943,
   2052633, 2062355, 2072110, 2081899, 2091720, 2101575, 2111464, 2121386, 2131343, 2141334,
   2151360, 2161421, 2171517, 2181648, 2191815, 2202018, 2212257, 2222533, 2232845, 2243195]

/-- `f[600]` to `f[699]` of `landau_quantile` in millionths, as printed with six decimals
(`include/goofit/cpp/landau.h:212-221`). -/
def table6 : List Int := [
   2253582, 2264006, 2274468, 2284968, 2295507, 2306084, 2316701, 2327356, 2338051, 2348786,
   2359562, 2370377, 2381234, 2392131, 2403070, 2414051, 2425073, 2436138, 2447246, 2458397,
   2469591, 2480828, 2492110, 2503436, 2514807, 2526222, 2537684, 2549190, 2560743, 2572343,
   2583989, 2595682, 2607423, 2619212, 2631050, 2642936, 2654871, 2666855, 2678890, 2690975,
   2703110, 2715297, 2727535, 2739825, 2752168, 2764563, 2777012, 2789514, 2802070, 2814681,
   2827347, 2840069, 2852846, 2865680, 2878570, 2891518, 2904524, 2917588, 2930712, 2943894,
   2957136, 2970439, 2983802, 2997227, 3010714, 3024263, 3037875, 3051551, 3065290, 3079095,
   3092965, 3106900, 3120902, 3134971, 3149107, 3163312, 3177585, 3191928, 3206340, 3220824,
   3235378, 3250005, 3264704, 3279477, 3294323, 3309244, 3324240, 3339312, 3354461, 3369687,
   3384992, 3400375, 3415838, 3431381, 3447005, 3462711, 3478500, 3494372, 3510328, 3526370]

/-- `f[700]` to `f[799]` of `landau_quantile` in millionths, as printed with six decimals
(`include/goofit/cpp/landau.h:222-231`). -/
def table7 : List Int := [
   3542497, 3558711, 3575012, 3591402, 3607881, 3624450, 3641111, 3657863, 3674708, 3691646,
   3708680, 3725809, 3743034, 3760357, 3777779, 3795300, 3812921, 3830645, 3848470, 3866400,
   3884434, 3902574, 3920821, 3939176, 3957640, 3976215, 3994901, 4013699, 4032612, 4051639,
   4070783, 4090045, 4109425, 4128925, 4148547, 4168292, 4188160, 4208154, 4228275, 4248524,
   4268903, 4289413, 4310056, 4330832, 4351745, 4372794, 4393982, 4415310, 4436781, 4458395,
   4480154, 4502060, 4524114, 4546319, 4568676, 4591187, 4613854, 4636678, 4659662, 4682807,
   4706116, 4729590, 4753231, 4777041, 4801024, 4825179, 4849511, 4874020, 4898710, 4923582,
   4948639, 4973883, 4999316, 5024942, 5050761, 5076778, 5102993, 5129411, 5156034, 5182864,
   5209903, 5237156, 5264625, 5292312, 5320220, 5348354, 5376714, 5405306, 5434131, 5463193,
   5492496, 5522042, 5551836, 5581880, 5612178, 5642734, 5673552, 5704634, 5735986, 5767610]

/-- `f[800]` to `f[899]` of `landau_quantile` in millionths, as printed with six decimals
(`include/goofit/cpp/landau.h:232-241`). -/
def table8 : List Int := [
   5799512, 5831694, 5864161, 5896918, 5929968, 5963316, 5996967, 6030925, 6065194, 6099780,
   6134687, 6169921, 6205486, 6241387, 6277630, 6314220, 6351163, 6388465, 6426130, 6464166,
   6502578, 6541371, 6580553, 6620130, 6660109, 6700495, 6741297, 6782520, 6824173, 6866262,
   6908795, 6951780, 6995225, 7039137, 7083525, 7128398, 7173764, 7219632, 7266011, 7312910,
   7360339, 7408308, 7456827, 7505905, 7555554, 7605785, 7656608, 7708035, 7760077, 7812747,
   7866057, 7920019, 7974647, 8029953, 8085952, 8142657, 8200083, 8258245, 8317158, 8376837,
   8437300, 8498562, 8560641, 8623554, 8687319, 8751955, 8817481, 8883916, 8951282, 9019600,
   9088889, 9159174, 9230477, 9302822, 9376233, 9450735, 9526355, 9603118, 9681054, 9760191,
   9840558, 9922186, 10005107, 10089353, 10174959, 10261958, 10350389, 10440287, 10531693, 10624646,
   10719188, 10815362, 10913214, 11012789, 11114137, 11217307, 11322352, 11429325, 11538283, 11649285]

/-- `f[900]` to `f[981]` of `landau_quantile` in millionths, as printed with six decimals
(`include/goofit/cpp/landau.h:242-250`). -/
def table9 : List Int := [
   11762390, 11877664, 11995170, 12114979, 12237161, 12361791, 12488946, 12618708, 12751161, 12886394,
   13024498, 13165570, 13309711, 13457026, 13607625, 13761625, 13919145, 14080314, 14245263, 14414134,
   14587072, 14764233, 14945778, 15131877, 15322712, 15518470, 15719353, 15925570, 16137345, 16354912,
   16578520, 16808433, 17044929, 17288305, 17538873, 17796967, 18062943, 18337176, 18620068, 18912049,
   19213574, 19525133, 19847249, 20180480, 20525429, 20882738, 21253102, 21637266, 22036036, 22450278,
   22880933, 23329017, 23795634, 24281981, 24789364, 25319207, 25873062, 26452634, 27059789, 27696581,
   28365274, 29068370, 29808638, 30589157, 31413354, 32285060, 33208568, 34188705, 35230920, 36341388,
   37527131, 38796172, 40157721, 41622399, 43202525, 44912465, 46769077, 48792279, 51005773, 53437996,
   56123356, 59103894]

/-- The table `f` of `landau_quantile` (`include/goofit/cpp/landau.h:151-250`). -/
def table : List Int :=
  table0 ++ table1 ++ table2 ++ table3 ++ table4 ++ table5 ++ table6 ++ table7 ++ table8 ++ table9

/-- `f[i]`; outside the array the behaviour is undefined (`include/goofit/cpp/landau.h:151-250`). -/
noncomputable def f (i : Nat) : Option ℝ := (table[i]?).map fun n => (n : ℝ) / 10 ^ 6

/-- What `landau_quantile` returns (`include/goofit/cpp/landau.h:144`). -/
inductive Quantile where
  | minusInfinity
  | plusInfinity
  | finite (x : ℝ)
  | undefined

/-- A computed number, or undefined behaviour (no counterpart in the code). -/
def Quantile.of : Option ℝ → Quantile
  | some x => .finite x
  | none => .undefined

open scoped Classical in
/-- The value before scaling (`include/goofit/cpp/landau.h:259-282`). -/
noncomputable def ranlan (z : ℝ) : Option ℝ := do
  let u := 1000 * z
  let i := ⌊u⌋.toNat
  let u := u - i
  if i ≥ 70 ∧ i < 800 then do
    let f1 ← f (i - 1)
    let f0 ← f i
    some (f1 + u * (f0 - f1))
  else if i ≥ 7 ∧ i ≤ 980 then do
    let f2 ← f (i - 2)
    let f1 ← f (i - 1)
    let f0 ← f i
    let fp ← f (i + 1)
    some (f1 + u * (f0 - f1 - 1 / 4 * (1 - u) * (fp - f0 - f1 + f2)))
  else if i < 7 then do
    let v := Real.log z
    let u ← fdiv 1 v
    let r ← fdiv (99858950 / 10 ^ 8 + (345213058 / 10 ^ 7 + 170854528 / 10 ^ 7 * u) * u)
      (1 + (341760202 / 10 ^ 7 + 401244582 / 10 ^ 8 * u) * u)
    if -(91893853 / 10 ^ 8) - v ≤ 0 then none
    else some (r * (-Real.log (-(91893853 / 10 ^ 8) - v) - 1))
  else
    let u := 1 - z
    let v := u * u
    if z ≤ 999 / 1000 then
      fdiv (100060006 / 10 ^ 8 + 263991156 / 10 ^ 6 * u + 437320068 / 10 ^ 5 * v)
        ((1 + 257368075 / 10 ^ 6 * u + 341448018 / 10 ^ 5 * v) * u)
    else
      fdiv (100001538 / 10 ^ 8 + 607514119 / 10 ^ 5 * u + 734266409 / 10 ^ 3 * v)
        ((1 + 606511919 / 10 ^ 5 * u + 694021044 / 10 ^ 3 * v) * u)

open scoped Classical in
/-- `landau_quantile` (`include/goofit/cpp/landau.h:144-284`). -/
noncomputable def quantile (z xi : ℝ) : Quantile :=
  if xi ≤ 0 then .finite 0
  else if z ≤ 0 then .minusInfinity
  else if z ≥ 1 then .plusInfinity
  else .of ((ranlan z).map fun r => xi * r)

/-- `landau_quantile_c` (`include/goofit/cpp/landau.h:286`). -/
noncomputable def quantileC (z xi : ℝ) : Quantile := quantile (1 - z) xi

end GooFit.Landau
