/-
test/src/tail_test.c (test_tail_fit, test_tail_probability, test_tail_quantile) on the four data sets of test/src/test_tail_fit.h, and the table
of likelihoods of test/src/peaks_test.c:100-248, on the model. Evaluated by the interpreter.
-/
import Verif.Tests.Common

namespace Verif.Tests
open Verif F64

/-- the data are given with at most 12 decimals -/
def dd (n : ℕ) : F64 := dec n 12

/-- `tail_init` and a push of each value -/
def mkTail (l : List ℕ) : C (Tail F64 × Heap F64) :=
  let t := tail_init lib emptyHeap (UInt64.ofNat l.length)
  l.foldlM (fun st x => tail_push st.2 st.1 (dd x)) (t.2.1, t.2.2)

/-- an entry of `results` (test_tail_fit.h:695-700) -/
structure Result where
  gamma : F64
  sigma : F64
  llhood : F64
  data : List ℕ

/-- tail_test.c:30-57 `test_tail_fit` -/
def fitOk (R : Result) : Bool := passes (do
    let st ← mkTail R.data
    tail_fit M st.2 st.1) fun r =>
  within (2 * (15 / 100) * R.gamma.toQ) R.gamma r.2.gamma && within (2 * (5 / 100) * R.sigma.toQ) R.sigma r.2.sigma &&
    (R.llhood -. r.1) /. R.llhood <. lit (5 / 100)

/-- the parameters of an entry, without data -/
def tailOf (R : Result) : Tail F64 := { (tail_init lib emptyHeap 1).2.1 with gamma := R.gamma, sigma := R.sigma }

/-- tail_test.c:84-136 `test_tail_probability`: every fifth of the sorted values -/
def probabilityOk (R : Result) : Bool := ((R.data.mergeSort).zipIdx.filter fun e => e.2 % 5 = 0 ∧ e.2 ≠ 0).all fun e =>
  passes (tail_probability M (tailOf R) (lit 1000 /. lit 200000) (dd e.1 -. lit 0)) fun q =>
    let p := lit ((1000 - e.2 : ℕ) : ℚ) /. lit 200000
    within (60 / 100) (lit 0) (fabs (p -. q) /. p)

/-- tail_test.c:138-190 `test_tail_quantile`: every twentieth of the sorted values -/
def quantileOk (R : Result) : Bool := ((R.data.mergeSort).zipIdx.filter fun e => e.2 % 20 = 0 ∧ e.2 ≠ 0).all fun e =>
  let z := dd e.1 -. lit 0
  passes (tail_quantile M (tailOf R) (lit 1000 /. lit 200000) (lit ((1000 - e.2 : ℕ) : ℚ) /. lit 200000)) fun zq =>
    within (30 / 100) (lit 0) (fabs (z -. zq) /. z)

def exponential_0 : List ℕ := [495056930000, 136132550000, 2470338410000, 2217598580000, 523966300000, 1222518540000, 47255720000, 1156743880000, 1344372500000, 144407370000, 1266417340000, 232994770000, 675394210000, 2072049140000, 3606083460000, 747680050000, 555045690000, 579421760000, 21388390000, 511810980000, 580706230000, 960362760000, 2131369660000, 1889623700000, 4209155200000, 1376584260000, 89837150000, 416657970000, 278030940000, 1089387290000, 2811608710000, 347593080000, 895453780000, 48235550000, 270949390000, 963235730000, 2416773890000, 287708280000, 296536300000, 1788014260000, 275368130000, 2001770610000, 1947373860000, 2308314160000, 2259541880000, 1425525520000, 397595290000, 425134970000, 1191361250000, 2348105970000, 218085680000, 1180488440000, 2212012610000, 4385952820000, 700535020000, 102238120000, 271924560000, 249418050000, 456563310000, 441220420000, 471449300000, 4684765160000, 642561110000, 75190410000, 1856875610000, 450555210000, 88322660000, 121974920000, 26224950000, 132042410000, 215222680000, 2068370930000, 390148750000, 163292830000, 4207509800000, 3234541000000, 4552190000, 1700496170000, 444306770000, 2323646030000, 1140906600000, 3192978970000, 639959730000, 354275640000, 15838080000, 1156134270000, 173592450000, 74554460000, 1479011910000, 339399390000, 1333494120000, 899520950000, 3913170000, 1785697770000, 1414477810000, 490579170000, 713382270000, 261054650000, 1517227620000, 75155660000]
def exponential_1 : List ℕ := [446512770000, 138057730000, 688781940000, 1510968480000, 624532790000, 771725020000, 288796220000, 2238284170000, 1402187680000, 207776280000, 66311140000, 3337675740000, 180851060000, 5159195450000, 1307903050000, 16252010000, 14187110000, 320245500000, 2075788390000, 177084930000, 855994910000, 36897850000, 624305630000, 913184500000, 2094297270000, 635157820000, 2681328620000, 42707340000, 201671530000, 567276730000, 746703470000, 175414690000, 815232220000, 373063240000, 236777890000, 305940860000, 1404564680000, 1886506410000, 1349020000, 672736880000, 992244150000, 443249090000, 85065820000, 731206720000, 673963360000, 351109510000, 1197705180000, 1376171750000, 510513890000, 1800758110000, 272912160000, 1053504590000, 6414767650000, 3382280820000, 1871018080000, 10337795060000, 1008303600000, 242051130000, 314226920000, 308289500000, 7850172180000, 507795930000, 942989450000, 230740550000, 2498911210000, 81243560000, 622071080000, 5114717590000, 320227330000, 407952090000, 2210988550000, 266995440000, 884923480000, 1021407360000, 753531360000, 733450230000, 2238754800000, 1596734170000, 183136210000, 732100530000, 2031203060000, 1181520820000, 1217413640000, 1020777680000, 3502262510000, 791130100000, 617937760000, 206738290000, 324150710000, 1033803350000, 1943654400000, 1326439040000, 82327730000, 2655635290000, 121020880000, 239695670000, 368613840000, 2739877650000, 55501950000, 533150370000]
def exponential_2 : List ℕ := [79876880000, 754726540000, 1905509450000, 93805910000, 1032464110000, 1124073510000, 301965810000, 4330209160000, 608410860000, 2220557530000, 224345420000, 3921924320000, 895263080000, 482553950000, 3609572780000, 1495083440000, 231283790000, 1162405080000, 799974780000, 1923450690000, 413254820000, 1245450530000, 3122225050000, 262786450000, 446815830000, 51845350000, 2890595160000, 331751100000, 1169503610000, 667721850000, 566738240000, 791639860000, 987092810000, 1282315410000, 1757357760000, 5513364590000, 404100940000, 412119990000, 1371145220000, 1188203530000, 1589016150000, 125275310000, 1234387670000, 332681780000, 333240030000, 237170490000, 1248570680000, 133946100000, 921750010000, 276402990000, 813300710000, 1198930010000, 262679850000, 355369290000, 750288880000, 176083620000, 912661910000, 461913140000, 2177436800000, 1746102820000, 1758132620000, 2192666120000, 172612200000, 328731590000, 451399150000, 2757494790000, 1058932400000, 493630820000, 1380336570000, 506422880000, 102331600000, 220892370000, 417527560000, 841964370000, 1664758340000, 592398880000, 298705400000, 821008820000, 357046630000, 22315360000, 640487250000, 2769777270000, 2495788780000, 145488780000, 468758710000, 177307340000, 12167360000, 644276300000, 89324310000, 1854620670000, 1018221020000, 612223900000, 684896070000, 1401098680000, 54333990000, 960006530000, 472993330000, 140382290000, 761559420000, 1082111970000]
def exponential_3 : List ℕ := [1073392490000, 1202032630000, 4728446480000, 389932950000, 1119291580000, 1210225540000, 552803410000, 6639540120000, 2169723950000, 472543980000, 584168720000, 47802590000, 1123451760000, 556939580000, 497313260000, 2175784730000, 3013680320000, 267795620000, 74650410000, 307184670000, 3208253110000, 2079986390000, 2056625970000, 665617120000, 809434490000, 487704520000, 799325160000, 513863040000, 1344652570000, 988375190000, 1176880350000, 103742180000, 172783220000, 209643120000, 578049520000, 694427840000, 730571320000, 106957840000, 265832500000, 408151190000, 289978530000, 811553950000, 408003580000, 443604440000, 739632840000, 1382062050000, 1282610790000, 175622000000, 2648944500000, 115815520000, 244440130000, 2066254820000, 1214003070000, 49706910000, 1378165070000, 3582133670000, 95770520000, 485880470000, 1941086740000, 3854084340000, 131574410000, 82206150000, 57432830000, 14368940000, 532071630000, 167777110000, 327937580000, 3924600900000, 310662820000, 744226650000, 354590370000, 2453415160000, 518382610000, 1401885130000, 775634390000, 792775470000, 1422735610000, 122088770000, 1439468200000, 296617340000, 827659520000, 1800955690000, 315843610000, 407273790000, 2137514540000, 440912020000, 56069900000, 132871980000, 15802710000, 1369707460000, 704502210000, 1025804090000, 1733629120000, 633796350000, 404277920000, 2409063970000, 1345578780000, 546517470000, 1290979470000, 1042017800000]
def exponential_4 : List ℕ := [3226514360000, 1582482210000, 162477360000, 305339870000, 355066670000, 1437504020000, 4312969000000, 2265400440000, 995157980000, 1465088320000, 1863878550000, 1127778150000, 1356318760000, 3638870130000, 540731930000, 2507253860000, 1430745560000, 917366350000, 611709310000, 83828090000, 270090490000, 813749940000, 262275440000, 1028017090000, 1431764870000, 2339186700000, 697845750000, 2259152950000, 487309080000, 1423906370000, 230467810000, 1275840970000, 305926770000, 1010360200000, 155002850000, 206127620000, 2143543360000, 73638400000, 32008120000, 1455946980000, 2509990190000, 205783810000, 2975371540000, 3358887100000, 588279970000, 2491549890000, 339280690000, 696370260000, 639478010000, 2285351180000, 49202380000, 2904605270000, 1397054390000, 2182181010000, 1115941050000, 2483780530000, 50002410000, 1588282100000, 968240880000, 979450510000, 256264060000, 115509620000, 2252620000, 136079120000, 472814040000, 596313230000, 2015513820000, 15180700000, 1211381620000, 781139750000, 348634250000, 1292351860000, 1018050350000, 2211743720000, 133033130000, 758526140000, 136256230000, 640421000000, 334036180000, 970414000000, 2539106860000, 337632210000, 1121382830000, 481422650000, 1077896550000, 288193180000, 528450150000, 2131602330000, 5008037330000, 716369580000, 937929360000, 1750635640000, 22155180000, 899772480000, 532478240000, 117791810000, 783503520000, 1002964370000, 602879840000, 1195025910000]
def exponential_5 : List ℕ := [622703100000, 2169732780000, 468798730000, 1116664810000, 34688430000, 944631280000, 1465381570000, 872801130000, 1706640430000, 294073010000, 280403980000, 592157490000, 1413493090000, 3832570000, 1883889410000, 1225833360000, 371706820000, 311136840000, 1489024130000, 264681290000, 601105740000, 507723910000, 1164575360000, 2039796510000, 1831825570000, 862936210000, 268639890000, 1095111330000, 856004370000, 562475240000, 1381665220000, 595827190000, 363479820000, 1002830580000, 452652290000, 1120927290000, 1673607390000, 107730370000, 459167600000, 1570770080000, 1006967580000, 70377910000, 1184307810000, 1345379640000, 1478938660000, 57727440000, 158307220000, 441307040000, 1986841970000, 861831560000, 456475940000, 38169920000, 4468720420000, 491081570000, 2447860790000, 2602966570000, 626346260000, 163451330000, 187361350000, 1021190360000, 2803239490000, 1140675620000, 2337315920000, 2732954050000, 1099521730000, 1565248060000, 327635110000, 58942570000, 630209310000, 179320050000, 241694120000, 1371316240000, 1964289530000, 666516760000, 209750340000, 458694410000, 872106870000, 1374060220000, 1906421030000, 1094867160000, 5961850000, 3053787300000, 1334745880000, 983777320000, 1893898480000, 806131130000, 448174050000, 413794960000, 1210168210000, 1457417860000, 265301910000, 592816440000, 2748609510000, 1192506950000, 899845280000, 97988740000, 632259150000, 398138700000, 628626680000, 849731940000]
def exponential_6 : List ℕ := [438239650000, 260130740000, 910598230000, 6710607070000, 2250260850000, 1543818560000, 304253800000, 145450520000, 49549380000, 1365755750000, 522882170000, 1536328580000, 408436510000, 2946412260000, 516555040000, 50541130000, 2346328010000, 4100175140000, 806684660000, 792909820000, 814292820000, 1276130160000, 504486250000, 2037809810000, 186025940000, 69543970000, 1402648950000, 573995680000, 559537240000, 208862700000, 42247960000, 111074400000, 2096779420000, 325946120000, 12300470000, 773414960000, 386034730000, 347795160000, 208727750000, 95215110000, 677264330000, 2656743340000, 1410130270000, 142240560000, 979296450000, 313236420000, 1718464070000, 1124667620000, 1006516120000, 850920550000, 183689560000, 182690470000, 120390370000, 386267810000, 352856590000, 3658560000, 1124903190000, 861277000000, 4037943690000, 1262608980000, 1233496160000, 14235360000, 2362990210000, 776270330000, 1414740090000, 761330630000, 1920820000, 359886900000, 488441010000, 2573952210000, 426014020000, 661757150000, 1387963500000, 489429790000, 144484070000, 273339500000, 134926380000, 42834540000, 397707050000, 1772121520000, 1077181600000, 110645440000, 4691503390000, 630337220000, 1723198120000, 1227532220000, 2475180330000, 1315803890000, 3034653570000, 846169890000, 687625580000, 130984180000, 693357220000, 1219667800000, 711703650000, 601988750000, 1482696960000, 2778857440000, 6019738410000, 170572590000]
def exponential_7 : List ℕ := [1974671810000, 755436700000, 809712790000, 2233616180000, 976764570000, 428442040000, 668850740000, 1544225360000, 1798433420000, 1366331110000, 67625940000, 1565761680000, 621875580000, 154960650000, 1526801190000, 154212830000, 1297787420000, 1326081490000, 356141690000, 5100562650000, 2415822680000, 738487550000, 3373850880000, 275152750000, 1559837260000, 1503668360000, 821386620000, 1292549320000, 1196533510000, 759378140000, 293426130000, 141647290000, 71893690000, 664705210000, 194116500000, 79969310000, 996513070000, 540159980000, 73451030000, 7741300000, 186567800000, 861945020000, 905963710000, 2970304510000, 2061388750000, 355082010000, 3771617360000, 2528435740000, 3151665360000, 319008490000, 1520665810000, 1385308660000, 494206550000, 512518290000, 150219840000, 4450477380000, 1125072270000, 933066060000, 689735660000, 362884380000, 1231182750000, 2281754610000, 1715153940000, 779986270000, 506901250000, 1785541560000, 2306507510000, 1955885230000, 389498130000, 345109990000, 703966940000, 1119702600000, 233919590000, 469298220000, 1595360700000, 992312060000, 1660369760000, 1057599090000, 1386800620000, 54987540000, 309745440000, 24210660000, 960986540000, 432705900000, 631813990000, 1256272600000, 1819767170000, 1348709120000, 663624670000, 1538185380000, 1188183300000, 1479973740000, 236163030000, 4292504470000, 261670370000, 353747650000, 2309187830000, 64099050000, 552889400000, 1822626850000]
def exponential_8 : List ℕ := [32409890000, 284786190000, 719028950000, 75528760000, 303121000000, 108468530000, 912060490000, 1461380500000, 3205260370000, 684310490000, 542847280000, 2201229050000, 367083070000, 490694190000, 236130810000, 1383160820000, 836500800000, 100189790000, 1206197030000, 105194910000, 274393890000, 244315470000, 1196967930000, 3369175090000, 666445860000, 34144510000, 353441470000, 2530623640000, 772614760000, 215359140000, 222422990000, 109782980000, 3143176140000, 91894220000, 160533250000, 615550710000, 1020769970000, 3697383990000, 1713342660000, 1288935990000, 1656742800000, 199278820000, 291044950000, 9143280000, 3365701270000, 465410290000, 18696800000, 39166410000, 1506391500000, 292986040000, 140577970000, 131813350000, 371331110000, 1615839920000, 2037290720000, 110107020000, 18975870000, 39817770000, 144414030000, 69876660000, 2471941900000, 948976240000, 691769090000, 1183556110000, 265050370000, 640966220000, 264674590000, 662121780000, 1041204590000, 468624600000, 2508401790000, 16598660000, 782444840000, 501747880000, 272917490000, 400757420000, 1312586980000, 1159143490000, 1085402990000, 190717770000, 432608640000, 1876975230000, 1093909880000, 945465440000, 1326639430000, 3873588070000, 1453062440000, 11743740000, 178612210000, 152118320000, 1299750040000, 1106010200000, 605958700000, 124536790000, 295388400000, 488179130000, 324904470000, 6611060000, 746056720000, 166746040000]
def exponential_9 : List ℕ := [1330633150000, 719276560000, 2049259730000, 455539970000, 1988016730000, 2386726540000, 2060315900000, 1229492310000, 48846680000, 1814013910000, 139024040000, 1843114180000, 1706270440000, 2049772810000, 196183760000, 37583820000, 2264754280000, 151567470000, 81885520000, 1109453310000, 1296134300000, 138541600000, 2055524170000, 839410790000, 459346150000, 1559383860000, 554343380000, 144470270000, 18281230000, 444740310000, 203564650000, 137644210000, 617906640000, 1212973580000, 401268890000, 121216130000, 763786580000, 276783580000, 316902320000, 89129330000, 2292033870000, 877207900000, 4000638600000, 952463540000, 924387170000, 529957520000, 1046579720000, 1039376230000, 2249949130000, 1058423320000, 2458906950000, 943686420000, 133928870000, 5957669800000, 1559699540000, 1353261860000, 405347370000, 623460360000, 1254796900000, 1251449780000, 40753320000, 540702700000, 1055876530000, 688962500000, 2777805400000, 44568150000, 3916571820000, 215103910000, 182923690000, 72065730000, 789165190000, 847412640000, 560534640000, 1501524790000, 2707308860000, 1197816080000, 1092459490000, 812214050000, 179512690000, 91021150000, 2500856210000, 1287937070000, 180242100000, 31869730000, 641420310000, 2473940080000, 348277120000, 37332760000, 606590170000, 39046240000, 184348020000, 480265420000, 524622320000, 827300210000, 1317226420000, 111572960000, 550270000000, 1059912060000, 2018638240000, 94875350000]
def exponential : List ℕ := exponential_0 ++ exponential_1 ++ exponential_2 ++ exponential_3 ++ exponential_4 ++ exponential_5 ++ exponential_6 ++ exponential_7 ++ exponential_8 ++ exponential_9

def uniform_0 : List ℕ := [3595510000, 1018580000, 739540000, 1281860000, 4746100000, 1236700000, 2519700000, 160230000, 4593900000, 99490000, 715190000, 3115500000, 4782080000, 3928910000, 439750000, 631870000, 3398010000, 4073100000, 169720000, 105360000, 3311010000, 560420000, 3081930000, 389330000, 1082470000, 4096900000, 4031180000, 2180330000, 3603080000, 1469920000, 4088410000, 3175130000, 1929140000, 339180000, 783950000, 4259160000, 3259350000, 4431530000, 2232710000, 4184480000, 3476050000, 433560000, 2078600000, 757660000, 4548690000, 3861760000, 1512030000, 2796340000, 2608420000, 806270000, 4288260000, 553860000, 1145030000, 2148000000, 2690260000, 4493240000, 3109350000, 2501660000, 4061850000, 2389560000, 2390470000, 93570000, 1836940000, 2201490000, 1746930000, 2546270000, 110010000, 1847400000, 4673700000, 846480000, 3845220000, 1864010000, 3367830000, 2521720000, 1342180000, 4237740000, 1440240000, 3652140000, 4761450000, 1156910000, 4119850000, 2551680000, 703860000, 1149670000, 268220000, 66430000, 571280000, 1045780000, 4805380000, 46820000, 4194730000, 3885390000, 3874620000, 3052390000, 4610470000, 1201910000, 772740000, 1232830000, 1331350000, 175070000]
def uniform_1 : List ℕ := [986930000, 790060000, 356420000, 1649290000, 2536490000, 1465530000, 3958330000, 2263690000, 178700000, 389740000, 1844640000, 3574880000, 2665880000, 2628890000, 1318050000, 4806340000, 4110690000, 4142040000, 335140000, 3676030000, 88150000, 777690000, 3403460000, 4637710000, 2907660000, 4528860000, 4687970000, 2849380000, 2423830000, 3221100000, 2028540000, 1572790000, 3847170000, 1664250000, 2664030000, 3550890000, 4625710000, 3926160000, 877760000, 222350000, 1581820000, 2527320000, 1166140000, 2953070000, 2656410000, 1331840000, 3181430000, 1019430000, 2411420000, 244320000, 772650000, 3831430000, 3760920000, 4495290000, 2579110000, 1732880000, 2475340000, 2917830000, 4635720000, 2660870000, 312500000, 2453790000, 2418360000, 207730000, 3855460000, 3351120000, 1598420000, 1667900000, 3470710000, 696660000, 4149000000, 2483210000, 3400800000, 1091180000, 1656280000, 2826660000, 2311010000, 1068660000, 2811650000, 4574440000, 1630850000, 1608040000, 3713290000, 3715800000, 484880000, 4787370000, 3475950000, 4677260000, 1350620000, 2015600000, 4688120000, 419730000, 3054290000, 3118790000, 2538250000, 4356670000, 2693620000, 3131010000, 1688520000, 4416610000]
def uniform_2 : List ℕ := [1004790000, 4247340000, 4633040000, 2980380000, 77260000, 314960000, 3287440000, 4412090000, 4626650000, 4257690000, 1246770000, 1920140000, 3244440000, 1223770000, 2350320000, 1242430000, 2652380000, 2631690000, 2176240000, 131930000, 955970000, 2924350000, 2207880000, 3141060000, 2034490000, 2622500000, 3314670000, 1365210000, 4463230000, 2464970000, 284310000, 804990000, 1663530000, 2911500000, 3173390000, 1585570000, 3269670000, 4167130000, 1103510000, 2539110000, 3343540000, 652780000, 2175270000, 3139300000, 1233450000, 1212500000, 1250880000, 1887400000, 2727500000, 2943050000, 4411480000, 2675750000, 1321730000, 325840000, 3882870000, 1762720000, 4274350000, 2576090000, 957000000, 4442190000, 151920000, 3669110000, 972300000, 243660000, 567040000, 2706620000, 790000, 596120000, 391080000, 2370720000, 519130000, 1318890000, 401150000, 1511650000, 2860410000, 3622460000, 106250000, 3399450000, 3806510000, 2332430000, 2856540000, 3641780000, 1133350000, 4634940000, 3322160000, 3951760000, 377530000, 2765000000, 171950000, 2504830000, 2232550000, 3484350000, 2994040000, 228710000, 983820000, 4212610000, 1540700000, 4484660000, 4200060000, 550610000]
def uniform_3 : List ℕ := [4587550000, 3262530000, 3518710000, 541760000, 3796190000, 2382140000, 1722090000, 3657320000, 4134000000, 3361830000, 461610000, 474570000, 17900000, 872860000, 4138880000, 1475060000, 2485530000, 81960000, 3368700000, 2087440000, 4038100000, 3002930000, 1591760000, 2581940000, 4610090000, 3648330000, 1857890000, 237930000, 241720000, 3825770000, 1544540000, 3981560000, 4717060000, 3374770000, 1883680000, 2388880000, 4681440000, 441450000, 3472460000, 1517240000, 3554720000, 1198450000, 1259360000, 4756150000, 3177260000, 3225010000, 1198360000, 1786430000, 926890000, 3994520000, 599680000, 4129040000, 3556670000, 1972450000, 2572930000, 2120430000, 489890000, 2284390000, 3784030000, 1610050000, 2772330000, 1410650000, 4592940000, 2970400000, 4609550000, 2302680000, 1224030000, 1001670000, 2894390000, 2202190000, 4204440000, 4478680000, 2787750000, 3406450000, 4813350000, 744710000, 3478960000, 2364440000, 4706960000, 1781470000, 4631620000, 3226780000, 773820000, 1392090000, 383250000, 3960980000, 55530000, 2760800000, 774370000, 2817560000, 3385160000, 2580970000, 2840110000, 3241900000, 4124560000, 277210000, 2781380000, 1199760000, 933230000, 3838940000]
def uniform_4 : List ℕ := [2113070000, 3175650000, 4408500000, 3408910000, 249160000, 1645490000, 4405720000, 2150650000, 3720370000, 1986980000, 4493220000, 503870000, 2125650000, 1751500000, 4772650000, 3032530000, 4335440000, 3665660000, 2743030000, 1022800000, 871830000, 4494030000, 1325890000, 4191820000, 2341920000, 2728960000, 1443840000, 2823480000, 3570120000, 3696980000, 2703010000, 2928270000, 470950000, 4359920000, 1027860000, 2160490000, 3855970000, 1016500000, 4360340000, 1920370000, 4496670000, 3238440000, 1752180000, 243450000, 1796250000, 3218490000, 649790000, 4688320000, 4815970000, 1833570000, 4523400000, 1024320000, 520140000, 2523950000, 896600000, 3757220000, 1142570000, 2300240000, 1748010000, 4198050000, 2078360000, 1236390000, 1667840000, 169560000, 2861960000, 3236330000, 2604770000, 899220000, 4162210000, 1287300000, 1973920000, 4278110000, 659950000, 1899560000, 1543510000, 642430000, 1411580000, 467670000, 359760000, 1930610000, 1618000000, 1393760000, 592360000, 3810610000, 3764590000, 944210000, 3786760000, 4516530000, 2391530000, 3834750000, 706980000, 3705590000, 2727270000, 931190000, 4528110000, 2914260000, 3349820000, 4747490000, 3964830000, 3573430000]
def uniform_5 : List ℕ := [2031940000, 1872840000, 2190930000, 1212940000, 3450090000, 827970000, 410010000, 3111100000, 90720000, 150960000, 2809650000, 832660000, 2437610000, 3841750000, 1804810000, 4726650000, 499010000, 1579810000, 1472390000, 2866870000, 1190930000, 1449200000, 619180000, 2762020000, 2835240000, 882120000, 4621760000, 2461800000, 1874700000, 2460600000, 2466670000, 134350000, 3878150000, 2466460000, 991420000, 511400000, 2229760000, 2844430000, 2851560000, 1611210000, 4374760000, 2557120000, 3448370000, 2935870000, 4429690000, 2829570000, 1417590000, 3871910000, 4228780000, 2660660000, 2105690000, 170350000, 437150000, 3094120000, 682700000, 2885550000, 791550000, 3268560000, 3951990000, 3750850000, 2307640000, 3331500000, 1514590000, 3281420000, 1831680000, 921340000, 2530990000, 2469070000, 4411820000, 2555950000, 2579860000, 3338030000, 1971290000, 1461470000, 2735170000, 47160000, 41250000, 2527850000, 1487300000, 3416090000, 4125800000, 2076320000, 1351760000, 3332750000, 4312710000, 3855820000, 1282860000, 1214050000, 2987430000, 705280000, 3005190000, 4264710000, 1271590000, 3691850000, 2120870000, 3116370000, 411960000, 2412180000, 796810000, 1789060000]
def uniform_6 : List ℕ := [1701780000, 3125100000, 2594950000, 2862540000, 4723630000, 543840000, 3516550000, 2026120000, 2011720000, 4064470000, 655080000, 78000000, 1534070000, 2892640000, 2465510000, 2275990000, 3682420000, 3261430000, 2262710000, 780800000, 4565290000, 2681880000, 664470000, 1177840000, 2638860000, 3935300000, 523360000, 1457210000, 3851970000, 2639600000, 4070470000, 2821980000, 4454380000, 2716090000, 4435290000, 1087210000, 1635410000, 386330000, 4183130000, 4655010000, 856530000, 345080000, 4515190000, 1576970000, 1112530000, 3534630000, 153000000, 1672670000, 623010000, 3102550000, 2874150000, 2490600000, 3195890000, 943250000, 3826650000, 2815890000, 132690000, 4688830000, 235580000, 3014560000, 890890000, 2331070000, 50490000, 3964380000, 1459890000, 3936710000, 4449700000, 2390760000, 1333260000, 428390000, 3486700000, 3267020000, 3053750000, 4121430000, 659440000, 4473120000, 905050000, 464670000, 3554690000, 3408860000, 1922940000, 3423370000, 3570440000, 4260740000, 23710000, 4430500000, 4415370000, 2796920000, 2821340000, 4439250000, 2069550000, 416380000, 3898400000, 278840000, 1745290000, 3900820000, 3002590000, 274150000, 3280500000, 3477930000]
def uniform_7 : List ℕ := [3753360000, 4610540000, 4641460000, 4511270000, 1112390000, 2698980000, 137930000, 438750000, 2368550000, 2066510000, 1666830000, 2178740000, 379210000, 2683390000, 398290000, 1072150000, 522360000, 2132280000, 242710000, 3970660000, 2344750000, 2994310000, 3976040000, 1320330000, 623290000, 2159160000, 60650000, 1728890000, 1518730000, 3428980000, 320040000, 1118700000, 2848040000, 4630330000, 574400000, 1921180000, 4771080000, 3361850000, 1396890000, 1002700000, 1281960000, 978710000, 4206150000, 4171130000, 2501190000, 577560000, 274680000, 197890000, 2158610000, 4072210000, 3132010000, 771800000, 2982800000, 3092930000, 2951540000, 142450000, 1289840000, 4035410000, 4781560000, 1893670000, 494470000, 3320790000, 2943220000, 253870000, 85780000, 980110000, 1488010000, 4264720000, 1343570000, 1551680000, 3856830000, 3824560000, 4448730000, 1010540000, 4829250000, 3477950000, 3732430000, 1259210000, 1538210000, 2388530000, 946980000, 3680440000, 4778910000, 2832610000, 1599770000, 1842130000, 3936530000, 3941890000, 949880000, 1362230000, 3845280000, 323690000, 390180000, 4520970000, 283100000, 3116390000, 4687880000, 4526000000, 3412780000, 3578810000]
def uniform_8 : List ℕ := [4051550000, 3801950000, 3274690000, 281440000, 1867450000, 2683040000, 2783670000, 796910000, 1269960000, 4621410000, 2555330000, 788320000, 2292670000, 4488800000, 2811720000, 560900000, 139800000, 2820720000, 1530590000, 1693440000, 1007130000, 2099160000, 4126770000, 750410000, 4592670000, 1619920000, 3986430000, 3771950000, 3498770000, 352060000, 515920000, 3874920000, 1903030000, 1378040000, 915970000, 4243680000, 1868460000, 381200000, 2382880000, 2493610000, 290540000, 2880780000, 2448620000, 788080000, 3972680000, 2078680000, 546380000, 252200000, 66970000, 1263470000, 3966270000, 1727600000, 2926730000, 1276050000, 724740000, 1140050000, 394200000, 488830000, 952380000, 3552060000, 2086850000, 3226450000, 3623910000, 2075080000, 2193110000, 3419570000, 2712180000, 1018390000, 3693250000, 1104030000, 3375610000, 2069030000, 4443970000, 1613110000, 4549340000, 459930000, 1309240000, 554710000, 990270000, 994870000, 3752700000, 2562920000, 4498160000, 4334990000, 3198420000, 3663320000, 808880000, 2515240000, 1685590000, 4436720000, 1532880000, 514800000, 4521010000, 1316560000, 2384100000, 462200000, 2247200000, 4761370000, 4113050000, 1275720000]
def uniform_9 : List ℕ := [2024960000, 2252680000, 3911190000, 1708880000, 1191280000, 4797490000, 2639520000, 1666530000, 4491010000, 3009450000, 3307960000, 3056110000, 3209470000, 2348150000, 862500000, 3262470000, 4430220000, 3398480000, 4592180000, 1754880000, 2505060000, 579390000, 2771480000, 2365860000, 609620000, 2544170000, 3009380000, 3624650000, 2516990000, 2589680000, 1069050000, 1369180000, 438150000, 93600000, 4209270000, 2811620000, 2192750000, 3524500000, 2086420000, 2508320000, 3601390000, 489720000, 4424120000, 892900000, 3769720000, 4417210000, 4621190000, 1267090000, 2167990000, 3151610000, 2826780000, 4301300000, 85220000, 6360000, 674450000, 4368190000, 2428680000, 135580000, 4198610000, 763510000, 1098790000, 4399870000, 4340260000, 508420000, 4173660000, 1295490000, 3732280000, 4537980000, 4791950000, 297510000, 1434020000, 870270000, 971980000, 3406960000, 1349430000, 158020000, 740000000, 4050710000, 3164260000, 3180250000, 4236890000, 206270000, 4787140000, 1258900000, 1568720000, 3142960000, 4779220000, 1763630000, 4664300000, 2330010000, 2791020000, 1465240000, 4319140000, 3557090000, 1901960000, 332390000, 2249240000, 4762820000, 4301440000, 1420080000]
def uniform : List ℕ := uniform_0 ++ uniform_1 ++ uniform_2 ++ uniform_3 ++ uniform_4 ++ uniform_5 ++ uniform_6 ++ uniform_7 ++ uniform_8 ++ uniform_9

def pareto_0 : List ℕ := [6257645480000, 1817745410000, 2309229230000, 700665340000, 2444154200000, 791655660000, 179717710000, 7606315460000, 3912668270000, 1925183790000, 1923136180000, 3495954060000, 9755067560000, 2360960950000, 1172732530000, 964825610000, 138594140000, 1024951820000, 401276440000, 2317276560000, 1040328380000, 2832218360000, 4384214100000, 3387775990000, 544596850000, 61754360000, 757107190000, 192879500000, 1209281270000, 619928660000, 381176340000, 36557270000, 614061150000, 61855530000, 5018436000000, 3160295020000, 10084021390000, 3862950870000, 878388340000, 713723500000, 303615200000, 541875350000, 2195992230000, 5121552080000, 1917503930000, 1147000220000, 2025938000000, 2048017670000, 2860693890000, 2090926940000, 1294167430000, 918487660000, 15964314300000, 2452317240000, 2732426700000, 924092600000, 1143517660000, 2878470950000, 569665220000, 1539849280000, 10805378840000, 554070530000, 1410897450000, 563624430000, 2143238520000, 103225970000, 610913590000, 461503630000, 1603926370000, 2263002740000, 1259444460000, 96229680000, 1460521690000, 19633229970000, 1332137020000, 519945320000, 2734843310000, 497016820000, 14624960050000, 4549004030000, 610153880000, 1053983550000, 3252932580000, 2142737930000, 9479189690000, 66401810000, 23491730330000, 3323056420000, 1305828820000, 240020690000, 1921479070000, 120443970000, 991115790000, 2211771900000, 373950000000, 564130830000, 1602678530000, 9651880000, 1331783980000, 1291659840000]
def pareto_1 : List ℕ := [2324247720000, 487923460000, 2336307090000, 749595100000, 909911890000, 641076630000, 2627819870000, 252127870000, 11144935290000, 3927957050000, 2646437700000, 1367944740000, 4207980000, 3161845530000, 358278560000, 1055481780000, 429609070000, 3424274290000, 1073436980000, 465180410000, 1004283380000, 11394247180000, 1561841320000, 4959965470000, 30307153050000, 769665560000, 11321485760000, 406157590000, 5416500340000, 659734860000, 3333387870000, 699255530000, 4066686260000, 1683963620000, 1805918140000, 1060663060000, 1695740400000, 1001481050000, 4686380920000, 358020990000, 1487011390000, 1848598940000, 1274382970000, 2332078120000, 2746511340000, 13057805620000, 709733800000, 1033588970000, 873877870000, 1365791870000, 331799320000, 4281137860000, 67894610000, 307280430000, 858684030000, 2916462780000, 97623090000, 2706168760000, 4135661860000, 10376281330000, 3111786210000, 2164972080000, 1384186690000, 1366506920000, 1763415860000, 20620307680000, 1728263270000, 316963240000, 5564035140000, 1142780790000, 762933170000, 322341210000, 405634360000, 1694470000, 1618867390000, 3848265110000, 2059178320000, 2853906920000, 3451642240000, 2076391230000, 470787670000, 257217350000, 1309552160000, 427368400000, 112538480000, 2247240470000, 2759530680000, 3248643040000, 19190300100000, 1186355390000, 158484550000, 11433754620000, 620175980000, 3095757200000, 1342199530000, 431232790000, 204268080000, 1768289240000, 211786040000, 5846522140000]
def pareto_2 : List ℕ := [1460879320000, 475079110000, 773746420000, 21426686000000, 1548196160000, 4622080490000, 3043357460000, 890371420000, 2259620630000, 3151007860000, 3076787830000, 9828736620000, 665161150000, 807615170000, 80699210000, 1148642950000, 2962063660000, 920507840000, 92729410000, 200329320000, 4523602390000, 4731306000000, 165026700000, 674867450000, 4330421940000, 6161344450000, 3707647680000, 2918161900000, 28208840000, 3694928360000, 2146021800000, 1577405930000, 1989090480000, 556706670000, 2852534260000, 1737049400000, 1187813180000, 1014562390000, 38183120000, 2451465610000, 3411809730000, 7501389250000, 1838568190000, 1512558580000, 14483448350000, 2679588810000, 895189280000, 174636330000, 1544475610000, 617553230000, 2686643630000, 826880490000, 55894740000, 8231271290000, 1571329050000, 622580950000, 2384251550000, 3711319140000, 2719663780000, 973017750000, 844012670000, 47383350000, 12016975050000, 3160303980000, 647340570000, 377599140000, 163734780000, 2355135690000, 6386291410000, 557744720000, 7163479930000, 5988958260000, 1187799770000, 2593841790000, 7263407220000, 2854453120000, 1095937890000, 63600770000, 24748541290000, 781587140000, 8167825860000, 2605171690000, 994912880000, 423639420000, 690349280000, 116967840000, 4701860640000, 2741096750000, 4235189410000, 1471232080000, 186962580000, 3671191780000, 126612500000, 34853642050000, 1721119510000, 475626040000, 2081383510000, 5883750760000, 430291060000, 3300268630000]
def pareto_3 : List ℕ := [6357499320000, 439300340000, 29039060000, 4387289950000, 4512214720000, 43855420000, 11685961010000, 3217216940000, 3572120480000, 1080028570000, 84248230000, 4880493080000, 1437342560000, 2887645900000, 77033120000, 207441380000, 758786220000, 465207690000, 524677910000, 2327935580000, 210733170000, 367583650000, 6238414020000, 165177360000, 3219582530000, 27573292480000, 723520950000, 3003379830000, 1466650980000, 4347963060000, 1304316710000, 4770700810000, 1024974490000, 5793746910000, 2573077610000, 668787330000, 2325148430000, 5172098780000, 376141710000, 588602410000, 3562606790000, 160939210000, 128032450000, 1094806320000, 1526387180000, 927903470000, 1855062100000, 2131554640000, 45083233220000, 783841070000, 21996470000, 1265064920000, 1308975650000, 259153940000, 549784420000, 64571220000, 5407622300000, 1930888180000, 1386688160000, 627735790000, 1499801770000, 5175580050000, 280945700000, 3770630790000, 10202659700000, 1448562900000, 16403731730000, 803166960000, 4214032700000, 1266785260000, 2302467530000, 490958880000, 877136180000, 261278540000, 610253420000, 312021560000, 60113450000, 1104822690000, 3092928040000, 96116020000, 31207750000, 4101136960000, 900488940000, 820285250000, 5243597000000, 352818170000, 314891090000, 709184010000, 1791982690000, 5312402520000, 12717777430000, 3664628810000, 474501790000, 2635487420000, 2408211790000, 534790920000, 11476637460000, 1023506720000, 82115230000, 136393970000]
def pareto_4 : List ℕ := [3741095900000, 477053580000, 874065120000, 3530910810000, 4449543060000, 1017198070000, 3706829500000, 2351320190000, 2722424810000, 327931990000, 23354581110000, 936461040000, 63522620000, 2101630450000, 1875015070000, 3542592000000, 1377784830000, 550788880000, 520881710000, 107154750000, 1707586600000, 2409042570000, 28612374000000, 16548180740000, 2388137600000, 414382650000, 3354815720000, 1181452740000, 2711574740000, 3035236200000, 810103500000, 133666270000, 1293262650000, 5608678760000, 869527880000, 144302970000, 1408462190000, 8900578800000, 7329776420000, 1418020090000, 1167050270000, 3080491950000, 4325841950000, 437898920000, 2080992070000, 888070920000, 1544543060000, 301173000000, 96587610000, 3582004020000, 2646359200000, 468500990000, 792566830000, 1174910460000, 1542443300000, 1837173560000, 4088977390000, 122446030000, 1889345860000, 3309808730000, 1618929330000, 2109345250000, 111816190000, 4025291640000, 3755120330000, 50028740000, 617952590000, 612263490000, 3180105900000, 1351344890000, 245001530000, 2885515530000, 660837990000, 1490852070000, 1882433670000, 545504500000, 7508488400000, 1607703080000, 478376010000, 803454370000, 767097840000, 2319354270000, 2547928900000, 7376233240000, 363825470000, 983611830000, 954820750000, 2229522900000, 566910750000, 1430603310000, 8124065240000, 176344260000, 431144230000, 1790395050000, 1215162390000, 286451180000, 5838531720000, 5587286400000, 5055709250000, 896908310000]
def pareto_5 : List ℕ := [912429400000, 864920290000, 331305820000, 62052470000, 387769690000, 3165222890000, 385240550000, 4154817940000, 2282861390000, 680364690000, 1616374560000, 822825490000, 782365400000, 476518920000, 9016345150000, 3831809880000, 228431980000, 350679140000, 15360786690000, 1133123630000, 396301390000, 2028416400000, 1667984260000, 6158479600000, 884787420000, 95007710000, 4991248700000, 210149930000, 1526257450000, 3550764900000, 189788600000, 1661883900000, 16020459450000, 494547940000, 556061330000, 3603409500000, 1709589080000, 1399224100000, 350663920000, 3219125190000, 2327975910000, 1062194350000, 101677060000, 621663110000, 1430153740000, 1147879550000, 2095955990000, 878343630000, 2391870630000, 545470970000, 3218949640000, 4389686460000, 2718050470000, 2130805460000, 765450770000, 1778687030000, 325240080000, 11539745140000, 652902200000, 1148004670000, 13594830830000, 1454444810000, 1862824620000, 5327930380000, 6552200430000, 2576147250000, 750574120000, 1248022490000, 1051107500000, 1597054620000, 790138450000, 811390940000, 5470157270000, 493764860000, 4128437270000, 6948588370000, 3764897840000, 1682014640000, 1775885480000, 2127732190000, 2581765690000, 1968451220000, 1227175380000, 14233174670000, 355455300000, 2316708510000, 910098160000, 4855238880000, 1734293210000, 7041617930000, 41299440000, 8747390000, 4604451030000, 131524730000, 732963840000, 92863640000, 253361550000, 6545953000000, 320952810000, 620295710000]
def pareto_6 : List ℕ := [311806490000, 676854570000, 2686387470000, 678790480000, 38840690000, 318003600000, 261035850000, 3458886090000, 425695790000, 19469410000, 532368570000, 1022959880000, 9963855600000, 756613080000, 246838700000, 1755478840000, 265043250000, 80338760000, 360906120000, 1476819530000, 9611481870000, 5909729340000, 1134564850000, 5925643020000, 3504449660000, 1677029310000, 2277565400000, 1267399540000, 442658620000, 1321191840000, 5314494120000, 1328051150000, 631142600000, 103630290000, 886621750000, 5383872260000, 463410120000, 1794224790000, 1938481770000, 8321469900000, 443230030000, 46345630000, 1338523620000, 57610350000, 695586040000, 2742409920000, 412191280000, 5893259920000, 1198665670000, 285106920000, 4634380300000, 2659104070000, 16130880000, 537906010000, 751617520000, 293916780000, 139281580000, 2866723950000, 8858255160000, 118793710000, 38128605500000, 797621370000, 2772908480000, 610332760000, 285903690000, 295459090000, 2590740680000, 612120490000, 640113970000, 5243890870000, 11795932830000, 1706413960000, 390117590000, 1750256690000, 800324080000, 804303680000, 7970499660000, 2744506410000, 2584492770000, 4171352230000, 448934390000, 6049002600000, 2320272580000, 452551280000, 1839163780000, 1217599070000, 133901790000, 1377679880000, 4397459410000, 2743832770000, 784224770000, 2810603950000, 2378880830000, 161645480000, 1895673890000, 8890879060000, 3542758370000, 2180738900000, 124816950000, 65637680000]
def pareto_7 : List ℕ := [5257943280000, 2248936550000, 1314164720000, 143728960000, 2426805110000, 1306479710000, 5525605950000, 630352380000, 517525140000, 996217700000, 14545181670000, 799550920000, 2778839020000, 1547445290000, 619439210000, 1088926540000, 173356230000, 2537999730000, 2272600110000, 566521580000, 6574969460000, 1252972400000, 3098401810000, 4933395660000, 420766110000, 795632830000, 9330535530000, 1970004990000, 6856055190000, 7325210320000, 423437600000, 2884763910000, 3252529690000, 202085180000, 2294823090000, 584159750000, 3248731870000, 398752520000, 15576622110000, 13736105070000, 9446853360000, 753556630000, 2675401720000, 2802668640000, 2247705330000, 1521311470000, 1711080890000, 374720870000, 347549990000, 2484695120000, 3473141750000, 2792819900000, 2920260770000, 10604912480000, 5727024240000, 2066217720000, 1335134530000, 2191221410000, 1456552000000, 8758837930000, 6295673720000, 2235181560000, 40496990000, 2361843150000, 12075292990000, 820961930000, 91809710000, 2592497430000, 3226212980000, 1697327810000, 575824640000, 231177880000, 564714950000, 711003950000, 335051960000, 974071880000, 2434061840000, 316348100000, 3522965780000, 152192140000, 428799550000, 979768510000, 362756550000, 39336808080000, 1455164300000, 909450920000, 1498053230000, 4506420090000, 894325300000, 3858434420000, 371284730000, 144042420000, 7136812780000, 2223683850000, 162710900000, 751437440000, 3446500510000, 460639260000, 493333460000, 913542620000]
def pareto_8 : List ℕ := [374935030000, 248146150000, 15806350000, 500558850000, 888514340000, 456989880000, 2006934210000, 6068604550000, 12615529340000, 662141060000, 1679937750000, 3766916220000, 2387677930000, 4240887780000, 1927614820000, 300795820000, 1335461990000, 5409242730000, 221893060000, 863115180000, 1177746950000, 3579238260000, 32923360000, 1001601380000, 885333560000, 1773535400000, 2847824010000, 1038920360000, 1012469890000, 842065950000, 62216610000, 3038586960000, 486133250000, 1901927450000, 760382290000, 2256942260000, 427765670000, 3417726100000, 999442490000, 1858892340000, 2588188680000, 24205620000, 5610403070000, 6295298980000, 658647550000, 381504890000, 1940008170000, 492958330000, 986357630000, 807423980000, 9618728100000, 1909680290000, 355577910000, 1341124410000, 4566417810000, 4630389930000, 3591379530000, 1717544320000, 1236406320000, 83010920000, 396862680000, 322683150000, 672315510000, 250792380000, 6746218220000, 853699400000, 2306114370000, 13544729110000, 333230120000, 5512788750000, 2252744430000, 773468290000, 3627586020000, 2255575690000, 331365370000, 3024830110000, 3732839290000, 4153195700000, 263147640000, 1166121000000, 4440190660000, 3524211490000, 6700914030000, 1265097100000, 1147793860000, 217970570000, 541696020000, 5079716700000, 5010209450000, 176610910000, 805027930000, 2225566670000, 7234855910000, 5502853980000, 1307349300000, 3032477810000, 9236134310000, 161115920000, 549288550000, 933150640000]
def pareto_9 : List ℕ := [800073910000, 1424556110000, 6264650160000, 3663797570000, 15388616500000, 4662354060000, 2096789380000, 3637044350000, 80085280000, 590587870000, 13385346270000, 1049466740000, 814766440000, 2472304380000, 527792200000, 187607630000, 9641866810000, 3176498170000, 1458215340000, 176884530000, 865859200000, 144956020000, 3813033250000, 508234300000, 5203491380000, 16069813360000, 12410076600000, 1947511530000, 19182596670000, 1527302680000, 3270676690000, 777536440000, 698400640000, 1000886680000, 1696738440000, 1808123080000, 2599690380000, 4608479280000, 5149282060000, 6586436940000, 1375430550000, 115993550000, 9617601700000, 7418043050000, 2199005810000, 590304030000, 1861915930000, 10996870130000, 917113490000, 114921460000, 1446998510000, 1573331350000, 331852090000, 629201780000, 2684129770000, 2644705360000, 957170610000, 1319184940000, 1850386810000, 4039987920000, 103297550000, 389035140000, 1686367260000, 155590540000, 263297800000, 73330620900000, 1775645120000, 485404940000, 6341096960000, 778612460000, 14817709360000, 3477331310000, 8769043370000, 977516690000, 93208600000, 2787118580000, 36052640000, 1559722700000, 15732843980000, 25043660000, 841255270000, 2023105760000, 8087694100000, 634769650000, 13586380000, 4143257840000, 561076700000, 1900256900000, 2550074990000, 8211409620000, 625222960000, 1467409450000, 1552330340000, 235578180000, 1082912680000, 8196163480000, 2278389740000, 1682826190000, 970628000000, 4876678100000]
def pareto : List ℕ := pareto_0 ++ pareto_1 ++ pareto_2 ++ pareto_3 ++ pareto_4 ++ pareto_5 ++ pareto_6 ++ pareto_7 ++ pareto_8 ++ pareto_9

def lognormal_0 : List ℕ := [418477815290000, 145505029180000, 522752365730000, 149156291470000, 7910671180000, 674244219520000, 42041507500000, 176655011920000, 121654779790000, 16459542660000, 159340598150000, 283789713190000, 136600866310000, 95770404690000, 44962757740000, 90978744070000, 153583053060000, 133975343330000, 640804358840000, 993605752950000, 9506734030000, 14838329400000, 24846841570000, 253908520480000, 32192532870000, 907787820130000, 529017337910000, 17107239300000, 15774255920000, 28256454610000, 80501366000000, 349127855430000, 18746287260000, 21933664730000, 21911152850000, 9931001920000, 72035341400000, 114449550590000, 66801016980000, 19499568190000, 88251180280000, 2450193820000, 168788054960000, 1788940270000, 37318115760000, 439934490440000, 28354954440000, 42276300640000, 64163699250000, 294490403530000, 13185896680000, 127828364200000, 111626463730000, 153674583870000, 43359309390000, 641068775140000, 211311676540000, 2131343980000, 3686091220000, 2109731670000, 60576167550000, 111074809500000, 460526951190000, 7871260410000, 410063865870000, 2221099650000, 68778014560000, 71338502260000, 2713247770000, 115599976380000, 500430960270000, 100359254150000, 445534961930000, 6300773030000, 180872206310000, 107820720620000, 42416194990000, 5760244490000, 255074218740000, 1905085180000, 279769357980000, 140241037790000, 32280944420000, 450284069940000, 156233890470000, 193993036710000, 179644693550000, 728592614360000, 283223656630000, 158996147280000, 322782262180000, 156262327270000, 31909548200000, 23624214200000, 26765297920000, 20026609270000, 12358171500000, 466362722620000, 82797037130000, 12097820360000]
def lognormal_1 : List ℕ := [342437307080000, 124123733330000, 246230495090000, 84238221070000, 98672098870000, 827882727730000, 200968613260000, 30060667490000, 200775987030000, 219688952870000, 38313626560000, 145171764500000, 63711917760000, 160742887330000, 48827074280000, 87414624800000, 93953095140000, 290513729480000, 16000740670000, 32205340600000, 44550506000000, 433403264160000, 112899569030000, 54746985230000, 452753296400000, 35749445630000, 562169399000000, 495464834100000, 241267787950000, 7875602730000, 635751088760000, 179654493370000, 186203996160000, 3518213570770000, 304690364790000, 57198465850000, 56638146030000, 966122753050000, 340653200480000, 143571383950000, 66675139000000, 495794364780000, 52033097010000, 26145063560000, 466542793320000, 108024108510000, 40531491810000, 15405166140000, 37845854820000, 400672535500000, 494301473410000, 194236155090000, 61760909200000, 137081037890000, 231527981360000, 103715364440000, 780745261030000, 154801698000000, 131599989800000, 57054265800000, 137787429280000, 23977702010000, 900547742460000, 140483190550000, 43000750270000, 171814620870000, 99676217590000, 387224777540000, 120697460890000, 28927117670000, 2588840810000, 8346103360000, 35580584970000, 184578514780000, 41297068650000, 70326719450000, 21246954510000, 151698124310000, 9959362140000, 94284930180000, 81668947060000, 67702937830000, 304186321370000, 4069119650000, 48421327510000, 66812097230000, 140115476340000, 71026901760000, 67299417150000, 20762133130000, 192171011920000, 120131728070000, 57482038270000, 1885474579970000, 120377328780000, 63979688530000, 1077999798280000, 188103918380000, 119412349700000, 116679400250000]
def lognormal_2 : List ℕ := [160254988590000, 11009430410000, 4007166221320000, 375234372000000, 513320147250000, 382180851410000, 264156244210000, 28661639080000, 133384664730000, 44359125420000, 313940138770000, 814659139710000, 2435768540000, 55825936940000, 34129047440000, 195185574840000, 28233021910000, 1320314357600000, 275567106850000, 119593619200000, 693466313180000, 124183192770000, 50483859990000, 206217155230000, 11603543010000, 194954252420000, 44899586830000, 361009861400000, 67960865770000, 24902700430000, 761523089410000, 130512180650000, 149193348340000, 115197076130000, 1132566331840000, 4514693920000, 18569776580000, 26045101380000, 117178075060000, 3199503700000, 617892895880000, 284823947090000, 171166532320000, 21044869240000, 45994121530000, 389677067120000, 283898693760000, 38491622880000, 19671541960000, 66611379040000, 62460182830000, 114236633800000, 344529929120000, 150902292660000, 4055001900000, 26127257700000, 13302557380000, 167647475230000, 899944120000, 145904621770000, 104407391380000, 578052311030000, 36374457950000, 240363908960000, 149635259650000, 157396326060000, 77698666470000, 56839347250000, 131298787900000, 192730829730000, 93649826240000, 52642901610000, 9280324240000, 22800417050000, 131245834710000, 360392584530000, 121975130390000, 1625405911710000, 24601734750000, 32177684350000, 336970608450000, 312750225810000, 1338375120090000, 30471529180000, 248868476560000, 364643950870000, 790682339460000, 61452539160000, 87180365500000, 268178838970000, 298453590560000, 256945110310000, 120550724560000, 312858872220000, 51281579370000, 495685914430000, 43477153510000, 14778042190000, 106805822390000, 64914195030000]
def lognormal_3 : List ℕ := [1358398168690000, 26343799870000, 4882877530000, 80288658120000, 566385978390000, 125299178450000, 103337064850000, 212127888720000, 213840031920000, 23829022860000, 26064224220000, 5377652294270000, 144154014410000, 73968209580000, 2100813322980000, 208919975890000, 7305600960000, 154442667170000, 47670486670000, 8866487730000, 35047266560000, 258816152970000, 86783722150000, 13422262450000, 115667345000000, 277155091980000, 936596546660000, 13581377200000, 93525528360000, 143186473260000, 41345278310000, 221355168920000, 28239746930000, 204068552920000, 411940911210000, 53820703700000, 15156158760000, 120920748730000, 137696998880000, 59454213080000, 9755178990000, 350366796530000, 104410834470000, 266298155950000, 62622877430000, 255148739710000, 751689813860000, 99650951910000, 59849484790000, 392733683660000, 583778643060000, 1037265371350000, 114716951690000, 171388935540000, 114068085980000, 110212784480000, 289371588210000, 7109049870000, 77340493800000, 70196786020000, 24221282890000, 74264880690000, 127298357650000, 54080859470000, 15349367280000, 266679967270000, 153796345390000, 56495961430000, 35586714000000, 88588571860000, 845359193350000, 170720634900000, 80081741090000, 45393030140000, 338225510810000, 1322080283710000, 125885676030000, 593736027380000, 8242962150000, 69348747480000, 22187092710000, 100010643590000, 21177399420000, 138750438000000, 53321223180000, 137377896200000, 755037310000, 3953360020000, 59782207700000, 2210592670000, 407836636690000, 127573366320000, 18239977100000, 213923532270000, 37023043620000, 53449715210000, 211404290800000, 118805812700000, 878997884610000, 106828796740000]
def lognormal_4 : List ℕ := [500539736970000, 122775508450000, 100900019890000, 605505378930000, 122519716950000, 292690191250000, 76503414920000, 57469048730000, 6232776650000, 93483769040000, 7531669612850000, 810075908690000, 461550555800000, 305956622210000, 33263842900000, 140248608490000, 145629542020000, 984977513600000, 9013058690000, 52610805820000, 24573065840000, 19836189500000, 72277961900000, 933774535250000, 8924169320000, 212658076950000, 443710283940000, 123808383470000, 201278089560000, 21393642210000, 374157585340000, 58960679980000, 198826802560000, 39829509990000, 198632201140000, 126520866010000, 3675277120000, 91879601710000, 190487590000, 71796227690000, 75275320820000, 19282647980000, 88659700460000, 141728641730000, 69840246100000, 196562099110000, 600877929490000, 91482457200000, 1548062920000, 22459480350000, 234432811580000, 678693242780000, 38093474190000, 485626320940000, 116270794380000, 62462502100000, 83515824940000, 128570527230000, 211419944750000, 111750814240000, 27760163850000, 33891944820000, 86764488960000, 516573735400000, 57034472120000, 481731717890000, 101641939640000, 26943638310000, 75818936520000, 341850081640000, 352555991920000, 841585946730000, 140363796860000, 20955013910000, 34926911960000, 524652048420000, 321506625330000, 104890566070000, 83092729940000, 71819963660000, 199985520000, 26629341490000, 146550524780000, 298674354100000, 121381993090000, 317771066400000, 14957245040000, 24987775870000, 40704007660000, 159377004050000, 90057732580000, 569888897650000, 479879906340000, 451411750490000, 300870707180000, 107231506510000, 11384842710000, 190481801990000, 728277088320000, 555719895780000]
def lognormal_5 : List ℕ := [329449045510000, 185077962140000, 84569970170000, 373805274210000, 2064272080000, 81459161310000, 122920997770000, 589735781330000, 391067520130000, 231028326240000, 43779690420000, 47262436680000, 367787515840000, 177691185260000, 1452200760830000, 369596426970000, 17232559470000, 19766652090000, 48591896330000, 98009532230000, 195137179020000, 206554096100000, 880572071180000, 9546061390000, 29016888130000, 117905094570000, 1016191141100000, 419779384280000, 35189047100000, 230950069120000, 418179606890000, 17111505110000, 78595679790000, 471157291010000, 240461890460000, 52699726530000, 32105567420000, 88880822170000, 836107890080000, 71019243500000, 875681775550000, 272257035880000, 768903467610000, 51640024430000, 7468176670000, 41741644300000, 42001651460000, 23953459920000, 283443786160000, 43937213540000, 49859554640000, 13853677140000, 3185961792590000, 464945085290000, 1008798447260000, 4276337713260000, 406884537350000, 1636320197830000, 322309232480000, 24414535490000, 489792598880000, 66589186860000, 167356723220000, 6157245170000, 1354793154970000, 110209619780000, 37634486850000, 5126753520000, 223098864400000, 21213198090000, 485212288440000, 21772842620000, 101958461660000, 80214878210000, 174121779660000, 221967606630000, 21332340330000, 38495351160000, 1112802881440000, 133835757970000, 240213126790000, 95206252180000, 136723050950000, 219537538620000, 89654978660000, 42465642730000, 198017645660000, 116000931990000, 7845639500000, 24444219900000, 75409145090000, 97403506840000, 65285915870000, 96464908220000, 327563304760000, 7162618030000, 545601463520000, 5594137990000, 284509339390000, 60808160610000]
def lognormal_6 : List ℕ := [46107469450000, 40794048120000, 117350902390000, 35405150320000, 170789851770000, 28632763230000, 70266543760000, 311828713900000, 362695869160000, 4178881240000, 14387341170000, 928152215520000, 7408985040000, 251467942680000, 31821673200000, 42745119340000, 90255329430000, 680123371560000, 143847898120000, 13447030130000, 7615686550000, 830893223570000, 39311428720000, 787019938900000, 16949199780000, 131857986450000, 117560131320000, 91231284160000, 5033723980000, 64830453990000, 197993138560000, 613998209270000, 99446871720000, 17404949100000, 184047704390000, 9492797100000, 874535020510000, 190220735100000, 25727557240000, 385990151430000, 39368360070000, 148559253260000, 219247213950000, 39615254560000, 444906298640000, 192941067610000, 56089147140000, 74143385820000, 84351521350000, 62499672200000, 191931325080000, 26979566800000, 336427980770000, 375650939300000, 69664600260000, 32033593950000, 29924122410000, 689647015570000, 14316009280000, 54616403350000, 236060753300000, 169790009470000, 66634131300000, 43779197250000, 239735344400000, 83269472070000, 31175089510000, 1010207042310000, 91106324400000, 200322105240000, 6868580500000, 36987160750000, 169737189730000, 23976963000000, 774211439410000, 1746325705270000, 78346153680000, 26408959190000, 7389296230000, 61256054090000, 1055404684930000, 430868986790000, 67755237460000, 38910160580000, 20365049880000, 138423486780000, 197806049840000, 1565751630000, 29062307640000, 312708443420000, 133673651790000, 137076534330000, 118032454740000, 227086460730000, 122358834750000, 54727837740000, 1736637890000, 90585516620000, 42668943520000, 108940887200000]
def lognormal_7 : List ℕ := [106028570370000, 339748694260000, 1249362293840000, 60493737920000, 144590725410000, 6019252810000, 98250358510000, 919557525810000, 26894056430000, 6935924480000, 363453935810000, 1887241170000, 119551193150000, 216011997510000, 4550699370000, 276431856710000, 1088029353300000, 87509545560000, 28739606210000, 42990700060000, 156709725750000, 78787853230000, 451053391020000, 155596526490000, 791347833880000, 6162820540000, 54500878460000, 1079556610000, 31332660680000, 236875133250000, 344321029840000, 182539711010000, 116297358400000, 165157000280000, 245882018680000, 92111812550000, 36556452380000, 7817572780000, 7079982620000, 26921896400000, 83721960140000, 43977816680000, 3589825820000, 1359896682470000, 9184935220000, 52895900420000, 194019065800000, 102741376260000, 10953130440000, 16368388430000, 15591707320000, 2370312072780000, 16324092400000, 326408516000000, 688820654200000, 13383294840000, 60050473440000, 162320092640000, 56437367630000, 2497660922880000, 3540450150190000, 34445066820000, 34054516650000, 56483022220000, 60832214370000, 152290158470000, 72991145800000, 941998031630000, 2753355490000, 57836847130000, 26779768970000, 26838306680000, 5576257210000, 903316550250000, 17329516210000, 52384194720000, 48298861040000, 84752889110000, 115337372660000, 448491243570000, 211103173580000, 3155901060000, 76930201600000, 67742896150000, 17147210720000, 787866576150000, 148910863770000, 352442519150000, 254291798360000, 195653137070000, 10011225370000, 63337841530000, 32543639970000, 165251045880000, 95331370070000, 136667864120000, 201149793480000, 210462888830000, 340790614340000, 174335954030000]
def lognormal_8 : List ℕ := [1445754203070000, 6619541910000, 75251780750000, 4848198381030000, 812686313770000, 157473379440000, 9787861240000, 108851722460000, 6131014590000, 40733964930000, 185928101760000, 169476767390000, 271497748940000, 56201555230000, 5597027470000, 175382652420000, 41937983490000, 215684712640000, 8586894660000, 141173452410000, 84256658960000, 100809647720000, 96632268810000, 28322649550000, 204739838800000, 12323474230000, 550177215650000, 379901783270000, 15174661150000, 97236953420000, 189307105380000, 1090529338930000, 1268643440000, 164344685780000, 53208591980000, 508297372410000, 191042151200000, 81555412100000, 66051393550000, 84649912820000, 113465441890000, 60662886250000, 80798953350000, 1405238206610000, 669894427950000, 6047417030000, 79201809270000, 62228428910000, 18262867130000, 27815937360000, 60253889510000, 20064616410000, 104682339260000, 129866593480000, 148333045020000, 113091513930000, 173129556800000, 2125275260000, 37585993190000, 78920385860000, 362576921940000, 63426577210000, 6020338280000, 23030810840000, 73773980490000, 134244273560000, 939127106010000, 62491698740000, 33739914160000, 182569336900000, 146911331610000, 53044126150000, 110595839180000, 336140454770000, 15583734270000, 203762780670000, 62034281850000, 37011591140000, 27891698150000, 24043537020000, 62382346190000, 5007141430000, 10234768550000, 9329225300000, 280388115140000, 547680234000000, 42945582240000, 63612888150000, 721415896640000, 50290901560000, 126049728580000, 174021164620000, 86284375780000, 91726853870000, 846254903930000, 36312911640000, 209882592540000, 182157950000, 94954038230000, 405300989310000]
def lognormal_9 : List ℕ := [101514168260000, 171877276360000, 18664202880000, 181046379610000, 23838196090000, 14103678020000, 30473373610000, 122518004270000, 119818156710000, 389827706040000, 39239695440000, 1361920190940000, 355754491050000, 7602171420000, 32625573040000, 50014094930000, 649951091870000, 88642448750000, 192779208710000, 118467880170000, 578952395730000, 350370075920000, 184709354460000, 182931086350000, 345438762910000, 51493355560000, 357346166670000, 19221874020000, 2023338187630000, 14067614840000, 10425549020000, 22484507180000, 39161815180000, 127766136860000, 595016363500000, 327429387900000, 85359880720000, 419532497820000, 183775127560000, 324858705250000, 108210073860000, 227275468480000, 463935252720000, 71193557420000, 82798260700000, 160289951850000, 22136135480000, 178595944590000, 216648552440000, 4083396410000, 189081547940000, 31479918720000, 736116557220000, 358736737800000, 37316074380000, 38346447470000, 76075486270000, 629795606740000, 74758688270000, 63086928670000, 79082406210000, 11367016960000, 169581049590000, 237282215880000, 98709037210000, 167979035570000, 9414029910000, 40159167960000, 15141979410000, 771175025500000, 737470902530000, 168118638510000, 39824162220000, 365965688790000, 75055358190000, 88715412140000, 182481610930000, 7962064460000, 99968375940000, 3921831090000, 67950353530000, 19784182870000, 227107281870000, 248462788010000, 64134907010000, 215306732670000, 11216419400000, 92046429050000, 27764140680000, 1853523051290000, 142650844290000, 561576556090000, 431145574660000, 44181226630000, 111115238620000, 8970902110000, 61335498750000, 302701704990000, 213947981700000, 46966890990000]
def lognormal : List ℕ := lognormal_0 ++ lognormal_1 ++ lognormal_2 ++ lognormal_3 ++ lognormal_4 ++ lognormal_5 ++ lognormal_6 ++ lognormal_7 ++ lognormal_8 ++ lognormal_9

def pk_0 : List ℕ := [2690885050000, 124539410000, 2580314550000, 264701880000, 238766290000, 1689053780000, 1250537900000, 332001880000, 2847589580000, 242978550000, 345009800000, 321016620000, 120891220000, 716403500000, 542582400000, 206645270000, 58194900000, 2031914080000, 2075999290000, 5225407130000, 326712270000, 714349370000, 1057446300000, 594552420000, 991650610000, 209064780000, 818346910000, 1008863300000, 369567060000, 440513340000, 1299486070000, 1079822640000, 699607710000, 1637827660000, 9281510000, 2799284850000, 1010832950000, 298199830000, 1390342730000, 259104890000, 1345597630000, 39827300000, 895123050000, 255797950000, 319435810000, 489813710000, 420492760000, 289187030000, 986036510000, 488191020000, 1642157520000, 3039292590000, 1347478880000, 1201141520000, 2383229880000, 2236162400000, 281191740000, 489822540000, 494293760000, 276653370000, 1826749210000, 531257840000, 1551902250000, 144094690000, 272303520000, 2286138160000, 177547430000, 302243180000, 2001565100000, 313385940000, 1419159790000, 635368180000, 3487326470000, 575153100000, 400669600000, 194235830000, 878926060000, 187753840000, 867748850000, 946724350000, 544954670000, 2850140650000, 176504850000, 1181747720000, 160576810000, 192156070000, 1003431050000, 1166398420000, 3637300160000, 286030250000, 2448342560000, 689043500000, 32456410000, 3341364420000, 196180060000, 477141460000, 2430849650000, 1973204960000, 3297838310000, 1675278830000]
def pk_1 : List ℕ := [50711080000, 259358790000, 1184007780000, 1119457380000, 336655880000, 3202888600000, 2168154060000, 121192120000, 248195330000, 3382300410000, 70201740000, 1402707310000, 1597572080000, 755922240000, 1130118730000, 72279600000, 21470300000, 1866187910000, 480558410000, 364883230000, 552683980000, 2509169310000, 888663710000, 3303657840000, 587220210000, 823768180000, 203503030000, 1722212520000, 1145693850000, 328628420000, 1920214200000, 392455170000, 795795520000, 182607090000, 152497710000, 552163770000, 2333119550000, 642714730000, 575768140000, 108710370000, 1054380450000, 1337297910000, 1488830260000, 71535020000, 2004571980000, 286101790000, 2496831220000, 1033684420000, 83036430000, 233107700000, 129896460000, 74811050000, 617078080000, 601062740000, 1109148820000, 1535880200000, 1054036420000, 262708050000, 413025940000, 1253169880000, 1404765720000, 1663894260000, 575715710000, 1553643390000, 489582790000, 946972900000, 1719791320000, 475577830000, 929922350000, 575026540000, 3686854510000, 524538330000, 427807830000, 474703570000, 81967980000, 1016049280000, 469196380000, 183293500000, 1071567260000, 1123996930000, 365334770000, 844300630000, 2856805590000, 943341290000, 322678350000, 588719340000, 4203025220000, 483425710000, 854598660000, 96255080000, 640269170000, 1237921460000, 532469910000, 1028551470000, 436734620000, 165674250000, 24051500000, 89807720000, 494224860000, 1660119080000]
def pk_2 : List ℕ := [558638070000, 313901880000, 734700520000, 383838420000, 276069760000, 1407181080000, 542609990000, 3257037810000, 214565110000, 1516275140000, 1630905240000, 251968240000, 1327287310000, 89984160000, 228680450000, 451791070000, 523418510000, 23067720000, 692789410000, 700599480000, 638140400000, 2203974660000, 48291020000, 1993359290000, 160740180000, 1821553030000, 968670230000, 3396758600000, 493690040000, 1272733800000, 623894510000, 10600770000, 736761060000, 417581210000, 737507390000, 739750240000, 653650210000, 1559872000000, 113128220000, 3588069290000, 948984920000, 572027500000, 1159828340000, 2850716880000, 297028270000, 766263380000, 521313550000, 6220740000, 151284050000, 578935820000, 94399030000, 461757290000, 439042660000, 1909345360000, 1218708770000, 22356800000, 1461312280000, 1848608230000, 554040910000, 405120120000, 864831730000, 3132226430000, 714838510000, 1856059910000, 322661310000, 1961643860000, 1632692190000, 208568140000, 1071108840000, 285591900000, 298696150000, 307978690000, 549614520000, 8652250000, 3543222380000, 830636570000, 1173218570000, 228385300000, 4572918320000, 374245920000, 937515220000, 2845326330000, 428731240000, 490199500000, 1750266480000, 1932402470000, 91930160000, 636353200000, 172045810000, 1048665540000, 477516110000, 60918190000, 873437680000, 302435650000, 6011479840000, 179834930000, 3441589650000, 1181714090000, 992899320000, 655653470000]
def pk_3 : List ℕ := [833833150000, 367771830000, 278643320000, 174295220000, 204517250000, 1003606820000, 109123570000, 588109800000, 199793810000, 1127951820000, 1488678530000, 268442300000, 479015390000, 106199130000, 274994990000, 834683160000, 300915150000, 482702650000, 2205767840000, 138844580000, 1136703590000, 183179220000, 24825790000, 738062600000, 78260370000, 99800650000, 3487616570000, 309561650000, 345352880000, 5178234980000, 3767593790000, 313231830000, 484230390000, 103357780000, 3391311600000, 1022825420000, 1826273190000, 1867681260000, 1490489790000, 547415290000, 420378750000, 1226865510000, 3919371970000, 855010390000, 2361086250000]
def pk : List ℕ := pk_0 ++ pk_1 ++ pk_2 ++ pk_3

def result_exponential : Result := ⟨dec (3751564461088876) 17, dec (1011892451567912) 15, dec (-10493151003802286) 13, exponential⟩

#guard fitOk result_exponential
#guard probabilityOk result_exponential
#guard quantileOk result_exponential

def result_uniform : Result := ⟨dec (-10028079367141787) 16, dec (4842808145949553) 18, dec (5333129812310831) 12, uniform⟩

#guard fitOk result_uniform
#guard probabilityOk result_uniform
#guard quantileOk result_uniform

def result_pareto : Result := ⟨dec (37316031781433656) 17, dec (18230581269892394) 16, dec (-19737069737108138) 13, pareto⟩

#guard fitOk result_pareto
#guard probabilityOk result_pareto
#guard quantileOk result_pareto

def result_lognormal : Result := ⟨dec (5217631368875775) 16, dec (1223742602701495) 13, dec (-632884683392013) 11, lognormal⟩

#guard fitOk result_lognormal
#guard probabilityOk result_lognormal
#guard quantileOk result_lognormal

/-- rows of `params` (peaks_test.c): gamma in tenths, sigma in hundredths, mantissa and number of decimals of the expected value -/
def params : List (ℕ × ℕ × ℤ × ℕ) := [
  (0, 50, -459321227182037, 12), (0, 65, -38865451277519406, 14), (0, 80, -35955110259360896, 14), (0, 95, -3499127631600941, 13),
  (0, 110, -3503624686121367, 13), (0, 125, -3563673269934896, 13), (0, 140, -36553185180403926, 14), (0, 155, -3765066622922867, 13),
  (0, 170, -3884952773444541, 13), (0, 185, -4010112088578111, 13), (0, 200, -4137500284119857, 13), (1, 50, -41314369980017716, 14),
  (1, 65, -3696190715295991, 13), (1, 80, -35325322271154624, 14), (1, 95, -3502378858844184, 13), (1, 110, -3543485581711525, 13),
  (1, 125, -3624446544104392, 13), (1, 140, -3728134429796908, 13), (1, 155, -38446726459376754, 14), (1, 170, -39681297144837924, 14),
  (1, 185, -4094838159539396, 13), (1, 200, -42224854873252036, 14), (2, 50, -3932369467897064, 13), (2, 65, -3631298124102949, 13),
  (2, 80, -3535294048764377, 13), (2, 95, -35418915757502043, 14), (2, 110, -36037686352843264, 14), (2, 125, -3696607050357058, 13),
  (2, 140, -38069580934382856, 14), (2, 155, -3926984733087475, 13), (2, 170, -4051945249512819, 13), (2, 185, -4178894484928384, 13),
  (2, 200, -43059726380374957, 14), (3, 50, -38418908666475113, 14), (3, 65, -36225109993986547, 14), (3, 80, -3568765847581439, 13),
  (3, 95, -35985748449500375, 14), (3, 110, -36735160500660027, 14), (3, 125, -377364151948431, 12), (3, 140, -3887833913811189, 13),
  (3, 155, -40095787993395055, 14), (3, 170, -4134920948090361, 13), (3, 185, -42614004220770886, 14), (3, 200, -4387465582009827, 13),
  (4, 50, -38078498835421465, 14), (4, 65, -36435902362914004, 14), (4, 80, -3618598433127441, 13), (4, 95, -36641452636283526, 14),
  (4, 110, -37477757858986354, 14), (4, 125, -38525288953431, 11), (4, 140, -3968906432606534, 13), (4, 155, -4091324989927333, 13),
  (4, 170, -4216389252323942, 13), (4, 185, -43419879348376134, 14), (4, 200, -4466792472774315, 13), (5, 50, -38066889688337494, 14),
  (5, 65, -3682039831085471, 13), (5, 80, -3677693663615324, 13), (5, 95, -3734397620992652, 13), (5, 110, -3823996627280118, 13),
  (5, 125, -39317088724484614, 14), (5, 140, -4049229877468974, 13), (5, 155, -4171668503708578, 13), (5, 170, -4296048682836566, 13),
  (5, 185, -44205216330476276, 14), (5, 200, -4543927423331012, 13), (6, 50, -3826031286237045, 13), (6, 65, -3731099851835514, 13),
  (6, 80, -37421379802278767, 14), (6, 95, -3806991327445567, 13), (6, 110, -3900760202062547, 13), (6, 125, -40103270318407687, 14),
  (6, 140, -4128305353306658, 13), (6, 155, -425033946268393, 12), (6, 170, -4373778997254094, 13), (6, 185, -44969797630523624, 14),
  (6, 200, -4618913510398413, 13), (7, 50, -3858722854280594, 13), (7, 65, -37868000122313975, 14), (7, 80, -3809616006419556, 13),
  (7, 95, -38805445342530584, 14), (7, 110, -3977241140140418, 13), (7, 125, -4087902791282709, 13), (7, 140, -4205871773393998, 13),
  (7, 155, -43272190717640274, 14), (7, 170, -44495546027441424, 14), (7, 185, -4571397940138694, 13), (7, 200, -46918262959466716, 14),
  (8, 50, -3900345603116509, 13), (8, 65, -38466709752088497, 14), (8, 80, -3878689804290147, 13), (8, 95, -3954209475132627, 13),
  (8, 110, -4052947409149715, 13), (8, 125, -41641663356292344, 14), (8, 140, -4281801522470472, 13), (8, 155, -44022720689263895, 14),
  (8, 170, -45234005953302017, 14), (8, 185, -464384059738076, 12), (8, 200, -476275548824264, 12), (9, 50, -3948035399133563, 13),
  (9, 65, -39091115702034, 11), (9, 80, -3948435477816544, 13), (9, 95, -4027453692448699, 13), (9, 110, -412758421863874, 12),
  (9, 125, -4238972020696713, 13), (9, 140, -43560445556751154, 14), (9, 155, -44755103834780823, 14), (9, 170, -4595369148702616, 13),
  (9, 185, -47143857969106324, 14), (9, 200, -48317953936000924, 14), (10, 50, -39998657284746105, 14), (10, 65, -3973050896430853, 13),
  (10, 80, -4018245402225786, 13), (10, 95, -4099939176060436, 13), (10, 110, -4200977981671999, 13), (10, 125, -43122496271619997, 14),
  (10, 140, -44285968281583274, 14), (10, 155, -45469726511800206, 14), (10, 170, -46655263235756723, 14), (10, 185, -47831169086001637, 14),
  (10, 200, -4899039878738363, 13)]

-- peaks_test.c:232-247 `test_peaks_log_likelihood`
#guard passes (mkTail pk) fun st => params.all fun r =>
  passes (log_likelihood M st.2 st.1.peaks (dec r.1 1) (dec r.2.1 2)) fun v => within (1 / 10 ^ 6) (dec r.2.2.1 r.2.2.2) v

end Verif.Tests
