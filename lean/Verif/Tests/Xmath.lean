/-
test/src/xmath_test.c on the model. The inputs such as `1. - 1. / 3.` are computed in double arithmetic, as in C.
-/
import Verif.Tests.Common

namespace Verif.Tests
open Verif F64

/-- the argument of a row: `1. / k`, `1. + 1. / k`, `1. - 1. / k`, `k` or `-k` -/
def arg (kind k : ℕ) : F64 :=
  let x : F64 := lit (k : ℚ)
  match kind with
  | 0 => lit 1 /. x
  | 1 => lit 1 +. lit 1 /. x
  | 2 => lit 1 -. lit 1 /. x
  | 3 => x
  | _ => -. x


def logTable0 : List (ℕ × ℕ × ℤ × ℕ) := [
  (0, 2, -69314718055994528622676398299518041312694549560546875, 53), (1, 2, 4054651081081643848591511414269916713237762451171875, 52),
  (2, 2, -69314718055994528622676398299518041312694549560546875, 53), (0, 3, -10986122886681097821082175869378261268138885498046875, 52),
  (1, 3, 28768207245178084585646161031036172062158584594726562, 53), (2, 3, -40546510810816427383684867891133762896060943603515625, 53),
  (0, 5, -16094379124341002817999424223671667277812957763671875, 52), (1, 5, 18232155679395459224600983816344523802399635314941406, 53),
  (2, 5, -22314355131420970934641445637680590152740478515625, 50), (0, 7, -19459101490553134539140955894254148006439208984375, 49),
  (1, 7, 13353139262452257129965005333360750228166580200195312, 53), (2, 7, -15415067982725821904566032571892719715833663940429688, 53),
  (0, 20, -2995732273553990854253470388357527554035186767578125, 51), (1, 20, 4879016416943204870193540045875124633312225341796875, 53),
  (2, 20, -5129329438755057812837634401148534379899501800537109, 53), (0, 30, -3401197381662155461157226454815827310085296630859375, 51),
  (1, 30, 3278982282299097023026135389045521151274442672729492, 53), (2, 30, -3390155167568133925959372731995244976133108139038086, 53),
  (0, 50, -3912023005428145960848951290245167911052703857421875, 51), (1, 50, 1980262729617972977669282386159466113895177841186523, 53),
  (2, 50, -2020270731751946588494739387442677980288863182067871, 53), (0, 70, -424849524204935935500770938233472406864166259765625, 50),
  (1, 70, 1418463499195638140293329598762284149415791034698486, 53), (2, 70, -1438873745209955611057406343888942501507699489593506, 53)]

def logTable1 : List (ℕ × ℕ × ℤ × ℕ) := [
  (0, 200, -529831736654803631125787433120422065258026123046875, 50), (1, 200, 498754151103896793684189248097027302719652652740479, 53),
  (2, 200, -501254182354428628326514782997946895193308591842651, 53), (0, 300, -570378247465620091816163039766252040863037109375, 47),
  (1, 300, 332779009267474565683664344817316305125132203102112, 53), (2, 300, -333890126551459861040105359109020355390384793281555, 53),
  (0, 500, -62146080984221914178533552330918610095977783203125, 49), (1, 500, 199800266267305794490316550593433930771425366401672, 53),
  (2, 500, -200200267067307926052710520536948024528101086616516, 53), (0, 700, -655108033504340436792290347511880099773406982421875, 50),
  (1, 700, 142755199118532369838285855934145729406736791133881, 53), (2, 700, -142959280959443352232440815896552521735429763793945, 53),
  (0, 2000, -76009024595420822123514881241135299205780029296875, 49), (1, 2000, 49987504165099286984608184525313845369964838027954, 53),
  (2, 2000, -50012504168224286224542218803890136769041419029236, 53), (0, 3000, -80063675676502459310768244904465973377227783203125, 49),
  (1, 3000, 33327779012033448974294813638152845669537782669067, 53), (2, 3000, -33338890123761844236707774236094792286166921257973, 53),
  (0, 5000, -85171931914162382071253887261264026165008544921875, 49), (1, 5000, 1999800026662447135009093024393678206251934170723, 52),
  (2, 5000, -20002000266704469846716640812900322998757474124432, 53), (0, 7000, -88536654280374502690165172680281102657318115234375, 49),
  (1, 7000, 142846939747302809726667294221158499567536637187, 51), (2, 7000, -14286734791066533719651465705879900269792415201664, 53)]

def logTable2 : List (ℕ × ℕ × ℤ × ℕ) := [
  (0, 20000, -990348755253612722526668221689760684967041015625, 47), (1, 20000, 4999875004177061290928235637309740013733971863985, 53),
  (2, 20000, -5000125004166271994610754036969524349842686206102, 53), (0, 30000, -103089526606442927203488579834811389446258544921875, 49),
  (1, 30000, 3333277779011947962060566363895475205936236307025, 53), (2, 30000, -333338889012312075492937279985738996401778422296, 52),
  (0, 50000, -1081977828441028322004058281891047954559326171875, 47), (1, 50000, 199998000025756081615528614303656240736017934978, 52),
  (2, 50000, -2000020000268670926813104060659753713480313308537, 53), (0, 70000, -1115625052103149528193171136081218719482421875, 44),
  (1, 70000, 1428561224589991270517326527045298689699848182499, 53), (2, 70000, -1428581632753258733785437645247284876859339419752, 53),
  (0, 200000, -12206072645530174014538715709932148456573486328125, 48), (1, 200000, 499998750007442239041803577759282006809371523559, 53),
  (2, 200000, -500001250007442329226876528980305636196135310456, 53), (0, 300000, -1261153775363833773326405207626521587371826171875, 47),
  (1, 300000, 333332777781196089989228931171894032559066545218, 53), (2, 300000, -333333888892307189419470132840661591444586520083, 53),
  (0, 500000, -131223633774043282329557769116945564746856689453125, 49), (1, 500000, 199999800006017773354297963062098375530695193447, 53),
  (2, 500000, -200000199994915554149526280836024483278379193507, 53), (0, 700000, -13458835614025542071203744853846728801727294921875, 48),
  (1, 700000, 142857040807843417650846527117147743979330698494, 53), (2, 700000, -142857244900578298812856680582994428618803794961, 53)]

def logTable3 : List (ℕ × ℕ × ℤ × ℕ) := [
  (0, 2000000, -145086577385242190274539098027162253856658935546875, 49), (1, 2000000, 49999987506993056406265525659637916078281705268, 53),
  (2, 2000000, -5000001249589083214406237329341387010117614409, 52), (0, 3000000, -14914122846632384522536085569299757480621337890625, 48),
  (1, 3000000, 33333327782438276682110893205102097880399014684, 53), (2, 3000000, -33333338893549388099929778848939943003415464773, 53),
  (0, 5000000, -154249484703983750222278104047290980815887451171875, 49), (1, 5000000, 19999997989473151074793066256374274303198035341, 53),
  (2, 5000000, -20000002000575379949151772797366621858827784308, 53), (0, 7000000, -157614207070195870841189389466308057308197021484375, 49),
  (1, 7000000, 14285713257786850402503804266518550036835222272, 53), (2, 7000000, -1428571530970540864022061324639656376689345052, 52),
  (0, 20000000, -1681124283151826404036910389550030231475830078125, 47), (1, 20000000, 4999999866817110478411586866470672774198646948, 53),
  (2, 20000000, -500000012791934030804760357054317143621346986, 52), (0, 30000000, -17216707939626427759094440261833369731903076171875, 48),
  (1, 30000000, 3333333287125489138646178429413458044194840113, 53), (2, 30000000, -333333338713437077419641033082520209518406773, 52),
  (0, 50000000, -1772753356339242003514300449751317501068115234375, 47), (1, 50000000, 1999999990049518544283405866324870858719009448, 53),
  (2, 50000000, -2000000018947288641654936496364070031006576755, 53), (0, 70000000, -18064005800013632097034133039414882659912109375, 45),
  (1, 70000000, 1428571428717640219212204661823270579468214692, 53), (2, 70000000, -1428571438023573319049740697585584858764207183, 53)]

def logTable4 : List (ℕ × ℕ × ℤ × ℕ) := [
  (0, 200000000, -19113827924512310829641137388534843921661376953125, 48), (1, 200000000, 499999995711264493460945733112159305999711023, 53),
  (2, 200000000, -499999998211264535616904549080070918609663977, 53), (0, 300000000, -1951929303262047454836647375486791133880615234375, 47),
  (1, 300000000, 333333338153440914697426874905607230292758913, 53), (2, 300000000, -333333339264552099689893852204301827324428587, 53),
  (0, 500000000, -20030118656386466824415037990547716617584228515625, 48), (1, 500000000, 199999994143613718831718215420984591235153971, 53),
  (2, 500000000, -200000005645843983408765605954554578360671258, 53), (0, 700000000, -20366590893007678886306166532449424266815185546875, 48),
  (1, 700000000, 142857148231023473477398030335875148133517598, 53), (2, 700000000, -142857148435105101975205369417695408507107402, 53),
  (0, 2000000000, -21416413017506357618913170881569385528564453125, 45), (1, 2000000000, 50000004124518548089377656618243275787882851, 53),
  (2, 2000000000, -50000004149518551819659694990033091399617149, 53), (0, 3000000000, -21821878125614521337638507247902452945709228515625, 48),
  (1, 3000000000, 33333336085790143010741016624980722488080787, 53), (2, 3000000000, -33333336096901256928617217780536855636919213, 53),
  (0, 5000000000, -22332703749380510060973392683081328868865966796875, 48), (1, 5000000000, 20000001652807418752806718129755953958226478, 53),
  (2, 5000000000, -20000001656807421210808222513554592916773522, 53), (0, 7000000000, -2266917598600172567557820002548396587371826171875, 47),
  (1, 7000000000, 14285705950501824352671845887115297316083407, 53), (2, 7000000000, -14285717054772885441649251546451749803057218, 53)]

def logTable5 : List (ℕ × ℕ × ℤ × ℕ) := [
  (0, 20000000000, -2371899811050040085547152557410299777984619140625, 47), (1, 20000000000, 5000000413576855080198033957683328640242415, 53),
  (2, 20000000000, -5000000413826854910705701203144308078507585, 53), (0, 30000000000, -241244632186085681269105407409369945526123046875, 46),
  (1, 30000000000, 3333333609079014479077318999062327919968851, 53), (2, 30000000000, -3333333609190125514858504441489429892531149, 53),
  (0, 50000000000, -2463528884237455685024542617611587047576904296875, 47), (1, 50000000000, 2000000165460741998815436581387591568823026, 53),
  (2, 50000000000, -2000000165500741997546057482943463118676974, 53), (0, 70000000000, -24971761078995768912136554718017578125, 36),
  (1, 70000000000, 1428568374695969878487037947766198110743918, 53), (2, 70000000000, -1428568374716377975162369677432166147068582, 53),
  (0, 200000000000, -26021583203494447644743559067137539386749267578125, 48), (1, 200000000000, 500000041368935519779694028525663068544815, 53),
  (2, 200000000000, -500000041371435479310679487557100603330185, 53), (0, 300000000000, -2642704831160261136346889543347060680389404296875, 47),
  (1, 300000000000, 333333360912901439671123843137555848312528, 53), (2, 300000000000, -333333360914012559722458500917619932937472, 53),
  (0, 500000000000, -26937873935368603639517459669150412082672119140625, 48), (1, 500000000000, 19999557565577568950473710082630794844516, 52),
  (2, 500000000000, -19999557565617570887908891655345279374234, 52), (0, 700000000000, -27274346171989815701408588211052119731903076171875, 48),
  (1, 700000000000, 142863498808663099099368429670016473922826, 53), (2, 700000000000, -142852396578620916383814006455253914958797, 53)]

def logTable6 : List (ℕ × ℕ × ℤ × ℕ) := [
  (3, 2, 69314718055994528622676398299518041312694549560546875, 53), (3, 3, 10986122886681097821082175869378261268138885498046875, 52),
  (3, 5, 16094379124341002817999424223671667277812957763671875, 52), (3, 7, 19459101490553132318694906643941067159175872802734375, 52),
  (3, 20, 2995732273553990854253470388357527554035186767578125, 51), (3, 30, 3401197381662155461157226454815827310085296630859375, 51),
  (3, 50, 3912023005428145960848951290245167911052703857421875, 51), (3, 70, 424849524204935935500770938233472406864166259765625, 50),
  (3, 200, 529831736654803631125787433120422065258026123046875, 50), (3, 300, 570378247465620091816163039766252040863037109375, 47),
  (3, 500, 62146080984221914178533552330918610095977783203125, 49), (3, 700, 655108033504340436792290347511880099773406982421875, 50),
  (3, 2000, 76009024595420822123514881241135299205780029296875, 49), (3, 3000, 80063675676502459310768244904465973377227783203125, 49),
  (3, 5000, 85171931914162382071253887261264026165008544921875, 49), (3, 7000, 88536654280374502690165172680281102657318115234375, 49),
  (3, 20000, 990348755253612722526668221689760684967041015625, 47), (3, 30000, 103089526606442927203488579834811389446258544921875, 49),
  (3, 50000, 1081977828441028322004058281891047954559326171875, 47), (3, 70000, 1115625052103149528193171136081218719482421875, 44),
  (3, 200000, 12206072645530174014538715709932148456573486328125, 48), (3, 300000, 1261153775363833773326405207626521587371826171875, 47),
  (3, 500000, 131223633774043282329557769116945564746856689453125, 49), (3, 700000, 13458835614025542071203744853846728801727294921875, 48)]

def logTable7 : List (ℕ × ℕ × ℤ × ℕ) := [
  (3, 2000000, 145086577385242190274539098027162253856658935546875, 49), (3, 3000000, 14914122846632384522536085569299757480621337890625, 48),
  (3, 5000000, 154249484703983750222278104047290980815887451171875, 49), (3, 7000000, 157614207070195870841189389466308057308197021484375, 49),
  (3, 20000000, 1681124283151826404036910389550030231475830078125, 47), (3, 30000000, 17216707939626427759094440261833369731903076171875, 48),
  (3, 50000000, 1772753356339242003514300449751317501068115234375, 47), (3, 70000000, 18064005800013632097034133039414882659912109375, 45),
  (3, 200000000, 19113827924512310829641137388534843921661376953125, 48), (3, 300000000, 1951929303262047454836647375486791133880615234375, 47),
  (3, 500000000, 20030118656386466824415037990547716617584228515625, 48), (3, 700000000, 20366590893007678886306166532449424266815185546875, 48),
  (3, 2000000000, 21416413017506357618913170881569385528564453125, 45), (3, 3000000000, 21821878125614521337638507247902452945709228515625, 48),
  (3, 5000000000, 22332703749380510060973392683081328868865966796875, 48), (3, 7000000000, 2266917598600172567557820002548396587371826171875, 47),
  (3, 20000000000, 2371899811050040085547152557410299777984619140625, 47), (3, 30000000000, 241244632186085681269105407409369945526123046875, 46),
  (3, 50000000000, 2463528884237455685024542617611587047576904296875, 47), (3, 70000000000, 24971761078995768912136554718017578125, 36),
  (3, 200000000000, 26021583203494447644743559067137539386749267578125, 48), (3, 300000000000, 2642704831160261136346889543347060680389404296875, 47),
  (3, 500000000000, 26937873935368603639517459669150412082672119140625, 48), (3, 700000000000, 27274346171989815701408588211052119731903076171875, 48)]

/-- xmath_test.c:20-312 `log_table` -/
def logTable : List (ℕ × ℕ × ℤ × ℕ) := logTable0 ++ logTable1 ++ logTable2 ++ logTable3 ++ logTable4 ++ logTable5 ++ logTable6 ++ logTable7

def expTable0 : List (ℕ × ℕ × ℤ × ℕ) := [
  (0, 3, 13956124250860895141812534347991459071636199951171875, 52), (0, 5, 12214027581601698546620582419564016163349151611328125, 52),
  (0, 7, 11535649948951076648739899610518477857112884521484375, 52), (0, 9, 11175190687418636859007392558851279318332672119140625, 52),
  (0, 10, 110517091807564771244187795673497021198272705078125, 50), (0, 30, 10338951135135741044024371149134822189807891845703125, 52),
  (0, 50, 1020201340026755776335676273447461426258087158203125, 51), (0, 70, 10143882427510479971033419133163988590240478515625, 49),
  (0, 90, 10111730687663378347451725858263671398162841796875, 49), (0, 100, 1010050167084167949127504471107386052608489990234375, 51),
  (0, 300, 10033388950668757910733575045014731585979461669921875, 52), (0, 500, 10020020013340003028901037396281026303768157958984375, 52),
  (0, 700, 1001429592322816919391925694071687757968902587890625, 51), (0, 900, 10011117286237489754086027460289187729358673095703125, 52),
  (0, 1000, 100100050016670838459731385228224098682403564453125, 50), (0, 3000, 100033338889506229207881915499456226825714111328125, 50),
  (0, 5000, 1000200020001333456320935511030256748199462890625, 48), (0, 7000, 10001428673474246355823424892150796949863433837890625, 52),
  (0, 9000, 10001111172841792296139828977175056934356689453125, 49), (0, 10000, 1000100005000166714097531439620070159435272216796875, 51),
  (0, 30000, 10000333338888951484335620989440940320491790771484375, 52), (0, 50000, 10000200002000012577951792991370894014835357666015625, 52),
  (0, 70000, 10000142858163270087601404156885109841823577880859375, 52), (0, 90000, 10000111111728398061160305587691254913806915283203125, 52)]

def expTable1 : List (ℕ × ℕ × ℤ × ℕ) := [
  (0, 100000, 1000010000050000069649058787035755813121795654296875, 51), (0, 300000, 1000003333338888911185904362355358898639678955078125, 51),
  (0, 500000, 1000002000002000013267888789414428174495697021484375, 51), (0, 700000, 10000014285724490026296962241758592426776885986328125, 52),
  (0, 900000, 1000001111111728402391918280045501887798309326171875, 51), (0, 1000000, 10000010000004999621836532242014072835445404052734375, 52),
  (0, 3000000, 1000000333333388891077220250735990703105926513671875, 51), (0, 5000000, 1000000200000020100787878618575632572174072265625, 48),
  (0, 7000000, 10000001428571529960009911519591696560382843017578125, 52), (0, 9000000, 1000000111111117195861197615158744156360626220703125, 51),
  (0, 10000000, 10000001000000049433680260335677303373813629150390625, 52), (0, 30000000, 1000000033333333870899650719366036355495452880859375, 51),
  (0, 50000000, 10000000200000001004951855065883137285709381103515625, 52), (0, 70000000, 1000000014285714389217218922567553818225860595703125, 51),
  (0, 90000000, 100000001111111114227014695643447339534759521484375, 50), (3, 1, 2718281828459045090795598298427648842334747314453125, 51),
  (4, 1, 367879441171442334024277442949824035167694091796875, 51), (3, 2, 73890560989306504069418224389664828777313232421875, 49),
  (4, 2, 13533528323661270231781372785917483270168304443359375, 53), (3, 3, 2008553692318766792368478490971028804779052734375, 47),
  (4, 3, 497870683678639444624813847894984064623713493347168, 52), (3, 4, 5459815003314423620395245961844921112060546875, 44),
  (4, 4, 1831563888873417866864912184610147960484027862548828, 53), (3, 5, 148413159102576599934764089994132518768310546875, 45)]

def expTable2 : List (ℕ × ℕ × ℤ × ℕ) := [
  (4, 5, 673794699908546700084510661099557182751595973968506, 53), (3, 6, 40342879349273511024875915609300136566162109375, 44),
  (4, 6, 24787521766663584907308681692938989726826548576355, 52), (3, 7, 109663315842845850056619383394718170166015625, 41),
  (4, 7, 91188196555451624374794006300248838670086115598679, 53), (3, 8, 29809579870417283018468879163265228271484375, 40),
  (4, 8, 33546262790251185322357163620665687631117179989815, 53), (3, 9, 8103083927575384223018772900104522705078125, 39),
  (4, 9, 12340980408667956121429587490467838506447151303291, 53), (3, 10, 22026465794806717894971370697021484375, 33),
  (4, 10, 4539992976248485417314557088808157914172625169158, 53), (3, 11, 598741417151978166657499969005584716796875, 37),
  (4, 11, 1670170079024565926249096259326165636593941599131, 53), (3, 12, 1627547914190039155073463916778564453125, 34),
  (4, 12, 614421235332820980644006822468661255243205232546, 53)]

/-- xmath_test.c:323-382 `exp_table` -/
def expTable : List (ℕ × ℕ × ℤ × ℕ) := expTable0 ++ expTable1 ++ expTable2


/-- xmath_test.c:398-402 `test_xlog`, without the table -/
theorem test_xlog : xlog muslFU nan = nan ∧ xlog muslFU (lit (-1)) = nan ∧ xlog muslFU (lit 0) = inf true ∧
    (xlog muslFU (lit 1) ==. lit 0) = true := by decide +kernel

-- `test_xlog`, the table, `precision = 1e-10`
#guard logTable.all fun r => within (1 / 10 ^ 10) (dec r.2.2.1 r.2.2.2) (xlog muslFU (arg r.1 r.2.1))

/-- xmath_test.c:432-434 `test_xexp`, without the table -/
theorem test_xexp : xexp muslFU nan = .ok nan ∧ xexp muslFU (lit 0) = .ok (lit 1) := by decide +kernel

-- `test_xexp`, the table
#guard expTable.all fun r => passes (xexp muslFU (arg r.1 r.2.1)) fun v => within (1 / 10 ^ 10) (dec r.2.2.1 r.2.2.2) v

-- xmath_test.c:464-475 `test_xpow`
#guard (List.range 20).all fun i => passes (xpow M (lit 1) (lit (i : ℚ))) fun v => equal (lit 1) v
#guard (List.range 20).all fun i => passes (xpow M (lit 2) (lit (i : ℚ))) fun v => equal (lit (2 ^ i)) v

/-- xmath_test.c:477-489 `test_xmin` -/
theorem test_xmin : xmin (lit 1) (lit 2) = (lit 1 : F64) ∧ xmin (lit 2) (lit 1) = (lit 1 : F64) ∧ xmin (lit 1) (lit (-2)) = (lit (-2) : F64) ∧
    xmin (lit (-2)) (lit 1) = (lit (-2) : F64) ∧ xmin (lit 7) (lit 7) = (lit 7 : F64) ∧ xmin (lit 0) (inf false) = lit 0 ∧
    xmin (inf false) (lit 0) = lit 0 ∧ xmin (lit 0) (inf true) = inf true ∧ xmin (inf true) (lit 0) = inf true ∧
    xmin (lit 0) nan = nan ∧ xmin nan (lit 0) = nan := by decide +kernel

/-- xmath_test.c:491-495 `test_is_nan` -/
theorem test_is_nan : is_nan (nan : F64) = true := rfl

end Verif.Tests
