import Verif.Data.Tok

set_option autoImplicit false

/-! Generated by `tools/tables.py` from `Tables/ksi_sokolov.table` in the repository. -/

namespace QED
namespace Shipped

/-- Row 0 of `ksi_sokolov.table`. -/
def ksi0 : List Tok := [
  f 18 4993870735451265, f 19 54807618431451655, f 18 6015122525404382, f 18 6601580403647763,
  f 18 7245214227694759, f 18 7951598317827418, f 18 8726848419113966, f 18 9577677996203557,
  f 18 10511453005150105, f 18 11536259244113375, f 18 12660966064839489, f 18 13895309498685728,
  f 18 15249973916426861, f 17 1673667974767141, f 18 18368290109768145, f 18 20158918254091312,
  f 17 2212404685250333, f 18 24280662743620528, f 18 26647401494315076, f 18 29244703619830874,
  f 18 32094984747066714, f 17 3522283028617815, f 18 38655191141675364, f 16 424216191428221,
  f 17 4655449442625379, f 17 5108929610344031, f 17 5606488075072845, f 18 61523790309919245,
  f 17 6751257301392716, f 17 7408212395191523, f 17 8128806920913345, f 16 891911166164517,
  f 17 9785747939104653, f 17 10735925414380028, f 17 11777481541125312, f 16 1291891995168517,
  f 17 14169441035447414, f 17 15538970458757728, f 16 1703817336651614, f 17 18678451769077345,
  f 17 20471921234234425, f 17 22431350629914673, f 16 2457005909690228, f 17 26901743801203226,
  f 16 2944022604214948, f 16 3219907482977715, f 16 3519108071314575, f 16 3842751600245377,
  f 16 4191712884558258, f 16 4566479159013389, f 16 4966971928848832, f 16 5392315761604375,
  f 16 5840547605871556, f 16 6308263817317651, f 16 6790216311450453, f 16 7278895607642573,
  f 16 7764184598634324, f 16 8233239199861985, f 16 8670843729595753, f 16 9060568803016523,
  f 16 9387026533489665, f 16 9639219369380524, f 16 9814254543281586, f 16 9919697368525332,
  f 16 9972387257635135, f 16 9992973202357519, f 16 9998797369174989, f 16 9999877850360637,
  f 16 9999993621175313, f 15 999999985452856, n 1, n 1, n 1, n 1, n 1, n 1, n 1, n 1, n 1, n 1, n 1, n 1,
  n 1, n 1, n 1, n 1, n 1, n 1, n 1, n 1, n 1, n 1, n 1, n 1, n 1, n 1, n 1, n 1, n 1, n 1]

/-- Row 1 of `ksi_sokolov.table`. -/
def ksi1 : List Tok := [
  f 19 47669001844152245, f 18 5231662379031885, f 18 5741737222076814, f 18 6301541824226618,
  f 18 6915923899211199, f 19 75902041767323325, f 18 8330221910546557, f 18 9142384489654687,
  f 18 10033723857633133, f 17 1101195681289212, f 18 12085553729811533, f 18 13263806898399384,
  f 18 14556914590083896, f 18 15976067739106866, f 17 1753354490391242, f 18 19242819622779402,
  f 18 21118674083475383, f 18 23177327818411662, f 18 25436569104173044, f 18 27915918655677663,
  f 17 3063678162088027, f 17 3362263086131009, f 17 3689921373269764, f 18 40494748565615496,
  f 17 4444017109121008, f 17 4876937542944472, f 16 535194963531699, f 16 587311908060144,
  f 17 6444896081458615, f 17 7072148848913275, f 16 776019854536896, f 17 8514856841065735,
  f 17 9342465038927787, f 17 10249933714392995, f 17 11244781320347529, f 17 12335174041354265,
  f 17 13529961951462768, f 17 14838701241485172, f 17 16271690009623288, f 16 1783996169626047,
  f 16 1955528047816692, f 17 21430100303857702, f 17 23477477852707923, f 16 2571095035399759,
  f 17 28144314965973166, f 14 30791322295854, f 17 33665229944292674, f 16 3677817522977878,
  f 16 4014031500506864, f 17 43758656268764295, f 17 47635491498591365, f 16 5176637826084777,
  f 16 5613752633848221, f 16 6072257658094694, f 16 6547880685368528, f 16 7034292273875926,
  f 16 7522713214352569, f 16 8001654815649332, f 16 8457001075685038, f 16 8872721053719936,
  f 16 9232549454401819, f 16 9522823803009517, f 15 973616765282518, f 15 987479766946797,
  f 16 9951350517950294, f 16 9985459975510402, f 16 9996923887187694, f 16 9999587380360486,
  f 16 9999969609242223, f 16 9999998913144613, n 1, n 1, n 1, n 1, n 1, n 1, n 1, n 1, n 1, n 1, n 1, n 1,
  n 1, n 1, n 1, n 1, n 1, n 1, n 1, n 1, n 1, n 1, n 1, n 1, n 1, n 1, n 1, n 1, n 1, n 1]

/-- Row 2 of `ksi_sokolov.table`. -/
def ksi2 : List Tok := [
  f 18 9803072024904644, f 18 10675734685643761, f 18 11626074782060306, f 18 12661003959015078,
  f 17 1378804747484479, f 18 15015401729842594, f 18 16351990011767216, f 17 1780752910689694,
  f 18 19392595289640692, f 17 2111870795413953, f 17 2299840492249565, f 18 25045333067010504,
  f 18 27274353172763176, f 18 29701635073397327, f 17 3234477677809049, f 18 35222935493017214,
  f 18 38356941755170716, f 17 4176946964375474, f 18 45485172866575586, f 16 495308589996352,
  f 16 539356729392695, f 18 58731284586964735, f 16 639520949925104, f 17 6963545497189243,
  f 17 7582189425926147, f 17 8255535954610099, f 17 8988347423170674, f 17 9785777178029828,
  f 17 10653398190412973, f 17 11597225495897856, f 17 12623744071739568, f 16 1373992362512709,
  f 17 14953247805975314, f 17 16271716177905518, f 17 17703853129983335, f 16 1925869308603603,
  f 17 20945770390474025, f 17 22775053888054758, f 17 24756878751956665, f 17 26901824284711845,
  f 16 2922053972114581, f 16 3172350126919735, f 16 3442067341989894, f 17 37321050298526703,
  f 17 40432054937863626, f 16 4375872555249418, f 17 47302675755734896, f 16 5106078309200714,
  f 16 5502349329321761, f 16 5917280878280733, f 16 6347988321154493, f 15 679023523017478,
  f 16 7238163765852801, f 16 7684070941612439, f 16 8118316986645224, f 16 8529499017952876,
  f 16 8905067103523495, f 16 9232559111836304, f 16 9501535369299197, f 16 9705999670926386,
  f 16 9846621336741593, f 16 9931598787704194, f 16 9975053334135214, f 16 9992974841068922,
  f 16 9998581857975746, f 16 9999813842725792, f 16 9999986151800558, f 16 9999999715542262, n 1, n 1,
  n 1, n 1, n 1, n 1, n 1, n 1, n 1, n 1, n 1, n 1, n 1, n 1, n 1, n 1, n 1, n 1, n 1, n 1, n 1, n 1, n 1,
  n 1, n 1, n 1, n 1, n 1, n 1, n 1, n 1, n 1]

/-- Row 3 of `ksi_sokolov.table`. -/
def ksi3 : List Tok := [
  f 18 9357538396096864, f 18 10190544126523357, f 18 11097696877809166, f 18 12085595334273832,
  f 18 13161424791836934, f 18 14333008315901763, f 18 15608864563688523, f 18 16998270064178936,
  f 17 1851132065714246, f 18 20159015695806262, f 17 2195332299997904, f 18 23907275606536906,
  f 17 2603505888980469, f 16 283521138470197, f 18 30875247123605704, f 17 3362274689613192,
  f 17 3661451533377444, f 18 39872203466226865, f 17 4341936238279348, f 17 4728160553246659,
  f 18 51486778202649595, f 18 56065151529794584, f 18 61049608259118676, f 17 6647586214585385,
  f 16 723826821526565, f 17 7881211872321225, f 17 8580975896801168, f 17 9342497185986305,
  f 16 1017111706571156, f 17 11072606780045349, f 17 12053188350769406, f 17 13119569115146978,
  f 17 14278949655561785, f 17 15539045503395435, f 16 1690809561769116, f 17 18394858207718157,
  f 16 2000860086454015, f 17 21759060276356582, f 17 23656384908657913, f 17 25711038571837597,
  f 16 2793365801522609, f 16 3033484940793314, f 17 32924903877037764, f 16 3571340978141392,
  f 16 3870873477462289, f 16 4191732911864663, f 17 45342819829017256, f 17 48984851324874235,
  f 16 5283760506920776, f 15 568879660089272, f 16 6111330779757104, f 16 6547901848251759,
  f 16 6993564573979456, f 15 744164648276478, f 16 7883562442437702, f 16 8308827983422175,
  f 16 8705408708418175, f 16 9060599121414927, f 16 9362577739760702, f 16 9602613894210159,
  f 16 9777517232974962, f 16 9891402214020434, f 16 9955526572974523, f 16 9985462791650345,
  f 16 9996444689400238, f 16 9999401776596115, f 16 9999938121585362, f 16 9999996648437514, n 1, n 1,
  n 1, n 1, n 1, n 1, n 1, n 1, n 1, n 1, n 1, n 1, n 1, n 1, n 1, n 1, n 1, n 1, n 1, n 1, n 1, n 1, n 1,
  n 1, n 1, n 1, n 1, n 1, n 1, n 1, n 1, n 1]

/-- Row 4 of `ksi_sokolov.table`. -/
def ksi4 : List Tok := [
  f 18 8932255792984229, f 17 972740480182024, f 18 10593332780839414, f 17 1153633889566005,
  f 18 12563279492000413, f 18 13681625439615397, f 18 14899508269963096, f 18 16225782605416416,
  f 18 17670089189364958, f 18 19242925906620318, f 17 2095572039423608, f 18 22820915114881754,
  f 18 24852054139623964, f 16 270638811110027, f 17 2947244371426642, f 18 32095206264733486,
  f 18 34951175088528366, f 17 3806102666570946, f 18 41447260178100874, f 17 4513434069144106,
  f 17 4914887665989985, f 18 53519791575577104, f 18 58278515342714284, f 17 6345919351466195,
  f 17 6909889900379923, f 17 7523786671395774, f 17 8191971877825328, f 17 8919173259149753,
  f 17 9710508202332307, f 17 10571509350691366, f 17 11508151936194955, f 16 1252687644149453,
  f 17 13634607996338674, f 17 14838782817965632, f 17 16147353112229149, f 17 17568794896312487,
  f 17 19112100471418478, f 17 20786757500790945, f 17 22602697710519282, f 17 24570228340734407,
  f 17 26699912266100395, f 17 29002401695453955, f 17 31488201290823253, f 16 3416733743510657,
  f 17 37048917340608584, f 17 40140534210368345, f 16 4344748479162722, f 16 4697174400582305,
  f 16 5071067842815434, f 16 5465540304784994, f 16 5878877784585324, f 16 6308305134568349,
  f 16 6749720030194452, f 16 7197422503112698, f 16 7643883697922457, f 16 8079637551325539,
  f 16 8493424203209555, f 16 8872756942297917, f 16 9205095981207008, f 16 9479721531759987,
  f 16 9690131380577376, f 16 9836323838761123, f 16 9925837787351363, f 16 9972395127832288,
  f 16 9992019565761119, f 16 9998333655731774, f 16 9999771329141279, f 14 99999824839156,
  f 16 9999999332075038, f 16 9999999915330269, n 1, n 1, n 1, n 1, n 1, n 1, n 1, n 1, n 1, n 1, n 1, n 1,
  n 1, n 1, n 1, n 1, n 1, n 1, n 1, n 1, n 1, n 1, n 1, n 1, n 1, n 1, n 1, n 1, n 1, n 1]

/-- Row 5 of `ksi_sokolov.table`. -/
def ksi5 : List Tok := [
  f 18 8526302796240462, f 18 9285316116446963, f 18 10111892543329474, f 18 11012044144308123,
  f 18 11992319725021053, f 18 13059846160813548, f 18 14222388881989453, f 18 15488400045405004,
  f 17 1686708380937226, f 18 18368461403672386, f 17 2000344332084135, f 17 2178390850253118,
  f 18 23722788334225402, f 18 25834160216470448, f 18 28133346010222906, f 18 30637024564007704,
  f 17 3336334143760636, f 18 36332049501996505, f 17 3956463394526113, f 17 4308446668835897,
  f 18 46916967066177435, f 17 5108977207954476, f 18 55632919116018066, f 16 605790506153804,
  f 17 6596361010917297, f 17 7182507999682819, f 17 7820520769969048, f 17 8514924295758051,
  f 16 927062003182853, f 17 10092911590651114, f 17 10987529461827177, f 17 11960656866025858,
  f 17 13018952427694247, f 17 14169573009411165, f 17 15420185669606343, f 16 1677898243822146,
  f 17 18254675212747762, f 17 19856486005375965, f 17 21594110502855995, f 17 23477663952283792,
  f 16 2551758581514966, f 15 277245047796681, f 16 3010904022735952, f 16 3268152673620362,
  f 16 3545163549909983, f 16 3842787041492118, f 16 4161688915938251, f 17 45022622502176624,
  f 15 486451298496277, f 16 5247916005623179, f 16 5651234675601448, f 16 6072303620157047,
  f 16 6507779485868689, f 15 695286931569778, f 16 7401053413065574, f 15 784393646584088,
  f 16 8271194119577648, f 16 8670905841730631, f 16 9030373330866929, f 16 9337611674569894,
  f 16 9583506700065172, f 16 9764272559643339, f 16 9883329469322562, f 16 9951363413087686,
  f 16 9983734396724249, f 16 9995903097681716, f 16 9999283812490121, f 16 9999921865081118,
  f 15 999999520129969, f 16 9999999833483757, n 1, n 1, n 1, n 1, n 1, n 1, n 1, n 1, n 1, n 1, n 1, n 1,
  n 1, n 1, n 1, n 1, n 1, n 1, n 1, n 1, n 1, n 1, n 1, n 1, n 1, n 1, n 1, n 1, n 1, n 1]

/-- Row 6 of `ksi_sokolov.table`. -/
def ksi6 : List Tok := [
  f 17 813880164631979, f 18 8863321834905211, f 18 9652334650732133, f 18 10511580278427057,
  f 17 1144730893595879, f 18 12466325737946007, f 18 13576042243114109, f 18 14784527993875364,
  f 18 16100569299468282, f 18 17533732778795802, f 18 19094434991261646, f 18 20794016749898538,
  f 18 22644824460279777, f 18 24660296978126595, f 18 26855067330968985, f 17 2924505819670271,
  f 17 3184759921388247, f 17 3468155378431172, f 18 37767439816167044, f 17 4112759278368315,
  f 18 44786269337559026, f 17 4876989819729264, f 17 5310717740018856, f 17 5782930162563141,
  f 17 6297016161376474, f 17 6856655437274727, f 17 7465841611501947, f 17 8128905375338281,
  f 17 8850539839357625, f 17 9635826325728192, f 17 10490258575928366, f 17 11419770515918827,
  f 17 12430758571675736, f 17 13530107083197784, f 17 14725198539932452, f 17 16023942982416134,
  f 17 17434766105110516, f 17 18966617100818417, f 17 20628937084700205, f 17 22431621889011433,
  f 16 2438494780365679, f 16 2649946130280943, f 16 2878581455265567, f 16 3125453779342681,
  f 17 33915717777979343, f 16 3677856600734171, f 17 39850845035005267, f 17 43138095451707686,
  f 16 4664264537052528, f 16 5036234182019794, f 16 5428894326717986, f 15 584061557407921,
  f 16 6268729558281689, f 15 670926598224736, f 16 7156680631593396, f 16 7603617630848032,
  f 16 8040786616196222, f 14 84570736757512, f 16 8840065985386122, f 16 9177161329859488,
  f 16 9457380027694892, f 16 9673733434361271, f 16 9825558724567482, f 16 9919723715902516,
  f 16 9969518412608163, f 16 9990959444056213, f 15 999804929641488, f 16 9999721123033599,
  f 16 9999976438105742, f 16 9999998842791241, f 16 9999999989001033, f 16 9999999992476244, n 1, n 1,
  n 1, n 1, n 1, n 1, n 1, n 1, n 1, n 1, n 1, n 1, n 1, n 1, n 1, n 1, n 1, n 1, n 1, n 1, n 1, n 1, n 1,
  n 1, n 1, n 1, n 1, n 1]

/-- Row 7 of `ksi_sokolov.table`. -/
def ksi7 : List Tok := [
  f 18 7768913577037384, f 18 8460507974337507, f 18 9213665058399857, f 16 100338634320916,
  f 18 10927069097510152, f 18 11899780300715502, f 18 12959070911773632, f 17 1411264401004449,
  f 18 15368887865613112, f 18 16736935781404182, f 18 18226731027639165, f 16 198491020302687,
  f 18 21615833670615196, f 17 2353976168940279, f 18 25634848361759673, f 18 27916307033230028,
  f 17 3040068178519244, f 18 33105984755263454, f 17 3605181446437893, f 17 3925949296339814,
  f 16 427522152064152, f 16 465552059452105, f 17 5069589481091792, f 17 5520409403758576,
  f 17 6011219792809356, f 17 6545538822001584, f 17 7127186587895475, f 16 776030645469918,
  f 17 8449391018358882, f 17 9199306332640879, f 16 1001531829097221, f 17 10903117990775099,
  f 17 11868845935786125, f 17 12919117496347154, f 17 14061042274149854, f 17 15302241453574353,
  f 17 16650859393252238, f 17 18115560207587855, f 17 19705521182381838, f 17 21430397899515063,
  f 17 23300267926034743, f 16 2532554901660407, f 16 2751685891020481, f 16 2988482775992502,
  f 16 3243982967603764, f 15 351916152787756, f 17 38148820430068875, f 17 41318302132190954,
  f 16 4470428372759497, f 16 4830723006551232, f 16 5212244082473585, f 16 5613828126924985,
  f 16 6033404271874035, f 16 6467746393341269, f 16 6912201807327717, f 16 7360427505425887,
  f 16 7804192539710748, f 16 8233343553663873, f 16 8636080190806947, f 15 899972383863374,
  f 16 9312144351595798, f 15 956386447972356, f 16 9750519617642217, f 16 9874836278933845,
  f 16 9946908840363247, f 16 9981844245894566, f 16 9995293929979906, f 16 9999146340032337,
  f 16 9999902316677933, f 15 999999369759636, f 16 9999999837923206, n 1, n 1, n 1, n 1, n 1, n 1, n 1,
  n 1, n 1, n 1, n 1, n 1, n 1, n 1, n 1, n 1, n 1, n 1, n 1, n 1, n 1, n 1, n 1, n 1, n 1, n 1, n 1, n 1,
  n 1]

/-- Row 8 of `ksi_sokolov.table`. -/
def ksi8 : List Tok := [
  f 17 741583884119516, f 18 8076003864522383, f 18 8794933985191405, f 18 9577859725841003,
  f 18 10430476344432029, f 18 11358985305828328, f 18 12370140811436567, f 18 13471296300298006,
  f 18 14670459526825748, f 18 15976348605273503, f 17 1739845713654037, f 18 18947121731629275,
  f 17 2063359521040717, f 18 22470129238005555, f 17 2447006048775239, f 18 26647907454073798,
  f 16 290194724295378, f 17 3160195449799363, f 17 3441406780009283, f 18 37476178582904585,
  f 17 4081043986890386, f 17 4444095182032839, f 18 48393918045315926, f 17 5269782585638726,
  f 18 57383638946228215, f 18 62484990365327966, f 17 6803840815962954, f 17 7408353158518435,
  f 17 8066335235143107, f 16 878244598126133, f 17 9561730567822013, f 17 10409644203564115,
  f 17 11332079947596006, f 17 12335390995775387, f 17 13426415293330626, f 17 14612493283049374,
  f 17 15901483055568888, f 17 17301765496634616, f 17 18822241048755942, f 17 20472309157205473,
  f 16 2226182578896262, f 17 24201037699992234, f 16 2630047201335559, f 17 28570780187534145,
  f 16 3102251499006795, f 17 33665818345411236, f 17 36510005330867124, f 15 395629964000125,
  f 16 4283057239492312, f 17 46315401272207474, f 16 5001579826344412, f 16 5392415084608949,
  f 16 5802498487077753, f 16 6229267302320173, f 16 6668880100967107, f 16 7115946622525341,
  f 16 7563283376914757, f 16 8001774684669878, f 16 8420459542456794, f 16 8807006035841791,
  f 16 9148764659982808, f 16 9434516052700815, f 16 9656805513790367, f 16 9814319102413902,
  f 16 9913245724609069, f 16 9966411699843427, f 16 9989785984662424, f 16 9997724084508121,
  f 16 9999660342516884, f 15 999996976651248, f 16 9999998564616769, f 16 9999999554863032,
  f 16 9999999959201183, n 1, n 1, n 1, n 1, n 1, n 1, n 1, n 1, n 1, n 1, n 1, n 1, n 1, n 1, n 1, n 1,
  n 1, n 1, n 1, n 1, n 1, n 1, n 1, n 1, n 1, n 1, n 1]

/-- Row 9 of `ksi_sokolov.table`. -/
def ksi9 : List Tok := [
  f 18 7078814134439788, f 18 7708978143953315, f 18 8395237121481693, f 18 9142584053331225,
  f 18 9956454972193083, f 18 10842770849117686, f 18 11807978430907239, f 18 12859097989220768,
  f 18 14003773514378813, f 18 15250328017168663, f 17 1660782381712671, f 17 1808612961035851,
  f 17 1969598857095356, f 18 21449096476265195, f 17 2335818857706743, f 16 254371244422586,
  f 17 2770099478180523, f 18 30166221042945456, f 17 3285067553495264, f 17 3577380904517663,
  f 17 3895677771369969, f 17 4242260408296273, f 15 46196319329142, f 18 50305146648376216,
  f 18 54778672229637476, f 17 5964904917283301, f 17 6495119764865669, f 17 7072303194074214,
  f 17 7700568559177788, f 16 838437541358785, f 17 9128555343339069, f 17 9938336428361506,
  f 17 10819369901369676, f 17 11777754908274496, f 17 12820062846292551, f 16 1395335716218846,
  f 17 15185212769100936, f 17 16523725624561889, f 17 17977513286724425, f 17 19555707121018356,
  f 17 21267921203342385, f 17 23124198868639095, f 17 25134930677663386, f 17 27310723412435484,
  f 17 29662215578087336, f 16 3219981856432032, f 16 3493335176732718, f 17 37871596037984473,
  f 16 4102158296113081, f 16 4438782266589135, f 17 47971175949431066, f 16 5176747955628881,
  f 16 5576581180905533, f 16 5994638467058317, f 16 6427809700675615, f 16 6871582964886359,
  f 16 7319778723574393, f 16 7764342011407325, f 16 8195288711344644, f 16 8600944466978877,
  f 16 8968662320798055, f 15 928618397075485, f 15 954369056917198, f 15 973625528735075,
  f 16 9865915977928762, f 16 9942151822797051, f 15 997978209723605, f 16 9994611523971285,
  f 16 9998986728777516, f 16 9999878593122854, f 16 9999991917420855, n 1, n 1, n 1, n 1, n 1, n 1, n 1,
  n 1, n 1, n 1, n 1, n 1, n 1, n 1, n 1, n 1, n 1, n 1, n 1, n 1, n 1, n 1, n 1, n 1, n 1, n 1, n 1, n 1,
  n 1]

/-- Row 10 of `ksi_sokolov.table`. -/
def ksi10 : List Tok := [
  f 18 6757109540316882, f 18 7358635706678586, f 18 8013708432762163, f 18 8727093279164565,
  f 18 9503979917782256, f 18 10350020398061455, f 18 11271368193498504, f 18 12274725282317546,
  f 18 13367388215901417, f 17 1455730286173168, f 17 1585312132096585, f 17 1726426359047327,
  f 18 18800986699428247, f 18 20474456285347564, f 18 22296831049941058, f 16 242813440220317,
  f 18 26442404708505392, f 18 28795691166001464, f 18 31358271570416374, f 16 341487189819304,
  f 17 3718724325249155, f 17 4049582813113475, f 18 44098392586758774, f 17 4802093679313788,
  f 17 5229173887685296, f 17 5694152811603615, f 18 62003684636670206, f 17 6751446646800034,
  f 16 735132181187217, f 17 8004261937897796, f 17 8714892293422508, f 17 9488223945876328,
  f 16 1032966737480719, f 17 11245081258323854, f 17 12240773941594231, f 17 13323538423433878,
  f 17 14500668815309967, f 17 15779976431869744, f 17 17169793687549353, f 17 18678975316447902,
  f 16 2031687573647243, f 17 22093313532697756, f 17 24018502276800635, f 17 26102950163331423,
  f 16 2835730469649656, f 16 3079213968610894, f 16 3341765069470372, f 17 36243247215155294,
  f 17 39277005805203924, f 17 42524937293528514, f 16 4599003952625137, f 16 4967108240152086,
  f 16 5356106690363862, f 15 576453246981441, f 16 6189924931408411, f 16 6628570452187846,
  f 16 7075230340284505, f 16 7522891837484645, f 16 7962615522843333, f 15 838359535381043,
  f 16 8773589936727488, f 16 9119916992709001, f 16 9411136612775052, f 15 963934826580543,
  f 16 9802599646129853, f 16 9906394117774309, f 16 9963064392646004, f 16 9988490774664961,
  f 16 9997353696083727, f 16 9999588903347683, f 16 9999961579414611, f 16 9999997995916657,
  f 16 9999999744398237, f 16 9999999966695611, n 1, n 1, n 1, n 1, n 1, n 1, n 1, n 1, n 1, n 1, n 1, n 1,
  n 1, n 1, n 1, n 1, n 1, n 1, n 1, n 1, n 1, n 1, n 1, n 1, n 1, n 1]

/-- Row 11 of `ksi_sokolov.table`. -/
def ksi11 : List Tok := [
  f 18 6450029507725759, f 18 7024219942018197, f 18 7649523942284353, f 18 8330490771686334,
  f 18 9072073705699265, f 18 9879668907954596, f 18 10759149660327151, f 18 11716914370543115,
  f 18 12759928777253146, f 18 13895777388851133, f 18 15132720276671176, f 18 16479750091482073,
  f 18 17946658078802045, f 17 1954410506900621, f 17 2128369905132327, f 17 2317807567896649,
  f 17 2524098815814481, f 18 27487411881500896, f 18 29933641961202465, f 17 3259741625241517,
  f 17 3549803488618804, f 17 3865649206825954, f 18 42095637454019494, f 17 4584031189604116,
  f 17 4991753057958896, f 17 5435665943401795, f 18 59189609973050984, f 17 6445104240724543,
  f 17 7017858627985372, f 17 7641308078857881, f 17 8319878621397571, f 16 905836794435871,
  f 17 9861966785579702, f 17 10736286731807008, f 17 11687385586566885, f 17 12721791431126495,
  f 16 1384651955150643, f 16 1506910144431553, f 17 16397583467382146, f 17 17840537149472155,
  f 17 19407047097755892, f 17 21106686127321092, f 17 22949461404771052, f 17 24945736537718874,
  f 16 2710610528723001, f 17 29441212935717376, f 17 31961505127437984, f 16 3467687762719174,
  f 17 37596213283012747, f 16 4072675045394403, f 15 440732646157733, f 17 47636999909889494,
  f 16 5141431584946042, f 16 5539498586564616, f 16 5956012330065631, f 16 6387976480782366,
  f 16 6831017582474315, f 16 7279117446781818, f 14 77243970628813, f 16 8157042350394639,
  f 16 8565512242078906, f 16 8937201111350646, f 16 9259740014150404, f 15 952298904018272,
  f 16 9721476220066164, f 16 9856558534696203, f 16 9937081060451921, f 15 997753753912937,
  f 16 9993846576363898, f 16 9998801765265255, f 16 9999850012425081, f 16 9999989561978244, n 1, n 1,
  n 1, n 1, n 1, n 1, n 1, n 1, n 1, n 1, n 1, n 1, n 1, n 1, n 1, n 1, n 1, n 1, n 1, n 1, n 1, n 1, n 1,
  n 1, n 1, n 1, n 1, n 1]

/-- Row 12 of `ksi_sokolov.table`. -/
def ksi12 : List Tok := [
  f 18 6156909239664236, f 18 6705006765992674, f 19 73018949549509115, f 18 7951916939912828,
  f 18 8659801274150794, f 18 9430698282342923, f 18 10270215464047267, f 17 1118445951664286,
  f 18 12180080907258431, f 18 13264319914649962, f 18 14445061791362557, f 18 15730890764722175,
  f 18 17131154860892076, f 17 1865603388291645, f 18 20316604013934876, f 18 22124933074515272,
  f 18 24094153307903765, f 18 26238560903279563, f 18 28573716951935696, f 18 31116556355490266,
  f 18 33885514362514045, f 17 3690064126013055, f 18 40183757164126414, f 17 4375859502780298,
  f 18 47650965899063404, f 17 5188892690181324, f 17 5650297925807439, f 18 61526255133184334,
  f 17 6699474122840406, f 17 7294749089814954, f 17 7942687423947745, f 17 8647880743900153,
  f 17 9415301698151116, f 17 10250330234978523, f 17 11158778179112665, f 17 12146910024661803,
  f 17 13221477848231905, f 17 14389728921499687, f 17 15659425890562007, f 17 17038855669217992,
  f 17 18536824567290205, f 17 20162643635724817, f 17 21926091441202558, f 16 2383734934149647,
  f 17 25906904338462844, f 17 28145399713366054, f 16 3056342629560272, f 15 331712296991038,
  f 17 35978312767681236, f 16 3899289526419503, f 16 4222121614458765, f 16 4566659142415311,
  f 16 4932823400982896, f 16 5319974096088791, f 16 5726722899266825, f 16 6150709604108487,
  f 16 6588345792333853, f 16 7034542180436432, f 16 7482455300580739, f 16 7923322212366215,
  f 16 8346495482245783, f 16 8739832113230268, f 16 9090630565744596, f 16 9387249935869902,
  f 16 9621364263062044, f 16 9790395675597001, f 16 9899159312295033, f 16 9959465419918162,
  f 16 9987065202829827, f 16 9996933628541848, f 16 9999504452771886, f 15 999995124940637,
  f 16 9999997456317845, n 1, n 1, n 1, n 1, n 1, n 1, n 1, n 1, n 1, n 1, n 1, n 1, n 1, n 1, n 1, n 1,
  n 1, n 1, n 1, n 1, n 1, n 1, n 1, n 1, n 1, n 1, n 1]

/-- Row 13 of `ksi_sokolov.table`. -/
def ksi13 : List Tok := [
  f 17 587711548465619, f 18 6400306054674228, f 18 6970070403250267, f 18 7590553846035034,
  f 17 826627113349948, f 18 9002137812624501, f 18 9803507931677521, f 18 10676209395922646,
  f 18 11626591585276262, f 18 12661566816403489, f 18 13788660525609146, f 17 1501606940888713,
  f 17 1635271699994509, f 18 17808320572486984, f 17 1939345754870785, f 16 211196472521363,
  f 18 22999427764582747, f 18 25046446935287566, f 17 2727556582590566, f 17 2970295566196334,
  f 17 3234621486901269, f 18 35224501632356235, f 17 3835864754929079, f 17 4177132700937239,
  f 17 4548719610451508, f 17 4953306094480852, f 18 53938071376796834, f 18 58733896493615545,
  f 17 6395493892702944, f 16 696385500470667, f 16 758252650235396, f 17 8255903028324453,
  f 17 8988747059484369, f 17 9786212205318626, f 17 10653871631166947, f 17 11597740968094171,
  f 17 12624305095580238, f 17 13740534403526208, f 17 14953912335514422, f 17 16272439063074434,
  f 17 17704639601759742, f 17 19259548379589267, f 17 20946700693508602, f 16 2277606476361651,
  f 17 24757976872571502, f 17 26903016860781687, f 15 292218340260226, f 17 31724904794652475,
  f 16 3442219399010314, f 16 3732269585003961, f 16 4043383299197384, f 15 437606437636092,
  f 16 4730474025550076, f 16 5106299867929891, f 16 5502586288386881, f 15 591753321177506,
  f 16 6348255418878137, f 16 6790515902909599, f 16 7238455944205605, f 16 7684371198134503,
  f 15 811862039410945, f 16 8529798863089143, f 16 8905354713213269, f 16 9232824082106018,
  f 16 9501766456386722, f 16 9706186920716022, f 16 9846758618164584, f 15 993168683427551,
  f 16 9975100513683697, f 16 9992994692573247, f 16 9998588009611681, f 16 9999815103512442,
  f 16 9999986202765359, f 16 9999999710006151, n 1, n 1, n 1, n 1, n 1, n 1, n 1, n 1, n 1, n 1, n 1, n 1,
  n 1, n 1, n 1, n 1, n 1, n 1, n 1, n 1, n 1, n 1, n 1, n 1, n 1, n 1]

/-- Row 14 of `ksi_sokolov.table`. -/
def ksi14 : List Tok := [
  f 18 5610042171617575, f 18 6109458352777108, f 18 6653331697153371, f 18 7245619625186346,
  f 17 789063224627203, f 18 8593061319299601, f 17 935801678692735, f 18 10191065016403197,
  f 17 1109826425253856, f 18 12086213199881258, f 18 13162097657050892, f 17 1433374100859841,
  f 18 15609662475835201, f 18 16999138566214066, f 18 18512267134297832, f 17 2016004609762116,
  f 17 2195444528872325, f 18 23908497893388822, f 17 2603638975871226, f 18 28353563179834448,
  f 18 30876825607833742, f 17 3362446588699225, f 17 3661638655184179, f 18 39874242060272215,
  f 17 4342158266742106, f 17 4728402362322395, f 17 5148940979280293, f 18 56068017334516655,
  f 17 6105272904105106, f 17 6647926055920673, f 17 7238638529362948, f 17 7881614968877927,
  f 17 8581414573594762, f 17 9342974634079414, f 17 10171636906512603, f 17 11073172745038887,
  f 17 12053804548491213, f 17 13120239618831794, f 15 142796792192613, f 17 15539839496981447,
  f 17 16908959388172748, f 17 18395797610017617, f 17 20009622468571261, f 16 2176017082458912,
  f 17 23657591635820271, f 17 25712349593174416, f 16 2793508121997463, f 16 3033639343168948,
  f 16 3292657754034939, f 17 35715222195075896, f 17 38710695162885184, f 17 41919445635060343,
  f 16 4534510056037167, f 16 4898730350801054, f 15 528402327556239, f 16 5689077137824262,
  f 16 6111628728936224, f 16 6548216310409443, f 16 6993893695350551, f 16 7441987141963163,
  f 16 7883910075311609, f 16 8309176100307986, f 16 8705748487714976, f 15 906091958605636,
  f 16 9362866287407412, f 16 9602857946397505, f 16 9777706877946853, f 16 9891533732656673,
  f 16 9955604792561599, f 16 9985500753822899, f 16 9996458754375331, f 16 9999405481419839,
  f 16 9999938697626947, f 16 9999996745909701, n 1, n 1, n 1, n 1, n 1, n 1, n 1, n 1, n 1, n 1, n 1, n 1,
  n 1, n 1, n 1, n 1, n 1, n 1, n 1, n 1, n 1, n 1, n 1, n 1, n 1, n 1]

/-- Row 15 of `ksi_sokolov.table`. -/
def ksi15 : List Tok := [
  f 18 5355111968818115, f 18 5831834205497774, f 18 6350994023257073, f 19 69163686452384295,
  f 18 7532071822458732, f 18 8202583300613504, f 18 8932780856227354, f 18 9727976702003184,
  f 18 10593955489079642, f 18 11537017092830084, f 18 12564017990859232, f 18 13682429668233437,
  f 18 14900385143105661, f 18 16226736346372537, f 18 17671127961999537, f 18 19244057083628235,
  f 18 20956952557961858, f 18 22822257182592665, f 17 2485351532109542, f 18 27065472353811404,
  f 18 29474176267990055, f 17 3209709333496855, f 16 349532297328942, f 17 3806326432558723,
  f 18 41449696525231707, f 17 4513699484739646, f 18 49151765994033654, f 17 5352293804430817,
  f 17 5828194105448352, f 17 6346292475174775, f 16 691029616743068, f 17 7524228941933042,
  f 15 81924535844455, f 16 891969775202419, f 17 9711078734017257, f 17 10572130754715617,
  f 17 11508828341394707, f 15 125276127176544, f 17 13635409147232733, f 17 14839654849072662,
  f 17 16148301728302622, f 16 1756982693760414, f 17 19113222983915448, f 16 2078797767985742,
  f 17 22604024390925925, f 17 24571669704142649, f 16 2670147746640988, f 16 2900410043476102,
  f 17 31490043594674594, f 16 3416933350839312, f 17 37051077856816494, f 17 40142868854769004,
  f 16 4345000384352797, f 16 4697445561185678, f 16 5071359015726276, f 16 5465851732307486,
  f 16 5879209577105105, f 16 6308656610072403, f 16 6750089662815291, f 16 7197807549609337,
  f 16 7644279932129793, f 16 8080038683060252, f 16 8493821596418722, f 16 8873139250733466,
  f 16 9205449650538067, f 16 9480031795114927, f 16 9690384787197279, f 16 9836511605880811,
  f 16 9925959875226212, f 16 9972461861746253, f 15 999204856988101, f 16 9998342948397203,
  f 15 999977346740888, f 16 9999982901751939, f 16 9999999488582401, n 1, n 1, n 1, n 1, n 1, n 1, n 1,
  n 1, n 1, n 1, n 1, n 1, n 1, n 1, n 1, n 1, n 1, n 1, n 1, n 1, n 1, n 1, n 1, n 1, n 1]

/-- Row 16 of `ksi_sokolov.table`. -/
def ksi16 : List Tok := [
  f 18 5111773257733019, f 19 55668334713822884, f 18 6062403058398664, f 18 6602087677702925,
  f 19 71898144386695435, f 18 7829858676805307, f 18 8526878524713974, f 18 9285943100737338,
  f 18 10112575348344224, f 17 1101278766184542, f 18 11993129530310115, f 18 13060728107818848,
  f 18 14223349300651698, f 17 1548944585812756, f 18 16868222603704137, f 18 18369701541525618,
  f 17 2000479406209397, f 17 2178537953805735, f 17 2372439075229046, f 18 25835904645751386,
  f 18 28135245670409093, f 18 30639092861528973, f 17 3336559433059727, f 18 36334502729625566,
  f 16 395673058949017, f 18 43087376672753024, f 17 4692013517375146, f 17 5109322096130899,
  f 17 5563667560887862, f 17 6058314107752818, f 17 6596806331275575, f 17 7182992950328869,
  f 17 7821048812346579, f 17 8515499209290646, f 17 9271246032914836, f 17 10093593123121751,
  f 17 10988271285902239, f 17 11961464235240203, f 17 13019831375390856, f 17 14170529506420587,
  f 16 1542122639059517, f 16 1678011469682046, f 17 18255906703759955, f 15 198578252706217,
  f 17 21595566438825822, f 15 234792459501793, f 16 2551930434048378, f 17 27726370721777194,
  f 15 301110649119983, f 17 32683721219876677, f 17 35454012239916255, f 15 384304411672571,
  f 17 41619665394397176, f 16 4502561510370145, f 17 48648347926460794, f 16 5248260993303386,
  f 16 5651603097604384, f 16 6072695129727333, f 16 6508192866029846, f 14 69533023562081,
  f 16 7401502090683898, f 16 7844395100115141, f 15 827165419769075, f 16 8671356004266311,
  f 16 9030799376287697, f 16 9337997161258494, f 16 9583834752444742, f 16 9764529598339946,
  f 16 9883509593150382, f 16 9951471944094621, f 16 9983787902058462, f 16 9995923093488887,
  f 16 9999288924156845, f 16 9999922269999398, f 16 9999994907233183, f 15 999999946869622, n 1, n 1, n 1,
  n 1, n 1, n 1, n 1, n 1, n 1, n 1, n 1, n 1, n 1, n 1, n 1, n 1, n 1, n 1, n 1, n 1, n 1, n 1, n 1, n 1]

/-- Row 17 of `ksi_sokolov.table`. -/
def ksi17 : List Tok := [
  f 18 4879500413108391, f 17 531388380317986, f 18 5786935958307997, f 18 6302098947982132,
  f 18 6863120999380492, f 18 7474084097084802, f 18 8139433894137743, f 18 8864010433112291,
  f 18 9653084466897784, f 18 10512396958248618, f 18 11448198274087822, f 17 1246729419812516,
  f 18 13577096971744857, f 18 14785676560430507, f 17 1610182027624886, f 17 1753509500423164,
  f 18 19095918173799117, f 17 2079563224381542, f 18 22646583847899377, f 18 24662212842037023,
  f 18 26857153697670846, f 18 29247329113705183, f 17 3185007320836433, f 17 3468424822087981,
  f 18 37770374671841536, f 18 41130787601591674, f 17 4478974930042732, f 17 4877368712833922,
  f 17 5311130413562299, f 17 5783379455917495, f 16 629750534225956, f 17 6857188061533147,
  f 17 7466421481937624, f 17 8129537285976615, f 16 885122722550491, f 16 963657475385936,
  f 17 10491073240752985, f 16 1142065735197594, f 16 1243172415173848, f 17 13531157765040974,
  f 17 14726341912871777, f 17 16025186816585926, f 17 17436119820964968, f 17 18968089231616395,
  f 16 2063053774194285, f 16 2243336168274209, f 16 2438683821572125, f 15 265015140192778,
  f 16 2878804268800529, f 17 31256954457802466, f 16 3391833618910859, f 17 36781400898277733,
  f 16 3985390862049633, f 17 43141401232218846, f 16 4664620534430485, f 16 5036616465426365,
  f 16 5429303487448993, f 16 5841051605897342, f 16 6269191716767927, f 16 6709752327684216,
  f 16 7157187819321706, f 16 7604140173363557, f 16 8041316488358109, f 16 8457599730079056,
  f 16 8840573725332472, f 16 9177632959165212, f 16 9457796004075059, f 16 9674075576859659,
  f 16 9825814747218931, f 15 991989238508386, f 16 9969612130476261, f 16 9991001016205538,
  f 16 9998063021495343, f 16 9999723880853287, f 16 9999976894906707, f 16 9999998981988264, n 1, n 1,
  n 1, n 1, n 1, n 1, n 1, n 1, n 1, n 1, n 1, n 1, n 1, n 1, n 1, n 1, n 1, n 1, n 1, n 1, n 1, n 1, n 1,
  n 1]

/-- Row 18 of `ksi_sokolov.table`. -/
def ksi18 : List Tok := [
  f 18 4657790629583192, f 18 5072437250600398, f 18 5523995539995275, f 18 6015751777993767,
  f 19 65512836519817635, f 19 71344879029987054, f 18 7769607446146547, f 18 8461263612187955,
  f 18 9214487992957633, f 18 10034759547150964, f 18 10928045115978204, f 18 11900842978017731,
  f 17 1296022831891628, f 18 14113904516020483, f 18 15370260375431176, f 17 1673843065139402,
  f 18 18228359151958796, f 18 19850874572574378, f 18 21617764399395528, f 18 23541863928004364,
  f 17 2563713821000055, f 18 27918800252129457, f 18 30403396884408757, f 17 3310894174236533,
  f 17 3605503494860401, f 17 3926299919384621, f 17 4275603325251351, f 17 4655936444905547,
  f 17 5070042290868183, f 17 5520902508836349, f 17 6011756651742546, f 17 6546123399295216,
  f 17 7127823119866156, f 17 7760999541801013, f 17 8450145442130007, f 17 9200127888648635,
  f 17 10016212722541519, f 17 10904091544555645, f 17 11869905770701643, f 17 12920271033984446,
  f 17 14062297528552328, f 17 15303607501507419, f 17 16652345156956544, f 16 1811717671533062,
  f 17 19707279036526348, f 17 21432308989965504, f 17 23302345036469752, f 17 25327805303255535,
  f 15 275193086238085, f 16 2988748571240326, f 17 32442711741638497, f 16 3519473652568643,
  f 17 38152196831528096, f 16 4132194954392885, f 17 44708215648799143, f 17 48311458774894334,
  f 16 5212697562786788, f 16 5614312554822829, f 16 6033919396450654, f 16 6468290705648494,
  f 16 6912772408025184, f 16 7361019518737724, f 16 7804798398706925, f 16 8233952506537724,
  f 16 8636677641006189, f 16 9000291344932472, f 15 931266018908258, f 16 9564306400123557,
  f 15 975086902149143, f 16 9875084128867788, f 16 9947060932999923, f 16 9981921101597311,
  f 16 9995323925939945, f 16 9999154782243722, f 16 9999903766007491, f 16 9999993929154466,
  f 16 9999999900247144, n 1, n 1, n 1, n 1, n 1, n 1, n 1, n 1, n 1, n 1, n 1, n 1, n 1, n 1, n 1, n 1,
  n 1, n 1, n 1, n 1, n 1, n 1, n 1]

/-- Row 19 of `ksi_sokolov.table`. -/
def ksi19 : List Tok := [
  f 18 9578843392304547, f 18 10350989349368933, f 18 11185372381743408, f 18 12087007631344111,
  f 18 13061313511433513, f 18 14114145388547713, f 18 15251829635436098, f 17 1648120068961735,
  f 17 1780964237725646, f 18 19245134453038656, f 18 20796295150898602, f 18 22472437154884808,
  f 17 2428361723732206, f 17 2624070209580525, f 17 2835542664507287, f 17 3064046655954193,
  f 17 3310950665070862, f 18 35777331202304315, f 17 3865989478282825, f 16 417744273083123,
  f 18 45139520927629566, f 17 4877524256206765, f 18 52703238421108495, f 17 5694685820145748,
  f 17 6153127579330468, f 17 6648362952047994, f 17 7183315031862793, f 17 7761131898712503,
  f 17 8385200943881911, f 17 9059165173730345, f 17 9786938501835335, f 17 10572722546387203,
  f 17 11421021549403616, f 17 12336657529331937, f 17 13324785237212838, f 17 14390902405341133,
  f 17 15540860324925235, f 16 1678086646076834, f 17 18117485786664275, f 17 19557630623944458,
  f 17 21108541140580042, f 17 22777752300296275, f 17 24573041988086033, f 17 26502356464849147,
  f 16 2857370373460813, f 16 3079500951163523, f 16 3317392107561094, f 17 35717552265770874,
  f 16 3843214852868599, f 16 4132264648749979, f 16 4439212828467376, f 17 47641113192071666,
  f 16 5106669762164076, f 15 546614835433192, f 16 5841230576317868, f 16 6229875205430584,
  f 16 6629151498665027, f 16 7035069435258459, f 16 7442425131544291, f 16 7844699733015058,
  f 16 8234068908637601, f 16 8601605088785806, f 16 8937767241512667, f 16 9233266295018627,
  f 16 9480327189760293, f 16 9674216040532856, f 16 9814668298906974, f 16 9906615947297991,
  f 16 9959583385335734, f 16 9985549364456692, f 16 9995937462128223, f 16 9999156567722981,
  f 16 9999880575934057, f 16 9999989825111094, f 16 9999999824154987, n 1, n 1, n 1, n 1, n 1, n 1, n 1,
  n 1, n 1, n 1, n 1, n 1, n 1, n 1, n 1, n 1, n 1, n 1, n 1, n 1, n 1, n 1, n 1, n 1, n 1]

/-- Row 20 of `ksi_sokolov.table`. -/
def ksi20 : List Tok := [
  f 18 9143662864740354, f 18 9880731480302211, f 18 10677210367225912, f 18 11537888361660947,
  f 18 12467935123198494, f 17 1347294296747963, f 18 14558950075001055, f 18 15732481900730858,
  f 17 1700058813860969, f 18 18370884024435496, f 18 19851601167830153, f 18 21451627651573206,
  f 18 23180568268025666, f 17 2504879491330163, f 18 27067516232515895, f 18 29248832929131295,
  f 16 316058171701254, f 17 3415258322233931, f 17 3690437315468644, f 18 39877641093634814,
  f 18 43090149567402015, f 16 465610686554521, f 17 5031108245890488, f 17 5436250588051069,
  f 17 5873940310443875, f 17 6346771718954819, f 16 685754061350345, f 17 7409258649671648,
  f 17 8005167397027353, f 17 8648755272279982, f 17 9343771129095232, f 17 10094242680839079,
  f 17 10904490463202356, f 17 11779144256782577, f 17 12723159313666807, f 17 13741822070632514,
  f 16 1484077497638696, f 16 1602601028247203, f 16 1730387862174239, f 16 1868108676133511,
  f 17 20164680606330507, f 17 21762023100434158, f 16 2348075434420561, f 16 2532872997833727,
  f 16 2731393599614961, f 16 2944436687293762, f 16 3172786407703715, f 17 34171897478141355,
  f 16 3678327664468121, f 16 3956778319864417, f 17 42529686931800004, f 16 4567113475097362,
  f 17 48991393048971277, f 16 5248589868109091, f 16 5614511122859567, f 16 5995315390545424,
  f 16 6388625698290229, f 15 679110774308501, f 16 7198302218462242, f 16 7604485933051366,
  f 16 8002607940682299, f 15 838436389691687, f 15 874050160212808, f 16 9061453706773283,
  f 16 9338364753692067, f 16 9564487263818892, f 16 9736728346669589, f 15 985687878947692,
  f 16 9931871836955751, f 16 9972546777609113, f 16 9991028107641572, f 16 9997747779526691,
  f 16 9999594519181585, f 16 9999951781320499, f 16 9999996228695333, f 16 9999999624957138, n 1, n 1,
  n 1, n 1, n 1, n 1, n 1, n 1, n 1, n 1, n 1, n 1, n 1, n 1, n 1, n 1, n 1, n 1, n 1, n 1, n 1, n 1, n 1,
  n 1]

/-- Row 21 of `ksi_sokolov.table`. -/
def ksi21 : List Tok := [
  f 18 8728277313107692, f 17 943186445285717, f 18 10192163324812042, f 18 11013744438795768,
  f 18 11901546537504634, f 18 12860905031918382, f 18 13897584516297138, f 18 15017815373570031,
  f 17 1622832714741786, f 17 1753639139658446, f 18 18949864485884805, f 18 20477234210734382,
  f 18 22127669038149573, f 18 23911074369700462, f 18 25838149216698098, f 18 27920450644221377,
  f 17 3017045983633791, f 17 3260165638067993, f 17 3522859654420226, f 18 38066995627669666,
  f 18 41133828745603986, f 17 4444738470615256, f 17 4802745249128765, f 16 518953435449211,
  f 17 5607405985959869, f 17 6058840344832233, f 16 654651035406068, f 16 707329690573069,
  f 17 7642301691152759, f 17 8256863207682352, f 16 892057217411103, f 16 963728712812815,
  f 17 10411150755312486, f 17 11246606444942499, f 17 12148411769429128, f 17 13121653060373997,
  f 17 14171760022142862, f 17 15304511640605234, f 17 16526045654323945, f 17 17842855506976182,
  f 17 19261785381517083, f 16 2079001288435518, f 17 22435017237152316, f 16 2420453346900369,
  f 16 2610648176673817, f 17 28148867990610066, f 17 30339648748498216, f 16 3268654512456249,
  f 17 35196802486700324, f 15 378768707052139, f 16 4073198814441183, f 16 4376565965899826,
  f 15 469789774401347, f 16 5036980267815999, f 16 5393172894484891, f 16 5765285444662438,
  f 16 6151434080888537, f 15 654887922021032, f 16 6953859596895419, f 16 7361411337809314,
  f 16 7765293740723237, f 16 8157929657224079, f 16 8530582798112066, f 16 8873776508263249,
  f 16 9178081466639465, f 16 9435301715041784, f 16 9639970717239805, f 16 9790841060264455,
  f 16 9891810016211257, f 16 9951612177432886, f 16 9981971494631076, f 16 9994662901792469,
  f 16 9998816952939616, f 16 9999817891580619, f 15 999998279400516, f 16 9999998612154559,
  f 16 9999999229917447, n 1, n 1, n 1, n 1, n 1, n 1, n 1, n 1, n 1, n 1, n 1, n 1, n 1, n 1, n 1, n 1,
  n 1, n 1, n 1, n 1, n 1, n 1, n 1]

/-- Row 22 of `ksi_sokolov.table`. -/
def ksi22 : List Tok := [
  f 17 833179046348587, f 18 9003418053801213, f 16 97291826580306, f 18 10513446882549847,
  f 18 11360924293357803, f 18 12276709091277899, f 18 13266304436568904, f 18 14335657786534818,
  f 18 15491193591678264, f 17 1673985441217957, f 18 18089140454014743, f 17 1954715416355517,
  f 17 2112265074318624, f 17 2282508652380114, f 18 24664676197558952, f 17 2665245623113979,
  f 17 2880034502999441, f 18 31121211912214685, f 18 33628962855340845, f 18 36338602352946524,
  f 17 3926633883865438, f 18 42429665648096596, f 17 4584746408862652, f 18 49540106005355654,
  f 17 5352957398457854, f 17 5783957116178887, f 17 6249565790819757, f 16 675253763896922,
  f 17 7295840338344912, f 17 7882668680555953, f 17 8516459863497614, f 17 9200910443448089,
  f 17 9939990666870002, f 17 10737961448087102, f 17 11599390420644107, f 17 12529165370718956,
  f 17 13532508712517133, f 17 14614986721649523, f 17 15782525255142185, f 17 17041402789751015,
  f 17 18398255303766317, f 17 19860063185163077, f 17 21434129574674002, f 17 23128041131293242,
  f 17 24949619096924727, f 16 2690683156221033, f 16 2900768256516651, f 16 3126006156353691,
  f 15 336715306663516, f 16 3624906025283575, f 17 38998672277376367, f 16 4192498195527913,
  f 16 4503061585813927, f 17 48315486754623865, f 15 517758795115675, f 15 554033504315941,
  f 16 5918340281759429, f 16 6309397770542932, f 14 67103776362121, f 16 7117057256975609,
  f 16 7523974083349815, f 16 7924340581118996, f 16 8310086466943556, f 16 8672108564175258,
  f 16 9000831727498486, f 16 9287155715425068, f 16 9523786912104619, f 16 9706785366613226,
  f 16 9836906834268454, f 15 992010894760338, f 16 9966630651793934, f 16 9988592794169948,
  f 16 9996970321663002, f 16 9999414812669923, f 16 9999924522334623, f 16 9999994164672925, n 1, n 1,
  n 1, n 1, n 1, n 1, n 1, n 1, n 1, n 1, n 1, n 1, n 1, n 1, n 1, n 1, n 1, n 1, n 1, n 1, n 1, n 1, n 1,
  n 1]

/-- Row 23 of `ksi_sokolov.table`. -/
def ksi23 : List Tok := [
  f 18 7953343117272442, f 17 859446596232632, f 18 9287267057602749, f 18 10035911584558336,
  f 18 10844898260174802, f 18 11719090915438253, f 18 12663744142423035, f 18 13684533071890248,
  f 18 14787592896222088, f 17 1597955084919019, f 16 172675674331589, f 18 18659379779755503,
  f 18 20163341401479077, f 17 2178848543512028, f 18 23544566382454137, f 17 2544211522410349,
  f 17 2749251751003782, f 18 29708063338812422, f 17 3210202679846131, f 17 3468874368251606,
  f 18 37483690190861195, f 17 4050357803345334, f 18 43766443444199755, f 18 47291751540733756,
  f 17 5110050547601736, f 18 55215363041311694, f 18 59660753571547355, f 17 6446301372487992,
  f 16 696505247507805, f 17 7525385413348414, f 17 8130590714643618, f 17 8784206083227737,
  f 16 949003932505373, f 16 1025216826075143, f 17 11074982249921382, f 17 11963168968188015,
  f 17 12921753688016643, f 15 139560939969659, f 17 15071899298962815, f 17 16275235572930102,
  f 17 17572525601151748, f 16 1897054512122554, f 17 20476407280342637, f 17 22097534598220858,
  f 16 2384161577924653, f 16 2571654168686605, f 16 2773031072868616, f 17 29890902494109634,
  f 17 32206102756696203, f 17 34683277153231495, f 16 3732905993548901, f 17 40148973570049284,
  f 16 4314691727667661, f 16 4632452533504003, f 16 4968037986200886, f 16 5320901676877076,
  f 16 5689974140702506, f 16 6073521790298719, f 15 646899033772975, f 16 6872831553086381,
  f 16 7280341573820913, f 16 7685532108187085, f 16 8081087367614291, f 15 845847730447503,
  f 16 8808321750140494, f 16 9121097895890927, f 16 9388249254816642, f 15 960363755357328,
  f 16 9765072715197943, f 16 9875402250292136, f 16 9942502884629146, f 16 9977720879395017,
  f 16 9993071174497224, f 16 9998366568295708, f 16 9999728715590344, f 16 9999971103866917,
  f 16 9999998073368614, n 1, n 1, n 1, n 1, n 1, n 1, n 1, n 1, n 1, n 1, n 1, n 1, n 1, n 1, n 1, n 1,
  n 1, n 1, n 1, n 1, n 1, n 1, n 1]

/-- Row 24 of `ksi_sokolov.table`. -/
def ksi24 : List Tok := [
  f 19 75921188265784785, f 18 8204124839454237, f 18 8865462622006803, f 18 9580107284424697,
  f 18 10352355139285521, f 18 11186848282450106, f 18 12088602432217335, f 18 13063037022193056,
  f 18 14116007575901441, f 18 15253842000963865, f 17 1648337537609327, f 18 17811992077279536,
  f 18 19247673705123255, f 18 20799039042096408, f 17 2247540217222711, f 18 24286821042334605,
  f 18 26244164489880692, f 18 28359168076797166, f 18 30644509069365843, f 18 33113875425139015,
  f 17 3578205199049338, f 16 386649955048138, f 17 4177993904577506, f 18 45145477151002894,
  f 17 4878167749596576, f 17 5271019192077127, f 17 5695437192214783, f 17 6153939555169205,
  f 17 6649240270676071, f 17 7184262754987143, f 17 7762155824586238, f 17 8386307195675374,
  f 17 9060360378922096, f 17 9788229587377272, f 17 10574117293657095, f 17 11422527969034914,
  f 15 123382848358039, f 16 1332654276378638, f 17 14392800583884313, f 17 15542909582361325,
  f 16 1678307913453109, f 16 1811987415353909, f 16 1956020804233994, f 17 21111322399386342,
  f 16 2278075224655485, f 17 24576277199059754, f 16 2650584354729068, f 16 2857746025988407,
  f 16 3079905389973163, f 15 331782729206263, f 16 3572223054566687, f 16 3843717254169236,
  f 15 413280344702088, f 16 4439789796878423, f 15 476472803153651, f 16 5107327330749575,
  f 16 5466847447236397, f 16 5841971158986587, f 16 6230656182926807, f 16 6629970401262819,
  f 16 7035921879468301, f 16 7443304338658772, f 16 7845595878993336, f 16 8234968417926124,
  f 16 8602490124902159, f 16 8938615601119764, f 16 9234052047086216, f 16 9481022835680747,
  f 16 9674796236663701, f 16 9815115853031513, f 16 9906927549604945, f 15 995977302507469,
  f 16 9985646292647706, f 15 999597699181436, f 16 9999168491981011, f 16 9999883023609651,
  f 16 9999989908381686, f 16 9999999573500724, n 1, n 1, n 1, n 1, n 1, n 1, n 1, n 1, n 1, n 1, n 1, n 1,
  n 1, n 1, n 1, n 1, n 1, n 1, n 1, n 1, n 1, n 1]

/-- Row 25 of `ksi_sokolov.table`. -/
def ksi25 : List Tok := [
  f 19 72473373375113925, f 17 783155121655488, f 18 8462857757982185, f 18 9145050823877364,
  f 18 9882231320735912, f 18 10678831136865735, f 18 11539639776006373, f 18 12469827806392834,
  f 17 1347498824285026, f 18 14561160115207715, f 18 15734869962044103, f 18 17003168523480515,
  f 17 1837367257092201, f 17 1985461469320343, f 18 21454883697435458, f 17 2318408715520543,
  f 18 25052597535779066, f 18 27071624987606457, f 17 2925327292520664, f 17 3161061509802359,
  f 17 3415776762719337, f 17 3690997495411142, f 17 3988369431596536, f 17 4309669157738738,
  f 18 46568136004062344, f 17 5031871932666816, f 16 543707568059266, f 18 58748318682853795,
  f 17 6347735005412676, f 17 6858581489942842, f 17 7410383166699382, f 17 8006382601154219,
  f 17 8650067977619166, f 17 9345189313886802, f 17 10095774829319214, f 17 10906145437153866,
  f 17 11780932031240435, f 17 12725090025976984, f 17 13743907389640547, f 17 14843027009615897,
  f 15 160284414615227, f 17 17306503437111068, f 17 18683919603798724, f 16 2016773772370155,
  f 16 2176532091397906, f 16 2348431174288026, f 16 2533256524107085, f 16 2731806918820855,
  f 16 2944881884434553, f 16 3173265634310269, f 16 3417705191744119, f 17 36788815291281945,
  f 17 39573728247894896, f 17 42536059219886857, f 17 45677954059946074, f 17 48998674795845487,
  f 16 5249365481991946, f 15 561533463383461, f 16 5996186281591498, f 16 6389542168177125,
  f 16 6792066119194207, f 16 7199296366238931, f 16 7605507044676445, f 16 8003642756046319,
  f 16 8385395045671403, f 16 8741506512938283, f 16 9062404925371254, f 16 9339231454339538,
  f 16 9565238122608148, f 14 97373370791997, f 16 9857331280859288, f 16 9932171997445535,
  f 16 9972718630690794, f 16 9991109551428838, f 16 9997778336831405, f 16 9999603248938439,
  f 16 9999954163991683, f 16 9999997219728977, n 1, n 1, n 1, n 1, n 1, n 1, n 1, n 1, n 1, n 1, n 1, n 1,
  n 1, n 1, n 1, n 1, n 1, n 1, n 1, n 1, n 1, n 1]

/-- Row 26 of `ksi_sokolov.table`. -/
def ksi26 : List Tok := [
  f 18 6918252873529237, f 19 74759400847103676, f 18 8078581387861826, f 18 8729799378707102,
  f 18 9433509242457307, f 17 1019394059370873, f 18 11015665097724643, f 17 1190362202493063,
  f 18 12863147528184248, f 18 13900008061345073, f 18 15020434242685104, f 18 16231157019609695,
  f 18 17539449183608523, f 18 18953168862063694, f 18 20480805228501063, f 18 22131527241600984,
  f 18 23915244023095594, f 17 2584265493131202, f 17 2792531926554629, f 18 30175720549318184,
  f 16 326073409485564, f 17 3523474028623654, f 18 38073633588512824, f 17 4114100192483029,
  f 17 4445513567135591, f 18 48035826953564946, f 17 5190439304239048, f 18 56083837904434636,
  f 17 6059897038391195, f 17 6547652033990137, f 17 7074530336093006, f 16 764363443791125,
  f 17 8258302611839338, f 17 8922127370753581, f 16 963896748784461, f 17 10412966052911718,
  f 17 11248567339564301, f 17 12150529641102811, f 17 13123940544988846, f 16 1417423025483363,
  f 15 153071790514631, f 16 1652892564478745, f 17 17845964374732445, f 17 19265140669334382,
  f 17 20793633336922798, f 17 22438922734479716, f 17 24208745216220107, f 16 2611102188408615,
  f 16 2815375986291699, f 17 30344916205283984, f 17 32692213629609546, f 17 35202897220660856,
  f 16 3788341730238472, f 17 40739011502952216, f 17 43773182695648655, f 17 46987022012654284,
  f 16 5037838514505703, f 16 5394085863835412, f 16 5766253384225982, f 16 6152455814737259,
  f 16 6549951840512339, f 16 6954977946811858, f 16 7362567202341285, f 16 7766474899608696,
  f 16 8159119287105921, f 16 8531758486790972, f 16 8874909955825346, f 16 9179139243075947,
  f 16 9436247658111869, f 16 9640770216339376, f 16 9791468574025138, f 16 9892256896111215,
  f 16 9951892357333701, f 16 9982120452271435, f 16 9994726880106073, f 15 999883769613872,
  f 16 9999822542990624, f 16 9999983456294286, f 16 9999998640232702, f 15 999999922064716, n 1, n 1, n 1,
  n 1, n 1, n 1, n 1, n 1, n 1, n 1, n 1, n 1, n 1, n 1, n 1, n 1, n 1, n 1, n 1, n 1]

/-- Row 27 of `ksi_sokolov.table`. -/
def ksi27 : List Tok := [
  f 18 6604156038145947, f 18 7136524886537696, f 18 7711806808740737, f 18 8333460383670277,
  f 18 9005222597691114, f 18 9731132697623091, f 17 1051555398843805, f 18 11363201420712236,
  f 17 1227916975833759, f 18 13268963451303037, f 18 14338531186942706, f 18 15494298475987612,
  f 18 16743209568954306, f 16 180927659509287, f 18 19551072202784032, f 18 21126884404836076,
  f 18 22829661427626362, f 18 24669619712428627, f 16 266577991575403, f 18 28806117241485223,
  f 18 31127449370526153, f 16 336357028420999, f 18 36345885605736095, f 17 3927420974514211,
  f 18 42438169878364934, f 16 458566530710529, f 17 4955003488533582, f 18 53540303159600344,
  f 17 5785116341735549, f 17 6250818302588246, f 17 6753891042674032, f 17 7297302611536277,
  f 17 7884248550535611, f 16 851816682762452, f 17 9202754399571653, f 17 9941982612179935,
  f 17 10740113241516704, f 16 1160171443419328, f 17 12531675874508347, f 17 13535220031016196,
  f 16 1461791470112749, f 16 1578568662880631, f 16 1704481585540215, f 16 1840193944310866,
  f 16 1986403901260168, f 17 21438419102296902, f 16 2313266780673515, f 17 24954608131353728,
  f 16 2691220860583053, f 16 2901347493478066, f 17 31266296929017967, f 17 33678238799047683,
  f 16 3625627001462416, f 17 39006412786570166, f 17 41933281560337893, f 16 4503950070079613,
  f 17 48324978006398484, f 16 5178599443764188, f 16 5541409735572206, f 16 5919477811691827,
  f 16 6310596116605017, f 16 6711632467562955, f 16 7118361298301572, f 16 7525316182298704,
  f 16 7925704741833538, f 16 8311450748382254, f 16 8673444553761391, f 16 9002104510200947,
  f 16 9288324961029569, f 16 9524811007808909, f 16 9707627575327725, f 15 983754454088859,
  f 16 9920542208895035, f 16 9966886109496494, f 16 9988718193301316, f 16 9997018840322495,
  f 15 999942856745861, f 16 9999927104224307, f 16 9999994460193052, n 1, n 1, n 1, n 1, n 1, n 1, n 1,
  n 1, n 1, n 1, n 1, n 1, n 1, n 1, n 1, n 1, n 1, n 1, n 1, n 1, n 1]

/-- Row 28 of `ksi_sokolov.table`. -/
def ksi28 : List Tok := [
  f 18 6304367658190966, f 18 6812570786302405, f 18 7361739318970014, f 18 7955175247091805,
  f 17 859644578901489, f 18 9289406435983479, f 18 10038223478184574, f 18 10847396473018845,
  f 18 11721790482928733, f 17 1266666146529692, f 18 13687685130828152, f 18 14790999395416568,
  f 18 15983232016004066, f 17 1727154501990008, f 18 18663678111153516, f 18 20167986260322707,
  f 18 21793504705225238, f 18 23549990085368292, f 16 254479762877883, f 18 27498850598180476,
  f 17 2971490678866057, f 17 3210942198696544, f 18 34696734846338596, f 17 3749232447770962,
  f 17 4051290784348581, f 17 4377652495761082, f 16 473026451720081, f 17 5111227616110289,
  f 17 5522808169285493, f 17 5967449590705223, f 17 6447786258819746, f 17 6966656921452848,
  f 17 7527119058975834, f 17 8132463462577522, f 17 8786229466263203, f 17 9492225234687626,
  f 17 10254529665078359, f 16 1107753307436645, f 17 11965924150155616, f 17 12924729536263985,
  f 17 13959307633691517, f 17 15075369450298434, f 15 162789823704733, f 16 1757657026075919,
  f 17 18974910895528335, f 17 20481118162371592, f 16 2210261652193954, f 17 23847096578213434,
  f 16 2572245038046409, f 17 27736677759295264, f 17 29897759502065197, f 16 3221348274992874,
  f 16 3469121254932873, f 17 37337586235304826, f 17 40158123577448807, f 17 43156721609526133,
  f 16 4633501277458117, f 17 49691573337984396, f 16 5322093238012318, f 16 5691238323994424,
  f 16 6074857524320671, f 16 6470394335186835, f 16 6874297577973414, f 16 7281859603501206,
  f 16 7687087392918884, f 16 8082658581722768, f 16 8460036579258778, f 16 8809833234148485,
  f 16 9122518596271157, f 16 9389531631724778, f 16 9604734946812126, f 16 9765947998562422,
  f 16 9876038922993277, f 16 9942913150398941, f 16 9977946782178608, f 16 9993172512835586,
  f 16 9998401341118403, f 16 9999736988301334, f 15 999997206537455, f 16 9999997858761974,
  f 16 9999999599204147, n 1, n 1, n 1, n 1, n 1, n 1, n 1, n 1, n 1, n 1, n 1, n 1, n 1, n 1, n 1, n 1,
  n 1, n 1, n 1]

/-- Row 29 of `ksi_sokolov.table`. -/
def ksi29 : List Tok := [
  f 18 6018241273465732, f 17 650338036178805, f 18 7027625329989904, f 17 759412905805003,
  f 18 8206297048348335, f 18 8867809926317067, f 18 9582643940825893, f 18 10355096220678912,
  f 17 1118981022313131, f 17 1209180320261462, f 17 1306649582884432, f 18 14119745138824098,
  f 17 1525788103400225, f 17 1648773922739983, f 18 17816708384521946, f 18 19252770177867903,
  f 17 2080454642323565, f 18 22481353095610595, f 18 24293251803402652, f 18 26251113393753942,
  f 18 28366677059752553, f 18 30652623347006816, f 17 3312264332978555, f 18 35791526174510646,
  f 17 3867523323789434, f 18 41791001096426514, f 18 45157430134874894, f 17 4879459408411045,
  f 18 52724148002381364, f 17 5696945168194189, f 17 6155568874048141, f 17 6651000582057348,
  f 17 7186164952479077, f 17 7764211059854025, f 17 8388527558901808, f 17 9062759058546749,
  f 17 9790820943155198, f 17 10576916668524224, f 17 11425551791286725, f 17 12341550758816056,
  f 17 13330070199666116, f 17 14396609690966194, f 16 1554702278323892, f 16 1678751982008534,
  f 15 181246675970275, f 17 19565381567602091, f 17 21116904240536252, f 17 22786773477373182,
  f 17 24582769601607565, f 17 26512842775988044, f 16 2858499957919336, f 16 3080717164596087,
  f 17 33187007042807065, f 17 35731619780937784, f 16 3844725515235085, f 16 4133884860665802,
  f 17 44409478320556106, f 17 47659657027578295, f 16 5108647025534513, f 15 546825051523173,
  f 16 5843457429418157, f 16 6232223536931593, f 16 6631613751912704, f 16 7037632562761569,
  f 16 7445068695170032, f 15 784739411120746, f 16 8236773259499496, f 16 8604265719541088,
  f 16 8940317331011338, f 16 9235627961048569, f 16 9482417557662146, f 16 9675959185213633,
  f 16 9816012417039454, f 16 9907551121513442, f 15 996015215899148, f 16 9985839776485199,
  f 16 9996055605196844, f 16 9999192241674426, f 16 9999887733605338, f 16 9999990266966844,
  f 16 9999999333840867, n 1, n 1, n 1, n 1, n 1, n 1, n 1, n 1, n 1, n 1, n 1, n 1, n 1, n 1, n 1, n 1,
  n 1, n 1, n 1]

/-- Row 30 of `ksi_sokolov.table`. -/
def ksi30 : List Tok := [
  f 18 5745159383566563, f 18 6208285213664632, f 18 6708743564550843, f 18 7249542559619453,
  f 18 7833934264835968, f 18 8465432851371923, f 18 9147833529543594, f 18 9885238211983876,
  f 18 10682080312593677, f 18 11543151047103047, f 18 12473622170686649, f 18 13479088295876409,
  f 18 14565590696772848, f 18 15739657719202337, f 18 17008342009996392, f 17 1837926326272835,
  f 18 19860656050076166, f 18 21461411903345627, f 18 23191141896040116, f 18 25060220341870228,
  f 18 27079862561630495, f 17 2926217427160617, f 17 3162023289057587, f 17 3416816096727068,
  f 17 3692120609437944, f 17 3989583012437809, f 17 4310980382516504, f 17 4658230553375998,
  f 17 5033403021360532, f 17 5438730145974156, f 18 58766194360085525, f 17 6349666443746314,
  f 17 6860668272065824, f 17 7412637873602278, f 17 8008818353975415, f 17 8652699783007022,
  f 17 9348032504071722, f 17 10098846204135269, f 15 109094633304575, f 17 11784515768348999,
  f 17 12728960784419152, f 17 13748087651768118, f 16 1484754118017766, f 17 16033315701314974,
  f 17 17311765676219257, f 17 18689599242559674, f 17 20173866647637095, f 17 21771933487583217,
  f 17 23491443398658177, f 15 253402544651154, f 16 2732635541641141, f 17 29457743942036596,
  f 16 3174226376145852, f 16 3418738508986539, f 15 367999193205619, f 17 39585646828086035,
  f 16 4254883472622145, f 15 456916241268108, f 15 490132726925071, f 16 5250920317427714,
  f 16 5616985450644204, f 16 5997932051251683, f 16 6391379181456479, f 16 6793987056260362,
  f 15 720128908878633, f 16 7607553156775482, f 16 8005716475027764, f 16 8387461048474532,
  f 16 8743519525539917, f 16 9064309884987383, f 16 9340966169229814, f 16 9566740018428551,
  f 16 9738553573544511, f 15 985823386786042, f 16 9932769070961112, f 16 9973058672050938,
  f 16 9991268798759741, f 16 9997836177510198, f 16 9999618194773919, f 16 9999956278784954,
  f 16 9999996991942525, n 1, n 1, n 1, n 1, n 1, n 1, n 1, n 1, n 1, n 1, n 1, n 1, n 1, n 1, n 1, n 1,
  n 1, n 1, n 1]

/-- Row 31 of `ksi_sokolov.table`. -/
def ksi31 : List Tok := [
  f 18 5484532938421752, f 18 5926650109622799, f 18 6404405943481554, f 18 6920672885116235,
  f 18 7478555180953972, f 18 8081407304590456, f 18 8732853080251245, f 18 9436809052411675,
  f 18 10197506527414614, f 18 11019518406552955, f 18 11907785867149103, f 18 12867647089903102,
  f 18 13904870242778717, f 18 15025688454960407, f 17 1623683463682029, f 17 1754558455508309,
  f 18 18959798636389347, f 17 2048796930313883, f 18 22139268807009897, f 17 2392360974739783,
  f 18 25851694782208015, f 17 2793508744863143, f 18 30186276431026643, f 17 3261874715411336,
  f 17 3524706473198536, f 18 38086951909841786, f 17 4115539251734797, f 15 44470685642582,
  f 17 4805262966122219, f 18 51922549166787756, f 18 56103455716890994, f 17 6062016567530993,
  f 17 6549942232672404, f 17 7077004775490184, f 16 764630799035837, f 17 8261191189862319,
  f 17 8925248058920877, f 16 964233865826375, f 17 10416607843013657, f 17 11252501268223183,
  f 17 12154778779608423, f 17 13128530055014404, f 16 1417918641202963, f 17 15312530515828354,
  f 17 16534703671237977, f 16 1785220163796572, f 17 19271872092046335, f 17 20800897179186087,
  f 16 2244675857346674, f 17 24217194952400198, f 16 2612013059635703, f 16 2816357415320212,
  f 16 3035548506345921, f 17 32703586440879273, f 17 35215125152676946, f 16 3789655154097128,
  f 17 40753102344551007, f 17 43788276633740475, f 16 4700316053014476, f 16 5039560171688479,
  f 16 5395917514803802, f 16 5768195193323269, f 16 6154505498638015, f 16 6552103670610735,
  f 16 6957221380480021, f 15 736488569792583, f 16 7768844002827378, f 16 8161505194263395,
  f 16 8534116077410413, f 16 8877182542823305, f 16 9181259714974902, f 16 9438143045276968,
  f 16 9642371503445477, f 16 9792725198157838, f 16 9893150989120086, f 16 9952451723110954,
  f 16 9982417159933928, f 16 9994853948711597, f 15 999887911225466, f 14 99998323576194,
  f 16 9999985312245318, f 16 9999999281573196, n 1, n 1, n 1, n 1, n 1, n 1, n 1, n 1, n 1, n 1, n 1, n 1,
  n 1, n 1, n 1, n 1, n 1, n 1]

/-- Row 32 of `ksi_sokolov.table`. -/
def ksi32 : List Tok := [
  f 18 5235799788257363, f 18 5657866495632505, f 19 61139563118963545, f 18 6606810382595566,
  f 18 7139393201673678, f 18 7714906347748918, f 18 8336809784198939, f 18 9008841967116968,
  f 18 9735043831961478, f 18 10519780465407783, f 18 11367768594184004, f 18 12284105005373448,
  f 18 13274296492503947, f 18 14344294030203387, f 18 15500525963685986, f 18 16749938948833427,
  f 16 181000377292585, f 18 19558929974003967, f 18 21135375662756625, f 18 22838836956570394,
  f 18 24679534948221973, f 17 2666851262806359, f 18 28817695167858835, f 18 31139960138692052,
  f 18 33649221312476905, f 18 36360493808487854, f 17 3928999476167249, f 17 4245522673917624,
  f 18 45875083392029475, f 18 49569949934505295, f 18 53561820018027756, f 17 5787441436381437,
  f 17 6253330410302309, f 17 6756605385723938, f 17 7300235366247604, f 17 7887417116832775,
  f 17 8521590061446525, f 17 9206452690479602, f 16 994597794663549, f 17 10744429103231912,
  f 17 11606376386425991, f 17 12536711202563927, f 17 13540658319529136, f 16 1462378724388275,
  f 17 15792027458750316, f 17 17051661565177872, f 16 1840932871211163, f 17 19872013529468932,
  f 15 214470228754565, f 17 23141947998000975, f 17 24964614042993633, f 16 2692299249204627,
  f 17 29025091636354367, f 17 31278803317508075, f 17 33691692296687586, f 16 3627073004680636,
  f 16 3902193760341778, f 15 419499271491795, f 16 4505731925164433, f 17 48344013632032706,
  f 16 5180628130410908, f 16 5543565110458477, f 15 592175908925641, f 16 6312999214114117,
  f 16 6714148728702176, f 16 7120976193644677, f 16 7528007277918443, f 16 7928439753257941,
  f 16 8314185826020792, f 16 8676122486995295, f 13 9004654933885, f 16 9290667220010324,
  f 16 9526861385817652, f 16 9709312648550211, f 16 9838818984777756, f 16 9921406624331557,
  f 16 9967394716186163, f 16 9988966866148618, f 16 9997114726417696, f 16 9999455715372385,
  f 16 9999932343540424, f 16 9999995160937013, n 1, n 1, n 1, n 1, n 1, n 1, n 1, n 1, n 1, n 1, n 1, n 1,
  n 1, n 1, n 1, n 1, n 1, n 1]

/-- Row 33 of `ksi_sokolov.table`. -/
def ksi33 : List Tok := [
  f 18 4998424567708259, f 18 5401356354252421, f 18 5836768724346665, f 18 6307279341128729,
  f 18 6815717142890387, f 19 73651393127448445, f 17 795884927204266, f 18 8600416062850827,
  f 18 9293696709295989, f 18 10042859496809626, f 18 10852406307010752, f 18 11727204087146012,
  f 18 12672511291250611, f 18 13694006904174199, f 17 1479783051222124, f 17 1599061381389621,
  f 17 1727952199765364, f 18 18672297838384276, f 18 20177300787763298, f 18 21803569710210097,
  f 17 2356086678823106, f 17 2545972975811058, f 18 27511550976235363, f 17 2972863043103599,
  f 17 3212425061026384, f 17 3471275906073528, f 16 375096399406966, f 17 4053161892957098,
  f 18 43796743639623346, f 17 4732449239553978, f 17 5113588302067051, f 17 5525358688141677,
  f 17 5970205459867731, f 17 6450763941603542, f 17 6969874187043533, f 17 7530595032780192,
  f 17 8136218880164826, f 17 8790286953342379, f 17 9496608552595905, f 17 10259264806712926,
  f 17 11082648085116044, f 17 11971449340621934, f 17 12930696847011985, f 17 13965751755592043,
  f 17 15082328451517585, f 17 16286495777382604, f 17 17584681708724573, f 17 18983665160043703,
  f 17 20490565193061025, f 17 22112807829924624, f 17 23858087589064478, f 17 25734299242669334,
  f 16 2774944554740821, f 17 29911510286738546, f 16 3222828191687718, f 17 34707127557893375,
  f 17 37354684684354006, f 16 4017647145919177, f 17 43176382574293926, f 16 4635604301106092,
  f 17 49714019687112865, f 16 5324482598759964, f 16 5693773319243816, f 16 6077535824910687,
  f 16 6473209342758736, f 15 687723684512258, f 16 7284903050342405, f 16 7690204924872313,
  f 16 8085808141158662, f 16 8463161607642312, f 16 8812861828828878, f 16 9125364578458863,
  f 16 9392099414459659, f 16 9606930828360658, f 16 9767697942782192, f 15 987730990222094,
  f 16 9943730790814356, f 16 9978395675729086, f 16 9993373255521752, f 16 9998470317610351,
  f 16 9999754013345566, f 16 9999974972181441, f 16 9999998401281295, n 1, n 1, n 1, n 1, n 1, n 1, n 1,
  n 1, n 1, n 1, n 1, n 1, n 1, n 1, n 1, n 1, n 1]

/-- Row 34 of `ksi_sokolov.table`. -/
def ksi34 : List Tok := [
  f 18 4771895802072733, f 16 51565675082529, f 18 5572247141636279, f 19 60214348135169266,
  f 18 6506831324661034, f 18 7031354498573102, f 17 759815882612116, f 18 8210651700978086,
  f 18 8872515540713945, f 18 9587728840180406, f 18 10360591057180088, f 18 11195747978968275,
  f 18 12098219718043606, f 18 13073429428499215, f 17 1412723782664862, f 18 15265977359918095,
  f 17 1649648792895447, f 18 17826162745911225, f 17 1926298644221985, f 18 20815586013790518,
  f 18 22493282707640973, f 17 2430614307937054, f 18 26265043651275116, f 18 28381729232658526,
  f 18 30668888861476205, f 17 3314021978909201, f 17 3581051907918196, f 17 3869575550447288,
  f 18 41813177158568055, f 17 4518139172298929, f 17 4882048615167133, f 16 527521256445699,
  f 18 56999681310263575, f 17 6158835172821183, f 17 6654529714721166, f 17 7189977969380026,
  f 17 7768330694966416, f 17 8392978525355797, f 17 9067567550291955, f 17 9796015637829608,
  f 16 1058252832008869, f 17 11431613439094673, f 17 12348097972420556, f 17 13337141263091434,
  f 17 14404245875977306, f 17 15555268025324145, f 16 1679642159992195, f 17 18134276564724974,
  f 17 19575751973229488, f 17 21128093808283885, f 17 22798843236984462, f 17 24595784746884786,
  f 15 265268701424002, f 16 2860011286749544, f 17 30823444265291516, f 16 3320451538412561,
  f 15 357504412197898, f 16 3846746737218871, f 16 4136052600079648, f 16 4443269108744361,
  f 16 4768446656838288, f 16 5111292356379895, f 16 5471062886746849, f 16 5846436590519359,
  f 16 6235364961805259, f 16 6634907460176626, f 16 7041060867460693, f 15 744860429713346,
  f 16 7850997277060452, f 16 8240389104734124, f 16 8607822357707147, f 15 894372507455016,
  f 16 9238782319430333, f 16 9485207721878146, f 16 9678283690782788, f 16 9817802097544124,
  f 16 9908793462687546, f 16 9960905406544311, f 15 998622274122031, f 16 9996210595025796,
  f 16 9999239177722997, f 16 9999897717323606, f 16 9999991922004479, f 15 999999989910336, n 1, n 1, n 1,
  n 1, n 1, n 1, n 1, n 1, n 1, n 1, n 1, n 1, n 1, n 1, n 1, n 1]

/-- Row 35 of `ksi_sokolov.table`. -/
def ksi35 : List Tok := [
  f 18 9814878024387736, f 18 10524143781933643, f 18 11284659786272001, f 18 12100128294915798,
  f 18 12974518224201585, f 18 13912085598321787, f 18 14917393968945935, f 18 15995334052159686,
  f 18 17151150595967855, f 18 18390466604449297, f 17 1971931013997789, f 18 21144142125101233,
  f 18 22671889927634966, f 18 24309977741902015, f 17 2606636591909938, f 16 279495833809782,
  f 18 29968773400736927, f 17 3213373350073117, f 18 34454963208207255, f 17 3694371155523312,
  f 17 3961203216207262, f 17 4247283546430433, f 18 45539951641278886, f 17 4882818820060297,
  f 17 5235340284457988, f 17 5613256847206375, f 17 6018384994315257, f 17 6452667969865658,
  f 16 691818434036268, f 17 7417156084569669, f 17 7951957432978651, f 17 8525124222303573,
  f 17 9139363136971204, f 17 9797560982886384, f 17 10502794408118823, f 17 11258339016336236,
  f 17 12067678496600157, f 16 1293451229504544, f 17 13862763936018335, f 17 14856587250818326,
  f 17 15920368300266086, f 17 17058729060079164, f 17 18276524603880143, f 16 1957883692512732,
  f 16 2097096141488276, f 17 22458386505130842, f 17 24046766096096084, f 17 25741875821274723,
  f 17 27549553934665955, f 16 2947562878615307, f 17 31525814760912957, f 16 3370558182522093,
  f 15 360199919912801, f 17 38473479450451836, f 16 4106959694845601, f 17 43810674397784666,
  f 15 466974075480429, f 17 49728371358224327, f 16 5289941044024898, f 16 5620293145896754,
  f 15 596270761235535, f 16 6315479710842254, f 16 6676321039646191, f 16 7042080443674568,
  f 16 7409011933424938, f 16 7772358017200162, f 16 8126527923038495, f 16 8465158355223181,
  f 16 8781354747288451, f 15 906812180194286, f 16 9319012233685284, f 15 952897296848559,
  f 16 9695278560923504, f 16 9818332216651672, f 16 9902014644117472, f 16 9953272890839681,
  f 16 9980855972890796, f 16 9993499268734697, f 15 999825078908478, f 15 999964771155699,
  f 16 9999950549141331, f 16 9999995544946538, n 1, n 1, n 1, n 1, n 1, n 1, n 1, n 1, n 1, n 1, n 1, n 1,
  n 1, n 1, n 1, n 1, n 1, n 1]

/-- Row 36 of `ksi_sokolov.table`. -/
def ksi36 : List Tok := [
  f 18 9370488083310194, f 18 10047643989519628, f 17 1077372848734467, f 17 1155227992218252,
  f 18 12387084479781962, f 18 13282208336055167, f 18 14242007214573908, f 18 15271151998661909,
  f 17 1637464937562784, f 17 1755786967209397, f 18 18826567641463437, f 18 20186913198163035,
  f 18 21645521390701472, f 17 2320948199700446, f 18 24886395098028504, f 18 26684407510859726,
  f 18 28612251039633253, f 18 30679284449247023, f 18 32895532458632346, f 17 3527174379132814,
  f 18 37819430159414635, f 17 4055092750907024, f 17 4347944946252867, f 18 46619144317015505,
  f 17 4998516862893327, f 18 53593743336924404, f 18 57462235695377506, f 17 6160922761602636,
  f 17 6605459503843847, f 17 7081959980256698, f 17 7592695639910678, f 17 8140094750021015,
  f 17 8726748868672324, f 17 9355424540498015, f 17 10029071505240134, f 17 10750832029072888,
  f 17 11524050415878882, f 17 12352282306602445, f 15 132393023428854, f 17 14189110130032792,
  f 17 15205936999631542, f 17 16294249935306646, f 16 1745874837403893, f 16 1870436556928609,
  f 17 20036257070168706, f 17 21459786821730958, f 17 22980501214178803, f 17 24604102888925747,
  f 16 2633639568679642, f 16 2818322540487245, f 15 301503953720119, f 17 32243554737456015,
  f 17 34468059837307935, f 17 36828787203088514, f 17 39329913452420523, f 16 4197462019340714,
  f 17 44764739397900805, f 17 47700321720248756, f 16 5077909772329762, f 15 539958460663239,
  f 16 5734164240886318, f 16 6080299340720594, f 16 6436089741869924, f 16 6798979711061969,
  f 15 716566272521956, f 16 7531997617444194, f 16 7892965749404868, f 16 8242698391258351,
  f 16 8574615567154693, f 15 888172623943574, f 16 9157130892076942, f 16 9394743083925602,
  f 16 9590183483299729, f 16 9741701284657229, f 16 9850863203520295, f 16 9922677096254476,
  f 16 9964886956838173, f 16 9986462934273975, f 16 9995739053248404, f 16 9998957453858165,
  f 16 9999813547039025, f 15 999997748825378, f 16 9999998038479333, f 16 9999999934929121, n 1, n 1, n 1,
  n 1, n 1, n 1, n 1, n 1, n 1, n 1, n 1, n 1, n 1, n 1, n 1, n 1]

/-- Row 37 of `ksi_sokolov.table`. -/
def ksi37 : List Tok := [
  f 17 894645892953438, f 18 9592973632934855, f 18 10286204878927273, f 18 11029527745668361,
  f 18 11826561720779687, f 18 12681185496917666, f 18 13597558598662404, f 18 14580141934302375,
  f 18 15633716544575075, f 17 1676340838291317, f 18 17974713672396864, f 17 1927352368247376,
  f 18 20666155073718457, f 17 2215937836656031, f 18 23760452612035098, f 18 25477155760981272,
  f 18 27317828883674716, f 17 2929140733373069, f 16 314074692966148, f 16 336762796660028,
  f 17 3610883684034765, f 17 3871692324545423, f 17 4151316352146338, f 18 44511078817267145,
  f 18 47725150852071095, f 18 51170884310349815, f 17 5486487808715219, f 17 5882490128113939,
  f 17 6306995807924161, f 17 6762038417846038, f 17 7249791971478328, f 17 7772579911357376,
  f 17 8332883938010698, f 17 8933354167924226, f 17 9576817001187292, f 17 10266286176083506,
  f 17 11004970709224379, f 17 11796285757639162, f 17 12643860302631638, f 17 13551542739128294,
  f 17 14523408870068774, f 17 15563772422163957, f 17 16677177703830537, f 17 17868403527528515,
  f 17 19142458903251958, f 17 20504572680080307, f 17 21960173096358684, f 17 23514865269763932,
  f 17 25174390763517457, f 16 2694457715152772, f 17 28831267285401363, f 16 3084022836002753,
  f 17 32977028743538545, f 17 35246886899363705, f 16 3765447716739093, f 17 40203676244691705,
  f 16 4289726044668662, f 16 4573651674083149, f 16 4872078354047394, f 16 5184688000352295,
  f 16 5510843314047781, f 16 5849508737770437, f 16 6199161261401295, f 16 6557691253445566,
  f 16 6922301973422361, f 15 728941354565362, f 16 7654591160030915, f 16 8012521053251682,
  f 16 8357070624008428, f 16 8681474959083619, f 16 8978701813491596, f 16 9242028445007696,
  f 16 9465830815727685, f 16 9646510741565878, f 16 9783376198590721, f 16 9879178586984324,
  f 16 9939981681825838, f 16 9974155281528104, f 16 9990674692464713, f 16 9997298207698943,
  f 15 999940416513813, f 16 9999906231943606, f 16 9999990006472714, f 15 999999883104104,
  f 16 9999999150346729, f 16 9999999316472592, f 16 9999999354524401, f 16 9999999583171439, n 1, n 1,
  n 1, n 1, n 1, n 1, n 1, n 1, n 1, n 1, n 1, n 1]

/-- Row 38 of `ksi_sokolov.table`. -/
def ksi38 : List Tok := [
  f 18 8541879344461885, f 18 9159159115365618, f 18 9821042917049726, f 18 10530754247894866,
  f 18 11291747989327182, f 18 12107728553177627, f 17 1298266784495332, f 18 13920824093584114,
  f 18 14926763803497875, f 17 1600538112354856, f 18 17161923922234958, f 18 18402018168153598,
  f 16 197316963680911, f 17 2115742332676726, f 17 2268613055679193, f 18 24325247585378393,
  f 18 26082738271439438, f 18 27967139321212267, f 17 2998759760439967, f 17 3215391767448908,
  f 18 34476604766187476, f 16 369669169794859, f 18 39636913230241586, f 16 424995133531136,
  f 17 4556855676926335, f 17 4885885775674917, f 18 52386286552325606, f 18 56167825493368455,
  f 18 60221652098806186, f 17 6456720900665659, f 17 6922529737039453, f 16 742181461773607,
  f 17 7956952049369906, f 17 8530478599804431, f 16 914510327179271, f 17 9803714168903667,
  f 17 10509390300716642, f 17 11265409170014783, f 17 12075256543107314, f 17 12942634177304946,
  f 16 1387146795203613, f 17 14865914327198634, f 17 15930362181082994, f 17 17069436015837136,
  f 17 18287994083498726, f 17 19591120896154213, f 15 209841152712963, f 17 22472468936450946,
  f 16 2406183839696422, f 16 2575800222779787, f 16 2756680232057473, f 17 29494069148663443,
  f 17 31545518841535325, f 16 3372662367565744, f 17 36042445689119423, f 16 3849741923102443,
  f 17 41095094910392305, f 16 4383779778894335, f 15 467262172469462, f 16 4975891699374559,
  f 16 5293172638708515, f 16 5623702975906865, f 16 5966293977323764, f 16 6319236812921322,
  f 16 6680237899112303, f 16 7046139196265147, f 16 7413186363898382, f 16 7776610991519176,
  f 16 8130809626727465, f 16 8469404750813064, f 16 8785486119669739, f 16 9072044038166974,
  f 16 9322620863740136, f 16 9532162008472441, f 16 9697954713175969, f 16 9820433774823233,
  f 16 9903530586130238, f 16 9954254020565808, f 16 9981409021973503, f 16 9993760818672704,
  f 16 9998349732792697, f 15 999967568951798, f 16 9999955902874293, f 16 9999995953121988, n 1, n 1, n 1,
  n 1, n 1, n 1, n 1, n 1, n 1, n 1, n 1, n 1, n 1, n 1, n 1, n 1]

/-- Row 39 of `ksi_sokolov.table`. -/
def ksi39 : List Tok := [
  f 18 8155881969994262, f 18 8745268751841118, f 18 9377244584838719, f 18 10054888786146882,
  f 18 10781496757467661, f 18 11560609525642992, f 18 12396016144864172, f 18 13291785327025754,
  f 18 14252276095742424, f 18 15282163012694087, f 18 16386456016911907, f 17 1757052952838609,
  f 18 18840142034512224, f 18 20201468943423558, f 17 2166112863366904, f 18 23226216950523414,
  f 17 2490433925861056, f 18 26703648020531885, f 18 28632881968320045, f 17 3070140520702402,
  f 17 3291925130473435, f 17 3529717656955594, f 18 37846699379607655, f 17 4058016568151037,
  f 17 4351079856705492, f 16 466527583707574, f 17 5002120885414971, f 17 5363238632603863,
  f 17 5750366681632103, f 17 6165364741849606, f 17 6610222216057514, f 16 708706593936457,
  f 17 7598169736298643, f 17 8145963651128384, f 17 8733040567373522, f 17 9362169348201364,
  f 17 10036301677205589, f 17 10758582353929724, f 17 11532357879903118, f 16 1236118639344164,
  f 16 1324884498867564, f 15 141993366335642, f 17 15216895213164713, f 17 16305990978568735,
  f 17 17471326255090125, f 16 1871783866462502, f 17 20050686386794295, f 17 21475237162118185,
  f 17 22997040403465396, f 17 24621802850004762, f 17 26355331795610426, f 15 282034759595274,
  f 16 3017204159767212, f 17 32266679774729007, f 17 34492749490009567, f 16 3685512641357448,
  f 16 3935798689830403, f 16 4200450858721021, f 16 4479651851458974, f 17 47734056926226587,
  f 16 5081484109114651, f 16 5403362904826118, f 16 5738146941446229, f 16 6084482877756837,
  f 16 6440465815809118, f 15 680353315172529, f 16 7170370056328439, f 16 7536824635341333,
  f 16 7897865335228321, f 16 8247608121728041, f 16 8579455693285246, f 16 8886399386813123,
  f 16 9161524199625845, f 16 9398734430619491, f 15 959365386729758, f 16 9744553193730864,
  f 16 9853043563341631, f 16 9924196539417148, f 16 9965827735533983, f 16 9986964057880712,
  f 16 9995959316103454, f 16 9999033218574558, f 16 9999832462137161, f 16 9999980262016147,
  f 16 9999997948523647, f 16 9999999531555441, n 1, n 1, n 1, n 1, n 1, n 1, n 1, n 1, n 1, n 1, n 1, n 1,
  n 1, n 1]

/-- Row 40 of `ksi_sokolov.table`. -/
def ksi40 : List Tok := [
  f 17 778764114011822, f 16 83504186066549, f 18 8953862736591335, f 18 9600912515498326,
  f 17 1029471761051607, f 18 11038655537250272, f 18 11836348398767588, f 18 12691680390086293,
  f 18 13608811641043304, f 18 14592208111930478, f 17 1564665448290187, f 18 16777281359913215,
  f 18 17989589089170085, f 18 19289473897209447, f 18 20683257824956523, f 18 22177716963643367,
  f 18 23780116212536343, f 18 25498240489117485, f 18 27340436577411833, f 18 29315647637738404,
  f 17 3143346107910183, f 17 3370414965730904, f 17 3613871927798965, f 17 3874896397334701,
  f 17 4154751879804314, f 16 445479148693229, f 15 47764646979612, f 17 5121323235957569,
  f 18 54910282104446914, f 17 5887358162433191, f 17 6312215153042489, f 17 6767634361302681,
  f 17 7255791462274837, f 16 777901186750276, f 17 8339779365500449, f 17 8940746312035826,
  f 16 958474143039799, f 17 10274780893221175, f 17 11014076425871534, f 17 11806045714865147,
  f 17 12654320942169847, f 17 13562753619444753, f 17 14535422537413753, f 17 15576645494395489,
  f 17 16690969690498375, f 17 17883177970381098, f 17 19158284169290066, f 17 20521519736153154,
  f 17 21978317834302202, f 17 23534287069624651, f 16 2519517324637396, f 17 26966808540546433,
  f 17 28855038393716004, f 17 30865633015057825, f 16 3300416396503461, f 17 35275850724544344,
  f 16 3768536655842741, f 17 40236587710459515, f 17 42932285644563695, f 17 45773738401558933,
  f 16 4876027254753371, f 16 5188868924687234, f 16 5515258860599431, f 16 5854158035319316,
  f 16 6204038577028758, f 16 6562784508430936, f 16 6927590926844026, f 16 7294867249264928,
  f 16 7660165762306046, f 16 8018156693706896, f 16 8362689038474099, f 16 8686977723882766,
  f 16 8983970619300681, f 16 9246928947232581, f 16 9470221977857978, f 16 9650261677046306,
  f 16 9786389124834445, f 16 9881415171794569, f 16 9941482586863736, f 16 9975040830354194,
  f 16 9991117951930102, f 16 9997478373674287, f 16 9999460301367612, f 16 9999918737731505,
  f 16 9999991844043816, f 15 999999900266945, f 16 9999999148741647, f 16 9999999395640761, n 1, n 1, n 1,
  n 1, n 1, n 1, n 1, n 1, n 1, n 1, n 1, n 1]

/-- Row 41 of `ksi_sokolov.table`. -/
def ksi41 : List Tok := [
  f 18 7436369227083707, f 18 7973763299157562, f 18 8549989913324004, f 18 9167855910555245,
  f 18 9830368338035831, f 18 10540753452575677, f 18 11302469849934365, f 18 12119225361143647,
  f 16 129949952553323, f 18 13934042321101544, f 18 14940937199695456, f 18 16020578231395678,
  f 17 1717821906537149, f 18 18419491238254745, f 18 19750431951625683, f 17 2117751278765096,
  f 17 2270767146596493, f 18 24348344386779592, f 18 26107504959483382, f 18 27993694537159924,
  f 18 30016070957537354, f 17 3218444781589884, f 17 3450934113039465, f 17 3700201743348145,
  f 17 3967454918415515, f 17 4253986698230761, f 17 4561182383579001, f 17 4890524934182661,
  f 17 5243602693603243, f 17 5622115723731014, f 17 6027883157292184, f 17 6462851531731298,
  f 17 6929102492908128, f 17 7428861499630314, f 17 7964506695286601, f 17 8538577783576547,
  f 17 9153785769258724, f 17 9813021794843035, f 17 10519367464124496, f 17 11276103685419275,
  f 17 12086719335942199, f 15 129549195823146, f 17 13884634085606287, f 16 1488002282680074,
  f 17 15945479176504007, f 17 17085631902241813, f 17 18305343053382633, f 17 19609701855109338,
  f 16 2100401239752468, f 16 2249377025562304, f 17 24084636987512906, f 16 2578239563026252,
  f 16 2759289242548379, f 17 29521961802250646, f 16 3157532323206724, f 16 3375845117214817,
  f 16 3607640898669135, f 17 38533629828894367, f 17 41133661371563096, f 17 43878822605780754,
  f 17 46769791037196407, f 16 4980511533335579, f 16 5298060013422043, f 16 5628859722271322,
  f 16 5971717325753394, f 16 6324917969769974, f 16 6686160015744713, f 16 7052275254036258,
  f 16 7419496189879102, f 16 7783038261849362, f 16 8137278886612777, f 15 847581837643147,
  f 16 8791723181828585, f 16 9077961599351178, f 16 9328060590083171, f 16 9536963198330549,
  f 16 9701976596211396, f 15 982358429652611, f 15 990579478820736, f 16 9955711464080904,
  f 16 9982223931817784, f 16 9994141470642585, f 16 9998491226624925, f 16 9999714900202206,
  f 16 9999963335049853, f 16 9999997187233192, n 1, n 1, n 1, n 1, n 1, n 1, n 1, n 1, n 1, n 1, n 1, n 1,
  n 1, n 1]

/-- Row 42 of `ksi_sokolov.table`. -/
def ksi42 : List Tok := [
  f 18 7101317105222927, f 18 7614499107526566, f 18 8164765111609917, f 18 8754793722241904,
  f 17 938745813380028, f 17 1006584010662793, f 18 10793239595184934, f 18 11573200984027948,
  f 17 1240951723515787, f 18 13306261936452337, f 17 1426779888682787, f 18 15298807857081315,
  f 18 16404303595028244, f 18 17589666760287757, f 16 188606627698317, f 18 20223471201475125,
  f 18 21684720751935845, f 18 23251514301928386, f 18 24931463946737915, f 17 2673273253454709,
  f 18 28664067608498395, f 17 3073484427491047, f 17 3295510504324652, f 17 3533562027645878,
  f 17 3788792038938214, f 18 40624364652908425, f 17 4355818831876811, f 17 4670357023860138,
  f 18 50075688559005405, f 17 5369079847731554, f 16 575662963338481, f 17 6172079624804923,
  f 17 6617421493052657, f 17 7094784404820403, f 17 7606444978431419, f 16 815483510298706,
  f 17 8742551247219096, f 17 9372364951871887, f 17 10047231194552958, f 17 10770297816833459,
  f 17 11544915500056545, f 17 12374645875097662, f 17 13263270117145412, f 16 1421479556766524,
  f 17 15233460164258508, f 17 16323739185289302, f 17 17490340307896263, f 17 18738205279820536,
  f 17 20072498032382402, f 17 21498592162681499, f 16 2302204144412967, f 17 24648558704538476,
  f 17 26383955574844936, f 16 2823408650030619, f 17 30204761489579784, f 17 32301635484442376,
  f 17 34530069053851836, f 16 3689493920244625, f 17 39400419666506153, f 15 420496845369385,
  f 16 4484455080916154, f 17 47785044477454064, f 16 5086886246169429, f 16 5409073113615019,
  f 15 574416561329237, f 16 6090804804247417, f 16 6447077952391037, f 16 6810412578859586,
  f 16 7177480918609659, f 16 7544115036473493, f 16 7905263552503353, f 16 8255019224800739,
  f 16 8586758517368014, f 16 8893446165599742, f 16 9168143566665075, f 16 9404741507272136,
  f 16 9598868689655023, f 16 9748829147134147, f 16 9856301613915247, f 16 9926456205669292,
  f 16 9967217039851961, f 16 9987696327809672, f 16 9996276427428594, f 16 9999140171719044,
  f 16 9999860088242878, f 16 9999984613138461, f 16 9999998562043785, f 16 9999999656148114, n 1, n 1,
  n 1, n 1, n 1, n 1, n 1, n 1, n 1, n 1, n 1, n 1]

/-- Row 43 of `ksi_sokolov.table`. -/
def ksi43 : List Tok := [
  f 18 6781770551389053, f 18 7271860639852435, f 18 7797366790284224, f 17 836084702901621,
  f 17 896504474835281, f 18 9612902752498933, f 18 10307574051637439, f 18 11052441081501921,
  f 18 11851130317903184, f 18 12707530246449737, f 18 13625807196856347, f 18 14610431679090355,
  f 18 15666194773892472, f 18 16798233726653282, f 18 18012055580288167, f 17 1931356365281352,
  f 17 2070908804922754, f 18 22205413614104837, f 18 23809813808583546, f 18 25530083829395468,
  f 18 27374580436762944, f 18 29352258746017348, f 17 3147271682150994, f 17 3374624078708767,
  f 17 3618385136211041, f 18 38797356020740185, f 16 415994059034827, f 17 4460354793393228,
  f 17 4782429692432781, f 17 5127718878328576, f 17 5497885565037853, f 17 5894710335039733,
  f 17 6320098078982973, f 17 6776085761449369, f 17 7264852418682119, f 17 7788726129951667,
  f 16 835019382660846, f 17 8951910914870755, f 17 9596709872488131, f 17 10287610589629281,
  f 17 11027828538419378, f 14 11820786227921, f 17 12670119664177573, f 17 13579685336836936,
  f 15 145535669513909, f 16 1559608746037246, f 17 16711799707134117, f 16 1790549234379254,
  f 17 19182184423210716, f 16 2054711474182869, f 16 2200572097882718, f 16 2356361916269767,
  f 16 2522656076001699, f 16 2700038361545398, f 16 2889093819140531, f 17 30904000349125516,
  f 16 3304514420869154, f 16 3531959139473313, f 16 3773201586389096, f 16 4028628955744871,
  f 16 4298517750357341, f 17 45829945941823613, f 17 48819902245783375, f 16 5195181924797134,
  f 16 5521925814901919, f 16 5861177417232123, f 16 6211401568896092, f 16 6570472649005394,
  f 16 6935573255652265, f 16 7303096863358847, f 16 7668575770695153, f 16 8026656213673958,
  f 15 837115905663874, f 15 869526881836755, f 16 8991903185174804, f 16 9254299202226526,
  f 16 9476816702813041, f 16 9655883059212491, f 16 9790890971822358, f 16 9884742497475428,
  f 16 9943701105876813, f 16 9976337010631093, f 16 9991757607734055, f 16 9997732679887883,
  f 16 9999537057001409, f 16 9999935020347344, f 16 9999993913672425, f 16 9999999224033528, n 1, n 1,
  n 1, n 1, n 1, n 1, n 1, n 1, n 1, n 1, n 1, n 1]

/-- Row 44 of `ksi_sokolov.table`. -/
def ksi44 : List Tok := [
  f 19 64770492475547696, f 19 69451193201994785, f 16 74470137370762, f 18 7985177025864737,
  f 18 8562228509517099, f 18 9180978959676275, f 18 9844439486093986, f 17 1055584156639803,
  f 17 1131864838581271, f 18 12136573086799139, f 18 13013596466117924, f 18 13953987817378884,
  f 18 14962323738931744, f 17 1604351060910777, f 17 1720280856014749, f 18 18445857172491323,
  f 18 19778703189786057, f 18 21207826471067708, f 17 2274017555657317, f 18 24383197001762544,
  f 18 26144875266050218, f 17 2803376487520406, f 17 3005903627931154, f 18 32230517283063566,
  f 17 3455873741082355, f 17 3705498362971731, f 17 3973134011439324, f 17 4260075842586409,
  f 17 4567711187780147, f 17 4897525104435399, f 17 5251108337983205, f 18 56301630555402334,
  f 18 60365112831895065, f 17 6472102162883032, f 17 6939020345705367, f 17 7439494475245102,
  f 17 7975906314074423, f 17 8550798850714206, f 17 9166887022838258, f 17 9827066165593468,
  f 17 10534422447399075, f 17 11292241086677406, f 15 121040159012959, f 17 12973457463342425,
  f 17 13904500766825487, f 16 1490131168801884, f 17 15968289639149505, f 16 1711007010540212,
  f 17 18331521099938847, f 17 19637739488014833, f 17 21034035345307173, f 17 22525911764228762,
  f 17 24119038022390255, f 16 2581920277116279, f 16 2763225980954913, f 16 2956404851986142,
  f 17 31620293886870504, f 16 3380647407216016, f 16 3612765329209855, f 16 3858826413438097,
  f 16 4119184879866794, f 17 43940716635208804, f 15 468355299078065, f 17 49874810334439124,
  f 16 5305432791506721, f 16 5636638274985941, f 16 5979897361781381, f 16 6333485864388978,
  f 16 6695090225151629, f 15 706152629907259, f 15 742900700587385, f 16 7792723218062985,
  f 16 8147023347526837, f 15 848547401366099, f 16 8801106409858324, f 16 9086855694391197,
  f 16 9336225370796831, f 16 9544156086925493, f 16 9707985897417285, f 16 9828273062223915,
  f 16 9909145355490323, f 16 9957849887495365, f 16 9983404530477737, f 15 999468271540762,
  f 16 9998686674647494, f 16 9999766883314221, f 16 9999972568977558, f 16 9999997671308114, n 1, n 1,
  n 1, n 1, n 1, n 1, n 1, n 1, n 1, n 1, n 1, n 1]

/-- Row 45 of `ksi_sokolov.table`. -/
def ksi45 : List Tok := [
  f 18 6186506418159587, f 18 6633580965672742, f 18 7112962849116915, f 18 7626986360397389,
  f 18 8178154690076857, f 18 8769151567270398, f 17 940285281989492, f 18 10082347489779583,
  f 18 10810939723446019, f 18 11592180171480204, f 18 12429868072090218, f 18 13328083381137902,
  f 18 14291197349697334, f 18 15323896833239672, f 18 16431205459067955, f 15 17618512524085,
  f 18 18891592011262944, f 18 20256636438845576, f 18 21720282154502907, f 18 23289645479344347,
  f 17 2497234928516047, f 18 26776572342344564, f 18 28711074293175546, f 18 30785246591212626,
  f 17 3300915024163951, f 17 3539356763680626, f 18 37950053258006954, f 17 4069098539460174,
  f 17 4362962103821643, f 17 4678015880592562, f 18 50157808492276836, f 17 5377884589210897,
  f 17 5766069838340181, f 17 6182201144718892, f 16 662827313059964, f 17 7106418838910689,
  f 17 7618918287771452, f 17 8168207601673073, f 17 8756887171253515, f 17 9387733168698581,
  f 17 10063705510219019, f 17 10787957097074742, f 17 11563844112361382, f 17 12394933805138716,
  f 17 13285013526946812, f 16 1423809679885515, f 16 1525842893655456, f 17 16350491573424936,
  f 17 17518999987269787, f 17 18768904218217522, f 15 201053754715485, f 16 2153379437552714,
  f 16 2305972503221735, f 17 24688886821614653, f 16 2642710001806643, f 17 28280224787609104,
  f 17 30254078947811774, f 17 32354321982326256, f 16 3458631793199983, f 16 3695494461390335,
  f 16 3946437312335526, f 16 4211776995714045, f 16 4491693870402527, f 17 47861883701437563,
  f 16 5095026834781794, f 16 5417677345686308, f 16 5753233966161999, f 16 6100328978906902,
  f 16 6457038058170711, f 16 6820773461974285, f 16 7188188040223324, f 16 7555089338405218,
  f 16 7916396006141254, f 16 8266165425977676, f 16 8597734714381976, f 16 8904027932926597,
  f 15 917807131558926, f 16 9413735391915249, f 16 9606657273049355, f 15 975519304860967,
  f 16 9861126074630263, f 16 9929776978796067, f 16 9969235779839212, f 16 9988742446908146,
  f 16 9996717936348287, f 16 9999283191779769, f 16 9999891671643175, f 16 9999989498200187,
  f 16 9999999028692341, n 1, n 1, n 1, n 1, n 1, n 1, n 1, n 1, n 1, n 1, n 1]

/-- Row 46 of `ksi_sokolov.table`. -/
def ksi46 : List Tok := [
  f 18 5909527064471906, f 18 6336585923056115, f 18 6794506050787714, f 18 7285516436700172,
  f 18 7812009565054502, f 18 8376547947343294, f 18 8981880307744135, f 18 9630954616460135,
  f 17 1032693071801207, f 18 11073196440910133, f 16 118733856627235, f 18 12731394000442165,
  f 17 1365139498780129, f 18 14637868595889812, f 16 156956144170234, f 17 1682977906998513,
  f 18 18045880759797617, f 18 19349832372321515, f 17 2074797759634329, f 18 22247113208819603,
  f 18 23854526630604674, f 18 25578027158752074, f 17 2742598728008102, f 18 29407379230531296,
  f 17 3153182057841042, f 17 3380961257089243, f 18 36251800478958825, f 18 38870212678200046,
  f 18 41677523956888264, f 17 4468730862207745, f 18 47914105244484764, f 17 5137347870850199,
  f 17 5508209786169045, f 18 59057796628482866, f 17 6331966069960623, f 17 6788810146736222,
  f 17 7278494246722736, f 16 780335142667289, f 17 8365873254301257, f 17 8968720011209473,
  f 17 9614729220622523, f 17 10306926587240384, f 17 11048533723219804, f 17 11842978908069124,
  f 17 12693905621285356, f 16 1360517686655633, f 17 14580884422252607, f 17 15625358533042355,
  f 17 16743160612330446, f 17 17939087848191185, f 17 19218168006022052, f 15 205856488502754,
  f 17 22046977842722873, f 17 23607779980642488, f 16 2527381564646999, f 17 27050931229304004,
  f 17 28944986112255083, f 16 3096176171670769, f 16 3310683861503417, f 17 35385440733602624,
  f 17 37802241805253667, f 15 403611090874725, f 17 43064796930178095, f 16 4591455293288611,
  f 17 48909655467460617, f 16 5204683518363883, f 16 5531959306424817, f 16 5871740238471341,
  f 16 6222480008134925, f 16 6582038420498051, f 16 6947579039998373, f 16 7315471064810133,
  f 16 7681216664535943, f 16 8039425543952273, f 15 838387629787398, f 16 8707706876462608,
  f 16 9003789772761307, f 16 9265325831128679, f 16 9486661077243401, f 16 9664248111716044,
  f 16 9797559537194548, f 16 9889638374016506, f 15 994693336545587, f 16 9978197749845991,
  f 16 9992655508239735, f 16 9998077873208604, f 16 9999636003839851, f 16 9999954669307912,
  f 16 9999996602200706, f 16 9999999697049428, n 1, n 1, n 1, n 1, n 1, n 1, n 1, n 1, n 1, n 1]

/-- Row 47 of `ksi_sokolov.table`. -/
def ksi47 : List Tok := [
  f 18 5645524369766347, f 18 6053505454040285, f 18 6490969179153382, f 19 69600452171098785,
  f 18 7463018222184603, f 18 8002338039805941, f 18 8580629715172037, f 18 9200709992820133,
  f 17 986559642822699, f 17 1057852729689938, f 17 1134297355291274, f 18 12162655872930313,
  f 18 13041564112883056, f 18 13983976435967448, f 18 14994479662115642, f 16 160779896069821,
  f 17 1723977919287843, f 18 18485499441041164, f 17 1982120968744741, f 16 212534040705128,
  f 18 22789046731209243, f 18 24435599405467228, f 17 2620106317053437, f 16 280940125524505,
  f 18 30123636008148366, f 17 3229978354361798, f 18 34633007890447494, f 18 37134617262820614,
  f 17 3981672546647455, f 17 4269231163912448, f 17 4577527575924701, f 17 4908050287790681,
  f 18 52623932970247055, f 17 5642262549733215, f 17 6049483984841249, f 17 6486010827210124,
  f 17 6953932319075502, f 15 74554818758681, f 17 7993046109095446, f 17 8569173779254108,
  f 16 918658540086337, f 16 984818282281942, f 16 1055705814751202, f 17 11316504020687244,
  f 17 12130021772327637, f 16 1300132984152921, f 17 13934371031083753, f 17 14933320423389476,
  f 17 16002586295765758, f 17 17146813623037452, f 17 18370880813291143, f 16 1967989447842467,
  f 17 21079175066360267, f 17 22574237191207677, f 16 2417075932125785, f 17 25874541918069294,
  f 16 2769144678062279, f 17 29627324034989666, f 16 3168790448523139, f 16 3387867191191018,
  f 16 3620469269442013, f 16 3867039753994069, f 16 4127932147865956, f 17 44033758179838534,
  f 17 46934344523725235, f 17 49979565423948497, f 16 5316513515286705, f 16 5648327688311564,
  f 16 5992188487659914, f 16 6346357782144043, f 15 670846769667941, f 16 7075417931745064,
  f 15 744328380699466, f 16 7807255043961372, f 16 8161635640142063, f 16 8499941734267576,
  f 16 8815150859016804, f 16 9100148478597916, f 16 9348403582072501, f 16 9554853922859271,
  f 16 9716886563391669, f 16 9835176525621768, f 16 9914035268210899, f 16 9960930217580569,
  f 16 9985071951585093, f 16 9995424570963294, f 16 9998942615148949, f 16 9999830373985396,
  f 16 9999982824099415, f 16 9999998754411823, n 1, n 1, n 1, n 1, n 1, n 1, n 1, n 1, n 1, n 1]

/-- Row 48 of `ksi_sokolov.table`. -/
def ksi48 : List Tok := [
  f 19 53939425444650725, f 19 57837432571904235, f 18 6201712723510504, f 18 6649886191090369,
  f 18 7130446309602938, f 19 76457333463814435, f 18 8198256557454249, f 17 879070526537004,
  f 18 9425964820858392, f 18 10107129685018305, f 18 10837512854586239, f 18 11620673432695797,
  f 18 12460420469790068, f 18 13360843657775094, f 18 14326324622510512, f 17 1536156193526041,
  f 17 1647159299769699, f 18 17661818607552917, f 18 18938027288678955, f 18 20306426702551998,
  f 18 21773670162083078, f 17 2334689047998894, f 18 25033730859340617, f 18 26842388609032545,
  f 17 2878164541960087, f 18 30860916088951963, f 17 3309028414955451, f 17 3548056358338054,
  f 17 3804333308784769, f 18 40791002167765995, f 17 4373686020824195, f 17 4689514184338675,
  f 18 50281092738676585, f 18 53911030840946304, f 16 578024240246062, f 16 619739621537575,
  f 17 6644564500314622, f 17 7123885323416193, f 17 7637643941635812, f 17 8188283180995926,
  f 17 8778409152664166, f 17 9410805104853892, f 17 10088437965454677, f 17 10814468715686293,
  f 17 11592261163980899, f 17 12425391396023579, f 17 13317656151556254, f 17 14273078286689753,
  f 17 15295913449444642, f 16 1639065411306716, f 17 17562026078030932, f 17 18814991172540896,
  f 17 20154732089088134, f 17 21586642240108392, f 17 23116297542819025, f 17 24749428708166507,
  f 16 2649186827441723, f 17 28349487517961347, f 16 3032811307108533, f 17 32433412224829106,
  f 17 34670754243891355, f 17 37045017390053187, f 15 395603691427098, f 16 4221996411941584,
  f 17 45025585332737794, f 16 4797720337001944, f 16 5107243217963284, f 16 5430588242567762,
  f 16 5766839555386388, f 16 6114616162740816, f 16 6471976130861696, f 16 6836308703128388,
  f 15 720423706495787, f 16 7571531695561745, f 15 793306592329968, f 16 8282843545142013,
  f 16 8614141972124967, f 16 8919824246905467, f 16 9192863636639498, f 16 9427101172463713,
  f 16 9618189096536733, f 16 9764565261661736, f 16 9868175542089634, f 16 9934573385268903,
  f 16 9972101545541625, f 16 9990189056239562, f 16 9997304638937066, f 16 9999462282211391,
  f 16 9999929625413726, f 16 9999994708594925, f 16 9999999849902059, n 1, n 1, n 1, n 1, n 1, n 1, n 1,
  n 1, n 1]

/-- Row 49 of `ksi_sokolov.table`. -/
def ksi49 : List Tok := [
  f 18 5154251070630833, f 17 552673042817448, f 17 592612722867801, f 18 6354385715888893,
  f 18 6813592289476411, f 19 73059819609543105, f 18 7833953855953748, f 16 84000782137297,
  f 18 9007110823460384, f 18 9658008587827012, f 17 1035593970235483, f 18 11104301787120277,
  f 18 11906738663803892, f 17 1276715704648123, f 17 1368974243762249, f 18 14678987143092036,
  f 18 15739704307416277, f 18 16877054811824173, f 17 1809657235673944, f 17 1940418712882547,
  f 17 2080625984287095, f 17 2230960653332728, f 18 23921534838402193, f 16 256498763053541,
  f 18 27503028085164537, f 18 29489985891690267, f 18 31620393163979826, f 17 3390458519714199,
  f 18 36353632883768215, f 18 38979400217837794, f 17 4179459672776528, f 17 4481283606618833,
  f 18 48048696087907315, f 17 5151778713673946, f 18 55236822227026104, f 17 5922368795347512,
  f 17 6349752050554366, f 17 6807879198526262, f 17 7298938855646446, f 17 7825269946703942,
  f 16 838937127453938, f 16 899391092768004, f 17 9641733709730901, f 16 1033587453717632,
  f 17 11079563269035482, f 17 11876238136422639, f 17 12729552314278847, f 16 1364337998964116,
  f 17 14621823553517438, f 16 1566922541830463, f 15 167901592208533, f 16 1798943524341409,
  f 16 1927209376576467, f 17 20643397056682586, f 16 2210880583623668, f 17 23673958956988253,
  f 16 2534463073798585, f 17 27126680290658467, f 16 2902597889911854, f 16 3104831875387512,
  f 16 3319928688060333, f 16 3548411279677443, f 16 3790746854165313, f 17 40473214250695033,
  f 16 4318408784383213, f 17 46041308634616707, f 16 4904411047222529, f 16 5218916008775213,
  f 16 5546986658738663, f 15 588755788793861, f 16 6239066514997952, f 16 6599350120227816,
  f 16 6965543553017832, f 16 7333979168722505, f 16 7700113525210532, f 16 8058500865490802,
  f 16 8402855683878508, f 16 8726246188569325, f 15 902147638161286, f 16 9281693543239053,
  f 16 9501224511481295, f 16 9676563338783494, f 16 9807308598828122, f 16 9896722948422723,
  f 16 9951538445681142, f 16 9980788000621341, f 15 999386194441095, f 16 9998516804416335,
  f 16 9999751518212241, f 16 9999974417317897, f 16 9999998579378966, f 15 999999994625969, n 1, n 1, n 1,
  n 1, n 1, n 1, n 1, n 1]

/-- Row 50 of `ksi_sokolov.table`. -/
def ksi50 : List Tok := [
  f 18 4925946479140846, f 18 5281927490417976, f 18 5663633552982703, f 18 6072923309048051,
  f 18 6511790281666727, f 19 69823710831062305, f 18 7486957625623503, f 18 8028007403868215,
  f 18 8608154014329478, f 18 9230223163377306, f 18 9897242368727764, f 18 10612460236754256,
  f 17 1137935838694176, f 18 12201670282736504, f 18 13083397737815881, f 18 14028832965619749,
  f 18 15042577605776432, f 18 16129563342124904, f 18 17295079395437302, f 18 18544795313193516,
  f 18 19884790457199424, f 18 21321579451245905, f 18 22862147322973904, f 18 24513981724292068,
  f 18 26285108275669204, f 18 28184129987499203, f 17 3022026410933494, f 17 3240339760946927,
  f 18 34744100431663545, f 17 3725373327269648, f 17 3994444462272384, f 18 42829254511761734,
  f 17 4592210817784575, f 17 4923793715841738, f 18 52792732051386564, f 18 56603608932566496,
  f 17 6068888407648424, f 16 650681525454515, f 17 6976237383599078, f 17 7479395605471176,
  f 17 8018683635875941, f 17 8596658627603042, f 16 921604995776607, f 17 9879768394682226,
  f 16 1059091625146253, f 17 11352796283552669, f 17 12168921084762509, f 17 13043020221377194,
  f 16 1397905005337611, f 16 1498119790555557, f 17 16053885691799688, f 17 17201772770361545,
  f 16 1842975277991126, f 17 19742947581079354, f 17 21146692615710141, f 16 2264651872104287,
  f 17 24248120095176462, f 16 2595731253552638, f 16 2777997241725687, f 15 297219623350868,
  f 16 3178902436925295, f 16 3398664963328781, f 16 3631990826175788, f 17 38793226205647896,
  f 17 41410128027020116, f 16 4417288350773179, f 16 4708209165547885, f 16 5013617904020753,
  f 16 5333077663481848, f 16 5665799102609693, f 16 6010555744674922, f 16 6365588134887177,
  f 16 6728500595087253, f 16 7096156878296155, f 16 7464586742465493, f 16 7828923800384514,
  f 15 818340489446197, f 16 8521469823038503, f 16 8836015584462441, f 16 9119852912115983,
  f 16 9366400099555366, f 16 9570593892157333, f 16 9729900360421508, f 16 9845178150170439,
  f 16 9921024013413355, f 16 9965243830734712, f 16 9987335869086867, f 16 9996385193733257,
  f 16 9999250671691435, f 15 999989869559676, f 16 9999992430465457, f 16 9999999806163035, n 1, n 1, n 1,
  n 1, n 1, n 1, n 1, n 1]

/-- Row 51 of `ksi_sokolov.table`. -/
def ksi51 : List Tok := [
  f 18 4708550282604151, f 18 5048821046891565, f 18 5413681455967655, f 18 5804908718760908,
  f 18 6224407715766019, f 18 6674221284518844, f 18 7156539946859059, f 18 7673712633209345,
  f 16 82282576895726, f 18 8822874623800214, f 18 9460458847777626, f 17 1014411622072201,
  f 18 10877172175396995, f 18 11663198904322599, f 18 12506018892490305, f 18 13409737136581223,
  f 18 14378751272509668, f 18 15417777180642219, f 16 165318703936523, f 18 17726451346334857,
  f 18 19007330366094883, f 17 2038073753168537, f 18 21853349559333175, f 16 234323272813114,
  f 17 2512534060467702, f 18 26940617275621595, f 17 2888697093372854, f 15 30973850294298,
  f 17 3321137662299117, f 18 35610403292633944, f 18 38182550672948894, f 18 40940272487388574,
  f 17 4389691092477678, f 17 4706675060501929, f 17 5046509063280761, f 18 54108313282028336,
  f 17 5801394254142234, f 18 62200746348746394, f 16 666887902331776, f 17 7149953484212604,
  f 17 7665591865086699, f 17 8218245267063573, f 17 8810530133490577, f 17 9445239343344738,
  f 17 10125350694033411, f 17 10854036307956769, f 17 11634672533863556, f 17 12470848422256087,
  f 17 13366374082236515, f 17 14325286823153469, f 16 1535185727224987, f 16 1645059429072528,
  f 17 17626239809492283, f 16 1888377272872865, f 17 20228393402204162, f 17 21665513470321057,
  f 17 23200726023891516, f 16 2483978082380859, f 16 2658852662463139, f 17 28452851315266053,
  f 16 3043859496279114, f 17 32551436400607175, f 16 3479675205718141, f 16 3717942107228927,
  f 16 3970360389088172, f 17 42372437511006483, f 16 4518767329785009, f 17 48149230422626943,
  f 16 5125464761071674, f 16 5449842725622338, f 16 5787126177602325, f 16 6135914048466724,
  f 16 6494237505568525, f 16 6859450903649943, f 16 7228132652880747, f 16 7595997067563455,
  f 16 7957848694700741, f 16 8307610544609446, f 16 8638469935053825, f 16 8943198153982291,
  f 16 9214689945623277, f 16 9446744317377186, f 14 96350409215684, f 16 9778148936510419,
  f 16 9878270031889066, f 16 9941318853397986, f 16 9976023264457506, f 15 999208740633532,
  f 16 9998026000341304, f 16 9999660428339943, f 15 999996484263555, f 16 9999998279751466,
  f 16 9999999949102604, n 1, n 1, n 1, n 1, n 1, n 1, n 1]

/-- Row 52 of `ksi_sokolov.table`. -/
def ksi52 : List Tok := [
  f 18 9698288287129325, f 18 10318822192054147, f 18 10979057201445458, f 18 11681533626472734,
  f 17 1242895021804466, f 18 13224183808477152, f 18 14070290974144596, f 18 14970526032817564,
  f 17 1592834898270089, f 18 16947442247969863, f 18 18031722118771583, f 18 19185355695902923,
  f 18 20412775848198717, f 18 21718697563849993, f 18 23108136010611482, f 18 24586425016150153,
  f 18 26159241165611465, f 18 27832618506724176, f 18 29612976096847744, f 18 31507138376728805,
  f 18 33522369019805515, f 18 35666382397208526, f 17 3794738669647307, f 18 40374108047323144,
  f 18 42955821736349036, f 17 4570238744820667, f 17 4862428338525556, f 17 5173264342199838,
  f 17 5503929564799324, f 18 58556806946482576, f 17 6229852339787571, f 17 6627860912055356,
  f 17 7051210688608468, f 17 7501497090853589, f 17 7980412847510976, f 17 8489752029774084,
  f 17 9031416647713111, f 17 9607422571903755, f 17 10219894979923036, f 17 10871095463529669,
  f 17 11563405041091747, f 17 12299339371433161, f 16 1308155175057459, f 17 13912837636917708,
  f 17 14796136714690877, f 16 1573453644733762, f 13 1673127207577, f 17 17789726301506548,
  f 16 1891342681305553, f 17 20106041173028438, f 15 213713671928389, f 17 22713320491570926,
  f 17 24135917441265736, f 16 2564324954030598, f 16 2723945097267407, f 17 28928658716159183,
  f 17 30714958975779627, f 16 3260231624258545, f 15 345944980168971, f 16 3669495809107635,
  f 16 3890672090206436, f 17 41232212273369523, f 16 4367307657756923, f 17 46229939402463543,
  f 17 48902135295507915, f 16 5168738068580148, f 16 5458138762880091, f 16 5757742320133978,
  f 15 606658086646494, f 16 6383336501290942, f 16 6706283135831658, f 16 7033231369783891,
  f 16 7361454046696976, f 16 7687688726448858, f 16 8008082364576076, f 16 8318242652291865,
  f 16 8613327499462363, f 16 8888230170038937, f 16 9137873642889656, f 16 9357628233494828,
  f 16 9543839594829187, f 16 9694411730241443, f 16 9809335382018118, f 16 9890996213538571,
  f 16 9944078498458631, f 14 99749438116394, f 16 9990538353253018, f 16 9997129006848096,
  f 15 999934406375551, f 16 9999897064550678, f 16 9999990368785808, f 16 9999999725675874,
  f 16 9999999951786279, n 1, n 1, n 1, n 1, n 1, n 1, n 1]

/-- Row 53 of `ksi_sokolov.table`. -/
def ksi53 : List Tok := [
  f 18 9274044190576002, f 18 9867434812791202, f 18 10498790926448984, f 18 11170540148555466,
  f 18 11885266261872045, f 18 12645717783938722, f 17 1345481933348537, f 18 14315681102365942,
  f 17 1523161438207461, f 18 16206139016119954, f 17 1724300227004838, f 16 183461876264135,
  f 18 19519935178669824, f 18 20768755185609947, f 18 22097443409514944, f 17 2351110364308471,
  f 18 25015161503134938, f 17 2661539256424446, f 18 28317934814524093, f 18 30129318700071114,
  f 17 3205648769681504, f 16 341068287371018, f 17 3628819257850157, f 18 38608926609342384,
  f 17 4107790812220387, f 17 4370457397389798, f 18 46498949145245584, f 17 4947169199748909,
  f 17 5263412858560806, f 17 5599828957730512, f 16 595769526679092, f 17 6338368972093357,
  f 16 674329060664074, f 17 7173989509430322, f 17 7632087619317626, f 17 8119305630418731,
  f 16 863746771257149, f 17 9188506201952562, f 17 9774468026448833, f 17 10397518553357195,
  f 17 11059948692523681, f 17 11764178023514449, f 16 1251276144092277, f 17 13308392009765158,
  f 17 14153906028814983, f 16 1505228455589722, f 16 1600665764872778, f 17 17020303127753553,
  f 16 1809664600838575, f 15 192392556295651, f 17 20451839374203834, f 17 21738232814375189,
  f 17 23102381899495159, f 17 24548333496015906, f 16 2608019794281243, f 17 27702120525534574,
  f 17 29418235302828416, f 16 3123260984635399, f 16 3314917149454239, f 17 35171620025603345,
  f 17 37303317323847485, f 17 39547149537156134, f 17 41905361140139613, f 16 4437935525649276,
  f 16 4696944446053318, f 16 4967457104949844, f 15 524919537982947, f 16 5541669605007671,
  f 16 5844131974313884, f 16 6155524541257147, f 16 6474424735615715, f 16 6798981518903513,
  f 16 7126860989459267, f 16 7455192919933428, f 16 7780536344888556, f 16 8098874915263957,
  f 16 8405662468509302, f 16 8695937338128344, f 16 8964536277977175, f 16 9206423248934376,
  f 16 9417144981226444, f 16 9593388525495039, f 16 9733572869116902, f 16 9838349190833645,
  f 16 9910821459258862, f 16 9956312784565141, f 16 9981577067320938, f 16 9993584829910926,
  f 16 9998257062562097, f 16 9999658781078135, f 16 9999957184966719, f 16 9999997108363478, n 1, n 1,
  n 1, n 1, n 1, n 1, n 1, n 1]

/-- Row 54 of `ksi_sokolov.table`. -/
def ksi54 : List Tok := [
  f 18 8870494504631638, f 18 9438066824440356, f 17 1004195276571875, f 18 10684474096548704,
  f 18 11368103128647023, f 18 12095468632289127, f 17 1286936855560217, f 18 13692777491445707,
  f 18 14568862931690383, f 17 1550099188743301, f 17 1649274845841812, f 18 17547945604385974,
  f 17 1867063656869998, f 18 19865137092509585, f 18 21136035200999586, f 18 22488213169912816,
  f 18 23926865438880836, f 17 2545750922926249, f 18 27086023851904895, f 18 28818656377251957,
  f 18 30662051067575993, f 17 3262327428896971, f 17 3470983898126276, f 17 3692973657437927,
  f 17 3929145946584951, f 17 4180404976705626, f 17 4447708217577477, f 17 4732078139092606,
  f 17 5034598377123109, f 18 53564210235165756, f 17 5698769861915923, f 17 6062944848585387,
  f 17 6450326123674348, f 17 6862379300739853, f 17 7300659130810935, f 17 7766815660741921,
  f 16 826259814741711, f 17 8789860526685343, f 17 9350568053462045, f 17 9946800381077897,
  f 17 10580758721224683, f 17 11254771542017945, f 17 11971292593353423, f 17 12732920627811353,
  f 17 13542386162409778, f 17 14402569487034603, f 17 15316493645051854, f 17 16287332760889217,
  f 16 1731840681078846, f 17 18413184448778994, f 17 19575277053948442, f 17 20808432528585233,
  f 17 22116521369638378, f 16 2350352587586564, f 16 2497351642555402, f 17 26530623144959303,
  f 16 2817899889601286, f 16 2992277358316265, f 16 3176599081006873, f 16 3371253332440819,
  f 17 35766028832223734, f 17 37929734053524894, f 16 4020638759142128, f 16 4259803556913785,
  f 17 45105816663521275, f 17 47729713710051125, f 16 5046824112784675, f 16 5331808961649905,
  f 16 5627371017947262, f 16 5932682721592054, f 16 6246591659166436, f 16 6567561277341007,
  f 16 6893611576858748, f 16 7222259986120968, f 16 7550473686412777, f 16 7874639772404954,
  f 16 8190571829448634, f 15 849357036575466, f 16 8778562422515014, f 15 904034545619152,
  f 16 9273954420883811, f 16 9475155456393443, f 16 9641028268718466, f 16 9770569553679581,
  f 15 986513873449854, f 16 9928583257555904, f 16 9966841078273962, f 16 9986982453143963,
  f 15 999588769159334, f 16 9999024299859113, f 16 9999842351534667, f 16 9999985058724695,
  f 16 9999999383995695, f 16 9999999891701672, n 1, n 1, n 1, n 1, n 1, n 1]

/-- Row 55 of `ksi_sokolov.table`. -/
def ksi55 : List Tok := [
  f 18 8486795523479819, f 18 9029819007223005, f 18 9607584716656499, f 18 10222316357121505,
  f 18 10876376758996817, f 17 1157228370501458, f 17 1231271215441762, f 18 13100509892033806,
  f 17 1393870638633758, f 18 14830524420479265, f 17 1577939246751082, f 17 1678895863419053,
  f 17 1786310306161229, f 18 19005954823106245, f 17 2022190136876018, f 18 21515617414643133,
  f 17 2289207146357982, f 18 24356548766100158, f 18 25914670370463657, f 18 27572416259858033,
  f 17 2933614662922942, f 17 3121262391226843, f 16 332090383197433, f 16 353330407228288,
  f 17 3759276171926898, f 18 39996845496281505, f 17 4255448660022425, f 18 45275450267076835,
  f 17 4817012326279769, f 17 5124953810120169, f 17 5452541760249647, f 17 5801021460735685,
  f 18 61717157127925686, f 17 6566028443074089, f 17 6985450743127154, f 16 743156435757739,
  f 17 7906047345418066, f 17 8410678783002196, f 17 8947344731986456, f 17 9518042298494127,
  f 17 10124886398994999, f 17 10770113753197395, f 17 11456089592200373, f 17 12185310320133208,
  f 17 12960412697508614, f 16 1378416970084367, f 17 14659501651961568, f 17 15589479817150273,
  f 16 1657732060095836, f 17 17626388418493827, f 17 18740196230885908, f 17 19922397523710716,
  f 17 21176779478673438, f 17 22507251389802818, f 17 23917827467813968, f 16 2541260317439196,
  f 15 269957254812578, f 16 2867135394727236, f 17 30443608477886386, f 17 32316505511716914,
  f 16 3429387748243357, f 16 3637927046118634, f 14 38575825540786, f 17 40886117998459864,
  f 16 4331198179159821, f 17 45854271259612506, f 17 48512607795363044, f 16 5128504972235984,
  f 16 5416772041188384, f 16 5715436899493656, f 16 6023587634916044, f 16 6339969998004465,
  f 16 6662927997410998, f 16 6990343374759947, f 16 7319577970480394, f 16 7647428608605211,
  f 15 797010467538594, f 16 8283246278979864, f 16 8582002536994778, f 16 8861199120364597,
  f 16 9115614700655531, f 16 9340388702250889, f 16 9531553700796056, f 16 9686647716842953,
  f 15 980530317809841, f 16 9889643088636932, f 16 9944274357976808, f 16 9975713547557816,
  f 16 9991250984016097, f 16 9997547363893732, f 15 999950959665173, f 16 9999938691742143,
  f 16 9999995959435504, n 1, n 1, n 1, n 1, n 1, n 1, n 1]

/-- Row 56 of `ksi_sokolov.table`. -/
def ksi56 : List Tok := [
  f 18 8122139234456401, f 18 8641831437151689, f 17 919477347610821, f 18 9783093923022717,
  f 18 10409054011730513, f 18 11075062419665422, f 18 11783681702697639, f 18 12537633866951566,
  f 18 13339821159539852, f 17 1419332707434159, f 18 15101434316837782, f 18 16067632857495708,
  f 16 170956372136644, f 18 18189399025652135, f 17 1935312023780785, f 17 2059127394512756,
  f 16 219086139838063, f 17 2331020204814524, f 17 2480141843763538, f 18 26387987285086307,
  f 18 28075996929793044, f 17 2987192289483737, f 18 31782648298215734, f 18 33815499615112876,
  f 16 359782615180875, f 16 382792105277855, f 16 407271516484911, f 17 4333144122584323,
  f 17 4610202128328386, f 17 4904946524222907, f 17 5218500294057243, f 17 5552056887370393,
  f 17 5906883529496657, f 17 6284326480188569, f 17 6685814981262386, f 17 7112866207850706,
  f 17 7567088834290811, f 16 805019105778257, f 17 8563982572371044, f 16 911038161189051,
  f 17 9691421795247458, f 17 10309246689424217, f 17 10966137551370406, f 17 11664495133306416,
  f 17 12406857738588277, f 17 13195901177456174, f 17 14034444522748507, f 17 14925452902077016,
  f 17 15872040235219084, f 17 16877467010368385, f 17 17945145403913892, f 17 19078632612143295,
  f 17 20281624421089714, f 17 21557949547715324, f 17 22911553919648286, f 17 24346483252485862,
  f 17 25866858620339683, f 17 27476841913872385, f 16 2918059520263707, f 16 3098222624437248,
  f 16 3288571658488695, f 16 3489484418644896, f 17 37013063249963496, f 17 39243386522177753,
  f 17 41588214190500744, f 16 4404914354720586, f 16 4662672565882629, f 17 49320190364208494,
  f 16 5212710474360636, f 16 5504298070521779, f 16 5806081794633131, f 16 6117058929873718,
  f 16 6435866906057346, f 16 6760722514543063, f 16 7089365110063932, f 16 7418979422135895,
  f 15 774619679996365, f 16 8067037938245507, f 16 8376966729674812, f 16 8670984479079192,
  f 16 8943826293301707, f 15 919027658546937, f 16 9405622313099951, f 16 9586208262799147,
  f 16 9730106478410475, f 16 9837654581109793, f 16 9911789837087953, f 16 9957888588049961,
  f 16 9982990329928852, f 16 9994485372729157, f 16 9998669669158584, f 16 9999786777086686,
  f 15 999998075713139, f 16 9999996248679335, f 16 9999999969789577, n 1, n 1, n 1, n 1, n 1]

/-- Row 57 of `ksi_sokolov.table`. -/
def ksi57 : List Tok := [
  f 18 7775755937463747, f 18 8273286050228298, f 17 880264885016224, f 17 936588121936583,
  f 18 9965147977130428, f 18 10602756141460116, f 18 11281157344909074, f 18 12002961426657981,
  f 18 12770943265396713, f 18 13588056485399779, f 18 14457443482773029, f 18 15382446761468044,
  f 17 1636662167896576, f 18 17413752130648663, f 17 1852786246342287, f 17 1971323310480167,
  f 18 20974419762676968, f 16 223162650960568, f 16 237439237324998, f 18 25262875880692173,
  f 18 26878953119362756, f 17 2859835477953836, f 18 30427675966191677, f 18 32373928578383206,
  f 17 3444457244233696, f 17 3664753710691176, f 17 3899125301506654, f 17 4148468138520345,
  f 18 44137355670566064, f 17 4695940201842876, f 17 4996158028618105, f 18 53155331270733464,
  f 18 56552802615248476, f 17 6016689968357761, f 17 6401132740085196, f 17 6810063377283442,
  f 17 7245026311143124, f 17 7707659718722233, f 17 8199701019202447, f 16 872299222739011,
  f 17 9279484876382213, f 16 987124603729975, f 17 10500462659909869, f 17 11169446862159649,
  f 17 11880643391740062, f 16 1263663110210034, f 17 13440129477506443, f 17 14294002299378203,
  f 17 15201258718618693, f 17 16165059764859144, f 16 1718871309252246, f 17 18275676383700284,
  f 16 1942955221809968, f 17 20654081262252147, f 16 2195313302215349, f 15 233306882873795,
  f 17 24790826890928466, f 15 263376919918844, f 17 27975459842612604, f 17 29708291801906694,
  f 17 31540278399106747, f 17 33475364378174016, f 16 3551725748358249, f 15 376693180124171,
  f 16 3993441384639702, f 16 4231475254914453, f 16 4481167671594472, f 17 47425405116178126,
  f 16 5015474628241817, f 16 5299673539165183, f 16 5594622670050206, f 16 5899541326846014,
  f 16 6213329075833538, f 15 653450851672295, f 16 6861159363157958, f 16 7190861459003118,
  f 16 7520638492829084, f 16 7846921720200513, f 15 816554536146264, f 16 8471794007720552,
  f 15 876052512702114, f 16 9026398667714196, f 16 9264232952316308, f 16 9469501935873685,
  f 16 9638947719834035, f 16 9771232480921026, f 16 9867482508154146, f 16 9931500580896172,
  f 16 9969429429160166, f 16 9988750710940582, f 16 9996805276300437, f 16 9999365688597792,
  f 16 9999924501117369, f 16 9999995478367194, f 16 9999999876092456, f 16 9999999946022387, n 1, n 1,
  n 1, n 1]

/-- Row 58 of `ksi_sokolov.table`. -/
def ksi58 : List Tok := [
  f 18 7446909284336197, f 17 792339960121179, f 17 843037621278769, f 17 896978960990297,
  f 18 9543715244754116, f 18 10154361093878758, f 17 1080407470187798, f 17 1149535619669454,
  f 17 1223086370155155, f 18 13013426439687455, f 17 1384605229886555, f 17 1473194461804783,
  f 18 15674508078678335, f 18 16677366467056656, f 18 17744374491796163, f 17 1887963286250571,
  f 17 2008750423547459, f 18 21372629210829684, f 18 22739942693788255, f 18 24194698989943003,
  f 18 25742476130437935, f 16 273892212976016, f 18 29141247546210922, f 18 31005275587234954,
  f 17 3298845158086926, f 17 3509837267788629, f 18 37343119067047965, f 18 39731278786706146,
  f 18 42271993231252365, f 18 44974944955141094, f 17 4785047502205477, f 17 5090953888856549,
  f 17 5416378581362969, f 18 57625591087761774, f 17 6130810170000336, f 17 6522527160836995,
  f 17 6939191872232285, f 17 7382376648351412, f 17 7853749734392804, f 17 8355080242248122,
  f 17 8888242204387048, f 16 945522317680347, f 17 10058125710996223, f 17 10699175575854818,
  f 16 1138072669671399, f 16 1210526004828644, f 17 12875403179119727, f 17 13693916159684877,
  f 17 14563711101439797, f 16 1548784351948545, f 16 1646952152691465, f 16 1751210059955683,
  f 17 18619086607114416, f 17 19794127861453298, f 17 21041009867379865, f 17 22363642813977855,
  f 17 23766047570204932, f 16 2525233155888887, f 16 2682666136645918, f 16 2849322362928462,
  f 16 3025617808785654, f 16 3211959241740578, f 17 34087366576408146, f 17 36163133704315387,
  f 17 38350143433529593, f 16 4065110771138171, f 16 4306802438468818, f 17 45601952706268695,
  f 16 4825275590285341, f 16 5101878245714382, f 16 5389649338601504, f 16 5688003217015605,
  f 16 5996072104838955, f 16 6312651371688266, f 16 6636137765535114, f 15 696446721960719,
  f 15 729505271235899, f 16 7624733927342161, f 16 7949745405630678, f 16 8265723358310173,
  f 16 8567770602277541, f 16 8850607130520352, f 16 9108835133562573, f 16 9337342497661716,
  f 16 9531847906216095, f 16 9689555151904597, f 16 9809815631333904, f 16 9894623093741627,
  f 15 994869502778983, f 16 9978916946337375, f 16 9993098368490233, f 15 999834887011001,
  f 16 9999747612724702, f 16 9999980334499687, f 16 9999999423256682, n 1, n 1, n 1, n 1, n 1]

/-- Row 59 of `ksi_sokolov.table`. -/
def ksi59 : List Tok := [
  f 19 71348939396175745, f 18 7591420261591429, f 18 8077155886787339, f 17 859397099712139,
  f 18 9143851699536156, f 18 9728913880689617, f 18 10351408673759221, f 18 11013728930725162,
  f 18 11718423964005138, f 17 1246820305619997, f 18 13265949635199338, f 17 1411473101816777,
  f 18 15017811324741738, f 18 15978661982592377, f 17 1700097757545693, f 17 1808868678864825,
  f 17 1924597093199956, f 18 20477272740666762, f 18 21787327012502865, f 17 2318116288348869,
  f 18 24664134449932953, f 18 26241932132440294, f 17 2792061285116921, f 17 2970661680454474,
  f 17 3160678983535953, f 17 3362841523420143, f 17 3577924095021947, f 18 38067496261915294,
  f 17 4050194038509327, f 18 43091877421942294, f 17 4584720168488391, f 17 4877842715402826,
  f 17 5189672756579681, f 17 5521397195864827, f 17 5874277230609718, f 18 62496521126729467,
  f 16 664894362800718, f 17 7073661445774806, f 16 752540747239449, f 17 8005880689907821,
  f 16 851688251773108, f 17 9060322655376817, f 17 9638223730325154, f 17 10252726402420625,
  f 17 10906095942837032, f 17 11600726600532069, f 17 12339146289754818, f 17 13124023879476754,
  f 15 139581671434313, f 17 14844532105807662, f 17 15786227070890252, f 16 1678650824859346,
  f 17 17848779107638352, f 17 18976595389306453, f 17 20173652438908604, f 17 21443781209883658,
  f 16 2279093421925625, f 17 24219169129204632, f 16 2573262320618688, f 17 27335484021481005,
  f 17 29031947341182973, f 16 3082616563915459, f 17 32722179738490104, f 16 3472383795651796,
  f 15 368346886436094, f 17 39057858442385834, f 16 4139588718318356, f 17 43850540111307645,
  f 17 46422572929429884, f 17 49111455134821974, f 16 5191503730166317, f 16 5482915743529752,
  f 16 5784718740938509, f 16 6095951263745685, f 16 6415295388854291, f 16 6741013809086619,
  f 16 7070886458184943, f 16 7402149072367625, f 16 7731445299407924, f 16 8054802742863006,
  f 16 8367651753467353, f 16 8664912864719999, f 16 8941175593278756, f 16 9191008009650509,
  f 15 940940921207263, f 16 9592408926312528, f 16 9737760804262835, f 16 9845606120472059,
  f 16 9918896271734896, f 16 9963303130329701, f 16 9986403134230039, f 16 9996173841909607,
  f 16 9999273639108314, f 16 9999923142012468, f 16 9999996303355709, f 16 9999999804200544,
  f 16 9999999896404143, n 1, n 1, n 1]

/-- Row 60 of `ksi_sokolov.table`. -/
def ksi60 : List Tok := [
  f 18 6839031427861218, f 18 7276627725738119, f 18 7742222730483592, f 18 8237607796762992,
  f 16 87646883170749, f 18 9325491341215315, f 18 9922175487544881, f 18 10557034572866919,
  f 17 1123251145162619, f 18 11951204602368695, f 17 1271587534649567, f 18 13529467015820033,
  f 18 14395107163203188, f 18 15316123977263979, f 18 16296058713749912, f 17 1733867781348678,
  f 17 1844798844256246, f 18 19628253799593424, f 18 20884009349560487, f 18 22220078216926734,
  f 17 2364159141464378, f 18 25154007344700906, f 18 26763131969689467, f 18 28475139800171276,
  f 16 302965958372764, f 16 322344846066641, f 17 3429623602642303, f 17 3648974316521247,
  f 17 3882340324185292, f 17 4130614381704213, f 18 43947454836733645, f 17 4675742174648062,
  f 17 4974676501292468, f 17 5292687535062559, f 18 56309855959519976, f 18 59908561156786395,
  f 17 6373664192364056, f 17 6780859251243149, f 16 721398018512494, f 17 7674658761230226,
  f 17 8164626829141469, f 17 8685720007477472, f 17 9239883354990013, f 17 9829179279998199,
  f 17 10455781424814146, f 16 1112200344755387, f 16 1183027958375368, f 17 12583183832081057,
  f 17 13383428763639427, f 17 14233872954439405, f 17 15137522280364113, f 17 16097532511328116,
  f 17 17117210638437444, f 17 18200012882584762, f 17 19349543647519835, f 17 20569547850353675,
  f 17 21863902071947758, f 17 23236601631185202, f 17 24691740987234095, f 16 2623348686370065,
  f 17 27866046468796535, f 16 2959362125954784, f 17 31420352659069806, f 16 3335024793519898,
  f 17 35387097143975343, f 17 37534351772870983, f 16 3979500210363004, f 16 4217139666715965,
  f 16 4466504669148119, f 16 4727637284441053, f 14 50004416090012, f 16 5284648316598107,
  f 16 5579773408040222, f 16 5885070341197978, f 16 6199475680483605, f 16 6521549107803224,
  f 16 6849408693919541, f 16 7180670394090725, f 16 7512366942356392, f 15 784094635528385,
  f 16 8162213155282213, f 16 8471385372912216, f 16 8763198903497121, f 16 9032125617528772,
  f 16 9272727809467665, f 16 9480172075823365, f 15 965086812434723, f 16 9783235025791355,
  f 16 9878316299073453, f 16 9940115190427001, f 16 9975281554018856, f 16 9991987816436758,
  f 16 9998159632798433, f 16 9999747239253015, f 16 9999984705113815, f 16 9999999857371367, n 1, n 1,
  n 1, n 1]

/-- Row 61 of `ksi_sokolov.table`. -/
def ksi61 : List Tok := [
  f 18 6558669244030212, f 18 6978327216696557, f 18 7424836372383218, f 18 7899914001729638,
  f 17 840538815920747, f 18 8943203421173463, f 18 9515429215202148, f 18 10124264711518111,
  f 17 1077205375772758, f 18 11461287422631144, f 18 12194616419753125, f 18 12974861034129417,
  f 18 13805021417263363, f 18 14688290083126072, f 18 15628063232750285, f 17 1662795267585769,
  f 18 17691802845293165, f 17 1882370234916002, f 18 20028000040983387, f 18 21309324300214556,
  f 18 22672595394031887, f 18 24123049926507996, f 17 2566625551300336, f 18 27308136700152384,
  f 18 29054992226436822, f 16 309135216692201, f 17 3289085104716357, f 17 3499455636842746,
  f 17 3723269555004706, f 17 3961383170102094, f 18 42147073296060746, f 17 4484210114169575,
  f 18 47709204587836854, f 17 5075931764243579, f 18 54004058301693844, f 18 57455771384089645,
  f 18 61127569058843416, f 17 6503337049636326, f 17 6918796136450642, f 17 7360702541065575,
  f 17 7830720752603909, f 17 8330616028858184, f 17 8862259365698583, f 17 9427633286260267,
  f 17 10028837792834129, f 17 10668093793214391, f 17 11347750834467346, f 16 1207029136225721,
  f 16 1283833484510661, f 16 1365464342231099, f 17 14522124927837488, f 17 15443836387737253,
  f 17 16422985054096487, f 17 17462930646643185, f 16 1856718238184951, f 17 19739395830562084,
  f 16 2098336630087796, f 17 22303018363123428, f 17 23702387232219382, f 17 25185606610209843,
  f 16 2675687191976142, f 17 28420406971743667, f 15 301804160635226, f 16 3204102504880061,
  f 16 3400620250152391, f 16 3607966550889988, f 17 38264764622762454, f 17 40564331585794955,
  f 16 4298050567476757, f 16 4551451686710074, f 16 4816641756656149, f 16 5093477961139746,
  f 16 5381631396445526, f 15 568054400599101, f 16 5989377921580582, f 16 6306958441283547,
  f 16 6631713322853804, f 16 6961602554108391, f 16 7294056628561983, f 16 7625916726482612,
  f 15 795339468560469, f 15 827206912357275, f 16 8576936957088022, f 16 8862551891815007,
  f 16 9123283614816958, f 16 9353725561482178, f 16 9549270445857135, f 16 9706827140174491,
  f 16 9825583890529873, f 16 9907626113720662, f 16 9958103737591258, f 16 9984638412262784,
  f 15 999583729920974, f 16 9999281314619253, f 16 9999939408776387, f 16 9999996284986145, n 1, n 1, n 1,
  n 1]

/-- Row 62 of `ksi_sokolov.table`. -/
def ksi62 : List Tok := [
  f 18 6293178677092269, f 17 669584988312565, f 19 71242851144324125, f 18 7580132686304463,
  f 18 8065147252579041, f 18 8581193460005188, f 17 913025699410273, f 16 97144500652164,
  f 18 10336020139170801, f 18 10997356912653808, f 18 11701005486380632, f 18 12449670741961223,
  f 18 13246233766820433, f 18 14093754756616056, f 17 1499549547818277, f 18 15954921295479037,
  f 18 16975719885974554, f 18 18061816671639388, f 18 19217384638657974, f 18 20446864241320833,
  f 18 21754979577555136, f 18 23146753758869425, f 18 24627533637583483, f 18 26203000940607034,
  f 17 2787920466158204, f 18 29662574602685236, f 18 31559949874316734, f 17 3357860355015593,
  f 17 3572627051780737, f 17 3801117211906749, f 17 4044205429658547, f 17 4302821910450784,
  f 17 4577952270808155, f 17 4870649167664531, f 18 51820277277842636, f 17 5513273717063801,
  f 17 5865646549858795, f 15 62404845992486, f 17 6639208007828425, f 17 7063325183952227,
  f 17 7514436414236338, f 17 7994239713793676, f 17 8504535419335968, f 17 9047231369179505,
  f 17 9624350086713439, f 17 10238031469864545, f 17 10890540689217942, f 17 11584273177813824,
  f 16 1232175366920073, f 17 13105655650601283, f 17 13938787584614615, f 17 14824112123284544,
  f 17 15764737476854215, f 16 1676392684566304, f 17 17825092893416558, f 17 18951799217927323,
  f 17 20147754714436777, f 17 21416807250272216, f 16 2276292676001247, f 17 24190196402421046,
  f 16 2570278203351166, f 17 27304908234884423, f 17 29000813659617863, f 17 30794702446081035,
  f 17 32690679211267176, f 17 34692663934074397, f 17 36804295632104433, f 17 39028802341543034,
  f 16 4136884579969171, f 16 4382633065306935, f 16 4640217147681043, f 17 49096020606606033,
  f 16 5190593009758979, f 16 5482795820087938, f 16 5785571231521388, f 16 6097981245823757,
  f 16 6418730522766659, f 16 6746100334507494, f 15 707788142015116, f 16 7411306839799107,
  f 16 7742996810279975, f 16 8068925023667248, f 16 8384425623317064, f 16 8684267760239075,
  f 16 8962827160146669, f 16 9214392754744818, f 16 9433638122199689, f 16 9616268168081249,
  f 16 9759800632155318, f 16 9864355244349057, f 16 9933203826801414, f 16 9972730000294066,
  f 16 9991467952460932, f 15 999820461021696, f 16 9999800676416236, f 16 9999995279642476, n 1, n 1, n 1,
  n 1]

/-- Row 63 of `ksi_sokolov.table`. -/
def ksi63 : List Tok := [
  f 17 604194351290675, f 18 6428539966592892, f 17 683987215647309, f 18 7277522420298991,
  f 18 7743174808907544, f 18 8238620414814789, f 18 8765766849115961, f 18 9326639769772336,
  f 18 9923397591273427, f 18 10558336126891785, f 18 11233896455500294, f 18 11952678361571685,
  f 18 12717445771125244, f 18 13531139191474842, f 18 14396888252295174, f 17 1531802172142152,
  f 17 1629807999363126, f 18 17340831525763847, f 18 18450284105051732, f 18 19630703540412058,
  f 17 2088661861525056, f 17 2222286064022285, f 18 23644560171805627, f 18 25157176035457245,
  f 18 26766513891215992, f 18 28478751870416763, f 18 30300456185912688, f 18 32238614105013115,
  f 18 34300651859172276, f 18 36494471281926184, f 17 3882846913240942, f 17 4131157585964176,
  f 17 4395328467597572, f 18 46763685088219646, f 18 49753502896440045, f 17 5293413193995978,
  f 17 5631768282949792, f 18 59917015316112016, f 17 6374579005268019, f 17 6781850883991872,
  f 17 7215057034892224, f 17 7675831248414636, f 17 8165906140060711, f 16 868711872184775,
  f 17 9241417361780434, f 17 9830863866964586, f 17 10457642313092891, f 17 11124061774421078,
  f 16 1183256421114504, f 17 12585727254385112, f 17 13386271800150246, f 16 1423706040793413,
  f 17 15141105587041342, f 17 16101577202949455, f 16 1712179161322045, f 17 18205217837632245,
  f 16 1935547729653881, f 16 2057633250197024, f 17 21871683937401312, f 17 23245551760933586,
  f 17 24702061715175855, f 17 26245416508224345, f 17 27879866249768254, f 17 29609662540802545,
  f 16 3143900462372155, f 16 3337196851311263, f 16 3541242019336748, f 17 37563904687737637,
  f 17 39829514307050706, f 16 4221171723682207, f 17 44712156694659516, f 15 473314023817601,
  f 16 5006865659308138, f 16 5292140066753788, f 16 5588497406156584, f 16 5895208645828166,
  f 16 6211226410408492, f 16 6535122070945909, f 16 6865017964643828, f 16 7198518298828411,
  f 16 7532641976320766, f 16 7863770445167897, f 16 8187621041172908, f 16 8499270028738743,
  f 16 8793253221299501, f 16 9063775519174402, f 16 9305076287258722, f 16 9511972663116549,
  f 16 9680587543452275, f 16 9809198055106547, f 16 9899034919829557, f 16 9954720991242326,
  f 15 998393415348734, f 16 9995972991362843, f 16 9999417558390826, f 16 9999967418105247,
  f 16 9999999656752968, n 1, n 1, n 1]

/-- Row 64 of `ksi_sokolov.table`. -/
def ksi64 : List Tok := [
  f 18 5804377214163499, f 18 6175773056897954, f 18 6570932176623275, f 18 6991375137291251,
  f 18 7438719346490597, f 18 7914685752253386, f 18 8421105838487625, f 17 895992733370461,
  f 18 9533222700874271, f 17 1014319833488063, f 17 1079219948020864, f 18 11482722859941813,
  f 18 12217425399738677, f 18 12999130154321708, f 16 138308444874313, f 18 14715767075050006,
  f 17 1565730061827816, f 17 1665906361206156, f 17 1772490776701707, f 18 18858928664459457,
  f 17 2006548531217211, f 18 21349213633042086, f 17 2271504367344758, f 17 2416822231039469,
  f 18 25714327754450254, f 17 2735929601624868, f 18 29109439022441258, f 17 3097146925660267,
  f 18 32952524440559613, f 16 350602018358678, f 17 3730256934376323, f 18 39688210592819885,
  f 17 4222625373183391, f 18 44926397561116965, f 17 4779895449730051, f 17 5085488237797659,
  f 17 5410582436905592, f 17 5756415438135328, f 17 6124301184358167, f 17 6515635170120462,
  f 17 6931898851861294, f 17 7374665529454767, f 17 7845602923682846, f 17 8346481518996525,
  f 17 8879177389470722, f 17 9445678508860138, f 17 10048093250450672, f 17 10688642774003713,
  f 16 1136969173152377, f 17 12093728098727959, f 17 12863381352634817, f 17 13681423985039481,
  f 17 14550775837162708, f 17 15474508005159876, f 17 16455843240362955, f 16 1749815873693941,
  f 16 1860498290672906, f 17 19779994366574824, f 17 21027013832469565, f 17 22349993940270033,
  f 16 2375300609108489, f 16 2524021981639055, f 16 2681587476891393, f 16 2848424345770396,
  f 17 30249586573270926, f 17 32116094944439005, f 16 3408780798837963, f 16 3616852763074709,
  f 16 3836169072970338, f 16 4067023582377499, f 16 4309641140625393, f 16 4564157062045383,
  f 17 48305896625292727, f 15 510880942740673, f 16 5398501010004805, f 16 5699118551577942,
  f 16 6009834425851986, f 15 632947981572117, f 16 6656479545680039, f 16 6988781390304569,
  f 15 732378915716276, f 16 7658274861164611, f 16 7988373641888767, f 15 830952347135919,
  f 16 8616528832742255, f 16 8903686718083542, f 16 9165046673116511, f 16 9394841130167272,
  f 16 9588114933047797, f 16 9741544719007863, f 16 9854354953096882, f 16 9929102028157951,
  f 16 9971930524647047, f 16 9991815058914476, f 16 9998526548242783, f 16 9999884048407026,
  f 16 9999997409060299, f 15 999999932931093, n 1, n 1]

/-- Row 65 of `ksi_sokolov.table`. -/
def ksi65 : List Tok := [
  f 18 5579902148054209, f 18 5936935323969765, f 18 6316813295030103, f 18 6720996815416912,
  f 18 7151041290328341, f 18 7608601664243578, f 17 809543750071813, f 16 86134224056049,
  f 17 916454854707792, f 18 9750936817729924, f 18 10374841133320867, f 18 11038663057684774,
  f 18 11744955263636937, f 18 12496434027759386, f 18 13295989992760698, f 18 14146696704612192,
  f 18 15051826437073465, f 16 160148585528375, f 17 1703949573086075, f 18 18129676315362366,
  f 18 19289589900393627, f 18 20523693841758336, f 17 2183673100433154, f 17 2323374298293663,
  f 18 24720096202064137, f 17 2630149561971983, f 18 27984013223046313, f 18 29774102949914748,
  f 17 3167862958016781, f 17 3370489707114352, f 17 3586066767936589, f 17 3815419877181344,
  f 17 4059426596252663, f 17 4319020262340306, f 17 4595192851422059, f 16 488899879602251,
  f 17 5201558442953868, f 17 5534062518759685, f 18 58877757496870416, f 17 6264041765180191,
  f 17 6664287130713317, f 17 7090026584636436, f 17 7542867397607066, f 17 8024514785250729,
  f 17 8536777496393887, f 17 9081572993036233, f 17 9660932138523959, f 17 10277006241993682,
  f 17 10932070950514797, f 15 116285328776073, f 17 12368935160273449, f 17 13155960417607268,
  f 17 13992437601433427, f 17 14881344521624976, f 17 15825810700176507, f 16 1682912001013381,
  f 17 17894709876008025, f 16 1902617114005743, f 17 20227241692526576, f 17 21501801824305455,
  f 17 22853860586962246, f 17 24287537648186058, f 16 2580704900866896, f 17 27416667421024604,
  f 17 29120688625226004, f 17 30923378706009425, f 17 32828911093535335, f 17 34841283497174597,
  f 17 36964215921727683, f 17 39201027978072345, f 17 41554477441709176, f 16 4402656900114075,
  f 16 4661832640379378, f 16 4932950108502251, f 16 5215824269708107, f 16 5510069078984524,
  f 16 5815050165867728, f 16 6129830051202779, f 16 6453105094576421, f 16 6783139262138044,
  f 16 7117686051961927, f 16 7453920323208549, f 16 7788370949143458, f 16 8116877461944162,
  f 16 8434587199145336, f 16 8736018388637135, f 16 9015229510179178, f 16 9266137294366641,
  f 15 948302750313173, f 16 9661284622172422, f 16 9798315023631614, f 16 9894525128321218,
  f 16 9954049326589787, f 16 9984712394460122, f 16 9996633302363237, f 15 999965174650314,
  f 16 9999991459882578, n 1, n 1, n 1]

/-- Row 66 of `ksi_sokolov.table`. -/
def ksi66 : List Tok := [
  f 18 5367955209813705, f 19 57114270750710655, f 17 607687577215077, f 17 646570797350399,
  f 18 6879418429237168, f 18 7319599104340007, f 18 7787943996178457, f 18 8286255597545223,
  f 18 8816449240106841, f 18 9380565523289312, f 17 998077436468915, f 18 10619384702444811,
  f 17 1129885211491152, f 18 12021791498126851, f 18 12790981799660183, f 18 13609383219837817,
  f 18 14480138599290109, f 18 15406600530198515, f 18 16392329209063673, f 18 17441113504416135,
  f 18 18556986111490655, f 18 19744234056846884, f 18 21007419614087437, f 16 223513972140356,
  f 18 23781327314740218, f 17 2530270402012183, f 18 26921361430983313, f 17 2864351760865103,
  f 18 30475778055481764, f 17 3242516965383679, f 17 3449916354826359, f 17 3670570727266185,
  f 16 390532482728984, f 17 4155077011857168, f 16 442078315774385, f 18 47034558722029746,
  f 17 5004176403190328, f 17 5324090719401203, f 18 56644167233125015, f 18 60264487102556205,
  f 17 6411561352462476, f 17 6821213659536285, f 17 7256955195854978, f 17 7720430235003785,
  f 17 8213382895227107, f 17 8737662659853251, f 17 9295229134437365, f 17 9888159779423777,
  f 17 10518653135100298, f 17 11189034844023488, f 17 11901765939993834, f 17 12659438142625995,
  f 17 13464797459775843, f 17 14320726896380406, f 17 15230267238635242, f 16 1619660952746438,
  f 17 17223100905959585, f 17 18313242606327973, f 17 19470688852586873, f 15 206992406795539,
  f 16 2200283975009341, f 16 2338554947042936, f 17 24851545712009143, f 16 2640508436399374,
  f 17 28050472801530385, f 17 29792025465160427, f 17 31634010677719565, f 16 3358057715788004,
  f 16 3563566833547011, f 17 37802912651981796, f 16 4008548717758614, f 16 4248594782178409,
  f 16 4500602225801688, f 16 4764635977536057, f 16 5040623076709716, f 16 5328315561395668,
  f 16 5627249531161276, f 15 593669062395394, f 16 6255578874235078, f 16 6582462072234818,
  f 16 6915422190820414, f 16 7252000609172328, f 16 7589122596238891, f 16 7923035883655749,
  f 16 8249272584804097, f 16 8562662899624444, f 16 8857426218320332, f 16 9127388101763688,
  f 15 936636868559379, f 16 9568790630141268, f 16 9730528330465548, f 16 9849945812892137,
  f 16 9928926168756285, f 16 9973468277972742, f 15 999318425602322, f 16 9999078987271567,
  f 16 9999965009577492, n 1, n 1, n 1]

/-- Row 67 of `ksi_sokolov.table`. -/
def ksi67 : List Tok := [
  f 19 51679877066905175, f 18 5498665137301669, f 18 5850500399531874, f 18 6224847821371111,
  f 18 6623147540850561, f 18 7046931670008823, f 17 749783053747105, f 18 7977579475606789,
  f 18 8488023579085135, f 18 9031127731959918, f 18 9608979777648236, f 18 10223803001059493,
  f 18 10877962321262197, f 17 1157397368344053, f 18 12314514857539241, f 18 13102433640443667,
  f 18 13940759331747545, f 18 14832716783081845, f 18 15781734867462167, f 17 1679146240735527,
  f 18 17865780265915423, f 17 1900881805597497, f 18 20224970684353378, f 18 21518906492780113,
  f 18 22895599240374126, f 17 2436033665325068, f 18 25918742639672643, f 18 27576798957384387,
  f 18 29340869284069142, f 18 31217720141847323, f 16 332145495186049, f 16 353390089745568,
  f 17 3759923808896587, f 16 400038876256424, f 17 4256216071812143, f 17 4528383545994036,
  f 17 4817930882465471, f 17 5125962565138526, f 18 54536532742354996, f 17 5802249774180058,
  f 17 6173077324119166, f 17 6567543512459635, f 17 6987141702583649, f 17 7433458647223729,
  f 17 7908176935552526, f 17 8413081925214659, f 17 8950065577844354, f 16 952113509609585,
  f 17 10128413559567596, f 17 10774150536391769, f 17 11460724424203762, f 17 12190649786371227,
  f 17 12966580286828414, f 17 13791317593842667, f 15 146678084488004, f 17 15599153355731774,
  f 17 16588612947628964, f 17 17639599894908858, f 17 18755680660771942, f 16 1994057694914679,
  f 17 21198154886067677, f 16 2253241733285141, f 17 23947488194193875, f 16 2544759393615842,
  f 16 2703703439067024, f 15 287201482798613, f 17 30501266029119406, f 16 3238464955928898,
  f 16 3437441668275706, f 16 3647444412817689, f 15 386882503435204, f 17 41018848728473745,
  f 16 4346856126878825, f 16 4603880119207146, f 16 4872979622201913, f 16 5154026882693361,
  f 15 544670413989778, f 16 5750457519676877, f 16 6064442582454117, f 16 6387462296511542,
  f 16 6717896761814274, f 16 7053626881265664, f 16 7391956081461774, f 16 7729534281681935,
  f 16 8062299288819493, f 16 8385448558752737, f 16 8693472488546151, f 16 8980282923714802,
  f 16 9239486322263781, f 16 9464860999919793, f 16 9651083432015306, f 16 9794718893789626,
  f 16 9895387438889491, f 16 9956815965089201, f 16 9987179192763114, f 16 9997836737790017,
  f 16 9999879744242973, f 16 9999999627173556, n 1, n 1]

/-- Row 68 of `ksi_sokolov.table`. -/
def ksi68 : List Tok := [
  f 18 4979463428977882, f 18 5298078346325926, f 17 563707957793721, f 18 5997771233830998,
  f 19 63815414730895815, f 19 67898669372224805, f 18 7224318534687276, f 18 7686567706060512,
  f 18 8178392621954784, f 18 8701685968449679, f 18 9258460250376709, f 18 9850857019718225,
  f 18 10481156098657012, f 18 11151781020009348, f 17 1186531184040526, f 17 1262449353358993,
  f 18 13432243255888978, f 18 14291669934054691, f 18 15206076516883958, f 18 16178980399830623,
  f 17 1721412062461546, f 18 18315477790999256, f 17 1948728281307541, f 18 20734040072114168,
  f 18 22060539926569755, f 17 2347187718390483, f 17 2497347320482949, f 18 26571092365970123,
  f 17 2827086773492388, f 17 3007932206815564, f 17 3200339106737611, f 18 34050451066557824,
  f 18 36228350644906884, f 17 3854542864637688, f 18 41010552722420365, f 17 4363315549903355,
  f 18 46423258964818616, f 17 4939151836356039, f 17 5254925490718924, f 17 5590850351397043,
  f 17 5948204268769361, f 17 6328345563486722, f 16 673271548374541, f 17 7162845313400117,
  f 17 7620359896385584, f 17 8106983032375596, f 17 8624543215578288, f 17 9174978428989662,
  f 17 9760343428580197, f 17 10382814854151401, f 17 11044687672630629, f 17 11748403953365584,
  f 17 12496532861044332, f 17 13291790025938888, f 16 1413703743142438, f 17 15035289268273574,
  f 16 1598971451133189, f 17 17003638582351602, f 16 1808054421787095, f 17 19224069088464044,
  f 17 20438002830315233, f 17 21726280164718517, f 17 23092967234338554, f 17 24542247789874888,
  f 16 2607840136718295, f 16 2770576948223094, f 17 29428720860512897, f 16 3125159485083555,
  f 16 3317864256455894, f 16 3521393669206644, f 17 37361276563651213, f 17 39624047224831205,
  f 16 4200507177846423, f 17 44506405146924555, f 17 47129097580766893, f 16 4987289887315541,
  f 16 5273590987799837, f 16 5571415833199074, f 16 5880110164317918, f 16 6198704508892368,
  f 16 6525847347948763, f 15 685973105357194, f 16 7198011382221439, f 15 753773044147432,
  f 16 7875218986269549, f 16 8206086603143319, f 16 8525162212127153, f 16 8826575505242964,
  f 16 9103925135824975, f 16 9350627533093749, f 16 9560500076877516, f 16 9728634685108892,
  f 16 9852558985884654, f 16 9933541662606598, f 16 9977613021171261, f 15 999541504843199,
  f 16 9999645776659232, f 16 9999997400213322, f 16 9999999935677415, n 1]

/-- Row 69 of `ksi_sokolov.table`. -/
def ksi69 : List Tok := [
  f 19 48018588707274415, f 18 5109109602185287, f 18 5436019509580591, f 18 5783846590896784,
  f 18 6153929424553286, f 18 6547691755130038, f 18 6966648101929128, f 18 7412410555795229,
  f 18 7886694797119526, f 17 839132438240318, f 18 8928241427544876, f 18 9499511427363277,
  f 18 10107332119497365, f 16 107540397239266, f 18 11442124203674246, f 17 1217423123098583,
  f 18 12953176532621472, f 18 13781955750641983, f 18 14663756061080899, f 18 15601968485732365,
  f 18 16600198757037284, f 18 17662285508668902, f 18 18792311829023897, f 18 19994620310774588,
  f 18 21273831144690104, f 17 2263485819811221, f 17 2408292979948867, f 17 2562360845005519,
  f 18 27262807475009223, f 18 29006819207393505, f 18 30862334812435565, f 17 3283647157090561,
  f 17 3493679543274502, f 18 37171357145766554, f 17 3954871291800667, f 18 42077959173375874,
  f 17 4476877055488943, f 18 47631430865200525, f 18 50676865996749684, f 16 539166898255578,
  f 18 57363244837122684, f 17 6102964060635085, f 17 6492980011365758, f 17 6907850950040435,
  f 17 7349146962399537, f 17 7818533663283397, f 16 831777844905091, f 17 8848755765476733,
  f 17 9413452100735188, f 17 10013972642469632, f 17 10652545600824638, f 17 11331529386738785,
  f 17 12053416697351398, f 16 1282084193977051, f 17 13636583254063575, f 17 14503570474092728,
  f 17 15424885545766007, f 17 16403767590744545, f 17 17443614063524157, f 17 18547980083035132,
  f 17 19720576885998847, f 17 20965265843194478, f 17 22286050986303443, f 17 23687066246093638,
  f 15 251725533567105, f 16 2674684551766591, f 17 28414325747864283, f 16 3017938649566794,
  f 17 32046373100324427, f 15 340195141800123, f 17 36102828133044523, f 17 38300010765215675,
  f 16 4061429882623565, f 16 4304828819504964, f 17 45603724673844565, f 17 48281243979136523,
  f 16 5108004558284274, f 16 5399752454323186, f 16 5702880443352187, f 16 6016620382354237,
  f 16 6339861099153089, f 16 6671076317217588, f 16 7008248107095199, f 16 7348777677942583,
  f 16 7689405953084921, f 16 8026137164805648, f 16 8354190978663941, f 16 8668006230494113,
  f 16 8961331931509733, f 16 9227459066483512, f 16 9459660742920171, f 16 9651910605014314,
  f 16 9799940414352964, f 16 9902610220523961, f 16 9963366414207924, f 15 999111676133253,
  f 16 9999086218179187, f 16 9999988633020419, f 16 9999999975958646, n 1]

/-- Row 70 of `ksi_sokolov.table`. -/
def ksi70 : List Tok := [
  f 18 9984958808765853, f 18 10541795179190745, f 18 11129682240843992, f 18 11750351897465339,
  f 17 1240563177367466, f 18 13097450398866922, f 16 138278454177022, f 18 14598966858528977,
  f 18 15413084978061608, f 18 16272595781025585, f 16 171800291845781, f 18 18138056287752547,
  f 18 19149494751313334, f 18 20217322177741016, f 17 2134467826927579, f 17 2253488139399408,
  f 17 2379142887672541, f 17 2511801709889187, f 18 26518544501052652, f 17 2799712881929345,
  f 18 29558113135419263, f 18 31206080958588494, f 17 3294587321190733, f 18 34782593157305065,
  f 17 3672163425693157, f 17 3876867962741712, f 18 40929724642478085, f 17 4321110535388122,
  f 18 45619495278715005, f 17 4816194261525875, f 18 50845876413378156, f 17 5367912808009524,
  f 16 566699666073061, f 17 5982710387986204, f 17 6315972728808979, f 17 6667751701201469,
  f 16 703906780805063, f 17 7430995824187703, f 16 784466876833745, f 17 8281278926846744,
  f 17 8742082165253572, f 17 9228399008882036, f 17 9741620637754182, f 17 10283207808803908,
  f 17 10854697303862992, f 17 11457703179164751, f 17 12093918881526841, f 17 12765122259486833,
  f 16 1347317669581793, f 17 14220033845968255, f 17 15007731869828012, f 17 15838408011241667,
  f 17 16714286643089324, f 16 1763768773284499, f 17 18611024410288632, f 17 19636801583185431,
  f 17 20717613538379023, f 15 218561385438243, f 17 23055136159279188, f 17 24317434994818005,
  f 16 2564592317716843, f 16 2704353508731854, f 17 28513230745196305, f 16 3005797357952757,
  f 16 3168070112403504, f 17 33384287531237267, f 16 3517150227424399, f 16 3704495097554946,
  f 16 3900701333870159, f 16 4105976346663283, f 17 43204870962796044, f 17 45443486041362097,
  f 17 47776107727408196, f 16 5020241060304782, f 16 5272106244176065, f 16 5532949954505376,
  f 15 580236660185416, f 15 607976903633247, f 16 6364357648951701, f 16 6655079682999151,
  f 16 6950587869427267, f 16 7249195167616116, f 16 7548829616240107, f 16 7846990747252428,
  f 16 8140715196199145, f 16 8426557383265757, f 16 8700599999231247, f 16 8958508513934178,
  f 16 9195654366191437, f 16 9407336991858027, f 16 9589136131724567, f 16 9737430404892076,
  f 16 9850099054508331, f 16 9927381941106608, f 16 9972752004596749, f 16 9993389140649481,
  f 16 9999316934499054, f 16 9999991320411645, f 16 9999999774501475, n 1]

/-- Row 71 of `ksi_sokolov.table`. -/
def ksi71 : List Tok := [
  f 18 9646101372669701, f 18 10184041814039398, f 18 10751980321620887, f 18 11351589069345707,
  f 18 11984632592701638, f 18 12652977238300332, f 18 13358588723445001, f 18 14103546009197079,
  f 18 14890042426958926, f 18 15720390342706832, f 18 16597037337066363, f 18 17522561658544693,
  f 18 18499687705452576, f 18 19531291263808842, f 17 2062040633466895, f 18 21770236559312137,
  f 18 22984165479669996, f 16 242657626725186, f 18 25618794932564564, f 18 27047240759010195,
  f 17 2855529656013891, f 18 30147395246766757, f 16 318282098001997, f 17 3360267732390834,
  f 17 3547600453549749, f 18 37453688621559705, f 16 395415255086786, f 17 4174563333055606,
  f 18 44072470824918136, f 17 4652885313600097, f 18 49121941286908596, f 18 51859336222318704,
  f 17 5474901980528802, f 17 5779942083867075, f 18 61019423574827265, f 17 6441839511861393,
  f 17 6800620698439219, f 16 717932626865437, f 17 7579052625473034, f 17 8000954141323892,
  f 17 8446246563326032, f 17 8916210166585707, f 16 941219136892029, f 16 993560760768133,
  f 17 10487947679148542, f 16 1107077806951946, f 17 11685742636829598, f 17 12334567563966843,
  f 17 13019063745875947, f 17 13741128205433217, f 17 14502748116651412, f 17 15306003057211418,
  f 17 16153059442933884, f 17 17046187026193693, f 17 17987743706775458, f 17 18980182523297884,
  f 17 20026050638547582, f 17 21127976612958294, f 16 2228868522735323, f 17 23510970963193054,
  f 17 24797699509726587, f 14 26151793469889, f 17 27576215496412076, f 16 2907395117424275,
  f 16 3064798008080412, f 17 32301248460305193, f 17 34036627554867926, f 17 35856867630719313,
  f 16 3776453878186931, f 17 39761961242364124, f 16 4185112267854143, f 16 4403356968575428,
  f 16 4631028922140028, f 16 4868156418121688, f 16 5114679304955049, f 16 5370429196891163,
  f 16 5635105332047357, f 16 5908246560007819, f 16 6189199316067139, f 16 6477081127736287,
  f 16 6770739675060121, f 16 7068709122451317, f 16 7369161395558422, f 16 7669860317177595,
  f 16 7968116744674567, f 16 8260754775353977, f 16 8544097178100982, f 16 8813983632890704,
  f 16 9065841030684105, f 16 9294833954187546, f 16 9496128609974053, f 16 9665310829724026,
  f 15 979900237210246, f 16 9895705364371169, f 16 9956852824872998, f 16 9987857306763095,
  f 16 9998388957439713, f 16 9999966063421128, n 1, n 1]

/-- Row 72 of `ksi_sokolov.table`. -/
def ksi72 : List Tok := [
  f 18 9327539623674209, f 18 9847715762780599, f 18 10396899688484241, f 18 10976708194241971,
  f 18 11588848636831144, f 18 12235123441224778, f 18 12917436501230664, f 18 13637795932042373,
  f 18 14398322560703189, f 18 15201255531695474, f 17 1604895876174588, f 18 16943926251327027,
  f 18 17888793869111463, f 17 1888634127759934, f 18 19939502816414826, f 18 21051378969285793,
  f 18 22225239330780563, f 18 23464536688714448, f 17 2477291520439149, f 18 26154221996004295,
  f 18 27612515994216352, f 18 29152084541619053, f 18 30777449556059655, f 17 3249338432325867,
  f 17 3430492684843785, f 18 36217391344952776, f 18 38236390890833555, f 15 40367843904077,
  f 17 4261799467907412, f 18 44993432963394045, f 17 4750111204629956, f 18 50148361263494055,
  f 18 52942917801978455, f 18 55892938282384744, f 17 5900701987569409, f 17 6229423810026787,
  f 16 657641517401276, f 17 6942682846510896, f 17 7329289097212353, f 17 7737352857015604,
  f 17 8168052099634092, f 17 8622627575971908, f 16 910238517221105, f 17 9608698678919825,
  f 17 10143014302665543, f 17 10706850867902493, f 17 11301805739051793, f 17 11929556095089229,
  f 17 12591861575342356, f 16 1329056823266893, f 17 14027610394469406, f 17 14805013245715593,
  f 15 156248931450922, f 17 16489462564230112, f 17 17401027096015045, f 17 18361989252972466,
  f 17 19374843627997004, f 16 2044217763065806, f 17 21566669732488136, f 16 2275107963984809,
  f 17 23998243628358887, f 17 25311065895602275, f 16 2669250326242705, f 17 28145549147470905,
  f 17 29673211522531684, f 16 3127848756140444, f 16 3296432709200118, f 16 3473359568115133,
  f 16 3658901749321116, f 17 38533118628727364, f 16 4056814773933394, f 16 4269598826871713,
  f 16 4491804793314966, f 17 47235121226586985, f 16 4964724511510843, f 15 521534974967385,
  f 16 5475179236468388, f 16 5743861778328384, f 16 6020873583022999, f 16 6305484436841479,
  f 16 6596717889302186, f 16 6893310195482307, f 16 7193659915226672, f 15 749578101438503,
  f 16 7797252685169141, f 16 8095174907351765, f 16 8386135926614189, f 16 8666202761613542,
  f 16 8930949963425983, f 16 9175548213228021, f 16 9394949260903185, f 16 9584197244115361,
  f 16 9738930117850916, f 16 9856127268124618, f 15 993517175625559, f 16 9979231752153366,
  f 16 9996573059925524, f 16 9999887969774213, n 1, n 1]

/-- Row 73 of `ksi_sokolov.table`. -/
def ksi73 : List Tok := [
  f 18 9028253890088055, f 17 953174076166602, f 17 1006330499910585, f 16 106245120872885,
  f 18 11217012660642806, f 18 11842553922313597, f 17 1250297704671852, f 17 1320022681557508,
  f 18 13936355645436098, f 18 14713531493715237, f 18 15534041324792686, f 17 1640030112393297,
  f 17 1731486053780067, f 18 18280411101225563, f 18 19299794824993013, f 18 20376010336720752,
  f 18 21512224700829696, f 17 2271177948514481, f 17 2397820425824987, f 18 25315220656234656,
  f 18 26726761537144494, f 18 28216974389355654, f 17 2979023822620695, f 16 314511760577602,
  f 18 33204663916698324, f 17 3505585108899126, f 16 370101693298601, f 18 39073347907181165,
  f 17 4125143964118031, f 17 4355082240751283, f 17 4597823201021954, f 17 4854076867491426,
  f 17 5124592736505248, f 17 5410160758230719, f 17 5711614449994649, f 18 60298323821990726,
  f 17 6365741494302112, f 16 672031790775225, f 17 7094591164845919, f 17 7489646103873046,
  f 17 7906625006262481, f 16 834673160707093, f 17 8811233151939872, f 17 9301462943012546,
  f 17 9818825034240171, f 17 10364794865563957, f 17 10940923821998073, f 16 1154884271513967,
  f 17 12190263270383954, f 15 128669836207558, f 17 13580882060722313, f 16 1433393708754583,
  f 17 15128212748136735, f 17 15965868025824043, f 16 1684915717931334, f 16 1778042956462281,
  f 16 1876213275125564, f 17 19796806328103944, f 17 20887083564021672, f 17 22035685635975374,
  f 17 23245417498872573, f 17 24519157012782422, f 17 25859847184863305, f 17 27270480722847523,
  f 17 28754080049985153, f 16 3031367685677849, f 15 319522808933066, f 15 336728458607721,
  f 17 35478221512064395, f 16 3737110091492606, f 17 39353953794082963, f 17 41428943260777373,
  f 17 43597831630999595, f 16 4586185987849301, f 16 4822160228098742, f 14 50676807384448,
  f 16 5322618771161314, f 16 5586719381675074, f 16 5859573540545426, f 16 6140585911949829,
  f 15 642893920126464, f 16 6723550413563879, f 16 7023026097497486, f 16 7325618187784483,
  f 16 7629157236253422, f 15 793102157607384, f 16 8228062199281674, f 16 8516619719740212,
  f 16 8792475437358404, f 16 9050915293167546, f 15 928683777457864, f 16 9494971444618557,
  f 15 967024983224543, f 16 9808415567804835, f 16 9906968560494503, f 15 996662313576622,
  f 16 9993338453836533, f 15 999968009976174, n 1, n 1]

/-- Row 74 of `ksi_sokolov.table`. -/
def ksi74 : List Tok := [
  f 18 8747256806308841, f 18 9235073855879903, f 18 9750095332692528, f 18 10293836197147663,
  f 17 1086789904113488, f 18 11473972551196223, f 18 12113843561208771, f 18 12789395183564745,
  f 18 13502617098190716, f 18 14255608163581866, f 18 15050586663217501, f 17 1588989159332725,
  f 17 1677599487957894, f 18 17711503682294575, f 18 18699171655204856, f 16 197419051841729,
  f 18 20842772304404806, f 18 22005013515845485, f 17 2323204275145635, f 18 24527473313620242,
  f 17 2589511304215852, f 17 2733898311949654, f 18 28863326491818088, f 18 30472622633906127,
  f 17 3217159835524396, f 18 33965243014043946, f 17 3585882191503041, f 17 3785789154067269,
  f 18 39968312886978254, f 18 42196275974894816, f 17 4454830323887368, f 16 470312850613815,
  f 18 49652484023968824, f 15 52419561842425, f 18 55340601971008305, f 18 58424127109710004,
  f 17 6167912366179218, f 17 6511506635555177, f 17 6874194272858651, f 17 7257027583307428,
  f 17 7661115944963262, f 17 8087627883057728, f 16 853779343842438, f 17 9012908582937836,
  f 17 9514336302710745, f 17 10043511175721749, f 17 10601942085784753, f 17 11191216974377807,
  f 16 1181299417501079, f 17 12469030707104291, f 16 1316116091335902, f 17 13891302795779273,
  f 16 1466147718076082, f 17 15473790546461483, f 17 16330446666501874, f 17 17233745123930194,
  f 17 18186083103128067, f 17 19189953149175706, f 16 2024794382145497, f 16 2136273505790832,
  f 16 2253709615116805, f 16 2377387678534457, f 16 2507599860502076, f 16 2644644415441558,
  f 16 2788824200579693, f 16 2940444405373906, f 17 30998103215699574, f 16 3267223948366084,
  f 15 344298031926749, f 16 3627362396464763, f 17 38206352081304745, f 16 4023038907400848,
  f 15 423477949338988, f 16 4456018325335966, f 16 4686860300161157, f 15 492733723635873,
  f 15 517739021912309, f 16 5436848480058645, f 15 570540369573036, f 16 5982580371873435,
  f 16 6267701428779512, f 16 6559849141869125, f 16 6857820455872377, f 16 7160078026891277,
  f 16 7464697582553528, f 16 7769313500977297, f 16 8071066409066324, f 16 8366559560589651,
  f 15 865183105176627, f 16 8922359078500111, f 16 9173116198386162, f 15 939870516028685,
  f 16 9593614384736296, f 16 9752663239199982, f 16 9871756107462137, f 16 9949199570695023,
  f 16 9988029306396985, f 16 9999197161480965, f 16 9999999626757383, n 1]

/-- Row 75 of `ksi_sokolov.table`. -/
def ksi75 : List Tok := [
  f 18 8483593716419493, f 18 8956708072911695, f 18 9456206092723818, f 18 9983559278915572,
  f 18 10540319573673006, f 18 11128127208018977, f 18 11748713518228772, f 18 12403905043745361,
  f 17 1309563220938925, f 18 13825931888312912, f 18 14596952163387794, f 18 15410964670879674,
  f 17 1627036596107143, f 18 17177684665932235, f 18 18135592572857854, f 17 1914690784091141,
  f 18 20214607009704542, f 17 2134183076456379, f 18 22531896644934508, f 17 2378830462791726,
  f 18 25114749464335635, f 18 26515131177995886, f 18 27993567502728214, f 17 2955440297785879,
  f 17 3120222386696009, f 18 32941869827609375, f 18 34778449505900984, f 17 3671735501803058,
  f 17 3876426955511254, f 18 40925204848133334, f 18 43206488162440874, f 17 4561480468356428,
  f 17 4815720374005867, f 16 508411217587928, f 17 5367440475246682, f 17 5666532649667119,
  f 17 5982261239950061, f 17 6315546036651117, f 17 6667357156546175, f 17 7038716997368064,
  f 17 7430702513861354, f 17 7844449258438357, f 17 8281153171522099, f 17 8742073382245064,
  f 17 9228535435869936, f 17 9741935273290711, f 17 10283739377628978, f 16 1085549256169203,
  f 17 11458815681135326, f 17 12095413765504863, f 17 12767075407041514, f 17 13475676290407942,
  f 17 14223183519046453, f 16 1501165778167934, f 17 15843250138248022, f 17 16720214434841252,
  f 17 17644897200065915, f 16 1861974561629304, f 17 19647301778783344, f 17 20730203909597575,
  f 17 21871183620208026, f 16 2307305659287897, f 17 24338721698764582, f 16 2567114535928855,
  f 16 2707334874205522, f 16 2854839767120077, f 17 30099371798365343, f 17 31729342371161745,
  f 17 33441336158403584, f 17 35238292951152017, f 17 37123013206055067, f 17 39098091552166964,
  f 17 41165843940834035, f 17 43328204874280973, f 16 4558661989939991, f 17 47941897949543777,
  f 15 503940706842172, f 16 5294214807179067, f 14 55583934943217, f 16 5831573237517884,
  f 16 6113202113650179, f 16 6402509316290388, f 16 6698462801491804, f 15 699972186333996,
  f 15 730458508395292, f 16 7610934208841866, f 16 7916178909720093, f 16 8217201484505189,
  f 16 8510315836147576, f 16 8791242885757231, f 16 9055123496321957, f 16 9296585170305239,
  f 15 950989783760727, f 16 9689261112345336, f 16 9829335674987006, f 16 9926271875087783,
  f 16 9979914243564991, f 16 9998197667552645, f 16 9999997827038727, n 1]

/-- Row 76 of `ksi_sokolov.table`. -/
def ksi76 : List Tok := [
  f 18 8236343123865985, f 18 8695669680991742, f 17 918061076327898, f 18 9692595587926858,
  f 18 10233130860487697, f 18 10803809012535703, f 18 11406309764022795, f 18 12042410209192217,
  f 18 12713979853007727, f 18 13422997892900612, f 18 14171552325565726, f 18 14961846999396797,
  f 18 15796207570396542, f 18 16677091276126058, f 18 17607090092862456, f 18 18588942599783047,
  f 18 19625536518588525, f 17 2071992341455705, f 18 21875323716307765, f 18 23095135135570193,
  f 17 2438294661866735, f 17 2574254542928645, f 18 27177928306943853, f 18 28693318622000114,
  f 17 3029316094242266, f 17 3198216447891606, f 18 33765286902724775, f 17 3564776385083973,
  f 17 3763512092991976, f 17 3973318780001142, f 17 4194811722491214, f 17 4428640079584233,
  f 17 4675488806284279, f 18 49360802727214374, f 18 52111767070539966, f 17 5501582495698249,
  f 17 5808144651406262, f 17 6131757969090336, f 17 6473365112495855, f 17 6833959786195724,
  f 17 7214589822098565, f 16 761635871147845, f 17 8040430132141825, f 17 8488028454784788,
  f 16 896044445223989, f 17 9459036020341847, f 16 998523191518543, f 17 10540536064038177,
  f 17 11126528211773402, f 17 11744870432680043, f 17 12397306369023244, f 17 13085667002703458,
  f 17 13811873437643993, f 16 1457793707824436, f 16 1538596656014555, f 17 16238160967352278,
  f 17 17136824901907163, f 16 1808435527516402, f 17 19083251936276688, f 17 20136109551818407,
  f 16 2124561878539876, f 17 22414563259501402, f 17 23645810353036603, f 17 24942307438636757,
  f 16 2630706540027628, f 16 2774314886097743, f 16 2925365584148953, f 17 30841693217141114,
  f 17 32510346275919344, f 16 3426264196004419, f 16 3610150261214328, f 17 38029687035736487,
  f 17 40049720218567986, f 16 4216380964072157, f 17 44373742517203424, f 16 4668075744384315,
  f 17 49085392740044853, f 16 5158731603896789, f 16 5418509564694335, f 16 5687596246740186,
  f 16 5965550369009333, f 16 6251732308253921, f 15 654526319452965, f 16 6844980894423728,
  f 16 7149387900565293, f 16 7456597350193113, f 16 7764273364043491, f 16 8069573844885729,
  f 16 8369095988887388, f 16 8658834817673972, f 16 8934163180144797, f 16 9189848632787783,
  f 16 9420124799980765, f 16 9618847051155218, f 16 9779798599967088, f 16 9897359071697192,
  f 16 9968256459525542, f 16 9996328070586074, f 16 9999991626277733, n 1]

/-- Row 77 of `ksi_sokolov.table`. -/
def ksi77 : List Tok := [
  f 18 8004619032983896, f 18 8451023234782869, f 18 8922321853416782, f 18 9419903106258544,
  f 18 9945232088280215, f 18 10499856451801721, f 17 1108540895487709, f 18 11703614331202353,
  f 17 1235629317634298, f 18 13045366680062093, f 18 13772865848220956, f 18 14540929779675933,
  f 18 15351822543369625, f 18 16207929484851117, f 17 1711177145932564, f 17 1806600948532572,
  f 17 1907345111833978, f 18 20137062512893628, f 18 21259972129218242, f 18 22445484748543663,
  f 18 23697086594644937, f 17 2501846063416826, f 18 26413491390578945, f 18 27886281472772608,
  f 17 2944115994057548, f 17 3108269569361699, f 17 3281571296663385, f 17 3464529945598151,
  f 17 3657682776350817, f 17 3861596495587728, f 17 4076869934309762, f 17 4304133661681166,
  f 18 45440537230149604, f 18 47973327366390206, f 17 5064712317932918, f 17 5346974360076409,
  f 17 5644943453207039, f 17 5959489167761164, f 17 6291529154988175, f 17 6642030228739841,
  f 17 7012012122464684, f 17 7402548991803964, f 17 7814773230350147, f 17 8249877867870346,
  f 17 8709119150413677, f 17 9193820054167193, f 17 9705373612093346, f 17 10245243850433551,
  f 17 10814973717702929, f 15 114161823800737, f 17 12050571945086079, f 17 12719931394124134,
  f 17 13426135069168277, f 17 14171151343348626, f 16 1495704107332835, f 17 15785961607660232,
  f 17 16660163627710342, f 17 17582005558750327, f 17 18553939075073433, f 16 1957851760007487,
  f 17 20658391382185978, f 17 21796306929181772, f 17 22995101456448738, f 17 24257695903708926,
  f 16 2558708638235574, f 17 26986330936940633, f 16 2845853498056722, f 16 3000682819292109,
  f 16 3163434118180489, f 16 3334416753734067, f 17 35139327891136435, f 15 370227149634843,
  f 15 389970323575335, f 16 4106471567395551, f 14 43227841393445, f 16 4548801447166244,
  f 17 47846225905354434, f 16 5030269395993914, f 16 5285666767790639, f 16 5550618820478127,
  f 16 5824782052573138, f 16 6107632923954744, f 16 6398430110878067, f 16 6696171708578625,
  f 16 6999546335631323, f 16 7306879612981609, f 16 7616075237889285, f 15 792455449714819,
  f 16 8229196690709718, f 16 8526284796740004, f 15 881146474464906, f 16 9079724638795102,
  f 16 9325404827158044, f 16 9542246054136913, f 16 9723500439682348, f 16 9862227690222931,
  f 16 9952389633548759, f 15 999312556234889, f 15 999996388749665, n 1]

/-- Row 78 of `ksi_sokolov.table`. -/
def ksi78 : List Tok := [
  f 18 7787570338068838, f 18 8221871223150708, f 18 8680391068712367, f 18 9164480766573006,
  f 18 9675567018044288, f 18 10215153584250663, f 18 10784830527540423, f 18 11386274943248067,
  f 18 12021258951292501, f 18 12691651795707208, f 17 1339942664030363, f 18 14146668897533842,
  f 17 1493557870493361, f 18 15768478877565925, f 18 16647820076059455, f 18 17576191762486527,
  f 18 18556327260723208, f 18 19591109813829482, f 18 20683585304664336, f 17 2183696943166174,
  f 18 23054653802073586, f 17 2434022138960073, f 18 25697453288018902, f 18 27130341265719095,
  f 18 28643097403479464, f 15 30240168861253, f 17 3192624786913199, f 17 3370628796827717,
  f 17 3558551767099652, f 18 37569453687686674, f 17 3966391773697157, f 17 4187505456249232,
  f 18 44209346275459464, f 17 4667363145170144, f 16 492751268785356, f 17 5202145702368193,
  f 17 5492062094682003, f 17 5798111944533255, f 17 6121187282038333, f 17 6462229928655307,
  f 17 6822233240188454, f 17 7202243996788453, f 17 7603365196016719, f 17 8026759359599095,
  f 17 8473651321005281, f 17 8945331103503854, f 16 944315640449859, f 17 9968556973442892,
  f 17 10523036268808923, f 17 11108176103757963, f 17 11725638769730426, f 17 12377171206632888,
  f 17 13064606657858874, f 16 1378986956951522, f 17 14554976080264503, f 17 15362039257994559,
  f 17 16213268659514424, f 17 17110975168708042, f 17 18057563381017053, f 17 19055549436398703,
  f 16 2010754275374131, f 17 21216251418877957, f 16 2238448152680833, f 15 236151200257619,
  f 17 24911149013091968, f 17 26275612525803843, f 16 2771161528052823, f 17 29222300961492137,
  f 16 3081083056022104, f 16 3248035128650584, f 16 3423396018915091, f 17 36074660363448546,
  f 16 3800530196678031, f 16 4002851490719166, f 17 42146622452737215, f 17 44361538472611456,
  f 17 46674648036244143, f 17 49086648313345926, f 15 515973743983878, f 16 5420558351767257,
  f 16 5690870365480121, f 16 5970252225044698, f 16 6258085050458172, f 16 6553510857954739,
  f 16 6855386554424804, f 16 7162231469135603, f 16 7472171797670453, f 16 7782877111724933,
  f 16 8091499407003716, f 16 8394612504906743, f 16 8688156378460378, f 16 8967393107345668,
  f 16 9226873564523511, f 16 9460406828398176, f 16 9661015600238504, f 16 9820898106219724,
  f 16 9931786779264966, f 16 9988044313764031, f 15 999988678528619, n 1]

/-- Row 79 of `ksi_sokolov.table`. -/
def ksi79 : List Tok := [
  f 18 7584387175550165, f 18 8007356701640959, f 17 845391449863608, f 16 89253751789866,
  f 18 9423126808106428, f 18 9948637741031916, f 18 10503452623786064, f 18 11089206638154436,
  f 18 11707625439988613, f 17 1236053019871421, f 18 13049842182400625, f 18 13777592301459227,
  f 18 14545923626338794, f 18 15357097271870807, f 18 16213502987971525, f 18 17117660248046684,
  f 18 18072231785079072, f 17 1908002700827007, f 17 2014401213927449, f 18 21267318008707646,
  f 18 22453249184192565, f 17 2370529739444702, f 18 25027142638314476, f 18 26422675264070494,
  f 18 27895996661370465, f 18 29451439497650892, f 17 3109357582079952, f 17 3282722989167305,
  f 17 3465749620487834, f 18 36589748592133514, f 17 3862965922720777, f 18 40783215463814346,
  f 16 430567317042181, f 18 45456875750093315, f 18 47990674873329135, f 17 5066555099900155,
  f 18 53489331106068974, f 18 56470271093758066, f 17 5961707635162869, f 17 6293892791586607,
  f 17 6644550942891543, f 17 7014703019794634, f 17 7405424954440386, f 17 7817850386792154,
  f 17 8253174169622725, f 17 8712655305038416, f 17 9197618801499995, f 17 9709460931756071,
  f 17 10249649532261024, f 17 10819729511578381, f 17 11421326042979231, f 17 12056146107661857,
  f 17 12725983786330322, f 17 13432720998301592, f 17 14178333364681203, f 17 14964889726644384,
  f 17 15794557564157835, f 17 16669603163087662, f 17 17592393590997396, f 16 1856539734005322,
  f 17 19591185500270064, f 16 2067242983045245, f 16 2181189894523997, f 17 23012456077324664,
  f 16 2427705383134855, f 17 25608722124471345, f 17 27010558311892124, f 17 28485712123300866,
  f 16 3003736509134934, f 17 31668701767621704, f 16 3338288279310344, f 17 35182998374421154,
  f 17 37072020664012056, f 17 39052741467371965, f 15 411276924478953, f 17 43299059177162225,
  f 16 4556855415703258, f 17 47937294734845626, f 16 5040563032139456, f 16 5297293850084549,
  f 16 5563740453575525, f 16 5839572418563802, f 16 6124279471095423, f 15 641713212568465,
  f 16 6717138580343696, f 16 7022994978655417, f 16 7333029644566824, f 16 7645144600162583,
  f 16 7956751253913092, f 16 8264706996140313, f 16 8565253416077715, f 16 8853957671232527,
  f 16 9125651085156937, f 16 9374347869195216, f 15 959308914106225, f 16 9773632747463944,
  f 16 9906112798662577, f 16 9980508017880269, f 16 9999696416356973, n 1]

/-- Row 80 of `ksi_sokolov.table`. -/
def ksi80 : List Tok := [
  f 17 739428987646642, f 17 780665900202265, f 18 8242024829224004, f 18 8701669179720739,
  f 18 9186946884755928, f 18 9699285996544843, f 18 10240196737092012, f 18 10811271024921706,
  f 18 11414191302214858, f 18 12050734131304532, f 18 12722771627219603, f 17 1343228470726031,
  f 18 14181361930406975, f 18 14972209481340423, f 18 15807155471373808, f 18 16688657618708108,
  f 18 17619311563509245, f 18 18601856193743774, f 18 19639184464261262, f 17 2073434938146911,
  f 17 2189057227394694, f 18 23111256782735505, f 17 2439999316618678, f 17 2576057311213514,
  f 18 27196998079079437, f 18 28713490916723167, f 18 30314511524522594, f 17 3200476371754436,
  f 17 3378921294066469, f 17 3567310606976823, f 17 3766197073789696, f 18 39761646289288216,
  f 17 4197829215152198, f 18 44318412258781165, f 18 46788863952485375, f 17 4939688439412419,
  f 16 521501088385133, f 16 550565927195042, f 17 5812482993097267, f 16 613637829680742,
  f 17 6478289888671007, f 17 6839214226907807, f 17 7220201544406471, f 17 7622358988200434,
  f 16 804685326764044, f 17 8494913571863712, f 17 8967834918971405, f 17 9466980502533968,
  f 16 999378574817443, f 17 10549761239772419, f 17 11136495793922443, f 17 11755659623892074,
  f 17 12409007803246518, f 17 13098384583053518, f 16 1382572382550093, f 17 14593056869781815,
  f 16 1540250317341247, f 17 16256293447456135, f 17 17156751462863826, f 16 1810630585876528,
  f 17 19107487264102696, f 16 2016292967814938, f 17 21275367854299312, f 17 22447633604830367,
  f 17 23682651807696617, f 17 24983434282895428, f 15 263530664029441, f 16 2779469663827396,
  f 16 2931151673743683, f 16 3090674227406398, f 17 32583577810508074, f 16 3434518651333018,
  f 17 36194639495724623, f 16 3813486416219696, f 17 40168570623333855, f 17 42298168425675836,
  f 17 44525662621641865, f 17 46852526774459907, f 16 4927955450951886, f 16 5180667419228661,
  f 16 5443272950184737, f 16 5715522036779447, f 13 5997000421725, f 16 6287093100971367,
  f 16 6584943972331226, f 16 6889407482459289, f 16 7198999880701059, f 15 751183367896652,
  f 16 7825562498788502, f 16 8137320975443361, f 16 8443643404953182, f 16 8740416677775922,
  f 16 9022796834791305, f 16 9285097884900654, f 16 9520569077470087, f 16 9720892403042929,
  f 16 9875239740987356, f 16 9969958998903861, f 16 9999272855028002, n 1]

/-- Row 81 of `ksi_sokolov.table`. -/
def ksi81 : List Tok := [
  f 19 72165396103066465, f 18 7618996001002983, f 18 8043896872873036, f 17 849249289550267,
  f 18 8966105451602811, f 18 9466129904620386, f 18 9994038057525212, f 18 10551386008896919,
  f 18 11139815378482448, f 18 11761057888645236, f 18 12416943202306427, f 18 13109403574476984,
  f 18 13840478086343169, f 18 14612318191187057, f 18 15427197637426183, f 17 1628751564918635,
  f 18 17195805058734314, f 18 18154739118744205, f 18 19167141390498684, f 18 20235990940855913,
  f 18 21364434765448928, f 17 2255579162218271, f 18 23813567587201406, f 17 2514146548872176,
  f 17 2654338557059988, f 18 28023456265988005, f 18 29586027032481026, f 18 31235692991470315,
  f 18 32977299210436684, f 17 3481596724606916, f 17 3675709524957009, f 17 3880638355111459,
  f 17 4096984630520682, f 17 4325383189634344, f 17 4566503813194206, f 17 4821053214275671,
  f 18 50897767735129024, f 17 5373461321669318, f 17 5672936737111463, f 18 59890777578295716,
  f 17 6322807987004977, f 17 6675100377545459, f 17 7046981482639936, f 17 7439533054914829,
  f 17 7853895248173337, f 17 8291270035704132, f 17 8752923080261382, f 17 9240187844643276,
  f 17 9754468253959961, f 17 10297242558227812, f 17 10870065185080667, f 17 11474571247747731,
  f 16 1211248062804317, f 17 12785602293095652, f 17 13495823653916958, f 16 1424514359365528,
  f 17 15035647756111245, f 16 1586951381755998, f 17 16749034705463245, f 17 17676597015817153,
  f 17 18654693196047184, f 17 19685919264385643, f 16 2077297472966077, f 17 21918660770441362,
  f 17 23125873502156602, f 17 24397602035417387, f 17 25736916478106275, f 17 27146959916087765,
  f 17 28630928641112396, f 16 3019205380410472, f 16 3183357870771914, f 16 3355872075454381,
  f 16 3537063385944379, f 16 3727235692892503, f 17 39266749257144584, f 17 41356415036044925,
  f 17 43543605668549906, f 17 45830106709075435, f 16 4821709818051936, f 16 5070497902784173,
  f 16 5329317924714624, f 16 5597990879660149, f 16 5876186853942481, f 16 6163393111397343,
  f 16 6458874457929092, f 16 6761629200531909, f 14 70703391828625, f 16 7383314667956127,
  f 15 769843461323922, f 16 8013084688607612, f 15 832409255817452, f 16 8627662047459098,
  f 16 8919293841836194, f 16 9193664489170038, f 16 9444367761782733, f 16 9663298771027455,
  f 16 9839257237881618, f 16 9955926666577455, f 16 9998432410147242, n 1]

/-- Row 82 of `ksi_sokolov.table`. -/
def ksi82 : List Tok := [
  f 18 7050431637602121, f 18 7443625108377052, f 18 7858745725015848, f 18 8297016958638024,
  f 18 8759728879129982, f 18 9248244492344238, f 18 9764003235158499, f 18 10308523548055705,
  f 17 1088340951448771, f 18 11490354954988133, f 18 12131145657180709, f 18 12807669525832057,
  f 18 13521919025416974, f 18 14275997725017989, f 18 15072125068361104, f 17 1591264682784122,
  f 18 16800034854079913, f 18 17736903863983265, f 18 18726012099773644, f 18 19770269512981963,
  f 18 20872751043824793, f 17 2203670036924918, f 18 23265544261818833, f 17 2456289449272589,
  f 17 2593257227465138, f 18 27378603336227575, f 17 2890524185113049, f 18 30516974282167778,
  f 16 322185431219048, f 17 3401494241593989, f 17 3591145593663111, f 17 3791365044749926,
  f 17 4002740708654553, f 17 4225892786236495, f 17 4461475725196956, f 17 4710180836172616,
  f 17 4972736413272682, f 17 5249911846804612, f 17 5542518083981922, f 17 5851410989409332,
  f 18 61774929112103846, f 17 6521715921956438, f 17 6885083667250352, f 16 726865433933452,
  f 16 767354331615474, f 17 8100926535186193, f 17 8552042837972837, f 17 9028196832968953,
  f 16 953076374019904, f 17 10061189821189462, f 16 1062099867101731, f 17 11211792819364064,
  f 17 11835256119516711, f 16 1249316057573043, f 17 13187366092234143, f 15 139198254109739,
  f 16 1469258749551233, f 17 15507798200300904, f 17 16367705578497016, f 15 172746611629964,
  f 17 18231116233544123, f 16 1923963445281602, f 17 20302878740600072, f 17 21423617677876627,
  f 16 2260471974243988, f 16 2384914801250561, f 17 25159956292603325, f 15 265402744025974,
  f 16 2799329980257175, f 17 29522275488191396, f 17 31130464548783876, f 17 32821133668967234,
  f 16 3459750148783307, f 17 36462699164520507, f 16 3841971108674614, f 16 4047130659498595,
  f 17 42619949244632105, f 16 4486769221578622, f 16 4721604952415586, f 15 496658380915532,
  f 16 5221699695851505, f 16 5486835297331735, f 16 5761736540989402, f 16 6045980491023282,
  f 16 6338940176111476, f 16 6639742182410842, f 16 6947219703548926, f 16 7259860395378855,
  f 16 7575749701134332, f 16 7892511305976819, f 16 8207246067803772, f 16 8516467705170951,
  f 16 8816028334583649, f 16 9100998612317303, f 16 9365408106561902, f 16 9601580714855595,
  f 15 979844843925741, f 16 9938070223366383, f 16 9996916777705552, n 1]

/-- Row 83 of `ksi_sokolov.table`. -/
def ksi83 : List Tok := [
  f 18 6895294816614167, f 18 7279837002089601, f 18 7685823543249394, f 18 8114451662454477,
  f 18 8566983079520479, f 18 9044750402187496, f 17 954916122985932, f 18 10081701195420352,
  f 18 10643938816354734, f 17 1123753048496087, f 18 11864223507253349, f 18 12525863942956985,
  f 18 13224398957331225, f 18 13961889240836517, f 17 1474050276964457, f 18 15562533168445471,
  f 17 1643040206785918, f 18 17346663336148396, f 18 18314015051509137, f 18 19335304244255808,
  f 18 20413537939905805, f 17 2155188865361771, f 18 22753708157709815, f 18 24022531194904828,
  f 18 25362092117474425, f 18 26776330016146634, f 17 2826940697736067, f 18 29845711110346142,
  f 17 3150987950701057, f 17 3326680191830759, f 16 351216417425466, f 18 37079850501285816,
  f 17 3914717519584821, f 18 41329688341257685, f 18 43633794133021875, f 17 4606625158988567,
  f 17 4863419186860687, f 17 5134513973622725, f 18 54207033057075894, f 17 5722824622270655,
  f 18 60417614591198994, f 17 6378445459793088, f 17 6733859140566809, f 17 7109038539287882,
  f 17 7505075886790222, f 17 7923122598277685, f 17 8364391967076532, f 17 8830162560176295,
  f 17 9321781000313685, f 17 9840665530518848, f 17 10388309269123164, f 17 10966283054830085,
  f 17 11576239565172414, f 17 12219916836444349, f 16 1289914003973741, f 17 13615827749529805,
  f 17 14371991598426764, f 17 15169742217565607, f 17 16011290723861935, f 17 16898950313877642,
  f 17 17835140699032245, f 16 1882238269624744, f 16 1986331064495342, f 16 2096065788045295,
  f 17 22117264606787976, f 17 23336068812744895, f 17 24620102185006484, f 16 2597248287533049,
  f 17 27396399781975717, f 17 28895101046098254, f 16 3047187170398093, f 17 32130006184233983,
  f 16 3387277720709769, f 16 3570339356313951, f 16 3762494424040031, f 17 39640336666265624,
  f 16 4175221729859924, f 17 43962871183398594, f 17 46274100312428845, f 16 4868707949249959,
  f 16 5120221173382359, f 15 538188517570295, f 16 5653512618866081, f 16 5934761201297135,
  f 16 6225099606272906, f 15 652376886130252, f 15 682973879628999, f 16 7141658047474085,
  f 16 7457799158811056, f 16 7776006039413836, f 16 8093634265104327, f 16 8407493771982074,
  f 16 8713781053937433, f 16 9007973323304072, f 16 9284588040943466, f 16 9536527295892862,
  f 16 9753253496510964, f 16 9916207773347889, f 16 9994400503515507, n 1]

/-- Row 84 of `ksi_sokolov.table`. -/
def ksi84 : List Tok := [
  f 19 67504956452482095, f 18 7126962660922989, f 18 7524424308667862, f 18 7944051679957575,
  f 18 8387080347287806, f 18 8854815642880596, f 18 9348635146816168, f 17 986999282519655,
  f 18 10420424609800858, f 18 11001552255076527, f 18 11615086747522825, f 17 1226283501929346,
  f 18 12946704805055687, f 18 13668709670346151, f 18 14430976358212997, f 18 15235748966119055,
  f 18 16085398189622194, f 18 16982423692807985, f 18 17929468112360455, f 16 189293191083915,
  f 17 1998492012275282, f 17 2109937809552253, f 18 22275973162104445, f 18 23518167415131873,
  f 17 2482961680216734, f 17 2621417982936771, f 17 2767592920657621, f 17 2921916363415727,
  f 17 3084842107002726, f 17 3256849258943246, f 17 3438443354058203, f 17 3630158067172223,
  f 17 3832556743802404, f 17 4046233150002679, f 18 42718152330926386, f 18 45099644125355796,
  f 17 4761379766261973, f 18 50267981760019315, f 18 53069966410548536, f 18 56027961355495544,
  f 17 5915061997046481, f 17 6244707231424079, f 15 65926942853935, f 17 6960038421271143,
  f 17 7347810374102476, f 17 7757138608943968, f 17 8189212554656272, f 16 864528548836785,
  f 17 9126678636592117, f 17 9634782326592778, f 17 10171061817693665, f 17 10737058534902204,
  f 17 11334395026730708, f 17 11964776945776694, f 17 12629998590465416, f 17 13331943485802725,
  f 17 14072590189777515, f 17 14854014998524448, f 17 15678392177132497, f 17 16548001375161903,
  f 17 17465226114658555, f 17 18432556441960649, f 17 19452584868855388, f 16 2052802108342581,
  f 17 21661671305208516, f 17 22856449257184477, f 17 24115363995390865, f 16 2544151592227728,
  f 17 26838086661454424, f 17 28308322452389284, f 15 298555192933857, f 17 31482996794169255,
  f 17 33194069197673837, f 17 34992006459679964, f 16 3687998656908563, f 16 3886103477148866,
  f 17 40937951392828326, f 17 43113219626299154, f 17 45388898102230374, f 16 4776647977297474,
  f 16 5024673778824708, f 16 5282952850332623, f 16 5551355689148267, f 16 5829610691988109,
  f 16 6117272488521469, f 16 6413684422000192, f 16 6717937924677843, f 16 7028825937229594,
  f 16 7344792817927361, f 16 7663882805582038, f 16 7983687255424522, f 16 8301294444680579,
  f 16 8613230973841364, f 16 8915376890548745, f 16 9202760046874395, f 16 9468951875733292,
  f 16 9704238396938454, f 16 9890333669957398, f 16 9990521600900867, n 1]

/-- Row 85 of `ksi_sokolov.table`. -/
def ksi85 : List Tok := [
  f 18 6615426799396931, f 19 69843617666432815, f 18 7373870874384377, f 18 7785102210138779,
  f 18 8219267224345524, f 18 8677644091086211, f 16 91615840623364, f 18 9672511072943172,
  f 18 10211930511858022, f 17 1078143134054213, f 18 11382691405313217, f 18 12017481241154433,
  f 18 12687669713407469, f 18 13395231108306324, f 18 14142248879790221, f 17 1493092335248442,
  f 18 15763575541206835, f 18 16642658810788743, f 18 17570760312970096, f 18 18550613418370714,
  f 17 1958510221082106, f 18 20677270895644938, f 18 21830336848301015, f 18 23047690675672125,
  f 17 2433291793034625, f 18 25689796887454167, f 18 27122321961838832, f 17 2863470729026659,
  f 18 30231398895418322, f 18 31917093403613844, f 17 3369674592173613, f 17 3557558837059099,
  f 16 375591392238327, f 17 3965322742419144, f 17 4186400027234828, f 17 4419794912754817,
  f 17 4666192020130281, f 17 4926314215320309, f 18 52009236470912074, f 18 54908248103712275,
  f 17 5796866451988992, f 18 61199449542737275, f 16 646100102894992, f 17 6821034122905234,
  f 16 720109282179426, f 17 7602284691581737, f 17 8025776553612882, f 17 8472799013267827,
  f 16 894464773992107, f 17 9442688469186396, f 17 9968359211196277, f 17 10523174263547502,
  f 17 11108727423944821, f 17 11726694743534387, f 17 12378838932966663, f 17 13067013948553613,
  f 17 13793164598461236, f 16 1455933444430281, f 17 15367664959693653, f 16 1622040169320648,
  f 16 1711989368756505, f 17 18068597786161986, f 16 1906907761301701, f 16 2012400852402386,
  f 17 21236163951036174, f 17 22408435551608313, f 17 23643808958649268, f 17 24945365727436922,
  f 17 26316276961777774, f 17 27759777724768886, f 15 292791768836512, f 17 30877808827946823,
  f 17 32559019538324213, f 17 34326129793086313, f 16 3618239025769461, f 17 38130926121412645,
  f 16 4017466998201526, f 17 42316274750962246, f 16 4455801864038041, f 15 469016700562746,
  f 16 4934834426912959, f 16 5189831446384442, f 16 5455080805404916, f 15 573037340817028,
  f 16 6015339519698778, f 16 6309414375125761, f 16 6611798152683829, f 16 6921413850140161,
  f 16 7236860359966073, f 16 7556364664473519, f 16 7877734722728242, f 15 819831569316616,
  f 15 851494606633671, f 16 8823894850410655, f 16 9120699200063034, f 16 9399645739008254,
  f 16 9652039881885383, f 16 9860597122798801, f 16 9984902468198696, n 1]

/-- Row 86 of `ksi_sokolov.table`. -/
def ksi86 : List Tok := [
  f 16 64895164936281, f 18 6851429079422371, f 18 7233525201185408, f 18 7636930229690073,
  f 18 8062832069571814, f 18 8512485265767637, f 18 8987214868831656, f 18 9488417885142176,
  f 17 1001757202740672, f 18 10576235720075083, f 18 11166052470616894, f 18 11788763109132534,
  f 17 1244619722834742, f 18 13140294189600535, f 18 13873096713484846, f 18 14646764267236928,
  f 18 15463572909294803, f 18 16325928413028695, f 18 17236371270870892, f 18 18197581711559194,
  f 18 19212388680565826, f 17 2028378016860773, f 18 21414911538383558, f 17 2260910822005874,
  f 18 23869888126458516, f 18 25200960636707022, f 18 26606241639109567, f 17 2808986696788221,
  f 18 29656198917718254, f 17 3130984664459699, f 17 3305566688846602, f 16 348987983199009,
  f 17 3684465357695315, f 17 3889895221015988, f 18 41067729148794016, f 17 4335734933139562,
  f 17 4577453450553179, f 17 4832637689036173, f 17 5102036007433862, f 17 5386437509635959,
  f 18 56866756953835994, f 16 600362885747929, f 17 6338224467089935, f 17 6691439534412662,
  f 17 7064305557294911, f 17 7457909681476503, f 17 7873397968064874, f 17 8311978906629777,
  f 17 8774925420677815, f 17 9263579571926271, f 17 9779354112111566, f 17 10323737125272611,
  f 17 10898296058753103, f 17 11504678984051867, f 17 12144620066233482, f 17 12819942158161102,
  f 17 13532561366609705, f 17 14284488425919342, f 17 15077834669486562, f 17 15914812098328857,
  f 17 16797738696102377, f 17 17729038401298758, f 17 18711244160952434, f 17 19746998803846555,
  f 16 2083905159202599, f 16 2199026365128309, f 16 2320359621002358, f 17 24482114219639245,
  f 17 25828970916479094, f 17 27247399520460974, f 16 2874070443293539, f 17 30312233462104216,
  f 15 319653571931389, f 17 33703435495878864, f 17 35529780542701456, f 16 3744760048653642,
  f 16 3945993989266897, f 16 4156960219614059, f 17 43779050849809753, f 17 46090296405935227,
  f 16 4850475052580514, f 16 5102306132595043, f 16 5364490475255086, f 16 5636874863505056,
  f 15 591915730553064, f 16 6210853585483339, f 15 651126232850332, f 16 6819422552470079,
  f 16 7134072530358869, f 16 7453604626016448, f 16 7776023334644523, f 16 8098913302855071,
  f 16 8419399589992173, f 16 8734119178626728, f 16 9039104341064992, f 16 9329364585716048,
  f 16 9597337161639459, f 16 9827292701809455, f 16 9977203383878275, n 1]

/-- Row 87 of `ksi_sokolov.table`. -/
def ksi87 : List Tok := [
  f 18 6372218348514886, f 18 6727590273561684, f 18 7102780435057141, f 18 7498894049786854,
  f 18 7917098304657635, f 18 8358624513656454, f 18 8824774006575732, f 18 9316919273105623,
  f 18 9836509268664253, f 18 10385075969976131, f 18 10964234389830869, f 18 11575689277599202,
  f 18 12221242701405323, f 18 12902796190859616, f 18 13622356077382238, f 18 14382042340424664,
  f 18 15184090812395528, f 18 16030864587103223, f 18 16924855605736974, f 17 1786869846510873,
  f 18 18865170041831587, f 17 1991720478191531, f 18 21027899664300093, f 18 22200524361851885,
  f 18 23438528808598477, f 18 24745558408168073, f 18 26125458309567327, f 17 2758228933131315,
  f 18 29120337014487952, f 17 3074412499684476, f 17 3245842862568053, f 18 34268288258078344,
  f 17 3617902513808939, f 17 3819625325066166, f 18 40325897942821494, f 17 4257421960322632,
  f 17 4494781387529458, f 17 4745365006336063, f 18 50099073696373335, f 18 52891846916584974,
  f 17 5584015157909662, f 18 58952618839397085, f 17 6223835830675105, f 16 657069788261114,
  f 17 6936860947874605, f 17 7323393792748403, f 17 7731422829588035, f 17 8162136042764605,
  f 16 861678503415291, f 17 9096689325911685, f 17 9603238230878496, f 17 10137896678964353,
  f 17 10702205475974158, f 17 11297786324867466, f 17 11926347307584849, f 17 12589682606327854,
  f 17 13289679716194175, f 17 14028320615457737, f 17 14807684876574295, f 17 15629955858598069,
  f 17 16497419644752367, f 16 1741247231434207, f 17 18377609388455088, f 17 19395450750900933,
  f 15 204687169742242, f 17 21600240472993454, f 17 22792960350877564, f 17 24049919153429972,
  f 17 25374256439229526, f 16 2676919533055944, f 17 28238035665295613, f 16 2978413302878482,
  f 16 3141087561358027, f 13 3312165663287, f 16 3491983499456581, f 15 368086914954785,
  f 16 3879136569043818, f 17 40870787093326455, f 17 43049583583100953, f 17 45329973612534563,
  f 15 477136314039399, f 16 5020152968205378, f 16 5279374718611473, f 16 5548924160825943,
  f 16 5828558938071821, f 16 6117867147942405, f 16 6416235812142056, f 16 6722807063101112,
  f 16 7036444621876965, f 16 7355690282385738, f 15 767872833636239, f 16 8003357033872593,
  f 16 8326970716686283, f 16 8646546433354761, f 16 8958583079732436, f 16 9258802940615186,
  f 16 9540814956884164, f 16 9790825283395757, f 16 9967151292985051, n 1]

/-- Row 88 of `ksi_sokolov.table`. -/
def ksi88 : List Tok := [
  f 18 6263017395979465, f 18 6612299422709183, f 19 69810601041015745, f 18 7370385780407317,
  f 18 7781423766334273, f 18 8215384302243854, f 18 8673545324392268, f 18 9157256748173722,
  f 18 9667944186087298, f 18 10207111049361147, f 18 10776344956479793, f 18 11377323913767933,
  f 18 12011814984429787, f 18 12681690036553755, f 18 13388922386662356, f 18 14135592011284072,
  f 18 14923899084417323, f 18 15756165241220352, f 16 166348412446596, f 17 1756251347424075,
  f 16 185419157834757, f 18 19575929369904668, f 18 20667598611228598, f 18 21820137643726797,
  f 18 23036939742745143, f 18 24321585114800544, f 18 25677855398276283, f 18 27109741683369395,
  f 18 28621454384339082, f 17 3021744658205372, f 18 31902402312666264, f 18 33681286186677026,
  f 17 3555932388524188, f 18 37542036458008195, f 17 3963525196162021, f 17 4184511704126028,
  f 17 4417812431697313, f 17 4664112030533493, f 18 49241334610680164, f 18 51986391592632374,
  f 17 5488434101699626, f 18 57943672739741436, f 17 6117333856540133, f 17 6458279517676233,
  f 17 6818200359522696, f 17 7198147789522258, f 17 7599229948259623, f 17 8022615233770532,
  f 17 8469535871982226, f 17 8941290062121353, f 17 9439245564943266, f 17 9964843838267336,
  f 17 10519602190483608, f 17 11105118978361211, f 17 11723075426934948, f 17 12375240129138643,
  f 17 13063473183516253, f 17 13789727829244597, f 17 14556057144598963, f 17 15364617758656932,
  f 14 16217656350764, f 17 17117548209118463, f 17 18066766070566098, f 16 1906788609929723,
  f 17 20123611822943308, f 17 21236746977004486, f 17 22410207440740793, f 16 2364701499287173,
  f 17 24950290494446556, f 16 2632324797006869, f 17 27769180452468506, f 15 292914450662359,
  f 16 3089344429727355, f 16 3257859549332714, f 16 3435029868197179, f 17 36211891166381877,
  f 17 38166596069257136, f 16 4021745097912532, f 17 42367225379390794, f 17 44618318612731245,
  f 16 4697263603616734, f 17 49431435630727066, f 16 5199514911317129, f 16 5466317127770166,
  f 16 5743360841001593, f 16 6030298556177524, f 16 6326594006356361, f 16 6631484699590009,
  f 16 6943945535758416, f 16 7262653174465159, f 16 7585953485614653, f 16 7911841204960287,
  f 16 8237953388024365, f 15 856158180844366, f 16 8879662567966622, f 16 9188584664049328,
  f 16 9483133194453314, f 16 9751675564617003, f 15 995456771978616, n 1]

/-- Row 89 of `ksi_sokolov.table`. -/
def ksi89 : List Tok := [
  f 18 6161424261205367, f 19 65050404275770295, f 18 6867819520751343, f 18 7250830662001668,
  f 18 7655201604994464, f 18 8082122525681072, f 18 8532852200838761, f 18 9008718428124495,
  f 18 9511122121036017, f 17 1004154401102745, f 18 10601545481463283, f 16 111927760693593,
  f 18 11816977365476185, f 18 12475988803153691, f 18 13171749840686644, f 18 13906310552388192,
  f 18 14681833550473426, f 18 15500602399952119, f 17 1636502916411871, f 18 17277659961416836,
  f 18 18241178934075584, f 18 19258427275317753, f 18 20332395834822325, f 17 2146624866885094,
  f 18 22663324046727645, f 17 2392714405547975, f 18 25261429003878243, f 17 2667010679232503,
  f 18 28157320106104975, f 18 29727446658859905, f 18 31385100516806076, f 17 3313516335824508,
  f 18 34982779950378115, f 17 3693337892066282, f 18 38992696510060765, f 18 41166783149558635,
  f 18 43462025485551614, f 16 458851620196141, f 17 4844330858613877, f 17 5114396930544563,
  f 17 5399505949289619, f 16 570049467527293, f 17 6018243655152092, f 17 6353683782191329,
  f 17 6707795710342938, f 16 708161438934406, f 17 7476231114983126, f 17 7892796651499899,
  f 17 8332524081348726, f 17 8796692052134616, f 16 928664812982867, f 17 9803812710599306,
  f 17 10349680631644026, f 17 10925826796609388, f 17 11533908949266838, f 17 12175671235694444,
  f 17 12852947757004501, f 17 13567666374083115, f 17 14321852435199892, f 17 15117632149218072,
  f 16 1595723491895915, f 16 1684299825696785, f 17 17777367684170386, f 16 1876289993753456,
  f 17 19802264539888675, f 17 20898243613057138, f 17 22053725783000497, f 17 23271715332053447,
  f 17 24555315381198756, f 17 25907725925179154, f 16 2733223242976429, f 15 288321920504578,
  f 16 3041101461824687, f 16 3207213618864667, f 17 33818990912117153, f 16 3565496592197173,
  f 16 3758334718552459, f 16 3960727222911912, f 16 4172963106037214, f 16 4395298194234582,
  f 17 46279429363623614, f 16 4871048293343281, f 16 5124688968648811, f 16 5388842535311075,
  f 16 5663366788723282, f 16 5947971905699608, f 16 6242190625389992, f 16 6545344108838754,
  f 16 6856508427906076, f 16 7174480556822882, f 16 7497752473706708, f 16 7824495838480077,
  f 15 815256909659938, f 16 8479549643156802, f 16 8802773952634773, f 15 911925740598268,
  f 16 9424913594693102, f 16 9710371502464124, f 16 9939386601145388, n 1]

/-- Row 90 of `ksi_sokolov.table`. -/
def ksi90 : List Tok := [
  f 19 60669719469372265, f 18 6405321116841391, f 19 67625391537265165, f 17 713967869532483,
  f 18 7537850910423592, f 18 7958228696488047, f 18 8402049052347918, f 18 8870621190522692,
  f 18 9365323422442548, f 18 9887614646123897, f 18 10439032916464624, f 18 11021201584876003,
  f 18 11635835460399145, f 18 12284745822563146, f 17 1296984297238221, f 18 13693145101276541,
  f 18 14456782481631533, f 17 1526300326535249, f 18 16114181064712487, f 18 17012826466342813,
  f 18 17961580530422294, f 18 18963239693694848, f 18 20020753636204418, f 18 21137233708562592,
  f 18 22315968629084172, f 17 2356042577502128, f 17 2487427091769149, f 17 2626136870431205,
  f 18 27725803303963115, f 18 29271882695710957, f 18 30904154847257823, f 17 3262742041782831,
  f 18 34446750284449844, f 17 3636749116671121, f 17 3839529316214872, f 17 4053611494718106,
  f 18 42796240445127025, f 18 45182316301334555, f 17 4770134471212528, f 17 5036072082954739,
  f 17 5316824515449546, f 18 56132153616690744, f 17 5926112304790382, f 17 6256432521022275,
  f 17 6605142494448138, f 17 6973261724763674, f 17 7361865748182934, f 16 777208831153107,
  f 16 820512561213104, f 17 8662237668994414, f 17 9144752973359951, f 17 9654071941484196,
  f 17 10191669032199813, f 16 1075909725919567, f 17 11357992350347779, f 17 11990074848884771,
  f 17 12657155127169936, f 17 13361136946550659, f 16 1410401947344102, f 17 14887903886859438,
  f 16 1571499362241789, f 16 1658759911207316, f 17 17508139710534276, f 17 18479146221507187,
  f 17 19503263247578684, f 17 20583246264644697, f 17 21721967315153895, f 17 22922401444025675,
  f 17 24187639351126572, f 16 2552086455609026, f 16 2692535440113685, f 17 28404462465753844,
  f 17 29961602419086075, f 16 3160022687576218, f 16 3332379307040206, f 16 3513572907855837,
  f 15 370393846239514, f 17 39037970356927154, f 17 41134485514672114, f 17 43331626023621583,
  f 16 4563167116376304, f 17 48036353654293273, f 16 5054669443539189, f 16 5316281291752708,
  f 16 5588370322121722, f 15 587069780064324, f 16 6162857938005001, f 16 6464247288921016,
  f 15 677403161071631, f 16 7091117083898901, f 16 7414126155025057, f 16 7741390614056921,
  f 16 8070968193634984, f 16 8400695213202145, f 16 8728271490501217, f 16 9051287936578531,
  f 16 9366717434869659, f 16 9667453514848398, f 16 9921649501867938, n 1]

/-- Row 91 of `ksi_sokolov.table`. -/
def ksi91 : List Tok := [
  f 17 597922096335145, f 17 631267628132673, f 18 6664727849395092, f 18 7036412476684324,
  f 19 74288260842356275, f 18 7843123479188243, f 18 8280525696820282, f 18 8742320109598068,
  f 18 9229868459224312, f 17 974460597585301, f 18 10288049186771297, f 18 10861798355248817,
  f 18 11467544593407515, f 18 12107069686739786, f 18 12782258757444603, f 18 13495101411961587,
  f 18 14247696257832575, f 18 15042258830953364, f 18 15881130367464545, f 18 16766780096565098,
  f 18 17701816833698356, f 18 18688993020689604, f 18 19731217372752814, f 18 20831556498345984,
  f 17 2199325112267436, f 17 2321971961769202, f 18 24514574265724356, f 17 2588162459619605,
  f 17 2732489458192699, f 18 28848631681740056, f 18 30457319002122344, f 18 32155689536702295,
  f 17 3394873688579424, f 17 3584173660023925, f 17 3784025360834211, f 18 39950163182168714,
  f 18 42177665145882365, f 18 44529304307715005, f 18 47011989387891945, f 17 4963300379813358,
  f 16 524000452158134, f 18 55321224059549326, f 17 5840511176776662, f 17 6166074046426553,
  f 17 6509763763894462, f 17 6872586330927824, f 17 7255602320465218, f 17 7659930334892623,
  f 17 8086749740797353, f 17 8537303466030999, f 17 9012902894333079, f 17 9514929328808147,
  f 17 10044837748022971, f 17 10604161531919361, f 17 11194514926717836, f 16 1181759736182547,
  f 17 12475196085855035, f 16 1316919238205451, f 16 1390156189219529, f 17 14674380495877515,
  f 17 15489828531940666, f 17 16350190316269592, f 15 172578607383685, f 17 18215345920854803,
  f 17 19225265563157365, f 17 20290352547371956, f 17 21413454697452097, f 17 22597532107263227,
  f 16 2384564759686597, f 16 2516097959346707, f 17 26546789100750084, f 16 2800642747736723,
  f 16 2954331002008495, f 16 3116089716500899, f 16 3286266881100126, f 17 34652085941224897,
  f 17 36532548102716544, f 15 385073339678182, f 16 4057953530961316, f 17 42751967210717406,
  f 16 4502706499585838, f 17 47406754013452884, f 16 4989229949396844, f 16 5248412298937076,
  f 16 5518159145630959, f 16 5798276923720181, f 16 6088415274389392, f 16 6388037393557623,
  f 16 6696390027188777, f 16 7012476297742983, f 16 7335037211961702, f 16 7662547660006715,
  f 16 7993244756871741, f 16 8325197765277672, f 16 8656434755122936, f 16 8985066414861202,
  f 16 9309045279339934, f 16 9623450910707144, f 16 9901501207931408, n 1]

/-- Row 92 of `ksi_sokolov.table`. -/
def ksi92 : List Tok := [
  f 18 5897751351426226, f 17 622666378285608, f 18 6573918907882068, f 18 6940539762945922,
  f 18 7327606168988884, f 18 7736258995941949, f 18 8167701520507905, f 18 8623204623759628,
  f 18 9104110071872324, f 18 9611834909183912, f 17 1014787411652014, f 18 10713806799718286,
  f 18 11311300307124518, f 18 11942113589838578, f 18 12608104468957411, f 18 13311235272017753,
  f 18 14053577589100825, f 17 1483731740388248, f 18 15664761603402282, f 18 16538348067061906,
  f 18 17460648302824698, f 18 18434379737399288, f 17 1946240761788213, f 18 20547761210539067,
  f 17 2169363464454214, f 17 2290340251613204, f 18 24180625577431888, f 18 25529061819975808,
  f 18 26952683780080533, f 18 28455675874718575, f 17 3004246611237616, f 16 317177206228769,
  f 17 3348636774290729, f 18 35353609239389475, f 17 3732493763977263, f 17 3940614703546642,
  f 16 416033579142059, f 17 4392302225051866, f 17 4637195754281279, f 17 4895735481565558,
  f 15 51686803827788, f 17 5456831396278006, f 17 5761033417883774, f 18 60821783077104244,
  f 17 6421206673720792, f 16 677911068151406, f 17 7156937301689642, f 17 7555792268465476,
  f 16 797683524824083, f 17 8421298466458713, f 17 8890474076929038, f 17 9385726566702672,
  f 17 9908493177727375, f 17 10460288332474688, f 17 11042706544487732, f 17 11657426799397261,
  f 17 12306215906927662, f 17 12990933040968944, f 17 13713532165269043, f 17 14476066042250577,
  f 16 1528069093531485, f 17 16129669641527944, f 16 1702537189008772, f 16 1797028111954614,
  f 17 18966993302730378, f 16 2001821938438881, f 16 2112678414475264, f 17 22295627943680082,
  f 16 2352780068514617, f 17 24826460826380842, f 16 2619485509780668, f 17 27636333976899746,
  f 16 2915431090628776, f 17 30752252256255436, f 16 3243365752383015, f 17 34202006053366096,
  f 17 36060746864330223, f 17 38013216451840154, f 17 40062585760350744, f 17 42211773100583716,
  f 17 44463350177632155, f 14 46819413926542, f 17 49281444874017305, f 16 5185013209182359,
  f 16 5452517213860042, f 16 5730503549710668, f 16 6018671176823939, f 16 6316542546385127,
  f 16 6623437267870597, f 16 6938445641111008, f 16 7260413866151367, f 16 7587946855485982,
  f 16 7919441623686395, f 15 825317701915431, f 16 8587473799735408, f 16 8920911011459463,
  f 16 9252328772463811, f 16 9578870527991493, f 16 9879171456884523, n 1]

/-- Row 93 of `ksi_sokolov.table`. -/
def ksi93 : List Tok := [
  f 18 5822167583708147, f 18 6146864539165002, f 18 6489669312474765, f 18 6851592067566512,
  f 19 72336982309659376, f 18 7637114232860367, f 18 8063027633355962, f 18 8512693753650309,
  f 18 8987436580594766, f 18 9488655128207605, f 18 10017825388528849, f 17 1057650577961722,
  f 18 11166342773219706, f 18 11789072566031254, f 18 12446530083583816, f 18 13140651983327168,
  f 18 13873481907508317, f 18 14647180103341753, f 18 15464022328971873, f 16 163264156388152,
  f 17 1723689978523201, f 18 18198157032403992, f 18 19213015653356362, f 18 20284465294724132,
  f 18 21415661842358616, f 17 2260993281799168, f 18 23870797438266575, f 18 25201964714557795,
  f 17 2660735567133049, f 17 2809110298238621, f 18 29657576341131156, f 17 3131138397139685,
  f 17 3305739123945331, f 17 3490073495888523, f 17 3684683552981613, f 18 38901418251344876,
  f 17 4107052051763135, f 17 4336051851407621, f 18 45778141377959554, f 18 48330489404677955,
  f 18 51025058307133324, f 18 53869755054344784, f 17 5687292857259413, f 17 6004338201367139,
  f 17 6339040694099293, f 17 6692380737875998, f 17 7065391724707705, f 17 7459164686649233,
  f 17 7874849937970485, f 17 8313660019682051, f 17 8776873752063717, f 17 9265839209719862,
  f 17 9781976368022209, f 17 10326783119983346, f 17 10901834742680393, f 17 11508792011286997,
  f 17 12149401585540612, f 16 1282550251141059, f 17 13539028003316594, f 16 1429200990942226,
  f 17 15086582726158063, f 16 1592498609304493, f 16 1680956914038627, f 17 17742790976078118,
  f 17 18727227471650243, f 17 19765566190524353, f 16 2086061335451868, f 17 22015288318577458,
  f 17 23232623836940205, f 17 24515761369006034, f 17 25867942757035983, f 17 27292503644201244,
  f 17 28792855916883087, f 17 30372472766567904, f 17 32034861534431897, f 16 3378353173722064,
  f 17 35621961631618176, f 17 37553539351213827, f 17 39581502892615633, f 17 41708865031626935,
  f 17 43938314675061874, f 17 46272100272384803, f 16 4871189197818124, f 15 512586177135948,
  f 16 5391226680510205, f 16 5667167105076082, f 16 5953425838251336, f 16 6249578969445239,
  f 16 6555010821784933, f 16 6868889713277744, f 16 7190156965508722, f 16 7517532650199267,
  f 16 7849558689879258, f 16 8184699534221148, f 16 8521538088704044, f 16 8859069947448991,
  f 16 9196931635980963, f 16 9534173774788076, f 16 9854952242799147, n 1]

/-- Row 94 of `ksi_sokolov.table`. -/
def ksi94 : List Tok := [
  f 18 5752093439263162, f 17 607288213818547, f 19 64115615867798405, f 18 6769128313623322,
  f 18 7146635987434729, f 18 7545196951131908, f 18 7965984351039908, f 18 8410238675169728,
  f 18 8879268542918192, f 17 937445437678186, f 18 9897256368399446, f 18 10449213321281701,
  f 18 11031951781907686, f 18 11647188365229585, f 18 12296733662218005, f 18 12982502766720222,
  f 18 13706514438266447, f 18 14470901696978292, f 18 15277915040353331, f 18 16129932605225186,
  f 18 17029461821224487, f 18 17979152758913125, f 18 18981801717520518, f 18 20040361013029712,
  f 17 2115794815033972, f 17 2233785471746869, f 17 2358355185874104, f 17 2489870846876621,
  f 17 2628719598909294, f 18 27753100987200057, f 17 2930073817151491, f 17 3093466108367582,
  f 17 3265967921336902, f 17 3448086438827593, f 17 3640357635460451, f 17 3843346965841418,
  f 17 4057651211997989, f 17 4283900172388953, f 17 4522759218075039, f 17 4774929872728763,
  f 17 5041152261194917, f 17 5322209001960478, f 16 561892397537104, f 17 5932168271901298,
  f 17 6262859499852427, f 17 6611966975831023, f 17 6980512606105445, f 16 736957445592634,
  f 17 7780289470520783, f 17 8213857027448604, f 17 8671541569971938, f 17 9154675773380011,
  f 17 9664664535173831, f 17 10202988289762797, f 16 1077120659806084, f 17 11370962077637375,
  f 17 12003983420632032, f 17 12672090125752353, f 16 1337719622622645, f 17 14121314107888822,
  f 15 149065567104639, f 16 1573514412539548, f 17 16609403597152206, f 16 1753177443689132,
  f 17 18504810260666668, f 17 19531179201159993, f 17 20613666527828234, f 17 21755177289931749,
  f 13 2295871704712, f 17 24227421696473678, f 16 2556451880207047, f 16 2697333469282226,
  f 17 28457276248588614, f 16 3001981939503945, f 16 3166448135569478, f 17 33394790824980686,
  f 16 3521425290894947, f 16 3712630027586252, f 17 39134231036628414, f 16 4124113730920744,
  f 16 4344981100544844, f 16 4576263481581692, f 16 4818147902956406, f 16 5070738953938199,
  f 16 5334070837718006, f 16 5608056007299139, f 16 5892476457892313, f 16 6186956292352167,
  f 16 6490937304636993, f 16 6803658177706156, f 16 7124145354919886, f 16 7451222599466502,
  f 15 778356020656083, f 16 8119790360589505, f 16 8458726688184245, f 16 8799732289904751,
  f 16 9143153617258348, f 15 948977422615893, f 16 9829177937581361, n 1]

/-- Row 95 of `ksi_sokolov.table`. -/
def ksi95 : List Tok := [
  f 18 5687171332905782, f 17 600433995586548, f 18 6339196478152615, f 18 6692727706531075,
  f 19 70659770433542214, f 18 7460037386912903, f 17 787607587121522, f 18 8315316330696229,
  f 18 8779052507000456, f 17 926865009568385, f 18 9785551993830808, f 18 10331280245986755,
  f 17 1090744185854908, f 18 11515734719422955, f 18 12157950746604048, f 16 128359808699874,
  f 18 13551822636777006, f 18 14307584530410198, f 17 1510549047091749, f 18 15947893447046984,
  f 18 16837274423793323, f 18 17776249925223878, f 16 187675860360806, f 18 19814203360847507,
  f 18 20919183380862016, f 18 22085778418265343, f 18 23317424206093375, f 17 2461774663164151,
  f 17 2599057453340232, f 18 27439947251672717, f 18 28970133454873787, f 17 3058563203989739,
  f 18 32291201722164445, f 18 34091860185556516, f 17 3599290014096564, f 17 3799992107441185,
  f 17 4011881450163177, f 18 42355818533068336, f 18 44717507042596895, f 17 4721081854693457,
  f 17 4984307926379031, f 17 5262201846327846, f 17 5555579246634947, f 17 5865301022942373,
  f 17 6192275534517877, f 17 6537460812232546, f 17 6901868248637091, f 17 7286564211560666,
  f 16 769267339163976, f 17 8121382574627659, f 17 8573942455962444, f 17 9051672252744475,
  f 17 9555962205333209, f 17 10088277296800684, f 16 1065016147393723, f 16 1124324086817679,
  f 16 1186922710220263, f 17 12529921972021768, f 17 13227221869557784, f 17 13963119669177543,
  f 17 14739710290129857, f 17 15559193398773916, f 16 1642387709282024, f 17 17336179717813688,
  f 17 18298636301790613, f 17 19313900493105565, f 17 20384724337155619, f 16 2151400562270656,
  f 17 22704742337723705, f 17 23960035055707532, f 16 2528311237122902, f 16 2667728764943566,
  f 16 2814596546824232, f 17 29692619802177067, f 16 3132077390515162, f 16 3303397372920512,
  f 16 3483574671281127, f 16 3672956208043397, f 16 3871877150510571, f 16 4080653596871909,
  f 16 4299573896787776, f 17 45288880548850835, f 16 4768795035234019, f 16 5019427354114914,
  f 16 5280833276852182, f 16 5552956862606159, f 16 5835615517541833, f 15 612847609946784,
  f 16 6431032115084494, f 16 6742585587148853, f 16 7062238739703098, f 16 7388907637650542,
  f 16 7721378772565751, f 16 8058431990700324, f 16 8399086115608069, f 15 874302879302877,
  f 16 9091230321452249, f 16 9446029319765734, f 16 9802199685450496, n 1]

/-- Row 96 of `ksi_sokolov.table`. -/
def ksi96 : List Tok := [
  f 18 5627066047994995, f 18 5940882930053856, f 18 6272200604504842, f 17 662199568958874,
  f 18 6991297832921412, f 18 7381196227565063, f 19 77928381914908395, f 18 8227436661134372,
  f 18 8686271899788626, f 18 9170696371398055, f 18 9682135792117678, f 18 10222096396168527,
  f 18 10792169733743855, f 18 11394034813191506, f 18 12029463882098426, f 18 12700329624407584,
  f 18 13408607432830887, f 18 14156382911723985, f 18 14945859586763968, f 16 157793615472302,
  f 18 16659344937159627, f 17 1758840097954854, f 18 18569263861926876, f 17 1960482409462577,
  f 18 20698130860166437, f 18 21852403121977382, f 16 230710388779853, f 18 24357629732324488,
  f 17 2571595703447872, f 17 2715002412277261, f 18 28664051131525835, f 18 30262494819931998,
  f 17 3195005883880314, f 17 3373170767228582, f 18 35612685305049095, f 17 3759852418519341,
  f 17 3969506387237747, f 18 41908471223103524, f 17 4424525259403066, f 17 4671227626286206,
  f 17 4931679000922768, f 17 5206644429001266, f 18 54969312692674785, f 18 58033916991594395,
  f 18 61269245423807135, f 17 6468478405686635, f 17 6829053506980531, f 17 7209706719407714,
  f 17 7611550861210253, f 17 8035760784078123, f 17 8483575040951095, f 17 8956299642680231,
  f 17 9455311501264423, f 17 9982061571188636, f 17 10538078743806419, f 17 11124974036864899,
  f 17 11744443151721867, f 17 12398272204485615, f 17 13088339447438008, f 17 13816620542401373,
  f 16 1458519328482686, f 17 15396238630731537, f 16 1625204609725174, f 17 17155016953849467,
  f 17 18107665797645622, f 16 1911262320401322, f 17 20172638254313002, f 17 21290578468495433,
  f 16 2246942414885022, f 17 23712275032978722, f 17 25022335249441136, f 15 264029150568353,
  f 16 2785740780030864, f 17 29389290906502846, f 16 3100209108426442, f 16 3269936416953434,
  f 17 34484661618233725, f 17 36361482867776634, f 16 3833322261695506, f 16 4040310365869083,
  f 16 4257409091257373, f 17 44848790923349396, f 17 47229316786824405, f 15 497171677158182,
  f 16 5231303404422288, f 16 5501661115825701, f 16 5782638690640183, f 16 6073941292991615,
  f 16 6375109226826774, f 16 6685500447736202, f 15 700428563498909, f 16 7330464538083434,
  f 16 7662925953591809, f 16 8000581176204143, f 16 8342631453080892, f 16 8689047444078422,
  f 16 9041347622469381, f 16 9403246521817901, f 16 9774374873673486, n 1]

/-- Row 97 of `ksi_sokolov.table`. -/
def ksi97 : List Tok := [
  f 18 5571457410884852, f 18 5882172812148687, f 18 6210216141661348, f 17 655655448937512,
  f 18 6922207817099137, f 18 7308252748863041, f 18 7715826720777556, f 18 8146131010508461,
  f 18 8600432334043886, f 18 9080068996262293, f 18 9586454672718887, f 18 10121080339172528,
  f 18 10685520547905485, f 17 1128143814219008, f 18 11910588717073909, f 18 12574825795448764,
  f 18 13276105761758127, f 18 14016493032329803, f 18 14798169223652869, f 18 15623436416458735,
  f 17 1649472538411295, f 18 17414603158123088, f 18 18385776973336966, f 18 19411107186519536,
  f 18 20493612386458495, f 18 21636484657305673, f 18 22843084390817787, f 17 2411696620072675,
  f 18 25461881475024168, f 17 2688178688842908, f 18 28380865052505148, f 18 29963527239584984,
  f 17 3163443074975536, f 17 3339849473576391, f 18 35260908275390766, f 17 3722715101584205,
  f 17 3930300647256375, f 18 41494580873570074, f 18 43808316167300645, f 17 4625101458043679,
  f 17 4882985590724221, f 17 5155241655479084, f 18 54426687424837465, f 17 5746111391562123,
  f 17 6066459340874202, f 17 6404652491019759, f 16 676168213384669, f 17 7138593890397711,
  f 17 7536491280336427, f 16 795653747256656, f 17 8399959719163436, f 17 8868052100548256,
  f 17 9362179186449797, f 17 9883778243091004, f 17 10434365165288666, f 16 1101553608904975,
  f 16 1162897263331827, f 17 12276445095931443, f 17 12959816425402168, f 17 13681045917244097,
  f 17 14442194494052435, f 17 15245425768553633, f 17 16093012924543904, f 17 16987339177207786,
  f 16 1793090112053409, f 16 1892631427399265, f 17 19976308668491727, f 17 21083735013997254,
  f 17 22251560878072366, f 16 2348286911868194, f 16 2478085504716859, f 16 2614881548839112,
  f 16 2759014526039118, f 17 29108308222838103, f 17 30706841998454715, f 16 3238931027465149,
  f 17 34159279907337536, f 17 36020278894579005, f 16 3797573836359685, f 14 40028937822455,
  f 16 4218290934052558, f 16 4444035127556654, f 17 46803502065859853, f 16 4927400149772439,
  f 16 5185272567463731, f 15 545396026078667, f 16 5733339781832277, f 16 6023150880409619,
  f 16 6322975364048361, f 16 6632222286631002, f 16 6950123037062005, f 16 7275752246594748,
  f 16 7608089886271036, f 16 7946165314648829, f 16 8289338673775387, f 16 8637830104898377,
  f 16 8993631063698956, f 16 9361674026883541, f 16 9746043476277008, n 1]

/-- Row 98 of `ksi_sokolov.table`. -/
def ksi98 : List Tok := [
  f 16 55200433558171, f 19 58278915791989605, f 19 61529083442058196, f 18 6496051081979272,
  f 18 6858329351570395, f 18 7240812341381312, f 18 7644625825826726, f 18 8070959096331078,
  f 17 852106794391425, f 18 8996279154347024, f 18 9497991883965983, f 18 10027684765538626,
  f 18 10586916763581462, f 17 1117733594151206, f 18 11800681762392717, f 18 12458790013666031,
  f 18 13153598999403401, f 18 13887155537595015, f 17 1466162051775686, f 18 15479273836045906,
  f 18 16342523919224607, f 18 17253914900827866, f 18 18216130107880334, f 18 19232002766881053,
  f 17 2030452445257104, f 18 21436853915659006, f 18 22632324794375158, f 18 23894457832980165,
  f 18 25226969840646492, f 17 2663378273856357, f 17 2811903875524224, f 18 29687109085337105,
  f 17 3134260995291735, f 16 330904139350271, f 17 3493566356002839, f 17 3688378723574603,
  f 18 38940518506773665, f 16 411119044007063, f 18 43404329685541525, f 17 4582453861930058,
  f 16 483796404562994, f 18 51077145740222187, f 17 5392497592948877, f 17 5693149545171065,
  f 17 6010553151741959, f 16 634563869744824, f 17 6699389417840908, f 17 7072841235229678,
  f 17 7467088795419403, f 17 7883284804232328, f 17 8322645120812239, f 16 878645356276008,
  f 17 9276062298008834, f 17 9792897906329862, f 17 10338462169078555, f 17 10914338225772566,
  f 17 11522194670554091, f 17 12163786940361504, f 16 1284096352690211, f 17 13555669109244436,
  f 17 14309947680883275, f 17 15105948752588613, f 17 15945927986823513, f 17 16832252566925776,
  f 17 17767384654510185, f 17 18753978899698268, f 17 19794694977003682, f 16 2089238437105919,
  f 16 2205000193650549, f 17 23270616522760348, f 17 24557411503576565, f 16 2591367435941843,
  f 17 27342791815490713, f 16 2884823143552873, f 16 3043352112410339, f 17 32102239262539234,
  f 17 33857964893794734, f 17 35704249960262363, f 16 3764456061345222, f 17 39682218332337177,
  f 16 4182032176085619, f 17 44061647884848765, f 16 4640854157367833, f 17 48862774309697843,
  f 16 5142538772854308, f 16 5409651337363176, f 16 5687517064358792, f 16 5975906475536454,
  f 16 6274438827090193, f 16 6582568302079925, f 15 689958182415906, f 16 7224620284017996,
  f 16 7556746066397529, f 16 7895092053426589, f 16 8239159760360609, f 16 8589385452700626,
  f 16 8948173859885508, f 16 9321512869342646, f 16 9717523032122606, n 1]

/-- Row 99 of `ksi_sokolov.table`. -/
def ksi99 : List Tok := [
  f 18 5472539720644287, f 18 5777738754227076, f 16 60999584181248, f 18 6440147718181738,
  f 18 6799309236170357, f 18 7178500826244111, f 18 7578838812725146, f 18 8001503710332853,
  f 18 8447740028062131, f 18 8918861815582952, f 17 941625729696797, f 18 9941391721235598,
  f 18 10495812178990057, f 17 1108115100674833, f 18 11699132794496643, f 18 12351578633846382,
  f 18 13040409565839524, f 18 13767654751038362, f 18 14535456047173722, f 18 15346075815522523,
  f 18 16201898576260233, f 17 1710544801400454, f 18 18059385114595688, f 18 19066518352916395,
  f 18 20129814866800502, f 17 2125240388484224, f 17 2243759224338407, f 18 23688873425618148,
  f 18 25009922939374613, f 17 2640463840015564, f 18 27877122101477324, f 18 29431712074777964,
  f 18 31072981019541306, f 16 328057598115625, f 17 3463515041635909, f 18 36566532552040634,
  f 17 3860559225693827, f 18 40758324545807155, f 18 43031062079841656, f 17 4543048705975524,
  f 17 4796365507112654, f 17 5063801167911872, f 18 53461407264978514, f 18 56442141067802036,
  f 18 59588961243382005, f 17 6291110319739028, f 17 6641831158109279, f 17 7012086320508289,
  f 17 7402960790257576, f 17 7815597833326682, f 17 8251205069960268, f 17 8711054265720433,
  f 17 9196487723004511, f 17 9708921563653018, f 16 1024984166331162, f 17 10820824031029197,
  f 17 11423521830141642, f 17 12059678398455947, f 16 1273112808097145, f 17 13439801546315688,
  f 16 1418772882592431, f 17 14977043919949348, f 16 1580998743952018, f 17 16688912470100123,
  f 17 17616283684144327, f 17 18594683893599886, f 17 19626813834957849, f 17 20715493321588915,
  f 16 2186366188211513, f 17 23074376907639213, f 16 2435080866011602, f 16 2569623703841365,
  f 17 27114039327318523, f 17 28607680736579333, f 16 3018069334172485, f 16 3183665908497921,
  f 16 3357916077542714, f 16 3541177830781442, f 17 37338006931323975, f 16 3936120612648693,
  f 16 4148453438799753, f 17 43710830099273995, f 17 46042541301366235, f 16 4848155386202523,
  f 16 5102905814546733, f 16 5368536789794903, f 15 564497292589368, f 16 5932012311725284,
  f 16 6229307958309814, f 16 6536354764417509, f 16 6852488801924461, f 16 7176911286823912,
  f 16 7508757594822207, f 16 7847252955609872, f 16 8192023207291635, f 16 8543693275697272,
  f 16 8905022772705093, f 15 928291670189871, f 16 9689101161551747, n 1]

/-- The rows of `ksi_sokolov.table`. -/
def ksiRows : List (List Tok) := [
  ksi0, ksi1, ksi2, ksi3, ksi4, ksi5, ksi6, ksi7, ksi8, ksi9, ksi10, ksi11, ksi12, ksi13, ksi14, ksi15,
  ksi16, ksi17, ksi18, ksi19, ksi20, ksi21, ksi22, ksi23, ksi24, ksi25, ksi26, ksi27, ksi28, ksi29, ksi30,
  ksi31, ksi32, ksi33, ksi34, ksi35, ksi36, ksi37, ksi38, ksi39, ksi40, ksi41, ksi42, ksi43, ksi44, ksi45,
  ksi46, ksi47, ksi48, ksi49, ksi50, ksi51, ksi52, ksi53, ksi54, ksi55, ksi56, ksi57, ksi58, ksi59, ksi60,
  ksi61, ksi62, ksi63, ksi64, ksi65, ksi66, ksi67, ksi68, ksi69, ksi70, ksi71, ksi72, ksi73, ksi74, ksi75,
  ksi76, ksi77, ksi78, ksi79, ksi80, ksi81, ksi82, ksi83, ksi84, ksi85, ksi86, ksi87, ksi88, ksi89, ksi90,
  ksi91, ksi92, ksi93, ksi94, ksi95, ksi96, ksi97, ksi98, ksi99]

end Shipped
end QED
